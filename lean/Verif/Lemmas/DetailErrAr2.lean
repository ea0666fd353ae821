import Verif.Lemmas.DetailErrDp
import Verif.Spec.DetailEnergyError

/-! # Rounding errors of the residual Helmholtz energy and its temperature derivatives -/

set_option linter.unusedSectionVars false

namespace Aga8.F64

theorem Adds.oneSub {σ : Type} {π : σ → Float} {f : σ → σ} {α m : ℝ} {kt l h : ℕ} {t : Float} (hf : ∀ s, π (f s) = π s - t)
    (T : Ap t α m kt l h) (hh : h ≤ 1000) : Adds π f (-α) m 2 kt l h := by
  refine ⟨T.nonneg, fun s α' m' k' hk hK hm A => ?_⟩
  rw [hf, ← sub_eq_add_neg]
  exact A.sub' (T.weak hk le_rfl le_rfl) (by omega) hm hh

end Aga8.F64

namespace Aga8.Detail

open FOps Tab F64

variable [Libm]

/-- The exponential part of a term of the residual Helmholtz energy. -/
noncomputable def zExp0 (C : Fin 58 → ℝ) (Dr T : ℝ) (n : Fin 58) : ℝ :=
  if 12 ≤ n.1 then C n * Dr ^ aget BN n * T ^ (-Eos.c UN n) * expK (aget KN n) Dr else 0

/-- The coefficients of the linear part, and their sizes. -/
noncomputable def bv (x : Fin 21 → ℝ) (n : Fin 18) : ℝ := Eos.c AN ⟨n.1, by omega⟩ * ∑ i, ∑ j, x i * x j * bTerm n i j
noncomputable def ba (x : Fin 21 → ℝ) (n : Fin 18) : ℝ := |Eos.c AN ⟨n.1, by omega⟩| * ∑ i, ∑ j, x i * x j * bTerm n i j

/-- A term of the residual Helmholtz energy, and of the compression factor, with their sizes. -/
noncomputable def tv (x : Fin 21 → ℝ) (D T : ℝ) (n : Fin 58) : ℝ :=
  zExp0 (Eos.Cstar x) (Eos.Kcubed x * D) T n + zLin (bv x) (Eos.Cstar x) (-1) D (Eos.Kcubed x * D) T n
noncomputable def ta (x : Fin 21 → ℝ) (D T : ℝ) (n : Fin 58) : ℝ :=
  zExp0 (Eos.Cabs x) (Eos.Kcubed x * D) T n + zLin (ba x) (Eos.Cabs x) 1 D (Eos.Kcubed x * D) T n
noncomputable def tvZ (x : Fin 21 → ℝ) (D T : ℝ) (n : Fin 58) : ℝ :=
  zExp (Eos.Cstar x) (-1) (Eos.Kcubed x * D) T n + zLin (bv x) (Eos.Cstar x) (-1) D (Eos.Kcubed x * D) T n
noncomputable def taZ (x : Fin 21 → ℝ) (D T : ℝ) (n : Fin 58) : ℝ :=
  zExp (Eos.Cabs x) 1 (Eos.Kcubed x * D) T n + zLin (ba x) (Eos.Cabs x) 1 D (Eos.Kcubed x * D) T n

theorem ap_sumb {s : Detail Float} {x : Fin 21 → ℝ} {D T : ℝ} (H : Close s x D T) (n : Fin 58) :
    Ap (arTermP s (s.k3 * s.d) (arDknn (s.k3 * s.d)) (arExpn (arDknn (s.k3 * s.d))) n).sumb
      (zLin (bv x) (Eos.Cstar x) (-1) D (Eos.Kcubed x * D) T n) (zLin (ba x) (Eos.Cabs x) 1 D (Eos.Kcubed x * D) T n)
      4085065 934 669 := by
  have A := dred_ap H
  have e3 : (arTermP s (s.k3 * s.d) (arDknn (s.k3 * s.d)) (arExpn (arDknn (s.k3 * s.d))) n).sumb = (if h : n.1 ≤ 17 then
        (if n.1 ≥ 12 then aget s.bs ⟨n.1, by omega⟩ * s.d + -aget s.csn n * (s.k3 * s.d) else aget s.bs ⟨n.1, by omega⟩ * s.d)
          * aget s.tun n else f% 0.0 : Float) := by
    by_cases h12 : 12 ≤ n.1 <;> simp only [arTermP, ge_iff_le, h12, if_true, if_false]
  rw [e3]
  unfold zLin
  by_cases h17 : n.1 ≤ 17
  · simp only [h17, dite_true]
    by_cases h12 : 12 ≤ n.1
    · simp only [ge_iff_le, h12, if_true]
      have := (((H.bs ⟨n.1, by omega⟩).mul H.d).add ((H.csn n h12).neg.mul A)).mul (H.tun n)
      rw [show ∀ C y : ℝ, -1 * C * y = -C * y from fun C y => by ring, one_mul]
      exact this.weak (by norm_num) (by norm_num) (by norm_num)
    · simp only [ge_iff_le, h12, if_false, add_zero]
      have := ((H.bs ⟨n.1, by omega⟩).mul H.d).mul (H.tun n)
      exact this.weak (by norm_num) (by norm_num) (by norm_num)
  · simp only [h17, dite_false]
    exact ap0 _ _ _

/-- `u_n - 1`, and its product with `R`. -/
theorem ap_coeft (n : Fin 58) :
    Ap ((RDETAIL : Float) * (tab UN n - f% 1.0)) (8.31451 * (Eos.c UN n - 1)) (8.31451 * (|Eos.c UN n| + 1)) 5 1 10 ∧
    Ap ((RDETAIL : Float) * (tab UN n - f% 1.0) * tab UN n) (8.31451 * (Eos.c UN n - 1) * Eos.c UN n)
      (8.31451 * (|Eos.c UN n| + 1) * |Eos.c UN n|) 7 2 15 := by
  have U : Ap (tab UN n : Float) (Eos.c UN n) |Eos.c UN n| 0 1 5 := Ap.litEx (chkUN n).1
  have a := apR.mul (U.sub ap1)
  exact ⟨a.weak (by norm_num) (by norm_num) (by norm_num), (a.mul U).weak (by norm_num) (by norm_num) (by norm_num)⟩

variable (hL : LibmAccurate)
include hL

theorem ap_term0 {s : Detail Float} {x : Fin 21 → ℝ} {D T : ℝ} (H : Close s x D T) (n : Fin 58) :
    let c := arTermP s (s.k3 * s.d) (arDknn (s.k3 * s.d)) (arExpn (arDknn (s.k3 * s.d))) n
    Ap (c.sum0 + c.sumb) (tv x D T n) (ta x D T n) 6112838 934 670 := by
  have A := dred_ap H
  intro c
  have hE : Ap c.sum0 (zExp0 (Eos.Cstar x) (Eos.Kcubed x * D) T n) (zExp0 (Eos.Cabs x) (Eos.Kcubed x * D) T n) 6112836 934 669 := by
    unfold zExp0
    by_cases h12 : 12 ≤ n.1
    · have e1 : c.sum0 = aget s.csn n * aget (arDknn (s.k3 * s.d)) (bnI n) * aget s.tun n * aget (arExpn (arDknn (s.k3 * s.d))) (knI n) := by
        simp only [c, arTermP, ge_iff_le, h12, if_true]
      rw [e1]
      have Db := (ap_dknn A (aget BN n) (BN_lt n)).weak (k' := 54315) (l' := 243) (h' := 18)
        (by have := BN_lt n; omega) (by have := BN_lt n; omega) (by have := BN_lt n; omega)
      have := (((H.csn n h12).mul Db).mul (H.tun n)).mul (ap_expn hL A H.dr (aget KN n) (KN_lt n))
      rw [if_pos h12, if_pos h12]
      exact this.weak (by norm_num) (by norm_num) (by norm_num)
    · have e1 : c.sum0 = f% 0.0 := by simp only [c, arTermP, ge_iff_le, h12, if_false]
      rw [if_neg h12, if_neg h12, e1]
      exact ap0 _ _ _
  exact (hE.add (ap_sumb H n)).weak (by norm_num) (by norm_num) (by norm_num)

omit hL in
theorem arAcc_get2 (rt : Float) (c : ArTerm Float) (a : Vector (Vector Float 4) 4) :
    aget2 (arAcc 2 rt c a) 0 0 = aget2 a 0 0 + rt * (c.sum0 + c.sumb) ∧
    aget2 (arAcc 2 rt c a) 1 1 = aget2 a 1 1 - c.coeft1 * (c.sum0 * c.coefd1 + c.sumb) ∧
    aget2 (arAcc 2 rt c a) 1 0 = aget2 a 1 0 - c.coeft1 * (c.sum0 + c.sumb) ∧
    aget2 (arAcc 2 rt c a) 2 0 = aget2 a 2 0 + c.coeft2 * (c.sum0 + c.sumb) := by
  unfold arAcc
  dsimp only
  simp only [show (2 : Int) > 0 by norm_num, if_true]
  refine ⟨?_, ?_, ?_, ?_⟩ <;> simp [aget2_aset2]

omit hL in
/-- The sum over the terms of one entry of `ar`. -/
theorem ar_entry {s : Detail Float} {p q : Fin 4} {v m : Fin 58 → ℝ} {h : ℕ}
    (H : ∀ n, Adds (fun ar : Vector (Vector Float 4) 4 => aget2 ar p q)
      (arAcc 2 (RDETAIL * s.t) (arTermP s (s.k3 * s.d) (arDknn (s.k3 * s.d)) (arExpn (arDknn (s.k3 * s.d))) n)) (v n) (m n)
      2 6112860 940 (h + 6))
    (b : ∀ n, m n ≤ 2 ^ h) : Ap (aget2 (arOf s 2) p q) (∑ n, v n) (∑ n, m n) 6112976 940 (h + 6) := by
  unfold arOf
  dsimp only
  have := (Adds.loop 0 fun n (_ : 0 ≤ n.1) => H n).2 (fill 4 (fill 4 (f% 0.0))) 0 0 6112860 le_rfl (by norm_num)
    (by rw [zero_add]
        simp only [Nat.zero_le, Finset.filter_true]
        exact sum58_le b)
    (by simp only [aget2_fill]; exact ap0 _ _ _)
  simp only [zero_add, Nat.zero_le, Finset.filter_true] at this
  exact this

omit hL in
theorem coeft_eq (s : Detail Float) (a : Float) (b : Vector Float 10) (c : Vector Float 5) (n : Fin 58) :
    (arTermP s a b c n).coeft1 = RDETAIL * (tab UN n - f% 1.0) ∧
    (arTermP s a b c n).coeft2 = RDETAIL * (tab UN n - f% 1.0) * tab UN n := by
  by_cases h12 : 12 ≤ n.1 <;> simp only [arTermP, ge_iff_le, h12, if_true, if_false, and_self]

/-- The entries of `ar`. -/
theorem ap_ar {s : Detail Float} {x : Fin 21 → ℝ} {D T : ℝ} (H : Close s x D T) :
    Ap (aget2 (arOf s 2) 0 0) (∑ n, 8.31451 * T * tv x D T n) (∑ n, 8.31451 * T * ta x D T n) 6112976 940 700 ∧
    Ap (aget2 (arOf s 2) 1 1) (∑ n, -(8.31451 * (Eos.c UN n - 1) * tvZ x D T n))
      (∑ n, 8.31451 * (|Eos.c UN n| + 1) * taZ x D T n) 6112976 940 700 ∧
    Ap (aget2 (arOf s 2) 1 0) (∑ n, -(8.31451 * (Eos.c UN n - 1) * tv x D T n))
      (∑ n, 8.31451 * (|Eos.c UN n| + 1) * ta x D T n) 6112976 940 700 ∧
    Ap (aget2 (arOf s 2) 2 0) (∑ n, 8.31451 * (Eos.c UN n - 1) * Eos.c UN n * tv x D T n)
      (∑ n, 8.31451 * (|Eos.c UN n| + 1) * |Eos.c UN n| * ta x D T n) 6112976 940 700 := by
  have P := fun n => arAcc_get2 (RDETAIL * s.t) (arTermP s (s.k3 * s.d) (arDknn (s.k3 * s.d)) (arExpn (arDknn (s.k3 * s.d))) n)
  have c := fun n => coeft_eq s (s.k3 * s.d) (arDknn (s.k3 * s.d)) (arExpn (arDknn (s.k3 * s.d))) n
  have t0 := fun n => ap_term0 hL H n
  have t1 := fun n => ap_term hL H n
  have u0 := fun n => ((apR.mul H.t).mul (t0 n)).weak (k' := 6112860) (l' := 940) (h' := 694) (by norm_num) (by norm_num) (by norm_num)
  have u1 := fun n => ((ap_coeft n).1.mul (t1 n)).weak (k' := 6112860) (l' := 940) (h' := 694) (by norm_num) (by norm_num) (by norm_num)
  have u2 := fun n => ((ap_coeft n).1.mul (t0 n)).weak (k' := 6112860) (l' := 940) (h' := 694) (by norm_num) (by norm_num) (by norm_num)
  have u3 := fun n => ((ap_coeft n).2.mul (t0 n)).weak (k' := 6112860) (l' := 940) (h' := 694) (by norm_num) (by norm_num) (by norm_num)
  refine ⟨ar_entry (h := 694) (fun n => Adds.one (fun a => (P n a).1) ((u0 n).weak le_rfl le_rfl (by norm_num)) (by norm_num))
      fun n => Ap.le_pow (u0 n),
    ar_entry (h := 694) (fun n => Adds.oneSub (fun a => ?_) ((u1 n).weak le_rfl le_rfl (by norm_num)) (by norm_num))
      fun n => Ap.le_pow (u1 n),
    ar_entry (h := 694) (fun n => Adds.oneSub (fun a => ?_) ((u2 n).weak le_rfl le_rfl (by norm_num)) (by norm_num))
      fun n => Ap.le_pow (u2 n),
    ar_entry (h := 694) (fun n => Adds.one (fun a => ?_) ((u3 n).weak le_rfl le_rfl (by norm_num)) (by norm_num))
      fun n => Ap.le_pow (u3 n)⟩
  · rw [(P n a).2.1, (c n).1]
  · rw [(P n a).2.2.1, (c n).1]
  · rw [(P n a).2.2.2, (c n).2]

end Aga8.Detail
