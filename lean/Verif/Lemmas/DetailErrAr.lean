import Verif.Lemmas.DetailErrX
import Verif.Lemmas.DetailReal
import Verif.Lemmas.DetailHist

/-! # Rounding errors of the compression factor -/

set_option linter.unusedSectionVars false

namespace Aga8.Detail

open FOps Tab F64

section
variable {F : Type} [Add F] [Sub F] [Mul F] [Div F] [Neg F] [FOps F]

/-- `dknn[n]` is a product. -/
theorem arDknn_all (x : F) : aget (arDknn x) 0 = f% 1.0 ∧ ∀ n : Fin 9, aget (arDknn x) n.succ = x * aget (arDknn x) n.castSucc := by
  have h : rangeFin 1 10 = [1, 2, 3, 4, 5, 6, 7, 8, 9] := by decide
  unfold arDknn loop
  rw [h]
  simp only [List.foldl_cons, List.foldl_nil]
  refine ⟨?_, fun n => ?_⟩
  · simp [aget_aset]
  · match n with
    | 0 => simp [aget_aset]
    | 1 => simp [aget_aset]
    | 2 => simp [aget_aset]
    | 3 => simp [aget_aset]
    | 4 => simp [aget_aset]
    | 5 => simp [aget_aset]
    | 6 => simp [aget_aset]
    | 7 => simp [aget_aset]
    | 8 => simp [aget_aset]

theorem arDknn_zero (x : F) : aget (arDknn x) ⟨0, by omega⟩ = f% 1.0 := (arDknn_all x).1
theorem arDknn_succ (x : F) (n : ℕ) (h : n + 1 < 10) :
    aget (arDknn x) ⟨n + 1, h⟩ = x * aget (arDknn x) ⟨n, by omega⟩ := (arDknn_all x).2 ⟨n, by omega⟩
end

variable [Libm]

theorem chkNat : ∀ n : Fin 10, Float.ofNat n.1 = litF ⟨n.1, 0⟩ := by
  intro n
  match n with
  | 0 => rfl
  | 1 => rfl
  | 2 => rfl
  | 3 => rfl
  | 4 => rfl
  | 5 => rfl
  | 6 => rfl
  | 7 => rfl
  | 8 => rfl
  | 9 => rfl

theorem chkNat2 : ∀ n : Fin 10, decChk true 0 4 ⟨n.1, 0⟩ = true := by decide +kernel

theorem apNat {n : ℕ} (hn : n < 10) : Ap (FOps.ofNat n : Float) n n 0 0 4 := by
  have h : decR ⟨n, 0⟩ = n := by simp [decR]
  have := Ap.litExPos (chkNat2 ⟨n, hn⟩) (by simp)
  rw [h] at this
  have e : (FOps.ofNat n : Float) = litF ⟨n, 0⟩ := chkNat ⟨n, hn⟩
  rw [e]
  exact this

theorem chkR : decChk false 0 4 ⟨831451, 5⟩ = true := by decide +kernel

theorem apR : Ap (RDETAIL : Float) 8.31451 8.31451 1 0 4 := by
  have h : decR ⟨831451, 5⟩ = 8.31451 := by simp [decR]; norm_num
  have := Ap.litPos chkR (by norm_num)
  rw [h] at this
  exact this

theorem ap_dknn {x : Float} {δ : ℝ} (A : Ap x δ δ 6033 27 2) (n : ℕ) (hn : n < 10) :
    Ap (aget (arDknn x) ⟨n, hn⟩) (δ ^ n) (δ ^ n) (6035 * n) (27 * n) (2 * n) := by
  induction n with
  | zero =>
    rw [arDknn_zero, pow_zero]
    exact ap1
  | succ n ih =>
    rw [arDknn_succ, pow_succ']
    have := A.mul (ih (by omega)) (by norm_num) (by simp only [KMax]; omega) (by omega) (by omega)
    exact this.weak (by omega) (by omega) (by omega)

variable (hL : LibmAccurate)
include hL

theorem ap_expn {x : Float} {δ : ℝ} (A : Ap x δ δ 6033 27 2) (h3 : δ ≤ 3) (n : ℕ) (hn : n < 5) :
    Ap (aget (arExpn (arDknn x)) ⟨n, hn⟩) (expK n δ) (expK n δ) 1955343 122 122 := by
  unfold arExpn
  rw [aget_loop_const]
  unfold expK
  rcases Nat.eq_zero_or_pos n with h0 | h0
  · subst h0
    rw [if_neg (by simp), if_pos rfl, neg_zero, Real.exp_zero]
    rw [show (⟨0, hn⟩ : Fin 5) = 0 from rfl, aget_aset_self]
    exact ap1.weak (by norm_num) (by norm_num) (by norm_num)
  · simp only [show 1 ≤ n from h0, show ¬ n = 0 by omega, if_true, if_false]
    have D := (ap_dknn A n (by omega)).weak (k' := 24140) (l' := 108) (h' := 8) (by omega) (by omega) (by omega)
    have hm : δ ^ n ≤ (81 : ℕ) := by
      have := A.nonneg
      calc δ ^ n ≤ 3 ^ n := pow_le_pow_left₀ this h3 n
        _ ≤ 3 ^ 4 := pow_le_pow_right₀ (by norm_num) (by omega)
        _ = _ := by norm_num
    exact (Ap.exp hL D.neg 81 hm).weak (by norm_num) (by norm_num) (by norm_num)

omit hL in
theorem ap_bkd {x : Float} {δ : ℝ} (A : Ap x δ δ 6033 27 2) (h3 : δ ≤ 3) {b k : ℕ} (hb : b < 10) (hb0 : 0 < b) (hk : k < 5) :
    Ap ((FOps.ofNat b : Float) - FOps.ofNat k * aget (arDknn x) ⟨k, by omega⟩) (b - k * δ ^ k) (b + k * δ ^ k) 24144 0 9 := by
  have D := (ap_dknn A k (by omega)).weak (k' := 24140) (l' := 108) (h' := 8) (by omega) (by omega) (by omega)
  have := (apNat hb).sub ((apNat (n := k) (by omega)).mul D)
  have h0 := A.nonneg
  have hb1 : (1 : ℝ) ≤ b := by exact_mod_cast hb0
  have hb9 : (b : ℝ) ≤ 9 := by exact_mod_cast (show b ≤ 9 by omega)
  have hk4 : (k : ℝ) ≤ 4 := by exact_mod_cast (show k ≤ 4 by omega)
  have h81 : δ ^ k ≤ 81 := by
    calc δ ^ k ≤ 3 ^ k := pow_le_pow_left₀ h0 h3 k
      _ ≤ 3 ^ 4 := pow_le_pow_right₀ (by norm_num) (by omega)
      _ = _ := by norm_num
  have hd0 : 0 ≤ δ ^ k := pow_nonneg h0 k
  have hk0 : (0 : ℝ) ≤ k := Nat.cast_nonneg k
  exact Ap.rerange (this.weak (by norm_num) le_rfl le_rfl) ⟨by nlinarith, by norm_num; nlinarith⟩

/-- The state of `alphar` after the refresh, close to its exact values. -/
structure Close (s : Detail Float) (x : Fin 21 → ℝ) (D T : ℝ) : Prop where
  k3 : Ap s.k3 (Eos.Kcubed x) (Eos.Kcubed x) 6031 13 12
  k30 : 0 < Eos.Kcubed x
  bs : ∀ n : Fin 18, Ap (aget s.bs n) (Eos.c AN ⟨n.1, by omega⟩ * ∑ i, ∑ j, x i * x j * bTerm n i j)
    (|Eos.c AN ⟨n.1, by omega⟩| * ∑ i, ∑ j, x i * x j * bTerm n i j) 1224 418 507
  csn : ∀ n : Fin 58, 12 ≤ n.1 → Ap (aget s.csn n) (Eos.Cstar x n) (Eos.Cabs x n) 4079000 339 390
  tun : ∀ n : Fin 58, Ap (aget s.tun n) (T ^ (-Eos.c UN n)) (T ^ (-Eos.c UN n)) 26 230 130
  d : Ap s.d D D 0 14 10
  t : Ap s.t T T 0 0 10
  T0 : 1 ≤ T
  dr : Eos.Kcubed x * D ≤ 3

/-- The part of a term linear in the density; `σ` is -1 for the term, 1 for its size. -/
noncomputable def zLin (b : Fin 18 → ℝ) (C : Fin 58 → ℝ) (σ D Dr T : ℝ) (n : Fin 58) : ℝ :=
  if h : n.1 ≤ 17 then (b ⟨n.1, by omega⟩ * D + (if 12 ≤ n.1 then σ * C n * Dr else 0)) * T ^ (-Eos.c UN n) else 0

/-- The other part. -/
noncomputable def zExp (C : Fin 58 → ℝ) (σ Dr T : ℝ) (n : Fin 58) : ℝ :=
  if 12 ≤ n.1 then C n * Dr ^ aget BN n * T ^ (-Eos.c UN n) * expK (aget KN n) Dr
    * (((aget BN n : ℕ) : ℝ) + σ * (((aget KN n : ℕ) : ℝ) * Dr ^ aget KN n)) else 0

omit hL in
theorem dred_ap {s : Detail Float} {x : Fin 21 → ℝ} {D T : ℝ} (H : Close s x D T) :
    Ap (s.k3 * s.d) (Eos.Kcubed x * D) (Eos.Kcubed x * D) 6033 27 2 := by
  have := H.k3.mul H.d
  refine ⟨this.fin, this.mag, this.err, this.rng.imp id fun h => ⟨h.1, H.dr.trans (by norm_num)⟩⟩

/-- One term of the sum. -/
theorem ap_term {s : Detail Float} {x : Fin 21 → ℝ} {D T : ℝ} (H : Close s x D T) (n : Fin 58) :
    let c := arTermP s (s.k3 * s.d) (arDknn (s.k3 * s.d)) (arExpn (arDknn (s.k3 * s.d))) n
    Ap (c.sum0 * c.coefd1 + c.sumb)
      (zExp (Eos.Cstar x) (-1) (Eos.Kcubed x * D) T n
        + zLin (fun n => Eos.c AN ⟨n.1, by omega⟩ * ∑ i, ∑ j, x i * x j * bTerm n i j) (Eos.Cstar x) (-1) D (Eos.Kcubed x * D) T n)
      (zExp (Eos.Cabs x) 1 (Eos.Kcubed x * D) T n
        + zLin (fun n => |Eos.c AN ⟨n.1, by omega⟩| * ∑ i, ∑ j, x i * x j * bTerm n i j) (Eos.Cabs x) 1 D (Eos.Kcubed x * D) T n)
      6112838 934 670 := by
  have A := dred_ap H
  have hB : Ap (if h : n.1 ≤ 17 then
        (if n.1 ≥ 12 then aget s.bs ⟨n.1, by omega⟩ * s.d + -aget s.csn n * (s.k3 * s.d) else aget s.bs ⟨n.1, by omega⟩ * s.d)
          * aget s.tun n else f% 0.0 : Float)
      (zLin (fun n => Eos.c AN ⟨n.1, by omega⟩ * ∑ i, ∑ j, x i * x j * bTerm n i j) (Eos.Cstar x) (-1) D (Eos.Kcubed x * D) T n)
      (zLin (fun n => |Eos.c AN ⟨n.1, by omega⟩| * ∑ i, ∑ j, x i * x j * bTerm n i j) (Eos.Cabs x) 1 D (Eos.Kcubed x * D) T n)
      4085065 934 669 := by
    unfold zLin
    by_cases h17 : n.1 ≤ 17
    · simp only [h17, dite_true]
      by_cases h12 : 12 ≤ n.1
      · simp only [ge_iff_le, h12, if_true]
        have := (((H.bs ⟨n.1, by omega⟩).mul H.d).add ((H.csn n h12).neg.mul A)).mul (H.tun n)
        rw [show ∀ C y : ℝ, -1 * C * y = -C * y from fun C y => by ring, one_mul]
        exact this.weak (by norm_num) (by norm_num) (by norm_num)
      · simp only [ge_iff_le, h12, if_false, add_zero]
        have := ((H.bs ⟨n.1, by omega⟩).mul H.d).mul (H.tun n)
        exact this.weak (by norm_num) (by norm_num) (by norm_num)
    · simp only [h17, dite_false]
      exact ap0 _ _ _
  intro c
  have hE : Ap (c.sum0 * c.coefd1) (zExp (Eos.Cstar x) (-1) (Eos.Kcubed x * D) T n)
      (zExp (Eos.Cabs x) 1 (Eos.Kcubed x * D) T n) 6112836 934 669 := by
    by_cases h12 : 12 ≤ n.1
    · have e1 : c.sum0 = aget s.csn n * aget (arDknn (s.k3 * s.d)) (bnI n) * aget s.tun n * aget (arExpn (arDknn (s.k3 * s.d))) (knI n) := by
        simp only [c, arTermP, ge_iff_le, h12, if_true]
      have e2 : c.coefd1 = FOps.ofNat (aget BN n) - FOps.ofNat (aget KN n) * aget (arDknn (s.k3 * s.d)) (knJ n) := by
        simp only [c, arTermP, ge_iff_le, h12, if_true]
      rw [e1, e2]
      have Db := (ap_dknn A (aget BN n) (BN_lt n)).weak (k' := 54315) (l' := 243) (h' := 18)
        (by have := BN_lt n; omega) (by have := BN_lt n; omega) (by have := BN_lt n; omega)
      have := ((((H.csn n h12).mul Db).mul (H.tun n)).mul (ap_expn hL A H.dr (aget KN n) (KN_lt n))).mul
        (ap_bkd A H.dr (BN_lt n) (Nat.pos_of_ne_zero (BN_pos n h12)) (KN_lt n))
      unfold zExp
      rw [if_pos h12, if_pos h12, neg_one_mul, ← sub_eq_add_neg, one_mul]
      exact this.weak (by norm_num) (by norm_num) (by norm_num)
    · have e1 : c.sum0 = f% 0.0 := by simp only [c, arTermP, ge_iff_le, h12, if_false]
      have e2 : c.coefd1 = f% 0.0 := by simp only [c, arTermP, ge_iff_le, h12, if_false]
      unfold zExp
      rw [if_neg h12, if_neg h12, e1, e2]
      have := (ap0 0 0 0).mul (ap0 0 0 0)
      rw [mul_zero] at this
      exact this.weak (by norm_num) (by norm_num) (by norm_num)
  have e3 : c.sumb = (if h : n.1 ≤ 17 then
        (if n.1 ≥ 12 then aget s.bs ⟨n.1, by omega⟩ * s.d + -aget s.csn n * (s.k3 * s.d) else aget s.bs ⟨n.1, by omega⟩ * s.d)
          * aget s.tun n else f% 0.0 : Float) := by
    by_cases h12 : 12 ≤ n.1 <;> simp only [c, arTermP, ge_iff_le, h12, if_true, if_false]
  rw [e3]
  exact (hE.add hB).weak (by norm_num) (by norm_num) (by norm_num)

/-! ## The sum -/

omit hL in
theorem sum58_le {m : Fin 58 → ℝ} {h : ℕ} (H : ∀ i, m i ≤ 2 ^ h) : ∑ i, m i ≤ 2 ^ (h + 6) := by
  calc ∑ i, m i ≤ ∑ _i : Fin 58, (2 : ℝ) ^ h := Finset.sum_le_sum fun i _ => H i
    _ = 58 * 2 ^ h := by simp
    _ ≤ 2 ^ (h + 6) := by
      rw [pow_add]
      have : (0 : ℝ) < 2 ^ h := by positivity
      nlinarith

omit hL in
theorem arAcc01 (i : Int) (rt : Float) (c : ArTerm Float) (a : Vector (Vector Float 4) 4) :
    aget2 (arAcc i rt c a) 0 1 = aget2 a 0 1 + rt * (c.sum0 * c.coefd1 + c.sumb) := by
  unfold arAcc
  dsimp only
  by_cases h : i > 0
  · simp only [h, if_true]
    simp [aget2_aset2]
  · simp only [h, if_false]
    simp [aget2_aset2]

/-- `ar[0][1]`. -/
theorem ap_ar01 {s : Detail Float} {x : Fin 21 → ℝ} {D T : ℝ} (H : Close s x D T) (i : Int) :
    Ap (aget2 (arOf s i) 0 1)
      (∑ n, 8.31451 * T * (zExp (Eos.Cstar x) (-1) (Eos.Kcubed x * D) T n
        + zLin (fun n => Eos.c AN ⟨n.1, by omega⟩ * ∑ i, ∑ j, x i * x j * bTerm n i j) (Eos.Cstar x) (-1) D (Eos.Kcubed x * D) T n))
      (∑ n, 8.31451 * T * (zExp (Eos.Cabs x) 1 (Eos.Kcubed x * D) T n
        + zLin (fun n => |Eos.c AN ⟨n.1, by omega⟩| * ∑ i, ∑ j, x i * x j * bTerm n i j) (Eos.Cabs x) 1 D (Eos.Kcubed x * D) T n))
      6112959 934 690 := by
  unfold arOf
  dsimp only
  have one := fun n => ((apR.mul H.t).mul (ap_term hL H n)).weak (k' := 6112843) (l' := 934) (h' := 684)
    (by norm_num) (by norm_num) (by norm_num)
  have Hs := fun (n : Fin 58) (_ : 0 ≤ n.1) => Adds.one (π := fun ar : Vector (Vector Float 4) 4 => aget2 ar 0 1)
    (f := arAcc i (RDETAIL * s.t) (arTermP s (s.k3 * s.d) (arDknn (s.k3 * s.d)) (arExpn (arDknn (s.k3 * s.d))) n))
    (fun a => arAcc01 i _ _ a) ((one n).weak (h' := 690) le_rfl le_rfl (by norm_num)) (by norm_num)
  have := (Adds.loop 0 Hs).2 (fill 4 (fill 4 (f% 0.0))) 0 0 6112843 le_rfl (by norm_num)
    (by rw [zero_add]
        simp only [Nat.zero_le, Finset.filter_true]
        exact sum58_le fun n => Ap.le_pow (one n))
    (by simp only [aget2_fill]; exact ap0 _ _ _)
  simp only [zero_add, Nat.zero_le, Finset.filter_true] at this
  exact this

omit hL in
/-- The sum over the terms, rearranged. -/
theorem z_sum (b : Fin 18 → ℝ) (C : Fin 58 → ℝ) (σ D Dr T : ℝ) :
    ∑ n, (zExp C σ Dr T n + zLin b C σ D Dr T n)
      = D * (∑ n : Fin 58, if h : n.1 < 18 then b ⟨n.1, h⟩ * T ^ (-Eos.c UN n) else 0)
        + σ * (Dr * ∑ n : Fin 58 with 12 ≤ n.1 ∧ n.1 < 18, C n * T ^ (-Eos.c UN n))
        + ∑ n : Fin 58 with 12 ≤ n.1, C n * T ^ (-Eos.c UN n)
          * ((BN[n.1] : ℝ) + σ * (Eos.cn n * KN[n.1] * Dr ^ KN[n.1])) * Dr ^ BN[n.1] * Real.exp (-Eos.cn n * Dr ^ KN[n.1]) := by
  rw [Finset.sum_add_distrib, add_comm]
  congr 1
  · rw [Finset.mul_sum, Finset.sum_filter, Finset.mul_sum, Finset.mul_sum, ← Finset.sum_add_distrib]
    refine Finset.sum_congr rfl fun n _ => ?_
    unfold zLin
    by_cases h17 : n.1 < 18
    · have h17' : n.1 ≤ 17 := by omega
      by_cases h12 : 12 ≤ n.1
      · simp only [h17, h17', h12, dite_true, if_true, and_self]
        ring
      · simp only [h17, h17', h12, dite_true, if_false, false_and]
        ring
    · have h17' : ¬ n.1 ≤ 17 := by omega
      simp only [h17, h17', dite_false, and_false, if_false]
      ring
  · rw [Finset.sum_filter]
    refine Finset.sum_congr rfl fun n _ => ?_
    unfold zExp
    by_cases h12 : 12 ≤ n.1
    · simp only [h12, if_true]
      have e : expK (aget KN n) Dr = Real.exp (-Eos.cn n * Dr ^ KN[n.1])
          ∧ ((aget KN n : ℕ) : ℝ) = Eos.cn n * KN[n.1] := by
        unfold expK Eos.cn aget
        by_cases h : KN[n.1] = 0
        · simp [h]
        · simp [h]
      rw [e.1, e.2]
      unfold aget
      ring
    · simp only [h12, if_false]

omit hL in
theorem b_sum (f : Fin 58 → ℝ) (x : Fin 21 → ℝ) (T : ℝ) :
    (∑ n : Fin 58, if h : n.1 < 18 then (f ⟨n.1, n.2⟩ * ∑ i, ∑ j, x i * x j * bTerm ⟨n.1, h⟩ i j) * T ^ (-Eos.c UN n) else 0)
      = ∑ n : Fin 58 with n.1 < 18, f n * T ^ (-Eos.c UN n)
        * ∑ i, ∑ j, x i * x j * Eos.Bstar n i j * Eos.Eij i j ^ Eos.c UN n * (Eos.c KI i * Eos.c KI j) ^ (3 / 2 : ℝ) := by
  rw [Finset.sum_filter]
  refine Finset.sum_congr rfl fun n _ => ?_
  split
  · have : ∀ i j, x i * x j * Eos.Bstar n i j * Eos.Eij i j ^ Eos.c UN n * (Eos.c KI i * Eos.c KI j) ^ (3 / 2 : ℝ)
        = x i * x j * bTerm ⟨n.1, ‹_›⟩ i j := by
      intro i j; unfold bTerm; ring
    simp only [this]
    ring
  · rfl

omit hL in
theorem zsum_Z (x : Fin 21 → ℝ) (D T : ℝ) :
    1 + ∑ n, (zExp (Eos.Cstar x) (-1) (Eos.Kcubed x * D) T n
        + zLin (fun n => Eos.c AN ⟨n.1, by omega⟩ * ∑ i, ∑ j, x i * x j * bTerm n i j) (Eos.Cstar x) (-1) D (Eos.Kcubed x * D) T n)
      = Eos.Z x D T := by
  rw [z_sum, b_sum (fun n => Eos.c AN n)]
  unfold Eos.Z Eos.B
  simp only [neg_one_mul, ← sub_eq_add_neg]
  ring

omit hL in
theorem zsum_Zabs (x : Fin 21 → ℝ) (D T : ℝ) :
    1 + ∑ n, (zExp (Eos.Cabs x) 1 (Eos.Kcubed x * D) T n
        + zLin (fun n => |Eos.c AN ⟨n.1, by omega⟩| * ∑ i, ∑ j, x i * x j * bTerm n i j) (Eos.Cabs x) 1 D (Eos.Kcubed x * D) T n)
      = Eos.Zabs x D T := by
  rw [z_sum, b_sum (fun n => |Eos.c AN n|)]
  unfold Eos.Zabs Eos.Babs
  simp only [one_mul]
  ring

/-- The compression factor. -/
theorem ap_z {s : Detail Float} {x : Fin 21 → ℝ} {D T : ℝ} (H : Close s x D T) (i : Int) :
    Ap (f% 1.0 + aget2 (arOf s i) 0 1 / RDETAIL / s.t) (Eos.Z x D T) (Eos.Zabs x D T) 6112966 948 691 := by
  have hT : 0 < T := by linarith [H.T0]
  have := ap1.add (((ap_ar01 hL H i).div apR (by norm_num)).div H.t hT)
  rw [← zsum_Z, ← zsum_Zabs]
  have e : ∀ f : Fin 58 → ℝ, (∑ n, 8.31451 * T * f n) / 8.31451 / T = ∑ n, f n := by
    intro f
    rw [← Finset.mul_sum]
    field_simp
  rw [e, e] at this
  exact this.weak (by norm_num) (by norm_num) (by norm_num)

/-- The pressure. -/
theorem ap_p {s : Detail Float} {x : Fin 21 → ℝ} {D T : ℝ} (H : Close s x D T) (i : Int) :
    Ap (s.d * RDETAIL * s.t * (f% 1.0 + aget2 (arOf s i) 0 1 / RDETAIL / s.t)) (D * 8.31451 * T * Eos.Z x D T)
      (D * 8.31451 * T * Eos.Zabs x D T) 6112973 962 715 :=
  (((H.d.mul apR).mul H.t).mul (ap_z hL H i)).weak (by norm_num) (by norm_num) (by norm_num)

end Aga8.Detail
