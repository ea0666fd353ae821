import Verif.Lemmas.DetailErrAr
import Mathlib.Analysis.Calculus.Deriv.Pow
import Mathlib.Analysis.SpecialFunctions.ExpDeriv

/-! # The rounding error of `ar[0][2]` and of the density derivative of the pressure -/

set_option linter.unusedSectionVars false

namespace Aga8.Detail

open F64 Tab

variable [Libm]

/-- The second density derivative of a term. -/
noncomputable def zExp2 (C : Fin 58 → ℝ) (σ Dr T : ℝ) (n : Fin 58) : ℝ :=
  if 12 ≤ n.1 then C n * Dr ^ aget BN n * T ^ (-Eos.c UN n) * expK (aget KN n) Dr
    * ((((aget BN n : ℕ) : ℝ) + σ * (((aget KN n : ℕ) : ℝ) * Dr ^ aget KN n))
        * (((aget BN n : ℕ) : ℝ) + σ * (((aget KN n : ℕ) : ℝ) * Dr ^ aget KN n) + σ)
      + σ * (((aget KN n : ℕ) : ℝ) * ((aget KN n : ℕ) : ℝ) * Dr ^ aget KN n)) else 0

theorem ap_coefd2 {x : Float} {δ : ℝ} (A : Ap x δ δ 6033 27 2) (h3 : δ ≤ 3) {b k : ℕ} (hb : b < 10) (hb0 : 0 < b) (hk : k < 5) :
    Ap (((FOps.ofNat b : Float) - FOps.ofNat k * aget (arDknn x) ⟨k, by omega⟩)
        * ((FOps.ofNat b : Float) - FOps.ofNat k * aget (arDknn x) ⟨k, by omega⟩ - f% 1.0)
        - FOps.ofNat k * FOps.ofNat k * aget (arDknn x) ⟨k, by omega⟩)
      ((b - k * δ ^ k) * (b - k * δ ^ k - 1) - k * k * δ ^ k)
      ((b + k * δ ^ k) * (b + k * δ ^ k + 1) + k * k * δ ^ k) 48294 0 20 := by
  have B := ap_bkd A h3 hb hb0 hk
  have D := (ap_dknn A k (by omega)).weak (k' := 24140) (l' := 108) (h' := 8) (by omega) (by omega) (by omega)
  have N := apNat (n := k) (by omega)
  have := (B.mul (B.sub ap1)).sub ((N.mul N).mul D)
  have h0 := A.nonneg
  have hb1 : (1 : ℝ) ≤ b := by exact_mod_cast hb0
  have hb9 : (b : ℝ) ≤ 9 := by exact_mod_cast (show b ≤ 9 by omega)
  have hk4 : (k : ℝ) ≤ 4 := by exact_mod_cast (show k ≤ 4 by omega)
  have h81 : δ ^ k ≤ 81 := by
    calc δ ^ k ≤ 3 ^ k := pow_le_pow_left₀ h0 h3 k
      _ ≤ 3 ^ 4 := pow_le_pow_right₀ (by norm_num) (by omega)
      _ = _ := by norm_num
  have hd0 : 0 ≤ δ ^ k := pow_nonneg h0 k
  have hk0 : (0 : ℝ) ≤ k := Nat.cast_nonneg k
  generalize δ ^ k = y at *
  have u : (k : ℝ) * y ≤ 324 := by nlinarith
  have u0 : 0 ≤ (k : ℝ) * y := mul_nonneg hk0 hd0
  refine Ap.rerange (this.weak (by norm_num) le_rfl le_rfl) ⟨?_, ?_⟩
  · have a : (1 : ℝ) ≤ b + k * y := by linarith
    have c : 0 ≤ (k : ℝ) * k * y := by positivity
    nlinarith
  · have a : (b + k * y : ℝ) ≤ 333 := by linarith
    have a0 : (0 : ℝ) ≤ b + k * y := by linarith
    have c : (k : ℝ) * k * y ≤ 4 * 324 := by rw [mul_assoc]; exact mul_le_mul hk4 u u0 (by norm_num)
    have := mul_le_mul a (show (b + k * y + 1 : ℝ) ≤ 334 by linarith) (by linarith) (by norm_num)
    norm_num at *
    linarith

variable (hL : LibmAccurate)
include hL

theorem ap_term2 {s : Detail Float} {x : Fin 21 → ℝ} {D T : ℝ} (H : Close s x D T) (n : Fin 58) :
    let c := arTermP s (s.k3 * s.d) (arDknn (s.k3 * s.d)) (arExpn (arDknn (s.k3 * s.d))) n
    Ap (c.sum0 * c.coefd2) (zExp2 (Eos.Cstar x) (-1) (Eos.Kcubed x * D) T n)
      (zExp2 (Eos.Cabs x) 1 (Eos.Kcubed x * D) T n) 6137000 934 680 := by
  have A := dred_ap H
  intro c
  by_cases h12 : 12 ≤ n.1
  · have e1 : c.sum0 = aget s.csn n * aget (arDknn (s.k3 * s.d)) (bnI n) * aget s.tun n * aget (arExpn (arDknn (s.k3 * s.d))) (knI n) := by
      simp only [c, arTermP, ge_iff_le, h12, if_true]
    have e2 : c.coefd2 = (FOps.ofNat (aget BN n) - FOps.ofNat (aget KN n) * aget (arDknn (s.k3 * s.d)) (knJ n))
        * (FOps.ofNat (aget BN n) - FOps.ofNat (aget KN n) * aget (arDknn (s.k3 * s.d)) (knJ n) - f% 1.0)
        - FOps.ofNat (aget KN n) * FOps.ofNat (aget KN n) * aget (arDknn (s.k3 * s.d)) (knJ n) := by
      simp only [c, arTermP, ge_iff_le, h12, if_true]
    rw [e1, e2]
    have Db := (ap_dknn A (aget BN n) (BN_lt n)).weak (k' := 54315) (l' := 243) (h' := 18)
      (by have := BN_lt n; omega) (by have := BN_lt n; omega) (by have := BN_lt n; omega)
    have := ((((H.csn n h12).mul Db).mul (H.tun n)).mul (ap_expn hL A H.dr (aget KN n) (KN_lt n))).mul
      (ap_coefd2 A H.dr (BN_lt n) (Nat.pos_of_ne_zero (BN_pos n h12)) (KN_lt n))
    unfold zExp2
    rw [if_pos h12, if_pos h12]
    simp only [neg_one_mul, ← sub_eq_add_neg, one_mul]
    exact this.weak (by norm_num) (by norm_num) (by norm_num)
  · have e1 : c.sum0 = f% 0.0 := by simp only [c, arTermP, ge_iff_le, h12, if_false]
    have e2 : c.coefd2 = f% 0.0 := by simp only [c, arTermP, ge_iff_le, h12, if_false]
    unfold zExp2
    rw [if_neg h12, if_neg h12, e1, e2]
    have := (ap0 0 0 0).mul (ap0 0 0 0)
    rw [mul_zero] at this
    exact this.weak (by norm_num) (by norm_num) (by norm_num)

omit hL in
theorem arAcc02 (i : Int) (rt : Float) (c : ArTerm Float) (a : Vector (Vector Float 4) 4) :
    aget2 (arAcc i rt c a) 0 2 = aget2 a 0 2 + rt * (c.sum0 * c.coefd2) := by
  unfold arAcc
  dsimp only
  by_cases h : i > 0
  · simp only [h, if_true]
    simp [aget2_aset2]
  · simp only [h, if_false]
    simp [aget2_aset2]

/-- `ar[0][2]`. -/
theorem ap_ar02 {s : Detail Float} {x : Fin 21 → ℝ} {D T : ℝ} (H : Close s x D T) (i : Int) :
    Ap (aget2 (arOf s i) 0 2) (∑ n, 8.31451 * T * zExp2 (Eos.Cstar x) (-1) (Eos.Kcubed x * D) T n)
      (∑ n, 8.31451 * T * zExp2 (Eos.Cabs x) 1 (Eos.Kcubed x * D) T n) 6137200 934 701 := by
  unfold arOf
  dsimp only
  have one := fun n => ((apR.mul H.t).mul (ap_term2 hL H n)).weak (k' := 6137084) (l' := 934) (h' := 695)
    (by norm_num) (by norm_num) (by norm_num)
  have Hs := fun (n : Fin 58) (_ : 0 ≤ n.1) => Adds.one (π := fun ar : Vector (Vector Float 4) 4 => aget2 ar 0 2)
    (f := arAcc i (RDETAIL * s.t) (arTermP s (s.k3 * s.d) (arDknn (s.k3 * s.d)) (arExpn (arDknn (s.k3 * s.d))) n))
    (fun a => arAcc02 i _ _ a) ((one n).weak (h' := 701) le_rfl le_rfl (by norm_num)) (by norm_num)
  have := (Adds.loop 0 Hs).2 (fill 4 (fill 4 (f% 0.0))) 0 0 6137084 le_rfl (by norm_num)
    (by rw [zero_add]
        simp only [Nat.zero_le, Finset.filter_true]
        exact sum58_le fun n => Ap.le_pow (one n))
    (by simp only [aget2_fill]; exact ap0 _ _ _)
  simp only [zero_add, Nat.zero_le, Finset.filter_true] at this
  exact this

omit hL in
theorem zExp2_sum (C : Fin 58 → ℝ) (σ Dr T : ℝ) :
    ∑ n, zExp2 C σ Dr T n = ∑ n : Fin 58 with 12 ≤ n.1, C n * T ^ (-Eos.c UN n)
      * (((BN[n.1] : ℝ) + σ * (Eos.cn n * KN[n.1] * Dr ^ KN[n.1])) * ((BN[n.1] : ℝ) + σ * (Eos.cn n * KN[n.1] * Dr ^ KN[n.1]) + σ)
        + σ * (Eos.cn n * (KN[n.1] : ℝ) ^ 2 * Dr ^ KN[n.1])) * Dr ^ BN[n.1] * Real.exp (-Eos.cn n * Dr ^ KN[n.1]) := by
  rw [Finset.sum_filter]
  refine Finset.sum_congr rfl fun n _ => ?_
  unfold zExp2
  by_cases h12 : 12 ≤ n.1
  · simp only [h12, if_true]
    have e : expK (aget KN n) Dr = Real.exp (-Eos.cn n * Dr ^ KN[n.1])
        ∧ ((aget KN n : ℕ) : ℝ) = Eos.cn n * KN[n.1] ∧ ((aget KN n : ℕ) : ℝ) * ((aget KN n : ℕ) : ℝ) = Eos.cn n * (KN[n.1] : ℝ) ^ 2 := by
      unfold expK Eos.cn aget
      by_cases h : KN[n.1] = 0
      · simp [h]
      · simp [h, sq]
    rw [e.2.2, e.1, e.2.1]
    unfold aget
    ring
  · simp only [h12, if_false]

/-! ## The derivative of the equation -/

omit hL in
/-- `D d/dD` of a term of the compression factor. -/
theorem term_deriv (b k : ℕ) (hb : 1 ≤ b) (K : ℝ) (c : ℝ) (hc : c = if k = 0 then 0 else 1) (D : ℝ) :
    ∃ r, HasDerivAt (fun D : ℝ => ((b : ℝ) - c * k * (K * D) ^ k) * (K * D) ^ b * Real.exp (-c * (K * D) ^ k)) r D ∧
      D * r = (((b : ℝ) - c * k * (K * D) ^ k) ^ 2 - c * (k : ℝ) ^ 2 * (K * D) ^ k) * (K * D) ^ b * Real.exp (-c * (K * D) ^ k) := by
  have h0 : HasDerivAt (fun D : ℝ => K * D) K D := by simpa using (hasDerivAt_id D).const_mul K
  have hk := h0.pow k
  have hbd := h0.pow b
  have h1 := (((hk.const_mul (c * k)).const_sub (b : ℝ)).mul hbd).mul (hk.const_mul (-c)).exp
  refine ⟨_, h1, ?_⟩
  obtain ⟨m, rfl⟩ : ∃ m, b = m + 1 := ⟨b - 1, by omega⟩
  rcases Nat.eq_zero_or_pos k with h | h
  · subst h
    simp only [hc]
    simp [pow_succ]
    ring
  · obtain ⟨j, rfl⟩ : ∃ j, k = j + 1 := ⟨k - 1, by omega⟩
    have e : c = 1 := by rw [hc, if_neg (by omega)]
    subst e
    simp only [Pi.mul_apply, Pi.pow_apply, Nat.add_sub_cancel, pow_succ]
    push_cast
    ring

omit hL in
theorem Z_deriv (x : Fin 21 → ℝ) (D T : ℝ) :
    ∃ r, HasDerivAt (fun D => Eos.Z x D T) r D ∧ D * r = (D * Eos.B x T - Eos.Kcubed x * D
        * ∑ n : Fin 58 with 12 ≤ n.1 ∧ n.1 < 18, Eos.Cstar x n * T ^ (-Eos.c UN n))
      + ∑ n : Fin 58 with 12 ≤ n.1, Eos.Cstar x n * T ^ (-Eos.c UN n)
        * (((BN[n.1] : ℝ) - Eos.cn n * KN[n.1] * (Eos.Kcubed x * D) ^ KN[n.1]) ^ 2
          - Eos.cn n * (KN[n.1] : ℝ) ^ 2 * (Eos.Kcubed x * D) ^ KN[n.1])
        * (Eos.Kcubed x * D) ^ BN[n.1] * Real.exp (-Eos.cn n * (Eos.Kcubed x * D) ^ KN[n.1]) := by
  have t := fun (n : Fin 58) (hn : 12 ≤ n.1) =>
    term_deriv BN[n.1] KN[n.1] (Nat.one_le_iff_ne_zero.2 (BN_pos n hn)) (Eos.Kcubed x) (Eos.cn n) rfl D
  choose! r hr hr2 using t
  have hs : HasDerivAt (fun D : ℝ => ∑ n : Fin 58 with 12 ≤ n.1, Eos.Cstar x n * T ^ (-Eos.c UN n)
      * (((BN[n.1] : ℝ) - Eos.cn n * KN[n.1] * (Eos.Kcubed x * D) ^ KN[n.1])
      * (Eos.Kcubed x * D) ^ BN[n.1] * Real.exp (-Eos.cn n * (Eos.Kcubed x * D) ^ KN[n.1])))
      (∑ n : Fin 58 with 12 ≤ n.1, Eos.Cstar x n * T ^ (-Eos.c UN n) * r n) D := by
    have := HasDerivAt.sum (u := Finset.univ.filter fun n : Fin 58 => 12 ≤ n.1)
      (A := fun n D => Eos.Cstar x n * T ^ (-Eos.c UN n)
      * (((BN[n.1] : ℝ) - Eos.cn n * KN[n.1] * (Eos.Kcubed x * D) ^ KN[n.1])
      * (Eos.Kcubed x * D) ^ BN[n.1] * Real.exp (-Eos.cn n * (Eos.Kcubed x * D) ^ KN[n.1])))
      (fun n hn => (hr n (Finset.mem_filter.1 hn).2).const_mul (Eos.Cstar x n * T ^ (-Eos.c UN n)))
    refine this.congr_of_eventuallyEq (Filter.Eventually.of_forall fun D => ?_)
    simp only [Finset.sum_apply]
  set S := ∑ n : Fin 58 with 12 ≤ n.1 ∧ n.1 < 18, Eos.Cstar x n * T ^ (-Eos.c UN n) with hS
  have h1 : HasDerivAt (fun D : ℝ => 1 + D * Eos.B x T - Eos.Kcubed x * D * S) (Eos.B x T - Eos.Kcubed x * S) D := by
    have e : (fun D : ℝ => 1 + D * Eos.B x T - Eos.Kcubed x * D * S) = fun D => 1 + D * (Eos.B x T - Eos.Kcubed x * S) := by
      funext D; ring
    rw [e]
    have := ((hasDerivAt_id D).mul_const (Eos.B x T - Eos.Kcubed x * S)).const_add 1
    rw [one_mul] at this
    exact this
  refine ⟨_, (h1.add hs).congr_of_eventuallyEq (Filter.Eventually.of_forall fun D => ?_), ?_⟩
  · simp only [Eos.Z, Pi.add_apply]
    congr 1
    exact Finset.sum_congr rfl fun n _ => by ring
  · rw [mul_add]
    congr 1
    · ring
    · rw [Finset.mul_sum]
      refine Finset.sum_congr rfl fun n hn => ?_
      have := hr2 n (Finset.mem_filter.1 hn).2
      have e : D * (Eos.Cstar x n * T ^ (-Eos.c UN n) * r n) = Eos.Cstar x n * T ^ (-Eos.c UN n) * (D * r n) := by ring
      rw [e, this]
      ring

omit hL in
/-- The derivative of `D Z`. -/
theorem DZ_deriv (x : Fin 21 → ℝ) (D T : ℝ) : HasDerivAt (fun D => D * Eos.Z x D T) (Eos.dPdD x D T) D := by
  obtain ⟨r, h, -⟩ := Z_deriv x D T
  unfold Eos.dPdD
  rw [hasDerivAt_deriv_iff]
  exact ((hasDerivAt_id D).mul h).differentiableAt

omit hL in
theorem dsum_dPdD (x : Fin 21 → ℝ) (D T : ℝ) :
    1 + 2 * (Eos.Z x D T - 1) + ∑ n, zExp2 (Eos.Cstar x) (-1) (Eos.Kcubed x * D) T n = Eos.dPdD x D T := by
  obtain ⟨r, h, h2⟩ := Z_deriv x D T
  have e : Eos.dPdD x D T = 1 * Eos.Z x D T + D * r := ((hasDerivAt_id D).mul h).deriv
  rw [e, h2, zExp2_sum]
  have ez : Eos.Z x D T = 1 + (D * Eos.B x T - Eos.Kcubed x * D * ∑ n : Fin 58 with 12 ≤ n.1 ∧ n.1 < 18, Eos.Cstar x n * T ^ (-Eos.c UN n))
      + ∑ n : Fin 58 with 12 ≤ n.1, Eos.Cstar x n * T ^ (-Eos.c UN n)
      * ((BN[n.1] : ℝ) - Eos.cn n * KN[n.1] * (Eos.Kcubed x * D) ^ KN[n.1]) * (Eos.Kcubed x * D) ^ BN[n.1]
        * Real.exp (-Eos.cn n * (Eos.Kcubed x * D) ^ KN[n.1]) := by
    unfold Eos.Z
    ring
  rw [ez]
  have k : ∀ (S : Finset (Fin 58)) (f g h : Fin 58 → ℝ) (a : ℝ), (∀ n ∈ S, h n = f n + g n) →
      1 + 2 * (1 + a + ∑ n ∈ S, f n - 1) + ∑ n ∈ S, g n = 1 * (1 + a + ∑ n ∈ S, f n) + (a + ∑ n ∈ S, h n) := by
    intro S f g h a e
    rw [Finset.sum_congr rfl e, Finset.sum_add_distrib]
    ring
  exact k _ _ _ _ _ fun n _ => by ring

omit hL in
theorem dsum_dPdDabs (x : Fin 21 → ℝ) (D T : ℝ) :
    1 + 2 * (Eos.Zabs x D T - 1) + ∑ n, zExp2 (Eos.Cabs x) 1 (Eos.Kcubed x * D) T n = Eos.dPdDabs x D T := by
  rw [zExp2_sum]
  unfold Eos.dPdDabs
  simp only [one_mul]

/-- The stored density derivative. -/
theorem ap_dp {s : Detail Float} {x : Fin 21 → ℝ} {D T : ℝ} (H : Close s x D T) (i : Int) :
    Ap (RDETAIL * s.t + f% 2.0 * aget2 (arOf s i) 0 1 + aget2 (arOf s i) 0 2) (8.31451 * T * Eos.dPdD x D T)
      (8.31451 * T * Eos.dPdDabs x D T) 6137300 940 705 := by
  have := ((apR.mul H.t).add (ap2.mul (ap_ar01 hL H i))).add (ap_ar02 hL H i)
  rw [← dsum_dPdD, ← dsum_dPdDabs, ← zsum_Z, ← zsum_Zabs]
  have e : ∀ f g : Fin 58 → ℝ, 8.31451 * T + 2 * ∑ n, 8.31451 * T * f n + ∑ n, 8.31451 * T * g n
      = 8.31451 * T * (1 + 2 * (1 + ∑ n, f n - 1) + ∑ n, g n) := by
    intro f g
    rw [← Finset.mul_sum, ← Finset.mul_sum]
    ring
  rw [e, e] at this
  exact this.weak (by norm_num) (by norm_num) (by norm_num)

end Aga8.Detail
