import Verif.Lemmas.DetailErrEnergy
import Verif.Spec.DetailCurvature

/-! # The rounding error of `ar[0][3]` and of the second density derivative of the pressure -/

set_option linter.unusedSectionVars false

namespace Aga8.Detail

open F64 Tab

/-- The third density derivative of a term. -/
noncomputable def zExp3 (C : Fin 58 → ℝ) (σ Dr T : ℝ) (n : Fin 58) : ℝ :=
  if 12 ≤ n.1 then C n * Dr ^ aget BN n * T ^ (-Eos.c UN n) * expK (aget KN n) Dr
    * ((((aget BN n : ℕ) : ℝ) + σ * (((aget KN n : ℕ) : ℝ) * Dr ^ aget KN n) + σ * 2)
        * ((((aget BN n : ℕ) : ℝ) + σ * (((aget KN n : ℕ) : ℝ) * Dr ^ aget KN n))
          * (((aget BN n : ℕ) : ℝ) + σ * (((aget KN n : ℕ) : ℝ) * Dr ^ aget KN n) + σ)
          + σ * (((aget KN n : ℕ) : ℝ) * ((aget KN n : ℕ) : ℝ) * Dr ^ aget KN n))
      + ((aget KN n : ℕ) : ℝ) * ((aget KN n : ℕ) : ℝ) * Dr ^ aget KN n
        * (1 + σ * ((aget KN n : ℕ) : ℝ) + σ * (2 * (((aget BN n : ℕ) : ℝ) + σ * (((aget KN n : ℕ) : ℝ) * Dr ^ aget KN n)))))
    else 0

section
variable [Libm]

theorem ap_coefd3 {x : Float} {δ : ℝ} (A : Ap x δ δ 6033 27 2) (h3 : δ ≤ 3) {b k : ℕ} (hb : b < 10) (hb0 : 0 < b) (hk : k < 5) :
    Ap (((FOps.ofNat b : Float) - FOps.ofNat k * aget (arDknn x) ⟨k, by omega⟩ - f% 2.0)
        * (((FOps.ofNat b : Float) - FOps.ofNat k * aget (arDknn x) ⟨k, by omega⟩)
          * ((FOps.ofNat b : Float) - FOps.ofNat k * aget (arDknn x) ⟨k, by omega⟩ - f% 1.0)
          - FOps.ofNat k * FOps.ofNat k * aget (arDknn x) ⟨k, by omega⟩)
        + FOps.ofNat k * FOps.ofNat k * aget (arDknn x) ⟨k, by omega⟩
          * (f% 1.0 - FOps.ofNat k - f% 2.0 * ((FOps.ofNat b : Float) - FOps.ofNat k * aget (arDknn x) ⟨k, by omega⟩)))
      ((b - k * δ ^ k - 2) * ((b - k * δ ^ k) * (b - k * δ ^ k - 1) - k * k * δ ^ k)
        + k * k * δ ^ k * (1 - k - 2 * (b - k * δ ^ k)))
      ((b + k * δ ^ k + 2) * ((b + k * δ ^ k) * (b + k * δ ^ k + 1) + k * k * δ ^ k)
        + k * k * δ ^ k * (1 + k + 2 * (b + k * δ ^ k))) 72600 0 26 := by
  have B := ap_bkd A h3 hb hb0 hk
  have C2 := ap_coefd2 A h3 hb hb0 hk
  have D := (ap_dknn A k (by omega)).weak (k' := 24140) (l' := 108) (h' := 8) (by omega) (by omega) (by omega)
  have N := apNat (n := k) (by omega)
  have := ((B.sub ap2).mul C2).add (((N.mul N).mul D).mul ((ap1.sub N).sub (ap2.mul B)))
  have h0 := A.nonneg
  have hb1 : (1 : ℝ) ≤ b := by exact_mod_cast hb0
  have hb9 : (b : ℝ) ≤ 9 := by exact_mod_cast (show b ≤ 9 by omega)
  have hk4 : (k : ℝ) ≤ 4 := by exact_mod_cast (show k ≤ 4 by omega)
  have h81 : δ ^ k ≤ 81 := by
    calc δ ^ k ≤ 3 ^ k := pow_le_pow_left₀ h0 h3 k
      _ ≤ 3 ^ 4 := pow_le_pow_right₀ (by norm_num) (by omega)
      _ = _ := by norm_num
  have hd0 : 0 ≤ δ ^ k := pow_nonneg h0 k
  have hk0 : (0 : ℝ) ≤ k := Nat.cast_nonneg k
  have bd : ∀ y : ℝ, 0 ≤ y → y ≤ 81 →
      (1 : ℝ) ≤ 2 ^ 0 * ((b + k * y + 2) * ((b + k * y) * (b + k * y + 1) + k * k * y) + k * k * y * (1 + k + 2 * (b + k * y))) ∧
      ((b + k * y + 2) * ((b + k * y) * (b + k * y + 1) + k * k * y) + k * k * y * (1 + k + 2 * (b + k * y)) : ℝ) ≤ 2 ^ 26 := by
    intro y y0 y81
    obtain ⟨w, hw⟩ : ∃ w, w = (k : ℝ) * y := ⟨_, rfl⟩
    have u : w ≤ 324 := by rw [hw]; nlinarith
    have u0 : 0 ≤ w := by rw [hw]; exact mul_nonneg hk0 y0
    have ev : (k : ℝ) * k * y = k * w := by rw [hw]; ring
    rw [ev, ← hw]
    obtain ⟨v, hv⟩ : ∃ v, v = (k : ℝ) * w := ⟨_, rfl⟩
    have v0 : 0 ≤ v := by rw [hv]; exact mul_nonneg hk0 u0
    have v1 : v ≤ 4 * 324 := by rw [hv]; exact mul_le_mul hk4 u u0 (by norm_num)
    rw [← hv]
    have g1 : (1 : ℝ) ≤ b + w := by linarith
    have g2 : (b + w : ℝ) ≤ 333 := by linarith
    have q0 : (1 : ℝ) ≤ (b + w) * (b + w + 1) := by nlinarith
    have q1 : (b + w : ℝ) * (b + w + 1) ≤ 333 * 334 := mul_le_mul g2 (by linarith) (by linarith) (by norm_num)
    constructor
    · have r1 : (1 : ℝ) * 1 ≤ (b + w + 2) * ((b + w) * (b + w + 1) + v) :=
        mul_le_mul (by linarith) (by linarith) (by norm_num) (by linarith)
      have r2 : 0 ≤ v * (1 + k + 2 * (b + w)) := mul_nonneg v0 (by linarith)
      rw [pow_zero, one_mul]; linarith
    · have r1 : (b + w + 2 : ℝ) * ((b + w) * (b + w + 1) + v) ≤ 335 * (333 * 334 + 4 * 324) :=
        mul_le_mul (by linarith) (by linarith) (by linarith) (by norm_num)
      have r2 : v * (1 + k + 2 * (b + w)) ≤ 4 * 324 * 671 := mul_le_mul v1 (by linarith) (by linarith) (by norm_num)
      norm_num at r1 r2 ⊢
      linarith
  exact Ap.rerange (this.weak (by norm_num) le_rfl le_rfl) (bd _ hd0 h81)

variable (hL : LibmAccurate)
include hL

theorem ap_term3 {s : Detail Float} {x : Fin 21 → ℝ} {D T : ℝ} (H : Close s x D T) (n : Fin 58) :
    let c := arTermP s (s.k3 * s.d) (arDknn (s.k3 * s.d)) (arExpn (arDknn (s.k3 * s.d))) n
    Ap (c.sum0 * c.coefd3) (zExp3 (Eos.Cstar x) (-1) (Eos.Kcubed x * D) T n)
      (zExp3 (Eos.Cabs x) 1 (Eos.Kcubed x * D) T n) 6162000 934 690 := by
  have A := dred_ap H
  intro c
  by_cases h12 : 12 ≤ n.1
  · have e1 : c.sum0 = aget s.csn n * aget (arDknn (s.k3 * s.d)) (bnI n) * aget s.tun n * aget (arExpn (arDknn (s.k3 * s.d))) (knI n) := by
      simp only [c, arTermP, ge_iff_le, h12, if_true]
    have e2 : c.coefd3 = (FOps.ofNat (aget BN n) - FOps.ofNat (aget KN n) * aget (arDknn (s.k3 * s.d)) (knJ n) - f% 2.0)
        * ((FOps.ofNat (aget BN n) - FOps.ofNat (aget KN n) * aget (arDknn (s.k3 * s.d)) (knJ n))
          * (FOps.ofNat (aget BN n) - FOps.ofNat (aget KN n) * aget (arDknn (s.k3 * s.d)) (knJ n) - f% 1.0)
          - FOps.ofNat (aget KN n) * FOps.ofNat (aget KN n) * aget (arDknn (s.k3 * s.d)) (knJ n))
        + FOps.ofNat (aget KN n) * FOps.ofNat (aget KN n) * aget (arDknn (s.k3 * s.d)) (knJ n)
          * (f% 1.0 - FOps.ofNat (aget KN n)
            - f% 2.0 * (FOps.ofNat (aget BN n) - FOps.ofNat (aget KN n) * aget (arDknn (s.k3 * s.d)) (knJ n))) := by
      simp only [c, arTermP, ge_iff_le, h12, if_true]
    rw [e1, e2]
    have Db := (ap_dknn A (aget BN n) (BN_lt n)).weak (k' := 54315) (l' := 243) (h' := 18)
      (by have := BN_lt n; omega) (by have := BN_lt n; omega) (by have := BN_lt n; omega)
    have := ((((H.csn n h12).mul Db).mul (H.tun n)).mul (ap_expn hL A H.dr (aget KN n) (KN_lt n))).mul
      (ap_coefd3 A H.dr (BN_lt n) (Nat.pos_of_ne_zero (BN_pos n h12)) (KN_lt n))
    unfold zExp3
    rw [if_pos h12, if_pos h12]
    simp only [neg_one_mul, ← sub_eq_add_neg, one_mul]
    exact this.weak (by norm_num) (by norm_num) (by norm_num)
  · have e1 : c.sum0 = f% 0.0 := by simp only [c, arTermP, ge_iff_le, h12, if_false]
    have e2 : c.coefd3 = f% 0.0 := by simp only [c, arTermP, ge_iff_le, h12, if_false]
    unfold zExp3
    rw [if_neg h12, if_neg h12, e1, e2]
    have := (ap0 0 0 0).mul (ap0 0 0 0)
    rw [mul_zero] at this
    exact this.weak (by norm_num) (by norm_num) (by norm_num)

omit hL in
theorem arAcc03 (i : Int) (rt : Float) (c : ArTerm Float) (a : Vector (Vector Float 4) 4) :
    aget2 (arAcc i rt c a) 0 3 = aget2 a 0 3 + rt * (c.sum0 * c.coefd3) := by
  unfold arAcc
  dsimp only
  by_cases h : i > 0
  · simp only [h, if_true]
    simp [aget2_aset2]
  · simp only [h, if_false]
    simp [aget2_aset2]

/-- `ar[0][3]`. -/
theorem ap_ar03 {s : Detail Float} {x : Fin 21 → ℝ} {D T : ℝ} (H : Close s x D T) (i : Int) :
    Ap (aget2 (arOf s i) 0 3) (∑ n, 8.31451 * T * zExp3 (Eos.Cstar x) (-1) (Eos.Kcubed x * D) T n)
      (∑ n, 8.31451 * T * zExp3 (Eos.Cabs x) 1 (Eos.Kcubed x * D) T n) 6162300 934 711 := by
  unfold arOf
  dsimp only
  have one := fun n => ((apR.mul H.t).mul (ap_term3 hL H n)).weak (k' := 6162084) (l' := 934) (h' := 705)
    (by norm_num) (by norm_num) (by norm_num)
  have Hs := fun (n : Fin 58) (_ : 0 ≤ n.1) => Adds.one (π := fun ar : Vector (Vector Float 4) 4 => aget2 ar 0 3)
    (f := arAcc i (RDETAIL * s.t) (arTermP s (s.k3 * s.d) (arDknn (s.k3 * s.d)) (arExpn (arDknn (s.k3 * s.d))) n))
    (fun a => arAcc03 i _ _ a) ((one n).weak (h' := 711) le_rfl le_rfl (by norm_num)) (by norm_num)
  have := (Adds.loop 0 Hs).2 (fill 4 (fill 4 (f% 0.0))) 0 0 6162084 le_rfl (by norm_num)
    (by rw [zero_add]
        simp only [Nat.zero_le, Finset.filter_true]
        exact sum58_le fun n => Ap.le_pow (one n))
    (by simp only [aget2_fill]; exact ap0 _ _ _)
  simp only [zero_add, Nat.zero_le, Finset.filter_true] at this
  exact this.weak (by norm_num) le_rfl le_rfl

end

/-! ## The exact sums -/

theorem zExp3_sum (C : Fin 58 → ℝ) (σ Dr T : ℝ) :
    ∑ n, zExp3 C σ Dr T n = ∑ n : Fin 58 with 12 ≤ n.1, C n * T ^ (-Eos.c UN n)
      * (((BN[n.1] : ℝ) + σ * (Eos.cn n * KN[n.1] * Dr ^ KN[n.1]) + σ * 2)
          * (((BN[n.1] : ℝ) + σ * (Eos.cn n * KN[n.1] * Dr ^ KN[n.1])) * ((BN[n.1] : ℝ) + σ * (Eos.cn n * KN[n.1] * Dr ^ KN[n.1]) + σ)
            + σ * (Eos.cn n * (KN[n.1] : ℝ) ^ 2 * Dr ^ KN[n.1]))
        + Eos.cn n * (KN[n.1] : ℝ) ^ 2 * Dr ^ KN[n.1]
          * (1 + σ * KN[n.1] + σ * (2 * ((BN[n.1] : ℝ) + σ * (Eos.cn n * KN[n.1] * Dr ^ KN[n.1])))))
      * Dr ^ BN[n.1] * Real.exp (-Eos.cn n * Dr ^ KN[n.1]) := by
  rw [Finset.sum_filter]
  refine Finset.sum_congr rfl fun n _ => ?_
  unfold zExp3
  by_cases h12 : 12 ≤ n.1
  · simp only [h12, if_true]
    have e : expK (aget KN n) Dr = Real.exp (-Eos.cn n * Dr ^ KN[n.1])
        ∧ ((aget KN n : ℕ) : ℝ) * Dr ^ aget KN n = Eos.cn n * KN[n.1] * Dr ^ KN[n.1]
        ∧ ((aget KN n : ℕ) : ℝ) * ((aget KN n : ℕ) : ℝ) * Dr ^ aget KN n = Eos.cn n * (KN[n.1] : ℝ) ^ 2 * Dr ^ KN[n.1] := by
      unfold expK Eos.cn aget
      by_cases h : KN[n.1] = 0
      · simp [h]
      · simp [h, sq]
    rw [e.2.2, e.1, e.2.1]
    unfold aget
    ring
  · simp only [h12, if_false]

/-- `D d/dD` of a term of the second derivative. -/
theorem term_deriv2 (b k : ℕ) (K c D : ℝ) :
    ∃ r, HasDerivAt (fun D : ℝ => (((b : ℝ) - c * k * (K * D) ^ k) * ((b : ℝ) - c * k * (K * D) ^ k - 1)
        - c * (k : ℝ) ^ 2 * (K * D) ^ k) * ((K * D) ^ b * Real.exp (-c * (K * D) ^ k))) r D ∧
      D * r = (2 * (((b : ℝ) - c * k * (K * D) ^ k) * ((b : ℝ) - c * k * (K * D) ^ k - 1) - c * (k : ℝ) ^ 2 * (K * D) ^ k)
        + (((b : ℝ) - c * k * (K * D) ^ k - 2)
          * (((b : ℝ) - c * k * (K * D) ^ k) * ((b : ℝ) - c * k * (K * D) ^ k - 1) - c * (k : ℝ) ^ 2 * (K * D) ^ k)
          + c * (k : ℝ) ^ 2 * (K * D) ^ k * (1 - k - 2 * ((b : ℝ) - c * k * (K * D) ^ k))))
        * ((K * D) ^ b * Real.exp (-c * (K * D) ^ k)) := by
  have h0 : HasDerivAt (fun D : ℝ => K * D) K D := by simpa using (hasDerivAt_id D).const_mul K
  have hk : HasDerivAt (fun D : ℝ => (K * D) ^ k) (k * (K * D) ^ (k - 1) * K) D := h0.pow k
  have hbd : HasDerivAt (fun D : ℝ => (K * D) ^ b) (b * (K * D) ^ (b - 1) * K) D := h0.pow b
  have hg := (hk.const_mul (c * k)).const_sub (b : ℝ)
  have h1 := ((hg.mul (hg.sub_const 1)).sub (hk.const_mul (c * (k : ℝ) ^ 2))).mul (hbd.mul (hk.const_mul (-c)).exp)
  refine ⟨_, h1, ?_⟩
  have ek : D * (k * (K * D) ^ (k - 1) * K) = k * (K * D) ^ k := by
    cases k with
    | zero => simp
    | succ j => rw [Nat.add_sub_cancel, pow_succ]; ring
  have eb : D * (b * (K * D) ^ (b - 1) * K) = b * (K * D) ^ b := by
    cases b with
    | zero => simp
    | succ j => rw [Nat.add_sub_cancel, pow_succ]; ring
  generalize k * (K * D) ^ (k - 1) * K = dk at *
  generalize b * (K * D) ^ (b - 1) * K = db at *
  simp only [Pi.mul_apply, Pi.sub_apply]
  generalize Real.exp (-c * (K * D) ^ k) = E at *
  generalize (K * D) ^ b = P at *
  generalize (K * D) ^ k = y at *
  linear_combination ((-(c * k) * ((b - c * k * y) - 1) - (b - c * k * y) * (c * k) - c * (k : ℝ) ^ 2) * (P * E)
      - c * (((b : ℝ) - c * k * y) * (b - c * k * y - 1) - c * (k : ℝ) ^ 2 * y) * (P * E)) * ek
    + (((b : ℝ) - c * k * y) * (b - c * k * y - 1) - c * (k : ℝ) ^ 2 * y) * E * eb

variable [Libm]

/-- `D d/dD` of the sum of the second derivative. -/
theorem sum2_deriv (x : Fin 21 → ℝ) (D T : ℝ) :
    ∃ r, HasDerivAt (fun D => ∑ n, zExp2 (Eos.Cstar x) (-1) (Eos.Kcubed x * D) T n) r D ∧
      D * r = 2 * ∑ n, zExp2 (Eos.Cstar x) (-1) (Eos.Kcubed x * D) T n
        + ∑ n, zExp3 (Eos.Cstar x) (-1) (Eos.Kcubed x * D) T n := by
  have t := fun (n : Fin 58) (hn : 12 ≤ n.1) =>
    term_deriv2 BN[n.1] KN[n.1] (Eos.Kcubed x) (Eos.cn n) D
  choose! r hr hr2 using t
  have hs := HasDerivAt.sum (u := Finset.univ.filter fun n : Fin 58 => 12 ≤ n.1)
      (A := fun n D => Eos.Cstar x n * T ^ (-Eos.c UN n)
        * ((((BN[n.1] : ℝ) - Eos.cn n * KN[n.1] * (Eos.Kcubed x * D) ^ KN[n.1])
            * ((BN[n.1] : ℝ) - Eos.cn n * KN[n.1] * (Eos.Kcubed x * D) ^ KN[n.1] - 1)
          - Eos.cn n * (KN[n.1] : ℝ) ^ 2 * (Eos.Kcubed x * D) ^ KN[n.1])
        * ((Eos.Kcubed x * D) ^ BN[n.1] * Real.exp (-Eos.cn n * (Eos.Kcubed x * D) ^ KN[n.1]))))
      (fun n hn => (hr n (Finset.mem_filter.1 hn).2).const_mul (Eos.Cstar x n * T ^ (-Eos.c UN n)))
  refine ⟨_, hs.congr_of_eventuallyEq (Filter.Eventually.of_forall fun D => ?_), ?_⟩
  · simp only [Finset.sum_apply, zExp2_sum]
    exact Finset.sum_congr rfl fun n _ => by ring
  · rw [zExp2_sum, zExp3_sum, Finset.mul_sum, Finset.mul_sum, ← Finset.sum_add_distrib]
    refine Finset.sum_congr rfl fun n hn => ?_
    have := hr2 n (Finset.mem_filter.1 hn).2
    rw [mul_left_comm, this]
    ring

/-- The second density derivative as a sum of terms. -/
theorem pressureDD_sum (x : Fin 21 → ℝ) {D T : ℝ} (hD : D ≠ 0) :
    Eos.pressureDD x D T = 8.31451 * T * (2 * (Eos.Z x D T - 1) + 4 * ∑ n, zExp2 (Eos.Cstar x) (-1) (Eos.Kcubed x * D) T n
      + ∑ n, zExp3 (Eos.Cstar x) (-1) (Eos.Kcubed x * D) T n) / D := by
  obtain ⟨r, h, -⟩ := Z_deriv x D T
  obtain ⟨w, k, k2⟩ := sum2_deriv x D T
  have e : Eos.dPdD x D T = 1 * Eos.Z x D T + D * r := ((hasDerivAt_id D).mul h).deriv
  have e' := dsum_dPdD x D T
  have d := ((((h.sub_const 1).const_mul 2).const_add 1).add k).const_mul (8.31451 * T)
  have f : (fun D => 8.31451 * T * Eos.dPdD x D T) = fun D => 8.31451 * T * ((fun D => 1 + 2 * (Eos.Z x D T - 1))
      + (fun D => ∑ n, zExp2 (Eos.Cstar x) (-1) (Eos.Kcubed x * D) T n)) D := by
    funext D; rw [← dsum_dPdD]; rfl
  unfold Eos.pressureDD
  rw [f, HasDerivAt.deriv d, eq_div_iff hD]
  have : D * r = Eos.dPdD x D T - Eos.Z x D T := by linarith
  linear_combination 8.31451 * T * k2 + 2 * (8.31451 * T) * (this - e')

theorem pressureDDAbs_sum (x : Fin 21 → ℝ) (D T : ℝ) :
    Eos.pressureDDAbs x D T = 8.31451 * T * (2 * (Eos.Zabs x D T - 1) + 4 * ∑ n, zExp2 (Eos.Cabs x) 1 (Eos.Kcubed x * D) T n
      + ∑ n, zExp3 (Eos.Cabs x) 1 (Eos.Kcubed x * D) T n) / D := by
  rw [zExp2_sum, zExp3_sum]
  unfold Eos.pressureDDAbs Eos.expSizes Eos.grow3 Eos.grow2 Eos.grow1 Eos.slope
  simp only [one_mul]

theorem apFour : Ap (f% 4.0 : Float) 4 4 0 0 2 := by
  have h : decR ⟨4, 0⟩ = 4 := by simp [decR]
  have := Ap.litExPos (d := ⟨4, 0⟩) (l := 0) (h := 2) (by decide +kernel) (by norm_num)
  rwa [h] at this

theorem ap_dcurv (hL : LibmAccurate) {q : Pub Float} (hq : ErrDomain q) (hD : 1e-4 ≤ toR q.d) :
    Ap (propertiesP (freshOf q)).d2p_dd2 (Eos.pressureDD (fracs q) (toR q.d) (toR q.t))
      (Eos.pressureDDAbs (fracs q) (toR q.d) (toR q.t)) 6162400 960 740 := by
  have hc := close_of_domain hL hq (fill 4 (fill 4 (f% 0.0)))
  obtain ⟨et, ed⟩ := refresh_td (freshOf q) (fill 4 (fill 4 (f% 0.0)))
  have D0 : 0 < toR q.d := lt_of_lt_of_le (by norm_num) hD
  have Ad := hc.d
  rw [ed, fresh_d] at Ad
  have ea : (propsMid (freshOf q)).ar = arF q := by rw [propsMid_ar, ar_alpharP]; rfl
  have edd : (propsMid (freshOf q)).d = q.d := (propsMid_d _).trans (fresh_d q)
  have := (((ap2.mul (ap_ar01 hL hc 2)).add (apFour.mul (ap_ar02 hL hc 2))).add (ap_ar03 hL hc 2)).div Ad D0
  rw [propertiesP_eq, propsFinish_d2p_dd2, edd, if_pos (eps_lt Ad hD), ea, pressureDD_sum _ D0.ne', pressureDDAbs_sum,
    ← zsum_Z, ← zsum_Zabs]
  have e : ∀ (R : ℝ) (f g h : Fin 58 → ℝ), 2 * ∑ n, R * f n + 4 * ∑ n, R * g n + ∑ n, R * h n
      = R * (2 * (1 + ∑ n, f n - 1) + 4 * ∑ n, g n + ∑ n, h n) := by
    intro R f g h
    rw [← Finset.mul_sum, ← Finset.mul_sum, ← Finset.mul_sum]
    ring
  rw [e, e] at this
  exact this.weak (by norm_num) (by norm_num) (by norm_num)

end Aga8.Detail
