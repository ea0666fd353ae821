import Verif.Lemmas.DetailErrLow
import Verif.Lemmas.DetailErrMethane2
import Verif.Lemmas.DetailErrEnergy
import Verif.Lemmas.DetailHeat
import Verif.Spec.CondError

/-! # DETAIL for methane at low density is well conditioned -/

set_option linter.unusedSectionVars false

namespace Aga8.Detail

open FOps Tab F64 HeatCapacity Real

/-! ## Sums over the terms -/

theorem low_sumT : ∑ n, (uq n + 1) * uq n * (lowD n + (bndB n + bndC n)) ≤ 19 ∧
    ∑ n, (uq n + 1) * (lowD n + (bndB n + bndC n)) ≤ 11.2 := by decide +kernel

variable [Libm]

section
variable {C C' : Fin 58 → ℝ} {D r T : ℝ}

theorem abs_zExp0 (hC : ∀ n, |C n| ≤ C' n) (hr : 0 ≤ r) (hT : 0 < T) (n : Fin 58) : |zExp0 C r T n| ≤ zExp0 C' r T n := by
  unfold zExp0
  split
  · have e := (expK_pos (aget KN n) r).le
    have t : 0 ≤ T ^ (-Eos.c UN n) := by positivity
    have b : 0 ≤ r ^ aget BN n := pow_nonneg hr _
    rw [abs_mul, abs_mul, abs_mul, abs_of_nonneg b, abs_of_nonneg t, abs_of_nonneg e]
    exact mul_le_mul_of_nonneg_right (mul_le_mul_of_nonneg_right (mul_le_mul_of_nonneg_right (hC n) b) t) e
  · simp

theorem zExp0_le (hC : ∀ n, 0 ≤ C n) (hr : 0 ≤ r) (hT : 0 < T) (n : Fin 58) : zExp0 C r T n ≤ zExp C 1 r T n := by
  unfold zExp0 zExp
  split
  · have e := (expK_pos (aget KN n) r).le
    have b : 0 ≤ r ^ aget BN n := pow_nonneg hr _
    have k : 0 ≤ ((aget KN n : ℕ) : ℝ) * r ^ aget KN n := by positivity
    have n1 : (1 : ℝ) ≤ ((aget BN n : ℕ) : ℝ) := by exact_mod_cast lowBN n
    have := hC n
    exact le_mul_of_one_le_right (by positivity) (by linarith)
  · exact le_refl _

end

section
variable {D T : ℝ} (h1 : 1.21 * mE ≤ T) (h2 : T ≤ 4 * mE)
include h1 h2

theorem terms_low (hD : 0 ≤ D) (hr : mK ^ 3 * D ≤ 0.01) (n : Fin 58) :
    |tv (posPart mx) D T n| ≤ ta (posPart mx) D T n ∧ |tvZ (posPart mx) D T n| ≤ taZ (posPart mx) D T n ∧
    ta (posPart mx) D T n ≤ taZ (posPart mx) D T n ∧
    taZ (posPart mx) D T n ≤ mK ^ 3 * D * ((lowD n + (bndB n + bndC n) : ℚ) : ℝ) := by
  have hT : 0 < T := by have := mE_pos; linarith
  have r0 : 0 ≤ mK ^ 3 * D := mul_nonneg (pow_nonneg mK_pos.le 3) hD
  have hr' : mK ^ 3 * D ≤ (lowR : ℝ) := by rw [lowR]; push_cast; norm_num at hr ⊢; exact hr
  have hC : ∀ n, |Eos.Cstar (posPart mx) n| ≤ Eos.Cabs (posPart mx) n := fun n => by
    rw [Cstar_mx, Cabs_mx]
    split
    · rw [abs_mul, abs_of_nonneg (by have := mE_pos; positivity : (0 : ℝ) ≤ mE ^ Eos.c UN n)]
    · simp
  have hS : ∀ n : Fin 18, 0 ≤ ∑ i, ∑ j, posPart mx i * posPart mx j * bTerm n i j := fun n => by
    rw [bsum_mx h1 h2]
    have := mE_pos
    have := mK_pos
    split <;> positivity
  have zl := abs_zLin hC hS (fun n => Eos.c AN ⟨n.1, by omega⟩) hD r0 hT n
  unfold tv ta tvZ taZ
  rw [Kcubed_mx]
  refine ⟨(abs_add_le _ _).trans (add_le_add (abs_zExp0 hC r0 hT n) zl),
    (abs_add_le _ _).trans (add_le_add (abs_zExp hC r0 hT n) zl),
    add_le_add (zExp0_le (fun n => (abs_nonneg _).trans (hC n)) r0 hT n) le_rfl, ?_⟩
  rw [Rat.cast_add, mul_add]
  exact add_le_add (zExp_low h1 h2 r0 hr' n).1 (zLin_low h1 h2 hD n)

theorem sums_low (hD : 0 ≤ D) (hr : mK ^ 3 * D ≤ 0.01) :
    ∑ n, (|Eos.c UN n| + 1) * |Eos.c UN n| * ta (posPart mx) D T n ≤ 0.19 ∧
    ∑ n, (|Eos.c UN n| + 1) * taZ (posPart mx) D T n ≤ 0.112 ∧
    |∑ n, (Eos.c UN n - 1) * Eos.c UN n * tv (posPart mx) D T n| ≤ 0.19 ∧
    |∑ n, (Eos.c UN n - 1) * tvZ (posPart mx) D T n| ≤ 0.112 := by
  have r0 : 0 ≤ mK ^ 3 * D := mul_nonneg (pow_nonneg mK_pos.le 3) hD
  have t := terms_low h1 h2 hD hr
  have s2 : ((∑ n, (uq n + 1) * uq n * (lowD n + (bndB n + bndC n)) : ℚ) : ℝ) ≤ 19 := by exact_mod_cast low_sumT.1
  have s1 : ((∑ n, (uq n + 1) * (lowD n + (bndB n + bndC n)) : ℚ) : ℝ) ≤ 11.2 := by
    have := (Rat.cast_le (K := ℝ)).2 low_sumT.2
    refine this.trans (by norm_num)
  have a2 : ∑ n, (|Eos.c UN n| + 1) * |Eos.c UN n| * ta (posPart mx) D T n ≤ 0.19 := by
    have : ∑ n, (|Eos.c UN n| + 1) * |Eos.c UN n| * ta (posPart mx) D T n
        ≤ ∑ n, mK ^ 3 * D * (((uq n + 1) * uq n * (lowD n + (bndB n + bndC n)) : ℚ) : ℝ) := by
      refine Finset.sum_le_sum fun n _ => ?_
      have := mul_le_mul_of_nonneg_left ((t n).2.2.1.trans (t n).2.2.2) (by positivity : 0 ≤ (|Eos.c UN n| + 1) * |Eos.c UN n|)
      refine this.trans (le_of_eq ?_)
      push_cast
      rw [uq_real]
      ring
    rw [← Finset.mul_sum, ← Rat.cast_sum] at this
    have := this.trans (mul_le_mul hr s2 (by
      rw [Rat.cast_sum]
      exact Finset.sum_nonneg fun n _ => by
        have := (abs_nonneg _).trans (t n).1
        exact_mod_cast (by
          have u : 0 ≤ uq n := by unfold uq; positivity
          have a : 0 ≤ aabs n := by unfold aabs; positivity
          have b : 0 ≤ tb n := by
            have := theta_le h1 h2 n
            exact_mod_cast this.1.trans this.2
          have l : 0 ≤ lowD n + (bndB n + bndC n) := by
            unfold lowD bndB bndC lowK lowR
            have : ∀ p : Prop, [Decidable p] → ∀ y : ℚ, 0 ≤ y → 0 ≤ if p then y else 0 := by
              intro p _ y hy; split <;> [exact hy; exact le_refl _]
            refine add_nonneg (this _ _ (by positivity)) (add_nonneg (this _ _ (by positivity)) (this _ _ (by positivity)))
          positivity : (0 : ℚ) ≤ (uq n + 1) * uq n * (lowD n + (bndB n + bndC n)))) (by norm_num))
    norm_num at this ⊢
    linarith
  have a1 : ∑ n, (|Eos.c UN n| + 1) * taZ (posPart mx) D T n ≤ 0.112 := by
    have : ∑ n, (|Eos.c UN n| + 1) * taZ (posPart mx) D T n
        ≤ mK ^ 3 * D * ∑ n, (((uq n + 1) * (lowD n + (bndB n + bndC n)) : ℚ) : ℝ) := by
      rw [Finset.mul_sum]
      refine Finset.sum_le_sum fun n _ => ?_
      have := mul_le_mul_of_nonneg_left (t n).2.2.2 (by positivity : 0 ≤ |Eos.c UN n| + 1)
      refine this.trans (le_of_eq ?_)
      push_cast
      rw [uq_real]
      ring
    rw [← Rat.cast_sum] at this
    have k := mul_le_mul_of_nonneg_left s1 r0
    norm_num at this k hr ⊢
    linarith
  refine ⟨a2, a1, ?_, ?_⟩
  · refine (Finset.abs_sum_le_sum_abs _ _).trans ((Finset.sum_le_sum fun n _ => ?_).trans a2)
    rw [abs_mul, abs_mul]
    refine mul_le_mul (mul_le_mul_of_nonneg_right ?_ (abs_nonneg _)) (t n).1 (abs_nonneg _) (by positivity)
    have := abs_sub (Eos.c UN n) 1
    rwa [abs_one] at this
  · refine (Finset.abs_sum_le_sum_abs _ _).trans ((Finset.sum_le_sum fun n _ => ?_).trans a1)
    rw [abs_mul]
    refine mul_le_mul ?_ (t n).2.1 (abs_nonneg _) (by positivity)
    have := abs_sub (Eos.c UN n) 1
    rwa [abs_one] at this

end

/-! ## The ideal gas -/

theorem iv2_mx (T : ℝ) : ∑ i, iv2 T (posPart mx i) i = -(aget2 (params (newP : Detail ℝ)).n0i 0 2 + H2 (params (newP : Detail ℝ)) 0 T) := by
  have : ∀ i, iv2 T (posPart mx i) i = posPart mx i * -(nv i 2 - 1 + ∑ j with 3 ≤ j.1, hv2 i T j) := fun i => by
    unfold iv2; ring
  simp only [this]
  rw [sum_mx fun i => -(nv i 2 - 1 + ∑ j with 3 ≤ j.1, hv2 i T j), (nv_eq0 0).2.2, (H_eq 0 T).2.2]

theorem is2_mx (T : ℝ) : ∑ i, is2 T (posPart mx i) i = Eos.idealSize2 (GergEos.ideal.getD 0 Inhabited.default) T := by
  simp only [(is_eq 0 _ _ _).2.2]
  exact sum_mx fun i => Eos.idealSize2 (GergEos.ideal.getD i.1 Inhabited.default) T

theorem ideal_low {T : ℝ} (hT : 0 < T) : 3 ≤ -∑ i, iv2 T (posPart mx i) i ∧ -∑ i, iv2 T (posPart mx i) i ≤ 40 ∧
    ∑ i, is2 T (posPart mx i) i ≤ 4.43 * -∑ i, iv2 T (posPart mx i) i := by
  rw [iv2_mx, is2_mx, neg_neg, (nv_eq0 0).2.2, H2_eq]
  obtain ⟨-, -, t3, t4, t5, t6, t7, t8, t9, t10, t11⟩ := ideal_table 0
  have e2 : nv 0 2 = 4.00088 := by
    unfold nv; rw [decR_decQ, ← t3, show (0 : Fin 21).1 = 0 from rfl, ideal_mx]; norm_num
  rw [show (0 : Fin 21).1 = 0 from rfl, ideal_mx] at t4 t5 t6 t7 t8 t9 t10 t11
  rw [e2, ideal_mx, ← t4, ← t5, ← t6, ← t7, ← t8, ← t9, ← t10, ← t11]
  clear t3 t4 t5 t6 t7 t8 t9 t10 t11 e2
  have k := terms_ge (n4 := ((0.76315 : ℚ) : ℝ)) (n5 := ((0.0046 : ℚ) : ℝ)) (n6 := ((8.74432 : ℚ) : ℝ)) (n7 := ((-4.46921 : ℚ) : ℝ))
    (t4 := ((820.659 : ℚ) : ℝ)) (t5 := ((178.41 : ℚ) : ℝ)) (t6 := ((1062.82 : ℚ) : ℝ)) (t7 := ((1090.53 : ℚ) : ℝ)) (T := T)
    (by norm_num) (by norm_num) (Or.inr ⟨by norm_num, by norm_num, by norm_num⟩) hT
  unfold Eos.idealSize2
  dsimp only
  have a := xsinh_sq (x := ((820.659 : ℚ) : ℝ) / T) (by positivity)
  have b := xcosh_sq (x := ((178.41 : ℚ) : ℝ) / T) (by positivity)
  have c := xsinh_sq (x := ((1062.82 : ℚ) : ℝ) / T) (by positivity)
  have d := cosh_term_le (((1090.53 : ℚ) : ℝ) / T)
  have a0 := sq_nonneg (((820.659 : ℚ) : ℝ) / T / Real.sinh (((820.659 : ℚ) : ℝ) / T))
  have b0 := sq_nonneg (((178.41 : ℚ) : ℝ) / T / Real.cosh (((178.41 : ℚ) : ℝ) / T))
  have c0 := sq_nonneg (((1062.82 : ℚ) : ℝ) / T / Real.sinh (((1062.82 : ℚ) : ℝ) / T))
  have d0 := sq_nonneg (((1090.53 : ℚ) : ℝ) / T / Real.cosh (((1090.53 : ℚ) : ℝ) / T))
  generalize (((820.659 : ℚ) : ℝ) / T / Real.sinh (((820.659 : ℚ) : ℝ) / T)) ^ 2 = A at *
  generalize (((178.41 : ℚ) : ℝ) / T / Real.cosh (((178.41 : ℚ) : ℝ) / T)) ^ 2 = B at *
  generalize (((1062.82 : ℚ) : ℝ) / T / Real.sinh (((1062.82 : ℚ) : ℝ) / T)) ^ 2 = C at *
  generalize (((1090.53 : ℚ) : ℝ) / T / Real.cosh (((1090.53 : ℚ) : ℝ) / T)) ^ 2 = E at *
  norm_num [abs_of_pos, abs_of_neg] at k a b c d ⊢
  refine ⟨by linarith, by linarith, by linarith⟩

/-- The last step: reals only. -/
theorem cond_finish {D T z y1 y2 d C V P : ℝ} (D0 : 0 < D) (hD : 1e-4 ≤ D) (D1 : D ≤ 1000) (T1 : 1 ≤ T) (T2 : T ≤ 10000)
    (hZ : -0.05 ≤ z - 1 ∧ z - 1 ≤ 0.05) (hd : -0.108 ≤ d - 1 ∧ d - 1 ≤ 0.108)
    (h1 : -0.112 ≤ y1 ∧ y1 ≤ 0.112) (h2 : -0.19 ≤ y2 ∧ y2 ≤ 0.19) (i1 : 3 ≤ C) (i3 : C ≤ 40)
    (j3 : V ≤ 8.31451 * (4.43 * C + 0.19)) (j4 : P ≤ D * 8.31451 * (1 + 0.112)) :
    1.05 ≤ 5 * z ∧ 1e-8 ≤ z ∧ z ≤ 1e20 ∧ (∀ s, s ≤ 8.31451 * T * 1.108 → s ≤ 5 * (8.31451 * T * d)) ∧
    1e-8 ≤ 8.31451 * T * d ∧ 8.31451 * T * d ≤ 1e20 ∧
    WellSized (D * 8.31451 * (1 - y1)) P 5 ∧ WellSized (8.31451 * (C - y2)) V 5 := by
  norm_num at hZ hd h1 h2 i1 j3 j4 hD ⊢
  have a1 : 1 * (4 / 5) ≤ T * d := mul_le_mul T1 (by linarith) (by norm_num) (by linarith)
  have a2 : T * d ≤ 10000 * 2 := mul_le_mul T2 (by linarith) (by linarith) (by norm_num)
  have a3 : D * (4 / 5) ≤ D * (1 - y1) := mul_le_mul_of_nonneg_left (by linarith) D0.le
  have a4 : D * (1 - y1) ≤ D * 2 := mul_le_mul_of_nonneg_left (by linarith) D0.le
  have a5 : T * (4 / 5) ≤ T * d := mul_le_mul_of_nonneg_left (by linarith) (by linarith)
  refine ⟨by linarith, by linarith, by linarith, fun s hs => by linarith, by linarith, by linarith, ?_, ?_⟩
  · refine ⟨?_, ?_, ?_⟩
    · linarith
    · norm_num; linarith
    · norm_num; linarith
  · refine ⟨?_, ?_, ?_⟩
    · linarith
    · norm_num; linarith
    · norm_num; linarith

/-- Methane between 184 and 600 K at low density: nothing loses more than a factor 5 to cancellation. -/
theorem conditioned_low {D T : ℝ} (t1 : 184 ≤ T) (t2 : T ≤ 600) (hD : 1e-4 ≤ D) (hD1 : D ≤ 0.1) :
    Eos.Conditioned (posPart mx) D T 5 := by
  have e1 : 1.21 * mE ≤ T := by unfold mE; norm_num; linarith
  have e2 : T ≤ 4 * mE := by unfold mE; norm_num; linarith
  have hr : mK ^ 3 * D ≤ 0.01 := by unfold mK; norm_num at hD1 ⊢; linarith
  have D0 : 0 < D := lt_of_lt_of_le (by norm_num) hD
  have T0 : 0 < T := by linarith
  have hx0 : ∀ i, 0 ≤ posPart mx i := fun i => le_max_right _ _
  obtain ⟨c1, c2, c3, c4⟩ := mx_low e1 e2 D0.le hr
  obtain ⟨s1, s2, s3, s4⟩ := sums_low e1 e2 D0.le hr
  obtain ⟨i1, i2, i3⟩ := ideal_low T0
  have pT : Eos.pressureT (posPart mx) D T = D * 8.31451 * (1 - ∑ n, (Eos.c UN n - 1) * tvZ (posPart mx) D T n) := by
    rw [pressureT_sum T0, Finset.sum_neg_distrib]
    simp only [mul_assoc, ← Finset.mul_sum]
    ring
  have hV : Eos.heatV (posPart mx) D T = 8.31451 * (-∑ i, iv2 T (posPart mx i) i
      - ∑ n, (Eos.c UN n - 1) * Eos.c UN n * tv (posPart mx) D T n) := by
    rw [heatV_sum hx0 (lt_of_lt_of_le (by norm_num) hD) T0]
    simp only [mul_assoc, ← Finset.mul_sum]
    ring
  have j3 : Eos.heatVAbs (posPart mx) D T ≤ 8.31451 * (4.43 * -∑ i, iv2 T (posPart mx i) i + 0.19) := by
    rw [heatVAbs_sum]
    have : ∑ n, 8.31451 * (|Eos.c UN n| + 1) * |Eos.c UN n| * ta (posPart mx) D T n
        = 8.31451 * ∑ n, (|Eos.c UN n| + 1) * |Eos.c UN n| * ta (posPart mx) D T n := by
      simp only [mul_assoc, ← Finset.mul_sum]
    rw [this, mul_comm _ (8.31451 : ℝ), ← mul_add]
    exact mul_le_mul_of_nonneg_left (add_le_add i3 s1) (by norm_num)
  have j4 : Eos.pressureTAbs (posPart mx) D T ≤ D * 8.31451 * (1 + 0.112) := by
    rw [pressureTAbs_sum]
    have : D * 8.31451 + D * ∑ n, 8.31451 * (|Eos.c UN n| + 1) * taZ (posPart mx) D T n
        = D * 8.31451 * (1 + ∑ n, (|Eos.c UN n| + 1) * taZ (posPart mx) D T n) := by
      simp only [mul_assoc, ← Finset.mul_sum]
      ring
    rw [this]
    exact mul_le_mul_of_nonneg_left (add_le_add le_rfl s2) (by positivity)
  have w := cond_finish (T := T) D0 hD (by norm_num at hD1; linarith) (by linarith) (by linarith) (abs_le.1 c1) (abs_le.1 c2) (abs_le.1 s4)
    (abs_le.1 s3) i1 i2 j3 j4
  rw [← pT, ← hV] at w
  exact ⟨by norm_num, ⟨by linarith [w.1], w.2.1, w.2.2.1⟩,
    ⟨w.2.2.2.1 _ (mul_le_mul_of_nonneg_left c4 (by positivity)), w.2.2.2.2.1, w.2.2.2.2.2.1⟩, w.2.2.2.2.2.2.1, w.2.2.2.2.2.2.2⟩

end Aga8.Detail
