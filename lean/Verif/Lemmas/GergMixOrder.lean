import Verif.Lemmas.GergMixDens
import Verif.Lemmas.GergErrEnergy
import Verif.Lemmas.NgOrder

/-! # How the density of a gas mixture follows pressure and temperature -/

set_option linter.unusedSectionVars false

namespace Aga8.GergEos.MixTab

variable (t : MixTab)

/-- The slope of the pressure with the temperature on the rectangle, for densities up to `dm`. -/
def tempChk (dm a : ℚ) (i j : ℕ) : Bool :=
  let w := t.wQ dm i j
  decide (w * t.comb Thr.z i j < 1) && decide (a * (1 + w * t.comb Thr.zu i j) ≤ 1 - w * t.comb Thr.t i j)

end Aga8.GergEos.MixTab

namespace Aga8.GergEos.MixT

theorem tempA : ((List.range 33).all fun i => (List.range 2).all fun j => tab.tempChk 0.1 0.9 i j) = true := by decide +kernel

end Aga8.GergEos.MixT

namespace Aga8.Gerg

open GergEos GergEos.MixTab

variable {x : Vector ℝ 22} (hP : Present x) (hx0 : ∀ i : Fin 22, 1 ≤ i.1 → 0 ≤ yOf x i)
  (s2 : ∑ i : Fin 22 with 1 ≤ i.1, yOf x i ≤ 1.01)
include hP hx0 s2

theorem order_Tr : 0 < Tr (yOf x) := by rw [← trX_eq]; exact hP.tr_pos

/-- The slopes along an isotherm. -/
theorem isotherm (v0 : 0 ≤ invRhoR (yOf x)) {T d0 : ℝ} (T0 : 0 < T) (t1 : 1.1 * Tr (yOf x) ≤ T) (t2 : T ≤ 100 * Tr (yOf x))
    (hd0 : 0 ≤ d0) (hd : d0 * invRhoR (yOf x) ≤ if Tr (yOf x) / T ≤ 8 / 10 then 0.06 else 0.05) :
    ∃ ρ m, 0 < ρ ∧ ρ ≤ 0.25 ∧ 0.807 ≤ m ∧ m ≤ 0.844 ∧ d0 * Real.exp ρ * invRhoR (yOf x) ≤ 0.1 ∧
      (∀ D, 0 ≤ D → D ≤ d0 * Real.exp ρ → 0 < GergEos.Z (yOf x) D T ∧ m * GergEos.Z (yOf x) D T ≤ dPdD (yOf x) D T ∧
        dPdD (yOf x) D T ≤ 1.4 * m * GergEos.Z (yOf x) D T) ∧
      |Real.log (GergEos.Z (yOf x) d0 T)| ≤ 0.4 * m * ρ := by
  have hτ : 0 < Tr (yOf x) / T := div_pos (order_Tr hP hx0 s2) T0
  obtain ⟨i, m, ρ, dm, S, u0, u1⟩ := MixT.exists_strip (τ := Tr (yOf x) / T) (d0 := d0 * invRhoR (yOf x))
    (by rw [le_div_iff₀ T0]; linarith) (by rw [div_mul_eq_mul_div, div_le_one T0]; linarith) hd
  have m0 : 0 < m := lt_of_lt_of_le (by norm_num) S.m0
  have ρ0 : 0 < ρ := lt_of_lt_of_le (by norm_num) S.r0
  have e1 : d0 * Real.exp ρ * invRhoR (yOf x) = d0 * invRhoR (yOf x) * Real.exp ρ := by ring
  refine ⟨ρ, m, ρ0, S.r1, S.m0, S.m1, ?_, fun D a b => ?_, ?_⟩
  · rw [e1]
    exact S.dm1.trans (S.dm2.trans (by norm_num))
  · have hδ : 0 ≤ D * invRhoR (yOf x) := mul_nonneg a v0
    have hdm : D * invRhoR (yOf x) ≤ dm := by
      refine le_trans ?_ S.dm1
      rw [← e1]
      exact mul_le_mul_of_nonneg_right b v0
    obtain ⟨j, hj, B⟩ := MixT.exists_row S.hi (by norm_num : 1 < 16) u0 u1 hδ
      (hdm.trans (by rw [MixT.rQ_vals.2.1]; have := S.dm2; norm_num at this ⊢; exact this))
    obtain ⟨m', em, hc⟩ := S.slope j hj
    obtain ⟨z, -, -, l, u⟩ := mix_slope MixT.tab_ok hx0 s2 hδ hτ B hdm (by rw [em]; exact m0) hc
    rw [em] at l u
    rw [le_div_iff₀ z] at l
    rw [div_le_iff₀ z] at u
    exact ⟨z, l, u⟩
  · have hδ : 0 ≤ d0 * invRhoR (yOf x) := mul_nonneg hd0 v0
    obtain ⟨b, d', a, hb, c1, c2, c3, c4⟩ := S.start
    obtain ⟨j, hj, B⟩ := MixT.exists_row S.hi hb u0 u1 hδ c2
    have := mix_start MixT.tab_ok hx0 s2 hδ hτ B c1 (by rw [c3]; positivity) (c4 j hj)
    rw [← c3]
    exact this

/-- The slope along an isochor. -/
theorem isochor (v0 : 0 ≤ invRhoR (yOf x)) {T D : ℝ} (T0 : 0 < T) (t1 : 1.1 * Tr (yOf x) ≤ T) (t2 : T ≤ 100 * Tr (yOf x))
    (hD : 0 ≤ D) (hd : D * invRhoR (yOf x) ≤ 0.1) :
    0 < GergEos.Z (yOf x) D T ∧
      0.9 * GergEos.Z (yOf x) D T ≤ 1 + RT x Shape.f1 D T - RT x (fun σ δ => σ.t * σ.f1 δ) D T := by
  have hτ : 0 < Tr (yOf x) / T := div_pos (order_Tr hP hx0 s2) T0
  have hδ : 0 ≤ D * invRhoR (yOf x) := mul_nonneg hD v0
  obtain ⟨i, m, ρ, dm, S, u0, u1⟩ := MixT.exists_strip (τ := Tr (yOf x) / T) (d0 := 0)
    (by rw [le_div_iff₀ T0]; linarith) (by rw [div_mul_eq_mul_div, div_le_one T0]; linarith) (by split_ifs <;> norm_num)
  obtain ⟨j, hj, B⟩ := MixT.exists_row S.hi (by norm_num : 1 < 16) u0 u1 hδ
    (by rw [MixT.rQ_vals.2.1]; norm_num at hd ⊢; linarith)
  have c := List.all_eq_true.1 (List.all_eq_true.1 MixT.tempA i (List.mem_range.2 S.hi)) j (List.mem_range.2 hj)
  unfold tempChk at c
  simp only [Bool.and_eq_true, decide_eq_true_eq] at c
  obtain ⟨k1, k2⟩ := c
  have hd' : D * invRhoR (yOf x) ≤ ((0.1 : ℚ) : ℝ) := by push_cast; exact hd
  generalize (0.1 : ℚ) = dm' at *
  have k1' : (MixT.tab.wQ dm' i j : ℝ) * MixT.tab.comb Thr.z i j < 1 := by exact_mod_cast k1
  have k2' : ((0.9 : ℚ) : ℝ) * (1 + (MixT.tab.wQ dm' i j : ℝ) * MixT.tab.comb Thr.zu i j) ≤ 1 - MixT.tab.wQ dm' i j * MixT.tab.comb Thr.t i j := by
    exact_mod_cast k2
  have w0 : 0 ≤ D * invRhoR (yOf x) * (Tr (yOf x) / T) ^ (t0 : ℝ) := mul_nonneg hδ (Real.rpow_nonneg hτ.le _)
  have wl := wQ_le B hδ hτ hd'
  have S' := MixT.tab_ok.sums B.hi B.hj hx0 s2 hτ B.u0 B.u1 B.r0 B.r1
  obtain ⟨vz, -, vt, -⟩ := mix_values x D hτ
  rw [RT_RS hP, RT_RS hP, vt, vz]
  have z1 := S'.z
  have z2 := S'.zu
  have z3 := S'.pt
  have n1 := MixT.tab.comb_nonneg Thr.z i j
  have n2 := MixT.tab.comb_nonneg Thr.zu i j
  have n3 := MixT.tab.comb_nonneg Thr.t i j
  generalize D * invRhoR (yOf x) * (Tr (yOf x) / T) ^ (t0 : ℝ) = W at *
  generalize (MixT.tab.wQ dm' i j : ℝ) = w at *
  have a1 := mul_le_mul_of_nonneg_left z1 w0
  have a2 := mul_le_mul_of_nonneg_left z2 w0
  have a3 := mul_le_mul_of_nonneg_left z3 w0
  have b1 := mul_le_mul_of_nonneg_right wl n1
  have b2 := mul_le_mul_of_nonneg_right wl n2
  have b3 := mul_le_mul_of_nonneg_right wl n3
  norm_num at k2' ⊢
  constructor <;> linarith

/-- The pressure along an isotherm. -/
theorem order_D {T m D1 : ℝ} (T0 : 0 < T)
    (hs : ∀ D, 0 ≤ D → D ≤ D1 → 0 < GergEos.Z (yOf x) D T ∧ m * GergEos.Z (yOf x) D T ≤ dPdD (yOf x) D T ∧
      dPdD (yOf x) D T ≤ 1.4 * m * GergEos.Z (yOf x) D T) {D D' : ℝ} (hD : 0 < D) (hDD : D ≤ D') (hd : D' ≤ D1) :
    m * (Real.log D' - Real.log D) ≤
        Real.log (D' * 8.314472 * T * GergEos.Z (yOf x) D' T) - Real.log (D * 8.314472 * T * GergEos.Z (yOf x) D T) ∧
      Real.log (D' * 8.314472 * T * GergEos.Z (yOf x) D' T) - Real.log (D * 8.314472 * T * GergEos.Z (yOf x) D T)
        ≤ 1.4 * m * (Real.log D' - Real.log D) := by
  have hτ : 0 < Tr (yOf x) / T := div_pos (order_Tr hP hx0 s2) T0
  refine log_slope (f := fun D => D * 8.314472 * T * GergEos.Z (yOf x) D T) (f' := fun D => 8.314472 * T * dPdD (yOf x) D T) hD hDD
    (fun t _ => ?_) (fun t ht => ?_) fun t ht => ?_
  · refine ((DZ_hasDeriv x t hτ).const_mul (8.314472 * T)).congr_of_eventuallyEq (Filter.Eventually.of_forall fun D => ?_)
    dsimp only
    ring
  · have t0 := hD.trans_le ht.1
    have := (hs t t0.le (ht.2.trans hd)).1
    positivity
  · have t0 := hD.trans_le ht.1
    obtain ⟨z, a1, a2⟩ := hs t t0.le (ht.2.trans hd)
    have c : 0 ≤ t * (8.314472 * T) := by positivity
    have b1 := mul_le_mul_of_nonneg_left a1 c
    have b2 := mul_le_mul_of_nonneg_left a2 c
    constructor
    · calc _ = t * (8.314472 * T) * (m * GergEos.Z (yOf x) t T) := by ring
        _ ≤ _ := b1
        _ = _ := by ring
    · calc _ = t * (8.314472 * T) * dPdD (yOf x) t T := by ring
        _ ≤ _ := b2
        _ = _ := by ring

/-- The pressure along an isochor. -/
theorem order_T (v0 : 0 ≤ invRhoR (yOf x)) {T T' D : ℝ} (T0 : 0 < T) (t1 : 1.1 * Tr (yOf x) ≤ T) (hT : T ≤ T')
    (t2 : T' ≤ 100 * Tr (yOf x)) (hD : 0 < D) (hd : D * invRhoR (yOf x) ≤ 0.1) :
    0.9 * (Real.log T' - Real.log T) ≤
        Real.log (D * 8.314472 * T' * GergEos.Z (yOf x) D T') - Real.log (D * 8.314472 * T * GergEos.Z (yOf x) D T) := by
  have key : ∀ t, 0 < t → HasDerivAt (fun T => D * 8.314472 * T * GergEos.Z (yOf x) D T)
      (D * 8.314472 * (1 + RT x Shape.f1 D t - RT x (fun σ δ => σ.t * σ.f1 δ) D t)) t := by
    intro T hT
    have h2 := (((hasDerivAt_id T).mul ((hasDerivAt_RT x Shape.f1 D hT).const_add 1)).const_mul (D * 8.314472))
    refine (h2.congr_of_eventuallyEq ((eventually_gt_nhds hT).mono fun t ht => ?_)).congr_deriv ?_
    · have hτ : 0 < GergEos.Tr (yOf x) / t := div_pos (order_Tr hP hx0 s2) ht
      simp only [Pi.mul_apply, id]
      rw [Z_RS x D hτ, RT_RS hP]
      ring
    · simp only [id]
      field_simp
      ring
  have h0 : ∀ t ∈ Set.Icc T T', 0 < GergEos.Z (yOf x) D t ∧
      0.9 * GergEos.Z (yOf x) D t ≤ 1 + RT x Shape.f1 D t - RT x (fun σ δ => σ.t * σ.f1 δ) D t := fun t ht =>
    isochor hP hx0 s2 v0 (T0.trans_le ht.1) (t1.trans ht.1) (ht.2.trans t2) hD.le hd
  refine log_slope_low (f := fun t => D * 8.314472 * t * GergEos.Z (yOf x) D t) T0 hT (fun t ht => key t (T0.trans_le ht.1))
    (fun t ht => ?_) fun t ht => ?_
  · have t0 := T0.trans_le ht.1
    have := (h0 t ht).1
    positivity
  · have t0 := T0.trans_le ht.1
    have c : 0 ≤ D * 8.314472 * t := by positivity
    have b := mul_le_mul_of_nonneg_left (h0 t ht).2 c
    calc _ = D * 8.314472 * t * (0.9 * GergEos.Z (yOf x) D t) := by ring
      _ ≤ _ := b
      _ = _ := by ring

end Aga8.Gerg
