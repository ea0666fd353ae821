import Verif.Lemmas.GergMixUpper
import Verif.Lemmas.GergErrCond

/-! # The range of the properties of a gas mixture up to a tenth of the reducing density -/

set_option linter.unusedSectionVars false

namespace Aga8.GergEos

open Mix

namespace MixTab

variable (t : MixTab)

/-- The size of the sums on the rectangle, for densities up to `dm`. -/
def rangeChk (dm : ℚ) (i j : ℕ) : Bool :=
  let w := t.wQ dm i j
  decide (w * t.comb Thr.z i j ≤ 0.146) && decide (w * t.comb Thr.zu i j ≤ 0.088) && decide (w * t.comb Thr.p i j ≤ 0.298) &&
  decide (w * t.comb Thr.pu i j ≤ 0.176) && decide (w * t.comb Thr.t i j ≤ 0.0064) && decide (w * t.comb Thr.ta i j ≤ 3.862) &&
  decide (w * t.comb Thr.v i j ≤ 0.0184) && decide (w * t.comb Thr.va i j ≤ 4.99) &&
  decide (w * t.comb Thr.za i j ≤ 1.91)

end MixTab

theorem MixT.range10 : ((List.range 33).all fun i => (List.range 2).all fun j => tab.rangeChk 0.1 i j) = true := by decide +kernel

end Aga8.GergEos

namespace Aga8.Gerg

open GergEos GergEos.MixTab

variable {x : Vector ℝ 22} (hP : Present x) (hx0 : ∀ i : Fin 22, 1 ≤ i.1 → 0 ≤ yOf x i)
  (s1 : 0.99 ≤ ∑ i : Fin 22 with 1 ≤ i.1, yOf x i) (s2 : ∑ i : Fin 22 with 1 ≤ i.1, yOf x i ≤ 1.01)
include hP hx0 s2

/-- The compression factor, the slopes of the pressure and the residual heat capacity. -/
theorem range_sums (v0 : 0 ≤ invRhoR (yOf x)) {T D : ℝ} (T0 : 0 < T) (t1 : 1.1 * Tr (yOf x) ≤ T) (t2 : T ≤ 100 * Tr (yOf x))
    (hD : 0 ≤ D) (hd : D * invRhoR (yOf x) ≤ 0.1) :
    (0.854 ≤ GergEos.Z (yOf x) D T ∧ GergEos.Z (yOf x) D T ≤ 1.088) ∧ (0.702 ≤ dPdD (yOf x) D T ∧ dPdD (yOf x) D T ≤ 1.176) ∧
    (0.9936 ≤ 1 + RT x Shape.f1 D T - RT x (fun σ δ => σ.t * σ.f1 δ) D T ∧
      1 + RT x Shape.f1 D T - RT x (fun σ δ => σ.t * σ.f1 δ) D T ≤ 4.862) ∧
    (-4.99 ≤ RT x (fun σ _ => σ.t * (σ.t - 1)) D T ∧ RT x (fun σ _ => σ.t * (σ.t - 1)) D T ≤ 0.0184) ∧
    res20 (yOf x) D T ≤ 4.99 ∧ GergEos.Zabs (yOf x) D T ≤ 2.91 := by
  have hτ : 0 < Tr (yOf x) / T := div_pos (order_Tr hP hx0 s2) T0
  have hδ : 0 ≤ D * invRhoR (yOf x) := mul_nonneg hD v0
  obtain ⟨i, m, ρ, dm', S, u0, u1⟩ := MixT.exists_strip (τ := Tr (yOf x) / T) (d0 := 0)
    (by rw [le_div_iff₀ T0]; linarith) (by rw [div_mul_eq_mul_div, div_le_one T0]; linarith) (by split_ifs <;> norm_num)
  obtain ⟨j, hj, B⟩ := MixT.exists_row S.hi (by norm_num : 1 < 16) u0 u1 hδ
    (by rw [MixT.rQ_vals.2.1]; norm_num at hd ⊢; linarith)
  have c := List.all_eq_true.1 (List.all_eq_true.1 MixT.range10 i (List.mem_range.2 S.hi)) j (List.mem_range.2 hj)
  unfold rangeChk at c
  simp only [Bool.and_eq_true, decide_eq_true_eq] at c
  obtain ⟨⟨⟨⟨⟨⟨⟨⟨c1, c2⟩, c3⟩, c4⟩, c5⟩, c6⟩, c7⟩, c8⟩, c9⟩ := c
  have w0 : 0 ≤ D * invRhoR (yOf x) * (Tr (yOf x) / T) ^ (t0 : ℝ) := mul_nonneg hδ (Real.rpow_nonneg hτ.le _)
  have wl := wQ_le (dm := 0.1) B hδ hτ (hd.trans (le_of_eq (by norm_num)))
  have S' := MixT.tab_ok.sums B.hi B.hj hx0 s2 hτ B.u0 B.u1 B.r0 B.r1
  obtain ⟨vz, vp, vt, vv⟩ := mix_values x D hτ
  have r20 : |RS x (fun σ _ => σ.t * (σ.t - 1)) (D * invRhoR (yOf x)) (Tr (yOf x) / T)|
      ≤ D * invRhoR (yOf x) * (Tr (yOf x) / T) ^ (t0 : ℝ)
        * mixAbs a2 (fun _ _ => 1) (yOf x) (D * invRhoR (yOf x)) (Tr (yOf x) / T) := by
    refine (abs_RS_le x (facA := fun σ _ => σ.t * (σ.t + 1)) hδ (fun σ σA h => ?_) _).trans (le_of_eq ?_)
    · rw [abs_mul]
      have h2 : |σ.t - 1| ≤ σA.t + 1 := by
        have := abs_sub σ.t 1
        rw [abs_one] at this
        linarith [h.t]
      exact mul_le_mul h.t h2 (abs_nonneg _) ((abs_nonneg _).trans h.t)
    · rw [RA_eq growT2 _ _ hτ]
      exact sizes_V _ _ hτ
  have ea : GergEos.Zabs (yOf x) D T = 1 + D * invRhoR (yOf x) * (Tr (yOf x) / T) ^ (t0 : ℝ)
      * mixAbs q0 Key.hZa (yOf x) (D * invRhoR (yOf x)) (Tr (yOf x) / T) := by
    unfold GergEos.Zabs
    rw [sizes_Z _ _ hτ]
  have ev : res20 (yOf x) D T = D * invRhoR (yOf x) * (Tr (yOf x) / T) ^ (t0 : ℝ)
      * mixAbs a2 (fun _ _ => 1) (yOf x) (D * invRhoR (yOf x)) (Tr (yOf x) / T) := sizes_V _ _ hτ
  rw [RT_RS hP, RT_RS hP, RT_RS hP, vt, vz, vp, ea, ev]
  rw [vv] at r20 ⊢
  have st := mixSum_le hx0 hδ hτ
  have cb : ∀ {g : Thr → ℕ} {s : ℝ} {q : ℚ}, s ≤ (MixT.tab.comb g i j : ℝ) → MixT.tab.wQ 0.1 i j * MixT.tab.comb g i j ≤ q →
      D * invRhoR (yOf x) * (Tr (yOf x) / T) ^ (t0 : ℝ) * s ≤ q := by
    intro g s q h1 h2
    have h2' : (MixT.tab.wQ 0.1 i j : ℝ) * MixT.tab.comb g i j ≤ q := by exact_mod_cast h2
    have h3 := mul_le_mul_of_nonneg_left h1 w0
    have h4 := mul_le_mul_of_nonneg_right wl (MixT.tab.comb_nonneg g i j)
    linarith
  have k1 := cb (neg_le.1 S'.z) c1
  have k2 := cb S'.zu c2
  have k3 := cb (neg_le.1 S'.p) c3
  have k4 := cb S'.pu c4
  have k5 := cb (neg_le.1 S'.pt) c5
  have k6 := cb (st.trans S'.ta) c6
  have k7 := cb S'.v c7
  have k8 := cb S'.va c8
  have k9 := (abs_le.1 r20).1
  have k10 := cb S'.za c9
  generalize D * invRhoR (yOf x) * (Tr (yOf x) / T) ^ (t0 : ℝ) = W at *
  norm_num at k1 k2 k3 k4 k5 k6 k7 k8 k10 ⊢
  refine ⟨⟨?_, ?_⟩, ⟨?_, ?_⟩, ⟨?_, ?_⟩, ⟨?_, ?_⟩, ?_, ?_⟩ <;> linarith

include s1 in
/-- The ideal-gas part of the isochoric heat capacity. -/
theorem range_ideal {T : ℝ} (T0 : 0 < T) : 1.478 * 0.99 ≤ -I2 m0 x T ∧ -I2 m0 x T ≤ 130 := by
  constructor
  · exact (mul_le_mul_of_nonneg_left s1 (by norm_num)).trans (heat_ge x T0)
  · have : -I2 m0 x T ≤ ∑ i : Fin 22 with 1 ≤ i.1, yOf x i * 128.1 := by
      unfold I2
      rw [← Finset.sum_neg_distrib]
      refine Finset.sum_le_sum fun i hi => ?_
      have hi' := (Finset.mem_filter.1 hi).2
      have := mul_le_mul_of_nonneg_left (comp_upper i hi' T0) (hx0 i hi')
      unfold yOf at this ⊢
      split_ifs at this ⊢
      · linarith
      · simp
    rw [← Finset.sum_mul] at this
    norm_num at s2
    linarith

include s1 in
/-- The heat capacities of a gas mixture up to a tenth of the reducing density. -/
theorem range_heat (v0 : 0 ≤ invRhoR (yOf x)) {T D : ℝ} (T0 : 0 < T) (t1 : 1.1 * Tr (yOf x) ≤ T) (t2 : T ≤ 100 * Tr (yOf x))
    (hD : 1e-4 ≤ D) (hd : D * invRhoR (yOf x) ≤ 0.1) :
    12.01 ≤ heatV (yOf x) D T ∧ heatV (yOf x) D T ≤ 1122.5 ∧ 6.97 ≤ heatP (yOf x) D T - heatV (yOf x) D T ∧
      heatP (yOf x) D T - heatV (yOf x) D T ≤ 280 := by
  have D0 : 0 < D := lt_of_lt_of_le (by norm_num) hD
  obtain ⟨-, ⟨c1, c2⟩, ⟨c3, c4⟩, ⟨c5, c6⟩, -⟩ := range_sums hP hx0 s2 v0 T0 t1 t2 D0.le hd
  obtain ⟨i1, i2⟩ := range_ideal hP hx0 s1 s2 T0
  have hV : heatV (yOf x) D T = 8.314472 * (-I2 m0 x T - RT x (fun σ _ => σ.t * (σ.t - 1)) D T) := by
    rw [heatV_I hP (lt_of_lt_of_le (by norm_num) hD) T0]
    ring
  have h : heatP (yOf x) D T - heatV (yOf x) D T = 8.314472
      * ((1 + RT x Shape.f1 D T - RT x (fun σ δ => σ.t * σ.f1 δ) D T) ^ 2 / dPdD (yOf x) D T) := by
    have d0 : dPdD (yOf x) D T ≠ 0 := (lt_of_lt_of_le (by norm_num) c1).ne'
    unfold heatP isobaric pressureD
    rw [pressureT_I hP T0]
    field_simp
    ring
  rw [h, hV]
  generalize 1 + RT x Shape.f1 D T - RT x (fun σ δ => σ.t * σ.f1 δ) D T = y1 at *
  generalize RT x (fun σ _ => σ.t * (σ.t - 1)) D T = y2 at *
  generalize dPdD (yOf x) D T = d at *
  generalize -I2 m0 x T = C at *
  clear h hV hx0 s1 s2
  norm_num at c1 c2 c3 c4 c5 c6 i1 i2 ⊢
  have d0 : 0 < d := by linarith
  refine ⟨by linarith, by linarith, ?_, ?_⟩
  · have : (8393 / 10000 : ℝ) ≤ y1 ^ 2 / d := by
      rw [le_div_iff₀ d0]
      nlinarith
    linarith
  · have : y1 ^ 2 / d ≤ 33.675 := by
      rw [div_le_iff₀ d0]
      norm_num
      nlinarith
    norm_num at this
    linarith

end Aga8.Gerg
