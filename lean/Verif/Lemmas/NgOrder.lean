import Verif.Lemmas.NgCond

/-! # How the density of natural gas follows pressure and temperature -/

set_option linter.unusedSectionVars false

namespace Aga8

/-- A function whose logarithmic slope is at least `a`. -/
theorem log_slope_low {f f' : ℝ → ℝ} {a x y : ℝ} (hx : 0 < x) (hxy : x ≤ y) (hf : ∀ t ∈ Set.Icc x y, HasDerivAt f (f' t) t)
    (h0 : ∀ t ∈ Set.Icc x y, 0 < f t) (h : ∀ t ∈ Set.Icc x y, a * f t ≤ t * f' t) :
    a * (Real.log y - Real.log x) ≤ Real.log (f y) - Real.log (f x) := by
  have key : ∀ c t, t ∈ Set.Icc x y → HasDerivAt (fun t => Real.log (f t) - c * Real.log t) (f' t / f t - c * t⁻¹) t :=
    fun c t ht => ((hf t ht).log (h0 t ht).ne').sub ((Real.hasDerivAt_log (hx.trans_le ht.1).ne').const_mul c)
  have m := monotoneOn_of_deriv_nonneg (convex_Icc x y) (f := fun t => Real.log (f t) - a * Real.log t)
    (fun t ht => (key a t ht).continuousAt.continuousWithinAt)
    (fun t ht => (key a t (interior_subset ht)).differentiableAt.differentiableWithinAt) fun t ht => by
      have ht := interior_subset ht
      have t0 := hx.trans_le ht.1
      rw [(key a t ht).deriv, ← div_eq_mul_inv, sub_nonneg, div_le_div_iff₀ t0 (h0 t ht), mul_comm (f' t)]
      exact h t ht
  have := m (Set.left_mem_Icc.2 hxy) (Set.right_mem_Icc.2 hxy) hxy
  dsimp only at this
  linarith

/-- A function whose logarithmic slope is at most `b`. -/
theorem log_slope_high {f f' : ℝ → ℝ} {b x y : ℝ} (hx : 0 < x) (hxy : x ≤ y) (hf : ∀ t ∈ Set.Icc x y, HasDerivAt f (f' t) t)
    (h0 : ∀ t ∈ Set.Icc x y, 0 < f t) (h : ∀ t ∈ Set.Icc x y, t * f' t ≤ b * f t) :
    Real.log (f y) - Real.log (f x) ≤ b * (Real.log y - Real.log x) := by
  have key : ∀ c t, t ∈ Set.Icc x y → HasDerivAt (fun t => Real.log (f t) - c * Real.log t) (f' t / f t - c * t⁻¹) t :=
    fun c t ht => ((hf t ht).log (h0 t ht).ne').sub ((Real.hasDerivAt_log (hx.trans_le ht.1).ne').const_mul c)
  have m := antitoneOn_of_deriv_nonpos (convex_Icc x y) (f := fun t => Real.log (f t) - b * Real.log t)
    (fun t ht => (key b t ht).continuousAt.continuousWithinAt)
    (fun t ht => (key b t (interior_subset ht)).differentiableAt.differentiableWithinAt) fun t ht => by
      have ht := interior_subset ht
      have t0 := hx.trans_le ht.1
      rw [(key b t ht).deriv, ← div_eq_mul_inv, sub_nonpos, div_le_div_iff₀ (h0 t ht) t0, mul_comm (f' t)]
      exact h t ht
  have := m (Set.left_mem_Icc.2 hxy) (Set.right_mem_Icc.2 hxy) hxy
  dsimp only at this
  linarith

/-- A function whose logarithmic slope is between `a` and `b`. -/
theorem log_slope {f f' : ℝ → ℝ} {a b x y : ℝ} (hx : 0 < x) (hxy : x ≤ y) (hf : ∀ t ∈ Set.Icc x y, HasDerivAt f (f' t) t)
    (h0 : ∀ t ∈ Set.Icc x y, 0 < f t) (h : ∀ t ∈ Set.Icc x y, a * f t ≤ t * f' t ∧ t * f' t ≤ b * f t) :
    a * (Real.log y - Real.log x) ≤ Real.log (f y) - Real.log (f x) ∧
      Real.log (f y) - Real.log (f x) ≤ b * (Real.log y - Real.log x) :=
  ⟨log_slope_low hx hxy hf h0 fun t ht => (h t ht).1, log_slope_high hx hxy hf h0 fun t ht => (h t ht).2⟩

namespace Detail.Ng

variable [Libm] {x : Fin 21 → ℝ} (h : Eos.NormalGas x)
include h

/-- The pressure along an isotherm. -/
theorem slope_D {T : ℝ} (h1 : 263 ≤ T) (h2 : T ≤ 400) {D D' : ℝ} (hD : 0 < D) (hDD : D ≤ D') (hd : D' ≤ 0.93) :
    0.78 * (Real.log D' - Real.log D) ≤
        Real.log (D' * 8.31451 * T * Eos.Z x D' T) - Real.log (D * 8.31451 * T * Eos.Z x D T) ∧
      Real.log (D' * 8.31451 * T * Eos.Z x D' T) - Real.log (D * 8.31451 * T * Eos.Z x D T)
        ≤ 1.09 * (Real.log D' - Real.log D) := by
  have T0 : 0 < T := by linarith
  refine log_slope (f := fun D => D * 8.31451 * T * Eos.Z x D T) (f' := fun D => 8.31451 * T * Eos.dPdD x D T) hD hDD
    (fun t _ => ?_) (fun t ht => ?_) fun t ht => ?_
  · refine ((Detail.DZ_deriv x t T).const_mul (8.31451 * T)).congr_of_eventuallyEq (Filter.Eventually.of_forall fun D => ?_)
    ring
  · have t0 := hD.trans_le ht.1
    have := (ng_window h h1 h2 t0.le (ht.2.trans hd)).1
    have : 0 < Eos.Z x t T := lt_of_lt_of_le (by norm_num) this
    positivity
  · have t0 := hD.trans_le ht.1
    obtain ⟨z1, z2, w, -⟩ := ng_window h h1 h2 t0.le (ht.2.trans hd)
    obtain ⟨w1, w2⟩ := abs_le.1 w
    have c : 0 ≤ t * (8.31451 * T) := by positivity
    norm_num at z1 z2 w1 w2
    have a1 : 0.78 * Eos.Z x t T ≤ Eos.dPdD x t T := by norm_num; linarith
    have a2 : Eos.dPdD x t T ≤ 1.09 * Eos.Z x t T := by norm_num; linarith
    have b1 := mul_le_mul_of_nonneg_left a1 c
    have b2 := mul_le_mul_of_nonneg_left a2 c
    constructor
    · calc _ = t * (8.31451 * T) * (0.78 * Eos.Z x t T) := by ring
        _ ≤ _ := b1
        _ = _ := by ring
    · calc _ = t * (8.31451 * T) * Eos.dPdD x t T := by ring
        _ ≤ _ := b2
        _ = _ := by ring

/-- The pressure along an isochor. -/
theorem slope_T {T T' : ℝ} (h1 : 263 ≤ T) (hTT : T ≤ T') (h2 : T' ≤ 400) {D : ℝ} (hD : 0 < D) (hd : D ≤ 0.93) :
    0.57 * (Real.log T' - Real.log T) ≤
        Real.log (D * 8.31451 * T' * Eos.Z x D T') - Real.log (D * 8.31451 * T * Eos.Z x D T) ∧
      Real.log (D * 8.31451 * T' * Eos.Z x D T') - Real.log (D * 8.31451 * T * Eos.Z x D T)
        ≤ 1.63 * (Real.log T' - Real.log T) := by
  have T0 : 0 < T := by linarith
  refine log_slope (f := fun T => D * 8.31451 * T * Eos.Z x D T)
    (f' := fun T => D * 8.31451 * (1 - ∑ n, (Eos.c Tab.UN n - 1) * tvZ x D T n)) T0 hTT (fun t ht => ?_) (fun t ht => ?_) fun t ht => ?_
  · have t0 := T0.trans_le ht.1
    have a := hasDerivAt_ZT x D t0
    rwa [← sub_eq_add_neg] at a
  · have t0 := T0.trans_le ht.1
    have := (ng_window h (h1.trans ht.1) (ht.2.trans h2) hD.le hd).1
    have : 0 < Eos.Z x D t := lt_of_lt_of_le (by norm_num) this
    positivity
  · have t0 := T0.trans_le ht.1
    obtain ⟨z1, z2, -⟩ := ng_window h (h1.trans ht.1) (ht.2.trans h2) hD.le hd
    obtain ⟨-, -, -, s4⟩ := sums_ng h (h1.trans ht.1) (ht.2.trans h2) hD.le (hd.trans (by norm_num))
    obtain ⟨w1, w2⟩ := abs_le.1 s4
    generalize ∑ n, (Eos.c Tab.UN n - 1) * tvZ x D t n = y at *
    have c : 0 ≤ D * 8.31451 * t := by positivity
    norm_num at z1 z2 w1 w2
    have a1 : 0.57 * Eos.Z x D t ≤ 1 - y := by norm_num; linarith
    have a2 : 1 - y ≤ 1.63 * Eos.Z x D t := by norm_num; linarith
    have b1 := mul_le_mul_of_nonneg_left a1 c
    have b2 := mul_le_mul_of_nonneg_left a2 c
    constructor
    · calc _ = D * 8.31451 * t * (0.57 * Eos.Z x D t) := by ring
        _ ≤ _ := b1
        _ = _ := by ring
    · calc _ = D * 8.31451 * t * (1 - y) := by ring
        _ ≤ _ := b2
        _ = _ := by ring

/-- More pressure and less temperature: more density. -/
theorem order_exact {T T' p p' D D' : ℝ} (h1 : 263 ≤ T') (hT : T' ≤ T) (h2 : T ≤ 400) (hp : 0 < p) (hpp : p ≤ p')
    (hD : 0 < D) (hd : D ≤ 0.93) (hD' : 0 < D') (hd' : D' ≤ 0.93)
    (e : D * 8.31451 * T * Eos.Z x D T = p) (e' : D' * 8.31451 * T' * Eos.Z x D' T' = p') :
    (Real.log p' - Real.log p + 0.57 * (Real.log T - Real.log T')) / 1.09 ≤ Real.log D' - Real.log D ∧
      Real.log D' - Real.log D ≤ (Real.log p' - Real.log p + 1.63 * (Real.log T - Real.log T')) / 0.78 := by
  obtain ⟨t1, t2⟩ := slope_T h h1 hT h2 hD hd
  rw [e] at t1 t2
  have lp : Real.log p ≤ Real.log p' := Real.log_le_log hp hpp
  have lT : Real.log T' ≤ Real.log T := Real.log_le_log (by linarith) hT
  rw [div_le_iff₀ (by norm_num), le_div_iff₀ (by norm_num)]
  rcases le_total D D' with c | c
  · obtain ⟨d1, d2⟩ := slope_D h h1 (hT.trans h2) hD c hd'
    rw [e'] at d1 d2
    constructor <;> linarith
  · obtain ⟨d1, d2⟩ := slope_D h h1 (hT.trans h2) hD' c hd
    rw [e'] at d1 d2
    have := Real.log_le_log hD' c
    norm_num at *
    constructor <;> linarith

/-- The density that belongs to a moderate pressure is in the range of `slope_D`. -/
theorem density_le {T p d : ℝ} (h1 : 263 ≤ T) (h2 : T ≤ 400) (hp : p / (8.31451 * T) ≤ 0.66) (d0 : 0 < d) (d2 : d ≤ 2)
    (mono : StrictMonoOn (fun D => D * 8.31451 * T * Eos.Z x D T) (Set.Icc 0 2))
    (e : d * 8.31451 * T * Eos.Z x d T = p) : d ≤ 0.93 := by
  have T0 : 0 < 8.31451 * T := by positivity
  by_contra c
  have c := not_le.1 c
  have m := mono ⟨by norm_num, by norm_num⟩ ⟨d0.le, d2⟩ c
  dsimp only at m
  rw [e] at m
  rw [div_le_iff₀ T0] at hp
  have z := (ng_window h h1 h2 (D := 0.93) (by norm_num) le_rfl).1
  have := mul_le_mul_of_nonneg_left z T0.le
  norm_num at *
  nlinarith

end Detail.Ng

end Aga8
