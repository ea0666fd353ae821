import Mathlib.Analysis.SpecialFunctions.Log.Basic
import Mathlib.Analysis.SpecialFunctions.Exp
import Mathlib.Order.Filter.AtTopBot.Field
import Verif.Lemmas.GergTemp

/-! # Pure methane in the GERG model

At a fixed density the residual terms of pure methane vanish as the temperature grows, so there is a temperature at which
the state is stable and close to the ideal gas. Used in the cases shown beside the theorems. -/

namespace Aga8.Gerg

open Tab Finset Real Filter

theorem methane_exponents : ∀ k : Fin 25, 1 ≤ k.1 → k.1 ≤ aget KPOL 1 + aget KEXP 1 → 0 < (aget2 toikD 1 k).m := by
  decide +kernel

theorem lt_eps_px {k i : Fin 22} (h : FOps.lt (EPSILON : ℝ) (aget (px k) i) = true) : i = k := by
  by_contra hne
  rw [lt_eps, aget_px, if_neg hne] at h
  norm_num at h

/-- In a pure fluid there are no departure terms. -/
theorem coef_px (k : Fin 22) (ι : Ix) : coef (px k) ι = 0 ∨ ∃ n, ι = .inl (k, n) ∧ 1 ≤ n.1 ∧
    n.1 ≤ aget KPOL k + aget KEXP k := by
  rcases ι with ⟨i, n⟩ | ⟨i, j, n⟩ <;> simp only [coef]
  · split
    case isFalse h => exact Or.inl rfl
    case isTrue h =>
      have := lt_eps_px h.2.1
      subst this
      exact Or.inr ⟨n, rfl, h.2.2⟩
  · split
    case isFalse h => exact Or.inl rfl
    case isTrue h =>
      have h1 := lt_eps_px h.2.2.1
      have h2 := lt_eps_px h.2.2.2.1
      have := h.2.1
      rw [h1, h2] at this
      omega

theorem RT_methane_tendsto (fac : Fac) (D : ℝ) : Tendsto (RT (px 1) fac D) atTop (nhds 0) := by
  unfold RT
  have : (0 : ℝ) = ∑ ι : Ix, coef (px 1) ι * 0
      * ((shape m0 ι).phi (D / drX (px 1)) * fac (shape m0 ι) (D / drX (px 1))) := by simp
  rw [this]
  refine tendsto_finsetSum _ fun ι _ => ?_
  rcases coef_px 1 ι with h | ⟨n, rfl, h1, h2⟩
  · simp only [h, zero_mul]; exact tendsto_const_nhds
  · refine Tendsto.mul_const _ (Tendsto.const_mul _ ?_)
    have ht : 0 < (shape m0 (.inl (1, n))).t := by
      show 0 < aget2 m0.toik 1 n
      rw [m0_toik]
      exact ofDec_pos (methane_exponents n h1 h2)
    have htr : 0 < trX (px 1) := trOf_pos _ _ (k := 1) (by decide) (by
      rw [lt_eps, aget_px, if_pos rfl]; norm_num)
    have hl : Tendsto (fun T => log (trX (px 1) / T)) atTop atBot := by
      have e : (fun T => log (trX (px 1)) - log T) =ᶠ[atTop] fun T => log (trX (px 1) / T) := by
        filter_upwards [eventually_gt_atTop 0] with T hT
        rw [log_div htr.ne' hT.ne']
      refine Tendsto.congr' e ?_
      exact tendsto_const_nhds.add_atBot (tendsto_neg_atTop_atBot.comp tendsto_log_atTop)
    exact tendsto_exp_atBot.comp (hl.const_mul_atBot ht)

theorem methane_hot : ∃ T : ℝ, 1 ≤ T ∧ |RT (px 1) Shape.f1 1 T| < 1 / 10 ∧ |RT (px 1) Shape.f2 1 T| < 1 / 10 := by
  have h1 := (RT_methane_tendsto Shape.f1 1).abs
  have h2 := (RT_methane_tendsto Shape.f2 1).abs
  rw [abs_zero] at h1 h2
  exact ((eventually_ge_atTop 1).and ((h1.eventually_lt_const (by norm_num)).and
    (h2.eventually_lt_const (by norm_num)))).exists

/-- A temperature at which methane at 1 mol/l is close to the ideal gas. -/
noncomputable def hotT : ℝ := methane_hot.choose

theorem hotT_ge : 1 ≤ hotT := methane_hot.choose_spec.1
theorem hot_f1 : |RT (px 1) Shape.f1 1 hotT| < 1 / 10 := methane_hot.choose_spec.2.1
theorem hot_f2 : |RT (px 1) Shape.f2 1 hotT| < 1 / 10 := methane_hot.choose_spec.2.2
theorem hotT_far : 1e-7 < hotT := lt_of_lt_of_le (by norm_num) hotT_ge

/-- The pressure of methane at `hotT` and 1 mol/l. -/
noncomputable def hotP : ℝ := RGERG * 1 * (hotT * (1 + RT (px 1) Shape.f1 1 hotT))

theorem hotP_ge : 1 ≤ hotP := by
  have h1 := (abs_lt.1 hot_f1).1
  have h2 := hotT_ge
  unfold hotP
  rw [R_real]
  nlinarith

theorem hot_pressure (p : ℝ) : (pressureP (freshOf (pureAt 1 hotT 1 p))).2 = hotP :=
  pressure_RT (q := pureAt 1 hotT 1 p) (XFar_px (by decide)) hotT_far

theorem hot_dp_dd (p : ℝ) : 1 ≤ (propertiesP (freshOf (pureAt 1 hotT 1 p))).1.dp_dd := by
  have h := dp_dd_RT (q := pureAt 1 hotT 1 p) (XFar_px (by decide)) hotT_far
  have e : atT (pureAt 1 hotT 1 p) hotT = pureAt 1 hotT 1 p := rfl
  rw [e] at h
  rw [h]
  have h1 := (abs_lt.1 hot_f1).1
  have h2 := (abs_lt.1 hot_f2).1
  have h3 := hotT_ge
  have : 7 / 10 ≤ 1 + 2 * RT (px 1) Shape.f1 1 hotT + RT (px 1) Shape.f2 1 hotT := by linarith
  rw [R_real]
  show 1 ≤ 8.314472 * (hotT * (1 + 2 * RT (px 1) Shape.f1 1 hotT + RT (px 1) Shape.f2 1 hotT))
  nlinarith

end Aga8.Gerg
