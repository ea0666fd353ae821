import Verif.Lemmas.GergMethane

/-! # The GERG equation of state at low density, and hot methane over a range of densities -/

namespace Aga8.Gerg

open Tab Finset Real Filter

theorem Shape.continuous_f2 (σ : Shape) : Continuous σ.f2 := by
  unfold Shape.f2 Shape.l2 Shape.f1; fun_prop

theorem continuous_AR2 (s : Gerg ℝ) : Continuous (AR s Shape.f2) := by
  have h : Continuous (resSum (ampOf s) (params s) Shape.f2) := by
    unfold resSum
    refine continuous_finsetSum _ fun ι _ => ?_
    exact continuous_const.mul ((shape (params s) ι).continuous_phi.mul (shape (params s) ι).continuous_f2)
  unfold AR
  exact h.comp (continuous_id.div_const _)

/-- The residual terms of methane vanish at high temperature, uniformly up to 3 mol/l. -/
theorem RT_methane_uniform (fac : Fac) (hf : ∀ σ : Shape, Continuous (fac σ)) {ε : ℝ} (hε : 0 < ε) :
    ∀ᶠ T in atTop, ∀ D ∈ Set.Icc (0 : ℝ) 3, |RT (px 1) fac D T| ≤ ε := by
  have hb : ∀ ι : Ix, ∃ C, ∀ D ∈ Set.Icc (0 : ℝ) 3,
      ‖(shape m0 ι).phi (D / drX (px 1)) * fac (shape m0 ι) (D / drX (px 1))‖ ≤ C := by
    intro ι
    refine isCompact_Icc.exists_bound_of_continuousOn (Continuous.continuousOn ?_)
    exact ((shape m0 ι).continuous_phi.mul (hf _)).comp (continuous_id.div_const _)
  choose C hC using hb
  have htr : 0 < trX (px 1) := trOf_pos _ _ (k := 1) (by decide) (by
    rw [lt_eps, aget_px, if_pos rfl]; norm_num)
  have hl : Tendsto (fun T => log (trX (px 1) / T)) atTop atBot := by
    have e : (fun T => log (trX (px 1)) - log T) =ᶠ[atTop] fun T => log (trX (px 1) / T) := by
      filter_upwards [eventually_gt_atTop 0] with T hT
      rw [log_div htr.ne' hT.ne']
    refine Tendsto.congr' e ?_
    exact tendsto_const_nhds.add_atBot (tendsto_neg_atTop_atBot.comp tendsto_log_atTop)
  have hlim : Tendsto (fun T => ∑ ι : Ix, |coef (px 1) ι| * exp ((shape m0 ι).t * log (trX (px 1) / T)) * |C ι|)
      atTop (nhds 0) := by
    have : (0 : ℝ) = ∑ ι : Ix, |coef (px 1) ι| * 0 * |C ι| := by simp
    rw [this]
    refine tendsto_finsetSum _ fun ι _ => ?_
    rcases coef_px 1 ι with h | ⟨n, rfl, h1, h2⟩
    · simp only [h, abs_zero, zero_mul]; exact tendsto_const_nhds
    · refine Tendsto.mul_const _ (Tendsto.const_mul _ ?_)
      have ht : 0 < (shape m0 (.inl (1, n))).t := by
        show 0 < aget2 m0.toik 1 n
        rw [m0_toik]
        exact ofDec_pos (methane_exponents n h1 h2)
      exact tendsto_exp_atBot.comp (hl.const_mul_atBot ht)
  filter_upwards [hlim.eventually_lt_const hε] with T hT D hD
  refine le_trans ?_ hT.le
  unfold RT
  refine (abs_sum_le_sum_abs _ _).trans (sum_le_sum fun ι _ => ?_)
  rw [abs_mul, abs_mul, abs_of_pos (exp_pos _)]
  refine mul_le_mul_of_nonneg_left ?_ (by positivity)
  exact (hC ι D hD).trans (le_abs_self _)

theorem methane_hot_range : ∃ T : ℝ, 1 ≤ T ∧ ∀ D ∈ Set.Icc (0 : ℝ) 3,
    |RT (px 1) Shape.f1 D T| ≤ 0.04 ∧ |RT (px 1) Shape.f2 D T| ≤ 0.04 := by
  obtain ⟨T, h1, h2, h3⟩ := ((eventually_ge_atTop 1).and
    ((RT_methane_uniform Shape.f1 (fun σ => σ.continuous_f1) (by norm_num : (0 : ℝ) < 0.04)).and
      (RT_methane_uniform Shape.f2 (fun σ => σ.continuous_f2) (by norm_num : (0 : ℝ) < 0.04)))).exists
  exact ⟨T, h1, fun D hD => ⟨h2 D hD, h3 D hD⟩⟩

end Aga8.Gerg
