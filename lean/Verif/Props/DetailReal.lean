import Verif.Lemmas.DetailRealEval
import Verif.Props.Detail

/-! # Properties of DETAIL objects in exact arithmetic, at one composition and temperature

C25, C27, C28, C33, C34, C35, C36, C37. They hold for every object, whatever happened to it before. -/

namespace Aga8

open Detail (Pub pub Params params)

/-- C25: if `P` is the pressure returned by `pressure` as a function of the density field (everything else in the
object fixed), then `dp_dd` as filled in by `properties` is the derivative of `P` at the current density. -/
theorem C25_detail_dp_dd (s : Detail ℝ) (ht : s.t ≠ 0) (P : ℝ → ℝ)
    (hP : ∀ D, ∃ s1, Detail.pressure { s with d := D } = .ok (s1, P D)) :
    ∃ s', s.properties = .ok s' ∧ HasDerivAt P s'.dp_dd s.d := by
  refine ⟨_, Detail.properties_ok s, ?_⟩
  have e : P = fun D => Detail.RDETAIL * s.t * (D * (1 + Detail.A1 (Detail.view s) D)) := by
    funext D
    obtain ⟨s1, h⟩ := hP D
    have h2 := Detail.pressure_ok (Detail.withD s D)
    have h3 : Detail.pressureP (Detail.withD s D) = (s1, P D) := by
      have := h2.symm.trans h; injection this
    have h4 := Detail.pressureP_real (Detail.withD s D) ht
    rw [h3, Detail.view_withD] at h4
    exact h4
  rw [e, Detail.dp_dd_real]
  generalize Detail.view s = v
  by_cases hd : s.d = 0
  · rw [hd, Detail.A1_zero, Detail.A2_zero]
    have hc := (Detail.continuous_A1 v).tendsto 0
    rw [Detail.A1_zero] at hc
    apply HasDerivAt.const_mul
    rw [hasDerivAt_iff_tendsto_slope]
    have : Filter.Tendsto (fun D => 1 + Detail.A1 v D) (nhdsWithin 0 {0}ᶜ) (nhds (1 + 2 * 0 + 0)) := by
      have := (hc.const_add 1).mono_left (nhdsWithin_le_nhds (s := {0}ᶜ))
      simpa using this
    refine this.congr' ?_
    filter_upwards [self_mem_nhdsWithin] with D hD
    have hD : D ≠ 0 := hD
    simp [slope_def_field, hD]
  · refine ((hasDerivAt_id s.d).mul ((Detail.hasDerivAt_A1 v hd).const_add 1)).const_mul
      (Detail.RDETAIL * s.t) |>.congr_deriv ?_
    simp only [id]
    field_simp
    ring

/-- C25: `d2p_dd2` is the derivative of `dp_dd` with respect to the density. -/
theorem C25_detail_d2p_dd2 (s : Detail ℝ) (hd : 1e-15 < s.d) (Q : ℝ → ℝ)
    (hQ : ∀ D, ∃ s1, Detail.properties { s with d := D } = .ok s1 ∧ s1.dp_dd = Q D) :
    ∃ s', s.properties = .ok s' ∧ HasDerivAt Q s'.d2p_dd2 s.d := by
  refine ⟨_, Detail.properties_ok s, ?_⟩
  have hd0 : s.d ≠ 0 := by intro h; rw [h] at hd; norm_num at hd
  have e : Q = fun D => Detail.RDETAIL * s.t
      * (1 + 2 * Detail.A1 (Detail.view s) D + Detail.A2 (Detail.view s) D) := by
    funext D
    obtain ⟨s1, h, hq⟩ := hQ D
    have h2 := Detail.properties_ok (Detail.withD s D)
    have h3 : Detail.propertiesP (Detail.withD s D) = s1 := by
      have := h2.symm.trans h; injection this
    have h4 := Detail.dp_dd_real (Detail.withD s D)
    rw [h3, Detail.view_withD, hq] at h4
    exact h4
  rw [e, Detail.d2p_dd2_real s hd]
  generalize Detail.view s = v
  refine (((Detail.hasDerivAt_A1 v hd0).const_mul 2).const_add 1 |>.add
    (Detail.hasDerivAt_A2 v hd0)).const_mul (Detail.RDETAIL * s.t) |>.congr_deriv ?_
  field_simp
  ring

/-- Reading of the density threshold. -/
theorem Detail.lt_eps (d : ℝ) : (FOps.lt (Detail.EPSILON : ℝ) d = true) ↔ 1e-15 < d := by
  rw [r_lt]; unfold Detail.EPSILON; rw [lem15]

/-- C27: enthalpy and Gibbs energy in terms of internal energy, entropy and pressure. -/
theorem C27_detail_energy_identities (s : Detail ℝ) : ∃ s', s.properties = .ok s' ∧
    s'.h = s'.u + (if 1e-15 < s.d then s'.p / s.d else 8.31451 * s.t) ∧
    s'.g = s'.h - s.t * s'.s := by
  refine ⟨_, Detail.properties_ok s, ?_, ?_⟩
  · rw [Detail.propertiesP_eq, Detail.propsFinish_h, Detail.propsMid_d, Detail.propsMid_t, Detail.R_real]
    simp only [Detail.lt_eps]
    split <;> rfl
  · rw [Detail.propertiesP_eq, Detail.propsFinish_h, Detail.propsFinish_g, Detail.propsFinish_u,
      Detail.propsMid_d, Detail.propsMid_t]
    split <;> ring

/-- C28 for densities above the threshold: the relations between heat capacities, speed of sound,
Joule-Thomson coefficient and isentropic exponent. -/
theorem C28_detail_derived_properties (s : Detail ℝ) (hd : 1e-15 < s.d) : ∃ s' m, s.properties = .ok s' ∧
    s.molar_mass.2 = m ∧ s'.mm = m ∧
    s'.cp - s'.cv = s.t * (s'.dp_dt / s.d) ^ 2 / s'.dp_dd ∧
    s'.jt = (s.t * s'.dp_dt / (s.d * s'.dp_dd) - 1) / (s.d * s'.cp) ∧
    (0 ≤ 1000 * (s'.cp / s'.cv) * s'.dp_dd / m →
      s'.w ^ 2 = 1000 * (s'.cp / s'.cv) * s'.dp_dd / m) ∧
    s'.kappa = s'.w ^ 2 * m / (1000 * 8.31451 * s.t * s'.z) := by
  refine ⟨_, _, Detail.properties_ok s, rfl, ?_, ?_, ?_, ?_, ?_⟩
  · rw [Detail.propertiesP_eq]
    have h1 : ∀ (s : Detail ℝ) mm, (Detail.propsFinish s mm).mm = s.mm := by
      intro s mm
      unfold Detail.propsFinish
      dsimp only
      split <;> dsimp only <;> split <;> rfl
    rw [h1]
    exact congrArg Pub.mm (Detail.propsMid_pub s)
  · rw [Detail.propertiesP_eq, Detail.propsFinish_cp, Detail.propsMid_d, Detail.propsMid_t,
      if_pos ((Detail.lt_eps _).2 hd)]
    simp only [r_powi]
    ring
  · rw [Detail.propertiesP_eq, Detail.propsFinish_jt, Detail.propsMid_d, Detail.propsMid_t,
      if_pos ((Detail.lt_eps _).2 hd), l1]
    rw [div_div, mul_comm (Detail.propsFinish _ _).cp]
    congr 2
    rw [div_mul_eq_mul_div, div_div]
  · intro h
    rw [Detail.propertiesP_eq] at h ⊢
    rw [Detail.propsFinish_w]
    have e : (1000 : ℝ) * ((Detail.propsFinish (Detail.propsMid s) s.molar_mass.2).cp
        / (Detail.propsFinish (Detail.propsMid s) s.molar_mass.2).cv)
        * (Detail.propsFinish (Detail.propsMid s) s.molar_mass.2).dp_dd / s.molar_mass.2
        = f% 1000.0 * (Detail.propsFinish (Detail.propsMid s) s.molar_mass.2).cp
        / (Detail.propsFinish (Detail.propsMid s) s.molar_mass.2).cv
        * (Detail.propsFinish (Detail.propsMid s) s.molar_mass.2).dp_dd / s.molar_mass.2 := by
      rw [l1000]; ring
    rw [e] at h ⊢
    rw [if_neg (by rw [r_lt, l0]; exact not_lt.2 h), r_sqrt, Real.sq_sqrt h]
  · rw [Detail.propertiesP_eq, Detail.propsFinish_kappa, Detail.propsMid_t, Detail.R_real, l1000]
    ring

/-- C36: the speed of sound is never negative, and it is zero, like `kappa`, when its square would be negative. -/
theorem C36_detail_speed_of_sound (s : Detail ℝ) : ∃ s', s.properties = .ok s' ∧ 0 ≤ s'.w ∧
    (1000 * (s'.cp / s'.cv) * s'.dp_dd / s'.mm < 0 → s'.w = 0 ∧ s'.kappa = 0) := by
  have hm : (Detail.propertiesP s).mm = s.molar_mass.2 := by
    rw [Detail.propertiesP_eq]
    have h1 : ∀ (s : Detail ℝ) mm, (Detail.propsFinish s mm).mm = s.mm := by
      intro s mm
      unfold Detail.propsFinish
      dsimp only
      split <;> dsimp only <;> split <;> rfl
    rw [h1]
    exact congrArg Pub.mm (Detail.propsMid_pub s)
  refine ⟨_, Detail.properties_ok s, ?_, ?_⟩
  · rw [Detail.propertiesP_eq, Detail.propsFinish_w]
    exact Real.sqrt_nonneg _
  · intro h
    rw [hm] at h
    have hw : (Detail.propertiesP s).w = 0 := by
      rw [Detail.propertiesP_eq] at h ⊢
      rw [Detail.propsFinish_w]
      have e : (1000 : ℝ) * ((Detail.propsFinish (Detail.propsMid s) s.molar_mass.2).cp
          / (Detail.propsFinish (Detail.propsMid s) s.molar_mass.2).cv)
          * (Detail.propsFinish (Detail.propsMid s) s.molar_mass.2).dp_dd / s.molar_mass.2
          = f% 1000.0 * (Detail.propsFinish (Detail.propsMid s) s.molar_mass.2).cp
          / (Detail.propsFinish (Detail.propsMid s) s.molar_mass.2).cv
          * (Detail.propsFinish (Detail.propsMid s) s.molar_mass.2).dp_dd / s.molar_mass.2 := by
        rw [l1000]; ring
      rw [e] at h
      rw [if_pos (by rw [r_lt, l0]; exact h), r_sqrt, l0, Real.sqrt_zero]
    refine ⟨hw, ?_⟩
    rw [Detail.propertiesP_eq] at hw ⊢
    rw [Detail.propsFinish_kappa, hw]
    simp

/-- C34: `pressure` and `properties` produce the same pressure and the same `z`. -/
theorem C34_detail_pressure_properties_agree (s : Detail ℝ) :
    ∃ s1 p s2, s.pressure = .ok (s1, p) ∧ s.properties = .ok s2 ∧ s2.p = p ∧ s2.z = s1.z := by
  have hz : (Detail.propertiesP s).z = (Detail.pressureP s).1.z := by
    rw [Detail.propertiesP_z, Detail.pressureP_z]
    rw [div_div]
  refine ⟨(Detail.pressureP s).1, (Detail.pressureP s).2, _, Detail.pressure_ok s,
    Detail.properties_ok s, ?_, hz⟩
  rw [Detail.propertiesP_p, Detail.pressureP_snd, hz]
  ring

/-- C33: at zero density everything is that of the ideal gas. -/
theorem C33_detail_zero_density (s : Detail ℝ) (hd : s.d = 0) : ∃ s', s.properties = .ok s' ∧
    s'.z = 1 ∧ s'.p = 0 ∧ s'.dp_dd = 8.31451 * s.t ∧ s'.d2p_dd2 = 0 ∧ s'.dp_dt = 0 ∧
    s'.cp - s'.cv = 8.31451 ∧ s'.jt = 1e20 ∧ s'.h = s'.u + 8.31451 * s.t := by
  have hn : ¬ FOps.lt (Detail.EPSILON : ℝ) s.d = true := by rw [Detail.lt_eps, hd]; norm_num
  refine ⟨_, Detail.properties_ok s, ?_, ?_, ?_, ?_, ?_, ?_, ?_, ?_⟩
  · rw [Detail.propertiesP_z, (Detail.ar_row0 s 0).2.1, hd, Detail.A1_zero, l1]; simp
  · rw [Detail.propertiesP_p, hd]; ring
  · rw [Detail.dp_dd_real, hd, Detail.A1_zero, Detail.A2_zero, Detail.R_real]; ring
  · rw [Detail.propertiesP_eq, Detail.propsFinish_d2p_dd2, Detail.propsMid_d, if_neg hn, l0]
  · rw [Detail.propertiesP_eq, Detail.propsFinish_dp_dt, Detail.propsMid_d, hd]; ring
  · rw [Detail.propertiesP_eq, Detail.propsFinish_cp, Detail.propsMid_d, if_neg hn, Detail.R_real]
    ring
  · rw [Detail.propertiesP_eq, Detail.propsFinish_jt, Detail.propsMid_d, if_neg hn, l1e20]
  · rw [Detail.propertiesP_eq, Detail.propsFinish_h, Detail.propsMid_d, if_neg hn, Detail.propsMid_t,
      Detail.R_real]

/-- C33: `z` tends to one as the density tends to zero. -/
theorem C33_detail_ideal_gas_limit (s : Detail ℝ) (ht : s.t ≠ 0) (Z : ℝ → ℝ)
    (hZ : ∀ D, ∃ s1 p, Detail.pressure { s with d := D } = .ok (s1, p) ∧ s1.z = Z D) :
    Filter.Tendsto Z (nhds 0) (nhds 1) := by
  have e : Z = fun D => 1 + Detail.A1 (Detail.view s) D := by
    funext D
    obtain ⟨s1, p, h, hz⟩ := hZ D
    have h2 := Detail.pressure_ok (Detail.withD s D)
    have h3 : Detail.pressureP (Detail.withD s D) = (s1, p) := by
      have := h2.symm.trans h; injection this
    have h4 := Detail.pressureP_z_real (Detail.withD s D) ht
    rw [h3, Detail.view_withD, hz] at h4
    exact h4
  have hc := (Detail.continuous_A1 (Detail.view s)).tendsto 0
  rw [Detail.A1_zero] at hc
  rw [e]
  simpa using hc.const_add 1

/-! ## The density search -/

/-- C37: one round of the iteration at a mechanically stable point goes on (or ends) with a log-volume whose density
is larger than the current one exactly when the computed pressure is below the requested one, and equal to it
exactly when the pressures agree. -/
theorem C37_detail_newton_direction (s : Detail ℝ) (n : Nat) (v : ℝ) (hv : -7 ≤ v ∧ v ≤ 100)
    (hp : 0 < s.p) (s1 : Detail ℝ) (p1 : ℝ)
    (h1 : Detail.pressure { s with d := Real.exp (-v) } = .ok (s1, p1)) (hp1 : 1e-15 ≤ p1)
    (s2 : Detail ℝ) (h2 : Detail.properties { s with d := Real.exp (-v) } = .ok s2)
    (hdp : 1e-15 ≤ s2.dp_dd) :
    ∃ v', (Detail.densityLoop (Real.log s.p) (n + 1) v s
        = Detail.densityLoop (Real.log s.p) n v' s1 ∨
      ∃ s', Detail.densityLoop (Real.log s.p) (n + 1) v s = .ok (s', .ok ()) ∧ s'.d = Real.exp (-v')) ∧
    (Real.exp (-v) < Real.exp (-v') ↔ p1 < s.p) ∧ (Real.exp (-v) = Real.exp (-v') ↔ p1 = s.p) := by
  have e1 : Detail.pressureP (Detail.withD s (Real.exp (-v))) = (s1, p1) := by
    have := (Detail.pressure_ok (Detail.withD s (Real.exp (-v)))).symm.trans h1; injection this
  have e2 : Detail.propertiesP (Detail.withD s (Real.exp (-v))) = s2 := by
    have := (Detail.properties_ok (Detail.withD s (Real.exp (-v)))).symm.trans h2; injection this
  have e3 : s1.dp_dd_save = s2.dp_dd := by
    have := Detail.propertiesP_dp_dd (Detail.withD s (Real.exp (-v)))
    rw [e1, e2] at this
    exact this.symm
  have e4 : s1.d = Real.exp (-v) := by
    have := congrArg Pub.d (Detail.pub_pressureP (Detail.withD s (Real.exp (-v))))
    rw [e1] at this
    exact this
  have hp1' : 0 < p1 := lt_of_lt_of_le (by norm_num) hp1
  have hdp' : 0 < s2.dp_dd := lt_of_lt_of_le (by norm_num) hdp
  have hE := Real.exp_pos (-v)
  set w := (Real.log p1 - Real.log s.p) * p1 / (-Real.exp (-v) * s2.dp_dd) with hw
  have hws : w = (Real.log s.p - Real.log p1) * (p1 / (Real.exp (-v) * s2.dp_dd)) := by
    rw [hw]; field_simp; ring
  have hpos : 0 < p1 / (Real.exp (-v) * s2.dp_dd) := by positivity
  refine ⟨v - w, ?_, ?_, ?_⟩
  · rw [Detail.densityLoop_ok, Detail.densityLoop_ok, Detail.densityLoopP_succ]
    have c1 : ¬ ((!(FOps.le (-(f% 7.0 : ℝ)) v && FOps.le v (f% 100.0 : ℝ))) = true) := by
      have a1 : FOps.le (-(f% 7.0 : ℝ)) v = true := by rw [r_le, l7]; exact hv.1
      have a2 : FOps.le v (f% 100.0 : ℝ) = true := by rw [r_le, l100]; exact hv.2
      rw [a1, a2]; simp
    rw [if_neg c1]
    simp only [r_exp, e1, e3, e4]
    have c2 : ¬ ((FOps.lt s2.dp_dd (Detail.EPSILON : ℝ) || FOps.lt p1 (Detail.EPSILON : ℝ)) = true) := by
      have a1 : FOps.lt s2.dp_dd (Detail.EPSILON : ℝ) = false := by
        rw [r_lt_false]; unfold Detail.EPSILON; rw [lem15]; exact hdp
      have a2 : FOps.lt p1 (Detail.EPSILON : ℝ) = false := by
        rw [r_lt_false]; unfold Detail.EPSILON; rw [lem15]; exact hp1
      rw [a1, a2]; simp
    rw [if_neg c2]
    simp only [r_ln]
    rw [← hw]
    split
    · exact Or.inr ⟨_, rfl, rfl⟩
    · exact Or.inl rfl
  · rw [Real.exp_lt_exp]
    constructor
    · intro h
      have h : 0 < w := by linarith
      rw [hws] at h
      have := pos_of_mul_pos_left h hpos.le
      exact (Real.log_lt_log_iff hp1' hp).1 (by linarith)
    · intro h
      have := Real.log_lt_log hp1' h
      have : 0 < w := by rw [hws]; exact mul_pos (by linarith) hpos
      linarith
  · rw [Real.exp_eq_exp]
    constructor
    · intro h
      have h : w = 0 := by linarith
      rw [hws] at h
      rcases mul_eq_zero.1 h with h | h
      · exact Real.log_injOn_pos hp1' hp (by linarith)
      · exact absurd h hpos.ne'
    · intro h
      have : w = 0 := by rw [hws, h]; ring
      rw [this]; ring

/-- C35: when the pressure is the equation-of-state pressure at the density `d0`, the state there is stable, and the
search is told to start at `d0` (by the documented negative density), `density` returns exactly `d0`. -/
theorem C35_detail_density_recovers (s : Detail ℝ) (d0 : ℝ) (hd : s.d = -d0) (h0 : 1e-15 ≤ d0)
    (hr : -7 ≤ -Real.log d0 ∧ -Real.log d0 ≤ 100)
    (s1 : Detail ℝ) (h1 : Detail.pressure { s with d := d0 } = .ok (s1, s.p)) (hp : 1e-15 ≤ s.p)
    (s2 : Detail ℝ) (h2 : Detail.properties { s with d := d0 } = .ok s2) (hdp : 1e-15 ≤ s2.dp_dd) :
    ∃ s', s.density = .ok (s', .ok ()) ∧ s'.d = d0 := by
  have hpos : 0 < d0 := lt_of_lt_of_le (by norm_num) h0
  have hp0 : 0 < s.p := lt_of_lt_of_le (by norm_num) hp
  have ex : Real.exp (- -Real.log d0) = d0 := by rw [neg_neg, Real.exp_log hpos]
  have e1 : Detail.pressureP (Detail.withD s d0) = (s1, s.p) := by
    have := (Detail.pressure_ok (Detail.withD s d0)).symm.trans h1; injection this
  have e2 : Detail.propertiesP (Detail.withD s d0) = s2 := by
    have := (Detail.properties_ok (Detail.withD s d0)).symm.trans h2; injection this
  have e3 : s1.dp_dd_save = s2.dp_dd := by
    have := Detail.propertiesP_dp_dd (Detail.withD s d0)
    rw [e1, e2] at this
    exact this.symm
  have c0 : ¬ (FOps.lt (FOps.abs s.p) (Detail.EPSILON : ℝ) = true) := by
    rw [r_lt, r_abs, abs_of_pos hp0]; unfold Detail.EPSILON; rw [lem15]; linarith
  have cd : Detail.d0Of s = d0 := by
    unfold Detail.d0Of
    have : ¬ (FOps.lt (-(Detail.EPSILON : ℝ)) s.d = true) := by
      rw [r_lt, hd]; unfold Detail.EPSILON; rw [lem15]; linarith
    rw [if_neg this, r_abs, hd, abs_neg, abs_of_pos hpos]
  rw [Detail.density_ok, Detail.densityP_eq', if_neg c0, cd, Detail.densityLoopP_succ]
  have c1 : ¬ ((!(FOps.le (-(f% 7.0 : ℝ)) (-FOps.ln d0) && FOps.le (-FOps.ln d0) (f% 100.0 : ℝ)))
      = true) := by
    have a1 : FOps.le (-(f% 7.0 : ℝ)) (-FOps.ln d0) = true := by rw [r_le, l7]; exact hr.1
    have a2 : FOps.le (-FOps.ln d0) (f% 100.0 : ℝ) = true := by rw [r_le, l100]; exact hr.2
    rw [a1, a2]; simp
  rw [if_neg c1]
  have ew : Detail.withD (Detail.withD s d0) d0 = Detail.withD s d0 := rfl
  simp only [r_exp, r_ln, ex, ew, e1, e3]
  have c2 : ¬ ((FOps.lt s2.dp_dd (Detail.EPSILON : ℝ) || FOps.lt s.p (Detail.EPSILON : ℝ)) = true) := by
    have a1 : FOps.lt s2.dp_dd (Detail.EPSILON : ℝ) = false := by
      rw [r_lt_false]; unfold Detail.EPSILON; rw [lem15]; exact hdp
    have a2 : FOps.lt s.p (Detail.EPSILON : ℝ) = false := by
      rw [r_lt_false]; unfold Detail.EPSILON; rw [lem15]; exact hp
    rw [a1, a2]; simp
  rw [if_neg c2]
  simp only [sub_self, zero_mul, zero_div, sub_zero, r_abs, abs_zero]
  have c3 : FOps.lt (0 : ℝ) (Detail.TOLR : ℝ) = true := by
    rw [r_lt]; unfold Detail.TOLR; rw [lem7]; norm_num
  rw [if_pos c3]
  exact ⟨_, rfl, ex⟩

/-! ## Worked cases -/

/-- Pure methane at 605 K, started at the density 10.1 mol/l of the requested pressure: `density` succeeds. This meets the
hypotheses of C16 (both forms), C35 and C37. -/
theorem methane_density_succeeds : ∃ s', (Detail.freshOf (Detail.methane 1 Detail.mP (-Detail.mD))).density
    = .ok (s', .ok ()) ∧ s'.d = Detail.mD := by
  obtain ⟨h1, h2⟩ := Detail.mD_bounds
  have hp := Detail.mP_ge
  have hlog : 0 ≤ Real.log Detail.mD := Real.log_nonneg h1
  have hlog2 : Real.log Detail.mD ≤ 7 := by
    rw [Real.log_le_iff_le_exp (by linarith)]
    have e1 : (2 : ℝ) ≤ Real.exp 1 := by linarith [Real.add_one_le_exp (1 : ℝ)]
    have : Real.exp 7 = Real.exp 1 ^ 7 := by rw [← Real.exp_nat_mul]; norm_num
    have h3 : (2 : ℝ) ^ 7 ≤ Real.exp 7 := by rw [this]; gcongr
    linarith
  refine C35_detail_density_recovers _ Detail.mD rfl (by linarith) ⟨by linarith, by linarith⟩
    (Detail.pressureP (Detail.withD (Detail.freshOf (Detail.methane 1 Detail.mP (-Detail.mD))) Detail.mD)).1 ?_ ?_
    (Detail.propertiesP (Detail.withD (Detail.freshOf (Detail.methane 1 Detail.mP (-Detail.mD))) Detail.mD)) ?_ ?_
  · refine (Detail.pressure_ok (Detail.withD _ Detail.mD)).trans ?_
    have := Detail.pressure_methane Detail.mP (-Detail.mD)
    exact congrArg Except.ok (Prod.ext rfl this)
  · show 1e-15 ≤ Detail.mP
    linarith
  · exact Detail.properties_ok _
  · have := Detail.dp_dd_methane Detail.mP (-Detail.mD)
    linarith

/-- The functions that C25 and C33 speak about exist for every object. -/
example (s : Detail ℝ) : ∃ P : ℝ → ℝ, ∀ D, ∃ s1, Detail.pressure { s with d := D } = .ok (s1, P D) :=
  ⟨fun D => (Detail.pressureP (Detail.withD s D)).2, fun D => ⟨_, Detail.pressure_ok (Detail.withD s D)⟩⟩
example (s : Detail ℝ) : ∃ Q : ℝ → ℝ, ∀ D, ∃ s1, Detail.properties { s with d := D } = .ok s1 ∧ s1.dp_dd = Q D :=
  ⟨fun D => (Detail.propertiesP (Detail.withD s D)).dp_dd, fun D => ⟨_, Detail.properties_ok (Detail.withD s D), rfl⟩⟩

/-- C25 on the worked state: the derivative is positive, so the statement is not about a degenerate case. -/
example : ∃ s', (Detail.withD (Detail.freshOf (Detail.methane 1 0 0)) Detail.mD).properties = .ok s' ∧
    0 < s'.dp_dd ∧ HasDerivAt (fun D => (Detail.pressureP (Detail.withD (Detail.freshOf (Detail.methane 1 0 0)) D)).2)
      s'.dp_dd Detail.mD := by
  obtain ⟨s', h, h2⟩ := C25_detail_dp_dd (Detail.withD (Detail.freshOf (Detail.methane 1 0 0)) Detail.mD)
    (by
      have := Detail.methane_t 1 0 0
      show (Detail.methane 1 0 0).t ≠ 0
      intro h; rw [h] at this; norm_num at this)
    (fun D => (Detail.pressureP (Detail.withD (Detail.freshOf (Detail.methane 1 0 0)) D)).2)
    (fun D => ⟨_, Detail.pressure_ok (Detail.withD _ D)⟩)
  refine ⟨s', h, ?_, h2⟩
  have e : Detail.propertiesP (Detail.withD (Detail.freshOf (Detail.methane 1 0 0)) Detail.mD) = s' := by
    have := (Detail.properties_ok _).symm.trans h; injection this
  rw [← e]
  linarith [Detail.dp_dd_methane 0 0]

end Aga8
