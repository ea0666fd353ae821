import Mathlib.Analysis.Calculus.Deriv.Slope
import Mathlib.Analysis.SpecialFunctions.Log.Basic
import Mathlib.Tactic.Positivity
import Verif.Lemmas.GergDens
import Verif.Lemmas.GergExample
import Verif.Props.Gerg

/-! # Properties of GERG objects in exact arithmetic, at one composition and temperature

C29, C31, C32, C33, C34, C36. They hold for every object a history of calls can produce. -/

namespace Aga8

open Gerg (Reachable)

attribute [local irreducible] Gerg.pressureP Gerg.propertiesP Gerg.densityP Gerg.newP

/-- C29: if `P` is the pressure returned by `pressure` as a function of the density field (everything else in the
object fixed), then `dp_dd` as filled in by `properties` is the derivative of `P` at the current density. -/
theorem C29_gerg_dp_dd (s : Gerg ℝ) (hs : Reachable s) (P : ℝ → ℝ)
    (hP : ∀ D, ∃ s1, Gerg.pressure { s with d := D } = .ok (s1, P D)) :
    ∃ s' p, s.properties = .ok (s', p) ∧ HasDerivAt P s'.dp_dd s.d := by
  refine ⟨_, _, Gerg.properties_ok hs.idx, ?_⟩
  have hp := Gerg.posE_reachable hs
  have e : P = fun D => Gerg.RGERG * s.t * (D * (1 + Gerg.AR s Gerg.Shape.f1 D)) := by
    funext D
    obtain ⟨s1, h⟩ := hP D
    have h2 := Gerg.pressure_ok (s := Gerg.withD s D) (hs.idx.congr rfl rfl rfl)
    have h3 : Gerg.pressureP (Gerg.withD s D) = (s1, P D) := by
      have := h2.symm.trans h; injection this
    have h4 := Gerg.pressureP_real (s := Gerg.withD s D) hp
    rw [h3, Gerg.AR_withD] at h4
    exact h4
  rw [e, Gerg.dp_dd_real hp]
  by_cases hd : s.d = 0
  · rw [hd, Gerg.AR_zero hp, Gerg.AR_zero hp]
    have hc := (Gerg.continuous_AR1 s).tendsto 0
    rw [Gerg.AR_zero hp] at hc
    apply HasDerivAt.const_mul
    rw [hasDerivAt_iff_tendsto_slope]
    have : Filter.Tendsto (fun D => 1 + Gerg.AR s Gerg.Shape.f1 D) (nhdsWithin 0 {0}ᶜ) (nhds (1 + 2 * 0 + 0)) := by
      have := (hc.const_add 1).mono_left (nhdsWithin_le_nhds (s := {0}ᶜ))
      simpa using this
    refine this.congr' ?_
    filter_upwards [self_mem_nhdsWithin] with D hD
    have hD : D ≠ 0 := hD
    simp [slope_def_field, hD]
  · refine ((hasDerivAt_id s.d).mul ((Gerg.hasDerivAt_AR1 s hd).const_add 1)).const_mul
      (Gerg.RGERG * s.t) |>.congr_deriv ?_
    simp only [id]
    field_simp
    ring

/-- C29: `d2p_dd2` is the derivative of `dp_dd` with respect to the density. -/
theorem C29_gerg_d2p_dd2 (s : Gerg ℝ) (hs : Reachable s) (hd : 1e-15 < s.d) (Q : ℝ → ℝ)
    (hQ : ∀ D, ∃ s1 p, Gerg.properties { s with d := D } = .ok (s1, p) ∧ s1.dp_dd = Q D) :
    ∃ s' p, s.properties = .ok (s', p) ∧ HasDerivAt Q s'.d2p_dd2 s.d := by
  refine ⟨_, _, Gerg.properties_ok hs.idx, ?_⟩
  have hp := Gerg.posE_reachable hs
  have hd0 : s.d ≠ 0 := by intro h; rw [h] at hd; norm_num at hd
  have e : Q = fun D => Gerg.RGERG * s.t
      * (1 + 2 * Gerg.AR s Gerg.Shape.f1 D + Gerg.AR s Gerg.Shape.f2 D) := by
    funext D
    obtain ⟨s1, p, h, hq⟩ := hQ D
    have h2 := Gerg.properties_ok (s := Gerg.withD s D) (hs.idx.congr rfl rfl rfl)
    have h3 : Gerg.propertiesP (Gerg.withD s D) = (s1, p) := by
      have := h2.symm.trans h; injection this
    have h4 := Gerg.dp_dd_real (s := Gerg.withD s D) hp
    rw [h3, Gerg.AR_withD, Gerg.AR_withD, hq] at h4
    exact h4
  rw [e, Gerg.d2p_dd2_real hp hd]
  refine (((Gerg.hasDerivAt_AR1 s hd0).const_mul 2).const_add 1 |>.add
    (Gerg.hasDerivAt_AR2 s hd0)).const_mul (Gerg.RGERG * s.t) |>.congr_deriv ?_
  field_simp
  ring

/-- C34: `pressure` and `properties` produce the same pressure and the same `z`. -/
theorem C34_gerg_pressure_properties_agree (s : Gerg ℝ) (hs : Reachable s) :
    ∃ s1 p s2 p2, s.pressure = .ok (s1, p) ∧ s.properties = .ok (s2, p2) ∧ p2 = p ∧ s2.z = s1.z := by
  refine ⟨_, _, _, _, Gerg.pressure_ok hs.idx, Gerg.properties_ok hs.idx, ?_, Gerg.propertiesP_z s⟩
  rw [Gerg.propertiesP_snd, Gerg.pressureP_snd, Gerg.propertiesP_z]
  ring

/-- C31: enthalpy and Gibbs energy in terms of internal energy, entropy and pressure; the pressure is the one
`properties` returns. -/
theorem C31_gerg_energy_identities (s : Gerg ℝ) (hs : Reachable s) : ∃ s' p, s.properties = .ok (s', p) ∧
    (s.d ≠ 0 → s'.h = s'.u + p / s.d) ∧ s'.g = s'.h - s.t * s'.s ∧
    s'.h = s'.u + 8.314472 * s.t * s'.z := by
  have hh : (Gerg.propertiesP s).1.h = (Gerg.propertiesP s).1.u + 8.314472 * s.t * (Gerg.propertiesP s).1.z := by
    rw [Gerg.propertiesP_eq, Gerg.propsFinish_h, Gerg.propsFinish_u, Gerg.propsFinish_z, Gerg.propsMid_t, ← Gerg.R_real]
    simp only [l1]
    ring
  refine ⟨_, _, Gerg.properties_ok hs.idx, ?_, ?_, hh⟩
  · intro hd
    rw [hh, Gerg.propertiesP_snd, Gerg.R_real]
    field_simp
  · rw [Gerg.propertiesP_eq, Gerg.propsFinish_h, Gerg.propsFinish_g, Gerg.propsFinish_s, Gerg.propsMid_t]
    simp only [l1]
    ring

/-- C32 for densities above the threshold: the relations between heat capacities, speed of sound,
Joule-Thomson coefficient and isentropic exponent. -/
theorem C32_gerg_derived_properties (s : Gerg ℝ) (hs : Reachable s) (hd : 1e-15 < s.d) :
    ∃ s' p, s.properties = .ok (s', p) ∧ s'.mm = s.molar_mass.mm ∧
    s'.cp - s'.cv = s.t * (s'.dp_dt / s.d) ^ 2 / s'.dp_dd ∧
    s'.jt = (s.t * s'.dp_dt / (s.d * s'.dp_dd) - 1) / (s.d * s'.cp) ∧
    (0 ≤ 1000 * (s'.cp / s'.cv) * s'.dp_dd / s'.mm →
      s'.w ^ 2 = 1000 * (s'.cp / s'.cv) * s'.dp_dd / s'.mm) ∧
    s'.kappa = s'.w ^ 2 * s'.mm / (1000 * 8.314472 * s.t * s'.z) := by
  have hm : ∀ r : Gerg ℝ, (Gerg.propsFinish r).1.mm = r.mm := by
    intro r
    unfold Gerg.propsFinish
    dsimp only
    split <;> dsimp only <;> split <;> rfl
  refine ⟨_, _, Gerg.properties_ok hs.idx, ?_, ?_, ?_, ?_, ?_⟩
  · rw [Gerg.propertiesP_eq, hm, Gerg.propsMid_mm]
  · rw [Gerg.propertiesP_eq, Gerg.propsFinish_cp, Gerg.propsMid_d, Gerg.propsMid_t,
      if_pos ((Gerg.lt_eps _).2 hd)]
    ring
  · rw [Gerg.propertiesP_eq, Gerg.propsFinish_jt, Gerg.propsMid_d, Gerg.propsMid_t,
      if_pos ((Gerg.lt_eps _).2 hd), l1]
    rw [div_div, mul_comm (Gerg.propsFinish _).1.cp]
    congr 2
    rw [div_mul_eq_mul_div, div_div]
  · intro h
    rw [Gerg.propertiesP_eq, hm] at h ⊢
    rw [Gerg.propsFinish_w, l0, l1000]
    generalize (Gerg.propsFinish (Gerg.propsMid s)).1 = q at *
    rw [show (1000 : ℝ) * (q.cp / q.cv) = 1000 * q.cp / q.cv by ring] at h ⊢
    rw [if_neg (by rw [r_lt]; exact not_lt.2 h), r_sqrt, Real.sq_sqrt h]
  · rw [Gerg.propertiesP_eq, Gerg.propsFinish_kappa, hm, Gerg.propsMid_t, Gerg.R_real, l1000, r_powi]
    congr 1
    ring

/-- C36: the speed of sound is never negative, and it is zero, like `kappa`, when its square would be negative. -/
theorem C36_gerg_speed_of_sound (s : Gerg ℝ) (hs : Reachable s) : ∃ s' p, s.properties = .ok (s', p) ∧ 0 ≤ s'.w ∧
    (1000 * (s'.cp / s'.cv) * s'.dp_dd / s'.mm < 0 → s'.w = 0 ∧ s'.kappa = 0) := by
  have hm : ∀ r : Gerg ℝ, (Gerg.propsFinish r).1.mm = r.mm := by
    intro r
    unfold Gerg.propsFinish
    dsimp only
    split <;> dsimp only <;> split <;> rfl
  refine ⟨_, _, Gerg.properties_ok hs.idx, ?_, ?_⟩
  · rw [Gerg.propertiesP_eq, Gerg.propsFinish_w]
    exact Real.sqrt_nonneg _
  · intro h
    rw [Gerg.propertiesP_eq, hm] at h
    rw [Gerg.propertiesP_eq]
    have hw : (Gerg.propsFinish (Gerg.propsMid s)).1.w = 0 := by
      rw [Gerg.propsFinish_w, l0, l1000]
      generalize (Gerg.propsFinish (Gerg.propsMid s)).1 = q at *
      rw [show (1000 : ℝ) * (q.cp / q.cv) = 1000 * q.cp / q.cv by ring] at h
      rw [if_pos (by rw [r_lt]; exact h), r_sqrt, Real.sqrt_zero]
    refine ⟨hw, ?_⟩
    rw [Gerg.propsFinish_kappa, hw]
    simp

/-- C33: at zero density everything is that of the ideal gas. -/
theorem C33_gerg_zero_density (s : Gerg ℝ) (hs : Reachable s) (hd : s.d = 0) :
    ∃ s' p, s.properties = .ok (s', p) ∧
    s'.z = 1 ∧ p = 0 ∧ s'.dp_dd = 8.314472 * s.t ∧ s'.d2p_dd2 = 0 ∧ s'.dp_dt = 0 ∧
    s'.cp - s'.cv = 8.314472 ∧ s'.jt = 1e20 ∧ s'.h = s'.u + 8.314472 * s.t := by
  have hp := Gerg.posE_reachable hs
  have hn : ¬ FOps.lt (Gerg.EPSILON : ℝ) s.d = true := by rw [Gerg.lt_eps, hd]; norm_num
  have hz : (Gerg.propertiesP s).1.z = 1 := by
    rw [Gerg.propertiesP_z, Gerg.pressureP_z_real hp, hd, Gerg.AR_zero hp, add_zero]
  refine ⟨_, _, Gerg.properties_ok hs.idx, hz, ?_, ?_, ?_, ?_, ?_, ?_, ?_⟩
  · rw [Gerg.propertiesP_snd, hd]; ring
  · rw [Gerg.dp_dd_real hp, hd, Gerg.AR_zero hp, Gerg.AR_zero hp, Gerg.R_real]; ring
  · rw [Gerg.propertiesP_eq, Gerg.propsFinish_d2p_dd2, Gerg.propsMid_d, if_neg hn, l0]
  · rw [Gerg.propertiesP_eq, Gerg.propsFinish_dp_dt, Gerg.propsMid_d, hd]; ring
  · rw [Gerg.propertiesP_eq, Gerg.propsFinish_cp, Gerg.propsMid_d, if_neg hn, Gerg.R_real]
    ring
  · rw [Gerg.propertiesP_eq, Gerg.propsFinish_jt, Gerg.propsMid_d, if_neg hn]; exact l1e20
  · have hh : (Gerg.propertiesP s).1.h
        = (Gerg.propertiesP s).1.u + 8.314472 * s.t * (Gerg.propertiesP s).1.z := by
      rw [Gerg.propertiesP_eq, Gerg.propsFinish_h, Gerg.propsFinish_u, Gerg.propsFinish_z, Gerg.propsMid_t,
        ← Gerg.R_real]
      simp only [l1]
      ring
    rw [hh, hz, mul_one]

/-- C33: `z` tends to one as the density tends to zero. -/
theorem C33_gerg_ideal_gas_limit (s : Gerg ℝ) (hs : Reachable s) (Z : ℝ → ℝ)
    (hZ : ∀ D, ∃ s1 p, Gerg.pressure { s with d := D } = .ok (s1, p) ∧ s1.z = Z D) :
    Filter.Tendsto Z (nhds 0) (nhds 1) := by
  have hp := Gerg.posE_reachable hs
  have e : Z = fun D => 1 + Gerg.AR s Gerg.Shape.f1 D := by
    funext D
    obtain ⟨s1, p, h, hz⟩ := hZ D
    have h2 := Gerg.pressure_ok (s := Gerg.withD s D) (hs.idx.congr rfl rfl rfl)
    have h3 : Gerg.pressureP (Gerg.withD s D) = (s1, p) := by
      have := h2.symm.trans h; injection this
    have h4 := Gerg.pressureP_z_real (s := Gerg.withD s D) hp
    rw [h3, Gerg.AR_withD, hz] at h4
    exact h4
  have hc := (Gerg.continuous_AR1 s).tendsto 0
  rw [Gerg.AR_zero hp] at hc
  rw [e]
  simpa using hc.const_add 1

/-! ## Worked cases -/

/-- Pure methane at 300 K and 5 mol/l on a new object meets the hypotheses of C29 (both parts), C31, C32, C34 and C36. -/
example : Reachable (Gerg.freshOf (Gerg.pureAt 1 300 5 0)) ∧ 1e-15 < (Gerg.freshOf (Gerg.pureAt 1 300 5 0)).d := by
  refine ⟨Gerg.reachable_fresh _, ?_⟩
  show (1e-15 : ℝ) < 5
  norm_num
/-- The same at zero density meets those of C33. -/
example : Reachable (Gerg.freshOf (Gerg.pureAt 1 300 0 0)) ∧ (Gerg.freshOf (Gerg.pureAt 1 300 0 0)).d = 0 :=
  ⟨Gerg.reachable_fresh _, rfl⟩
/-- The functions that C29 and C33 speak about exist for every reachable object. -/
example (s : Gerg ℝ) (hs : Reachable s) : ∃ P : ℝ → ℝ, ∀ D, ∃ s1, Gerg.pressure { s with d := D } = .ok (s1, P D) :=
  ⟨fun D => (Gerg.pressureP (Gerg.withD s D)).2, fun D => ⟨(Gerg.pressureP (Gerg.withD s D)).1,
    Gerg.pressure_ok (s := Gerg.withD s D) (hs.idx.congr rfl rfl rfl)⟩⟩
example (s : Gerg ℝ) (hs : Reachable s) : ∃ Q : ℝ → ℝ, ∀ D, ∃ s1 p,
    Gerg.properties { s with d := D } = .ok (s1, p) ∧ s1.dp_dd = Q D :=
  ⟨fun D => (Gerg.propertiesP (Gerg.withD s D)).1.dp_dd, fun D => ⟨_, _,
    Gerg.properties_ok (s := Gerg.withD s D) (hs.idx.congr rfl rfl rfl), rfl⟩⟩
example (s : Gerg ℝ) (hs : Reachable s) : ∃ Z : ℝ → ℝ, ∀ D, ∃ s1 p,
    Gerg.pressure { s with d := D } = .ok (s1, p) ∧ s1.z = Z D :=
  ⟨fun D => (Gerg.pressureP (Gerg.withD s D)).1.z, fun D => ⟨_, _,
    Gerg.pressure_ok (s := Gerg.withD s D) (hs.idx.congr rfl rfl rfl), rfl⟩⟩

end Aga8
