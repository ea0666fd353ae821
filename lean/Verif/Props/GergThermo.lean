import Verif.Lemmas.GergTemp
import Verif.Props.GergDensity

/-! # Temperature derivatives and Helmholtz energy of GERG in exact arithmetic

C30 and the Helmholtz part of C31. -/

namespace Aga8

open Gerg (Pub pub Params params setPub Reachable)

attribute [local irreducible] Gerg.newP Gerg.pressureP Gerg.propertiesP Gerg.densityP

theorem Gerg.new_eq {new0 : Gerg ℝ} (hnew : Gerg.new = .ok new0) : new0 = Gerg.newP := by
  rw [Gerg.new_ok] at hnew; injection hnew with h; exact h.symm

theorem Gerg.near_of {f g : ℝ → ℝ} {T0 : ℝ} (h0 : 1e-7 < T0) (h : ∀ T, 1e-7 < T → f T = g T) :
    f =ᶠ[nhds T0] g := by
  filter_upwards [lt_mem_nhds h0] with T hT using h T hT

theorem Gerg.props_fresh (q : Pub ℝ) :
    (Gerg.freshOf q).properties = .ok (Gerg.propertiesP (Gerg.freshOf q)) :=
  Gerg.properties_ok (Gerg.reachable_fresh q).idx

theorem Gerg.press_fresh (q : Pub ℝ) :
    (Gerg.freshOf q).pressure = .ok (Gerg.pressureP (Gerg.freshOf q)) :=
  Gerg.pressure_ok (Gerg.reachable_fresh q).idx

/-- C30: `dp_dt` is the derivative of the pressure with respect to temperature: if `P T` is what `pressure` returns
on a new object given temperature `T` (and the same density and composition), then `P` has derivative `dp_dt`. -/
theorem C30_gerg_dp_dt (new0 : Gerg ℝ) (hnew : Gerg.new = .ok new0) (q : Pub ℝ)
    (hx : Gerg.XFar q.x (fill 22 (f% 0.0))) (ht : 1e-7 < q.t) (P : ℝ → ℝ)
    (hP : ∀ T, ∃ s1, (setPub new0 { q with t := T }).pressure = .ok (s1, P T)) :
    ∃ s' p, (setPub new0 q).properties = .ok (s', p) ∧ HasDerivAt P s'.dp_dt q.t := by
  have e := Gerg.new_eq hnew
  subst e
  refine ⟨_, _, Gerg.props_fresh q, ?_⟩
  have hT0 : 0 < q.t := lt_trans (by norm_num) ht
  have h1 : P =ᶠ[nhds q.t] fun T => Gerg.RGERG * q.d * (T * (1 + Gerg.RT q.x Gerg.Shape.f1 q.d T)) := by
    refine Gerg.near_of ht fun T hT => ?_
    obtain ⟨s1, h⟩ := hP T
    have h2 : Gerg.pressureP (Gerg.freshOf (Gerg.atT q T)) = (s1, P T) := by
      have := (Gerg.press_fresh (Gerg.atT q T)).symm.trans h; injection this
    have h3 := Gerg.pressure_RT hx hT
    rw [h2] at h3
    exact h3
  refine HasDerivAt.congr_of_eventuallyEq ?_ h1
  have h4 : (Gerg.propertiesP (Gerg.freshOf q)).1.dp_dt = _ := Gerg.dp_dt_RT hx ht
  rw [h4]
  refine (((hasDerivAt_id q.t).mul ((Gerg.hasDerivAt_RT q.x Gerg.Shape.f1 q.d hT0).const_add 1)).const_mul
    (Gerg.RGERG * q.d)).congr_deriv ?_
  simp only [id]
  field_simp
  ring

/-- C30: `d2p_dtd` is the temperature derivative of `dp_dd`, as `properties` reports it on a new object given
temperature `T`. -/
theorem C30_gerg_d2p_dtd (new0 : Gerg ℝ) (hnew : Gerg.new = .ok new0) (q : Pub ℝ)
    (hx : Gerg.XFar q.x (fill 22 (f% 0.0))) (ht : 1e-7 < q.t) (Q : ℝ → ℝ)
    (hQ : ∀ T, ∃ s1 p, (setPub new0 { q with t := T }).properties = .ok (s1, p) ∧ s1.dp_dd = Q T) :
    ∃ s' p, (setPub new0 q).properties = .ok (s', p) ∧ HasDerivAt Q s'.d2p_dtd q.t := by
  have e := Gerg.new_eq hnew
  subst e
  refine ⟨_, _, Gerg.props_fresh q, ?_⟩
  have hT0 : 0 < q.t := lt_trans (by norm_num) ht
  have h1 : Q =ᶠ[nhds q.t] fun T => Gerg.RGERG * (T * (1 + 2 * Gerg.RT q.x Gerg.Shape.f1 q.d T
      + Gerg.RT q.x Gerg.Shape.f2 q.d T)) := by
    refine Gerg.near_of ht fun T hT => ?_
    obtain ⟨s1, p, h, h'⟩ := hQ T
    have h2 : Gerg.propertiesP (Gerg.freshOf (Gerg.atT q T)) = (s1, p) := by
      have := (Gerg.props_fresh (Gerg.atT q T)).symm.trans h; injection this
    have h3 := Gerg.dp_dd_RT hx hT
    rw [h2] at h3
    rw [← h']
    exact h3
  refine HasDerivAt.congr_of_eventuallyEq ?_ h1
  have h4 : (Gerg.propertiesP (Gerg.freshOf q)).1.d2p_dtd = _ := Gerg.d2p_dtd_RT hx ht
  rw [h4]
  refine (((hasDerivAt_id q.t).mul ((((Gerg.hasDerivAt_RT q.x Gerg.Shape.f1 q.d hT0).const_mul 2).const_add 1).add
    (Gerg.hasDerivAt_RT q.x Gerg.Shape.f2 q.d hT0))).const_mul Gerg.RGERG).congr_deriv ?_
  simp only [id, Pi.add_apply]
  field_simp
  ring

/-- C30: if `U T` and `S T` are the internal energy and entropy that `properties` computes on a new object given
temperature `T`, then the Helmholtz energy `U - T S` has derivative `-s`, `U` has derivative `cv` and `S` has
derivative `cv / T`. -/
theorem C30_gerg_entropy_and_cv (new0 : Gerg ℝ) (hnew : Gerg.new = .ok new0) (q : Pub ℝ)
    (hx : Gerg.XFar q.x (fill 22 (f% 0.0))) (ht : 1e-7 < q.t) (U S : ℝ → ℝ)
    (hUS : ∀ T, ∃ s1 p, (setPub new0 { q with t := T }).properties = .ok (s1, p) ∧ s1.u = U T ∧ s1.s = S T) :
    ∃ s' p, (setPub new0 q).properties = .ok (s', p) ∧
      HasDerivAt (fun T => U T - T * S T) (-s'.s) q.t ∧
      HasDerivAt U s'.cv q.t ∧ HasDerivAt S (s'.cv / q.t) q.t := by
  have e := Gerg.new_eq hnew
  subst e
  refine ⟨_, _, Gerg.props_fresh q, ?_⟩
  have hT0 : 0 < q.t := lt_trans (by norm_num) ht
  have both : ∀ T, 1e-7 < T → U T = Gerg.RGERG * (T * Gerg.I1 Gerg.m0 q.x T
        + T * Gerg.RT q.x (fun σ _ => σ.t) q.d T) ∧
      S T = Gerg.RGERG * (Gerg.I1 Gerg.m0 q.x T + Gerg.RT q.x (fun σ _ => σ.t) q.d T - Gerg.I0 Gerg.m0 q.x q.d T
        - Gerg.RT q.x (fun _ _ => 1) q.d T) := by
    intro T hT
    obtain ⟨s1, p, h, h1, h2⟩ := hUS T
    have h3 : Gerg.propertiesP (Gerg.freshOf (Gerg.atT q T)) = (s1, p) := by
      have := (Gerg.props_fresh (Gerg.atT q T)).symm.trans h; injection this
    have a := Gerg.u_RT hx hT
    have b := Gerg.s_RT hx hT
    rw [h3] at a b
    rw [← h1, ← h2]
    exact ⟨a, b⟩
  have es : (Gerg.propertiesP (Gerg.freshOf q)).1.s = _ := Gerg.s_RT hx ht
  have ecv : (Gerg.propertiesP (Gerg.freshOf q)).1.cv = _ := Gerg.cv_RT hx ht
  have hsq : Gerg.RT q.x (fun σ δ => σ.t * (fun σ _ => σ.t) σ δ) q.d q.t
      = Gerg.RT q.x (fun σ _ => σ.t * (σ.t - 1)) q.d q.t + Gerg.RT q.x (fun σ _ => σ.t) q.d q.t := by
    unfold Gerg.RT
    rw [← Finset.sum_add_distrib]
    exact Finset.sum_congr rfl fun ι _ => by ring
  have hone : Gerg.RT q.x (fun σ δ => σ.t * (fun _ _ => 1) σ δ) q.d q.t = Gerg.RT q.x (fun σ _ => σ.t) q.d q.t := by
    simp only [mul_one]
  have dR1 := Gerg.hasDerivAt_RT q.x (fun σ _ => σ.t) q.d hT0
  have dR0 := Gerg.hasDerivAt_RT q.x (fun _ _ => 1) q.d hT0
  rw [hsq] at dR1
  rw [hone] at dR0
  have dA : HasDerivAt (fun T => U T - T * S T) (-(Gerg.propertiesP (Gerg.freshOf q)).1.s) q.t := by
    have h1 : (fun T => U T - T * S T) =ᶠ[nhds q.t] fun T => Gerg.RGERG * (T * (Gerg.I0 Gerg.m0 q.x q.d T
        + Gerg.RT q.x (fun _ _ => 1) q.d T)) := by
      refine Gerg.near_of ht fun T hT => ?_
      rw [(both T hT).1, (both T hT).2]
      ring
    refine HasDerivAt.congr_of_eventuallyEq ?_ h1
    rw [es]
    refine (((hasDerivAt_id q.t).mul ((Gerg.hasDerivAt_I0 Gerg.m0 q.x q.d hT0).add dR0)).const_mul
      Gerg.RGERG).congr_deriv ?_
    simp only [id, Pi.add_apply]
    field_simp
    ring
  have dU : HasDerivAt U (Gerg.propertiesP (Gerg.freshOf q)).1.cv q.t := by
    refine HasDerivAt.congr_of_eventuallyEq ?_ (Gerg.near_of ht fun T hT => (both T hT).1)
    rw [ecv]
    refine (((Gerg.hasDerivAt_I1 Gerg.m0 q.x hT0).add ((hasDerivAt_id q.t).mul dR1)).const_mul
      Gerg.RGERG).congr_deriv ?_
    simp only [id]
    field_simp
    ring
  refine ⟨dA, dU, ?_⟩
  have hS : S =ᶠ[nhds q.t] fun T => (U T - (U T - T * S T)) / T := by
    refine Gerg.near_of ht fun T hT => ?_
    have : T ≠ 0 := by intro h; rw [h] at hT; norm_num at hT
    field_simp
    ring
  refine HasDerivAt.congr_of_eventuallyEq ?_ hS
  refine ((dU.sub dA).div (hasDerivAt_id q.t) hT0.ne').congr_deriv ?_
  have e1 : S q.t = (Gerg.propertiesP (Gerg.freshOf q)).1.s := (both _ ht).2.trans es.symm
  simp only [id, Pi.sub_apply, e1]
  field_simp
  ring

/-- C31: the Helmholtz energy `u - T s` determines the pressure. If `U D` and `S D` are the internal energy and
entropy that `properties` computes at density `D` (everything else in the object fixed), `P` is the pressure
`properties` returns and the fractions above 1e-15 sum to one, then `U - T S` has derivative `P / D^2` and `S` has derivative
`-dp_dt / D^2` in `D`. -/
theorem C31_gerg_helmholtz (s : Gerg ℝ) (hs : Reachable s) (hd : 1e-15 < s.d)
    (hsum : ∑ i : Fin 22 with 1 ≤ i.1, (if 1e-15 < aget s.x i then aget s.x i else 0) = 1) (U S : ℝ → ℝ)
    (hUS : ∀ D, ∃ s1 p, Gerg.properties { s with d := D } = .ok (s1, p) ∧ s1.u = U D ∧ s1.s = S D) :
    ∃ s' p, s.properties = .ok (s', p) ∧
      HasDerivAt (fun D => U D - s.t * S D) (p / s.d ^ 2) s.d ∧
      HasDerivAt S (-s'.dp_dt / s.d ^ 2) s.d := by
  have hd0 : s.d ≠ 0 := by intro h; rw [h] at hd; norm_num at hd
  have hp := Gerg.posE_reachable hs
  refine ⟨_, _, Gerg.properties_ok hs.idx, ?_⟩
  have both : ∀ D, U D = Gerg.RGERG * s.t * (Gerg.I1 (params s) s.x s.t + Gerg.AR s (fun σ _ => σ.t) D) ∧
      S D = Gerg.RGERG * (Gerg.I1 (params s) s.x s.t + Gerg.AR s (fun σ _ => σ.t) D - Gerg.I0 (params s) s.x D s.t
        - Gerg.AR s (fun _ _ => 1) D) := by
    intro D
    obtain ⟨s1, p, h, h1, h2⟩ := hUS D
    have hi : Gerg.Idx (Gerg.withD s D) := hs.idx.congr rfl rfl rfl
    have h3 : Gerg.propertiesP (Gerg.withD s D) = (s1, p) := by
      have := (Gerg.properties_ok hi).symm.trans h; injection this
    have hp' : Gerg.PosE (params (Gerg.withD s D)) := hp
    have a : (Gerg.propertiesP (Gerg.withD s D)).1.u
        = Gerg.RGERG * s.t * (Gerg.I1 (params s) s.x s.t + Gerg.AR s (fun σ _ => σ.t) D) := by
      rw [Gerg.propertiesP_eq, Gerg.propsFinish_u, Gerg.propsMid_a0, (Gerg.a0_real _).2.1, Gerg.propsMid_ar,
        Gerg.ar_entry hp' (Gerg.adds10 (by decide)), Gerg.AR_withD, Gerg.propsMid_t]
      rfl
    have b : (Gerg.propertiesP (Gerg.withD s D)).1.s = Gerg.RGERG * (Gerg.I1 (params s) s.x s.t
        + Gerg.AR s (fun σ _ => σ.t) D - Gerg.I0 (params s) s.x D s.t - Gerg.AR s (fun _ _ => 1) D) := by
      rw [Gerg.propertiesP_eq, Gerg.propsFinish_s, Gerg.propsMid_a0, (Gerg.a0_real _).2.1, (Gerg.a0_real _).1,
        Gerg.propsMid_ar, Gerg.ar_entry hp' (Gerg.adds10 (by decide)), Gerg.ar_entry hp' (Gerg.adds00 (by decide)),
        Gerg.AR_withD, Gerg.AR_withD]
      rfl
    rw [h3] at a b
    rw [← h1, ← h2]
    exact ⟨a, b⟩
  have dI := Gerg.hasDerivAt_I0_d (params s) s.x s.t hd
  rw [hsum] at dI
  have d0 := Gerg.hasDerivAt_AR0 s hd0
  have d1 : HasDerivAt (Gerg.AR s fun σ _ => σ.t) (Gerg.AR s (fun σ δ => σ.t * σ.f1 δ) s.d / s.d) s.d := by
    unfold Gerg.AR Gerg.resSum
    rw [Finset.sum_div]
    refine HasDerivAt.fun_sum fun ι _ => ?_
    refine (((Gerg.Shape.hasDerivAt_phi (Gerg.shape (params s) ι) (Gerg.view s).dr hd0).mul_const
      (Gerg.shape (params s) ι).t).const_mul (Gerg.ampOf s ι)).congr_deriv ?_
    ring
  constructor
  · have e : (fun D => U D - s.t * S D) = fun D => Gerg.RGERG * s.t
        * (Gerg.I0 (params s) s.x D s.t + Gerg.AR s (fun _ _ => 1) D) := by
      funext D
      rw [(both D).1, (both D).2]
      ring
    rw [e, Gerg.propertiesP_snd, Gerg.propertiesP_z, Gerg.pressureP_z_real hp]
    refine ((dI.add d0).const_mul (Gerg.RGERG * s.t)).congr_deriv ?_
    field_simp
  · have e : S = fun D => Gerg.RGERG * (Gerg.I1 (params s) s.x s.t + Gerg.AR s (fun σ _ => σ.t) D
        - Gerg.I0 (params s) s.x D s.t - Gerg.AR s (fun _ _ => 1) D) := funext fun D => (both D).2
    rw [e, Gerg.propertiesP_eq, Gerg.propsFinish_dp_dt, Gerg.propsMid_ar, Gerg.propsMid_d,
      Gerg.ar_entry hp (Gerg.adds01 1), Gerg.ar_entry hp (Gerg.adds11 (by decide)), l1]
    refine ((((d1.const_add (Gerg.I1 (params s) s.x s.t)).sub dI).sub d0).const_mul Gerg.RGERG).congr_deriv ?_
    field_simp
    ring

/-! ## Worked cases -/

/-- Pure methane at 300 K meets the hypotheses of C30, and the functions it speaks about exist. -/
example : Gerg.XFar (Gerg.pureAt 1 300 5 0).x (fill 22 (f% 0.0 : ℝ)) ∧ 1e-7 < (Gerg.pureAt 1 300 5 0).t := by
  refine ⟨Gerg.XFar_px (by decide), ?_⟩
  show (1e-7 : ℝ) < 300
  norm_num
example (q : Pub ℝ) : ∃ P : ℝ → ℝ, ∀ T, ∃ s1, (setPub (Gerg.newP : Gerg ℝ) { q with t := T }).pressure = .ok (s1, P T) :=
  ⟨fun T => (Gerg.pressureP (Gerg.freshOf (Gerg.atT q T))).2,
    fun T => ⟨(Gerg.pressureP (Gerg.freshOf (Gerg.atT q T))).1, Gerg.press_fresh (Gerg.atT q T)⟩⟩
example (q : Pub ℝ) : ∃ U S : ℝ → ℝ, ∀ T, ∃ s1 p,
    (setPub (Gerg.newP : Gerg ℝ) { q with t := T }).properties = .ok (s1, p) ∧ s1.u = U T ∧ s1.s = S T :=
  ⟨fun T => (Gerg.propertiesP (Gerg.freshOf (Gerg.atT q T))).1.u,
    fun T => (Gerg.propertiesP (Gerg.freshOf (Gerg.atT q T))).1.s,
    fun T => ⟨_, _, Gerg.props_fresh (Gerg.atT q T), rfl, rfl⟩⟩
/-- Pure methane meets the hypothesis of C31 (Helmholtz) on the fractions. -/
example : ∑ i : Fin 22 with 1 ≤ i.1, (if 1e-15 < aget (Gerg.px 1) i then aget (Gerg.px 1) i else 0) = (1 : ℝ) := by
  have : ∀ i : Fin 22, (if (1e-15 : ℝ) < aget (Gerg.px 1) i then aget (Gerg.px 1) i else 0) = if i = 1 then 1 else 0 := by
    intro i
    rw [Gerg.aget_px]
    split
    · rw [if_pos (by norm_num)]
    · rw [if_neg (by norm_num)]
  simp only [this]
  rw [Finset.sum_ite_eq', if_pos (by decide)]

end Aga8
