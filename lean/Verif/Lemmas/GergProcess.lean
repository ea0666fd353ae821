import Verif.Lemmas.Process
import Verif.Props.GergThermo

/-! # GERG results as differentiable functions of temperature and density -/

namespace Aga8.Gerg

open Tab Finset Real Process

attribute [local irreducible] newP pressureP propertiesP

/-- `q` at another temperature and density. -/
def atTD (q : Pub ℝ) (T D : ℝ) : Pub ℝ := { q with t := T, d := D }

/-- The results of a new object at temperature `T` and density `D`, and the pressure `properties` returns. -/
noncomputable def res (q : Pub ℝ) (T D : ℝ) : Gerg ℝ × ℝ := propertiesP (freshOf (atTD q T D))

theorem I0_split (m : Params ℝ) (x : Vector ℝ 22) (d T : ℝ) :
    I0 m x d T = (∑ i : Fin 22 with 1 ≤ i.1, if 1e-15 < aget x i then aget x i else 0) * (logD d - logD 0)
      + I0 m x 0 T := by
  unfold I0
  rw [Finset.sum_mul, ← Finset.sum_add_distrib]
  refine Finset.sum_congr rfl fun i _ => ?_
  split <;> ring

theorem differentiableAt_logD {d : ℝ} (hd : 1e-15 < d) : DifferentiableAt ℝ logD d := by
  have hd0 : d ≠ 0 := by intro h; rw [h] at hd; norm_num at hd
  refine (Real.hasDerivAt_log hd0).differentiableAt.congr_of_eventuallyEq ?_
  filter_upwards [lt_mem_nhds hd] with e he
  simp [logD, he]

variable {T D : ℝ}

theorem joint_I0 (m : Params ℝ) (x : Vector ℝ 22) (hT : 0 < T) (hD : 1e-15 < D) :
    Joint (fun T D => I0 m x D T) T D := by
  have e : (fun T D => I0 m x D T) = fun T D =>
      (∑ i : Fin 22 with 1 ≤ i.1, if 1e-15 < aget x i then aget x i else 0) * (logD D - logD 0) + I0 m x 0 T := by
    funext T D; exact I0_split m x D T
  rw [e]
  exact ((joint_const _).mul ((joint_snd (differentiableAt_logD hD)).sub (joint_const _))).add
    (joint_fst (hasDerivAt_I0 m x 0 hT).differentiableAt)

theorem differentiableAt_I1 (m : Params ℝ) (x : Vector ℝ 22) (hT : 0 < T) :
    DifferentiableAt ℝ (fun T => I1 m x T) T := by
  have h := ((hasDerivAt_I1 m x hT).div (hasDerivAt_id T) hT.ne').differentiableAt
  refine h.congr_of_eventuallyEq ?_
  filter_upwards [lt_mem_nhds hT] with t ht
  simp [ht.ne']

/-- A factor that is differentiable in the reduced density. -/
def FacD (fac : Fac) : Prop := ∀ σ δ, DifferentiableAt ℝ (fac σ) δ

theorem facD_one : FacD (fun _ _ => 1) := fun _ _ => differentiableAt_const _
theorem facD_t : FacD (fun σ _ => σ.t) := fun _ _ => differentiableAt_const _
theorem facD_f1 : FacD Shape.f1 := fun σ δ => by
  unfold Shape.f1
  fun_prop

theorem differentiable_phi (σ : Shape) (δ : ℝ) : DifferentiableAt ℝ σ.phi δ := by
  unfold Shape.phi Shape.q
  split <;> fun_prop

theorem joint_RT (x : Vector ℝ 22) {fac : Fac} (hf : FacD fac) (hT : 0 < T) :
    Joint (fun T D => RT x fac D T) T D := by
  unfold RT
  refine Joint.sum fun ι _ => ?_
  rcases coef_zero_or x ι with h | h
  · simp only [h, zero_mul]; exact joint_const 0
  · have hl : DifferentiableAt ℝ (fun T => log (trX x / T)) T :=
      ((hasDerivAt_theta (trX x) hT.ne').log (div_pos h hT).ne').differentiableAt
    have hd : DifferentiableAt ℝ (fun D => D / drX x) D := differentiableAt_id.div_const _
    refine ((joint_const _).mul (joint_fst ((hl.const_mul (shape m0 ι).t).exp))).mul (joint_snd ?_)
    exact (DifferentiableAt.comp (g := (shape m0 ι).phi) D (differentiable_phi _ _) hd).mul
      (DifferentiableAt.comp (g := fac (shape m0 ι)) D (hf _ _) hd)

variable {q : Pub ℝ}

theorem res_p (hx : XFar q.x (fill 22 (f% 0.0))) (hT : 1e-7 < T) :
    (res q T D).2 = RGERG * D * (T * (1 + RT q.x Shape.f1 D T)) := by
  have hs := reachable_fresh (atTD q T D)
  obtain ⟨s1, p, s2, p2, h1, h2, h3, -⟩ := C34_gerg_pressure_properties_agree (freshOf (atTD q T D)) hs
  have a : pressureP (freshOf (atTD q T D)) = (s1, p) := by
    have := (press_fresh (atTD q T D)).symm.trans h1; injection this
  have b : propertiesP (freshOf (atTD q T D)) = (s2, p2) := by
    have := (props_fresh (atTD q T D)).symm.trans h2; injection this
  have c := pressure_RT (q := atTD q T D) hx hT
  have e : atT (atTD q T D) T = atTD q T D := rfl
  rw [e, a] at c
  unfold res
  rw [b]
  exact h3.trans c

theorem res_s (hx : XFar q.x (fill 22 (f% 0.0))) (hT : 1e-7 < T) :
    (res q T D).1.s = RGERG * (I1 m0 q.x T + RT q.x (fun σ _ => σ.t) D T - I0 m0 q.x D T
      - RT q.x (fun _ _ => 1) D T) := s_RT (q := atTD q T D) hx hT

theorem res_u (hx : XFar q.x (fill 22 (f% 0.0))) (hT : 1e-7 < T) :
    (res q T D).1.u = RGERG * (T * I1 m0 q.x T + T * RT q.x (fun σ _ => σ.t) D T) := u_RT (q := atTD q T D) hx hT

theorem joint_p (hx : XFar q.x (fill 22 (f% 0.0))) (hT : 1e-7 < T) (hD : 1e-15 < D) :
    Joint (fun T D => (res q T D).2) T D := by
  have hT0 : 0 < T := lt_trans (by norm_num) hT
  refine Joint.congr ?_ hT hD fun T D h _ => res_p hx h
  exact ((joint_const _).mul (joint_snd differentiableAt_id)).mul ((joint_fst differentiableAt_id).mul
    ((joint_const _).add (joint_RT q.x facD_f1 hT0)))

theorem joint_s (hx : XFar q.x (fill 22 (f% 0.0))) (hT : 1e-7 < T) (hD : 1e-15 < D) :
    Joint (fun T D => (res q T D).1.s) T D := by
  have hT0 : 0 < T := lt_trans (by norm_num) hT
  refine Joint.congr ?_ hT hD fun T D h _ => res_s hx h
  exact (joint_const _).mul ((((joint_fst (differentiableAt_I1 m0 q.x hT0)).add (joint_RT q.x facD_t hT0)).sub
    (joint_I0 _ _ hT0 hD)).sub (joint_RT q.x facD_one hT0))

theorem joint_u (hx : XFar q.x (fill 22 (f% 0.0))) (hT : 1e-7 < T) (hD : 1e-15 < D) :
    Joint (fun T D => (res q T D).1.u) T D := by
  have hT0 : 0 < T := lt_trans (by norm_num) hT
  refine Joint.congr ?_ hT hD fun T D h _ => res_u hx h
  exact (joint_const _).mul (((joint_fst differentiableAt_id).mul (joint_fst (differentiableAt_I1 m0 q.x hT0))).add
    ((joint_fst differentiableAt_id).mul (joint_RT q.x facD_t hT0)))

theorem partials_of {n0 : Gerg ℝ} (hnew : Gerg.new = .ok n0) (hr : ∀ q, Reachable (setPub n0 q))
    {R : ℝ → ℝ → Gerg ℝ × ℝ}
    (ok : ∀ T D, (setPub n0 (atTD q T D)).properties = .ok (R T D))
    (hx : XFar q.x (fill 22 (f% 0.0)))
    (hsum : ∑ i : Fin 22 with 1 ≤ i.1, (if 1e-15 < aget q.x i then aget q.x i else 0) = 1)
    (hT : 1e-7 < T) (hD : 1e-15 < D) (jp : Joint (fun T D => (R T D).2) T D)
    (ju : Joint (fun T D => (R T D).1.u) T D) (js : Joint (fun T D => (R T D).1.s) T D) :
    Partials (fun T D => (R T D).2) (fun T D => (R T D).1.u) (fun T D => (R T D).1.s) T D
      (R T D).2 (R T D).1.dp_dt (R T D).1.dp_dd (R T D).1.cv (R T D).1.s := by
  have pp : ∀ T D, ∃ s1, (setPub n0 (atTD q T D)).pressure = .ok (s1, (R T D).2) := by
    intro T D
    obtain ⟨s1, p, s2, p2, h1, h2, h3, -⟩ := C34_gerg_pressure_properties_agree _ (hr (atTD q T D))
    have b : R T D = (s2, p2) := by have := (ok T D).symm.trans h2; injection this
    exact ⟨s1, by rw [b]; show _ = Except.ok (s1, p2); rw [h3]; exact h1⟩
  have un : ∀ {s' p'}, (setPub n0 (atTD q T D)).properties = .ok (s', p') → s' = (R T D).1 ∧ p' = (R T D).2 := by
    intro s' p' h; have := h.symm.trans (ok T D); injection this with this; rw [← this]; exact ⟨rfl, rfl⟩
  refine ⟨rfl, rfl, jp, ju, js, ?_, ?_, ?_, ?_, ?_, ?_⟩
  · obtain ⟨s', p', h, h'⟩ := C30_gerg_dp_dt n0 hnew (atTD q T D) hx hT (fun T => (R T D).2) fun T => pp T D
    rw [(un h).1] at h'; exact h'
  · obtain ⟨s', p', h, h'⟩ := C29_gerg_dp_dd (setPub n0 (atTD q T D)) (hr _) (fun D => (R T D).2) fun D => pp T D
    rw [(un h).1] at h'; exact h'
  · obtain ⟨s', p', h, -, h', -⟩ := C30_gerg_entropy_and_cv n0 hnew (atTD q T D) hx hT (fun T => (R T D).1.u)
      (fun T => (R T D).1.s) fun T => ⟨_, _, ok T D, rfl, rfl⟩
    rw [(un h).1] at h'; exact h'
  · obtain ⟨s', p', h, -, -, h'⟩ := C30_gerg_entropy_and_cv n0 hnew (atTD q T D) hx hT (fun T => (R T D).1.u)
      (fun T => (R T D).1.s) fun T => ⟨_, _, ok T D, rfl, rfl⟩
    rw [(un h).1] at h'; exact h'
  · obtain ⟨s', p', h, -, h'⟩ := C31_gerg_helmholtz (setPub n0 (atTD q T D)) (hr _) hD hsum (fun D => (R T D).1.u)
      (fun D => (R T D).1.s) fun D => ⟨_, _, ok T D, rfl, rfl⟩
    rw [(un h).1] at h'; exact h'
  · obtain ⟨s', p', h, h', -⟩ := C31_gerg_helmholtz (setPub n0 (atTD q T D)) (hr _) hD hsum (fun D => (R T D).1.u)
      (fun D => (R T D).1.s) fun D => ⟨_, _, ok T D, rfl, rfl⟩
    rw [(un h).2] at h'; exact h'

theorem res_ok (q : Pub ℝ) (T D : ℝ) : (setPub (newP : Gerg ℝ) (atTD q T D)).properties = .ok (res q T D) :=
  props_fresh (atTD q T D)

/-- Pressure, energy and entropy of new objects have the partial derivatives `properties` reports. -/
theorem partials (hx : XFar q.x (fill 22 (f% 0.0)))
    (hsum : ∑ i : Fin 22 with 1 ≤ i.1, (if 1e-15 < aget q.x i then aget q.x i else 0) = 1)
    (hT : 1e-7 < T) (hD : 1e-15 < D) :
    Partials (fun T D => (res q T D).2) (fun T D => (res q T D).1.u) (fun T D => (res q T D).1.s) T D
      (res q T D).2 (res q T D).1.dp_dt (res q T D).1.dp_dd (res q T D).1.cv (res q T D).1.s :=
  partials_of new_ok reachable_fresh (res_ok q) hx hsum hT hD (joint_p hx hT hD) (joint_u hx hT hD) (joint_s hx hT hD)

end Aga8.Gerg
