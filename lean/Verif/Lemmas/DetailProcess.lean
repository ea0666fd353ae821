import Verif.Lemmas.Process
import Verif.Props.DetailThermo

/-! # DETAIL results as differentiable functions of temperature and density -/

namespace Aga8.Detail

open Tab Finset Real Process

/-- `q` at another temperature and density. -/
def atTD (q : Pub ℝ) (T D : ℝ) : Pub ℝ := { q with t := T, d := D }

/-- The results of a new object at temperature `T` and density `D`. -/
noncomputable def res (q : Pub ℝ) (T D : ℝ) : Detail ℝ := propertiesP (freshOf (atTD q T D))

theorem differentiableAt_k0 (q : Pub ℝ) (n : Fin 58) {D : ℝ} (hD : D ≠ 0) :
    DifferentiableAt ℝ (fun d => k0 q d n) D := by
  have e : (fun d => k0 q d n) = fun d => f0 (viewT q 1) n d + eB (viewT q 0) n * d := by
    funext d
    rw [f0_viewT, Real.one_rpow, one_mul]
    rfl
  rw [e]
  exact ((hasDerivAt_f0 _ n hD).add (hasDerivAt_lin _ D)).differentiableAt

theorem differentiableAt_k1 (q : Pub ℝ) (n : Fin 58) {D : ℝ} (hD : D ≠ 0) :
    DifferentiableAt ℝ (fun d => k1 q d n) D := by
  have e : (fun d => k1 q d n) = fun d => f0 (viewT q 1) n d * c1 (viewT q 0) n d + eB (viewT q 0) n * d := by
    funext d
    rw [f0_viewT, Real.one_rpow, one_mul]
    rfl
  rw [e]
  exact (((hasDerivAt_f0 _ n hD).mul (hasDerivAt_c1 _ n hD)).add (hasDerivAt_lin _ D)).differentiableAt

theorem viewT_atTD (q : Pub ℝ) (T D T' : ℝ) : viewT (atTD q T D) T' = viewT q T' := by
  have a1 : xAcc (freshOf (atTD q T D)) = xAcc (freshOf q) := xAcc_congr rfl rfl
  have a2 : csnRead (csnVec (freshOf (atTD q T D))) = csnRead (csnVec (freshOf q)) := by
    apply arr_ext
    intro n
    unfold csnRead csnVec
    simp only [aget_ofFn]
    rw [csnOf_congr (s := freshOf (atTD q T D)) (s' := freshOf q) rfl rfl]
    split <;> rfl
  unfold viewT computed
  rw [a1, a2]

theorem k0_atTD (q : Pub ℝ) (T D : ℝ) : k0 (atTD q T D) = k0 q := by
  funext d n
  unfold k0
  rw [viewT_atTD]

theorem k1_atTD (q : Pub ℝ) (T D : ℝ) : k1 (atTD q T D) = k1 q := by
  funext d n
  unfold k1
  rw [viewT_atTD]

theorem joint_tpow (c : Fin 58 → ℝ) {κ : ℝ → Fin 58 → ℝ} {T D : ℝ} (hT : 0 < T)
    (hκ : ∀ n, DifferentiableAt ℝ (fun d => κ d n) D) :
    Joint (fun T D => ∑ n, c n * (T ^ (-(tab UN n : ℝ)) * κ D n)) T D :=
  Joint.sum fun n _ => (joint_const (c n)).mul
    ((joint_fst (Real.hasDerivAt_rpow_const (Or.inl hT.ne')).differentiableAt).mul (joint_snd (hκ n)))

/-- The ideal-gas part splits into a function of density and a function of temperature. -/
theorem I0_split (m : Params ℝ) (x : Vector ℝ 21) (d T : ℝ) :
    I0 m x d T = (∑ i, if 0 < aget x i then aget x i else 0) * (logD d - logD 0) + I0 m x 0 T := by
  unfold I0
  rw [Finset.sum_mul, ← Finset.sum_add_distrib]
  refine Finset.sum_congr rfl fun i _ => ?_
  split <;> ring
theorem I1_split (m : Params ℝ) (x : Vector ℝ 21) (d T : ℝ) :
    I1 m x d T = (∑ i, if 0 < aget x i then aget x i else 0) * (logD d - logD 0) + I1 m x 0 T := by
  unfold I1
  rw [Finset.sum_mul, ← Finset.sum_add_distrib]
  refine Finset.sum_congr rfl fun i _ => ?_
  split <;> ring

theorem differentiableAt_logD {d : ℝ} (hd : 1e-15 < d) : DifferentiableAt ℝ logD d := by
  have hd0 : d ≠ 0 := by intro h; rw [h] at hd; norm_num at hd
  refine (Real.hasDerivAt_log hd0).differentiableAt.congr_of_eventuallyEq ?_
  filter_upwards [lt_mem_nhds hd] with e he
  simp [logD, he]

variable (m : Params ℝ) (x : Vector ℝ 21) {T D : ℝ}

theorem joint_I1 (hT : 0 < T) (hD : 1e-15 < D) : Joint (fun T D => I1 m x D T) T D := by
  have e : (fun T D => I1 m x D T) = fun T D =>
      (∑ i, if 0 < aget x i then aget x i else 0) * (logD D - logD 0) + I1 m x 0 T := by
    funext T D; exact I1_split m x D T
  rw [e]
  exact ((joint_const _).mul ((joint_snd (differentiableAt_logD hD)).sub (joint_const _))).add
    (joint_fst (hasDerivAt_I1 m x 0 hT).differentiableAt)

theorem joint_I0 (hT : 0 < T) (hD : 1e-15 < D) : Joint (fun T D => T * I0 m x D T) T D := by
  have e : (fun T D => T * I0 m x D T) = fun T D =>
      T * ((∑ i, if 0 < aget x i then aget x i else 0) * (logD D - logD 0)) + T * I0 m x 0 T := by
    funext T D; rw [I0_split m x D T]; ring
  rw [e]
  exact ((joint_fst differentiableAt_id).mul
    ((joint_const _).mul ((joint_snd (differentiableAt_logD hD)).sub (joint_const _)))).add
    (joint_fst (hasDerivAt_I0 m x 0 hT).differentiableAt)

variable {m x} {q : Pub ℝ}

theorem res_p (hx : XFar q.x (fill 21 (f% 0.0))) (hT : 1e-7 < T) :
    (res q T D).p = RDETAIL * D * (T + T * ∑ n, T ^ (-(tab UN n : ℝ)) * k1 q D n) := by
  obtain ⟨s1, p, s2, h1, h2, h3, -⟩ := C34_detail_pressure_properties_agree (freshOf (atTD q T D))
  have a : pressureP (freshOf (atTD q T D)) = (s1, p) := by
    have := (pressure_ok (freshOf (atTD q T D))).symm.trans h1; injection this
  have b : propertiesP (freshOf (atTD q T D)) = s2 := by
    have := (properties_ok (freshOf (atTD q T D))).symm.trans h2; injection this
  have c := pressure_viewT (q := atTD q T D) hx hT
  rw [k1_atTD] at c
  have e : atT (atTD q T D) T = atTD q T D := rfl
  rw [e, a] at c
  unfold res
  rw [b, h3]
  exact c

theorem res_s (hx : XFar q.x (fill 21 (f% 0.0))) (hT : 1e-7 < T) :
    (res q T D).s = -RDETAIL * (I1 (params (newP : Detail ℝ)) q.x D T
        + ∑ n, (1 - tab UN n) * (T ^ (-(tab UN n : ℝ)) * k0 q D n)) := by
  have c := s_viewT (q := atTD q T D) hx hT
  rw [k0_atTD] at c
  exact c

theorem res_u (hx : XFar q.x (fill 21 (f% 0.0))) (hT : 1e-7 < T) :
    (res q T D).u = RDETAIL * (T * I0 (params (newP : Detail ℝ)) q.x D T
        + T * ∑ n, T ^ (-(tab UN n : ℝ)) * k0 q D n) + T * (res q T D).s := by
  have c := u_viewT (q := atTD q T D) hx hT
  rw [k0_atTD] at c
  exact c

theorem joint_p (hx : XFar q.x (fill 21 (f% 0.0))) (hT : 1e-7 < T) (hD : 1e-15 < D) :
    Joint (fun T D => (res q T D).p) T D := by
  have hT0 : 0 < T := lt_trans (by norm_num) hT
  have hD0 : D ≠ 0 := by intro h; rw [h] at hD; norm_num at hD
  refine Joint.congr (F := fun T D => RDETAIL * D * (T + T * ∑ n, 1 * (T ^ (-(tab UN n : ℝ)) * k1 q D n)))
    ?_ hT hD fun T D h _ => ?_
  · exact ((joint_const _).mul (joint_snd differentiableAt_id)).mul ((joint_fst differentiableAt_id).add
      ((joint_fst differentiableAt_id).mul (joint_tpow _ hT0 fun n => differentiableAt_k1 q n hD0)))
  · simp only [one_mul]
    exact res_p hx h

theorem joint_s (hx : XFar q.x (fill 21 (f% 0.0))) (hT : 1e-7 < T) (hD : 1e-15 < D) :
    Joint (fun T D => (res q T D).s) T D := by
  have hT0 : 0 < T := lt_trans (by norm_num) hT
  have hD0 : D ≠ 0 := by intro h; rw [h] at hD; norm_num at hD
  refine Joint.congr ?_ hT hD fun T D h _ => res_s hx h
  exact (joint_const _).mul ((joint_I1 _ _ hT0 hD).add (joint_tpow _ hT0 fun n => differentiableAt_k0 q n hD0))

theorem joint_u (hx : XFar q.x (fill 21 (f% 0.0))) (hT : 1e-7 < T) (hD : 1e-15 < D) :
    Joint (fun T D => (res q T D).u) T D := by
  have hT0 : 0 < T := lt_trans (by norm_num) hT
  have hD0 : D ≠ 0 := by intro h; rw [h] at hD; norm_num at hD
  refine Joint.congr (F := fun T D => RDETAIL * (T * I0 (params (newP : Detail ℝ)) q.x D T
    + T * ∑ n, 1 * (T ^ (-(tab UN n : ℝ)) * k0 q D n)) + T * (res q T D).s) ?_ hT hD fun T D h _ => ?_
  · exact ((joint_const _).mul ((joint_I0 _ _ hT0 hD).add ((joint_fst differentiableAt_id).mul
      (joint_tpow _ hT0 fun n => differentiableAt_k0 q n hD0)))).add
      ((joint_fst differentiableAt_id).mul (joint_s hx hT hD))
  · simp only [one_mul]
    exact res_u hx h

theorem partials_of {n0 : Detail ℝ} (hnew : Detail.new = .ok n0) {R : ℝ → ℝ → Detail ℝ}
    (ok : ∀ T D, (setPub n0 (atTD q T D)).properties = .ok (R T D))
    (hx : XFar q.x (fill 21 (f% 0.0))) (hsum : ∑ i : Fin 21, max (aget q.x i) 0 = 1)
    (hT : 1e-7 < T) (hD : 1e-15 < D) (jp : Joint (fun T D => (R T D).p) T D) (ju : Joint (fun T D => (R T D).u) T D)
    (js : Joint (fun T D => (R T D).s) T D) :
    Partials (fun T D => (R T D).p) (fun T D => (R T D).u) (fun T D => (R T D).s) T D
      (R T D).p (R T D).dp_dt (R T D).dp_dd (R T D).cv (R T D).s := by
  have hT0 : T ≠ 0 := by intro h; rw [h] at hT; norm_num at hT
  have pp : ∀ T D, ∃ s1, (setPub n0 (atTD q T D)).pressure = .ok (s1, (R T D).p) := by
    intro T D
    obtain ⟨s1, p, s2, h1, h2, h3, -⟩ := C34_detail_pressure_properties_agree (setPub n0 (atTD q T D))
    have b : R T D = s2 := by have := (ok T D).symm.trans h2; injection this
    exact ⟨s1, by rw [b, h3]; exact h1⟩
  have un : ∀ {s'}, (setPub n0 (atTD q T D)).properties = .ok s' → s' = R T D := by
    intro s' h; have := h.symm.trans (ok T D); injection this
  refine ⟨rfl, rfl, jp, ju, js, ?_, ?_, ?_, ?_, ?_, ?_⟩
  · obtain ⟨s', h, h'⟩ := C26_detail_dp_dt n0 hnew (atTD q T D) hx hT (fun T => (R T D).p) fun T => pp T D
    rw [un h] at h'; exact h'
  · obtain ⟨s', h, h'⟩ := C25_detail_dp_dd (setPub n0 (atTD q T D)) hT0 (fun D => (R T D).p) fun D => pp T D
    rw [un h] at h'; exact h'
  · obtain ⟨s', h, -, h', -⟩ := C26_detail_entropy_and_cv n0 hnew (atTD q T D) hx hT (fun T => (R T D).u)
      (fun T => (R T D).s) fun T => ⟨_, ok T D, rfl, rfl⟩
    rw [un h] at h'; exact h'
  · obtain ⟨s', h, -, -, h'⟩ := C26_detail_entropy_and_cv n0 hnew (atTD q T D) hx hT (fun T => (R T D).u)
      (fun T => (R T D).s) fun T => ⟨_, ok T D, rfl, rfl⟩
    rw [un h] at h'; exact h'
  · obtain ⟨s', h, -, h'⟩ := C27_detail_helmholtz (setPub n0 (atTD q T D)) hT0 hD hsum (fun D => (R T D).u)
      (fun D => (R T D).s) fun D => ⟨_, ok T D, rfl, rfl⟩
    rw [un h] at h'; exact h'
  · obtain ⟨s', h, h', -⟩ := C27_detail_helmholtz (setPub n0 (atTD q T D)) hT0 hD hsum (fun D => (R T D).u)
      (fun D => (R T D).s) fun D => ⟨_, ok T D, rfl, rfl⟩
    rw [un h] at h'; exact h'

theorem res_ok (q : Pub ℝ) (T D : ℝ) : (setPub (newP : Detail ℝ) (atTD q T D)).properties = .ok (res q T D) :=
  properties_ok (freshOf (atTD q T D))

/-- Pressure, energy and entropy of new objects have the partial derivatives `properties` reports. -/
theorem partials (hx : XFar q.x (fill 21 (f% 0.0))) (hsum : ∑ i : Fin 21, max (aget q.x i) 0 = 1)
    (hT : 1e-7 < T) (hD : 1e-15 < D) :
    Partials (fun T D => (res q T D).p) (fun T D => (res q T D).u) (fun T D => (res q T D).s) T D
      (res q T D).p (res q T D).dp_dt (res q T D).dp_dd (res q T D).cv (res q T D).s :=
  partials_of new_ok (res_ok q) hx hsum hT hD (joint_p hx hT hD) (joint_u hx hT hD) (joint_s hx hT hD)

end Aga8.Detail
