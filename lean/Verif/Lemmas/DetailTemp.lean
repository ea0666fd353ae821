import Verif.Lemmas.DetailIdeal

/-! # Temperature dependence of freshly evaluated DETAIL objects -/

namespace Aga8.Detail

open Tab Finset Real

/-- The terms of the composition of `q` at temperature `T`. -/
noncomputable def viewT (q : Pub ℝ) (T : ℝ) : View ℝ := { computed (freshOf q) with tun := tunOf T }

/-- `q` at another temperature. -/
def atT (q : Pub ℝ) (T : ℝ) : Pub ℝ := { q with t := T }

theorem TFar_real {T : ℝ} (hT : 1e-7 < T) : TFar T (f% 0.0 : ℝ) := by
  unfold TFar
  rw [r_lt, lem7, l0, r_abs, sub_zero, abs_of_pos (by linarith [show (0:ℝ) < 1e-7 by norm_num])]
  exact hT

theorem view_atT {q : Pub ℝ} (hx : XFar q.x (fill 21 (f% 0.0))) {T : ℝ} (hT : 1e-7 < T) :
    view (freshOf (atT q T)) = viewT q T := by
  rw [view_fresh (q := atT q T) hx (TFar_real hT)]
  have a1 : xAcc (freshOf (atT q T)) = xAcc (freshOf q) := xAcc_congr rfl rfl
  have a2 : csnRead (csnVec (freshOf (atT q T))) = csnRead (csnVec (freshOf q)) := by
    apply arr_ext
    intro n
    unfold csnRead csnVec
    simp only [aget_ofFn]
    rw [csnOf_congr (s := freshOf (atT q T)) (s' := freshOf q) rfl rfl]
    split <;> rfl
  unfold viewT computed
  rw [a1, a2]
  rfl

theorem view_freshT {q : Pub ℝ} (hx : XFar q.x (fill 21 (f% 0.0))) (hT : 1e-7 < q.t) :
    view (freshOf q) = viewT q q.t := view_atT hx hT

/-- `f0` without the power of temperature. -/
noncomputable def e0 (v : View ℝ) (n : Fin 58) (d : ℝ) : ℝ :=
  if 12 ≤ n.1 then aget v.csn n * (v.k3 * d) ^ aget BN n * expK (aget KN n) (v.k3 * d) else 0

/-- `linB` without the power of temperature. -/
noncomputable def eB (v : View ℝ) (n : Fin 58) : ℝ :=
  if h : n.1 ≤ 17 then
    aget v.bs ⟨n.1, by omega⟩ - (if 12 ≤ n.1 then aget v.csn n * v.k3 else 0)
  else 0

theorem f0_viewT (q : Pub ℝ) (T : ℝ) (n : Fin 58) (d : ℝ) :
    f0 (viewT q T) n d = T ^ (-(tab UN n : ℝ)) * e0 (viewT q 0) n d := by
  unfold f0 e0 viewT tunOf
  simp only [aget_ofFn, r_powf]
  split
  · ring
  · simp

theorem linB_viewT (q : Pub ℝ) (T : ℝ) (n : Fin 58) :
    linB (viewT q T) n = T ^ (-(tab UN n : ℝ)) * eB (viewT q 0) n := by
  unfold linB eB viewT tunOf
  simp only [aget_ofFn, r_powf]
  split
  · ring
  · simp

theorem c1_viewT (q : Pub ℝ) (T : ℝ) (n : Fin 58) (d : ℝ) :
    c1 (viewT q T) n d = c1 (viewT q 0) n d := by
  have h : ∀ v w : View ℝ, v.k3 = w.k3 → c1 v n d = c1 w n d := by
    intro v w hk
    unfold c1
    rw [hk]
  exact h _ _ (by unfold viewT; rfl)

theorem hasDerivAt_tpow (u : Fin 58 → ℝ) (κ : Fin 58 → ℝ) {T : ℝ} (hT : 0 < T) :
    HasDerivAt (fun T => T * ∑ n, T ^ (-u n) * κ n) (∑ n, (1 - u n) * (T ^ (-u n) * κ n)) T := by
  have e : (fun T : ℝ => T * ∑ n, T ^ (-u n) * κ n) = fun T => ∑ n, T * T ^ (-u n) * κ n := by
    funext T; rw [Finset.mul_sum]; exact Finset.sum_congr rfl fun n _ => by ring
  rw [e]
  refine HasDerivAt.fun_sum fun n _ => ?_
  have h := (hasDerivAt_id T).mul (Real.hasDerivAt_rpow_const (p := -u n) (Or.inl hT.ne'))
  refine (h.mul_const (κ n)).congr_deriv ?_
  simp only [id]
  rw [Real.rpow_sub_one hT.ne']
  field_simp
  ring

theorem hasDerivAt_tpow' (u : Fin 58 → ℝ) (κ : Fin 58 → ℝ) {T : ℝ} (hT : 0 < T) :
    HasDerivAt (fun T => ∑ n, (1 - u n) * (T ^ (-u n) * κ n))
      ((∑ n, (u n - 1) * u n * (T ^ (-u n) * κ n)) / T) T := by
  rw [Finset.sum_div]
  refine HasDerivAt.fun_sum fun n _ => ?_
  have h := (Real.hasDerivAt_rpow_const (p := -u n) (Or.inl hT.ne')).mul_const (κ n)
  refine (h.const_mul (1 - u n)).congr_deriv ?_
  rw [Real.rpow_sub_one hT.ne']
  field_simp
  ring

/-- Value of `f0 + linB d` without the power of temperature. -/
noncomputable def k0 (q : Pub ℝ) (d : ℝ) (n : Fin 58) : ℝ := e0 (viewT q 0) n d + eB (viewT q 0) n * d
/-- Value of `f0 c1 + linB d` without the power of temperature. -/
noncomputable def k1 (q : Pub ℝ) (d : ℝ) (n : Fin 58) : ℝ :=
  e0 (viewT q 0) n d * c1 (viewT q 0) n d + eB (viewT q 0) n * d

theorem A0_viewT (q : Pub ℝ) (T d : ℝ) :
    A0 (viewT q T) d = ∑ n, T ^ (-(tab UN n : ℝ)) * k0 q d n := by
  unfold A0 k0
  exact Finset.sum_congr rfl fun n _ => by rw [f0_viewT, linB_viewT]; ring

theorem A1_viewT (q : Pub ℝ) (T d : ℝ) :
    A1 (viewT q T) d = ∑ n, T ^ (-(tab UN n : ℝ)) * k1 q d n := by
  unfold A1 k1
  exact Finset.sum_congr rfl fun n _ => by rw [f0_viewT, linB_viewT, c1_viewT]; ring

theorem ar10_viewT {q : Pub ℝ} (hx : XFar q.x (fill 21 (f% 0.0))) {T : ℝ} (hT : 1e-7 < T) :
    aget2 (alpharP (x_terms (freshOf (atT q T))) 2).ar 1 0
      = RDETAIL * ∑ n, (1 - tab UN n) * (T ^ (-(tab UN n : ℝ)) * k0 q q.d n) := by
  have hd : (freshOf (atT q T)).d = q.d := rfl
  rw [(ar_rows _ 2 (by norm_num)).1, view_atT hx hT, Finset.mul_sum, hd]
  refine Finset.sum_congr rfl fun n _ => ?_
  rw [f0_viewT, linB_viewT, k0]; ring

theorem ar11_viewT {q : Pub ℝ} (hx : XFar q.x (fill 21 (f% 0.0))) {T : ℝ} (hT : 1e-7 < T) :
    aget2 (alpharP (x_terms (freshOf (atT q T))) 2).ar 1 1
      = RDETAIL * ∑ n, (1 - tab UN n) * (T ^ (-(tab UN n : ℝ)) * k1 q q.d n) := by
  have hd : (freshOf (atT q T)).d = q.d := rfl
  rw [(ar_rows _ 2 (by norm_num)).2.1, view_atT hx hT, Finset.mul_sum, hd]
  refine Finset.sum_congr rfl fun n _ => ?_
  rw [f0_viewT, linB_viewT, c1_viewT, k1]; ring

theorem ar20_viewT {q : Pub ℝ} (hx : XFar q.x (fill 21 (f% 0.0))) {T : ℝ} (hT : 1e-7 < T) :
    aget2 (alpharP (x_terms (freshOf (atT q T))) 2).ar 2 0
      = RDETAIL * ∑ n, (tab UN n - 1) * tab UN n * (T ^ (-(tab UN n : ℝ)) * k0 q q.d n) := by
  have hd : (freshOf (atT q T)).d = q.d := rfl
  rw [(ar_rows _ 2 (by norm_num)).2.2, view_atT hx hT, Finset.mul_sum, hd]
  refine Finset.sum_congr rfl fun n _ => ?_
  rw [f0_viewT, linB_viewT, k0]; ring

theorem params_freshT (q : Pub ℝ) (T : ℝ) : params (freshOf (atT q T)) = params (newP : Detail ℝ) := by
  unfold freshOf; rw [params_setPub]

/-- Pressure of the fresh object as a function of temperature. -/
theorem pressure_viewT {q : Pub ℝ} (hx : XFar q.x (fill 21 (f% 0.0))) {T : ℝ} (hT : 1e-7 < T) :
    (pressureP (freshOf (atT q T))).2
      = RDETAIL * q.d * (T + T * ∑ n, T ^ (-(tab UN n : ℝ)) * k1 q q.d n) := by
  have hT0 : T ≠ 0 := by intro h; rw [h] at hT; norm_num at hT
  have h := pressureP_real (freshOf (atT q T)) hT0
  rw [view_atT hx hT, A1_viewT] at h
  rw [h]
  show RDETAIL * T * (q.d * (1 + ∑ n, T ^ (-(tab UN n : ℝ)) * k1 q q.d n)) = _
  ring

theorem s_viewT {q : Pub ℝ} (hx : XFar q.x (fill 21 (f% 0.0))) {T : ℝ} (hT : 1e-7 < T) :
    (propertiesP (freshOf (atT q T))).s
      = -RDETAIL * (I1 (params (newP : Detail ℝ)) q.x q.d T
        + ∑ n, (1 - tab UN n) * (T ^ (-(tab UN n : ℝ)) * k0 q q.d n)) := by
  rw [propertiesP_eq, propsFinish_s, propsMid_ar, ar10_viewT hx hT, propsMid_a0, (a0_real _).2.1,
    params_freshT]
  show -(RDETAIL * I1 _ q.x q.d T) - _ = _
  ring

theorem cv_viewT {q : Pub ℝ} (hx : XFar q.x (fill 21 (f% 0.0))) {T : ℝ} (hT : 1e-7 < T) :
    (propertiesP (freshOf (atT q T))).cv
      = -RDETAIL * (I2 (params (newP : Detail ℝ)) q.x T
        + ∑ n, (tab UN n - 1) * tab UN n * (T ^ (-(tab UN n : ℝ)) * k0 q q.d n)) := by
  rw [propertiesP_eq, propsFinish_cv, propsMid_ar, ar20_viewT hx hT, propsMid_a0, (a0_real _).2.2,
    params_freshT]
  show -(RDETAIL * I2 _ q.x T + _) = _
  ring

theorem u_viewT {q : Pub ℝ} (hx : XFar q.x (fill 21 (f% 0.0))) {T : ℝ} (hT : 1e-7 < T) :
    (propertiesP (freshOf (atT q T))).u
      = RDETAIL * (T * I0 (params (newP : Detail ℝ)) q.x q.d T
        + T * ∑ n, T ^ (-(tab UN n : ℝ)) * k0 q q.d n)
        + T * (propertiesP (freshOf (atT q T))).s := by
  have h := propsFinish_u (propsMid (freshOf (atT q T))) (molar_mass (freshOf (atT q T))).2
  rw [← propertiesP_eq, propsMid_a0, (a0_real _).1, propsMid_ar, (ar_row0 _ 2).1, propsMid_t,
    view_atT hx hT, params_freshT, A0_viewT] at h
  rw [h]
  show RDETAIL * T * I0 _ q.x q.d T + RDETAIL * T * ∑ n, T ^ (-(tab UN n : ℝ)) * k0 q q.d n
    + T * (propertiesP (freshOf (atT q T))).s = _
  ring

theorem dp_dt_viewT {q : Pub ℝ} (hx : XFar q.x (fill 21 (f% 0.0))) {T : ℝ} (hT : 1e-7 < T) :
    (propertiesP (freshOf (atT q T))).dp_dt
      = RDETAIL * q.d * (1 + ∑ n, (1 - tab UN n) * (T ^ (-(tab UN n : ℝ)) * k1 q q.d n)) := by
  rw [propertiesP_eq, propsFinish_dp_dt, propsMid_ar, ar11_viewT hx hT, propsMid_d]
  show q.d * RDETAIL + q.d * _ = _
  ring

end Aga8.Detail
