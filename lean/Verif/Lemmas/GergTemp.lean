import Verif.Lemmas.GergIdeal
import Verif.Lemmas.GergSetup
import Verif.Lemmas.GergRed
import Verif.Lemmas.GergExample

/-! # Temperature dependence of freshly evaluated GERG objects -/

namespace Aga8.Gerg

open Tab Finset Real

attribute [local irreducible] newP pressureP propertiesP

/-- `q` at another temperature. -/
def atT (q : Pub ℝ) (T : ℝ) : Pub ℝ := { q with t := T }

/-- The parameters of every object. -/
noncomputable def m0 : Params ℝ := params (newP : Gerg ℝ)

theorem posE_m0 : PosE m0 := posE_new

theorem m0_toik (i : Fin 22) (k : Fin 25) : aget2 m0.toik i k = FOps.ofDec (aget2 toikD i k) := by
  have h : m0.toik = toik0 := by unfold m0 newP; rfl
  rw [h, toik0_get]

/-- The fluids that share propane's temperature exponents have the same ones. -/
theorem short_same : ∀ (i : Fin 22) (k : Fin 25), longForm i = false → 1 ≤ k.1 →
    k.1 ≤ aget KPOL i + aget KEXP i → aget2 toikD 5 k = aget2 toikD i k := by decide +kernel

theorem tpVal_real {i : Fin 22} {k : Fin 25} (h1 : 1 ≤ k.1) (h2 : k.1 ≤ aget KPOL i + aget KEXP i) (lt : ℝ) :
    tpVal m0.toik lt i k = tab2 NOIK i k * exp (aget2 m0.toik i k * lt) := by
  unfold tpVal
  split
  · rfl
  · rename_i h
    rw [m0_toik, short_same i k (by simpa using h) h1 h2, ← m0_toik]
    rfl

/-- Amplitude of a term without its temperature dependence. -/
noncomputable def coef (x : Vector ℝ 22) : Ix → ℝ
  | .inl (i, k) => if readP x i k then aget x i * tab2 NOIK i k else 0
  | .inr (i, j, k) =>
    if actM x i j k.1 then aget x i * aget x j * tab2 FIJ i j * (gd2 m0.nijk (aget2 MNUMB i j) k.1 0
      * if k.1 ≤ kpolij (aget2 MNUMB i j) then 1 else exp (gd2 m0.gijk (aget2 MNUMB i j) k.1 0)) else 0

/-- The reducing temperature of a composition. -/
noncomputable def trX (x : Vector ℝ 22) : ℝ := trOf x m0.bvij

/-- The reducing density of a composition. -/
noncomputable def drX (x : Vector ℝ 22) : ℝ := drOf x m0.bvij

theorem shapeM_t (m : Params ℝ) (mn k : ℕ) : (shapeM m mn k).t = gd2 m.tijk mn k 0 := by
  unfold shapeM; split <;> rfl

/-- Amplitudes in closed form, from the composition and the temperature. -/
theorem amp_terms (x : Vector ℝ 22) (T tr dr : ℝ) :
    amp x (termsV x T m0 dr tr).taup (termsV x T m0 dr tr).taupijk m0 (log (tr / T))
      = fun ι => coef x ι * exp ((shape m0 ι).t * log (tr / T)) := by
  unfold termsV
  rw [amp_mask]
  funext ι
  rcases ι with ⟨i, k⟩ | ⟨i, j, k⟩ <;> simp only [amp, coef]
  · split
    case isTrue h => rw [aget2_ofFn, tpVal_real h.2.2.1 h.2.2.2]; simp only [shape, r_ln]; ring
    case isFalse h => rw [zero_mul]
  · split
    case isFalse h => rw [zero_mul]
    case isTrue h =>
      have h11 := MNUMB_lt i j
      have hm : aget2 MNUMB i j < 22 := by omega
      unfold valM
      have ht : (shape m0 (.inr (i, j, k))).t = gd2 m0.tijk (aget2 MNUMB i j) k.1 0 := shapeM_t _ _ _
      rw [ht]
      split
      · rw [gd2_pos _ _ hm k.2, aget2_ofFn, tijVal, l0, r_exp, r_ln]
        ring
      · rw [exp_add]; ring

theorem view_atT {q : Pub ℝ} (hx : XFar q.x (fill 22 (f% 0.0))) {T : ℝ} (hT : 1e-7 < T) :
    view (freshOf (atT q T)) = termsV q.x T m0 (drX q.x) (trX q.x) :=
  view_fresh (q := atT q T) hx (TFar_zero hT)

theorem params_freshOf (q : Pub ℝ) : params (freshOf q) = m0 := params_setPub newP q

/-- The residual sums of a freshly evaluated object. -/
noncomputable def RT (x : Vector ℝ 22) (fac : Fac) (D T : ℝ) : ℝ :=
  ∑ ι : Ix, coef x ι * exp ((shape m0 ι).t * log (trX x / T))
    * ((shape m0 ι).phi (D / drX x) * fac (shape m0 ι) (D / drX x))

theorem AR_fresh {q : Pub ℝ} (hx : XFar q.x (fill 22 (f% 0.0))) {T : ℝ} (hT : 1e-7 < T) (fac : Fac) (D : ℝ) :
    AR (freshOf (atT q T)) fac D = RT q.x fac D T := by
  unfold AR resSum ampOf
  rw [view_atT hx hT, params_freshOf]
  have e1 : (freshOf (atT q T)).x = q.x := rfl
  have e2 : (freshOf (atT q T)).t = T := rfl
  have e3 : (termsV q.x T m0 (drX q.x) (trX q.x)).tr = trX q.x := rfl
  have e4 : (termsV q.x T m0 (drX q.x) (trX q.x)).dr = drX q.x := rfl
  rw [e1, e2, e3, e4, amp_terms]
  rfl

theorem coef_zero_or (x : Vector ℝ 22) (ι : Ix) : coef x ι = 0 ∨ 0 < trX x := by
  rcases ι with ⟨i, k⟩ | ⟨i, j, k⟩ <;> simp only [coef]
  · split
    case isTrue h => exact Or.inr (trOf_pos x _ h.1 h.2.1)
    case isFalse h => exact Or.inl rfl
  · split
    case isTrue h => exact Or.inr (trOf_pos x _ h.1 h.2.2.1)
    case isFalse h => exact Or.inl rfl

/-- Each temperature derivative brings down the exponent. -/
theorem hasDerivAt_RT (x : Vector ℝ 22) (fac : Fac) (D : ℝ) {T : ℝ} (hT : 0 < T) :
    HasDerivAt (RT x fac D) (-RT x (fun σ δ => σ.t * fac σ δ) D T / T) T := by
  unfold RT
  rw [← Finset.sum_neg_distrib, Finset.sum_div]
  refine HasDerivAt.fun_sum fun ι _ => ?_
  rcases coef_zero_or x ι with h | h
  · simp only [h, zero_mul, neg_zero, zero_div]; exact hasDerivAt_const _ _
  · have hl : HasDerivAt (fun T => log (trX x / T)) (-1 / T) T := by
      refine ((hasDerivAt_theta (trX x) hT.ne').log (div_pos h hT).ne').congr_deriv ?_
      field_simp
    refine ((((hl.const_mul (shape m0 ι).t).exp).const_mul (coef x ι)).mul_const
      ((shape m0 ι).phi (D / drX x) * fac (shape m0 ι) (D / drX x))).congr_deriv ?_
    ring

/-! ## Results of new objects in closed form -/

theorem posE_fresh (q : Pub ℝ) : PosE (params (freshOf q)) := by rw [params_freshOf]; exact posE_m0

theorem pressure_RT {q : Pub ℝ} (hx : XFar q.x (fill 22 (f% 0.0))) {T : ℝ} (hT : 1e-7 < T) :
    (pressureP (freshOf (atT q T))).2 = RGERG * q.d * (T * (1 + RT q.x Shape.f1 q.d T)) := by
  rw [pressureP_real (posE_fresh _), AR_fresh hx hT]
  show RGERG * T * (q.d * (1 + RT q.x Shape.f1 q.d T)) = _
  ring

theorem dp_dd_RT {q : Pub ℝ} (hx : XFar q.x (fill 22 (f% 0.0))) {T : ℝ} (hT : 1e-7 < T) :
    (propertiesP (freshOf (atT q T))).1.dp_dd
      = RGERG * (T * (1 + 2 * RT q.x Shape.f1 q.d T + RT q.x Shape.f2 q.d T)) := by
  rw [dp_dd_real (posE_fresh _), AR_fresh hx hT, AR_fresh hx hT]
  show RGERG * T * (1 + 2 * RT q.x Shape.f1 q.d T + RT q.x Shape.f2 q.d T) = _
  ring

variable {q : Pub ℝ}

theorem ar_fresh (hx : XFar q.x (fill 22 (f% 0.0))) {T : ℝ} (hT : 1e-7 < T) {a b : Fin 4} {fac : Fac}
    (h : Adds 1 a b fac) : aget2 (propsMid (freshOf (atT q T))).ar a b = RT q.x fac q.d T := by
  rw [propsMid_ar, ar_entry (posE_fresh _) h]
  exact AR_fresh hx hT fac q.d

theorem a0_fresh (T : ℝ) : aget (propsMid (freshOf (atT q T))).a0 0 = I0 m0 q.x q.d T ∧
    aget (propsMid (freshOf (atT q T))).a0 1 = I1 m0 q.x T ∧
    aget (propsMid (freshOf (atT q T))).a0 2 = I2 m0 q.x T := by
  rw [propsMid_a0, (a0_real _).1, (a0_real _).2.1, (a0_real _).2.2, params_freshOf]
  exact ⟨rfl, rfl, rfl⟩

theorem dp_dt_RT (hx : XFar q.x (fill 22 (f% 0.0))) {T : ℝ} (hT : 1e-7 < T) :
    (propertiesP (freshOf (atT q T))).1.dp_dt
      = RGERG * q.d * (1 + RT q.x Shape.f1 q.d T - RT q.x (fun σ δ => σ.t * σ.f1 δ) q.d T) := by
  rw [propertiesP_eq, propsFinish_dp_dt, ar_fresh hx hT (adds01 1), ar_fresh hx hT (adds11 (by decide)), propsMid_d, l1]
  show q.d * RGERG * _ = _
  ring

theorem d2p_dtd_RT (hx : XFar q.x (fill 22 (f% 0.0))) {T : ℝ} (hT : 1e-7 < T) :
    (propertiesP (freshOf (atT q T))).1.d2p_dtd
      = RGERG * (1 + 2 * RT q.x Shape.f1 q.d T + RT q.x Shape.f2 q.d T
        - 2 * RT q.x (fun σ δ => σ.t * σ.f1 δ) q.d T - RT q.x (fun σ δ => σ.t * σ.f2 δ) q.d T) := by
  rw [propertiesP_eq, propsFinish_d2p_dtd, ar_fresh hx hT (adds01 1), ar_fresh hx hT (adds11 (by decide)),
    ar_fresh hx hT (adds02 1), ar_fresh hx hT (adds12 (by decide)), l1, l2]

theorem u_RT (hx : XFar q.x (fill 22 (f% 0.0))) {T : ℝ} (hT : 1e-7 < T) :
    (propertiesP (freshOf (atT q T))).1.u
      = RGERG * (T * I1 m0 q.x T + T * RT q.x (fun σ _ => σ.t) q.d T) := by
  rw [propertiesP_eq, propsFinish_u, (a0_fresh T).2.1, ar_fresh hx hT (adds10 (by decide)), propsMid_t]
  show RGERG * T * _ = _
  ring

theorem s_RT (hx : XFar q.x (fill 22 (f% 0.0))) {T : ℝ} (hT : 1e-7 < T) :
    (propertiesP (freshOf (atT q T))).1.s
      = RGERG * (I1 m0 q.x T + RT q.x (fun σ _ => σ.t) q.d T - I0 m0 q.x q.d T - RT q.x (fun _ _ => 1) q.d T) := by
  rw [propertiesP_eq, propsFinish_s, (a0_fresh T).2.1, (a0_fresh T).1, ar_fresh hx hT (adds10 (by decide)),
    ar_fresh hx hT (adds00 (by decide))]

theorem cv_RT (hx : XFar q.x (fill 22 (f% 0.0))) {T : ℝ} (hT : 1e-7 < T) :
    (propertiesP (freshOf (atT q T))).1.cv
      = -RGERG * (I2 m0 q.x T + RT q.x (fun σ _ => σ.t * (σ.t - 1)) q.d T) := by
  rw [propertiesP_eq, propsFinish_cv, (a0_fresh T).2.2, ar_fresh hx hT (adds20 (by decide))]

end Aga8.Gerg
