import Verif.Lemmas.DetailHist

/-! # Single evaluations of the DETAIL equation of state -/

set_option linter.unusedSectionVars false

namespace Aga8.Detail

open FOps Tab

variable {F : Type} [Add F] [Sub F] [Mul F] [Div F] [Neg F] [FOps F]

/-- The density row of `ar` does not depend on `itau`. -/
theorem arAcc_row0 (i i' : Int) (rt : F) (c : ArTerm F) {a a' : Vector (Vector F 4) 4}
    (h : aget a 0 = aget a' 0) : aget (arAcc i rt c a) 0 = aget (arAcc i' rt c a') 0 := by
  unfold arAcc aset2 aget2
  dsimp only
  have n1 : (1 : Fin 4) ≠ 0 := by decide
  have n2 : (2 : Fin 4) ≠ 0 := by decide
  split <;> split <;> simp only [aget_aset_self, aget_aset_ne _ _ n1, aget_aset_ne _ _ n2, h]

theorem arOf_row0 (s : Detail F) (i i' : Int) : aget (arOf s i) 0 = aget (arOf s i') 0 := by
  unfold arOf
  exact loop_rel (fun a a' => aget a 0 = aget a' 0) rfl (fun n a a' _ h => arAcc_row0 i i' _ _ h)

theorem alpharP_row0 (s : Detail F) (i i' : Int) (j : Fin 4) :
    aget2 (alpharP s i).ar 0 j = aget2 (alpharP s i').ar 0 j := by
  unfold aget2
  rw [ar_alpharP, ar_alpharP, arOf_row0 _ i i']

/-- Pressure at another density. -/
def pAt (s : Detail F) (e : F) : F := (pressureP (withD s e)).2
/-- Density derivative of the pressure at another density. -/
def dpAt (s : Detail F) (e : F) : F := (pressureP (withD s e)).1.dp_dd_save

theorem pAt_congr {s s' : Detail F} (hv : view s = view s') (ht : s.t = s'.t) (e : F) :
    pAt s e = pAt s' e := by
  unfold pAt
  rw [pressureP_snd, pressureP_snd, pressureP_z, pressureP_z]
  rw [ar_eval_congr' (s := withD s e) (s' := withD s' e)
    (by rw [view_withD, view_withD, hv]) rfl ht]
  simp only [withD_d, withD_t, ht]

theorem dpAt_congr {s s' : Detail F} (hv : view s = view s') (ht : s.t = s'.t) (e : F) :
    dpAt s e = dpAt s' e := by
  unfold dpAt
  rw [pressureP_save, pressureP_save]
  rw [ar_eval_congr' (s := withD s e) (s' := withD s' e)
    (by rw [view_withD, view_withD, hv]) rfl ht]
  simp only [withD_t, ht]

theorem propsFinish_dp_dd (s : Detail F) (mm : F) : (propsFinish s mm).dp_dd
    = RDETAIL * s.t + f% 2.0 * aget2 s.ar 0 1 + aget2 s.ar 0 2 := by
  unfold propsFinish
  dsimp only
  split <;> dsimp only <;> split <;> rfl

theorem propsFinish_z (s : Detail F) (mm : F) : (propsFinish s mm).z
    = f% 1.0 + aget2 s.ar 0 1 / (RDETAIL * s.t) := by
  unfold propsFinish
  dsimp only
  split <;> dsimp only <;> split <;> rfl

theorem propsFinish_p (s : Detail F) (mm : F) : (propsFinish s mm).p
    = s.d * (RDETAIL * s.t) * (propsFinish s mm).z := by
  unfold propsFinish
  dsimp only
  split <;> dsimp only <;> split <;> rfl

theorem molar_mass_congr {s s' : Detail F} (hx : s.x = s'.x) :
    (molar_mass s).2 = (molar_mass s').2 := by
  unfold molar_mass; dsimp only; rw [hx]

/-- `s` with another molar mass. -/
def withMM (s : Detail F) (mm : F) : Detail F := { s with mm := mm }
theorem withMM_view (s : Detail F) (mm : F) : view (withMM s mm) = view s :=
  view_congr rfl rfl rfl rfl
theorem molar_mass_fst (s : Detail F) : (molar_mass s).1 = withMM s (molar_mass s).2 := rfl
theorem withMM_d (s : Detail F) (mm : F) : (withMM s mm).d = s.d := rfl
theorem withMM_t (s : Detail F) (mm : F) : (withMM s mm).t = s.t := rfl
theorem withMM_x (s : Detail F) (mm : F) : (withMM s mm).x = s.x := rfl
theorem withMM_xold (s : Detail F) (mm : F) : (withMM s mm).xold = s.xold := rfl
theorem withMM_told (s : Detail F) (mm : F) : (withMM s mm).told = s.told := rfl
theorem withMM_cache (s : Detail F) (mm : F) : cache (withMM s mm) = cache s := rfl
theorem withMM_params (s : Detail F) (mm : F) : params (withMM s mm) = params s := rfl
theorem withMM_save (s : Detail F) (mm : F) : (withMM s mm).dp_dd_save = s.dp_dd_save := rfl

theorem alpha0_a0_congr {s s' : Detail F} (ht : s.t = s'.t) (hd : s.d = s'.d) (hx : s.x = s'.x)
    (hn : s.n0i = s'.n0i) : (alpha0_detail s).a0 = (alpha0_detail s').a0 := by
  have h1 : a0Hyp s = a0Hyp s' := by
    funext i j h; unfold a0Hyp; rw [hn, ht]
  have h2 : ∀ ld lt, a0Comp s ld lt = a0Comp s' ld lt := by
    intro ld lt; funext i a; unfold a0Comp; rw [h1, hn, ht, hx]
  unfold alpha0_detail
  simp only [h2, ht, hd]

theorem propsFinish_dp_dt (s : Detail F) (mm : F) : (propsFinish s mm).dp_dt
    = s.d * RDETAIL + s.d * aget2 s.ar 1 1 := by
  unfold propsFinish
  dsimp only
  split <;> dsimp only <;> split <;> rfl

theorem propsFinish_s (s : Detail F) (mm : F) : (propsFinish s mm).s
    = -aget s.a0 1 - aget2 s.ar 1 0 := by
  unfold propsFinish
  dsimp only
  split <;> dsimp only <;> split <;> rfl

theorem propsFinish_u (s : Detail F) (mm : F) : (propsFinish s mm).u
    = aget s.a0 0 + aget2 s.ar 0 0 + s.t * (propsFinish s mm).s := by
  unfold propsFinish
  dsimp only
  split <;> dsimp only <;> split <;> rfl

theorem propsFinish_cv (s : Detail F) (mm : F) : (propsFinish s mm).cv
    = -(aget s.a0 2 + aget2 s.ar 2 0) := by
  unfold propsFinish
  dsimp only
  split <;> dsimp only <;> split <;> rfl

theorem propsFinish_h (s : Detail F) (mm : F) : (propsFinish s mm).h
    = if EPSILON <. s.d then (propsFinish s mm).u + (propsFinish s mm).p / s.d
      else (propsFinish s mm).u + RDETAIL * s.t := by
  unfold propsFinish
  dsimp only
  split <;> dsimp only <;> split <;> rfl

theorem propsFinish_g (s : Detail F) (mm : F) : (propsFinish s mm).g
    = if EPSILON <. s.d then aget s.a0 0 + aget2 s.ar 0 0 + (propsFinish s mm).p / s.d
      else aget s.a0 0 + aget2 s.ar 0 0 + RDETAIL * s.t := by
  unfold propsFinish
  dsimp only
  split <;> dsimp only <;> split <;> rfl

theorem propsFinish_cp (s : Detail F) (mm : F) : (propsFinish s mm).cp
    = if EPSILON <. s.d then (propsFinish s mm).cv
        + s.t * powi ((propsFinish s mm).dp_dt / s.d) 2 / (propsFinish s mm).dp_dd
      else (propsFinish s mm).cv + RDETAIL := by
  unfold propsFinish
  dsimp only
  split <;> dsimp only <;> split <;> rfl

theorem propsFinish_d2p_dd2 (s : Detail F) (mm : F) : (propsFinish s mm).d2p_dd2
    = if EPSILON <. s.d then
        (f% 2.0 * aget2 s.ar 0 1 + f% 4.0 * aget2 s.ar 0 2 + aget2 s.ar 0 3) / s.d
      else f% 0.0 := by
  unfold propsFinish
  dsimp only
  split <;> dsimp only <;> split <;> rfl

theorem propsFinish_jt (s : Detail F) (mm : F) : (propsFinish s mm).jt
    = if EPSILON <. s.d then
        (s.t / s.d * (propsFinish s mm).dp_dt / (propsFinish s mm).dp_dd - f% 1.0)
          / (propsFinish s mm).cp / s.d
      else f% 1.0E+20 := by
  unfold propsFinish
  dsimp only
  split <;> dsimp only <;> split <;> rfl

theorem propsFinish_w (s : Detail F) (mm : F) : (propsFinish s mm).w
    = sqrt (if f% 1000.0 * (propsFinish s mm).cp / (propsFinish s mm).cv
          * (propsFinish s mm).dp_dd / mm <. f% 0.0 then f% 0.0
        else f% 1000.0 * (propsFinish s mm).cp / (propsFinish s mm).cv
          * (propsFinish s mm).dp_dd / mm) := by
  unfold propsFinish
  dsimp only
  split <;> dsimp only <;> split <;> simp

theorem propsFinish_kappa (s : Detail F) (mm : F) : (propsFinish s mm).kappa
    = (propsFinish s mm).w * (propsFinish s mm).w * mm
      / (RDETAIL * s.t * f% 1000.0 * (propsFinish s mm).z) := by
  unfold propsFinish
  dsimp only

theorem propsFinish_d2p_dtd (s : Detail F) (mm : F) : (propsFinish s mm).d2p_dtd = f% 0.0 := by
  unfold propsFinish
  dsimp only

/-- The state in which `properties` fills the result fields. -/
def propsMid (s : Detail F) : Detail F := alpharP (alpha0_detail (x_terms (molar_mass s).1)) 2

theorem propertiesP_eq (s : Detail F) : propertiesP s = propsFinish (propsMid s) (molar_mass s).2 := rfl

theorem propsMid_pub (s : Detail F) : pub (propsMid s) = { pub s with mm := (molar_mass s).2 } := by
  unfold propsMid
  simp only [pub_alpharP, pub_alpha0, pub_x_terms]
  rfl

theorem propsMid_t (s : Detail F) : (propsMid s).t = s.t := congrArg Pub.t (propsMid_pub s)
theorem propsMid_d (s : Detail F) : (propsMid s).d = s.d := congrArg Pub.d (propsMid_pub s)
theorem propsMid_x (s : Detail F) : (propsMid s).x = s.x := congrArg Pub.x (propsMid_pub s)

theorem propsMid_ar (s : Detail F) : (propsMid s).ar = (alpharP (x_terms s) 2).ar := by
  unfold propsMid
  rw [ar_alpha0, molar_mass_fst]
  exact ar_eval_congr' (withMM_view s _) (withMM_d s _) (withMM_t s _) 2

theorem propsMid_a0 (s : Detail F) : (propsMid s).a0 = (alpha0_detail s).a0 := by
  unfold propsMid
  rw [a0_alpharP, molar_mass_fst]
  generalize (molar_mass s).2 = m
  have hp := pub_x_terms (withMM s m)
  have hm := params_x_terms (withMM s m)
  exact alpha0_a0_congr ((pub_t hp).trans (withMM_t s m)) ((pub_d hp).trans (withMM_d s m))
    ((pub_xx hp).trans (withMM_x s m)) (congrArg Params.n0i (hm.trans (withMM_params s m)))

/-- `properties` computes the same pressure derivative as `pressure`. -/
theorem propertiesP_dp_dd (s : Detail F) : (propertiesP s).dp_dd = (pressureP s).1.dp_dd_save := by
  rw [propertiesP_eq, propsFinish_dp_dd, pressureP_save, propsMid_t, propsMid_ar,
    alpharP_row0 _ 2 0, alpharP_row0 _ 2 0]

theorem propertiesP_z (s : Detail F) : (propertiesP s).z
    = f% 1.0 + aget2 (alpharP (x_terms s) 0).ar 0 1 / (RDETAIL * s.t) := by
  rw [propertiesP_eq, propsFinish_z, propsMid_t, propsMid_ar, alpharP_row0 _ 2 0]

theorem propertiesP_t (s : Detail F) : (propertiesP s).t = s.t := by
  rw [propertiesP_eq, propsFinish_t, propsMid_t]
theorem propertiesP_d (s : Detail F) : (propertiesP s).d = s.d := by
  rw [propertiesP_eq, propsFinish_d, propsMid_d]
theorem propertiesP_x (s : Detail F) : (propertiesP s).x = s.x := by
  rw [propertiesP_eq, propsFinish_x, propsMid_x]
theorem propertiesP_p (s : Detail F) :
    (propertiesP s).p = s.d * (RDETAIL * s.t) * (propertiesP s).z := by
  rw [propertiesP_eq, propsFinish_p, propsMid_d, propsMid_t]

/-! ## The density iteration -/

/-- The Newton correction in log-volume at log-volume `v`. -/
def vstep (s : Detail F) (v : F) : F :=
  (ln (pAt s (exp (-v))) - ln s.p) * pAt s (exp (-v)) / (-exp (-v) * dpAt s (exp (-v)))

/-- A successful iteration ends with an accepted Newton step. -/
theorem densityLoopP_success (hself : SelfDiff F) (s0 : Detail F) (n : Nat) (vlog : F) (s : Detail F)
    (hv : view s = view s0) (ht : s.t = s0.t) (hp : s.p = s0.p)
    (h : (densityLoopP (ln s0.p) n vlog s).2 = .ok ()) :
    ∃ v, FOps.le (-(f% 7.0)) v = true ∧ FOps.le v (f% 100.0) = true ∧
      FOps.lt (dpAt s0 (exp (-v))) EPSILON = false ∧ FOps.lt (pAt s0 (exp (-v))) EPSILON = false ∧
      FOps.lt (abs (vstep s0 v)) TOLR = true ∧
      (densityLoopP (ln s0.p) n vlog s).1.d = exp (-(v - vstep s0 v)) ∧
      (densityLoopP (ln s0.p) n vlog s).1.z = (pressureP (withD s0 (exp (-v)))).1.z := by
  induction n generalizing vlog s with
  | zero => rw [densityLoopP_zero] at h; cases h
  | succ n ih =>
    rw [densityLoopP_succ] at h ⊢
    have e1 : (pressureP (withD s (exp (-vlog)))).2 = pAt s0 (exp (-vlog)) := pAt_congr hv ht _
    have e2 : (pressureP (withD s (exp (-vlog)))).1.dp_dd_save = dpAt s0 (exp (-vlog)) :=
      dpAt_congr hv ht _
    have e3 : view (pressureP (withD s (exp (-vlog)))).1 = view s0 := by
      rw [view_pressureP hself, view_withD, hv]
    have e4 := pub_pressureP (withD s (exp (-vlog)))
    have e5 : (pressureP (withD s (exp (-vlog)))).1.t = s0.t := by
      rw [← ht]; exact congrArg Pub.t e4
    have e6 : (pressureP (withD s (exp (-vlog)))).1.p = s0.p := by
      rw [← hp]; exact congrArg Pub.p e4
    have e7 : (pressureP (withD s (exp (-vlog)))).1.d = exp (-vlog) := congrArg Pub.d e4
    have e8 : (pressureP (withD s (exp (-vlog)))).1.z = (pressureP (withD s0 (exp (-vlog)))).1.z := by
      rw [pressureP_z, pressureP_z, ar_eval_congr' (s := withD s (exp (-vlog)))
        (s' := withD s0 (exp (-vlog))) (by rw [view_withD, view_withD, hv]) rfl ht]
      simp only [withD_t, ht]
    generalize pressureP (withD s (exp (-vlog))) = r at *
    dsimp only at h ⊢
    rw [e1, e2, e7] at h ⊢
    split at h
    · cases h
    · rename_i hr
      rw [if_neg hr]
      have hr' : FOps.le (-(f% 7.0)) vlog = true ∧ FOps.le vlog (f% 100.0) = true := by
        simpa using hr
      split at h
      · rename_i hc
        rw [if_pos hc]
        exact ih _ _ e3 e5 e6 h
      · rename_i hc
        rw [if_neg hc]
        have hc' : FOps.lt (dpAt s0 (exp (-vlog))) EPSILON = false ∧
            FOps.lt (pAt s0 (exp (-vlog))) EPSILON = false := by
          simpa using hc
        split at h
        · rename_i hd
          rw [if_pos hd]
          exact ⟨vlog, hr'.1, hr'.2, hc'.1, hc'.2, hd, rfl, e8⟩
        · rename_i hd
          rw [if_neg hd]
          exact ih _ _ e3 e5 e6 h

theorem densityLoopP_error (plog : F) (n : Nat) (vlog : F) (s : Detail F) {e : DensityError}
    (h : (densityLoopP plog n vlog s).2 = .error e) :
    e = .IterationFail ∧ (densityLoopP plog n vlog s).1.d = s.p / RDETAIL / s.t := by
  induction n generalizing vlog s with
  | zero =>
    rw [densityLoopP_zero] at h ⊢
    cases h
    exact ⟨rfl, rfl⟩
  | succ n ih =>
    rw [densityLoopP_succ] at h ⊢
    have e4 := pub_pressureP (withD s (exp (-vlog)))
    have e5 : (pressureP (withD s (exp (-vlog)))).1.t = s.t := congrArg Pub.t e4
    have e6 : (pressureP (withD s (exp (-vlog)))).1.p = s.p := congrArg Pub.p e4
    generalize pressureP (withD s (exp (-vlog))) = r at *
    dsimp only at h ⊢
    split at h
    · rename_i hr
      rw [if_pos hr]
      cases h
      exact ⟨rfl, rfl⟩
    · rename_i hr
      rw [if_neg hr]
      split at h
      · rename_i hc
        rw [if_pos hc]
        have := ih _ _ h
        rw [e5, e6] at this
        exact this
      · rename_i hc
        rw [if_neg hc]
        split at h
        · cases h
        · rename_i hd
          rw [if_neg hd]
          have := ih _ _ h
          rw [e5, e6] at this
          exact this

/-- The start value of the iteration. -/
def d0Of (s : Detail F) : F := if -EPSILON <. s.d then s.p / RDETAIL / s.t else abs s.d

theorem densityP_eq' (s : Detail F) : densityP s =
    if abs s.p <. EPSILON then (withD s (f% 0.0), .error .PressureTooLow)
    else densityLoopP (ln s.p) 20 (-ln (d0Of s)) (withD s (d0Of s)) := rfl

/-- The density found depends on `t`, `p`, the start value and the effective terms only. -/
theorem densityLoopP_congr (hself : SelfDiff F) (plog : F) (n : Nat) (vlog : F) {s s' : Detail F}
    (hv : view s = view s') (ht : s.t = s'.t) (hp : s.p = s'.p) :
    (densityLoopP plog n vlog s).2 = (densityLoopP plog n vlog s').2 ∧
    (densityLoopP plog n vlog s).1.d = (densityLoopP plog n vlog s').1.d := by
  induction n generalizing vlog s s' with
  | zero =>
    rw [densityLoopP_zero, densityLoopP_zero, ht, hp]
    exact ⟨rfl, rfl⟩
  | succ n ih =>
    rw [densityLoopP_succ, densityLoopP_succ]
    have e1 : (pressureP (withD s (exp (-vlog)))).2 = (pressureP (withD s' (exp (-vlog)))).2 :=
      pAt_congr hv ht _
    have e2 : (pressureP (withD s (exp (-vlog)))).1.dp_dd_save
        = (pressureP (withD s' (exp (-vlog)))).1.dp_dd_save := dpAt_congr hv ht _
    have e3 : view (pressureP (withD s (exp (-vlog)))).1
        = view (pressureP (withD s' (exp (-vlog)))).1 := by
      rw [view_pressureP hself, view_withD, hv, view_pressureP hself, view_withD]
    have e4 := pub_pressureP (withD s (exp (-vlog)))
    have e4' := pub_pressureP (withD s' (exp (-vlog)))
    generalize pressureP (withD s (exp (-vlog))) = r at *
    generalize pressureP (withD s' (exp (-vlog))) = r' at *
    have e5 : r.1.t = r'.1.t :=
      (congrArg Pub.t e4 : r.1.t = s.t).trans (ht.trans (congrArg Pub.t e4' : r'.1.t = s'.t).symm)
    have e6 : r.1.p = r'.1.p :=
      (congrArg Pub.p e4 : r.1.p = s.p).trans (hp.trans (congrArg Pub.p e4' : r'.1.p = s'.p).symm)
    have e7 : r.1.d = r'.1.d :=
      (congrArg Pub.d e4 : r.1.d = _).trans (congrArg Pub.d e4' : r'.1.d = _).symm
    dsimp only
    rw [e1, e2, e7, ht, hp]
    split
    · exact ⟨rfl, rfl⟩
    · split
      · exact ih _ e3 e5 e6
      · split
        · exact ⟨rfl, rfl⟩
        · exact ih _ e3 e5 e6

theorem view_densityLoopP (hself : SelfDiff F) (plog : F) (n : Nat) (vlog : F) (s : Detail F) :
    view (densityLoopP plog n vlog s).1 = view s := by
  induction n generalizing vlog s with
  | zero => rw [densityLoopP_zero]; exact view_withD s _
  | succ n ih =>
    rw [densityLoopP_succ]
    have e3 : view (pressureP (withD s (exp (-vlog)))).1 = view s := by
      rw [view_pressureP hself, view_withD]
    generalize pressureP (withD s (exp (-vlog))) = r at *
    dsimp only
    split
    · exact view_withD s _
    · split
      · rw [ih, e3]
      · split
        · exact (view_withD r.1 _).trans e3
        · rw [ih, e3]

theorem view_densityP (hself : SelfDiff F) (s : Detail F) : view (densityP s).1 = view s := by
  rw [densityP_eq']
  split
  · exact view_withD s _
  · rw [view_densityLoopP hself, view_withD]

/-! ## Repeated evaluation -/

theorem detail_ext {s s' : Detail F} (h1 : pub s = pub s') (h2 : params s = params s')
    (h3 : cache s = cache s') (h4 : scratch s = scratch s') : s = s' := by
  rw [← mkD_eta s, ← mkD_eta s', h1, h2, h3, h4]

/-- An object whose cache was made for its composition and temperature. -/
def Settled (s : Detail F) : Prop := s.xold = s.x ∧ s.told = s.t

theorem cache_eval_settled (hself : SelfDiff F) {s : Detail F} (h : Settled s) (i : Int) :
    cache (alpharP (x_terms s) i) = cache s := by
  have h1 : xDiff s.x s.xold = false := by
    rw [h.1]
    unfold xDiff
    rw [List.any_eq_false]
    intro i _
    rw [hself]; simp
  have h2 : tDiff s.t s.told = false := by rw [h.2]; exact hself _
  rw [cache_eval, arTun_eq, x_terms_eq, h1]
  simp only [Bool.false_eq_true, if_false]
  rw [h2]
  simp only [Bool.false_eq_true, if_false]
  unfold cache
  rw [h.1, h.2]

theorem pressureP_twice (hself : SelfDiff F) (s : Detail F) :
    pressureP (pressureP s).1 = pressureP s := by
  have hp := pub_pressureP s
  have hx : (pressureP s).1.x = s.x := congrArg Pub.x hp
  have ht : (pressureP s).1.t = s.t := congrArg Pub.t hp
  have hd : (pressureP s).1.d = s.d := congrArg Pub.d hp
  have hset : Settled (pressureP s).1 :=
    ⟨(xold_pressureP s).trans hx.symm, (told_pressureP s).trans ht.symm⟩
  have har : (alpharP (x_terms (pressureP s).1) 0).ar = (alpharP (x_terms s) 0).ar :=
    ar_eval_congr' (view_pressureP hself s) hd ht 0
  have hz : (pressureP (pressureP s).1).1.z = (pressureP s).1.z := by
    rw [pressureP_z, har, ht, ← pressureP_z]
  apply Prod.ext
  · apply detail_ext
    · rw [pub_pressureP, hz]; rfl
    · rw [params_pressureP]
    · rw [cache_pressureP, cache_eval_settled hself hset]
    · have e1 : (pressureP (pressureP s).1).1.dp_dd_save = (pressureP s).1.dp_dd_save := by
        rw [pressureP_save, har, ht, ← pressureP_save]
      have e2 : ∀ s : Detail F, (pressureP s).1.a0 = s.a0 := by
        intro s
        show (alpharP (x_terms s) 0).a0 = _
        rw [a0_alpharP]
        exact congrArg Scratch.a0 (scratch_x_terms s)
      have e3 : ∀ s : Detail F, (pressureP s).1.ar = (alpharP (x_terms s) 0).ar := fun s => rfl
      unfold scratch
      rw [e1, e2, e3, e3, har]
  · rw [pressureP_snd, hz, hd, ht, ← pressureP_snd]

theorem scratch_propsFinish (s : Detail F) (mm : F) : scratch (propsFinish s mm) = scratch s := by
  unfold propsFinish
  dsimp only
  split <;> dsimp only <;> split <;> rfl

/-- The result fields computed by `propsFinish` do not depend on their old values. -/
theorem propsFinish_congr' {s s' : Detail F} (ht : s.t = s'.t) (hd : s.d = s'.d) (hx : s.x = s'.x)
    (hmm : s.mm = s'.mm) (h0 : s.a0 = s'.a0) (hr : s.ar = s'.ar) (mm : F) :
    pub (propsFinish s mm) = pub (propsFinish s' mm) := by
  have g1 : (pub s).t = (pub s').t := ht
  have g2 : (pub s).d = (pub s').d := hd
  have g3 : (pub s).x = (pub s').x := hx
  have g4 : (pub s).mm = (pub s').mm := hmm
  rw [← mkD_eta s, ← mkD_eta s']
  have e0 : (scratch s).a0 = (scratch s').a0 := h0
  have e1 : (scratch s).ar = (scratch s').ar := hr
  revert e0 e1 g1 g2 g3 g4
  generalize scratch s = r
  generalize scratch s' = r'
  generalize pub s = q
  generalize pub s' = q'
  generalize params s = m
  generalize params s' = m'
  generalize cache s = c
  generalize cache s' = c'
  intro e0 e1 g1 g2 g3 g4
  cases r; cases r'; cases q; cases q'
  simp only at e0 e1 g1 g2 g3 g4
  subst e0 e1 g1 g2 g3 g4
  unfold propsFinish mkD
  dsimp only
  split <;> dsimp only <;> split <;> rfl

theorem propsMid_save (s : Detail F) : (propsMid s).dp_dd_save = s.dp_dd_save := by
  unfold propsMid
  rw [molar_mass_fst]
  generalize (molar_mass s).2 = m
  have h1 : ∀ s : Detail F, ∀ i, (alpharP s i).dp_dd_save = s.dp_dd_save := by
    intro s i; unfold alpharP; simp only [arTun_eq]
  have h2 : ∀ s : Detail F, (alpha0_detail s).dp_dd_save = s.dp_dd_save := fun s => rfl
  have h3 : ∀ s : Detail F, (x_terms s).dp_dd_save = s.dp_dd_save :=
    fun s => congrArg Scratch.dp_dd_save (scratch_x_terms s)
  rw [h1, h2, h3, withMM_save]

theorem cache_propsMid (s : Detail F) :
    cache (propsMid s) = cache (alpharP (x_terms (withMM s (molar_mass s).2)) 2) := by
  unfold propsMid
  rw [cache_alpharP_alpha0, molar_mass_fst]

/-- What a second `properties` call finds is what the first one left. -/
theorem propertiesP_fix (hself : SelfDiff F) {s s' : Detail F} (hset : Settled s')
    (hx : s'.x = s.x) (ht : s'.t = s.t) (hd : s'.d = s.d) (hv : view s' = view s)
    (hm : params s' = params s) (hc : scratch s' = scratch (propsMid s))
    (hs : s'.dp_dd_save = s.dp_dd_save)
    (hp : pub s' = pub (propsFinish (propsMid s) (molar_mass s).2)) : propertiesP s' = s' := by
  have hmm := molar_mass_congr hx
  have har : (propsMid s').ar = (propsMid s).ar := by
    rw [propsMid_ar, propsMid_ar]
    exact ar_eval_congr' hv hd ht 2
  have ha0 : (propsMid s').a0 = (propsMid s).a0 := by
    rw [propsMid_a0, propsMid_a0]
    exact alpha0_a0_congr ht hd hx (congrArg Params.n0i hm)
  have g : ∀ s : Detail F, (propsMid s).mm = (molar_mass s).2 :=
    fun s => congrArg Pub.mm (propsMid_pub s)
  apply detail_ext
  · rw [propertiesP_eq, hmm, hp]
    apply propsFinish_congr'
    · rw [propsMid_t, propsMid_t, ht]
    · rw [propsMid_d, propsMid_d, hd]
    · rw [propsMid_x, propsMid_x, hx]
    · rw [g, g, hmm]
    · exact ha0
    · exact har
  · rw [params_propertiesP]
  · rw [propertiesP_eq, cache_propsFinish, cache_propsMid]
    have hset' : Settled (withMM s' (molar_mass s').2) :=
      ⟨(withMM_xold s' _).trans (hset.1.trans (withMM_x s' _).symm),
        (withMM_told s' _).trans (hset.2.trans (withMM_t s' _).symm)⟩
    rw [cache_eval_settled hself hset', withMM_cache]
  · rw [propertiesP_eq, scratch_propsFinish, hc]
    unfold scratch
    rw [propsMid_save, propsMid_save, hs, ha0, har]

theorem propertiesP_twice (hself : SelfDiff F) (s : Detail F) :
    propertiesP (propertiesP s) = propertiesP s := by
  obtain ⟨-, h2, h3⟩ := stored_propertiesP s
  apply propertiesP_fix hself (s := s)
  · exact ⟨h2.trans (propertiesP_x s).symm, h3.trans (propertiesP_t s).symm⟩
  · exact propertiesP_x s
  · exact propertiesP_t s
  · exact propertiesP_d s
  · exact view_propertiesP hself s
  · exact params_propertiesP s
  · rw [propertiesP_eq, scratch_propsFinish]
  · rw [propertiesP_eq]
    exact (congrArg Scratch.dp_dd_save (scratch_propsFinish _ _)).trans (propsMid_save s)
  · rw [propertiesP_eq]

end Aga8.Detail
