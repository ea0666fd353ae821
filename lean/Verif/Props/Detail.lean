import Verif.Lemmas.DetailAbsent
import Verif.Lemmas.DetailDrift
import Verif.Spec.DensityCost

/-! # Properties of DETAIL objects in any arithmetic

C06, C09, C11, C12, C13, C15, C16, C19, C24, C40, C45, C46. Everything in this file is proved for every number type,
so it holds for IEEE-754 `f64` with any math library. -/

set_option linter.unusedSectionVars false

namespace Aga8

open FOps
open Detail (Pub pub Params params Op Out step run runNew setPub)

variable {F : Type} [Add F] [Sub F] [Mul F] [Div F] [Neg F] [FOps F]

/-! ## Setting the composition, panics, new objects -/

/-- C06: an unacceptable composition is rejected with the error of `check` and nothing changes; an acceptable one
changes the field `x` only and puts each component in its own slot. -/
theorem C06_detail_set_composition (s : Detail F) (c : Composition F) :
    (∃ e, c.check = .error e ∧ s.set_composition c = (s, .error e)) ∨
    (c.check = .ok () ∧ ∃ x : Vector F 21,
      s.set_composition c = ({ s with x := x }, .ok ()) ∧
      x[0] = c.methane ∧ x[1] = c.nitrogen ∧ x[2] = c.carbon_dioxide ∧ x[3] = c.ethane ∧
      x[4] = c.propane ∧ x[5] = c.isobutane ∧ x[6] = c.n_butane ∧ x[7] = c.isopentane ∧
      x[8] = c.n_pentane ∧ x[9] = c.hexane ∧ x[10] = c.heptane ∧ x[11] = c.octane ∧
      x[12] = c.nonane ∧ x[13] = c.decane ∧ x[14] = c.hydrogen ∧ x[15] = c.oxygen ∧
      x[16] = c.carbon_monoxide ∧ x[17] = c.water ∧ x[18] = c.hydrogen_sulfide ∧
      x[19] = c.helium ∧ x[20] = c.argon) := by
  unfold Detail.set_composition
  cases h : c.check with
  | error e => exact Or.inl ⟨e, rfl, rfl⟩
  | ok u =>
    refine Or.inr ⟨rfl, _, rfl, ?_⟩
    simp (decide := true) [aset, Vector.getElem_set]

/-- Both cases occur: an all-zero composition is rejected, pure methane is accepted. -/
example : (Composition.default : Composition ℝ).check = .error .Empty := by
  simp [Composition.check, Composition.sum, Composition.default]
example : ({ Composition.default with methane := 1 } : Composition ℝ).check = .ok () := by
  simp [Composition.check, Composition.sum, Composition.default]
  norm_num

/-- C09: no history of public calls on a new object panics. -/
theorem C09_detail_never_panics (ops : List (Op F)) : ∃ r, runNew ops = .ok r := by
  have key : ∀ (ops : List (Op F)) (s : Detail F), ∃ r, run s ops = .ok r := by
    intro ops
    induction ops with
    | nil => intro s; exact ⟨_, rfl⟩
    | cons op ops ih =>
      intro s
      obtain ⟨r, hr⟩ := ih (Detail.stepP s op).1
      exact ⟨(r.1, (Detail.stepP s op).2 :: r.2), by
        simp only [run, Detail.step_ok, bind, Except.bind, hr, pure, Except.pure]⟩
  obtain ⟨r, hr⟩ := key ops Detail.newP
  exact ⟨r, by simp only [runNew, Detail.new_ok, bind, Except.bind, hr]⟩

/-- C46: `new` succeeds with all public fields zero. -/
theorem C46_detail_new_is_clean : ∃ s : Detail F, Detail.new = .ok s ∧
    pub s = ⟨f% 0.0, f% 0.0, f% 0.0, f% 0.0, f% 0.0, f% 0.0, f% 0.0, f% 0.0, f% 0.0, f% 0.0, f% 0.0,
      f% 0.0, f% 0.0, f% 0.0, f% 0.0, f% 0.0, f% 0.0, f% 0.0, fill 21 (f% 0.0)⟩ :=
  ⟨Detail.newP, Detail.new_ok, Detail.newP_frame.1⟩

/-- C46: no history changes the equation-of-state parameters of the object it starts from. -/
theorem C46_detail_parameters_never_change (s : Detail F) (ops : List (Op F)) (s' : Detail F)
    (outs : List (Out F)) (h : run s ops = .ok (s', outs)) : params s' = params s := by
  induction ops generalizing s outs with
  | nil => simp only [run, pure, Except.pure, Except.ok.injEq, Prod.mk.injEq] at h; rw [h.1]
  | cons op ops ih =>
    simp only [run, Detail.step_ok, bind, Except.bind] at h
    cases hr : run (Detail.stepP s op).1 ops with
    | error e => rw [hr] at h; simp at h
    | ok r =>
      rw [hr] at h
      simp only [pure, Except.pure, Except.ok.injEq, Prod.mk.injEq] at h
      rw [← Detail.params_stepP s op]
      exact ih _ r.2 (by rw [hr, ← h.1])

/-! ## Frames -/

/-- C11: `pressure` changes no public field but `z` and returns `d*R*t*z`. -/
theorem C11_detail_pressure_only_computes (s : Detail F) : ∃ s' p, s.pressure = .ok (s', p) ∧
    pub s' = { pub s with z := s'.z } ∧ p = s.d * f% 8.31451 * s.t * s'.z :=
  ⟨_, _, Detail.pressure_ok s, Detail.pub_pressureP s, Detail.pressureP_snd s⟩

/-- C12: `density` changes no public field but `d` and `z`. -/
theorem C12_detail_density_frame (s : Detail F) : ∃ s' r, s.density = .ok (s', r) ∧
    pub s' = { pub s with d := s'.d, z := s'.z } :=
  ⟨_, _, Detail.density_ok s, Detail.pub_densityP s⟩

/-- C13: `properties` keeps `t`, `d`, `x`, sets `p` to `d*R*t*z` and `d2p_dtd` to zero. -/
theorem C13_detail_properties_frame (s : Detail F) : ∃ s', s.properties = .ok s' ∧
    s'.t = s.t ∧ s'.d = s.d ∧ s'.x = s.x ∧ s'.p = s.d * (f% 8.31451 * s.t) * s'.z ∧
    s'.d2p_dtd = f% 0.0 := by
  refine ⟨_, Detail.properties_ok s, Detail.propertiesP_t s, Detail.propertiesP_d s,
    Detail.propertiesP_x s, Detail.propertiesP_p s, ?_⟩
  rw [Detail.propertiesP_eq]
  exact Detail.propsFinish_d2p_dtd _ _

/-! ## The density search -/

/-- C15: the error contract of `density`. -/
theorem C15_detail_density_errors (s : Detail F) : ∃ s' r, s.density = .ok (s', r) ∧
    (r = .ok () ∨ r = .error .PressureTooLow ∨ r = .error .IterationFail) ∧
    (r = .error .PressureTooLow ↔ FOps.lt (abs s.p) (f% 1e-15) = true) ∧
    (r = .error .PressureTooLow → s'.d = f% 0.0) ∧
    (r = .error .IterationFail → s'.d = s.p / f% 8.31451 / s.t) := by
  refine ⟨(Detail.densityP s).1, (Detail.densityP s).2, Detail.density_ok s, ?_⟩
  rw [Detail.densityP_eq']
  cases hp : FOps.lt (abs s.p) (Detail.EPSILON : F)
  · have hp' : FOps.lt (abs s.p) (f% 1e-15 : F) = false := hp
    simp only [Bool.false_eq_true, if_false, hp']
    cases h : (Detail.densityLoopP (ln s.p) 20 (-ln (Detail.d0Of s))
        (Detail.withD s (Detail.d0Of s))).2 with
    | ok u => simp
    | error e =>
      obtain ⟨rfl, h2⟩ := Detail.densityLoopP_error _ _ _ _ h
      refine ⟨Or.inr (Or.inr rfl), by simp, by simp, fun _ => h2⟩
  · have hp' : FOps.lt (abs s.p) (f% 1e-15 : F) = true := hp
    simp [hp', Detail.withD]

/-- Both errors occur: zero pressure, and a start far above every liquid density. -/
example (s : Detail ℝ) (hp : s.p = 0) : ∃ s', s.density = .ok (s', .error .PressureTooLow) := by
  obtain ⟨s', r, h, -, h2, -⟩ := C15_detail_density_errors s
  have := h2.2 (by rw [r_lt, hp, r_abs, lem15]; norm_num)
  exact ⟨s', by rw [h, this]⟩
example (s : Detail ℝ) (hp : s.p = 1) (hd : s.d = -Real.exp 8) :
    ∃ s', s.density = .ok (s', .error .IterationFail) ∧ s'.d = 1 / 8.31451 / s.t := by
  have h1 : ¬ (FOps.lt (FOps.abs s.p) (Detail.EPSILON : ℝ) = true) := by
    rw [r_lt, hp, r_abs]; unfold Detail.EPSILON; rw [lem15]; norm_num
  have h2 : Detail.d0Of s = Real.exp 8 := by
    have : ¬ (FOps.lt (-(Detail.EPSILON : ℝ)) s.d = true) := by
      rw [r_lt, hd]; unfold Detail.EPSILON; rw [lem15]
      have := Real.add_one_le_exp (8 : ℝ)
      linarith
    unfold Detail.d0Of
    rw [if_neg this, hd, r_abs, abs_neg, abs_of_pos (Real.exp_pos _)]
  have h3 : ((!(FOps.le (-(f% 7.0 : ℝ)) (-FOps.ln (Real.exp 8)) && FOps.le (-FOps.ln (Real.exp 8)) (f% 100.0 : ℝ)))
      = true) := by
    have : FOps.le (-(f% 7.0 : ℝ)) (-FOps.ln (Real.exp 8)) = false := by
      rw [r_le_false, r_ln, Real.log_exp, l7]; norm_num
    rw [this]; rfl
  refine ⟨Detail.withD s (s.p / Detail.RDETAIL / s.t), ?_, ?_⟩
  · rw [Detail.density_ok, Detail.densityP_eq', if_neg h1, h2, Detail.densityLoopP_succ, if_pos h3]
    rfl
  · show s.p / Detail.RDETAIL / s.t = _
    rw [hp, Detail.R_real]

/-- C16: the success contract of `density`. There is a log-volume `v` between -7 and 100 such that at the
density `exp (-v)` (same temperature and composition) the pressure and its density derivative, as `pressure` and
`properties` report them, are not below 1e-15, the Newton correction of the log-volume computed from them is
below 1e-7 in magnitude, and the density returned is the corrected one. -/
theorem C16_detail_density_success (hself : ∀ a : F, FOps.lt (f% 0.0000001) (abs (a - a)) = false)
    (s s' : Detail F) (h : s.density = .ok (s', .ok ())) :
    ∃ v s1 p1 s2, FOps.le (-(f% 7.0)) v = true ∧ FOps.le v (f% 100.0) = true ∧
      Detail.pressure { s with d := exp (-v) } = .ok (s1, p1) ∧
      Detail.properties { s with d := exp (-v) } = .ok s2 ∧
      FOps.lt p1 (f% 1e-15) = false ∧ FOps.lt s2.dp_dd (f% 1e-15) = false ∧
      FOps.lt (abs ((ln p1 - ln s.p) * p1 / (-exp (-v) * s2.dp_dd))) (f% 1e-7) = true ∧
      s'.d = exp (-(v - (ln p1 - ln s.p) * p1 / (-exp (-v) * s2.dp_dd))) ∧ s'.z = s1.z := by
  rw [Detail.density_ok] at h
  have h' : Detail.densityP s = (s', .ok ()) := by injection h
  have h1 : (Detail.densityP s).1 = s' := by rw [h']
  have h2 : (Detail.densityP s).2 = .ok () := by rw [h']
  rw [Detail.densityP_eq'] at h1 h2
  cases hp : FOps.lt (abs s.p) (Detail.EPSILON : F)
  · rw [hp] at h1 h2
    simp only [Bool.false_eq_true, if_false] at h1 h2
    obtain ⟨v, a1, a2, a3, a4, a5, a6, a7⟩ := Detail.densityLoopP_success hself s 20 _ _
      (Detail.view_withD s _) (Detail.withD_t s _) (Detail.withD_p s _) h2
    rw [h1] at a6 a7
    have e : (Detail.propertiesP (Detail.withD s (exp (-v)))).dp_dd = Detail.dpAt s (exp (-v)) :=
      Detail.propertiesP_dp_dd _
    refine ⟨v, _, _, _, a1, a2, Detail.pressure_ok (Detail.withD s (exp (-v))),
      Detail.properties_ok (Detail.withD s (exp (-v))), a4, ?_, ?_, ?_, a7⟩
    · rw [e]; exact a3
    · rw [e]; exact a5
    · rw [e]; exact a6
  · rw [hp] at h2
    simp at h2

/-- The exact reals satisfy the hypothesis on the arithmetic. A state on which `density` succeeds is worked out
beside C35 (`methane_density_succeeds`). -/
example : ∀ a : ℝ, FOps.lt (f% 0.0000001) (FOps.abs (a - a)) = false := Detail.selfDiff_real

/-- C45: `densityWith` run with the model's `pressure` is `density`. -/
theorem C45_detail_densityWith_is_density (s : Detail F) :
    Detail.densityWith (m := Except Panic) Detail.pressure s = s.density := by
  have key : ∀ (plog : F) n vlog s,
      Detail.densityLoopWith (m := Except Panic) Detail.pressure plog n vlog s
        = Detail.densityLoop plog n vlog s := by
    intro plog n
    induction n with
    | zero => intro vlog s; rfl
    | succ n ih =>
      intro vlog s
      unfold Detail.densityLoopWith Detail.densityLoop
      simp only [ih]
  unfold Detail.densityWith Detail.density
  simp only [key]

/-- C45: `density` evaluates the equation of state at most 20 times, and never calls `properties`. -/
theorem C45_detail_density_bounded (s : Detail F) : ∃ r k, k ≤ 20 ∧ s.density = .ok r ∧
    Detail.densityWith (m := fun α => Counted α) (countP Detail.pressure) s ⟨0, 0, 0⟩ = .ok (r, ⟨k, 0, 0⟩) := by
  have key : ∀ (plog : F) n vlog s k0, ∃ r k, k ≤ n ∧ Detail.densityLoop plog n vlog s = .ok r ∧
      Detail.densityLoopWith (m := fun α => Counted α) (countP Detail.pressure) plog n vlog s ⟨k0, 0, 0⟩
        = .ok (r, ⟨k0 + k, 0, 0⟩) := by
    intro plog n
    induction n with
    | zero => intro vlog s k0; exact ⟨_, 0, Nat.le_refl 0, rfl, rfl⟩
    | succ n ih =>
      intro vlog s k0
      unfold Detail.densityLoopWith Detail.densityLoop
      split
      · exact ⟨_, 0, Nat.zero_le _, rfl, rfl⟩
      · simp only [countP, Detail.pressure_ok, bind, StateT.bind, Except.bind, pure, Except.pure]
        split
        · obtain ⟨r, k, hk, h1, h2⟩ := ih (vlog + f% 0.1)
            (Detail.pressureP { s with d := exp (-vlog) }).1 (k0 + 1)
          exact ⟨r, k + 1, by omega, h1, h2.trans (by rw [Nat.add_assoc, Nat.add_comm 1 k])⟩
        · split
          · exact ⟨_, 1, by omega, rfl, rfl⟩
          · obtain ⟨r, k, hk, h1, h2⟩ := ih (vlog -
                (ln (Detail.pressureP { s with d := exp (-vlog) }).2 - plog)
                  * (Detail.pressureP { s with d := exp (-vlog) }).2
                  / (-(Detail.pressureP { s with d := exp (-vlog) }).1.d
                    * (Detail.pressureP { s with d := exp (-vlog) }).1.dp_dd_save))
              (Detail.pressureP { s with d := exp (-vlog) }).1 (k0 + 1)
            exact ⟨r, k + 1, by omega, h1, h2.trans (by rw [Nat.add_assoc, Nat.add_comm 1 k])⟩
  unfold Detail.densityWith Detail.density
  split
  · exact ⟨_, 0, by omega, rfl, rfl⟩
  · obtain ⟨r, k, hk, h1, h2⟩ := key (ln (Detail.withD s (Detail.d0Of s)).p) 20
      (-ln (Detail.withD s (Detail.d0Of s)).d) (Detail.withD s (Detail.d0Of s)) 0
    have e : (if FOps.lt (-Detail.EPSILON) s.d = true then
        { s with d := s.p / Detail.RDETAIL / s.t } else { s with d := abs s.d })
        = Detail.withD s (Detail.d0Of s) := by
      unfold Detail.d0Of Detail.withD; split <;> rfl
    refine ⟨r, k, hk, ?_, ?_⟩
    · simp only [e]; exact h1
    · simp only [e]; rw [Nat.zero_add] at h2; exact h2

/-! ## Caches -/

/-- C19: in a history in which every evaluated composition and temperature is identical to, or distinguishable
from, those evaluated before (`HistOK`), the object behaves like the specification machine that makes every call
on a freshly constructed object: same returned values, same public fields. -/
theorem C19_detail_history_independent
    (hself : ∀ a : F, FOps.lt (f% 0.0000001) (abs (a - a)) = false)
    (new0 : Detail F) (hnew : Detail.new = .ok new0) (ops : List (Op F))
    (h : Detail.HistOK [] (pub new0) ops) :
    ∃ s' outs, runNew ops = .ok (s', outs) ∧
      Detail.freshRun (pub new0) ops = .ok (pub s', outs) := by
  have e : new0 = Detail.newP := by
    rw [Detail.new_ok] at hnew; injection hnew with h; exact h.symm
  rw [e] at h ⊢
  obtain ⟨s', outs, h1, h2⟩ := Detail.run_sim hself ops Detail.coherent_new h
  exact ⟨s', outs, by simp only [runNew, Detail.new_ok, bind, Except.bind, h1], h2⟩

/-- A history that meets the side condition and evaluates twice, at different temperatures. -/
example (q0 : Pub ℝ) : Detail.HistOK [] q0 [.write (Detail.methane 1 0 1), .pressure,
    .write (Detail.methane 2 0 1), .pressure] := by
  refine ⟨nofun, ?_⟩
  rintro r1 h1
  rw [Detail.freshStep_ok] at h1
  injection h1 with h1
  subst h1
  refine ⟨fun _ => ⟨Detail.methane_x 1 0 1, Detail.TFar_real (Detail.methane_t 1 0 1), nofun⟩, ?_⟩
  rintro r2 -
  refine ⟨nofun, ?_⟩
  rintro r3 h3
  rw [Detail.freshStep_ok] at h3
  injection h3 with h3
  subst h3
  refine ⟨fun _ => ⟨Detail.methane_x 2 0 1, Detail.TFar_real (Detail.methane_t 2 0 1), ?_⟩, ?_⟩
  · intro e he
    rw [show Detail.lastAfter _ _ _ = [((Detail.methane 1 0 1).x, (Detail.methane 1 0 1).t)] from rfl] at he
    rw [List.mem_singleton.1 he]
    refine ⟨Or.inl rfl, Or.inr ?_⟩
    show FOps.lt (f% 0.0000001) (FOps.abs ((4 : ℝ) ^ 2 * Detail.mE - 4 ^ 1 * Detail.mE)) = true
    rw [r_lt, r_abs, lem7]
    unfold Detail.mE
    rw [abs_of_pos] <;> norm_num
  · intro r _
    trivial

/-- C24: a second `pressure` call changes nothing and returns the same value. -/
theorem C24_detail_pressure_repeatable
    (hself : ∀ a : F, FOps.lt (f% 0.0000001) (abs (a - a)) = false) (s : Detail F) :
    ∃ s' p, s.pressure = .ok (s', p) ∧ s'.pressure = .ok (s', p) := by
  refine ⟨(Detail.pressureP s).1, (Detail.pressureP s).2, Detail.pressure_ok s, ?_⟩
  rw [Detail.pressure_ok, Detail.pressureP_twice hself]

/-- C24: a second `properties` call changes nothing. -/
theorem C24_detail_properties_repeatable
    (hself : ∀ a : F, FOps.lt (f% 0.0000001) (abs (a - a)) = false) (s : Detail F) :
    ∃ s', s.properties = .ok s' ∧ s'.properties = .ok s' := by
  refine ⟨Detail.propertiesP s, Detail.properties_ok s, ?_⟩
  rw [Detail.properties_ok, Detail.propertiesP_twice hself]

/-- C24: a `density` call repeated on its own result gives the same outcome and the same density, provided both calls
start from the ideal-gas estimate (the density field is not below -1e-15). -/
theorem C24_detail_density_repeatable
    (hself : ∀ a : F, FOps.lt (f% 0.0000001) (abs (a - a)) = false) (s s' : Detail F)
    (r : Except DensityError Unit) (h : s.density = .ok (s', r))
    (h0 : FOps.lt (-(f% 1e-15)) s.d = true) (h1 : FOps.lt (-(f% 1e-15)) s'.d = true) :
    ∃ s'', s'.density = .ok (s'', r) ∧ s''.d = s'.d := by
  rw [Detail.density_ok] at h
  have h' : Detail.densityP s = (s', r) := by injection h
  have e1 : (Detail.densityP s).1 = s' := by rw [h']
  have e2 : (Detail.densityP s).2 = r := by rw [h']
  have ep := Detail.pub_densityP s
  rw [e1] at ep
  have et : s'.t = s.t := congrArg Pub.t ep
  have epp : s'.p = s.p := congrArg Pub.p ep
  have hv : Detail.view s' = Detail.view s := by rw [← e1]; exact Detail.view_densityP hself s
  have hd0 : Detail.d0Of s' = Detail.d0Of s := by
    have g0 : FOps.lt (-Detail.EPSILON) s.d = true := h0
    have g1 : FOps.lt (-Detail.EPSILON) s'.d = true := h1
    unfold Detail.d0Of
    simp only [g0, g1, if_true, et, epp]
  have key : (Detail.densityP s').2 = (Detail.densityP s).2 ∧
      (Detail.densityP s').1.d = (Detail.densityP s).1.d := by
    rw [Detail.densityP_eq', Detail.densityP_eq', hd0, epp]
    split
    · exact ⟨rfl, rfl⟩
    · exact Detail.densityLoopP_congr hself _ _ _
        (by rw [Detail.view_withD, Detail.view_withD, hv]) et epp
  refine ⟨(Detail.densityP s').1, ?_, ?_⟩
  · rw [Detail.density_ok, ← e2, ← key.1]
  · rw [key.2, e1]

/-! ## Absent components -/

/-- C40: on new objects given the same temperature, density and pressure and two compositions that agree wherever a fraction is
strictly positive (and may differ arbitrarily where both are not), `pressure` gives the same value and the same
`z`, and `properties` gives the same results except for the molar mass and the two fields that use it
(`w`, `kappa`). Both compositions must be distinguishable from "nothing set", so that the new object notices them. -/
theorem C40_detail_absent_components (new0 : Detail F) (hnew : Detail.new = .ok new0)
    (q q' : Pub F) (ht : q'.t = q.t) (hd : q'.d = q.d)
    (hx : ∀ i : Fin 21, aget q'.x i = aget q.x i ∨
      (FOps.lt (f% 0.0) (aget q'.x i) = false ∧ FOps.lt (f% 0.0) (aget q.x i) = false))
    (h1 : Detail.XFar q.x (fill 21 (f% 0.0))) (h2 : Detail.XFar q'.x (fill 21 (f% 0.0)))
    (h3 : Detail.TFar q.t (f% 0.0)) :
    (∃ s1 s2 p, (setPub new0 q).pressure = .ok (s1, p) ∧ (setPub new0 q').pressure = .ok (s2, p) ∧
      s1.z = s2.z) ∧
    (∃ s1 s2, (setPub new0 q).properties = .ok s1 ∧ (setPub new0 q').properties = .ok s2 ∧
      s1.p = s2.p ∧ s1.z = s2.z ∧ s1.dp_dd = s2.dp_dd ∧ s1.d2p_dd2 = s2.d2p_dd2 ∧
      s1.dp_dt = s2.dp_dt ∧ s1.u = s2.u ∧ s1.h = s2.h ∧ s1.s = s2.s ∧ s1.cv = s2.cv ∧
      s1.cp = s2.cp ∧ s1.g = s2.g ∧ s1.jt = s2.jt) := by
  have e : new0 = Detail.newP := by
    rw [Detail.new_ok] at hnew; injection hnew with h; exact h.symm
  rw [e]
  have hv : Detail.view (Detail.freshOf q') = Detail.view (Detail.freshOf q) := by
    rw [Detail.view_fresh h1 h3, Detail.view_fresh h2 (by rw [ht]; exact h3)]
    exact Detail.computed_pos hx ht (by unfold Detail.freshOf; rw [Detail.params_setPub, Detail.params_setPub])
  have gt : (Detail.freshOf q').t = (Detail.freshOf q).t := ht
  have gd : (Detail.freshOf q').d = (Detail.freshOf q).d := hd
  have gm : params (Detail.freshOf q') = params (Detail.freshOf q) := by
    unfold Detail.freshOf; rw [Detail.params_setPub, Detail.params_setPub]
  have gx : Detail.SamePos (Detail.freshOf q').x (Detail.freshOf q).x := hx
  have hz : (Detail.pressureP (Detail.freshOf q')).1.z = (Detail.pressureP (Detail.freshOf q)).1.z := by
    rw [Detail.pressureP_z, Detail.pressureP_z, Detail.ar_eval_congr' hv gd gt, gt]
  have hp : (Detail.pressureP (Detail.freshOf q')).2 = (Detail.pressureP (Detail.freshOf q)).2 := by
    rw [Detail.pressureP_snd, Detail.pressureP_snd, hz, gd, gt]
  constructor
  · refine ⟨(Detail.pressureP (Detail.freshOf q)).1, (Detail.pressureP (Detail.freshOf q')).1,
      (Detail.pressureP (Detail.freshOf q)).2, Detail.pressure_ok _, ?_, hz.symm⟩
    rw [← hp]
    exact Detail.pressure_ok _
  · have h := Detail.noMass_propertiesP gt gd gx gm hv
    refine ⟨Detail.propertiesP (Detail.freshOf q), Detail.propertiesP (Detail.freshOf q'),
      Detail.properties_ok _, Detail.properties_ok _, ?_⟩
    unfold Detail.noMass at h
    injection h
    simp_all

/-- Pure methane, and the same with a negative ethane fraction. -/
example : ∃ q q' : Pub ℝ, q'.t = q.t ∧ q'.d = q.d ∧ q'.x ≠ q.x ∧
    (∀ i : Fin 21, aget q'.x i = aget q.x i ∨
      (FOps.lt (f% 0.0) (aget q'.x i) = false ∧ FOps.lt (f% 0.0) (aget q.x i) = false)) ∧
    Detail.XFar q.x (fill 21 (f% 0.0)) ∧ Detail.XFar q'.x (fill 21 (f% 0.0)) ∧ Detail.TFar q.t (f% 0.0) := by
  have h3 : aget (aset Detail.mx 3 (-1)) 3 = -1 := aget_aset_self _ _ _
  have h3' : aget Detail.mx 3 = 0 := by unfold Detail.mx; rw [aget_ofFn]; rfl
  refine ⟨Detail.methane 1 0 1, { Detail.methane 1 0 1 with x := aset Detail.mx 3 (-1) }, rfl, rfl, ?_, ?_,
    Detail.methane_x 1 0 1, ?_, Detail.TFar_real (Detail.methane_t 1 0 1)⟩
  · intro h
    have h : aset Detail.mx 3 (-1) = Detail.mx := h
    rw [h, h3'] at h3
    norm_num at h3
  · intro i
    show aget (aset Detail.mx 3 (-1)) i = aget Detail.mx i ∨ _
    by_cases hi : i = 3
    · right
      rw [hi, r_lt_false, r_lt_false, l0]
      show aget (aset Detail.mx 3 (-1)) 3 ≤ 0 ∧ aget Detail.mx 3 ≤ 0
      rw [h3, h3']
      norm_num
    · left
      exact aget_aset_ne _ _ (Ne.symm hi)
  · refine ⟨0, ?_⟩
    show FOps.lt _ (FOps.abs (aget (aset Detail.mx 3 (-1)) 0 - _)) = true
    rw [aget_aset_ne _ _ (by decide), r_lt, lem7, r_abs, aget_fill, l0]
    unfold Detail.mx
    rw [aget_ofFn]
    norm_num

end Aga8
