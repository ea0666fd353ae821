import Verif.Lemmas.GergEval
import Verif.Lemmas.GergPanic
import Verif.RealArith
import Verif.Lemmas.GergExample
import Verif.Spec.DensityCost

/-! # Properties of GERG-2008 objects in any arithmetic

C10, C14, C17, C18, C22, C24, C40, C45, C46. Everything in this file is proved for every number type, so it holds
for IEEE-754 `f64` with any math library. -/

set_option linter.unusedSectionVars false

namespace Aga8

open FOps
open Gerg (Pub pub Params params Op Out step run runNew setPub Reachable)

variable {F : Type} [Add F] [Sub F] [Mul F] [Div F] [Neg F] [FOps F]

attribute [local irreducible] Gerg.newP Gerg.densityP Gerg.pressureP Gerg.propertiesP

/-! ## Panics, new objects -/

/-- C10: no history of public calls on a new object panics. -/
theorem C10_gerg_never_panics (ops : List (Op F)) : ∃ r, runNew ops = .ok r := by
  rw [Gerg.runNew_eq]
  obtain ⟨r, hr, -⟩ := Gerg.run_ok ops (Gerg.newP : Gerg F) Gerg.newP_idx
  exact ⟨r, hr⟩

/-- The model can panic: with a density exponent of 8 in the table of methane, `pressure` of every gas with methane reads
outside a power table. So C10 is a statement about the parameter tables, not about the shape of the model. -/
example (s : Gerg F) (hx : (f% 1.0e-15 <. aget s.x 1) = true) :
    ({ s with doik := fill 22 (fill 25 8) } : Gerg F).pressure = .error .indexOutOfBounds :=
  Gerg.pressure_panics _ hx (show 8 ≤ aget2 (fill 22 (fill 25 8)) 1 1 by decide)

/-- The fraction of methane can be above the threshold. -/
example : ((f% 1.0e-15 : ℝ) <. 1) = true := by
  rw [r_lt]
  show ((1 : ℕ) : ℝ) / 10 ^ 15 < 1
  norm_num

/-- C46: `new` succeeds with all public fields zero. -/
theorem C46_gerg_new_is_clean : ∃ s : Gerg F, Gerg.new = .ok s ∧
    pub s = ⟨f% 0.0, f% 0.0, f% 0.0, f% 0.0, f% 0.0, f% 0.0, f% 0.0, f% 0.0, f% 0.0, f% 0.0, f% 0.0,
      f% 0.0, f% 0.0, f% 0.0, f% 0.0, f% 0.0, f% 0.0, f% 0.0, fill 22 (f% 0.0)⟩ :=
  ⟨Gerg.newP, Gerg.new_ok, Gerg.newP_frame.1.trans Gerg.pub_default⟩

/-- C46: no history changes the equation-of-state parameters: after any history they are those of a new object. -/
theorem C46_gerg_parameters_never_change (new0 : Gerg F) (hnew : Gerg.new = .ok new0) (ops : List (Op F))
    (s' : Gerg F) (outs : List (Out F)) (h : runNew ops = .ok (s', outs)) : params s' = params new0 := by
  have e : new0 = Gerg.newP := Gerg.new_inj hnew
  rw [e]
  exact Reachable.params ⟨ops, outs, h⟩

/-! ## Frames -/

/-- C14: `pressure` changes no public field but `z` and returns `d*R*t*z`. -/
theorem C14_gerg_pressure_only_computes (s : Gerg F) (hs : Reachable s) :
    ∃ s' p, s.pressure = .ok (s', p) ∧ pub s' = { pub s with z := s'.z } ∧
      p = s.d * f% 8.314472 * s.t * s'.z :=
  ⟨_, _, Gerg.pressure_ok hs.idx, Gerg.pub_pressureP s, Gerg.pressureP_snd s⟩

/-- C14: `density` without the two-phase check changes no public field but `d` and `z`. -/
theorem C14_gerg_density_frame (s : Gerg F) (hs : Reachable s) (iflag : Int) (hi : iflag ≤ 0) :
    ∃ s' r, s.density iflag = .ok (s', r) ∧ pub s' = { pub s with d := s'.d, z := s'.z } :=
  ⟨_, _, Gerg.density_ok hs.idx iflag, Gerg.dz_densityP hi s⟩

/-- C14: `density` with any flag keeps `t`, `p` and `x`. -/
theorem C14_gerg_density_keeps_inputs (s : Gerg F) (hs : Reachable s) (iflag : Int) :
    ∃ s' r, s.density iflag = .ok (s', r) ∧ s'.t = s.t ∧ s'.p = s.p ∧ s'.x = s.x :=
  have h := Gerg.keeps_densityP s iflag
  ⟨_, _, Gerg.density_ok hs.idx iflag, h.t, h.p, h.x⟩

/-- C14: `properties` keeps `t`, `p`, `d`, `x` and returns `d*R*t*z`. -/
theorem C14_gerg_properties_frame (s : Gerg F) (hs : Reachable s) :
    ∃ s' p, s.properties = .ok (s', p) ∧ s'.t = s.t ∧ s'.p = s.p ∧ s'.d = s.d ∧ s'.x = s.x ∧
      p = s.d * (f% 8.314472 * s.t) * s'.z :=
  ⟨_, _, Gerg.properties_ok hs.idx, Gerg.propertiesP_t s, Gerg.propertiesP_p s, Gerg.propertiesP_d s,
    Gerg.propertiesP_x s, Gerg.propertiesP_snd s⟩

/-- Every choice of public fields is reached. -/
example (new0 : Gerg F) (hnew : Gerg.new = .ok new0) (q : Pub F) : Reachable (setPub new0 q) := by
  have e : new0 = Gerg.newP := Gerg.new_inj hnew
  rw [e]; exact Gerg.reachable_fresh q

/-! ## The density search -/

/-- C17: without the two-phase check the only error is `IterationFail`, and then the density is the ideal-gas
estimate. -/
theorem C17_gerg_density_errors (s : Gerg F) (hs : Reachable s) (iflag : Int) (hi : iflag ≤ 0) :
    ∃ s' r, s.density iflag = .ok (s', r) ∧ (r = .ok () ∨ r = .error .IterationFail) ∧
      (r = .error .IterationFail → s'.d = s.p / f% 8.314472 / s.t) := by
  refine ⟨(Gerg.densityP s iflag).1, (Gerg.densityP s iflag).2, Gerg.density_ok hs.idx iflag, ?_⟩
  rcases Gerg.densityP_error hi s with h | ⟨h, hd⟩
  · exact ⟨Or.inl h, fun h' => by rw [h] at h'; nomatch h'⟩
  · exact ⟨Or.inr h, fun _ => hd⟩

/-- C17: the success contract. There is a log-volume `v` — between -7 and 100, or that of one of the three restart
densities (3, 2.5 and 2 times the pseudo-critical density) — such that at the density `exp (-v)` (same temperature
and composition) the pressure and its density derivative, as `pressure` and `properties` report them, are not below
1e-15, the Newton correction of the log-volume computed from them is below 1e-7 in magnitude, and the density
returned is the corrected one. -/
theorem C17_gerg_density_success (hself : ∀ a : F, FOps.lt (f% 0.0000001) (abs (a - a)) = false)
    (s s' : Gerg F) (hs : Reachable s) (iflag : Int) (h : s.density iflag = .ok (s', .ok ())) :
    ∃ v s1 p1 s2 p2,
      ((FOps.le (-(f% 7.0)) v = true ∧ FOps.le v (f% 100.0) = true) ∨
        v = -ln ((Gerg.pseudocriticalpoint s).1 * f% 3.0) ∨
        v = -ln ((Gerg.pseudocriticalpoint s).1 * f% 2.5) ∨
        v = -ln ((Gerg.pseudocriticalpoint s).1 * f% 2.0)) ∧
      Gerg.pressure { s with d := exp (-v) } = .ok (s1, p1) ∧
      Gerg.properties { s with d := exp (-v) } = .ok (s2, p2) ∧
      FOps.lt p1 (f% 1e-15) = false ∧ FOps.lt s2.dp_dd (f% 1e-15) = false ∧
      FOps.lt s2.dp_dd (f% 0.0) = false ∧
      FOps.lt (abs ((ln p1 - ln s.p) * p1 / (-exp (-v) * s2.dp_dd))) (f% 1e-7) = true ∧
      s'.d = exp (-(v + -((ln p1 - ln s.p) * p1 / (-exp (-v) * s2.dp_dd)))) ∧ s'.z = s1.z := by
  rw [Gerg.density_ok hs.idx] at h
  have h' : Gerg.densityP s iflag = (s', .ok ()) := by injection h
  have h1 : (Gerg.densityP s iflag).1 = s' := by rw [h']
  have h2 : (Gerg.densityP s iflag).2 = .ok () := by rw [h']
  obtain ⟨v, a1, a2, a3, a4, a5, a6, a7⟩ := Gerg.densityP_success hself s h2
  rw [h1] at a6 a7
  have e : (Gerg.propertiesP (Gerg.withD s (exp (-v)))).1.dp_dd = Gerg.dpAt s (exp (-v)) :=
    Gerg.propertiesP_dp_dd _
  refine ⟨v, _, _, _, _, ?_, Gerg.pressure_ok (s := Gerg.withD s (exp (-v))) (hs.idx.congr rfl rfl rfl),
    Gerg.properties_ok (s := Gerg.withD s (exp (-v))) (hs.idx.congr rfl rfl rfl), a3, ?_, ?_, ?_, ?_, a7⟩
  · rcases a1 with h | h
    · unfold Gerg.inRange at h
      rw [Bool.and_eq_true] at h
      exact Or.inl h
    · exact Or.inr h
  · rw [e]; exact a2
  · rw [e]; exact a5
  · rw [e]; exact a4
  · rw [e]; exact a6

/-- C18, refuted: with the two-phase check requested, no call ever returns `Ok`, whatever the state. -/
theorem C18_gerg_two_phase_check_never_ok (s : Gerg F) (hs : Reachable s) (iflag : Int) (hi : iflag > 0) :
    ∃ s', s.density iflag = .ok (s', .error .IterationFail) := by
  refine ⟨(Gerg.densityP s iflag).1, ?_⟩
  rw [Gerg.density_ok hs.idx, ← Gerg.densityP_flag hi s]

/-- One round of the search after the choice of the trial volume (a proof device: the text of the round, so that both
versions can be unfolded to it). -/
private def rest {m : Type → Type} [Monad m] (eval props : Gerg F → m (Gerg F × F))
    (next : Nat → Int → Int → F → Gerg F → m (Gerg F × Except DensityError Unit))
    (iflag : Int) (dcx plog : F) (it : Nat) (nfail ifail : Int) (vlog : F) (s : Gerg F) :
    m (Gerg F × Except DensityError Unit) := do
  let s := { s with d := exp (-vlog) }
  let (s, p2) ← eval s
  if s.dpddsave <. Gerg.EPSILON || p2 <. Gerg.EPSILON then
    next (it + 1) nfail ifail (vlog + Gerg.vincAt dcx s.d it) s
  else
    let dpdlv := -s.d * s.dpddsave
    let vdiff := (ln p2 - plog) * p2 / dpdlv
    let vlog := vlog + -vdiff
    if abs vdiff <. Gerg.TOLR then
      if s.dpddsave <. f% 0.0 then
        next (it + 1) nfail 1 vlog s
      else
        let s := { s with d := exp (-vlog) }
        if iflag > 0 then do
          let (s, pp) ← props s
          if (pp <=. f% 0.0 || s.dp_dd <=. f% 0.0 || s.d2p_dtd <=. f% 0.0)
              || (s.cv <=. f% 0.0 || s.cp <=. f% 0.0 || s.w <=. f% 0.0) then
            pure ({ s with d := s.p / Gerg.RGERG / s.t }, .error .IterationFail)
          else
            pure (s, .error .IterationFail)
        else
          pure (s, .ok ())
    else
      next (it + 1) nfail ifail vlog s

/-- C45: `densityWith` run with the model's `pressure` and `properties` is `density`. -/
theorem C45_gerg_densityWith_is_density (s : Gerg F) (iflag : Int) :
    Gerg.densityWith (m := Except Panic) Gerg.pressure Gerg.properties (pure ()) s iflag = s.density iflag := by
  have key : ∀ (dcx plog : F) n it nfail ifail vlog s,
      Gerg.densityLoopWith (m := Except Panic) Gerg.pressure Gerg.properties (pure ()) iflag dcx plog n it nfail
        ifail vlog s = Gerg.densityLoop iflag dcx plog n it nfail ifail vlog s := by
    intro dcx plog n
    induction n with
    | zero => intros; rfl
    | succ n ih =>
      intro it nfail ifail vlog s
      have e : (fun it nfail ifail vlog s => Gerg.densityLoopWith (m := Except Panic) Gerg.pressure
          Gerg.properties (pure ()) iflag dcx plog n it nfail ifail vlog s)
          = fun it nfail ifail vlog s => Gerg.densityLoop iflag dcx plog n it nfail ifail vlog s := by
        funext it nfail ifail vlog s
        exact ih it nfail ifail vlog s
      unfold Gerg.densityLoopWith Gerg.densityLoop
      have hR : (!Gerg.inRange vlog || it == 20 || it == 30 || it == 40 || ifail == 1)
        = Gerg.restart it ifail vlog := rfl
      dsimp only
      rw [hR]
      have body : ∀ (nfail ifail : Int) (vlog : F),
          rest (m := Except Panic) Gerg.pressure Gerg.properties
            (fun it nfail ifail vlog s => Gerg.densityLoopWith (m := Except Panic) Gerg.pressure
              Gerg.properties (pure ()) iflag dcx plog n it nfail ifail vlog s)
            iflag dcx plog it nfail ifail vlog s
          = rest (m := Except Panic) Gerg.pressure Gerg.properties
            (fun it nfail ifail vlog s => Gerg.densityLoop iflag dcx plog n it nfail ifail vlog s)
            iflag dcx plog it nfail ifail vlog s := by
        intro nfail ifail vlog
        rw [e]
      cases hr : Gerg.restart it ifail vlog
      · simp only [Bool.false_and, Bool.false_eq_true, if_false]
        exact body nfail ifail vlog
      · simp only [Bool.true_and, if_true]
        split
        · rfl
        · exact body (nfail + 1) 0 (-ln (Gerg.restartD dcx (nfail + 1) s.d))
  unfold Gerg.densityWith Gerg.density
  simp only [key]

/-- C45: `density` evaluates the equation of state at most 50 times, calls `properties` at most once and only when
the two-phase check is requested, and restarts at most 3 times. -/
theorem C45_gerg_density_bounded (s : Gerg F) (hs : Reachable s) (iflag : Int) :
    ∃ r k q a, k ≤ 50 ∧ q ≤ 1 ∧ (iflag ≤ 0 → q = 0) ∧ a ≤ 3 ∧ s.density iflag = .ok r ∧
    Gerg.densityWith (m := fun α => Counted α) (countP Gerg.pressure) (countQ Gerg.properties) countR s iflag
      ⟨0, 0, 0⟩ = .ok (r, ⟨k, q, a⟩) := by
  have key : ∀ (dcx plog : F) n it (a0 : Nat) ifail vlog (s : Gerg F) k0, Gerg.Idx s → a0 ≤ 3 →
      ∃ r k q a, k ≤ n ∧ q ≤ 1 ∧ (iflag ≤ 0 → q = 0) ∧ a ≤ 3 ∧
        Gerg.densityLoop iflag dcx plog n it a0 ifail vlog s = .ok r ∧
        Gerg.densityLoopWith (m := fun α => Counted α) (countP Gerg.pressure) (countQ Gerg.properties) countR
          iflag dcx plog n it a0 ifail vlog s ⟨k0, 0, a0⟩ = .ok (r, ⟨k0 + k, q, a⟩) := by
    intro dcx plog n
    induction n with
    | zero =>
      intro it a0 ifail vlog s k0 _ ha
      exact ⟨_, 0, 0, a0, Nat.le_refl 0, Nat.zero_le _, fun _ => rfl, ha, rfl, rfl⟩
    | succ n ih =>
      intro it a0 ifail vlog s k0 hi ha
      unfold Gerg.densityLoopWith Gerg.densityLoop
      have hR : (!Gerg.inRange vlog || it == 20 || it == 30 || it == 40 || ifail == 1)
        = Gerg.restart it ifail vlog := rfl
      dsimp only
      rw [hR]
      have body : ∀ (a1 : Nat) (ifail1 : Int) (v : F), a1 ≤ 3 →
          ∃ r k q a, k ≤ n + 1 ∧ q ≤ 1 ∧ (iflag ≤ 0 → q = 0) ∧ a ≤ 3 ∧
            rest (m := Except Panic) Gerg.pressure Gerg.properties
              (fun it nfail ifail vlog s => Gerg.densityLoop iflag dcx plog n it nfail ifail vlog s)
              iflag dcx plog it a1 ifail1 v s = .ok r ∧
            rest (m := fun α => Counted α) (countP Gerg.pressure) (countQ Gerg.properties)
              (fun it nfail ifail vlog s => Gerg.densityLoopWith (countP Gerg.pressure)
                (countQ Gerg.properties) countR iflag dcx plog n it nfail ifail vlog s)
              iflag dcx plog it a1 ifail1 v s ⟨k0, 0, a1⟩ = .ok (r, ⟨k0 + k, q, a⟩) := by
        intro a1 ifail1 v ha1
        have hp : Gerg.pressure { s with d := exp (-v) } = .ok (Gerg.pressureP (Gerg.withD s (exp (-v)))) :=
          Gerg.pressure_ok (s := Gerg.withD s (exp (-v))) (hi.congr rfl rfl rfl)
        have hi' : Gerg.Idx (Gerg.pressureP (Gerg.withD s (exp (-v)))).1 :=
          Gerg.pressureP_idx (s := Gerg.withD s (exp (-v))) (hi.congr rfl rfl rfl)
        unfold rest
        simp only [countP, hp, bind, StateT.bind, Except.bind, pure, Except.pure]
        generalize Gerg.pressureP (Gerg.withD s (exp (-v))) = r1 at hi'
        split
        · obtain ⟨r, k, q, a, hk, hq, hq0, ha, h1, h2⟩ := ih (it + 1) a1 ifail1
            (v + Gerg.vincAt dcx r1.1.d it) r1.1 (k0 + 1) hi' ha1
          exact ⟨r, k + 1, q, a, by omega, hq, hq0, ha, h1, h2.trans (by rw [Nat.add_assoc, Nat.add_comm 1 k])⟩
        · split
          · split
            · obtain ⟨r, k, q, a, hk, hq, hq0, ha, h1, h2⟩ := ih (it + 1) a1 1
                (v + -((ln r1.2 - plog) * r1.2 / (-r1.1.d * r1.1.dpddsave))) r1.1 (k0 + 1) hi' ha1
              exact ⟨r, k + 1, q, a, by omega, hq, hq0, ha, h1,
                h2.trans (by rw [Nat.add_assoc, Nat.add_comm 1 k])⟩
            · split
              · rename_i hfl
                have hq : Gerg.properties { r1.1 with d := exp (-(v +
                    -((ln r1.2 - plog) * r1.2 / (-r1.1.d * r1.1.dpddsave)))) }
                    = .ok (Gerg.propertiesP (Gerg.withD r1.1 (exp (-(v +
                    -((ln r1.2 - plog) * r1.2 / (-r1.1.d * r1.1.dpddsave))))))) :=
                  Gerg.properties_ok (s := Gerg.withD r1.1 (exp (-(v +
                    -((ln r1.2 - plog) * r1.2 / (-r1.1.d * r1.1.dpddsave)))))) (hi'.congr rfl rfl rfl)
                simp only [countQ, hq, bind, StateT.bind, Except.bind, pure, Except.pure]
                split
                · exact ⟨_, 1, 1, a1, by omega, by omega, by omega, ha1, rfl, rfl⟩
                · exact ⟨_, 1, 1, a1, by omega, by omega, by omega, ha1, rfl, rfl⟩
              · exact ⟨_, 1, 0, a1, by omega, by omega, by omega, ha1, rfl, rfl⟩
          · obtain ⟨r, k, q, a, hk, hq, hq0, ha, h1, h2⟩ := ih (it + 1) a1 ifail1
                (v + -((ln r1.2 - plog) * r1.2 / (-r1.1.d * r1.1.dpddsave))) r1.1 (k0 + 1) hi' ha1
            exact ⟨r, k + 1, q, a, by omega, hq, hq0, ha, h1,
                h2.trans (by rw [Nat.add_assoc, Nat.add_comm 1 k])⟩
      cases hr : Gerg.restart it ifail vlog
      · simp only [Bool.false_and, Bool.false_eq_true, if_false]
        exact body a0 ifail vlog ha
      · simp only [Bool.true_and, if_true]
        by_cases h3 : (a0 : Int) > 2
        · rw [if_pos (decide_eq_true h3)]
          rw [if_pos (decide_eq_true h3)]
          exact ⟨_, 0, 0, a0, Nat.zero_le _, Nat.zero_le _, fun _ => rfl, ha, rfl, rfl⟩
        · rw [if_neg (by simpa using h3), if_neg (by simpa using h3)]
          exact body (a0 + 1) 0 (-ln (Gerg.restartD dcx (a0 + 1) s.d)) (by omega)
  unfold Gerg.densityWith Gerg.density
  dsimp only
  have h := key (Gerg.pseudocriticalpoint s).1 (ln s.p) 50 1 0 0 (-ln (Gerg.startD iflag s))
    (Gerg.withD s (Gerg.startD iflag s)) 0 (hs.idx.congr rfl rfl rfl) (by omega)
  have e : (if FOps.lt (-Gerg.EPSILON) s.d = true then
      (if (iflag == 2) = true then { s with d := (Gerg.pseudocriticalpoint s).1 * f% 3.0 }
        else { s with d := s.p / Gerg.RGERG / s.t }) else { s with d := abs s.d })
      = Gerg.withD s (Gerg.startD iflag s) := by
    unfold Gerg.startD Gerg.withD
    split
    · split <;> rfl
    · rfl
  rw [e]
  obtain ⟨r, k, q, a, h1, h2, h3, h4, h5, h6⟩ := h
  rw [Nat.zero_add] at h6
  exact ⟨r, k, q, a, h1, h2, h3, h4, h5, h6⟩

/-! ## Caches -/

/-- C22: in a history in which every evaluated composition and temperature is identical to, or distinguishable
from, those evaluated before (`HistOK`), the object behaves like the specification machine that makes every call
on a freshly constructed object: same returned values, same public fields. -/
theorem C22_gerg_history_independent
    (hself : ∀ a : F, FOps.lt (f% 0.0000001) (abs (a - a)) = false)
    (new0 : Gerg F) (hnew : Gerg.new = .ok new0) (ops : List (Op F))
    (h : Gerg.HistOK [] (pub new0) ops) :
    ∃ s' outs, runNew ops = .ok (s', outs) ∧
      Gerg.freshRun (pub new0) ops = .ok (pub s', outs) := by
  have e : new0 = Gerg.newP := Gerg.new_inj hnew
  rw [e] at h ⊢
  obtain ⟨s', outs, h1, h2⟩ := Gerg.run_sim hself ops Gerg.coherent_new h
  exact ⟨s', outs, by rw [Gerg.runNew_eq, h1], h2⟩

/-- A history that meets the side condition and evaluates methane, then ethane, then ethane again at another
temperature. -/
example (q0 : Pub ℝ) : Gerg.HistOK [] q0 [.write (Gerg.pureAt 1 300 1 0), .pressure,
    .write (Gerg.pureAt 4 300 1 0), .density 0, .write (Gerg.pureAt 4 320 1 0), .properties] := by
  have hx : Gerg.XFar (Gerg.px 4) (Gerg.px 1) := by
    refine ⟨4, by decide, ?_⟩
    rw [r_lt, lem7, r_abs, Gerg.aget_px, Gerg.aget_px, if_pos rfl, if_neg (by decide)]
    norm_num
  refine ⟨nofun, ?_⟩
  rintro r1 h1
  rw [Gerg.freshStep_ok] at h1
  injection h1 with h1
  subst h1
  refine ⟨fun _ => ⟨Gerg.XFar_px (by decide), Gerg.TFar_zero (t := 300) (by norm_num), nofun⟩, ?_⟩
  rintro r2 -
  refine ⟨nofun, ?_⟩
  rintro r3 h3
  rw [Gerg.freshStep_ok] at h3
  injection h3 with h3
  subst h3
  refine ⟨fun _ => ⟨Gerg.XFar_px (by decide), Gerg.TFar_zero (t := 300) (by norm_num), ?_⟩, ?_⟩
  · intro e he
    rw [show Gerg.lastAfter _ _ _ = [((Gerg.pureAt 1 300 1 0).x, (Gerg.pureAt 1 300 1 0).t)] from rfl] at he
    rw [List.mem_singleton.1 he]
    exact ⟨Or.inr hx, Or.inl rfl⟩
  rintro r4 -
  refine ⟨nofun, ?_⟩
  rintro r5 h5
  rw [Gerg.freshStep_ok] at h5
  injection h5 with h5
  subst h5
  refine ⟨fun _ => ⟨Gerg.XFar_px (by decide), Gerg.TFar_zero (t := 320) (by norm_num), ?_⟩, ?_⟩
  · intro e he
    rw [show Gerg.lastAfter _ _ _ = [((Gerg.pureAt 4 300 1 0).x, (Gerg.pureAt 4 300 1 0).t)] from rfl] at he
    rw [List.mem_singleton.1 he]
    refine ⟨Or.inl fun _ _ => rfl, Or.inr (Gerg.TFar_real (t := 320) (u := 300) (by norm_num))⟩
  · intro r _
    trivial

/-- C24: a second `pressure` call changes nothing and returns the same value. -/
theorem C24_gerg_pressure_repeatable
    (hself : ∀ a : F, FOps.lt (f% 0.0000001) (abs (a - a)) = false) (s : Gerg F) (hs : Reachable s) :
    ∃ s' p, s.pressure = .ok (s', p) ∧ s'.pressure = .ok (s', p) := by
  refine ⟨(Gerg.pressureP s).1, (Gerg.pressureP s).2, Gerg.pressure_ok hs.idx, ?_⟩
  rw [Gerg.pressure_ok (Gerg.pressureP_idx hs.idx), Gerg.pressureP_twice hself]

/-- C24: a second `properties` call changes nothing and returns the same value. -/
theorem C24_gerg_properties_repeatable
    (hself : ∀ a : F, FOps.lt (f% 0.0000001) (abs (a - a)) = false) (s : Gerg F) (hs : Reachable s) :
    ∃ s' p, s.properties = .ok (s', p) ∧ s'.properties = .ok (s', p) := by
  refine ⟨(Gerg.propertiesP s).1, (Gerg.propertiesP s).2, Gerg.properties_ok hs.idx, ?_⟩
  rw [Gerg.properties_ok (Gerg.propertiesP_idx hs.idx), Gerg.propertiesP_twice hself]

/-- C24: a `density` call repeated on its own result gives the same outcome and the same density, provided both
calls start from the default estimate (the density field is not below -1e-15). -/
theorem C24_gerg_density_repeatable
    (hself : ∀ a : F, FOps.lt (f% 0.0000001) (abs (a - a)) = false) (s s' : Gerg F) (hs : Reachable s)
    (iflag : Int) (r : Except DensityError Unit) (h : s.density iflag = .ok (s', r))
    (h0 : FOps.lt (-(f% 1e-15)) s.d = true) (h1 : FOps.lt (-(f% 1e-15)) s'.d = true) :
    ∃ s'', s'.density iflag = .ok (s'', r) ∧ s''.d = s'.d := by
  rw [Gerg.density_ok hs.idx] at h
  have h' : Gerg.densityP s iflag = (s', r) := by injection h
  have e1 : (Gerg.densityP s iflag).1 = s' := by rw [h']
  have e2 : (Gerg.densityP s iflag).2 = r := by rw [h']
  have hk := Gerg.keeps_densityP s iflag
  have hv := Gerg.view_densityP hself s iflag
  rw [e1] at hk hv
  have hE : Gerg.SameEos s' s := ⟨hk.x, hk.t, hk.p, hk.params, hv⟩
  have hd0 : Gerg.startD iflag s' = Gerg.startD iflag s := by
    have g0 : FOps.lt (-Gerg.EPSILON) s.d = true := h0
    have g1 : FOps.lt (-Gerg.EPSILON) s'.d = true := h1
    unfold Gerg.startD
    rw [if_pos g0, if_pos g1, Gerg.pseudo_congr hk.x, hk.p, hk.t]
  have key := Gerg.densityP_congr hself iflag hE hd0
  refine ⟨(Gerg.densityP s' iflag).1, ?_, ?_⟩
  · rw [Gerg.density_ok (Gerg.idx_of_params hk.params hs.idx), ← e2, ← key.1]
  · rw [key.2, e1]

/-! ## Absent components -/

/-- C40: on new objects given the same temperature and density and two compositions that agree wherever a
fraction is above 1e-15 (and may differ arbitrarily where both are not), `pressure` gives the same value and the same
`z`, and `properties` gives the same results except for the molar mass and the two fields that use it
(`w`, `kappa`). Both compositions must be distinguishable from "nothing set", so that the new object notices them. -/
theorem C40_gerg_absent_components (new0 : Gerg F) (hnew : Gerg.new = .ok new0)
    (q q' : Pub F) (ht : q'.t = q.t) (hd : q'.d = q.d)
    (hx : ∀ i : Fin 22, 1 ≤ i.1 → aget q'.x i = aget q.x i ∨
      (FOps.lt (f% 1e-15) (aget q'.x i) = false ∧ FOps.lt (f% 1e-15) (aget q.x i) = false))
    (h1 : Gerg.XFar q.x (fill 22 (f% 0.0))) (h2 : Gerg.XFar q'.x (fill 22 (f% 0.0)))
    (h3 : Gerg.TFar q.t (f% 0.0)) :
    (∃ s1 s2 p, (setPub new0 q).pressure = .ok (s1, p) ∧ (setPub new0 q').pressure = .ok (s2, p) ∧
      s1.z = s2.z) ∧
    (∃ s1 s2 p, (setPub new0 q).properties = .ok (s1, p) ∧ (setPub new0 q').properties = .ok (s2, p) ∧
      s1.z = s2.z ∧ s1.dp_dd = s2.dp_dd ∧ s1.d2p_dd2 = s2.d2p_dd2 ∧ s1.d2p_dtd = s2.d2p_dtd ∧
      s1.dp_dt = s2.dp_dt ∧ s1.u = s2.u ∧ s1.h = s2.h ∧ s1.s = s2.s ∧ s1.cv = s2.cv ∧
      s1.cp = s2.cp ∧ s1.g = s2.g ∧ s1.jt = s2.jt) := by
  have e : new0 = Gerg.newP := Gerg.new_inj hnew
  rw [e]
  have gx : Gerg.SamePos q'.x q.x := hx
  have hv : Gerg.view (Gerg.freshOf q') = Gerg.view (Gerg.freshOf q) := by
    rw [Gerg.view_fresh h1 h3, Gerg.view_fresh h2 (by rw [ht]; exact h3), ht]
    exact Gerg.computedV_pos gx q.t _
  have gm : params (Gerg.freshOf q') = params (Gerg.freshOf q) := by
    unfold Gerg.freshOf; rw [Gerg.params_setPub, Gerg.params_setPub]
  have gt : (Gerg.freshOf q').t = (Gerg.freshOf q).t := ht
  have gd : (Gerg.freshOf q').d = (Gerg.freshOf q).d := hd
  have hz : (Gerg.pressureP (Gerg.freshOf q')).1.z = (Gerg.pressureP (Gerg.freshOf q)).1.z := by
    rw [Gerg.pressureP_z, Gerg.pressureP_z, Gerg.ar_eval_congr (s := Gerg.freshOf q')
      (s' := Gerg.freshOf q) gx gm hv gd gt]
  have hp : (Gerg.pressureP (Gerg.freshOf q')).2 = (Gerg.pressureP (Gerg.freshOf q)).2 := by
    rw [Gerg.pressureP_snd, Gerg.pressureP_snd, hz, gd, gt]
  have i1 := (Gerg.reachable_fresh q).idx
  have i2 := (Gerg.reachable_fresh q').idx
  constructor
  · refine ⟨(Gerg.pressureP (Gerg.freshOf q)).1, (Gerg.pressureP (Gerg.freshOf q')).1,
      (Gerg.pressureP (Gerg.freshOf q)).2, Gerg.pressure_ok i1, ?_, hz.symm⟩
    rw [← hp]
    exact Gerg.pressure_ok i2
  · obtain ⟨h, hpp⟩ := Gerg.noMass_propertiesP (s := Gerg.freshOf q') (s' := Gerg.freshOf q) gt gd gx gm hv
    refine ⟨(Gerg.propertiesP (Gerg.freshOf q)).1, (Gerg.propertiesP (Gerg.freshOf q')).1,
      (Gerg.propertiesP (Gerg.freshOf q)).2, Gerg.properties_ok i1, ?_, ?_⟩
    · rw [← hpp]
      exact Gerg.properties_ok i2
    unfold Gerg.noMass at h
    generalize (Gerg.propertiesP (Gerg.freshOf q')).1 = a at *
    generalize (Gerg.propertiesP (Gerg.freshOf q)).1 = b at *
    injection h
    simp_all

/-- Pure methane, and the same with a negative ethane fraction. -/
example : ∃ q q' : Pub ℝ, q'.t = q.t ∧ q'.d = q.d ∧ q'.x ≠ q.x ∧
    (∀ i : Fin 22, 1 ≤ i.1 → aget q'.x i = aget q.x i ∨
      (FOps.lt (f% 1e-15) (aget q'.x i) = false ∧ FOps.lt (f% 1e-15) (aget q.x i) = false)) ∧
    Gerg.XFar q.x (fill 22 (f% 0.0)) ∧ Gerg.XFar q'.x (fill 22 (f% 0.0)) ∧ Gerg.TFar q.t (f% 0.0) := by
  have h3 : aget (aset (Gerg.px 1) 4 (-1)) 4 = -1 := aget_aset_self _ _ _
  have h3' : aget (Gerg.px 1) 4 = 0 := by rw [Gerg.aget_px, if_neg (by decide)]
  refine ⟨Gerg.pureAt 1 300 1 0, { Gerg.pureAt 1 300 1 0 with x := aset (Gerg.px 1) 4 (-1) }, rfl, rfl, ?_, ?_,
    Gerg.XFar_px (by decide), ?_, Gerg.TFar_zero (t := 300) (by norm_num)⟩
  · intro h
    have h : aset (Gerg.px 1) 4 (-1) = Gerg.px 1 := h
    rw [h, h3'] at h3
    norm_num at h3
  · intro i _
    show aget (aset (Gerg.px 1) 4 (-1)) i = aget (Gerg.px 1) i ∨ _
    by_cases hi : i = 4
    · right
      rw [hi, r_lt_false, r_lt_false, lem15]
      show aget (aset (Gerg.px 1) 4 (-1)) 4 ≤ _ ∧ aget (Gerg.px 1) 4 ≤ _
      rw [h3, h3']
      norm_num
    · left
      exact aget_aset_ne _ _ (Ne.symm hi)
  · refine ⟨1, by decide, ?_⟩
    show FOps.lt _ (FOps.abs (aget (aset (Gerg.px 1) 4 (-1)) 1 - _)) = true
    rw [aget_aset_ne _ _ (by decide), r_lt, lem7, r_abs, aget_fill, l0, Gerg.aget_px, if_pos rfl]
    norm_num

end Aga8
