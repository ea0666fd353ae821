import Verif.Lemmas.GergView

/-! # Cache coherence of GERG objects, frames and repetition -/

set_option linter.unusedSectionVars false

namespace Aga8.Gerg

open FOps Tab

variable {F : Type} [Add F] [Sub F] [Mul F] [Div F] [Neg F] [FOps F]

@[simp] theorem pub_setPub (s : Gerg F) (q : Pub F) : pub (setPub s q) = q := rfl
@[simp] theorem params_setPub (s : Gerg F) (q : Pub F) : params (setPub s q) = params s := rfl
@[simp] theorem cache_setPub (s : Gerg F) (q : Pub F) : cache (setPub s q) = cache s := rfl

/-- Objects that differ in their parameters only. -/
theorem frame_params (s : Gerg F) (m : Params F) :
    pub (mkG (pub s) m (cache s) (scratch s)) = pub s ∧ cache (mkG (pub s) m (cache s) (scratch s)) = cache s :=
  ⟨rfl, rfl⟩

attribute [local irreducible] coik0 doik0 toik0 dijk0 tijk0 nijk0 dep0 n0i0 bin0

theorem pub_default : pub (default : Gerg F) = ⟨f% 0.0, f% 0.0, f% 0.0, f% 0.0, f% 0.0, f% 0.0, f% 0.0,
    f% 0.0, f% 0.0, f% 0.0, f% 0.0, f% 0.0, f% 0.0, f% 0.0, f% 0.0, f% 0.0, f% 0.0, f% 0.0,
    fill 22 (f% 0.0)⟩ := rfl

theorem newP_frame : pub (newP : Gerg F) = pub default ∧ cache (newP : Gerg F) = cache default :=
  frame_params default (params (newP : Gerg F))

theorem new_inj {s : Gerg F} (h : new = .ok s) : s = newP := Except.ok.inj (h.symm.trans new_ok)

attribute [local irreducible] newP

theorem newP_xold : (newP : Gerg F).xold = fill 22 (f% 0.0) := congrArg Cache.xold newP_frame.2

theorem idx_of_params {s s' : Gerg F} (h : params s = params s') (hs : Idx s') : Idx s :=
  hs.congr (congrArg Params.coik h) (congrArg Params.doik h)
    (congrArg Params.dijk h)

/-! ## What `density` keeps -/

/-- Same inputs of the equation of state; the density and the results may differ. -/
structure SameEos (s s' : Gerg F) : Prop where
  x : s.x = s'.x
  t : s.t = s'.t
  p : s.p = s'.p
  params : params s = params s'
  view : view s = view s'

theorem SameEos.refl (s : Gerg F) : SameEos s s := ⟨rfl, rfl, rfl, rfl, rfl⟩
theorem SameEos.trans {s s' s'' : Gerg F} (h : SameEos s s') (h' : SameEos s' s'') : SameEos s s'' :=
  ⟨h.x.trans h'.x, h.t.trans h'.t, h.p.trans h'.p, h.params.trans h'.params, h.view.trans h'.view⟩
theorem SameEos.symm {s s' : Gerg F} (h : SameEos s s') : SameEos s' s :=
  ⟨h.x.symm, h.t.symm, h.p.symm, h.params.symm, h.view.symm⟩

theorem eos_withD (s : Gerg F) (d : F) : SameEos (withD s d) s := ⟨rfl, rfl, rfl, rfl, rfl⟩
theorem eos_pressureP (hself : SelfDiff F) (s : Gerg F) : SameEos (pressureP s).1 s :=
  ⟨pressureP_x s, pressureP_t s, pressureP_p s, params_pressureP s, view_pressureP hself s⟩
theorem eos_propertiesP (hself : SelfDiff F) (s : Gerg F) : SameEos (propertiesP s).1 s :=
  ⟨propertiesP_x s, propertiesP_t s, propertiesP_p s, params_propertiesP s, view_propertiesP hself s⟩
theorem eos_trial (hself : SelfDiff F) (s : Gerg F) (dcx : F) (it : Nat) (nfail ifail : Int) (vlog : F) :
    SameEos (trial dcx it nfail ifail vlog s).1 s :=
  (eos_pressureP hself _).trans (eos_withD s _)

/-- The cache already holds the terms of the current inputs. -/
def Fixed (s : Gerg F) : Prop := cache s = refreshC s.x s.t (params s) (cache s)

theorem fixed_of {s s1 : Gerg F} (hx : s1.x = s.x) (ht : s1.t = s.t) (hm : params s1 = params s)
    (hc : cache s1 = cache s) (h : Fixed s) : Fixed s1 := by
  unfold Fixed at *; rw [hx, ht, hm, hc]; exact h

/-- What every exit of the search preserves. -/
structure Keeps (s' s : Gerg F) : Prop where
  x : s'.x = s.x
  t : s'.t = s.t
  p : s'.p = s.p
  params : params s' = params s

theorem Keeps.refl (s : Gerg F) : Keeps s s := ⟨rfl, rfl, rfl, rfl⟩
theorem Keeps.trans {s s' s'' : Gerg F} (h : Keeps s s') (h' : Keeps s' s'') : Keeps s s'' :=
  ⟨h.x.trans h'.x, h.t.trans h'.t, h.p.trans h'.p, h.params.trans h'.params⟩
theorem keeps_pressureP (s : Gerg F) : Keeps (pressureP s).1 s :=
  ⟨pressureP_x s, pressureP_t s, pressureP_p s, params_pressureP s⟩
theorem keeps_propertiesP (s : Gerg F) : Keeps (propertiesP s).1 s :=
  ⟨propertiesP_x s, propertiesP_t s, propertiesP_p s, params_propertiesP s⟩
theorem keeps_withD (s : Gerg F) (d : F) : Keeps (withD s d) s := ⟨rfl, rfl, rfl, rfl⟩
theorem keeps_giveUp (s : Gerg F) : Keeps (giveUp s).1 s := ⟨rfl, rfl, rfl, rfl⟩
theorem keeps_trial (s : Gerg F) (dcx : F) (it : Nat) (nfail ifail : Int) (vlog : F) :
    Keeps (trial dcx it nfail ifail vlog s).1 s := (keeps_pressureP _).trans (keeps_withD s _)
theorem keeps_converged (iflag : Int) (s : Gerg F) : Keeps (converged iflag s).1 s := by
  unfold converged
  split
  · split
    · exact (keeps_giveUp _).trans (keeps_propertiesP s)
    · exact keeps_propertiesP s
  · exact Keeps.refl s

/-- The log-volumes at which the search may evaluate. -/
def Start (dcx v : F) : Prop := inRange v = true ∨
  (v = -ln (dcx * f% 3.0) ∨ v = -ln (dcx * f% 2.5) ∨ v = -ln (dcx * f% 2.0))

theorem vlogAt_start (dcx : F) (it : Nat) {nfail : Int} (ifail : Int) (vlog : F) (s : Gerg F)
    (h0 : 0 ≤ nfail) (h : (restart it ifail vlog && decide (nfail > 2)) = false) :
    Start dcx (vlogAt dcx it nfail ifail vlog s) := by
  unfold vlogAt
  cases hR : restart it ifail vlog
  · left
    simp only [Bool.false_eq_true, if_false]
    unfold restart at hR
    simp only [Bool.or_eq_false_iff, Bool.not_eq_false'] at hR
    exact hR.1.1.1.1
  · right
    simp only [if_true]
    rw [hR] at h
    simp only [Bool.true_and, decide_eq_false_iff_not] at h
    unfold restartD
    have : nfail = 0 ∨ nfail = 1 ∨ nfail = 2 := by omega
    rcases this with rfl | rfl | rfl
    · left; rfl
    · right; left; rfl
    · right; right; rfl

/-- The loop, cut into its exits: a general induction principle. -/
theorem loop_ind (iflag : Int) (dcx plog : F) {P : Gerg F → Prop}
    {Q : Gerg F → Gerg F × Except DensityError Unit → Prop}
    (hgive : ∀ s, P s → Q s (giveUp s))
    (htrial : ∀ s it nfail ifail vlog, P s → P (trial dcx it nfail ifail vlog s).1)
    (hback : ∀ s it nfail ifail vlog o, P s → Q (trial dcx it nfail ifail vlog s).1 o → Q s o)
    (hconv : ∀ s it nfail ifail vlog, P s →
      Start dcx (vlogAt dcx it nfail ifail vlog s) →
      let r := trial dcx it nfail ifail vlog s
      FOps.lt r.1.dpddsave (EPSILON : F) = false → FOps.lt r.2 (EPSILON : F) = false →
      FOps.lt (abs (newton plog r)) (TOLR : F) = true → FOps.lt r.1.dpddsave (f% 0.0) = false →
      Q s (converged iflag (withD r.1 (exp (-(vlogAt dcx it nfail ifail vlog s + -newton plog r))))))
    (n it : Nat) (nfail ifail : Int) (vlog : F) (s : Gerg F) (hs : P s) (h0 : 0 ≤ nfail) :
    Q s (densityLoopP iflag dcx plog n it nfail ifail vlog s) := by
  induction n generalizing it nfail ifail vlog s with
  | zero => exact hgive s hs
  | succ n ih =>
    rw [densityLoopP_succ]
    have h1 := htrial s it nfail ifail vlog hs
    have h2 := fun o => hback s it nfail ifail vlog o hs
    have h3 := hconv s it nfail ifail vlog hs
    dsimp only at h3 ⊢
    have h0' : 0 ≤ (if restart it ifail vlog then nfail + 1 else nfail) := by split <;> omega
    split
    · exact hgive s hs
    · rename_i hg
      have hst := vlogAt_start dcx it ifail vlog s h0 (Bool.eq_false_iff.2 hg)
      cases hA : FOps.lt (trial dcx it nfail ifail vlog s).1.dpddsave (EPSILON : F) ||
        FOps.lt (trial dcx it nfail ifail vlog s).2 (EPSILON : F)
      · simp only [Bool.false_eq_true, if_false]
        rw [Bool.or_eq_false_iff] at hA
        cases hB : FOps.lt (abs (newton plog (trial dcx it nfail ifail vlog s))) (TOLR : F)
        · simp only [Bool.false_eq_true, if_false]
          exact h2 _ (ih _ _ _ _ _ h1 h0')
        · simp only [if_true]
          cases hC : FOps.lt (trial dcx it nfail ifail vlog s).1.dpddsave (f% 0.0)
          · simp only [Bool.false_eq_true, if_false]
            exact h3 hst hA.1 hA.2 hB hC
          · simp only [if_true]
            exact h2 _ (ih _ _ _ _ _ h1 h0')
      · simp only [if_true]
        exact h2 _ (ih _ _ _ _ _ h1 h0')

theorem keeps_densityLoopP (iflag : Int) (dcx plog : F) (n it : Nat) (nfail ifail : Int) (vlog : F)
    (s : Gerg F) (h0 : 0 ≤ nfail) : Keeps (densityLoopP iflag dcx plog n it nfail ifail vlog s).1 s :=
  loop_ind iflag dcx plog (P := fun _ => True) (Q := fun s o => Keeps o.1 s)
    (fun s _ => keeps_giveUp s) (fun _ _ _ _ _ _ => trivial)
    (fun s it nfail ifail vlog _ _ h => h.trans (keeps_trial s dcx it nfail ifail vlog))
    (fun s it nfail ifail vlog _ _ _ _ _ _ => (keeps_converged iflag _).trans
      ((keeps_withD _ _).trans (keeps_trial s dcx it nfail ifail vlog)))
    n it nfail ifail vlog s trivial h0

theorem keeps_densityP (s : Gerg F) (iflag : Int) : Keeps (densityP s iflag).1 s :=
  (keeps_densityLoopP _ _ _ _ _ _ _ _ _ (Int.le_refl 0)).trans (keeps_withD s _)

/-- Equal public fields except density and compressibility. -/
def SameButDZ (s' s : Gerg F) : Prop := pub s' = { pub s with d := s'.d, z := s'.z }

theorem SameButDZ.trans {s s' s'' : Gerg F} (h : SameButDZ s s') (h' : SameButDZ s' s'') :
    SameButDZ s s'' := by
  unfold SameButDZ at *; rw [h, h']

theorem dz_withD (s : Gerg F) (d : F) : SameButDZ (withD s d) s := rfl
theorem dz_pressureP (s : Gerg F) : SameButDZ (pressureP s).1 s := by
  unfold SameButDZ
  rw [pub_pressureP, pressureP_d]; rfl

theorem dz_densityLoopP {iflag : Int} (hi : iflag ≤ 0) (dcx plog : F) (n it : Nat) (nfail ifail : Int)
    (vlog : F) (s : Gerg F) (h0 : 0 ≤ nfail) : SameButDZ (densityLoopP iflag dcx plog n it nfail ifail vlog s).1 s := by
  have ht : ∀ (s : Gerg F) it nfail ifail vlog, SameButDZ (trial dcx it nfail ifail vlog s).1 s :=
    fun s it nfail ifail vlog => (dz_pressureP _).trans (dz_withD s _)
  refine loop_ind iflag dcx plog (P := fun _ => True) (Q := fun s o => SameButDZ o.1 s)
    (fun s _ => dz_withD s _) (fun _ _ _ _ _ _ => trivial)
    (fun s it nfail ifail vlog _ _ h => h.trans (ht s it nfail ifail vlog))
    (fun s it nfail ifail vlog _ _ _ _ _ _ => ?_)
    n it nfail ifail vlog s trivial h0
  unfold converged
  rw [if_neg (by omega)]
  exact (dz_withD _ _).trans (ht s it nfail ifail vlog)

theorem dz_densityP {iflag : Int} (hi : iflag ≤ 0) (s : Gerg F) : SameButDZ (densityP s iflag).1 s :=
  (dz_densityLoopP hi _ _ _ _ _ _ _ _ (Int.le_refl 0)).trans (dz_withD s _)

/-! ## The outcome of `density` -/

/-- With a positive flag the search never succeeds. -/
theorem densityP_flag {iflag : Int} (hi : iflag > 0) (s : Gerg F) :
    (densityP s iflag).2 = .error .IterationFail := by
  unfold densityP
  refine loop_ind iflag _ _ (P := fun _ => True) (Q := fun _ o => o.2 = .error .IterationFail)
    (fun s _ => rfl) (fun _ _ _ _ _ _ => trivial)
    (fun s it nfail ifail vlog _ _ h => h)
    (fun s it nfail ifail vlog _ _ _ _ _ _ => ?_)
    _ _ _ _ _ _ trivial (Int.le_refl 0)
  unfold converged
  rw [if_pos hi]
  split <;> rfl

/-- Errors and what they leave behind, without the two-phase check. -/
theorem densityP_error {iflag : Int} (hi : iflag ≤ 0) (s : Gerg F) :
    (densityP s iflag).2 = .ok () ∨
    ((densityP s iflag).2 = .error .IterationFail ∧ (densityP s iflag).1.d = s.p / RGERG / s.t) := by
  unfold densityP
  refine loop_ind iflag _ _ (P := fun s' => s'.p = s.p ∧ s'.t = s.t)
    (Q := fun s' o => o.2 = .ok () ∨ (o.2 = .error .IterationFail ∧ o.1.d = s.p / RGERG / s.t))
    (fun s' h => Or.inr ⟨rfl, ?_⟩) (fun s' it nfail ifail vlog h => ?_)
    (fun s' it nfail ifail vlog _ _ h => h)
    (fun s' it nfail ifail vlog _ _ _ _ _ _ => ?_)
    _ _ _ _ _ _ ⟨rfl, rfl⟩ (Int.le_refl 0)
  · rw [← h.1, ← h.2]; rfl
  · have := keeps_trial s' (pseudocriticalpoint s).1 it nfail ifail vlog
    exact ⟨this.p.trans h.1, this.t.trans h.2⟩
  · unfold converged
    rw [if_neg (by omega)]
    exact Or.inl rfl

/-- The pressure the equation of state gives at density `d` with the other inputs of `s`. -/
def pAt (s : Gerg F) (d : F) : F := (pressureP (withD s d)).2
/-- Its density derivative. -/
def dpAt (s : Gerg F) (d : F) : F := (pressureP (withD s d)).1.dpddsave

theorem ar_withD_congr {s s' : Gerg F} (h : SameEos s s') (d : F) (i : Int) :
    (alpharP (withD s d) i).ar = (alpharP (withD s' d) i).ar :=
  ar_eval_congr (s := withD s d) (s' := withD s' d)
    (by show SamePos s.x s'.x; rw [h.x]; exact SamePos.refl _) h.params
    (by rw [view_withD, view_withD, h.view]) rfl h.t i

theorem eval_congr {s s' : Gerg F} (h : SameEos s s') (d : F) :
    (pressureP (withD s d)).1.z = (pressureP (withD s' d)).1.z ∧ pAt s d = pAt s' d ∧
    dpAt s d = dpAt s' d := by
  have hz : (pressureP (withD s d)).1.z = (pressureP (withD s' d)).1.z := by
    rw [pressureP_z, pressureP_z, ar_withD_congr h]
  refine ⟨hz, ?_, ?_⟩
  · unfold pAt
    rw [pressureP_snd, pressureP_snd, hz, withD_t, withD_t, h.t]; rfl
  · unfold dpAt
    rw [pressureP_save, pressureP_save, ar_withD_congr h, withD_t, withD_t, h.t]

theorem densityP_success (hself : SelfDiff F) {iflag : Int} (s : Gerg F)
    (h : (densityP s iflag).2 = .ok ()) :
    ∃ v : F, Start (pseudocriticalpoint s).1 v ∧ FOps.lt (dpAt s (exp (-v))) (EPSILON : F) = false ∧
      FOps.lt (pAt s (exp (-v))) (EPSILON : F) = false ∧
      FOps.lt (abs ((ln (pAt s (exp (-v))) - ln s.p) * pAt s (exp (-v))
        / (-exp (-v) * dpAt s (exp (-v))))) (TOLR : F) = true ∧
      FOps.lt (dpAt s (exp (-v))) (f% 0.0) = false ∧
      (densityP s iflag).1.d = exp (-(v + -((ln (pAt s (exp (-v))) - ln s.p) * pAt s (exp (-v))
        / (-exp (-v) * dpAt s (exp (-v)))))) ∧
      (densityP s iflag).1.z = (pressureP (withD s (exp (-v)))).1.z := by
  revert h
  unfold densityP
  refine loop_ind iflag _ _ (P := fun s' => SameEos s' s)
    (Q := fun s' o => o.2 = .ok () → ∃ v : F, Start (pseudocriticalpoint s).1 v ∧
      FOps.lt (dpAt s (exp (-v))) (EPSILON : F) = false ∧ FOps.lt (pAt s (exp (-v))) (EPSILON : F) = false ∧
      FOps.lt (abs ((ln (pAt s (exp (-v))) - ln s.p) * pAt s (exp (-v))
        / (-exp (-v) * dpAt s (exp (-v))))) (TOLR : F) = true ∧
      FOps.lt (dpAt s (exp (-v))) (f% 0.0) = false ∧
      o.1.d = exp (-(v + -((ln (pAt s (exp (-v))) - ln s.p) * pAt s (exp (-v))
        / (-exp (-v) * dpAt s (exp (-v)))))) ∧
      o.1.z = (pressureP (withD s (exp (-v)))).1.z)
    (fun s' _ h => ?_)
    (fun s' it nfail ifail vlog h => (eos_trial hself s' _ it nfail ifail vlog).trans h)
    (fun s' it nfail ifail vlog _ _ h => h)
    (fun s' it nfail ifail vlog hs' hv => ?_)
    _ _ _ _ _ _ (eos_withD s _) (Int.le_refl 0)
  · cases h
  · intro r h1 h2 h3 h4 h5
    obtain ⟨e1, e2, e3⟩ := eval_congr hs' (exp (-vlogAt (pseudocriticalpoint s).1 it nfail ifail vlog s'))
    have g1 : r.1.dpddsave
        = dpAt s (exp (-vlogAt (pseudocriticalpoint s).1 it nfail ifail vlog s')) := e3
    have g2 : r.2 = pAt s (exp (-vlogAt (pseudocriticalpoint s).1 it nfail ifail vlog s')) := e2
    have g3 : r.1.z = _ := e1
    have g4 : r.1.d = exp (-vlogAt (pseudocriticalpoint s).1 it nfail ifail vlog s') :=
      pressureP_d (withD s' _)
    have g5 : ∀ v, v = vlogAt (pseudocriticalpoint s).1 it nfail ifail vlog s' →
        newton (ln s.p) r = (ln (pAt s (exp (-v))) - ln s.p) * pAt s (exp (-v))
          / (-exp (-v) * dpAt s (exp (-v))) := by
      rintro _ rfl
      unfold newton; rw [g2, g4, g1]
    replace g5 := g5 _ rfl
    rw [g1] at h1 h4
    rw [g2] at h2
    rw [g5] at h3 ⊢
    refine ⟨vlogAt (pseudocriticalpoint s).1 it nfail ifail vlog s', hv, h1, h2, h3, h4, ?_, ?_⟩
    · unfold converged
      split
      · exfalso
        rw [g5] at h5
        unfold converged at h5
        rename_i hi
        rw [if_pos hi] at h5
        split at h5 <;> cases h5
      · rfl
    · unfold converged
      split
      · exfalso
        rw [g5] at h5
        unfold converged at h5
        rename_i hi
        rw [if_pos hi] at h5
        split at h5 <;> cases h5
      · exact g3

/-! ## The cache after `density` -/

theorem fixed_refreshed (hself : SelfDiff F) {s s1 : Gerg F} (hk : Keeps s1 s)
    (hc : cache s1 = refreshC s.x s.t (params s) (cache s)) : Fixed s1 := by
  unfold Fixed; rw [hk.x, hk.t, hk.params, hc, refreshC_idem hself]

theorem fixed_densityLoopP (iflag : Int) (dcx plog : F) (n it : Nat)
    (nfail ifail : Int) (vlog : F) (s : Gerg F) (hs : Fixed s)
    (h0 : 0 ≤ nfail) :
    cache (densityLoopP iflag dcx plog n it nfail ifail vlog s).1 = cache s := by
  have ht : ∀ (s : Gerg F) it nfail ifail vlog, Fixed s →
      cache (trial dcx it nfail ifail vlog s).1 = cache s := by
    intro s it nfail ifail vlog h
    unfold trial
    rw [cache_pressureP, cache_withD, params_withD, withD_x, withD_t]
    exact h.symm
  have hf : ∀ (s : Gerg F) it nfail ifail vlog, Fixed s →
      Fixed (trial dcx it nfail ifail vlog s).1 := by
    intro s it nfail ifail vlog h
    have hk := keeps_trial s dcx it nfail ifail vlog
    exact fixed_of hk.x hk.t hk.params (ht s it nfail ifail vlog h) h
  refine loop_ind iflag dcx plog (P := Fixed) (Q := fun s o => cache o.1 = cache s)
    (fun s _ => rfl) hf
    (fun s it nfail ifail vlog _ hs h => h.trans (ht s it nfail ifail vlog hs))
    (fun s it nfail ifail vlog hs _ _ _ _ _ => ?_)
    n it nfail ifail vlog s hs h0
  unfold converged
  generalize exp (-(vlogAt dcx it nfail ifail vlog s + -newton plog (trial dcx it nfail ifail vlog s))) = d
  have e : cache (propertiesP (withD (trial dcx it nfail ifail vlog s).1 d)).1 = cache s := by
    rw [cache_propertiesP, cache_withD, params_withD, withD_x, withD_t]
    exact (hf s it nfail ifail vlog hs).symm.trans (ht s it nfail ifail vlog hs)
  split
  · split
    · exact e
    · exact e
  · exact ht s it nfail ifail vlog hs

theorem fixed_trial (hself : SelfDiff F) (dcx : F) (it : Nat) (nfail ifail : Int) (vlog : F) (s : Gerg F) :
    cache (trial dcx it nfail ifail vlog s).1 = refreshC s.x s.t (params s) (cache s) ∧
    Fixed (trial dcx it nfail ifail vlog s).1 := by
  have h : cache (trial dcx it nfail ifail vlog s).1 = refreshC s.x s.t (params s) (cache s) := by
    unfold trial
    rw [cache_pressureP, cache_withD, params_withD, withD_x, withD_t]
  exact ⟨h, fixed_refreshed hself (keeps_trial s dcx it nfail ifail vlog) h⟩

/-- A search of at least one round without restarts behind it evaluates. -/
theorem cache_densityLoopP (hself : SelfDiff F) (iflag : Int) (dcx plog : F) (n it : Nat)
    (ifail : Int) (vlog : F) (s : Gerg F) :
    cache (densityLoopP iflag dcx plog (n + 1) it 0 ifail vlog s).1
      = refreshC s.x s.t (params s) (cache s) := by
  rw [densityLoopP_succ]
  have hn : (restart it ifail vlog && decide ((0 : Int) > 2)) = false := by simp
  rw [hn]
  obtain ⟨h1, h2⟩ := fixed_trial hself dcx it 0 ifail vlog s
  simp only [Bool.false_eq_true, if_false]
  rw [← h1]
  generalize trial dcx it 0 ifail vlog s = r at *
  split
  · exact fixed_densityLoopP _ _ _ _ _ _ _ _ _ h2 (by split <;> omega)
  · split
    · split
      · exact fixed_densityLoopP _ _ _ _ _ _ _ _ _ h2 (by split <;> omega)
      · unfold converged
        generalize exp (-(vlogAt dcx it 0 ifail vlog s + -newton plog r)) = d
        have e : cache (propertiesP (withD r.1 d)).1 = cache r.1 := by
          rw [cache_propertiesP, cache_withD, params_withD, withD_x, withD_t]
          exact h2.symm
        split
        · split
          · exact e
          · exact e
        · rfl
    · exact fixed_densityLoopP _ _ _ _ _ _ _ _ _ h2 (by split <;> omega)

theorem cache_densityP (hself : SelfDiff F) (s : Gerg F) (iflag : Int) :
    cache (densityP s iflag).1 = refreshC s.x s.t (params s) (cache s) := by
  unfold densityP
  rw [cache_densityLoopP hself]
  rfl

theorem view_densityP (hself : SelfDiff F) (s : Gerg F) (iflag : Int) :
    view (densityP s iflag).1 = view s :=
  view_after hself (keeps_densityP s iflag).x (keeps_densityP s iflag).t (keeps_densityP s iflag).params
    (cache_densityP hself s iflag)

/-! ## The invariant -/

theorem XFar.congr {x y z : Vector F 22} (h : XSame y z) (hf : XFar x z) : XFar x y := by
  obtain ⟨i, hi, hd⟩ := hf
  exact ⟨i, hi, by rw [h i hi]; exact hd⟩

/-- The cache is that of a new object, or holds the terms of a pair in `last`. -/
def Coherent (last : List (Vector F 22 × F)) (s : Gerg F) : Prop :=
  params s = params newP ∧
  (XSame s.xold (fill 22 (f% 0.0)) ∨
    ∃ e ∈ last, XSame s.xold e.1 ∧ s.told = e.2 ∧
      readV e.1 (cache s) = computedV e.1 e.2 (params s))

theorem view_of_coherent {last : List (Vector F 22 × F)} {s : Gerg F} (hc : Coherent last s)
    (hr : Resolved last (pub s)) : view s = computedV s.x s.t (params s) := by
  obtain ⟨-, hc⟩ := hc
  obtain ⟨r1, r2, r3⟩ := hr
  have hfar : xDiff s.x s.xold = true → view s = computedV s.x s.t (params s) :=
    fun h => refresh_far s.x s.t (params s) (cache s) h r2
  rcases hc with hx | ⟨e, he, hx, ht, hv⟩
  · exact hfar ((xDiff_iff _ _).2 (XFar.congr hx r1))
  · obtain ⟨g1, g2⟩ := r3 e he
    cases hd : xDiff s.x s.xold
    · have hxe : XSame s.x e.1 := by
        rcases g1 with h | h
        · exact h
        · have : xDiff s.x s.xold = true := (xDiff_iff _ _).2 (XFar.congr hx h)
          rw [this] at hd; cases hd
      have e1 : s.drold = drOf e.1 (params s).bvij := congrArg View.dr hv
      have e2 : s.trold = trOf e.1 (params s).bvij := congrArg View.tr hv
      have e3 : drOf e.1 (params s).bvij = drOf s.x (params s).bvij := by
        unfold drOf; rw [redX_pos hxe.symm.pos]
      have e4 : trOf e.1 (params s).bvij = trOf s.x (params s).bvij := by
        unfold trOf; rw [redX_pos hxe.symm.pos]
      unfold view
      rw [refreshC_eq]
      have hd' : xDiff s.x (cache s).xold = false := hd
      rw [hd']
      simp only [Bool.false_eq_true, if_false]
      cases hs : (FOps.lt (f% 0.0000001) (abs (s.t - (cache s).told)) ||
          FOps.lt (f% 0.0000001) (abs ((cache s).trold - (cache s).trold2)))
      · rw [readV_refreshT_fresh _ _ _ _ _ _ _ _ _ _ hs]
        have hte : s.t = e.2 := by
          rcases g2 with h | h
          · exact h
          · have h : FOps.lt (f% 0.0000001) (abs (s.t - s.told)) = true := by rw [ht]; exact h
            have hs : (FOps.lt (f% 0.0000001) (abs (s.t - s.told)) || _) = false := hs
            rw [h] at hs; cases hs
        rw [hte, computedV_pos hxe.pos, ← hv]
        exact readV_pos hxe.pos (cache s)
      · rw [readV_refreshT_stale _ _ _ _ _ _ _ _ _ _ hs]
        unfold computedV
        rw [← e3, ← e4, ← e1, ← e2]; rfl
    · exact hfar hd

/-- The fresh object with the same public fields. -/
def freshOf (q : Pub F) : Gerg F := setPub newP q

theorem coherent_new : Coherent [] (newP : Gerg F) :=
  ⟨rfl, Or.inl fun i _ => by rw [newP_xold]⟩

theorem coherent_cache {last : List (Vector F 22 × F)} {s s1 : Gerg F}
    (hc : Coherent last s) (hm : params s1 = params s) (hk : cache s1 = cache s) : Coherent last s1 := by
  obtain ⟨h1, h2⟩ := hc
  have g1 : s1.xold = s.xold := congrArg Cache.xold hk
  have g2 : s1.told = s.told := congrArg Cache.told hk
  refine ⟨hm.trans h1, ?_⟩
  rw [g1, g2, hk, hm]
  exact h2

theorem view_fresh {q : Pub F} (h1 : XFar q.x (fill 22 (f% 0.0))) (h2 : TFar q.t (f% 0.0)) :
    view (freshOf q) = computedV q.x q.t (params (newP : Gerg F)) :=
  view_of_coherent (coherent_cache coherent_new (params_setPub newP q) (cache_setPub newP q))
    ⟨h1, h2, nofun⟩

theorem same_fresh {last : List (Vector F 22 × F)} {s : Gerg F} (hc : Coherent last s)
    (hr : Resolved last (pub s)) : Same s (freshOf (pub s)) := by
  refine ⟨(pub_setPub _ _).symm, hc.1, ?_⟩
  rw [view_of_coherent hc hr, view_fresh hr.1 hr.2.1, hc.1]
  rfl

/-- After an evaluation the cache holds the terms of the current composition and temperature. -/
theorem coherent_after {last : List (Vector F 22 × F)} {s s1 : Gerg F} (hc : Coherent last s)
    (hr : Resolved last (pub s)) (hm : params s1 = params s)
    (hk : cache s1 = refreshC s.x s.t (params s) (cache s)) : Coherent [(s.x, s.t)] s1 := by
  obtain ⟨k1, k2, -⟩ := refreshC_keys s.x s.t (params s) (cache s)
  refine ⟨hm.trans hc.1, Or.inr ⟨_, List.mem_singleton.2 rfl, ?_, ?_, ?_⟩⟩
  · have : s1.xold = xSave s.x (cache s).xold := (congrArg Cache.xold hk).trans k1
    rw [this]
    exact xSave_same _ _
  · exact (congrArg Cache.told hk).trans k2
  · rw [hk, hm]
    exact view_of_coherent hc hr

/-! ## Histories -/

/-- Pure form of `step`. -/
def stepP (s : Gerg F) : Op F → Gerg F × Out F
  | .write q => (setPub s q, .unit)
  | .setComposition c => ((set_composition s c).1, .comp (set_composition s c).2)
  | .molarMass => (molar_mass s, .unit)
  | .pressure => ((pressureP s).1, .num (pressureP s).2)
  | .density iflag => ((densityP s iflag).1, .dens (densityP s iflag).2)
  | .properties => ((propertiesP s).1, .num (propertiesP s).2)

theorem step_ok {s : Gerg F} (hs : Idx s) (op : Op F) : step s op = .ok (stepP s op) := by
  cases op <;> simp only [step, stepP, pressure_ok hs, density_ok hs, properties_ok hs, bind,
    Except.bind, pure, Except.pure]

/-- The object with another composition array. -/
def withX (s : Gerg F) (x : Vector F 22) : Gerg F := { s with x := x }

/-- The array written by an accepted `set_composition`. -/
def compX (x : Vector F 22) (comp : Composition F) : Vector F 22 :=
  let x := aset x 0 (f% 0.0)
  let x := aset x 1 comp.methane
  let x := aset x 2 comp.nitrogen
  let x := aset x 3 comp.carbon_dioxide
  let x := aset x 4 comp.ethane
  let x := aset x 5 comp.propane
  let x := aset x 6 comp.isobutane
  let x := aset x 7 comp.n_butane
  let x := aset x 8 comp.isopentane
  let x := aset x 9 comp.n_pentane
  let x := aset x 10 comp.hexane
  let x := aset x 11 comp.heptane
  let x := aset x 12 comp.octane
  let x := aset x 13 comp.nonane
  let x := aset x 14 comp.decane
  let x := aset x 15 comp.hydrogen
  let x := aset x 16 comp.oxygen
  let x := aset x 17 comp.carbon_monoxide
  let x := aset x 18 comp.water
  let x := aset x 19 comp.hydrogen_sulfide
  let x := aset x 20 comp.helium
  aset x 21 comp.argon

theorem set_composition_eq (s : Gerg F) (c : Composition F) : set_composition s c =
    match c.check with
    | .error e => (s, .error e)
    | .ok _ => (withX s (compX s.x c), .ok ()) := rfl

theorem pub_withX (s : Gerg F) (x : Vector F 22) : pub (withX s x) = { pub s with x := x } := rfl

theorem set_composition_frame (s : Gerg F) (c : Composition F) :
    ∃ x : Vector F 22, (set_composition s c).1 = withX s x := by
  rw [set_composition_eq]
  split
  · exact ⟨s.x, rfl⟩
  · exact ⟨_, rfl⟩

theorem set_composition_pub {s s' : Gerg F} (h : pub s = pub s') (c : Composition F) :
    pub (set_composition s c).1 = pub (set_composition s' c).1 ∧
    (set_composition s c).2 = (set_composition s' c).2 := by
  rw [set_composition_eq, set_composition_eq, pub_xx h]
  split
  · exact ⟨h, rfl⟩
  · refine ⟨?_, rfl⟩
    rw [pub_withX, pub_withX, h]

theorem params_stepP (s : Gerg F) (op : Op F) : params (stepP s op).1 = params s := by
  cases op with
  | write q => rfl
  | setComposition c =>
    obtain ⟨x, hx⟩ := set_composition_frame s c
    show params (set_composition s c).1 = _
    rw [hx]; rfl
  | molarMass => rfl
  | pressure => exact params_pressureP s
  | density iflag => exact (keeps_densityP s iflag).params
  | properties => exact params_propertiesP s

theorem molar_mass_pub {s s' : Gerg F} (h : pub s = pub s') :
    pub (molar_mass s) = pub (molar_mass s') := by
  have e := molar_mass_congr (pub_xx h)
  show ({ pub s with mm := (molar_mass s).mm } : Pub F) = { pub s' with mm := (molar_mass s').mm }
  rw [e, h]

/-- One step: same observable result as on a fresh object, and the invariant is kept. -/
theorem step_sim (hself : SelfDiff F) {last : List (Vector F 22 × F)} {s : Gerg F} (op : Op F)
    (hc : Coherent last s) (hr : op.evaluates → Resolved last (pub s)) :
    pub (stepP s op).1 = pub (stepP (freshOf (pub s)) op).1 ∧
    (stepP s op).2 = (stepP (freshOf (pub s)) op).2 ∧
    Coherent (lastAfter last (pub s) op) (stepP s op).1 := by
  have hp : pub s = pub (freshOf (pub s)) := (pub_setPub _ _).symm
  cases op with
  | write q =>
    dsimp only [stepP, lastAfter]
    exact ⟨by rw [pub_setPub, pub_setPub], rfl,
      coherent_cache hc (params_setPub s q) (cache_setPub s q)⟩
  | setComposition c =>
    dsimp only [stepP, lastAfter]
    obtain ⟨a, b⟩ := set_composition_pub hp c
    obtain ⟨x, hx⟩ := set_composition_frame s c
    refine ⟨a, ?_, ?_⟩
    · rw [b]
    · rw [hx]
      exact coherent_cache (s1 := withX s x) hc rfl rfl
  | molarMass =>
    dsimp only [stepP, lastAfter]
    exact ⟨molar_mass_pub hp, rfl, coherent_cache (s1 := molar_mass s) hc rfl rfl⟩
  | pressure =>
    dsimp only [stepP, lastAfter]
    have hr := hr trivial
    obtain ⟨a, b, -⟩ := (same_fresh hc hr).pressure hself
    refine ⟨a.pub, ?_, coherent_after hc hr (params_pressureP s) (cache_pressureP s)⟩
    rw [b]
  | density iflag =>
    dsimp only [stepP, lastAfter]
    have hr := hr trivial
    obtain ⟨a, b⟩ := (same_fresh hc hr).density hself iflag
    refine ⟨a.pub, ?_, coherent_after hc hr (keeps_densityP s iflag).params (cache_densityP hself s iflag)⟩
    rw [b]
  | properties =>
    dsimp only [stepP, lastAfter]
    have hr := hr trivial
    obtain ⟨a, b⟩ := (same_fresh hc hr).properties hself
    refine ⟨a.pub, ?_, coherent_after hc hr (params_propertiesP s) (cache_propertiesP s)⟩
    rw [b]

theorem idx_newP_params {s : Gerg F} (h : params s = params (newP : Gerg F)) : Idx s :=
  idx_of_params h newP_idx

theorem freshStep_ok (q : Pub F) (op : Op F) :
    freshStep q op = .ok (pub (stepP (freshOf q) op).1, (stepP (freshOf q) op).2) := by
  have hi : Idx (setPub (newP : Gerg F) q) := idx_newP_params (params_setPub newP q)
  unfold freshStep
  rw [new_ok]
  simp only [bind, Except.bind]
  rw [step_ok hi]
  rfl

theorem run_sim (hself : SelfDiff F) (ops : List (Op F)) {last : List (Vector F 22 × F)}
    {s : Gerg F} (hc : Coherent last s) (hr : HistOK last (pub s) ops) :
    ∃ s' outs, run s ops = .ok (s', outs) ∧ freshRun (pub s) ops = .ok (pub s', outs) := by
  induction ops generalizing last s with
  | nil => exact ⟨s, [], rfl, rfl⟩
  | cons op ops ih =>
    obtain ⟨h1, h2, h3⟩ := step_sim hself op hc hr.1
    have hr2 := hr.2 _ (freshStep_ok _ _)
    dsimp only at hr2
    rw [← h1] at hr2
    obtain ⟨s', outs, e1, e2⟩ := ih h3 hr2
    refine ⟨s', (stepP s op).2 :: outs, ?_, ?_⟩
    · simp only [run, step_ok (idx_newP_params hc.1), bind, Except.bind, e1, pure, Except.pure]
    · simp only [freshRun, freshStep_ok, bind, Except.bind, ← h1, e2, pure, Except.pure, ← h2]

/-- Histories never panic and keep the parameters. -/
theorem run_ok (ops : List (Op F)) (s : Gerg F) (hs : Idx s) :
    ∃ r, run s ops = .ok r ∧ params r.1 = params s := by
  induction ops generalizing s with
  | nil => exact ⟨_, rfl, rfl⟩
  | cons op ops ih =>
    obtain ⟨r, hr, hp⟩ := ih (stepP s op).1 (idx_of_params (params_stepP s op) hs)
    exact ⟨(r.1, (stepP s op).2 :: r.2), by
      simp only [run, step_ok hs, bind, Except.bind, hr, pure, Except.pure],
      hp.trans (params_stepP s op)⟩

theorem runNew_eq (ops : List (Op F)) : runNew ops = run (newP : Gerg F) ops := by
  simp only [runNew, new_ok, bind, Except.bind]

theorem Reachable.params {s : Gerg F} (h : Reachable s) : params s = params (newP : Gerg F) := by
  obtain ⟨ops, outs, h⟩ := h
  rw [runNew_eq] at h
  obtain ⟨r, hr, hp⟩ := run_ok ops (newP : Gerg F) newP_idx
  rw [h] at hr
  cases hr
  exact hp

theorem Reachable.idx {s : Gerg F} (h : Reachable s) : Idx s := idx_newP_params h.params

theorem reachable_fresh (q : Pub F) : Reachable (freshOf q) :=
  ⟨[.write q], [.unit], by
    rw [runNew_eq]
    simp only [run, step, bind, Except.bind, pure, Except.pure, freshOf]⟩

theorem run_append (s : Gerg F) (a b : List (Op F)) : run s (a ++ b) =
    (do let r ← run s a; let r' ← run r.1 b; pure (r'.1, r.2 ++ r'.2)) := by
  induction a generalizing s with
  | nil =>
    simp only [List.nil_append, run, bind, Except.bind, pure, Except.pure]
    cases run s b <;> rfl
  | cons op a ih =>
    simp only [List.cons_append, run, bind, Except.bind, ih]
    cases step s op with
    | error e => rfl
    | ok r =>
      simp only []
      cases run r.1 a with
      | error e => rfl
      | ok r1 =>
        simp only [pure, Except.pure]
        cases run r1.1 b <;> rfl

/-- What a call leads to is reachable. -/
theorem Reachable.step {s s' : Gerg F} {op : Op F} {o : Out F} (h : Reachable s)
    (hs : step s op = .ok (s', o)) : Reachable s' := by
  obtain ⟨ops, outs, h⟩ := h
  refine ⟨ops ++ [op], outs ++ [o], ?_⟩
  rw [runNew_eq] at *
  rw [run_append, h]
  simp only [bind, Except.bind, run, hs, pure, Except.pure]

/-! ## Repetition -/

theorem pressureP_twice (hself : SelfDiff F) (s : Gerg F) : pressureP (pressureP s).1 = pressureP s := by
  have hk := eos_pressureP hself s
  have hd : (pressureP s).1.d = s.d := pressureP_d s
  have har : (alpharP (pressureP s).1 0).ar = (alpharP s 0).ar :=
    ar_eval_congr (by rw [hk.x]; exact SamePos.refl _) hk.params hk.view hd hk.t 0
  have hz : (pressureP (pressureP s).1).1.z = (pressureP s).1.z := by
    rw [pressureP_z, pressureP_z, har]
  have hsv : (pressureP (pressureP s).1).1.dpddsave = (pressureP s).1.dpddsave := by
    rw [pressureP_save, pressureP_save, har, hk.t]
  have h2 : (pressureP (pressureP s).1).2 = (pressureP s).2 := by
    rw [pressureP_snd, pressureP_snd, hz, hd, hk.t]
  have hscr : ∀ s : Gerg F, (pressureP s).1.a = s.a ∧ (pressureP s).1.a0 = s.a0 ∧
      (pressureP s).1.ar = (alpharP s 0).ar := by
    intro s
    have : (refresh s).a = s.a ∧ (refresh s).a0 = s.a0 := by rw [refresh_eq]; exact ⟨rfl, rfl⟩
    exact ⟨this.1, this.2, rfl⟩
  have h1 : (pressureP (pressureP s).1).1 = (pressureP s).1 := by
    apply ext4
    · rw [pub_pressureP, hz]; rfl
    · exact params_pressureP _
    · rw [cache_pressureP, hk.x, hk.t, hk.params, cache_pressureP, refreshC_idem hself]
    · obtain ⟨a1, a2, a3⟩ := hscr (pressureP s).1
      unfold scratch
      rw [a1, a2, a3, har, hsv]; rfl
  exact Prod.ext h1 h2

/-- The object with another value of the private field `a`. -/
def withA (s : Gerg F) (a : F) : Gerg F := { s with a := a }

/-- Results of `properties` do not depend on earlier results. -/
theorem propsFinish_out {s : Gerg F} {q : Pub F} (a : F) (ht : q.t = s.t) (hd : q.d = s.d) (hp : q.p = s.p)
    (hx : q.x = s.x) (hmm : q.mm = s.mm) :
    propsFinish (withA (setPub s q) a) = propsFinish s := by
  obtain ⟨q1, q2, q3, q4, q5, q6, q7, q8, q9, q10, q11, q12, q13, q14, q15, q16, q17, q18, q19⟩ := q
  simp only at ht hd hp hx hmm
  subst ht hd hp hx hmm
  unfold propsFinish withA setPub
  dsimp only
  split <;> dsimp only <;> split <;> rfl

theorem propsFinish_dpddsave (s : Gerg F) : (propsFinish s).1.dpddsave = s.dpddsave := by
  unfold propsFinish
  dsimp only
  split <;> dsimp only <;> split <;> rfl

theorem propsMid_dpddsave (s : Gerg F) : (propsMid s).dpddsave = s.dpddsave := by
  show (refresh (alpha0 (molar_mass s))).dpddsave = _
  rw [refresh_eq]; rfl

theorem propertiesP_twice (hself : SelfDiff F) (s : Gerg F) :
    propertiesP (propertiesP s).1 = propertiesP s := by
  have hk := eos_propertiesP hself s
  have hd : (propertiesP s).1.d = s.d := propertiesP_d s
  have hx : SamePos (propertiesP s).1.x s.x := by rw [hk.x]; exact SamePos.refl _
  have har : (alpharP (propertiesP s).1 1).ar = (alpharP s 1).ar :=
    ar_eval_congr hx hk.params hk.view hd hk.t 1
  have ha0 : (alpha0 (propertiesP s).1).a0 = (alpha0 s).a0 := alpha0_congr hx hk.params hd hk.t
  have hmm : (molar_mass (propertiesP s).1).mm = (molar_mass s).mm := molar_mass_congr hk.x
  -- the second evaluation is the first with other results written beforehand
  have e : propsMid (propertiesP s).1 = withA (setPub (propsMid s) (pub (propsMid (propertiesP s).1)))
      (propsMid (propertiesP s).1).a := by
    apply ext4
    · rfl
    · show params (propsMid (propertiesP s).1) = params (propsMid s)
      rw [params_propsMid, params_propsMid, hk.params]
    · show cache (propsMid (propertiesP s).1) = cache (propsMid s)
      rw [cache_propsMid, cache_propsMid, hk.x, hk.t, hk.params, cache_propertiesP,
        refreshC_idem hself]
    · show (⟨_, _, _, _⟩ : Scratch F) = ⟨_, _, _, _⟩
      have g1 : (propsMid (propertiesP s).1).a0 = (propsMid s).a0 := by
        rw [propsMid_a0, propsMid_a0, ha0]
      have g2 : (propsMid (propertiesP s).1).ar = (propsMid s).ar := by
        rw [propsMid_ar, propsMid_ar, har]
      have g3 : (propsMid (propertiesP s).1).dpddsave = (propsMid s).dpddsave := by
        rw [propsMid_dpddsave, propsMid_dpddsave, propertiesP_eq, propsFinish_dpddsave,
          propsMid_dpddsave]
      rw [g1, g2, g3]; rfl
  have hpub := pub_propsMid (propertiesP s).1
  rw [propertiesP_eq (propertiesP s).1, e, propsFinish_out]
  · rfl
  all_goals rw [hpub]
  · show (propertiesP s).1.t = _
    rw [hk.t]; exact (congrArg Pub.t (pub_propsMid s)).symm
  · show (propertiesP s).1.d = _
    rw [hd]; exact (congrArg Pub.d (pub_propsMid s)).symm
  · show (propertiesP s).1.p = _
    rw [hk.p]; exact (congrArg Pub.p (pub_propsMid s)).symm
  · show (propertiesP s).1.x = _
    rw [hk.x]; exact (congrArg Pub.x (pub_propsMid s)).symm
  · show (molar_mass (propertiesP s).1).mm = _
    rw [hmm]; exact (congrArg Pub.mm (pub_propsMid s)).symm

theorem propsFinish_eos {s s' : Gerg F} (ht : s.t = s'.t) (hd : s.d = s'.d) (hp : s.p = s'.p)
    (hx : s.x = s'.x) (hmm : s.mm = s'.mm) (h0 : s.a0 = s'.a0) (hr : s.ar = s'.ar) :
    pub (propsFinish s).1 = pub (propsFinish s').1 ∧ (propsFinish s).2 = (propsFinish s').2 := by
  have e : propsFinish s' = propsFinish (withA (setPub s' (pub s)) s'.a) := 
    (propsFinish_out s'.a ht hd hp hx hmm).symm
  rw [e]
  exact propsFinish_congr rfl h0 hr

theorem propertiesP_eos {s s' : Gerg F} (h : SameEos s s') (hd : s.d = s'.d) :
    pub (propertiesP s).1 = pub (propertiesP s').1 ∧ (propertiesP s).2 = (propertiesP s').2 := by
  have hx : SamePos s.x s'.x := by rw [h.x]; exact SamePos.refl _
  have e := pub_propsMid s
  have e' := pub_propsMid s'
  rw [propertiesP_eq, propertiesP_eq]
  apply propsFinish_eos
  · exact (congrArg Pub.t e).trans (h.t.trans (congrArg Pub.t e').symm)
  · exact (congrArg Pub.d e).trans (hd.trans (congrArg Pub.d e').symm)
  · exact (congrArg Pub.p e).trans (h.p.trans (congrArg Pub.p e').symm)
  · exact (congrArg Pub.x e).trans (h.x.trans (congrArg Pub.x e').symm)
  · exact (congrArg Pub.mm e).trans ((molar_mass_congr h.x).trans (congrArg Pub.mm e').symm)
  · rw [propsMid_a0, propsMid_a0]; exact alpha0_congr hx h.params hd h.t
  · rw [propsMid_ar, propsMid_ar]; exact ar_eval_congr hx h.params h.view hd h.t 1

theorem giveUp_eos {s s' : Gerg F} (hp : s.p = s'.p) (ht : s.t = s'.t) :
    (giveUp s).2 = (giveUp s').2 ∧ (giveUp s).1.d = (giveUp s').1.d := by
  refine ⟨rfl, ?_⟩
  show s.p / RGERG / s.t = s'.p / RGERG / s'.t
  rw [hp, ht]

theorem pair_eos {s s' : Gerg F} (e : Except DensityError Unit) (hd : s.d = s'.d) :
    (s, e).2 = (s', e).2 ∧ (s, e).1.d = (s', e).1.d := ⟨rfl, hd⟩

theorem converged_eos (iflag : Int) {s s' : Gerg F} (h : SameEos s s') (hd : s.d = s'.d) :
    (converged iflag s).2 = (converged iflag s').2 ∧ (converged iflag s).1.d = (converged iflag s').1.d := by
  unfold converged
  split
  · obtain ⟨q, b⟩ := propertiesP_eos h hd
    have e : twoPhase (propertiesP s) = twoPhase (propertiesP s') := by
      unfold twoPhase
      have q1 : (propertiesP s).1.dp_dd = (propertiesP s').1.dp_dd := congrArg Pub.dp_dd q
      have q2 : (propertiesP s).1.d2p_dtd = (propertiesP s').1.d2p_dtd := congrArg Pub.d2p_dtd q
      have q3 : (propertiesP s).1.cv = (propertiesP s').1.cv := congrArg Pub.cv q
      have q4 : (propertiesP s).1.cp = (propertiesP s').1.cp := congrArg Pub.cp q
      have q5 : (propertiesP s).1.w = (propertiesP s').1.w := congrArg Pub.w q
      rw [b, q1, q2, q3, q4, q5]
    rw [e]
    split
    · exact giveUp_eos (pub_p q) (pub_t q)
    · exact pair_eos _ (pub_d q)
  · exact pair_eos _ hd

/-- The outcome and the density found depend on the inputs of the equation of state only. -/
theorem densityLoopP_congr (hself : SelfDiff F) (iflag : Int) (dcx plog : F) (n it : Nat)
    (nfail ifail : Int) (vlog : F) {s s' : Gerg F} (h : SameEos s s') (hd : s.d = s'.d) :
    (densityLoopP iflag dcx plog n it nfail ifail vlog s).2
      = (densityLoopP iflag dcx plog n it nfail ifail vlog s').2 ∧
    (densityLoopP iflag dcx plog n it nfail ifail vlog s).1.d
      = (densityLoopP iflag dcx plog n it nfail ifail vlog s').1.d := by
  have hg : ∀ {s s' : Gerg F}, SameEos s s' → (giveUp s).2 = (giveUp s').2 ∧
      (giveUp s).1.d = (giveUp s').1.d := fun h => giveUp_eos h.p h.t
  induction n generalizing it nfail ifail vlog s s' with
  | zero => exact hg h
  | succ n ih =>
    have e : vlogAt dcx it nfail ifail vlog s = vlogAt dcx it nfail ifail vlog s' := by
      unfold vlogAt; rw [hd]
    have t1 : SameEos (trial dcx it nfail ifail vlog s).1 (trial dcx it nfail ifail vlog s').1 :=
      (eos_trial hself s dcx it nfail ifail vlog).trans
        (h.trans (eos_trial hself s' dcx it nfail ifail vlog).symm)
    have t2 : (trial dcx it nfail ifail vlog s).2 = (trial dcx it nfail ifail vlog s').2 ∧
        (trial dcx it nfail ifail vlog s).1.dpddsave = (trial dcx it nfail ifail vlog s').1.dpddsave ∧
        (trial dcx it nfail ifail vlog s).1.d = (trial dcx it nfail ifail vlog s').1.d := by
      unfold trial
      rw [e]
      obtain ⟨a, b, c⟩ := eval_congr h (exp (-vlogAt dcx it nfail ifail vlog s'))
      refine ⟨b, c, ?_⟩
      rw [pressureP_d, pressureP_d]; rfl
    rw [densityLoopP_succ, densityLoopP_succ]
    generalize trial dcx it nfail ifail vlog s = r at *
    generalize trial dcx it nfail ifail vlog s' = r' at *
    obtain ⟨t2, t3, t4⟩ := t2
    have hn : newton plog r = newton plog r' := by
      unfold newton; rw [t2, t3, t4]
    dsimp only
    rw [t2, t3, hn, t4, e]
    split
    · exact hg h
    · split
      · exact ih _ _ _ _ t1 t4
      · split
        · split
          · exact ih _ _ _ _ t1 t4
          · generalize exp (-(vlogAt dcx it nfail ifail vlog s' + -newton plog r')) = d
            exact converged_eos iflag ((eos_withD _ d).trans (t1.trans (eos_withD _ d).symm))
              (by rw [withD_d, withD_d])
        · exact ih _ _ _ _ t1 t4

theorem densityP_congr (hself : SelfDiff F) (iflag : Int) {s s' : Gerg F} (h : SameEos s s')
    (hd : startD iflag s = startD iflag s') :
    (densityP s iflag).2 = (densityP s' iflag).2 ∧ (densityP s iflag).1.d = (densityP s' iflag).1.d := by
  unfold densityP
  rw [hd, pseudo_congr h.x, h.p]
  exact densityLoopP_congr hself _ _ _ _ _ _ _ _
    (((eos_withD s _).trans h).trans (eos_withD s' _).symm) rfl

end Aga8.Gerg
