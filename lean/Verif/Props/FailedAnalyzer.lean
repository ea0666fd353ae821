import Verif.Spec.FailedAnalyzer
import Verif.Props.DetailNan
import Verif.Props.NaturalGasHeat

/-! # C84: readings that are NaN are accepted, and the gas of the last good reading is metered from then on -/

set_option linter.unusedSectionVars false

namespace Aga8

open F64 FOps

variable [Libm]

theorem nan_sum (c : Composition Float) (i : Fin 21) (h : (c.frac i).isNaN = true) : c.sum.isNaN = true := by
  unfold Composition.sum
  fin_cases i
  · have h' : c.methane.isNaN = true := h
    iterate 20 refine nan_add_left ?_ _
    exact h'
  · have h' : c.nitrogen.isNaN = true := h
    iterate 19 refine nan_add_left ?_ _
    exact nan_add_right _ h'
  · have h' : c.carbon_dioxide.isNaN = true := h
    iterate 18 refine nan_add_left ?_ _
    exact nan_add_right _ h'
  · have h' : c.ethane.isNaN = true := h
    iterate 17 refine nan_add_left ?_ _
    exact nan_add_right _ h'
  · have h' : c.propane.isNaN = true := h
    iterate 16 refine nan_add_left ?_ _
    exact nan_add_right _ h'
  · have h' : c.isobutane.isNaN = true := h
    iterate 15 refine nan_add_left ?_ _
    exact nan_add_right _ h'
  · have h' : c.n_butane.isNaN = true := h
    iterate 14 refine nan_add_left ?_ _
    exact nan_add_right _ h'
  · have h' : c.isopentane.isNaN = true := h
    iterate 13 refine nan_add_left ?_ _
    exact nan_add_right _ h'
  · have h' : c.n_pentane.isNaN = true := h
    iterate 12 refine nan_add_left ?_ _
    exact nan_add_right _ h'
  · have h' : c.hexane.isNaN = true := h
    iterate 11 refine nan_add_left ?_ _
    exact nan_add_right _ h'
  · have h' : c.heptane.isNaN = true := h
    iterate 10 refine nan_add_left ?_ _
    exact nan_add_right _ h'
  · have h' : c.octane.isNaN = true := h
    iterate 9 refine nan_add_left ?_ _
    exact nan_add_right _ h'
  · have h' : c.nonane.isNaN = true := h
    iterate 8 refine nan_add_left ?_ _
    exact nan_add_right _ h'
  · have h' : c.decane.isNaN = true := h
    iterate 7 refine nan_add_left ?_ _
    exact nan_add_right _ h'
  · have h' : c.hydrogen.isNaN = true := h
    iterate 6 refine nan_add_left ?_ _
    exact nan_add_right _ h'
  · have h' : c.oxygen.isNaN = true := h
    iterate 5 refine nan_add_left ?_ _
    exact nan_add_right _ h'
  · have h' : c.carbon_monoxide.isNaN = true := h
    iterate 4 refine nan_add_left ?_ _
    exact nan_add_right _ h'
  · have h' : c.water.isNaN = true := h
    iterate 3 refine nan_add_left ?_ _
    exact nan_add_right _ h'
  · have h' : c.hydrogen_sulfide.isNaN = true := h
    iterate 2 refine nan_add_left ?_ _
    exact nan_add_right _ h'
  · have h' : c.helium.isNaN = true := h
    iterate 1 refine nan_add_left ?_ _
    exact nan_add_right _ h'
  · have h' : c.argon.isNaN = true := h
    exact nan_add_right _ h'

/-- C84, the readings: whatever the other fractions are, a composition with a NaN is accepted by `check`; only `normalize`
reports it, and changes nothing. -/
theorem C84_nan_accepted (c : Composition Float) (i : Fin 21) (h : (c.frac i).isNaN = true) :
    c.check = .ok () ∧ c.normalize = (c, .error .Empty) ∧ (∀ s : Detail Float, (s.set_composition c).2 = .ok ()) ∧
      ∀ s : Gerg Float, (s.set_composition c).2 = .ok () := by
  have hs := nan_sum c i h
  have e : c.check = .ok () := by
    unfold Composition.check
    rw [if_neg, if_neg]
    · rw [Bool.not_eq_true, flt_false]
      exact nan_lt_right _ (nan_abs (nan_sub_left hs _))
    · rw [Bool.not_eq_true, flt_false]
      exact nan_lt_left (nan_abs (nan_sub_left hs _)) _
  refine ⟨e, ?_, fun s => ?_, fun s => ?_⟩
  · unfold Composition.normalize
    rw [if_neg]
    rw [Bool.not_eq_true, flt_false]
    exact nan_lt_right _ hs
  · rw [Detail.set_composition_eq, e]
  · rw [Gerg.set_composition_eq, e]

namespace Detail

attribute [local irreducible] densityP pressureP

/-- Two objects that give the same pressures. -/
structure SameP (s s' : Detail Float) : Prop where
  t : s.t = s'.t
  p : s.p = s'.p
  d : s.d = s'.d
  z : s.z = s'.z
  view : view s = view s'

theorem SameP.setD {s s' : Detail Float} (h : SameP s s') (d : Float) : SameP (withD s d) (withD s' d) :=
  ⟨h.t, h.p, rfl, h.z, by rw [view_withD, view_withD, h.view]⟩

theorem SameP.pressure {s s' : Detail Float} (h : SameP s s') :
    SameP (pressureP s).1 (pressureP s').1 ∧ (pressureP s).2 = (pressureP s').2 ∧
    (pressureP s).1.dp_dd_save = (pressureP s').1.dp_dd_save := by
  have ha := ar_eval_congr' h.view h.d h.t 0
  have hz : (pressureP s).1.z = (pressureP s').1.z := by rw [pressureP_z, pressureP_z, ha, h.t]
  have k := pub_pressureP s
  have k' := pub_pressureP s'
  refine ⟨⟨?_, ?_, ?_, hz, ?_⟩, ?_, ?_⟩
  · rw [show (pressureP s).1.t = s.t from congrArg Pub.t k, show (pressureP s').1.t = s'.t from congrArg Pub.t k', h.t]
  · rw [show (pressureP s).1.p = s.p from congrArg Pub.p k, show (pressureP s').1.p = s'.p from congrArg Pub.p k', h.p]
  · rw [show (pressureP s).1.d = s.d from congrArg Pub.d k, show (pressureP s').1.d = s'.d from congrArg Pub.d k', h.d]
  · rw [view_pressureP selfDiff, view_pressureP selfDiff, h.view]
  · rw [pressureP_snd, pressureP_snd, hz, h.t, h.d]
  · rw [pressureP_save, pressureP_save, ha, h.t]

theorem SameP.densityLoop (plog : Float) (n : Nat) (vlog : Float) {s s' : Detail Float} (h : SameP s s') :
    SameP (densityLoopP plog n vlog s).1 (densityLoopP plog n vlog s').1 ∧
    (densityLoopP plog n vlog s).2 = (densityLoopP plog n vlog s').2 := by
  induction n generalizing vlog s s' with
  | zero =>
    rw [densityLoopP_zero, densityLoopP_zero, h.p, h.t]
    exact ⟨h.setD _, rfl⟩
  | succ n ih =>
    rw [densityLoopP_succ, densityLoopP_succ]
    have hp := (h.setD (exp (-vlog))).pressure
    generalize pressureP (withD s (exp (-vlog))) = r at *
    generalize pressureP (withD s' (exp (-vlog))) = r' at *
    obtain ⟨h1, h2, h3⟩ := hp
    dsimp only
    rw [h.p, h.t, h2, h3, h1.d]
    split
    · exact ⟨h.setD _, rfl⟩
    · split
      · exact ih _ h1
      · split
        · exact ⟨h1.setD _, rfl⟩
        · exact ih _ h1

theorem SameP.density {s s' : Detail Float} (h : SameP s s') :
    SameP (densityP s).1 (densityP s').1 ∧ (densityP s).2 = (densityP s').2 := by
  rw [densityP_eq, densityP_eq, h.p, h.t, h.d]
  split
  · exact ⟨h.setD _, rfl⟩
  · exact (h.setD _).densityLoop _ _ _

/-- A successful search evaluated the pressure. -/
theorem loop_evaluated (plog : Float) (n : Nat) (vlog : Float) (s : Detail Float)
    (h : (densityLoopP plog n vlog s).2 = .ok ()) :
    (densityLoopP plog n vlog s).1.xold = s.x ∧ (densityLoopP plog n vlog s).1.told = s.t ∧
      stored (densityLoopP plog n vlog s).1 = view s := by
  induction n generalizing vlog s with
  | zero => rw [densityLoopP_zero] at h; cases h
  | succ n ih =>
    rw [densityLoopP_succ] at h ⊢
    have h1 : (pressureP (withD s (exp (-vlog)))).1.xold = s.x := xold_pressureP _
    have h2 : (pressureP (withD s (exp (-vlog)))).1.told = s.t := told_pressureP _
    have h3 : stored (pressureP (withD s (exp (-vlog)))).1 = view s := by rw [stored_pressureP, view_withD]
    have h4 : view (pressureP (withD s (exp (-vlog)))).1 = view s := by rw [view_pressureP selfDiff, view_withD]
    have h5 := pub_pressureP (withD s (exp (-vlog)))
    generalize pressureP (withD s (exp (-vlog))) = r at *
    have h6 : r.1.x = s.x := congrArg Pub.x h5
    have h7 : r.1.t = s.t := congrArg Pub.t h5
    have key : ∀ s' : Detail Float, (s'.xold = r.1.x ∧ s'.told = r.1.t ∧ stored s' = view r.1) →
        (s'.xold = s.x ∧ s'.told = s.t ∧ stored s' = view s) :=
      fun s' ⟨a, b, c⟩ => ⟨a.trans h6, b.trans h7, c.trans h4⟩
    split at h
    · cases h
    · rename_i e0
      rw [if_neg e0]
      dsimp only at h ⊢
      split at h
      · rename_i e1
        rw [if_pos e1]
        exact key _ (ih _ _ h)
      · rename_i e1
        rw [if_neg e1]
        split at h
        · rename_i e2
          rw [if_pos e2]
          exact ⟨h1, h2, h3⟩
        · rename_i e2
          rw [if_neg e2]
          exact key _ (ih _ _ h)

theorem density_evaluated (s : Detail Float) (h : (densityP s).2 = .ok ()) :
    (densityP s).1.xold = s.x ∧ (densityP s).1.told = s.t ∧ stored (densityP s).1 = view s := by
  rw [densityP_eq] at h ⊢
  split at h
  · cases h
  · rename_i e
    rw [if_neg e]
    have := loop_evaluated _ _ _ _ h
    rwa [view_withD] at this

/-- Two objects with the same stored terms that hold the fractions `x` and `y`. -/
structure SameK (x y : Vector Float 21) (s s' : Detail Float) : Prop where
  stored : stored s = stored s'
  told : s.told = s'.told
  x : s.xold = x
  y : s'.xold = y

theorem unnoticed_diff {x y : Vector Float 21} (h : Unnoticed x y) : xDiff x y = false := xDiff_false fun i => by
  rcases h i with h | h | h
  · exact Or.inr (nan_sub_left h _)
  · exact Or.inr (nan_sub_right _ h)
  · rw [h]; exact sub_self_cases _

theorem view_unnoticed {s s' : Detail Float} (hs : stored s = stored s') (ht : s.told = s'.told) (et : s.t = s'.t)
    (h : xDiff s.x s.xold = false) (h' : xDiff s'.x s'.xold = false) : view s = view s' := by
  unfold view
  rw [h, h', et, ht]
  unfold stored at hs
  injection hs with a b c d
  simp only [Bool.false_eq_true, if_false]
  rw [a, b, c, d]

theorem sameK_sample {x y y' : Vector Float 21} {s s' : Detail Float} (h : SameK x y s s') (q : Pub Float) (hy : Unnoticed y' y)
    (hok : (densityP (setPub s (q.withFractions x))).2 = .ok ()) :
    SameK x y' (densityP (setPub s (q.withFractions x))).1 (densityP (setPub s' (q.withFractions y'))).1 ∧
    SameP (densityP (setPub s (q.withFractions x))).1 (densityP (setPub s' (q.withFractions y'))).1 ∧
    (densityP (setPub s' (q.withFractions y'))).2 = .ok () := by
  have hP : SameP (setPub s (q.withFractions x)) (setPub s' (q.withFractions y')) := by
    refine ⟨rfl, rfl, rfl, rfl, view_unnoticed (s := setPub s (q.withFractions x)) (s' := setPub s' (q.withFractions y'))
      h.stored h.told rfl ?_ ?_⟩
    · show xDiff x s.xold = false
      rw [h.x]
      exact unnoticed_diff fun i => Or.inr (Or.inr rfl)
    · show xDiff y' s'.xold = false
      rw [h.y]
      exact unnoticed_diff hy
  obtain ⟨k1, k2⟩ := hP.density
  have hok' := k2.symm.trans hok
  obtain ⟨a1, a2, a3⟩ := density_evaluated _ hok
  obtain ⟨b1, b2, b3⟩ := density_evaluated _ hok'
  exact ⟨⟨a3.trans (hP.view.trans b3.symm), a2.trans b2.symm, a1, b1⟩, k1, hok'⟩

theorem run_sample (s : Detail Float) (q : Pub Float) (x : Vector Float 21) (ops : List (Op Float)) :
    run s (sampleOps q x ++ ops) = .ok ((runP (densityP (setPub s (q.withFractions x))).1 ops).1,
      .unit :: .dens (densityP (setPub s (q.withFractions x))).2 :: (runP (densityP (setPub s (q.withFractions x))).1 ops).2) := by
  rw [run_eq]; rfl

theorem sameK_run {x : Vector Float 21} (l : List (Pub Float × Vector Float 21)) {y : Vector Float 21} {s s' : Detail Float}
    (h : SameK x y s s') (hl : OnlyNanChanges y l) (a : Detail Float) (outs : List (Out Float))
    (hr : run s (steadyOps x l) = .ok (a, outs)) (hok : AllOk outs) :
    ∃ b, run s' (givenOps l) = .ok (b, outs) ∧ (l ≠ [] → SameP a b) := by
  induction l generalizing y s s' a outs with
  | nil =>
    have e : (s, []) = (a, outs) := Except.ok.inj hr
    exact ⟨s', by rw [← (Prod.mk.inj e).2]; rfl, fun h => absurd rfl h⟩
  | cons e l ih =>
    obtain ⟨q, y'⟩ := e
    have e1 : run s (steadyOps x ((q, y') :: l)) = _ := run_sample s q x (steadyOps x l)
    have e2 : run s' (givenOps ((q, y') :: l)) = _ := run_sample s' q y' (givenOps l)
    rw [hr] at e1
    obtain ⟨ea, eo⟩ := Prod.mk.inj (Except.ok.inj e1)
    have ok1 : (densityP (setPub s (q.withFractions x))).2 = .ok () := by
      rcases hok (.dens (densityP (setPub s (q.withFractions x))).2) (by rw [eo]; simp) with h | h
      · cases h
      · exact Out.dens.inj h
    obtain ⟨k1, k2, k3⟩ := sameK_sample h q hl.1 ok1
    rw [e2]
    rw [ok1] at eo
    rw [k3]
    generalize (densityP (setPub s (q.withFractions x))).1 = s1 at *
    generalize (densityP (setPub s' (q.withFractions y'))).1 = s1' at *
    obtain ⟨b, g1, g2⟩ := ih k1 hl.2 _ _ (run_eq (steadyOps x l) s1) (fun o ho => hok o (by rw [eo]; simp [ho]))
    rw [run_eq] at g1
    obtain ⟨g3, g4⟩ := Prod.mk.inj (Except.ok.inj g1)
    refine ⟨_, by rw [g4, eo], fun _ => ?_⟩
    rw [g3, ea]
    by_cases hn : l = []
    · subst hn
      have : b = s1' := g3.symm
      rw [this]
      exact k2
    · exact g2 hn

end Detail

/-- C84, DETAIL: an object has evaluated a gas `s.x`. From then on samples of any number are metered at any temperatures and
pressures whose fractions differ, from each sample to the next, only by NaN: a fraction that is a number in both samples is the
same. If the gas `s.x` would be metered without an error at these temperatures and pressures, then so are these samples, with
the densities and compressibility factors of `s.x`, bit for bit, at every sample, whatever the fractions are by now. -/
theorem C84_detail_nan_freezes_gas (s s0 : Detail Float) (v : Float) (h0 : s.pressure = .ok (s0, v))
    (l : List (Detail.Pub Float × Vector Float 21)) (hl : Detail.OnlyNanChanges s.x l) (a : Detail Float) (outs : List (Detail.Out Float))
    (hr : Detail.run s0 (Detail.steadyOps s.x l) = .ok (a, outs)) (hok : Detail.AllOk outs) :
    ∃ b, Detail.run s0 (Detail.givenOps l) = .ok (b, outs) ∧ (l ≠ [] → a.d = b.d ∧ a.z = b.z) := by
  have e : s0 = (Detail.pressureP s).1 := by
    rw [Detail.pressure_ok] at h0
    exact (congrArg Prod.fst (Except.ok.inj h0)).symm
  obtain ⟨b, k1, k2⟩ := Detail.sameK_run l (s := s0) (s' := s0) (y := s.x) (x := s.x)
    ⟨rfl, rfl, by rw [e]; exact Detail.xold_pressureP s, by rw [e]; exact Detail.xold_pressureP s⟩ hl a outs hr hok
  exact ⟨b, k1, fun h => ⟨(k2 h).d, (k2 h).z⟩⟩

namespace Detail

/-- The object evaluates `q` like the object `n0`. -/
structure LikeNew (n0 : Detail Float) (q : Pub Float) (s : Detail Float) : Prop where
  params : params s = params n0
  view : view (setPub s q) = view (setPub n0 q)

theorem LikeNew.same {n0 : Detail Float} {q : Pub Float} {s : Detail Float} (h : LikeNew n0 q s) : Same (setPub s q) (setPub n0 q) :=
  ⟨by rw [pub_setPub, pub_setPub], h.params, h.view⟩

theorem view_told {s : Detail Float} (q : Pub Float) (hx : s.xold = q.x) (ht : s.told = q.t) : view (setPub s q) = stored s := by
  unfold view stored
  rw [show (setPub s q).x = q.x from rfl, show (setPub s q).xold = s.xold from rfl, show (setPub s q).t = q.t from rfl,
    show (setPub s q).told = s.told from rfl, hx, ht, unnoticed_diff (x := q.x) fun i => Or.inr (Or.inr rfl), tDiff_self]
  rfl

theorem LikeNew.density {n0 : Detail Float} {q : Pub Float} {s : Detail Float} (h : LikeNew n0 q s) (hok : (densityP (setPub n0 q)).2 = .ok ()) :
    LikeNew n0 q (densityP (setPub s q)).1 ∧ (densityP (setPub s q)).2 = .ok () ∧
      (densityP (setPub s q)).1.d = (densityP (setPub n0 q)).1.d ∧ (densityP (setPub s q)).1.z = (densityP (setPub n0 q)).1.z := by
  obtain ⟨k1, k2⟩ := h.same.density selfDiff
  have e := k2.trans hok
  obtain ⟨a1, a2, a3⟩ := density_evaluated _ e
  refine ⟨⟨?_, ?_⟩, e, congrArg Pub.d k1.pub, congrArg Pub.z k1.pub⟩
  · exact (params_stepP (setPub s q) .density).trans h.params
  · rw [view_told q a1 a2, a3, h.view]

theorem LikeNew.steady {n0 : Detail Float} {q : Pub Float} (ys : List (Vector Float 21)) {s : Detail Float} (h : LikeNew n0 q s)
    (hok : (densityP (setPub n0 q)).2 = .ok ()) :
    ∃ a outs, run s (steadyOps q.x (ys.map fun y => (q, y))) = .ok (a, outs) ∧ AllOk outs ∧
      (ys ≠ [] → a.d = (densityP (setPub n0 q)).1.d ∧ a.z = (densityP (setPub n0 q)).1.z) := by
  induction ys generalizing s with
  | nil => exact ⟨s, [], rfl, (fun o ho => absurd ho (List.not_mem_nil)), fun h => absurd rfl h⟩
  | cons y ys ih =>
    have e1 : run s (steadyOps q.x ((y :: ys).map fun y => (q, y))) = _ := run_sample s q q.x (steadyOps q.x (ys.map fun y => (q, y)))
    rw [show q.withFractions q.x = q from rfl] at e1
    obtain ⟨k1, k2, k3, k4⟩ := h.density hok
    rw [k2] at e1
    generalize (densityP (setPub s q)).1 = s1 at *
    obtain ⟨a, outs, g1, g2, g3⟩ := ih k1
    rw [run_eq] at g1
    obtain ⟨g4, g5⟩ := Prod.mk.inj (Except.ok.inj g1)
    refine ⟨_, _, e1, ?_, fun _ => ?_⟩
    · intro o ho
      rw [g5] at ho
      rcases List.mem_cons.1 ho with h | h
      · exact Or.inl h
      · rcases List.mem_cons.1 h with h | h
        · exact Or.inr h
        · exact g2 o h
    · rw [g4]
      by_cases hn : ys = []
      · subst hn
        rw [show a = s1 from g4.symm]
        exact ⟨k3, k4⟩
      · exact g3 hn

end Detail

/-- C84, natural gases: with an accurate math library a new object evaluates a natural gas `q`. Then samples follow at the same
temperature and pressure whose fractions differ, from each to the next, only by NaN. Every one of them is accepted, and the density
and the compressibility factor of the last are those of the gas `q` on a new object. -/
theorem C84_detail_natural_gas_frozen (hL : LibmAccurate) (hN : LnAccurate) (new0 : Detail Float) (hnew : Detail.new = .ok new0)
    (q : Detail.Pub Float) (fx : ∀ i, IsFinite (aget q.x i)) (hx : Eos.NormalGas fun i => toR (aget q.x i))
    (hx' : ∀ i, toR (aget q.x i) = 0 ∨ 1e-10 ≤ toR (aget q.x i))
    (ht : IsFinite q.t) (t1 : 263 ≤ toR q.t) (t2 : toR q.t ≤ 400) (hp : IsFinite q.p)
    (d1 : 3e-4 ≤ toR q.p / (8.31451 * toR q.t)) (d2 : toR q.p / (8.31451 * toR q.t) ≤ 0.66)
    (fd : IsFinite q.d) (d0 : 0 ≤ toR q.d) (ys : List (Vector Float 21)) (hy : ys ≠ [])
    (hl : Detail.OnlyNanChanges q.x (ys.map fun y => (q, y))) :
    ∃ s' s0 v b outs, (Detail.setPub new0 q).density = .ok (s', .ok ()) ∧ (Detail.setPub new0 q).pressure = .ok (s0, v) ∧
      Detail.run s0 (Detail.givenOps (ys.map fun y => (q, y))) = .ok (b, outs) ∧ Detail.AllOk outs ∧ b.d = s'.d ∧ b.z = s'.z := by
  obtain ⟨s', d, e1, -⟩ := C74_detail_natural_gas_density hL hN new0 hnew q fx hx hx' ht t1 t2 hp d1 d2 fd d0
  clear hnew
  have e2 : Detail.densityP (Detail.setPub new0 q) = (s', .ok ()) := Except.ok.inj ((Detail.density_ok _).symm.trans e1)
  have hn : Detail.LikeNew new0 q (Detail.pressureP (Detail.setPub new0 q)).1 := by
    refine ⟨Detail.params_pressureP _, ?_⟩
    rw [Detail.view_told q (Detail.xold_pressureP _) (Detail.told_pressureP _), Detail.stored_pressureP]
  obtain ⟨a, outs, g1, g2, g3⟩ := hn.steady ys (by rw [e2])
  obtain ⟨b, k1, k2⟩ := C84_detail_nan_freezes_gas (Detail.setPub new0 q) _ _ (Detail.pressure_ok _) _ hl a outs g1 g2
  obtain ⟨k3, k4⟩ := k2 (by simpa using hy)
  obtain ⟨g4, g5⟩ := g3 hy
  rw [e2] at g4 g5
  exact ⟨s', _, _, b, outs, e1, Detail.pressure_ok _, k1, g2, k3.symm.trans g4, k4.symm.trans g5⟩

/-! ## The hypotheses can be met -/

/-- Any failed reading, then any other gas. -/
theorem Detail.nan_then_any (q : Detail.Pub Float) (y : Vector Float 21) :
    Detail.OnlyNanChanges q.x ([fill 21 (0.0 / 0.0), y].map fun y => (q, y)) := by
  have h : (0.0 / 0.0 : Float).isNaN = true := by decide +kernel
  exact ⟨fun i => Or.inl (by rw [aget_fill]; exact h), fun i => Or.inr (Or.inl (by rw [aget_fill]; exact h)), trivial⟩

/-- A natural gas at 300 K and 1 MPa, a failed reading, then pure hydrogen: the density of the natural gas is reported. -/
example (hL : LibmAccurate) (hN : LnAccurate) (new0 : Detail Float) (hnew : Detail.new = .ok new0) :
    ∃ s' s0 v b outs, (Detail.setPub new0 Detail.ng1).density = .ok (s', .ok ()) ∧
      (Detail.setPub new0 Detail.ng1).pressure = .ok (s0, v) ∧
      Detail.run s0 (Detail.givenOps ([fill 21 (0.0 / 0.0), aset (fill 21 0.0) 14 1.0].map fun y => (Detail.ng1, y))) = .ok (b, outs) ∧
      Detail.AllOk outs ∧ b.d = s'.d ∧ b.z = s'.z := by
  obtain ⟨hx, ht, fp, hp, fd, hd⟩ := Detail.ng1_ok
  exact C84_detail_natural_gas_frozen hL hN new0 hnew Detail.ng1 (fun i => (hx i).1)
    Detail.ng1_normal (fun i => Detail.ng1_min i) Detail.errLow_ok.2.1 (by rw [ht]; norm_num) (by rw [ht]; norm_num) fp
    (by rw [ht, hp]; norm_num) (by rw [ht, hp]; norm_num) fd (by rw [hd]) _ (by simp) (Detail.nan_then_any _ _)

end Aga8
