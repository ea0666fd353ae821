import Verif.Spec.DetailHistory
import Verif.Lemmas.DetailView

/-! # Cache coherence of DETAIL objects -/

set_option linter.unusedSectionVars false

namespace Aga8.Detail

open FOps Tab

variable {F : Type} [Add F] [Sub F] [Mul F] [Div F] [Neg F] [FOps F]

theorem xDiff_iff (x y : Vector F 21) : xDiff x y = true ↔ XFar x y := by
  unfold xDiff XFar
  rw [List.any_eq_true]
  simp

@[simp] theorem pub_setPub (s : Detail F) (q : Pub F) : pub (setPub s q) = q := rfl
@[simp] theorem params_setPub (s : Detail F) (q : Pub F) : params (setPub s q) = params s := rfl
@[simp] theorem cache_setPub (s : Detail F) (q : Pub F) : cache (setPub s q) = cache s := rfl

/-! ## The new object -/

theorem withN0i_frame (s : Detail F) (n : Vector (Vector F 7) 21) :
    pub { s with n0i := n } = pub s ∧ cache { s with n0i := n } = cache s ∧
    scratch { s with n0i := n } = scratch s := ⟨rfl, rfl, rfl⟩

theorem setN0i_frame (s : Detail F) : pub (setN0i s) = pub s ∧ cache (setN0i s) = cache s ∧
    scratch (setN0i s) = scratch s := by
  unfold setN0i
  exact withN0i_frame s _

theorem setupPow_frame (s : Detail F) : pub (setupPow s) = pub s ∧ cache (setupPow s) = cache s ∧
    scratch (setupPow s) = scratch s := by
  unfold setupPow
  exact loop_inv (fun s' => pub s' = pub s ∧ cache s' = cache s ∧ scratch s' = scratch s)
    ⟨rfl, rfl, rfl⟩ (fun i s' _ h => h)

theorem setupIJ_frame (i j : Fin 21) (s : Detail F) : pub (setupIJ i j s) = pub s ∧
    cache (setupIJ i j s) = cache s ∧ scratch (setupIJ i j s) = scratch s := by
  unfold setupIJ
  have h : pub (loop 0 18 s (setupB i j)) = pub s ∧ cache (loop 0 18 s (setupB i j)) = cache s ∧
      scratch (loop 0 18 s (setupB i j)) = scratch s :=
    loop_inv (fun s' => pub s' = pub s ∧ cache s' = cache s ∧ scratch s' = scratch s)
      ⟨rfl, rfl, rfl⟩ (fun i s' _ h => h)
  generalize loop 0 18 s (setupB i j) = s1 at h
  exact h

theorem setupIdeal_frame (s : Detail F) : pub (setupIdeal s) = pub s ∧
    cache (setupIdeal s) = cache s ∧ scratch (setupIdeal s) = scratch s := by
  unfold setupIdeal
  exact loop_inv (fun s' => pub s' = pub s ∧ cache s' = cache s ∧ scratch s' = scratch s)
    ⟨rfl, rfl, rfl⟩ (fun i s' _ h => h)

theorem setupP_frame (s : Detail F) : pub (setupP s) = pub s ∧ cache (setupP s) = cache s ∧
    scratch (setupP s) = scratch s := by
  unfold setupP
  have h1 : pub (setN0i (setupPow s)) = pub s ∧ cache (setN0i (setupPow s)) = cache s ∧
      scratch (setN0i (setupPow s)) = scratch s := by
    obtain ⟨a, b, c⟩ := setN0i_frame (setupPow s)
    rw [a, b, c]
    exact setupPow_frame s
  generalize setN0i (setupPow s) = s1 at *
  have h2 : ∀ s : Detail F,
      pub (loop 0 21 s fun i s => loop 0 21 s fun j s => setupIJ i j s) = pub s ∧
      cache (loop 0 21 s fun i s => loop 0 21 s fun j s => setupIJ i j s) = cache s ∧
      scratch (loop 0 21 s fun i s => loop 0 21 s fun j s => setupIJ i j s) = scratch s := by
    intro s
    apply loop_inv (fun s' => pub s' = pub s ∧ cache s' = cache s ∧ scratch s' = scratch s)
      ⟨rfl, rfl, rfl⟩
    intro i s' _ h
    apply loop_inv (fun s' => pub s' = pub s ∧ cache s' = cache s ∧ scratch s' = scratch s) h
    intro j s'' _ h
    obtain ⟨a, b, c⟩ := setupIJ_frame i j s''
    rw [a, b, c]; exact h
  obtain ⟨a', b', c'⟩ := h2 s1
  generalize (loop 0 21 s1 fun i s => loop 0 21 s fun j s => setupIJ i j s) = s2 at *
  obtain ⟨a, b, c⟩ := setupIdeal_frame s2
  rw [a, b, c, a', b', c']
  exact h1

theorem newP_frame : pub (newP : Detail F) = pub default ∧ cache (newP : Detail F) = cache default ∧
    scratch (newP : Detail F) = scratch default := by
  unfold newP
  exact setupP_frame _

/-! ## The invariant -/

/-- The object with another composition and temperature. -/
def withXT (s : Detail F) (x : Vector F 21) (t : F) : Detail F := { s with x := x, t := t }

theorem computed_congr {s s' : Detail F} (hx : s.x = s'.x) (ht : s.t = s'.t)
    (hm : params s = params s') : computed s = computed s' := by
  unfold computed
  rw [xAcc_congr hx hm, ht]
  have : csnRead (csnVec s) = csnRead (csnVec s') := by
    apply arr_ext
    intro n
    unfold csnRead csnVec
    simp only [aget_ofFn]
    rw [csnOf_congr hx hm]
    split <;> rfl
  rw [this]

/-- The cache is that of a new object, or holds the terms of a pair in `last`. -/
def Coherent (last : List (Vector F 21 × F)) (s : Detail F) : Prop :=
  params s = params newP ∧
  ((s.xold = fill 21 (f% 0.0) ∧ s.told = f% 0.0) ∨
    ((s.xold, s.told) ∈ last ∧ stored s = computed (withXT s s.xold s.told)))

theorem view_of_far {s : Detail F} (hx : xDiff s.x s.xold = true) (ht : tDiff s.t s.told = true) :
    view s = computed s := by
  unfold view computed
  simp only [hx, ht, if_true]

theorem view_of_coherent {last : List (Vector F 21 × F)} {s : Detail F} (hc : Coherent last s)
    (hr : Resolved last (pub s)) : view s = computed s := by
  obtain ⟨-, hc⟩ := hc
  obtain ⟨r1, r2, r3⟩ := hr
  rcases hc with ⟨hx, ht⟩ | ⟨hm, hs⟩
  · apply view_of_far
    · rw [xDiff_iff, hx]; exact r1
    · rw [ht]; exact r2
  · obtain ⟨hx, ht⟩ := r3 _ hm
    have e1 : s.k3 = (xAcc (withXT s s.xold s.told)).k3 := congrArg View.k3 hs
    have e2 : s.bs = (xAcc (withXT s s.xold s.told)).bs := congrArg View.bs hs
    have e3 : csnRead s.csn = csnRead (csnVec (withXT s s.xold s.told)) := by
      have := congrArg View.csn hs
      unfold stored computed at this
      exact this
    have e4 : s.tun = tunOf s.told := congrArg View.tun hs
    have hX : view s = { computed s with tun := (view s).tun } := by
      unfold view computed
      cases hd : xDiff s.x s.xold
      · have hx' : s.x = s.xold := by
          rcases hx with h | h
          · exact h
          · have h : xDiff s.x s.xold = true := (xDiff_iff _ _).2 h
            rw [h] at hd; cases hd
        have hcg : computed (withXT s s.xold s.told) = { computed s with tun := tunOf s.told } := by
          have := computed_congr (s := withXT s s.xold s.told) (s' := withXT s s.x s.told)
            hx'.symm rfl rfl
          rw [this]
          have a1 : xAcc (withXT s s.x s.told) = xAcc s := xAcc_congr rfl rfl
          have a2 : csnVec (withXT s s.x s.told) = csnVec s := by
            unfold csnVec; rw [csnOf_congr (s := withXT s s.x s.told) (s' := s) rfl rfl]; rfl
          unfold computed
          rw [a1, a2]; rfl
        have b1 : (xAcc (withXT s s.xold s.told)).k3 = (xAcc s).k3 := congrArg View.k3 hcg
        have b2 : (xAcc (withXT s s.xold s.told)).bs = (xAcc s).bs := congrArg View.bs hcg
        have b3 : csnRead (csnVec (withXT s s.xold s.told)) = csnRead (csnVec s) := by
          have := congrArg View.csn hcg
          unfold computed at this
          exact this
        simp only [Bool.false_eq_true, if_false]
        rw [e1, e2, e3, b1, b2, b3]
      · simp only [if_true]
    have hT : (view s).tun = tunOf s.t := by
      unfold view
      dsimp only
      cases hd : tDiff s.t s.told
      · have ht' : s.t = s.told := by
          rcases ht with h | h
          · exact h
          · have : tDiff s.t s.told = true := h
            rw [this] at hd; cases hd
        simp only [Bool.false_eq_true, if_false]
        rw [e4, ht']
      · simp only [if_true]
    rw [hX, hT]; rfl

/-- The fresh object with the same public fields. -/
def freshOf (q : Pub F) : Detail F := setPub newP q

theorem view_fresh {q : Pub F} (h1 : XFar q.x (fill 21 (f% 0.0))) (h2 : TFar q.t (f% 0.0)) :
    view (freshOf q) = computed (freshOf q) := by
  have hc : cache (newP : Detail F) = cache default := newP_frame.2.1
  have hc' : cache (freshOf q) = cache default := by
    unfold freshOf
    rw [cache_setPub, hc]
  have hx : (freshOf q).xold = fill 21 (f% 0.0) := congrArg Cache.xold hc'
  have ht : (freshOf q).told = f% 0.0 := congrArg Cache.told hc'
  apply view_of_far
  · rw [xDiff_iff, hx]; exact h1
  · rw [ht]; exact h2

theorem same_fresh {last : List (Vector F 21 × F)} {s : Detail F} (hc : Coherent last s)
    (hr : Resolved last (pub s)) : Same s (freshOf (pub s)) := by
  have hp : pub (freshOf (pub s)) = pub s := pub_setPub _ _
  have hm : params (freshOf (pub s)) = params s := by
    unfold freshOf
    rw [params_setPub, hc.1]
  refine ⟨hp.symm, hm.symm, ?_⟩
  rw [view_of_coherent hc hr, view_fresh hr.1 hr.2.1]
  exact computed_congr (pub_xx hp).symm (pub_t hp).symm hm.symm

/-! ## Preservation -/

/-- After an evaluation the cache holds the terms of the current composition and temperature. -/
theorem coherent_after {last : List (Vector F 21 × F)} {s s1 : Detail F} (hc : Coherent last s)
    (hr : Resolved last (pub s)) (hm : params s1 = params s)
    (hxo : s1.xold = s.x) (hto : s1.told = s.t) (hs : stored s1 = view s)
    (last' : List (Vector F 21 × F)) (hl : (s.x, s.t) ∈ last') : Coherent last' s1 := by
  refine ⟨hm.trans hc.1, Or.inr ⟨?_, ?_⟩⟩
  · rw [hxo, hto]; exact hl
  · rw [hs, view_of_coherent hc hr]
    exact computed_congr hxo.symm hto.symm hm.symm

theorem stored_pressureP (s : Detail F) : stored (pressureP s).1 = view s :=
  stored_refresh s (fill 4 (fill 4 (f% 0.0)))

theorem xold_pressureP (s : Detail F) : (pressureP s).1.xold = s.x := eval_xold s 0
theorem told_pressureP (s : Detail F) : (pressureP s).1.told = s.t := eval_told s 0

theorem stored_propertiesP (s : Detail F) : stored (propertiesP s) = view s ∧
    (propertiesP s).xold = s.x ∧ (propertiesP s).told = s.t := by
  have hc : cache (propertiesP s) = cache (alpharP (x_terms (molar_mass s).1) 2) := by
    unfold propertiesP
    rw [cache_propsFinish, cache_alpharP_alpha0]
  have e : view (molar_mass s).1 = view s := view_congr rfl rfl rfl rfl
  refine ⟨?_, ?_, ?_⟩
  · have h := stored_refresh (molar_mass s).1 (fill 4 (fill 4 (f% 0.0)))
    rw [e] at h
    rw [← h]
    have h1 : (propertiesP s).k3 = _ := congrArg Cache.k3 hc
    have h2 : (propertiesP s).bs = _ := congrArg Cache.bs hc
    have h3 : (propertiesP s).csn = _ := congrArg Cache.csn hc
    have h4 : (propertiesP s).tun = _ := congrArg Cache.tun hc
    unfold stored
    rw [h1, h2, h3, h4]
    rfl
  · have h : (propertiesP s).xold = _ := congrArg Cache.xold hc
    rw [h]
    exact eval_xold (molar_mass s).1 2
  · have h : (propertiesP s).told = _ := congrArg Cache.told hc
    rw [h]
    exact eval_told (molar_mass s).1 2

/-- `density` leaves the cache alone or refreshes it. -/
theorem cache_densityLoopP (hself : SelfDiff F) (plog : F) (n : Nat) (vlog : F) (s : Detail F) :
    cache (densityLoopP plog n vlog s).1 = cache s ∨
    ((densityLoopP plog n vlog s).1.xold = s.x ∧ (densityLoopP plog n vlog s).1.told = s.t ∧
      stored (densityLoopP plog n vlog s).1 = view s) := by
  induction n generalizing vlog s with
  | zero => exact Or.inl rfl
  | succ n ih =>
    rw [densityLoopP_succ]
    have h1 : (pressureP (withD s (exp (-vlog)))).1.xold = s.x := xold_pressureP _
    have h2 : (pressureP (withD s (exp (-vlog)))).1.told = s.t := told_pressureP _
    have h3 : stored (pressureP (withD s (exp (-vlog)))).1 = view s := by
      rw [stored_pressureP, view_withD]
    have h4 : view (pressureP (withD s (exp (-vlog)))).1 = view s := by
      rw [view_pressureP hself, view_withD]
    have h5 := pub_pressureP (withD s (exp (-vlog)))
    generalize pressureP (withD s (exp (-vlog))) = r at *
    have h6 : r.1.x = s.x := congrArg Pub.x h5
    have h7 : r.1.t = s.t := congrArg Pub.t h5
    have key : ∀ s' : Detail F, (cache s' = cache r.1 ∨
        (s'.xold = r.1.x ∧ s'.told = r.1.t ∧ stored s' = view r.1)) →
        (cache s' = cache s ∨ (s'.xold = s.x ∧ s'.told = s.t ∧ stored s' = view s)) := by
      intro s' h
      right
      rcases h with h | ⟨a, b, c⟩
      · have g1 : s'.xold = r.1.xold := congrArg Cache.xold h
        have g2 : s'.told = r.1.told := congrArg Cache.told h
        have g3 : s'.k3 = r.1.k3 := congrArg Cache.k3 h
        have g4 : s'.bs = r.1.bs := congrArg Cache.bs h
        have g5 : s'.csn = r.1.csn := congrArg Cache.csn h
        have g6 : s'.tun = r.1.tun := congrArg Cache.tun h
        refine ⟨g1.trans h1, g2.trans h2, ?_⟩
        rw [← h3]
        unfold stored
        rw [g3, g4, g5, g6]
      · exact ⟨a.trans h6, b.trans h7, c.trans h4⟩
    split
    · exact Or.inl rfl
    · dsimp only
      split
      · exact key _ (ih _ _)
      · split
        · exact key _ (Or.inl rfl)
        · exact key _ (ih _ _)

theorem cache_densityP (hself : SelfDiff F) (s : Detail F) :
    cache (densityP s).1 = cache s ∨
    ((densityP s).1.xold = s.x ∧ (densityP s).1.told = s.t ∧ stored (densityP s).1 = view s) := by
  rw [densityP_eq]
  split
  · exact Or.inl rfl
  · dsimp only
    rcases cache_densityLoopP hself (ln s.p) 20 (-ln (if -EPSILON <. s.d then s.p / RDETAIL / s.t else abs s.d))
      (withD s (if -EPSILON <. s.d then s.p / RDETAIL / s.t else abs s.d)) with h | ⟨a, b, c⟩
    · exact Or.inl h
    · exact Or.inr ⟨a, b, by rw [c, view_withD]⟩

theorem coherent_cache {last last' : List (Vector F 21 × F)} {s s1 : Detail F}
    (hc : Coherent last s) (hm : params s1 = params s) (hk : cache s1 = cache s)
    (hl : ∀ e ∈ last, e ∈ last') : Coherent last' s1 := by
  obtain ⟨h1, h2⟩ := hc
  have g1 : s1.xold = s.xold := congrArg Cache.xold hk
  have g2 : s1.told = s.told := congrArg Cache.told hk
  have g3 : s1.k3 = s.k3 := congrArg Cache.k3 hk
  have g4 : s1.bs = s.bs := congrArg Cache.bs hk
  have g5 : s1.csn = s.csn := congrArg Cache.csn hk
  have g6 : s1.tun = s.tun := congrArg Cache.tun hk
  refine ⟨hm.trans h1, ?_⟩
  rcases h2 with ⟨a, b⟩ | ⟨a, b⟩
  · exact Or.inl ⟨g1.trans a, g2.trans b⟩
  · refine Or.inr ⟨?_, ?_⟩
    · rw [g1, g2]; exact hl _ a
    · have e : stored s1 = stored s := by unfold stored; rw [g3, g4, g5, g6]
      rw [e, b]
      exact computed_congr g1.symm g2.symm hm.symm

/-- Pure form of `step`. -/
def stepP (s : Detail F) : Op F → Detail F × Out F
  | .write q => (setPub s q, .unit)
  | .setComposition c => ((set_composition s c).1, .comp (set_composition s c).2)
  | .molarMass => ((molar_mass s).1, .num (molar_mass s).2)
  | .pressure => ((pressureP s).1, .num (pressureP s).2)
  | .density => ((densityP s).1, .dens (densityP s).2)
  | .properties => (propertiesP s, .unit)

theorem step_ok (s : Detail F) (op : Op F) : step s op = .ok (stepP s op) := by
  cases op <;> simp only [step, stepP, pressure_ok, density_ok, properties_ok, bind, Except.bind,
    pure, Except.pure]

/-- The array written by an accepted `set_composition`. -/
def compX (x : Vector F 21) (comp : Composition F) : Vector F 21 :=
  let x := aset x 0 comp.methane
  let x := aset x 1 comp.nitrogen
  let x := aset x 2 comp.carbon_dioxide
  let x := aset x 3 comp.ethane
  let x := aset x 4 comp.propane
  let x := aset x 5 comp.isobutane
  let x := aset x 6 comp.n_butane
  let x := aset x 7 comp.isopentane
  let x := aset x 8 comp.n_pentane
  let x := aset x 9 comp.hexane
  let x := aset x 10 comp.heptane
  let x := aset x 11 comp.octane
  let x := aset x 12 comp.nonane
  let x := aset x 13 comp.decane
  let x := aset x 14 comp.hydrogen
  let x := aset x 15 comp.oxygen
  let x := aset x 16 comp.carbon_monoxide
  let x := aset x 17 comp.water
  let x := aset x 18 comp.hydrogen_sulfide
  let x := aset x 19 comp.helium
  aset x 20 comp.argon

/-- The object with another composition array. -/
def withX (s : Detail F) (x : Vector F 21) : Detail F := { s with x := x }

@[simp] theorem params_withX (s : Detail F) (x : Vector F 21) : params (withX s x) = params s := rfl
@[simp] theorem cache_withX (s : Detail F) (x : Vector F 21) : cache (withX s x) = cache s := rfl
@[simp] theorem pub_withX (s : Detail F) (x : Vector F 21) :
    pub (withX s x) = { pub s with x := x } := rfl

theorem set_composition_eq (s : Detail F) (c : Composition F) : set_composition s c =
    match c.check with
    | .error e => (s, .error e)
    | .ok _ => (withX s (compX s.x c), .ok ()) := rfl

theorem set_composition_frame (s : Detail F) (c : Composition F) :
    params (set_composition s c).1 = params s ∧ cache (set_composition s c).1 = cache s := by
  rw [set_composition_eq]
  split
  · exact ⟨rfl, rfl⟩
  · exact ⟨params_withX _ _, cache_withX _ _⟩

theorem set_composition_pub {s s' : Detail F} (h : pub s = pub s') (c : Composition F) :
    pub (set_composition s c).1 = pub (set_composition s' c).1 ∧
    (set_composition s c).2 = (set_composition s' c).2 := by
  rw [set_composition_eq, set_composition_eq, pub_xx h]
  split
  · exact ⟨h, rfl⟩
  · refine ⟨?_, rfl⟩
    rw [pub_withX, pub_withX, h]

theorem params_stepP (s : Detail F) (op : Op F) : params (stepP s op).1 = params s := by
  cases op with
  | write q => rfl
  | setComposition c => exact (set_composition_frame s c).1
  | molarMass => rfl
  | pressure => exact params_pressureP s
  | density => exact params_densityP s
  | properties => exact params_propertiesP s

theorem molar_mass_pub {s s' : Detail F} (h : pub s = pub s') :
    pub (molar_mass s).1 = pub (molar_mass s').1 ∧ (molar_mass s).2 = (molar_mass s').2 := by
  have e : (molar_mass s).2 = (molar_mass s').2 := by unfold molar_mass; rw [pub_xx h]
  refine ⟨?_, e⟩
  show ({ pub s with mm := (molar_mass s).2 } : Pub F) = { pub s' with mm := (molar_mass s').2 }
  rw [e, h]

/-- One step: same observable result as on a fresh object, and the invariant is kept. -/
theorem step_sim (hself : SelfDiff F) {last : List (Vector F 21 × F)} {s : Detail F} (op : Op F)
    (hc : Coherent last s) (hr : op.evaluates → Resolved last (pub s)) :
    pub (stepP s op).1 = pub (stepP (freshOf (pub s)) op).1 ∧
    (stepP s op).2 = (stepP (freshOf (pub s)) op).2 ∧
    Coherent (lastAfter last (pub s) op) (stepP s op).1 := by
  have hp : pub s = pub (freshOf (pub s)) := (pub_setPub _ _).symm
  cases op with
  | write q =>
    dsimp only [stepP, lastAfter]
    exact ⟨by rw [pub_setPub, pub_setPub], rfl,
      coherent_cache hc (params_setPub s q) (cache_setPub s q) (fun e h => h)⟩
  | setComposition c =>
    dsimp only [stepP, lastAfter]
    obtain ⟨a, b⟩ := set_composition_pub hp c
    obtain ⟨g1, g2⟩ := set_composition_frame s c
    refine ⟨a, ?_, coherent_cache hc g1 g2 (fun e h => h)⟩
    rw [b]
  | molarMass =>
    dsimp only [stepP, lastAfter]
    obtain ⟨a, b⟩ := molar_mass_pub hp
    refine ⟨a, ?_, coherent_cache hc rfl rfl (fun e h => h)⟩
    rw [b]
  | pressure =>
    dsimp only [stepP, lastAfter]
    have hr := hr trivial
    obtain ⟨a, b, -⟩ := (same_fresh hc hr).pressure hself
    refine ⟨a.pub, ?_, ?_⟩
    · rw [b]
    · exact coherent_after hc hr (params_pressureP s) (xold_pressureP s) (told_pressureP s)
        (stored_pressureP s) _ (List.mem_singleton.2 rfl)
  | density =>
    dsimp only [stepP, lastAfter]
    have hr := hr trivial
    obtain ⟨a, b⟩ := (same_fresh hc hr).density hself
    refine ⟨a.pub, ?_, ?_⟩
    · rw [b]
    · rcases cache_densityP hself s with h | ⟨h1, h2, h3⟩
      · exact coherent_cache hc (params_densityP s) h (fun e h => List.mem_cons_of_mem _ h)
      · exact coherent_after hc hr (params_densityP s) h1 h2 h3 _ List.mem_cons_self
  | properties =>
    dsimp only [stepP, lastAfter]
    have hr := hr trivial
    have a := (same_fresh hc hr).properties hself
    obtain ⟨h3, h1, h2⟩ := stored_propertiesP s
    exact ⟨a.pub, rfl, coherent_after hc hr (params_propertiesP s) h1 h2 h3 _
      (List.mem_singleton.2 rfl)⟩

theorem freshStep_ok (q : Pub F) (op : Op F) :
    freshStep q op = .ok (pub (stepP (freshOf q) op).1, (stepP (freshOf q) op).2) := by
  unfold freshStep
  simp only [new_ok, step_ok, bind, Except.bind, pure, Except.pure]
  rfl

theorem run_sim (hself : SelfDiff F) (ops : List (Op F)) {last : List (Vector F 21 × F)}
    {s : Detail F} (hc : Coherent last s) (hr : HistOK last (pub s) ops) :
    ∃ s' outs, run s ops = .ok (s', outs) ∧ freshRun (pub s) ops = .ok (pub s', outs) := by
  induction ops generalizing last s with
  | nil => exact ⟨s, [], rfl, rfl⟩
  | cons op ops ih =>
    obtain ⟨h1, h2, h3⟩ := step_sim hself op hc hr.1
    have hr2 := hr.2 _ (freshStep_ok _ _)
    dsimp only at hr2
    rw [← h1] at hr2
    obtain ⟨s', outs, e1, e2⟩ := ih h3 hr2
    refine ⟨s', (stepP s op).2 :: outs, ?_, ?_⟩
    · simp only [run, step_ok, bind, Except.bind, e1, pure, Except.pure]
    · simp only [freshRun, freshStep_ok, bind, Except.bind, ← h1, e2, pure, Except.pure, ← h2]

theorem coherent_new : Coherent [] (newP : Detail F) := by
  have hc : cache (newP : Detail F) = cache default := newP_frame.2.1
  exact ⟨rfl, Or.inl ⟨congrArg Cache.xold hc, congrArg Cache.told hc⟩⟩

end Aga8.Detail
