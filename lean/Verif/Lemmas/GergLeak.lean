import Verif.Lemmas.GergDrift
import Verif.Spec.Leak

/-! # Stale results do not influence later results of a GERG object -/

set_option linter.unusedSectionVars false

namespace Aga8.Gerg

open FOps Tab

variable {F : Type} [Add F] [Sub F] [Mul F] [Div F] [Neg F] [FOps F]

theorem xDiff_congr {x y : Vector F 22} (h : XSame x y) (z : Vector F 22) : xDiff x z = xDiff y z := by
  rw [Bool.eq_iff_iff, xDiff_iff, xDiff_iff]
  constructor <;> rintro ⟨i, hi, h2⟩ <;> refine ⟨i, hi, ?_⟩
  · rw [← h i hi]; exact h2
  · rw [h i hi]; exact h2

theorem xSave_congr {x y : Vector F 22} (h : XSame x y) (z : Vector F 22) : xSave x z = xSave y z := by
  apply arr_ext
  intro i
  unfold xSave
  rw [aget_ofFn, aget_ofFn]
  by_cases hi : 1 ≤ i.1
  · rw [if_pos hi, if_pos hi, h i hi]
  · rw [if_neg hi, if_neg hi]

theorem taupP_congr {s s' : Gerg F} (h : XSame s.x s'.x) (h1 : s.toik = s'.toik) (h2 : s.taup = s'.taup) (l : F) :
    taupP s l = taupP s' l := by
  have e : ttPropane s l = ttPropane s' l := by unfold ttPropane; rw [h1]
  unfold taupP
  rw [h2, e]
  apply loop_congr
  intro i v hi
  unfold ttPureP
  rw [h i hi, h1]

theorem taupijkP_congr {s s' : Gerg F} (h : XSame s.x s'.x) (h1 : s.nijk = s'.nijk) (h3 : s.tijk = s'.tijk)
    (h2 : s.taupijk = s'.taupijk) (l : F) : taupijkP s l = taupijkP s' l := by
  unfold taupijkP
  rw [h2]
  apply loop_congr
  intro i v hi
  rw [h i hi]
  split
  · apply loop_congr
    intro j w hj
    unfold ttPairP
    rw [h j (Nat.le_trans hi (Nat.le_of_succ_le hj)), h1, h3]
  · rfl

attribute [local irreducible] maskP maskIJ taupP taupijkP redX xDiff xSave

theorem refreshC_congr {x y : Vector F 22} (h : XSame x y) (t : F) (m : Params F) (c : Cache F) :
    refreshC x t m c = refreshC y t m c := by
  have e1 : drOf x m.bvij = drOf y m.bvij := by unfold drOf; rw [redX_congr h]
  have e2 : trOf x m.bvij = trOf y m.bvij := by unfold trOf; rw [redX_congr h]
  have e3 : ∀ l, taupP (bareT x m c.taup c.taupijk) l = taupP (bareT y m c.taup c.taupijk) l :=
    fun l => taupP_congr (s := bareT x m c.taup c.taupijk) (s' := bareT y m c.taup c.taupijk) h rfl rfl l
  have e4 : ∀ l, taupijkP (bareT x m c.taup c.taupijk) l = taupijkP (bareT y m c.taup c.taupijk) l :=
    fun l => taupijkP_congr (s := bareT x m c.taup c.taupijk) (s' := bareT y m c.taup c.taupijk) h rfl rfl rfl l
  rw [refreshC_eq, refreshC_eq, xDiff_congr h, xSave_congr h, e1, e2]
  unfold refreshT
  rw [e3, e3, e4, e4]

/-- Objects that agree in everything a calculation reads. -/
structure Twin (s s' : Gerg F) : Prop where
  ins : SameInputs (pub s) (pub s')
  params : params s = params s'
  cache : cache s = cache s'

theorem Twin.refl (s : Gerg F) : Twin s s := ⟨⟨rfl, rfl, rfl, fun _ _ => rfl⟩, rfl, rfl⟩

/-- `propsFinish` does not look at the composition. -/
theorem propsFinish_withX (s : Gerg F) (x : Vector F 22) :
    pub (propsFinish (withX s x)).1 = { pub (propsFinish s).1 with x := x } ∧
    (propsFinish (withX s x)).2 = (propsFinish s).2 := by
  unfold propsFinish withX
  dsimp only
  split <;> dsimp only <;> split <;> exact ⟨rfl, rfl⟩

namespace Twin

variable {s s' : Gerg F}

theorem t (h : Twin s s') : s.t = s'.t := h.ins.t
theorem p (h : Twin s s') : s.p = s'.p := h.ins.p
theorem d (h : Twin s s') : s.d = s'.d := h.ins.d
theorem x (h : Twin s s') : XSame s.x s'.x := h.ins.x

theorem refreshed (h : Twin s s') : refreshC s.x s.t (Gerg.params s) (Gerg.cache s)
    = refreshC s'.x s'.t (Gerg.params s') (Gerg.cache s') := by
  rw [refreshC_congr h.x, h.t, h.params, h.cache]

theorem view (h : Twin s s') : view s = view s' := by
  unfold Gerg.view
  rw [h.refreshed, readV_pos h.x.pos]

theorem ar (h : Twin s s') (i : Int) : (alpharP s i).ar = (alpharP s' i).ar :=
  ar_eval_congr h.x.pos h.params h.view h.d h.t i

theorem setD (h : Twin s s') (d : F) : Twin (withD s d) (withD s' d) :=
  ⟨⟨h.ins.t, h.ins.p, rfl, h.ins.x⟩, h.params, h.cache⟩

theorem z (h : Twin s s') : (pressureP s).1.z = (pressureP s').1.z := by
  rw [pressureP_z, pressureP_z, h.ar]

theorem pressure (h : Twin s s') : Twin (pressureP s).1 (pressureP s').1 ∧ (pressureP s).2 = (pressureP s').2 ∧
    (pressureP s).1.dpddsave = (pressureP s').1.dpddsave := by
  refine ⟨⟨?_, ?_, ?_⟩, ?_, ?_⟩
  · rw [pub_pressureP, pub_pressureP]; exact ⟨h.ins.t, h.ins.p, h.ins.d, h.ins.x⟩
  · rw [params_pressureP, params_pressureP, h.params]
  · rw [cache_pressureP, cache_pressureP, h.refreshed]
  · rw [pressureP_snd, pressureP_snd, h.z, h.t, h.d]
  · rw [pressureP_save, pressureP_save, h.ar, h.t]

theorem mm (h : Twin s s') : (molar_mass s).mm = (molar_mass s').mm := by
  unfold molar_mass
  dsimp only
  apply loop_congr
  intro i a hi
  rw [h.x i hi]

theorem molarMass (h : Twin s s') : Twin (molar_mass s) (molar_mass s') :=
  ⟨⟨h.ins.t, h.ins.p, h.ins.d, h.ins.x⟩, h.params, h.cache⟩

theorem properties_pub (h : Twin s s') :
    pub (propertiesP s).1 = { pub (propertiesP s').1 with x := s.x } ∧ (propertiesP s).2 = (propertiesP s').2 := by
  have e := pub_propsMid s
  have e' := pub_propsMid s'
  obtain ⟨h1, h2⟩ := propsFinish_withX (propsMid s') s.x
  rw [propertiesP_eq, propertiesP_eq, ← h1, ← h2]
  apply propsFinish_eos
  · exact (congrArg Pub.t e).trans (h.t.trans (congrArg Pub.t e').symm)
  · exact (congrArg Pub.d e).trans (h.d.trans (congrArg Pub.d e').symm)
  · exact (congrArg Pub.p e).trans (h.p.trans (congrArg Pub.p e').symm)
  · exact congrArg Pub.x e
  · exact (congrArg Pub.mm e).trans (h.mm.trans (congrArg Pub.mm e').symm)
  · show (propsMid s).a0 = (propsMid s').a0
    rw [propsMid_a0, propsMid_a0]; exact alpha0_congr h.x.pos h.params h.d h.t
  · show (propsMid s).ar = (propsMid s').ar
    rw [propsMid_ar, propsMid_ar, h.ar]

theorem properties (h : Twin s s') :
    Twin (propertiesP s).1 (propertiesP s').1 ∧ (propertiesP s).2 = (propertiesP s').2 := by
  refine ⟨⟨⟨?_, ?_, ?_, ?_⟩, ?_, ?_⟩, h.properties_pub.2⟩
  · show (propertiesP s).1.t = (propertiesP s').1.t
    rw [propertiesP_t, propertiesP_t, h.t]
  · show (propertiesP s).1.p = (propertiesP s').1.p
    rw [propertiesP_p, propertiesP_p, h.p]
  · show (propertiesP s).1.d = (propertiesP s').1.d
    rw [propertiesP_d, propertiesP_d, h.d]
  · show XSame (propertiesP s).1.x (propertiesP s').1.x
    rw [propertiesP_x, propertiesP_x]; exact h.x
  · rw [params_propertiesP, params_propertiesP, h.params]
  · rw [cache_propertiesP, cache_propertiesP, h.refreshed]

theorem gaveUp (h : Twin s s') : Twin (giveUp s).1 (giveUp s').1 ∧ (giveUp s).2 = (giveUp s').2 := by
  unfold giveUp
  rw [h.p, h.t]
  exact ⟨h.setD _, rfl⟩

theorem converge (iflag : Int) (h : Twin s s') :
    Twin (converged iflag s).1 (converged iflag s').1 ∧ (converged iflag s).2 = (converged iflag s').2 := by
  unfold converged
  split
  · obtain ⟨a, b⟩ := h.properties
    have e : twoPhase (propertiesP s) = twoPhase (propertiesP s') := by
      unfold twoPhase
      have q := h.properties_pub.1
      have q1 : (propertiesP s).1.dp_dd = (propertiesP s').1.dp_dd := congrArg Pub.dp_dd q
      have q2 : (propertiesP s).1.d2p_dtd = (propertiesP s').1.d2p_dtd := congrArg Pub.d2p_dtd q
      have q3 : (propertiesP s).1.cv = (propertiesP s').1.cv := congrArg Pub.cv q
      have q4 : (propertiesP s).1.cp = (propertiesP s').1.cp := congrArg Pub.cp q
      have q5 : (propertiesP s).1.w = (propertiesP s').1.w := congrArg Pub.w q
      rw [b, q1, q2, q3, q4, q5]
    rw [e]
    split
    · exact a.gaveUp
    · exact ⟨a, rfl⟩
  · exact ⟨h, rfl⟩

theorem densityLoop (iflag : Int) (dcx plog : F) (n it : Nat) (nfail ifail : Int) (vlog : F) {s s' : Gerg F}
    (h : Twin s s') :
    Twin (densityLoopP iflag dcx plog n it nfail ifail vlog s).1 (densityLoopP iflag dcx plog n it nfail ifail vlog s').1 ∧
    (densityLoopP iflag dcx plog n it nfail ifail vlog s).2
      = (densityLoopP iflag dcx plog n it nfail ifail vlog s').2 := by
  induction n generalizing it nfail ifail vlog s s' with
  | zero => exact h.gaveUp
  | succ n ih =>
    have e : vlogAt dcx it nfail ifail vlog s = vlogAt dcx it nfail ifail vlog s' := by
      unfold vlogAt; rw [h.d]
    have tw := (h.setD (exp (-vlogAt dcx it nfail ifail vlog s))).pressure
    have er : pressureP (withD s (exp (-vlogAt dcx it nfail ifail vlog s))) = trial dcx it nfail ifail vlog s := rfl
    have er' : pressureP (withD s' (exp (-vlogAt dcx it nfail ifail vlog s))) = trial dcx it nfail ifail vlog s' := by
      rw [e]; rfl
    rw [er, er'] at tw
    rw [densityLoopP_succ, densityLoopP_succ]
    generalize trial dcx it nfail ifail vlog s = r at *
    generalize trial dcx it nfail ifail vlog s' = r' at *
    obtain ⟨t1, t2, t3⟩ := tw
    have hn : newton plog r = newton plog r' := by
      unfold newton; rw [t2, t3, t1.d]
    dsimp only
    rw [t2, t3, hn, t1.d, e]
    split
    · exact h.gaveUp
    · split
      · exact ih _ _ _ _ t1
      · split
        · split
          · exact ih _ _ _ _ t1
          · exact (t1.setD _).converge iflag
        · exact ih _ _ _ _ t1

theorem pseudo (h : XSame s.x s'.x) : pseudocriticalpoint s = pseudocriticalpoint s' := by
  unfold pseudocriticalpoint
  have e : (loop 1 22 (f% 0.0, f% 0.0) fun i (a : F × F) => (a.1 + aget s.x i * tab TC i, a.2 + aget s.x i / tab DC i))
      = loop 1 22 (f% 0.0, f% 0.0) fun i (a : F × F) => (a.1 + aget s'.x i * tab TC i, a.2 + aget s'.x i / tab DC i) := by
    apply loop_congr
    intro i a hi
    rw [h i hi]
  rw [e]

theorem density (iflag : Int) (h : Twin s s') :
    Twin (densityP s iflag).1 (densityP s' iflag).1 ∧ (densityP s iflag).2 = (densityP s' iflag).2 := by
  have e : startD iflag s = startD iflag s' := by
    unfold startD; rw [pseudo h.x, h.d, h.p, h.t]
  unfold densityP
  rw [e, pseudo h.x, h.p]
  exact (h.setD _).densityLoop _ _ _ _ _ _ _ _

theorem setX (h : Twin s s') {x x' : Vector F 22} (hx : XSame x x') : Twin (withX s x) (withX s' x') :=
  ⟨⟨h.ins.t, h.ins.p, h.ins.d, hx⟩, h.params, h.cache⟩

theorem aset_same {x x' : Vector F 22} (h : XSame x x') (k : Fin 22) (a : F) : XSame (aset x k a) (aset x' k a) := by
  intro i hi
  rw [aget_aset, aget_aset]
  split
  · rfl
  · exact h i hi

theorem compX_same {x x' : Vector F 22} (h : XSame x x') (c : Composition F) : XSame (compX x c) (compX x' c) := by
  unfold compX
  dsimp only
  iterate 22 refine aset_same ?_ _ _
  exact h

theorem setComposition (h : Twin s s') (c : Composition F) :
    Twin (set_composition s c).1 (set_composition s' c).1 ∧ (set_composition s c).2 = (set_composition s' c).2 := by
  rw [set_composition_eq, set_composition_eq]
  split
  · exact ⟨h, rfl⟩
  · exact ⟨h.setX (compX_same h.x c), rfl⟩

theorem write (h : Twin s s') {q q' : Pub F} (hq : SameInputs q q') : Twin (setPub s q) (setPub s' q') :=
  ⟨hq, h.params, h.cache⟩

theorem step (h : Twin s s') {op op' : Op F} (ho : SameUse op op') :
    Twin (stepP s op).1 (stepP s' op').1 ∧ (stepP s op).2 = (stepP s' op').2 := by
  cases ho with
  | write hq => exact ⟨h.write hq, rfl⟩
  | call op =>
    cases op with
    | write q => exact ⟨h.write ⟨rfl, rfl, rfl, fun _ _ => rfl⟩, rfl⟩
    | setComposition c => exact ⟨(h.setComposition c).1, congrArg Out.comp (h.setComposition c).2⟩
    | molarMass => exact ⟨h.molarMass, rfl⟩
    | pressure => exact ⟨h.pressure.1, congrArg Out.num h.pressure.2.1⟩
    | density iflag => exact ⟨(h.density iflag).1, congrArg Out.dens (h.density iflag).2⟩
    | properties => exact ⟨h.properties.1, congrArg Out.num h.properties.2⟩

theorem run {ops ops' : List (Op F)} (ho : List.Forall₂ SameUse ops ops') {s s' : Gerg F} (h : Twin s s') :
    Twin (runP s ops).1 (runP s' ops').1 ∧ (runP s ops).2 = (runP s' ops').2 := by
  induction ho generalizing s s' with
  | nil => exact ⟨h, rfl⟩
  | cons h1 _ ih =>
    obtain ⟨h2, h3⟩ := h.step h1
    obtain ⟨h4, h5⟩ := ih h2
    exact ⟨h4, congrArg₂ List.cons h3 h5⟩

end Twin

end Aga8.Gerg
