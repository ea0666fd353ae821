import Verif.Lemmas.DetailLeak
import Verif.Lemmas.GergLeak
import Verif.Lemmas.DetailPure

/-! # Stale results never leak into later results

C53. Any number system `F`, in particular IEEE double precision: no law of arithmetic is used. -/

set_option linter.unusedSectionVars false

namespace Aga8

open FOps

variable {F : Type} [Add F] [Sub F] [Mul F] [Div F] [Neg F] [FOps F]

attribute [local irreducible] Gerg.newP Gerg.pressureP Gerg.propertiesP Gerg.densityP Detail.densityP Detail.pressureP Detail.propertiesP

/-- C53, DETAIL: two histories on new objects that differ in the values written to result fields only return the same values
and end with the same inputs. From then on `pressure` returns the same value and sets the same `z`, and after `properties`
all public fields are the same. -/
theorem C53_detail_results_never_leak (ops ops' : List (Detail.Op F)) (h : List.Forall₂ Detail.SameUse ops ops') :
    ∃ s s' outs, Detail.runNew ops = .ok (s, outs) ∧ Detail.runNew ops' = .ok (s', outs) ∧
      Detail.SameInputs (Detail.pub s) (Detail.pub s') ∧
      (∃ r r' p, s.pressure = .ok (r, p) ∧ s'.pressure = .ok (r', p) ∧ r.z = r'.z) ∧
      (∃ r r', s.properties = .ok r ∧ s'.properties = .ok r' ∧ Detail.pub r = Detail.pub r') := by
  obtain ⟨tw, ho⟩ := (Detail.Twin.refl (Detail.newP : Detail F)).run h
  have e : ∀ ops : List (Detail.Op F), Detail.runNew ops = .ok (Detail.runP Detail.newP ops) := by
    intro ops
    simp only [Detail.runNew, Detail.new_ok, bind, Except.bind, Detail.run_eq]
  refine ⟨_, _, (Detail.runP Detail.newP ops).2, e ops, ?_, tw.ins, ⟨_, _, _, Detail.pressure_ok _, ?_, tw.z⟩,
    ⟨_, _, Detail.properties_ok _, Detail.properties_ok _, tw.properties_pub⟩⟩
  · rw [e ops', ho]
  · rw [Detail.pressure_ok, tw.pressure.2.1]

/-- C53, GERG. Slot 0 of the fractions, which stands for no component, may differ as well. -/
theorem C53_gerg_results_never_leak (ops ops' : List (Gerg.Op F)) (h : List.Forall₂ Gerg.SameUse ops ops') :
    ∃ s s' outs, Gerg.runNew ops = .ok (s, outs) ∧ Gerg.runNew ops' = .ok (s', outs) ∧
      Gerg.SameInputs (Gerg.pub s) (Gerg.pub s') ∧
      (∃ r r' p, s.pressure = .ok (r, p) ∧ s'.pressure = .ok (r', p) ∧ r.z = r'.z) ∧
      (∃ r r' p, s.properties = .ok (r, p) ∧ s'.properties = .ok (r', p) ∧
        Gerg.pub r = { Gerg.pub r' with x := s.x }) := by
  obtain ⟨tw, ho⟩ := (Gerg.Twin.refl (Gerg.newP : Gerg F)).run h
  have e : ∀ ops : List (Gerg.Op F), Gerg.runNew ops = .ok (Gerg.runP Gerg.newP ops) := fun ops => by
    rw [Gerg.runNew_eq, Gerg.run_eq _ Gerg.newP_idx]
  have hi : ∀ ops : List (Gerg.Op F), Gerg.Idx (Gerg.runP Gerg.newP ops).1 := fun ops =>
    Gerg.Reachable.idx ⟨ops, _, e ops⟩
  refine ⟨_, _, (Gerg.runP Gerg.newP ops).2, e ops, ?_, tw.ins, ⟨_, _, _, Gerg.pressure_ok (hi _), ?_, tw.z⟩,
    ⟨_, _, _, Gerg.properties_ok (hi _), ?_, tw.properties_pub.1⟩⟩
  · rw [e ops', ho]
  · rw [Gerg.pressure_ok (hi _), tw.pressure.2.1]
  · rw [Gerg.properties_ok (hi _), tw.properties_pub.2]

/-- C53, DETAIL: what `density` returns and the density and inputs it leaves do not depend on the density left by earlier
calls, as long as that is not a user estimate (above -1e-15), nor on any other result. -/
theorem C53_detail_density_ignores_old_density (s : Detail F) (q q' : Detail.Pub F) (ht : q.t = q'.t) (hp : q.p = q'.p)
    (hx : q.x = q'.x) (hd : FOps.lt (-(f% 1e-15)) q.d = true) (hd' : FOps.lt (-(f% 1e-15)) q'.d = true) :
    ∃ r r' out, (Detail.setPub s q).density = .ok (r, out) ∧ (Detail.setPub s q').density = .ok (r', out) ∧
      Detail.SameInputs (Detail.pub r) (Detail.pub r') := by
  have key : ∀ d : F, Detail.Twin (Detail.withD (Detail.setPub s q) d) (Detail.withD (Detail.setPub s q') d) := fun d =>
    ⟨⟨ht, hp, rfl, hx⟩, rfl, rfl, rfl, rfl⟩
  have h1 : (if -Detail.EPSILON <. (Detail.setPub s q).d then q.p / Detail.RDETAIL / q.t else abs q.d) = q.p / Detail.RDETAIL / q.t :=
    if_pos hd
  have h2 : (if -Detail.EPSILON <. (Detail.setPub s q').d then q'.p / Detail.RDETAIL / q'.t else abs q'.d)
      = q'.p / Detail.RDETAIL / q'.t := if_pos hd'
  have hres : Detail.Twin (Detail.densityP (Detail.setPub s q)).1 (Detail.densityP (Detail.setPub s q')).1 ∧
      (Detail.densityP (Detail.setPub s q)).2 = (Detail.densityP (Detail.setPub s q')).2 := by
    rw [Detail.densityP_eq, Detail.densityP_eq]
    have e1 : (Detail.setPub s q).p = q.p := rfl
    have e2 : (Detail.setPub s q').p = q'.p := rfl
    have e3 : (Detail.setPub s q).t = q.t := rfl
    have e4 : (Detail.setPub s q').t = q'.t := rfl
    have e5 : (Detail.setPub s q).d = q.d := rfl
    have e6 : (Detail.setPub s q').d = q'.d := rfl
    rw [e1, e2, e3, e4, e5, e6]
    rw [e5] at h1
    rw [e6] at h2
    rw [h1, h2, ← hp, ← ht]
    split
    · exact ⟨key _, rfl⟩
    · obtain ⟨a, b, -⟩ := (key (q.p / Detail.RDETAIL / q.t)).densityLoop (ln q.p) 20 (-ln (q.p / Detail.RDETAIL / q.t))
      exact ⟨a, b⟩
  refine ⟨_, _, _, Detail.density_ok _, ?_, hres.1.ins⟩
  rw [Detail.density_ok, hres.2]

/-- C53, GERG: the same for `density` with any flag on an object with any history. -/
theorem C53_gerg_density_ignores_old_density (s : Gerg F) (hs : Gerg.Reachable s) (iflag : Int) (q q' : Gerg.Pub F)
    (ht : q.t = q'.t) (hp : q.p = q'.p) (hx : ∀ i : Fin 22, 1 ≤ i.1 → aget q.x i = aget q'.x i)
    (hd : FOps.lt (-(f% 1e-15)) q.d = true) (hd' : FOps.lt (-(f% 1e-15)) q'.d = true) :
    ∃ r r' out, (Gerg.setPub s q).density iflag = .ok (r, out) ∧ (Gerg.setPub s q').density iflag = .ok (r', out) ∧
      Gerg.SameInputs (Gerg.pub r) (Gerg.pub r') := by
  have hi : ∀ q : Gerg.Pub F, Gerg.Idx (Gerg.setPub s q) := fun q => Gerg.idx_of_params (s' := s) rfl hs.idx
  have key : ∀ d : F, Gerg.Twin (Gerg.withD (Gerg.setPub s q) d) (Gerg.withD (Gerg.setPub s q') d) := fun d =>
    ⟨⟨ht, hp, rfl, hx⟩, rfl, rfl⟩
  have hps : Gerg.pseudocriticalpoint (Gerg.setPub s q) = Gerg.pseudocriticalpoint (Gerg.setPub s q') := Gerg.Twin.pseudo hx
  have e0 : Gerg.startD iflag (Gerg.setPub s q) = Gerg.startD iflag (Gerg.setPub s q') := by
    unfold Gerg.startD
    have e1 : (Gerg.setPub s q).p = (Gerg.setPub s q').p := hp
    have e3 : (Gerg.setPub s q).t = (Gerg.setPub s q').t := ht
    have h1 : FOps.lt (-(Gerg.EPSILON : F)) (Gerg.setPub s q).d = true := hd
    have h2 : FOps.lt (-(Gerg.EPSILON : F)) (Gerg.setPub s q').d = true := hd'
    rw [hps, e1, e3, if_pos h1, if_pos h2]
  have hres : Gerg.Twin (Gerg.densityP (Gerg.setPub s q) iflag).1 (Gerg.densityP (Gerg.setPub s q') iflag).1 ∧
      (Gerg.densityP (Gerg.setPub s q) iflag).2 = (Gerg.densityP (Gerg.setPub s q') iflag).2 := by
    unfold Gerg.densityP
    have e1 : (Gerg.setPub s q).p = (Gerg.setPub s q').p := hp
    rw [e0, hps, e1]
    exact (key _).densityLoop _ _ _ _ _ _ _ _
  refine ⟨_, _, _, Gerg.density_ok (hi q) iflag, ?_, hres.1.ins⟩
  rw [Gerg.density_ok (hi q') iflag, hres.2]

/-- The hypotheses of the history theorems hold for histories that do differ: writing 1 and 2 to `z`, then calling
`properties`. -/
example (q : Detail.Pub F) : List.Forall₂ Detail.SameUse
    [.write { q with z := f% 1.0 }, .properties] [.write { q with z := f% 2.0 }, .properties] :=
  .cons (.write ⟨rfl, rfl, rfl, rfl⟩) (.cons (.call _) .nil)

example (q : Gerg.Pub F) (c : Composition F) : List.Forall₂ Gerg.SameUse
    [.write { q with z := f% 1.0, x := aset q.x 0 (f% 3.0) }, .setComposition c, .density 2, .properties]
    [.write { q with z := f% 2.0 }, .setComposition c, .density 2, .properties] :=
  .cons (.write ⟨rfl, rfl, rfl, fun i hi => aget_aset_ne _ _ (by rintro rfl; exact absurd hi (by decide))⟩)
    (.cons (.call _) (.cons (.call _) (.cons (.call _) .nil)))

end Aga8
