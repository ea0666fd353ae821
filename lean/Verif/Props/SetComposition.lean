import Verif.Props.MolarMass

/-! # Setting the composition: GERG slots (C07), and normalized compositions are accepted (C05) -/

set_option linter.unusedSectionVars false

namespace Aga8

section any
variable {F : Type} [Add F] [Sub F] [Mul F] [Div F] [Neg F] [FOps F]

/-- C07: an unacceptable composition is rejected with the error of `check` and nothing changes; an acceptable one
changes the field `x` only, clears slot 0 and puts each component in its own slot. -/
theorem C07_gerg_set_composition (s : Gerg F) (c : Composition F) :
    (∃ e, c.check = .error e ∧ s.set_composition c = (s, .error e)) ∨
    (c.check = .ok () ∧ ∃ x : Vector F 22,
      s.set_composition c = ({ s with x := x }, .ok ()) ∧ x[0] = f% 0.0 ∧
      x[1] = c.methane ∧ x[2] = c.nitrogen ∧ x[3] = c.carbon_dioxide ∧ x[4] = c.ethane ∧
      x[5] = c.propane ∧ x[6] = c.isobutane ∧ x[7] = c.n_butane ∧ x[8] = c.isopentane ∧
      x[9] = c.n_pentane ∧ x[10] = c.hexane ∧ x[11] = c.heptane ∧ x[12] = c.octane ∧
      x[13] = c.nonane ∧ x[14] = c.decane ∧ x[15] = c.hydrogen ∧ x[16] = c.oxygen ∧
      x[17] = c.carbon_monoxide ∧ x[18] = c.water ∧ x[19] = c.hydrogen_sulfide ∧
      x[20] = c.helium ∧ x[21] = c.argon) := by
  unfold Gerg.set_composition
  cases h : c.check with
  | error e => exact Or.inl ⟨e, rfl, rfl⟩
  | ok u =>
    refine Or.inr ⟨rfl, _, rfl, ?_⟩
    simp (decide := true) [aset, Vector.getElem_set]

end any

/-- C05: a composition that `normalize` accepted is accepted by `set_composition` of both equations of state. -/
theorem C05_normalized_accepted_by_both (c : Composition ℝ) (h : c.normalize.2 = .ok ())
    (sd : Detail ℝ) (sg : Gerg ℝ) :
    (sd.set_composition c.normalize.1).2 = .ok () ∧ (sg.set_composition c.normalize.1).2 = .ok () := by
  have hc : c.normalize.1.check = .ok () := (C05_normalize_idempotent c h).1
  constructor
  · unfold Detail.set_composition; rw [hc]
  · unfold Gerg.set_composition; rw [hc]

example : (Composition.normalize exPercent).2 = .ok () :=
  (C03_normalize_real _ (by rw [exPercent_sum]; norm_num)).1
example : exWet.check = .ok () := exWet_check

end Aga8
