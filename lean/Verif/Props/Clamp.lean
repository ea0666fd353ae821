import Verif.Lemmas.DetailEval
import Verif.Lemmas.GergEval

/-! # C36 in any arithmetic: the argument of the square root is never below zero -/

set_option linter.unusedSectionVars false

namespace Aga8

open FOps

variable {F : Type} [Add F] [Sub F] [Mul F] [Div F] [Neg F] [FOps F]

attribute [local irreducible] Gerg.newP Gerg.densityP Gerg.pressureP Gerg.propertiesP Gerg.propsMid

private theorem clamp {w q : F} (h : w = sqrt (if q <. f% 0.0 then f% 0.0 else q)) :
    (FOps.lt q (f% 0.0) = true → w = sqrt (f% 0.0)) ∧ (FOps.lt q (f% 0.0) = false → w = sqrt q) := by
  constructor
  · intro hq; rw [h, if_pos hq]
  · intro hq; rw [h, if_neg (by rw [hq]; exact Bool.false_ne_true)]

/-- C36, any arithmetic: with `q` the square of the speed of sound computed from the returned fields, `w` is the
root of `q` unless `q < 0`, and the root of zero then. -/
theorem C36_detail_clamp (s : Detail F) : ∃ s', s.properties = .ok s' ∧
    ∀ q, q = f% 1000.0 * s'.cp / s'.cv * s'.dp_dd / s'.mm →
      (FOps.lt q (f% 0.0) = true → s'.w = sqrt (f% 0.0)) ∧ (FOps.lt q (f% 0.0) = false → s'.w = sqrt q) := by
  have hm : (Detail.propertiesP s).mm = s.molar_mass.2 := by
    rw [Detail.propertiesP_eq]
    have h1 : ∀ (s : Detail F) mm, (Detail.propsFinish s mm).mm = s.mm := by
      intro s mm
      unfold Detail.propsFinish
      dsimp only
      split <;> dsimp only <;> split <;> rfl
    rw [h1]
    exact congrArg Detail.Pub.mm (Detail.propsMid_pub s)
  refine ⟨_, Detail.properties_ok s, ?_⟩
  rintro q rfl
  rw [hm, Detail.propertiesP_eq]
  have hw := Detail.propsFinish_w (Detail.propsMid s) s.molar_mass.2
  exact clamp hw

/-- C36, any arithmetic, GERG. -/
theorem C36_gerg_clamp (s : Gerg F) (hs : Gerg.Reachable s) : ∃ s' p, s.properties = .ok (s', p) ∧
    ∀ q, q = f% 1000.0 * s'.cp / s'.cv * s'.dp_dd / s'.mm →
      (FOps.lt q (f% 0.0) = true → s'.w = sqrt (f% 0.0)) ∧ (FOps.lt q (f% 0.0) = false → s'.w = sqrt q) := by
  have hm : ∀ r : Gerg F, (Gerg.propsFinish r).1.mm = r.mm := by
    intro r
    unfold Gerg.propsFinish
    dsimp only
    split <;> dsimp only <;> split <;> rfl
  refine ⟨_, _, Gerg.properties_ok hs.idx, ?_⟩
  rw [Gerg.propertiesP_eq]
  rintro q rfl
  rw [hm]
  exact clamp (Gerg.propsFinish_w (Gerg.propsMid s))

/-- Non-vacuity: for any values of the public fields there is a reachable object with them. -/
example (q : Gerg.Pub F) : ∃ s : Gerg F, Gerg.Reachable s ∧ Gerg.pub s = q :=
  ⟨Gerg.freshOf q, Gerg.reachable_fresh q, rfl⟩

end Aga8
