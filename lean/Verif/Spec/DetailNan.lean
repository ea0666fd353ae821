import Verif.Spec.DetailApi
import Verif.Spec.Composition
import Verif.Spec.F64

/-! # Vocabulary for histories with NaN inputs (C21) -/

namespace Aga8.Detail

open Aga8.F64

variable [Libm]

/-- The use, if it assigns the temperature, assigns NaN. -/
def NanT : Op Float → Prop
  | .write q => q.t.isNaN = true
  | _ => True

/-- The use, if it assigns the temperature, assigns `T` or NaN. -/
def KeepsT (T : Float) : Op Float → Prop
  | .write q => q.t.isNaN = true ∨ q.t = T
  | _ => True

/-- The use sets the fractions to `x`. -/
def AssignsX (x : Vector Float 21) : Op Float → Prop
  | .write q => q.x = x
  | .setComposition c => c.check = .ok () ∧ ∀ i, c.frac i = aget x i
  | _ => False

/-- The use does not change the fractions: it assigns none, or a composition that is rejected. -/
def LeavesX : Op Float → Prop
  | .write _ => False
  | .setComposition c => c.check ≠ .ok ()
  | _ => True

/-- `x` has NaN wherever `x` or `y` has a component. -/
def NanMask (x y : Vector Float 21) : Prop :=
  ∀ i, (aget x i).isNaN = true ∨ (IsZ (aget x i) ∧ IsZ (aget y i))

/-- The compressibility factor of an ideal gas, or no number at all. -/
def IdealOrNan (z : Float) : Prop := (IsFinite z ∧ toR z = 1) ∨ z.isNaN = true

/-- `exp` of a number that is not positive is a number. -/
def ExpFinite : Prop := ∀ a : Float, IsFinite a → toR a ≤ 0 → IsFinite (Libm.exp a)

/-- `powf` neither overflows nor fails for a base between 1 and 10⁴ and an exponent between -30 and 30. -/
def PowfFinite : Prop := ∀ a b : Float, IsFinite a → IsFinite b → 1 ≤ toR a → toR a ≤ 10000 → |toR b| ≤ 30 →
  IsFinite (Libm.powf a b)

/-- A temperature from 1 K to 10⁴ K. -/
def GoodT (t : Float) : Prop := IsFinite t ∧ 1 ≤ toR t ∧ toR t ≤ 10000

end Aga8.Detail
