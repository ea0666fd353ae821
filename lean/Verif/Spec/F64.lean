import Verif.F64
import Mathlib.Data.Real.Basic

/-! # Vocabulary for properties in IEEE-754 arithmetic

The real number an `f64` stands for. -/

namespace Aga8.F64

open Float.Model Float.Model.UnpackedFloat

/-- The decoded form of an `f64`: NaN, signed infinity, signed zero, or sign, mantissa and exponent. -/
def up (a : Float) : UnpackedFloat := a.toModel.unpack

/-- The sign as a factor. -/
def sg : Sign → ℝ
  | .negative => -1
  | .positive => 1

/-- The real value of a decoded number (0 for NaN and infinities). -/
noncomputable def val : UnpackedFloat → ℝ
  | .finite s m e _ => sg s * (m * (2 : ℝ) ^ e)
  | _ => 0

/-- The real value of an `f64` (0 for NaN and infinities). -/
noncomputable def toR (a : Float) : ℝ := val (up a)

/-- A decoded number is neither infinite nor NaN. -/
def IsFin : UnpackedFloat → Prop
  | .finite .. => True
  | .zero _ => True
  | _ => False

/-- An `f64` is neither infinite nor NaN. -/
def IsFinite (a : Float) : Prop := IsFin (up a)

/-- `±0`. -/
def IsZ (a : Float) : Prop := ∃ s, up a = .zero s

end Aga8.F64
