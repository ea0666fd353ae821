import Verif.Spec.F64

/-! # What is asked of the math library (C48)

Only the domain of the logarithm and the sign of the exponential; no accuracy. -/

namespace Aga8.F64

variable [Libm]

/-- `ln` returns a finite number only for a finite positive argument. IEEE-754: `ln` of NaN and of a negative number is NaN,
`ln(±0) = -∞`, `ln(+∞) = +∞`. -/
def LnDomain : Prop := ∀ a : Float, IsFinite (Libm.ln a) → IsFinite a ∧ 0 < toR a

/-- `exp` neither overflows nor underflows for an argument between -101 and 8. -/
def ExpPositive : Prop := ∀ a : Float, IsFinite a → -101 ≤ toR a → toR a ≤ 8 →
  IsFinite (Libm.exp a) ∧ 0 < toR (Libm.exp a)

end Aga8.F64
