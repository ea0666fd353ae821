import Verif.Spec.F64
import Verif.Arith

/-! # Specification for the order of the heat capacities (C83) -/

namespace Aga8.F64

/-- What is asked of `powi`: a square is not negative. -/
def SquareNonneg [Libm] : Prop := ∀ a : Float, 0 ≤ toR (Libm.powi a 2)

end Aga8.F64
