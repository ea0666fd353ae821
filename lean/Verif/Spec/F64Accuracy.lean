import Mathlib.Analysis.SpecialFunctions.Pow.Real
import Verif.Spec.F64

/-! # An accurate math library

What the rounding-error theorems ask of `exp`, `powf`, `powi` and `ln`. Rust leaves their precision unspecified. Away from overflow
and underflow, the common implementations of `exp` and `pow` are within one unit in the last place (`2^-52` relative), and `powi`,
which multiplies, within four. -/

namespace Aga8.F64

/-- Relative error `2^-52` for `exp` and `powf`, `2^-50` for `powi` with exponent 2 to 5, where the exact result is between
`2^-900` and `2^900` (and the argument of `exp` at most 600 in magnitude); `powi` of zero is zero. -/
structure LibmAccurate [Libm] : Prop where
  exp : ∀ a : Float, IsFinite a → |toR a| ≤ 600 →
    IsFinite (Libm.exp a) ∧ |toR (Libm.exp a) - Real.exp (toR a)| ≤ 1 / 2 ^ 52 * Real.exp (toR a)
  powf : ∀ a y : Float, IsFinite a → IsFinite y → 0 < toR a →
    1 / 2 ^ 900 ≤ toR a ^ toR y → toR a ^ toR y ≤ 2 ^ 900 →
    IsFinite (Libm.powf a y) ∧ |toR (Libm.powf a y) - toR a ^ toR y| ≤ 1 / 2 ^ 52 * toR a ^ toR y
  powi : ∀ (a : Float) (n : ℕ), IsFinite a → 2 ≤ n → n ≤ 5 →
    (toR a = 0 ∨ 1 / 2 ^ 900 ≤ |toR a| ^ n ∧ |toR a| ^ n ≤ 2 ^ 900) →
    IsFinite (Libm.powi a n) ∧ |toR (Libm.powi a n) - toR a ^ n| ≤ 1 / 2 ^ 50 * |toR a| ^ n

/-- Error `2^-52 (1 + |ln a|)` for `ln` of a number between `2^-900` and `2^900`: accuracy relative to the result is not asked
for near `a = 1`. -/
structure LnAccurate [Libm] : Prop where
  ln : ∀ a : Float, IsFinite a → 1 / 2 ^ 900 ≤ toR a → toR a ≤ 2 ^ 900 →
    IsFinite (Libm.ln a) ∧ |toR (Libm.ln a) - Real.log (toR a)| ≤ 1 / 2 ^ 52 * (1 + |Real.log (toR a)|)

end Aga8.F64
