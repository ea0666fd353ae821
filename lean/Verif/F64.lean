import Verif.Arith

/-! # The model at IEEE-754 binary64

Lean's `Float` has a logical model (`Float.Model`): `+ - * /`, `sqrt`, `abs`, comparisons and decimal
literals are the correctly rounded IEEE-754 binary64 operations. The transcendental functions are not
specified by IEEE-754 (nor by Rust), so they are arbitrary parameters here. -/

namespace Aga8

/-- An arbitrary implementation of the `f64` functions whose results depend on the platform. -/
class Libm where
  exp : Float → Float
  ln : Float → Float
  powf : Float → Float → Float
  powi : Float → Nat → Float

/-- The `f64` operations, for any math library. -/
instance f64Ops [Libm] : FOps Float where
  ofDec d := if d.m < 0 then -(Float.ofScientific d.m.natAbs true d.e)
    else Float.ofScientific d.m.natAbs true d.e
  ofNat n := Float.ofNat n
  abs := Float.abs
  exp := Libm.exp
  ln := Libm.ln
  sqrt := Float.sqrt
  powf := Libm.powf
  powi := Libm.powi
  lt a b := decide (a < b)
  le a b := decide (a ≤ b)

end Aga8
