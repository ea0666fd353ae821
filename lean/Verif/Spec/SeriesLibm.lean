import Verif.F64

/-! # A concrete math library

`exp` and `ln` by range reduction and truncated power series, in f64 arithmetic; `powf x y` is `exp (y * ln x)` for positive
`x`; `powi` multiplies. Programs that use this library run inside Lean's kernel. Nothing is claimed about its accuracy (it
agrees with the C library to about ten digits on the arguments that occur); it is one of the libraries the theorems quantify
over, and serves as a witness. -/

namespace Aga8.Series

variable {F : Type} [Add F] [Sub F] [Mul F] [Div F] [FOps F]

/-- Halve until below 1.5; the second component counts. -/
def halve : Nat → F → F → F × F
  | 0, x, k => (x, k)
  | n + 1, x, k => if x <. f% 1.5 then (x, k) else halve n (x * f% 0.5) (k + f% 1.0)

/-- Double until above 0.75. -/
def double : Nat → F → F → F × F
  | 0, x, k => (x, k)
  | n + 1, x, k => if f% 0.75 <. x then (x, k) else double n (x * f% 2.0) (k - f% 1.0)

/-- The polynomial with these coefficients, lowest first. -/
def horner : List F → F → F
  | [], _ => f% 0.0
  | c :: cs, x => c + x * horner cs x

/-- ln x = k ln 2 + 2 artanh((m-1)/(m+1)) where x = 2ᵏ m. -/
def ln (x : F) : F :=
  let a := halve 1100 x (f% 0.0)
  let b := double 1100 a.1 a.2
  let y := (b.1 - f% 1.0) / (b.1 + f% 1.0)
  b.2 * f% 0.6931471805599453 + f% 2.0 * y * horner [f% 1.0, f% 1.0 / f% 3.0, f% 0.2, f% 1.0 / f% 7.0, f% 1.0 / f% 9.0,
    f% 1.0 / f% 11.0, f% 1.0 / f% 13.0, f% 1.0 / f% 15.0, f% 1.0 / f% 17.0, f% 1.0 / f% 19.0, f% 1.0 / f% 21.0] (y * y)

/-- The square of the square of …, `n` times. -/
def square : Nat → F → F
  | 0, x => x
  | n + 1, x => square n (x * x)

/-- exp x = (exp (x / 1024))^1024. -/
def exp (x : F) : F :=
  square 10 (horner [f% 1.0, f% 1.0, f% 1.0 / f% 2.0, f% 1.0 / f% 6.0, f% 1.0 / f% 24.0, f% 1.0 / f% 120.0,
    f% 1.0 / f% 720.0, f% 1.0 / f% 5040.0, f% 1.0 / f% 40320.0, f% 1.0 / f% 362880.0] (x * f% 0.0009765625))

def powf (x y : F) : F := if f% 0.0 <. x then exp (y * ln x) else f% 0.0

def powi (x : F) : Nat → F
  | 0 => f% 1.0
  | n + 1 => x * powi x n

end Aga8.Series

namespace Aga8

/-- A library whose functions return their first argument; the literals and comparisons of `f64` do not depend on it. -/
@[reducible] def noLibm : Libm := ⟨id, id, fun x _ => x, fun x _ => x⟩

@[reducible] def series : Libm :=
  letI := noLibm
  ⟨Series.exp, Series.ln, Series.powf, Series.powi⟩

end Aga8
