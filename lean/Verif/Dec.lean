/-
Exact decimal numbers: the literals of the Rust source before they are converted to a machine type.
-/
namespace Aga8

/-- The decimal `m * 10^-e`. -/
structure Dec where
  m : Int
  e : Nat
  deriving DecidableEq, Repr

/-- Short constructor used in the generated tables. -/
abbrev dc (m : Int) (e : Nat) : Dec := ⟨m, e⟩

end Aga8
