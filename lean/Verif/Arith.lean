import Verif.Dec

/-!
# Arithmetic, arrays, loops and panics

The model is written for an arbitrary number type `F` carrying the operations the Rust code applies
to `f64`. No laws are assumed here: a theorem proved for every `F` holds for IEEE-754 `f64`
with any rounding and any math library.
-/

namespace Aga8

/-- The `f64` operations used by the crate besides `+ - * /` and unary minus
(which come from the ordinary notation classes).
`powi` is only used with exponents 2, 3 and 5 in the crate. -/
class FOps (F : Type) where
  /-- a decimal literal of the source text -/
  ofDec : Dec → F
  /-- `n as f64` for `n : usize` -/
  ofNat : Nat → F
  abs : F → F
  exp : F → F
  ln : F → F
  sqrt : F → F
  powf : F → F → F
  powi : F → Nat → F
  /-- `a < b` (and `b > a`) -/
  lt : F → F → Bool
  /-- `a <= b` -/
  le : F → F → Bool

/-- `f% 0.1` is the decimal literal `0.1` of the Rust text, in the number type. -/
syntax:max "f% " scientific : term
@[inherit_doc Dec] syntax:max "f% " num : term

open Lean in
macro_rules
  | `(f% $s:scientific) => do
    match s.raw.isScientificLit? with
    | some (m, neg, e) =>
      -- value m * 10^(-e) or m * 10^e
      let (m, e) := if neg then (m, e) else (m * 10 ^ e, 0)
      let rec norm (fuel m e : Nat) : Nat × Nat :=
        match fuel with
        | 0 => (m, e)
        | fuel + 1 =>
          if m == 0 then (0, 0) else if e > 0 && m % 10 == 0 then norm fuel (m / 10) (e - 1) else (m, e)
      let (m, e) := norm (e + 1) m e
      `(FOps.ofDec (Dec.mk $(quote m) $(quote e)))
    | none => Macro.throwUnsupported
  | `(f% $n:num) => `(FOps.ofDec (Dec.mk $n 0))

/-- `a <. b`: the `f64` comparison as a `Bool`. -/
infix:50 " <. " => FOps.lt
/-- `a <=. b`: the `f64` comparison as a `Bool`. -/
infix:50 " <=. " => FOps.le

/-! ## Panics -/

/-- The ways the modelled code can panic. -/
inductive Panic where
  | indexOutOfBounds
  | assertFailed
  deriving DecidableEq, Repr

/-- The result of a Rust call that may panic. -/
abbrev Res (α : Type) := Except Panic α

/-! ## Arrays -/

/-- Array read with an index that is statically in range. -/
def aget {α : Type} {n : Nat} (v : Vector α n) (i : Fin n) : α := v[i.1]

/-- Array write with an index that is statically in range. -/
def aset {α : Type} {n : Nat} (v : Vector α n) (i : Fin n) (a : α) : Vector α n := v.set i.1 a

/-- Array read with a run-time index: panics when out of bounds. -/
def idx {α : Type} {n : Nat} (v : Vector α n) (i : Nat) : Res α :=
  if h : i < n then .ok (aget v ⟨i, h⟩) else .error .indexOutOfBounds

/-- Array write with a run-time index: panics when out of bounds. -/
def put {α : Type} {n : Nat} (v : Vector α n) (i : Nat) (a : α) : Res (Vector α n) :=
  if h : i < n then .ok (aset v ⟨i, h⟩ a) else .error .indexOutOfBounds

/-- Read of a doubly indexed array with static indices. -/
def aget2 {α : Type} {n m : Nat} (v : Vector (Vector α m) n) (i : Fin n) (j : Fin m) : α :=
  aget (aget v i) j

/-- Write of a doubly indexed array with static indices. -/
def aset2 {α : Type} {n m : Nat} (v : Vector (Vector α m) n) (i : Fin n) (j : Fin m) (a : α) :
    Vector (Vector α m) n :=
  aset v i (aset (aget v i) j a)

/-- Read of a doubly indexed array with run-time indices. -/
def idx2 {α : Type} {n m : Nat} (v : Vector (Vector α m) n) (i j : Nat) : Res α := do
  idx (← idx v i) j

/-- Write of a doubly indexed array with run-time indices. -/
def put2 {α : Type} {n m : Nat} (v : Vector (Vector α m) n) (i j : Nat) (a : α) :
    Res (Vector (Vector α m) n) := do
  put v i (← put (← idx v i) j a)

/-- An array with all entries equal, `[a; n]`. -/
def fill {α : Type} (n : Nat) (a : α) : Vector α n := Vector.ofFn fun _ => a

/-! ## Loops -/

/-- The index list of `for i in lo..n` over an array of length `n`. -/
def rangeFin (lo n : Nat) : List (Fin n) := (List.finRange n).drop lo

/-- `for i in lo..n { s = body(i, s) }` over an array of length `n`. -/
def loop {σ : Type} (lo n : Nat) (s : σ) (body : Fin n → σ → σ) : σ :=
  (rangeFin lo n).foldl (fun s i => body i s) s

/-- As `loop`, with a body that may panic. -/
def loopM {σ : Type} (lo n : Nat) (s : σ) (body : Fin n → σ → Res σ) : Res σ :=
  (rangeFin lo n).foldlM (fun s i => body i s) s

/-- `for k in lo..hi { s = body(k, s)? }` with run-time bounds. -/
def loopN {σ : Type} (lo hi : Nat) (s : σ) (body : Nat → σ → Res σ) : Res σ :=
  (List.range' lo (hi - lo)).foldlM (fun s k => body k s) s

end Aga8
