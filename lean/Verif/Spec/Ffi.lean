import Verif.Ffi

/-! # Vocabulary for properties of the C interface (C38)

A program using the C interface is a list of calls. The specification says what one handle would see if it were a
Rust object of its own, receiving the corresponding method calls. -/

namespace Aga8.Ffi

open FOps

variable {F : Type} [Add F] [Sub F] [Mul F] [Div F] [Neg F] [FOps F]

/-- A use of a handle, other than `new` and `free`. -/
inductive Use (F : Type) where
  | setComposition (c : Composition F)
  | setPressure (v : F)
  | getPressure
  | setTemperature (v : F)
  | getTemperature
  | setDensity (v : F)
  | getDensity
  | getProperties
  | calculatePressure
  | calculateMolarMass
  | calculateDensity
  | calculateProperties

/-- A call of the C interface. For `new`, the address chosen by the allocator. -/
inductive Call (F : Type) where
  | aga8New (a : Nat)
  | aga8Free (p : Nat)
  | aga8 (p : Nat) (u : Use F)
  | gergNew (a : Nat)
  | gergFree (p : Nat)
  | gerg (p : Nat) (u : Use F)

/-- What a call gives back: its return value or the value written through the error pointer. -/
inductive Ret (F : Type) where
  | unit
  | ptr (p : Nat)
  | num (v : F)
  | comp (e : CompositionError)
  | dens (e : DensityError)
  | props (x : Properties F)

/-! ## The interface -/

/-- A DETAIL call. -/
def callD (m : Mem F) (p : Nat) : Use F → FRes (Mem F × Ret F)
  | .setComposition c => do let r ← aga8_set_composition m p c; pure (r.1, .comp r.2)
  | .setPressure v => do let m ← aga8_set_pressure m p v; pure (m, .unit)
  | .getPressure => do let v ← aga8_get_pressure m p; pure (m, .num v)
  | .setTemperature v => do let m ← aga8_set_temperature m p v; pure (m, .unit)
  | .getTemperature => do let v ← aga8_get_temperature m p; pure (m, .num v)
  | .setDensity v => do let m ← aga8_set_density m p v; pure (m, .unit)
  | .getDensity => do let v ← aga8_get_density m p; pure (m, .num v)
  | .getProperties => do let x ← aga8_get_properties m p; pure (m, .props x)
  | .calculatePressure => do let r ← aga8_calculate_pressure m p; pure (r.1, .num r.2)
  | .calculateMolarMass => do let r ← aga8_calculate_molar_mass m p; pure (r.1, .num r.2)
  | .calculateDensity => do let r ← aga8_calculate_density m p; pure (r.1, .dens r.2)
  | .calculateProperties => do let m ← aga8_calculate_properties m p; pure (m, .unit)

/-- A GERG call. -/
def callG (m : Mem F) (p : Nat) : Use F → FRes (Mem F × Ret F)
  | .setComposition c => do let r ← gerg_set_composition m p c; pure (r.1, .comp r.2)
  | .setPressure v => do let m ← gerg_set_pressure m p v; pure (m, .unit)
  | .getPressure => do let v ← gerg_get_pressure m p; pure (m, .num v)
  | .setTemperature v => do let m ← gerg_set_temperature m p v; pure (m, .unit)
  | .getTemperature => do let v ← gerg_get_temperature m p; pure (m, .num v)
  | .setDensity v => do let m ← gerg_set_density m p v; pure (m, .unit)
  | .getDensity => do let v ← gerg_get_density m p; pure (m, .num v)
  | .getProperties => do let x ← gerg_get_properties m p; pure (m, .props x)
  | .calculatePressure => do let r ← gerg_calculate_pressure m p; pure (r.1, .num r.2)
  | .calculateMolarMass => do let r ← gerg_calculate_molar_mass m p; pure (r.1, .num r.2)
  | .calculateDensity => do let r ← gerg_calculate_density m p; pure (r.1, .dens r.2)
  | .calculateProperties => do let m ← gerg_calculate_properties m p; pure (m, .unit)

/-- One call. -/
def call (m : Mem F) : Call F → FRes (Mem F × Ret F)
  | .aga8New a => do let r ← aga8_new m a; pure (r.1, .ptr r.2)
  | .aga8Free p => do let m ← aga8_free m p; pure (m, .unit)
  | .aga8 p u => callD m p u
  | .gergNew a => do let r ← gerg_new m a; pure (r.1, .ptr r.2)
  | .gergFree p => do let m ← gerg_free m p; pure (m, .unit)
  | .gerg p u => callG m p u

/-- A program: everything the calls give back, in order. -/
def run (m : Mem F) : List (Call F) → FRes (Mem F × List (Ret F))
  | [] => pure (m, [])
  | c :: cs => do
    let r ← call m c
    let r' ← run r.1 cs
    pure (r'.1, r.2 :: r'.2)

/-! ## One handle as a Rust object -/

/-- The error code of a `Result<(), CompositionError>`. -/
def compCode : Except CompositionError Unit → CompositionError
  | .ok () => .Ok
  | .error e => e

/-- The error code of a `Result<(), DensityError>`. -/
def densCode : Except DensityError Unit → DensityError
  | .ok () => .Ok
  | .error e => e

/-- The Rust method call or field access on a `Detail`. -/
def useD (s : Detail F) : Use F → Res (Detail F × Ret F)
  | .setComposition c => pure ((s.set_composition c).1, .comp (compCode (s.set_composition c).2))
  | .setPressure v => pure ({ s with p := v }, .unit)
  | .getPressure => pure (s, .num s.p)
  | .setTemperature v => pure ({ s with t := v }, .unit)
  | .getTemperature => pure (s, .num s.t)
  | .setDensity v => pure ({ s with d := v }, .unit)
  | .getDensity => pure (s, .num s.d)
  | .getProperties => pure (s, .props ⟨s.d, s.mm, s.z, s.dp_dd, s.d2p_dd2, s.dp_dt, s.u, s.h, s.s, s.cv,
      s.cp, s.w, s.g, s.jt, s.kappa⟩)
  | .calculatePressure => do let r ← s.pressure; pure (r.1, .num r.2)
  | .calculateMolarMass => pure (s.molar_mass.1, .num s.molar_mass.2)
  | .calculateDensity => do let r ← s.density; pure (r.1, .dens (densCode r.2))
  | .calculateProperties => do let s ← s.properties; pure (s, .unit)

/-- The Rust method call or field access on a `Gerg2008`. -/
def useG (s : Gerg F) : Use F → Res (Gerg F × Ret F)
  | .setComposition c => pure ((s.set_composition c).1, .comp (compCode (s.set_composition c).2))
  | .setPressure v => pure ({ s with p := v }, .unit)
  | .getPressure => pure (s, .num s.p)
  | .setTemperature v => pure ({ s with t := v }, .unit)
  | .getTemperature => pure (s, .num s.t)
  | .setDensity v => pure ({ s with d := v }, .unit)
  | .getDensity => pure (s, .num s.d)
  | .getProperties => pure (s, .props ⟨s.d, s.mm, s.z, s.dp_dd, s.d2p_dd2, s.dp_dt, s.u, s.h, s.s, s.cv,
      s.cp, s.w, s.g, s.jt, s.kappa⟩)
  | .calculatePressure => do let r ← s.pressure; pure (r.1, .num r.2)
  | .calculateMolarMass => pure (s.molar_mass, .num s.molar_mass.mm)
  | .calculateDensity => do let r ← s.density 0; pure (r.1, .dens (densCode r.2))
  | .calculateProperties => do let r ← s.properties; pure (r.1, .unit)

/-- The call concerns the DETAIL handle `p`. -/
def onD (p : Nat) : Call F → Bool
  | .aga8New a => a == p
  | .aga8Free q => q == p
  | .aga8 q _ => q == p
  | _ => false

/-- The call concerns the GERG handle `p`. -/
def onG (p : Nat) : Call F → Bool
  | .gergNew a => a == p
  | .gergFree q => q == p
  | .gerg q _ => q == p
  | _ => false

/-- A Rust program with a single variable of type `Option<Detail>`: `new` stores a new object in it, `free` drops
it, and every other call is the method call or field access. -/
def objD (o : Option (Detail F)) : List (Call F) → Res (Option (Detail F) × List (Ret F))
  | [] => pure (o, [])
  | .aga8New a :: cs => do
    let s ← Detail.new
    let r ← objD (some s) cs
    pure (r.1, .ptr a :: r.2)
  | .aga8Free _ :: cs => do
    let r ← objD none cs
    pure (r.1, .unit :: r.2)
  | .aga8 _ u :: cs =>
    match o with
    | some s => do
      let r ← useD s u
      let r' ← objD (some r.1) cs
      pure (r'.1, r.2 :: r'.2)
    | none => objD none cs
  | _ :: cs => objD o cs

/-- The same with a `Gerg2008`. -/
def objG (o : Option (Gerg F)) : List (Call F) → Res (Option (Gerg F) × List (Ret F))
  | [] => pure (o, [])
  | .gergNew a :: cs => do
    let s ← Gerg.new
    let r ← objG (some s) cs
    pure (r.1, .ptr a :: r.2)
  | .gergFree _ :: cs => do
    let r ← objG none cs
    pure (r.1, .unit :: r.2)
  | .gerg _ u :: cs =>
    match o with
    | some s => do
      let r ← useG s u
      let r' ← objG (some r.1) cs
      pure (r'.1, r.2 :: r'.2)
    | none => objG none cs
  | _ :: cs => objG o cs

/-- What the calls selected by `sel` gave back. -/
def retsOf (sel : Call F → Bool) (cs : List (Call F)) (rs : List (Ret F)) : List (Ret F) :=
  (cs.zip rs).filterMap fun x => if sel x.1 then some x.2 else none

/-- The obligation of the C program: `new` returns a non-null address that is not in use, `free` gets null or a
live handle, everything else gets a live handle. -/
def Allowed (m : Mem F) : Call F → Prop
  | .aga8New a | .gergNew a => a ≠ 0 ∧ m.det a = none ∧ m.ger a = none
  | .aga8Free p => p = 0 ∨ (m.det p).isSome
  | .aga8 p _ => p ≠ 0 ∧ (m.det p).isSome
  | .gergFree p => p = 0 ∨ (m.ger p).isSome
  | .gerg p _ => p ≠ 0 ∧ (m.ger p).isSome

end Aga8.Ffi
