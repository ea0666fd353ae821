import Verif.Detail
import Verif.Gerg

/-! # Model of `src/ffi.rs`, the C interface

A handle is an address; address 0 is the null pointer. The memory maps an address to the object allocated there.
`new` takes the address the allocator chose as an argument, so the theorems quantify over every allocator.

Simplifications: the references `&Composition`, `&mut CompositionError` and `&mut DensityError` are assumed valid
(the first is passed as a value, the written error is returned as a value); memory exhaustion is not modelled;
dereferencing an address at which no object of the right type lives is undefined behaviour in Rust and is the
outcome `Fault.undefined` here. A panic crossing the `extern "C"` boundary aborts the process. -/

namespace Aga8.Ffi

open FOps

variable {F : Type} [Add F] [Sub F] [Mul F] [Div F] [Neg F] [FOps F]

/-- What can go wrong in a call. -/
inductive Fault where
  /-- a Rust panic (abort at the `extern "C"` boundary) -/
  | panic (p : Panic)
  /-- use of memory in which no object lives -/
  | undefined
  deriving DecidableEq

/-- The result of a call. -/
abbrev FRes (α : Type) := Except Fault α

/-- A panic of the called Rust method. -/
def lift {α : Type} : Res α → FRes α
  | .ok a => .ok a
  | .error e => .error (.panic e)

/-- The objects living in memory. -/
structure Mem (F : Type) where
  det : Nat → Option (Detail F)
  ger : Nat → Option (Gerg F)

/-- Memory before the first call. -/
def Mem.empty : Mem F := ⟨fun _ => none, fun _ => none⟩

/-- The memory after writing `o` at `p`. -/
def Mem.putD (m : Mem F) (p : Nat) (o : Option (Detail F)) : Mem F :=
  { m with det := fun q => if q = p then o else m.det q }

/-- The memory after writing `o` at `p`. -/
def Mem.putG (m : Mem F) (p : Nat) (o : Option (Gerg F)) : Mem F :=
  { m with ger := fun q => if q = p then o else m.ger q }

/-- `assert!(!ptr.is_null()); &mut *ptr`, the first two lines of every function but `new` and `free`. -/
def deref {α : Type} (h : Nat → Option α) (p : Nat) : FRes α :=
  if p = 0 then .error (.panic .assertFailed)
  else match h p with
    | some o => .ok o
    | none => .error .undefined

/-- `struct Properties`, src/ffi.rs:5-41. -/
structure Properties (F : Type) where
  d : F
  mm : F
  z : F
  dp_dd : F
  d2p_dd2 : F
  dp_dt : F
  u : F
  h : F
  s : F
  cv : F
  cp : F
  w : F
  g : F
  jt : F
  kappa : F

/-! ## `ffi::detail` -/

/-- `aga8_new`, src/ffi.rs:53-55; `a` is the address returned by the allocator. -/
def aga8_new (m : Mem F) (a : Nat) : FRes (Mem F × Nat) := do
  let o ← lift Detail.new
  pure (m.putD a (some o), a)

/-- `aga8_free`, src/ffi.rs:61-66. -/
def aga8_free (m : Mem F) (p : Nat) : FRes (Mem F) :=
  if p = 0 then pure m
  else match m.det p with
    | some _ => pure (m.putD p none)
    | none => .error .undefined

/-- `aga8_set_composition`, src/ffi.rs:71-83: the memory and the value written to `*_err`. -/
def aga8_set_composition (m : Mem F) (p : Nat) (c : Composition F) : FRes (Mem F × CompositionError) := do
  let aga8 ← deref m.det p
  let r := aga8.set_composition c
  pure (m.putD p (some r.1), match r.2 with | .ok _ => .Ok | .error e => e)

/-- `aga8_set_pressure`, src/ffi.rs:88-92. -/
def aga8_set_pressure (m : Mem F) (p : Nat) (v : F) : FRes (Mem F) := do
  let aga8 ← deref m.det p
  pure (m.putD p (some { aga8 with p := v }))

/-- `aga8_get_pressure`, src/ffi.rs:97-101. -/
def aga8_get_pressure (m : Mem F) (p : Nat) : FRes F := do
  let aga8 ← deref m.det p
  pure aga8.p

/-- `aga8_set_temperature`, src/ffi.rs:106-110. -/
def aga8_set_temperature (m : Mem F) (p : Nat) (v : F) : FRes (Mem F) := do
  let aga8 ← deref m.det p
  pure (m.putD p (some { aga8 with t := v }))

/-- `aga8_get_temperature`, src/ffi.rs:115-119. -/
def aga8_get_temperature (m : Mem F) (p : Nat) : FRes F := do
  let aga8 ← deref m.det p
  pure aga8.t

/-- `aga8_set_density`, src/ffi.rs:124-128. -/
def aga8_set_density (m : Mem F) (p : Nat) (v : F) : FRes (Mem F) := do
  let aga8 ← deref m.det p
  pure (m.putD p (some { aga8 with d := v }))

/-- `aga8_get_density`, src/ffi.rs:133-137. -/
def aga8_get_density (m : Mem F) (p : Nat) : FRes F := do
  let aga8 ← deref m.det p
  pure aga8.d

/-- `aga8_get_properties`, src/ffi.rs:142-162. -/
def aga8_get_properties (m : Mem F) (p : Nat) : FRes (Properties F) := do
  let aga8 ← deref m.det p
  pure {
    d := aga8.d, mm := aga8.mm, z := aga8.z, dp_dd := aga8.dp_dd, d2p_dd2 := aga8.d2p_dd2,
    dp_dt := aga8.dp_dt, u := aga8.u, h := aga8.h, s := aga8.s, cv := aga8.cv, cp := aga8.cp,
    w := aga8.w, g := aga8.g, jt := aga8.jt, kappa := aga8.kappa }

/-- `aga8_calculate_pressure`, src/ffi.rs:167-171. -/
def aga8_calculate_pressure (m : Mem F) (p : Nat) : FRes (Mem F × F) := do
  let aga8 ← deref m.det p
  let r ← lift aga8.pressure
  pure (m.putD p (some r.1), r.2)

/-- `aga8_calculate_molar_mass`, src/ffi.rs:176-181. -/
def aga8_calculate_molar_mass (m : Mem F) (p : Nat) : FRes (Mem F × F) := do
  let aga8 ← deref m.det p
  let aga8 := aga8.molar_mass.1
  pure (m.putD p (some aga8), aga8.mm)

/-- `aga8_calculate_density`, src/ffi.rs:186-193: the memory and the value written to `*_err`. -/
def aga8_calculate_density (m : Mem F) (p : Nat) : FRes (Mem F × DensityError) := do
  let aga8 ← deref m.det p
  let r ← lift aga8.density
  pure (m.putD p (some r.1), match r.2 with | .ok _ => .Ok | .error e => e)

/-- `aga8_calculate_properties`, src/ffi.rs:198-202. -/
def aga8_calculate_properties (m : Mem F) (p : Nat) : FRes (Mem F) := do
  let aga8 ← deref m.det p
  let aga8 ← lift aga8.properties
  pure (m.putD p (some aga8))

/-! ## `ffi::gerg2008` -/

/-- `gerg_new`, src/ffi.rs:215-217; `a` is the address returned by the allocator. -/
def gerg_new (m : Mem F) (a : Nat) : FRes (Mem F × Nat) := do
  let o ← lift Gerg.new
  pure (m.putG a (some o), a)

/-- `gerg_free`, src/ffi.rs:224-229. -/
def gerg_free (m : Mem F) (p : Nat) : FRes (Mem F) :=
  if p = 0 then pure m
  else match m.ger p with
    | some _ => pure (m.putG p none)
    | none => .error .undefined

/-- `gerg_set_composition`, src/ffi.rs:234-246: the memory and the value written to `*_err`. -/
def gerg_set_composition (m : Mem F) (p : Nat) (c : Composition F) : FRes (Mem F × CompositionError) := do
  let gerg ← deref m.ger p
  let r := gerg.set_composition c
  pure (m.putG p (some r.1), match r.2 with | .ok _ => .Ok | .error e => e)

/-- `gerg_set_pressure`, src/ffi.rs:251-255. -/
def gerg_set_pressure (m : Mem F) (p : Nat) (v : F) : FRes (Mem F) := do
  let gerg ← deref m.ger p
  pure (m.putG p (some { gerg with p := v }))

/-- `gerg_get_pressure`, src/ffi.rs:260-264. -/
def gerg_get_pressure (m : Mem F) (p : Nat) : FRes F := do
  let gerg ← deref m.ger p
  pure gerg.p

/-- `gerg_set_temperature`, src/ffi.rs:269-273. -/
def gerg_set_temperature (m : Mem F) (p : Nat) (v : F) : FRes (Mem F) := do
  let gerg ← deref m.ger p
  pure (m.putG p (some { gerg with t := v }))

/-- `gerg_get_temperature`, src/ffi.rs:278-282. -/
def gerg_get_temperature (m : Mem F) (p : Nat) : FRes F := do
  let gerg ← deref m.ger p
  pure gerg.t

/-- `gerg_set_density`, src/ffi.rs:287-291. -/
def gerg_set_density (m : Mem F) (p : Nat) (v : F) : FRes (Mem F) := do
  let gerg ← deref m.ger p
  pure (m.putG p (some { gerg with d := v }))

/-- `gerg_get_density`, src/ffi.rs:296-300. -/
def gerg_get_density (m : Mem F) (p : Nat) : FRes F := do
  let gerg ← deref m.ger p
  pure gerg.d

/-- `gerg_get_properties`, src/ffi.rs:305-325. -/
def gerg_get_properties (m : Mem F) (p : Nat) : FRes (Properties F) := do
  let gerg ← deref m.ger p
  pure {
    d := gerg.d, mm := gerg.mm, z := gerg.z, dp_dd := gerg.dp_dd, d2p_dd2 := gerg.d2p_dd2,
    dp_dt := gerg.dp_dt, u := gerg.u, h := gerg.h, s := gerg.s, cv := gerg.cv, cp := gerg.cp,
    w := gerg.w, g := gerg.g, jt := gerg.jt, kappa := gerg.kappa }

/-- `gerg_calculate_pressure`, src/ffi.rs:330-334. -/
def gerg_calculate_pressure (m : Mem F) (p : Nat) : FRes (Mem F × F) := do
  let gerg ← deref m.ger p
  let r ← lift gerg.pressure
  pure (m.putG p (some r.1), r.2)

/-- `gerg_calculate_molar_mass`, src/ffi.rs:339-344. -/
def gerg_calculate_molar_mass (m : Mem F) (p : Nat) : FRes (Mem F × F) := do
  let gerg ← deref m.ger p
  let gerg := gerg.molar_mass
  pure (m.putG p (some gerg), gerg.mm)

/-- `gerg_calculate_density`, src/ffi.rs:351-358: the memory and the value written to `*_err`. -/
def gerg_calculate_density (m : Mem F) (p : Nat) : FRes (Mem F × DensityError) := do
  let gerg ← deref m.ger p
  let r ← lift (gerg.density 0)
  pure (m.putG p (some r.1), match r.2 with | .ok _ => .Ok | .error e => e)

/-- `gerg_calculate_properties`, src/ffi.rs:363-367: the returned pressure is discarded. -/
def gerg_calculate_properties (m : Mem F) (p : Nat) : FRes (Mem F) := do
  let gerg ← deref m.ger p
  let r ← lift gerg.properties
  pure (m.putG p (some r.1))

end Aga8.Ffi
