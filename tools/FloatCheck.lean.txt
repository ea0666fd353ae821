import Verif.Detail
import Verif.Gerg
import Verif.F64

/-! Sanity test (not a proof): runs the model on hardware floats and prints the values that the repository's
own tests assert. Run with `lake env lean --run ../tools/FloatCheck.lean` in /verif/lean. -/
open Aga8

def powiF (x : Float) : Nat → Float
  | 0 => 1.0
  | 1 => x
  | n + 2 => x * powiF x (n + 1)

instance : Libm := ⟨Float.exp, Float.log, Float.pow, powiF⟩

def comp : Composition Float :=
  { methane := 0.77824, nitrogen := 0.02, carbon_dioxide := 0.06, ethane := 0.08, propane := 0.03,
    isobutane := 0.0015, n_butane := 0.003, isopentane := 0.0005, n_pentane := 0.00165,
    hexane := 0.00215, heptane := 0.00088, octane := 0.00024, nonane := 0.00015, decane := 0.00009,
    hydrogen := 0.004, oxygen := 0.005, carbon_monoxide := 0.002, water := 0.0001,
    hydrogen_sulfide := 0.0025, helium := 0.007, argon := 0.001 }

def err (name : String) (a b : Float) : IO Unit :=
  IO.println s!"{name}: model {a} expected {b} relerr {(a - b).abs / b.abs}"

def get {α} (r : Res α) : IO α := match r with
  | .ok a => pure a
  | .error _ => throw (IO.userError "panic")

def main : IO Unit := do
  let s ← get (Detail.new (F := Float))
  let (s, r) := s.set_composition comp
  IO.println s!"set_composition ok: {r matches .ok _}"
  let s := { s with t := 400.0, p := 50000.0 }
  let (s, r) ← get s.density
  IO.println s!"density ok: {r matches .ok _}"
  let s ← get s.properties
  err "d" s.d 12.807924036488
  err "mm" s.mm 20.54333051
  err "z" s.z 1.173801364147326
  err "dp_dd" s.dp_dd 6971.38769092409
  err "d2p_dd2" s.d2p_dd2 1118.80363663952
  err "dp_dt" s.dp_dt 235.6641493068212
  err "u" s.u (-2739.134175817231)
  err "h" s.h 1164.699096269404
  err "s" s.s (-38.54882684677111)
  err "cv" s.cv 39.12076154430332
  err "cp" s.cp 58.54617672380667
  err "w" s.w 712.6393684057903
  err "g" s.g 16584.22983497785
  err "jt" s.jt 7.432969304794577e-5
  err "kappa" s.kappa 2.672509225184606
  let s ← get (Gerg.new (F := Float))
  let (s, r) := s.set_composition comp
  IO.println s!"set_composition ok: {r matches .ok _}"
  let s := { s with t := 400.0, p := 50000.0 }
  let (s, r) ← get (s.density 0)
  IO.println s!"density ok: {r matches .ok _}"
  let (s, p) ← get s.properties
  err "p" p 50000.0
  err "d" s.d 12.79828626082062
  err "mm" s.mm 20.5427445016
  err "z" s.z 1.174690666383717
  err "dp_dd" s.dp_dd 7000.694030193327
  err "d2p_dd2" s.d2p_dd2 1129.526655214841
  err "dp_dt" s.dp_dt 235.9832292593096
  err "u" s.u (-2746.49290121253)
  err "h" s.h 1160.280160510973
  err "s" s.s (-38.57590392409089)
  err "cv" s.cv 39.02948218156372
  err "cp" s.cp 58.45522051000366
  err "w" s.w 714.4248840596024
  err "g" s.g 16590.64173014733
  err "jt" s.jt 7.155629581480913e-5
  err "kappa" s.kappa 2.683820255058032
  let (s2, r2) ← get (s.density 1)
  IO.println s!"density(1) ok: {r2 matches .ok _} d = {s2.d}"
