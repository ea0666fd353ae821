-- Sanity test, not a proof: evaluates the model on Float (compiled Float.exp/log/pow as math library) and compares
-- with the constants asserted in /repo/tests. Run: cp tools/run_model.txt /tmp/Run.lean; cd lean; lake env lean /tmp/Run.lean
import Verif.Ffi
import Verif.F64
open Aga8
instance : Libm := ⟨Float.exp, Float.log, Float.pow, fun x n => Float.pow x n.toFloat⟩
def full : Composition Float := { methane := 0.77824, nitrogen := 0.02, carbon_dioxide := 0.06, ethane := 0.08, propane := 0.03, isobutane := 0.0015, n_butane := 0.003, isopentane := 0.0005, n_pentane := 0.00165, hexane := 0.00215, heptane := 0.00088, octane := 0.00024, nonane := 0.00015, decane := 0.00009, hydrogen := 0.004, oxygen := 0.005, carbon_monoxide := 0.002, water := 0.0001, hydrogen_sulfide := 0.0025, helium := 0.007, argon := 0.001 }
def chk (n : String) (a b : Float) : IO Unit := IO.println s!"{n} {a} diff {(a-b).abs} {if (a-b).abs < 1e-10 then "within 1e-10" else "OUTSIDE 1e-10"} rel {(a-b).abs / b.abs}"
def det : Res (Detail Float × Except DensityError Unit) := do
  let s ← Detail.new
  let s := (s.set_composition full).1
  let s := s.molar_mass.1
  let s := { s with t := 400.0, p := 50000.0, d := 6.36570, z := 0.0 }
  let r ← s.density
  let s ← r.1.properties
  pure (s, r.2)
def detp : Res Float := do
  let s ← Detail.new
  let s := (s.set_composition full).1
  let r ← { s with t := 18.0 + 273.15, d := 7.558334 }.pressure
  pure r.2
def ger : Res (Gerg Float × Except DensityError Unit) := do
  let s ← Gerg.new
  let s := (s.set_composition full).1
  let s := s.molar_mass
  let s := { s with t := 400.0, p := 50000.0, d := 6.36570, z := 0.0 }
  let r ← s.density 0
  let q ← r.1.properties
  pure (q.1, r.2)
def gerp : Res Float := do
  let s ← Gerg.new
  let s := (s.set_composition full).1
  let r ← { s with t := 18.0 + 273.15, d := 7.558334 }.pressure
  pure r.2
#eval do
  match det with
  | .error _ => IO.println "panic"
  | .ok (s, r) =>
    IO.println s!"DETAIL density ok: {match r with | .ok _ => true | _ => false}"
    chk "d" s.d 12.80792403648801; chk "mm" s.mm 20.54333051; chk "p" s.p 50000.0; chk "z" s.z 1.173801364147326
    chk "dp_dd" s.dp_dd 6971.38769092409; chk "d2p_dd2" s.d2p_dd2 1118.80363663952; chk "dp_dt" s.dp_dt 235.6641493068212
    chk "u" s.u (-2739.134175817231); chk "h" s.h 1164.699096269404; chk "s" s.s (-38.54882684677111)
    chk "cv" s.cv 39.12076154430332; chk "cp" s.cp 58.54617672380667; chk "w" s.w 712.6393684057903
    chk "g" s.g 16584.22983497785; chk "jt" s.jt 7.432969304794577E-5; chk "kappa" s.kappa 2.672509225184606
  match detp with | .ok p => chk "detail pressure" p 13067.068161509907 | _ => IO.println "panic"
  match ger with
  | .error _ => IO.println "panic"
  | .ok (s, r) =>
    IO.println s!"GERG density ok: {match r with | .ok _ => true | _ => false}"
    chk "d" s.d 12.79828626082062; chk "mm" s.mm 20.5427445016; chk "p" s.p 50000.0; chk "z" s.z 1.174690666383717
    chk "dp_dd" s.dp_dd 7000.694030193327; chk "d2p_dd2" s.d2p_dd2 1129.526655214841; chk "dp_dt" s.dp_dt 235.9832292593096
    chk "u" s.u (-2746.49290121253); chk "h" s.h 1160.280160510973; chk "s" s.s (-38.57590392409089)
    chk "cv" s.cv 39.02948218156372; chk "cp" s.cp 58.45522051000366; chk "w" s.w 714.4248840596024
    chk "g" s.g 16590.64173014733; chk "jt" s.jt 7.155629581480913E-5; chk "kappa" s.kappa 2.683820255058032
  match gerp with | .ok p => chk "gerg pressure" p 13050.037472144 | _ => IO.println "panic"

def part : Composition Float := { (Composition.default : Composition Float) with methane := 0.965, nitrogen := 0.003, carbon_dioxide := 0.006, ethane := 0.018, propane := 0.0045, isobutane := 0.001, n_butane := 0.001, isopentane := 0.0005, n_pentane := 0.0003, hexane := 0.0007 }
def ger1 : Res (Gerg Float) := do
  let s ← Gerg.new
  let s := (s.set_composition part).1
  let r ← { s with t := 18.0 + 273.15, p := 14601.325 }.density 0
  let q ← r.1.properties
  pure q.1
def gas2 : Vector Float 21 := #v[0.996953100, 0.002016000, 0.000093700, 0.000767100, 0.000067900, 0.000019700, 0.000006800, 0.000015600, 0, 0, 0, 0, 0, 0, 0, 0, 0, 0, 0, 0.000060100, 0]
def near (n : String) (a b tol : Float) : IO Unit := IO.println s!"{n} {a} expected {b} {if (a-b).abs < tol then "ok" else "FAIL"}"
#eval do
  match ger1 with
  | .ok s => chk "gerg_test_01 d" s.d 7.730483295277388; chk "gerg_test_01 mm" s.mm 16.803030286
  | _ => IO.println "panic"
  let mut s ← match (Detail.new : Res (Detail Float)) with | .ok s => pure { s with x := gas2 } | _ => throw (IO.userError "panic")
  for (t, d, p, cv, cp, w) in [(165.933, 1.0, 1179.2, 26.4849, 41.4919, 309.7709), (169.184, 2.0, 2050.6, 29.6179, 58.791, 286.869), (176.24, 3.0, 2808.8, 32.196, 84.3401, 275.0685), ((181.681 : Float), (4.0 : Float), (3422.7 : Float), (34.3978 : Float), (126.207 : Float), (266.3933 : Float))] do
    match (do let r ← { s with t := t, d := d }.pressure; r.1.properties : Res (Detail Float)) with
    | .ok s' => near "p" s'.p p 0.1; near "cv" s'.cv cv 0.0001; near "cp" s'.cp cp 0.0001; near "w" s'.w w 0.0001; s := s'
    | _ => IO.println "panic"
