import Verif.Composition
import Verif.Tables.Gerg

/-! # Model of `src/gerg2008.rs`

The GERG-2008 equation of state. All arrays are 1-based as in the source (entry 0 is a dummy). Exponents and
loop bounds that are read from tables are run-time indices: they panic when out of bounds. -/

namespace Aga8

/-- `struct Gerg2008`, src/gerg2008.rs:2354-2424 (all fields, in the same order). -/
structure Gerg (F : Type) where
  t : F
  p : F
  d : F
  z : F
  mm : F
  dp_dd : F
  d2p_dd2 : F
  d2p_dtd : F
  dp_dt : F
  u : F
  h : F
  s : F
  cv : F
  cp : F
  w : F
  g : F
  jt : F
  kappa : F
  x : Vector F 22
  drold : F
  trold : F
  told : F
  trold2 : F
  xold : Vector F 22
  a : F
  a0 : Vector F 3
  ar : Vector (Vector F 4) 4
  dpddsave : F
  taup : Vector (Vector F 25) 22
  taupijk : Vector (Vector F 13) 22
  coik : Vector (Vector Nat 25) 22
  doik : Vector (Vector Nat 25) 22
  toik : Vector (Vector F 25) 22
  dijk : Vector (Vector Nat 13) 13
  tijk : Vector (Vector F 13) 11
  cijk : Vector (Vector F 13) 11
  eijk : Vector (Vector F 13) 11
  gijk : Vector (Vector F 13) 11
  nijk : Vector (Vector F 13) 11
  n0i : Vector (Vector F 8) 22
  bvij : Vector (Vector F 22) 22
  gvij : Vector (Vector F 22) 22
  btij : Vector (Vector F 22) 22
  gtij : Vector (Vector F 22) 22

namespace Gerg

open FOps Tab

variable {F : Type} [Add F] [Sub F] [Mul F] [Div F] [Neg F] [FOps F]

/-- `RGERG`, src/gerg2008.rs:6. -/
def RGERG : F := f% 8.314472

/-- `EPSILON`, src/gerg2008.rs:12. -/
def EPSILON : F := f% 1.0e-15

/-- An entry of a table of decimal literals, in the number type. -/
def tab {n : Nat} (v : Vector Dec n) (i : Fin n) : F := ofDec (aget v i)

/-- An entry of a two-dimensional table of decimal literals, in the number type. -/
def tab2 {n m : Nat} (v : Vector (Vector Dec m) n) (i : Fin n) (j : Fin m) : F := ofDec (aget2 v i j)

/-- `#[derive(Default)]` on `Gerg2008`, src/gerg2008.rs:2353: every field zero. -/
def default : Gerg F where
  t := f% 0.0
  p := f% 0.0
  d := f% 0.0
  z := f% 0.0
  mm := f% 0.0
  dp_dd := f% 0.0
  d2p_dd2 := f% 0.0
  d2p_dtd := f% 0.0
  dp_dt := f% 0.0
  u := f% 0.0
  h := f% 0.0
  s := f% 0.0
  cv := f% 0.0
  cp := f% 0.0
  w := f% 0.0
  g := f% 0.0
  jt := f% 0.0
  kappa := f% 0.0
  x := fill 22 (f% 0.0)
  drold := f% 0.0
  trold := f% 0.0
  told := f% 0.0
  trold2 := f% 0.0
  xold := fill 22 (f% 0.0)
  a := f% 0.0
  a0 := fill 3 (f% 0.0)
  ar := fill 4 (fill 4 (f% 0.0))
  dpddsave := f% 0.0
  taup := fill 22 (fill 25 (f% 0.0))
  taupijk := fill 22 (fill 13 (f% 0.0))
  coik := fill 22 (fill 25 0)
  doik := fill 22 (fill 25 0)
  toik := fill 22 (fill 25 (f% 0.0))
  dijk := fill 13 (fill 13 0)
  tijk := fill 11 (fill 13 (f% 0.0))
  cijk := fill 11 (fill 13 (f% 0.0))
  eijk := fill 11 (fill 13 (f% 0.0))
  gijk := fill 11 (fill 13 (f% 0.0))
  nijk := fill 11 (fill 13 (f% 0.0))
  n0i := fill 22 (fill 8 (f% 0.0))
  bvij := fill 22 (fill 22 (f% 0.0))
  gvij := fill 22 (fill 22 (f% 0.0))
  btij := fill 22 (fill 22 (f% 0.0))
  gtij := fill 22 (fill 22 (f% 0.0))

/-! ## `setup`

`setup` (src/gerg2008.rs:2434-4217) fills each parameter array by literal assignments and then post-processes
some of them. Assignments to different arrays do not interact, so the model runs them array by
array (a reordering of independent writes, the only simplification here). -/

/-- `RSR`, src/gerg2008.rs:2435-2436. -/
def RSR : F := f% 8.31451 / RGERG

/-- Straight-line literal assignments `v[i][j] = lit`, src/gerg2008.rs:2559-4182. -/
def runAsg {α β : Type} {n m : Nat} (conv : β → α) (l : List (Nat × Nat × β))
    (v : Vector (Vector α m) n) : Res (Vector (Vector α m) n) :=
  l.foldlM (fun v a => put2 v a.1 a.2.1 (conv a.2.2)) v

/-- Literal assignments `v[i][k] = lit` for a fixed row `i`: the bodies of the loops src/gerg2008.rs:2441-2480
and 2482-2557. -/
def runRow {α β : Type} {n m : Nat} (conv : β → α) (l : List (Nat × β)) (i : Nat)
    (v : Vector (Vector α m) n) : Res (Vector (Vector α m) n) :=
  l.foldlM (fun v a => put2 v i a.1 (conv a.2)) v

/-- All assignments to `coik`, `doik` or `toik`, src/gerg2008.rs:2441-2753. -/
def runExps {α β : Type} (conv : β → α) (all long : List (Nat × β)) (asg : List (Nat × Nat × β))
    (v : Vector (Vector α 25) 22) : Res (Vector (Vector α 25) 22) := do
  let v ← loopN 1 22 v fun i v => runRow conv all i v
  let v ← loopN 1 5 v fun i v => if i != 3 then runRow conv long i v else pure v
  runAsg conv asg v

/-- `vc3[i]`, src/gerg2008.rs:2442. -/
def vc3 (i : Fin 22) : F := f% 1.0 / powf (tab DC i) (f% 1.0 / f% 3.0) / f% 2.0

/-- `tc2[i]`, src/gerg2008.rs:2443. -/
def tc2 (i : Fin 22) : F := sqrt (tab TC i)

/-- The four binary parameter arrays during `setup`. -/
structure BinPar (F : Type) where
  bvij : Vector (Vector F 22) 22
  gvij : Vector (Vector F 22) 22
  btij : Vector (Vector F 22) 22
  gtij : Vector (Vector F 22) 22

/-- Post-processing of the binary parameters, src/gerg2008.rs:4184-4195. Rust indexes `vc3` and `tc2` arrays
filled in the first loop; here they are functions of the index. -/
def setupBin (b : BinPar F) : BinPar F :=
  loop 1 22 b fun i b =>
    let b := { b with bvij := aset2 b.bvij i i (f% 1.0) }
    let b := { b with btij := aset2 b.btij i i (f% 1.0) }
    let b := { b with gvij := aset2 b.gvij i i (f% 1.0 / tab DC i) }
    let b := { b with gtij := aset2 b.gtij i i (tab TC i) }
    loop (i.1 + 1) 22 b fun j b =>
      let b := { b with gvij := aset2 b.gvij i j (aget2 b.gvij i j * aget2 b.bvij i j * powi (vc3 i + vc3 j) 3) }
      let b := { b with gtij := aset2 b.gtij i j (aget2 b.gtij i j * aget2 b.btij i j * tc2 i * tc2 j) }
      let b := { b with bvij := aset2 b.bvij i j (powi (aget2 b.bvij i j) 2) }
      { b with btij := aset2 b.btij i j (powi (aget2 b.btij i j) 2) }

/-- The departure-function parameter arrays during `setup`. -/
structure DepPar (F : Type) where
  cijk : Vector (Vector F 13) 11
  eijk : Vector (Vector F 13) 11
  gijk : Vector (Vector F 13) 11

/-- Post-processing of the departure parameters, src/gerg2008.rs:4197-4204. -/
def setupDep (bijk : Vector (Vector F 13) 11) (p : DepPar F) : DepPar F :=
  loop 1 11 p fun i p => loop 1 13 p fun j p =>
    let p := { p with gijk := aset2 p.gijk i j (-aget2 p.cijk i j * powi (aget2 p.eijk i j) 2 + aget2 bijk i j * aget2 p.gijk i j) }
    let p := { p with eijk := aset2 p.eijk i j (f% 2.0 * aget2 p.cijk i j * aget2 p.eijk i j - aget2 bijk i j) }
    { p with cijk := aset2 p.cijk i j (-aget2 p.cijk i j) }

/-- Post-processing of the ideal-gas coefficients, src/gerg2008.rs:4206-4216. -/
def setupN0i (n0i : Vector (Vector F 8) 22) : Vector (Vector F 8) 22 :=
  let t0 : F := f% 298.15
  let d0 : F := f% 101.325 / RGERG / t0
  loop 1 22 n0i fun i n0i =>
    let n0i := aset2 n0i i 3 (aget2 n0i i 3 - f% 1.0)
    let n0i := aset2 n0i i 2 (aget2 n0i i 2 + t0)
    let n0i := loop 1 8 n0i fun j n0i => aset2 n0i i j (aget2 n0i i j * RSR)
    let n0i := aset2 n0i i 2 (aget2 n0i i 2 - t0)
    aset2 n0i i 1 (aget2 n0i i 1 - ln d0)

/-- `Gerg2008::setup`, src/gerg2008.rs:2434-4217. -/
def setup (s : Gerg F) : Res (Gerg F) := do
  let coik ← runExps id coikAll coikLong coikAsg s.coik
  let doik ← runExps id doikAll doikLong doikAsg s.doik
  let toik ← runExps ofDec toikAll toikLong toikAsg s.toik
  let dijk ← runAsg id dijkAsg s.dijk
  let tijk ← runAsg ofDec tijkAsg s.tijk
  let cijk ← runAsg ofDec cijkAsg s.cijk
  let eijk ← runAsg ofDec eijkAsg s.eijk
  let bijk ← runAsg ofDec bijkAsg (fill 11 (fill 13 (f% 0.0)))
  let gijk ← runAsg ofDec gijkAsg s.gijk
  let nijk ← runAsg ofDec nijkAsg s.nijk
  let n0i ← runAsg ofDec n0iAsg s.n0i
  let bvij ← runAsg ofDec bvijAsg s.bvij
  let gvij ← runAsg ofDec gvijAsg s.gvij
  let btij ← runAsg ofDec btijAsg s.btij
  let gtij ← runAsg ofDec gtijAsg s.gtij
  let b := setupBin ⟨bvij, gvij, btij, gtij⟩
  let p := setupDep bijk ⟨cijk, eijk, gijk⟩
  let n0i := setupN0i n0i
  pure { s with
    coik := coik, doik := doik, toik := toik, dijk := dijk, tijk := tijk
    cijk := p.cijk, eijk := p.eijk, gijk := p.gijk, nijk := nijk, n0i := n0i
    bvij := b.bvij, gvij := b.gvij, btij := b.btij, gtij := b.gtij }

/-- `Gerg2008::new`, src/gerg2008.rs:2428-2432. -/
def new : Res (Gerg F) := setup default

/-! ## Public setters and molar mass -/

/-- `Gerg2008::set_composition`, src/gerg2008.rs:4223-4250. -/
def set_composition (s : Gerg F) (comp : Composition F) : Gerg F × Except CompositionError Unit :=
  match comp.check with
  | .error e => (s, .error e)
  | .ok _ =>
    let x := s.x
    let x := aset x 0 (f% 0.0)
    let x := aset x 1 comp.methane
    let x := aset x 2 comp.nitrogen
    let x := aset x 3 comp.carbon_dioxide
    let x := aset x 4 comp.ethane
    let x := aset x 5 comp.propane
    let x := aset x 6 comp.isobutane
    let x := aset x 7 comp.n_butane
    let x := aset x 8 comp.isopentane
    let x := aset x 9 comp.n_pentane
    let x := aset x 10 comp.hexane
    let x := aset x 11 comp.heptane
    let x := aset x 12 comp.octane
    let x := aset x 13 comp.nonane
    let x := aset x 14 comp.decane
    let x := aset x 15 comp.hydrogen
    let x := aset x 16 comp.oxygen
    let x := aset x 17 comp.carbon_monoxide
    let x := aset x 18 comp.water
    let x := aset x 19 comp.hydrogen_sulfide
    let x := aset x 20 comp.helium
    let x := aset x 21 comp.argon
    ({ s with x := x }, .ok ())

/-- `Gerg2008::molar_mass`, src/gerg2008.rs:4273-4278. -/
def molar_mass (s : Gerg F) : Gerg F :=
  { s with mm := loop 1 22 (f% 0.0) fun i mm => mm + aget s.x i * tab MMI_GERG i }

/-! ## Reducing parameters -/

/-- Change detection in `reducingparameters`, src/gerg2008.rs:4427-4432:
`(icheck != 0, xold after the loop)`. -/
def rpCheck (s : Gerg F) : Bool × Vector F 22 :=
  loop 1 22 (false, s.xold) fun i st =>
    (if f% 0.0000001 <. abs (aget s.x i - aget st.2 i) then true else st.1,
      aset st.2 i (aget s.x i))

/-- Body of the inner loop of `reducingparameters`, src/gerg2008.rs:4444-4449; the state is
`(vr, tr, f)`. -/
def rpPair (s : Gerg F) (i j : Fin 22) (a : F × F × F) : F × F × F :=
  if EPSILON <. aget s.x j then
    let xij := a.2.2 * (aget s.x i * aget s.x j) * (aget s.x i + aget s.x j)
    (a.1 + xij * tab2 GVIJ i j / (aget2 s.bvij i j * aget s.x i + aget s.x j),
      a.2.1 + xij * tab2 GTIJ i j / (tab2 BTIJ i j * aget s.x i + aget s.x j),
      f% 2.0)
  else a

/-- Body of the outer loop of `reducingparameters`, src/gerg2008.rs:4441-4451; the state is
`(vr, tr)`. -/
def rpRow (s : Gerg F) (i : Fin 22) (a : F × F) : F × F :=
  if EPSILON <. aget s.x i then
    let b := loop i.1 22 (a.1, a.2, f% 1.0) (rpPair s i)
    (b.1, b.2.1)
  else a

/-- `Gerg2008::reducingparameters`, src/gerg2008.rs:4418-4459: the new object and `(dr, tr)`. -/
def reducingparameters (s : Gerg F) : Gerg F × F × F :=
  let c := rpCheck s
  let s := { s with xold := c.2 }
  if !c.1 then (s, s.drold, s.trold)
  else
    let s := { s with told := f% 0.0 }
    let s := { s with trold2 := f% 0.0 }
    let a := loop 1 22 (f% 0.0, f% 0.0) (rpRow s)
    let dr : F := if EPSILON <. a.1 then f% 1.0 / a.1 else f% 0.0
    ({ s with drold := dr, trold := a.2 }, dr, a.2)

/-! ## Ideal-gas part -/

/-- Body of the `j` loop of `alpha0`, src/gerg2008.rs:4488-4507; the triple is `(sumhyp0, sumhyp1, sumhyp2)`. -/
def a0Hyp (s : Gerg F) (i : Fin 22) (j : Fin 8) (h : F × F × F) : F × F × F :=
  let sumhyp0 := h.1
  let sumhyp1 := h.2.1
  let sumhyp2 := h.2.2
  if (EPSILON : F) <. tab2 TH0I i j then
    let th0t := tab2 TH0I i j / s.t
    let ep := exp th0t
    let em := f% 1.0 / ep
    let hsn := (ep - em) / f% 2.0
    let hcn := (ep + em) / f% 2.0
    if j.1 == 4 || j.1 == 6 then
      let loghyp := ln (abs hsn)
      (sumhyp0 + aget2 s.n0i i j * loghyp,
        sumhyp1 + aget2 s.n0i i j * th0t * hcn / hsn,
        sumhyp2 + aget2 s.n0i i j * (th0t / hsn) * (th0t / hsn))
    else
      let loghyp := ln (abs hcn)
      (sumhyp0 - aget2 s.n0i i j * loghyp,
        sumhyp1 - aget2 s.n0i i j * th0t * hsn / hcn,
        sumhyp2 + aget2 s.n0i i j * (th0t / hcn) * (th0t / hcn))
  else h

/-- Body of the component loop of `alpha0`, src/gerg2008.rs:4482-4514; the triple is `self.a0`. -/
def a0Comp (s : Gerg F) (logd logt : F) (i : Fin 22) (a : F × F × F) : F × F × F :=
  if EPSILON <. aget s.x i then
    let logxd := logd + ln (aget s.x i)
    let sumhyp := loop 4 8 (f% 0.0, f% 0.0, f% 0.0) (a0Hyp s i)
    (a.1 + aget s.x i
        * (logxd + aget2 s.n0i i 1 + aget2 s.n0i i 2 / s.t - aget2 s.n0i i 3 * logt + sumhyp.1),
      a.2.1 + aget s.x i * (aget2 s.n0i i 3 + aget2 s.n0i i 2 / s.t + sumhyp.2.1),
      a.2.2 + -aget s.x i * (aget2 s.n0i i 3 + sumhyp.2.2))
  else a

/-- `Gerg2008::alpha0`, src/gerg2008.rs:4461-4515. -/
def alpha0 (s : Gerg F) : Gerg F :=
  let logd := if EPSILON <. s.d then ln s.d else ln EPSILON
  let logt := ln s.t
  let a := loop 1 22 (f% 0.0, f% 0.0, f% 0.0) (a0Comp s logd logt)
  { s with a0 := #v[a.1, a.2.1, a.2.2] }

/-! ## Residual part -/

/-- `taup0` in `tterms`, src/gerg2008.rs:4659-4665 (row 5 is propane). -/
def ttPropane (s : Gerg F) (lntau : F) : Vector F 13 :=
  loop 1 13 (fill 13 (f% 0.0)) fun k v =>
    aset v k (exp (aget2 s.toik 5 ⟨k.1, by omega⟩ * lntau))

/-- Body of the component loop of `tterms`, src/gerg2008.rs:4666-4678. -/
def ttPure (s : Gerg F) (lntau : F) (taup0 : Vector F 13) (i : Fin 22)
    (taup : Vector (Vector F 25) 22) : Res (Vector (Vector F 25) 22) := do
  if EPSILON <. aget s.x i then
    if i.1 > 4 && i.1 != 15 && i.1 != 18 && i.1 != 20 then
      pure (loop 1 13 taup fun k taup =>
        aset2 taup i ⟨k.1, by omega⟩ (tab2 NOIK i ⟨k.1, by omega⟩ * aget taup0 k))
    else
      loopN 1 (aget KPOL i + aget KEXP i + 1) taup fun k taup => do
        put2 taup i.1 k
          (ofDec (← idx (aget NOIK i) k) * exp ((← idx (aget s.toik i) k) * lntau))
  else pure taup

/-- Body of the pair loop of `tterms`, src/gerg2008.rs:4682-4692. -/
def ttPair (s : Gerg F) (lntau : F) (i j : Fin 22)
    (taupijk : Vector (Vector F 13) 22) : Res (Vector (Vector F 13) 22) := do
  if EPSILON <. aget s.x j then
    let mn := aget2 MNUMB i j
    if mn > 0 then
      loopN 1 ((← idx KPOLIJ mn) + 1) taupijk fun k taupijk => do
        put2 taupijk mn k ((← idx2 s.nijk mn k) * exp ((← idx2 s.tijk mn k) * lntau))
    else pure taupijk
  else pure taupijk

/-- `Gerg2008::tterms`, src/gerg2008.rs:4658-4695. -/
def tterms (s : Gerg F) (lntau : F) : Res (Gerg F) := do
  let taup0 := ttPropane s lntau
  let taup ← loopM 1 22 s.taup fun i taup => ttPure s lntau taup0 i taup
  let s := { s with taup := taup }
  let taupijk ← loopM 1 22 s.taupijk fun i taupijk =>
    if EPSILON <. aget s.x i then
      loopM (i.1 + 1) 22 taupijk fun j taupijk => ttPair s lntau i j taupijk
    else pure taupijk
  pure { s with taupijk := taupijk }

/-- The derivative array `self.ar`. -/
abbrev Ar (F : Type) := Vector (Vector F 4) 4

/-- Clearing of `self.ar`, src/gerg2008.rs:4530-4534. -/
def arZero (ar : Ar F) : Ar F :=
  loop 0 4 ar fun i ar => loop 0 4 ar fun j ar => aset2 ar i j (f% 0.0)

/-- Contribution of a polynomial term with value `ndt`, density exponent `dk` and temperature
exponent `tk`: src/gerg2008.rs:4560-4573 (pure fluids, `doik`/`toik`) and 4609-4624 (mixture,
`dijk`/`tijk`); the two passages are identical up to these names. -/
def arPol (itau : Int) (ndt : F) (dk : Nat) (tk : F) (ar : Ar F) : Ar F :=
  let ndtd := ndt * ofNat dk
  let ar := aset2 ar 0 1 (aget2 ar 0 1 + ndtd)
  let ar := aset2 ar 0 2 (aget2 ar 0 2 + ndtd * (ofNat dk - f% 1.0))
  if itau > 0 then
    let ndtt := ndt * tk
    let ar := aset2 ar 0 0 (aget2 ar 0 0 + ndt)
    let ar := aset2 ar 1 0 (aget2 ar 1 0 + ndtt)
    let ar := aset2 ar 2 0 (aget2 ar 2 0 + ndtt * (tk - f% 1.0))
    let ar := aset2 ar 1 1 (aget2 ar 1 1 + ndtt * ofNat dk)
    let ar := aset2 ar 1 2 (aget2 ar 1 2 + ndtt * ofNat dk * (ofNat dk - f% 1.0))
    aset2 ar 0 3 (aget2 ar 0 3 + ndtd * (ofNat dk - f% 1.0) * (ofNat dk - f% 2.0))
  else ar

/-- Contribution of an exponential pure-fluid term with value `ndt`, density exponent `dk`, exponent
`ck` inside the exponential, `delc = delp[ck]`: src/gerg2008.rs:4578-4594. -/
def arExp (itau : Int) (ndt : F) (dk ck : Nat) (delc tk : F) (ar : Ar F) : Ar F :=
  let ex := ofNat ck * delc
  let ex2 := ofNat dk - ex
  let ex3 := ex2 * (ex2 - f% 1.0)
  let ar := aset2 ar 0 1 (aget2 ar 0 1 + ndt * ex2)
  let ar := aset2 ar 0 2 (aget2 ar 0 2 + ndt * (ex3 - ofNat ck * ex))
  if itau > 0 then
    let ndtt := ndt * tk
    let ar := aset2 ar 0 0 (aget2 ar 0 0 + ndt)
    let ar := aset2 ar 1 0 (aget2 ar 1 0 + ndtt)
    let ar := aset2 ar 2 0 (aget2 ar 2 0 + ndtt * (tk - f% 1.0))
    let ar := aset2 ar 1 1 (aget2 ar 1 1 + ndtt * ex2)
    let ar := aset2 ar 1 2 (aget2 ar 1 2 + ndtt * (ex3 - ofNat ck * ex))
    aset2 ar 0 3 (aget2 ar 0 3 + ndt
      * (ex3 * (ex2 - f% 2.0) - ex * (f% 3.0 * ex2 - f% 3.0 + ofNat ck) * ofNat ck))
  else ar

/-- Contribution of an exponential departure term with value `ndt`: src/gerg2008.rs:4634-4649. -/
def arMix (itau : Int) (ndt : F) (dk : Nat) (cij0 eij0 tk : F) (ar : Ar F) : Ar F :=
  let ex := ofNat dk + f% 2.0 * cij0 + eij0
  let ex2 := ex * ex - ofNat dk + f% 2.0 * cij0
  let ar := aset2 ar 0 1 (aget2 ar 0 1 + ndt * ex)
  let ar := aset2 ar 0 2 (aget2 ar 0 2 + ndt * ex2)
  if itau > 0 then
    let ndtt := ndt * tk
    let ar := aset2 ar 0 0 (aget2 ar 0 0 + ndt)
    let ar := aset2 ar 1 0 (aget2 ar 1 0 + ndtt)
    let ar := aset2 ar 2 0 (aget2 ar 2 0 + ndtt * (tk - f% 1.0))
    let ar := aset2 ar 1 1 (aget2 ar 1 1 + ndtt * ex)
    let ar := aset2 ar 1 2 (aget2 ar 1 2 + ndtt * ex2)
    aset2 ar 0 3 (aget2 ar 0 3 + ndt
      * (ex * (ex2 - f% 2.0 * (ofNat dk - f% 2.0 * cij0)) + f% 2.0 * ofNat dk))
  else ar

/-- The arrays `(delp, expd)`, src/gerg2008.rs:4527-4528, 4541-4546. -/
def arDelp (del : F) : Vector F 8 × Vector F 8 :=
  let delp := aset (fill 8 (f% 0.0)) 1 del
  let expd := aset (fill 8 (f% 0.0)) 1 (exp (-aget delp 1))
  loop 2 8 (delp, expd) fun i p =>
    let delp := aset p.1 i (aget p.1 ⟨i.1 - 1, by omega⟩ * del)
    (delp, aset p.2 i (exp (-aget delp i)))

/-- Body of the component loop of `alphar`, src/gerg2008.rs:4556-4597. -/
def arPure (s : Gerg F) (itau : Int) (delp expd : Vector F 8) (i : Fin 22) (ar : Ar F) :
    Res (Ar F) := do
  if EPSILON <. aget s.x i then
    let ar ← loopN 1 (aget KPOL i + 1) ar fun k ar => do
      let dk ← idx (aget s.doik i) k
      let ndt := aget s.x i * (← idx delp dk) * (← idx (aget s.taup i) k)
      pure (arPol itau ndt dk (← idx (aget s.toik i) k) ar)
    loopN (1 + aget KPOL i) (aget KPOL i + aget KEXP i + 1) ar fun k ar => do
      let dk ← idx (aget s.doik i) k
      let ck ← idx (aget s.coik i) k
      let ndt := aget s.x i * (← idx delp dk) * (← idx (aget s.taup i) k) * (← idx expd ck)
      pure (arExp itau ndt dk ck (← idx delp ck) (← idx (aget s.toik i) k) ar)
  else pure ar

/-- Body of the pair loop of `alphar`, src/gerg2008.rs:4603-4652. -/
def arPair (s : Gerg F) (itau : Int) (del lntau : F) (delp : Vector F 8) (i j : Fin 22)
    (ar : Ar F) : Res (Ar F) := do
  if EPSILON <. aget s.x j then
    let mn := aget2 MNUMB i j
    if mn > 0 then
      let xijf := aget s.x i * aget s.x j * tab2 FIJ i j
      let ar ← loopN 1 ((← idx KPOLIJ mn) + 1) ar fun k ar => do
        let dk ← idx2 s.dijk mn k
        let ndt := xijf * (← idx delp dk) * (← idx2 s.taupijk mn k)
        pure (arPol itau ndt dk (← idx2 s.tijk mn k) ar)
      loopN (1 + (← idx KPOLIJ mn)) ((← idx KPOLIJ mn) + (← idx KEXPIJ mn) + 1) ar fun k ar => do
        let cij0 := (← idx2 s.cijk mn k) * aget delp 2
        let eij0 := (← idx2 s.eijk mn k) * del
        let dk ← idx2 s.dijk mn k
        let tk ← idx2 s.tijk mn k
        let ndt := xijf * (← idx2 s.nijk mn k) * (← idx delp dk)
          * exp (cij0 + eij0 + (← idx2 s.gijk mn k) + tk * lntau)
        pure (arMix itau ndt dk cij0 eij0 tk ar)
    else pure ar
  else pure ar

/-- `Gerg2008::alphar`, src/gerg2008.rs:4517-4656. -/
def alphar (s : Gerg F) (itau : Int) : Res (Gerg F) := do
  let s := { s with ar := arZero s.ar }
  let r := reducingparameters s
  let s := r.1
  let dr := r.2.1
  let tr := r.2.2
  let del := s.d / dr
  let tau := tr / s.t
  let lntau := ln tau
  let p := arDelp del
  let s ← if f% 0.0000001 <. abs (s.t - s.told) || f% 0.0000001 <. abs (tr - s.trold2)
    then tterms s lntau else pure s
  let s := { s with told := s.t }
  let s := { s with trold2 := tr }
  let ar ← loopM 1 22 s.ar fun i ar => arPure s itau p.1 p.2 i ar
  -- `for i in 1..NC_GERG`: the last component has no partner
  let ar ← (rangeFin 1 22).dropLast.foldlM (fun ar i =>
    if EPSILON <. aget s.x i then
      loopM (i.1 + 1) 22 ar fun j ar => arPair s itau del lntau p.1 i j ar
    else pure ar) ar
  pure { s with ar := ar }

/-! ## Public calculations -/

/-- `Gerg2008::pressure`, src/gerg2008.rs:4281-4287: the new object and the returned value. -/
def pressure (s : Gerg F) : Res (Gerg F × F) := do
  let s ← alphar s 0
  let s := { s with z := f% 1.0 + aget2 s.ar 0 1 }
  let p := s.d * RGERG * s.t * s.z
  let s := { s with
    dpddsave := RGERG * s.t * (f% 1.0 + f% 2.0 * aget2 s.ar 0 1 + aget2 s.ar 0 2) }
  pure (s, p)

/-- The part of `properties` after the calls to `molar_mass`, `alpha0` and `alphar`,
src/gerg2008.rs:4385-4415: the new object and the returned pressure. -/
def propsFinish (s : Gerg F) : Gerg F × F :=
  let rt := RGERG * s.t
  let s := { s with z := f% 1.0 + aget2 s.ar 0 1 }
  let p := s.d * rt * s.z
  let s := { s with dp_dd := rt * (f% 1.0 + f% 2.0 * aget2 s.ar 0 1 + aget2 s.ar 0 2) }
  let s := { s with dp_dt := s.d * RGERG * (f% 1.0 + aget2 s.ar 0 1 - aget2 s.ar 1 1) }
  let s := { s with d2p_dtd := RGERG
    * (f% 1.0 + f% 2.0 * aget2 s.ar 0 1 + aget2 s.ar 0 2 - f% 2.0 * aget2 s.ar 1 1 - aget2 s.ar 1 2) }
  let s := { s with a := rt * aget s.a0 0 + aget2 s.ar 0 0 }
  let s := { s with g := rt * (f% 1.0 + aget2 s.ar 0 1 + aget s.a0 0 + aget2 s.ar 0 0) }
  let s := { s with u := rt * (aget s.a0 1 + aget2 s.ar 1 0) }
  let s := { s with h := rt * (f% 1.0 + aget2 s.ar 0 1 + aget s.a0 1 + aget2 s.ar 1 0) }
  let s := { s with s := RGERG * (aget s.a0 1 + aget2 s.ar 1 0 - aget s.a0 0 - aget2 s.ar 0 0) }
  let s := { s with cv := -RGERG * (aget s.a0 2 + aget2 s.ar 2 0) }
  let s :=
    if EPSILON <. s.d then
      let s := { s with cp := s.cv + s.t * (s.dp_dt / s.d) * (s.dp_dt / s.d) / s.dp_dd }
      let s := { s with d2p_dd2 :=
        rt * (f% 2.0 * aget2 s.ar 0 1 + f% 4.0 * aget2 s.ar 0 2 + aget2 s.ar 0 3) / s.d }
      { s with jt := (s.t / s.d * s.dp_dt / s.dp_dd - f% 1.0) / s.cp / s.d }
    else
      let s := { s with cp := s.cv + RGERG }
      let s := { s with d2p_dd2 := f% 0.0 }
      { s with jt := f% 1E+20 }
  let s := { s with w := f% 1000.0 * s.cp / s.cv * s.dp_dd / s.mm }
  let s := if s.w <. f% 0.0 then { s with w := f% 0.0 } else s
  let s := { s with w := sqrt s.w }
  let s := { s with kappa := powi s.w 2 * s.mm / (rt * f% 1000.0 * s.z) }
  (s, p)

/-- `Gerg2008::properties`, src/gerg2008.rs:4380-4416. -/
def properties (s : Gerg F) : Res (Gerg F × F) := do
  let s := molar_mass s
  let s := alpha0 s
  let s ← alphar s 1
  pure (propsFinish s)

/-- `Gerg2008::pseudocriticalpoint`, src/gerg2008.rs:4697-4710. Only `dcx` is used by the caller. -/
def pseudocriticalpoint (s : Gerg F) : F × F :=
  let a := loop 1 22 (f% 0.0, f% 0.0) fun i (a : F × F) =>
    (a.1 + aget s.x i * tab TC i, a.2 + aget s.x i / tab DC i)
  (if EPSILON <. a.2 then f% 1.0 / a.2 else f% 0.0, a.1)

/-- `TOLR`, src/gerg2008.rs:4293. -/
def TOLR : F := f% 0.0000001

/-- `(-7.0..=100.0).contains(&vlog)`, src/gerg2008.rs:4310. -/
def inRange (vlog : F) : Bool := -(f% 7.0) <=. vlog && vlog <=. f% 100.0

/-- The restart density after failure number `nfail`, src/gerg2008.rs:4320-4326. -/
def restartD (dcx : F) (nfail : Int) (d : F) : F :=
  if nfail == 1 then dcx * f% 3.0
  else if nfail == 2 then dcx * f% 2.5
  else if nfail == 3 then dcx * f% 2.0
  else d

/-- The trial step in log-volume away from a two-phase point, src/gerg2008.rs:4333-4339. -/
def vincAt (dcx d : F) (it : Nat) : F :=
  let vinc : F := if dcx <. d then -(f% 0.1) else f% 0.1
  let vinc := if it > 5 then vinc / f% 2.0 else vinc
  if it > 10 && it < 20 then vinc / f% 5.0 else vinc

/-- The iteration of `density`, src/gerg2008.rs:4309-4376. `n` counts the remaining rounds of
`for it in 1..=50`, `it` is the loop variable. -/
def densityLoop (iflag : Int) (dcx plog : F) :
    (n it : Nat) → (nfail ifail : Int) → F → Gerg F → Res (Gerg F × Except DensityError Unit)
  | 0, _, _, _, _, s => pure ({ s with d := s.p / RGERG / s.t }, .error .IterationFail)
  | n + 1, it, nfail, ifail, vlog, s =>
    let restart : Bool := !inRange vlog || it == 20 || it == 30 || it == 40 || ifail == 1
    if restart && nfail > 2 then
      pure ({ s with d := s.p / RGERG / s.t }, .error .IterationFail)
    else do
      let ifail := if restart then 0 else ifail
      let nfail := if restart then nfail + 1 else nfail
      let s := if restart then { s with d := restartD dcx nfail s.d } else s
      let vlog := if restart then -ln s.d else vlog
      let s := { s with d := exp (-vlog) }
      let (s, p2) ← pressure s
      if s.dpddsave <. EPSILON || p2 <. EPSILON then
        densityLoop iflag dcx plog n (it + 1) nfail ifail (vlog + vincAt dcx s.d it) s
      else
        let dpdlv := -s.d * s.dpddsave
        let vdiff := (ln p2 - plog) * p2 / dpdlv
        let vlog := vlog + -vdiff
        if abs vdiff <. TOLR then
          if s.dpddsave <. f% 0.0 then
            densityLoop iflag dcx plog n (it + 1) nfail 1 vlog s
          else
            let s := { s with d := exp (-vlog) }
            if iflag > 0 then do
              let (s, pp) ← properties s
              if (pp <=. f% 0.0 || s.dp_dd <=. f% 0.0 || s.d2p_dtd <=. f% 0.0)
                  || (s.cv <=. f% 0.0 || s.cp <=. f% 0.0 || s.w <=. f% 0.0) then
                pure ({ s with d := s.p / RGERG / s.t }, .error .IterationFail)
              else
                pure (s, .error .IterationFail)
            else
              pure (s, .ok ())
        else
          densityLoop iflag dcx plog n (it + 1) nfail ifail vlog s

/-- `Gerg2008::density`, src/gerg2008.rs:4290-4377. -/
def density (s : Gerg F) (iflag : Int) : Res (Gerg F × Except DensityError Unit) :=
  let dcx := (pseudocriticalpoint s).1
  let s :=
    if -EPSILON <. s.d then
      let s := { s with d := s.p / RGERG / s.t }
      if iflag == 2 then { s with d := dcx * f% 3.0 } else s
    else { s with d := abs s.d }
  let plog := ln s.p
  let vlog := -ln s.d
  densityLoop iflag dcx plog 50 1 0 0 vlog s

end Gerg

end Aga8
