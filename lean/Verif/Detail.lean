import Verif.Composition
import Verif.Tables.Detail

/-! # Model of `src/detail.rs`

The AGA 8 DETAIL equation of state. Method calls return the new object; functions that use an index
read from a table live in `Res` and panic when it is out of bounds. -/

namespace Aga8

/-- `struct Detail`, src/detail.rs:657-721 (all fields, in the same order). -/
structure Detail (F : Type) where
  dp_dd_save : F
  t : F
  p : F
  d : F
  z : F
  mm : F
  dp_dd : F
  d2p_dd2 : F
  d2p_dtd : F
  dp_dt : F
  u : F
  h : F
  s : F
  cv : F
  cp : F
  w : F
  g : F
  jt : F
  kappa : F
  x : Vector F 21
  xold : Vector F 21
  told : F
  ki25 : Vector F 21
  ei25 : Vector F 21
  bsnij2 : Vector (Vector (Vector F 18) 21) 21
  bs : Vector F 18
  kij5 : Vector (Vector F 21) 21
  uij5 : Vector (Vector F 21) 21
  gij5 : Vector (Vector F 21) 21
  k3 : F
  csn : Vector F 58
  a0 : Vector F 3
  ar : Vector (Vector F 4) 4
  tun : Vector F 58
  n0i : Vector (Vector F 7) 21

namespace Detail

open FOps Tab

variable {F : Type} [Add F] [Sub F] [Mul F] [Div F] [Neg F] [FOps F]

/-- `EPSILON`, src/detail.rs:9. -/
def EPSILON : F := f% 1e-15

/-- `RDETAIL`, src/detail.rs:10. -/
def RDETAIL : F := f% 8.31451

/-- An entry of a table of decimal literals, in the number type. -/
def tab {n : Nat} (v : Vector Dec n) (i : Fin n) : F := ofDec (aget v i)

/-- An entry of a two-dimensional table of decimal literals, in the number type. -/
def tab2 {n m : Nat} (v : Vector (Vector Dec m) n) (i : Fin n) (j : Fin m) : F := ofDec (aget2 v i j)

/-- `impl Default for Detail`, src/detail.rs:723-763. -/
def default : Detail F where
  dp_dd_save := f% 0.0
  t := f% 0.0
  p := f% 0.0
  d := f% 0.0
  z := f% 0.0
  mm := f% 0.0
  dp_dd := f% 0.0
  d2p_dd2 := f% 0.0
  d2p_dtd := f% 0.0
  dp_dt := f% 0.0
  u := f% 0.0
  h := f% 0.0
  s := f% 0.0
  cv := f% 0.0
  cp := f% 0.0
  w := f% 0.0
  g := f% 0.0
  jt := f% 0.0
  kappa := f% 0.0
  x := fill 21 (f% 0.0)
  xold := fill 21 (f% 0.0)
  told := f% 0.0
  ki25 := fill 21 (f% 0.0)
  ei25 := fill 21 (f% 0.0)
  bsnij2 := fill 21 (fill 21 (fill 18 (f% 0.0)))
  bs := fill 18 (f% 0.0)
  kij5 := fill 21 (fill 21 (f% 0.0))
  uij5 := fill 21 (fill 21 (f% 0.0))
  gij5 := fill 21 (fill 21 (f% 0.0))
  k3 := f% 0.0
  csn := fill 58 (f% 0.0)
  a0 := fill 3 (f% 0.0)
  ar := fill 4 (fill 4 (f% 0.0))
  tun := fill 58 (f% 0.0)
  n0i := fill 21 (fill 7 (f% 0.0))

/-- First loop of `setup`, src/detail.rs:775-778. -/
def setupPow (s : Detail F) : Detail F :=
  loop 0 21 s fun i s =>
    let s := { s with ki25 := aset s.ki25 i (powf (tab KI i) (f% 2.5)) }
    { s with ei25 := aset s.ei25 i (powf (tab EI i) (f% 2.5)) }

/-- The literal assignments to `n0i` in `setup`, src/detail.rs:780-926. -/
def setupN0i (s : Detail F) : Res (Detail F) := do
  let n0i ← n0iAsg.foldlM (fun v a => put2 v a.1 a.2.1 (ofDec a.2.2)) s.n0i
  pure { s with n0i := n0i }

/-- The value `bsnij` computed in `setup` for one `(i, j, n)`, src/detail.rs:933-948. -/
def bsnij (i j : Fin 21) (n : Fin 18) : F :=
  let n' : Fin 58 := ⟨n.1, by omega⟩
  let b : F := f% 1.0
  let b := if aget GN n' == 1 then tab2 GIJ i j * (tab GI i + tab GI j) / f% 2.0 else b
  let b := if aget QN n' == 1 then b * tab QI i * tab QI j else b
  let b := if aget FN n' == 1 then b * tab FI i * tab FI j else b
  let b := if aget SN n' == 1 then b * tab SI i * tab SI j else b
  let b := if aget WN n' == 1 then b * tab WI i * tab WI j else b
  b

/-- Body of the `n` loop of `setup`, src/detail.rs:932-953. -/
def setupB (i j : Fin 21) (n : Fin 18) (s : Detail F) : Detail F :=
  let n' : Fin 58 := ⟨n.1, by omega⟩
  let v := tab AN n'
    * powf (tab2 EIJ i j * sqrt (tab EI i * tab EI j)) (tab UN n')
    * powf (tab KI i * tab KI j) (f% 1.5)
    * bsnij i j n
  { s with bsnij2 := aset s.bsnij2 i (aset (aget s.bsnij2 i) j (aset (aget (aget s.bsnij2 i) j) n v)) }

/-- Body of the `(i, j)` loop of `setup`, src/detail.rs:931-957. -/
def setupIJ (i j : Fin 21) (s : Detail F) : Detail F :=
  let s := loop 0 18 s (setupB i j)
  let s := { s with kij5 := aset2 s.kij5 i j ((powi (tab2 KIJ i j) 5 - f% 1.0) * aget s.ki25 i * aget s.ki25 j) }
  let s := { s with uij5 := aset2 s.uij5 i j ((powi (tab2 UIJ i j) 5 - f% 1.0) * aget s.ei25 i * aget s.ei25 j) }
  { s with gij5 := aset2 s.gij5 i j ((tab2 GIJ i j - f% 1.0) * (tab GI i + tab GI j) / f% 2.0) }

/-- `D0`, src/detail.rs:961. -/
def D0 : F := f% 101.325 / RDETAIL / f% 298.15

/-- Last loop of `setup`, src/detail.rs:963-966. -/
def setupIdeal (s : Detail F) : Detail F :=
  loop 0 21 s fun i s =>
    let s := { s with n0i := aset2 s.n0i i 2 (aget2 s.n0i i 2 - f% 1.0) }
    { s with n0i := aset2 s.n0i i 0 (aget2 s.n0i i 0 - ln D0) }

/-- `Detail::setup`, src/detail.rs:774-967. -/
def setup (s : Detail F) : Res (Detail F) := do
  let s := setupPow s
  let s ← setupN0i s
  let s := loop 0 21 s fun i s => loop 0 21 s fun j s => setupIJ i j s
  pure (setupIdeal s)

/-- `Detail::new`, src/detail.rs:767-771. -/
def new : Res (Detail F) := setup default

/-- `Detail::set_composition`, src/detail.rs:970-996. -/
def set_composition (s : Detail F) (comp : Composition F) :
    Detail F × Except CompositionError Unit :=
  match comp.check with
  | .error e => (s, .error e)
  | .ok _ =>
    let x := s.x
    let x := aset x 0 comp.methane
    let x := aset x 1 comp.nitrogen
    let x := aset x 2 comp.carbon_dioxide
    let x := aset x 3 comp.ethane
    let x := aset x 4 comp.propane
    let x := aset x 5 comp.isobutane
    let x := aset x 6 comp.n_butane
    let x := aset x 7 comp.isopentane
    let x := aset x 8 comp.n_pentane
    let x := aset x 9 comp.hexane
    let x := aset x 10 comp.heptane
    let x := aset x 11 comp.octane
    let x := aset x 12 comp.nonane
    let x := aset x 13 comp.decane
    let x := aset x 14 comp.hydrogen
    let x := aset x 15 comp.oxygen
    let x := aset x 16 comp.carbon_monoxide
    let x := aset x 17 comp.water
    let x := aset x 18 comp.hydrogen_sulfide
    let x := aset x 19 comp.helium
    let x := aset x 20 comp.argon
    ({ s with x := x }, .ok ())

/-- `Detail::molar_mass`, src/detail.rs:1002-1009: the new object and the returned value. -/
def molar_mass (s : Detail F) : Detail F × F :=
  let mm := loop 0 21 (f% 0.0) fun i mm => mm + aget s.x i * tab MMI i
  ({ s with mm := mm }, mm)

/-- Change detection at the start of `x_terms`, src/detail.rs:1017-1024:
`(icheck != 0, xold after the loop)`. -/
def xCheck (s : Detail F) : Bool × Vector F 21 :=
  loop 0 21 (false, s.xold) fun i st =>
    (if f% 0.0000001 <. abs (aget s.x i - aget st.2 i) then true else st.1,
      aset st.2 i (aget s.x i))

/-- The values accumulated by the loops of `x_terms` (`self.k3`, `u`, `g`, `q`, `f`, `self.bs`),
src/detail.rs:1029-1036. -/
structure XAcc (F : Type) where
  k3 : F
  u : F
  g : F
  q : F
  f : F
  bs : Vector F 18

/-- Start values of the accumulators, src/detail.rs:1029-1036. -/
def xInit (s : Detail F) : XAcc F where
  k3 := f% 0.0
  u := f% 0.0
  g := f% 0.0
  q := f% 0.0
  f := f% 0.0
  bs := loop 0 18 s.bs fun n bs => aset bs n (f% 0.0)

/-- Body of the pure fluid loop of `x_terms`, src/detail.rs:1039-1052. -/
def xPure (s : Detail F) (i : Fin 21) (a : XAcc F) : XAcc F :=
  let x := aget s.x i
  if f% 0.0 <. x then
    let xi2 := powi x 2
    { k3 := a.k3 + x * aget s.ki25 i
      u := a.u + x * aget s.ei25 i
      g := a.g + x * tab GI i
      q := a.q + x * tab QI i
      f := a.f + xi2 * tab FI i
      bs := loop 0 18 a.bs fun n bs => aset bs n (aget bs n + xi2 * aget (aget2 s.bsnij2 i i) n) }
  else a

/-- Body of the binary pair loop of `x_terms`, src/detail.rs:1059-1070. -/
def xPair (s : Detail F) (i j : Fin 21) (a : XAcc F) : XAcc F :=
  let xi := aget s.x i
  let xj := aget s.x j
  if f% 0.0 <. xj then
    let xij := f% 2.0 * xi * xj
    { a with
      k3 := a.k3 + xij * aget2 s.kij5 i j
      u := a.u + xij * aget2 s.uij5 i j
      g := a.g + xij * aget2 s.gij5 i j
      bs := loop 0 18 a.bs fun n bs => aset bs n (aget bs n + xij * aget (aget2 s.bsnij2 i j) n) }
  else a

/-- The new value of `self.csn[n]`, src/detail.rs:1079-1088. -/
def xCsn (u g q2 f : F) (n : Fin 58) : F :=
  let c := tab AN n * powf u (tab UN n)
  let c := if aget GN n == 1 then c * g else c
  let c := if aget QN n == 1 then c * q2 else c
  let c := if aget FN n == 1 then c * f else c
  c

/-- The part of `x_terms` after the early return, src/detail.rs:1029-1089. -/
def xCompute (s : Detail F) : Detail F :=
  let a := xInit s
  let a := loop 0 21 a (xPure s)
  let a := { a with k3 := powi a.k3 2, u := powi a.u 2 }
  let a := loop 0 21 a fun i a =>
    if f% 0.0 <. aget s.x i then loop (i.1 + 1) 21 a (xPair s i) else a
  let a := { a with k3 := powf a.k3 (f% 0.6), u := powf a.u (f% 0.2) }
  let q2 := powi a.q 2
  { s with
    k3 := a.k3
    bs := a.bs
    csn := loop 12 58 s.csn fun n csn => aset csn n (xCsn a.u a.g q2 a.f n) }

/-- `Detail::x_terms`, src/detail.rs:1012-1090. -/
def x_terms (s : Detail F) : Detail F :=
  let c := xCheck s
  let s := { s with xold := c.2 }
  if !c.1 then s else xCompute s

/-- One hyperbolic term of `alpha0_detail`: body of the `j` loop, src/detail.rs:1137-1155. The triple is
`(sumhyp0, sumhyp1, sumhyp2)`. -/
def a0Hyp (s : Detail F) (i : Fin 21) (j : Fin 7) (h : F × F × F) : F × F × F :=
  let sumhyp0 := h.1
  let sumhyp1 := h.2.1
  let sumhyp2 := h.2.2
  if (f% 0.0 : F) <. tab2 TH0I i j then
    let th0t := tab2 TH0I i j / s.t
    let ep := exp th0t
    let em := f% 1.0 / ep
    let hsn := (ep - em) / f% 2.0
    let hcn := (ep + em) / f% 2.0
    if j.1 == 3 || j.1 == 5 then
      let loghyp := ln (abs hsn)
      (sumhyp0 + aget2 s.n0i i j * loghyp,
        sumhyp1 + aget2 s.n0i i j * (loghyp - th0t * hcn / hsn),
        sumhyp2 + aget2 s.n0i i j * powi (th0t / hsn) 2)
    else
      let loghyp := ln (abs hcn)
      (sumhyp0 + -aget2 s.n0i i j * loghyp,
        sumhyp1 + -aget2 s.n0i i j * (loghyp - th0t * hsn / hcn),
        sumhyp2 + aget2 s.n0i i j * powi (th0t / hcn) 2)
  else h

/-- Body of the component loop of `alpha0_detail`, src/detail.rs:1129-1164; the triple is
`self.a0`. -/
def a0Comp (s : Detail F) (logd logt : F) (i : Fin 21) (a : F × F × F) : F × F × F :=
  let x := aget s.x i
  if f% 0.0 <. x then
    let logxd := logd + ln x
    let sumhyp := loop 3 7 (f% 0.0, f% 0.0, f% 0.0) (a0Hyp s i)
    (a.1 + x * (logxd + aget2 s.n0i i 0 + aget2 s.n0i i 1 / s.t - aget2 s.n0i i 2 * logt + sumhyp.1),
      a.2.1 + x * (logxd + aget2 s.n0i i 0 - aget2 s.n0i i 2 * (f% 1.0 + logt) + sumhyp.2.1),
      a.2.2 + -x * (aget2 s.n0i i 2 + sumhyp.2.2))
  else a

/-- `Detail::alpha0_detail`, src/detail.rs:1092-1168. -/
def alpha0_detail (s : Detail F) : Detail F :=
  let logd := if EPSILON <. s.d then ln s.d else ln EPSILON
  let logt := ln s.t
  let a := loop 0 21 (f% 0.0, f% 0.0, f% 0.0) (a0Comp s logd logt)
  { s with a0 := #v[a.1 * RDETAIL * s.t, a.2.1 * RDETAIL, a.2.2 * RDETAIL] }

/-- The entries for one `n` of the local arrays of `alphar` (`sum0`, `sumb`, `coefd1..3`,
`coeft1..2`), src/detail.rs:1200-1210. Simplification: the seven local arrays are one array of
records. -/
structure ArTerm (F : Type) where
  sum0 : F
  sumb : F
  coefd1 : F
  coefd2 : F
  coefd3 : F
  coeft1 : F
  coeft2 : F

/-- Initial array entries, src/detail.rs:1200-1210. -/
def arTerm0 : ArTerm F := ⟨f% 0.0, f% 0.0, f% 0.0, f% 0.0, f% 0.0, f% 0.0, f% 0.0⟩

/-- Refresh of `tun` in `alphar`, src/detail.rs:1217-1222. -/
def arTun (s : Detail F) : Detail F :=
  let s := if f% 0.0000001 <. abs (s.t - s.told) then
      { s with tun := loop 0 58 s.tun fun i tun => aset tun i (powf s.t (-tab UN i)) }
    else s
  { s with told := s.t }

/-- The array `dknn` of powers of the reduced density, src/detail.rs:1202, 1226-1230. -/
def arDknn (dred : F) : Vector F 10 :=
  loop 1 10 (aset (fill 10 (f% 0.0)) 0 (f% 1.0)) fun n dknn =>
    aset dknn n (dred * aget dknn ⟨n.1 - 1, by omega⟩)

/-- The array `expn`, src/detail.rs:1203, 1231-1235. -/
def arExpn (dknn : Vector F 10) : Vector F 5 :=
  loop 1 5 (aset (fill 5 (f% 0.0)) 0 (f% 1.0)) fun n expn =>
    aset expn n (exp (-aget dknn ⟨n.1, by omega⟩))

/-- Body of the first `n` loop of `alphar`, src/detail.rs:1238-1266. `dknn[BN[n]]` and
`expn[KN[n]]` are run-time indices. -/
def arTermAt (s : Detail F) (dred : F) (dknn : Vector F 10) (expn : Vector F 5) (n : Fin 58) :
    Res (ArTerm F) := do
  let coeft1 := RDETAIL * (tab UN n - f% 1.0)
  let coeft2 := coeft1 * tab UN n
  let sumb : F :=
    if h : n.1 ≤ 17 then
      let sum := aget s.bs ⟨n.1, by omega⟩ * s.d
      let sum := if n.1 ≥ 12 then sum + -aget s.csn n * dred else sum
      sum * aget s.tun n
    else f% 0.0
  if n.1 ≥ 12 then
    let bn := aget BN n
    let kn := aget KN n
    let sum0 := aget s.csn n * (← idx dknn bn) * aget s.tun n * (← idx expn kn)
    let bkd := ofNat bn - ofNat kn * (← idx dknn kn)
    let ckd := ofNat kn * ofNat kn * (← idx dknn kn)
    let coefd1 := bkd
    let coefd2 := bkd * (bkd - f% 1.0) - ckd
    let coefd3 := (bkd - f% 2.0) * coefd2 + ckd * (f% 1.0 - ofNat kn - f% 2.0 * bkd)
    pure ⟨sum0, sumb, coefd1, coefd2, coefd3, coeft1, coeft2⟩
  else
    pure ⟨f% 0.0, sumb, f% 0.0, f% 0.0, f% 0.0, coeft1, coeft2⟩

/-- Body of the second `n` loop of `alphar`, src/detail.rs:1268-1290. -/
def arAcc (itau : Int) (rt : F) (c : ArTerm F) (ar : Vector (Vector F 4) 4) : Vector (Vector F 4) 4 :=
  let s0 := c.sum0 + c.sumb
  let s1 := c.sum0 * c.coefd1 + c.sumb
  let s2 := c.sum0 * c.coefd2
  let s3 := c.sum0 * c.coefd3
  let ar := aset2 ar 0 0 (aget2 ar 0 0 + rt * s0)
  let ar := aset2 ar 0 1 (aget2 ar 0 1 + rt * s1)
  let ar := aset2 ar 0 2 (aget2 ar 0 2 + rt * s2)
  let ar := aset2 ar 0 3 (aget2 ar 0 3 + rt * s3)
  if itau > 0 then
    let ar := aset2 ar 1 1 (aget2 ar 1 1 - c.coeft1 * s1)
    let ar := aset2 ar 1 0 (aget2 ar 1 0 - c.coeft1 * s0)
    let ar := aset2 ar 2 0 (aget2 ar 2 0 + c.coeft2 * s0)
    ar
  else ar

/-- Clearing of `self.ar` in `alphar`, src/detail.rs:1212-1216. -/
def arZero (ar : Vector (Vector F 4) 4) : Vector (Vector F 4) 4 :=
  loop 0 4 ar fun i ar => loop 0 4 ar fun j ar => aset2 ar i j (f% 0.0)

/-- `Detail::alphar`, src/detail.rs:1170-1291. The unused argument `_idel` is dropped. -/
def alphar (s : Detail F) (itau : Int) : Res (Detail F) := do
  let s := { s with ar := arZero s.ar }
  let s := arTun s
  let dred := s.k3 * s.d
  let dknn := arDknn dred
  let expn := arExpn dknn
  let rt := RDETAIL * s.t
  let c ← loopM 0 58 (fill 58 arTerm0) fun n c => do
    pure (aset c n (← arTermAt s dred dknn expn n))
  pure { s with ar := loop 0 58 s.ar fun n ar => arAcc itau rt (aget c n) ar }

/-- `Detail::pressure`, src/detail.rs:1351-1358: the new object and the returned value. -/
def pressure (s : Detail F) : Res (Detail F × F) := do
  let s := x_terms s
  let s ← alphar s 0
  let s := { s with z := f% 1.0 + aget2 s.ar 0 1 / RDETAIL / s.t }
  let p := s.d * RDETAIL * s.t * s.z
  let s := { s with dp_dd_save := RDETAIL * s.t + f% 2.0 * aget2 s.ar 0 1 + aget2 s.ar 0 2 }
  pure (s, p)

/-- `TOLR`, src/detail.rs:1311. -/
def TOLR : F := f% 0.0000001

/-- The iteration of `density`, src/detail.rs:1319-1344; the first argument counts the remaining
rounds of `for _it in 0..20`. -/
def densityLoop (plog : F) : Nat → F → Detail F → Res (Detail F × Except DensityError Unit)
  | 0, _, s => pure ({ s with d := s.p / RDETAIL / s.t }, .error .IterationFail)
  | n + 1, vlog, s =>
    if !(-(f% 7.0) <=. vlog && vlog <=. f% 100.0) then
      pure ({ s with d := s.p / RDETAIL / s.t }, .error .IterationFail)
    else do
      let s := { s with d := exp (-vlog) }
      let (s, p2) ← pressure s
      if s.dp_dd_save <. EPSILON || p2 <. EPSILON then
        densityLoop plog n (vlog + f% 0.1) s
      else
        let dpdlv := -s.d * s.dp_dd_save
        let vdiff := (ln p2 - plog) * p2 / dpdlv
        let vlog := vlog - vdiff
        if abs vdiff <. TOLR then
          pure ({ s with d := exp (-vlog) }, .ok ())
        else
          densityLoop plog n vlog s

/-- `Detail::density`, src/detail.rs:1302-1345. -/
def density (s : Detail F) : Res (Detail F × Except DensityError Unit) :=
  if abs s.p <. EPSILON then
    pure ({ s with d := f% 0.0 }, .error .PressureTooLow)
  else
    let s := if -EPSILON <. s.d then { s with d := s.p / RDETAIL / s.t } else { s with d := abs s.d }
    let plog := ln s.p
    let vlog := -ln s.d
    densityLoop plog 20 vlog s

/-- The part of `properties` after the calls to `molar_mass`, `x_terms`, `alpha0_detail` and `alphar`,
src/detail.rs:1377-1405. -/
def propsFinish (s : Detail F) (mm : F) : Detail F :=
  let rt := RDETAIL * s.t
  let s := { s with z := f% 1.0 + aget2 s.ar 0 1 / rt }
  let s := { s with p := s.d * rt * s.z }
  let s := { s with dp_dd := rt + f% 2.0 * aget2 s.ar 0 1 + aget2 s.ar 0 2 }
  let s := { s with dp_dt := s.d * RDETAIL + s.d * aget2 s.ar 1 1 }
  let a := aget s.a0 0 + aget2 s.ar 0 0
  let s := { s with s := -aget s.a0 1 - aget2 s.ar 1 0 }
  let s := { s with u := a + s.t * s.s }
  let s := { s with cv := -(aget s.a0 2 + aget2 s.ar 2 0) }
  let s :=
    if EPSILON <. s.d then
      let s := { s with h := s.u + s.p / s.d }
      let s := { s with g := a + s.p / s.d }
      let s := { s with cp := s.cv + s.t * powi (s.dp_dt / s.d) 2 / s.dp_dd }
      let s := { s with d2p_dd2 :=
        (f% 2.0 * aget2 s.ar 0 1 + f% 4.0 * aget2 s.ar 0 2 + aget2 s.ar 0 3) / s.d }
      { s with jt := (s.t / s.d * s.dp_dt / s.dp_dd - f% 1.0) / s.cp / s.d }
    else
      let s := { s with h := s.u + rt }
      let s := { s with g := a + rt }
      let s := { s with cp := s.cv + RDETAIL }
      let s := { s with d2p_dd2 := f% 0.0 }
      { s with jt := f% 1.0E+20 }
  let s := { s with w := f% 1000.0 * s.cp / s.cv * s.dp_dd / mm }
  let s := if s.w <. f% 0.0 then { s with w := f% 0.0 } else s
  let s := { s with w := sqrt s.w }
  let s := { s with kappa := s.w * s.w * mm / (rt * f% 1000.0 * s.z) }
  { s with d2p_dtd := f% 0.0 }

/-- `Detail::properties`, src/detail.rs:1367-1406. -/
def properties (s : Detail F) : Res (Detail F) := do
  let (s, mm) := molar_mass s
  let s := x_terms s
  let s := alpha0_detail s
  let s ← alphar s 2
  pure (propsFinish s mm)

end Detail

end Aga8
