import Verif.Gerg

/-! # The public interface of a GERG-2008 object as a state machine

Everything a user can see of a `Gerg2008` is its public fields and the values its methods return.
These definitions are the vocabulary in which the history properties are stated. -/

namespace Aga8.Gerg

open FOps

variable {F : Type} [Add F] [Sub F] [Mul F] [Div F] [Neg F] [FOps F]

/-- The public fields of `Gerg2008`, src/gerg2008.rs:2355-2395. -/
structure Pub (F : Type) where
  t : F
  p : F
  d : F
  z : F
  mm : F
  dp_dd : F
  d2p_dd2 : F
  d2p_dtd : F
  dp_dt : F
  u : F
  h : F
  s : F
  cv : F
  cp : F
  w : F
  g : F
  jt : F
  kappa : F
  x : Vector F 22

/-- What a user can read. -/
def pub (s : Gerg F) : Pub F :=
  ⟨s.t, s.p, s.d, s.z, s.mm, s.dp_dd, s.d2p_dd2, s.d2p_dtd, s.dp_dt, s.u, s.h, s.s, s.cv, s.cp,
    s.w, s.g, s.jt, s.kappa, s.x⟩

/-- The user overwrites public fields (any of them, with any values; fields not meant to change are written
with their current value). -/
def setPub (s : Gerg F) (q : Pub F) : Gerg F :=
  { s with
    t := q.t, p := q.p, d := q.d, z := q.z, mm := q.mm, dp_dd := q.dp_dd, d2p_dd2 := q.d2p_dd2,
    d2p_dtd := q.d2p_dtd, dp_dt := q.dp_dt, u := q.u, h := q.h, s := q.s, cv := q.cv, cp := q.cp,
    w := q.w, g := q.g, jt := q.jt, kappa := q.kappa, x := q.x }

/-- The parameters of the equation of state stored in the object (private fields filled by `setup`). -/
structure Params (F : Type) where
  coik : Vector (Vector Nat 25) 22
  doik : Vector (Vector Nat 25) 22
  toik : Vector (Vector F 25) 22
  dijk : Vector (Vector Nat 13) 13
  tijk : Vector (Vector F 13) 11
  cijk : Vector (Vector F 13) 11
  eijk : Vector (Vector F 13) 11
  gijk : Vector (Vector F 13) 11
  nijk : Vector (Vector F 13) 11
  n0i : Vector (Vector F 8) 22
  bvij : Vector (Vector F 22) 22
  gvij : Vector (Vector F 22) 22
  btij : Vector (Vector F 22) 22
  gtij : Vector (Vector F 22) 22

/-- The equation-of-state parameters of an object. -/
def params (s : Gerg F) : Params F :=
  ⟨s.coik, s.doik, s.toik, s.dijk, s.tijk, s.cijk, s.eijk, s.gijk, s.nijk, s.n0i, s.bvij, s.gvij,
    s.btij, s.gtij⟩

/-- One use of the public interface. -/
inductive Op (F : Type) where
  /-- assign public fields -/
  | write (q : Pub F)
  | setComposition (c : Composition F)
  | molarMass
  | pressure
  /-- `density(iflag)` -/
  | density (iflag : Int)
  | properties

/-- What a call returns to the user. -/
inductive Out (F : Type) where
  | unit
  | num (v : F)
  | comp (r : Except CompositionError Unit)
  | dens (r : Except DensityError Unit)

/-- Effect of one use of the interface. -/
def step (s : Gerg F) : Op F → Res (Gerg F × Out F)
  | .write q => pure (setPub s q, .unit)
  | .setComposition c => pure ((set_composition s c).1, .comp (set_composition s c).2)
  | .molarMass => pure (molar_mass s, .unit)
  | .pressure => do let r ← Gerg.pressure s; pure (r.1, .num r.2)
  | .density iflag => do let r ← Gerg.density s iflag; pure (r.1, .dens r.2)
  | .properties => do let r ← Gerg.properties s; pure (r.1, .num r.2)

/-- A history: a sequence of uses, with everything returned on the way. -/
def run (s : Gerg F) : List (Op F) → Res (Gerg F × List (Out F))
  | [] => pure (s, [])
  | op :: ops => do
    let r ← step s op
    let r' ← run r.1 ops
    pure (r'.1, r.2 :: r'.2)

/-- A history on a new object. -/
def runNew (ops : List (Op F)) : Res (Gerg F × List (Out F)) := do
  run (← new) ops

/-- An object some history of public calls on a new object leads to. Public fields can be written at will, so this
restricts the private state only. -/
def Reachable (s : Gerg F) : Prop := ∃ ops outs, runNew ops = .ok (s, outs)

/-! ## History independence (C22)

The specification machine has no caches: every call is executed on a *freshly constructed* object that was given the
current public fields, and only the public fields survive the call. -/

/-- One use of the interface on a freshly constructed object with public fields `q`. -/
def freshStep (q : Pub F) (op : Op F) : Res (Pub F × Out F) := do
  let f ← new
  let r ← step (setPub f q) op
  pure (pub r.1, r.2)

/-- A history in which every call is made on a freshly constructed object. -/
def freshRun (q : Pub F) : List (Op F) → Res (Pub F × List (Out F))
  | [] => pure (q, [])
  | op :: ops => do
    let r ← freshStep q op
    let r' ← freshRun r.1 ops
    pure (r'.1, r.2 :: r'.2)

/-- Some fraction (slots 1 to 21 hold the components, slot 0 is unused) differs by more than 1e-7. -/
def XFar (x y : Vector F 22) : Prop :=
  ∃ i : Fin 22, 1 ≤ i.1 ∧ FOps.lt (f% 0.0000001) (abs (aget x i - aget y i)) = true

/-- The fractions of all components are identical. -/
def XSame (x y : Vector F 22) : Prop := ∀ i : Fin 22, 1 ≤ i.1 → aget x i = aget y i

/-- The temperatures differ by more than 1e-7. -/
def TFar (t u : F) : Prop := FOps.lt (f% 0.0000001) (abs (t - u)) = true

/-- The operations that evaluate the equation of state. -/
def Op.evaluates : Op F → Prop
  | .pressure | .density _ | .properties => True
  | _ => False

/-- The last evaluated (composition, temperature) pair, if any, after one more operation:
every evaluating call evaluates at the composition and temperature it finds. -/
def lastAfter (last : List (Vector F 22 × F)) (q : Pub F) : Op F → List (Vector F 22 × F)
  | .pressure | .properties | .density _ => [(q.x, q.t)]
  | _ => last

/-- The composition and temperature are distinguishable from "nothing set" and are each either identical to
the last evaluated ones or distinguishable from them. -/
def Resolved (last : List (Vector F 22 × F)) (q : Pub F) : Prop :=
  XFar q.x (fill 22 (f% 0.0)) ∧ TFar q.t (f% 0.0) ∧
  ∀ e ∈ last, (XSame q.x e.1 ∨ XFar q.x e.1) ∧ (q.t = e.2 ∨ TFar q.t e.2)

/-- Every evaluation of the history is made at a resolved state. The public fields along the history are those of
the specification machine. -/
def HistOK (last : List (Vector F 22 × F)) (q : Pub F) : List (Op F) → Prop
  | [] => True
  | op :: ops =>
    (op.evaluates → Resolved last q) ∧
    ∀ r, freshStep q op = .ok r → HistOK (lastAfter last q op) r.1 ops

end Aga8.Gerg
