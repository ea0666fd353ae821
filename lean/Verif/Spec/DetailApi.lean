import Verif.Detail

/-! # The public interface of a DETAIL object as a state machine

Everything a user can see of a `Detail` is its public fields and the values its methods return.
These definitions are the vocabulary in which the history properties are stated. -/

namespace Aga8.Detail

variable {F : Type} [Add F] [Sub F] [Mul F] [Div F] [Neg F] [FOps F]

/-- The public fields of `Detail`, src/detail.rs:664-704. -/
structure Pub (F : Type) where
  t : F
  p : F
  d : F
  z : F
  mm : F
  dp_dd : F
  d2p_dd2 : F
  d2p_dtd : F
  dp_dt : F
  u : F
  h : F
  s : F
  cv : F
  cp : F
  w : F
  g : F
  jt : F
  kappa : F
  x : Vector F 21

/-- What a user can read. -/
def pub (s : Detail F) : Pub F :=
  ⟨s.t, s.p, s.d, s.z, s.mm, s.dp_dd, s.d2p_dd2, s.d2p_dtd, s.dp_dt, s.u, s.h, s.s, s.cv, s.cp,
    s.w, s.g, s.jt, s.kappa, s.x⟩

/-- The user overwrites public fields (any of them, with any values; fields not meant to change are written
with their current value). -/
def setPub (s : Detail F) (q : Pub F) : Detail F :=
  { s with
    t := q.t, p := q.p, d := q.d, z := q.z, mm := q.mm, dp_dd := q.dp_dd, d2p_dd2 := q.d2p_dd2,
    d2p_dtd := q.d2p_dtd, dp_dt := q.dp_dt, u := q.u, h := q.h, s := q.s, cv := q.cv, cp := q.cp,
    w := q.w, g := q.g, jt := q.jt, kappa := q.kappa, x := q.x }

/-- The parameters of the equation of state stored in the object (private fields filled by `setup`). -/
structure Params (F : Type) where
  ki25 : Vector F 21
  ei25 : Vector F 21
  bsnij2 : Vector (Vector (Vector F 18) 21) 21
  kij5 : Vector (Vector F 21) 21
  uij5 : Vector (Vector F 21) 21
  gij5 : Vector (Vector F 21) 21
  n0i : Vector (Vector F 7) 21

/-- The equation-of-state parameters of an object. -/
def params (s : Detail F) : Params F :=
  ⟨s.ki25, s.ei25, s.bsnij2, s.kij5, s.uij5, s.gij5, s.n0i⟩

/-- One use of the public interface. -/
inductive Op (F : Type) where
  /-- assign public fields -/
  | write (q : Pub F)
  | setComposition (c : Composition F)
  | molarMass
  | pressure
  | density
  | properties

/-- What a call returns to the user. -/
inductive Out (F : Type) where
  | unit
  | num (v : F)
  | comp (r : Except CompositionError Unit)
  | dens (r : Except DensityError Unit)

/-- Effect of one use of the interface. -/
def step (s : Detail F) : Op F → Res (Detail F × Out F)
  | .write q => pure (setPub s q, .unit)
  | .setComposition c => pure ((set_composition s c).1, .comp (set_composition s c).2)
  | .molarMass => pure ((molar_mass s).1, .num (molar_mass s).2)
  | .pressure => do let r ← Detail.pressure s; pure (r.1, .num r.2)
  | .density => do let r ← Detail.density s; pure (r.1, .dens r.2)
  | .properties => do let s ← Detail.properties s; pure (s, .unit)

/-- A history: a sequence of uses, with everything returned on the way. -/
def run (s : Detail F) : List (Op F) → Res (Detail F × List (Out F))
  | [] => pure (s, [])
  | op :: ops => do
    let r ← step s op
    let r' ← run r.1 ops
    pure (r'.1, r.2 :: r'.2)

/-- A history on a new object. -/
def runNew (ops : List (Op F)) : Res (Detail F × List (Out F)) := do
  run (← new) ops

end Aga8.Detail
