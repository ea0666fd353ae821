import Verif.Spec.DetailApi

/-! # Specification for history independence of DETAIL objects (C19)

The specification machine has no caches: every call is executed on a *freshly constructed* object that was given the
current public fields, and only the public fields survive the call. -/

namespace Aga8.Detail

open FOps

variable {F : Type} [Add F] [Sub F] [Mul F] [Div F] [Neg F] [FOps F]

/-- One use of the interface on a freshly constructed object with public fields `q`. -/
def freshStep (q : Pub F) (op : Op F) : Res (Pub F × Out F) := do
  let f ← new
  let r ← step (setPub f q) op
  pure (pub r.1, r.2)

/-- A history in which every call is made on a freshly constructed object. -/
def freshRun (q : Pub F) : List (Op F) → Res (Pub F × List (Out F))
  | [] => pure (q, [])
  | op :: ops => do
    let r ← freshStep q op
    let r' ← freshRun r.1 ops
    pure (r'.1, r.2 :: r'.2)

/-- Some fraction differs by more than 1e-7. -/
def XFar (x y : Vector F 21) : Prop :=
  ∃ i, FOps.lt (f% 0.0000001) (abs (aget x i - aget y i)) = true

/-- The temperatures differ by more than 1e-7. -/
def TFar (t u : F) : Prop := FOps.lt (f% 0.0000001) (abs (t - u)) = true

/-- The operations that evaluate the equation of state. -/
def Op.evaluates : Op F → Prop
  | .pressure | .density | .properties => True
  | _ => False

/-- The (composition, temperature) pairs that may have been the last evaluated one, after one more operation:
`pressure` and `properties` always evaluate, `density` may return before evaluating. -/
def lastAfter (last : List (Vector F 21 × F)) (q : Pub F) : Op F → List (Vector F 21 × F)
  | .pressure | .properties => [(q.x, q.t)]
  | .density => (q.x, q.t) :: last
  | _ => last

/-- The composition and temperature are distinguishable from "nothing set" and are each either identical to
the last evaluated ones or distinguishable from them. -/
def Resolved (last : List (Vector F 21 × F)) (q : Pub F) : Prop :=
  XFar q.x (fill 21 (f% 0.0)) ∧ TFar q.t (f% 0.0) ∧
  ∀ e ∈ last, (q.x = e.1 ∨ XFar q.x e.1) ∧ (q.t = e.2 ∨ TFar q.t e.2)

/-- Every evaluation of the history is made at a resolved state. The public fields along the history are those of
the specification machine. -/
def HistOK (last : List (Vector F 21 × F)) (q : Pub F) : List (Op F) → Prop
  | [] => True
  | op :: ops =>
    (op.evaluates → Resolved last q) ∧
    ∀ r, freshStep q op = .ok r → HistOK (lastAfter last q op) r.1 ops

end Aga8.Detail
