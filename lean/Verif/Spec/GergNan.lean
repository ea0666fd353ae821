import Verif.Spec.GergApi
import Verif.Spec.GergEos

/-! # Vocabulary for histories with NaN inputs of a GERG object (C52) -/

namespace Aga8.Gerg

open FOps

variable {F : Type} [Add F] [Sub F] [Mul F] [Div F] [Neg F] [FOps F]

/-- What `pressure()` reports after a history on a new object: the compressibility factor and the pressure. -/
def report (ops : List (Op F)) : Res (F × F) :=
  match runNew ops with
  | .ok (s, _) =>
    match s.pressure with
    | .ok r => .ok (r.1.z, r.2)
    | .error e => .error e
  | .error e => .error e

/-- No two components that are present (fraction above 1e-15) have a departure function. True of every pure gas. -/
def NoDepX (x : Vector F 22) : Prop := ∀ i j : Fin 22, 1 ≤ i.1 → i < j →
  FOps.lt (f% 1.0e-15) (aget x i) = true → FOps.lt (f% 1.0e-15) (aget x j) = true →
  (GergEos.departure i.1 j.1).2 = []

end Aga8.Gerg
