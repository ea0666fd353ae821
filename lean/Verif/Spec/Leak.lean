import Verif.Spec.DetailApi
import Verif.Spec.GergApi

/-! # Vocabulary for histories that differ in stale results only (C53) -/

namespace Aga8

namespace Detail

variable {F : Type}

/-- The inputs of a calculation agree: temperature, pressure, density and fractions. The other public fields (`z`, `mm`,
`dp_dd`, ..., `kappa`), which hold results of earlier calls, may differ. -/
structure SameInputs (q q' : Pub F) : Prop where
  t : q.t = q'.t
  p : q.p = q'.p
  d : q.d = q'.d
  x : q.x = q'.x

/-- Two uses of the interface that differ in the values written to result fields only. -/
inductive SameUse : Op F → Op F → Prop
  | write {q q' : Pub F} : SameInputs q q' → SameUse (.write q) (.write q')
  | call (op : Op F) : SameUse op op

end Detail

namespace Gerg

variable {F : Type}

/-- The inputs of a calculation agree: temperature, pressure, density and the fractions of the 21 components (slots 1 to 21).
The result fields and the unused slot 0 of the fractions may differ. -/
structure SameInputs (q q' : Pub F) : Prop where
  t : q.t = q'.t
  p : q.p = q'.p
  d : q.d = q'.d
  x : ∀ i : Fin 22, 1 ≤ i.1 → aget q.x i = aget q'.x i

/-- Two uses of the interface that differ in the values written to result fields and to slot 0 only. -/
inductive SameUse : Op F → Op F → Prop
  | write {q q' : Pub F} : SameInputs q q' → SameUse (.write q) (.write q')
  | call (op : Op F) : SameUse op op

end Gerg

end Aga8
