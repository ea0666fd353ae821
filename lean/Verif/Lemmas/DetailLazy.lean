import Verif.Lemmas.DetailParams
import Verif.Lemmas.DetailHist

/-! # A new DETAIL object, entry by entry

Equal to the object `new` builds by its loops, but an entry that is not read is not computed when the kernel runs the
program. -/

set_option linter.unusedSectionVars false

namespace Aga8.Detail

open FOps Tab

variable {F : Type} [Add F] [Sub F] [Mul F] [Div F] [Neg F] [FOps F]

/-- The parameters of a new object, each given by its formula (the ideal-gas ones as they are). -/
def lazyParams (n0i : Vector (Vector F 7) 21) : Params F where
  ki25 := Vector.ofFn fun i => powf (tab KI i) (f% 2.5)
  ei25 := Vector.ofFn fun i => powf (tab EI i) (f% 2.5)
  bsnij2 := Vector.ofFn fun i => Vector.ofFn fun j => Vector.ofFn fun n => bVal i j n
  kij5 := Vector.ofFn fun i => Vector.ofFn fun j => kVal i j
  uij5 := Vector.ofFn fun i => Vector.ofFn fun j => uVal i j
  gij5 := Vector.ofFn fun i => Vector.ofFn fun j => gVal i j
  n0i := n0i

def lazyOf (d : Detail F) (n0i : Vector (Vector F 7) 21) : Detail F :=
  mkD (pub d) (lazyParams n0i) (cache d) (scratch d)

theorem lazy_eq (n d : Detail F) (h : pub n = pub d ∧ cache n = cache d ∧ scratch n = scratch d)
    (hp : ∀ i j : Fin 21, aget n.ki25 i = powf (tab KI i) (f% 2.5) ∧ aget n.ei25 i = powf (tab EI i) (f% 2.5) ∧
      (∀ k, aget (aget2 n.bsnij2 i j) k = bVal i j k) ∧ aget2 n.kij5 i j = kVal i j ∧
      aget2 n.uij5 i j = uVal i j ∧ aget2 n.gij5 i j = gVal i j) : n = lazyOf d n.n0i := by
  have h4 : params n = lazyParams n.n0i := by
    unfold lazyParams params
    have e1 : n.ki25 = Vector.ofFn fun i => powf (tab KI i) (f% 2.5) := arr_ext fun i => by rw [(hp i 0).1, aget_ofFn]
    have e2 : n.ei25 = Vector.ofFn fun i => powf (tab EI i) (f% 2.5) := arr_ext fun i => by rw [(hp i 0).2.1, aget_ofFn]
    have e3 : n.bsnij2 = Vector.ofFn fun i => Vector.ofFn fun j => Vector.ofFn fun k => bVal i j k :=
      arr2_ext fun i j => arr_ext fun k => by
        rw [(hp i j).2.2.1]; unfold aget2; rw [aget_ofFn, aget_ofFn, aget_ofFn]
    have e4 : n.kij5 = Vector.ofFn fun i => Vector.ofFn fun j => kVal i j :=
      arr2_ext fun i j => by rw [(hp i j).2.2.2.1]; unfold aget2; rw [aget_ofFn, aget_ofFn]
    have e5 : n.uij5 = Vector.ofFn fun i => Vector.ofFn fun j => uVal i j :=
      arr2_ext fun i j => by rw [(hp i j).2.2.2.2.1]; unfold aget2; rw [aget_ofFn, aget_ofFn]
    have e6 : n.gij5 = Vector.ofFn fun i => Vector.ofFn fun j => gVal i j :=
      arr2_ext fun i j => by rw [(hp i j).2.2.2.2.2]; unfold aget2; rw [aget_ofFn, aget_ofFn]
    rw [e1, e2, e3, e4, e5, e6]
  unfold lazyOf
  rw [← h.1, ← h.2.1, ← h.2.2, ← h4, mkD_eta]

/-- A new object. -/
def lazyNew : Detail F := lazyOf default (newP : Detail F).n0i

theorem newP_lazy : (newP : Detail F) = lazyNew := lazy_eq newP default newP_frame newP_params

end Aga8.Detail
