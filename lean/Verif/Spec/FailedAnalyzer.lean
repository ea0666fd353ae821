import Verif.Spec.DetailApi
import Verif.Spec.Composition
import Verif.Spec.F64

/-! # Vocabulary for readings of a failed analyzer (C84) -/

namespace Aga8.Detail

variable [Libm]

/-- Every fraction is the same in both, or NaN in one of them. -/
def Unnoticed (x y : Vector Float 21) : Prop :=
  ∀ i, (aget x i).isNaN = true ∨ (aget y i).isNaN = true ∨ aget x i = aget y i

/-- The public fields with other fractions. -/
def Pub.withFractions (q : Pub Float) (x : Vector Float 21) : Pub Float := { q with x := x }

/-- One sample of a meter: the fields are written, with the fractions `x`, and the density is computed. -/
def sampleOps (q : Pub Float) (x : Vector Float 21) : List (Op Float) := [.write (q.withFractions x), .density]

/-- A meter whose gas is always `x`. -/
def steadyOps (x : Vector Float 21) (l : List (Pub Float × Vector Float 21)) : List (Op Float) :=
  l.flatMap fun e => sampleOps e.1 x

/-- A meter at the same temperatures and pressures that is given the fractions of each sample. -/
def givenOps (l : List (Pub Float × Vector Float 21)) : List (Op Float) := l.flatMap fun e => sampleOps e.1 e.2

/-- From `x` on, each sample differs from the one before only by fractions that became NaN or were NaN. -/
def OnlyNanChanges (x : Vector Float 21) : List (Pub Float × Vector Float 21) → Prop
  | [] => True
  | e :: l => Unnoticed e.2 x ∧ OnlyNanChanges e.2 l

/-- No call reported an error. -/
def AllOk (outs : List (Out Float)) : Prop := ∀ o ∈ outs, o = .unit ∨ o = .dens (.ok ())

end Aga8.Detail
