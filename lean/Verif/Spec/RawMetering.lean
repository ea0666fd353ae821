import Verif.Spec.Metering

/-! # Specification for metering with readings in any unit (C82)

A gas chromatograph reports the components in percent, or as peak areas whose sum is anything. The flow computer calls `normalize` on
the readings before it sets the composition. -/

namespace Aga8

open F64

/-- The exact mole fractions behind the readings of a sample: each reading divided by their sum. -/
noncomputable def Sample.share (m : Sample) (i : Fin 21) : ℝ := m.x i / ∑ j, m.x j

/-- Numbers that differ from the exact mole fractions by at most one part in 1e14. -/
def Sample.Near (m : Sample) (y : Fin 21 → ℝ) : Prop := ∀ i, |y i - m.share i| ≤ 1e-14 * m.share i

/-- The sample with the composition that `normalize` leaves. -/
def Sample.normalized [Libm] (m : Sample) : Sample := { m with comp := m.comp.normalize.1 }

/-- A composition or temperature that changes changes by more than the 1e-7 below which the change is not noticed. -/
def Sample.RawStep (m m' : Sample) : Prop :=
  (m'.comp = m.comp ∨ ∃ i, 1.02e-7 ≤ |m'.share i - m.share i|) ∧ (m'.t = m.t ∨ 1.01e-7 ≤ |toR m'.t - toR m.t|)

/-- Every change is noticed, from each sample to the next. -/
def Sample.RawSteps : List Sample → Prop
  | [] => True
  | [_] => True
  | m :: m' :: ms => Sample.RawStep m m' ∧ Sample.RawSteps (m' :: ms)

namespace Detail

/-- The calls for a list of samples, on the same object: `normalize` on the readings, then as in C76. -/
def meterRawAll [Libm] (s : Detail Float) : List Sample → Res (Detail Float × List (Except CompositionError Unit × Outcome))
  | [] => pure (s, [])
  | m :: ms => do
    let n := m.comp.normalize
    let r ← meter s { m with comp := n.1 }
    let r' ← meterRawAll r.1 ms
    pure (r'.1, (n.2, r.2) :: r'.2)

/-- Readings in any unit, with a sum of 1e-9 to 1e9, of a natural gas that is not at the very limit of the normal range, at 263 K to
400 K, with an ideal-gas density `p / (R T)` of 3e-4 mol/l to 0.66 mol/l. The exact mole fractions are zero or at least 1.01e-10. -/
structure RawSample (m : Sample) : Prop where
  x_fin : ∀ i, IsFinite (m.comp.frac i)
  nonneg : ∀ i, 0 ≤ m.x i
  sum_low : 1e-9 ≤ ∑ i, m.x i
  sum_high : ∑ i, m.x i ≤ 1e9
  normal : ∀ y, m.Near y → Eos.NormalGas y
  x_min : ∀ i, m.x i = 0 ∨ 1.01e-10 ≤ m.share i
  t_fin : IsFinite m.t
  t_low : 263 ≤ toR m.t
  t_high : toR m.t ≤ 400
  p_fin : IsFinite m.p
  p_low : 3e-4 ≤ toR m.p / (8.31451 * toR m.t)
  p_high : toR m.p / (8.31451 * toR m.t) ≤ 0.66

/-- `normalize` reports success, the fractions in the object are the exact mole fractions to one part in 1e14, and the results are
accurate, in the sense of C76, for these fractions. -/
structure RawAccurate [Libm] (m : Sample) (o : Except CompositionError Unit × Outcome) : Prop where
  norm : o.1 = .ok ()
  fractions : m.Near fun i => toR (aget o.2.res.x i)
  accurate : Accurate m.normalized o.2

end Detail

end Aga8
