import Verif.Spec.RawMetering
import Verif.Spec.GergMetering

/-! # Specification for metering with readings in any unit with a GERG-2008 object (C82) -/

namespace Aga8.Gerg

open F64

/-- Mole fractions in the numbering of GERG-2008, which starts with 1. -/
noncomputable def shift (y : Fin 21 → ℝ) (i : Fin 22) : ℝ := if h : 1 ≤ i.1 then y ⟨i.1 - 1, by omega⟩ else 0

/-- The calls for a list of samples, on the same object: `normalize` on the readings, then as in C77. -/
def meterRawAll [Libm] (s : Gerg Float) : List Sample → Res (Gerg Float × List (Except CompositionError Unit × Outcome))
  | [] => pure (s, [])
  | m :: ms => do
    let n := m.comp.normalize
    let r ← meter s { m with comp := n.1 }
    let r' ← meterRawAll r.1 ms
    pure (r'.1, (n.2, r.2) :: r'.2)

/-- A mixture with the fractions `y` at the temperature `T` and the ideal-gas density `ρ` is in the region of C77. -/
structure Region (y : Fin 21 → ℝ) (T ρ : ℝ) : Prop where
  t_red1 : 1.1 * GergEos.Tr (shift y) ≤ T
  t_red2 : T ≤ 100 * GergEos.Tr (shift y)
  p_red : ρ * GergEos.invRhoR (shift y) ≤ if 1.25 * GergEos.Tr (shift y) ≤ T then 0.06 else 0.05

/-- Readings in any unit, with a sum of 1e-9 to 1e9, of a gas mixture that is in the region of C77 and not at its very limit. The exact
mole fractions are zero or at least 1.01e-10. -/
structure RawSample (m : Sample) : Prop where
  x_fin : ∀ i, IsFinite (m.comp.frac i)
  nonneg : ∀ i, 0 ≤ m.x i
  sum_low : 1e-9 ≤ ∑ i, m.x i
  sum_high : ∑ i, m.x i ≤ 1e9
  region : ∀ y, m.Near y → Region y (toR m.t) (toR m.p / (8.314472 * toR m.t))
  x_min : ∀ i, m.x i = 0 ∨ 1.01e-10 ≤ m.share i
  t_fin : IsFinite m.t
  t_low : 50 ≤ toR m.t
  t_high : toR m.t ≤ 1000
  p_fin : IsFinite m.p
  p_low : 3e-4 ≤ toR m.p / (8.314472 * toR m.t)
  p_high : toR m.p / (8.314472 * toR m.t) ≤ 300

/-- `normalize` reports success, the fractions it leaves are the exact mole fractions to one part in 1e14, and the results are accurate,
in the sense of C77, for these fractions. -/
structure RawAccurate [Libm] (m : Sample) (o : Except CompositionError Unit × Outcome) : Prop where
  norm : o.1 = .ok ()
  fractions : m.Near m.normalized.x
  accurate : Accurate m.normalized o.2

end Aga8.Gerg
