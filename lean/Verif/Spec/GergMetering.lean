import Verif.Spec.Metering
import Verif.Spec.GergApi
import Verif.Spec.GergEnergyError
import Verif.Gerg

/-! # Specification for metering with a GERG-2008 object (C77) -/

namespace Aga8.Gerg

open F64

/-- The mole fractions of a sample, in the numbering of GERG-2008, which starts with 1. -/
noncomputable def sampleX (m : Sample) (i : Fin 22) : ℝ := if h : 1 ≤ i.1 then m.x ⟨i.1 - 1, by omega⟩ else 0

/-- What the calls for one sample return, and what can be read from the object after them. -/
structure Outcome where
  comp : Except CompositionError Unit
  dens : Except DensityError Unit
  pres : Float
  res : Pub Float

/-- The calls for one sample. -/
def meter [Libm] (s : Gerg Float) (m : Sample) : Res (Gerg Float × Outcome) := do
  let c := s.set_composition m.comp
  let r ← Gerg.density { c.1 with t := m.t, p := m.p } 0
  let r' ← Gerg.properties r.1
  pure (r'.1, ⟨c.2, r.2, r'.2, pub r'.1⟩)

/-- The calls for a list of samples, on the same object. -/
def meterAll [Libm] (s : Gerg Float) : List Sample → Res (Gerg Float × List Outcome)
  | [] => pure (s, [])
  | m :: ms => do
    let r ← meter s m
    let r' ← meterAll r.1 ms
    pure (r'.1, r.2 :: r'.2)

/-- A sample of any gas mixture at 50 K to 1000 K and 1.1 to 100 times its reducing temperature, with an ideal-gas density `p / (R T)`
from 3e-4 mol/l to 0.05 times its reducing density (0.06 times it from 1.25 times the reducing temperature on). The fractions are zero
or at least 1e-10, and their sum is so near to one that the rounding in `check` does not matter. -/
structure GasSample (m : Sample) : Prop where
  x_fin : ∀ i, IsFinite (m.comp.frac i)
  x_min : ∀ i, m.x i = 0 ∨ 1e-10 ≤ m.x i
  sum_low : 0.99 + 1e-14 ≤ ∑ i, m.x i
  sum_high : ∑ i, m.x i ≤ 1.01 - 1e-14
  t_fin : IsFinite m.t
  t_low : 50 ≤ toR m.t
  t_high : toR m.t ≤ 1000
  t_red1 : 1.1 * GergEos.Tr (sampleX m) ≤ toR m.t
  t_red2 : toR m.t ≤ 100 * GergEos.Tr (sampleX m)
  p_fin : IsFinite m.p
  p_low : 3e-4 ≤ toR m.p / (8.314472 * toR m.t)
  p_high : toR m.p / (8.314472 * toR m.t) ≤ 300
  p_red : toR m.p / (8.314472 * toR m.t) * GergEos.invRhoR (sampleX m) ≤
    if 1.25 * GergEos.Tr (sampleX m) ≤ toR m.t then 0.06 else 0.05

/-- The calls report success. The equation has exactly one density `d` up to half the reducing density with the measured pressure. The
density, the compression factor and the pressure are near those of the equation there, and the other properties near those of the
equation at the density stored. -/
structure Accurate (m : Sample) (o : Outcome) : Prop where
  comp : o.comp = .ok ()
  dens : o.dens = .ok ()
  temperature : o.res.t = m.t
  pressure : o.res.p = m.p
  density : 0 < toR o.res.d ∧ ∃ d, 0 < d ∧ d * GergEos.invRhoR (sampleX m) ≤ 1 / 2 ∧
    d * 8.314472 * toR m.t * GergEos.Z (sampleX m) d (toR m.t) = toR m.p ∧
    (∀ d', 0 < d' → d' * GergEos.invRhoR (sampleX m) ≤ 1 / 2 →
      d' * 8.314472 * toR m.t * GergEos.Z (sampleX m) d' (toR m.t) = toR m.p → d' = d) ∧
    |Real.log (toR o.res.d) - Real.log d| ≤ 9.7e-8 ∧
    0 < toR o.res.z ∧ |Real.log (toR o.res.z) - Real.log (GergEos.Z (sampleX m) d (toR m.t))| ≤ 2.9e-8
  returned : 0 < toR o.pres ∧ |Real.log (toR o.pres) - Real.log (toR m.p)| ≤ 1.3e-7
  dp_dd : |toR o.res.dp_dd - GergEos.pressureD (sampleX m) (toR o.res.d) (toR m.t)|
    ≤ 1.3e-8 * GergEos.pressureD (sampleX m) (toR o.res.d) (toR m.t)
  dp_dt : |toR o.res.dp_dt - GergEos.pressureT (sampleX m) (toR o.res.d) (toR m.t)|
    ≤ 1.3e-8 * GergEos.pressureT (sampleX m) (toR o.res.d) (toR m.t)
  cv : |toR o.res.cv - GergEos.heatV (sampleX m) (toR o.res.d) (toR m.t)|
    ≤ 1.3e-8 * GergEos.heatV (sampleX m) (toR o.res.d) (toR m.t)
  cp : IsFinite o.res.cp ∧ |toR o.res.cp - GergEos.heatP (sampleX m) (toR o.res.d) (toR m.t)|
    ≤ 3.6e-8 * GergEos.heatP (sampleX m) (toR o.res.d) (toR m.t)
  w : IsFinite o.res.w ∧ |toR o.res.w - GergEos.speed (sampleX m) (toR o.res.d) (toR m.t)|
    ≤ 3.3e-8 * GergEos.speed (sampleX m) (toR o.res.d) (toR m.t)
  kappa : IsFinite o.res.kappa ∧ |toR o.res.kappa - GergEos.exponent (sampleX m) (toR o.res.d) (toR m.t)|
    ≤ 8.8e-8 * GergEos.exponent (sampleX m) (toR o.res.d) (toR m.t)

end Aga8.Gerg
