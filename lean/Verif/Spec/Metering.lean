import Verif.Spec.Composition
import Verif.Spec.DetailApi
import Verif.Spec.DetailEnergyError
import Verif.Spec.CondError
import Verif.Spec.NormalGas
import Verif.Spec.F64
import Verif.Detail

/-! # Specification for metering: one object, many samples (C76)

A flow computer keeps one object. For every sample it sets the composition, the temperature and the pressure, and calls `density` and
`properties`. -/

namespace Aga8

open F64

/-- What is measured: the composition of the gas, the temperature in K and the pressure in kPa. -/
structure Sample where
  comp : Composition Float
  t : Float
  p : Float

/-- The mole fractions of a sample. -/
noncomputable def Sample.x (m : Sample) (i : Fin 21) : ℝ := toR (m.comp.frac i)

/-- A composition or temperature that changes from one sample to the next changes by more than the 1e-7 below which the change is not
noticed. -/
def Sample.Step (m m' : Sample) : Prop :=
  (m'.comp = m.comp ∨ ∃ i, 1.01e-7 ≤ |m'.x i - m.x i|) ∧ (m'.t = m.t ∨ 1.01e-7 ≤ |toR m'.t - toR m.t|)

/-- Every change is noticed, from each sample to the next. -/
def Sample.Steps : List Sample → Prop
  | [] => True
  | [_] => True
  | m :: m' :: ms => Sample.Step m m' ∧ Sample.Steps (m' :: ms)

namespace Detail

/-- What the calls for one sample return, and what can be read from the object after them. -/
structure Outcome where
  comp : Except CompositionError Unit
  dens : Except DensityError Unit
  res : Pub Float

/-- The calls for one sample. -/
def meter [Libm] (s : Detail Float) (m : Sample) : Res (Detail Float × Outcome) := do
  let c := s.set_composition m.comp
  let r ← Detail.density { c.1 with t := m.t, p := m.p }
  let s ← Detail.properties r.1
  pure (s, ⟨c.2, r.2, pub s⟩)

/-- The calls for a list of samples, on the same object. -/
def meterAll [Libm] (s : Detail Float) : List Sample → Res (Detail Float × List Outcome)
  | [] => pure (s, [])
  | m :: ms => do
    let r ← meter s m
    let r' ← meterAll r.1 ms
    pure (r'.1, r.2 :: r'.2)

/-- A sample of natural gas at 263 K to 400 K, with an ideal-gas density `p / (R T)` of 3e-4 mol/l to 0.66 mol/l. The fractions are zero
or at least 1e-10, and their sum is so near to one that the rounding in `check` does not matter. -/
structure GasSample (m : Sample) : Prop where
  x_fin : ∀ i, IsFinite (m.comp.frac i)
  normal : Eos.NormalGas m.x
  x_min : ∀ i, m.x i = 0 ∨ 1e-10 ≤ m.x i
  sum_low : 0.99 + 1e-14 ≤ ∑ i, m.x i
  sum_high : ∑ i, m.x i ≤ 1.01 - 1e-14
  t_fin : IsFinite m.t
  t_low : 263 ≤ toR m.t
  t_high : toR m.t ≤ 400
  p_fin : IsFinite m.p
  p_low : 3e-4 ≤ toR m.p / (8.31451 * toR m.t)
  p_high : toR m.p / (8.31451 * toR m.t) ≤ 0.66

/-- The calls report success. The equation has exactly one density `d` up to 2 mol/l with the measured pressure. The density, the
compression factor and the pressure stored are near those of the equation there, and the other properties near those of the equation at
the density stored. -/
structure Accurate (m : Sample) (o : Outcome) : Prop where
  comp : o.comp = .ok ()
  dens : o.dens = .ok ()
  temperature : o.res.t = m.t
  fractions : ∀ i, aget o.res.x i = m.comp.frac i
  density : 0 < toR o.res.d ∧ ∃ d, 0 < d ∧ d ≤ 2 ∧ d * 8.31451 * toR m.t * Eos.Z m.x d (toR m.t) = toR m.p ∧
    (∀ d', 0 < d' → d' ≤ 2 → d' * 8.31451 * toR m.t * Eos.Z m.x d' (toR m.t) = toR m.p → d' = d) ∧
    |Real.log (toR o.res.d) - Real.log d| ≤ 7.2e-8 ∧
    0 < toR o.res.z ∧ |Real.log (toR o.res.z) - Real.log (toR m.p / (d * 8.31451 * toR m.t))| ≤ 2e-8
  pressure : 0 < toR o.res.p ∧ |Real.log (toR o.res.p) - Real.log (toR m.p)| ≤ 8.4e-8
  dp_dd : |toR o.res.dp_dd - Eos.pressureD m.x (toR o.res.d) (toR m.t)| ≤ 1.3e-8 * Eos.pressureD m.x (toR o.res.d) (toR m.t)
  dp_dt : |toR o.res.dp_dt - Eos.pressureT m.x (toR o.res.d) (toR m.t)| ≤ 1.3e-8 * Eos.pressureT m.x (toR o.res.d) (toR m.t)
  cv : |toR o.res.cv - Eos.heatV m.x (toR o.res.d) (toR m.t)| ≤ 1.3e-8 * Eos.heatV m.x (toR o.res.d) (toR m.t)
  cp : IsFinite o.res.cp ∧ |toR o.res.cp - Eos.heatP m.x (toR o.res.d) (toR m.t)| ≤ 3.6e-8 * Eos.heatP m.x (toR o.res.d) (toR m.t)
  w : IsFinite o.res.w ∧ |toR o.res.w - Eos.speed m.x (toR o.res.d) (toR m.t)| ≤ 3.3e-8 * Eos.speed m.x (toR o.res.d) (toR m.t)
  kappa : IsFinite o.res.kappa ∧
    |toR o.res.kappa - Eos.exponent m.x (toR o.res.d) (toR m.t)| ≤ 8.8e-8 * Eos.exponent m.x (toR o.res.d) (toR m.t)
  jt : IsFinite o.res.jt ∧ |toR o.res.jt - Eos.jt m.x (toR o.res.d) (toR m.t)| ≤ 6.2e-8 * Eos.jtAbs m.x (toR o.res.d) (toR m.t)

end Detail

end Aga8
