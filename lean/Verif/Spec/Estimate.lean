import Verif.Spec.DetailApi
import Verif.Spec.NormalGas
import Verif.Spec.F64
import Verif.Spec.Aga8Eos
import Verif.Spec.GergApi
import Verif.Spec.GergEos
import Verif.Spec.GergError
import Mathlib.Analysis.SpecialFunctions.Log.Basic
import Verif.Detail

/-! # Vocabulary for searches that start from an estimate (C85) -/

namespace Aga8.Detail

open F64

/-- A temperature of 263 K to 400 K, and a pressure with an ideal-gas density `p / (R T)` of 3.5e-4 mol/l to 0.59 mol/l. -/
structure TrackPoint (t p : Float) : Prop where
  t_fin : IsFinite t
  t_low : 263 ≤ toR t
  t_high : toR t ≤ 400
  p_fin : IsFinite p
  p_low : 3.5e-4 ≤ toR p / (8.31451 * toR t)
  p_high : toR p / (8.31451 * toR t) ≤ 0.59

/-- From one sample to the next the pressure changes by at most the factor `exp 0.05` and the temperature by at most the factor
`exp 0.01`. A temperature that changes at all changes by more than the 1e-7 K below which this is not noticed. -/
structure TrackStep (t p t' p' : Float) : Prop where
  pressure : |Real.log (toR p') - Real.log (toR p)| ≤ 0.05
  temperature : |Real.log (toR t') - Real.log (toR t)| ≤ 0.01
  noticed : t' = t ∨ 1.01e-7 ≤ |toR t' - toR t|

/-- Samples that follow each other in such steps, the first of them after `t`, `p`. -/
def TrackSteps (t p : Float) : List (Float × Float) → Prop
  | [] => True
  | e :: l => TrackPoint e.1 e.2 ∧ TrackStep t p e.1 e.2 ∧ TrackSteps e.1 e.2 l

/-- Each search starts from the density found last: `d` is negated, the temperature and the pressure are written, and `density` is
called. What it returns and the density it stores are recorded. -/
def trackAll [Libm] (s : Detail Float) : List (Float × Float) → Res (Detail Float × List (Except DensityError Unit × Float))
  | [] => pure (s, [])
  | e :: l => do
    let r ← Detail.density { s with t := e.1, p := e.2, d := -s.d }
    let r' ← trackAll r.1 l
    pure (r'.1, (r.2, r.1.d) :: r'.2)

/-- The density `D` was found for the gas `x` at `t` and `p`: within the factor `exp 7.2e-8` of the one density of the equation. -/
def Found (x : Fin 21 → ℝ) (t p D : Float) : Prop :=
  IsFinite D ∧ 0 < toR D ∧ ∃ d, 0 < d ∧ d ≤ 2 ∧ d * 8.31451 * toR t * Eos.Z x d (toR t) = toR p ∧
    (∀ d', 0 < d' → d' ≤ 2 → d' * 8.31451 * toR t * Eos.Z x d' (toR t) = toR p → d' = d) ∧
    |Real.log (toR D) - Real.log d| ≤ 7.2e-8

end Aga8.Detail

namespace Aga8.Gerg

open F64

/-- A temperature of 1.1 to 100 times the reducing temperature of the gas in the fields `q`, from 1 K to 10000 K, and a pressure with an
ideal-gas density `p / (R T)` of 3.9e-4 mol/l to 230 mol/l and at most 0.0385 times the reducing density. -/
structure TrackPoint (q : Pub Float) (t p : Float) : Prop where
  t_fin : IsFinite t
  t_low : 1 ≤ toR t
  t_high : toR t ≤ 10000
  t_red1 : 1.1 * GergEos.Tr (fracs q) ≤ toR t
  t_red2 : toR t ≤ 100 * GergEos.Tr (fracs q)
  p_fin : IsFinite p
  p_low : 3.9e-4 ≤ toR p / (8.314472 * toR t)
  p_high : toR p / (8.314472 * toR t) ≤ 230
  p_red : toR p / (8.314472 * toR t) * GergEos.invRhoR (fracs q) ≤ 0.0385

/-- From one sample to the next the logarithms of the pressure and of the temperature change by at most 0.04 together, where the
temperature counts 3.2 times: by the factor `exp 0.04` in pressure alone, say, or `exp 0.02` in pressure and `exp 0.006` in temperature.
A temperature that changes at all changes by more than the 1e-7 K below which this is not noticed. -/
structure TrackStep (t p t' p' : Float) : Prop where
  change : |Real.log (toR p') - Real.log (toR p)| + 3.2 * |Real.log (toR t') - Real.log (toR t)| ≤ 0.04
  noticed : t' = t ∨ 1.01e-7 ≤ |toR t' - toR t|

/-- Samples of the gas in the fields `q` that follow each other in such steps, the first of them after `t`, `p`. -/
def TrackSteps (q : Pub Float) (t p : Float) : List (Float × Float) → Prop
  | [] => True
  | e :: l => TrackPoint q e.1 e.2 ∧ TrackStep t p e.1 e.2 ∧ TrackSteps q e.1 e.2 l

/-- Each search starts from the density found last: `d` is negated, the temperature and the pressure are written, and `density` is
called. What it returns and the density it stores are recorded. -/
def trackAll [Libm] (s : Gerg Float) : List (Float × Float) → Res (Gerg Float × List (Except DensityError Unit × Float))
  | [] => pure (s, [])
  | e :: l => do
    let r ← Gerg.density { s with t := e.1, p := e.2, d := -s.d } 0
    let r' ← trackAll r.1 l
    pure (r'.1, (r.2, r.1.d) :: r'.2)

/-- The density `D` was found for the gas in the fields `q` at `t` and `p`: within the factor `exp 9.7e-8` of the one density of the
equation up to half the reducing density. -/
def Found (q : Pub Float) (t p D : Float) : Prop :=
  IsFinite D ∧ 0 < toR D ∧ ∃ d, 0 < d ∧ d * GergEos.invRhoR (fracs q) ≤ 1 / 2 ∧
    d * 8.314472 * toR t * GergEos.Z (fracs q) d (toR t) = toR p ∧
    (∀ d', 0 < d' → d' * GergEos.invRhoR (fracs q) ≤ 1 / 2 → d' * 8.314472 * toR t * GergEos.Z (fracs q) d' (toR t) = toR p → d' = d) ∧
    |Real.log (toR D) - Real.log d| ≤ 9.7e-8

end Aga8.Gerg
