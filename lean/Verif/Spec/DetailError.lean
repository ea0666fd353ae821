import Verif.Spec.Aga8Eos
import Verif.Spec.DetailApi
import Verif.Spec.F64
import Mathlib.Analysis.Calculus.Deriv.Basic

/-! # The size of the terms of the AGA 8 DETAIL equation

The rounding error of a sum is measured against the sum of the absolute values of its terms. These are the AGA 8 DETAIL
expressions of `Spec/Aga8Eos` with every subtraction turned into an addition and every coefficient replaced by its
absolute value. No function of the model is mentioned.

The last definition is the range of inputs of the rounding-error theorems. -/

namespace Aga8.Eos

open Detail.Tab Finset

/-- The orientation parameter `G`, with every term counted positively. -/
noncomputable def Gabs (x : Fin 21 → ℝ) : ℝ :=
  ∑ i, x i * c GI i + ∑ i, ∑ j with i < j, x i * x j * (star GIJ i j + 1) * (c GI i + c GI j)

/-- The size of `C*_n`. -/
noncomputable def Cabs (x : Fin 21 → ℝ) (n : Fin 58) : ℝ :=
  |c AN n| * flag (Gabs x) GN[n.1] * flag (Q x ^ 2) QN[n.1] * flag (Fhigh x) FN[n.1] * U x ^ c UN n

/-- The size of the terms of the second virial coefficient. -/
noncomputable def Babs (x : Fin 21 → ℝ) (T : ℝ) : ℝ :=
  ∑ n : Fin 58 with n.1 < 18, |c AN n| * T ^ (-c UN n)
    * ∑ i, ∑ j, x i * x j * Bstar n i j * Eij i j ^ c UN n * (c KI i * c KI j) ^ (3 / 2 : ℝ)

/-- The size of the terms of the compression factor. -/
noncomputable def Zabs (x : Fin 21 → ℝ) (D T : ℝ) : ℝ :=
  let Dr := Kcubed x * D
  1 + D * Babs x T + Dr * ∑ n : Fin 58 with 12 ≤ n.1 ∧ n.1 < 18, Cabs x n * T ^ (-c UN n)
    + ∑ n : Fin 58 with 12 ≤ n.1, Cabs x n * T ^ (-c UN n)
      * ((BN[n.1] : ℝ) + cn n * KN[n.1] * Dr ^ KN[n.1]) * Dr ^ BN[n.1] * Real.exp (-cn n * Dr ^ KN[n.1])

/-- `(∂p/∂D)_T / (R T)`, the density derivative of `D Z`. -/
noncomputable def dPdD (x : Fin 21 → ℝ) (D T : ℝ) : ℝ := deriv (fun D => D * Z x D T) D

/-- The size of the terms of `dPdD`, which is `1 + 2 D ∂α_r/∂D + D² ∂²α_r/∂D²`. With `g = b - c k D_r^k`, the second
derivative multiplies a term by `g (g - 1) - c k² D_r^k`. -/
noncomputable def dPdDabs (x : Fin 21 → ℝ) (D T : ℝ) : ℝ :=
  let Dr := Kcubed x * D
  1 + 2 * (Zabs x D T - 1)
    + ∑ n : Fin 58 with 12 ≤ n.1, Cabs x n * T ^ (-c UN n)
      * (((BN[n.1] : ℝ) + cn n * KN[n.1] * Dr ^ KN[n.1]) * ((BN[n.1] : ℝ) + cn n * KN[n.1] * Dr ^ KN[n.1] + 1)
        + cn n * (KN[n.1] : ℝ) ^ 2 * Dr ^ KN[n.1]) * Dr ^ BN[n.1] * Real.exp (-cn n * Dr ^ KN[n.1])

end Aga8.Eos

namespace Aga8.Detail

open F64

/-- The mole fractions used in the equation: the values of the f64 fractions, those below zero counted as zero. -/
noncomputable def fracs (q : Pub Float) (i : Fin 21) : ℝ := max (toR (aget q.x i)) 0

/-- The inputs of the rounding-error theorems: finite numbers; a temperature of 1 K to 1000 K; a density of zero, or of
1e-4 mol/l to 1000 mol/l and at most three times the reducing density; fractions that are zero, negative or between 1e-10
and 2, one of them at least 0.01. -/
structure ErrDomain (q : Pub Float) : Prop where
  t_fin : IsFinite q.t
  t_low : 1 ≤ toR q.t
  t_high : toR q.t ≤ 1000
  d_fin : IsFinite q.d
  d_rng : toR q.d = 0 ∨ 1e-4 ≤ toR q.d ∧ toR q.d ≤ 1000
  d_red : Eos.Kcubed (fracs q) * toR q.d ≤ 3
  x_fin : ∀ i, IsFinite (aget q.x i)
  x_rng : ∀ i, toR (aget q.x i) ≤ 0 ∨ 1e-10 ≤ toR (aget q.x i) ∧ toR (aget q.x i) ≤ 2
  x_big : ∃ i, 1 / 100 ≤ toR (aget q.x i)

/-- The inputs of the theorems about the density search: a temperature as above, a pressure of 1e-6 kPa to 1e9 kPa, fractions
as above. -/
structure DensDomain (q : Pub Float) : Prop where
  t_fin : IsFinite q.t
  t_low : 1 ≤ toR q.t
  t_high : toR q.t ≤ 1000
  p_fin : IsFinite q.p
  p_low : 1e-6 ≤ toR q.p
  p_high : toR q.p ≤ 1e9
  x_fin : ∀ i, IsFinite (aget q.x i)
  x_rng : ∀ i, toR (aget q.x i) ≤ 0 ∨ 1e-10 ≤ toR (aget q.x i) ∧ toR (aget q.x i) ≤ 2
  x_big : ∃ i, 1 / 100 ≤ toR (aget q.x i)

end Aga8.Detail
