import Verif.Spec.GergEos
import Verif.Spec.GergApi
import Verif.Spec.F64

/-! # The size of the terms of the GERG-2008 equation

The rounding error of a sum is measured against the sum of the absolute values of its terms. These are the GERG-2008
expressions of `Spec/GergEos` with every subtraction turned into an addition and every coefficient replaced by its absolute
value. No function of the model is mentioned.

The last definition is the range of inputs of the rounding-error theorems. -/

namespace Aga8.GergEos

open Finset Real

/-- The absolute value of a term of a pure fluid, at `0 ≤ δ` and `0 < τ`. -/
noncomputable def PureTerm.size (a : PureTerm) (δ τ : ℝ) : ℝ :=
  |(a.n : ℝ)| * δ ^ a.d * τ ^ (a.t : ℝ) * if a.c = 0 then 1 else exp (-δ ^ a.c)

/-- The absolute value of a departure term. -/
noncomputable def DepTerm.size (a : DepTerm) (δ τ : ℝ) : ℝ :=
  |(a.n : ℝ)| * δ ^ a.d * τ ^ (a.t : ℝ) * exp (-a.η * (δ - a.ε) ^ 2 - a.β * (δ - a.γ))

/-- `δ ∂/∂δ` of a term multiplies it by `d - c δ^c`. -/
noncomputable def PureTerm.grow1 (a : PureTerm) (δ : ℝ) : ℝ := a.d + a.c * δ ^ a.c

/-- `δ ∂/∂δ` of a departure term multiplies it by `d - 2 η δ (δ - ε) - β δ`. -/
noncomputable def DepTerm.grow1 (a : DepTerm) (δ : ℝ) : ℝ := a.d + 2 * a.η * δ * (δ + a.ε) + a.β * δ

/-- `δ² ∂²/∂δ²` of a term multiplies it by `g (g - 1) - c² δ^c` with `g = d - c δ^c`. -/
noncomputable def PureTerm.grow2 (a : PureTerm) (δ : ℝ) : ℝ :=
  a.grow1 δ * (a.grow1 δ + 1) + a.c ^ 2 * δ ^ a.c

/-- `δ² ∂²/∂δ²` of a departure term multiplies it by `g (g - 1) - 2 η δ (2 δ - ε) - β δ` with `g` the factor of
`δ ∂/∂δ`. -/
noncomputable def DepTerm.grow2 (a : DepTerm) (δ : ℝ) : ℝ :=
  a.grow1 δ * (a.grow1 δ + 1) + 2 * a.η * δ * (2 * δ + a.ε) + a.β * δ

/-- The sum of the sizes of all residual terms, each multiplied by a factor. -/
noncomputable def sizes (g : PureTerm → ℝ → ℝ) (h : DepTerm → ℝ → ℝ) (x : Fin 22 → ℝ) (δ τ : ℝ) : ℝ :=
  ∑ i with 1 ≤ i.1, x i * ((pureTerms.getD i.1 []).map fun a => a.size δ τ * g a δ).sum
    + ∑ i with 1 ≤ i.1, ∑ j with i < j, x i * x j * |((departure i.1 j.1).1 : ℝ)|
      * ((departure i.1 j.1).2.map fun a => a.size δ τ * h a δ).sum

/-- The compression factor `1 + δ ∂α_r/∂δ`, at density `D` in mol/l and temperature `T`. -/
noncomputable def Z (x : Fin 22 → ℝ) (D T : ℝ) : ℝ :=
  1 + D * invRhoR x * deriv (fun δ => alphaR x δ (Tr x / T)) (D * invRhoR x)

/-- The sum of the absolute values of the terms of the compression factor. -/
noncomputable def Zabs (x : Fin 22 → ℝ) (D T : ℝ) : ℝ :=
  1 + sizes PureTerm.grow1 DepTerm.grow1 x (D * invRhoR x) (Tr x / T)

/-- `(∂p/∂D)_T / (R T)`, the density derivative of `D Z`. -/
noncomputable def dPdD (x : Fin 22 → ℝ) (D T : ℝ) : ℝ := deriv (fun D => D * Z x D T) D

/-- The sum of the absolute values of the terms of `dPdD`, which is `1 + 2 δ ∂α_r/∂δ + δ² ∂²α_r/∂δ²`. -/
noncomputable def dPdDabs (x : Fin 22 → ℝ) (D T : ℝ) : ℝ :=
  1 + 2 * sizes PureTerm.grow1 DepTerm.grow1 x (D * invRhoR x) (Tr x / T)
    + sizes PureTerm.grow2 DepTerm.grow2 x (D * invRhoR x) (Tr x / T)

end Aga8.GergEos

namespace Aga8.Gerg

open F64

/-- The mole fractions used in the equation: the values of the f64 fractions, those below zero counted as zero. -/
noncomputable def fracs (q : Pub Float) (i : Fin 22) : ℝ := max (toR (aget q.x i)) 0

/-- The inputs of the rounding-error theorems: finite numbers; a temperature of 1 K to 10000 K, between a tenth and a
hundred times the reducing temperature; a density of zero, or of 1e-4 mol/l to 1000 mol/l and at most 2.8 times the reducing
density; fractions that are zero, negative or between 1e-10 and 2, one of them at least 0.01. -/
structure ErrDomain (q : Pub Float) : Prop where
  t_fin : IsFinite q.t
  t_low : 1 ≤ toR q.t
  t_high : toR q.t ≤ 10000
  t_red1 : toR q.t ≤ 100 * GergEos.Tr (fracs q)
  t_red2 : GergEos.Tr (fracs q) ≤ 10 * toR q.t
  d_fin : IsFinite q.d
  d_rng : toR q.d = 0 ∨ 1e-4 ≤ toR q.d ∧ toR q.d ≤ 1000
  d_red : toR q.d * GergEos.invRhoR (fracs q) ≤ 2.8
  x_fin : ∀ i : Fin 22, 1 ≤ i.1 → IsFinite (aget q.x i)
  x_rng : ∀ i : Fin 22, 1 ≤ i.1 → toR (aget q.x i) ≤ 0 ∨ 1e-10 ≤ toR (aget q.x i) ∧ toR (aget q.x i) ≤ 2
  x_big : ∃ i : Fin 22, 1 ≤ i.1 ∧ 1 / 100 ≤ toR (aget q.x i)

/-- The inputs of the theorems about the density search: a temperature as above, a pressure of 1e-6 kPa to 1e9 kPa, fractions
that are zero or between 1e-10 and 2, one of them at least 0.01. -/
structure DensDomain (q : Pub Float) : Prop where
  t_fin : IsFinite q.t
  t_low : 1 ≤ toR q.t
  t_high : toR q.t ≤ 10000
  t_red1 : toR q.t ≤ 100 * GergEos.Tr (fracs q)
  t_red2 : GergEos.Tr (fracs q) ≤ 10 * toR q.t
  p_fin : IsFinite q.p
  p_low : 1e-6 ≤ toR q.p
  p_high : toR q.p ≤ 1e9
  x_fin : ∀ i : Fin 22, 1 ≤ i.1 → IsFinite (aget q.x i)
  x_rng : ∀ i : Fin 22, 1 ≤ i.1 → toR (aget q.x i) = 0 ∨ 1e-10 ≤ toR (aget q.x i) ∧ toR (aget q.x i) ≤ 2
  x_big : ∃ i : Fin 22, 1 ≤ i.1 ∧ 1 / 100 ≤ toR (aget q.x i)

end Aga8.Gerg
