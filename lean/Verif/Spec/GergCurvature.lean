import Verif.Spec.GergEnergyError

/-! # Second derivatives of the GERG-2008 pressure, and the size of their terms

`dPdD` of `Spec/GergError` is `(∂p/∂D)_T / (R T)`. The first part differentiates `(∂p/∂D)_T` once more, by density and by
temperature. The second part repeats the sums with every term counted positively. No function of the model is mentioned. -/

namespace Aga8.GergEos

open Finset Real

/-- `(∂²p/∂D²)_T` in kPa/(mol/l)². -/
noncomputable def pressureDD (x : Fin 22 → ℝ) (D T : ℝ) : ℝ := deriv (fun D => 8.314472 * T * dPdD x D T) D
/-- `∂²p/∂T∂D` in kPa/(mol/l)/K. -/
noncomputable def pressureTD (x : Fin 22 → ℝ) (D T : ℝ) : ℝ := deriv (fun T => 8.314472 * T * dPdD x D T) T

/-- `δ³ ∂³/∂δ³` of a term multiplies it by `g (g - 1) (g - 2) - 3 (g - 1) c² δ^c - c³ δ^c` with `g = d - c δ^c`. -/
noncomputable def PureTerm.grow3 (a : PureTerm) (δ : ℝ) : ℝ :=
  a.grow1 δ * (a.grow1 δ + 1) * (a.grow1 δ + 2) + 3 * (a.grow1 δ + 1) * (a.c ^ 2 * δ ^ a.c) + a.c ^ 3 * δ ^ a.c

/-- `δ³ ∂³/∂δ³` of a departure term multiplies it by `g (g - 1) (g - 2) + 3 (g - 1) l + l'` with `g` the factor of `δ ∂/∂δ`,
`l = δ ∂g/∂δ = -2 η δ (2 δ - ε) - β δ` and `l' = δ ∂l/∂δ = -2 η δ (4 δ - ε) - β δ`. -/
noncomputable def DepTerm.grow3 (a : DepTerm) (δ : ℝ) : ℝ :=
  a.grow1 δ * (a.grow1 δ + 1) * (a.grow1 δ + 2) + 3 * (a.grow1 δ + 1) * (2 * a.η * δ * (2 * δ + a.ε) + a.β * δ)
    + (2 * a.η * δ * (4 * δ + a.ε) + a.β * δ)

/-- The size of `δ² τ ∂³α_r/∂δ²∂τ`. -/
noncomputable def res12 (x : Fin 22 → ℝ) (D T : ℝ) : ℝ :=
  sizes (fun a δ => |(a.t : ℝ)| * a.grow2 δ) (fun a δ => |(a.t : ℝ)| * a.grow2 δ) x (D * invRhoR x) (Tr x / T)

/-- The size of the terms of `pressureDD`, which is
`R T (2 δ ∂α_r/∂δ + 4 δ² ∂²α_r/∂δ² + δ³ ∂³α_r/∂δ³) / D`. -/
noncomputable def pressureDDAbs (x : Fin 22 → ℝ) (D T : ℝ) : ℝ :=
  8.314472 * T * (2 * sizes PureTerm.grow1 DepTerm.grow1 x (D * invRhoR x) (Tr x / T)
    + 4 * sizes PureTerm.grow2 DepTerm.grow2 x (D * invRhoR x) (Tr x / T)
    + sizes PureTerm.grow3 DepTerm.grow3 x (D * invRhoR x) (Tr x / T)) / D

/-- The size of the terms of `pressureTD`, which is
`R (1 + 2 δ ∂α_r/∂δ + δ² ∂²α_r/∂δ² - 2 δ τ ∂²α_r/∂δ∂τ - δ² τ ∂³α_r/∂δ²∂τ)`. -/
noncomputable def pressureTDAbs (x : Fin 22 → ℝ) (D T : ℝ) : ℝ :=
  8.314472 * (dPdDabs x D T + 2 * res11 x D T + res12 x D T)

end Aga8.GergEos
