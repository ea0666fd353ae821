import Verif.Spec.GergError

/-! # Energies, entropy and heat capacity of the GERG-2008 equation, and the size of their terms

The first part defines the quantities by thermodynamics from the Helmholtz energy `GergEos.alpha0`, `GergEos.alphaR` of
`Spec/GergEos`. The second part repeats the sums with every term counted positively; a logarithm counts as one more than its
absolute value, because a logarithm near zero is computed with an absolute, not a relative, error. No function of the model is
mentioned. -/

namespace Aga8.GergEos

open Finset Real

/-! ## The quantities -/

/-- The molar Helmholtz energy in J/mol. -/
noncomputable def helmholtz (x : Fin 22 → ℝ) (D T : ℝ) : ℝ :=
  8.314472 * T * (alpha0 x D T + alphaR x (D * invRhoR x) (Tr x / T))
/-- The molar entropy: `-(∂a/∂T)_D`. -/
noncomputable def entropy (x : Fin 22 → ℝ) (D T : ℝ) : ℝ := -deriv (fun T => helmholtz x D T) T
/-- The molar internal energy: `a + T s`. -/
noncomputable def energy (x : Fin 22 → ℝ) (D T : ℝ) : ℝ := helmholtz x D T + T * entropy x D T
/-- The molar enthalpy: `u + p / D`. -/
noncomputable def enthalpy (x : Fin 22 → ℝ) (D T : ℝ) : ℝ := energy x D T + 8.314472 * T * Z x D T
/-- The molar Gibbs energy: `a + p / D`. -/
noncomputable def gibbs (x : Fin 22 → ℝ) (D T : ℝ) : ℝ := helmholtz x D T + 8.314472 * T * Z x D T
/-- The isochoric heat capacity: `(∂u/∂T)_D`. -/
noncomputable def heatV (x : Fin 22 → ℝ) (D T : ℝ) : ℝ := deriv (fun T => energy x D T) T
/-- `(∂p/∂T)_D`. -/
noncomputable def pressureT (x : Fin 22 → ℝ) (D T : ℝ) : ℝ := deriv (fun T => D * 8.314472 * T * Z x D T) T

/-! ## The size of their terms -/

/-- The size of a logarithm. -/
noncomputable def lnSize (y : ℝ) : ℝ := 1 + |log y|

/-- The size of the residual part of the Helmholtz energy over `R T`. -/
noncomputable def res00 (x : Fin 22 → ℝ) (D T : ℝ) : ℝ :=
  sizes (fun _ _ => 1) (fun _ _ => 1) x (D * invRhoR x) (Tr x / T)
/-- The size of `τ ∂α_r/∂τ`: a term is multiplied by its exponent `t`. -/
noncomputable def res10 (x : Fin 22 → ℝ) (D T : ℝ) : ℝ :=
  sizes (fun a _ => |(a.t : ℝ)|) (fun a _ => |(a.t : ℝ)|) x (D * invRhoR x) (Tr x / T)
/-- The size of `τ² ∂²α_r/∂τ²`. -/
noncomputable def res20 (x : Fin 22 → ℝ) (D T : ℝ) : ℝ :=
  sizes (fun a _ => |(a.t : ℝ)| * (|(a.t : ℝ)| + 1)) (fun a _ => |(a.t : ℝ)| * (|(a.t : ℝ)| + 1)) x (D * invRhoR x) (Tr x / T)
/-- The size of `δ τ ∂²α_r/∂δ∂τ`. -/
noncomputable def res11 (x : Fin 22 → ℝ) (D T : ℝ) : ℝ :=
  sizes (fun a δ => |(a.t : ℝ)| * a.grow1 δ) (fun a δ => |(a.t : ℝ)| * a.grow1 δ) x (D * invRhoR x) (Tr x / T)

/-- The size of the ideal-gas Helmholtz energy of a component over `R T`, without the logarithms of density and mole
fraction. -/
noncomputable def IdealTerms.size0 (a : IdealTerms) (T : ℝ) : ℝ :=
  |(a.n1 : ℝ)| + (|(a.n2 : ℝ)| + 298.15) / T + (|(a.n3 : ℝ)| + 1) * lnSize T
    + |(a.n4 : ℝ)| * lnSize (sinh (a.th4 / T)) + |(a.n5 : ℝ)| * lnSize (cosh (a.th5 / T))
    + |(a.n6 : ℝ)| * lnSize (sinh (a.th6 / T)) + |(a.n7 : ℝ)| * lnSize (cosh (a.th7 / T))

/-- The size of `τ ∂/∂τ` of it. -/
noncomputable def IdealTerms.size1 (a : IdealTerms) (T : ℝ) : ℝ :=
  |(a.n3 : ℝ)| + 1 + (|(a.n2 : ℝ)| + 298.15) / T
    + |(a.n4 : ℝ)| * (a.th4 / T * cosh (a.th4 / T) / sinh (a.th4 / T))
    + |(a.n5 : ℝ)| * (a.th5 / T * sinh (a.th5 / T) / cosh (a.th5 / T))
    + |(a.n6 : ℝ)| * (a.th6 / T * cosh (a.th6 / T) / sinh (a.th6 / T))
    + |(a.n7 : ℝ)| * (a.th7 / T * sinh (a.th7 / T) / cosh (a.th7 / T))

/-- The size of `τ² ∂²/∂τ²` of it. -/
noncomputable def IdealTerms.size2 (a : IdealTerms) (T : ℝ) : ℝ :=
  |(a.n3 : ℝ)| + 1
    + |(a.n4 : ℝ)| * (a.th4 / T / sinh (a.th4 / T)) ^ 2 + |(a.n5 : ℝ)| * (a.th5 / T / cosh (a.th5 / T)) ^ 2
    + |(a.n6 : ℝ)| * (a.th6 / T / sinh (a.th6 / T)) ^ 2 + |(a.n7 : ℝ)| * (a.th7 / T / cosh (a.th7 / T)) ^ 2

/-- The size of the logarithms of density and mole fraction. -/
noncomputable def mixSize (x D : ℝ) : ℝ := lnSize D + lnSize x + lnSize (101.325 / (8.314472 * 298.15))

/-- The sizes of the ideal-gas parts of the mixture. -/
noncomputable def ideal0 (x : Fin 22 → ℝ) (D T : ℝ) : ℝ :=
  ∑ i with 1 ≤ i.1, x i * (mixSize (x i) D + 298.15 / T + 8.31451 / 8.314472 * (ideal.getD (i.1 - 1) default).size0 T)
noncomputable def ideal1 (x : Fin 22 → ℝ) (T : ℝ) : ℝ :=
  ∑ i with 1 ≤ i.1, x i * (298.15 / T + 8.31451 / 8.314472 * (ideal.getD (i.1 - 1) default).size1 T)
noncomputable def ideal2 (x : Fin 22 → ℝ) (T : ℝ) : ℝ :=
  ∑ i with 1 ≤ i.1, x i * (8.31451 / 8.314472 * (ideal.getD (i.1 - 1) default).size2 T)

noncomputable def entropyAbs (x : Fin 22 → ℝ) (D T : ℝ) : ℝ :=
  8.314472 * (ideal1 x T + res10 x D T + ideal0 x D T + res00 x D T)

noncomputable def energyAbs (x : Fin 22 → ℝ) (D T : ℝ) : ℝ := 8.314472 * T * (ideal1 x T + res10 x D T)

noncomputable def enthalpyAbs (x : Fin 22 → ℝ) (D T : ℝ) : ℝ := 8.314472 * T * (Zabs x D T + ideal1 x T + res10 x D T)

noncomputable def gibbsAbs (x : Fin 22 → ℝ) (D T : ℝ) : ℝ := 8.314472 * T * (Zabs x D T + ideal0 x D T + res00 x D T)

noncomputable def heatVAbs (x : Fin 22 → ℝ) (D T : ℝ) : ℝ := 8.314472 * (ideal2 x T + res20 x D T)

noncomputable def pressureTAbs (x : Fin 22 → ℝ) (D T : ℝ) : ℝ := D * 8.314472 * (Zabs x D T + res11 x D T)

end Aga8.GergEos
