import Verif.Spec.DetailError

/-! # Energies, entropy and heat capacity of the AGA 8 DETAIL equation, and the size of their terms

The first part defines the quantities by thermodynamics from the Helmholtz energy `Eos.alpha0`, `Eos.alphaR` of `Spec/Aga8Eos`.
The second part repeats the sums with every term counted positively; a logarithm counts as one more than its absolute value,
because a logarithm near zero is computed with an absolute, not a relative, error. No function of the model is mentioned. -/

namespace Aga8.Eos

open Detail.Tab Finset

/-! ## The quantities -/

/-- The molar Helmholtz energy in J/mol. -/
noncomputable def helmholtz (x : Fin 21 → ℝ) (D T : ℝ) : ℝ := 8.31451 * T * (alpha0 x D T + alphaR x D T)
/-- The molar entropy: `-(∂a/∂T)_D`. -/
noncomputable def entropy (x : Fin 21 → ℝ) (D T : ℝ) : ℝ := -deriv (fun T => helmholtz x D T) T
/-- The molar internal energy: `a + T s`. -/
noncomputable def energy (x : Fin 21 → ℝ) (D T : ℝ) : ℝ := helmholtz x D T + T * entropy x D T
/-- The molar enthalpy: `u + p / D`. -/
noncomputable def enthalpy (x : Fin 21 → ℝ) (D T : ℝ) : ℝ := energy x D T + 8.31451 * T * Z x D T
/-- The molar Gibbs energy: `a + p / D`. -/
noncomputable def gibbs (x : Fin 21 → ℝ) (D T : ℝ) : ℝ := helmholtz x D T + 8.31451 * T * Z x D T
/-- The isochoric heat capacity: `(∂u/∂T)_D`. -/
noncomputable def heatV (x : Fin 21 → ℝ) (D T : ℝ) : ℝ := deriv (fun T => energy x D T) T
/-- `(∂p/∂T)_D`. -/
noncomputable def pressureT (x : Fin 21 → ℝ) (D T : ℝ) : ℝ := deriv (fun T => D * 8.31451 * T * Z x D T) T

/-! ## The size of their terms -/

/-- The size of the term `n` of `alphaR`. -/
noncomputable def termSize (x : Fin 21 → ℝ) (D T : ℝ) (n : Fin 58) : ℝ :=
  let Dr := Kcubed x * D
  D * (if n.1 < 18 then |c AN n| * T ^ (-c UN n)
      * ∑ i, ∑ j, x i * x j * Bstar n i j * Eij i j ^ c UN n * (c KI i * c KI j) ^ (3 / 2 : ℝ) else 0)
    + Dr * (if 12 ≤ n.1 ∧ n.1 < 18 then Cabs x n * T ^ (-c UN n) else 0)
    + (if 12 ≤ n.1 then Cabs x n * T ^ (-c UN n) * Dr ^ BN[n.1] * Real.exp (-cn n * Dr ^ KN[n.1]) else 0)

/-- The size of the term `n` of `Z`. -/
noncomputable def termSizeZ (x : Fin 21 → ℝ) (D T : ℝ) (n : Fin 58) : ℝ :=
  let Dr := Kcubed x * D
  D * (if n.1 < 18 then |c AN n| * T ^ (-c UN n)
      * ∑ i, ∑ j, x i * x j * Bstar n i j * Eij i j ^ c UN n * (c KI i * c KI j) ^ (3 / 2 : ℝ) else 0)
    + Dr * (if 12 ≤ n.1 ∧ n.1 < 18 then Cabs x n * T ^ (-c UN n) else 0)
    + (if 12 ≤ n.1 then Cabs x n * T ^ (-c UN n) * ((BN[n.1] : ℝ) + cn n * KN[n.1] * Dr ^ KN[n.1]) * Dr ^ BN[n.1]
      * Real.exp (-cn n * Dr ^ KN[n.1]) else 0)

/-- The size of a logarithm. -/
noncomputable def lnSize (y : ℝ) : ℝ := 1 + |Real.log y|

/-- The size of the ideal-gas Helmholtz energy of a component, without the logarithms of density and mole fraction. -/
noncomputable def idealSize0 (a : GergEos.IdealTerms) (T : ℝ) : ℝ :=
  |(a.n1 : ℝ)| + |(a.n2 : ℝ)| / T + (|(a.n3 : ℝ)| + 1) * lnSize T
    + |(a.n4 : ℝ)| * lnSize (Real.sinh (a.th4 / T)) + |(a.n5 : ℝ)| * lnSize (Real.cosh (a.th5 / T))
    + |(a.n6 : ℝ)| * lnSize (Real.sinh (a.th6 / T)) + |(a.n7 : ℝ)| * lnSize (Real.cosh (a.th7 / T))

/-- The size of its derivative, the ideal-gas entropy. -/
noncomputable def idealSize1 (a : GergEos.IdealTerms) (T : ℝ) : ℝ :=
  |(a.n1 : ℝ)| + (|(a.n3 : ℝ)| + 1) * (1 + lnSize T)
    + |(a.n4 : ℝ)| * (lnSize (Real.sinh (a.th4 / T)) + a.th4 / T * Real.cosh (a.th4 / T) / Real.sinh (a.th4 / T))
    + |(a.n5 : ℝ)| * (lnSize (Real.cosh (a.th5 / T)) + a.th5 / T * Real.sinh (a.th5 / T) / Real.cosh (a.th5 / T))
    + |(a.n6 : ℝ)| * (lnSize (Real.sinh (a.th6 / T)) + a.th6 / T * Real.cosh (a.th6 / T) / Real.sinh (a.th6 / T))
    + |(a.n7 : ℝ)| * (lnSize (Real.cosh (a.th7 / T)) + a.th7 / T * Real.sinh (a.th7 / T) / Real.cosh (a.th7 / T))

/-- The size of its second derivative, the ideal-gas heat capacity. -/
noncomputable def idealSize2 (a : GergEos.IdealTerms) (T : ℝ) : ℝ :=
  |(a.n3 : ℝ)| + 1
    + |(a.n4 : ℝ)| * (a.th4 / T / Real.sinh (a.th4 / T)) ^ 2 + |(a.n5 : ℝ)| * (a.th5 / T / Real.cosh (a.th5 / T)) ^ 2
    + |(a.n6 : ℝ)| * (a.th6 / T / Real.sinh (a.th6 / T)) ^ 2 + |(a.n7 : ℝ)| * (a.th7 / T / Real.cosh (a.th7 / T)) ^ 2

/-- The size of the logarithms of density and mole fraction. -/
noncomputable def mixSize (x D : ℝ) : ℝ := lnSize D + lnSize x + lnSize (101.325 / (8.31451 * 298.15))

noncomputable def helmholtzAbs (x : Fin 21 → ℝ) (D T : ℝ) : ℝ :=
  8.31451 * T * (∑ i, x i * (mixSize (x i) D + idealSize0 (GergEos.ideal.getD i.1 default) T) + ∑ n, termSize x D T n)

noncomputable def entropyAbs (x : Fin 21 → ℝ) (D T : ℝ) : ℝ :=
  8.31451 * (∑ i, x i * (mixSize (x i) D + idealSize1 (GergEos.ideal.getD i.1 default) T)
    + ∑ n, (|c UN n| + 1) * termSize x D T n)

noncomputable def energyAbs (x : Fin 21 → ℝ) (D T : ℝ) : ℝ := helmholtzAbs x D T + T * entropyAbs x D T

noncomputable def enthalpyAbs (x : Fin 21 → ℝ) (D T : ℝ) : ℝ := energyAbs x D T + 8.31451 * T * Zabs x D T

noncomputable def gibbsAbs (x : Fin 21 → ℝ) (D T : ℝ) : ℝ := helmholtzAbs x D T + 8.31451 * T * Zabs x D T

noncomputable def heatVAbs (x : Fin 21 → ℝ) (D T : ℝ) : ℝ :=
  8.31451 * (∑ i, x i * idealSize2 (GergEos.ideal.getD i.1 default) T
    + ∑ n, (|c UN n| + 1) * |c UN n| * termSize x D T n)

noncomputable def pressureTAbs (x : Fin 21 → ℝ) (D T : ℝ) : ℝ :=
  D * 8.31451 * (1 + ∑ n, (|c UN n| + 1) * termSizeZ x D T n)

end Aga8.Eos
