import Mathlib.Analysis.SpecialFunctions.Pow.Real
import Mathlib.Analysis.Calculus.Deriv.Basic
import Mathlib.Algebra.BigOperators.Fin
import Verif.Dec
import Verif.Tables.Gerg
import Verif.Spec.GergTables
import Verif.Spec.GergBinary

/-! # The GERG-2008 equation of state

The equations of Kunz and Wagner (2012), written down from knowledge of the paper (no copy of it was
available). The coefficients are the frozen copies of the crate's numbers. This file does not mention any function of the
model: only three constant tables of the crate, `GVIJ`, `GTIJ` and `BTIJ`, which hold the products
`β_v γ_v (ρ_i^(-1/3) + ρ_j^(-1/3))^3 / 8`, `β_T γ_T (T_i T_j)^(1/2)` and `β_T^2` rounded to double precision. -/

namespace Aga8.GergEos

open Finset Real

/-- Value of a constant of the crate. -/
noncomputable def val (d : Dec) : ℝ := (d.m : ℝ) / 10 ^ d.e

/-- The binary parameters `(β_v, γ_v, β_T, γ_T)` of a pair `i < j`. -/
def params (i j : ℕ) : ℚ × ℚ × ℚ × ℚ :=
  ((binary.find? fun r => r.1 = i ∧ r.2.1 = j).map fun r => r.2.2).getD (1, 1, 1, 1)

/-- Weight and departure terms of a pair `i < j`. -/
def departure (i j : ℕ) : ℚ × List DepTerm :=
  ((departures.find? fun r => r.1 = i ∧ r.2.1 = j).map fun r => r.2.2).getD (0, [])

/-- A reducing function: `Σ_i x_i² Y_ii + Σ_(i<j) 2 x_i x_j Y_ij (x_i + x_j) / (B_ij x_i + x_j)`, with `Y_ij` the
combined parameter of a pair and `B_ij` its asymmetry `β_ij²`. -/
noncomputable def reducing (Y B : Fin 22 → Fin 22 → ℝ) (x : Fin 22 → ℝ) : ℝ :=
  ∑ i with 1 ≤ i.1, (x i ^ 2 * Y i i
    + ∑ j with i < j, 2 * x i * x j * Y i j * ((x i + x j) / (B i j * x i + x j)))

/-- `1/ρ_r`, the reciprocal of the reducing density. -/
noncomputable def invRhoR (x : Fin 22 → ℝ) : ℝ :=
  reducing (fun i j => val Gerg.Tab.GVIJ[i.1][j.1]) (fun i j => ((params i.1 j.1).1 : ℝ) ^ 2) x

/-- `T_r`, the reducing temperature. -/
noncomputable def Tr (x : Fin 22 → ℝ) : ℝ :=
  reducing (fun i j => val Gerg.Tab.GTIJ[i.1][j.1]) (fun i j => val Gerg.Tab.BTIJ[i.1][j.1]) x

/-- A term of a pure fluid. -/
noncomputable def PureTerm.eval (a : PureTerm) (δ τ : ℝ) : ℝ :=
  a.n * δ ^ a.d * τ ^ (a.t : ℝ) * if a.c = 0 then 1 else exp (-δ ^ a.c)

/-- A term of a departure function. -/
noncomputable def DepTerm.eval (a : DepTerm) (δ τ : ℝ) : ℝ :=
  a.n * δ ^ a.d * τ ^ (a.t : ℝ) * exp (-a.η * (δ - a.ε) ^ 2 - a.β * (δ - a.γ))

/-- Residual Helmholtz energy of a pure fluid over `R T`. -/
noncomputable def alphaPure (i : ℕ) (δ τ : ℝ) : ℝ := ((pureTerms.getD i []).map fun a => a.eval δ τ).sum

/-- Departure function of a pair over `R T`. -/
noncomputable def alphaDep (i j : ℕ) (δ τ : ℝ) : ℝ := ((departure i j).2.map fun a => a.eval δ τ).sum

/-- Residual Helmholtz energy of the mixture over `R T`, at reduced density `δ` and inverse reduced temperature `τ`. -/
noncomputable def alphaR (x : Fin 22 → ℝ) (δ τ : ℝ) : ℝ :=
  ∑ i with 1 ≤ i.1, x i * alphaPure i.1 δ τ
    + ∑ i with 1 ≤ i.1, ∑ j with i < j, x i * x j * (departure i.1 j.1).1 * alphaDep i.1 j.1 δ τ

/-- Ideal-gas Helmholtz energy of a fluid over `R T`, without the density and mixing terms, times `R / R*`. -/
noncomputable def IdealTerms.eval (a : IdealTerms) (T : ℝ) : ℝ :=
  a.n1 + (a.n2 + 298.15) / T - (a.n3 - 1) * log T
    + a.n4 * log (sinh (a.th4 / T)) - a.n5 * log (cosh (a.th5 / T))
    + a.n6 * log (sinh (a.th6 / T)) - a.n7 * log (cosh (a.th7 / T))

/-- Ideal-gas Helmholtz energy of the mixture over `R T`, at density `D` in mol/l and temperature `T`. The ideal-gas
coefficients belong to the older gas constant `R* = 8.31451`. -/
noncomputable def alpha0 (x : Fin 22 → ℝ) (D T : ℝ) : ℝ :=
  ∑ i with 1 ≤ i.1, x i * (log (x i) + log (D / (101.325 / (8.314472 * 298.15))) - 298.15 / T
    + 8.31451 / 8.314472 * (ideal.getD (i.1 - 1) default).eval T)

end Aga8.GergEos
