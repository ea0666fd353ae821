import Mathlib.Analysis.SpecialFunctions.Pow.Real
import Mathlib.Algebra.BigOperators.Fin
import Verif.Detail
import Verif.RealArith
import Verif.Spec.GergTables

/-! # The AGA 8 DETAIL equation of state

The equations of AGA Report No. 8 (1994), ISO 12213-2 Annex B, written down from knowledge of the report (no copy of it
was available), with the tables of constants of the crate. This file does not mention any function of the model: only the constant tables. Indices start
at 0 (the report's term `n` is `n - 1` here). The report's coefficient `c_n` is 0 when `k_n = 0` and 1 otherwise. -/

namespace Aga8.Eos

open Detail.Tab Finset

/-- A constant of a component. -/
noncomputable def c {n : Nat} (v : Vector Dec n) (i : Fin n) : ℝ := (v[i.1].m : ℝ) / 10 ^ v[i.1].e

/-- A binary interaction parameter: the tables hold the values for `i ≤ j`. -/
noncomputable def star (v : Vector (Vector Dec 21) 21) (i j : Fin 21) : ℝ :=
  if i ≤ j then c v[i.1] j else c v[j.1] i

/-- `b` or 1, according to the flag `k`: the factors `(b + 1 - k)^k` of the report. -/
noncomputable def flag (b : ℝ) (k : Nat) : ℝ := (b + 1 - k) ^ k

/-- `E_ij = E*_ij (E_i E_j)^(1/2)`. -/
noncomputable def Eij (i j : Fin 21) : ℝ := star EIJ i j * √(c EI i * c EI j)

/-- `G_ij = G*_ij (G_i + G_j) / 2`. -/
noncomputable def Gij (i j : Fin 21) : ℝ := star GIJ i j * (c GI i + c GI j) / 2

/-- `B*_nij`. -/
noncomputable def Bstar (n : Fin 58) (i j : Fin 21) : ℝ :=
  flag (Gij i j) GN[n.1] * flag (c QI i * c QI j) QN[n.1] * flag (√(c FI i) * √(c FI j)) FN[n.1]
    * flag (c SI i * c SI j) SN[n.1] * flag (c WI i * c WI j) WN[n.1]

/-- The second virial coefficient. -/
noncomputable def B (x : Fin 21 → ℝ) (T : ℝ) : ℝ :=
  ∑ n : Fin 58 with n.1 < 18, c AN n * T ^ (-c UN n)
    * ∑ i, ∑ j, x i * x j * Bstar n i j * Eij i j ^ c UN n * (c KI i * c KI j) ^ (3 / 2 : ℝ)

/-- `K^5`. -/
noncomputable def K5 (x : Fin 21 → ℝ) : ℝ :=
  (∑ i, x i * c KI i ^ (5 / 2 : ℝ)) ^ 2
    + 2 * ∑ i, ∑ j with i < j, x i * x j * (star KIJ i j ^ 5 - 1) * (c KI i * c KI j) ^ (5 / 2 : ℝ)

/-- `U^5`. -/
noncomputable def U5 (x : Fin 21 → ℝ) : ℝ :=
  (∑ i, x i * c EI i ^ (5 / 2 : ℝ)) ^ 2
    + 2 * ∑ i, ∑ j with i < j, x i * x j * (star UIJ i j ^ 5 - 1) * (c EI i * c EI j) ^ (5 / 2 : ℝ)

/-- The mixture size parameter, cubed: `K^3`. -/
noncomputable def Kcubed (x : Fin 21 → ℝ) : ℝ := K5 x ^ (3 / 5 : ℝ)
/-- The mixture energy parameter. -/
noncomputable def U (x : Fin 21 → ℝ) : ℝ := U5 x ^ (1 / 5 : ℝ)
/-- The mixture orientation parameter. -/
noncomputable def G (x : Fin 21 → ℝ) : ℝ :=
  ∑ i, x i * c GI i + ∑ i, ∑ j with i < j, x i * x j * (star GIJ i j - 1) * (c GI i + c GI j)
/-- The quadrupole parameter. -/
noncomputable def Q (x : Fin 21 → ℝ) : ℝ := ∑ i, x i * c QI i
/-- The high temperature parameter. -/
noncomputable def Fhigh (x : Fin 21 → ℝ) : ℝ := ∑ i, x i ^ 2 * c FI i

/-- `C*_n`. -/
noncomputable def Cstar (x : Fin 21 → ℝ) (n : Fin 58) : ℝ :=
  c AN n * flag (G x) GN[n.1] * flag (Q x ^ 2) QN[n.1] * flag (Fhigh x) FN[n.1] * U x ^ c UN n

/-- `c_n`. -/
noncomputable def cn (n : Fin 58) : ℝ := if KN[n.1] = 0 then 0 else 1

/-- The compression factor at composition `x`, molar density `D` and temperature `T`. -/
noncomputable def Z (x : Fin 21 → ℝ) (D T : ℝ) : ℝ :=
  let Dr := Kcubed x * D
  1 + D * B x T - Dr * ∑ n : Fin 58 with 12 ≤ n.1 ∧ n.1 < 18, Cstar x n * T ^ (-c UN n)
    + ∑ n : Fin 58 with 12 ≤ n.1, Cstar x n * T ^ (-c UN n)
      * ((BN[n.1] : ℝ) - cn n * KN[n.1] * Dr ^ KN[n.1]) * Dr ^ BN[n.1] * Real.exp (-cn n * Dr ^ KN[n.1])

/-- The residual Helmholtz energy over `R T`: `Z = 1 + D ∂α_r/∂D`. -/
noncomputable def alphaR (x : Fin 21 → ℝ) (D T : ℝ) : ℝ :=
  let Dr := Kcubed x * D
  D * B x T - Dr * ∑ n : Fin 58 with 12 ≤ n.1 ∧ n.1 < 18, Cstar x n * T ^ (-c UN n)
    + ∑ n : Fin 58 with 12 ≤ n.1, Cstar x n * T ^ (-c UN n) * Dr ^ BN[n.1] * Real.exp (-cn n * Dr ^ KN[n.1])

/-- The ideal-gas Helmholtz energy of the mixture over `R T`, at density `D` in mol/l and temperature `T`, with the zero
of energy and entropy at 298.15 K and 101.325 kPa. The coefficients are those of `GergEos.ideal`, the frozen copy of the
crate's GERG-2008 table. -/
noncomputable def alpha0 (x : Fin 21 → ℝ) (D T : ℝ) : ℝ :=
  ∑ i, x i * (Real.log (x i) + Real.log (D / (101.325 / (8.31451 * 298.15))) + ideal (GergEos.ideal.getD i.1 default) T)
where
  /-- The part that depends on the temperature only. -/
  ideal (a : GergEos.IdealTerms) (T : ℝ) : ℝ :=
    a.n1 + a.n2 / T - (a.n3 - 1) * Real.log T
      + a.n4 * Real.log (Real.sinh (a.th4 / T)) - a.n5 * Real.log (Real.cosh (a.th5 / T))
      + a.n6 * Real.log (Real.sinh (a.th6 / T)) - a.n7 * Real.log (Real.cosh (a.th7 / T))

end Aga8.Eos
