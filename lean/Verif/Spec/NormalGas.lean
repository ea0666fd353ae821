import Mathlib.Data.Real.Basic
import Mathlib.Algebra.BigOperators.Fin

/-! # Natural gas of the normal range

The normal range of compositions of AGA Report No. 8, on the mole fractions in the order of the DETAIL components. The limits are those
of the report as far as they are known here (no copy of it was available): they are the hypotheses of a theorem, and nothing about the
report is claimed. -/

namespace Aga8.Eos

open Finset

/-- A natural gas: at least 45 % methane, at most 50 % nitrogen, 30 % carbon dioxide, 10 % ethane, 4 % propane, 1 % butanes, 0.3 %
pentanes, 0.2 % of the hydrocarbons from hexane to decane, 10 % hydrogen, 0.1 % oxygen, 3 % carbon monoxide, 0.05 % water, 0.02 % hydrogen
sulphide, 0.2 % helium and 0.1 % argon, and 101 % in all. -/
structure NormalGas (x : Fin 21 → ℝ) : Prop where
  nonneg : ∀ i, 0 ≤ x i
  sum : ∑ i, x i ≤ 1.01
  methane : 0.45 ≤ x 0
  nitrogen : x 1 ≤ 0.5
  carbon_dioxide : x 2 ≤ 0.3
  ethane : x 3 ≤ 0.1
  propane : x 4 ≤ 0.04
  butanes : x 5 + x 6 ≤ 0.01
  pentanes : x 7 + x 8 ≤ 0.003
  hexanes_plus : x 9 + x 10 + x 11 + x 12 + x 13 ≤ 0.002
  hydrogen : x 14 ≤ 0.1
  oxygen : x 15 ≤ 0.001
  carbon_monoxide : x 16 ≤ 0.03
  water : x 17 ≤ 0.0005
  hydrogen_sulfide : x 18 ≤ 0.0002
  helium : x 19 ≤ 0.002
  argon : x 20 ≤ 0.001

end Aga8.Eos
