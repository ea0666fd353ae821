import Mathlib.Data.Real.Basic

/-! # How much is lost to cancellation in the GERG-2008 sums of a gas mixture -/

namespace Aga8.GergEos

/-- A bound of the loss, from the reduced density `δ = D/ρr` and the inverse reduced temperature `τ = Tr/T`, for mixtures with
`τ ≤ 1/1.1` and `δ ≤ 1/2`. -/
noncomputable def loss (δ τ : ℝ) : ℝ :=
  if τ ≤ 8 / 10 then (if δ ≤ 1 / 10 then 10 else if δ ≤ 3 / 10 then 54 else 231)
  else (if δ ≤ 1 / 10 then 13 else if δ ≤ 3 / 10 then 110 else 542)

end Aga8.GergEos
