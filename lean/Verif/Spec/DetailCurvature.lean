import Verif.Spec.DetailError

/-! # The second density derivative of the AGA 8 DETAIL pressure, and the size of its terms

`dPdD` of `Spec/DetailError` is `(∂p/∂D)_T / (R T)`. No function of the model is mentioned. -/

namespace Aga8.Eos

open Detail.Tab Finset

/-- `(∂²p/∂D²)_T` in kPa/(mol/l)². -/
noncomputable def pressureDD (x : Fin 21 → ℝ) (D T : ℝ) : ℝ := deriv (fun D => 8.31451 * T * dPdD x D T) D

/-- `D ∂/∂D` of a term multiplies it by `g = b - c k D_r^k`; this is the size of that factor. -/
noncomputable def grow1 (Dr : ℝ) (n : Fin 58) : ℝ := (BN[n.1] : ℝ) + cn n * KN[n.1] * Dr ^ KN[n.1]

/-- The size of `-D ∂g/∂D = c k² D_r^k`. -/
noncomputable def slope (Dr : ℝ) (n : Fin 58) : ℝ := cn n * (KN[n.1] : ℝ) ^ 2 * Dr ^ KN[n.1]

/-- The size of the factor `g (g - 1) - c k² D_r^k` of the second derivative. -/
noncomputable def grow2 (Dr : ℝ) (n : Fin 58) : ℝ := grow1 Dr n * (grow1 Dr n + 1) + slope Dr n

/-- The size of the factor `(g - 2) (g (g - 1) - c k² D_r^k) + c k² D_r^k (1 - k - 2 g)` of the third derivative. -/
noncomputable def grow3 (Dr : ℝ) (n : Fin 58) : ℝ :=
  (grow1 Dr n + 2) * grow2 Dr n + slope Dr n * (1 + KN[n.1] + 2 * grow1 Dr n)

/-- The sum of the sizes of the exponential terms, each multiplied by a factor. -/
noncomputable def expSizes (f : ℝ → Fin 58 → ℝ) (x : Fin 21 → ℝ) (D T : ℝ) : ℝ :=
  let Dr := Kcubed x * D
  ∑ n : Fin 58 with 12 ≤ n.1, Cabs x n * T ^ (-c UN n) * f Dr n * Dr ^ BN[n.1] * Real.exp (-cn n * Dr ^ KN[n.1])

/-- The size of the terms of `pressureDD`, which is `R T (2 D ∂α_r/∂D + 4 D² ∂²α_r/∂D² + D³ ∂³α_r/∂D³) / D`. -/
noncomputable def pressureDDAbs (x : Fin 21 → ℝ) (D T : ℝ) : ℝ :=
  8.31451 * T * (2 * (Zabs x D T - 1) + 4 * expSizes grow2 x D T + expSizes grow3 x D T) / D

end Aga8.Eos
