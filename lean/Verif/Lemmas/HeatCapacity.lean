import Mathlib.Analysis.SpecialFunctions.Trigonometric.DerivHyp
import Mathlib.Tactic.LinearCombination
import Mathlib.Tactic.FieldSimp
import Mathlib.Tactic.Positivity
import Mathlib.Tactic.Linarith

/-! # The temperature dependence of ideal-gas heat capacities

The equations give the ideal-gas heat capacity of a component as a constant plus terms `n (y / sinh y)^2` and
`n (y / cosh y)^2` with `y = θ / T`. Some of the coefficients of the `cosh` terms are negative. -/

namespace Aga8.HeatCapacity

open Real

theorem cosh_ge (y : ℝ) : 1 + y ^ 2 / 2 ≤ cosh y := by
  have e : cosh y = 1 + 2 * sinh (y / 2) ^ 2 := by
    have h := cosh_two_mul (y / 2)
    rw [show 2 * (y / 2) = y by ring, cosh_sq] at h
    linarith
  have k : (y / 2) ^ 2 ≤ sinh (y / 2) ^ 2 := by
    rcases le_total 0 (y / 2) with h | h
    · exact pow_le_pow_left₀ h (self_le_sinh_iff.2 h) 2
    · have h1 := sinh_le_self_iff.2 h
      nlinarith
  rw [e]; nlinarith

theorem cosh_term_le (y : ℝ) : (y / cosh y) ^ 2 ≤ 1 / 2 := by
  have h := cosh_ge y
  have hc : 0 < cosh y := cosh_pos y
  rw [div_pow, div_le_iff₀ (by positivity)]
  have h1 : (1 + y ^ 2 / 2) ^ 2 ≤ cosh y ^ 2 := pow_le_pow_left₀ (by positivity) h 2
  nlinarith [sq_nonneg (1 - y ^ 2 / 2)]

theorem sinh_lt_cosh_of_le {a b : ℝ} (h : a ≤ b) : sinh a < cosh b :=
  lt_of_le_of_lt (sinh_le_sinh.2 h) (sinh_lt_cosh b)

/-- A `cosh` term is at most the square of the ratio of the two characteristic temperatures times the `sinh` term. -/
theorem cosh_term_le_sinh {a b : ℝ} (ha : 0 < a) (hab : a ≤ b) :
    a ^ 2 * (b / cosh b) ^ 2 ≤ b ^ 2 * (a / sinh a) ^ 2 := by
  have hs : 0 < sinh a := sinh_pos_iff.2 ha
  have hc : 0 < cosh b := cosh_pos b
  have h := (sinh_lt_cosh_of_le hab).le
  have h2 : sinh a ^ 2 ≤ cosh b ^ 2 := pow_le_pow_left₀ hs.le h 2
  have e1 : a ^ 2 * (b / cosh b) ^ 2 = a ^ 2 * b ^ 2 / cosh b ^ 2 := by rw [div_pow]; ring
  have e2 : b ^ 2 * (a / sinh a) ^ 2 = a ^ 2 * b ^ 2 / sinh a ^ 2 := by rw [div_pow]; ring
  rw [e1, e2]
  exact div_le_div_of_nonneg_left (by positivity) (by positivity) h2

theorem pair_nonneg {n6 n7 t6 t7 T : ℝ} (h6 : 0 ≤ n6) (h : 0 ≤ n7 ∨ (0 < t6 ∧ t6 ≤ t7 ∧ -n7 * t7 ^ 2 ≤ n6 * t6 ^ 2))
    (hT : 0 < T) : 0 ≤ n6 * (t6 / T / sinh (t6 / T)) ^ 2 + n7 * (t7 / T / cosh (t7 / T)) ^ 2 := by
  rcases h with h7 | ⟨a, b, c⟩
  · positivity
  by_cases h7 : 0 ≤ n7
  · positivity
  have h7' : 0 < -n7 := by linarith [not_le.1 h7]
  have k := cosh_term_le_sinh (div_pos a hT) (div_le_div_of_nonneg_right b hT.le)
  set A := (t6 / T / sinh (t6 / T)) ^ 2
  set B := (t7 / T / cosh (t7 / T)) ^ 2
  have hA : 0 ≤ A := by positivity
  have hT2 : 0 < T ^ 2 := by positivity
  have k2 : t6 ^ 2 * B ≤ t7 ^ 2 * A := by
    rw [div_pow, div_pow, div_mul_eq_mul_div, div_mul_eq_mul_div, div_le_div_iff_of_pos_right hT2] at k
    exact k
  have k3 : -n7 * (t6 ^ 2 * B) ≤ -n7 * (t7 ^ 2 * A) := mul_le_mul_of_nonneg_left k2 h7'.le
  have k4 : -n7 * t7 ^ 2 * A ≤ n6 * t6 ^ 2 * A := mul_le_mul_of_nonneg_right c hA
  have ht : 0 < t6 ^ 2 := by positivity
  have : 0 ≤ t6 ^ 2 * (n6 * A + n7 * B) := by nlinarith
  exact nonneg_of_mul_nonneg_right this ht

/-- The terms together are not below half the first `cosh` coefficient, when that is negative. -/
theorem terms_ge {n4 n5 n6 n7 t4 t5 t6 t7 T : ℝ} (h4 : 0 ≤ n4) (h6 : 0 ≤ n6)
    (h : 0 ≤ n7 ∨ (0 < t6 ∧ t6 ≤ t7 ∧ -n7 * t7 ^ 2 ≤ n6 * t6 ^ 2)) (hT : 0 < T) :
    min n5 0 / 2 ≤ n4 * (t4 / T / sinh (t4 / T)) ^ 2 + n5 * (t5 / T / cosh (t5 / T)) ^ 2
      + n6 * (t6 / T / sinh (t6 / T)) ^ 2 + n7 * (t7 / T / cosh (t7 / T)) ^ 2 := by
  have p := pair_nonneg h6 h hT
  have a : 0 ≤ n4 * (t4 / T / sinh (t4 / T)) ^ 2 := by positivity
  have b := cosh_term_le (t5 / T)
  have b0 : 0 ≤ (t5 / T / cosh (t5 / T)) ^ 2 := by positivity
  have c : min n5 0 / 2 ≤ n5 * (t5 / T / cosh (t5 / T)) ^ 2 := by
    have m1 := min_le_left n5 0
    have m2 := min_le_right n5 0
    nlinarith
  linarith

end Aga8.HeatCapacity
