import Mathlib.Analysis.SpecialFunctions.Trigonometric.DerivHyp
import Mathlib.Analysis.SpecialFunctions.Log.Deriv
import Mathlib.Analysis.SpecialFunctions.Pow.Deriv
import Mathlib.Analysis.Calculus.Deriv.Inv
import Mathlib.Tactic.FieldSimp
import Mathlib.Tactic.Ring
import Mathlib.Tactic.Linarith
import Mathlib.Tactic.LinearCombination
import Verif.RealArith

/-! # The hyperbolic terms of the ideal-gas part as functions of temperature -/

namespace Aga8

open Real

theorem hasDerivAt_theta (a : ℝ) {T : ℝ} (hT : T ≠ 0) :
    HasDerivAt (fun T => a / T) (-(a / T) / T) T := by
  have h := ((hasDerivAt_inv hT).const_mul a)
  simp only [← div_eq_mul_inv] at h
  refine h.congr_deriv ?_
  field_simp

theorem hasDerivAt_logsinh {a T : ℝ} (ha : 0 < a) (hT : 0 < T) :
    HasDerivAt (fun T => log (sinh (a / T))) (-(a / T * cosh (a / T) / sinh (a / T)) / T) T := by
  have hs : sinh (a / T) ≠ 0 := (sinh_pos_iff.2 (div_pos ha hT)).ne'
  refine (((hasDerivAt_theta a hT.ne').sinh).log hs).congr_deriv ?_
  field_simp

theorem hasDerivAt_logcosh {a T : ℝ} (hT : 0 < T) :
    HasDerivAt (fun T => log (cosh (a / T))) (-(a / T * sinh (a / T) / cosh (a / T)) / T) T := by
  refine (((hasDerivAt_theta a hT.ne').cosh).log (cosh_pos _).ne').congr_deriv ?_
  field_simp

theorem hasDerivAt_xcoth {a T : ℝ} (ha : 0 < a) (hT : 0 < T) :
    HasDerivAt (fun T => a / T * cosh (a / T) / sinh (a / T))
      (-(a / T * cosh (a / T) / sinh (a / T) - (a / T / sinh (a / T)) ^ 2) / T) T := by
  have hs : sinh (a / T) ≠ 0 := (sinh_pos_iff.2 (div_pos ha hT)).ne'
  have h := hasDerivAt_theta a hT.ne'
  refine ((h.mul h.cosh).div h.sinh hs).congr_deriv ?_
  have := cosh_sq (a / T)
  simp only [Pi.mul_apply]
  generalize a / T = θ at *
  have hT' := hT.ne'
  field_simp
  linear_combination (θ ^ 2 : ℝ) * this

theorem hasDerivAt_xtanh {a T : ℝ} (hT : 0 < T) :
    HasDerivAt (fun T => a / T * sinh (a / T) / cosh (a / T))
      (-(a / T * sinh (a / T) / cosh (a / T) + (a / T / cosh (a / T)) ^ 2) / T) T := by
  have hs : cosh (a / T) ≠ 0 := (cosh_pos _).ne'
  have h := hasDerivAt_theta a hT.ne'
  refine ((h.mul h.sinh).div h.cosh hs).congr_deriv ?_
  have := cosh_sq (a / T)
  simp only [Pi.mul_apply]
  generalize a / T = θ at *
  have hT' := hT.ne'
  field_simp
  linear_combination (-θ ^ 2 : ℝ) * this

theorem ep_sinh (θ : ℝ) : (FOps.exp θ - f% 1.0 / FOps.exp θ) / f% 2.0 = sinh θ := by
  rw [sinh_eq, l1, l2, r_exp, exp_neg, one_div]

theorem ep_cosh (θ : ℝ) : (FOps.exp θ + f% 1.0 / FOps.exp θ) / f% 2.0 = cosh θ := by
  rw [cosh_eq, l1, l2, r_exp, exp_neg, one_div]

end Aga8
