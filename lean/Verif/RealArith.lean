import Mathlib.Analysis.SpecialFunctions.Pow.Real
import Mathlib.Tactic.NormNum
import Verif.Arith

/-! # The model at the exact reals

`F := ℝ` reads the program in exact arithmetic. `powf` is `Real.rpow`, `ln` is `Real.log`; they agree with the
mathematical functions on positive arguments, which is where the theorems use them. -/

namespace Aga8

open Classical in
/-- Exact real arithmetic. -/
noncomputable instance realOps : FOps ℝ where
  ofDec d := (d.m : ℝ) / 10 ^ d.e
  ofNat n := (n : ℝ)
  abs a := |a|
  exp := Real.exp
  ln := Real.log
  sqrt := Real.sqrt
  powf a b := a ^ b
  powi a n := a ^ n
  lt a b := decide (a < b)
  le a b := decide (a ≤ b)

@[simp] theorem r_ofDec (d : Dec) : (FOps.ofDec d : ℝ) = (d.m : ℝ) / 10 ^ d.e := rfl
@[simp] theorem r_ofNat (n : Nat) : (FOps.ofNat n : ℝ) = (n : ℝ) := rfl
@[simp] theorem r_abs (a : ℝ) : FOps.abs a = |a| := rfl
@[simp] theorem r_exp (a : ℝ) : FOps.exp a = Real.exp a := rfl
@[simp] theorem r_ln (a : ℝ) : FOps.ln a = Real.log a := rfl
@[simp] theorem r_sqrt (a : ℝ) : FOps.sqrt a = Real.sqrt a := rfl
@[simp] theorem r_powf (a b : ℝ) : FOps.powf a b = a ^ b := rfl
@[simp] theorem r_powi (a : ℝ) (n : Nat) : FOps.powi a n = a ^ n := rfl
@[simp] theorem r_lt (a b : ℝ) : (FOps.lt a b = true) ↔ a < b := decide_eq_true_iff
@[simp] theorem r_le (a b : ℝ) : (FOps.le a b = true) ↔ a ≤ b := decide_eq_true_iff
theorem r_lt_false (a b : ℝ) : (FOps.lt a b = false) ↔ b ≤ a := by
  rw [← Bool.not_eq_true, r_lt, not_lt]
theorem r_le_false (a b : ℝ) : (FOps.le a b = false) ↔ b < a := by
  rw [← Bool.not_eq_true, r_le, not_le]

/-! The literals of the source text. -/

theorem l0 : (f% 0.0 : ℝ) = 0 := by rw [r_ofDec]; norm_num
theorem l1 : (f% 1.0 : ℝ) = 1 := by rw [r_ofDec]; norm_num
theorem l2 : (f% 2.0 : ℝ) = 2 := by rw [r_ofDec]; norm_num
theorem l3 : (f% 3.0 : ℝ) = 3 := by rw [r_ofDec]; norm_num
theorem l4 : (f% 4.0 : ℝ) = 4 := by rw [r_ofDec]; norm_num
theorem l1000 : (f% 1000.0 : ℝ) = 1000 := by rw [r_ofDec]; norm_num
theorem l7 : (f% 7.0 : ℝ) = 7 := by rw [r_ofDec]; norm_num
theorem l100 : (f% 100.0 : ℝ) = 100 := by rw [r_ofDec]; norm_num
theorem lem7 : (f% 0.0000001 : ℝ) = 1e-7 := by rw [r_ofDec]; norm_num
theorem lem15 : (f% 1e-15 : ℝ) = 1e-15 := by rw [r_ofDec]; norm_num
theorem l01 : (f% 0.1 : ℝ) = 0.1 := by rw [r_ofDec]; norm_num
theorem l25 : (f% 2.5 : ℝ) = 2.5 := by rw [r_ofDec]; norm_num
theorem l15 : (f% 1.5 : ℝ) = 1.5 := by rw [r_ofDec]; norm_num
theorem l06 : (f% 0.6 : ℝ) = 0.6 := by rw [r_ofDec]; norm_num
theorem l02 : (f% 0.2 : ℝ) = 0.2 := by rw [r_ofDec]; norm_num
theorem l1e20 : (f% 1.0E+20 : ℝ) = 1e20 := by rw [r_ofDec]; norm_num

end Aga8
