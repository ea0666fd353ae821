import Mathlib.Algebra.BigOperators.Field
import Mathlib.Data.Rat.BigOperators
import Mathlib.Data.Rat.Cast.Order
import Mathlib.Tactic.Linarith
import Mathlib.Tactic.NormNum
import Mathlib.Tactic.Ring
import Mathlib.Tactic.Positivity
import Verif.Spec.NormalGas

/-! # Bounds of linear and quadratic forms over the natural gases -/

namespace Aga8.Eos

open Finset

/-- A bound of the linear form `γ`. -/
def lim (γ : Fin 21 → ℚ) : ℚ :=
  101 / 100 * γ 0 + 1 / 2 * max (γ 1 - γ 0) 0 + 3 / 10 * max (γ 2 - γ 0) 0 + 1 / 10 * max (γ 3 - γ 0) 0 + 1 / 25 * max (γ 4 - γ 0) 0
    + 1 / 100 * max (max (γ 5 - γ 0) (γ 6 - γ 0)) 0 + 3 / 1000 * max (max (γ 7 - γ 0) (γ 8 - γ 0)) 0
    + 1 / 500 * max (max (max (max (max (γ 9 - γ 0) (γ 10 - γ 0)) (γ 11 - γ 0)) (γ 12 - γ 0)) (γ 13 - γ 0)) 0
    + 1 / 10 * max (γ 14 - γ 0) 0 + 1 / 1000 * max (γ 15 - γ 0) 0 + 3 / 100 * max (γ 16 - γ 0) 0 + 1 / 2000 * max (γ 17 - γ 0) 0
    + 1 / 5000 * max (γ 18 - γ 0) 0 + 1 / 500 * max (γ 19 - γ 0) 0 + 1 / 1000 * max (γ 20 - γ 0) 0

/-- Upper limits of the fractions. -/
def ub : Fin 21 → ℚ := ![101 / 100, 1 / 2, 3 / 10, 1 / 10, 1 / 25, 1 / 100, 1 / 100, 3 / 1000, 3 / 1000, 1 / 500, 1 / 500, 1 / 500, 1 / 500,
  1 / 500, 1 / 10, 1 / 1000, 3 / 100, 1 / 2000, 1 / 5000, 1 / 500, 1 / 1000]

theorem NormalGas.le_ub {x : Fin 21 → ℝ} (h : NormalGas x) (i : Fin 21) : x i ≤ (ub i : ℝ) := by
  have n := h.nonneg
  have h0 : x 0 ≤ 1.01 := (single_le_sum (fun i _ => n i) (mem_univ 0)).trans h.sum
  obtain ⟨-, -, -, h1, h2, h3, h4, h5, h7, h9, h14, h15, h16, h17, h18, h19, h20⟩ := h
  have n5 := n 5; have n6 := n 6; have n7 := n 7; have n8 := n 8; have n9 := n 9; have n10 := n 10; have n11 := n 11
  have n12 := n 12; have n13 := n 13
  norm_num at h0 h1 h2 h3 h4 h5 h7 h9 h14 h15 h16 h17 h18 h19 h20
  match i with
  | 0 => rw [show ub 0 = 101 / 100 from rfl]; push_cast; linarith
  | 1 => rw [show ub 1 = 1 / 2 from rfl]; push_cast; linarith
  | 2 => rw [show ub 2 = 3 / 10 from rfl]; push_cast; linarith
  | 3 => rw [show ub 3 = 1 / 10 from rfl]; push_cast; linarith
  | 4 => rw [show ub 4 = 1 / 25 from rfl]; push_cast; linarith
  | 5 => rw [show ub 5 = 1 / 100 from rfl]; push_cast; linarith
  | 6 => rw [show ub 6 = 1 / 100 from rfl]; push_cast; linarith
  | 7 => rw [show ub 7 = 3 / 1000 from rfl]; push_cast; linarith
  | 8 => rw [show ub 8 = 3 / 1000 from rfl]; push_cast; linarith
  | 9 => rw [show ub 9 = 1 / 500 from rfl]; push_cast; linarith
  | 10 => rw [show ub 10 = 1 / 500 from rfl]; push_cast; linarith
  | 11 => rw [show ub 11 = 1 / 500 from rfl]; push_cast; linarith
  | 12 => rw [show ub 12 = 1 / 500 from rfl]; push_cast; linarith
  | 13 => rw [show ub 13 = 1 / 500 from rfl]; push_cast; linarith
  | 14 => rw [show ub 14 = 1 / 10 from rfl]; push_cast; linarith
  | 15 => rw [show ub 15 = 1 / 1000 from rfl]; push_cast; linarith
  | 16 => rw [show ub 16 = 3 / 100 from rfl]; push_cast; linarith
  | 17 => rw [show ub 17 = 1 / 2000 from rfl]; push_cast; linarith
  | 18 => rw [show ub 18 = 1 / 5000 from rfl]; push_cast; linarith
  | 19 => rw [show ub 19 = 1 / 500 from rfl]; push_cast; linarith
  | 20 => rw [show ub 20 = 1 / 1000 from rfl]; push_cast; linarith
  | ⟨k + 21, hk⟩ => omega

theorem NormalGas.lin {x : Fin 21 → ℝ} (h : NormalGas x) (γ : Fin 21 → ℚ) (g0 : 0 ≤ γ 0) : ∑ i, (γ i : ℝ) * x i ≤ (lim γ : ℝ) := by
  have n := h.nonneg
  have s := mul_le_mul_of_nonneg_left h.sum (show (0 : ℝ) ≤ γ 0 by exact_mod_cast g0)
  have e : ∑ i, (γ i : ℝ) * x i = (γ 0 : ℝ) * ∑ i, x i + ∑ i, ((γ i : ℝ) - γ 0) * x i := by
    rw [mul_sum, ← sum_add_distrib]
    exact sum_congr rfl fun i _ => by ring
  have one : ∀ (i : Fin 21) (u : ℝ), x i ≤ u → ((γ i : ℝ) - γ 0) * x i ≤ u * max ((γ i : ℝ) - γ 0) 0 := by
    intro i u hu
    calc ((γ i : ℝ) - γ 0) * x i ≤ max ((γ i : ℝ) - γ 0) 0 * x i := mul_le_mul_of_nonneg_right (le_max_left _ _) (n i)
      _ ≤ max ((γ i : ℝ) - γ 0) 0 * u := mul_le_mul_of_nonneg_left hu (le_max_right _ _)
      _ = _ := mul_comm _ _
  have up : ∀ (i : Fin 21) (m : ℝ), (γ i : ℝ) - γ 0 ≤ m → ((γ i : ℝ) - γ 0) * x i ≤ max m 0 * x i := fun i m hm =>
    mul_le_mul_of_nonneg_right (hm.trans (le_max_left _ _)) (n i)
  have fin : ∀ (m u t : ℝ), t ≤ u → max m 0 * t ≤ u * max m 0 := fun m u t ht => by
    rw [mul_comm]; exact mul_le_mul_of_nonneg_right ht (le_max_right _ _)
  rw [e]
  unfold lim
  push_cast
  obtain ⟨-, -, -, h1, h2, h3, h4, h5, h7, h9, h14, h15, h16, h17, h18, h19, h20⟩ := h
  norm_num at s h1 h2 h3 h4 h5 h7 h9 h14 h15 h16 h17 h18 h19 h20
  have e21 : ∑ i, ((γ i : ℝ) - γ 0) * x i = ((γ 0 : ℝ) - γ 0) * x 0 + ((γ 1 : ℝ) - γ 0) * x 1 + ((γ 2 : ℝ) - γ 0) * x 2
      + ((γ 3 : ℝ) - γ 0) * x 3 + ((γ 4 : ℝ) - γ 0) * x 4 + ((γ 5 : ℝ) - γ 0) * x 5 + ((γ 6 : ℝ) - γ 0) * x 6
      + ((γ 7 : ℝ) - γ 0) * x 7 + ((γ 8 : ℝ) - γ 0) * x 8 + ((γ 9 : ℝ) - γ 0) * x 9 + ((γ 10 : ℝ) - γ 0) * x 10
      + ((γ 11 : ℝ) - γ 0) * x 11 + ((γ 12 : ℝ) - γ 0) * x 12 + ((γ 13 : ℝ) - γ 0) * x 13 + ((γ 14 : ℝ) - γ 0) * x 14
      + ((γ 15 : ℝ) - γ 0) * x 15 + ((γ 16 : ℝ) - γ 0) * x 16 + ((γ 17 : ℝ) - γ 0) * x 17 + ((γ 18 : ℝ) - γ 0) * x 18
      + ((γ 19 : ℝ) - γ 0) * x 19 + ((γ 20 : ℝ) - γ 0) * x 20 := by
    simp only [Fin.sum_univ_succ, Fin.sum_univ_zero]
    simp only [← add_assoc, add_zero]
    rfl
  rw [e21, sub_self, zero_mul]
  have a1 := one 1 _ h1; have a2 := one 2 _ h2; have a3 := one 3 _ h3; have a4 := one 4 _ h4; have a14 := one 14 _ h14
  have a15 := one 15 _ h15; have a16 := one 16 _ h16; have a17 := one 17 _ h17; have a18 := one 18 _ h18; have a19 := one 19 _ h19
  have a20 := one 20 _ h20
  have b5 := fin (max ((γ 5 : ℝ) - γ 0) (γ 6 - γ 0)) _ _ h5
  have b7 := fin (max ((γ 7 : ℝ) - γ 0) (γ 8 - γ 0)) _ _ h7
  have b9 := fin (max (max (max (max ((γ 9 : ℝ) - γ 0) (γ 10 - γ 0)) (γ 11 - γ 0)) (γ 12 - γ 0)) (γ 13 - γ 0)) _ _ h9
  have c5 := up 5 (max ((γ 5 : ℝ) - γ 0) (γ 6 - γ 0)) (le_max_left _ _)
  have c6 := up 6 (max ((γ 5 : ℝ) - γ 0) (γ 6 - γ 0)) (le_max_right _ _)
  have c7 := up 7 (max ((γ 7 : ℝ) - γ 0) (γ 8 - γ 0)) (le_max_left _ _)
  have c8 := up 8 (max ((γ 7 : ℝ) - γ 0) (γ 8 - γ 0)) (le_max_right _ _)
  have c9 := up 9 (max (max (max (max ((γ 9 : ℝ) - γ 0) (γ 10 - γ 0)) (γ 11 - γ 0)) (γ 12 - γ 0)) (γ 13 - γ 0))
    (le_max_of_le_left (le_max_of_le_left (le_max_of_le_left (le_max_left _ _))))
  have c10 := up 10 (max (max (max (max ((γ 9 : ℝ) - γ 0) (γ 10 - γ 0)) (γ 11 - γ 0)) (γ 12 - γ 0)) (γ 13 - γ 0))
    (le_max_of_le_left (le_max_of_le_left (le_max_of_le_left (le_max_right _ _))))
  have c11 := up 11 (max (max (max (max ((γ 9 : ℝ) - γ 0) (γ 10 - γ 0)) (γ 11 - γ 0)) (γ 12 - γ 0)) (γ 13 - γ 0))
    (le_max_of_le_left (le_max_of_le_left (le_max_right _ _)))
  have c12 := up 12 (max (max (max (max ((γ 9 : ℝ) - γ 0) (γ 10 - γ 0)) (γ 11 - γ 0)) (γ 12 - γ 0)) (γ 13 - γ 0))
    (le_max_of_le_left (le_max_right _ _))
  have c13 := up 13 (max (max (max (max ((γ 9 : ℝ) - γ 0) (γ 10 - γ 0)) (γ 11 - γ 0)) (γ 12 - γ 0)) (γ 13 - γ 0)) (le_max_right _ _)
  linarith

/-- A bound of the quadratic form `w`, whatever the weights `γ`. -/
def quad (w : Fin 21 → Fin 21 → ℚ) (γ : Fin 21 → ℚ) : ℚ :=
  2 * (101 / 100) * lim γ + ∑ i, ∑ j, ub i * ub j * max (w i j - γ i - γ j) 0

theorem NormalGas.quad {x : Fin 21 → ℝ} (h : NormalGas x) {v : Fin 21 → Fin 21 → ℝ} {w : Fin 21 → Fin 21 → ℚ}
    (hv : ∀ i j, v i j ≤ (w i j : ℝ)) (γ : Fin 21 → ℚ) (g0 : ∀ i, 0 ≤ γ i) : ∑ i, ∑ j, x i * x j * v i j ≤ (Eos.quad w γ : ℝ) := by
  have n := h.nonneg
  have u := h.le_ub
  have l := h.lin γ (g0 0)
  have l0 : 0 ≤ ∑ i, (γ i : ℝ) * x i := sum_nonneg fun i _ => mul_nonneg (by exact_mod_cast g0 i) (n i)
  have a : ∑ i, ∑ j, x i * x j * v i j ≤ ∑ i, ∑ j, (x i * x j * ((γ i : ℝ) + γ j) + (ub i : ℝ) * ub j * max ((w i j : ℝ) - γ i - γ j) 0) := by
    refine sum_le_sum fun i _ => sum_le_sum fun j _ => ?_
    have m0 : 0 ≤ max ((w i j : ℝ) - γ i - γ j) 0 := le_max_right _ _
    have e : v i j ≤ (γ i : ℝ) + γ j + max ((w i j : ℝ) - γ i - γ j) 0 := by
      linarith [hv i j, le_max_left ((w i j : ℝ) - γ i - γ j) 0]
    have e2 := mul_le_mul_of_nonneg_left e (mul_nonneg (n i) (n j))
    have e3 := mul_le_mul_of_nonneg_right (mul_le_mul (u i) (u j) (n j) ((n i).trans (u i))) m0
    rw [mul_add] at e2
    linarith
  refine a.trans ?_
  have b : ∑ i, ∑ j, x i * x j * ((γ i : ℝ) + γ j) = 2 * (∑ i, x i) * ∑ i, (γ i : ℝ) * x i := by
    have b1 : ∑ i, ∑ j, x i * x j * (γ i : ℝ) = (∑ i, (γ i : ℝ) * x i) * ∑ j, x j := by
      rw [sum_mul_sum]
      exact sum_congr rfl fun i _ => sum_congr rfl fun j _ => by ring
    have b2 : ∑ i, ∑ j, x i * x j * (γ j : ℝ) = (∑ i, x i) * ∑ j, (γ j : ℝ) * x j := by
      rw [sum_mul_sum]
      exact sum_congr rfl fun i _ => sum_congr rfl fun j _ => by ring
    simp only [mul_add, sum_add_distrib]
    rw [b1, b2]
    ring
  simp only [sum_add_distrib]
  rw [b]
  unfold Eos.quad
  push_cast
  refine add_le_add ?_ le_rfl
  have s := h.sum
  have s0 : 0 ≤ ∑ i, x i := sum_nonneg fun i _ => n i
  have := mul_le_mul s l l0 (by norm_num)
  norm_num at this ⊢
  linarith

/-- The same with the two entries of a pair averaged. -/
theorem NormalGas.quadS {x : Fin 21 → ℝ} (h : NormalGas x) {v : Fin 21 → Fin 21 → ℝ} {w : Fin 21 → Fin 21 → ℚ}
    (hv : ∀ i j, (v i j + v j i) / 2 ≤ (w i j : ℝ)) (γ : Fin 21 → ℚ) (g0 : ∀ i, 0 ≤ γ i) :
    ∑ i, ∑ j, x i * x j * v i j ≤ (Eos.quad w γ : ℝ) := by
  refine le_trans (le_of_eq ?_) (h.quad hv γ g0)
  have e : ∑ i, ∑ j, x i * x j * ((v i j + v j i) / 2) = (∑ i, ∑ j, x i * x j * v i j + ∑ i, ∑ j, x i * x j * v j i) / 2 := by
    rw [← sum_add_distrib, sum_div]
    refine sum_congr rfl fun i _ => ?_
    rw [← sum_add_distrib, sum_div]
    exact sum_congr rfl fun j _ => by ring
  have c : ∑ i, ∑ j, x i * x j * v j i = ∑ i, ∑ j, x i * x j * v i j := by
    rw [sum_comm]
    exact sum_congr rfl fun i _ => sum_congr rfl fun j _ => by ring
  rw [e, c]
  ring

end Aga8.Eos
