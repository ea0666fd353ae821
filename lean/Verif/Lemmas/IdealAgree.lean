import Verif.Lemmas.DetailHeat
import Verif.Lemmas.DetailDrift
import Verif.Lemmas.GergHeat

/-! # The ideal-gas parts of DETAIL and GERG-2008 compared -/

namespace Aga8

open Finset Real

namespace Detail

open Tab

/-- Energy of the hyperbolic terms of one component over `R T`. -/
theorem H01_eq (i : Fin 21) (T : ℝ) : H0 (params (newP : Detail ℝ)) i T - H1 (params (newP : Detail ℝ)) i T =
    (decQ (aget2 n0iD i 3) : ℝ) * ((decQ (aget2 TH0I i 3) : ℝ) / T * cosh ((decQ (aget2 TH0I i 3) : ℝ) / T) / sinh ((decQ (aget2 TH0I i 3) : ℝ) / T))
    - (decQ (aget2 n0iD i 4) : ℝ) * ((decQ (aget2 TH0I i 4) : ℝ) / T * sinh ((decQ (aget2 TH0I i 4) : ℝ) / T) / cosh ((decQ (aget2 TH0I i 4) : ℝ) / T))
    + (decQ (aget2 n0iD i 5) : ℝ) * ((decQ (aget2 TH0I i 5) : ℝ) / T * cosh ((decQ (aget2 TH0I i 5) : ℝ) / T) / sinh ((decQ (aget2 TH0I i 5) : ℝ) / T))
    - (decQ (aget2 n0iD i 6) : ℝ) * ((decQ (aget2 TH0I i 6) : ℝ) / T * sinh ((decQ (aget2 TH0I i 6) : ℝ) / T) / cosh ((decQ (aget2 TH0I i 6) : ℝ) / T)) := by
  unfold H0 H1
  have key : ∀ (j : Fin 7) (hj : 3 ≤ j.1) (s : ℝ), (if 0 < (tab2 TH0I i j : ℝ) then
      (decQ (aget2 n0iD i j) : ℝ) * s else 0) = (decQ (aget2 n0iD i j) : ℝ) * s := by
    intro j hj s
    rcases th_table i j hj with h | h
    · rw [if_pos]
      rw [tab2_decQ]
      exact_mod_cast h
    · rw [h]; simp
  have hf : (Finset.univ.filter fun j : Fin 7 => 3 ≤ j.1) = {3, 4, 5, 6} := by decide
  rw [hf, Finset.sum_insert (by decide), Finset.sum_insert (by decide), Finset.sum_insert (by decide),
    Finset.sum_singleton, Finset.sum_insert (by decide), Finset.sum_insert (by decide), Finset.sum_insert (by decide),
    Finset.sum_singleton]
  simp only [if_pos (show (3 : Fin 7).1 = 3 ∨ (3 : Fin 7).1 = 5 by decide),
    if_neg (show ¬ ((4 : Fin 7).1 = 3 ∨ (4 : Fin 7).1 = 5) by decide),
    if_pos (show (5 : Fin 7).1 = 3 ∨ (5 : Fin 7).1 = 5 by decide),
    if_neg (show ¬ ((6 : Fin 7).1 = 3 ∨ (6 : Fin 7).1 = 5) by decide),
    newP_n0i_real i 3 (by decide), newP_n0i_real i 4 (by decide), newP_n0i_real i 5 (by decide),
    newP_n0i_real i 6 (by decide), neg_mul, ← mul_neg, key 3 (by decide), key 4 (by decide), key 5 (by decide),
    key 6 (by decide)]
  simp only [tab2_decQ]
  ring

end Detail

namespace Gerg

open Tab

attribute [local irreducible] newP pressureP propertiesP

theorem H1_eq (i : Fin 22) (hi : 1 ≤ i.1) (T : ℝ) : H1 m0 i T = 8.31451 / 8.314472 * (
    (decQ (aget2 n0iD i 4) : ℝ) * ((decQ (aget2 TH0I i 4) : ℝ) / T * cosh ((decQ (aget2 TH0I i 4) : ℝ) / T) / sinh ((decQ (aget2 TH0I i 4) : ℝ) / T))
    - (decQ (aget2 n0iD i 5) : ℝ) * ((decQ (aget2 TH0I i 5) : ℝ) / T * sinh ((decQ (aget2 TH0I i 5) : ℝ) / T) / cosh ((decQ (aget2 TH0I i 5) : ℝ) / T))
    + (decQ (aget2 n0iD i 6) : ℝ) * ((decQ (aget2 TH0I i 6) : ℝ) / T * cosh ((decQ (aget2 TH0I i 6) : ℝ) / T) / sinh ((decQ (aget2 TH0I i 6) : ℝ) / T))
    - (decQ (aget2 n0iD i 7) : ℝ) * ((decQ (aget2 TH0I i 7) : ℝ) / T * sinh ((decQ (aget2 TH0I i 7) : ℝ) / T) / cosh ((decQ (aget2 TH0I i 7) : ℝ) / T))) := by
  unfold H1
  have key : ∀ (j : Fin 8) (hj : 4 ≤ j.1) (s : ℝ), (if 1e-15 < (tab2 TH0I i j : ℝ) then
      (decQ (aget2 n0iD i j) : ℝ) * (8.31451 / 8.314472) * s else 0) =
      (decQ (aget2 n0iD i j) : ℝ) * (8.31451 / 8.314472) * s := by
    intro j hj s
    rcases th_table i j hi hj with h | h
    · rw [if_pos]
      rw [tab2_decQ]
      have h' : ((1e-15 : ℚ) : ℝ) < (decQ (aget2 TH0I i j) : ℝ) := by exact_mod_cast h
      have e : ((1e-15 : ℚ) : ℝ) = 1e-15 := by norm_num
      rwa [e] at h'
    · rw [h]; simp
  have key' : ∀ (j : Fin 8) (hj : 4 ≤ j.1) (s : ℝ), (if 1e-15 < (tab2 TH0I i j : ℝ) then
      -((decQ (aget2 n0iD i j) : ℝ) * (8.31451 / 8.314472)) * s else 0) =
      -((decQ (aget2 n0iD i j) : ℝ) * (8.31451 / 8.314472)) * s := by
    intro j hj s
    have := key j hj s
    by_cases h : 1e-15 < (tab2 TH0I i j : ℝ)
    · rw [if_pos h]
    · rw [if_neg h] at this ⊢
      rw [neg_mul, ← this, neg_zero]
  have hf : (Finset.univ.filter fun j : Fin 8 => 4 ≤ j.1) = {4, 5, 6, 7} := by decide
  rw [hf, Finset.sum_insert (by decide), Finset.sum_insert (by decide), Finset.sum_insert (by decide),
    Finset.sum_singleton]
  simp only [if_pos (show (4 : Fin 8).1 = 4 ∨ (4 : Fin 8).1 = 6 by decide),
    if_neg (show ¬ ((5 : Fin 8).1 = 4 ∨ (5 : Fin 8).1 = 6) by decide),
    if_pos (show (6 : Fin 8).1 = 4 ∨ (6 : Fin 8).1 = 6 by decide),
    if_neg (show ¬ ((7 : Fin 8).1 = 4 ∨ (7 : Fin 8).1 = 6) by decide),
    m0_n0i i 4 hi (by decide), m0_n0i i 5 hi (by decide), m0_n0i i 6 hi (by decide), m0_n0i i 7 hi (by decide),
    key 4 (by decide), key' 5 (by decide), key 6 (by decide), key' 7 (by decide)]
  simp only [tab2_decQ]
  ring

end Gerg

/-- The two crate tables of ideal-gas coefficients hold the same numbers. -/
theorem ideal_same : ∀ i : Fin 21,
    Gerg.decQ (aget2 Gerg.n0iD i.succ 2) = Detail.decQ (aget2 Detail.n0iD i 1) ∧
    Gerg.decQ (aget2 Gerg.n0iD i.succ 3) = Detail.decQ (aget2 Detail.n0iD i 2) ∧
    Gerg.decQ (aget2 Gerg.n0iD i.succ 4) = Detail.decQ (aget2 Detail.n0iD i 3) ∧
    Gerg.decQ (aget2 Gerg.n0iD i.succ 5) = Detail.decQ (aget2 Detail.n0iD i 4) ∧
    Gerg.decQ (aget2 Gerg.n0iD i.succ 6) = Detail.decQ (aget2 Detail.n0iD i 5) ∧
    Gerg.decQ (aget2 Gerg.n0iD i.succ 7) = Detail.decQ (aget2 Detail.n0iD i 6) ∧
    Gerg.decQ (aget2 Gerg.Tab.TH0I i.succ 4) = Detail.decQ (aget2 Detail.Tab.TH0I i 3) ∧
    Gerg.decQ (aget2 Gerg.Tab.TH0I i.succ 5) = Detail.decQ (aget2 Detail.Tab.TH0I i 4) ∧
    Gerg.decQ (aget2 Gerg.Tab.TH0I i.succ 6) = Detail.decQ (aget2 Detail.Tab.TH0I i 5) ∧
    Gerg.decQ (aget2 Gerg.Tab.TH0I i.succ 7) = Detail.decQ (aget2 Detail.Tab.TH0I i 6) := by decide +kernel

end Aga8
