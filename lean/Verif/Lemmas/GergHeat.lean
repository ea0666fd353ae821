import Verif.Lemmas.GergEos
import Verif.Lemmas.GergTemp
import Verif.Lemmas.GergLow
import Verif.Lemmas.HeatCapacity

/-! # Ideal-gas heat capacities of GERG-2008 -/

namespace Aga8.Gerg

open Tab Finset Real HeatCapacity

attribute [local irreducible] newP pressureP propertiesP

/-- What the coefficients of the whole table satisfy. -/
theorem heat_table : ∀ i : Fin 22, 1 ≤ i.1 → 0 ≤ decQ (aget2 n0iD i 4) ∧ 0 ≤ decQ (aget2 n0iD i 6) ∧
    (0 ≤ decQ (aget2 n0iD i 7) ∨ (0 < decQ (aget2 TH0I i 6) ∧ decQ (aget2 TH0I i 6) ≤ decQ (aget2 TH0I i 7) ∧
      -decQ (aget2 n0iD i 7) * decQ (aget2 TH0I i 7) ^ 2 ≤ decQ (aget2 n0iD i 6) * decQ (aget2 TH0I i 6) ^ 2)) ∧
    1.479 ≤ decQ (aget2 n0iD i 3) - 1 + min (decQ (aget2 n0iD i 5)) 0 / 2 := by decide +kernel

theorem RSR_real : (RSR : ℝ) = 8.31451 / 8.314472 := by
  unfold RSR; rw [R_real, r_ofDec]; norm_num

theorem H2_eq (i : Fin 22) (hi : 1 ≤ i.1) (T : ℝ) : H2 m0 i T = 8.31451 / 8.314472 * (
    (decQ (aget2 n0iD i 4) : ℝ) * ((decQ (aget2 TH0I i 4) : ℝ) / T / sinh ((decQ (aget2 TH0I i 4) : ℝ) / T)) ^ 2
    + (decQ (aget2 n0iD i 5) : ℝ) * ((decQ (aget2 TH0I i 5) : ℝ) / T / cosh ((decQ (aget2 TH0I i 5) : ℝ) / T)) ^ 2
    + (decQ (aget2 n0iD i 6) : ℝ) * ((decQ (aget2 TH0I i 6) : ℝ) / T / sinh ((decQ (aget2 TH0I i 6) : ℝ) / T)) ^ 2
    + (decQ (aget2 n0iD i 7) : ℝ) * ((decQ (aget2 TH0I i 7) : ℝ) / T / cosh ((decQ (aget2 TH0I i 7) : ℝ) / T)) ^ 2) := by
  unfold H2
  have key : ∀ (j : Fin 8) (hj : 4 ≤ j.1) (s : ℝ), (if 1e-15 < (tab2 TH0I i j : ℝ) then
      (decQ (aget2 n0iD i j) : ℝ) * (8.31451 / 8.314472) * s else 0) =
      (decQ (aget2 n0iD i j) : ℝ) * (8.31451 / 8.314472) * s := by
    intro j hj s
    rcases th_table i j hi hj with h | h
    · rw [if_pos]
      rw [tab2_decQ]
      have h' : ((1e-15 : ℚ) : ℝ) < (decQ (aget2 TH0I i j) : ℝ) := by exact_mod_cast h
      have e : ((1e-15 : ℚ) : ℝ) = 1e-15 := by norm_num
      rwa [e] at h'
    · rw [h]; simp
  have hf : (Finset.univ.filter fun j : Fin 8 => 4 ≤ j.1) = {4, 5, 6, 7} := by decide
  rw [hf, Finset.sum_insert (by decide), Finset.sum_insert (by decide), Finset.sum_insert (by decide),
    Finset.sum_singleton]
  rw [if_pos (show (4 : Fin 8).1 = 4 ∨ (4 : Fin 8).1 = 6 by decide),
    if_neg (show ¬ ((5 : Fin 8).1 = 4 ∨ (5 : Fin 8).1 = 6) by decide),
    if_pos (show (6 : Fin 8).1 = 4 ∨ (6 : Fin 8).1 = 6 by decide),
    if_neg (show ¬ ((7 : Fin 8).1 = 4 ∨ (7 : Fin 8).1 = 6) by decide),
    m0_n0i i 4 hi (by decide), m0_n0i i 5 hi (by decide), m0_n0i i 6 hi (by decide), m0_n0i i 7 hi (by decide),
    key 4 (by decide), key 5 (by decide), key 6 (by decide), key 7 (by decide)]
  simp only [tab2_decQ]
  ring

theorem comp_heat_ge (i : Fin 22) (hi : 1 ≤ i.1) {T : ℝ} (hT : 0 < T) :
    1.478 ≤ aget2 m0.n0i i 3 + H2 m0 i T := by
  obtain ⟨h3, h5, h6, h2⟩ := heat_table i hi
  have e : aget2 m0.n0i i 3 = 8.31451 / 8.314472 * ((decQ (aget2 n0iD i 3) : ℝ) - 1) := by
    rw [m0_fields.2.2.2.2.2.2.2.2.2, n0i0_get i 3 hi (by decide), if_neg (by decide), if_neg (by decide), if_pos rfl,
      ofDec_decQ, l1, RSR_real]
    ring
  have h2' : (1.479 : ℝ) ≤ (decQ (aget2 n0iD i 3) : ℝ) - 1 + min (decQ (aget2 n0iD i 5) : ℝ) 0 / 2 := by
    have := (Rat.cast_le (K := ℝ)).2 h2
    push_cast at this
    norm_num at this ⊢
    linarith
  rw [e, H2_eq i hi, ← mul_add]
  have k := terms_ge (n4 := (decQ (aget2 n0iD i 4) : ℝ)) (n5 := (decQ (aget2 n0iD i 5) : ℝ))
    (n6 := (decQ (aget2 n0iD i 6) : ℝ)) (n7 := (decQ (aget2 n0iD i 7) : ℝ))
    (t4 := (decQ (aget2 TH0I i 4) : ℝ)) (t5 := (decQ (aget2 TH0I i 5) : ℝ))
    (t6 := (decQ (aget2 TH0I i 6) : ℝ)) (t7 := (decQ (aget2 TH0I i 7) : ℝ)) (T := T)
    (by exact_mod_cast h3) (by exact_mod_cast h5) (by exact_mod_cast h6) hT
  generalize (decQ (aget2 n0iD i 4) : ℝ) * _ + _ + _ + _ = Y at k ⊢
  have hY : (1.479 : ℝ) ≤ (decQ (aget2 n0iD i 3) : ℝ) - 1 + Y := by linarith
  have : (8.31451 / 8.314472 : ℝ) * 1.479 ≤ 8.31451 / 8.314472 * ((decQ (aget2 n0iD i 3) : ℝ) - 1 + Y) :=
    mul_le_mul_of_nonneg_left hY (by norm_num)
  refine le_trans (by norm_num) this

/-- The ideal-gas part of `cv` over `R`. -/
theorem heat_ge (x : Vector ℝ 22) {T : ℝ} (hT : 0 < T) :
    1.478 * ∑ i : Fin 22 with 1 ≤ i.1, (if 1e-15 < aget x i then aget x i else 0) ≤ -I2 m0 x T := by
  unfold I2
  rw [Finset.mul_sum, ← Finset.sum_neg_distrib]
  refine Finset.sum_le_sum fun i hi => ?_
  simp only [Finset.mem_filter, Finset.mem_univ, true_and] at hi
  split
  case isTrue h =>
    have : 0 < aget x i := lt_trans (by norm_num) h
    nlinarith [comp_heat_ge i hi hT]
  case isFalse h => simp

end Aga8.Gerg
