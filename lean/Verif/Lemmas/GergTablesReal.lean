import Mathlib.Analysis.SpecialFunctions.Pow.Real
import Mathlib.Tactic.Positivity
import Verif.Lemmas.GergEos

/-! # The precomputed reducing constants of GERG agree with the GERG-2008 formulas

The crate stores `β_v γ_v (ρ_i^(-1/3) + ρ_j^(-1/3))^3 / 8` and `β_T γ_T (T_i T_j)^(1/2)` as literals. The cube roots are
enclosed by rationals whose cubes are compared in the kernel. -/

namespace Aga8.Gerg

open Tab Real

/-- Critical constants, from the frozen copy. -/
def crit (i : ℕ) : ℚ × ℚ := GergEos.critical.getD (i - 1) (1, 1)

theorem crit_table : ∀ i : Fin 22, 1 ≤ i.1 → (crit i.1).1 = decQ (aget DC i) ∧ (crit i.1).2 = decQ (aget TC i) ∧
    0 < (crit i.1).1 ∧ 0 < (crit i.1).2 := by decide +kernel

/-- `floor (10^20 ρ_i^(-1/3))`. -/
def cbrtTab : List ℕ := [
  46202279075270641969, 44716613740751906347, 45487350789646721642, 52601292451246044501,
  58480186778454004537, 63747849365628543027, 63421623851139247688, 67365853829494019647,
  67750681636400809476, 71762452013456183990, 75589716237100125837, 78637647187869445662,
  82055395240515514904, 84797955997932384411, 40602221942306482618, 41863420955754733513,
  45170693048299479901, 38246795017339758921, 46125590459860634834, 38591521736752489088,
  42093802359930798177]

/-- Lower bound of `ρ_i^(-1/3)`. -/
def cbLo (i : ℕ) : ℚ := (cbrtTab.getD (i - 1) 0 : ℚ) / 10 ^ 20
/-- Upper bound of `ρ_i^(-1/3)`. -/
def cbHi (i : ℕ) : ℚ := ((cbrtTab.getD (i - 1) 0 : ℚ) + 1) / 10 ^ 20

theorem cb_table : ∀ i : Fin 22, 1 ≤ i.1 →
    0 < cbLo i.1 ∧ 0 < cbHi i.1 ∧ cbLo i.1 ^ 3 * (crit i.1).1 ≤ 1 ∧ 1 ≤ cbHi i.1 ^ 3 * (crit i.1).1 := by decide +kernel

theorem cb_bounds {ρ lo hi : ℝ} (hρ : 0 < ρ) (h1 : 0 < hi) (hl : lo ^ 3 * ρ ≤ 1) (hh : 1 ≤ hi ^ 3 * ρ) :
    lo ≤ ρ ^ (-1 / 3 : ℝ) ∧ ρ ^ (-1 / 3 : ℝ) ≤ hi := by
  have ha : 0 < ρ ^ (-1 / 3 : ℝ) := rpow_pos_of_pos hρ _
  have h3 : (ρ ^ (-1 / 3 : ℝ)) ^ 3 = ρ⁻¹ := by
    rw [← rpow_natCast, ← rpow_mul hρ.le]
    norm_num
    exact rpow_neg_one ρ
  have e1 : lo ^ 3 ≤ ρ⁻¹ := by rw [← one_div, le_div_iff₀ hρ]; exact hl
  have e2 : ρ⁻¹ ≤ hi ^ 3 := by rw [← one_div, div_le_iff₀ hρ]; exact hh
  rw [← h3] at e1 e2
  exact ⟨le_of_pow_le_pow_left₀ (by norm_num) ha.le e1, le_of_pow_le_pow_left₀ (by norm_num) h1.le e2⟩

/-- All the comparisons between the literals and the formulas. -/
theorem red_table : ∀ i j : Fin 22, 1 ≤ i.1 → i < j →
    0 < (GergEos.params i.1 j.1).1 * (GergEos.params i.1 j.1).2.1 ∧
    0 < (GergEos.params i.1 j.1).2.2.1 * (GergEos.params i.1 j.1).2.2.2 ∧
    0 < decQ (aget2 GTIJ i j) ∧
    decQ (aget2 GVIJ i j) ≤ (1 + 1e-14) * ((GergEos.params i.1 j.1).1 * (GergEos.params i.1 j.1).2.1
      * (cbLo i.1 + cbLo j.1) ^ 3 / 8) ∧
    (1 - 1e-14) * ((GergEos.params i.1 j.1).1 * (GergEos.params i.1 j.1).2.1
      * (cbHi i.1 + cbHi j.1) ^ 3 / 8) ≤ decQ (aget2 GVIJ i j) ∧
    decQ (aget2 GTIJ i j) ^ 2 ≤ ((1 + 1e-14) * ((GergEos.params i.1 j.1).2.2.1 * (GergEos.params i.1 j.1).2.2.2)) ^ 2
      * ((crit i.1).2 * (crit j.1).2) ∧
    ((1 - 1e-14) * ((GergEos.params i.1 j.1).2.2.1 * (GergEos.params i.1 j.1).2.2.2)) ^ 2
      * ((crit i.1).2 * (crit j.1).2) ≤ decQ (aget2 GTIJ i j) ^ 2 ∧
    decQ (aget2 BTIJ i j) ≤ (1 + 1e-14) * (GergEos.params i.1 j.1).2.2.1 ^ 2 ∧
    (1 - 1e-14) * (GergEos.params i.1 j.1).2.2.1 ^ 2 ≤ decQ (aget2 BTIJ i j) := by
  decide +kernel

theorem diag_table : ∀ i : Fin 22, 1 ≤ i.1 →
    decQ (aget2 GVIJ i i) * (crit i.1).1 ≤ 1 + 1e-14 ∧ 1 - 1e-14 ≤ decQ (aget2 GVIJ i i) * (crit i.1).1 ∧
    decQ (aget2 GTIJ i i) = (crit i.1).2 := by decide +kernel

/-- `|g - y| ≤ ε y` from bounds of `y`. -/
theorem rel_of {g y lo hi : ℝ} (hl : lo ≤ y) (hh : y ≤ hi) (h1 : g ≤ (1 + 1e-14) * lo) (h2 : (1 - 1e-14) * hi ≤ g) :
    |g - y| ≤ 1e-14 * y := by
  rw [abs_le]
  constructor <;> nlinarith

theorem qle {a b : ℚ} (h : a ≤ b) : (a : ℝ) ≤ (b : ℝ) := by exact_mod_cast h

theorem gv_rel (i j : Fin 22) (hi : 1 ≤ i.1) (hij : i < j) :
    |GergEos.val GVIJ[i.1][j.1] - ((GergEos.params i.1 j.1).1 : ℝ) * (GergEos.params i.1 j.1).2.1
        * (((crit i.1).1 : ℝ) ^ (-1 / 3 : ℝ) + ((crit j.1).1 : ℝ) ^ (-1 / 3 : ℝ)) ^ 3 / 8|
      ≤ 1e-14 * (((GergEos.params i.1 j.1).1 : ℝ) * (GergEos.params i.1 j.1).2.1
        * (((crit i.1).1 : ℝ) ^ (-1 / 3 : ℝ) + ((crit j.1).1 : ℝ) ^ (-1 / 3 : ℝ)) ^ 3 / 8) := by
  have hj : 1 ≤ j.1 := le_trans hi (le_of_lt hij)
  obtain ⟨hp, -, -, h1, h2, -⟩ := red_table i j hi hij
  have hb : ∀ k : Fin 22, 1 ≤ k.1 → (0 : ℝ) < cbLo k.1 ∧ (cbLo k.1 : ℝ) ≤ ((crit k.1).1 : ℝ) ^ (-1 / 3 : ℝ) ∧
      ((crit k.1).1 : ℝ) ^ (-1 / 3 : ℝ) ≤ cbHi k.1 := by
    intro k hk
    obtain ⟨a, b, c, d⟩ := cb_table k hk
    have hc := (crit_table k hk).2.2.1
    exact ⟨by exact_mod_cast a, cb_bounds (by exact_mod_cast hc) (by exact_mod_cast b) (by exact_mod_cast c)
      (by exact_mod_cast d)⟩
  have ev : GergEos.val GVIJ[i.1][j.1] = (decQ (aget2 GVIJ i j) : ℝ) := by rw [val_eq, ofDec_decQ]; rfl
  have h1 := qle h1
  have h2 := qle h2
  have hp : (0 : ℝ) < ((GergEos.params i.1 j.1).1 : ℝ) * (GergEos.params i.1 j.1).2.1 := by exact_mod_cast hp
  push_cast at h1 h2
  rw [ev]
  obtain ⟨i0, i1, i2⟩ := hb i hi
  obtain ⟨j0, j1, j2⟩ := hb j hj
  refine rel_of ?_ ?_ h1 h2
  · gcongr
  · gcongr
    linarith

theorem gt_rel (i j : Fin 22) (hi : 1 ≤ i.1) (hij : i < j) :
    |GergEos.val GTIJ[i.1][j.1] - ((GergEos.params i.1 j.1).2.2.1 : ℝ) * (GergEos.params i.1 j.1).2.2.2
        * √((crit i.1).2 * (crit j.1).2)|
      ≤ 1e-14 * (((GergEos.params i.1 j.1).2.2.1 : ℝ) * (GergEos.params i.1 j.1).2.2.2
        * √((crit i.1).2 * (crit j.1).2)) := by
  have hj : 1 ≤ j.1 := le_trans hi (le_of_lt hij)
  obtain ⟨-, hp, hg, -, -, h1, h2, -⟩ := red_table i j hi hij
  have ci := (crit_table i hi).2.2.2
  have cj := (crit_table j hj).2.2.2
  have ev : GergEos.val GTIJ[i.1][j.1] = (decQ (aget2 GTIJ i j) : ℝ) := by rw [val_eq, ofDec_decQ]; rfl
  have h1 := qle h1
  have h2 := qle h2
  have hp : (0 : ℝ) < ((GergEos.params i.1 j.1).2.2.1 : ℝ) * (GergEos.params i.1 j.1).2.2.2 := by exact_mod_cast hp
  have hg : (0 : ℝ) < (decQ (aget2 GTIJ i j) : ℝ) := by exact_mod_cast hg
  have hc : (0 : ℝ) < ((crit i.1).2 : ℝ) * (crit j.1).2 := by exact_mod_cast mul_pos ci cj
  push_cast at h1 h2
  rw [ev]
  have hs := Real.sq_sqrt hc.le
  have hs0 := Real.sqrt_nonneg (((crit i.1).2 : ℝ) * (crit j.1).2)
  rw [← hs, ← mul_pow] at h1 h2
  refine rel_of (le_refl _) (le_refl _) ?_ ?_
  · refine le_trans (le_of_pow_le_pow_left₀ two_ne_zero ?_ h1) (le_of_eq (by norm_num; ring))
    positivity
  · refine le_trans (le_of_eq (by norm_num; ring)) (le_of_pow_le_pow_left₀ two_ne_zero hg.le h2)

theorem bt_rel (i j : Fin 22) (hi : 1 ≤ i.1) (hij : i < j) :
    |GergEos.val BTIJ[i.1][j.1] - ((GergEos.params i.1 j.1).2.2.1 : ℝ) ^ 2|
      ≤ 1e-14 * ((GergEos.params i.1 j.1).2.2.1 : ℝ) ^ 2 := by
  obtain ⟨-, -, -, -, -, -, -, h1, h2⟩ := red_table i j hi hij
  have ev : GergEos.val BTIJ[i.1][j.1] = (decQ (aget2 BTIJ i j) : ℝ) := by rw [val_eq, ofDec_decQ]; rfl
  have h1 := qle h1
  have h2 := qle h2
  push_cast at h1 h2
  rw [ev]
  exact rel_of (le_refl _) (le_refl _) h1 h2

theorem binary_nodup : ∀ r ∈ GergEos.binary, GergEos.params r.1 r.2.1 = r.2.2 := by decide +kernel

theorem binary_lookup (r : ℕ × ℕ × ℚ × ℚ × ℚ × ℚ) (h : r ∈ GergEos.binary) : GergEos.params r.1 r.2.1 = r.2.2 :=
  binary_nodup r h

theorem pairs_table' : ∀ i j : Fin 22, 1 ≤ i.1 → i < j →
    (GergEos.binary.any fun r => r.1 == i.1 && r.2.1 == j.1) = true ∧
    (MNUMB[i.1][j.1] ≠ 0 ↔ FIJ[i.1][j.1].m ≠ 0) ∧
    (MNUMB[i.1][j.1] ≠ 0 ↔ (GergEos.departures.any fun r => r.1 == i.1 && r.2.1 == j.1) = true) := by decide +kernel

theorem departures_ne : ∀ r ∈ GergEos.departures, r.2.2.1 ≠ 0 ∧ r.2.2.2.isEmpty = false := by decide +kernel

theorem pairs_table (i j : Fin 22) (hi : 1 ≤ i.1) (hij : i < j) :
    (GergEos.binary.any fun r => r.1 == i.1 && r.2.1 == j.1) = true ∧
    (MNUMB[i.1][j.1] ≠ 0 ↔ FIJ[i.1][j.1].m ≠ 0) ∧
    (MNUMB[i.1][j.1] ≠ 0 ↔ (GergEos.departures.any fun r => r.1 == i.1 && r.2.1 == j.1) = true) ∧
    ∀ r ∈ GergEos.departures, r.2.2.1 ≠ 0 ∧ r.2.2.2 ≠ [] := by
  obtain ⟨a, b, c⟩ := pairs_table' i j hi hij
  refine ⟨a, b, c, fun r hr => ?_⟩
  obtain ⟨h1, h2⟩ := departures_ne r hr
  exact ⟨h1, by intro h; rw [h] at h2; cases h2⟩

end Aga8.Gerg
