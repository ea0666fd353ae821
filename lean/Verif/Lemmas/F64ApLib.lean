import Mathlib.Data.Int.Log
import Verif.Lemmas.F64ApFun

/-! # There is an accurate math library

Every real number between `2^-900` and `2^900` has an f64 within `2^-52` relative of it. -/

namespace Aga8.F64

open Float.Model Float.Model.UnpackedFloat

theorem near {y : ℝ} (h1 : 1 / 2 ^ 900 ≤ y) (h2 : y ≤ 2 ^ 900) :
    ∃ a : Float, IsFinite a ∧ |toR a - y| ≤ 1 / 2 ^ 52 * y := by
  have hy : 0 < y := lt_of_lt_of_le (by positivity) h1
  set g := Int.log 2 y with hg
  have g1 : (2 : ℝ) ^ g ≤ y := by
    have := Int.zpow_log_le_self (b := 2) (r := y) (by norm_num) hy
    exact_mod_cast this
  have g2 : y < (2 : ℝ) ^ (g + 1) := by
    have := Int.lt_zpow_succ_log_self (b := 2) (by norm_num) y
    exact_mod_cast this
  have gl : -900 ≤ g := by
    by_contra hn
    have h3 : (2 : ℝ) ^ (g + 1) ≤ 2 ^ (-900 : ℤ) := zpow_le_zpow_right₀ (by norm_num) (by omega)
    have h4 : (2 : ℝ) ^ (-900 : ℤ) = 1 / 2 ^ 900 := by
      rw [zpow_neg, one_div]; norm_cast
    rw [h4] at h3
    exact absurd (g2.trans_le (h3.trans h1)) (lt_irrefl _)
  have gh : g ≤ 900 := by
    by_contra hn
    have h3 : (2 : ℝ) ^ (901 : ℤ) ≤ 2 ^ g := zpow_le_zpow_right₀ (by norm_num) (by omega)
    have h4 : (2 : ℝ) ^ (901 : ℤ) = 2 * 2 ^ 900 := by
      rw [show (901 : ℤ) = ((901 : ℕ) : ℤ) by norm_num, zpow_natCast]
      rw [show 901 = 900 + 1 by norm_num, pow_succ]; ring
    rw [h4] at h3
    have h5 := h3.trans (g1.trans h2)
    have h6 : (0 : ℝ) < 2 ^ 900 := by positivity
    clear h4 h3 h2 h1
    generalize (2 : ℝ) ^ 900 = w at h5 h6
    linarith
  have he : (0 : ℝ) < 2 ^ (g - 52) := by positivity
  set m := ⌊y / 2 ^ (g - 52)⌋₊ with hm
  have m1 : 2 ^ 52 ≤ m := by
    rw [hm]
    apply Nat.le_floor
    rw [le_div_iff₀ he]
    have : (2 : ℝ) ^ g = (2 ^ 52 : ℕ) * 2 ^ (g - 52) := by
      rw [zpow_sub₀ (by norm_num)]
      push_cast
      field_simp
      norm_cast
    rw [← this]; exact g1
  have m2 : m < 2 ^ 53 := by
    rw [hm, Nat.floor_lt (by positivity), div_lt_iff₀ he]
    have : (2 : ℝ) ^ (g + 1) = (2 ^ 53 : ℕ) * 2 ^ (g - 52) := by
      rw [zpow_sub₀ (by norm_num), zpow_add₀ (by norm_num)]
      push_cast
      field_simp
      norm_num
    rw [← this]; exact g2
  have mp : 0 < m := lt_of_lt_of_le (by positivity) m1
  have hc : Canon (.finite .positive m (g - 52) mp) := ⟨m2, by omega, by omega, Or.inl m1⟩
  refine ⟨.ofModel (Float.Model.pack (.finite .positive m (g - 52) mp)), ?_, ?_⟩
  · show IsFin (recode _)
    rw [recode_canon hc]; trivial
  · have e : toR (.ofModel (Float.Model.pack (.finite .positive m (g - 52) mp))) = m * (2 : ℝ) ^ (g - 52) := by
      show val (recode _) = _
      rw [recode_canon hc]
      simp [val, sg]
    rw [e]
    have f1 : (m : ℝ) * 2 ^ (g - 52) ≤ y := by
      rw [← le_div_iff₀ he]; exact Nat.floor_le (by positivity)
    have f2 : y < ((m : ℝ) + 1) * 2 ^ (g - 52) := by
      rw [← div_lt_iff₀ he]; exact Nat.lt_floor_add_one _
    have f3 : (2 : ℝ) ^ (g - 52) ≤ 1 / 2 ^ 52 * y := by
      rw [zpow_sub₀ (by norm_num)]
      have : (2 : ℝ) ^ (52 : ℤ) = 2 ^ 52 := by norm_cast
      rw [this, div_eq_mul_one_div, mul_comm]
      exact mul_le_mul_of_nonneg_left g1 (by positivity)
    rw [abs_le]
    constructor <;> linarith

def zeroF : Float := .ofModel (Float.Model.pack (.zero .positive))

theorem near_signed {y : ℝ} (h : y = 0 ∨ (1 / 2 ^ 900 ≤ |y| ∧ |y| ≤ 2 ^ 900)) :
    ∃ a : Float, IsFinite a ∧ |toR a - y| ≤ 1 / 2 ^ 52 * |y| := by
  rcases h with h | ⟨h1, h2⟩
  · subst h
    refine ⟨zeroF, ?_, ?_⟩
    · show IsFin (recode _)
      trivial
    · have : toR zeroF = 0 := rfl
      rw [this]; simp
  · obtain ⟨a, ha, hb⟩ := near h1 h2
    rcases abs_cases y with ⟨e, _⟩ | ⟨e, _⟩
    · rw [e] at hb ⊢
      exact ⟨a, ha, hb⟩
    · refine ⟨-a, fin_neg ha, ?_⟩
      rw [toR_neg, show -toR a - y = -(toR a - |y|) by rw [e]; ring, abs_neg]
      exact hb

open Classical in
/-- The nearest-below f64 of a real number, where there is one. -/
noncomputable def nearest (y : ℝ) : Float :=
  if h : ∃ a : Float, IsFinite a ∧ |toR a - y| ≤ 1 / 2 ^ 52 * |y| then h.choose else zeroF

theorem nearest_ok {y : ℝ} (h : y = 0 ∨ (1 / 2 ^ 900 ≤ |y| ∧ |y| ≤ 2 ^ 900)) :
    IsFinite (nearest y) ∧ |toR (nearest y) - y| ≤ 1 / 2 ^ 52 * |y| := by
  unfold nearest
  rw [dif_pos (near_signed h)]
  exact (near_signed h).choose_spec

/-- A library that computes the exact result and then takes an f64 next to it. -/
@[instance_reducible] noncomputable def idealLibm : Libm where
  exp a := nearest (Real.exp (toR a))
  ln a := nearest (Real.log (toR a))
  powf a y := nearest (toR a ^ toR y)
  powi a n := nearest (toR a ^ n)

theorem idealLibm_accurate : @LibmAccurate idealLibm := by
  refine @LibmAccurate.mk idealLibm ?_ ?_ ?_
  · intro a _ h
    have hp := Real.exp_pos (toR a)
    obtain ⟨l, u⟩ := abs_le.1 h
    have hlog : (0.69 : ℝ) < Real.log 2 := by have := Real.log_two_gt_d9; linarith
    have hr := exp_range (v := toR a) (n := 900) (abs_le.2 ⟨by push_cast; linarith, by push_cast; linarith⟩)
    have := nearest_ok (y := Real.exp (toR a)) (Or.inr ⟨by
      rw [abs_of_pos hp, div_le_iff₀ (by positivity), mul_comm]; exact hr.1, by rw [abs_of_pos hp]; exact hr.2⟩)
    rw [abs_of_pos hp] at this
    exact this
  · intro a y _ _ ha h1 h2
    have hp := Real.rpow_pos_of_pos ha (toR y)
    have := nearest_ok (y := toR a ^ toR y) (Or.inr ⟨by rw [abs_of_pos hp]; exact h1, by rw [abs_of_pos hp]; exact h2⟩)
    rw [abs_of_pos hp] at this
    exact this
  · intro a n _ hn _ h
    have := nearest_ok (y := toR a ^ n) (by
      rcases h with h | h
      · left; rw [h]; exact zero_pow (by omega)
      · right; rw [abs_pow]; exact h)
    rw [abs_pow] at this
    refine ⟨this.1, this.2.trans (mul_le_mul_of_nonneg_right ?_ (by positivity))⟩
    norm_num

end Aga8.F64
