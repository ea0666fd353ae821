import Mathlib.Algebra.BigOperators.Fin
import Mathlib.Algebra.BigOperators.Field
import Mathlib.Tactic.FinCases
import Verif.Lemmas.F64Round
import Verif.Spec.Composition

/-! # Sums of fractions in IEEE-754 arithmetic -/

namespace Aga8.F64

open Float.Model Float.Model.UnpackedFloat

deriving instance DecidableEq for UnpackedFloat.Sign, UnpackedFloat

variable [Libm]

/-! ## Literals -/

omit [Libm] in
theorem lit0' : up (Float.ofScientific 0 true 0) = .zero .positive := by decide +kernel
omit [Libm] in
theorem lit1' : up (Float.ofScientific 1 true 0) = .finite .positive 4503599627370496 (-52) (by decide) := by
  decide +kernel
omit [Libm] in
theorem lit10' : up (Float.ofScientific 1 true 10) =
    .finite .positive 7737125245533627 (-86) (by decide) := by decide +kernel
omit [Libm] in
theorem lit2' : up (Float.ofScientific 1 true 2) =
    .finite .positive 5764607523034235 (-59) (by decide) := by decide +kernel

theorem lit0 : up (f% 0.0 : Float) = .zero .positive := lit0'
theorem lit1 : up (f% 1.0 : Float) = .finite .positive 4503599627370496 (-52) (by decide) := lit1'
theorem lit10 : up (f% 1.0e-10 : Float) = .finite .positive 7737125245533627 (-86) (by decide) := lit10'
theorem lit2 : up (f% 1.0e-2 : Float) = .finite .positive 5764607523034235 (-59) (by decide) := lit2'

theorem toR0 : toR (f% 0.0 : Float) = 0 := by unfold toR; rw [lit0]; rfl
theorem toR1 : toR (f% 1.0 : Float) = 1 := by
  unfold toR; rw [lit1]; simp only [val, sg]; norm_num
theorem toR10 : toR (f% 1.0e-10 : Float) = 7737125245533627 / 2 ^ 86 := by
  unfold toR; rw [lit10]; simp only [val, sg]; norm_num
theorem toR2 : toR (f% 1.0e-2 : Float) = 5764607523034235 / 2 ^ 59 := by
  unfold toR; rw [lit2]; simp only [val, sg]; norm_num
theorem fin0 : IsFinite (f% 0.0 : Float) := by unfold IsFinite; rw [lit0]; trivial
theorem fin1 : IsFinite (f% 1.0 : Float) := by unfold IsFinite; rw [lit1]; trivial
theorem fin10 : IsFinite (f% 1.0e-10 : Float) := by unfold IsFinite; rw [lit10]; trivial
theorem fin2 : IsFinite (f% 1.0e-2 : Float) := by unfold IsFinite; rw [lit2]; trivial

theorem flt (a b : Float) : FOps.lt a b = true ↔ a < b := decide_eq_true_iff
theorem flt_false (a b : Float) : FOps.lt a b = false ↔ ¬ a < b := decide_eq_false_iff_not
theorem fabs (a : Float) : FOps.abs a = a.abs := rfl

omit [Libm] in
theorem uu_eq : uu = 1 / 2 ^ 53 := by
  rw [uu, show (-53 : Int) = -(53 : ℕ) by rfl, zpow_neg, zpow_natCast, one_div]

omit [Libm] in
theorem T1023 : (2 : ℝ) ^ 1023 = 2 * 2 ^ 1022 := by rw [← pow_succ']

/-! ## Left-to-right sums -/

omit [Libm] in
theorem pow_le_two {k : ℕ} (hk : k ≤ 1000) : (1 + uu) ^ k ≤ 2 ∧ (1 + uu) ^ k - 1 ≤ (k + 1) * uu := by
  have hu := uu_pos
  have hu1 : (1001 : ℝ) * 1001 * uu ≤ 1 / 2 := by rw [uu_eq]; norm_num
  have hb : 1 + (k : ℝ) * (-uu) ≤ (1 + -uu) ^ k := one_add_mul_le_pow (by linarith) k
  have hk' : (k : ℝ) ≤ 1000 := by exact_mod_cast hk
  have hku : (k : ℝ) * uu ≤ 1000 * uu := by gcongr
  have hprod : (1 + uu) ^ k * (1 + -uu) ^ k ≤ 1 := by
    rw [← mul_pow]
    apply pow_le_one₀ <;> nlinarith
  have hpos : (0 : ℝ) < (1 + uu) ^ k := by positivity
  have h1 : (1 + uu) ^ k * (1 - k * uu) ≤ 1 := by
    refine le_trans ?_ hprod
    have : 1 - k * uu ≤ (1 + -uu) ^ k := by linarith
    gcongr
  have hle2 : (1 + uu) ^ k ≤ 2 := by nlinarith
  refine ⟨hle2, ?_⟩
  -- `(1+u)^k - 1 ≤ k u (1+u)^k ≤ (k+1) u` when `k ((1+u)^k - 1) ≤ 1`
  have h2 : (1 + uu) ^ k - 1 ≤ k * uu * (1 + uu) ^ k := by linarith
  have h3 : (1 + uu) ^ k - 1 ≤ 2 * (k * uu) := by
    have : 0 ≤ (k : ℝ) * uu := by positivity
    nlinarith
  have h4 : (k : ℝ) * ((1 + uu) ^ k - 1) ≤ 1 := by
    have hk0 : (0 : ℝ) ≤ k := Nat.cast_nonneg _
    calc (k : ℝ) * ((1 + uu) ^ k - 1) ≤ k * (2 * (k * uu)) := by gcongr
      _ ≤ 1000 * (2 * (1000 * uu)) := by gcongr
      _ ≤ 1 := by linarith
  have h5 : uu * (k * ((1 + uu) ^ k - 1)) ≤ uu * 1 := by gcongr
  linarith

omit [Libm] in
/-- Adding up finite numbers one by one: relative error `(1+u)^k - 1` in terms of the sum of magnitudes. -/
theorem foldl_add (l : List Float) (a : Float) (t A : ℝ) (k : ℕ) (ha : IsFinite a)
    (hl : ∀ x ∈ l, IsFinite x) (htA : |t| ≤ A) (herr : |toR a - t| ≤ ((1 + uu) ^ k - 1) * A)
    (hA : A + (l.map fun x => |toR x|).sum ≤ 2 ^ 1022) (hk : k + l.length ≤ 1000) :
    IsFinite (l.foldl (· + ·) a) ∧
    |toR (l.foldl (· + ·) a) - (t + (l.map toR).sum)| ≤
      ((1 + uu) ^ (k + l.length) - 1) * (A + (l.map fun x => |toR x|).sum) := by
  induction l generalizing a t A k with
  | nil => simpa using ⟨ha, herr⟩
  | cons x l ih =>
    have hu := uu_pos
    simp only [List.map_cons, List.sum_cons, List.length_cons, List.foldl_cons] at hA hk ⊢
    have hx := hl x (List.mem_cons_self ..)
    have hrest : 0 ≤ (l.map fun x => |toR x|).sum :=
      List.sum_nonneg (by simp only [List.mem_map]; rintro _ ⟨y, _, rfl⟩; exact abs_nonneg _)
    have hA0 : 0 ≤ A := le_trans (abs_nonneg _) htA
    set P := (1 + uu) ^ k with hP
    have hP1 : 1 ≤ P := one_le_pow₀ (by linarith)
    have hP2 : P ≤ 2 := (pow_le_two (by omega)).1
    have hx0 := abs_nonneg (toR x)
    have habs : |toR a| ≤ P * A := by
      have := abs_add_le (toR a - t) t
      rw [sub_add_cancel] at this
      linarith
    have hsum : |toR a + toR x| ≤ P * A + |toR x| := (abs_add_le _ _).trans (by linarith)
    have hov : |toR a + toR x| ≤ 2 ^ 1023 := by
      rw [T1023]
      have h1 : P * A ≤ 2 * A := by gcongr
      generalize (2 : ℝ) ^ 1022 = T at *
      linarith
    obtain ⟨hf, he⟩ := add_ok ha hx hov
    have hnew : |toR (a + x) - (t + toR x)| ≤ ((1 + uu) ^ (k + 1) - 1) * (A + |toR x|) := by
      have h1 := abs_add_le (toR (a + x) - (toR a + toR x)) (toR a - t)
      have h2 : toR (a + x) - (toR a + toR x) + (toR a - t) = toR (a + x) - (t + toR x) := by ring
      rw [h2] at h1
      have h3 : uu * |toR a + toR x| ≤ uu * (P * A + |toR x|) := by gcongr
      have h4 : 0 ≤ uu * (P - 1) * |toR x| :=
        mul_nonneg (mul_nonneg hu.le (by linarith)) hx0
      have h5 : 0 ≤ (P - 1) * |toR x| := mul_nonneg (by linarith) hx0
      rw [pow_succ, ← hP]
      nlinarith
    have := ih (a + x) (t + toR x) (A + |toR x|) (k + 1) hf
      (fun y hy => hl y (List.mem_cons_of_mem _ hy))
      ((abs_add_le _ _).trans (by linarith)) hnew (by linarith) (by omega)
    rw [show k + (l.length + 1) = k + 1 + l.length by ring, ← add_assoc, ← add_assoc]
    exact this

omit [Libm] in
theorem comp_foldl (c : Composition Float) :
    c.sum = [c.nitrogen, c.carbon_dioxide, c.ethane, c.propane, c.isobutane, c.n_butane,
      c.isopentane, c.n_pentane, c.hexane, c.heptane, c.octane, c.nonane, c.decane, c.hydrogen,
      c.oxygen, c.carbon_monoxide, c.water, c.hydrogen_sulfide, c.helium, c.argon].foldl (· + ·)
      c.methane := rfl

omit [Libm] in
/-- `Composition::sum` in `f64`: error at most 21 units of roundoff of the sum of magnitudes. -/
theorem sum_ok (c : Composition Float) (hf : ∀ i, IsFinite (c.frac i))
    (hA : ∑ i, |toR (c.frac i)| ≤ 2 ^ 1022) :
    IsFinite c.sum ∧ |toR c.sum - ∑ i, toR (c.frac i)| ≤ 21 * uu * ∑ i, |toR (c.frac i)| := by
  have h := foldl_add [c.nitrogen, c.carbon_dioxide, c.ethane, c.propane, c.isobutane, c.n_butane,
      c.isopentane, c.n_pentane, c.hexane, c.heptane, c.octane, c.nonane, c.decane, c.hydrogen,
      c.oxygen, c.carbon_monoxide, c.water, c.hydrogen_sulfide, c.helium, c.argon] c.methane
      (toR c.methane) |toR c.methane| 0 (hf 0) ?_ (le_refl _) (by simp) ?_ (by simp)
  · rw [← comp_foldl] at h
    refine ⟨h.1, ?_⟩
    have h2 := h.2
    have e1 : ∀ g : Float → ℝ, ∑ i, g (c.frac i) = g c.methane +
      ([c.nitrogen, c.carbon_dioxide, c.ethane, c.propane, c.isobutane, c.n_butane,
      c.isopentane, c.n_pentane, c.hexane, c.heptane, c.octane, c.nonane, c.decane, c.hydrogen,
      c.oxygen, c.carbon_monoxide, c.water, c.hydrogen_sulfide, c.helium, c.argon].map g).sum := by
      intro g
      simp [Fin.sum_univ_succ, Composition.frac]
    rw [e1 toR, e1 fun x => |toR x|]
    refine h2.trans ?_
    have h3 := (pow_le_two (k := 20) (by norm_num)).2
    have h4 : (0 + ([c.nitrogen, c.carbon_dioxide, c.ethane, c.propane, c.isobutane, c.n_butane,
      c.isopentane, c.n_pentane, c.hexane, c.heptane, c.octane, c.nonane, c.decane, c.hydrogen,
      c.oxygen, c.carbon_monoxide, c.water, c.hydrogen_sulfide, c.helium, c.argon] : List Float).length)
      = 20 := rfl
    rw [h4]
    refine mul_le_mul_of_nonneg_right (h3.trans (le_of_eq (by norm_num))) ?_
    rw [← e1 fun x => |toR x|]
    exact Finset.sum_nonneg fun i _ => abs_nonneg _
  · intro x hx
    simp only [List.mem_cons, List.not_mem_nil, or_false] at hx
    rcases hx with h | h | h | h | h | h | h | h | h | h | h | h | h | h | h | h | h | h | h | h <;>
      rw [h]
    exacts [hf 1, hf 2, hf 3, hf 4, hf 5, hf 6, hf 7, hf 8, hf 9, hf 10, hf 11, hf 12, hf 13, hf 14,
      hf 15, hf 16, hf 17, hf 18, hf 19, hf 20]
  · convert hA using 1
    simp [Fin.sum_univ_succ, Composition.frac]

end Aga8.F64
