import Verif.Lemmas.F64Sum
import Verif.Props.Composition

/-! # Properties of `Composition` in IEEE-754 arithmetic (C02, C41)

Everything here is about `f64`: Lean's `Float` with its bit-exact logical model, for every math library.
`toR` is the real number a float stands for, `IsFinite` excludes NaN and infinities
(`Verif/Spec/F64.lean`). -/

namespace Aga8

open F64 Composition Float.Model Float.Model.UnpackedFloat

variable [Libm]

/-! ## C02 -/

omit [Libm] in
theorem foldl_nan (l : List Float) (a : Float) (h : a.isNaN = true ∨ ∃ x ∈ l, x.isNaN = true) :
    (l.foldl (· + ·) a).isNaN = true := by
  induction l generalizing a with
  | nil => rcases h with h | ⟨x, hx, _⟩; exacts [h, by cases hx]
  | cons y l ih =>
    refine ih (a + y) ?_
    rcases h with h | ⟨x, hx, hn⟩
    · exact Or.inl (nan_add_left h _)
    · rcases List.mem_cons.1 hx with h | h
      · subst h; exact Or.inl (nan_add_right _ hn)
      · exact Or.inr ⟨x, h, hn⟩

omit [Libm] in
theorem sum_nan (c : Composition Float) (i : Fin 21) (h : (c.frac i).isNaN = true) :
    c.sum.isNaN = true := by
  rw [comp_foldl]
  apply foldl_nan
  fin_cases i
  · exact Or.inl h
  all_goals refine Or.inr ⟨_, ?_, h⟩; simp [frac]

theorem check_of_nan (c : Composition Float) (h : c.sum.isNaN = true) : c.check = .ok () := by
  rw [(C01_check_decision c).2.2, flt_false, flt_false, fabs, fabs]
  exact ⟨nan_lt_left (nan_abs (nan_sub_left h _)) _, nan_lt_right _ (nan_abs (nan_sub_left h _))⟩

/-- C02, f64: a composition with a NaN fraction is accepted, whatever the other fractions are. -/
theorem C02_f64_nan_accepted (c : Composition Float) (i : Fin 21) (h : (c.frac i).isNaN = true) :
    c.check = .ok () := check_of_nan c (sum_nan c i h)

theorem check_of_inf (c : Composition Float) (s : Sign) (h : up c.sum = .infinity s) :
    c.check = .error .BadSum := by
  have h0 : up (FOps.abs (c.sum - (f% 0.0 : Float))) = .infinity .positive := by
    rw [fabs, up_abs, up_sub, h, lit0]
    show (recode (.infinity s)).abs = _
    rw [recode_inf]; rfl
  have h1 : up (FOps.abs (c.sum - (f% 1.0 : Float))) = .infinity .positive := by
    rw [fabs, up_abs, up_sub, h, lit1]
    show (recode (.infinity s)).abs = _
    rw [recode_inf]; rfl
  rw [(C01_check_decision c).2.1, flt_false, flt, lt_iff, lt_iff, h0, h1, lit10, lit2]
  exact ⟨by decide, by decide⟩

omit [Libm] in
theorem cases_fin (a : Float) : a.isNaN = true ∨ (∃ s, up a = .infinity s) ∨ IsFinite a := by
  rw [isNaN_iff]
  unfold IsFinite
  cases up a with
  | infinity s => exact Or.inr (Or.inl ⟨s, rfl⟩)
  | notANumber => exact Or.inl rfl
  | zero s => exact Or.inr (Or.inr trivial)
  | finite s m e h => exact Or.inr (Or.inr trivial)

omit [Libm] in
theorem one_le_1022 : (1 : ℝ) ≤ 2 ^ 1022 := one_le_pow₀ (by norm_num)

/-- The decision of `check` on a finite sum. -/
theorem check_fin (c : Composition Float) (h : IsFinite c.sum) :
    (c.check = .ok () → |toR c.sum - 1| ≤ 0.01 + 1e-17) ∧
    (|toR c.sum - 1| ≤ 0.01 - 1e-17 → c.check = .ok ()) := by
  have hu : uu = 1 / 2 ^ 53 := uu_eq
  have hT := one_le_1022
  have d := (C01_check_decision c).2.2
  rw [flt_false, flt_false, fabs, fabs] at d
  constructor
  · intro hc
    have d2 := (d.1 hc).2
    rcases sub_cases h fin1 with ⟨f1, e1⟩ | ⟨⟨s, hi⟩, -⟩
    · rw [lt_toR fin2 (fin_abs f1), toR_abs, toR2] at d2
      rw [toR1, hu] at e1
      have k1 := abs_sub_abs_le_abs_sub (toR c.sum - 1) (toR (c.sum - (f% 1.0 : Float)))
      rw [abs_sub_comm (toR c.sum - 1)] at k1
      norm_num at d2 ⊢
      linarith
    · rw [lt_iff, up_abs, hi, lit2] at d2
      exact absurd rfl d2
  · intro hs
    have k4 : (0.98 : ℝ) ≤ |toR c.sum| := by
      have := abs_sub_abs_le_abs_sub (1 : ℝ) (toR c.sum)
      rw [abs_one, abs_sub_comm] at this
      norm_num at hs ⊢; linarith
    have k5 : |toR c.sum| ≤ 1.02 := by
      have := abs_sub_abs_le_abs_sub (toR c.sum) 1
      rw [abs_one] at this
      norm_num at hs ⊢; linarith
    have b1 : |toR c.sum - toR (f% 1.0 : Float)| ≤ 2 ^ 1023 := by
      rw [toR1, T1023]
      generalize (2 : ℝ) ^ 1022 = T at *
      norm_num at hs
      linarith
    have b0 : |toR c.sum - toR (f% 0.0 : Float)| ≤ 2 ^ 1023 := by
      rw [toR0, T1023, sub_zero]
      generalize (2 : ℝ) ^ 1022 = T at *
      norm_num at k5
      linarith
    obtain ⟨f1, e1⟩ := sub_ok h fin1 b1
    obtain ⟨f0, e0⟩ := sub_ok h fin0 b0
    rw [toR1, hu] at e1
    rw [toR0, sub_zero, hu] at e0
    rw [d, lt_toR (fin_abs f0) fin10, lt_toR fin2 (fin_abs f1), toR_abs, toR_abs, toR10, toR2]
    clear b1 b0 hT d
    have k2 := abs_sub_abs_le_abs_sub (toR (c.sum - (f% 1.0 : Float))) (toR c.sum - 1)
    have k3 := abs_sub_abs_le_abs_sub (toR c.sum) (toR (c.sum - (f% 0.0 : Float)))
    rw [abs_sub_comm (toR c.sum)] at k3
    norm_num at hs k4 ⊢
    constructor <;> linarith

/-- C02, f64: acceptance means the computed sum is NaN, or finite and within 1 % of one (up to `1e-17`);
an infinite sum is `BadSum`. -/
theorem C02_f64_accepted (c : Composition Float) (h : c.check = .ok ()) :
    c.sum.isNaN = true ∨ IsFinite c.sum ∧ |toR c.sum - 1| ≤ 0.01 + 1e-17 := by
  rcases cases_fin c.sum with hn | ⟨s, hi⟩ | hf
  · exact Or.inl hn
  · rw [check_of_inf c s hi] at h; cases h
  · exact Or.inr ⟨hf, (check_fin c hf).1 h⟩

omit [Libm] in
theorem abs_sum_nonneg {c : Composition Float} (h0 : ∀ i, 0 ≤ toR (c.frac i)) :
    ∑ i, |toR (c.frac i)| = ∑ i, toR (c.frac i) :=
  Finset.sum_congr rfl fun i _ => abs_of_nonneg (h0 i)

/-- C02, f64: for non-negative finite fractions `check` decides "the fractions sum to one within 1 %" up to
a relative error of `1e-14`. -/
theorem C02_f64_sound (c : Composition Float) (hf : ∀ i, IsFinite (c.frac i))
    (h0 : ∀ i, 0 ≤ toR (c.frac i)) (hT : ∑ i, toR (c.frac i) ≤ 2 ^ 1022) :
    (c.check = .ok () → |∑ i, toR (c.frac i) - 1| ≤ 0.01 + 1e-14) ∧
    (|∑ i, toR (c.frac i) - 1| ≤ 0.01 - 1e-14 → c.check = .ok ()) := by
  obtain ⟨hs, he⟩ := sum_ok c hf (by rw [abs_sum_nonneg h0]; exact hT)
  have hS : 0 ≤ ∑ i, toR (c.frac i) := Finset.sum_nonneg fun i _ => h0 i
  rw [abs_sum_nonneg h0, uu_eq] at he
  obtain ⟨h1, h2⟩ := check_fin c hs
  generalize ∑ i, toR (c.frac i) = S at *
  clear hT
  rw [abs_le] at he
  constructor
  · intro hc
    have h3 := abs_le.1 (h1 hc)
    rw [abs_le]
    norm_num at he h3 ⊢
    constructor <;> linarith
  · intro hc
    refine h2 ?_
    rw [abs_le] at hc ⊢
    norm_num at he hc ⊢
    constructor <;> linarith

/-! ## C41 -/

omit [Libm] in
theorem eta_tiny : eta * 2 ^ 1022 = uu := by
  rw [eta, uu, ← zpow_natCast, ← zpow_add₀ (by norm_num : (2 : ℝ) ≠ 0)]; norm_num

omit [Libm] in
/-- A float that is at least minus half the smallest subnormal is not negative. -/
theorem nonneg_of_gt (a : Float) (h : -eta ≤ toR a) : 0 ≤ toR a := by
  by_contra hc
  rw [not_le] at hc
  unfold toR at *
  have ca := up_canon a
  cases hx : up a with
  | infinity s => rw [hx] at hc; simp [val] at hc
  | notANumber => rw [hx] at hc; simp [val] at hc
  | zero s => rw [hx] at hc; simp [val] at hc
  | finite s m e hm =>
    rw [hx] at hc h ca
    have hz : (0 : ℝ) < 2 ^ e := by positivity
    cases s
    · simp only [val, sg] at h
      have h1 : (1 : ℝ) ≤ m := by exact_mod_cast hm
      have h2 : (2 : ℝ) ^ (-1074 : Int) ≤ 2 ^ e := zpow_le_zpow_right₀ (by norm_num) ca.2.1
      have h3 : (2 : ℝ) ^ (-1074 : Int) = 2 * eta := by
        rw [eta, show (-1074 : Int) = 1 + -1075 by norm_num, zpow_add₀ (by norm_num : (2 : ℝ) ≠ 0),
          zpow_one]
      have h4 := eta_pos
      nlinarith
    · simp only [val, sg, one_mul] at hc
      have : (0 : ℝ) ≤ m * 2 ^ e := by positivity
      linarith

omit [Libm] in
theorem inv_bounds {T S u : ℝ} (hT : 0 < T) (hu : 0 < u) (hu' : u ≤ 1 / 10 ^ 15)
    (h : |S - T| ≤ 21 * u * T) :
    T / 2 ≤ S ∧ T / S ≤ 1 + 22 * u ∧ 1 - 21 * u ≤ T / S := by
  have hS := abs_le.1 h
  have hS1 : T * (1 - 21 * u) ≤ S := by linarith
  have hS2 : S ≤ T * (1 + 21 * u) := by linarith
  have hS0 : 0 < S := lt_of_lt_of_le (mul_pos hT (by linarith)) hS1
  have hTu : T * u ≤ T * (1 / 10 ^ 15) := by gcongr
  refine ⟨by linarith, ?_, ?_⟩
  · rw [div_le_iff₀ hS0]
    have h1 : (1 + 22 * u) * (T * (1 - 21 * u)) ≤ (1 + 22 * u) * S := by gcongr
    have h2 : 0 ≤ T * u * (1 - 22 * 21 * u) := mul_nonneg (by positivity) (by linarith)
    nlinarith
  · rw [le_div_iff₀ hS0]
    have h1 : (1 - 21 * u) * S ≤ (1 - 21 * u) * (T * (1 + 21 * u)) :=
      mul_le_mul_of_nonneg_left hS2 (by linarith)
    have : 0 ≤ T * (u * u) := by positivity
    nlinarith

omit [Libm] in
theorem factor_bound {T S g u e : ℝ} (hT : 0 < T) (hS : 0 < S) (hu : 0 < u) (hu' : u ≤ 1 / 10 ^ 15)
    (h1 : T / S ≤ 1 + 22 * u) (h2 : 1 - 21 * u ≤ T / S) (he : e * T ≤ u)
    (hg : |g - 1 / S| ≤ u * |1 / S| + e) : |g * T - 1| ≤ 25 * u := by
  rw [abs_of_pos (by positivity : 0 < 1 / S)] at hg
  have h3 : |g * T - T / S| ≤ u * (T / S) + e * T := by
    have : g * T - T / S = (g - 1 / S) * T := by ring
    rw [this, abs_mul, abs_of_pos hT]
    calc |g - 1 / S| * T ≤ (u * (1 / S) + e) * T := by gcongr
      _ = _ := by ring
  have h4 : u * (T / S) ≤ u * (1 + 22 * u) := by gcongr
  have h5 : u * (22 * u) ≤ u * (22 * (1 / 10 ^ 15)) := by gcongr
  rw [abs_le] at h3 ⊢
  norm_num at h5
  constructor <;> linarith

omit [Libm] in
theorem comp_bound {T g u e x y : ℝ} (hT : 0 < T) (hx : 0 ≤ x) (hu : 0 < u) (hu' : u ≤ 1 / 10 ^ 15)
    (hq : |g * T - 1| ≤ 25 * u) (hy : |y - x * g| ≤ u * |x * g| + e) :
    |y - x / T| ≤ 27 * u * (x / T) + e := by
  have hxg : x * g = x / T * (g * T) := by field_simp
  have hxT : 0 ≤ x / T := by positivity
  have hq' := abs_le.1 hq
  rw [hxg] at hy
  generalize x / T = z at *
  generalize g * T = q at *
  have hq0 : 0 ≤ q := by linarith
  rw [abs_of_nonneg (mul_nonneg hxT hq0)] at hy
  have h1 : |z * q - z| ≤ z * (25 * u) := by
    rw [← mul_sub_one, abs_mul, abs_of_nonneg hxT]; gcongr
  have h2 : u * (z * q) ≤ u * (z * 2) := by gcongr; linarith
  have h3 : |y - z| ≤ |y - z * q| + |z * q - z| := abs_sub_le _ _ _
  linarith

/-- C41, f64: `normalize` of non-negative finite fractions whose sum is in the normal range returns `Ok`;
every new fraction is the old one divided by the exact sum up to a relative error of `2^-48` and an absolute
error of `2^-1074`, the new fractions are finite, non-negative, sum to one within `2^-48`, and `check`
accepts them. -/
theorem C41_normalize_f64 (c : Composition Float) (hf : ∀ i, IsFinite (c.frac i))
    (h0 : ∀ i, 0 ≤ toR (c.frac i)) (hlo : (2 : ℝ) ^ (-1021 : Int) ≤ ∑ i, toR (c.frac i))
    (hhi : ∑ i, toR (c.frac i) ≤ 2 ^ 1022) :
    c.normalize.2 = .ok () ∧
    (∀ i, IsFinite (c.normalize.1.frac i) ∧ 0 ≤ toR (c.normalize.1.frac i) ∧
      |toR (c.normalize.1.frac i) - toR (c.frac i) / ∑ j, toR (c.frac j)| ≤
        2 ^ (-48 : Int) * (toR (c.frac i) / ∑ j, toR (c.frac j)) + 2 ^ (-1074 : Int)) ∧
    |∑ i, toR (c.normalize.1.frac i) - 1| ≤ 2 ^ (-48 : Int) ∧
    c.normalize.1.check = .ok () := by
  obtain ⟨hs, he⟩ := sum_ok c hf (by rw [abs_sum_nonneg h0]; exact hhi)
  rw [abs_sum_nonneg h0] at he
  have hu := uu_pos
  have het := eta_pos
  have hT : 0 < ∑ i, toR (c.frac i) := lt_of_lt_of_le (by positivity) hlo
  have hu' : uu ≤ 1 / 10 ^ 15 := by rw [uu_eq]; norm_num
  have h48 : (2 : ℝ) ^ (-48 : Int) = 32 * uu := by rw [uu_eq]; norm_num [zpow_neg]
  have h1074 : (2 : ℝ) ^ (-1074 : Int) = 2 * eta := by
    rw [eta, show (-1074 : Int) = 1 + -1075 by norm_num, zpow_add₀ (by norm_num : (2 : ℝ) ≠ 0), zpow_one]
  have heT : eta * ∑ i, toR (c.frac i) ≤ uu := by
    rw [← eta_tiny]; gcongr
  have hetu : eta ≤ uu * (1 / 1000) := by
    rw [← eta_tiny, mul_assoc]
    have h1 : (1000 : ℝ) ≤ 2 ^ 1022 :=
      le_trans (by norm_num : (1000 : ℝ) ≤ 2 ^ 10) (pow_le_pow_right₀ (by norm_num) (by norm_num))
    generalize (2 : ℝ) ^ 1022 = B at *
    nlinarith
  obtain ⟨b1, b2, b3⟩ := inv_bounds hT hu hu' he
  have hS0 : 0 < toR c.sum := by linarith
  have hok : c.normalize.2 = .ok () := by
    refine (C04_normalize_atomic c).1 ?_
    rw [flt, lt_toR fin0 hs, toR0]; exact hS0
  have hinv : |toR (f% 1.0 : Float) / toR c.sum| ≤ 2 ^ 1023 := by
    rw [toR1, abs_of_pos (by positivity), div_le_iff₀ hS0]
    have h2z : (2 : ℝ) ^ (-1021 : Int) * 2 ^ 1022 = 2 := by
      rw [← zpow_natCast, ← zpow_add₀ (by norm_num : (2 : ℝ) ≠ 0)]; norm_num
    have hp : (0 : ℝ) < 2 ^ 1022 := by positivity
    rw [T1023]
    generalize (2 : ℝ) ^ (-1021 : Int) = L at *
    generalize (2 : ℝ) ^ 1022 = B at *
    nlinarith
  obtain ⟨gf, ge⟩ := div_ok fin1 hs hS0.ne' hinv
  rw [toR1] at ge
  have hq := factor_bound hT hS0 hu hu' b2 b3 heT ge
  have hq' := abs_le.1 hq
  have hg0 : 0 ≤ toR ((f% 1.0 : Float) / c.sum) := by
    by_contra hc
    have := mul_neg_of_neg_of_pos (not_le.1 hc) hT
    linarith
  have hcomp : ∀ i, IsFinite (c.normalize.1.frac i) ∧ 0 ≤ toR (c.normalize.1.frac i) ∧
      |toR (c.normalize.1.frac i) - toR (c.frac i) / ∑ j, toR (c.frac j)| ≤
        27 * uu * (toR (c.frac i) / ∑ j, toR (c.frac j)) + eta := by
    intro i
    rw [C03_normalize_scales c hok i]
    have hxT : toR (c.frac i) ≤ ∑ i, toR (c.frac i) :=
      Finset.single_le_sum (f := fun i => toR (c.frac i)) (fun j _ => h0 j) (Finset.mem_univ i)
    have hxg : |toR (c.frac i) * toR ((f% 1.0 : Float) / c.sum)| ≤ 2 ^ 1023 := by
      rw [abs_of_nonneg (mul_nonneg (h0 i) hg0), T1023]
      have h1 : toR (c.frac i) * toR ((f% 1.0 : Float) / c.sum) ≤
          (∑ i, toR (c.frac i)) * toR ((f% 1.0 : Float) / c.sum) := by gcongr
      have := one_le_1022
      generalize (2 : ℝ) ^ 1022 = B at *
      linarith
    obtain ⟨yf, ye⟩ := mul_ok (hf i) gf hxg
    refine ⟨yf, nonneg_of_gt _ ?_, comp_bound hT (h0 i) hu hu' hq ye⟩
    have h3 := (abs_le.1 ye).1
    rw [abs_of_nonneg (mul_nonneg (h0 i) hg0)] at h3
    have h4 : uu * (toR (c.frac i) * toR ((f% 1.0 : Float) / c.sum)) ≤
        1 * (toR (c.frac i) * toR ((f% 1.0 : Float) / c.sum)) := by
      gcongr
      · exact mul_nonneg (h0 i) hg0
      · linarith
    linarith
  have hsum : |∑ i, toR (c.normalize.1.frac i) - 1| ≤ 28 * uu := by
    have h1 : ∑ i, toR (c.frac i) / ∑ j, toR (c.frac j) = 1 := by
      rw [← Finset.sum_div, div_self hT.ne']
    calc |∑ i, toR (c.normalize.1.frac i) - 1|
        = |∑ i, (toR (c.normalize.1.frac i) - toR (c.frac i) / ∑ j, toR (c.frac j))| := by
          rw [Finset.sum_sub_distrib, h1]
      _ ≤ ∑ i, |toR (c.normalize.1.frac i) - toR (c.frac i) / ∑ j, toR (c.frac j)| :=
          Finset.abs_sum_le_sum_abs _ _
      _ ≤ ∑ i, (27 * uu * (toR (c.frac i) / ∑ j, toR (c.frac j)) + eta) :=
          Finset.sum_le_sum fun i _ => (hcomp i).2.2
      _ = 27 * uu + 21 * eta := by
          rw [Finset.sum_add_distrib, ← Finset.mul_sum, h1]; simp
      _ ≤ 28 * uu := by linarith
  refine ⟨hok, fun i => ⟨(hcomp i).1, (hcomp i).2.1, (hcomp i).2.2.trans ?_⟩, ?_, ?_⟩
  · rw [h48, h1074]
    have : 0 ≤ uu * (toR (c.frac i) / ∑ j, toR (c.frac j)) :=
      mul_nonneg hu.le (div_nonneg (h0 i) hT.le)
    linarith
  · rw [h48]; linarith
  · have hle : ∑ i, toR (c.normalize.1.frac i) ≤ 2 ^ 1022 := by
      have := (abs_le.1 hsum).2
      have h8 : (8 : ℝ) ≤ 2 ^ 1022 :=
        le_trans (by norm_num : (8 : ℝ) ≤ 2 ^ 3) (pow_le_pow_right₀ (by norm_num) (by norm_num))
      generalize (2 : ℝ) ^ 1022 = B at *
      linarith
    refine (C02_f64_sound _ (fun i => (hcomp i).1) (fun i => (hcomp i).2.1) hle).2 (hsum.trans ?_)
    norm_num at hu' ⊢
    linarith

omit [Libm] in
theorem toR_lt_1024 (a : Float) : |toR a| < 2 ^ 1024 := by
  unfold toR
  have ca := up_canon a
  have hp : (0 : ℝ) < 2 ^ 1024 := by positivity
  cases hx : up a with
  | infinity s => simpa only [val, abs_zero] using hp
  | notANumber => simpa only [val, abs_zero] using hp
  | zero s => simpa only [val, abs_zero] using hp
  | finite s m e hm =>
    rw [hx] at ca
    have h1 : (m : ℝ) < 2 ^ (53 : ℕ) := by exact_mod_cast ca.1
    have hz : (0 : ℝ) < 2 ^ e := by positivity
    simp only [val]
    rw [mag _ (by positivity)]
    have h5 : (2 : ℝ) ^ e ≤ 2 ^ (971 : Int) := zpow_le_zpow_right₀ (by norm_num) ca.2.2.1
    calc (m : ℝ) * (2 : ℝ) ^ e < 2 ^ (53 : ℕ) * 2 ^ e := by gcongr
      _ ≤ 2 ^ (53 : ℕ) * 2 ^ (971 : Int) := by gcongr
      _ = (2 : ℝ) ^ (1024 : ℕ) := by
          rw [← zpow_natCast, ← zpow_natCast, ← zpow_add₀ (by norm_num : (2 : ℝ) ≠ 0)]; norm_num

/-- C41, f64, the boundary: if the computed sum is positive but at most `2^-1025`, `normalize` still returns
`Ok`, but the factor has overflowed: non-zero fractions become infinite and zero fractions become NaN. -/
theorem C41_tiny_sum_overflows (c : Composition Float) (hs : IsFinite c.sum) (h0 : 0 < toR c.sum)
    (hle : toR c.sum ≤ 2 ^ (-1025 : Int)) :
    c.normalize.2 = .ok () ∧
    ∀ i, IsFinite (c.frac i) →
      (toR (c.frac i) ≠ 0 → ∃ s, up (c.normalize.1.frac i) = .infinity s) ∧
      (toR (c.frac i) = 0 → (c.normalize.1.frac i).isNaN = true) := by
  have hok : c.normalize.2 = .ok () := by
    refine (C04_normalize_atomic c).1 ?_
    rw [flt, lt_toR fin0 hs, toR0]; exact h0
  have hinf : ∃ s, up ((f% 1.0 : Float) / c.sum) = .infinity s := by
    rcases div_cases fin1 hs h0.ne' with ⟨h1, h2⟩ | ⟨h1, -⟩
    · exfalso
      rw [toR1] at h2
      have h3 := toR_lt_1024 ((f% 1.0 : Float) / c.sum)
      have h4 : 2 * (2 : ℝ) ^ 1024 ≤ 1 / toR c.sum := by
        rw [le_div_iff₀ h0]
        have h5 : 2 * (2 : ℝ) ^ 1024 * 2 ^ (-1025 : Int) = 1 := by
          rw [← pow_succ', ← zpow_natCast, ← zpow_add₀ (by norm_num : (2 : ℝ) ≠ 0)]; norm_num
        have hp : (0 : ℝ) < 2 * 2 ^ 1024 := by positivity
        calc 2 * (2 : ℝ) ^ 1024 * toR c.sum ≤ 2 * (2 : ℝ) ^ 1024 * 2 ^ (-1025 : Int) := by gcongr
          _ = 1 := h5
      have hpos : 0 < 1 / toR c.sum := by positivity
      have h6 := (abs_le.1 h2).1
      rw [abs_of_pos hpos] at h6
      have h7 := (abs_lt.1 h3).2
      have hu : uu ≤ 1 / 4 := by rw [uu_eq]; norm_num
      have het : eta ≤ 1 := by
        unfold eta
        exact zpow_le_one_of_nonpos₀ (by norm_num) (by norm_num)
      have h8 : uu * (1 / toR c.sum) ≤ 1 / 4 * (1 / toR c.sum) := by gcongr
      have h9 : (4 : ℝ) ≤ 2 ^ 1024 :=
        le_trans (by norm_num : (4 : ℝ) ≤ 2 ^ 2) (pow_le_pow_right₀ (by norm_num) (by norm_num))
      generalize 1 / toR c.sum = v at *
      generalize (2 : ℝ) ^ 1024 = B at *
      linarith
    · exact h1
  refine ⟨hok, fun i hi => ?_⟩
  obtain ⟨s, hs'⟩ := hinf
  rw [C03_normalize_scales c hok i]
  unfold IsFinite toR at *
  rw [isNaN_iff, up_mul, hs']
  cases hx : up (c.frac i) with
  | infinity s => rw [hx] at hi; exact hi.elim
  | notANumber => rw [hx] at hi; exact hi.elim
  | zero s' => exact ⟨fun h => absurd rfl h, fun _ => recode_nan⟩
  | finite s' m e hm =>
    refine ⟨fun _ => ⟨_, recode_inf _⟩, fun h => ?_⟩
    exfalso
    have hp : (0 : ℝ) < m * 2 ^ e := by positivity
    cases s' <;> simp only [val, sg] at h <;> linarith

/-- C41, f64: and such a result, if some fraction was zero, is then accepted by `check`. -/
theorem C41_tiny_sum_accepted (c : Composition Float) (hs : IsFinite c.sum) (h0 : 0 < toR c.sum)
    (hle : toR c.sum ≤ 2 ^ (-1025 : Int)) (i : Fin 21) (hi : IsFinite (c.frac i)) (hz : toR (c.frac i) = 0) :
    c.normalize.1.check = .ok () :=
  C02_f64_nan_accepted _ i (((C41_tiny_sum_overflows c hs h0 hle).2 i hi).2 hz)

/-- Fractions `1e20`, `5`, `-1e20`, `1`. -/
def cancelF : Composition Float :=
  { Composition.default with methane := f% 1.0e20, nitrogen := f% 5.0, carbon_dioxide := -(f% 1.0e20),
                             ethane := f% 1.0 }

omit [Libm] in
theorem lit1e20' : up (Float.ofScientific 100000000000000000000 true 0) =
    .finite .positive 6103515625000000 14 (by decide) := by decide +kernel
omit [Libm] in
theorem litm1e20' : up (-(Float.ofScientific 100000000000000000000 true 0)) =
    .finite .negative 6103515625000000 14 (by decide) := by decide +kernel
omit [Libm] in
theorem lit5' : up (Float.ofScientific 5 true 0) = .finite .positive 5629499534213120 (-50) (by decide) := by
  decide +kernel

omit [Libm] in
theorem cancel_sum' : up ([Float.ofScientific 5 true 0, -(Float.ofScientific 100000000000000000000 true 0),
    Float.ofScientific 1 true 0, Float.ofScientific 0 true 0,
    Float.ofScientific 0 true 0, Float.ofScientific 0 true 0, Float.ofScientific 0 true 0,
    Float.ofScientific 0 true 0, Float.ofScientific 0 true 0, Float.ofScientific 0 true 0,
    Float.ofScientific 0 true 0, Float.ofScientific 0 true 0, Float.ofScientific 0 true 0,
    Float.ofScientific 0 true 0, Float.ofScientific 0 true 0, Float.ofScientific 0 true 0,
    Float.ofScientific 0 true 0, Float.ofScientific 0 true 0, Float.ofScientific 0 true 0,
    Float.ofScientific 0 true 0].foldl (· + ·) (Float.ofScientific 100000000000000000000 true 0))
      = .finite .positive 4503599627370496 (-52) (by decide) := by decide +kernel

theorem cancel_val (i : Fin 21) : IsFinite (cancelF.frac i) ∧ toR (cancelF.frac i) =
    if i = 0 then 10 ^ 20 else if i = 1 then 5 else if i = 2 then -10 ^ 20 else if i = 3 then 1 else 0 := by
  unfold IsFinite toR
  fin_cases i
  · show IsFin (up (f% 1.0e20 : Float)) ∧ val (up (f% 1.0e20 : Float)) = _
    rw [show up (f% 1.0e20 : Float) = _ from lit1e20']
    refine ⟨trivial, ?_⟩; simp only [val, sg]; norm_num
  · show IsFin (up (f% 5.0 : Float)) ∧ val (up (f% 5.0 : Float)) = _
    rw [show up (f% 5.0 : Float) = _ from lit5']
    refine ⟨trivial, ?_⟩; simp only [val, sg]; norm_num
  · show IsFin (up (-(f% 1.0e20 : Float))) ∧ val (up (-(f% 1.0e20 : Float))) = _
    rw [show up (-(f% 1.0e20 : Float)) = _ from litm1e20']
    refine ⟨trivial, ?_⟩
    rw [if_neg (by decide), if_neg (by decide), if_pos (by decide)]
    simp only [val, sg]; norm_num
  · exact ⟨fin1, toR1⟩
  all_goals exact ⟨fin0, toR0⟩

/-- C02, f64: with fractions of both signs the verdict can be wrong on finite input: these fractions sum to 6
and are accepted. -/
theorem C02_f64_cancelling_accepted : ∃ c : Composition Float, (∀ i, IsFinite (c.frac i)) ∧
    ∑ i, toR (c.frac i) = 6 ∧ c.check = .ok () := by
  refine ⟨cancelF, fun i => (cancel_val i).1, ?_, ?_⟩
  · simp only [fun i => (cancel_val i).2]
    simp [Fin.sum_univ_succ]
    norm_num
  · have hu : up cancelF.sum = .finite .positive 4503599627370496 (-52) (by decide) := cancel_sum'
    have hf : IsFinite cancelF.sum := by unfold IsFinite; rw [hu]; trivial
    have hv : toR cancelF.sum = 1 := by unfold toR; rw [hu]; simp only [val, sg]; norm_num
    refine (check_fin _ hf).2 ?_
    rw [hv]; norm_num

/-! ## Non-vacuity -/

/-- The repository's example, in percent. -/
def exF : Composition Float := { Composition.default with methane := f% 83.0, ethane := f% 17.0 }

omit [Libm] in
theorem lit83' : up (Float.ofScientific 83 true 0) = .finite .positive 5840605766746112 (-46) (by decide) := by
  decide +kernel
omit [Libm] in
theorem lit17' : up (Float.ofScientific 17 true 0) = .finite .positive 4785074604081152 (-48) (by decide) := by
  decide +kernel
theorem toR83 : toR (f% 83.0 : Float) = 83 := by
  unfold toR; rw [show up (f% 83.0 : Float) = _ from lit83']; simp only [val, sg]; norm_num
theorem toR17 : toR (f% 17.0 : Float) = 17 := by
  unfold toR; rw [show up (f% 17.0 : Float) = _ from lit17']; simp only [val, sg]; norm_num

theorem exF_fin (i : Fin 21) : IsFinite (exF.frac i) := by
  fin_cases i
  · show IsFin (up (f% 83.0 : Float)); rw [show up (f% 83.0 : Float) = _ from lit83']; trivial
  all_goals first | exact fin0 | skip
  show IsFin (up (f% 17.0 : Float)); rw [show up (f% 17.0 : Float) = _ from lit17']; trivial

theorem exF_val (i : Fin 21) : toR (exF.frac i) = if i = 0 then 83 else if i = 3 then 17 else 0 := by
  fin_cases i
  · exact toR83
  · exact toR0
  · exact toR0
  · exact toR17
  all_goals exact toR0

theorem exF_sum : ∑ i, toR (exF.frac i) = 100 := by
  simp only [exF_val]
  simp [Fin.sum_univ_succ]
  norm_num

/-- The hypotheses of `C41_normalize_f64` hold of it. -/
example : (Composition.normalize exF).2 = .ok () ∧ (Composition.normalize exF).1.check = .ok () := by
  have h := C41_normalize_f64 exF exF_fin (fun i => ?_) ?_ ?_
  · exact ⟨h.1, h.2.2.2⟩
  · rw [exF_val]; split_ifs <;> norm_num
  · rw [exF_sum]
    exact le_trans (zpow_le_one_of_nonpos₀ (by norm_num) (by norm_num)) (by norm_num)
  · rw [exF_sum]
    exact le_trans (by norm_num : (100 : ℝ) ≤ 2 ^ 7) (pow_le_pow_right₀ (by norm_num) (by norm_num))

/-- The smallest positive `f64`. -/
def tinyF : Composition Float := { Composition.default with methane := Float.ofBits 1 }

omit [Libm] in
theorem tiny_up : up (Float.ofBits 1) = .finite .positive 1 (-1074) (by decide) := by decide +kernel

omit [Libm] in
theorem tiny_sum' : up ([Float.ofScientific 0 true 0, Float.ofScientific 0 true 0,
    Float.ofScientific 0 true 0, Float.ofScientific 0 true 0, Float.ofScientific 0 true 0,
    Float.ofScientific 0 true 0, Float.ofScientific 0 true 0, Float.ofScientific 0 true 0,
    Float.ofScientific 0 true 0, Float.ofScientific 0 true 0, Float.ofScientific 0 true 0,
    Float.ofScientific 0 true 0, Float.ofScientific 0 true 0, Float.ofScientific 0 true 0,
    Float.ofScientific 0 true 0, Float.ofScientific 0 true 0, Float.ofScientific 0 true 0,
    Float.ofScientific 0 true 0, Float.ofScientific 0 true 0, Float.ofScientific 0 true 0].foldl
      (· + ·) (Float.ofBits 1)) = .finite .positive 1 (-1074) (by decide) := by decide +kernel

theorem tiny_sum : up tinyF.sum = .finite .positive 1 (-1074) (by decide) := tiny_sum'

/-- A single component of the smallest positive amount is "normalised" to garbage, and accepted. -/
example : (Composition.normalize tinyF).2 = .ok () ∧
    (Composition.normalize tinyF).1.nitrogen.isNaN = true ∧
    (Composition.normalize tinyF).1.check = .ok () := by
  have hs : IsFinite tinyF.sum := by unfold IsFinite; rw [tiny_sum]; trivial
  have hv : toR tinyF.sum = 2 ^ (-1074 : Int) := by
    unfold toR; rw [tiny_sum]; simp only [val, sg]; norm_num
  have h0 : 0 < toR tinyF.sum := by rw [hv]; positivity
  have hle : toR tinyF.sum ≤ 2 ^ (-1025 : Int) := by
    rw [hv]; exact zpow_le_zpow_right₀ (by norm_num) (by norm_num)
  have h := C41_tiny_sum_overflows tinyF hs h0 hle
  exact ⟨h.1, (h.2 1 fin0).2 toR0, C41_tiny_sum_accepted tinyF hs h0 hle 1 fin0 toR0⟩

/-- A NaN fraction. -/
example : ({ exF with nitrogen := Float.ofBits 0x7ff8000000000000 } : Composition Float).check = .ok () :=
  C02_f64_nan_accepted _ 1 (show (Float.ofBits 0x7ff8000000000000).isNaN = true by decide +kernel)

end Aga8
