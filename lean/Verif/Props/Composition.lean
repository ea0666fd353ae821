import Mathlib.Algebra.BigOperators.Fin
import Mathlib.Algebra.BigOperators.Field
import Mathlib.Tactic.NormNum
import Mathlib.Tactic.Linarith
import Mathlib.Tactic.FieldSimp
import Mathlib.Tactic.FinCases
import Verif.RealArith
import Verif.Spec.Composition

/-! # Properties of `Composition` (C01–C05, C42)

`any arithmetic`: for every number type. `ℝ`: exact arithmetic. The IEEE-754 statements are in
`Verif/Props/F64.lean`. -/

set_option linter.unusedSectionVars false

namespace Aga8

open Composition

section anyF
variable {F : Type} [Add F] [Sub F] [Mul F] [Div F] [Neg F] [FOps F]

/-- C01, any arithmetic: the verdict depends on nothing but the sum. -/
theorem C01_check_depends_on_sum_only (c c' : Composition F) (h : c.sum = c'.sum) :
    c.check = c'.check := by
  unfold check; rw [h]

/-- C01, any arithmetic: `BadSum` and `Empty` are the only errors, so `Ok` is returned exactly when
neither threshold test fires. -/
theorem C01_check_decision (c : Composition F) :
    (c.check = .error .Empty ↔ (FOps.lt (FOps.abs (c.sum - f% 0.0)) (f% 1.0e-10)) = true) ∧
    (c.check = .error .BadSum ↔ (FOps.lt (FOps.abs (c.sum - f% 0.0)) (f% 1.0e-10)) = false ∧
      (FOps.lt (f% 1.0e-2) (FOps.abs (c.sum - f% 1.0))) = true) ∧
    (c.check = .ok () ↔ (FOps.lt (FOps.abs (c.sum - f% 0.0)) (f% 1.0e-10)) = false ∧
      (FOps.lt (f% 1.0e-2) (FOps.abs (c.sum - f% 1.0))) = false) := by
  unfold check
  cases FOps.lt (FOps.abs (c.sum - f% 0.0)) (f% 1.0e-10 : F) <;>
    cases FOps.lt (f% 1.0e-2 : F) (FOps.abs (c.sum - f% 1.0)) <;> simp

/-- C04, any arithmetic: `normalize` fails exactly when the sum is not greater than zero, always with `Empty`,
and then modifies nothing. -/
theorem C04_normalize_atomic (c : Composition F) :
    ((FOps.lt (f% 0.0) c.sum) = true → c.normalize.2 = .ok ()) ∧
    ((FOps.lt (f% 0.0) c.sum) = false → c.normalize = (c, .error .Empty)) ∧
    c.normalize.2 ≠ .error .BadSum := by
  unfold Composition.normalize
  cases hs : FOps.lt (f% 0.0 : F) c.sum <;> simp [hs]

/-- C03, any arithmetic: on success every component is the old one times the same factor `1/sum`. -/
theorem C03_normalize_scales (c : Composition F) (h : c.normalize.2 = .ok ()) (i : Fin 21) :
    c.normalize.1.frac i = c.frac i * (f% 1.0 / c.sum) := by
  unfold Composition.normalize at h ⊢
  cases hs : FOps.lt (f% 0.0 : F) c.sum
  · simp [hs] at h
  · simp only [hs, if_true]
    fin_cases i <;> rfl

end anyF

/-! ## Exact arithmetic -/

/-- The model's sum is the sum of the 21 fractions. -/
theorem sum_eq (c : Composition ℝ) : c.sum = ∑ i, c.frac i := by
  simp [Fin.sum_univ_succ, Composition.sum, frac]
  ring

/-- C01, ℝ: the decision table in terms of the fractions. -/
theorem C01_check_decision_real (c : Composition ℝ) :
    (c.check = .error .Empty ↔ |∑ i, c.frac i| < 1e-10) ∧
    (c.check = .error .BadSum ↔ 1e-10 ≤ |∑ i, c.frac i| ∧ 0.01 < |∑ i, c.frac i - 1|) ∧
    (c.check = .ok () ↔ 1e-10 ≤ |∑ i, c.frac i| ∧ |∑ i, c.frac i - 1| ≤ 0.01) := by
  have h := C01_check_decision c
  rw [sum_eq] at h
  simp only [r_lt, r_lt_false, r_abs, r_ofDec] at h
  norm_num at h ⊢
  exact h

/-- C02, ℝ: acceptance is exactly "the fractions sum to one within 1 %". -/
theorem C02_accepted_iff_sum_within_one_percent (c : Composition ℝ) :
    c.check = .ok () ↔ |∑ i, c.frac i - 1| ≤ 0.01 := by
  rw [(C01_check_decision_real c).2.2]
  refine ⟨fun h => h.2, fun h => ⟨?_, h⟩⟩
  have h1 := abs_le.1 h
  rw [abs_of_pos (by norm_num at h1 ⊢; linarith)]
  norm_num at h1 ⊢
  linarith

/-- C03, ℝ: a composition with positive sum is normalised: `Ok`, every component divided by the old sum,
new sum exactly 1, ratios kept. -/
theorem C03_normalize_real (c : Composition ℝ) (hs : 0 < ∑ i, c.frac i) :
    c.normalize.2 = .ok () ∧
    (∀ i, c.normalize.1.frac i = c.frac i / ∑ j, c.frac j) ∧
    ∑ i, c.normalize.1.frac i = 1 ∧
    ∀ i j, c.normalize.1.frac i * c.frac j = c.normalize.1.frac j * c.frac i := by
  have h1 : c.normalize.2 = .ok () := by
    refine (C04_normalize_atomic c).1 ?_
    rw [r_lt, sum_eq]; simpa using hs
  have h2 : ∀ i, c.normalize.1.frac i = c.frac i / ∑ j, c.frac j := by
    intro i
    rw [C03_normalize_scales c h1 i, sum_eq]
    simp [div_eq_mul_inv]
  refine ⟨h1, h2, ?_, ?_⟩
  · simp only [h2]
    rw [← Finset.sum_div, div_self hs.ne']
  · intro i j
    rw [h2, h2]; ring

/-- C04, ℝ: failure exactly on a non-positive sum, with no effect. -/
theorem C04_normalize_atomic_real (c : Composition ℝ) :
    (c.normalize.2 = .error .Empty ↔ ∑ i, c.frac i ≤ 0) ∧
    (∑ i, c.frac i ≤ 0 → c.normalize.1 = c) := by
  have h := C04_normalize_atomic c
  rw [r_lt, r_lt_false, sum_eq] at h
  simp only [r_ofDec, Int.cast_zero, zero_div] at h
  constructor
  · constructor
    · intro he
      by_contra hc
      rw [h.1 (not_le.1 hc)] at he
      cases he
    · intro hc; rw [h.2.1 hc]
  · intro hc; rw [h.2.1 hc]

/-- C05, ℝ: the output of a successful `normalize` is accepted by `check` and is a fixed point of `normalize`. -/
theorem C05_normalize_idempotent (c : Composition ℝ) (h : c.normalize.2 = .ok ()) :
    c.normalize.1.check = .ok () ∧ c.normalize.1.normalize = (c.normalize.1, .ok ()) := by
  have hs : 0 < ∑ i, c.frac i := by
    by_contra hc
    have := (C04_normalize_atomic_real c).1.2 (not_lt.1 hc)
    rw [this] at h; cases h
  obtain ⟨-, -, h3, -⟩ := C03_normalize_real c hs
  generalize c.normalize.1 = c' at h3 ⊢
  obtain ⟨g1, g2, -, -⟩ := C03_normalize_real c' (by rw [h3]; norm_num)
  refine ⟨?_, ?_⟩
  · rw [C02_accepted_iff_sum_within_one_percent, h3]; norm_num
  · have : (Composition.normalize c').1 = c' := by
      have e : ∀ i, (Composition.normalize c').1.frac i = c'.frac i := by
        intro i; rw [g2, h3, div_one]
      generalize (Composition.normalize c').1 = c'' at e
      cases c'; cases c''
      simp only [Composition.mk.injEq]
      refine ⟨e 0, e 1, e 2, e 3, e 4, e 5, e 6, e 7, e 8, e 9, e 10, e 11, e 12, e 13, e 14, e 15,
        e 16, e 17, e 18, e 19, e 20⟩
    exact Prod.ext this g1

/-! ## Non-vacuity -/

/-- The test composition of the repository: 83 % methane, 17 % ethane, in percent. -/
noncomputable def exPercent : Composition ℝ := { Composition.default with methane := 83, ethane := 17 }

theorem exPercent_sum : ∑ i, exPercent.frac i = 100 := by
  rw [← sum_eq]
  simp [Composition.sum, exPercent, Composition.default]
  norm_num

example : 0 < ∑ i, exPercent.frac i := by rw [exPercent_sum]; norm_num
example : exPercent.check = .error .BadSum := by
  rw [(C01_check_decision_real _).2.1, exPercent_sum]; norm_num
example : (Composition.normalize exPercent).2 = .ok () :=
  (C03_normalize_real _ (by rw [exPercent_sum]; norm_num)).1
example : (Composition.normalize exPercent).1.methane = 83 / 100 := by
  have := (C03_normalize_real _ (by rw [exPercent_sum]; norm_num)).2.1 0
  rw [exPercent_sum] at this
  exact this
example : (Composition.default : Composition ℝ).check = .error .Empty := by
  rw [(C01_check_decision_real _).1, ← sum_eq]
  simp [Composition.sum, Composition.default]
  norm_num
example : (Composition.normalize (Composition.default : Composition ℝ)).2 = .error .Empty := by
  rw [(C04_normalize_atomic_real _).1, ← sum_eq]
  simp [Composition.sum, Composition.default]

/-! ## C42: what `check` does not guarantee -/

/-- C42 refuted, ℝ: an accepted composition can have a negative fraction. -/
theorem C42_negative_fraction_accepted :
    ∃ c : Composition ℝ, c.check = .ok () ∧ ∃ i, c.frac i < 0 := by
  refine ⟨{ Composition.default with methane := 2, nitrogen := -1 }, ?_, 1, ?_⟩
  · rw [C02_accepted_iff_sum_within_one_percent, ← sum_eq]
    simp [Composition.sum, Composition.default]
    norm_num
  · simp [frac]

/-- C42 refuted, ℝ: `Empty` is reported for a composition that is not empty. -/
theorem C42_empty_reported_for_nonempty :
    ∃ c : Composition ℝ, c.check = .error .Empty ∧ ∃ i, c.frac i ≠ 0 := by
  refine ⟨{ Composition.default with methane := 1, nitrogen := -1 }, ?_, 0, ?_⟩
  · rw [(C01_check_decision_real _).1, ← sum_eq]
    simp [Composition.sum, Composition.default]
    norm_num
  · simp [frac]

/-- C42, what holds: if no fraction is negative, `Empty` means that every fraction is below 1e-10,
and acceptance means that every fraction lies in `[0, 1.01]`. Missing for the full C42: the hypothesis is
not checked by the code. -/
theorem C42_accepted_is_physical_partial (c : Composition ℝ) (hc : ∀ i, 0 ≤ c.frac i) :
    (c.check = .error .Empty → ∀ i, c.frac i < 1e-10) ∧
    (c.check = .ok () → ∀ i, c.frac i ≤ 1.01) ∧
    ((∀ i, c.frac i = 0) → c.check = .error .Empty) := by
  have hle : ∀ i, c.frac i ≤ ∑ j, c.frac j := fun i =>
    Finset.single_le_sum (fun j _ => hc j) (Finset.mem_univ i)
  refine ⟨fun h i => ?_, fun h i => ?_, fun h => ?_⟩
  · rw [(C01_check_decision_real c).1] at h
    exact lt_of_le_of_lt (hle i) (lt_of_le_of_lt (le_abs_self _) h)
  · rw [C02_accepted_iff_sum_within_one_percent] at h
    have := (abs_le.1 h).2
    have := hle i
    norm_num at *
    linarith
  · rw [(C01_check_decision_real c).1]
    simp only [h, Finset.sum_const_zero, abs_zero]
    norm_num

example : ∀ i, 0 ≤ exPercent.frac i := by
  intro i
  fin_cases i <;> simp [frac, exPercent, Composition.default]

end Aga8
