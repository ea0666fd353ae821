import Mathlib.Analysis.SpecialFunctions.Pow.Real
import Mathlib.Analysis.SpecialFunctions.Sqrt
import Verif.Lemmas.F64Round

/-! # The square root in the IEEE-754 model is correctly rounded -/

namespace Aga8.F64

open Float.Model Float.Model.UnpackedFloat

theorem rep_sqrt (m : ℕ) :
    Rep (ExtendedMantissa.ofMantissaAndAccuracy (Nat.sqrt m)
      (if m - Nat.sqrt m * Nat.sqrt m = 0 then .exact
        else .inexact (if m - Nat.sqrt m * Nat.sqrt m ≤ Nat.sqrt m then .lt else .gt))) (√(m : ℝ)) := by
  have h1 : Nat.sqrt m * Nat.sqrt m ≤ m := Nat.sqrt_le m
  have h2 : m < (Nat.sqrt m + 1) * (Nat.sqrt m + 1) := Nat.lt_succ_sqrt m
  generalize Nat.sqrt m = r at *
  obtain ⟨q, rfl⟩ := Nat.exists_eq_add_of_le h1
  rw [Nat.add_sub_cancel_left]
  have hr0 : (0 : ℝ) ≤ r := Nat.cast_nonneg _
  have hq0 : (0 : ℝ) ≤ q := Nat.cast_nonneg _
  have hs : √((r * r + q : ℕ) : ℝ) ^ 2 = r * r + q := by
    rw [Real.sq_sqrt (Nat.cast_nonneg _)]; push_cast; ring
  have hs0 := Real.sqrt_nonneg ((r * r + q : ℕ) : ℝ)
  generalize √((r * r + q : ℕ) : ℝ) = y at *
  by_cases h0 : q = 0
  · subst h0
    rw [if_pos rfl]
    show y = r
    push_cast at hs
    nlinarith
  · rw [if_neg h0]
    have hq : (1 : ℝ) ≤ q := by exact_mod_cast Nat.pos_of_ne_zero h0
    have hlt : (q : ℝ) ≤ 2 * r := by
      have : q ≤ 2 * r := by nlinarith
      exact_mod_cast this
    by_cases hc : q ≤ r
    · rw [if_pos hc]
      have hc' : (q : ℝ) ≤ r := by exact_mod_cast hc
      show (r : ℝ) < y ∧ y < r + 1 / 2
      constructor <;> nlinarith
    · rw [if_neg hc]
      have hc' : (r : ℝ) + 1 ≤ q := by exact_mod_cast Nat.lt_of_not_le hc
      show (r : ℝ) + 1 / 2 < y ∧ y < r + 1
      constructor <;> nlinarith

theorem sqrt_eq (m : ℕ) (e : Int) (h : 0 < m) (T : Int) (k : ℕ)
    (hT : min (e.ediv 2) (max ((((m.log2 : Int) + 1 + e) + 1).ediv 2 - 53) (-1074)) = T)
    (hk : (e - 2 * T).toNat = k) :
    UnpackedFloat.sqrt B64 (.finite .positive m e h) =
      roundWithAccuracy B64 .positive (Nat.sqrt (m <<< k)) T
        (if (m <<< k) - Nat.sqrt (m <<< k) * Nat.sqrt (m <<< k) = 0 then .exact
        else .inexact (if (m <<< k) - Nat.sqrt (m <<< k) * Nat.sqrt (m <<< k) ≤ Nat.sqrt (m <<< k) then .lt else .gt)) := by
  subst hk
  subst hT
  rfl

theorem sqrt_core {a : Float} (ha : IsFinite a) (h0 : 0 < toR a) :
    ∀ f, f = UnpackedFloat.sqrt B64 (up a) → Pre f ∧ |val f - √(toR a)| ≤ uu * √(toR a) + eta := by
  have ca := up_canon a
  unfold IsFinite toR at *
  intro f hf
  generalize up a = x at *
  cases x with
  | infinity s => exact ha.elim
  | notANumber => exact ha.elim
  | zero s => exact absurd h0 (lt_irrefl _)
  | finite s m e h =>
    cases s with
    | negative =>
      exfalso
      simp only [val, sg] at h0
      have : (0 : ℝ) < m * 2 ^ e := by positivity
      linarith
    | positive =>
      obtain ⟨T, hT⟩ : ∃ T, min (e.ediv 2) (max ((((m.log2 : Int) + 1 + e) + 1).ediv 2 - 53) (-1074)) = T := ⟨_, rfl⟩
      obtain ⟨k, hk⟩ : ∃ k, (e - 2 * T).toNat = k := ⟨_, rfl⟩
      rw [sqrt_eq m e h T k hT hk] at hf
      have hT2 : min (e / 2) (max ((((m.log2 : Int) + 1 + e) + 1) / 2 - 53) (-1074)) = T := hT
      have hTe : 2 * T ≤ e := by omega
      have hle : T ≤ tgt (Nat.sqrt (m <<< k)) T := by
        by_cases h1 : T ≤ -1074
        · exact le_trans h1 (le_max_right _ _)
        · have h3 : 104 ≤ m.log2 + k := by omega
          have h4 : 2 ^ 52 ≤ Nat.sqrt (m <<< k) := by
            rw [Nat.le_sqrt, Nat.shiftLeft_eq]
            calc 2 ^ 52 * 2 ^ 52 = 2 ^ 104 := by norm_num
              _ ≤ 2 ^ (m.log2 + k) := Nat.pow_le_pow_right (by norm_num) h3
              _ = 2 ^ m.log2 * 2 ^ k := pow_add _ _ _
              _ ≤ m * 2 ^ k := Nat.mul_le_mul_right _ (log2_le h)
          have h5 : 52 ≤ (Nat.sqrt (m <<< k)).log2 := (Nat.le_log2 (by positivity)).2 h4
          unfold tgt; omega
      have := rwa_err .positive (Nat.sqrt (m <<< k)) T _ (rep_sqrt (m <<< k)) hle
      rw [← hf] at this
      have hv2 : √((m <<< k : ℕ) : ℝ) * (2 : ℝ) ^ T = √(val (.finite .positive m e h)) := by
        have hz : (2 : ℝ) ^ e = 2 ^ k * (2 ^ T * 2 ^ T) := by
          rw [← zpow_natCast, ← zpow_add₀ (by norm_num : (2 : ℝ) ≠ 0),
            ← zpow_add₀ (by norm_num : (2 : ℝ) ≠ 0)]
          congr 1; omega
        simp only [val, sg, one_mul]
        rw [Nat.shiftLeft_eq, hz, ← mul_assoc, Real.sqrt_mul (by positivity), Real.sqrt_mul_self (by positivity)]
        push_cast
        rfl
      rw [hv2] at this
      simpa only [sg, one_mul] using this

/-- The square root: relative error `2^-53` plus half the smallest subnormal. -/
theorem sqrt_ok {a : Float} (ha : IsFinite a) (h0 : 0 < toR a) (hv : √(toR a) ≤ 2 ^ 1023) :
    IsFinite a.sqrt ∧ |toR a.sqrt - √(toR a)| ≤ uu * √(toR a) + eta := by
  obtain ⟨h1, h2⟩ := sqrt_core ha h0 _ rfl
  have hs := Real.sqrt_nonneg (toR a)
  obtain ⟨h3, h4⟩ := recode_pre h1 (no_overflow (v := √(toR a)) (by rwa [abs_of_nonneg hs])
    (by rwa [abs_of_nonneg hs]))
  unfold IsFinite toR at *
  rw [up_sqrt, h4]
  exact ⟨h3, h2⟩

end Aga8.F64
