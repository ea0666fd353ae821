import Verif.Props.F64
import Verif.Lemmas.F64Fin

/-! # Lemmas: order in f64 arithmetic -/

namespace Aga8.F64

open Float.Model Float.Model.UnpackedFloat

theorem fin_of_add {a b : Float} (h : IsFinite (a + b)) : IsFinite a ∧ IsFinite b := by
  unfold IsFinite at *
  rw [up_add] at h
  generalize up a = x at *
  generalize up b = y at *
  cases x with
  | notANumber => cases y <;> exact absurd h (by rw [show UnpackedFloat.add B64 .notANumber _ = .notANumber from rfl, recode_nan]; exact id)
  | infinity s =>
    cases y with
    | notANumber => exact absurd h (by rw [show UnpackedFloat.add B64 (.infinity s) .notANumber = .notANumber from rfl, recode_nan]; exact id)
    | infinity s' =>
      cases s <;> cases s' <;> first
        | exact absurd h (by rw [show UnpackedFloat.add B64 _ _ = .notANumber from rfl, recode_nan]; exact id)
        | exact absurd h (by rw [show UnpackedFloat.add B64 _ _ = .infinity _ from rfl, recode_inf]; exact id)
    | zero s' => exact absurd h (by rw [show UnpackedFloat.add B64 (.infinity s) _ = .infinity s from rfl, recode_inf]; exact id)
    | finite s' m e hm => exact absurd h (by rw [show UnpackedFloat.add B64 (.infinity s) _ = .infinity s from rfl, recode_inf]; exact id)
  | zero s =>
    refine ⟨trivial, ?_⟩
    cases y with
    | notANumber => exact absurd h (by rw [show UnpackedFloat.add B64 _ .notANumber = .notANumber from rfl, recode_nan]; exact id)
    | infinity s' => exact absurd h (by rw [show UnpackedFloat.add B64 _ (.infinity s') = .infinity s' from rfl, recode_inf]; exact id)
    | zero s' => trivial
    | finite s' m e hm => trivial
  | finite s m e hm =>
    refine ⟨trivial, ?_⟩
    cases y with
    | notANumber => exact absurd h (by rw [show UnpackedFloat.add B64 _ .notANumber = .notANumber from rfl, recode_nan]; exact id)
    | infinity s' => exact absurd h (by rw [show UnpackedFloat.add B64 _ (.infinity s') = .infinity s' from rfl, recode_inf]; exact id)
    | zero s' => trivial
    | finite s' m e hm => trivial

theorem fin_of_mul {a b : Float} (h : IsFinite (a * b)) : IsFinite a ∧ IsFinite b := by
  unfold IsFinite at *
  rw [up_mul] at h
  generalize up a = x at *
  generalize up b = y at *
  cases x <;> cases y <;> first
    | exact ⟨trivial, trivial⟩
    | exact absurd h (by rw [show UnpackedFloat.mul B64 _ _ = .notANumber from rfl, recode_nan]; exact id)
    | exact absurd h (by rw [show UnpackedFloat.mul B64 _ _ = .infinity _ from rfl, recode_inf]; exact id)

theorem fin_of_div {a b : Float} (h : IsFinite (a / b)) : IsFinite a := by
  unfold IsFinite at *
  rw [up_div] at h
  generalize up a = x at *
  generalize up b = y at *
  cases x <;> cases y <;> first
    | trivial
    | exact absurd h (by rw [show UnpackedFloat.div B64 _ _ = .notANumber from rfl, recode_nan]; exact id)
    | exact absurd h (by rw [show UnpackedFloat.div B64 _ _ = .infinity _ from rfl, recode_inf]; exact id)

/-- A product of numbers of the same sign is not negative. -/
theorem mul_nonneg_f64 {a b : Float} (ha : IsFinite a) (hb : IsFinite b) (h : 0 ≤ toR a * toR b) : 0 ≤ toR (a * b) := by
  rcases mul_cases ha hb with ⟨-, e⟩ | ⟨⟨s, e⟩, -⟩
  · apply nonneg_of_gt
    rw [abs_of_nonneg h] at e
    have := (abs_le.1 e).1
    have hu : uu ≤ 1 := by rw [uu_eq]; norm_num
    nlinarith
  · unfold toR; rw [e]; exact le_refl _

/-- A product of numbers of different sign is not positive. -/
theorem mul_nonpos_f64 {a b : Float} (ha : IsFinite a) (hb : IsFinite b) (h : toR a * toR b ≤ 0) : toR (a * b) ≤ 0 := by
  rcases mul_cases ha hb with ⟨-, e⟩ | ⟨⟨s, e⟩, -⟩
  · have : 0 ≤ toR (-(a * b)) := by
      apply nonneg_of_gt
      rw [toR_neg]
      rw [abs_of_nonpos h] at e
      have := (abs_le.1 e).2
      have hu : uu ≤ 1 := by rw [uu_eq]; norm_num
      nlinarith
    rw [toR_neg] at this
    linarith
  · unfold toR; rw [e]; exact le_refl _

/-- A quotient of a number that is not negative by a positive one is not negative. -/
theorem div_nonneg_f64 {a b : Float} (ha : IsFinite a) (hb : IsFinite b) (h : 0 ≤ toR a) (h' : 0 < toR b) : 0 ≤ toR (a / b) := by
  have h0 : 0 ≤ toR a / toR b := div_nonneg h h'.le
  rcases div_cases ha hb h'.ne' with ⟨-, e⟩ | ⟨⟨s, e⟩, -⟩
  · apply nonneg_of_gt
    rw [abs_of_nonneg h0] at e
    have := (abs_le.1 e).1
    have hu : uu ≤ 1 := by rw [uu_eq]; norm_num
    nlinarith
  · unfold toR; rw [e]; exact le_refl _

/-- Below a positive f64 there is a gap of at least `2^-53` of it. -/
theorem gap {a r : Float} (h0 : 0 < toR a) (h : toR r < toR a) : uu * toR a ≤ toR a - toR r := by
  have hu : uu ≤ 1 := by rw [uu_eq]; norm_num
  by_cases hr : toR r ≤ 0
  · nlinarith
  have ca := up_canon a
  have cr := up_canon r
  unfold toR at *
  generalize up a = x at *
  generalize up r = y at *
  cases x with
  | notANumber => exact absurd h0 (lt_irrefl _)
  | infinity s => exact absurd h0 (lt_irrefl _)
  | zero s => exact absurd h0 (lt_irrefl _)
  | finite s m e hm =>
    cases y with
    | notANumber => exact absurd (le_refl _) hr
    | infinity s => exact absurd (le_refl _) hr
    | zero s => exact absurd (le_refl _) hr
    | finite s' m' e' hm' =>
      have pos : ∀ {s : Sign} {m : ℕ} {e : Int} {hm : 0 < m}, 0 < val (.finite s m e hm) → val (.finite s m e hm) = m * (2 : ℝ) ^ e :=
        fun {s m e hm} h => by
          cases s
          · have : 0 < (m : ℝ) * (2 : ℝ) ^ e := by positivity
            simp only [val, sg] at h
            linarith
          · simp [val, sg]
      rw [pos h0] at h ⊢
      rw [pos (not_le.1 hr)] at h ⊢
      obtain ⟨a1, a2, a3, a4⟩ := ca
      obtain ⟨b1, b2, b3, b4⟩ := cr
      clear h0 hr
      have z : (0 : ℝ) < 2 ^ e := by positivity
      have hm53 : (m : ℝ) ≤ 2 ^ 53 := by exact_mod_cast a1.le
      have um : uu * m ≤ 1 := by
        rw [uu_eq]
        generalize (m : ℝ) = μ at hm53 ⊢
        norm_num at hm53 ⊢
        linarith
      rcases le_or_gt e e' with le | lt
      · -- both are multiples of `2^e`
        obtain ⟨k, hk⟩ : ∃ k : ℕ, e' = e + k := ⟨(e' - e).toNat, by omega⟩
        have er : (m' : ℝ) * 2 ^ e' = ((m' * 2 ^ k : ℕ) : ℝ) * 2 ^ e := by
          rw [hk, zpow_add₀ (by norm_num : (2 : ℝ) ≠ 0), zpow_natCast]; push_cast; ring
        rw [er] at h ⊢
        have lt' : m' * 2 ^ k < m := by exact_mod_cast lt_of_mul_lt_mul_right h z.le
        have : ((m' * 2 ^ k : ℕ) : ℝ) + 1 ≤ m := by exact_mod_cast lt'
        nlinarith
      · have hm52 : 2 ^ 52 ≤ m := by omega
        have q52 : (2 : ℝ) ^ 52 ≤ m := by exact_mod_cast hm52
        have hr' : (m' : ℝ) * 2 ^ e' ≤ (2 ^ 53 - 1) * 2 ^ (e - 1) := by
          have c1 : (m' : ℝ) ≤ 2 ^ 53 - 1 := by
            have : (m' : ℝ) + 1 ≤ 2 ^ 53 := by exact_mod_cast b1
            linarith
          have c2 : (2 : ℝ) ^ e' ≤ 2 ^ (e - 1) := zpow_le_zpow_right₀ (by norm_num) (by omega)
          exact mul_le_mul c1 c2 (by positivity) (by norm_num)
        have half : (2 : ℝ) ^ (e - 1) = 2 ^ e / 2 := by rw [zpow_sub₀ (by norm_num : (2 : ℝ) ≠ 0), zpow_one]
        rw [half] at hr'
        rw [uu_eq] at um ⊢
        generalize (2 : ℝ) ^ e = E at *
        generalize (m' : ℝ) * 2 ^ e' = R at *
        generalize (m : ℝ) = μ at q52 ⊢
        norm_num at q52 hr' ⊢
        nlinarith

theorem add_zero_f64 {a b : Float} (hb : IsFinite b) (h : toR b = 0) : toR (a + b) = toR a := by
  obtain ⟨s, e⟩ := isZ_of_toR hb h
  have ca := up_canon a
  unfold toR
  rw [up_add, e]
  generalize up a = x at *
  cases x with
  | notANumber => rw [show UnpackedFloat.add B64 .notANumber _ = .notANumber from rfl, recode_nan]
  | infinity s' => rw [show UnpackedFloat.add B64 (.infinity s') (.zero s) = .infinity s' from rfl, recode_inf]
  | zero s' => cases s <;> cases s' <;> rw [show UnpackedFloat.add B64 _ _ = .zero _ from rfl, recode_zero]; all_goals rfl
  | finite s' m e hm => rw [show UnpackedFloat.add B64 (.finite s' m e hm) (.zero s) = .finite s' m e hm from rfl, recode_canon ca]

/-- Adding a number that is not negative to a positive one does not make it smaller, whatever the rounding does. -/
theorem le_add_f64 {a b : Float} (h : IsFinite (a + b)) (h0 : 0 < toR a) (hb : 0 ≤ toR b) : toR a ≤ toR (a + b) := by
  obtain ⟨fa, fb⟩ := fin_of_add h
  rcases hb.eq_or_lt with e | hb
  · rw [add_zero_f64 fb e.symm]
  rcases add_cases fa fb with ⟨-, e⟩ | ⟨⟨s, e⟩, -⟩
  · by_contra hc
    have g := gap h0 (not_le.1 hc)
    rw [abs_of_pos (add_pos h0 hb)] at e
    have := (abs_le.1 e).1
    have hu : uu ≤ 1 / 2 := by rw [uu_eq]; norm_num
    nlinarith
  · unfold IsFinite at h; rw [e] at h; exact h.elim

end Aga8.F64
