import Verif.Lemmas.F64ApLib
import Verif.Lemmas.F64ApLit

/-! # Rounding-error rules: logarithm, exponential with known range -/

namespace Aga8.F64

namespace Ap

variable {a : Float} {α m : ℝ} {k l h : ℕ} [Libm]

theorem ln (hN : LnAccurate) (A : Ap a α α k l h) (hα : 0 < α) (hk : k ≤ KMax := by norm_num)
    (hl : l ≤ 730 := by norm_num) (hh : h ≤ 730 := by norm_num) :
    Ap (Libm.ln a) (Real.log α) (1 + |Real.log α|) (k + 4) 0 9 := by
  obtain ⟨ha1, ha2, ha0⟩ := A.rel_bounds hα hk
  obtain ⟨hA1, hA2⟩ := A.pos_bounds hα
  have hu := uu_pos
  have hK := uu28 hk
  have hK0 : 0 ≤ (k : ℝ) * uu := by positivity
  have hlog := A.log_close hα hk
  have hX : (1 : ℝ) ≤ 2 ^ 730 := one_le_pow₀ (by norm_num)
  have e900 : (2 : ℝ) ^ 900 = 2 ^ 730 * 2 ^ 170 := by rw [← pow_add]
  have h4 : (4 : ℝ) ≤ 2 ^ 170 := by
    calc (4 : ℝ) = 2 ^ 2 := by norm_num
      _ ≤ 2 ^ 170 := by gcongr <;> norm_num
  have r1 : 1 ≤ 2 ^ 730 * α := hA1.trans (by gcongr; norm_num)
  have r2 : α ≤ 2 ^ 730 := hA2.trans (by gcongr; norm_num)
  have hb1 : 1 / 2 * α ≤ toR a := by
    norm_num at hK
    nlinarith
  have hb2 : toR a ≤ 2 * α := by
    norm_num at hK
    nlinarith
  obtain ⟨hf, he⟩ := hN.ln a A.fin (by
      rw [div_le_iff₀ (by positivity), e900]
      generalize (2 : ℝ) ^ 730 = X at *
      generalize (2 : ℝ) ^ 170 = Y at *
      have t1 : 1 / 2 ≤ toR a * X := by nlinarith
      have t2 : 1 / 2 * 4 ≤ toR a * X * Y := mul_le_mul t1 h4 (by norm_num) (by linarith)
      linarith) (by
      rw [e900]
      generalize (2 : ℝ) ^ 730 = X at *
      generalize (2 : ℝ) ^ 170 = Y at *
      have t2 : X * 4 ≤ X * Y := mul_le_mul_of_nonneg_left h4 (by linarith)
      linarith)
  have e52 : (1 : ℝ) / 2 ^ 52 = 2 * uu := by rw [uu_eq]; norm_num
  rw [e52] at he
  have hs := kk_small (k := k) (k' := 1) hk (by norm_num)
  have h0 := abs_nonneg (Real.log α)
  have h5 : |Real.log (toR a)| ≤ |Real.log α| + (k + 1) * uu := by
    have := abs_add_le (Real.log (toR a) - Real.log α) (Real.log α)
    rw [sub_add_cancel] at this
    linarith
  have hlb := log_bound hα hA1 hA2
  refine ⟨hf, by linarith, ?_, Or.inr ⟨by norm_num, ?_⟩⟩
  · have h6 := abs_add_le (toR (Libm.ln a) - Real.log (toR a)) (Real.log (toR a) - Real.log α)
    rw [sub_add_sub_cancel] at h6
    have hu8 : uu ≤ 1 / 8 := by rw [uu_eq]; norm_num
    have hk1 : ((k : ℝ) + 1) * uu ≤ 1 / 2 := by norm_num at hK; linarith
    push_cast
    have h7 : 2 * uu * (1 + |Real.log (toR a)|) ≤ 2 * uu * (1 + (|Real.log α| + 1 / 2)) :=
      mul_le_mul_of_nonneg_left (by linarith) (by linarith)
    have h8 : 0 ≤ (k : ℝ) * uu * |Real.log α| := by positivity
    have h9 : 0 ≤ uu * |Real.log α| := by positivity
    nlinarith
  · have h3 : ((max l h : ℕ) : ℝ) ≤ 730 := by exact_mod_cast (show max l h ≤ 730 by omega)
    have h4 : Real.log 2 ≤ 7 / 10 := by linarith [Real.log_two_lt_d9]
    have h5 : 0 < Real.log 2 := Real.log_pos (by norm_num)
    have h6 : ((max l h : ℕ) : ℝ) * Real.log 2 ≤ 730 * (7 / 10) := by gcongr
    norm_num
    linarith

/-- `exp` with the range of the result given. -/
theorem expR (hL : LibmAccurate) (A : Ap a α m k l h) (M : ℕ) (hM : m ≤ M) {l' h' : ℕ}
    (hr : 1 ≤ 2 ^ l' * Real.exp α ∧ Real.exp α ≤ 2 ^ h') (hM' : M ≤ 500 := by norm_num) (hk : k * M ≤ KMax := by norm_num) :
    Ap (Libm.exp a) (Real.exp α) (Real.exp α) (k * M + 3) l' h' :=
  have := A.exp hL M hM hM' hk
  ⟨this.fin, this.mag, this.err, Or.inr hr⟩

end Ap

theorem idealLibm_ln : @LnAccurate idealLibm := by
  refine @LnAccurate.mk idealLibm ?_
  intro a _ h1 h2
  have hp : 0 < toR a := lt_of_lt_of_le (by positivity) h1
  set v := Real.log (toR a) with hv
  have h0 := abs_nonneg v
  by_cases hs : 1 / 2 ^ 900 ≤ |v|
  · have hb := log_bound (l := 900) (h := 900) hp (by rw [mul_comm]; rwa [div_le_iff₀ (by positivity)] at h1) h2
    have h3 := log_lt_one
    have h4 : |v| ≤ 2 ^ 900 := by
      have h5 : |v| ≤ 900 := by
        have : ((max 900 900 : ℕ) : ℝ) = 900 := by norm_num
        rw [this] at hb
        linarith
      have h6 : (900 : ℝ) ≤ 2 ^ 10 := by norm_num
      have h7 : (2 : ℝ) ^ 10 ≤ 2 ^ 900 := by gcongr <;> norm_num
      exact h5.trans (h6.trans h7)
    have := nearest_ok (y := v) (Or.inr ⟨hs, h4⟩)
    refine ⟨this.1, this.2.trans ?_⟩
    have : (0 : ℝ) < 1 / 2 ^ 52 := by positivity
    nlinarith
  · have hsm : (1 : ℝ) / 2 ^ 900 ≤ 1 / 2 ^ 52 := by
      apply one_div_le_one_div_of_le (by positivity)
      gcongr <;> norm_num
    have hpos : (0 : ℝ) < 1 / 2 ^ 52 := by positivity
    show IsFinite (nearest v) ∧ |toR (nearest v) - v| ≤ _
    unfold nearest
    split
    · next h =>
      refine ⟨h.choose_spec.1, h.choose_spec.2.trans ?_⟩
      nlinarith
    · refine ⟨show IsFin (recode _) from trivial, ?_⟩
      rw [show toR zeroF = 0 from rfl, zero_sub, abs_neg]
      have : |v| < 1 / 2 ^ 52 := (not_le.1 hs).trans_le hsm
      nlinarith

end Aga8.F64
