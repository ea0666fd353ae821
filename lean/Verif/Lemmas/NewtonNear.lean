import Verif.Lemmas.Newton

/-! # Densities near the exact solution -/

namespace Aga8.Newton

/-- A density close to the exact solution is in the window, and the logarithm of its pressure differs by the slope times the
difference of the logarithms of the densities. -/
theorem Tame.near {P g' : ℝ → ℝ} {p D0 m ρ d d' : ℝ}
    (T : Tame (fun v => Real.log (P (Real.exp (-v))) - Real.log p) g' (-Real.log D0) m ρ) (h0 : 0 < D0)
    (hd1 : D0 * Real.exp (-ρ) ≤ d) (hd2 : d ≤ D0 * Real.exp ρ) (hp : P d = p) (hd' : 0 < d')
    (he : |Real.log d' - Real.log d| ≤ 0.6 * ρ) :
    D0 * Real.exp (-ρ) ≤ d' ∧ d' ≤ D0 * Real.exp ρ ∧
      ∃ k, m ≤ k ∧ k ≤ 1.4 * m ∧ Real.log (P d') - Real.log p = k * (Real.log d' - Real.log d) := by
  have dp : 0 < d := lt_of_lt_of_le (by positivity) hd1
  have e1 : Real.log (D0 * Real.exp (-ρ)) = Real.log D0 - ρ := by
    rw [Real.log_mul h0.ne' (Real.exp_pos _).ne', Real.log_exp]; ring
  have e2 : Real.log (D0 * Real.exp ρ) = Real.log D0 + ρ := by
    rw [Real.log_mul h0.ne' (Real.exp_pos _).ne', Real.log_exp]
  have l1 := Real.log_le_log (by positivity) hd1
  have l2 := Real.log_le_log dp hd2
  rw [e1] at l1
  rw [e2] at l2
  have hw : |-Real.log d - -Real.log D0| ≤ ρ := by rw [abs_le]; constructor <;> linarith
  have g0 : (fun v => Real.log (P (Real.exp (-v))) - Real.log p) (-Real.log d) = 0 := by
    dsimp only
    rw [neg_neg, Real.exp_log dp, hp, sub_self]
  obtain ⟨w, w1, w2⟩ := T.root
  have r0 := T.rpos
  have ew := T.unique hw (w1.trans (by norm_num; linarith)) g0 w2
  rw [← ew] at w1
  have hv : |-Real.log d' - -Real.log D0| ≤ ρ := by
    rw [abs_le] at w1 he ⊢
    norm_num at w1 he
    constructor <;> linarith
  obtain ⟨k, k1, k2, k3⟩ := T.mvt hv hw
  have E := exp_range h0 hv
  rw [neg_neg, Real.exp_log hd'] at E
  refine ⟨E.1, E.2, k, k1, k2, ?_⟩
  rw [neg_neg, neg_neg, Real.exp_log hd', Real.exp_log dp, hp] at k3
  linarith

/-- A small relative error is a small difference of the logarithms. -/
theorem log_rel {a b e : ℝ} (hb : 0 < b) (h : |a - b| ≤ e * b) (he : e ≤ 1 / 100) : 0 < a ∧ |Real.log a - Real.log b| ≤ 1.1 * e := by
  rw [abs_le] at h
  have e0 : 0 ≤ e := by
    by_contra hh
    rw [not_le] at hh
    have := mul_neg_of_neg_of_pos hh hb
    linarith [h.1, h.2]
  have eb : e * b ≤ 1 / 100 * b := mul_le_mul_of_nonneg_right he hb.le
  have a0 : 0 < a := by linarith [h.1]
  refine ⟨a0, ?_⟩
  rw [← Real.log_div a0.ne' hb.ne']
  have r1 : 1 - e ≤ a / b := by rw [le_div_iff₀ hb]; linarith [h.1]
  have r2 : a / b ≤ 1 + e := by rw [div_le_iff₀ hb]; linarith [h.2]
  have rp : 0 < a / b := div_pos a0 hb
  rw [abs_le]
  constructor
  · have := Real.one_sub_inv_le_log_of_pos rp
    have i1 : (a / b)⁻¹ ≤ (1 - e)⁻¹ := inv_anti₀ (by linarith) r1
    have i2 : (1 - e)⁻¹ ≤ 1 + 1.1 * e := by
      rw [inv_le_iff_one_le_mul₀ (by linarith)]
      norm_num
      nlinarith
    linarith
  · have := Real.log_le_sub_one_of_pos rp
    norm_num
    linarith

end Aga8.Newton
