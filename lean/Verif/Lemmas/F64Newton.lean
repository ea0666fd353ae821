import Verif.Lemmas.F64ApLn
import Verif.Lemmas.F64Fin

/-! # A Newton step of the density search in f64 -/

set_option linter.unusedSectionVars false

namespace Aga8.F64

open Float.Model

/-- `<=` on finite numbers is `≤` of their values. -/
theorem le_toR {a b : Float} (ha : IsFinite a) (hb : IsFinite b) : a ≤ b ↔ toR a ≤ toR b := by
  have ca := up_canon a
  have cb := up_canon b
  rw [le_iff]
  unfold IsFinite toR at *
  generalize up a = x at *
  generalize up b = y at *
  unfold UnpackedFloat.le
  cases x with
  | infinity s => exact ha.elim
  | notANumber => exact ha.elim
  | zero s =>
    cases y with
    | infinity s => exact hb.elim
    | notANumber => exact hb.elim
    | zero s' => simp [val, UnpackedFloat.compare]
    | finite s' m e h =>
      have := val_nonneg_pos m e h
      cases s'
      · simp [val, UnpackedFloat.compare, sg, this]
      · simp [val, UnpackedFloat.compare, sg, this.le]
  | finite s m e h =>
    have hp := val_nonneg_pos m e h
    cases y with
    | infinity s => exact hb.elim
    | notANumber => exact hb.elim
    | zero s' =>
      cases s
      · simp [val, UnpackedFloat.compare, sg, hp.le]
      · simp [val, UnpackedFloat.compare, sg, hp]
    | finite s' m' e' h' =>
      have hp' := val_nonneg_pos m' e' h'
      have hc := mag_cmp ca cb
      have key : ∀ o : Ordering, o.isLE = true ↔ ¬ o = .gt := by decide
      cases s <;> cases s' <;> simp only [val, UnpackedFloat.compare, sg, Option.any_some, key]
      · rw [Ordering.swap_eq_gt, hc.1, neg_one_mul, neg_one_mul, neg_le_neg_iff, not_lt]
      · simp only [reduceCtorEq, not_false_eq_true, true_iff]; linarith
      · simp only [not_true_eq_false, false_iff, not_le]; linarith
      · rw [hc.2, one_mul, one_mul, not_lt]

/-- Division by a negative number. -/
theorem Ap.divNeg {a b : Float} {α m β : ℝ} {k l h k' l' h' : ℕ} (A : Ap a α m k l h) (fb : IsFinite b)
    (B : Ap (-b) β β k' l' h') (hβ : 0 < β)
    (hk : k ≤ KMax := by norm_num) (hk' : k' ≤ KMax := by norm_num) (hl : l + h' ≤ 1000 := by norm_num)
    (hh : h + l' ≤ 1000 := by norm_num) : IsFinite (a / b) ∧ |toR (a / b) + α / β| ≤ (k + k' + 5 : ℕ) * uu * (m / β) ∨ m = 0 := by
  by_cases hm : m = 0
  · exact Or.inr hm
  left
  have D := A.div B hβ hk hk' hl hh
  obtain ⟨hb1, hb2, hb0⟩ := B.rel_bounds hβ hk'
  have hu := uu_pos
  have nb : toR (-b) = -toR b := toR_neg b
  have hK' := uu28 hk'
  have m0 := A.nonneg
  have hq0 : 0 ≤ m / β := by positivity
  have hab : |toR a / toR (-b)| ≤ 5 / 4 * (m / β) := by
    have hinv : 1 / toR (-b) ≤ (1 + 2 * (k' * uu)) / β := by
      rw [div_le_div_iff₀ hb0 hβ]
      have hK'0 : 0 ≤ (k' : ℝ) * uu := by positivity
      have : (1 : ℝ) ≤ (1 + 2 * (k' * uu)) * (1 - k' * uu) := by nlinarith
      nlinarith
    rw [abs_div, abs_of_pos hb0, div_eq_mul_one_div]
    calc |toR a| * (1 / toR (-b)) ≤ (1 + 1 / 2 ^ 28) * m * ((1 + 2 * (k' * uu)) / β) :=
          mul_le_mul (A.le_two hk) hinv (by positivity) (by positivity)
      _ = ((1 + 1 / 2 ^ 28) * (1 + 2 * (k' * uu))) * (m / β) := by ring
      _ ≤ 5 / 4 * (m / β) := by
        refine mul_le_mul_of_nonneg_right ?_ hq0
        norm_num at hK' ⊢
        nlinarith
  have hr : 1 ≤ 2 ^ (l + h') * (m / β) ∧ m / β ≤ 2 ^ (h + l') := by
    rcases D.rng with h | h
    · exfalso
      rw [div_eq_zero_iff] at h
      rcases h with h | h
      · exact hm h
      · exact hβ.ne' h
    · exact h
  have het := eta_small hr.1 hl
  have hov : |toR a / toR (-b)| ≤ 2 ^ 1023 := by
    refine hab.trans (le_trans ?_ (pow_le_1022 hr.2 (by omega)))
    linarith
  have e2 : toR a / toR b = -(toR a / toR (-b)) := by rw [nb, div_neg, neg_neg]
  obtain ⟨-, g2⟩ := div_ok A.fin B.fin hb0.ne' hov
  obtain ⟨f1, f2⟩ := div_ok A.fin fb (by rw [nb] at hb0; intro h; rw [h] at hb0; simp at hb0) (by rw [e2, abs_neg]; exact hov)
  refine ⟨f1, ?_⟩
  rw [e2, abs_neg] at f2
  have h3 := D.err
  have t1 : toR (a / b) + α / β = ((toR (a / b) - -(toR a / toR (-b))) + (toR (a / -b) - toR a / toR (-b)))
      - (toR (a / -b) - α / β) := by ring
  rw [t1]
  refine (abs_sub _ _).trans ?_
  have t2 := abs_add_le (toR (a / b) - -(toR a / toR (-b))) (toR (a / -b) - toR a / toR (-b))
  have h5 : uu * |toR a / toR (-b)| ≤ uu * (5 / 4 * (m / β)) := mul_le_mul_of_nonneg_left hab hu.le
  have h6 : 0 ≤ uu * (m / β) := by positivity
  push_cast at h3 ⊢
  nlinarith

variable [Libm]

/-- The Newton correction of the logarithm of the volume. -/
theorem newton_w (hN : LnAccurate) {p p1 dp e : Float} (fp : IsFinite p) (hp : 1 ≤ 2 ^ 60 * toR p ∧ toR p ≤ 2 ^ 60)
    (f1 : IsFinite p1) (h1 : 1 ≤ 2 ^ 60 * toR p1 ∧ toR p1 ≤ 2 ^ 720) (fd : IsFinite dp)
    (hd : 1 ≤ 2 ^ 60 * toR dp ∧ toR dp ≤ 2 ^ 720) (fe : IsFinite e) (he : 1 ≤ 2 ^ 20 * toR e ∧ toR e ≤ 2 ^ 11) :
    IsFinite ((FOps.ln p1 - FOps.ln p) * p1 / (-e * dp)) ∧
      |toR ((FOps.ln p1 - FOps.ln p) * p1 / (-e * dp)) + (Real.log (toR p1) - Real.log (toR p)) * toR p1 / (toR e * toR dp)|
        ≤ 1e-12 * (toR p1 / (toR e * toR dp)) := by
  have p0 : 0 < toR p := by by_contra h; have := mul_nonneg (by positivity : (0 : ℝ) ≤ 2 ^ 60) (sub_nonneg.2 (not_lt.1 h)); linarith [hp.1]
  have p10 : 0 < toR p1 := by by_contra h; have := mul_nonneg (by positivity : (0 : ℝ) ≤ 2 ^ 60) (sub_nonneg.2 (not_lt.1 h)); linarith [h1.1]
  have d0 : 0 < toR dp := by by_contra h; have := mul_nonneg (by positivity : (0 : ℝ) ≤ 2 ^ 60) (sub_nonneg.2 (not_lt.1 h)); linarith [hd.1]
  have e0 : 0 < toR e := by by_contra h; have := mul_nonneg (by positivity : (0 : ℝ) ≤ 2 ^ 20) (sub_nonneg.2 (not_lt.1 h)); linarith [he.1]
  have ex : ∀ {a : Float} {l h : ℕ}, IsFinite a → 0 < toR a → 1 ≤ 2 ^ l * toR a ∧ toR a ≤ 2 ^ h → Ap a (toR a) (toR a) 0 l h := by
    intro a l h fa a0 ha
    have := Ap.exact (l := l) (h := h) fa (Or.inr (by rw [abs_of_pos a0]; exact ha))
    rwa [abs_of_pos a0] at this
  have P := ex fp p0 hp
  have P1 := ex f1 p10 h1
  have D := ex fd d0 hd
  have E := ex fe e0 he
  have L := ((P1.ln hN p10).sub (P.ln hN p0)).weak (k' := 6) (l' := 0) (h' := 10) (by norm_num) (by norm_num) (by norm_num)
  have Nn := (L.mul P1).weak (k' := 8) (l' := 60) (h' := 730) (by norm_num) (by norm_num) (by norm_num)
  have B := (E.neg.mul D).weak (k' := 2) (l' := 80) (h' := 731) (by norm_num) (by norm_num) (by norm_num)
  have Bn := B.neg
  rw [neg_mul, neg_neg] at Bn
  have lg : ∀ {x : ℝ} {k : ℕ}, 60 ≤ k → 0 < x → 1 ≤ 2 ^ 60 * x ∧ x ≤ 2 ^ k → |Real.log x| ≤ 0.6932 * k := by
    intro x k hk x0 hx
    have l2 : Real.log 2 ≤ 0.6932 := by linarith [Real.log_two_lt_d9]
    have hk' : (60 : ℝ) ≤ k := by exact_mod_cast hk
    have u : Real.log x ≤ k * Real.log 2 := by
      have := Real.log_le_log x0 hx.2
      rwa [Real.log_pow] at this
    have v : -(60 * Real.log 2) ≤ Real.log x := by
      have := Real.log_le_log one_pos hx.1
      rw [Real.log_one, Real.log_mul (by positivity) x0.ne', Real.log_pow] at this
      push_cast at this
      linarith
    have w := mul_le_mul_of_nonneg_left l2 (by linarith : (0 : ℝ) ≤ k)
    rw [abs_le]
    norm_num at l2 w ⊢
    constructor <;> linarith
  have g1 := lg (by norm_num) p10 h1
  have g2 := lg (by norm_num) p0 hp
  have hβ : 0 < toR e * toR dp := by positivity
  have hm : (1 + |Real.log (toR p1)| + (1 + |Real.log (toR p)|)) * toR p1 ≠ 0 := by positivity
  rcases Ap.divNeg Nn B.fin Bn hβ with h | h
  · refine ⟨h.1, h.2.trans ?_⟩
    have q0 : 0 ≤ toR p1 / (toR e * toR dp) := by positivity
    rw [mul_div_assoc (1 + |Real.log (toR p1)| + (1 + |Real.log (toR p)|)), ← mul_assoc]
    refine mul_le_mul_of_nonneg_right ?_ q0
    rw [uu_eq]
    norm_num at g1 g2 ⊢
    linarith
  · exact absurd h hm

/-- `exp` of minus a logarithm of a volume. -/
theorem exp_neg (hL : LibmAccurate) {v : Float} (fv : IsFinite v) (hv : |toR v| ≤ 200) :
    IsFinite (FOps.exp (-v) : Float) ∧ 0 < toR (FOps.exp (-v) : Float) ∧ |Real.log (toR (FOps.exp (-v) : Float)) + toR v| ≤ 1e-15 := by
  obtain ⟨h1, h2⟩ := hL.exp (-v) (fin_neg fv) (by rw [toR_neg, abs_neg]; linarith)
  rw [toR_neg] at h2
  have he := Real.exp_pos (-toR v)
  obtain ⟨a, b⟩ := abs_le.1 h2
  have l : (1 - 1 / 2 ^ 52) * Real.exp (-toR v) ≤ toR (Libm.exp (-v)) := by linarith
  have u : toR (Libm.exp (-v)) ≤ (1 + 1 / 2 ^ 52) * Real.exp (-toR v) := by linarith
  have p : 0 < toR (Libm.exp (-v)) := lt_of_lt_of_le (by norm_num; positivity) l
  refine ⟨h1, p, ?_⟩
  show |Real.log (toR (Libm.exp (-v))) + toR v| ≤ 1e-15
  have e : Real.log (toR (Libm.exp (-v))) + toR v = Real.log (toR (Libm.exp (-v)) / Real.exp (-toR v)) := by
    rw [Real.log_div p.ne' he.ne', Real.log_exp]; ring
  have r1 : 1 - 1 / 2 ^ 52 ≤ toR (Libm.exp (-v)) / Real.exp (-toR v) := by rwa [le_div_iff₀ he]
  have r2 : toR (Libm.exp (-v)) / Real.exp (-toR v) ≤ 1 + 1 / 2 ^ 52 := by rwa [div_le_iff₀ he]
  rw [e]
  set r := toR (Libm.exp (-v)) / Real.exp (-toR v) with hr
  have r0 : 0 < r := by positivity
  have u1 := Real.log_le_sub_one_of_pos r0
  have u2 := Real.one_sub_inv_le_log_of_pos r0
  have u3 : r⁻¹ ≤ 1 + 2 / 2 ^ 52 := by
    rw [inv_le_iff_one_le_mul₀ r0]
    norm_num at r1 ⊢
    linarith
  rw [abs_le]
  norm_num at r2 u3 ⊢
  constructor <;> linarith

/-- The exact Newton step and the computed one. -/
theorem exp_step (hL : LibmAccurate) {v w u : Float} (fv : IsFinite v) (hv : |toR v| ≤ 150) (fw : IsFinite w) (hw : |toR w| ≤ 2)
    (hu : u = v - w ∨ u = v + -w) :
    IsFinite u ∧ |toR u - (toR v - toR w)| ≤ 2e-14 ∧ IsFinite (FOps.exp (-u) : Float) ∧ 0 < toR (FOps.exp (-u) : Float) ∧
      |Real.log (toR (FOps.exp (-u) : Float)) - (-toR v + toR w)| ≤ 3e-14 := by
  have b : |toR v - toR w| ≤ 152 := (abs_sub _ _).trans (by linarith)
  have ov : |toR v - toR w| ≤ 2 ^ 1023 := b.trans ((by norm_num : (152 : ℝ) ≤ 2 ^ 8).trans
    (pow_le_pow_right₀ (by norm_num) (by norm_num)))
  have hk : IsFinite u ∧ |toR u - (toR v - toR w)| ≤ uu * |toR v - toR w| := by
    rcases hu with rfl | rfl
    · exact sub_ok fv fw ov
    · have := add_ok fv (fin_neg fw) (by rw [toR_neg, ← sub_eq_add_neg]; exact ov)
      rwa [toR_neg, ← sub_eq_add_neg] at this
  have h1 : |toR u - (toR v - toR w)| ≤ 2e-14 := by
    refine hk.2.trans ?_
    rw [uu_eq]
    norm_num
    linarith
  have h2 : |toR u| ≤ 200 := by
    have := abs_add_le (toR u - (toR v - toR w)) (toR v - toR w)
    rw [sub_add_cancel] at this
    norm_num at h1
    linarith
  obtain ⟨g1, g2, g3⟩ := exp_neg hL hk.1 h2
  refine ⟨hk.1, h1, g1, g2, ?_⟩
  have e : Real.log (toR (FOps.exp (-u) : Float)) - (-toR v + toR w)
      = (Real.log (toR (FOps.exp (-u) : Float)) + toR u) - (toR u - (toR v - toR w)) := by ring
  rw [e]
  refine (abs_sub _ _).trans ?_
  norm_num at h1 g3 ⊢
  linarith

end Aga8.F64
