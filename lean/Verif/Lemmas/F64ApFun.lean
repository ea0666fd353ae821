import Mathlib.Analysis.SpecialFunctions.Log.Basic
import Mathlib.Analysis.SpecialFunctions.Exp
import Mathlib.Analysis.Complex.ExponentialBounds
import Mathlib.Tactic.FieldSimp
import Verif.Lemmas.F64Ap
import Verif.Spec.F64Accuracy

/-! # Rounding-error rules: division, square root and library functions -/

namespace Aga8.F64

namespace Ap

variable {a b : Float} {α β m m' : ℝ} {k k' l l' h h' : ℕ}

theorem pos_bounds (B : Ap b β β k' l' h') (hβ : 0 < β) : 1 ≤ 2 ^ l' * β ∧ β ≤ 2 ^ h' :=
  B.rng.resolve_left hβ.ne'

/-- The float of a positive number known with small relative error is close to it. -/
theorem rel_bounds (B : Ap b β β k' l' h') (hβ : 0 < β) (hk' : k' ≤ KMax) :
    (1 - k' * uu) * β ≤ toR b ∧ toR b ≤ (1 + k' * uu) * β ∧ 0 < toR b := by
  have h1 := abs_le.1 B.err
  have h2 := uu28 hk'
  have h3 : (1 / 2 : ℝ) * β ≤ (1 - k' * uu) * β := by
    refine mul_le_mul_of_nonneg_right ?_ hβ.le
    norm_num at h2; linarith
  refine ⟨by linarith, by linarith, by linarith⟩

theorem div (A : Ap a α m k l h) (B : Ap b β β k' l' h') (hβ : 0 < β) (hk : k ≤ KMax := by norm_num)
    (hk' : k' ≤ KMax := by norm_num) (hl : l + h' ≤ 1000 := by norm_num) (hh : h + l' ≤ 1000 := by norm_num) :
    Ap (a / b) (α / β) (m / β) (k + k' + 2) (l + h') (h + l') := by
  have m0 := A.nonneg
  have hu := uu_pos
  obtain ⟨hb1, hb2, hb0⟩ := B.rel_bounds hβ hk'
  obtain ⟨hB1, hB2⟩ := B.pos_bounds hβ
  have hK' := uu28 hk'
  have hK'0 : 0 ≤ (k' : ℝ) * uu := by positivity
  have hinv : 1 / toR b ≤ (1 + 2 * (k' * uu)) / β := by
    rw [div_le_div_iff₀ hb0 hβ]
    have : (1 : ℝ) ≤ (1 + 2 * (k' * uu)) * (1 - k' * uu) := by nlinarith
    nlinarith
  have hq : m / β ≤ 2 ^ (h + l') := by
    rcases A.rng with hz | ⟨_, hA⟩
    · rw [hz, zero_div]; positivity
    · rw [div_le_iff₀ hβ, pow_add]
      calc m ≤ 2 ^ h * 1 := by linarith
        _ ≤ 2 ^ h * (2 ^ l' * β) := by gcongr
        _ = _ := by ring
  have hq0 : 0 ≤ m / β := by positivity
  have hab : |toR a / toR b| ≤ 5 / 4 * (m / β) := by
    rw [abs_div, abs_of_pos hb0, div_eq_mul_one_div]
    calc |toR a| * (1 / toR b) ≤ (1 + 1 / 2 ^ 28) * m * ((1 + 2 * (k' * uu)) / β) :=
          mul_le_mul (A.le_two hk) hinv (by positivity) (by positivity)
      _ = ((1 + 1 / 2 ^ 28) * (1 + 2 * (k' * uu))) * (m / β) := by ring
      _ ≤ 5 / 4 * (m / β) := by
        refine mul_le_mul_of_nonneg_right ?_ hq0
        norm_num at hK' ⊢
        nlinarith
  have hov : |toR a / toR b| ≤ 2 ^ 1023 := by
    refine hab.trans (le_trans ?_ (pow_le_1022 hq (by omega)))
    linarith
  obtain ⟨hf, he⟩ := div_ok A.fin B.fin hb0.ne' hov
  have hmag : |α / β| ≤ m / β := by
    rw [abs_div, abs_of_pos hβ]; exact div_le_div_of_nonneg_right A.mag hβ.le
  rcases A.rng with hz | ⟨hA1, hA2⟩
  · refine ⟨hf, hmag, ?_, Or.inl (by rw [hz, zero_div])⟩
    obtain ⟨z1, z2⟩ := A.zero hz
    rw [hz, zero_div, mul_zero, z2, zero_div, toR_zero_of_zn (zn_div (Or.inl (isZ_of_toR A.fin z1)) b)]
    simp
  · have hlow : 1 ≤ 2 ^ (l + h') * (m / β) := by
      rw [pow_add, mul_div_assoc', le_div_iff₀ hβ]
      calc 1 * β ≤ 1 * 2 ^ h' := by linarith
        _ ≤ (2 ^ l * m) * 2 ^ h' := by gcongr
        _ = _ := by ring
    refine ⟨hf, hmag, ?_, Or.inr ⟨hlow, hq⟩⟩
    have het := eta_small hlow hl
    have h1 : |toR a / toR b - α / β| ≤ (k * uu + k' * uu + uu / 2) * (m / β) := by
      have e1 : toR a / toR b - α / β = ((toR a - α) + α * ((β - toR b) / β)) * (1 / toR b) := by
        field_simp; ring
      rw [e1, abs_mul, abs_of_pos (by positivity : 0 < 1 / toR b)]
      have t2 : |α * ((β - toR b) / β)| ≤ m * (k' * uu) := by
        rw [abs_mul, abs_div, abs_of_pos hβ, abs_sub_comm]
        refine mul_le_mul A.mag ?_ (by positivity) m0
        rw [div_le_iff₀ hβ]; exact B.err
      have t3 : |(toR a - α) + α * ((β - toR b) / β)| ≤ (k * uu + k' * uu) * m := by
        refine (abs_add_le _ _).trans ?_
        have := A.err
        linarith
      refine (mul_le_mul t3 hinv (by positivity) (by positivity)).trans ?_
      have s1 := kk_small hk' hk
      have s2 := kk_small hk' hk'
      calc (k * uu + k' * uu) * m * ((1 + 2 * (k' * uu)) / β)
          = (k * uu + k' * uu + (2 * (k' * uu * (k * uu)) + 2 * (k' * uu * (k' * uu)))) * (m / β) := by ring
        _ ≤ _ := by
          refine mul_le_mul_of_nonneg_right ?_ hq0
          linarith
    have h2 := abs_add_le (toR (a / b) - toR a / toR b) (toR a / toR b - α / β)
    rw [sub_add_sub_cancel] at h2
    have h5 : uu * |toR a / toR b| ≤ uu * (5 / 4 * (m / β)) := mul_le_mul_of_nonneg_left hab hu.le
    have h6 : 0 ≤ uu * (m / β) := by positivity
    push_cast
    nlinarith

theorem sqrt (A : Ap a α α k l h) (hα : 0 < α) (hk : k ≤ KMax := by norm_num)
    (hl : l ≤ 1000 := by norm_num) (hh : h ≤ 1000 := by norm_num) :
    Ap a.sqrt (√α) (√α) (k + 2) l h := by
  have hu := uu_pos
  obtain ⟨ha1, ha2, ha0⟩ := A.rel_bounds hα hk
  obtain ⟨hA1, hA2⟩ := A.pos_bounds hα
  have hs : 0 < √α := Real.sqrt_pos.2 hα
  have hs2 := Real.sq_sqrt hα.le
  have p1 : (1 : ℝ) ≤ 2 ^ h := one_le_pow₀ (by norm_num)
  have p2 : (1 : ℝ) ≤ 2 ^ l := one_le_pow₀ (by norm_num)
  have hup : √α ≤ 2 ^ h := by
    rcases le_or_gt (√α) 1 with h1 | h1
    · exact h1.trans p1
    · nlinarith
  have hlow : 1 ≤ 2 ^ l * √α := by
    rcases le_or_gt (√α) 1 with h1 | h1
    · have : α ≤ √α := by nlinarith
      exact hA1.trans (by gcongr)
    · nlinarith
  have hK := uu28 hk
  have hK0 : 0 ≤ (k : ℝ) * uu := by positivity
  have hd : |√(toR a) - √α| ≤ k * uu * √α := by
    have hsa := Real.sqrt_nonneg (toR a)
    have hsa2 := Real.sq_sqrt ha0.le
    have e1 : (√(toR a) - √α) * (√(toR a) + √α) = toR a - α := by nlinarith
    have e2 := A.err
    rw [← e1, abs_mul, abs_of_pos (by positivity : 0 < √(toR a) + √α)] at e2
    have h3 : |√(toR a) - √α| * √α ≤ k * uu * √α * √α := by
      have : |√(toR a) - √α| * √α ≤ |√(toR a) - √α| * (√(toR a) + √α) := by
        refine mul_le_mul_of_nonneg_left (by linarith) (abs_nonneg _)
      nlinarith
    exact le_of_mul_le_mul_right h3 hs
  have hsl : √(toR a) ≤ 5 / 4 * √α := by
    have := (abs_le.1 hd).2
    norm_num at hK
    nlinarith
  obtain ⟨hf, he⟩ := sqrt_ok A.fin ha0 ((hsl.trans (by linarith)).trans (pow_le_1022 hup (by omega)))
  refine ⟨hf, by rw [abs_of_pos hs], ?_, Or.inr ⟨hlow, hup⟩⟩
  have het := eta_small hlow hl
  have h2 := abs_add_le (toR a.sqrt - √(toR a)) (√(toR a) - √α)
  rw [sub_add_sub_cancel] at h2
  have h5 : uu * √(toR a) ≤ uu * (5 / 4 * √α) := mul_le_mul_of_nonneg_left hsl hu.le
  have h6 : 0 ≤ uu * √α := by positivity
  push_cast
  nlinarith

end Ap

/-! ## Exponentials -/

theorem exp_close {τ : ℝ} {t : ℕ} (ht : t ≤ KMax) (h : |τ| ≤ t * uu) : |Real.exp τ - 1| ≤ (t + 1 / 4) * uu := by
  have h1 := uu28 ht
  have h2 := kk_small ht ht
  have h3 := Real.abs_exp_sub_one_sub_id_le (x := τ) (by norm_num at h1; linarith)
  have h4 : τ ^ 2 ≤ uu / 8 := by
    rw [← sq_abs]
    have := abs_nonneg τ
    nlinarith
  have h5 := abs_add_le (Real.exp τ - 1 - τ) τ
  rw [sub_add_cancel] at h5
  have := uu_pos
  linarith

/-- A library result within `2^-52` of an exact value that is itself close to `v`. -/
theorem lib_close {r e v : ℝ} {t : ℕ} (ht : t ≤ KMax) (hv : 0 ≤ v) (h1 : |e - v| ≤ (t + 1 / 4) * uu * v)
    (h2 : |r - e| ≤ 1 / 2 ^ 52 * e) : |r - v| ≤ (t + 3 : ℕ) * uu * v := by
  have hu := uu_pos
  have h3 := abs_add_le (r - e) (e - v)
  rw [sub_add_sub_cancel] at h3
  have h4 := (abs_le.1 h1).2
  have h5 := uu28 ht
  have h6 : (t + 1 / 4) * uu ≤ 1 / 4 := by
    have : uu ≤ 1 / 4 := by rw [uu_eq]; norm_num
    norm_num at h5
    nlinarith
  have h7 : (t + 1 / 4) * uu * v ≤ 1 / 4 * v := mul_le_mul_of_nonneg_right h6 hv
  have h8 : (1 : ℝ) / 2 ^ 52 = 2 * uu := by rw [uu_eq]; norm_num
  rw [h8] at h2
  have h9 : 2 * uu * e ≤ 2 * uu * (5 / 4 * v) := mul_le_mul_of_nonneg_left (by linarith) (by linarith)
  have h10 : 0 ≤ uu * v := mul_nonneg hu.le hv
  push_cast
  nlinarith

theorem log_bound {α : ℝ} {l h : ℕ} (hα : 0 < α) (h1 : 1 ≤ 2 ^ l * α) (h2 : α ≤ 2 ^ h) :
    |Real.log α| ≤ (max l h : ℕ) * Real.log 2 := by
  have hl2 : 0 < Real.log 2 := Real.log_pos (by norm_num)
  rw [abs_le]
  constructor
  · have := Real.log_nonneg h1
    rw [Real.log_mul (by positivity) hα.ne', Real.log_pow] at this
    have h3 : (l : ℝ) ≤ (max l h : ℕ) := by exact_mod_cast le_max_left l h
    nlinarith
  · have := Real.log_le_log hα h2
    rw [Real.log_pow] at this
    have h3 : (h : ℝ) ≤ (max l h : ℕ) := by exact_mod_cast le_max_right l h
    nlinarith

theorem log_lt_one : Real.log 2 < 1 := by
  have := Real.log_two_lt_d9
  linarith

/-- Two to a natural power as an exponential. -/
theorem two_pow_exp (n : ℕ) : (2 : ℝ) ^ n = Real.exp (n * Real.log 2) := by
  rw [mul_comm, Real.exp_mul, Real.exp_log (by norm_num), Real.rpow_natCast]

theorem exp_range {v : ℝ} {n : ℕ} (h : |v| ≤ n * Real.log 2) :
    1 ≤ 2 ^ n * Real.exp v ∧ Real.exp v ≤ 2 ^ n := by
  rw [two_pow_exp, ← Real.exp_add]
  obtain ⟨h1, h2⟩ := abs_le.1 h
  exact ⟨Real.one_le_exp (by linarith), Real.exp_le_exp.2 h2⟩

namespace Ap

variable {a : Float} {α m : ℝ} {k l h : ℕ} [Libm]

omit [Libm] in
theorem log_close (A : Ap a α α k l h) (hα : 0 < α) (hk : k ≤ KMax) :
    |Real.log (toR a) - Real.log α| ≤ (k + 1) * uu := by
  obtain ⟨ha1, ha2, ha0⟩ := A.rel_bounds hα hk
  have hu := uu_pos
  have hK := uu28 hk
  have hK0 : 0 ≤ (k : ℝ) * uu := by positivity
  have h2 := kk_small hk hk
  rw [← Real.log_div ha0.ne' hα.ne']
  have hr1 : 1 - k * uu ≤ toR a / α := by rw [le_div_iff₀ hα]; exact ha1
  have hr2 : toR a / α ≤ 1 + k * uu := by rw [div_le_iff₀ hα]; exact ha2
  have hr0 : 0 < toR a / α := by positivity
  rw [abs_le]
  constructor
  · have h3 := Real.one_sub_inv_le_log_of_pos hr0
    have h4 : (toR a / α)⁻¹ ≤ 1 + (k + 1) * uu := by
      rw [inv_le_iff_one_le_mul₀ hr0]
      have h5 : 1 ≤ (1 + (k + 1) * uu) * (1 - k * uu) := by
        norm_num at hK
        nlinarith
      refine h5.trans ?_
      gcongr
    linarith
  · have h3 := Real.log_le_sub_one_of_pos hr0
    linarith

/-- `powf` with an exponent known up to `e` units of roundoff. -/
theorem powf (hL : LibmAccurate) (A : Ap a α α k l h) (hα : 0 < α) {y : Float} {η : ℝ} (Y e : ℕ) (hy : IsFinite y)
    (hY : |toR y| ≤ Y) (hη : |η| ≤ Y) (he : |toR y - η| ≤ e * uu)
    (hk : k ≤ KMax := by norm_num) (hk' : Y * (k + 1) + e * max l h ≤ KMax := by norm_num)
    (hr : Y * max l h ≤ 890 := by norm_num) :
    Ap (Libm.powf a y) (α ^ η) (α ^ η) (Y * (k + 1) + e * max l h + 3) (Y * max l h) (Y * max l h) := by
  obtain ⟨ha1, ha2, ha0⟩ := A.rel_bounds hα hk
  obtain ⟨hA1, hA2⟩ := A.pos_bounds hα
  have hu := uu_pos
  have hlog := log_bound hα hA1 hA2
  have hll := A.log_close hα hk
  have hl2 : 0 < Real.log 2 := Real.log_pos (by norm_num)
  have hl1 := log_lt_one
  have hv : 0 < α ^ η := Real.rpow_pos_of_pos hα _
  set τ := toR y * (Real.log (toR a) - Real.log α) + (toR y - η) * Real.log α with hτ
  have hexp : toR a ^ toR y = α ^ η * Real.exp τ := by
    rw [Real.rpow_def_of_pos ha0, Real.rpow_def_of_pos hα, ← Real.exp_add]
    congr 1
    rw [hτ]; ring
  have hτb : |τ| ≤ ((Y * (k + 1) + e * max l h : ℕ) : ℝ) * uu := by
    rw [hτ]
    refine (abs_add_le _ _).trans ?_
    rw [abs_mul, abs_mul]
    have t1 := mul_le_mul hY hll (abs_nonneg _) (by positivity)
    have t2 := mul_le_mul he hlog (abs_nonneg _) (by positivity)
    have t3 : (e : ℝ) * uu * ((max l h : ℕ) * Real.log 2) ≤ e * uu * ((max l h : ℕ) * 1) := by gcongr
    push_cast at t1 t2 t3 ⊢
    linarith
  have hclose := exp_close hk' hτb
  have hrange := exp_range (v := Real.log α * η) (n := Y * max l h) (by
    rw [abs_mul, mul_comm]
    refine (mul_le_mul hη hlog (abs_nonneg _) (by positivity)).trans (le_of_eq ?_)
    push_cast; ring)
  rw [← Real.rpow_def_of_pos hα] at hrange
  have hE : Real.exp τ ≤ 2 ∧ 1 / 2 ≤ Real.exp τ := by
    have h1 := (uu28 hk').trans (by norm_num : (1 : ℝ) / 2 ^ 28 ≤ 1 / 8)
    have h2 : uu ≤ 1 / 4 := by rw [uu_eq]; norm_num
    have := abs_le.1 hclose
    constructor <;> linarith
  have hpl : (2 : ℝ) ^ (Y * max l h) ≤ 2 ^ 890 := by gcongr; norm_num
  have e900 : (2 : ℝ) ^ 900 = 2 ^ 890 * 1024 := by
    rw [show (1024 : ℝ) = 2 ^ 10 by norm_num, ← pow_add]
  have hX : (0 : ℝ) < 2 ^ 890 := by positivity
  obtain ⟨hf, hle⟩ := hL.powf a y A.fin hy ha0 (by
    rw [hexp, e900]
    have : 1 ≤ 2 ^ 890 * α ^ η := hrange.1.trans (by gcongr)
    clear e900 hpl
    generalize (2 : ℝ) ^ 890 = X at *
    rw [div_le_iff₀ (by positivity)]
    have h3 : 1 ≤ X * α ^ η * (2 * Real.exp τ) := by
      calc (1 : ℝ) = 1 * 1 := by norm_num
        _ ≤ (X * α ^ η) * (2 * Real.exp τ) := mul_le_mul this (by linarith [hE.2]) zero_le_one (by positivity)
    have h4 : 0 ≤ X * α ^ η * Real.exp τ := by positivity
    nlinarith) (by
    rw [hexp, e900]
    have h5 := hrange.2.trans hpl
    clear e900 hpl
    generalize (2 : ℝ) ^ 890 = X at *
    calc α ^ η * Real.exp τ ≤ X * 2 := mul_le_mul h5 hE.1 (Real.exp_pos _).le hX.le
      _ ≤ X * 1024 := by linarith)
  refine ⟨hf, by rw [abs_of_pos hv], lib_close hk' hv.le ?_ hle, Or.inr hrange⟩
  rw [hexp, show α ^ η * Real.exp τ - α ^ η = (Real.exp τ - 1) * α ^ η by ring, abs_mul, abs_of_pos hv]
  exact mul_le_mul_of_nonneg_right hclose hv.le

/-- As `powf`, with a range that takes the sign of the exponent into account. -/
theorem powf2 (hL : LibmAccurate) (A : Ap a α α k l h) (hα : 0 < α) {y : Float} {η : ℝ} (Y e Yp Yn : ℕ) (hy : IsFinite y)
    (hY : |toR y| ≤ Y) (he : |toR y - η| ≤ e * uu) (hp : η ≤ Yp) (hn : -Yn ≤ η) (hηY : |η| ≤ Y)
    (hk : k ≤ KMax := by norm_num) (hk' : Y * (k + 1) + e * max l h ≤ KMax := by norm_num)
    (hr : Y * max l h ≤ 890 := by norm_num) :
    Ap (Libm.powf a y) (α ^ η) (α ^ η) (Y * (k + 1) + e * max l h + 3) (max (Yp * l) (Yn * h)) (max (Yp * h) (Yn * l)) := by
  have P := powf hL A hα Y e hy hY hηY he hk hk' hr
  obtain ⟨hA1, hA2⟩ := A.pos_bounds hα
  refine ⟨P.fin, P.mag, P.err, Or.inr ?_⟩
  have hl2 : 0 < Real.log 2 := Real.log_pos (by norm_num)
  have b1 : -((l : ℝ) * Real.log 2) ≤ Real.log α := by
    have := Real.log_nonneg hA1
    rw [Real.log_mul (by positivity) hα.ne', Real.log_pow] at this
    linarith
  have b2 : Real.log α ≤ h * Real.log 2 := by
    have := Real.log_le_log hα hA2
    rwa [Real.log_pow] at this
  have c1 : ((Yp * l : ℕ) : ℝ) ≤ (max (Yp * l) (Yn * h) : ℕ) := by exact_mod_cast le_max_left _ _
  have c2 : ((Yn * h : ℕ) : ℝ) ≤ (max (Yp * l) (Yn * h) : ℕ) := by exact_mod_cast le_max_right _ _
  have c3 : ((Yp * h : ℕ) : ℝ) ≤ (max (Yp * h) (Yn * l) : ℕ) := by exact_mod_cast le_max_left _ _
  have c4 : ((Yn * l : ℕ) : ℝ) ≤ (max (Yp * h) (Yn * l) : ℕ) := by exact_mod_cast le_max_right _ _
  rw [Real.rpow_def_of_pos hα, two_pow_exp, two_pow_exp, ← Real.exp_add]
  have hl0 : 0 ≤ (l : ℝ) * Real.log 2 := by positivity
  have hh0 : 0 ≤ (h : ℝ) * Real.log 2 := by positivity
  rcases le_total 0 η with hη | hη
  · constructor
    · apply Real.one_le_exp
      have d1 : -((l : ℝ) * Real.log 2) * η ≤ Real.log α * η := mul_le_mul_of_nonneg_right b1 hη
      have d2 : (l : ℝ) * Real.log 2 * η ≤ (l : ℝ) * Real.log 2 * Yp := mul_le_mul_of_nonneg_left hp hl0
      have d3 := mul_le_mul_of_nonneg_right c1 hl2.le
      push_cast at d3 ⊢
      linarith
    · apply Real.exp_le_exp.2
      have d1 : Real.log α * η ≤ h * Real.log 2 * η := mul_le_mul_of_nonneg_right b2 hη
      have d2 : (h : ℝ) * Real.log 2 * η ≤ (h : ℝ) * Real.log 2 * Yp := mul_le_mul_of_nonneg_left hp hh0
      have d3 := mul_le_mul_of_nonneg_right c3 hl2.le
      push_cast at d3 ⊢
      linarith
  · constructor
    · apply Real.one_le_exp
      have d1 : h * Real.log 2 * η ≤ Real.log α * η := mul_le_mul_of_nonpos_right b2 hη
      have d2 : (h : ℝ) * Real.log 2 * -Yn ≤ (h : ℝ) * Real.log 2 * η := mul_le_mul_of_nonneg_left hn hh0
      have d3 := mul_le_mul_of_nonneg_right c2 hl2.le
      push_cast at d3 ⊢
      linarith
    · apply Real.exp_le_exp.2
      have d1 : Real.log α * η ≤ -((l : ℝ) * Real.log 2) * η := mul_le_mul_of_nonpos_right b1 hη
      have d2 : (l : ℝ) * Real.log 2 * -Yn ≤ (l : ℝ) * Real.log 2 * η := mul_le_mul_of_nonneg_left hn hl0
      have d3 := mul_le_mul_of_nonneg_right c4 hl2.le
      push_cast at d3 ⊢
      linarith

/-- `exp` of a number of magnitude at most `M`. -/
theorem exp (hL : LibmAccurate) (A : Ap a α m k l h) (M : ℕ) (hM : m ≤ M) (hM' : M ≤ 500 := by norm_num)
    (hk : k * M ≤ KMax := by norm_num) :
    Ap (Libm.exp a) (Real.exp α) (Real.exp α) (k * M + 3) (3 * M / 2 + 1) (3 * M / 2 + 1) := by
  have hu := uu_pos
  have hd : |toR a - α| ≤ ((k * M : ℕ) : ℝ) * uu := by
    refine A.err.trans ?_
    push_cast
    nlinarith [mul_le_mul_of_nonneg_left hM (by positivity : 0 ≤ (k : ℝ) * uu)]
  have hclose := exp_close hk hd
  have h1 := uu28 hk
  have hM2 : (M : ℝ) ≤ 500 := by exact_mod_cast hM'
  have hα : |α| ≤ M := A.mag.trans hM
  obtain ⟨hf, hle⟩ := hL.exp a A.fin (by
    have := abs_add_le (toR a - α) α
    rw [sub_add_cancel] at this
    have h1 := h1.trans (by norm_num : (1 : ℝ) / 2 ^ 28 ≤ 1 / 8)
    linarith)
  have hv := Real.exp_pos α
  refine ⟨hf, by rw [abs_of_pos hv], lib_close hk hv.le ?_ hle, Or.inr ?_⟩
  · rw [show Real.exp (toR a) - Real.exp α = (Real.exp (toR a - α) - 1) * Real.exp α by
      rw [sub_mul, one_mul, ← Real.exp_add, sub_add_cancel], abs_mul, abs_of_pos hv]
    exact mul_le_mul_of_nonneg_right hclose hv.le
  · apply exp_range
    refine hα.trans ?_
    have h3 := Real.log_two_gt_d9
    have h4 : (3 * M : ℝ) ≤ 2 * ((3 * M / 2 + 1 : ℕ) : ℝ) := by
      have : 3 * M ≤ 2 * (3 * M / 2 + 1) := by omega
      exact_mod_cast this
    nlinarith [Nat.cast_nonneg (α := ℝ) M]

omit [Libm] in
theorem pow_close {x y K : ℝ} (hy : 0 ≤ y) (hK : 0 ≤ K) (h : |x - y| ≤ K * y) (n : ℕ) :
    |x ^ n - y ^ n| ≤ ((1 + K) ^ n - 1) * y ^ n ∧ |x| ^ n ≤ (1 + K) ^ n * y ^ n := by
  have hx : |x| ≤ (1 + K) * y := by
    have := abs_add_le (x - y) y
    rw [sub_add_cancel, abs_of_nonneg hy] at this
    linarith
  induction n with
  | zero => simp
  | succ n ih =>
    have h2 : |x| ^ (n + 1) ≤ (1 + K) ^ (n + 1) * y ^ (n + 1) := by
      rw [← mul_pow]; exact pow_le_pow_left₀ (abs_nonneg _) hx _
    refine ⟨?_, h2⟩
    have e1 : x ^ (n + 1) - y ^ (n + 1) = x ^ n * (x - y) + (x ^ n - y ^ n) * y := by ring
    rw [e1]
    refine (abs_add_le _ _).trans ?_
    rw [abs_mul, abs_mul, abs_pow, abs_of_nonneg hy]
    have t1 := mul_le_mul ih.2 h (abs_nonneg _) (by positivity)
    have t2 := mul_le_mul_of_nonneg_right ih.1 hy
    refine (add_le_add t1 t2).trans (le_of_eq ?_)
    ring

/-- `powi` of a non-negative number. -/
theorem powi (hL : LibmAccurate) (A : Ap a α α k l h) (n : ℕ) (h2 : 2 ≤ n := by norm_num) (h5 : n ≤ 5 := by norm_num)
    (hk : n * k ≤ KMax := by norm_num) (hl : n * l ≤ 890 := by norm_num) (hh : n * h ≤ 890 := by norm_num) :
    Ap (Libm.powi a n) (α ^ n) (α ^ n) (n * k + 13) (n * l) (n * h) := by
  have hα := A.nonneg
  have hu := uu_pos
  have hkk : k ≤ KMax := by nlinarith
  have hK := uu28 hk
  have hK0 : 0 ≤ (k : ℝ) * uu := by positivity
  obtain ⟨hc1, hc2⟩ := pow_close hα hK0 A.err n
  have hgrow : (1 + k * uu) ^ n - 1 ≤ ((n * k : ℕ) + 4) * uu := by
    have h6 : (1 + (k : ℝ) * uu) ^ n ≤ Real.exp (((n * k : ℕ) : ℝ) * uu) := by
      have : 1 + (k : ℝ) * uu ≤ Real.exp (k * uu) := by
        have := Real.add_one_le_exp ((k : ℝ) * uu); linarith
      refine (pow_le_pow_left₀ (by positivity) this n).trans (le_of_eq ?_)
      rw [← Real.exp_nat_mul]
      congr 1; push_cast; ring
    have h7 := (abs_le.1 (exp_close (τ := ((n * k : ℕ) : ℝ) * uu) hk (by rw [abs_of_nonneg (by positivity)]))).2
    nlinarith
  have hgrow2 : (1 + (k : ℝ) * uu) ^ n ≤ 5 / 4 := by
    have : uu ≤ 1 / 100 := by rw [uu_eq]; norm_num
    norm_num at hK
    push_cast at hgrow
    nlinarith
  have hp0 : 0 ≤ α ^ n := by positivity
  rcases A.rng with hz | ⟨hA1, hA2⟩
  · obtain ⟨z1, z2⟩ := A.zero hz
    obtain ⟨hf, hle⟩ := hL.powi a n A.fin h2 h5 (Or.inl z1)
    have hn0 : n ≠ 0 := by omega
    refine ⟨hf, by rw [abs_of_nonneg hp0], ?_, Or.inl (by rw [z2, zero_pow hn0])⟩
    rw [z1] at hle
    rw [z2, zero_pow hn0, mul_zero]
    simpa [zero_pow hn0] using hle
  · have hα0 : 0 < α := by
      by_contra hn
      have : α = 0 := le_antisymm (by linarith) hα
      rw [this, mul_zero] at hA1
      linarith
    obtain ⟨ha1, ha2, ha0⟩ := A.rel_bounds hα0 hkk
    have r1 : 1 ≤ 2 ^ (n * l) * α ^ n := by
      rw [mul_comm n l, pow_mul, ← mul_pow]; exact one_le_pow₀ hA1
    have r2 : α ^ n ≤ 2 ^ (n * h) := by
      rw [mul_comm n h, pow_mul]; exact pow_le_pow_left₀ hα hA2 n
    have hX : (0 : ℝ) < 2 ^ 890 := by positivity
    have e900 : (2 : ℝ) ^ 900 = 2 ^ 890 * 1024 := by
      rw [show (1024 : ℝ) = 2 ^ 10 by norm_num, ← pow_add]
    have r3 : α ^ n ≤ 2 ^ 890 := r2.trans (by gcongr; norm_num)
    have r4 : 1 ≤ 2 ^ 890 * α ^ n := r1.trans (by gcongr; norm_num)
    obtain ⟨hf, hle⟩ := hL.powi a n A.fin h2 h5 (Or.inr ⟨by
        have h8 : (1 / 2 * α) ^ n ≤ |toR a| ^ n := by
          refine pow_le_pow_left₀ (by positivity) ?_ n
          rw [abs_of_pos ha0]
          have := uu28 hkk
          norm_num at this
          nlinarith
        refine le_trans ?_ h8
        rw [mul_pow, e900]
        have h9 : (1 / 2 : ℝ) ^ 5 ≤ (1 / 2) ^ n := pow_le_pow_of_le_one (by norm_num) (by norm_num) h5
        clear e900 r3
        generalize (2 : ℝ) ^ 890 = X at *
        rw [div_le_iff₀ (by positivity)]
        have h10 : (1 / 2 : ℝ) ^ 5 * (X * α ^ n) ≤ (1 / 2 : ℝ) ^ n * (X * α ^ n) :=
          mul_le_mul_of_nonneg_right h9 (by positivity)
        norm_num at h10
        nlinarith, by
        refine hc2.trans ?_
        rw [e900]
        clear e900 r4
        generalize (2 : ℝ) ^ 890 = X at *
        calc (1 + (k : ℝ) * uu) ^ n * α ^ n ≤ 5 / 4 * X := mul_le_mul hgrow2 r3 hp0 (by norm_num)
          _ ≤ X * 1024 := by linarith⟩)
    refine ⟨hf, by rw [abs_of_nonneg hp0], ?_, Or.inr ⟨r1, r2⟩⟩
    have h3 := abs_add_le (toR (Libm.powi a n) - toR a ^ n) (toR a ^ n - α ^ n)
    rw [sub_add_sub_cancel] at h3
    have e50 : (1 : ℝ) / 2 ^ 50 = 8 * uu := by rw [uu_eq]; norm_num
    rw [e50] at hle
    have h9 : |toR a| ^ n ≤ 9 / 8 * α ^ n := by
      refine hc2.trans (mul_le_mul_of_nonneg_right ?_ hp0)
      have : uu ≤ 1 / 100 := by rw [uu_eq]; norm_num
      norm_num at hK
      push_cast at hgrow
      nlinarith
    have h10 : 8 * uu * |toR a| ^ n ≤ 8 * uu * (9 / 8 * α ^ n) := mul_le_mul_of_nonneg_left h9 (by linarith)
    have h11 : ((1 + (k : ℝ) * uu) ^ n - 1) * α ^ n ≤ ((n * k : ℕ) + 4) * uu * α ^ n :=
      mul_le_mul_of_nonneg_right hgrow hp0
    push_cast at h11 ⊢
    nlinarith

end Ap

end Aga8.F64
