import Mathlib.Tactic.GCongr
import Mathlib.Tactic.Ring
import Verif.Lemmas.F64Sqrt
import Verif.Lemmas.F64Sum
import Verif.Lemmas.F64Fin

/-! # Running rounding-error analysis

`Ap a α m k l h`: the float `a` approximates the real `α` with error at most `k` units of roundoff of the magnitude `m`,
and `m` is zero or between `2^-l` and `2^h`. The rules follow the operations of the program. -/

namespace Aga8.F64

structure Ap (a : Float) (α m : ℝ) (k l h : ℕ) : Prop where
  fin : IsFinite a
  mag : |α| ≤ m
  err : |toR a - α| ≤ k * uu * m
  rng : m = 0 ∨ (1 ≤ 2 ^ l * m ∧ m ≤ 2 ^ h)

/-- Largest error count the rules accept. -/
abbrev KMax : ℕ := 33554432

theorem uu28 {k : ℕ} (hk : k ≤ KMax) : (k : ℝ) * uu ≤ 1 / 2 ^ 28 := by
  have : (k : ℝ) ≤ 33554432 := by exact_mod_cast hk
  rw [uu_eq]
  calc (k : ℝ) * (1 / 2 ^ 53) ≤ 33554432 * (1 / 2 ^ 53) := by gcongr
    _ = _ := by norm_num

theorem kk_small {k k' : ℕ} (hk : k ≤ KMax) (hk' : k' ≤ KMax) : (k : ℝ) * uu * (k' * uu) ≤ uu / 8 := by
  have h1 : (k : ℝ) ≤ 33554432 := by exact_mod_cast hk
  have h2 : (k' : ℝ) ≤ 33554432 := by exact_mod_cast hk'
  have hu := uu_pos
  calc (k : ℝ) * uu * (k' * uu) ≤ 33554432 * uu * (33554432 * uu) := by gcongr
    _ = (33554432 * 33554432 * uu) * uu := by ring
    _ = 1 / 8 * uu := by rw [uu_eq]; norm_num
    _ = uu / 8 := by ring

theorem eta_small {m : ℝ} {l : ℕ} (hm : 1 ≤ 2 ^ l * m) (hl : l ≤ 1000) : eta ≤ uu / 8 * m := by
  have h2 : (0 : ℝ) < 2 ^ l := by positivity
  have hm0 : 0 ≤ m := by
    by_contra hn
    have : 2 ^ l * m ≤ 0 := mul_nonpos_of_nonneg_of_nonpos h2.le (by linarith)
    linarith
  have h3 : (2 : ℝ) ^ l ≤ 2 ^ 1000 := by gcongr; norm_num
  have h1 : 1 ≤ 2 ^ 1000 * m := hm.trans (by gcongr)
  have he : eta = 1 / 2 ^ 1075 := by
    rw [eta, show (-1075 : Int) = -(1075 : ℕ) by rfl, zpow_neg, zpow_natCast, one_div]
  rw [he, uu_eq]
  have e2 : (2 : ℝ) ^ 1075 = 2 ^ 1000 * 2 ^ 75 := by rw [← pow_add]
  rw [e2]
  clear e2 he h3 hm h2
  generalize (2 : ℝ) ^ 1000 = X at *
  have hX : 0 < X := by
    by_contra hn
    have : X * m ≤ 0 := mul_nonpos_of_nonpos_of_nonneg (by linarith) hm0
    linarith
  rw [div_le_iff₀ (by positivity)]
  have : 1 / 2 ^ 53 / 8 * m * (X * 2 ^ 75) = (X * m) * (2 ^ 75 / 2 ^ 53 / 8) := by ring
  rw [this]
  have h9 : (1 : ℝ) ≤ 2 ^ 75 / 2 ^ 53 / 8 := by norm_num
  nlinarith

theorem pow_le_1022 {m : ℝ} {h : ℕ} (hm : m ≤ 2 ^ h) (hh : h ≤ 1020) : 4 * m ≤ 2 ^ 1023 := by
  have h1 : (2 : ℝ) ^ h ≤ 2 ^ 1020 := by gcongr; norm_num
  have e : (2 : ℝ) ^ 1023 = 8 * 2 ^ 1020 := by
    rw [show (8 : ℝ) = 2 ^ 3 by norm_num, ← pow_add]
  rw [e]
  have : m ≤ 2 ^ 1020 := hm.trans h1
  have h0 : (0 : ℝ) < 2 ^ 1020 := by positivity
  clear e h1 hm
  generalize (2 : ℝ) ^ 1020 = X at *
  linarith

namespace Ap

variable {a b : Float} {α β m m' : ℝ} {k k' l l' h h' : ℕ}

theorem nonneg (A : Ap a α m k l h) : 0 ≤ m := (abs_nonneg _).trans A.mag

theorem le_two (A : Ap a α m k l h) (hk : k ≤ KMax) : |toR a| ≤ (1 + 1 / 2 ^ 28) * m := by
  have h1 := abs_add_le (toR a - α) α
  rw [sub_add_cancel] at h1
  have h2 := A.err
  have h3 := A.mag
  have h4 : (k : ℝ) * uu * m ≤ 1 / 2 ^ 28 * m := mul_le_mul_of_nonneg_right (uu28 hk) A.nonneg
  linarith

theorem zero (A : Ap a α m k l h) (hm : m = 0) : toR a = 0 ∧ α = 0 := by
  have h1 := A.mag
  have h2 := A.err
  rw [hm] at h1 h2
  have h3 : α = 0 := by simpa using h1
  rw [h3] at h2
  exact ⟨by simpa using h2, h3⟩

theorem weak (A : Ap a α m k l h) (hk : k ≤ k') (hl : l ≤ l') (hh : h ≤ h') : Ap a α m k' l' h' := by
  refine ⟨A.fin, A.mag, A.err.trans ?_, A.rng.imp id fun ⟨h1, h2⟩ => ⟨h1.trans ?_, h2.trans ?_⟩⟩
  · have := A.nonneg
    have := uu_pos
    have hk2 : (k : ℝ) ≤ k' := by exact_mod_cast hk
    gcongr
  · have := A.nonneg
    gcongr
    norm_num
  · gcongr
    norm_num

/-- Another magnitude. -/
theorem remag (A : Ap a α m k l h) (hm : |α| ≤ m') (he : k * m ≤ k' * m')
    (hr : m' = 0 ∨ (1 ≤ 2 ^ l' * m' ∧ m' ≤ 2 ^ h')) : Ap a α m' k' l' h' := by
  refine ⟨A.fin, hm, A.err.trans ?_, hr⟩
  have := uu_pos
  nlinarith

theorem exact (ha : IsFinite a) (hr : toR a = 0 ∨ (1 ≤ 2 ^ l * |toR a| ∧ |toR a| ≤ 2 ^ h)) :
    Ap a (toR a) |toR a| 0 l h :=
  ⟨ha, le_refl _, by simp, hr.imp (fun e => by rw [e, abs_zero]) id⟩

theorem neg (A : Ap a α m k l h) : Ap (-a) (-α) m k l h := by
  refine ⟨fin_neg A.fin, by rw [abs_neg]; exact A.mag, ?_, A.rng⟩
  rw [toR_neg, show -toR a - -α = -(toR a - α) by ring, abs_neg]
  exact A.err

theorem mul (A : Ap a α m k l h) (B : Ap b β m' k' l' h') (hk : k ≤ KMax := by norm_num)
    (hk' : k' ≤ KMax := by norm_num) (hl : l + l' ≤ 1000 := by norm_num) (hh : h + h' ≤ 1000 := by norm_num) :
    Ap (a * b) (α * β) (m * m') (k + k' + 2) (l + l') (h + h') := by
  have m0 := A.nonneg
  have m0' := B.nonneg
  have hab : |toR a * toR b| ≤ (1 + 1 / 2 ^ 28) * m * ((1 + 1 / 2 ^ 28) * m') := by
    rw [abs_mul]
    exact mul_le_mul (A.le_two hk) (B.le_two hk') (abs_nonneg _) (by positivity)
  have hmm : m * m' ≤ 2 ^ (h + h') := by
    rcases A.rng with hz | ⟨_, hA⟩
    · rw [hz, zero_mul]; positivity
    · rcases B.rng with hz | ⟨_, hB⟩
      · rw [hz, mul_zero]; positivity
      · rw [pow_add]; exact mul_le_mul hA hB m0' (by positivity)
  have hov : |toR a * toR b| ≤ 2 ^ 1023 := by
    refine hab.trans (le_trans ?_ (pow_le_1022 hmm (by omega)))
    have : 0 ≤ m * m' := mul_nonneg m0 m0'
    nlinarith
  obtain ⟨hf, he⟩ := mul_ok A.fin B.fin hov
  have hmag : |α * β| ≤ m * m' := by
    rw [abs_mul]; exact mul_le_mul A.mag B.mag (abs_nonneg _) m0
  have hu := uu_pos
  by_cases hz : m * m' = 0
  · refine ⟨hf, hmag, ?_, Or.inl hz⟩
    rw [hz, mul_zero]
    have hαβ : α * β = 0 := abs_nonpos_iff.1 (hz ▸ hmag)
    have hr : toR (a * b) = 0 := by
      rcases mul_eq_zero.1 hz with h1 | h1
      · have e0 := (A.zero h1).1
        have hz := isZ_of_toR A.fin e0
        exact toR_zero_of_zn (zn_mul_left (Or.inl hz) b)
      · exact toR_mul_zero_right a B.fin (B.zero h1).1
    rw [hαβ, hr]; simp
  · have hA := A.rng.resolve_left (fun e => hz (by rw [e, zero_mul]))
    have hB := B.rng.resolve_left (fun e => hz (by rw [e, mul_zero]))
    have hlow : 1 ≤ 2 ^ (l + l') * (m * m') := by
      calc (1 : ℝ) = 1 * 1 := by norm_num
        _ ≤ (2 ^ l * m) * (2 ^ l' * m') := mul_le_mul hA.1 hB.1 zero_le_one (by positivity)
        _ = _ := by rw [pow_add]; ring
    refine ⟨hf, hmag, ?_, Or.inr ⟨hlow, hmm⟩⟩
    have het := eta_small hlow hl
    have h1 : |toR a * toR b - α * β| ≤ (k * uu + k' * uu + k * uu * (k' * uu)) * (m * m') := by
      have e1 : toR a * toR b - α * β = (toR a - α) * (toR b - β) + (toR a - α) * β + α * (toR b - β) := by ring
      rw [e1]
      refine (abs_add_le _ _).trans ((add_le_add (abs_add_le _ _) le_rfl).trans ?_)
      rw [abs_mul, abs_mul, abs_mul]
      have t1 := mul_le_mul A.err B.err (abs_nonneg _) (by positivity)
      have t2 := mul_le_mul A.err B.mag (abs_nonneg _) (by positivity)
      have t3 := mul_le_mul A.mag B.err (abs_nonneg _) (by positivity)
      refine (add_le_add (add_le_add t1 t2) t3).trans (le_of_eq (by ring))
    have h2 := abs_add_le (toR (a * b) - toR a * toR b) (toR a * toR b - α * β)
    rw [sub_add_sub_cancel] at h2
    have h3 := kk_small hk hk'
    have h4 : k * uu * (k' * uu) * (m * m') ≤ uu / 8 * (m * m') :=
      mul_le_mul_of_nonneg_right h3 (mul_nonneg m0 m0')
    have h5 : uu * |toR a * toR b| ≤ uu * (5 / 4 * (m * m')) := by
      refine mul_le_mul_of_nonneg_left (hab.trans ?_) hu.le
      have : 0 ≤ m * m' := mul_nonneg m0 m0'
      nlinarith
    have h6 : 0 ≤ uu * (m * m') := by positivity
    push_cast
    calc |toR (a * b) - α * β| ≤ _ := h2
      _ ≤ (uu * (5 / 4 * (m * m')) + uu / 8 * (m * m'))
          + (k * uu + k' * uu + k * uu * (k' * uu)) * (m * m') := by linarith
      _ ≤ _ := by nlinarith

theorem add' (A : Ap a α m k l h) (B : Ap b β m' k l h) (hk : k ≤ KMax := by norm_num)
    (hH : m + m' ≤ 2 ^ h) (hh : h ≤ 1000 := by norm_num) :
    Ap (a + b) (α + β) (m + m') (k + 2) l h := by
  have m0 := A.nonneg
  have m0' := B.nonneg
  have hab : |toR a + toR b| ≤ (1 + 1 / 2 ^ 28) * (m + m') := by
    refine (abs_add_le _ _).trans ?_
    have h1 := A.le_two hk
    have h2 := B.le_two hk
    linarith
  have hov : |toR a + toR b| ≤ 2 ^ 1023 := by
    refine hab.trans (le_trans ?_ (pow_le_1022 hH (by omega)))
    nlinarith
  obtain ⟨hf, he⟩ := add_ok A.fin B.fin hov
  have hu := uu_pos
  refine ⟨hf, (abs_add_le _ _).trans (add_le_add A.mag B.mag), ?_, ?_⟩
  · have h2 := abs_add_le (toR (a + b) - (toR a + toR b)) ((toR a - α) + (toR b - β))
    have e1 : toR (a + b) - (toR a + toR b) + ((toR a - α) + (toR b - β)) = toR (a + b) - (α + β) := by ring
    rw [e1] at h2
    have h3 := abs_add_le (toR a - α) (toR b - β)
    have h5 : uu * |toR a + toR b| ≤ uu * (5 / 4 * (m + m')) := by
      refine mul_le_mul_of_nonneg_left (hab.trans ?_) hu.le
      nlinarith
    have h6 : 0 ≤ uu * (m + m') := by positivity
    have h7 := A.err
    have h8 := B.err
    push_cast
    nlinarith
  · rcases A.rng with hA | hA
    · rcases B.rng with hB | hB
      · exact Or.inl (by rw [hA, hB, add_zero])
      · exact Or.inr ⟨by rw [hA, zero_add]; exact hB.1, hH⟩
    · refine Or.inr ⟨hA.1.trans ?_, hH⟩
      gcongr
      linarith

theorem sub' (A : Ap a α m k l h) (B : Ap b β m' k l h) (hk : k ≤ KMax := by norm_num)
    (hH : m + m' ≤ 2 ^ h) (hh : h ≤ 1000 := by norm_num) :
    Ap (a - b) (α - β) (m + m') (k + 2) l h := by
  have m0 := A.nonneg
  have m0' := B.nonneg
  have hab : |toR a - toR b| ≤ (1 + 1 / 2 ^ 28) * (m + m') := by
    refine (abs_sub _ _).trans ?_
    have h1 := A.le_two hk
    have h2 := B.le_two hk
    linarith
  have hov : |toR a - toR b| ≤ 2 ^ 1023 := by
    refine hab.trans (le_trans ?_ (pow_le_1022 hH (by omega)))
    nlinarith
  obtain ⟨hf, he⟩ := sub_ok A.fin B.fin hov
  have hu := uu_pos
  refine ⟨hf, (abs_sub _ _).trans (add_le_add A.mag B.mag), ?_, ?_⟩
  · have h2 := abs_add_le (toR (a - b) - (toR a - toR b)) ((toR a - α) - (toR b - β))
    have e1 : toR (a - b) - (toR a - toR b) + ((toR a - α) - (toR b - β)) = toR (a - b) - (α - β) := by ring
    rw [e1] at h2
    have h3 := abs_sub (toR a - α) (toR b - β)
    have h5 : uu * |toR a - toR b| ≤ uu * (5 / 4 * (m + m')) := by
      refine mul_le_mul_of_nonneg_left (hab.trans ?_) hu.le
      nlinarith
    have h6 : 0 ≤ uu * (m + m') := by positivity
    have h7 := A.err
    have h8 := B.err
    push_cast
    nlinarith
  · rcases A.rng with hA | hA
    · rcases B.rng with hB | hB
      · exact Or.inl (by rw [hA, hB, add_zero])
      · exact Or.inr ⟨by rw [hA, zero_add]; exact hB.1, hH⟩
    · refine Or.inr ⟨hA.1.trans ?_, hH⟩
      gcongr
      linarith

theorem hsum (A : Ap a α m k l h) (B : Ap b β m' k' l' h') : m + m' ≤ 2 ^ (max h h' + 1) := by
  have h1 : m ≤ 2 ^ max h h' := by
    rcases A.rng with e | e
    · rw [e]; positivity
    · exact e.2.trans (pow_le_pow_right₀ (by norm_num) (le_max_left _ _))
  have h2 : m' ≤ 2 ^ max h h' := by
    rcases B.rng with e | e
    · rw [e]; positivity
    · exact e.2.trans (pow_le_pow_right₀ (by norm_num) (le_max_right _ _))
  rw [pow_succ]; linarith

theorem add (A : Ap a α m k l h) (B : Ap b β m' k' l' h') (hk : max k k' ≤ KMax := by norm_num)
    (hh : max h h' + 1 ≤ 1000 := by norm_num) :
    Ap (a + b) (α + β) (m + m') (max k k' + 2) (max l l') (max h h' + 1) :=
  add' (A.weak (le_max_left _ _) (le_max_left _ _) (by have := le_max_left h h'; omega))
    (B.weak (le_max_right _ _) (le_max_right _ _) (by have := le_max_right h h'; omega)) hk (hsum A B) hh

theorem sub (A : Ap a α m k l h) (B : Ap b β m' k' l' h') (hk : max k k' ≤ KMax := by norm_num)
    (hh : max h h' + 1 ≤ 1000 := by norm_num) :
    Ap (a - b) (α - β) (m + m') (max k k' + 2) (max l l') (max h h' + 1) :=
  sub' (A.weak (le_max_left _ _) (le_max_left _ _) (by have := le_max_left h h'; omega))
    (B.weak (le_max_right _ _) (le_max_right _ _) (by have := le_max_right h h'; omega)) hk (hsum A B) hh

end Ap

end Aga8.F64
