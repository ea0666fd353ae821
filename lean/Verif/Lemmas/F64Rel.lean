import Verif.Lemmas.F64ApFun

/-! # Rounding-error analysis with a larger unit

`Rl ε a α m n l h` is `Ap` with another unit of error: the float `a` approximates `α` with error at most `n` times `ε` of the
magnitude `m`. The unit is at least 16 units of roundoff and at most 1e-6, so one rounding and the products of errors are below
one unit. It is used for quotients by numbers that were themselves obtained with cancellation. -/

namespace Aga8.F64

structure Rl (ε : ℝ) (a : Float) (α m : ℝ) (n l h : ℕ) : Prop where
  fin : IsFinite a
  mag : |α| ≤ m
  err : |toR a - α| ≤ n * ε * m
  rng : m = 0 ∨ (1 ≤ 2 ^ l * m ∧ m ≤ 2 ^ h)

/-- The allowed units. -/
structure RUnit (ε : ℝ) : Prop where
  low : 16 * uu ≤ ε
  high : ε ≤ 1e-6

namespace Rl

variable {ε : ℝ} {a b : Float} {α β m m' : ℝ} {k n n' l l' h h' : ℕ}

theorem RUnit.pos (hε : RUnit ε) : 0 < ε := lt_of_lt_of_le (by have := uu_pos; linarith) hε.low

theorem n_small (hε : RUnit ε) (hn : n ≤ 400) : (n : ℝ) * ε ≤ 1 / 2500 := by
  have h1 : (n : ℝ) ≤ 400 := by exact_mod_cast hn
  have h2 := RUnit.pos hε
  calc (n : ℝ) * ε ≤ 400 * 1e-6 := mul_le_mul h1 hε.high h2.le (by norm_num)
    _ = _ := by norm_num

theorem nn_small (hε : RUnit ε) (hn : n ≤ 400) (hn' : n' ≤ 400) : (n : ℝ) * ε * (n' * ε) ≤ ε / 6 := by
  have h1 : (n' : ℝ) ≤ 400 := by exact_mod_cast hn'
  have h2 := RUnit.pos hε
  calc (n : ℝ) * ε * (n' * ε) ≤ 1 / 2500 * (400 * ε) :=
        mul_le_mul (n_small hε hn) (mul_le_mul_of_nonneg_right h1 h2.le) (by positivity) (by norm_num)
    _ ≤ ε / 6 := by linarith

theorem ofAp (hε : RUnit ε) (A : Ap a α m k l h) (hk : k ≤ 16 * n) : Rl ε a α m n l h := by
  refine ⟨A.fin, A.mag, A.err.trans (mul_le_mul_of_nonneg_right ?_ A.nonneg), A.rng⟩
  have h1 : (k : ℝ) ≤ 16 * n := by exact_mod_cast hk
  have h2 := uu_pos
  have h3 := hε.low
  have h4 : (0 : ℝ) ≤ n := by positivity
  nlinarith

theorem nonneg (A : Rl ε a α m n l h) : 0 ≤ m := (abs_nonneg _).trans A.mag

theorem le_two (hε : RUnit ε) (A : Rl ε a α m n l h) (hn : n ≤ 400) : |toR a| ≤ (1 + 1 / 2500) * m := by
  have h1 := abs_add_le (toR a - α) α
  rw [sub_add_cancel] at h1
  have h2 := A.err
  have h3 := A.mag
  have h4 : (n : ℝ) * ε * m ≤ 1 / 2500 * m := mul_le_mul_of_nonneg_right (n_small hε hn) A.nonneg
  linarith

theorem zero (A : Rl ε a α m n l h) (hm : m = 0) : toR a = 0 ∧ α = 0 := by
  have h1 := A.mag
  have h2 := A.err
  rw [hm] at h1 h2
  have h3 : α = 0 := by simpa using h1
  rw [h3] at h2
  exact ⟨by simpa using h2, h3⟩

theorem weak (hε : RUnit ε) (A : Rl ε a α m n l h) (hn : n ≤ n') (hl : l ≤ l') (hh : h ≤ h') : Rl ε a α m n' l' h' := by
  refine ⟨A.fin, A.mag, A.err.trans ?_, A.rng.imp id fun ⟨h1, h2⟩ => ⟨h1.trans ?_, h2.trans ?_⟩⟩
  · have := A.nonneg
    have := RUnit.pos hε
    have hk2 : (n : ℝ) ≤ n' := by exact_mod_cast hn
    gcongr
  · have := A.nonneg
    gcongr
    norm_num
  · gcongr
    norm_num

/-- Another magnitude. -/
theorem remag (A : Rl ε a α m n l h) (hm : |α| ≤ m') (he : n * ε * m ≤ n' * ε * m')
    (hr : m' = 0 ∨ (1 ≤ 2 ^ l' * m' ∧ m' ≤ 2 ^ h')) : Rl ε a α m' n' l' h' := ⟨A.fin, hm, A.err.trans he, hr⟩

theorem mul (hε : RUnit ε) (A : Rl ε a α m n l h) (B : Rl ε b β m' n' l' h') (hn : n ≤ 400 := by norm_num)
    (hn' : n' ≤ 400 := by norm_num) (hl : l + l' ≤ 1000 := by norm_num) (hh : h + h' ≤ 1000 := by norm_num) :
    Rl ε (a * b) (α * β) (m * m') (n + n' + 1) (l + l') (h + h') := by
  have hp := RUnit.pos hε
  have m0 := A.nonneg
  have m0' := B.nonneg
  have hab : |toR a * toR b| ≤ (1 + 1 / 2500) * m * ((1 + 1 / 2500) * m') := by
    rw [abs_mul]
    exact mul_le_mul (A.le_two hε hn) (B.le_two hε hn') (abs_nonneg _) (by positivity)
  have hmm : m * m' ≤ 2 ^ (h + h') := by
    rcases A.rng with hz | ⟨_, hA⟩
    · rw [hz, zero_mul]; positivity
    · rcases B.rng with hz | ⟨_, hB⟩
      · rw [hz, mul_zero]; positivity
      · rw [pow_add]; exact mul_le_mul hA hB m0' (by positivity)
  have hov : |toR a * toR b| ≤ 2 ^ 1023 := by
    refine hab.trans (le_trans ?_ (pow_le_1022 hmm (by omega)))
    have : 0 ≤ m * m' := mul_nonneg m0 m0'
    nlinarith
  obtain ⟨hf, he⟩ := mul_ok A.fin B.fin hov
  have hmag : |α * β| ≤ m * m' := by
    rw [abs_mul]; exact mul_le_mul A.mag B.mag (abs_nonneg _) m0
  have hu := uu_pos
  by_cases hz : m * m' = 0
  · refine ⟨hf, hmag, ?_, Or.inl hz⟩
    rw [hz, mul_zero]
    have hαβ : α * β = 0 := abs_nonpos_iff.1 (hz ▸ hmag)
    have hr : toR (a * b) = 0 := by
      rcases mul_eq_zero.1 hz with h1 | h1
      · have e0 := (A.zero h1).1
        have hz := isZ_of_toR A.fin e0
        exact toR_zero_of_zn (zn_mul_left (Or.inl hz) b)
      · exact toR_mul_zero_right a B.fin (B.zero h1).1
    rw [hαβ, hr]; simp
  · have hA := A.rng.resolve_left (fun e => hz (by rw [e, zero_mul]))
    have hB := B.rng.resolve_left (fun e => hz (by rw [e, mul_zero]))
    have hlow : 1 ≤ 2 ^ (l + l') * (m * m') := by
      calc (1 : ℝ) = 1 * 1 := by norm_num
        _ ≤ (2 ^ l * m) * (2 ^ l' * m') := mul_le_mul hA.1 hB.1 zero_le_one (by positivity)
        _ = _ := by rw [pow_add]; ring
    refine ⟨hf, hmag, ?_, Or.inr ⟨hlow, hmm⟩⟩
    have het := eta_small hlow hl
    have h1 : |toR a * toR b - α * β| ≤ (n * ε + n' * ε + n * ε * (n' * ε)) * (m * m') := by
      have e1 : toR a * toR b - α * β = (toR a - α) * (toR b - β) + (toR a - α) * β + α * (toR b - β) := by ring
      rw [e1]
      refine (abs_add_le _ _).trans ((add_le_add (abs_add_le _ _) le_rfl).trans ?_)
      rw [abs_mul, abs_mul, abs_mul]
      have t1 := mul_le_mul A.err B.err (abs_nonneg _) (by positivity)
      have t2 := mul_le_mul A.err B.mag (abs_nonneg _) (by positivity)
      have t3 := mul_le_mul A.mag B.err (abs_nonneg _) (by positivity)
      refine (add_le_add (add_le_add t1 t2) t3).trans (le_of_eq (by ring))
    have h2 := abs_add_le (toR (a * b) - toR a * toR b) (toR a * toR b - α * β)
    rw [sub_add_sub_cancel] at h2
    have h4 : n * ε * (n' * ε) * (m * m') ≤ ε / 6 * (m * m') :=
      mul_le_mul_of_nonneg_right (nn_small hε hn hn') (mul_nonneg m0 m0')
    have h5 : uu * |toR a * toR b| ≤ uu * (5 / 4 * (m * m')) := by
      refine mul_le_mul_of_nonneg_left (hab.trans ?_) hu.le
      have : 0 ≤ m * m' := mul_nonneg m0 m0'
      nlinarith
    have h6 : 16 * (uu * (m * m')) ≤ ε * (m * m') := by
      rw [← mul_assoc]; exact mul_le_mul_of_nonneg_right hε.low (mul_nonneg m0 m0')
    have h7 : 0 ≤ ε * (m * m') := by positivity
    push_cast
    calc |toR (a * b) - α * β| ≤ _ := h2
      _ ≤ (uu * (5 / 4 * (m * m')) + uu / 8 * (m * m'))
          + (n * ε + n' * ε + n * ε * (n' * ε)) * (m * m') := by linarith
      _ ≤ _ := by nlinarith

theorem add' (hε : RUnit ε) (A : Rl ε a α m n l h) (B : Rl ε b β m' n l h) (hn : n ≤ 400 := by norm_num)
    (hH : m + m' ≤ 2 ^ h) (hh : h ≤ 1000 := by norm_num) :
    Rl ε (a + b) (α + β) (m + m') (n + 1) l h := by
  have m0 := A.nonneg
  have m0' := B.nonneg
  have hab : |toR a + toR b| ≤ (1 + 1 / 2500) * (m + m') := by
    refine (abs_add_le _ _).trans ?_
    have h1 := A.le_two hε hn
    have h2 := B.le_two hε hn
    linarith
  have hov : |toR a + toR b| ≤ 2 ^ 1023 := by
    refine hab.trans (le_trans ?_ (pow_le_1022 hH (by omega)))
    nlinarith
  obtain ⟨hf, he⟩ := add_ok A.fin B.fin hov
  have hu := uu_pos
  refine ⟨hf, (abs_add_le _ _).trans (add_le_add A.mag B.mag), ?_, ?_⟩
  · have h2 := abs_add_le (toR (a + b) - (toR a + toR b)) ((toR a - α) + (toR b - β))
    have e1 : toR (a + b) - (toR a + toR b) + ((toR a - α) + (toR b - β)) = toR (a + b) - (α + β) := by ring
    rw [e1] at h2
    have h3 := abs_add_le (toR a - α) (toR b - β)
    have h5 : uu * |toR a + toR b| ≤ uu * (5 / 4 * (m + m')) := by
      refine mul_le_mul_of_nonneg_left (hab.trans ?_) hu.le
      nlinarith
    have h6 : 16 * (uu * (m + m')) ≤ ε * (m + m') := by
      rw [← mul_assoc]; exact mul_le_mul_of_nonneg_right hε.low (by positivity)
    have h6' : 0 ≤ uu * (m + m') := by positivity
    have h7 := A.err
    have h8 := B.err
    push_cast
    nlinarith
  · rcases A.rng with hA | hA
    · rcases B.rng with hB | hB
      · exact Or.inl (by rw [hA, hB, add_zero])
      · exact Or.inr ⟨by rw [hA, zero_add]; exact hB.1, hH⟩
    · refine Or.inr ⟨hA.1.trans ?_, hH⟩
      gcongr
      linarith

theorem neg (A : Rl ε a α m n l h) : Rl ε (-a) (-α) m n l h := by
  refine ⟨fin_neg A.fin, by rw [abs_neg]; exact A.mag, ?_, A.rng⟩
  rw [toR_neg, show -toR a - -α = -(toR a - α) by ring, abs_neg]
  exact A.err

theorem sub' (hε : RUnit ε) (A : Rl ε a α m n l h) (B : Rl ε b β m' n l h) (hn : n ≤ 400 := by norm_num)
    (hH : m + m' ≤ 2 ^ h) (hh : h ≤ 1000 := by norm_num) :
    Rl ε (a - b) (α - β) (m + m') (n + 1) l h := by
  have m0 := A.nonneg
  have m0' := B.nonneg
  have hab : |toR a - toR b| ≤ (1 + 1 / 2500) * (m + m') := by
    refine (abs_sub _ _).trans ?_
    have h1 := A.le_two hε hn
    have h2 := B.le_two hε hn
    linarith
  have hov : |toR a - toR b| ≤ 2 ^ 1023 := by
    refine hab.trans (le_trans ?_ (pow_le_1022 hH (by omega)))
    nlinarith
  obtain ⟨hf, he⟩ := sub_ok A.fin B.fin hov
  have hu := uu_pos
  refine ⟨hf, (abs_sub _ _).trans (add_le_add A.mag B.mag), ?_, ?_⟩
  · have h2 := abs_add_le (toR (a - b) - (toR a - toR b)) ((toR a - α) - (toR b - β))
    have e1 : toR (a - b) - (toR a - toR b) + ((toR a - α) - (toR b - β)) = toR (a - b) - (α - β) := by ring
    rw [e1] at h2
    have h3 := abs_sub (toR a - α) (toR b - β)
    have h5 : uu * |toR a - toR b| ≤ uu * (5 / 4 * (m + m')) := by
      refine mul_le_mul_of_nonneg_left (hab.trans ?_) hu.le
      nlinarith
    have h6 : 16 * (uu * (m + m')) ≤ ε * (m + m') := by
      rw [← mul_assoc]; exact mul_le_mul_of_nonneg_right hε.low (by positivity)
    have h6' : 0 ≤ uu * (m + m') := by positivity
    have h7 := A.err
    have h8 := B.err
    push_cast
    nlinarith
  · rcases A.rng with hA | hA
    · rcases B.rng with hB | hB
      · exact Or.inl (by rw [hA, hB, add_zero])
      · exact Or.inr ⟨by rw [hA, zero_add]; exact hB.1, hH⟩
    · refine Or.inr ⟨hA.1.trans ?_, hH⟩
      gcongr
      linarith

theorem hsum (A : Rl ε a α m n l h) (B : Rl ε b β m' n' l' h') : m + m' ≤ 2 ^ (max h h' + 1) := by
  have h1 : m ≤ 2 ^ max h h' := by
    rcases A.rng with e | e
    · rw [e]; positivity
    · exact e.2.trans (pow_le_pow_right₀ (by norm_num) (le_max_left _ _))
  have h2 : m' ≤ 2 ^ max h h' := by
    rcases B.rng with e | e
    · rw [e]; positivity
    · exact e.2.trans (pow_le_pow_right₀ (by norm_num) (le_max_right _ _))
  rw [pow_succ]; linarith

theorem add (hε : RUnit ε) (A : Rl ε a α m n l h) (B : Rl ε b β m' n' l' h') (hn : max n n' ≤ 400 := by norm_num)
    (hh : max h h' + 1 ≤ 1000 := by norm_num) :
    Rl ε (a + b) (α + β) (m + m') (max n n' + 1) (max l l') (max h h' + 1) :=
  add' hε (A.weak hε (le_max_left _ _) (le_max_left _ _) (by have := le_max_left h h'; omega))
    (B.weak hε (le_max_right _ _) (le_max_right _ _) (by have := le_max_right h h'; omega)) hn (hsum A B) hh

theorem sub (hε : RUnit ε) (A : Rl ε a α m n l h) (B : Rl ε b β m' n' l' h') (hn : max n n' ≤ 400 := by norm_num)
    (hh : max h h' + 1 ≤ 1000 := by norm_num) :
    Rl ε (a - b) (α - β) (m + m') (max n n' + 1) (max l l') (max h h' + 1) :=
  sub' hε (A.weak hε (le_max_left _ _) (le_max_left _ _) (by have := le_max_left h h'; omega))
    (B.weak hε (le_max_right _ _) (le_max_right _ _) (by have := le_max_right h h'; omega)) hn (hsum A B) hh

theorem rel_bounds (hε : RUnit ε) (B : Rl ε b β β n' l' h') (hβ : 0 < β) (hn' : n' ≤ 400) :
    (1 - n' * ε) * β ≤ toR b ∧ toR b ≤ (1 + n' * ε) * β ∧ 0 < toR b := by
  have h1 := abs_le.1 B.err
  have h2 := n_small hε hn'
  have h3 : (1 / 2 : ℝ) * β ≤ (1 - n' * ε) * β := by
    refine mul_le_mul_of_nonneg_right ?_ hβ.le
    norm_num at h2; linarith
  refine ⟨by linarith, by linarith, by linarith⟩

theorem pos_bounds (B : Rl ε b β β n' l' h') (hβ : 0 < β) : 1 ≤ 2 ^ l' * β ∧ β ≤ 2 ^ h' :=
  B.rng.resolve_left hβ.ne'

theorem div (hε : RUnit ε) (A : Rl ε a α m n l h) (B : Rl ε b β β n' l' h') (hβ : 0 < β) (hn : n ≤ 400 := by norm_num)
    (hn' : n' ≤ 400 := by norm_num) (hl : l + h' ≤ 1000 := by norm_num) (hh : h + l' ≤ 1000 := by norm_num) :
    Rl ε (a / b) (α / β) (m / β) (n + n' + 1) (l + h') (h + l') := by
  have hp := RUnit.pos hε
  have m0 := A.nonneg
  have hu := uu_pos
  obtain ⟨hb1, hb2, hb0⟩ := B.rel_bounds hε hβ hn'
  obtain ⟨hB1, hB2⟩ := B.pos_bounds hβ
  have hK' := n_small hε hn'
  have hK'0 : 0 ≤ (n' : ℝ) * ε := by positivity
  have hinv : 1 / toR b ≤ (1 + 2 * (n' * ε)) / β := by
    rw [div_le_div_iff₀ hb0 hβ]
    have : (1 : ℝ) ≤ (1 + 2 * (n' * ε)) * (1 - n' * ε) := by nlinarith
    nlinarith
  have hq : m / β ≤ 2 ^ (h + l') := by
    rcases A.rng with hz | ⟨_, hA⟩
    · rw [hz, zero_div]; positivity
    · rw [div_le_iff₀ hβ, pow_add]
      calc m ≤ 2 ^ h * 1 := by linarith
        _ ≤ 2 ^ h * (2 ^ l' * β) := by gcongr
        _ = _ := by ring
  have hq0 : 0 ≤ m / β := by positivity
  have hab : |toR a / toR b| ≤ 5 / 4 * (m / β) := by
    rw [abs_div, abs_of_pos hb0, div_eq_mul_one_div]
    calc |toR a| * (1 / toR b) ≤ (1 + 1 / 2500) * m * ((1 + 2 * (n' * ε)) / β) :=
          mul_le_mul (A.le_two hε hn) hinv (by positivity) (by positivity)
      _ = ((1 + 1 / 2500) * (1 + 2 * (n' * ε))) * (m / β) := by ring
      _ ≤ 5 / 4 * (m / β) := by
        refine mul_le_mul_of_nonneg_right ?_ hq0
        norm_num at hK' ⊢
        nlinarith
  have hov : |toR a / toR b| ≤ 2 ^ 1023 := by
    refine hab.trans (le_trans ?_ (pow_le_1022 hq (by omega)))
    linarith
  obtain ⟨hf, he⟩ := div_ok A.fin B.fin hb0.ne' hov
  have hmag : |α / β| ≤ m / β := by
    rw [abs_div, abs_of_pos hβ]; exact div_le_div_of_nonneg_right A.mag hβ.le
  rcases A.rng with hz | ⟨hA1, hA2⟩
  · refine ⟨hf, hmag, ?_, Or.inl (by rw [hz, zero_div])⟩
    obtain ⟨z1, z2⟩ := A.zero hz
    rw [hz, zero_div, mul_zero, z2, zero_div, toR_zero_of_zn (zn_div (Or.inl (isZ_of_toR A.fin z1)) b)]
    simp
  · have hlow : 1 ≤ 2 ^ (l + h') * (m / β) := by
      rw [pow_add, mul_div_assoc', le_div_iff₀ hβ]
      calc 1 * β ≤ 1 * 2 ^ h' := by linarith
        _ ≤ (2 ^ l * m) * 2 ^ h' := by gcongr
        _ = _ := by ring
    refine ⟨hf, hmag, ?_, Or.inr ⟨hlow, hq⟩⟩
    have het := eta_small hlow hl
    have h1 : |toR a / toR b - α / β| ≤ (n * ε + n' * ε + 2 * ε / 3) * (m / β) := by
      have e1 : toR a / toR b - α / β = ((toR a - α) + α * ((β - toR b) / β)) * (1 / toR b) := by
        field_simp; ring
      rw [e1, abs_mul, abs_of_pos (by positivity : 0 < 1 / toR b)]
      have t2 : |α * ((β - toR b) / β)| ≤ m * (n' * ε) := by
        rw [abs_mul, abs_div, abs_of_pos hβ, abs_sub_comm]
        refine mul_le_mul A.mag ?_ (by positivity) m0
        rw [div_le_iff₀ hβ]; exact B.err
      have t3 : |(toR a - α) + α * ((β - toR b) / β)| ≤ (n * ε + n' * ε) * m := by
        refine (abs_add_le _ _).trans ?_
        have := A.err
        linarith
      refine (mul_le_mul t3 hinv (by positivity) (by positivity)).trans ?_
      have s1 := nn_small hε hn' hn
      have s2 := nn_small hε hn' hn'
      calc (n * ε + n' * ε) * m * ((1 + 2 * (n' * ε)) / β)
          = (n * ε + n' * ε + (2 * (n' * ε * (n * ε)) + 2 * (n' * ε * (n' * ε)))) * (m / β) := by ring
        _ ≤ _ := by
          refine mul_le_mul_of_nonneg_right ?_ hq0
          linarith
    have h2 := abs_add_le (toR (a / b) - toR a / toR b) (toR a / toR b - α / β)
    rw [sub_add_sub_cancel] at h2
    have h5 : uu * |toR a / toR b| ≤ uu * (5 / 4 * (m / β)) := mul_le_mul_of_nonneg_left hab hu.le
    have h6 : 16 * (uu * (m / β)) ≤ ε * (m / β) := by
      rw [← mul_assoc]; exact mul_le_mul_of_nonneg_right hε.low hq0
    have h7 : 0 ≤ ε * (m / β) := by positivity
    push_cast
    nlinarith

theorem sqrt (hε : RUnit ε) (A : Rl ε a α α (2 * n) l h) (hα : 0 < α) (hn : 2 * n ≤ 400 := by norm_num)
    (hl : l ≤ 1000 := by norm_num) (hh : h ≤ 1000 := by norm_num) :
    Rl ε a.sqrt (√α) (√α) (n + 1) l h := by
  have hp := RUnit.pos hε
  have hu := uu_pos
  obtain ⟨ha1, ha2, ha0⟩ := A.rel_bounds hε hα hn
  obtain ⟨hA1, hA2⟩ := A.pos_bounds hα
  have hs : 0 < √α := Real.sqrt_pos.2 hα
  have hs2 := Real.sq_sqrt hα.le
  have p1 : (1 : ℝ) ≤ 2 ^ h := one_le_pow₀ (by norm_num)
  have p2 : (1 : ℝ) ≤ 2 ^ l := one_le_pow₀ (by norm_num)
  have hup : √α ≤ 2 ^ h := by
    rcases le_or_gt (√α) 1 with h1 | h1
    · exact h1.trans p1
    · nlinarith
  have hlow : 1 ≤ 2 ^ l * √α := by
    rcases le_or_gt (√α) 1 with h1 | h1
    · have : α ≤ √α := by nlinarith
      exact hA1.trans (by gcongr)
    · nlinarith
  have hK := n_small hε hn
  have hKK := nn_small hε hn hn
  have hK0 : 0 ≤ ((2 * n : ℕ) : ℝ) * ε := by positivity
  have hsa := Real.sqrt_nonneg (toR a)
  have hsa2 := Real.sq_sqrt ha0.le
  have hlow2 : (1 - ((2 * n : ℕ) : ℝ) * ε) * √α ≤ √(toR a) := by
    refine Real.le_sqrt_of_sq_le ?_
    rw [mul_pow, hs2]
    refine le_trans (mul_le_mul_of_nonneg_right ?_ hα.le) ha1
    nlinarith
  have hd : |√(toR a) - √α| ≤ (n * ε + ε / 6) * √α := by
    have e1 : (√(toR a) - √α) * (√(toR a) + √α) = toR a - α := by nlinarith
    have e2 := A.err
    rw [← e1, abs_mul, abs_of_pos (by positivity : 0 < √(toR a) + √α)] at e2
    have h3 : |√(toR a) - √α| * ((2 - ((2 * n : ℕ) : ℝ) * ε) * √α) ≤ ((2 * n : ℕ) : ℝ) * ε * α := by
      refine le_trans ?_ e2
      refine mul_le_mul_of_nonneg_left (by linarith) (abs_nonneg _)
    generalize |√(toR a) - √α| = X at h3 ⊢
    push_cast at h3 hK hK0 hKK
    have h4 : X * (2 - 2 * n * ε) ≤ 2 * n * ε * √α := by
      refine le_of_mul_le_mul_right ?_ hs
      calc X * (2 - 2 * n * ε) * √α = X * ((2 - 2 * n * ε) * √α) := by ring
        _ ≤ 2 * n * ε * α := h3
        _ = 2 * n * ε * √α * √α := by rw [mul_assoc _ √α √α, ← pow_two, hs2]
    have h5 : 2 * n * ε * √α ≤ (n * ε + ε / 6) * √α * (2 - 2 * n * ε) := by
      have : 2 * n * ε ≤ (n * ε + ε / 6) * (2 - 2 * n * ε) := by
        have a1 : (n * ε) * (n * ε) ≤ ε / 24 := by nlinarith
        have a2 : ε / 6 * (2 * n * ε) ≤ ε / 6 * (1 / 2500) := mul_le_mul_of_nonneg_left hK (by linarith)
        nlinarith
      nlinarith
    exact le_of_mul_le_mul_right (h4.trans h5) (by norm_num at hK; linarith)
  have hsl : √(toR a) ≤ 5 / 4 * √α := by
    have := (abs_le.1 hd).2
    have h8 := hε.high
    push_cast at hK
    norm_num at hK h8
    nlinarith
  obtain ⟨hf, he⟩ := sqrt_ok A.fin ha0 ((hsl.trans (by linarith)).trans (pow_le_1022 hup (by omega)))
  refine ⟨hf, by rw [abs_of_pos hs], ?_, Or.inr ⟨hlow, hup⟩⟩
  have het := eta_small hlow hl
  have h2 := abs_add_le (toR a.sqrt - √(toR a)) (√(toR a) - √α)
  rw [sub_add_sub_cancel] at h2
  have h5 : uu * √(toR a) ≤ uu * (5 / 4 * √α) := mul_le_mul_of_nonneg_left hsl hu.le
  have h6 : 16 * (uu * √α) ≤ ε * √α := by
    rw [← mul_assoc]; exact mul_le_mul_of_nonneg_right hε.low hs.le
  push_cast
  nlinarith

/-- `powi` with exponent 2. -/
theorem sq [Libm] (hε : RUnit ε) (hL : LibmAccurate) (A : Rl ε a α α n l h) (hα : 0 < α) (hn : n ≤ 400 := by norm_num)
    (hl : 2 * l ≤ 890 := by norm_num) (hh : 2 * h ≤ 890 := by norm_num) :
    Rl ε (Libm.powi a 2) (α ^ 2) (α ^ 2) (2 * n + 1) (2 * l) (2 * h) := by
  have hp := RUnit.pos hε
  have hu := uu_pos
  obtain ⟨ha1, ha2, ha0⟩ := A.rel_bounds hε hα hn
  obtain ⟨hA1, hA2⟩ := A.pos_bounds hα
  have hK := n_small hε hn
  have hKK := nn_small hε hn hn
  have hK0 : 0 ≤ (n : ℝ) * ε := by positivity
  have hα2 : 0 < α ^ 2 := by positivity
  have b1 : 1 ≤ 2 ^ (2 * l) * α ^ 2 := by
    rw [mul_comm 2 l, pow_mul, ← mul_pow]; exact one_le_pow₀ hA1
  have b2 : α ^ 2 ≤ 2 ^ (2 * h) := by
    rw [mul_comm 2 h, pow_mul]; exact pow_le_pow_left₀ hα.le hA2 2
  have lo : α ^ 2 / 2 ≤ toR a ^ 2 := by
    have : (1 - n * ε) ^ 2 * α ^ 2 ≤ toR a ^ 2 := by
      rw [← mul_pow]; exact pow_le_pow_left₀ (mul_nonneg (by norm_num at hK; linarith) hα.le) ha1 2
    refine le_trans ?_ this
    have h9 : 1 / 2 ≤ (1 - n * ε) ^ 2 := by norm_num at hK; nlinarith
    nlinarith
  have hi : toR a ^ 2 ≤ 2 * α ^ 2 := by
    have : toR a ^ 2 ≤ (1 + n * ε) ^ 2 * α ^ 2 := by
      rw [← mul_pow]; exact pow_le_pow_left₀ ha0.le ha2 2
    refine this.trans ?_
    have h9 : (1 + n * ε) ^ 2 ≤ 2 := by norm_num at hK; nlinarith
    nlinarith
  obtain ⟨hf, he⟩ := hL.powi a 2 A.fin le_rfl (by norm_num) (Or.inr (by
    rw [abs_of_pos ha0]
    constructor
    · refine le_trans ?_ lo
      have : (2 : ℝ) ^ (2 * l) ≤ 2 ^ 890 := pow_le_pow_right₀ (by norm_num) hl
      have h9 : 1 ≤ 2 ^ 890 * α ^ 2 := b1.trans (mul_le_mul_of_nonneg_right this hα2.le)
      have e : (2 : ℝ) ^ 900 = 2 ^ 890 * 1024 := by rw [show (1024 : ℝ) = 2 ^ 10 by norm_num, ← pow_add]
      rw [e]
      generalize (2 : ℝ) ^ 890 = X at h9
      have hX : 0 < X := by
        by_contra hc
        have : X * α ^ 2 ≤ 0 := mul_nonpos_of_nonpos_of_nonneg (not_lt.1 hc) hα2.le
        linarith
      rw [div_le_iff₀ (by positivity)]
      nlinarith
    · refine hi.trans ?_
      have : (2 : ℝ) ^ (2 * h) ≤ 2 ^ 890 := pow_le_pow_right₀ (by norm_num) hh
      have e : (2 : ℝ) ^ 900 = 2 ^ 890 * 1024 := by rw [show (1024 : ℝ) = 2 ^ 10 by norm_num, ← pow_add]
      have h9 : α ^ 2 ≤ 2 ^ 890 := b2.trans this
      rw [e]
      generalize (2 : ℝ) ^ 890 = X at h9
      linarith))
  refine ⟨hf, by rw [abs_of_pos hα2], ?_, Or.inr ⟨b1, b2⟩⟩
  rw [abs_of_pos ha0] at he
  have h1 : |toR a ^ 2 - α ^ 2| ≤ (2 * (n * ε) + n * ε * (n * ε)) * α ^ 2 := by
    have e1 : toR a ^ 2 - α ^ 2 = (toR a - α) * (toR a + α) := by ring
    have : toR a + α ≤ (2 + n * ε) * α := by linarith
    rw [e1, abs_mul, abs_of_pos (by linarith : 0 < toR a + α)]
    refine (mul_le_mul A.err this (by linarith) (by positivity)).trans (le_of_eq (by ring))
  have h2 := abs_add_le (toR (Libm.powi a 2) - toR a ^ 2) (toR a ^ 2 - α ^ 2)
  rw [sub_add_sub_cancel] at h2
  have h8 : (1 : ℝ) / 2 ^ 50 = 8 * uu := by rw [uu_eq]; norm_num
  rw [h8] at he
  have h5 : 8 * uu * toR a ^ 2 ≤ ε / 2 * (1 + 1 / 1000) * α ^ 2 := by
    have : toR a ^ 2 ≤ (1 + 1 / 1000) * α ^ 2 := by
      have : toR a ^ 2 ≤ (1 + n * ε) ^ 2 * α ^ 2 := by
        rw [← mul_pow]; exact pow_le_pow_left₀ ha0.le ha2 2
      refine this.trans (mul_le_mul_of_nonneg_right ?_ hα2.le)
      norm_num at hK ⊢
      nlinarith
    have h3 := hε.low
    calc 8 * uu * toR a ^ 2 ≤ ε / 2 * ((1 + 1 / 1000) * α ^ 2) :=
          mul_le_mul (by linarith) this (by positivity) (by linarith)
      _ = _ := by ring
  have h6 : n * ε * (n * ε) * α ^ 2 ≤ ε / 6 * α ^ 2 := mul_le_mul_of_nonneg_right hKK hα2.le
  have h7 : 0 ≤ ε * α ^ 2 := by positivity
  push_cast
  nlinarith

end Rl

end Aga8.F64
