import Verif.Lemmas.NgMix
import Verif.Lemmas.DetailErrLow

/-! # The higher terms of the DETAIL equation for natural gas -/

set_option linter.unusedSectionVars false

namespace Aga8.Detail.Ng

open FOps Tab Finset

/-- The size of the coefficient of term `n`. -/
def thq (n : Fin 58) : ℚ := if 0 ≤ u2 n then (899 / 1000) ^ u2 n else (522 / 1000) ^ u2 n
def cB (n : Fin 58) : ℚ :=
  |aq n| * flq (27 / 100) (aget GN n) * flq (433 / 10000) (aget QN n) * flq (101 / 10000) (aget FN n) * thq n

theorem flag_le {b b' : ℝ} {q : ℚ} (h0 : 0 ≤ b) (h1 : b ≤ b') (h2 : b' = (q : ℝ)) {k : ℕ} (hk : k = 0 ∨ k = 1) :
    0 ≤ Eos.flag b k ∧ Eos.flag b k ≤ (flq q k : ℝ) := by
  unfold Eos.flag flq
  rcases hk with rfl | rfl
  · norm_num
  · subst h2; norm_num; exact ⟨h0, h1⟩

section
variable {x : Fin 21 → ℝ} (h : Eos.NormalGas x)
include h

theorem Cstar_le (n : Fin 58) : |Eos.Cstar x n| ≤ Eos.Cabs x n := by
  obtain ⟨g1, g2⟩ := Gabs_le h
  obtain ⟨f1, f2, f3, -, -⟩ := flags01 n
  have u := (U_range h).1
  have q := (flag_le (sq_nonneg (Eos.Q x)) (Q_le h) (q := 433 / 10000) (by norm_num) f2).1
  have f := (flag_le (F_le h).1 (F_le h).2 (q := 101 / 10000) (by norm_num) f3).1
  have u0 : 0 ≤ Eos.U x ^ Eos.c UN n := Real.rpow_nonneg (by linarith) _
  unfold Eos.Cstar Eos.Cabs
  unfold aget at q f
  rw [abs_mul, abs_mul, abs_mul, abs_mul, abs_of_nonneg q, abs_of_nonneg f, abs_of_nonneg u0]
  refine mul_le_mul_of_nonneg_right (mul_le_mul_of_nonneg_right (mul_le_mul_of_nonneg_right
    (mul_le_mul_of_nonneg_left ?_ (abs_nonneg _)) q) f) u0
  unfold Eos.flag
  unfold aget at f1
  rcases f1 with e | e <;> rw [e] <;> simp
  exact g1

variable {T : ℝ} (h1 : 263 ≤ T) (h2 : T ≤ 400)
include h1 h2

theorem Cabs_ng (n : Fin 58) : 0 ≤ Eos.Cabs x n * T ^ (-Eos.c UN n) ∧ Eos.Cabs x n * T ^ (-Eos.c UN n) ≤ (cB n : ℝ) := by
  have T0 : 0 < T := by linarith
  obtain ⟨g1, g2⟩ := Gabs_le h
  obtain ⟨f1, f2, f3, -, -⟩ := flags01 n
  obtain ⟨u1, u2'⟩ := U_range h
  have U0 : 0 < Eos.U x := by linarith
  obtain ⟨a0, a1⟩ := flag_le ((abs_nonneg _).trans g1) g2 (q := 27 / 100) (by norm_num) f1
  obtain ⟨q0, q1⟩ := flag_le (sq_nonneg (Eos.Q x)) (Q_le h) (q := 433 / 10000) (by norm_num) f2
  obtain ⟨b0, b1⟩ := flag_le (F_le h).1 (F_le h).2 (q := 101 / 10000) (by norm_num) f3
  have hs : 0 < √(Eos.U x / T) := Real.sqrt_pos.2 (div_pos U0 T0)
  have e : Eos.U x ^ Eos.c UN n * T ^ (-Eos.c UN n) = √(Eos.U x / T) ^ u2 n := by
    rw [← rpow_half hs, Real.sq_sqrt (div_pos U0 T0).le, ← c_UN, Real.div_rpow U0.le T0.le, Real.rpow_neg T0.le, div_eq_mul_inv]
  have s1 : √(Eos.U x / T) ≤ 899 / 1000 := by
    rw [Real.sqrt_le_left (by norm_num), div_le_iff₀ T0]
    norm_num at u2' ⊢
    linarith
  have s2 : 522 / 1000 ≤ √(Eos.U x / T) := by
    refine Real.le_sqrt_of_sq_le ?_
    rw [le_div_iff₀ T0]
    norm_num
    linarith
  have t : 0 ≤ √(Eos.U x / T) ^ u2 n ∧ √(Eos.U x / T) ^ u2 n ≤ (thq n : ℝ) := by
    refine ⟨zpow_nonneg hs.le _, ?_⟩
    unfold thq
    split
    · rename_i k; push_cast; exact zpow_up hs.le s1 k
    · rename_i k; push_cast; exact zpow_down (by norm_num) s2 k
  have r : Eos.Cabs x n * T ^ (-Eos.c UN n) = |(aq n : ℝ)| * Eos.flag (Eos.Gabs x) (aget GN n) * Eos.flag (Eos.Q x ^ 2) (aget QN n)
      * Eos.flag (Eos.Fhigh x) (aget FN n) * √(Eos.U x / T) ^ u2 n := by
    rw [← e]
    unfold Eos.Cabs aq aget
    rw [c_cq]
    ring
  rw [r]
  have x1 := mul_nonneg (abs_nonneg (aq n : ℝ)) a0
  have x2 := mul_nonneg x1 q0
  have x3 := mul_nonneg x2 b0
  refine ⟨mul_nonneg x3 t.1, ?_⟩
  unfold cB
  push_cast
  have y1 := mul_le_mul_of_nonneg_left a1 (abs_nonneg (aq n : ℝ))
  have y2 := mul_le_mul y1 q1 q0 (x1.trans y1)
  have y3 := mul_le_mul y2 b1 b0 (x2.trans y2)
  exact mul_le_mul y3 t.2 t.1 (x3.trans y3)

end

/-! ## The parts of the terms up to the reduced density `R` -/

section
variable (R : ℚ) (n : Fin 58)

def yq : ℚ := ((aget KN n : ℕ) : ℚ) * R ^ aget KN n
/-- The compression factor without the linear part. -/
def mz : ℚ := if n.1 < 18 then (((aget KN n : ℕ) : ℚ) + 1) * R ^ (aget KN n + 1) else (((aget BN n : ℕ) : ℚ) + yq R n) * R ^ aget BN n
/-- The second derivative. -/
def m2 : ℚ :=
  if n.1 < 18 then (((aget KN n : ℕ) : ℚ) + ((aget KN n : ℕ) : ℚ) * ((aget KN n : ℕ) : ℚ)) * R ^ (aget KN n + 1)
  else ((((aget BN n : ℕ) : ℚ) + yq R n) * (((aget BN n : ℕ) : ℚ) + yq R n + 1) + ((aget KN n : ℕ) : ℚ) * yq R n) * R ^ aget BN n
/-- The sizes. -/
def mza : ℚ := (((aget BN n : ℕ) : ℚ) + yq R n) * R ^ aget BN n + if n.1 < 18 then R else 0
def m2a : ℚ :=
  ((((aget BN n : ℕ) : ℚ) + yq R n) * (((aget BN n : ℕ) : ℚ) + yq R n + 1) + ((aget KN n : ℕ) : ℚ) * yq R n) * R ^ aget BN n

end

theorem low_kb : ∀ n : Fin 58, 12 ≤ n.1 → n.1 < 18 → aget BN n = 1 ∧ 1 ≤ aget KN n ∧ aget KN n ≤ 4 := by decide +kernel

section
variable {C : Fin 58 → ℝ} {r T : ℝ} {R : ℚ} (r0 : 0 ≤ r) (rR : r ≤ (R : ℝ)) (R1 : R ≤ 1 / 4)
include r0 rR

theorem y_le (n : Fin 58) : 0 ≤ ((aget KN n : ℕ) : ℝ) * r ^ aget KN n ∧ ((aget KN n : ℕ) : ℝ) * r ^ aget KN n ≤ (yq R n : ℝ) := by
  refine ⟨by positivity, ?_⟩
  unfold yq
  push_cast
  exact mul_le_mul_of_nonneg_left (pow_le_pow_left₀ r0 rR _) (Nat.cast_nonneg _)

theorem zExp_abs_le {c : ℝ} {n : Fin 58} (hn : 12 ≤ n.1) (hc0 : 0 ≤ C n * T ^ (-Eos.c UN n)) (hc : C n * T ^ (-Eos.c UN n) ≤ c) :
    zExp C 1 r T n ≤ c * ((((aget BN n : ℕ) : ℝ) + yq R n) * (R : ℝ) ^ aget BN n) ∧ zExp2 C 1 r T n ≤ c * (m2a R n : ℝ) := by
  obtain ⟨y0, y1⟩ := y_le r0 rR n
  have e0 := (expK_pos (aget KN n) r).le
  have e1 := expK_le (aget KN n) r0
  have b0 : (0 : ℝ) ≤ ((aget BN n : ℕ) : ℝ) := Nat.cast_nonneg _
  have k0 : (0 : ℝ) ≤ ((aget KN n : ℕ) : ℝ) := Nat.cast_nonneg _
  have p := pow_le_pow_left₀ r0 rR (aget BN n)
  have p0 := pow_nonneg r0 (aget BN n)
  have q : r ^ aget BN n * expK (aget KN n) r ≤ (R : ℝ) ^ aget BN n := by
    calc _ ≤ r ^ aget BN n * 1 := mul_le_mul_of_nonneg_left e1 p0
      _ ≤ _ := by rw [mul_one]; exact p
  have q0 : 0 ≤ r ^ aget BN n * expK (aget KN n) r := mul_nonneg p0 e0
  have key : ∀ {u v : ℝ}, 0 ≤ u → u ≤ v → C n * T ^ (-Eos.c UN n) * (u * (r ^ aget BN n * expK (aget KN n) r)) ≤ c * (v * (R : ℝ) ^ aget BN n) :=
    fun u0 uv => mul_le_mul hc (mul_le_mul uv q q0 (u0.trans uv)) (mul_nonneg u0 q0) (hc0.trans hc)
  constructor
  · unfold zExp
    rw [if_pos hn]
    refine le_trans (le_of_eq ?_) (key (u := ((aget BN n : ℕ) : ℝ) + ((aget KN n : ℕ) : ℝ) * r ^ aget KN n) (by linarith) (by linarith))
    ring
  · unfold zExp2 m2a
    rw [if_pos hn]
    push_cast
    refine le_trans (le_of_eq ?_) (key (u := (((aget BN n : ℕ) : ℝ) + ((aget KN n : ℕ) : ℝ) * r ^ aget KN n)
      * (((aget BN n : ℕ) : ℝ) + ((aget KN n : ℕ) : ℝ) * r ^ aget KN n + 1) + ((aget KN n : ℕ) : ℝ) * (((aget KN n : ℕ) : ℝ) * r ^ aget KN n))
      (by positivity) ?_)
    · ring
    · refine add_le_add (mul_le_mul (by linarith) (by linarith) (by linarith) (by linarith)) (mul_le_mul_of_nonneg_left y1 k0)

include R1

/-- The terms with the linear part subtracted. -/
theorem zExp_low {n : Fin 58} (hn : 12 ≤ n.1) (h18 : n.1 < 18) {c : ℝ} (hc : |C n * T ^ (-Eos.c UN n)| ≤ c) :
    |zExp C (-1) r T n - C n * T ^ (-Eos.c UN n) * r| ≤ c * (mz R n : ℝ) ∧ |zExp2 C (-1) r T n| ≤ c * (m2 R n : ℝ) := by
  obtain ⟨hb, k1, k4⟩ := low_kb n hn h18
  have k1' : (1 : ℝ) ≤ ((aget KN n : ℕ) : ℝ) := by exact_mod_cast k1
  have k4' : ((aget KN n : ℕ) : ℝ) ≤ 4 := by exact_mod_cast k4
  have c0 := (abs_nonneg _).trans hc
  have hR : (R : ℝ) ≤ 1 / 4 := by have := (Rat.cast_le (K := ℝ)).2 R1; push_cast at this; exact this
  have hk : aget KN n ≠ 0 := by omega
  unfold zExp zExp2 mz m2
  rw [if_pos hn, if_pos hn, if_pos h18, if_pos h18, hb]
  unfold expK
  rw [if_neg hk]
  push_cast
  have w : (((R : ℝ)) ^ (aget KN n + 1)) = (R : ℝ) ^ aget KN n * R := pow_succ _ _
  rw [w]
  have y0 : 0 ≤ r ^ aget KN n := pow_nonneg r0 _
  have yR : r ^ aget KN n ≤ (R : ℝ) ^ aget KN n := pow_le_pow_left₀ r0 rR _
  have y1 : r ^ aget KN n ≤ 1 / 4 := by
    calc r ^ aget KN n ≤ r ^ 1 := pow_le_pow_of_le_one r0 (by linarith) k1
      _ ≤ 1 / 4 := by rw [pow_one]; linarith
  generalize ((aget KN n : ℕ) : ℝ) = k at *
  generalize r ^ aget KN n = y at *
  have E0 := Real.exp_pos (-y)
  have E1 : Real.exp (-y) ≤ 1 := by rw [Real.exp_le_one_iff]; linarith
  have E2 := Real.one_sub_le_exp_neg y
  have ky : k * y ≤ 1 := by nlinarith
  have ky0 : 0 ≤ k * y := by positivity
  have step : ∀ {u v : ℝ}, |u| ≤ v * y → 0 ≤ v → |C n * T ^ (-Eos.c UN n)| * (r * |u|) ≤ c * (v * ((R : ℝ) ^ aget KN n * R)) := by
    intro u v hu hv
    refine mul_le_mul hc ?_ (by positivity) c0
    calc r * |u| ≤ R * (v * (R : ℝ) ^ aget KN n) :=
          mul_le_mul rR (hu.trans (mul_le_mul_of_nonneg_left yR hv)) (abs_nonneg _) (r0.trans rR)
      _ = _ := by ring
  constructor
  · have e : C n * r ^ 1 * T ^ (-Eos.c UN n) * Real.exp (-y) * (1 + -1 * (k * y)) - C n * T ^ (-Eos.c UN n) * r
        = C n * T ^ (-Eos.c UN n) * (r * (Real.exp (-y) * (1 - k * y) - 1)) := by ring
    rw [e, abs_mul (C n * _), abs_mul r, abs_of_nonneg r0]
    refine step ?_ (by linarith)
    rw [abs_le]
    constructor <;> nlinarith
  · have e : C n * r ^ 1 * T ^ (-Eos.c UN n) * Real.exp (-y) * ((1 + -1 * (k * y)) * (1 + -1 * (k * y) + -1) + -1 * (k * k * y))
        = C n * T ^ (-Eos.c UN n) * (r * (-(Real.exp (-y) * ((1 - k * y) * (k * y) + k * (k * y))))) := by ring
    rw [e, abs_mul (C n * _), abs_mul r, abs_of_nonneg r0]
    refine step ?_ (by positivity)
    rw [abs_neg, abs_mul, abs_of_pos E0]
    have p0 : 0 ≤ (1 - k * y) * (k * y) + k * (k * y) := by
      have := mul_nonneg (sub_nonneg.2 ky) ky0
      positivity
    rw [abs_of_nonneg p0]
    have : Real.exp (-y) * ((1 - k * y) * (k * y) + k * (k * y)) ≤ 1 * ((1 - k * y) * (k * y) + k * (k * y)) :=
      mul_le_mul_of_nonneg_right E1 p0
    nlinarith

end

/-! ## The sums -/

def s1 (R : ℚ) : ℚ := ∑ n : Fin 58 with 12 ≤ n.1, cB n * mz R n
def s2 (R : ℚ) : ℚ := ∑ n : Fin 58 with 12 ≤ n.1, cB n * m2 R n
def s3 (R : ℚ) : ℚ := ∑ n : Fin 58 with 12 ≤ n.1, cB n * mza R n
def s4 (R : ℚ) : ℚ := ∑ n : Fin 58 with 12 ≤ n.1, cB n * m2a R n

variable [Libm]

theorem Z_split (x : Fin 21 → ℝ) (D T : ℝ) : Eos.Z x D T - 1 - D * Eos.B x T
    = ∑ n, (zExp (Eos.Cstar x) (-1) (Eos.Kcubed x * D) T n + zLin (fun _ => 0) (Eos.Cstar x) (-1) D (Eos.Kcubed x * D) T n) := by
  rw [z_sum]
  unfold Eos.Z
  simp only [zero_mul, dite_eq_ite, ite_self, sum_const_zero, mul_zero, neg_one_mul, ← sub_eq_add_neg]
  ring

theorem Zabs_split (x : Fin 21 → ℝ) (D T : ℝ) : Eos.Zabs x D T - 1 - D * Eos.Babs x T
    = ∑ n, (zExp (Eos.Cabs x) 1 (Eos.Kcubed x * D) T n + zLin (fun _ => 0) (Eos.Cabs x) 1 D (Eos.Kcubed x * D) T n) := by
  rw [z_sum]
  unfold Eos.Zabs
  simp only [zero_mul, dite_eq_ite, ite_self, sum_const_zero, mul_zero, one_mul]
  ring

theorem zLin_eq (C : Fin 58 → ℝ) (σ D r T : ℝ) (n : Fin 58) : zLin (fun _ => 0) C σ D r T n
    = if 12 ≤ n.1 ∧ n.1 < 18 then σ * (C n * T ^ (-Eos.c UN n) * r) else 0 := by
  unfold zLin
  by_cases a : n.1 ≤ 17
  · by_cases b : 12 ≤ n.1
    · rw [dif_pos a, if_pos b, if_pos ⟨b, by omega⟩]
      ring
    · rw [dif_pos a, if_neg b, if_neg fun h => b h.1]
      ring
  · rw [dif_neg a, if_neg fun h => a (by omega)]

theorem parts {x : Fin 21 → ℝ} (h : Eos.NormalGas x) {D T : ℝ} (h1 : 263 ≤ T) (h2 : T ≤ 400) {R : ℚ} (hD : 0 ≤ D)
    (hR : Eos.Kcubed x * D ≤ (R : ℝ)) (R1 : R ≤ 1 / 4) :
    |Eos.Z x D T - 1 - D * Eos.B x T| ≤ (s1 R : ℝ) ∧ |Eos.dPdD x D T - 1 - 2 * (Eos.Z x D T - 1)| ≤ (s2 R : ℝ) ∧
      Eos.Zabs x D T - 1 - D * Eos.Babs x T ≤ (s3 R : ℝ) ∧ Eos.dPdDabs x D T - 1 - 2 * (Eos.Zabs x D T - 1) ≤ (s4 R : ℝ) := by
  have T0 : 0 < T := by linarith
  have r0 : 0 ≤ Eos.Kcubed x * D := mul_nonneg (Kcubed_le h).1 hD
  have cc := Cabs_ng h h1 h2
  have cs : ∀ n, |Eos.Cstar x n * T ^ (-Eos.c UN n)| ≤ (cB n : ℝ) := fun n => by
    rw [abs_mul, abs_of_nonneg (Real.rpow_nonneg T0.le _)]
    exact (mul_le_mul_of_nonneg_right (Cstar_le h n) (Real.rpow_nonneg T0.le _)).trans (cc n).2
  refine ⟨?_, ?_, ?_, ?_⟩
  · rw [Z_split, s1, sum_filter]
    push_cast
    refine (abs_sum_le_sum_abs _ _).trans (sum_le_sum fun n _ => ?_)
    rw [zLin_eq]
    by_cases a : 12 ≤ n.1
    · rw [if_pos a]
      push_cast
      by_cases b : n.1 < 18
      · rw [if_pos ⟨a, b⟩, neg_one_mul, ← sub_eq_add_neg]
        exact (zExp_low r0 hR R1 a b (cs n)).1
      · rw [if_neg fun h => b h.2, add_zero]
        refine (abs_zExp (Cstar_le h) r0 T0 n).trans ((zExp_abs_le r0 hR a (cc n).1 (cc n).2).1.trans (le_of_eq ?_))
        unfold mz
        rw [if_neg b]
        push_cast
        rfl
    · rw [if_neg a, if_neg fun h => a h.1]
      unfold zExp
      rw [if_neg a]
      simp
  · have e : Eos.dPdD x D T - 1 - 2 * (Eos.Z x D T - 1) = ∑ n, zExp2 (Eos.Cstar x) (-1) (Eos.Kcubed x * D) T n := by
      rw [← dsum_dPdD]; ring
    rw [e, s2, sum_filter]
    push_cast
    refine (abs_sum_le_sum_abs _ _).trans (sum_le_sum fun n _ => ?_)
    by_cases a : 12 ≤ n.1
    · rw [if_pos a]
      push_cast
      by_cases b : n.1 < 18
      · exact (zExp_low r0 hR R1 a b (cs n)).2
      · refine (abs_zExp2 (Cstar_le h) r0 T0 n).trans ((zExp_abs_le r0 hR a (cc n).1 (cc n).2).2.trans (le_of_eq ?_))
        unfold m2 m2a
        rw [if_neg b]
    · rw [if_neg a]
      unfold zExp2
      rw [if_neg a]
      simp
  · rw [Zabs_split, s3, sum_filter]
    push_cast
    refine sum_le_sum fun n _ => ?_
    rw [zLin_eq]
    by_cases a : 12 ≤ n.1
    · rw [if_pos a]
      have k := (zExp_abs_le r0 hR a (cc n).1 (cc n).2).1
      unfold mza
      push_cast
      rw [mul_add]
      refine add_le_add k ?_
      by_cases b : n.1 < 18
      · rw [if_pos ⟨a, b⟩, if_pos b, one_mul]
        exact mul_le_mul (cc n).2 hR r0 ((cc n).1.trans (cc n).2)
      · rw [if_neg fun h => b h.2, if_neg b]
        simp
    · rw [if_neg a, if_neg fun h => a h.1]
      unfold zExp
      rw [if_neg a]
      simp
  · have e : Eos.dPdDabs x D T - 1 - 2 * (Eos.Zabs x D T - 1) = ∑ n, zExp2 (Eos.Cabs x) 1 (Eos.Kcubed x * D) T n := by
      rw [← dsum_dPdDabs]; ring
    rw [e, s4, sum_filter]
    push_cast
    refine sum_le_sum fun n _ => ?_
    by_cases a : 12 ≤ n.1
    · rw [if_pos a]
      push_cast
      exact (zExp_abs_le r0 hR a (cc n).1 (cc n).2).2
    · rw [if_neg a]
      unfold zExp2
      rw [if_neg a]
      simp

end Aga8.Detail.Ng
