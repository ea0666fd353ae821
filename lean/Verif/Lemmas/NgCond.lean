import Verif.Lemmas.NgHeat

/-! # How natural gas is conditioned up to 1 mol/l -/

set_option linter.unusedSectionVars false

namespace Aga8.Detail.Ng

open FOps Tab Finset

theorem chk_d : s1 (112 / 1000) ≤ 18 / 1000 ∧ s2 (112 / 1000) ≤ 60 / 1000 ∧ s3 (112 / 1000) ≤ 96 / 1000 ∧ s4 (112 / 1000) ≤ 140 / 1000 := by
  decide +kernel

section
variable [Libm] {x : Fin 21 → ℝ} (h : Eos.NormalGas x) {D T : ℝ} (h1 : 263 ≤ T) (h2 : T ≤ 400) (hD : 0 ≤ D) (hd : D ≤ 1)
include h h1 h2 hD hd

/-- The compression factor and the slope up to 1 mol/l. -/
theorem ng_unit : 0.85 ≤ Eos.Z x D T ∧ Eos.Z x D T ≤ 1.05 ∧ 0.64 ≤ Eos.dPdD x D T ∧ Eos.dPdD x D T ≤ 1.2 ∧ Eos.Zabs x D T ≤ 1.54 ∧
    Eos.dPdDabs x D T ≤ 2.22 := by
  obtain ⟨p1, p2, p3, p4⟩ := parts h h1 h2 hD (KD_le h h1 h2 hD (R := 112 / 1000) hd (by norm_num)) (by norm_num)
  obtain ⟨c1, c2, c3, c4⟩ := chk_d
  obtain ⟨a, b⟩ := abs_le.1 (p1.trans (cast_le' c1 (r := 0.018) (by norm_num)))
  obtain ⟨a', b'⟩ := abs_le.1 (p2.trans (cast_le' c2 (r := 0.060) (by norm_num)))
  have p3' := p3.trans (cast_le' c3 (r := 0.096) (by norm_num))
  have p4' := p4.trans (cast_le' c4 (r := 0.140) (by norm_num))
  obtain ⟨b1, b2, b3⟩ := DB_range h h1 h2 hD
  norm_num at a b b1 b2 b3 a' b' p3' p4' hd ⊢
  refine ⟨by linarith, by linarith, by linarith, by linarith, by linarith, by linarith⟩

theorem weighted : ∑ n, (v1 n : ℝ) * taZ x D T n ≤ 0.401 ∧ ∑ n, (v2 n : ℝ) * ta x D T n ≤ 1.267 ∧ ∑ n, taZ x D T n ≤ 0.538 := by
  have hR := KD_le h h1 h2 hD (R := 112 / 1000) hd (by norm_num)
  have q1 := B_weight v1_nonneg v1_ab v1_ex (fun i j => (v_symm i j).1) h h1 h2 v1_quad
  have q2 := B_weight v2_nonneg v2_ab v2_ex (fun i j => (v_symm i j).2) h h1 h2 v2_quad
  have q3 : ∑ n : Fin 58 with n.1 < 18, (((fun _ => 1 : Fin 58 → ℚ) n : ℚ) : ℝ) * bp x T n ≤ 0.442 := by
    simp only [Rat.cast_one, one_mul]
    exact (B_range h h1 h2).2.2
  have w1 := (weight_sum h h1 h2 hD hR v1_nonneg q1).1
  have w2 := (weight_sum h h1 h2 hD hR v2_nonneg q2).2
  have w3 := (weight_sum h h1 h2 hD hR (w := fun _ => 1) (fun _ => by norm_num) q3).1
  have k1 := (Rat.cast_le (K := ℝ)).2 v1_C
  have k2 := (Rat.cast_le (K := ℝ)).2 v2_C
  have k3 := (Rat.cast_le (K := ℝ)).2 chk_d.2.2.1
  simp only [Rat.cast_one, one_mul] at w3
  have e : (∑ n : Fin 58 with 12 ≤ n.1, cB n * mza (112 / 1000) n) = s3 (112 / 1000) := rfl
  rw [e] at w3
  generalize ((∑ n : Fin 58 with 12 ≤ n.1, v1 n * (cB n * mza (112 / 1000) n) : ℚ) : ℝ) = a1 at *
  generalize ((∑ n : Fin 58 with 12 ≤ n.1, v2 n * (cB n * ma (112 / 1000) n) : ℚ) : ℝ) = a2 at *
  generalize ((s3 (112 / 1000) : ℚ) : ℝ) = a3 at *
  push_cast at k1 k2 k3 w1 w2
  norm_num at w1 w2 w3 k1 k2 k3 ⊢
  refine ⟨by linarith, by linarith, by linarith⟩

theorem sums_ng :
    ∑ n, (|Eos.c UN n| + 1) * |Eos.c UN n| * ta x D T n ≤ 3.15 ∧
    ∑ n, (|Eos.c UN n| + 1) * taZ x D T n ≤ 1.48 ∧
    |∑ n, (Eos.c UN n - 1) * Eos.c UN n * tv x D T n| ≤ 1.267 ∧
    |∑ n, (Eos.c UN n - 1) * tvZ x D T n| ≤ 0.401 := by
  obtain ⟨w1, w2, w3⟩ := weighted h h1 h2 hD hd
  have t := ta_bounds h h1 h2 hD
  have t0 : ∀ n, 0 ≤ ta x D T n := fun n => (abs_nonneg _).trans (t n).1
  have z0 : ∀ n, 0 ≤ taZ x D T n := fun n => (t0 n).trans (t n).2.2
  have e1 : ∀ n, (v1 n : ℝ) = |Eos.c UN n - 1| := fun n => by rw [c_u2]; unfold v1; push_cast; rfl
  have e2 : ∀ n, (v2 n : ℝ) = |Eos.c UN n - 1| * |Eos.c UN n| := fun n => by rw [c_u2]; unfold v2; push_cast; rfl
  simp only [e1] at w1
  simp only [e2] at w2
  have u : ∀ n, |Eos.c UN n| ≤ |Eos.c UN n - 1| + 1 := fun n => by
    have := abs_add_le (Eos.c UN n - 1) 1
    rwa [sub_add_cancel, abs_one] at this
  refine ⟨?_, ?_, ?_, ?_⟩
  · have : ∑ n, (|Eos.c UN n| + 1) * |Eos.c UN n| * ta x D T n ≤ ∑ n, (|Eos.c UN n - 1| * |Eos.c UN n| * ta x D T n
        + (2 * (|Eos.c UN n - 1| * taZ x D T n) + 2 * taZ x D T n)) := by
      refine sum_le_sum fun n _ => ?_
      have a := abs_nonneg (Eos.c UN n)
      have b := abs_nonneg (Eos.c UN n - 1)
      have p := mul_le_mul_of_nonneg_right (mul_le_mul_of_nonneg_right (u n) a) (t0 n)
      have q := mul_le_mul_of_nonneg_right (u n) (t0 n)
      have r := mul_le_mul_of_nonneg_left (t n).2.2 b
      have s := (t n).2.2
      generalize |Eos.c UN n| = U at *
      generalize |Eos.c UN n - 1| = V at *
      linarith
    rw [sum_add_distrib, sum_add_distrib, ← mul_sum, ← mul_sum] at this
    norm_num at *
    linarith
  · have : ∑ n, (|Eos.c UN n| + 1) * taZ x D T n ≤ ∑ n, (|Eos.c UN n - 1| * taZ x D T n + 2 * taZ x D T n) := by
      refine sum_le_sum fun n _ => ?_
      have q := mul_le_mul_of_nonneg_right (u n) (z0 n)
      linarith
    rw [sum_add_distrib, ← mul_sum] at this
    norm_num at *
    linarith
  · refine (abs_sum_le_sum_abs _ _).trans ((sum_le_sum fun n _ => ?_).trans w2)
    rw [abs_mul, abs_mul]
    exact mul_le_mul_of_nonneg_left (t n).1 (by positivity)
  · refine (abs_sum_le_sum_abs _ _).trans ((sum_le_sum fun n _ => ?_).trans w1)
    rw [abs_mul]
    exact mul_le_mul_of_nonneg_left (t n).2.1 (by positivity)

end

/-- The last step: reals only. -/
theorem ng_finish {D T z y1 y2 d za da C V P : ℝ} (D0 : 0 < D) (hD : 1e-4 ≤ D) (D1 : D ≤ 1) (T1 : 263 ≤ T) (T2 : T ≤ 400)
    (z1 : 0.85 ≤ z) (z2 : z ≤ 1.05) (d1 : 0.64 ≤ d) (d2 : d ≤ 1.2) (z3 : za ≤ 1.54) (d3 : da ≤ 2.22)
    (h1 : -0.401 ≤ y1 ∧ y1 ≤ 0.401) (h2 : -1.267 ≤ y2 ∧ y2 ≤ 1.267) (i1 : 2.42 ≤ C) (i3 : C ≤ 130)
    (j3 : V ≤ 8.31451 * (4.43 * C + 3.15)) (j4 : P ≤ D * 8.31451 * (1 + 1.48)) :
    WellSized z za 13 ∧ WellSized (8.31451 * T * d) (8.31451 * T * da) 13 ∧
    WellSized (D * 8.31451 * (1 - y1)) P 13 ∧ WellSized (8.31451 * (C - y2)) V 13 := by
  norm_num at z1 z2 d1 d2 z3 d3 h1 h2 i1 j3 j4 hD ⊢
  have a1 : 263 * (16 / 25) ≤ T * d := mul_le_mul T1 d1 (by norm_num) (by linarith)
  have a2 : T * d ≤ 400 * 2 := mul_le_mul T2 (by linarith) (by linarith) (by norm_num)
  have a3 : D * (1 / 2) ≤ D * (1 - y1) := mul_le_mul_of_nonneg_left (by linarith) D0.le
  have a4 : D * (1 - y1) ≤ D * 2 := mul_le_mul_of_nonneg_left (by linarith) D0.le
  have a5 : T * da ≤ T * (4 * d) := mul_le_mul_of_nonneg_left (by linarith) (by linarith)
  refine ⟨⟨?_, ?_, ?_⟩, ⟨?_, ?_, ?_⟩, ⟨?_, ?_, ?_⟩, ⟨?_, ?_, ?_⟩⟩
  all_goals linarith

/-- Natural gas from 263 K to 400 K up to 1 mol/l: nothing loses more than a factor 13 to cancellation. -/
theorem conditioned_ng [Libm] {x : Fin 21 → ℝ} (h : Eos.NormalGas x) (hs : 0.99 ≤ ∑ i, x i) {D T : ℝ} (h1 : 263 ≤ T) (h2 : T ≤ 400)
    (hD : 1e-4 ≤ D) (hd : D ≤ 1) : Eos.Conditioned x D T 13 := by
  have D0 : 0 < D := lt_of_lt_of_le (by norm_num) hD
  have T0 : 0 < T := by linarith
  obtain ⟨c1, c2, c3, c4, c5, c6⟩ := ng_unit h h1 h2 D0.le hd
  obtain ⟨s1, s2, s3, s4⟩ := sums_ng h h1 h2 D0.le hd
  obtain ⟨i1, i2, i3⟩ := ideal_ng h hs T0
  have pT : Eos.pressureT x D T = D * 8.31451 * (1 - ∑ n, (Eos.c UN n - 1) * tvZ x D T n) := by
    rw [pressureT_sum T0, Finset.sum_neg_distrib]
    simp only [mul_assoc, ← Finset.mul_sum]
    ring
  have hV : Eos.heatV x D T = 8.31451 * (-∑ i, iv2 T (x i) i - ∑ n, (Eos.c UN n - 1) * Eos.c UN n * tv x D T n) := by
    rw [heatV_sum h.nonneg (lt_of_lt_of_le (by norm_num) hD) T0]
    simp only [mul_assoc, ← Finset.mul_sum]
    ring
  have j3 : Eos.heatVAbs x D T ≤ 8.31451 * (4.43 * -∑ i, iv2 T (x i) i + 3.15) := by
    rw [heatVAbs_sum]
    have : ∑ n, 8.31451 * (|Eos.c UN n| + 1) * |Eos.c UN n| * ta x D T n
        = 8.31451 * ∑ n, (|Eos.c UN n| + 1) * |Eos.c UN n| * ta x D T n := by
      simp only [mul_assoc, ← Finset.mul_sum]
    rw [this, mul_comm _ (8.31451 : ℝ), ← mul_add]
    exact mul_le_mul_of_nonneg_left (add_le_add i3 s1) (by norm_num)
  have j4 : Eos.pressureTAbs x D T ≤ D * 8.31451 * (1 + 1.48) := by
    rw [pressureTAbs_sum]
    have : D * 8.31451 + D * ∑ n, 8.31451 * (|Eos.c UN n| + 1) * taZ x D T n
        = D * 8.31451 * (1 + ∑ n, (|Eos.c UN n| + 1) * taZ x D T n) := by
      simp only [mul_assoc, ← Finset.mul_sum]
      ring
    rw [this]
    exact mul_le_mul_of_nonneg_left (add_le_add le_rfl s2) (by positivity)
  have w := ng_finish (T := T) D0 hD hd h1 h2 c1 c2 c3 c4 c5 c6 (abs_le.1 s4) (abs_le.1 s3) i1 i2 j3 j4
  rw [← pT, ← hV] at w
  exact ⟨by norm_num, w.1, w.2.1, w.2.2.1, w.2.2.2⟩

theorem heat_ng [Libm] {x : Fin 21 → ℝ} (h : Eos.NormalGas x) (hs : 0.99 ≤ ∑ i, x i) {D T : ℝ} (h1 : 263 ≤ T) (h2 : T ≤ 400)
    (hD : 1e-4 ≤ D) (hd : D ≤ 1) : 8.31451 * 1.15 ≤ Eos.heatV x D T := by
  have D0 : 0 < D := lt_of_lt_of_le (by norm_num) hD
  have T0 : 0 < T := by linarith
  obtain ⟨-, -, s3, -⟩ := sums_ng h h1 h2 D0.le hd
  obtain ⟨i1, -, -⟩ := ideal_ng h hs T0
  have hV : Eos.heatV x D T = 8.31451 * (-∑ i, iv2 T (x i) i - ∑ n, (Eos.c UN n - 1) * Eos.c UN n * tv x D T n) := by
    rw [heatV_sum h.nonneg (lt_of_lt_of_le (by norm_num) hD) T0]
    simp only [mul_assoc, ← Finset.mul_sum]
    ring
  rw [hV]
  have := (abs_le.1 s3).2
  norm_num at *
  linarith

/-- Reals only: the range of the density found. -/
theorem near_ng {a d D0 : ℝ} (ha : 0 < a) (dp : 0 < d) (lx : |Real.log a - Real.log d| ≤ 7.2e-8) (d1 : 3e-4 ≤ D0)
    (h1 : D0 * Real.exp (-0.34) ≤ d) (h2 : d ≤ 0.93) : 1e-4 ≤ a ∧ a ≤ 1 := by
  have hl : 0.009 ≤ Real.log 1.01 := by
    have := Real.one_sub_inv_le_log_of_pos (show (0 : ℝ) < 1.01 by norm_num)
    norm_num at this ⊢
    linarith
  obtain ⟨l1, l2⟩ := abs_le.1 lx
  have ed1 : a ≤ d * 1.01 := by
    refine (Real.log_le_log_iff ha (by positivity)).1 ?_
    rw [Real.log_mul dp.ne' (by norm_num)]
    norm_num at hl l2
    norm_num
    linarith
  have ed2 : d ≤ a * 1.01 := by
    refine (Real.log_le_log_iff dp (by positivity)).1 ?_
    rw [Real.log_mul ha.ne' (by norm_num)]
    norm_num at hl l1
    norm_num
    linarith
  have ex : 0.66 ≤ Real.exp (-0.34) := by
    have := Real.add_one_le_exp (-0.34 : ℝ)
    norm_num at this ⊢
    linarith
  have := mul_le_mul d1 ex (by norm_num) (by norm_num at d1; linarith)
  norm_num at *
  constructor <;> linarith

end Aga8.Detail.Ng
