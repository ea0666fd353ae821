import Verif.Lemmas.DetailErrLow
import Verif.Lemmas.DetailBoxChk

/-! # Methane at pipeline pressures: the rectangles of temperature and density cover the range -/

set_option linter.unusedSectionVars false

namespace Aga8.Detail

open FOps Tab F64 Newton

/-- A point between the first and the last of a list of numbers is between two neighbours. -/
theorem cover (f : ℕ → ℝ) {x : ℝ} : ∀ n, f 0 ≤ x → x ≤ f (n + 1) → ∃ i ≤ n, f i ≤ x ∧ x ≤ f (i + 1)
  | 0, h0, h1 => ⟨0, le_rfl, h0, h1⟩
  | n + 1, h0, h1 => by
    rcases le_total x (f (n + 1)) with h | h
    · obtain ⟨i, a, b⟩ := cover f n h0 h
      exact ⟨i, a.trans (Nat.le_succ n), b⟩
    · exact ⟨n + 1, le_rfl, h, h1⟩

theorem cover_from (f : ℕ → ℝ) {x : ℝ} {a b : ℕ} (hab : a ≤ b) (h0 : f a ≤ x) (h1 : x ≤ f (b + 1)) :
    ∃ i, a ≤ i ∧ i ≤ b ∧ f i ≤ x ∧ x ≤ f (i + 1) := by
  obtain ⟨k, rfl⟩ := Nat.exists_eq_add_of_le hab
  obtain ⟨i, h2, h3, h4⟩ := cover (fun i => f (a + i)) k h0 h1
  exact ⟨a + i, Nat.le_add_right _ _, by omega, h3, h4⟩

variable [Libm]

/-- What the rectangle `j` of strip `i` says. -/
theorem box_spec {T D : ℝ} {i j : ℕ} (hi : i < 36) (hj : j < nBox i) (e1 : 1.21 * mE ≤ T) (e2 : T ≤ 4 * mE)
    (s1 : (sQ i : ℝ) ^ 2 ≤ mE / T) (s2 : mE / T ≤ (sQ (i + 1) : ℝ) ^ 2)
    (r1 : (rQ j : ℝ) ≤ mK ^ 3 * D) (r2 : mK ^ 3 * D ≤ rQ (j + 1)) :
    0 < (box i j).1 ∧ 0 < (box i j).2.2.1 ∧
    ((box i j).1 : ℝ) ≤ 1000 * Eos.Z (posPart mx) D T ∧ 1000 * Eos.Z (posPart mx) D T ≤ ((box i j).2.1 : ℝ) ∧
    ((box i j).2.2.1 : ℝ) ≤ 1000 * Eos.dPdD (posPart mx) D T ∧ 1000 * Eos.dPdD (posPart mx) D T ≤ ((box i j).2.2.2.1 : ℝ) ∧
    1000 * Eos.Zabs (posPart mx) D T ≤ ((box i j).2.2.2.2 : ℝ) * Eos.Z (posPart mx) D T ∧
    1000 * Eos.dPdDabs (posPart mx) D T ≤ ((box i j).2.2.2.2 : ℝ) * Eos.dPdD (posPart mx) D T := by
  have hT : 0 < T := by have := mE_pos; linarith
  have a := box_all ⟨i, hi⟩
  unfold boxesChk at a
  rw [List.all_eq_true] at a
  have b := a j (List.mem_range.2 hj)
  unfold boxChk at b
  simp only [Bool.and_eq_true, decide_eq_true_eq] at b
  obtain ⟨⟨⟨⟨⟨⟨⟨⟨b1, b2⟩, b3⟩, b4⟩, b5⟩, b6⟩, b7⟩, b8⟩, b9⟩ := b
  obtain ⟨c1, c2⟩ := strip_in hT (strip_all ⟨i, hi⟩) s1 s2
  have ok := rowOk_all ⟨j, b3⟩
  have z1 := sum_in c1 (row_in r1 r2 hZq_real hZ_anti ok (l := 1) (by norm_num) (rowZ_all ⟨j, b3⟩))
  have z2 := sum_in c1 (row_in r1 r2 hPq_real hP_anti ok (l := 2) (by norm_num) (rowP_all ⟨j, b3⟩))
  have ra := row_abs r1 r2 hZaq_real hZa_mono ok (l := 1) (by norm_num) (rowZa_all ⟨j, b3⟩)
  have z3 := sum_abs c2 ra
  have n3 := Finset.sum_nonneg (s := Finset.univ) fun k _ => mul_nonneg (c2.2 k).1 (ra.2 k).1
  have z4 := sum_abs c2 (row_abs r1 r2 hPaq_real hPa_mono ok (l := 2) (by norm_num) (rowPa_all ⟨j, b3⟩))
  have f1 := Z_sum (D := D) e1 e2
  have f2 := dPdD_sum (D := D) e1 e2
  have f3 := Zabs_sum (D := D) e1 e2
  have f4 := dPdDabs_sum (D := D) e1 e2
  rw [Rat.cast_one] at z1 z3 n3
  rw [Rat.cast_ofNat] at z2 z4
  generalize ∑ j, coef (fun n => Eos.c AN n) (-1) T j * dens 1 hZ (mK ^ 3 * D) j = S1 at *
  generalize ∑ j, coef (fun n => Eos.c AN n) (-1) T j * dens 2 hP (mK ^ 3 * D) j = S2 at *
  generalize ∑ j, coef (fun n => |Eos.c AN n|) 1 T j * dens 1 hZa (mK ^ 3 * D) j = S3 at *
  generalize ∑ j, coef (fun n => |Eos.c AN n|) 1 T j * dens 2 hPa (mK ^ 3 * D) j = S4 at *
  rw [f1, f2, f3, f4]
  dsimp only at z1 z2 z3 z4
  generalize box i j = B at *
  obtain ⟨zl, zh, pl, ph, K⟩ := B
  dsimp only at *
  have c4 := (Int.cast_le (R := ℝ)).2 b4
  have c5 := (Int.cast_le (R := ℝ)).2 b5
  have c6 := (Int.cast_le (R := ℝ)).2 b6
  have c7 := (Int.cast_le (R := ℝ)).2 b7
  have c8 := (Int.cast_le (R := ℝ)).2 b8
  have c9 := (Int.cast_le (R := ℝ)).2 b9
  push_cast at c4 c5 c6 c7 c8 c9
  have g1 : (zl : ℝ) ≤ 1000 * (1 + S1) := by linarith [z1.1]
  have g2 : (pl : ℝ) ≤ 1000 * (1 + S2) := by linarith [z2.1]
  have k3 : 1000000 * (1 + S3) ≤ K * zl := by linarith
  have k4 : 1000000 * (1 + S4) ≤ K * pl := by linarith
  have pz : (0 : ℝ) < zl := by exact_mod_cast b1
  have pp : (0 : ℝ) < pl := by exact_mod_cast b2
  have Kp : (0 : ℝ) ≤ K := by
    by_contra h
    have := mul_neg_of_neg_of_pos (not_le.1 h) pz
    linarith
  refine ⟨b1, b2, g1, by linarith [z1.2], g2, by linarith [z2.2], ?_, ?_⟩
  · have := mul_le_mul_of_nonneg_left g1 Kp
    linarith
  · have := mul_le_mul_of_nonneg_left g2 Kp
    linarith

theorem exp_el {ρ : ℚ} (h0 : 0 ≤ ρ) (h1 : ρ ≤ 1) : ((elQ 1 ρ : ℚ) : ℝ) ≤ Real.exp (-(ρ : ℝ)) := by
  have := (exp4 (y := (ρ : ℝ)) (by exact_mod_cast h0) (by exact_mod_cast h1)).1
  unfold elQ
  rw [if_neg one_ne_zero]
  push_cast
  simpa using this

theorem exp_eh {ρ : ℚ} (h0 : 0 ≤ ρ) (h1 : ρ ≤ 1) : Real.exp (-(ρ : ℝ)) ≤ ((ehQ 1 ρ : ℚ) : ℝ) := by
  have := (exp4 (y := (ρ : ℝ)) (by exact_mod_cast h0) (by exact_mod_cast h1)).2
  unfold ehQ
  rw [if_neg one_ne_zero]
  push_cast
  simpa using this

/-- The strip and the density interval of a state, and what the tables say there. -/
theorem pipe_cell {T D0 : ℝ} (t1 : 200 ≤ T) (t2 : T ≤ 600) (hd : 0 ≤ D0) (d2 : D0 ≤ 5) (d3 : D0 ≤ 1 + 0.022 * (T - 200)) :
    ∃ i c, i < 36 ∧ (sQ i : ℝ) ^ 2 ≤ mE / T ∧ mE / T ≤ (sQ (i + 1) : ℝ) ^ 2 ∧ (rQ c : ℝ) ≤ mK ^ 3 * D0 ∧
      mK ^ 3 * D0 ≤ rQ (c + 1) ∧ cellChk i c (cell i c) = true := by
  have T0 : 0 < T := by linarith
  obtain ⟨u1, u2⟩ := sQ_ends
  have v1 := (Rat.cast_le (K := ℝ)).2 u1
  have v2 := (Rat.cast_le (K := ℝ)).2 u2
  push_cast at v1 v2
  obtain ⟨i, hi, a, b⟩ := cover (fun i => (sQ i : ℝ) ^ 2) (x := mE / T) 35 (by
    rw [le_div_iff₀ T0]
    unfold mE
    nlinarith [sq_nonneg (sQ 0 : ℝ)]) (by
    rw [div_le_iff₀ T0]
    unfold mE
    nlinarith [sq_nonneg (sQ 36 : ℝ)])
  have hi' : i < 36 := by omega
  obtain ⟨w1, w2, w3⟩ := cell_end ⟨i, hi'⟩
  have x1 := (Rat.cast_le (K := ℝ)).2 w1
  have s0 : (0 : ℝ) < sQ i := by exact_mod_cast w3
  rw [le_div_iff₀ T0] at a
  have hTs : T ≤ 151.3183 / (sQ i : ℝ) ^ 2 := by
    rw [le_div_iff₀ (by positivity)]
    unfold mE at a
    linarith
  have dmin : D0 ≤ min 5 (1 + 22 / 1000 * (151.3183 / (sQ i : ℝ) ^ 2 - 200)) := le_min d2 (d3.trans (by
    norm_num at hTs ⊢
    linarith))
  have k3 : (0 : ℝ) < mK ^ 3 := pow_pos mK_pos 3
  have r0 : ((rQ 0 : ℚ) : ℝ) ≤ mK ^ 3 * D0 := by
    rw [rQ_zero, Rat.cast_zero]
    positivity
  have top : mK ^ 3 * D0 ≤ rQ (nCell i) := by
    refine (mul_le_mul_of_nonneg_left dmin k3.le).trans (le_trans (le_of_eq ?_) x1)
    unfold mK
    push_cast
    norm_num
  obtain ⟨n, hn⟩ : ∃ n, nCell i = n + 1 := ⟨nCell i - 1, by dsimp only at w2; omega⟩
  rw [hn] at top
  obtain ⟨c, hc, c1, c2⟩ := cover (fun c => (rQ c : ℝ)) n r0 top
  have all := cell_all ⟨i, hi'⟩
  unfold cellsChk at all
  rw [List.all_eq_true] at all
  exact ⟨i, c, hi', (le_div_iff₀ T0).2 a, b, c1, c2, all c (List.mem_range.2 (by dsimp only; omega))⟩

/-- What the convergence theorem needs, for methane at pipeline pressures, and that the pressure grows with the density up to the
end of the window. -/
theorem pipe_curve {q : Pub Float} (h : DensDomain q) (hf : fracs q = posPart mx) (t1 : 200 ≤ toR q.t) (t2 : toR q.t ≤ 600)
    (hd1 : 3e-4 ≤ toR q.p / (8.31451 * toR q.t)) (hd2 : toR q.p / (8.31451 * toR q.t) ≤ 5)
    (hd3 : toR q.p / (8.31451 * toR q.t) ≤ 1 + 0.022 * (toR q.t - 200)) :
    ∃ K m ρ : ℝ, F64Curve q (toR q.p / (8.31451 * toR q.t)) K m ρ ∧ m ≤ 1.1 ∧
      ∀ D, 0 ≤ D → D ≤ toR q.p / (8.31451 * toR q.t) * Real.exp ρ → 0 < Eos.dPdD (fracs q) D (toR q.t) := by
  have T0 : 0 < toR q.t := by linarith
  have P0 : 0 < toR q.p := lt_of_lt_of_le (by norm_num) h.p_low
  have PT0 : PT q (toR q.p / (8.31451 * toR q.t)) = toR q.p * Eos.Z (fracs q) (toR q.p / (8.31451 * toR q.t)) (toR q.t) := by
    unfold PT; field_simp
  have D0p : 0 < toR q.p / (8.31451 * toR q.t) := by positivity
  generalize toR q.p / (8.31451 * toR q.t) = D0 at *
  have e1 : 1.21 * mE ≤ toR q.t := by unfold mE; norm_num; linarith
  have e2 : toR q.t ≤ 4 * mE := by unfold mE; norm_num; linarith
  have k3 : (0 : ℝ) < mK ^ 3 := pow_pos mK_pos 3
  obtain ⟨i, c, hi, s1, s2, c1, c2, chk⟩ := pipe_cell t1 t2 D0p.le hd2 hd3
  unfold cellChk at chk
  generalize cell i c = X at chk
  obtain ⟨ρ, m, K, jl, jh⟩ := X
  simp only [Bool.and_eq_true, decide_eq_true_eq, List.all_eq_true, List.mem_range] at chk
  obtain ⟨⟨⟨⟨⟨⟨⟨a1, a2, a3, a4, a5, a6⟩, a7, a8, a9⟩, a10⟩, a11⟩, a12⟩, a13⟩, a14⟩ := chk
  have r1 : (10 : ℝ) ≤ ρ := by exact_mod_cast a1
  have r2 : (ρ : ℝ) ≤ 1000 := by exact_mod_cast a2
  have m0 : (0 : ℝ) < m := by exact_mod_cast a3
  have m1 : (m : ℝ) ≤ 1100 := by exact_mod_cast a4
  have K1 : (1000 : ℝ) ≤ K := by exact_mod_cast a5
  have K2 : (K : ℝ) * (m + 1000) + 3 * m * ρ ≤ 22000 * m := by exact_mod_cast a6
  have b10 := (Rat.cast_le (K := ℝ)).2 a10
  have b11 := (Rat.cast_le (K := ℝ)).2 a11
  have b12 := (Rat.cast_le (K := ℝ)).2 a12
  have b13 := (Rat.cast_le (K := ℝ)).2 a13
  have ρ0 : (0 : ℚ) ≤ (ρ : ℚ) / 1000 := by positivity
  have ρ1 : (ρ : ℚ) / 1000 ≤ 1 := by
    rw [div_le_one (by norm_num)]
    exact_mod_cast a2
  have el := exp_el ρ0 ρ1
  have y0 : (0 : ℚ) ≤ 4 * m * ρ / 10000000 := by positivity
  have y1 : (4 * m * ρ / 10000000 : ℚ) ≤ 1 := by
    have g1 : (ρ : ℚ) ≤ 1000 := by exact_mod_cast a2
    have g2 : (m : ℚ) ≤ 1100 := by exact_mod_cast a4
    have := mul_le_mul g2 g1 (by positivity) (by norm_num)
    linarith
  have eh := exp_eh y0 y1
  push_cast at b10 b11 b12 b13 el eh
  have E1 : Real.exp (ρ / 1000 : ℝ) * Real.exp (-(ρ / 1000 : ℝ)) = 1 := by rw [← Real.exp_add]; simp
  have Ep := Real.exp_pos (ρ / 1000 : ℝ)
  have Em := Real.exp_pos (-(ρ / 1000 : ℝ))
  have Rn : ∀ j, (0 : ℝ) ≤ rQ j := fun j => by
    have : (0 : ℚ) ≤ rQ j := by unfold rQ; positivity
    exact_mod_cast this
  have lowEnd : ∀ D, D0 * Real.exp (-(ρ / 1000 : ℝ)) ≤ D → (rQ jl : ℝ) ≤ mK ^ 3 * D := by
    intro D hD
    have t := mul_le_mul_of_nonneg_left hD k3.le
    have t1 := mul_le_mul_of_nonneg_left el (Rn c)
    have t2 := mul_le_mul_of_nonneg_right c1 Em.le
    linarith
  have highEnd : ∀ D, D ≤ D0 * Real.exp (ρ / 1000 : ℝ) → mK ^ 3 * D ≤ rQ (jh + 1) := by
    intro D hD
    have t := mul_le_mul_of_nonneg_left hD k3.le
    have t1 := mul_le_mul_of_nonneg_left el (Rn (jh + 1))
    have t2 : mK ^ 3 * D0 ≤ rQ (jh + 1) * Real.exp (-(ρ / 1000 : ℝ)) := by linarith
    have t3 := mul_le_mul_of_nonneg_right t2 Ep.le
    have t4 : (rQ (jh + 1) : ℝ) * Real.exp (-(ρ / 1000 : ℝ)) * Real.exp (ρ / 1000 : ℝ) = rQ (jh + 1) := by
      rw [mul_assoc, mul_comm (Real.exp _), E1, mul_one]
    linarith
  refine ⟨K / 1000, m / 1000, ρ / 1000, ⟨h, by positivity, by norm_num; linarith, by linarith, by linarith, ?_, hd1,
    hd2.trans (by norm_num), ?_, ?_, ?_⟩, by norm_num; linarith, ?_⟩
  · have e : (K : ℝ) / 1000 * (1 + 1 / (m / 1000)) = K * (m + 1000) / (1000 * m) := by field_simp
    rw [e, div_le_iff₀ (by positivity)]
    linarith
  · rw [hf, Kcubed_mx]
    have : mK ^ 3 ≤ 0.2 := by unfold mK; norm_num
    norm_num at this
    nlinarith
  · intro D g1 g2
    obtain ⟨j, j1, j2, j3, j4⟩ := cover_from (fun j => (rQ j : ℝ)) a7 (lowEnd D g1) (highEnd D g2)
    obtain ⟨o1, o2, o3, o4, o5, o6, o7, o8⟩ := box_spec hi (lt_of_le_of_lt j2 a8) e1 e2 s1 s2 j3 j4
    obtain ⟨⟨n1, n2⟩, n3⟩ := a14 (j - jl) (by omega)
    rw [Nat.add_sub_cancel' j1] at n1 n2 n3
    rw [hf]
    generalize Eos.Z (posPart mx) D (toR q.t) = Z at *
    generalize Eos.dPdD (posPart mx) D (toR q.t) = Y at *
    generalize Eos.Zabs (posPart mx) D (toR q.t) = Za at *
    generalize Eos.dPdDabs (posPart mx) D (toR q.t) = Ya at *
    generalize box i j = B at *
    obtain ⟨zl, zh, pl, ph, Kj⟩ := B
    dsimp only at *
    have v1 : (0 : ℝ) < zl := by exact_mod_cast o1
    have v2 : (0 : ℝ) < pl := by exact_mod_cast o2
    have w1 : (m : ℝ) * zh ≤ 1000 * pl := by exact_mod_cast n1
    have w2 : (10000 : ℝ) * ph ≤ 14 * m * zl := by exact_mod_cast n2
    have w3 : (Kj : ℝ) ≤ K := by exact_mod_cast n3
    have z0 : 0 < Z := by linarith
    have p0 : 0 < Y := by linarith
    have x1 := mul_le_mul_of_nonneg_right w3 z0.le
    have x2 := mul_le_mul_of_nonneg_right w3 p0.le
    have x3 := mul_le_mul_of_nonneg_left o4 m0.le
    have x4 := mul_le_mul_of_nonneg_left o3 m0.le
    refine ⟨z0, by linarith, by linarith, ?_, ?_⟩
    · rw [le_div_iff₀ z0]; linarith
    · rw [div_le_iff₀ z0]; norm_num; linarith
  · obtain ⟨o1, o2, o3, o4, -⟩ := box_spec hi a9 e1 e2 s1 s2 c1 c2
    rw [← hf] at o3 o4
    have v1 : (0 : ℝ) < (box i c).1 := by exact_mod_cast o1
    have z0 : 0 < Eos.Z (fracs q) D0 (toR q.t) := by linarith
    rw [PT0, Real.log_mul P0.ne' z0.ne', add_sub_cancel_left]
    have e : (0.4 * (m / 1000) * (ρ / 1000) : ℝ) = 4 * m * ρ / 10000000 := by ring
    rw [e, abs_le]
    constructor
    · rw [Real.le_log_iff_exp_le z0]
      linarith
    · rw [Real.log_le_iff_le_exp z0]
      have := Real.add_one_le_exp (4 * m * ρ / 10000000 : ℝ)
      linarith
  · intro D g0 g2
    have n0 : ((rQ 0 : ℚ) : ℝ) ≤ mK ^ 3 * D := by
      rw [rQ_zero, Rat.cast_zero]
      positivity
    obtain ⟨j, j2, j3, j4⟩ := cover (fun j => (rQ j : ℝ)) jh n0 (highEnd D g2)
    obtain ⟨o1, o2, o3, o4, o5, -⟩ := box_spec hi (lt_of_le_of_lt j2 a8) e1 e2 s1 s2 j3 j4
    rw [hf]
    have v2 : (0 : ℝ) < (box i j).2.2.1 := by exact_mod_cast o2
    linarith

/-- No density below the end of the window has the same pressure. -/
theorem pipe_unique {q : Pub Float} {E d d' : ℝ} (T0 : 0 < toR q.t)
    (hY : ∀ D, 0 ≤ D → D ≤ E → 0 < Eos.dPdD (fracs q) D (toR q.t)) (h0 : 0 < d) (h1 : d ≤ E) (h0' : 0 < d') (h1' : d' ≤ E)
    (e : PT q d' = PT q d) : d' = d := by
  have key : ∀ a b, 0 < a → b ≤ E → a < b → PT q a ≠ PT q b := by
    intro a b ha hb hab hh
    obtain ⟨x, hx, hx2⟩ := exists_hasDerivAt_eq_zero hab
      (fun x _ => (curve_deriv q x).continuousAt.continuousWithinAt) hh (fun x _ => curve_deriv q x)
    have := hY x (by linarith [hx.1]) (by linarith [hx.2])
    unfold QT at hx2
    have : 0 < 8.31451 * toR q.t * Eos.dPdD (fracs q) x (toR q.t) := by positivity
    linarith
  rcases lt_trichotomy d' d with h | h | h
  · exact absurd e (key _ _ h0' h1 h)
  · exact h
  · exact absurd e.symm (key _ _ h0 h1' h)

/-- Pure methane is in the domain of the theorems on `density`. -/
theorem dens_methane_wide {q : Pub Float} (hx : ∀ i, IsFinite (aget q.x i) ∧ toR (aget q.x i) = if i = 0 then 1 else 0)
    (ht : IsFinite q.t) (ht1 : 184 ≤ toR q.t) (ht2 : toR q.t ≤ 600) (hp : IsFinite q.p)
    (d1 : 3e-4 ≤ toR q.p / (8.31451 * toR q.t)) (d2 : toR q.p / (8.31451 * toR q.t) ≤ 5) : DensDomain q := by
  have T0 : 0 < 8.31451 * toR q.t := by positivity
  rw [le_div_iff₀ T0] at d1
  rw [div_le_iff₀ T0] at d2
  norm_num at d1 d2
  refine ⟨ht, by linarith, by linarith, hp, by norm_num; linarith, by norm_num; linarith, fun i => (hx i).1, ?_, 0, ?_⟩
  · intro i
    rw [(hx i).2]
    split <;> norm_num
  · rw [(hx 0).2]; norm_num

end Aga8.Detail
