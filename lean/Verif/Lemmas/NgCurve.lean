import Verif.Lemmas.NgSum
import Verif.Lemmas.DetailBoxCurve

/-! # The pressure curve of natural gas at moderate pressures -/

namespace Aga8.Detail.Ng

open FOps Tab F64

theorem chk_a : s1 (7392 / 100000) ≤ 67 / 10000 := by decide +kernel
theorem chk_b : s1 (10416 / 100000) ≤ 143 / 10000 ∧ s2 (10416 / 100000) ≤ 443 / 10000 ∧ s3 (10416 / 100000) ≤ 85 / 1000 ∧
    s4 (10416 / 100000) ≤ 117 / 1000 := by decide +kernel
theorem chk_c : s1 (224 / 1000) ≤ 868 / 10000 ∧ s2 (224 / 1000) ≤ 288 / 1000 ∧ s3 (224 / 1000) ≤ 236 / 1000 ∧
    s4 (224 / 1000) ≤ 457 / 1000 := by decide +kernel

theorem cast_le' {a b : ℚ} (h : a ≤ b) {r : ℝ} (hr : (b : ℝ) = r) : (a : ℝ) ≤ r := hr ▸ (Rat.cast_le (K := ℝ)).2 h

set_option linter.unusedSectionVars false

variable [Libm]

section
variable {x : Fin 21 → ℝ} (h : Eos.NormalGas x) {D T : ℝ} (h1 : 263 ≤ T) (h2 : T ≤ 400) (hD : 0 ≤ D)
include h h1 h2 hD

theorem DB_range : -0.132 * D ≤ D * Eos.B x T ∧ D * Eos.B x T ≤ 0.0303 * D ∧ D * Eos.Babs x T ≤ 0.442 * D := by
  obtain ⟨b1, b2, b3⟩ := B_range h h1 h2
  have := mul_le_mul_of_nonneg_left b1 hD
  have := mul_le_mul_of_nonneg_left b2 hD
  have := mul_le_mul_of_nonneg_left b3 hD
  refine ⟨by linarith, by linarith, by linarith⟩

theorem KD_le {R : ℚ} {d : ℝ} (hd : D ≤ d) (e : (R : ℝ) = 0.112 * d) : Eos.Kcubed x * D ≤ (R : ℝ) := by
  rw [e]
  exact mul_le_mul (Kcubed_le h).2 hd hD (by norm_num)

/-- The start of the search. -/
theorem ng_start (hd : D ≤ 0.66) : 0.906 ≤ Eos.Z x D T ∧ Eos.Z x D T ≤ 1.03 := by
  obtain ⟨p, -⟩ := parts h h1 h2 hD (KD_le h h1 h2 hD (R := 7392 / 100000) hd (by norm_num)) (by norm_num)
  obtain ⟨a, b⟩ := abs_le.1 (p.trans (cast_le' chk_a rfl))
  obtain ⟨b1, b2, -⟩ := DB_range h h1 h2 hD
  norm_num at a b b1 b2 hd ⊢
  constructor <;> linarith

/-- The window of the search. -/
theorem ng_window (hd : D ≤ 0.93) : 0.8629 ≤ Eos.Z x D T ∧ Eos.Z x D T ≤ 1.0425 ∧
    |Eos.dPdD x D T - 1 - 2 * (Eos.Z x D T - 1)| ≤ 0.0443 ∧ Eos.Zabs x D T ≤ 1.5 ∧ Eos.dPdDabs x D T ≤ 2.12 := by
  obtain ⟨p1, p2, p3, p4⟩ := parts h h1 h2 hD (KD_le h h1 h2 hD (R := 10416 / 100000) hd (by norm_num)) (by norm_num)
  obtain ⟨c1, c2, c3, c4⟩ := chk_b
  obtain ⟨a, b⟩ := abs_le.1 (p1.trans (cast_le' c1 rfl))
  have p2' := p2.trans (cast_le' c2 (r := 0.0443) (by norm_num))
  have p3' := p3.trans (cast_le' c3 (r := 0.085) (by norm_num))
  have p4' := p4.trans (cast_le' c4 (r := 0.117) (by norm_num))
  obtain ⟨b1, b2, b3⟩ := DB_range h h1 h2 hD
  norm_num at a b b1 b2 b3 hd p3' p4' ⊢
  norm_num at p2'
  refine ⟨by linarith, by linarith, p2', by linarith, by linarith⟩

/-- Up to 2 mol/l. -/
theorem ng_wide (hd : D ≤ 2) : 0.649 ≤ Eos.Z x D T ∧ Eos.Z x D T ≤ 1.148 ∧ 0.01 ≤ Eos.dPdD x D T ∧ Eos.Zabs x D T ≤ 2.12 ∧
    Eos.dPdDabs x D T ≤ 3.7 := by
  obtain ⟨p1, p2, p3, p4⟩ := parts h h1 h2 hD (KD_le h h1 h2 hD (R := 224 / 1000) hd (by norm_num)) (by norm_num)
  obtain ⟨c1, c2, c3, c4⟩ := chk_c
  obtain ⟨a, b⟩ := abs_le.1 (p1.trans (cast_le' c1 (r := 0.0868) (by norm_num)))
  obtain ⟨a', b'⟩ := abs_le.1 (p2.trans (cast_le' c2 (r := 0.288) (by norm_num)))
  have p3' := p3.trans (cast_le' c3 (r := 0.236) (by norm_num))
  have p4' := p4.trans (cast_le' c4 (r := 0.457) (by norm_num))
  obtain ⟨b1, b2, b3⟩ := DB_range h h1 h2 hD
  norm_num at a b b1 b2 b3 a' b' p3' p4' hd ⊢
  refine ⟨by linarith, by linarith, by linarith, by linarith, by linarith⟩

/-- The pressure grows with the density up to 2 mol/l. -/
theorem ng_dPdD_pos (hd : D ≤ 2) : 0 < Eos.dPdD x D T :=
  lt_of_lt_of_le (by norm_num) (ng_wide h h1 h2 hD hd).2.2.1

end

/-- What the convergence theorem needs. -/
theorem ng_curve {q : Pub Float} (h : DensDomain q) (hx : Eos.NormalGas (fracs q)) (t1 : 263 ≤ toR q.t) (t2 : toR q.t ≤ 400)
    (hd1 : 3e-4 ≤ toR q.p / (8.31451 * toR q.t)) (hd2 : toR q.p / (8.31451 * toR q.t) ≤ 0.66) :
    F64Curve q (toR q.p / (8.31451 * toR q.t)) 3.2 0.785 0.34 ∧
      ∀ D, D ≤ toR q.p / (8.31451 * toR q.t) * Real.exp 0.34 → D ≤ 0.93 := by
  have T0 : 0 < toR q.t := by linarith
  have P0 : 0 < toR q.p := lt_of_lt_of_le (by norm_num) h.p_low
  have PT0 : PT q (toR q.p / (8.31451 * toR q.t)) = toR q.p * Eos.Z (fracs q) (toR q.p / (8.31451 * toR q.t)) (toR q.t) := by
    unfold PT; field_simp
  have D0p : 0 < toR q.p / (8.31451 * toR q.t) := by positivity
  generalize toR q.p / (8.31451 * toR q.t) = D0 at *
  have ex : Real.exp 0.34 ≤ 1.409 := by
    have := Real.exp_bound' (x := 0.34) (by norm_num) (by norm_num) (n := 4) (by norm_num)
    simp only [Finset.sum_range_succ, Finset.sum_range_zero, Nat.factorial] at this
    norm_num at this ⊢
    linarith
  have rng : ∀ D, D ≤ D0 * Real.exp 0.34 → D ≤ 0.93 := by
    intro D b
    have := mul_le_mul hd2 ex (Real.exp_pos _).le (by norm_num)
    norm_num at *
    linarith
  refine ⟨⟨h, by norm_num, by norm_num, by norm_num, by norm_num, by norm_num, hd1, hd2.trans (by norm_num), ?_, ?_, ?_⟩, rng⟩
  · have := mul_le_mul (Kcubed_le hx).2 hd2 D0p.le (by norm_num)
    exact this.trans (by norm_num)
  · intro D a b
    have hD : 0 ≤ D := le_trans (by positivity) a
    obtain ⟨c1, c2, c3, c4, c5⟩ := ng_window hx t1 t2 hD (rng D b)
    generalize Eos.Z (fracs q) D (toR q.t) = Z at *
    generalize Eos.dPdD (fracs q) D (toR q.t) = Y at *
    obtain ⟨u, v⟩ := abs_le.1 c3
    norm_num at c1 c2 u v c4 c5 ⊢
    have z0 : 0 < Z := by linarith
    refine ⟨z0, by linarith, by linarith, ?_, ?_⟩
    · rw [le_div_iff₀ z0]; linarith
    · rw [div_le_iff₀ z0]; linarith
  · obtain ⟨c1, c2⟩ := ng_start hx t1 t2 D0p.le hd2
    have z0 : 0 < Eos.Z (fracs q) D0 (toR q.t) := by norm_num at c1; linarith
    rw [PT0, Real.log_mul P0.ne' z0.ne', add_sub_cancel_left]
    refine le_trans ?_ (by norm_num : (0.105 : ℝ) ≤ _)
    have a := Real.log_le_sub_one_of_pos z0
    have b := Real.one_sub_inv_le_log_of_pos z0
    have i : (Eos.Z (fracs q) D0 (toR q.t))⁻¹ ≤ 1.104 := by
      rw [inv_le_comm₀ z0 (by norm_num)]
      norm_num at c1 ⊢
      linarith
    rw [abs_le]
    norm_num at c1 c2 i ⊢
    constructor <;> linarith

end Aga8.Detail.Ng
