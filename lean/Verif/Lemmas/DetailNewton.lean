import Verif.Lemmas.Newton
import Verif.Lemmas.DetailRealEval
import Verif.Lemmas.DetailEval

/-! # Convergence of the DETAIL density iteration in exact arithmetic -/

namespace Aga8.Detail

open Newton

/-- `P` and `Q` are the pressure and its density derivative at the temperature and composition of `s`; they are at
least 1e-15 on the range considered. -/
structure Curve (s : Detail ℝ) (P Q : ℝ → ℝ) (D0 : ℝ) : Prop where
  p : ∀ D, pAt s D = P D
  q : ∀ D, dpAt s D = Q D
  lo : ∀ D, D0 * Real.exp (-1) ≤ D → D ≤ D0 * Real.exp 1 → 1e-15 ≤ P D ∧ 1e-15 ≤ Q D
  v : -6 ≤ -Real.log D0 ∧ -Real.log D0 ≤ 99
  pos : 0 < D0

/-- One round of the iteration in the range considered. -/
theorem densityLoopP_round {s0 : Detail ℝ} {P Q : ℝ → ℝ} {D0 : ℝ} (hc : Curve s0 P Q D0)
    (n : Nat) {v : ℝ} (hv : |v - -Real.log D0| ≤ 1)
    {s : Detail ℝ} (e1 : view s = view s0) (e2 : s.t = s0.t) (e3 : s.p = s0.p) :
    ∃ s1, view s1 = view s0 ∧ s1.t = s0.t ∧ s1.p = s0.p ∧
      densityLoopP (Real.log s0.p) (n + 1) v s =
        if |nstep P Q s0.p v| < 1e-7 then (withD s1 (Real.exp (-(v - nstep P Q s0.p v))), .ok ())
        else densityLoopP (Real.log s0.p) n (v - nstep P Q s0.p v) s1 := by
  have b1 : (pressureP (withD s (Real.exp (-v)))).2 = P (Real.exp (-v)) := (pAt_congr e1 e2 _).trans (hc.p _)
  have b2 : (pressureP (withD s (Real.exp (-v)))).1.dp_dd_save = Q (Real.exp (-v)) :=
    (dpAt_congr e1 e2 _).trans (hc.q _)
  have b3 : view (pressureP (withD s (Real.exp (-v)))).1 = view s0 := by
    rw [view_pressureP selfDiff_real, view_withD, e1]
  have b4 := pub_pressureP (withD s (Real.exp (-v)))
  have b5 : (pressureP (withD s (Real.exp (-v)))).1.t = s0.t := by
    rw [← e2]; exact congrArg Pub.t b4
  have b6 : (pressureP (withD s (Real.exp (-v)))).1.p = s0.p := by
    rw [← e3]; exact congrArg Pub.p b4
  have b7 : (pressureP (withD s (Real.exp (-v)))).1.d = Real.exp (-v) := congrArg Pub.d b4
  obtain ⟨r1, r2⟩ := exp_range hc.pos hv
  obtain ⟨c1, c2⟩ := hc.lo _ r1 r2
  have hP : 0 < P (Real.exp (-v)) := lt_of_lt_of_le (by norm_num) c1
  have hQ : 0 < Q (Real.exp (-v)) := lt_of_lt_of_le (by norm_num) c2
  have hE := Real.exp_pos (-v)
  refine ⟨_, b3, b5, b6, ?_⟩
  rw [densityLoopP_succ]
  simp only [r_exp, r_ln]
  rw [b1, b2, b7]
  have hst : (Real.log (P (Real.exp (-v))) - Real.log s0.p) * P (Real.exp (-v)) / (-Real.exp (-v) * Q (Real.exp (-v)))
      = nstep P Q s0.p v := by
    unfold nstep; field_simp
  rw [hst]
  have hr := hc.v
  rw [abs_le] at hv
  have a1 : FOps.le (-(f% 7.0 : ℝ)) v = true := by rw [r_le, l7]; linarith
  have a2 : FOps.le v (f% 100.0 : ℝ) = true := by rw [r_le, l100]; linarith
  have a3 : FOps.lt (Q (Real.exp (-v))) (EPSILON : ℝ) = false := by
    rw [r_lt_false]; unfold EPSILON; rw [lem15]; exact c2
  have a4 : FOps.lt (P (Real.exp (-v))) (EPSILON : ℝ) = false := by
    rw [r_lt_false]; unfold EPSILON; rw [lem15]; exact c1
  rw [a1, a2, a3, a4, r_abs]
  simp only [Bool.and_true, Bool.not_true, Bool.or_false, Bool.false_eq_true, if_false]
  by_cases h : |nstep P Q s0.p v| < 1e-7
  · have a5 : FOps.lt |nstep P Q s0.p v| (TOLR : ℝ) = true := by
      rw [r_lt]; unfold TOLR; rw [lem7]; exact h
    rw [if_pos h, if_pos a5]
  · have a5 : ¬ (FOps.lt |nstep P Q s0.p v| (TOLR : ℝ) = true) := by
      rw [r_lt]; unfold TOLR; rw [lem7]; exact h
    rw [if_neg h, if_neg a5]

/-- The iteration, started within 0.4 of the root of a tame function, ends with success within 5.6e-8 of the root. -/
theorem densityLoopP_converges {s0 : Detail ℝ} {P Q : ℝ → ℝ} {D0 m w : ℝ} (hc : Curve s0 P Q D0)
    (ht : Tame (fun v => Real.log (P (Real.exp (-v))) - Real.log s0.p)
      (fun v => -(Real.exp (-v) * Q (Real.exp (-v)) / P (Real.exp (-v)))) (-Real.log D0) m 1)
    (hw : |w - -Real.log D0| ≤ 0.4) (hg : Real.log (P (Real.exp (-w))) - Real.log s0.p = 0)
    (n : Nat) (v : ℝ) (hv : |v - w| ≤ 0.4) (hn : 1.4 * |v - w| * 0.4 ^ n < 1e-7)
    (s : Detail ℝ) (e1 : view s = view s0) (e2 : s.t = s0.t) (e3 : s.p = s0.p) :
    ∃ s' u, densityLoopP (Real.log s0.p) (n + 1) v s = (s', .ok ()) ∧ s'.d = Real.exp (-u) ∧ |u - w| ≤ 5.6e-8 := by
  have key : ∀ v, |v - w| ≤ 0.4 → |v - -Real.log D0| ≤ 1 ∧ |v - nstep P Q s0.p v - w| ≤ 0.4 * |v - w| ∧
      |nstep P Q s0.p v| ≤ 1.4 * |v - w| ∧ |v - w| ≤ 1.4 * |nstep P Q s0.p v| := by
    intro v hv
    have hvr : |v - -Real.log D0| ≤ 1 := by
      rw [abs_le] at hv hw ⊢; constructor <;> linarith
    exact ⟨hvr, ht.step (w := w) (by linarith) hg hvr⟩
  induction n generalizing v s with
  | zero =>
    obtain ⟨hvr, k1, k2, k3⟩ := key v hv
    obtain ⟨s1, -, -, -, e⟩ := densityLoopP_round hc 0 hvr e1 e2 e3
    have h : |nstep P Q s0.p v| < 1e-7 := by
      rw [pow_zero, mul_one] at hn; linarith
    rw [if_pos h] at e
    exact ⟨_, _, e, rfl, by linarith⟩
  | succ n ih =>
    obtain ⟨hvr, k1, k2, k3⟩ := key v hv
    obtain ⟨s1, f1, f2, f3, e⟩ := densityLoopP_round hc (n + 1) hvr e1 e2 e3
    by_cases h : |nstep P Q s0.p v| < 1e-7
    · rw [if_pos h] at e
      exact ⟨_, _, e, rfl, by linarith⟩
    · rw [if_neg h] at e
      rw [e]
      refine ih _ (by linarith [abs_nonneg (v - w)]) ?_ _ f1 f2 f3
      refine lt_of_le_of_lt ?_ hn
      rw [pow_succ]
      have hp : (0 : ℝ) ≤ 0.4 ^ n := by positivity
      nlinarith

end Aga8.Detail
