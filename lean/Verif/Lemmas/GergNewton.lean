import Verif.Lemmas.Newton
import Verif.Lemmas.GergDens
import Verif.Lemmas.GergHist
import Verif.Props.GergDensity

/-! # Convergence of the GERG density iteration in exact arithmetic -/

namespace Aga8.Gerg

open Newton

attribute [local irreducible] pressureP propertiesP newP

/-- `P` and `Q` are the pressure and its density derivative at the temperature and composition of `s`; they are at
least 1e-15 on the range considered. -/
structure Curve (s : Gerg ℝ) (P Q : ℝ → ℝ) (D0 : ℝ) : Prop where
  p : ∀ D, pAt s D = P D
  q : ∀ D, dpAt s D = Q D
  lo : ∀ D, D0 * Real.exp (-1) ≤ D → D ≤ D0 * Real.exp 1 → 1e-15 ≤ P D ∧ 1e-15 ≤ Q D
  v : -6 ≤ -Real.log D0 ∧ -Real.log D0 ≤ 99
  pos : 0 < D0

/-- One round of the iteration in the range considered, before round 20. -/
theorem densityLoopP_round {s0 : Gerg ℝ} {P Q : ℝ → ℝ} {D0 : ℝ} (hc : Curve s0 P Q D0) {iflag : Int} (hf : iflag ≤ 0)
    (dcx : ℝ) (n it : Nat) (hit : it ≤ 19) {v : ℝ} (hv : |v - -Real.log D0| ≤ 1)
    {s : Gerg ℝ} (e : SameEos s s0) :
    ∃ s1, SameEos s1 s0 ∧
      densityLoopP iflag dcx (Real.log s0.p) (n + 1) it 0 0 v s =
        if |nstep P Q s0.p v| < 1e-7 then (withD s1 (Real.exp (-(v - nstep P Q s0.p v))), .ok ())
        else densityLoopP iflag dcx (Real.log s0.p) n (it + 1) 0 0 (v - nstep P Q s0.p v) s1 := by
  obtain ⟨-, b1, b2⟩ := eval_congr e (Real.exp (-v))
  rw [hc.p] at b1
  rw [hc.q] at b2
  unfold pAt at b1
  unfold dpAt at b2
  have b3 : SameEos (pressureP (withD s (Real.exp (-v)))).1 s0 :=
    (eos_pressureP selfDiff_real _).trans ((eos_withD s _).trans e)
  have b7 : (pressureP (withD s (Real.exp (-v)))).1.d = Real.exp (-v) := pressureP_d _
  obtain ⟨r1, r2⟩ := exp_range hc.pos hv
  obtain ⟨c1, c2⟩ := hc.lo _ r1 r2
  have hP : 0 < P (Real.exp (-v)) := lt_of_lt_of_le (by norm_num) c1
  have hQ : 0 < Q (Real.exp (-v)) := lt_of_lt_of_le (by norm_num) c2
  have hE := Real.exp_pos (-v)
  have hr := hc.v
  rw [abs_le] at hv
  have hre : restart it 0 v = false :=
    no_restart ⟨by linarith, by linarith⟩ ⟨by omega, by omega, by omega⟩ (by decide)
  have hva : vlogAt dcx it 0 0 v s = v := by
    unfold vlogAt; rw [hre]; rfl
  have htr : trial dcx it 0 0 v s = pressureP (withD s (Real.exp (-v))) := by
    unfold trial; rw [hva, r_exp]
  refine ⟨_, b3, ?_⟩
  rw [densityLoopP_succ]
  simp only [hre, hva, htr, Bool.false_and, Bool.false_eq_true, if_false]
  have hn : newton (Real.log s0.p) (pressureP (withD s (Real.exp (-v)))) = nstep P Q s0.p v := by
    unfold newton
    rw [b1, b2, b7, r_ln]
    unfold nstep; field_simp
  rw [hn, b1, b2]
  have a3 : FOps.lt (Q (Real.exp (-v))) (EPSILON : ℝ) = false := by
    rw [r_lt_false]; unfold EPSILON; rw [lem15]; exact c2
  have a4 : FOps.lt (P (Real.exp (-v))) (EPSILON : ℝ) = false := by
    rw [r_lt_false]; unfold EPSILON; rw [lem15]; exact c1
  have a6 : FOps.lt (Q (Real.exp (-v))) (f% 0.0 : ℝ) = false := by
    rw [r_lt_false, l0]; linarith
  rw [a3, a4, a6, r_abs, ← sub_eq_add_neg]
  simp only [Bool.or_false, Bool.false_eq_true, if_false]
  by_cases h : |nstep P Q s0.p v| < 1e-7
  · have a5 : FOps.lt |nstep P Q s0.p v| (TOLR : ℝ) = true := by
      rw [r_lt]; unfold TOLR; rw [lem7]; exact h
    rw [if_pos h, if_pos a5]
    unfold converged
    rw [if_neg (by omega), r_exp]
  · have a5 : ¬ (FOps.lt |nstep P Q s0.p v| (TOLR : ℝ) = true) := by
      rw [r_lt]; unfold TOLR; rw [lem7]; exact h
    rw [if_neg h, if_neg a5]

/-- The iteration, started within 0.4 of the root of a tame function, ends with success within 5.6e-8 of the root,
provided it does so before round 20, in which the search is restarted. -/
theorem densityLoopP_converges {s0 : Gerg ℝ} {P Q : ℝ → ℝ} {D0 m w : ℝ} (hc : Curve s0 P Q D0)
    {iflag : Int} (hf : iflag ≤ 0) (dcx : ℝ)
    (ht : Tame (fun v => Real.log (P (Real.exp (-v))) - Real.log s0.p)
      (fun v => -(Real.exp (-v) * Q (Real.exp (-v)) / P (Real.exp (-v)))) (-Real.log D0) m 1)
    (hw : |w - -Real.log D0| ≤ 0.4) (hg : Real.log (P (Real.exp (-w))) - Real.log s0.p = 0)
    (k j it : Nat) (hit : it + k ≤ 19) (v : ℝ) (hv : |v - w| ≤ 0.4) (hn : 1.4 * |v - w| * 0.4 ^ k < 1e-7)
    (s : Gerg ℝ) (e : SameEos s s0) :
    ∃ s' u, densityLoopP iflag dcx (Real.log s0.p) (k + j + 1) it 0 0 v s = (s', .ok ()) ∧
      s'.d = Real.exp (-u) ∧ |u - w| ≤ 5.6e-8 := by
  have key : ∀ v, |v - w| ≤ 0.4 → |v - -Real.log D0| ≤ 1 ∧ |v - nstep P Q s0.p v - w| ≤ 0.4 * |v - w| ∧
      |nstep P Q s0.p v| ≤ 1.4 * |v - w| ∧ |v - w| ≤ 1.4 * |nstep P Q s0.p v| := by
    intro v hv
    have hvr : |v - -Real.log D0| ≤ 1 := by
      rw [abs_le] at hv hw ⊢; constructor <;> linarith
    exact ⟨hvr, ht.step (w := w) (by linarith) hg hvr⟩
  induction k generalizing v s it with
  | zero =>
    obtain ⟨hvr, k1, k2, k3⟩ := key v hv
    obtain ⟨s1, -, e⟩ := densityLoopP_round hc hf dcx (0 + j) it (by omega) hvr e
    have h : |nstep P Q s0.p v| < 1e-7 := by
      rw [pow_zero, mul_one] at hn; linarith
    rw [if_pos h] at e
    exact ⟨_, _, e, rfl, by linarith⟩
  | succ k ih =>
    obtain ⟨hvr, k1, k2, k3⟩ := key v hv
    obtain ⟨s1, f1, e⟩ := densityLoopP_round hc hf dcx (k + 1 + j) it (by omega) hvr e
    by_cases h : |nstep P Q s0.p v| < 1e-7
    · rw [if_pos h] at e
      exact ⟨_, _, e, rfl, by linarith⟩
    · rw [if_neg h] at e
      rw [e, show k + 1 + j = k + j + 1 by omega]
      refine ih (it + 1) (by omega) _ (by linarith [abs_nonneg (v - w)]) ?_ _ f1
      refine lt_of_le_of_lt ?_ hn
      rw [pow_succ]
      have hp : (0 : ℝ) ≤ 0.4 ^ k := by positivity
      nlinarith

end Aga8.Gerg
