import Verif.Lemmas.GergMethane
import Verif.Props.GergReal

/-! # The GERG density search in exact arithmetic

C35, C37 and the real-number reading of C17 for `Gerg2008::density`. -/

namespace Aga8

open Gerg (Pub pub params Reachable)

attribute [local irreducible] Gerg.pressureP Gerg.propertiesP Gerg.newP

theorem Gerg.inRange_real {v : ℝ} (h : -7 ≤ v ∧ v ≤ 100) : Gerg.inRange v = true := by
  have a1 : FOps.le (-(f% 7.0 : ℝ)) v = true := by rw [r_le, l7]; exact h.1
  have a2 : FOps.le v (f% 100.0 : ℝ) = true := by rw [r_le, l100]; exact h.2
  unfold Gerg.inRange
  rw [a1, a2]; rfl

theorem Gerg.no_restart {it : Nat} {ifail : Int} {v : ℝ} (h : -7 ≤ v ∧ v ≤ 100)
    (hit : it ≠ 20 ∧ it ≠ 30 ∧ it ≠ 40) (hf : ifail ≠ 1) : Gerg.restart it ifail v = false := by
  unfold Gerg.restart
  rw [Gerg.inRange_real h]
  simp [hit.1, hit.2.1, hit.2.2, hf]

/-- C37: one round of the GERG density iteration started at a log-volume in range, in a round without a restart and at
a mechanically stable point, moves to a density that is larger exactly when the pressure `p1` found there is below
the requested pressure, and unchanged exactly when it equals it. -/
theorem C37_gerg_newton_direction (s : Gerg ℝ) (hs : Reachable s) (dcx : ℝ) (n it : Nat) (nfail ifail : Int) (v : ℝ)
    (hit : it ≠ 20 ∧ it ≠ 30 ∧ it ≠ 40) (hf : ifail ≠ 1) (hv : -7 ≤ v ∧ v ≤ 100)
    (hp : 0 < s.p) (s1 : Gerg ℝ) (p1 : ℝ)
    (h1 : Gerg.pressure { s with d := Real.exp (-v) } = .ok (s1, p1)) (hp1 : 1e-15 ≤ p1)
    (s2 : Gerg ℝ) (p2 : ℝ) (h2 : Gerg.properties { s with d := Real.exp (-v) } = .ok (s2, p2))
    (hdp : 1e-15 ≤ s2.dp_dd) :
    ∃ v', (Gerg.densityLoop 0 dcx (Real.log s.p) (n + 1) it nfail ifail v s
        = Gerg.densityLoop 0 dcx (Real.log s.p) n (it + 1) nfail ifail v' s1 ∨
      ∃ s', Gerg.densityLoop 0 dcx (Real.log s.p) (n + 1) it nfail ifail v s = .ok (s', .ok ()) ∧
        s'.d = Real.exp (-v')) ∧
    (Real.exp (-v) < Real.exp (-v') ↔ p1 < s.p) ∧ (Real.exp (-v) = Real.exp (-v') ↔ p1 = s.p) := by
  have hi : Gerg.Idx (Gerg.withD s (Real.exp (-v))) := hs.idx.congr rfl rfl rfl
  have e1 : Gerg.pressureP (Gerg.withD s (Real.exp (-v))) = (s1, p1) := by
    have := (Gerg.pressure_ok hi).symm.trans h1; injection this
  have e2 : Gerg.propertiesP (Gerg.withD s (Real.exp (-v))) = (s2, p2) := by
    have := (Gerg.properties_ok hi).symm.trans h2; injection this
  have e3 : s1.dpddsave = s2.dp_dd := by
    have := Gerg.propertiesP_dp_dd (Gerg.withD s (Real.exp (-v)))
    rw [e1, e2] at this
    exact this.symm
  have e4 : s1.d = Real.exp (-v) := by
    have := congrArg Pub.d (Gerg.pub_pressureP (Gerg.withD s (Real.exp (-v))))
    rw [e1] at this
    exact this
  have hp1' : 0 < p1 := lt_of_lt_of_le (by norm_num) hp1
  have hdp' : 0 < s2.dp_dd := lt_of_lt_of_le (by norm_num) hdp
  have hE := Real.exp_pos (-v)
  set w := (Real.log p1 - Real.log s.p) * p1 / (-Real.exp (-v) * s2.dp_dd) with hw
  have hws : w = (Real.log s.p - Real.log p1) * (p1 / (Real.exp (-v) * s2.dp_dd)) := by
    rw [hw]; field_simp; ring
  have hpos : 0 < p1 / (Real.exp (-v) * s2.dp_dd) := by positivity
  refine ⟨v + -w, ?_, ?_, ?_⟩
  · have hi1 : Gerg.Idx s1 := by
      have := Gerg.pressureP_idx hi
      rw [e1] at this
      exact this
    rw [Gerg.densityLoop_ok _ _ _ _ _ _ _ _ hs.idx, Gerg.densityLoop_ok _ _ _ _ _ _ _ _ hi1,
      Gerg.densityLoopP]
    have hr : Gerg.restart it ifail v = false := Gerg.no_restart hv hit hf
    have hva : Gerg.vlogAt dcx it nfail ifail v s = v := by unfold Gerg.vlogAt; rw [hr]; rfl
    have htr : Gerg.trial dcx it nfail ifail v s = (s1, p1) := by
      unfold Gerg.trial; rw [hva]; exact e1
    have hn : Gerg.newton (Real.log s.p) (s1, p1) = w := by
      unfold Gerg.newton; simp only [e3, e4, r_ln]; exact hw.symm
    have c2 : (FOps.lt s2.dp_dd (Gerg.EPSILON : ℝ) || FOps.lt p1 (Gerg.EPSILON : ℝ)) = false := by
      have a1 : FOps.lt s2.dp_dd (Gerg.EPSILON : ℝ) = false := by
        rw [r_lt_false]; unfold Gerg.EPSILON; rw [lem15]; exact hdp
      have a2 : FOps.lt p1 (Gerg.EPSILON : ℝ) = false := by
        rw [r_lt_false]; unfold Gerg.EPSILON; rw [lem15]; exact hp1
      rw [a1, a2]; rfl
    have c3 : FOps.lt s2.dp_dd (f% 0.0 : ℝ) = false := by
      rw [r_lt_false, l0]; exact hdp'.le
    simp only [hr, hva, htr, hn, e3, c2, c3, Bool.false_and, Bool.false_eq_true, if_false]
    split
    · exact Or.inr ⟨_, rfl, rfl⟩
    · exact Or.inl rfl
  · rw [Real.exp_lt_exp]
    constructor
    · intro h
      have h : 0 < w := by linarith
      rw [hws] at h
      have := pos_of_mul_pos_left h hpos.le
      exact (Real.log_lt_log_iff hp1' hp).1 (by linarith)
    · intro h
      have := Real.log_lt_log hp1' h
      have : 0 < w := by rw [hws]; exact mul_pos (by linarith) hpos
      linarith
  · rw [Real.exp_eq_exp]
    constructor
    · intro h
      have h : w = 0 := by linarith
      rw [hws] at h
      rcases mul_eq_zero.1 h with h | h
      · exact Real.log_injOn_pos hp1' hp (by linarith)
      · exact absurd h hpos.ne'
    · intro h
      have : w = 0 := by rw [hws, h]; ring
      rw [this]; ring

/-- C35: when the pressure is the equation-of-state pressure at the density `d0`, the state there is stable, and the
search is started at `d0`, `density` returns `Ok` with the density `d0`. -/
theorem C35_gerg_density_recovers (s : Gerg ℝ) (hs : Reachable s) (iflag : Int) (hflag : iflag ≤ 0)
    (d0 : ℝ) (hd : s.d = -d0) (h0 : 1e-15 ≤ d0)
    (hr : -7 ≤ -Real.log d0 ∧ -Real.log d0 ≤ 100)
    (s1 : Gerg ℝ) (h1 : Gerg.pressure { s with d := d0 } = .ok (s1, s.p)) (hp : 1e-15 ≤ s.p)
    (s2 : Gerg ℝ) (p2 : ℝ) (h2 : Gerg.properties { s with d := d0 } = .ok (s2, p2)) (hdp : 1e-15 ≤ s2.dp_dd) :
    ∃ s', s.density iflag = .ok (s', .ok ()) ∧ s'.d = d0 := by
  have hpos : 0 < d0 := lt_of_lt_of_le (by norm_num) h0
  have hp0 : 0 < s.p := lt_of_lt_of_le (by norm_num) hp
  have ex : Real.exp (- -Real.log d0) = d0 := by rw [neg_neg, Real.exp_log hpos]
  have hi : Gerg.Idx (Gerg.withD s d0) := hs.idx.congr rfl rfl rfl
  have e1 : Gerg.pressureP (Gerg.withD s d0) = (s1, s.p) := by
    have := (Gerg.pressure_ok hi).symm.trans h1; injection this
  have e2 : Gerg.propertiesP (Gerg.withD s d0) = (s2, p2) := by
    have := (Gerg.properties_ok hi).symm.trans h2; injection this
  have e3 : s1.dpddsave = s2.dp_dd := by
    have := Gerg.propertiesP_dp_dd (Gerg.withD s d0)
    rw [e1, e2] at this
    exact this.symm
  have cd : Gerg.startD iflag s = d0 := by
    unfold Gerg.startD
    have : ¬ (FOps.lt (-(Gerg.EPSILON : ℝ)) s.d = true) := by
      rw [r_lt, hd]; unfold Gerg.EPSILON; rw [lem15]; linarith
    rw [if_neg this, r_abs, hd, abs_neg, abs_of_pos hpos]
  rw [Gerg.density_ok hs.idx, Gerg.densityP, cd, Gerg.densityLoopP]
  have hre : Gerg.restart 1 0 (-FOps.ln d0) = false := Gerg.no_restart hr (by decide) (by decide)
  have hva : Gerg.vlogAt (Gerg.pseudocriticalpoint s).1 1 0 0 (-FOps.ln d0) (Gerg.withD s d0) = -FOps.ln d0 := by
    unfold Gerg.vlogAt; rw [hre]; rfl
  have htr : Gerg.trial (Gerg.pseudocriticalpoint s).1 1 0 0 (-FOps.ln d0) (Gerg.withD s d0) = (s1, s.p) := by
    unfold Gerg.trial
    rw [hva, r_ln, r_exp, ex]
    exact e1
  have hn : Gerg.newton (FOps.ln s.p) (s1, s.p) = 0 := by
    unfold Gerg.newton; simp
  have c2 : (FOps.lt s2.dp_dd (Gerg.EPSILON : ℝ) || FOps.lt s.p (Gerg.EPSILON : ℝ)) = false := by
    have a1 : FOps.lt s2.dp_dd (Gerg.EPSILON : ℝ) = false := by
      rw [r_lt_false]; unfold Gerg.EPSILON; rw [lem15]; exact hdp
    have a2 : FOps.lt s.p (Gerg.EPSILON : ℝ) = false := by
      rw [r_lt_false]; unfold Gerg.EPSILON; rw [lem15]; exact hp
    rw [a1, a2]; rfl
  have c3 : FOps.lt s2.dp_dd (f% 0.0 : ℝ) = false := by
    rw [r_lt_false, l0]; linarith
  have c4 : FOps.lt (FOps.abs (0 : ℝ)) (Gerg.TOLR : ℝ) = true := by
    rw [r_abs, abs_zero, r_lt]; unfold Gerg.TOLR; rw [lem7]; norm_num
  simp only [hre, hva, htr, hn, e3, c2, c3, c4, Bool.false_and, Bool.false_eq_true, if_false, if_true, neg_zero,
    add_zero]
  unfold Gerg.converged
  rw [if_neg (by omega), r_ln, r_exp, ex]
  exact ⟨_, rfl, rfl⟩

/-- C17 in exact arithmetic: when `density` succeeds there is a positive density `e` at which the pressure `p1` and its
density derivative, as `pressure` and `properties` report them, are at least 1e-15; the requested pressure agrees
with `p1` to 1e-7 times the logarithmic stiffness `e * dp_dd / p1`; and the density returned is one Newton step in
log-density away from `e`, less than 1e-7 in log-density; the compression factor stored is the one at `e`. -/
theorem C17_gerg_density_success_real (s s' : Gerg ℝ) (hs : Reachable s) (iflag : Int)
    (h : s.density iflag = .ok (s', .ok ())) :
    ∃ e s1 p1 s2 p2, 0 < e ∧
      Gerg.pressure { s with d := e } = .ok (s1, p1) ∧
      Gerg.properties { s with d := e } = .ok (s2, p2) ∧
      1e-15 ≤ p1 ∧ 1e-15 ≤ s2.dp_dd ∧
      |Real.log p1 - Real.log s.p| < 1e-7 * (e * s2.dp_dd / p1) ∧
      Real.log s'.d = Real.log e + (Real.log s.p - Real.log p1) * (p1 / (e * s2.dp_dd)) ∧
      |Real.log s'.d - Real.log e| < 1e-7 ∧ 0 < s'.d ∧ s'.z = s1.z := by
  obtain ⟨v, s1, p1, s2, p2, -, a3, a4, a5, a6, -, a7, a8, a9⟩ :=
    C17_gerg_density_success Gerg.selfDiff_real s s' hs iflag h
  rw [r_lt_false, lem15] at a5 a6
  simp only [r_exp, r_ln, r_abs, r_lt] at a3 a4 a7 a8
  have lem7' : (f% 1e-7 : ℝ) = 1e-7 := lem7
  rw [lem7'] at a7
  have hp1 : 0 < p1 := lt_of_lt_of_le (by norm_num) a5
  have hdp : 0 < s2.dp_dd := lt_of_lt_of_le (by norm_num) a6
  have hE := Real.exp_pos (-v)
  set w := (Real.log p1 - Real.log s.p) * p1 / (-Real.exp (-v) * s2.dp_dd) with hw
  have hws : w = (Real.log s.p - Real.log p1) * (p1 / (Real.exp (-v) * s2.dp_dd)) := by
    rw [hw]; field_simp; ring
  have hld : Real.log s'.d = -v + w := by rw [a8, Real.log_exp]; ring
  refine ⟨Real.exp (-v), s1, p1, s2, p2, hE, a3, a4, a5, a6, ?_, ?_, ?_, ?_, a9⟩
  · have hpos : 0 < p1 / (Real.exp (-v) * s2.dp_dd) := by positivity
    rw [hws, abs_mul, abs_of_pos hpos, abs_sub_comm] at a7
    have : |Real.log p1 - Real.log s.p| < 1e-7 / (p1 / (Real.exp (-v) * s2.dp_dd)) := by
      rw [lt_div_iff₀ hpos]; exact a7
    rwa [div_div_eq_mul_div, mul_div_assoc] at this
  · rw [hld, Real.log_exp, hws]
  · rw [hld, Real.log_exp]
    have e : -v + w - -v = w := by ring
    rw [e]; exact a7
  · rw [a8]; exact Real.exp_pos _

/-! ## Worked cases -/

/-- Pure methane at a temperature where it is close to the ideal gas, started at the density 1 mol/l of the requested
pressure: `density` succeeds and returns that density. The proof goes through C35, whose hypotheses are those of C37. -/
theorem gerg_methane_density_succeeds : ∃ s',
    (Gerg.freshOf (Gerg.pureAt 1 Gerg.hotT (-1) Gerg.hotP)).density 0 = .ok (s', .ok ()) ∧ s'.d = 1 := by
  have hp := Gerg.hotP_ge
  refine C35_gerg_density_recovers (Gerg.freshOf (Gerg.pureAt 1 Gerg.hotT (-1) Gerg.hotP)) (Gerg.reachable_fresh _) 0
    (le_refl _) 1 rfl (by norm_num) (by rw [Real.log_one]; norm_num)
    (Gerg.pressureP (Gerg.freshOf (Gerg.pureAt 1 Gerg.hotT 1 Gerg.hotP))).1 ?_ ?_ _ _
    (Gerg.properties_ok (s := Gerg.freshOf (Gerg.pureAt 1 Gerg.hotT 1 Gerg.hotP)) (Gerg.reachable_fresh _).idx) ?_
  · have h := Gerg.pressure_ok (s := Gerg.freshOf (Gerg.pureAt 1 Gerg.hotT 1 Gerg.hotP)) (Gerg.reachable_fresh _).idx
    have h2 := Gerg.hot_pressure Gerg.hotP
    have : Gerg.pressureP (Gerg.freshOf (Gerg.pureAt 1 Gerg.hotT 1 Gerg.hotP))
        = ((Gerg.pressureP (Gerg.freshOf (Gerg.pureAt 1 Gerg.hotT 1 Gerg.hotP))).1, Gerg.hotP) :=
      Prod.ext rfl h2
    rw [this] at h
    exact h
  · exact le_trans (by norm_num) hp
  · exact le_trans (by norm_num) (Gerg.hot_dp_dd Gerg.hotP)

/-- So the hypotheses of C17 (success) are met. -/
example : ∃ s s' : Gerg ℝ, Reachable s ∧ s.density 0 = .ok (s', .ok ()) := by
  obtain ⟨s', h, -⟩ := gerg_methane_density_succeeds
  exact ⟨_, s', Gerg.reachable_fresh _, h⟩
/-- C37 in the first round of that search (log-volume 0). -/
example : ∃ s1 p1 s2 p2, Gerg.pressure { Gerg.freshOf (Gerg.pureAt 1 Gerg.hotT (-1) Gerg.hotP) with
      d := Real.exp (-0) } = .ok (s1, p1) ∧ 1e-15 ≤ p1 ∧
    Gerg.properties { Gerg.freshOf (Gerg.pureAt 1 Gerg.hotT (-1) Gerg.hotP) with d := Real.exp (-0) } = .ok (s2, p2) ∧
    1e-15 ≤ s2.dp_dd := by
  rw [neg_zero, Real.exp_zero]
  refine ⟨_, _, _, _, Gerg.pressure_ok (s := Gerg.freshOf (Gerg.pureAt 1 Gerg.hotT 1 Gerg.hotP))
    (Gerg.reachable_fresh _).idx, ?_, Gerg.properties_ok (s := Gerg.freshOf (Gerg.pureAt 1 Gerg.hotT 1 Gerg.hotP))
    (Gerg.reachable_fresh _).idx, ?_⟩
  · rw [Gerg.hot_pressure]; exact le_trans (by norm_num) Gerg.hotP_ge
  · exact le_trans (by norm_num) (Gerg.hot_dp_dd Gerg.hotP)

end Aga8
