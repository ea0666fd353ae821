import Verif.Lemmas.GergErrDens
import Verif.Lemmas.Newton

/-! # Convergence of the GERG-2008 density search in f64 -/

set_option linter.unusedSectionVars false

namespace Aga8.Newton

/-- The size of a computed Newton step, and how far it is from the exact one. -/
theorem step_size {w n κ A a K m : ℝ} (hm : 0 < m) (hK1 : 1 ≤ K) (hK : K * (1 + 1 / m) ≤ 22) (hκ : κ = 1e-9 * K)
    (hA : A = (1.003 * κ + 1.1e-12) / m) (h : |w - n| ≤ A + 2.01 * κ * |w|) (hn : |n| ≤ 1.4 * a) (ha : a ≤ 0.41) :
    |w - n| ≤ 1.3e-9 * (K * (1 + 1 / m)) ∧ |w| ≤ 0.6 := by
  have m1 : 0 < 1 / m := by positivity
  have hA' : A = (1.003 * κ + 1.1e-12) * (1 / m) := by rw [hA]; ring
  generalize 1 / m = i at *
  have k0 : 0 ≤ K * i := by positivity
  have hi : i ≤ K * i := by nlinarith
  have hA2 : A ≤ 1.0041e-9 * (K * i) := by
    rw [hA', hκ]
    have e : (1.003 * (1e-9 * K) + 1.1e-12) * i = 1.003e-9 * (K * i) + 1.1e-12 * i := by ring
    rw [e]
    norm_num at hi ⊢
    linarith
  have hK12 : K + K * i ≤ 22 := by linarith
  have hw : |w| ≤ |n| + |w - n| := by
    have : w = n + (w - n) := by ring
    calc |w| = |n + (w - n)| := by rw [← this]
      _ ≤ _ := abs_add_le _ _
  have h1 : 2.01 * κ * |w| ≤ 4.5e-8 * |w| := by
    refine mul_le_mul_of_nonneg_right ?_ (abs_nonneg _)
    rw [hκ]
    norm_num
    linarith
  have hw6 : |w| ≤ 0.6 := by
    norm_num at *
    linarith
  have h2 : 2.01 * κ * |w| ≤ 2.01 * κ * 0.6 := by
    refine mul_le_mul_of_nonneg_left hw6 ?_
    rw [hκ]; positivity
  refine ⟨?_, hw6⟩
  rw [hκ] at h2
  have e : K * (1 + i) = K + K * i := by ring
  rw [e]
  rw [hκ] at h
  norm_num at *
  linarith

end Aga8.Newton

namespace Aga8.Gerg

open Tab F64 GergEos Newton

attribute [local irreducible] newP pressureP propertiesP

section
variable [Libm] {q : Pub Float}

/-- What convergence from the start `D0` needs. -/
structure F64Curve (q : Pub Float) (D0 K m ρ : ℝ) : Prop where
  dom : DensDomain q
  m_pos : 0 < m
  r1 : 0.01 ≤ ρ
  r2 : ρ ≤ 1
  K1 : 1 ≤ K
  K2 : K * (1 + 1 / m) ≤ 22 - 9 * ρ
  d1 : 3e-4 ≤ D0
  d2 : D0 ≤ 300
  d3 : D0 * GergEos.invRhoR (fracs q) ≤ 1
  slope : ∀ D, D0 * Real.exp (-ρ) ≤ D → D ≤ D0 * Real.exp ρ →
      0 < GergEos.Z (fracs q) D (toR q.t) ∧ GergEos.Zabs (fracs q) D (toR q.t) ≤ K * GergEos.Z (fracs q) D (toR q.t) ∧
      GergEos.dPdDabs (fracs q) D (toR q.t) ≤ K * GergEos.dPdD (fracs q) D (toR q.t) ∧
      m ≤ GergEos.dPdD (fracs q) D (toR q.t) / GergEos.Z (fracs q) D (toR q.t) ∧
      GergEos.dPdD (fracs q) D (toR q.t) / GergEos.Z (fracs q) D (toR q.t) ≤ 1.4 * m
  start : |Real.log (PT q D0) - Real.log (toR q.p)| ≤ 0.4 * m * ρ

variable {D0 K m ρ : ℝ}

theorem F64Curve.pos (C : F64Curve q D0 K m ρ) : 0 < D0 := lt_of_lt_of_le (by norm_num) C.d1

theorem F64Curve.rpos (C : F64Curve q D0 K m ρ) : 0 < ρ := lt_of_lt_of_le (by norm_num) C.r1

theorem F64Curve.K3 (C : F64Curve q D0 K m ρ) : K * (1 + 1 / m) ≤ 22 := C.K2.trans (by linarith [C.rpos])

theorem F64Curve.K6 (C : F64Curve q D0 K m ρ) : K ≤ 22 := by
  have := C.K2
  have := C.rpos
  have h : 0 ≤ K * (1 / m) := by have := C.m_pos; have := C.K1; positivity
  linarith

theorem F64Curve.slope' (C : F64Curve q D0 K m ρ) : ∀ D, D0 * Real.exp (-ρ) ≤ D → D ≤ D0 * Real.exp ρ →
    0 < PT q D ∧ m ≤ D * QT q D / PT q D ∧ D * QT q D / PT q D ≤ 1.4 * m := by
  intro D a b
  obtain ⟨s0, -, -, s3, s4⟩ := C.slope D a b
  have D0 : 0 < D := lt_of_lt_of_le (mul_pos C.pos (Real.exp_pos _)) a
  have T0 : 0 < toR q.t := by linarith [C.dom.t_low]
  have e1 : D * QT q D / PT q D = GergEos.dPdD (fracs q) D (toR q.t) / GergEos.Z (fracs q) D (toR q.t) := by
    unfold QT PT; field_simp
  rw [e1]
  exact ⟨by unfold PT; positivity, s3, s4⟩

theorem F64Curve.tame (hL : LibmAccurate) (C : F64Curve q D0 K m ρ) :
    Tame (fun v => Real.log (PT q (Real.exp (-v))) - Real.log (toR q.p))
      (fun v => -(Real.exp (-v) * QT q (Real.exp (-v)) / PT q (Real.exp (-v)))) (-Real.log D0) m ρ :=
  tame_of_slope C.pos C.m_pos C.rpos (fun D _ => curve_deriv hL C.dom D) C.slope' C.start

theorem restart_f64 {it : Nat} (hit : it ≤ 19) {v : Float} (fv : IsFinite v) (h1 : -7 ≤ toR v) (h2 : toR v ≤ 100) :
    restart it 0 v = false := by
  have c7 : decChk true 0 3 ⟨7, 0⟩ = true := by decide +kernel
  have c100 : decChk true 0 7 ⟨100, 0⟩ = true := by decide +kernel
  have e7 : toR (litF ⟨7, 0⟩) = 7 := by rw [(decChk_val c7).2.1 rfl]; simp [decR]
  have e100 : toR (litF ⟨100, 0⟩) = 100 := by rw [(decChk_val c100).2.1 rfl]; simp [decR]
  have i1 : FOps.le (-(f% 7.0 : Float)) v = true := by
    apply decide_eq_true
    show -(litF ⟨7, 0⟩) ≤ v
    rw [le_toR (fin_neg (decChk_fin c7)) fv, toR_neg, e7]
    exact h1
  have i2 : FOps.le v (f% 100.0 : Float) = true := by
    apply decide_eq_true
    show v ≤ litF ⟨100, 0⟩
    rw [le_toR fv (decChk_fin c100), e100]
    exact h2
  unfold restart inRange
  rw [i1, i2]
  have a : (it == 20) = false := by rw [beq_eq_false_iff_ne]; omega
  have b : (it == 30) = false := by rw [beq_eq_false_iff_ne]; omega
  have c : (it == 40) = false := by rw [beq_eq_false_iff_ne]; omega
  rw [a, b, c]
  rfl

theorem not_lt_lit {a : Float} (fa : IsFinite a) (h : 1e-11 ≤ toR a) :
    FOps.lt a (EPSILON : Float) = false ∧ FOps.lt a (f% 0.0 : Float) = false := by
  have C := Ap.litPos chkEps (by norm_num)
  have e : decR ⟨1, 15⟩ = 1 / 10 ^ 15 := by simp [decR]
  have h3 := (abs_le.1 C.err).2
  rw [e, uu_eq] at h3
  have e2 : (EPSILON : Float) = litF ⟨1, 15⟩ := rfl
  constructor
  · rw [e2, flt_false, lt_toR fa C.fin]
    norm_num at h3 h ⊢
    linarith
  · rw [flt_false, lt_toR fa fin0]
    have : toR (f% 0.0 : Float) = 0 := toR0
    rw [this]
    norm_num at h ⊢
    linarith

variable (hL : LibmAccurate) (hN : LnAccurate)
include hL hN

/-- The log-volume of the trial density. -/
noncomputable def yOfV (v : Float) : ℝ := -Real.log (toR (FOps.exp (-v) : Float))

/-- One round of the search. -/
theorem round_f64 (C : F64Curve q D0 K m ρ) {z : ℝ} (hz : |z - -Real.log D0| ≤ 0.4 * ρ)
    (hg : Real.log (PT q (Real.exp (-z))) - Real.log (toR q.p) = 0) {iflag : Int} (hf : iflag ≤ 0)
    (dcx : Float) (n it : Nat) (hit : it ≤ 19) {v : Float} (fv : IsFinite v) (hv : |toR v| ≤ 150)
    (hy : |yOfV v - z| ≤ 0.41 * ρ) {s : Gerg Float} (e : SameEos s (freshOf q)) :
    ∃ s1 w, SameEos s1 (freshOf q) ∧ IsFinite w ∧ |toR w - nstep (PT q) (QT q) (toR q.p) (yOfV v)| ≤ 1.3e-9 * (K * (1 + 1 / m)) ∧
      |toR w| ≤ 0.6 ∧
      densityLoopP iflag dcx (FOps.ln q.p) (n + 1) it 0 0 v s =
        if |toR w| < toR (litF ⟨1, 7⟩) then (withD s1 (FOps.exp (-(v + -w))), .ok ())
        else densityLoopP iflag dcx (FOps.ln q.p) n (it + 1) 0 0 (v + -w) s1 := by
  obtain ⟨fe, e0, le⟩ := exp_neg hL fv (by linarith)
  have T := C.tame hL
  have hyr : |yOfV v - -Real.log D0| ≤ ρ := by
    have : yOfV v - -Real.log D0 = (yOfV v - z) + (z - -Real.log D0) := by ring
    rw [this]
    have := C.rpos
    refine (abs_add_le _ _).trans ?_
    norm_num at hy hz ⊢
    linarith
  obtain ⟨-, k2, k3⟩ := T.step (w := z) (hz.trans (by have := C.rpos; norm_num; linarith)) hg hyr
  have ey : Real.exp (-yOfV v) = toR (FOps.exp (-v) : Float) := by
    unfold yOfV; rw [neg_neg, Real.exp_log e0]
  obtain ⟨r1, r2⟩ := exp_range C.pos hyr
  rw [ey] at r1 r2
  obtain ⟨s0, s1, s2, s3, s4⟩ := C.slope _ r1 r2
  obtain ⟨t0, t1, t2⟩ := C.slope' _ r1 r2
  replace r1 := (mul_le_mul_of_nonneg_left (Real.exp_le_exp.2 (neg_le_neg C.r2)) C.pos.le).trans r1
  replace r2 := r2.trans (mul_le_mul_of_nonneg_left (Real.exp_le_exp.2 C.r2) C.pos.le)
  have hk : |nstep (PT q) (QT q) (toR q.p) (yOfV v)| ≤ 1.4 * |yOfV v - z| := k2
  have ne : nstep (PT q) (QT q) (toR q.p) (yOfV v) = -((Real.log (PT q (toR (FOps.exp (-v) : Float))) - Real.log (toR q.p)) /
      (toR (FOps.exp (-v) : Float) * QT q (toR (FOps.exp (-v) : Float)) / PT q (toR (FOps.exp (-v) : Float)))) := by
    unfold nstep; rw [ey, div_neg]
  set ε : Float := FOps.exp (-v) with hε
  have b1 := Real.exp_neg_one_gt_d9
  have b2 := Real.exp_one_lt_d9
  have vr := invRho_nonneg C.dom
  have D0p := C.pos
  have x1 : 1e-4 ≤ toR ε := by
    refine le_trans ?_ r1
    have := mul_le_mul C.d1 b1.le (by norm_num) D0p.le
    norm_num at this ⊢
    linarith
  have x2 : toR ε ≤ 1000 := by
    refine r2.trans ?_
    have := mul_le_mul C.d2 b2.le (Real.exp_pos _).le (by norm_num)
    norm_num at this ⊢
    linarith
  have x3 : toR ε * GergEos.invRhoR (fracs q) ≤ 2.8 := by
    have h1 := mul_le_mul_of_nonneg_right r2 vr
    have h2 := mul_le_mul C.d3 b2.le (Real.exp_pos _).le (by norm_num)
    have h3 : D0 * Real.exp 1 * invRhoR (fracs q) = D0 * invRhoR (fracs q) * Real.exp 1 := by ring
    norm_num at h1 h2 ⊢
    linarith
  obtain ⟨g1, g2, g3, g4, g5, g6, g7, g8⟩ := newton_fresh hL hN C.dom fe x1 x2 x3 C.K1 (C.K6.trans (by norm_num)) s1 s2 rfl rfl
  have b := eval_congr e ε
  have bp : (pressureP (withD s ε)).2 = pAt (freshOf q) ε := b.2.1
  have bd : (pressureP (withD s ε)).1.dpddsave = dpAt (freshOf q) ε := b.2.2
  have b3 : SameEos (pressureP (withD s ε)).1 (freshOf q) :=
    (eos_pressureP F64.selfDiff _).trans ((eos_withD s _).trans e)
  have b7 : (pressureP (withD s ε)).1.d = ε := pressureP_d _
  have l2 : Real.log 2 ≤ 0.6932 := by linarith [Real.log_two_lt_d9]
  have u1 : Real.log (toR ε) ≤ 10 * Real.log 2 := by
    have := Real.log_le_log e0 (x2.trans (by norm_num : (1000 : ℝ) ≤ 2 ^ 10))
    rw [Real.log_pow] at this
    exact_mod_cast this
  have u2 : -(14 * Real.log 2) ≤ Real.log (toR ε) := by
    have hh : (1 : ℝ) ≤ 2 ^ 14 * toR ε := by norm_num at x1 ⊢; linarith
    have := Real.log_le_log one_pos hh
    rw [Real.log_one, Real.log_mul (by positivity) e0.ne', Real.log_pow] at this
    push_cast at this
    linarith
  have le' := abs_le.1 le
  have hre : restart it 0 v = false := restart_f64 hit fv (by norm_num at l2 le'; linarith) (by norm_num at l2 le'; linarith)
  have hva : vlogAt dcx it 0 0 v s = v := by
    unfold vlogAt; rw [hre]; rfl
  have htr : trial dcx it 0 0 v s = pressureP (withD s ε) := by
    unfold trial; rw [hva]
  obtain ⟨q1, q2⟩ := not_lt_lit g1 g3
  obtain ⟨q3, q4⟩ := not_lt_lit g2 g4
  have hn : newton (FOps.ln q.p) (pressureP (withD s ε)) =
      (FOps.ln (pAt (freshOf q) ε) - FOps.ln q.p) * pAt (freshOf q) ε / (-ε * dpAt (freshOf q) ε) := by
    unfold newton
    rw [bp, bd, b7]
  set w : Float := (FOps.ln (pAt (freshOf q) ε) - FOps.ln q.p) * pAt (freshOf q) ε / (-ε * dpAt (freshOf q) ε) with hw
  have tP : 0 < QT q (toR ε) := by
    by_contra hh
    have := div_nonpos_of_nonpos_of_nonneg (mul_nonpos_of_nonneg_of_nonpos e0.le (not_lt.1 hh)) t0.le
    linarith [C.m_pos]
  have sp := step_pert (B := |toR w|) e0 C.m_pos (by have := C.K6; norm_num at this ⊢; linarith) t0 tP g5 g6 t1 g8 le_rfl
  obtain ⟨w1, w2⟩ := step_size (n := nstep (PT q) (QT q) (toR q.p) (yOfV v)) C.m_pos C.K1 C.K3 rfl rfl (by
    rw [ne, sub_neg_eq_add]; exact sp) hk (hy.trans (by have := C.r2; norm_num; linarith))
  refine ⟨_, w, b3, g7, w1, w2, ?_⟩
  rw [densityLoopP_succ]
  simp only [hre, hva, htr, Bool.false_and, Bool.false_eq_true, if_false]
  rw [hn, bp, bd, q1, q3, q4]
  simp only [Bool.or_false, Bool.false_eq_true, if_false]
  have hlt : (FOps.lt (FOps.abs w) (TOLR : Float) = true) ↔ |toR w| < toR (litF ⟨1, 7⟩) := by
    have e1 : (TOLR : Float) = litF ⟨1, 7⟩ := rfl
    have c7 : decChk false 30 0 ⟨1, 7⟩ = true := by decide +kernel
    rw [e1, flt, fabs, lt_toR (fin_abs g7) (decChk_fin c7), toR_abs]
  by_cases h : |toR w| < toR (litF ⟨1, 7⟩)
  · rw [if_pos h, if_pos (hlt.2 h)]
    unfold converged
    rw [if_neg (by omega)]
  · rw [if_neg h, if_neg (fun hh => h (hlt.1 hh))]

omit hL hN in
theorem log_D0 (C : F64Curve q D0 K m ρ) : |Real.log D0| ≤ 9 := by
  have l2 : Real.log 2 ≤ 0.6932 := by linarith [Real.log_two_lt_d9]
  have u1 : Real.log D0 ≤ 9 * Real.log 2 := by
    have := Real.log_le_log C.pos (C.d2.trans (by norm_num : (300 : ℝ) ≤ 2 ^ 9))
    rw [Real.log_pow] at this
    exact_mod_cast this
  have u2 : -(12 * Real.log 2) ≤ Real.log D0 := by
    have h1 := C.d1
    have hh : (1 : ℝ) ≤ 2 ^ 12 * D0 := by norm_num at h1 ⊢; linarith
    have := Real.log_le_log one_pos hh
    rw [Real.log_one, Real.log_mul (by positivity) C.pos.ne', Real.log_pow] at this
    push_cast at this
    linarith
  rw [abs_le]
  norm_num at l2
  constructor <;> linarith

/-- The search started within 0.41 of the root. -/
theorem converges_f64 (C : F64Curve q D0 K m ρ) {z : ℝ} (hz : |z - -Real.log D0| ≤ 0.4 * ρ)
    (hg : Real.log (PT q (Real.exp (-z))) - Real.log (toR q.p) = 0) {iflag : Int} (hf : iflag ≤ 0)
    (dcx : Float) (k j it : Nat) (hit : it + k ≤ 19) (v : Float) (fv : IsFinite v) (hv : |toR v| ≤ 150)
    (hy : |yOfV v - z| ≤ 0.41 * ρ) (hn : 1.4 * (0.4 ^ k * (|yOfV v - z| - 2.17e-9 * (K * (1 + 1 / m))) + 2.17e-9 * (K * (1 + 1 / m))) + 1.302e-9 * (K * (1 + 1 / m)) < 9.9e-8)
    (s : Gerg Float) (e : SameEos s (freshOf q)) :
    ∃ s', densityLoopP iflag dcx (FOps.ln q.p) (k + j + 1) it 0 0 v s = (s', .ok ()) ∧ IsFinite s'.d ∧ 0 < toR s'.d ∧
      |-Real.log (toR s'.d) - z| ≤ 5.6e-8 + 2.1e-9 * (K * (1 + 1 / m)) := by
  have T := C.tame hL
  have lD := log_D0 C
  have ρ0 := C.rpos
  have ρ1 := C.r1
  have ρ2 := C.r2
  have K0 : 0 < K * (1 + 1 / m) := by have := C.m_pos; have := C.K1; positivity
  have K2 := C.K3
  have K3 : 1 ≤ K * (1 + 1 / m) := by
    have : 0 ≤ K * (1 / m) := by have := C.m_pos; have := C.K1; positivity
    linarith [C.K1]
  have c7 : decChk false 30 0 ⟨1, 7⟩ = true := by decide +kernel
  have v7 := (decChk_val c7).1
  have e7 : decR ⟨1, 7⟩ = 1 / 10 ^ 7 := by simp [decR]
  rw [e7, abs_le, uu_eq] at v7
  have t7 := tol_le
  have t7' : 9.9e-8 ≤ toR (litF ⟨1, 7⟩) := by
    have := v7.1
    norm_num [abs_of_pos] at this ⊢
    linarith
  generalize hκ : K * (1 + 1 / m) = κ at *
  have key : ∀ (v w : Float), IsFinite v → |toR v| ≤ 150 → |yOfV v - z| ≤ 0.41 * ρ → IsFinite w →
      |toR w - nstep (PT q) (QT q) (toR q.p) (yOfV v)| ≤ 1.3e-9 * κ → |toR w| ≤ 0.6 →
      IsFinite (v + -w) ∧ |toR (v + -w)| ≤ 150 ∧ |yOfV (v + -w) - z| ≤ 0.4 * |yOfV v - z| + (1.3e-9 * κ + 4e-14) ∧
      |toR w| ≤ 1.4 * |yOfV v - z| + 1.3e-9 * κ ∧ |yOfV v - z| ≤ 1.4 * (|toR w| + 1.3e-9 * κ) ∧
      IsFinite (FOps.exp (-(v + -w)) : Float) ∧ 0 < toR (FOps.exp (-(v + -w)) : Float) := by
    intro v w fv hv hy fw hw hw6
    have hyr : |yOfV v - -Real.log D0| ≤ ρ := by
      have : yOfV v - -Real.log D0 = (yOfV v - z) + (z - -Real.log D0) := by ring
      rw [this]
      refine (abs_add_le _ _).trans ?_
      norm_num at hy hz ⊢
      linarith
    obtain ⟨k1, k2, k3⟩ := T.step (w := z) (hz.trans (by have := C.rpos; norm_num; linarith)) hg hyr
    change |yOfV v - nstep (PT q) (QT q) (toR q.p) (yOfV v) - z| ≤ _ at k1
    change |nstep (PT q) (QT q) (toR q.p) (yOfV v)| ≤ _ at k2
    change _ ≤ 1.4 * |nstep (PT q) (QT q) (toR q.p) (yOfV v)| at k3
    generalize nstep (PT q) (QT q) (toR q.p) (yOfV v) = n at *
    obtain ⟨-, -, le⟩ := exp_neg hL fv (by linarith)
    obtain ⟨fu, hu, fd, dpos, hd⟩ := exp_step hL fv hv fw (hw6.trans (by norm_num)) (u := v + -w) (Or.inr rfl)
    have hu2 : |toR (v + -w)| ≤ 200 := by
      rw [abs_le] at hu hv hw6 ⊢
      norm_num at hu hw6
      constructor <;> linarith
    obtain ⟨-, -, le'⟩ := exp_neg hL fu hu2
    have st : |yOfV (v + -w) - z| ≤ 0.4 * |yOfV v - z| + (1.3e-9 * κ + 4e-14) := by
      have e1 : yOfV (v + -w) - z = (yOfV v - n - z) + (n - toR w)
          - (Real.log (toR (FOps.exp (-(v + -w)) : Float)) - (-toR v + toR w)) + (Real.log (toR (FOps.exp (-v) : Float)) + toR v) := by
        unfold yOfV; ring
      rw [e1]
      have a1 := abs_add_le ((yOfV v - n - z) + (n - toR w)
          - (Real.log (toR (FOps.exp (-(v + -w)) : Float)) - (-toR v + toR w))) (Real.log (toR (FOps.exp (-v) : Float)) + toR v)
      have a2 := abs_sub ((yOfV v - n - z) + (n - toR w)) (Real.log (toR (FOps.exp (-(v + -w)) : Float)) - (-toR v + toR w))
      have a3 := abs_add_le (yOfV v - n - z) (n - toR w)
      rw [abs_sub_comm n] at a3
      norm_num at *
      linarith
    have st41 : |yOfV (v + -w) - z| ≤ 0.41 := by
      norm_num at st hy ρ1 ⊢
      linarith
    have n1 : |toR w| ≤ |n| + |toR w - n| := by
      have : toR w = n + (toR w - n) := by ring
      calc |toR w| = |n + (toR w - n)| := by rw [← this]
        _ ≤ _ := abs_add_le _ _
    have n2 : |n| ≤ |toR w| + |toR w - n| := by
      have : n = toR w - (toR w - n) := by ring
      calc |n| = |toR w - (toR w - n)| := by rw [← this]
        _ ≤ _ := abs_sub _ _
    refine ⟨fu, ?_, st, by linarith, by linarith, fd, dpos⟩
    have f1 := abs_le.1 st41
    have f2 := abs_le.1 hz
    have f3 := abs_le.1 lD
    have f4 := abs_le.1 le'
    unfold yOfV at f1
    rw [abs_le]
    norm_num at f1 f2 f4
    constructor <;> linarith
  induction k generalizing v s it with
  | zero =>
    obtain ⟨s1, w, -, fw, w1, w2, el⟩ := round_f64 hL hN C hz hg hf dcx (0 + j) it (by omega) fv hv hy e
    rw [hκ] at w1
    obtain ⟨k1, k2, k3, k4, k5, k6, k7⟩ := key v w fv hv hy fw w1 w2
    have h : |toR w| < toR (litF ⟨1, 7⟩) := by
      rw [pow_zero, one_mul] at hn
      norm_num at hn k4 t7' ⊢
      linarith
    rw [if_pos h] at el
    refine ⟨_, el, k6, k7, ?_⟩
    have := h.le.trans t7
    refine k3.trans ?_
    norm_num at this k5 ⊢
    linarith
  | succ k ih =>
    obtain ⟨s1, w, f1, fw, w1, w2, el⟩ := round_f64 hL hN C hz hg hf dcx (k + 1 + j) it (by omega) fv hv hy e
    rw [hκ] at w1
    obtain ⟨k1, k2, k3, k4, k5, k6, k7⟩ := key v w fv hv hy fw w1 w2
    by_cases h : |toR w| < toR (litF ⟨1, 7⟩)
    · rw [if_pos h] at el
      refine ⟨_, el, k6, k7, ?_⟩
      have := h.le.trans t7
      refine k3.trans ?_
      norm_num at this k5 ⊢
      linarith
    · rw [if_neg h] at el
      rw [el, show k + 1 + j = k + j + 1 by omega]
      have hy' : |yOfV (v + -w) - z| ≤ 0.41 * ρ := by
        refine k3.trans ?_
        norm_num at hy ρ1 ⊢
        linarith
      refine ih (it + 1) (by omega) _ k1 k2 hy' _ f1 ?_
      refine lt_of_le_of_lt ?_ hn
      have hp : (0 : ℝ) ≤ 0.4 ^ k := by positivity
      have h4 : |yOfV (v + -w) - z| - 2.17e-9 * κ ≤ 0.4 * (|yOfV v - z| - 2.17e-9 * κ) := by
        norm_num at k3 ⊢
        linarith
      have h5 := mul_le_mul_of_nonneg_left h4 hp
      rw [pow_succ]
      linarith

end

end Aga8.Gerg
