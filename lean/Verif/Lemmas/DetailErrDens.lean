import Verif.Lemmas.DetailErrDom
import Verif.Lemmas.DetailErrDp
import Verif.Lemmas.GergErrConv

/-! # The accuracy of the DETAIL density search in f64 -/

set_option linter.unusedSectionVars false

namespace Aga8.Detail

open Tab F64 Newton

attribute [local irreducible] pressureP propertiesP

section
variable [Libm] {q : Pub Float}

/-- The inputs with another density. -/
def atD (q : Pub Float) (d : Float) : Pub Float := { q with d := d }

theorem DensDomain.at (h : DensDomain q) {d : Float} (fd : IsFinite d) (h1 : 1e-4 ≤ toR d) (h2 : toR d ≤ 1000)
    (h3 : Eos.Kcubed (fracs q) * toR d ≤ 3) : ErrDomain (atD q d) :=
  ⟨h.t_fin, h.t_low, h.t_high, fd, Or.inr ⟨h1, h2⟩, h3, h.x_fin, h.x_rng, h.x_big⟩

/-- The pressure of the AGA 8 equation at the temperature and composition of `q`. -/
noncomputable def PT (q : Pub Float) (D : ℝ) : ℝ := D * 8.31451 * toR q.t * Eos.Z (fracs q) D (toR q.t)
/-- Its density derivative. -/
noncomputable def QT (q : Pub Float) (D : ℝ) : ℝ := 8.31451 * toR q.t * Eos.dPdD (fracs q) D (toR q.t)

theorem curve_deriv (q : Pub Float) (D : ℝ) : HasDerivAt (PT q) (QT q D) D := by
  have := (DZ_deriv (fracs q) D (toR q.t)).const_mul (8.31451 * toR q.t)
  refine this.congr_of_eventuallyEq (Filter.Eventually.of_forall fun D => ?_)
  unfold PT
  ring

theorem withD_setPub (s : Detail Float) (q : Pub Float) (e : Float) : withD (setPub s q) e = setPub s (atD q e) := rfl

theorem withD_fresh (q : Pub Float) (e : Float) : withD (freshOf q) e = freshOf (atD q e) := withD_setPub newP q e

theorem at_fresh (s s' : Detail Float) (e : Float) (h : withD s e = s') :
    pAt s e = (pressureP s').2 ∧ dpAt s e = (pressureP s').1.dp_dd_save := by
  subst h
  exact ⟨rfl, rfl⟩

theorem fracs_at (q : Pub Float) (e : Float) : fracs (atD q e) = fracs q := rfl

variable (hL : LibmAccurate)
include hL

/-- The pressure of a new object. -/
theorem ap_press (hq : ErrDomain q) : Ap (pressureP (freshOf q)).2
    (toR q.d * 8.31451 * toR q.t * Eos.Z (fracs q) (toR q.d) (toR q.t))
    (toR q.d * 8.31451 * toR q.t * Eos.Zabs (fracs q) (toR q.d) (toR q.t)) 6112973 962 715 := by
  have hc := close_of_domain hL hq (fill 4 (fill 4 (f% 0.0)))
  obtain ⟨et, ed⟩ := refresh_td (freshOf q) (fill 4 (fill 4 (f% 0.0)))
  have hp := ap_p hL hc 0
  have vz : (pressureP (freshOf q)).1.z = _ := pressureP_z (freshOf q)
  have vp : (pressureP (freshOf q)).2 = _ := pressureP_snd (freshOf q)
  rw [ar_alpharP] at vz
  rw [et, ed] at hp
  rw [vz] at vp
  rw [vp]
  exact hp

theorem ap_dpdd (hq : ErrDomain q) : Ap (pressureP (freshOf q)).1.dp_dd_save
    (8.31451 * toR q.t * Eos.dPdD (fracs q) (toR q.d) (toR q.t))
    (8.31451 * toR q.t * Eos.dPdDabs (fracs q) (toR q.d) (toR q.t)) 6137300 940 705 := by
  have hc := close_of_domain hL hq (fill 4 (fill 4 (f% 0.0)))
  obtain ⟨et, ed⟩ := refresh_td (freshOf q) (fill 4 (fill 4 (f% 0.0)))
  have hp := ap_dp hL hc 0
  rw [et] at hp
  have vp : (pressureP (freshOf q)).1.dp_dd_save = _ := pressureP_save (freshOf q)
  rw [ar_alpharP] at vp
  rw [vp]
  exact hp

theorem one_le_abs (h : ErrDomain q) : 1 ≤ Eos.Zabs (fracs q) (toR q.d) (toR q.t) ∧
    1 ≤ Eos.dPdDabs (fracs q) (toR q.d) (toR q.t) := by
  have hc := close_of_domain hL h (fill 4 (fill 4 (f% 0.0)))
  have T0 : 0 < 8.31451 * toR q.t := by have := h.t_low; positivity
  have a0 := (ap_ar01 hL hc 0).nonneg
  have b0 := (ap_ar02 hL hc 0).nonneg
  rw [← Finset.mul_sum] at a0 b0
  have a1 := nonneg_of_mul_nonneg_right a0 T0
  have b1 := nonneg_of_mul_nonneg_right b0 T0
  rw [← dsum_dPdDabs, ← zsum_Zabs]
  constructor <;> linarith

variable (hN : LnAccurate)
include hN

/-- One evaluation of the search, at a trial density in range. -/
theorem newton_fresh (h : DensDomain q) {e : Float} (fe : IsFinite e) (h1 : 1e-4 ≤ toR e) (h2 : toR e ≤ 1000)
    (h3 : Eos.Kcubed (fracs q) * toR e ≤ 3) {K : ℝ} (hK1 : 1 ≤ K) (hK : K ≤ 1e6)
    (hZ : Eos.Zabs (fracs q) (toR e) (toR q.t) ≤ K * Eos.Z (fracs q) (toR e) (toR q.t))
    (hQ : Eos.dPdDabs (fracs q) (toR e) (toR q.t) ≤ K * Eos.dPdD (fracs q) (toR e) (toR q.t))
    {p1 dp : Float} (ep : p1 = pAt (freshOf q) e) (ed : dp = dpAt (freshOf q) e) :
    IsFinite p1 ∧ IsFinite dp ∧ 1e-11 ≤ toR p1 ∧ 1e-11 ≤ toR dp ∧
      |toR p1 - PT q (toR e)| ≤ 1e-9 * K * PT q (toR e) ∧ |toR dp - QT q (toR e)| ≤ 1e-9 * K * QT q (toR e) ∧
      IsFinite ((FOps.ln p1 - FOps.ln q.p) * p1 / (-e * dp)) ∧
      |toR ((FOps.ln p1 - FOps.ln q.p) * p1 / (-e * dp))
        + (Real.log (toR p1) - Real.log (toR q.p)) * toR p1 / (toR e * toR dp)| ≤ 1e-12 * (toR p1 / (toR e * toR dp)) := by
  have hq := h.at fe h1 h2 h3
  have A := ap_press hL hq
  have B := ap_dpdd hL hq
  rw [fracs_at, show (atD q e).d = e from rfl, show (atD q e).t = q.t from rfl] at A B
  obtain ⟨e2, e3⟩ := at_fresh _ _ e (withD_fresh q e)
  rw [← e2, ← ep] at A
  rw [← e3, ← ed] at B
  obtain ⟨z1, z2⟩ := one_le_abs hL hq
  rw [fracs_at, show (atD q e).d = e from rfl, show (atD q e).t = q.t from rfl] at z1 z2
  have t1 := h.t_low
  obtain ⟨a1, a2⟩ := Gerg.rel_low hK1 hK (c := toR e * 8.31451 * toR q.t) (by
    norm_num at h1 ⊢; nlinarith) z1 hZ (ap_small A (by norm_num))
  obtain ⟨b1, b2⟩ := Gerg.rel_low hK1 hK (c := 8.31451 * toR q.t) (by norm_num; linarith) z2 hQ (ap_small B (by norm_num))
  have pw : ∀ k : ℕ, k ≤ 715 → (1 + 1 / 2 ^ 28) * (2 : ℝ) ^ k ≤ 2 ^ 720 := by
    intro k hk
    have h1 : (2 : ℝ) ^ k ≤ 2 ^ 715 := pow_le_pow_right₀ (by norm_num) hk
    have h2 : (2 : ℝ) ^ 720 = 2 ^ 5 * 2 ^ 715 := by rw [← pow_add]
    rw [h2]
    exact mul_le_mul (by norm_num) h1 (by positivity) (by norm_num)
  have A3 := (le_abs_self _).trans (A.le_two (by norm_num))
  have B3 := (le_abs_self _).trans (B.le_two (by norm_num))
  have A4 := Ap.le_pow A
  have B4 := Ap.le_pow B
  have A5 : toR p1 ≤ 2 ^ 720 :=
    A3.trans ((mul_le_mul_of_nonneg_left A4 (by norm_num)).trans (pw 715 le_rfl))
  have B5 : toR dp ≤ 2 ^ 720 :=
    B3.trans ((mul_le_mul_of_nonneg_left B4 (by norm_num)).trans (pw 705 (by norm_num)))
  have hp1 := h.p_low
  have hp2 := h.p_high
  obtain ⟨w1, w2⟩ := newton_w hN h.p_fin ⟨by norm_num at hp1 ⊢; linarith, hp2.trans (by norm_num)⟩ A.fin
    ⟨by norm_num at a2 ⊢; linarith, A5⟩ B.fin ⟨by norm_num at b2 ⊢; linarith, B5⟩ fe
    ⟨by norm_num at h1 ⊢; linarith, h2.trans (by norm_num)⟩
  exact ⟨A.fin, B.fin, a2, b2, a1, b1, w1, w2⟩

omit hN in
theorem K_nonneg (h : DensDomain q) : 0 ≤ Eos.Kcubed (fracs q) := by
  have h0 : ErrDomain (atD q (f% 0.0)) := ⟨h.t_fin, h.t_low, h.t_high, fin0, Or.inl toR0, by
    show _ * toR (f% 0.0) ≤ _
    rw [toR0]; norm_num, h.x_fin, h.x_rng, h.x_big⟩
  exact (close_of_domain hL h0 (fill 4 (fill 4 (f% 0.0)))).k30.le

omit hL hN in
theorem v_bound {v : Float} (h1 : FOps.le (-(f% 7.0)) v = true) (h2 : FOps.le v (f% 100.0) = true) :
    IsFinite v ∧ |toR v| ≤ 150 := by
  have c7 : decChk true 0 3 ⟨7, 0⟩ = true := by decide +kernel
  have c100 : decChk true 0 7 ⟨100, 0⟩ = true := by decide +kernel
  have e7 : toR (litF ⟨7, 0⟩) = 7 := by rw [(decChk_val c7).2.1 rfl]; simp [decR]
  have e100 : toR (litF ⟨100, 0⟩) = 100 := by rw [(decChk_val c100).2.1 rfl]; simp [decR]
  have h1' : -(litF ⟨7, 0⟩) ≤ v := of_decide_eq_true h1
  have h2' : v ≤ litF ⟨100, 0⟩ := of_decide_eq_true h2
  obtain ⟨f, a, b⟩ := fin_between (fin_neg (decChk_fin c7)) (decChk_fin c100) h1' h2'
  rw [toR_neg, e7] at a
  rw [e100] at b
  exact ⟨f, by rw [abs_le]; constructor <;> linarith⟩

/-- The accuracy of a successful search. -/
theorem density_err (h : DensDomain q) {s' : Detail Float} (hd : densityP (freshOf q) = (s', .ok ()))
    {K m M ρ : ℝ} (hK1 : 1 ≤ K) (hK : K ≤ 1e6) (hm : 0 < m) (hmM : m ≤ M) (hρ : ρ = 2 * (1e-9 * K + 1e-12) * (1 + 1 / m))
    (d1 : 2e-4 ≤ toR s'.d) (d2 : toR s'.d ≤ 900) (d3 : Eos.Kcubed (fracs q) * toR s'.d ≤ 2.99)
    (hs : ∀ D, 0 < D → |Real.log D - Real.log (toR s'.d)| ≤ (1e-7 + 2 * ρ) * (1 + M / m) →
      0 < Eos.Z (fracs q) D (toR q.t) ∧ Eos.Zabs (fracs q) D (toR q.t) ≤ K * Eos.Z (fracs q) D (toR q.t) ∧
      Eos.dPdDabs (fracs q) D (toR q.t) ≤ K * Eos.dPdD (fracs q) D (toR q.t) ∧
      m ≤ Eos.dPdD (fracs q) D (toR q.t) / Eos.Z (fracs q) D (toR q.t) ∧
      Eos.dPdD (fracs q) D (toR q.t) / Eos.Z (fracs q) D (toR q.t) ≤ M) :
    IsFinite s'.d ∧ ∃ D, 0 < D ∧ PT q D = toR q.p ∧ |Real.log (toR s'.d) - Real.log D| ≤ 1e-7 * (M / m - 1) + ρ * (M / m) ∧
      ∀ D', 0 < D' → |Real.log D' - Real.log (toR s'.d)| ≤ 1e-7 * (1 + M / m) → PT q D' = toR q.p → D' = D := by
  rw [densityP_eq'] at hd
  split at hd
  · cases hd
  obtain ⟨v, a1, a2, -, -, a4, a6, -⟩ := densityLoopP_success F64.selfDiff (freshOf q) 20 (-FOps.ln (d0Of (freshOf q)))
    (withD (freshOf q) (d0Of (freshOf q))) (view_withD _ _) rfl rfl (by rw [hd])
  rw [hd] at a6
  obtain ⟨fv, hv⟩ := v_bound a1 a2
  obtain ⟨fe, e0, le⟩ := exp_neg hL fv (by linarith)
  unfold vstep at a4 a6
  set e : Float := FOps.exp (-v) with he
  have ep : (freshOf q).p = q.p := rfl
  rw [ep] at a4 a6
  set w : Float := (FOps.ln (pAt (freshOf q) e) - FOps.ln q.p) * pAt (freshOf q) e / (-e * dpAt (freshOf q) e) with hw
  have c7 : decChk false 30 0 ⟨1, 7⟩ = true := by decide +kernel
  have C7 := Ap.litPos c7 (by norm_num)
  have e7 : decR ⟨1, 7⟩ = 1 / 10 ^ 7 := by simp [decR]
  have fw : IsFinite w := fin_of_abs_lt C7.fin (by rw [flt] at a4; exact a4)
  have hw1 : |toR w| < toR (litF ⟨1, 7⟩) := by
    have : w.abs < litF ⟨1, 7⟩ := by rw [flt] at a4; exact a4
    rwa [lt_toR (fin_abs fw) C7.fin, toR_abs] at this
  have hw2 : |toR w| ≤ 1e-7 := hw1.le.trans Gerg.tol_le
  obtain ⟨-, -, fd, dpos, hd4⟩ := exp_step hL fv hv fw (hw2.trans (by norm_num)) (u := v - w) (Or.inl rfl)
  have a6' : s'.d = FOps.exp (-(v - w)) := a6
  rw [← a6'] at fd dpos hd4
  refine ⟨fd, ?_⟩
  have hd : |Real.log (toR s'.d) - (Real.log (toR e) + toR w)| ≤ 4e-14 := by
    have e1 : Real.log (toR s'.d) - (Real.log (toR e) + toR w) =
      (Real.log (toR s'.d) - (-toR v + toR w)) - (Real.log (toR e) + toR v) := by ring
    rw [e1]
    refine (abs_sub _ _).trans ?_
    norm_num at hd4 le ⊢
    linarith
  have hM1 : 1 ≤ M / m := by rw [le_div_iff₀ hm]; linarith
  have ρ0 : 0 < ρ := by rw [hρ]; positivity
  have hle : |Real.log (toR e) - Real.log (toR s'.d)| ≤ 1.1e-7 := by
    have e1 : Real.log (toR e) - Real.log (toR s'.d) = -(Real.log (toR s'.d) - (Real.log (toR e) + toR w)) - toR w := by ring
    rw [e1]
    refine (abs_sub _ _).trans ?_
    rw [abs_neg]
    norm_num at hd hw2 ⊢
    linarith
  obtain ⟨r1, r2⟩ := Gerg.ratio_close e0 dpos hle
  obtain ⟨s0, s1, s2, s3, s4⟩ := hs (toR e) e0 (hle.trans (by
    have : (1e-7 : ℝ) * 2 ≤ (1e-7 + 2 * ρ) * (1 + M / m) := mul_le_mul (by linarith) (by linarith) (by norm_num) (by norm_num; linarith)
    norm_num at this ⊢
    linarith))
  have vr := K_nonneg hL h
  obtain ⟨g1, g2, g3, g4, g5, g6, g7, g8⟩ := newton_fresh hL hN h fe (by norm_num at d1 r1 ⊢; linarith) (by norm_num at d2 r2 ⊢; linarith)
    (by
      have := mul_le_mul_of_nonneg_left r2 vr
      norm_num at d3 this ⊢; linarith) hK1 hK s1 s2 rfl rfl
  have T0 : 0 < toR q.t := by linarith [h.t_low]
  exact Newton.density_accurate_pert (lt_of_lt_of_le (by norm_num) h.p_low) e0 hm hmM (by positivity)
    (by norm_num at hK ⊢; linarith) hρ (fun D _ => curve_deriv q D) g5 g6 g8 hw2 hd (fun D D0 hD => by
      obtain ⟨s0, -, -, s3, s4⟩ := hs D D0 hD
      have e1 : D * QT q D / PT q D = Eos.dPdD (fracs q) D (toR q.t) / Eos.Z (fracs q) D (toR q.t) := by
        unfold QT PT; field_simp
      rw [e1]
      exact ⟨by unfold PT; positivity, s3, s4⟩)

end

end Aga8.Detail
