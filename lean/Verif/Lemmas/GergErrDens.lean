import Verif.Lemmas.GergErrFresh
import Verif.Lemmas.F64Newton
import Verif.Lemmas.AccuracyPert
import Verif.Lemmas.GergEval

/-! # The density search of GERG-2008 in f64 -/

set_option linter.unusedSectionVars false

namespace Aga8.Gerg

open Tab F64 GergEos
open Detail (ap0 ap1 ap2)

attribute [local irreducible] newP pressureP propertiesP

theorem err_small {a : Float} {α m : ℝ} {k l h : ℕ} (A : Ap a α m k l h) (hk : k ≤ 9000000) :
    |toR a - α| ≤ 1e-9 * m := by
  refine A.err.trans (mul_le_mul_of_nonneg_right ?_ A.nonneg)
  have : (k : ℝ) ≤ 9000000 := by exact_mod_cast hk
  rw [uu_eq]
  norm_num
  linarith

section
variable [Libm]

theorem chkRG : decChk false 0 4 ⟨8314472, 6⟩ = true := by decide +kernel

theorem apRG : Ap (RGERG : Float) 8.314472 8.314472 1 0 4 := by
  have h := Ap.litPos chkRG (by norm_num)
  have e : decR ⟨8314472, 6⟩ = 8.314472 := by simp [decR]; norm_num
  rw [e] at h
  exact h

theorem chkDC : ∀ i : Fin 22, 1 ≤ i.1 → decChk false 0 5 (aget DC i) = true ∧ 0 < (aget DC i).m := by decide +kernel
theorem chk3 : decChk true 0 2 ⟨3, 0⟩ = true := by decide +kernel
theorem chk25 : decChk true 0 2 ⟨25, 1⟩ = true := by decide +kernel
theorem chk2 : decChk true 0 2 ⟨2, 0⟩ = true := by decide +kernel

theorem apDC {i : Fin 22} (hi : 1 ≤ i.1) : Ap (tab DC i : Float) (decR (aget DC i)) (decR (aget DC i)) 1 0 5 ∧
    0 < decR (aget DC i) := by
  obtain ⟨c, p⟩ := chkDC i hi
  refine ⟨Ap.litPos c p.le, ?_⟩
  unfold decR
  have : (0 : ℝ) < (aget DC i).m := by exact_mod_cast p
  positivity

variable {q : Pub Float}

/-- The pseudo-critical volume. -/
theorem ap_vcx (h : DensDomain q) {s : Gerg Float} (hs : s.x = q.x) :
    ∃ α, 0 < α ∧ Ap (loop 1 22 ((f% 0.0 : Float), (f% 0.0 : Float)) fun i (a : Float × Float) =>
      (a.1 + aget s.x i * tab TC i, a.2 + aget s.x i / tab DC i)).2 α α 50 12 10 := by
  rw [hs]
  have X : ∀ i : Fin 22, 1 ≤ i.1 → Ap (aget q.x i) (toR (aget q.x i)) (toR (aget q.x i)) 0 34 1 := by
    intro i hi
    have h0 : 0 ≤ toR (aget q.x i) := by
      rcases h.x_rng i hi with h | h
      · rw [h]
      · have := h.1; norm_num at this; linarith
    have := Ap.exact (l := 34) (h := 1) (h.x_fin i hi) (by
      rw [abs_of_nonneg h0]
      exact (h.x_rng i hi).imp id fun r => ⟨by have := r.1; norm_num at this ⊢; linarith, by linarith [r.2]⟩)
    rwa [abs_of_nonneg h0] at this
  have T : ∀ i : Fin 22, 1 ≤ i.1 → Ap (aget q.x i / tab DC i) (toR (aget q.x i) / decR (aget DC i))
      (toR (aget q.x i) / decR (aget DC i)) 3 39 1 := fun i hi => (X i hi).div (apDC hi).1 (apDC hi).2
  have H := F64.Adds.loop (σ := Float × Float) (π := fun a => a.2) 1 (c := 2) (kt := 3) (l := 39) (h := 10)
    (F := fun i a => (a.1 + aget q.x i * tab TC i, a.2 + aget q.x i / tab DC i))
    (α := fun i => toR (aget q.x i) / decR (aget DC i)) (m := fun i => toR (aget q.x i) / decR (aget DC i))
    (fun i hi => F64.Adds.one (fun _ => rfl) ((T i hi).weak le_rfl le_rfl (by norm_num)) (by norm_num))
  have nn : ∀ i ∈ (Finset.univ.filter fun i : Fin 22 => 1 ≤ i.1), 0 ≤ toR (aget q.x i) / decR (aget DC i) := fun i hi =>
    (T i (Finset.mem_filter.1 hi).2).nonneg
  have up : ∀ i ∈ (Finset.univ.filter fun i : Fin 22 => 1 ≤ i.1), toR (aget q.x i) / decR (aget DC i) ≤ 2 := by
    intro i hi
    have := Detail.Ap.le_pow (T i (Finset.mem_filter.1 hi).2)
    norm_num at this
    exact this
  have b3 := Finset.sum_le_card_nsmul _ _ _ up
  rw [nsmul_eq_mul, show (Finset.univ.filter fun i : Fin 22 => 1 ≤ i.1).card = 21 by decide] at b3
  have Z := H.2 (f% 0.0, f% 0.0) 0 0 3 le_rfl (by show 3 + 2 * (22 - 1) ≤ 33554432; norm_num)
    (by rw [zero_add]; exact b3.trans (by norm_num)) (ap0 3 39 10)
  rw [zero_add] at Z
  obtain ⟨k, hk, hx⟩ := h.x_big
  have hk' := Detail.Ap.le_pow (apDC hk).1
  have low : 1 / 3200 ≤ ∑ i : Fin 22 with 1 ≤ i.1, toR (aget q.x i) / decR (aget DC i) := by
    refine le_trans ?_ (Finset.single_le_sum nn (Finset.mem_filter.2 ⟨Finset.mem_univ k, hk⟩))
    rw [le_div_iff₀ (apDC hk).2]
    linarith
  have hpos : 0 < ∑ i : Fin 22 with 1 ≤ i.1, toR (aget q.x i) / decR (aget DC i) := lt_of_lt_of_le (by norm_num) low
  exact ⟨_, hpos, (Detail.Ap.rerange Z ⟨by norm_num; linarith, b3.trans (by norm_num)⟩).weak (by norm_num) le_rfl le_rfl⟩

/-- The starting points of the search are finite numbers of moderate size. -/
theorem v_bound (hN : LnAccurate) (h : DensDomain q) {s : Gerg Float} (hs : s.x = q.x) {v : Float}
    (hv : (FOps.le (-(f% 7.0)) v = true ∧ FOps.le v (f% 100.0) = true) ∨
        v = -FOps.ln ((Gerg.pseudocriticalpoint s).1 * f% 3.0) ∨
        v = -FOps.ln ((Gerg.pseudocriticalpoint s).1 * f% 2.5) ∨
        v = -FOps.ln ((Gerg.pseudocriticalpoint s).1 * f% 2.0)) : IsFinite v ∧ |toR v| ≤ 150 := by
  rcases hv with ⟨h1, h2⟩ | hv
  · have c7 : decChk true 0 3 ⟨7, 0⟩ = true := by decide +kernel
    have c100 : decChk true 0 7 ⟨100, 0⟩ = true := by decide +kernel
    have e7 : toR (litF ⟨7, 0⟩) = 7 := by rw [(decChk_val c7).2.1 rfl]; simp [decR]
    have e100 : toR (litF ⟨100, 0⟩) = 100 := by rw [(decChk_val c100).2.1 rfl]; simp [decR]
    have h1' : -(litF ⟨7, 0⟩) ≤ v := of_decide_eq_true h1
    have h2' : v ≤ litF ⟨100, 0⟩ := of_decide_eq_true h2
    obtain ⟨f, a, b⟩ := fin_between (fin_neg (decChk_fin c7)) (decChk_fin c100) h1' h2'
    rw [toR_neg, e7] at a
    rw [e100] at b
    exact ⟨f, by rw [abs_le]; constructor <;> linarith⟩
  · obtain ⟨α, α0, V⟩ := ap_vcx h hs
    have hlt : FOps.lt (EPSILON : Float) (loop 1 22 ((f% 0.0 : Float), (f% 0.0 : Float)) fun i (a : Float × Float) =>
      (a.1 + aget s.x i * tab TC i, a.2 + aget s.x i / tab DC i)).2 = true := by
      have C := Ap.litPos chkEps (by norm_num)
      have e : decR ⟨1, 15⟩ = 1 / 10 ^ 15 := by simp [decR]
      have h3 := (abs_le.1 C.err).2
      rw [e, uu_eq] at h3
      have e2 : (EPSILON : Float) = litF ⟨1, 15⟩ := rfl
      rw [e2, flt, lt_toR C.fin V.fin]
      obtain ⟨b1, -, -⟩ := V.rel_bounds α0 (by norm_num)
      have := (V.pos_bounds α0).1
      rw [uu_eq] at b1
      norm_num at h3 b1 this
      linarith
    have R := ap1.div V α0
    have key : ∀ (c : Float) (γ : ℝ), 0 < γ → Ap c γ γ 0 0 2 →
        IsFinite (-FOps.ln ((Gerg.pseudocriticalpoint s).1 * c)) ∧ |toR (-FOps.ln ((Gerg.pseudocriticalpoint s).1 * c))| ≤ 150 := by
      intro c γ γ0 C
      have e : (Gerg.pseudocriticalpoint s).1 = f% 1.0 / (loop 1 22 ((f% 0.0 : Float), (f% 0.0 : Float)) fun i (a : Float × Float) =>
        (a.1 + aget s.x i * tab TC i, a.2 + aget s.x i / tab DC i)).2 := by
        unfold pseudocriticalpoint
        exact if_pos hlt
      rw [e]
      have M := (R.mul C).weak (k' := 60) (l' := 10) (h' := 14) (by norm_num) (by norm_num) (by norm_num)
      have m0 : 0 < 1 / α * γ := by positivity
      have L := (M.ln hN m0).neg
      refine ⟨L.fin, ?_⟩
      have lt := L.le_two (by norm_num)
      refine lt.trans ?_
      obtain ⟨q1, q2⟩ := M.pos_bounds m0
      have l2 : Real.log 2 ≤ 1 := by linarith [Real.log_two_lt_d9]
      have l20 : 0 < Real.log 2 := Real.log_pos (by norm_num)
      have u1 : Real.log (1 / α * γ) ≤ 14 * Real.log 2 := by
        have := Real.log_le_log m0 q2
        rw [Real.log_pow] at this
        exact_mod_cast this
      have u2 : -(10 * Real.log 2) ≤ Real.log (1 / α * γ) := by
        have := Real.log_le_log one_pos q1
        rw [Real.log_one, Real.log_mul (by positivity) m0.ne', Real.log_pow] at this
        push_cast at this
        linarith
      have : |Real.log (1 / α * γ)| ≤ 14 := by rw [abs_le]; constructor <;> linarith
      linarith
    have d3 : decR ⟨3, 0⟩ = 3 := by simp [decR]
    have d25 : decR ⟨25, 1⟩ = 5 / 2 := by simp [decR]; norm_num
    have d2 : decR ⟨2, 0⟩ = 2 := by simp [decR]
    have a3 := Ap.litExPos chk3 (by norm_num)
    have a25 := Ap.litExPos chk25 (by norm_num)
    have a2 := Ap.litExPos chk2 (by norm_num)
    rw [d3] at a3
    rw [d25] at a25
    rw [d2] at a2
    rcases hv with rfl | rfl | rfl
    · exact key _ 3 (by norm_num) a3
    · exact key _ (5 / 2) (by norm_num) a25
    · exact key _ 2 (by norm_num) a2

/-- The inputs with another density. -/
def atD (q : Pub Float) (d : Float) : Pub Float := { q with d := d }

theorem DensDomain.at (h : DensDomain q) {d : Float} (fd : IsFinite d) (h1 : 1e-4 ≤ toR d) (h2 : toR d ≤ 1000)
    (h3 : toR d * GergEos.invRhoR (fracs q) ≤ 2.8) : ErrDomain (atD q d) :=
  ⟨h.t_fin, h.t_low, h.t_high, h.t_red1, h.t_red2, fd, Or.inr ⟨h1, h2⟩, h3, h.x_fin,
    fun i hi => (h.x_rng i hi).imp (fun e => e.le) id, h.x_big⟩

variable (hL : LibmAccurate) (hN : LnAccurate)
include hL hN

/-- The pressure of a new object. -/
theorem ap_press (hq : ErrDomain q) : Ap (pressureP (freshOf q)).2
    (toR q.d * 8.314472 * toR q.t * GergEos.Z (fracs q) (toR q.d) (toR q.t))
    (toR q.d * 8.314472 * toR q.t * GergEos.Zabs (fracs q) (toR q.d) (toR q.t)) 3480020 40 215 := by
  have hz := ap_z hL hN hq 0
  have hp := ((((ap_d hq).mul apRG).mul (ap_t hq)).mul hz).weak (k' := 3480020) (l' := 40) (h' := 215)
    (by norm_num) (by norm_num) (by norm_num)
  rw [pressureP_snd, pressureP_z]
  exact hp

theorem ap_dpdd (hq : ErrDomain q) : Ap (propertiesP (freshOf q)).1.dp_dd
    (8.314472 * toR q.t * GergEos.dPdD (fracs q) (toR q.d) (toR q.t))
    (8.314472 * toR q.t * GergEos.dPdDabs (fracs q) (toR q.d) (toR q.t)) 3480020 40 215 := by
  have hd := ap_dp hL hN hq 0
  have hdd := ((apRG.mul (ap_t hq)).mul hd).weak (k' := 3480020) (l' := 40) (h' := 215)
    (by norm_num) (by norm_num) (by norm_num)
  rw [propertiesP_dp_dd, pressureP_save]
  exact hdd

/-- The pressure of the GERG-2008 equation at the temperature and composition of `q`. -/
noncomputable def PT (q : Pub Float) (D : ℝ) : ℝ := D * 8.314472 * toR q.t * GergEos.Z (fracs q) D (toR q.t)
/-- Its density derivative. -/
noncomputable def QT (q : Pub Float) (D : ℝ) : ℝ := 8.314472 * toR q.t * GergEos.dPdD (fracs q) D (toR q.t)

omit hL hN in
theorem DensDomain.zero (h : DensDomain q) : ErrDomain (atD q (f% 0.0)) :=
  ⟨h.t_fin, h.t_low, h.t_high, h.t_red1, h.t_red2, fin0, Or.inl toR0, by
    show toR (f% 0.0) * _ ≤ _
    rw [toR0]; norm_num, h.x_fin,
    fun i hi => (h.x_rng i hi).imp (fun e => e.le) id, h.x_big⟩

omit hN in
theorem curve_deriv (h : DensDomain q) (D : ℝ) : HasDerivAt (PT q) (QT q D) D := by
  have hτ : 0 < Tr (yOf (xr q.x)) / toR q.t := tau_pos (q := atD q (f% 0.0)) hL h.zero
  have e := fracs_eq (okX_of h.zero)
  have k : HasDerivAt (fun D => D * GergEos.Z (fracs q) D (toR q.t)) (GergEos.dPdD (fracs q) D (toR q.t)) D := by
    unfold GergEos.dPdD
    rw [hasDerivAt_deriv_iff]
    have hz : (fun D => D * GergEos.Z (fracs q) D (toR q.t)) = fun D =>
        D * (1 + RS (xr q.x) Shape.f1 (D * invRhoR (yOf (xr q.x))) (Tr (yOf (xr q.x)) / toR q.t)) := by
      funext D
      rw [← Z_RS (xr q.x) D hτ]
      exact congrArg (D * ·) (Z_congr' e D (toR q.t))
    rw [hz]
    obtain ⟨r', h1, -⟩ := RS_deriv1 (xr q.x) (D * invRhoR (yOf (xr q.x))) (Tr (yOf (xr q.x)) / toR q.t)
    have h3 : HasDerivAt (fun D => D * invRhoR (yOf (xr q.x))) (invRhoR (yOf (xr q.x))) D := by
      simpa using (hasDerivAt_id D).mul_const (invRhoR (yOf (xr q.x)))
    exact ((hasDerivAt_id D).mul ((h1.comp D h3).const_add 1)).differentiableAt
  have := k.const_mul (8.314472 * toR q.t)
  refine this.congr_of_eventuallyEq (Filter.Eventually.of_forall fun D => ?_)
  unfold PT
  ring

theorem one_le_abs (h : ErrDomain q) : 1 ≤ GergEos.Zabs (fracs q) (toR q.d) (toR q.t) ∧
    1 ≤ GergEos.dPdDabs (fracs q) (toR q.d) (toR q.t) := by
  obtain ⟨ld, le, C⟩ := cl_fresh hL hN h
  have a0 := (ap_arOf hL C (eadds01 0)).nonneg
  have b0 := (ap_arOf hL C (eadds02 0)).nonneg
  rw [Zabs_congr' (fracs_eq (okX_of h)), Zabs_RA _ _ (tau_pos hL h), dPdDabs_congr' (fracs_eq (okX_of h)),
    dPdDabs_RA _ _ (tau_pos hL h)]
  unfold dlt tauR at a0 b0
  constructor <;> linarith

omit [Libm] hL hN in
theorem rel_low {p P A K c : ℝ} (hK1 : 1 ≤ K) (hK : K ≤ 1e6) (hc : 8e-4 ≤ c) (h1 : 1 ≤ A) (hA : A ≤ K * P) (h : |p - c * P| ≤ 1e-9 * (c * A)) :
    |p - c * P| ≤ 1e-9 * K * (c * P) ∧ 1e-11 ≤ p := by
  norm_num at *
  have c0 : 0 < c := by linarith
  have hh : c * A ≤ c * (K * P) := mul_le_mul_of_nonneg_left hA c0.le
  have h2 : |p - c * P| ≤ 1 / 1000000000 * K * (c * P) := by linarith
  refine ⟨h2, ?_⟩
  have hP : 1 ≤ 1000000 * P := by
    by_contra hn
    have : K * P < K * (1 / 1000000) := mul_lt_mul_of_pos_left (by linarith) (by linarith)
    linarith
  have P0 : 0 < P := by linarith
  have a := (abs_le.1 h2).1
  have b : 1 / 1000000000 * K * (c * P) ≤ 1 / 1000000000 * 1000000 * (c * P) := by gcongr
  have d : 1 / 1250 * (1 / 1000000) ≤ c * P := mul_le_mul hc (by linarith) (by norm_num) c0.le
  linarith

/-- One evaluation of the search, at a trial density in range. -/
theorem newton_fresh (h : DensDomain q) {e : Float} (fe : IsFinite e) (h1 : 1e-4 ≤ toR e) (h2 : toR e ≤ 1000)
    (h3 : toR e * GergEos.invRhoR (fracs q) ≤ 2.8) {K : ℝ} (hK1 : 1 ≤ K) (hK : K ≤ 1e6)
    (hZ : GergEos.Zabs (fracs q) (toR e) (toR q.t) ≤ K * GergEos.Z (fracs q) (toR e) (toR q.t))
    (hQ : GergEos.dPdDabs (fracs q) (toR e) (toR q.t) ≤ K * GergEos.dPdD (fracs q) (toR e) (toR q.t))
    {p1 dp : Float} (ep : p1 = pAt (freshOf q) e) (ed : dp = dpAt (freshOf q) e) :
    IsFinite p1 ∧ IsFinite dp ∧ 1e-11 ≤ toR p1 ∧ 1e-11 ≤ toR dp ∧
      |toR p1 - PT q (toR e)| ≤ 1e-9 * K * PT q (toR e) ∧ |toR dp - QT q (toR e)| ≤ 1e-9 * K * QT q (toR e) ∧
      IsFinite ((FOps.ln p1 - FOps.ln q.p) * p1 / (-e * dp)) ∧
      |toR ((FOps.ln p1 - FOps.ln q.p) * p1 / (-e * dp))
        + (Real.log (toR p1) - Real.log (toR q.p)) * toR p1 / (toR e * toR dp)| ≤ 1e-12 * (toR p1 / (toR e * toR dp)) := by
  have hq := h.at fe h1 h2 h3
  have A : Ap (pressureP (freshOf (atD q e))).2 (toR e * 8.314472 * toR q.t * GergEos.Z (fracs q) (toR e) (toR q.t))
    (toR e * 8.314472 * toR q.t * GergEos.Zabs (fracs q) (toR e) (toR q.t)) 3480020 40 215 := ap_press hL hN hq
  have B : Ap (propertiesP (freshOf (atD q e))).1.dp_dd (8.314472 * toR q.t * GergEos.dPdD (fracs q) (toR e) (toR q.t))
    (8.314472 * toR q.t * GergEos.dPdDabs (fracs q) (toR e) (toR q.t)) 3480020 40 215 := ap_dpdd hL hN hq
  have e1 : withD (freshOf q) e = freshOf (atD q e) := rfl
  have e2 : pAt (freshOf q) e = (pressureP (freshOf (atD q e))).2 := by unfold pAt; rw [e1]
  have e3 : dpAt (freshOf q) e = (propertiesP (freshOf (atD q e))).1.dp_dd := by
    unfold dpAt; rw [e1, propertiesP_dp_dd]
  rw [← e2, ← ep] at A
  rw [← e3, ← ed] at B
  obtain ⟨z1, z2⟩ : 1 ≤ GergEos.Zabs (fracs q) (toR e) (toR q.t) ∧ 1 ≤ GergEos.dPdDabs (fracs q) (toR e) (toR q.t) :=
    one_le_abs hL hN hq
  have t1 := h.t_low
  obtain ⟨a1, a2⟩ := rel_low hK1 hK (c := toR e * 8.314472 * toR q.t) (by
    norm_num at h1 ⊢; nlinarith) z1 hZ (err_small A (by norm_num))
  obtain ⟨b1, b2⟩ := rel_low hK1 hK (c := 8.314472 * toR q.t) (by norm_num; linarith) z2 hQ (err_small B (by norm_num))
  have pw : (2 : ℝ) ^ 215 * (1 + 1 / 2 ^ 28) ≤ 2 ^ 220 := by norm_num
  have A3 := (le_abs_self _).trans (A.le_two (by norm_num))
  have B3 := (le_abs_self _).trans (B.le_two (by norm_num))
  have A4 := Detail.Ap.le_pow A
  have B4 := Detail.Ap.le_pow B
  have A5 : toR p1 ≤ 2 ^ 220 := by
    refine A3.trans ((mul_le_mul_of_nonneg_left A4 (by norm_num)).trans ?_); linarith
  have B5 : toR dp ≤ 2 ^ 220 := by
    refine B3.trans ((mul_le_mul_of_nonneg_left B4 (by norm_num)).trans ?_); linarith
  have hp1 := h.p_low
  have hp2 := h.p_high
  obtain ⟨w1, w2⟩ := newton_w hN h.p_fin ⟨by norm_num at hp1 ⊢; linarith, hp2.trans (by norm_num)⟩ A.fin
    ⟨by norm_num at a2 ⊢; linarith, A5.trans (pow_le_pow_right₀ (by norm_num) (by norm_num))⟩ B.fin
    ⟨by norm_num at b2 ⊢; linarith, B5.trans (pow_le_pow_right₀ (by norm_num) (by norm_num))⟩ fe
    ⟨by norm_num at h1 ⊢; linarith, h2.trans (by norm_num)⟩
  exact ⟨A.fin, B.fin, a2, b2, a1, b1, w1, w2⟩

omit hL hN [Libm] in
theorem ratio_close {a b : ℝ} (ha : 0 < a) (hb : 0 < b) (h : |Real.log a - Real.log b| ≤ 1.1e-7) :
    0.999 * b ≤ a ∧ a ≤ 1.001 * b := by
  rw [← Real.log_div ha.ne' hb.ne', abs_le] at h
  have h1 := Real.log_le_sub_one_of_pos (div_pos hb ha)
  have h2 : Real.log (b / a) = -Real.log (a / b) := by rw [Real.log_div hb.ne' ha.ne', Real.log_div ha.ne' hb.ne']; ring
  have h3 := Real.add_one_le_exp (Real.log (a / b))
  rw [Real.exp_log (div_pos ha hb)] at h3
  have h4 : 0.999 ≤ a / b := by norm_num at h ⊢; linarith
  have h5 : 0.9995 ≤ b / a := by
    have := Real.add_one_le_exp (Real.log (b / a))
    rw [Real.exp_log (div_pos hb ha)] at this
    norm_num at h ⊢; linarith
  rw [le_div_iff₀ hb] at h4
  rw [le_div_iff₀ ha] at h5
  refine ⟨h4, ?_⟩
  norm_num at h5 ⊢
  linarith

omit hL hN in
theorem invRho_nonneg (h : DensDomain q) : 0 ≤ GergEos.invRhoR (fracs q) := by
  obtain ⟨k, hk, hx⟩ := h.x_big
  have e : GergEos.invRhoR (fracs q) = GergEos.invRhoR (yOf (xr q.x)) := (red_eq h.zero).2
  have v0 := vr_low (x := xr q.x) hk (by rw [xr_get]; exact hx)
  norm_num at v0
  rw [e]
  linarith

omit hL hN [Libm] in
/-- The tolerance of the search, as a double, is not above 1e-7. -/
theorem tol_le : toR (litF ⟨1, 7⟩) ≤ 1e-7 := by
  have h : (match up (litF ⟨1, 7⟩) with
    | .finite .positive m e _ => decide (m * 10 ^ 7 ≤ 2 ^ (-e).toNat) && decide (e < 0)
    | _ => false) = true := by decide +kernel
  unfold toR
  split at h
  · rename_i m e hm hu
    rw [hu, Bool.and_eq_true, decide_eq_true_eq, decide_eq_true_eq] at *
    obtain ⟨h1, h2⟩ := h
    obtain ⟨n, rfl⟩ : ∃ n : ℕ, e = -(n : ℤ) := ⟨(-e).toNat, by omega⟩
    have h3 : (m : ℝ) * 10 ^ 7 ≤ 2 ^ n := by
      have : m * 10 ^ 7 ≤ 2 ^ n := by simpa using h1
      exact_mod_cast this
    simp only [F64.val, sg, zpow_neg, zpow_natCast, one_mul]
    rw [← div_eq_mul_inv, div_le_iff₀ (by positivity)]
    norm_num at h3 ⊢
    linarith
  · cases h

/-- The accuracy of a successful search. -/
theorem density_err (h : DensDomain q) {iflag : Int} {s' : Gerg Float} (hd : densityP (freshOf q) iflag = (s', .ok ()))
    {K m M ρ : ℝ} (hK1 : 1 ≤ K) (hK : K ≤ 1e6) (hm : 0 < m) (hmM : m ≤ M) (hρ : ρ = 2 * (1e-9 * K + 1e-12) * (1 + 1 / m))
    (d1 : 2e-4 ≤ toR s'.d) (d2 : toR s'.d ≤ 900) (d3 : toR s'.d * GergEos.invRhoR (fracs q) ≤ 2.79)
    (hs : ∀ D, 0 < D → |Real.log D - Real.log (toR s'.d)| ≤ (1e-7 + 2 * ρ) * (1 + M / m) →
      0 < GergEos.Z (fracs q) D (toR q.t) ∧ GergEos.Zabs (fracs q) D (toR q.t) ≤ K * GergEos.Z (fracs q) D (toR q.t) ∧
      GergEos.dPdDabs (fracs q) D (toR q.t) ≤ K * GergEos.dPdD (fracs q) D (toR q.t) ∧
      m ≤ GergEos.dPdD (fracs q) D (toR q.t) / GergEos.Z (fracs q) D (toR q.t) ∧
      GergEos.dPdD (fracs q) D (toR q.t) / GergEos.Z (fracs q) D (toR q.t) ≤ M) :
    IsFinite s'.d ∧ ∃ D, 0 < D ∧ PT q D = toR q.p ∧ |Real.log (toR s'.d) - Real.log D| ≤ 1e-7 * (M / m - 1) + ρ * (M / m) ∧
      ∀ D', 0 < D' → |Real.log D' - Real.log (toR s'.d)| ≤ 1e-7 * (1 + M / m) → PT q D' = toR q.p → D' = D := by
  obtain ⟨v, a1, a2, a3, a4, a5, a6, a7⟩ := densityP_success F64.selfDiff (freshOf q) (by rw [hd])
  rw [hd] at a6
  have a1' : (FOps.le (-(f% 7.0)) v = true ∧ FOps.le v (f% 100.0) = true) ∨
        v = -FOps.ln ((Gerg.pseudocriticalpoint (freshOf q)).1 * f% 3.0) ∨
        v = -FOps.ln ((Gerg.pseudocriticalpoint (freshOf q)).1 * f% 2.5) ∨
        v = -FOps.ln ((Gerg.pseudocriticalpoint (freshOf q)).1 * f% 2.0) := by
    rcases a1 with h | h
    · unfold Gerg.inRange at h
      rw [Bool.and_eq_true] at h
      exact Or.inl h
    · exact Or.inr h
  obtain ⟨fv, hv⟩ := v_bound hN h (s := freshOf q) rfl a1'
  obtain ⟨fe, e0, le⟩ := exp_neg hL fv (by linarith)
  set e : Float := FOps.exp (-v) with he
  have ep : (freshOf q).p = q.p := rfl
  rw [ep] at a4 a6
  set w : Float := (FOps.ln (pAt (freshOf q) e) - FOps.ln q.p) * pAt (freshOf q) e / (-e * dpAt (freshOf q) e) with hw
  have c7 : decChk false 30 0 ⟨1, 7⟩ = true := by decide +kernel
  have C7 := Ap.litPos c7 (by norm_num)
  have e7 : decR ⟨1, 7⟩ = 1 / 10 ^ 7 := by simp [decR]
  have fw : IsFinite w := fin_of_abs_lt C7.fin (by rw [flt] at a4; exact a4)
  have hw1 : |toR w| < toR (litF ⟨1, 7⟩) := by
    have : w.abs < litF ⟨1, 7⟩ := by rw [flt] at a4; exact a4
    rwa [lt_toR (fin_abs fw) C7.fin, toR_abs] at this
  have hw2 : |toR w| ≤ 1e-7 := hw1.le.trans tol_le
  obtain ⟨-, -, fd, dpos, hd4⟩ := exp_step hL fv hv fw (hw2.trans (by norm_num)) (u := v + -w) (Or.inr rfl)
  rw [← a6] at fd dpos hd4
  refine ⟨fd, ?_⟩
  have hd : |Real.log (toR s'.d) - (Real.log (toR e) + toR w)| ≤ 4e-14 := by
    have e1 : Real.log (toR s'.d) - (Real.log (toR e) + toR w) =
      (Real.log (toR s'.d) - (-toR v + toR w)) - (Real.log (toR e) + toR v) := by ring
    rw [e1]
    refine (abs_sub _ _).trans ?_
    norm_num at hd4 le ⊢
    linarith
  have hM1 : 1 ≤ M / m := by rw [le_div_iff₀ hm]; linarith
  have ρ0 : 0 < ρ := by rw [hρ]; positivity
  have hle : |Real.log (toR e) - Real.log (toR s'.d)| ≤ 1.1e-7 := by
    have e1 : Real.log (toR e) - Real.log (toR s'.d) = -(Real.log (toR s'.d) - (Real.log (toR e) + toR w)) - toR w := by ring
    rw [e1]
    refine (abs_sub _ _).trans ?_
    rw [abs_neg]
    norm_num at hd hw2 ⊢
    linarith
  obtain ⟨r1, r2⟩ := ratio_close e0 dpos hle
  obtain ⟨s0, s1, s2, s3, s4⟩ := hs (toR e) e0 (hle.trans (by
    have : (1e-7 : ℝ) * 2 ≤ (1e-7 + 2 * ρ) * (1 + M / m) := mul_le_mul (by linarith) (by linarith) (by norm_num) (by norm_num; linarith)
    norm_num at this ⊢
    linarith))
  have vr := invRho_nonneg h
  obtain ⟨g1, g2, g3, g4, g5, g6, g7, g8⟩ := newton_fresh hL hN h fe (by norm_num at d1 r1 ⊢; linarith) (by norm_num at d2 r2 ⊢; linarith)
    (by
      have := mul_le_mul_of_nonneg_right r2 vr
      norm_num at d3 this ⊢; linarith) hK1 hK s1 s2 rfl rfl
  have T0 : 0 < toR q.t := by linarith [h.t_low]
  exact Newton.density_accurate_pert (lt_of_lt_of_le (by norm_num) h.p_low) e0 hm hmM (by positivity)
    (by norm_num at hK ⊢; linarith) hρ (fun D _ => curve_deriv hL h D) g5 g6 g8 hw2 hd (fun D D0 hD => by
      obtain ⟨s0, -, -, s3, s4⟩ := hs D D0 hD
      have e1 : D * QT q D / PT q D = GergEos.dPdD (fracs q) D (toR q.t) / GergEos.Z (fracs q) D (toR q.t) := by
        unfold QT PT; field_simp
      rw [e1]
      exact ⟨by unfold PT; positivity, s3, s4⟩)

end

end Aga8.Gerg
