import Verif.Lemmas.GergErrEnergy
import Verif.Lemmas.DetailErrEnergy
import Verif.Spec.GergCurvature

/-! # Rounding errors in the second derivatives of the GERG-2008 pressure -/

set_option linter.unusedSectionVars false

namespace Aga8.Gerg

open Tab Real GergEos F64
open Detail (ap1 ap2 apNat)

theorem grow3_ok : IsGrow Shape.f3A PureTerm.grow3 DepTerm.grow3 where
  pure a δ := by
    unfold Shape.f3A Shape.f1A Shape.l2A Shape.l3A PureTerm.grow3 PureTerm.grow1; dsimp only; ring
  dep a δ := by
    unfold Shape.f3A Shape.f1A Shape.l2A Shape.l3A DepTerm.grow3 DepTerm.grow1; dsimp only; push_cast; ring

theorem growT12 : IsGrow (fun σ δ => σ.t * σ.f2A δ) (fun a δ => |(a.t : ℝ)| * a.grow2 δ)
    (fun a δ => |(a.t : ℝ)| * a.grow2 δ) where
  pure a δ := by dsimp only; rw [grow2_ok.pure]
  dep a δ := by dsimp only; rw [grow2_ok.dep]

/-! ## The exact derivatives -/

theorem Shape.deriv_l2 (σ : Shape) (δ : ℝ) : ∃ f', HasDerivAt σ.l2 f' δ ∧ δ * f' = σ.l3 δ := by
  have h1 := ((hasDerivAt_pow σ.k δ).const_mul ((σ.k : ℝ) ^ 2)).neg
  have h2 := (((hasDerivAt_pow 2 δ).const_mul σ.c).const_mul (4 : ℝ))
  have h3 := (hasDerivAt_id δ).const_mul σ.e
  refine ⟨_, (h1.add h2).add h3, ?_⟩
  unfold Shape.l3
  have hp : δ * (σ.k * δ ^ (σ.k - 1)) = σ.k * δ ^ σ.k := by
    cases σ.k with
    | zero => simp
    | succ n => rw [Nat.add_sub_cancel, pow_succ]; ring
  have e : ((2 : ℕ) : ℝ) * δ ^ (2 - 1) = 2 * δ := by norm_num
  rw [e]
  linear_combination (-(σ.k : ℝ) ^ 2) * hp

theorem RS_deriv2 (x : Vector ℝ 22) (δ τ : ℝ) : ∃ r', HasDerivAt (fun δ => RS x Shape.f2 δ τ) r' δ ∧
    δ * r' = 2 * RS x Shape.f2 δ τ + RS x Shape.f3 δ τ := by
  choose φ' h1 h2 using fun ι : Ix => (shape m0 ι).deriv_phi δ
  choose f' h3 h4 using fun ι : Ix => (shape m0 ι).deriv_f1 δ
  choose g' h5 h6 using fun ι : Ix => (shape m0 ι).deriv_l2 δ
  have hf2 : ∀ ι : Ix, HasDerivAt (shape m0 ι).f2 (2 * (shape m0 ι).f1 δ * f' ι - f' ι + g' ι) δ := by
    intro ι
    have := (((h3 ι).pow 2).sub (h3 ι)).add (h5 ι)
    refine this.congr_deriv ?_
    push_cast; ring
  have h : HasDerivAt (fun δ => RS x Shape.f2 δ τ)
      (∑ ι : Ix, coef x ι * Real.exp ((shape m0 ι).t * Real.log τ) * (φ' ι * (shape m0 ι).f2 δ
        + (shape m0 ι).phi δ * (2 * (shape m0 ι).f1 δ * f' ι - f' ι + g' ι))) δ :=
    HasDerivAt.fun_sum fun ι _ => ((h1 ι).mul (hf2 ι)).const_mul _
  refine ⟨_, h, ?_⟩
  unfold RS
  rw [Finset.mul_sum, Finset.mul_sum, ← Finset.sum_add_distrib]
  refine Finset.sum_congr rfl fun ι _ => ?_
  unfold Shape.f3 Shape.f2
  linear_combination (coef x ι * Real.exp ((shape m0 ι).t * Real.log τ)) *
    (((shape m0 ι).f1 δ ^ 2 - (shape m0 ι).f1 δ + (shape m0 ι).l2 δ) * h2 ι
      + (shape m0 ι).phi δ * (2 * (shape m0 ι).f1 δ - 1) * h4 ι + (shape m0 ι).phi δ * h6 ι)

theorem pressureDD_RS (x : Vector ℝ 22) {D T : ℝ} (hD : D ≠ 0) (hτ : 0 < Tr (yOf x) / T) :
    GergEos.pressureDD (yOf x) D T = 8.314472 * T * (2 * RS x Shape.f1 (D * invRhoR (yOf x)) (Tr (yOf x) / T)
      + 4 * RS x Shape.f2 (D * invRhoR (yOf x)) (Tr (yOf x) / T)
      + RS x Shape.f3 (D * invRhoR (yOf x)) (Tr (yOf x) / T)) / D := by
  unfold GergEos.pressureDD
  simp only [dPdD_RS x _ hτ]
  obtain ⟨r', h1, h2⟩ := RS_deriv1 x (D * invRhoR (yOf x)) (Tr (yOf x) / T)
  obtain ⟨q', g1, g2⟩ := RS_deriv2 x (D * invRhoR (yOf x)) (Tr (yOf x) / T)
  have h3 : HasDerivAt (fun D => D * invRhoR (yOf x)) (invRhoR (yOf x)) D := by
    simpa using (hasDerivAt_id D).mul_const (invRhoR (yOf x))
  have h4 := ((((h1.comp D h3).const_mul 2).const_add 1).add (g1.comp D h3)).const_mul (8.314472 * T)
  have h5 : HasDerivAt (fun D => 8.314472 * T * (1 + 2 * RS x Shape.f1 (D * invRhoR (yOf x)) (Tr (yOf x) / T)
      + RS x Shape.f2 (D * invRhoR (yOf x)) (Tr (yOf x) / T))) _ D := h4
  rw [h5.deriv, eq_div_iff hD]
  linear_combination 8.314472 * T * (2 * h2 + g2)

section
variable {x : Vector ℝ 22} (hx : Present x) {D T : ℝ}
include hx

theorem pressureTD_I (hT : 0 < T) : GergEos.pressureTD (yOf x) D T
    = 8.314472 * (1 + 2 * RT x Shape.f1 D T + RT x Shape.f2 D T - 2 * RT x (fun σ δ => σ.t * σ.f1 δ) D T
      - RT x (fun σ δ => σ.t * σ.f2 δ) D T) := by
  unfold GergEos.pressureTD
  have h2 := (((hasDerivAt_id T).mul ((((hasDerivAt_RT x Shape.f1 D hT).const_mul 2).const_add 1).add
    (hasDerivAt_RT x Shape.f2 D hT))).const_mul (8.314472 : ℝ))
  have h3 : HasDerivAt (fun T => 8.314472 * T * GergEos.dPdD (yOf x) D T) _ T :=
    h2.congr_of_eventuallyEq ((eventually_gt_nhds hT).mono fun t ht => by
      have hτ : 0 < GergEos.Tr (yOf x) / t := by rw [← trX_eq]; exact div_pos hx.tr_pos ht
      simp only [Pi.mul_apply, Pi.add_apply, id]
      rw [dPdD_RS x D hτ, RT_RS hx, RT_RS hx]
      ring)
  rw [h3.deriv]
  simp only [Pi.add_apply, id]
  field_simp
  ring

end

/-! ## Only the fractions matter -/

theorem curv_congr' {x y : Fin 22 → ℝ} (h : ∀ i : Fin 22, 1 ≤ i.1 → x i = y i) (D T : ℝ) :
    pressureDD x D T = pressureDD y D T ∧ pressureTD x D T = pressureTD y D T ∧
    pressureDDAbs x D T = pressureDDAbs y D T ∧ pressureTDAbs x D T = pressureTDAbs y D T := by
  unfold pressureDD pressureTD pressureDDAbs pressureTDAbs res11 res12
  simp only [dPdD_congr' h, dPdDabs_congr' h]
  rw [show Tr x = Tr y from reducing_congr' h _ _, show invRhoR x = invRhoR y from reducing_congr' h _ _, sizes_congr' h,
    sizes_congr' h, sizes_congr' h, sizes_congr' h, sizes_congr' h]
  exact ⟨trivial, trivial, rfl, rfl⟩

/-! ## A new object -/

theorem chkFour : decChk true 0 2 ⟨4, 0⟩ = true := by decide +kernel

variable [Libm]

theorem apFour : Ap (f% 4.0 : Float) 4 4 0 0 2 := by
  have h : decR ⟨4, 0⟩ = 4 := by simp [decR]
  have := Ap.litExPos chkFour (by norm_num)
  rwa [h] at this

theorem scale_low {T m : ℝ} {l : ℕ} (h : 1 ≤ 2 ^ (l + 7) * m) (hm : 0 ≤ m) (hT : 50 ≤ T) : 1 ≤ 2 ^ l * (8.314472 * T * m) := by
  refine h.trans ?_
  rw [pow_add, mul_assoc]
  refine mul_le_mul_of_nonneg_left (mul_le_mul_of_nonneg_right ?_ hm) (by positivity)
  norm_num at hT ⊢; linarith

/-- The second derivatives of the pressure on a new object. -/
theorem ap_gcurv (hL : LibmAccurate) (hN : LnAccurate) {q : Pub Float} (hq : ErrDomain q) (t1 : 50 ≤ toR q.t)
    (hD : 1e-4 ≤ toR q.d) :
    Ap (propertiesP (freshOf q)).1.d2p_dd2 (GergEos.pressureDD (fracs q) (toR q.d) (toR q.t))
      (GergEos.pressureDDAbs (fracs q) (toR q.d) (toR q.t)) 3480100 1000 300 ∧
    Ap (propertiesP (freshOf q)).1.d2p_dtd (GergEos.pressureTD (fracs q) (toR q.d) (toR q.t))
      (GergEos.pressureTDAbs (fracs q) (toR q.d) (toR q.t)) 3480100 0 300 := by
  have T0 : 0 < toR q.t := by linarith
  have D0 : 0 < toR q.d := lt_of_lt_of_le (by norm_num) hD
  have hok := okX_of hq
  have hP : Present (xr q.x) := by
    obtain ⟨k, hk, hx⟩ := hq.x_big
    exact ⟨k, hk, by rw [xr_get]; exact le_trans (by norm_num) hx⟩
  have At := ap_t hq
  have Ad := ap_d hq
  have hτ := tau_pos hL hq
  obtain ⟨ld, le, C⟩ := cl_fresh hL hN hq
  have r01 := ap_arOf hL C (eadds01 1)
  have r02 := ap_arOf hL C (eadds02 1)
  have r03 := ap_arOf hL C (eadds03 (itau := 1) (by decide))
  have r11 := ap_arOf hL C (eadds11 (itau := 1) (by decide))
  have r12 := ap_arOf hL C (eadds12 (itau := 1) (by decide))
  rw [← ar_errFresh hq] at r01 r02 r03 r11 r12
  unfold dlt tauR at r01 r02 r03 r11 r12
  have fe := fracs_eq hok
  obtain ⟨a1, a2, a3, a4⟩ := curv_congr' fe (toR q.d) (toR q.t)
  have ea : (propsMid (freshOf q)).ar = (alpharP (freshOf q) 1).ar := propsMid_ar _
  have et : (propsMid (freshOf q)).t = q.t := propsMid_t _
  have ed : (propsMid (freshOf q)).d = q.d := propsMid_d _
  rw [propertiesP_eq]
  have rr := apRG.mul At
  have he : (FOps.lt (EPSILON : Float) q.d) = true := Detail.eps_lt Ad hD
  refine ⟨?_, ?_⟩
  · rw [propsFinish_d2p_dd2, ea, ed, et, if_pos he, a1, a3, pressureDD_RS _ D0.ne' hτ]
    rw [RA_eq grow1_ok _ _ hτ] at r01
    rw [RA_eq grow2_ok _ _ hτ] at r02
    rw [RA_eq grow3_ok _ _ hτ] at r03
    have S := ((ap2.mul r01).add (apFour.mul r02)).add r03
    have P := rr.mul S
    have P' : Ap _ _ _ _ 988 210 := ⟨P.fin, P.mag, P.err, S.rng.imp (fun h => by rw [h, mul_zero]) fun h =>
      ⟨scale_low h.1 S.nonneg t1, (Detail.Ap.le_pow P).trans (by norm_num)⟩⟩
    exact (P'.div Ad D0).weak (by norm_num) (by norm_num) (by norm_num)
  · rw [propsFinish_d2p_dtd, ea, a2, a4, pressureTD_I hP T0]
    rw [← RT_RS hP, RA_eq grow1_ok _ _ hτ] at r01
    rw [← RT_RS hP, RA_eq grow2_ok _ _ hτ] at r02
    rw [← RT_RS hP, RA_eq growT11 _ _ hτ] at r11
    rw [← RT_RS hP, RA_eq growT12 _ _ hτ] at r12
    have S := (((ap1.add (ap2.mul r01)).add r02).sub (ap2.mul r11)).sub r12
    have W := Ap.one_le S (by
      have h1 := r01.nonneg
      have h2 := r02.nonneg
      have h3 := r11.nonneg
      have h4 := r12.nonneg
      linarith)
    exact (apRG.mul W).weak (by norm_num) (by norm_num) (by norm_num)

end Aga8.Gerg
