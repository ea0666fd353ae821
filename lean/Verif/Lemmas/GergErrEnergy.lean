import Verif.Lemmas.GergErrIdealSum
import Verif.Lemmas.GergEval
import Verif.Spec.GergEnergyError

/-! # The rounding error of the GERG energies, entropy and heat capacity -/

set_option linter.unusedSectionVars false

namespace Aga8.Gerg

open FOps Tab F64
open Detail (ap0 ap1 ap2)

attribute [local irreducible] newP pressureP propertiesP

/-! ## Fractions that agree for the components -/

section congr
open GergEos
variable {x y : Fin 22 → ℝ} (h : ∀ i : Fin 22, 1 ≤ i.1 → x i = y i)
include h

theorem helmholtz_congr' (D T : ℝ) : helmholtz x D T = helmholtz y D T := by
  unfold helmholtz GergEos.alpha0
  rw [show Tr x = Tr y from reducing_congr' h _ _, show invRhoR x = invRhoR y from reducing_congr' h _ _, alphaR_congr' h,
    Finset.sum_congr rfl fun i hi => by rw [h i (Finset.mem_filter.1 hi).2]]

theorem entropy_congr' (D T : ℝ) : entropy x D T = entropy y D T := by
  unfold entropy
  simp only [helmholtz_congr' h]

theorem energy_congr' (D T : ℝ) : energy x D T = energy y D T := by
  unfold energy
  simp only [helmholtz_congr' h, entropy_congr' h]

theorem heatV_congr' (D T : ℝ) : heatV x D T = heatV y D T := by
  unfold heatV
  simp only [energy_congr' h]

theorem pressureT_congr' (D T : ℝ) : pressureT x D T = pressureT y D T := by
  unfold pressureT
  simp only [Z_congr' h]

theorem abs_congr' (D T : ℝ) : entropyAbs x D T = entropyAbs y D T ∧ energyAbs x D T = energyAbs y D T ∧
    enthalpyAbs x D T = enthalpyAbs y D T ∧ gibbsAbs x D T = gibbsAbs y D T ∧ heatVAbs x D T = heatVAbs y D T ∧
    pressureTAbs x D T = pressureTAbs y D T := by
  have e0 : ideal0 x D T = ideal0 y D T := by
    unfold ideal0
    exact Finset.sum_congr rfl fun i hi => by rw [h i (Finset.mem_filter.1 hi).2]
  have e1 : ideal1 x T = ideal1 y T := by
    unfold ideal1
    exact Finset.sum_congr rfl fun i hi => by rw [h i (Finset.mem_filter.1 hi).2]
  have e2 : ideal2 x T = ideal2 y T := by
    unfold ideal2
    exact Finset.sum_congr rfl fun i hi => by rw [h i (Finset.mem_filter.1 hi).2]
  unfold entropyAbs energyAbs enthalpyAbs gibbsAbs heatVAbs pressureTAbs res00 res10 res20 res11
  rw [e0, e1, e2, Zabs_congr' h, show Tr x = Tr y from reducing_congr' h _ _,
    show invRhoR x = invRhoR y from reducing_congr' h _ _, sizes_congr' h, sizes_congr' h, sizes_congr' h, sizes_congr' h]
  exact ⟨rfl, rfl, rfl, rfl, rfl, rfl⟩

end congr

/-! ## The quantities of `Spec/GergEnergyError` as sums -/

section
variable {x : Vector ℝ 22} (hx : Present x) {D T : ℝ}
include hx

/-- `R` of GERG. -/
local notation "Rg" => (8.314472 : ℝ)

theorem RT_RS (fac : Fac) (D T : ℝ) :
    RT x fac D T = RS x fac (D * GergEos.invRhoR (yOf x)) (GergEos.Tr (yOf x) / T) := by
  rw [RT_eq, hx.drX_eq, trX_eq]

theorem helmholtz_I (hD : 1e-15 < D) (hT : 0 < T) :
    GergEos.helmholtz (yOf x) D T = Rg * (T * (I0 m0 x D T + RT x (fun _ _ => 1) D T)) := by
  unfold GergEos.helmholtz
  have hτ : 0 < GergEos.Tr (yOf x) / T := by rw [← trX_eq]; exact div_pos hx.tr_pos hT
  rw [I0_eq x hD, RT_RS hx, RS_eq x _ hτ]
  ring

theorem entropy_I (hD : 1e-15 < D) (hT : 0 < T) : GergEos.entropy (yOf x) D T
    = Rg * (I1 m0 x T + RT x (fun σ _ => σ.t) D T - I0 m0 x D T - RT x (fun _ _ => 1) D T) := by
  unfold GergEos.entropy
  have h1 := (hasDerivAt_I0 m0 x D hT).add (hasDerivAt_RT x (fun _ _ => 1) D hT)
  have h2 := ((hasDerivAt_id T).mul h1).const_mul Rg
  have h3 : HasDerivAt (fun T => GergEos.helmholtz (yOf x) D T) _ T :=
    h2.congr_of_eventuallyEq ((eventually_gt_nhds hT).mono fun t ht => by
      simp only [Pi.add_apply, Pi.mul_apply, id]
      exact helmholtz_I hx hD ht)
  rw [h3.deriv]
  simp only [Pi.add_apply, id, mul_one]
  field_simp
  ring

theorem energy_I (hD : 1e-15 < D) (hT : 0 < T) : GergEos.energy (yOf x) D T
    = Rg * (T * I1 m0 x T + T * RT x (fun σ _ => σ.t) D T) := by
  unfold GergEos.energy
  rw [helmholtz_I hx hD hT, entropy_I hx hD hT]
  ring

theorem RT_sub (f g : Fac) (D T : ℝ) : RT x (fun σ δ => f σ δ - g σ δ) D T = RT x f D T - RT x g D T := by
  unfold RT
  rw [← Finset.sum_sub_distrib]
  exact Finset.sum_congr rfl fun ι _ => by ring

theorem heatV_I (hD : 1e-15 < D) (hT : 0 < T) : GergEos.heatV (yOf x) D T
    = -(Rg * (I2 m0 x T + RT x (fun σ _ => σ.t * (σ.t - 1)) D T)) := by
  unfold GergEos.heatV
  have h2 := (((hasDerivAt_I1 m0 x hT).add ((hasDerivAt_id T).mul (hasDerivAt_RT x (fun σ _ => σ.t) D hT))).const_mul Rg)
  have h3 : HasDerivAt (fun T => GergEos.energy (yOf x) D T) _ T :=
    h2.congr_of_eventuallyEq ((eventually_gt_nhds hT).mono fun t ht => by
      simp only [Pi.add_apply, Pi.mul_apply, id]
      exact energy_I hx hD ht)
  rw [h3.deriv]
  have e : RT x (fun σ _ => σ.t * (σ.t - 1)) D T = RT x (fun σ _ => σ.t * σ.t) D T - RT x (fun σ _ => σ.t) D T := by
    rw [← RT_sub hx]
    congr 1
    funext σ _
    ring
  rw [e]
  simp only [id]
  field_simp
  ring

theorem pressureT_I (hT : 0 < T) : GergEos.pressureT (yOf x) D T
    = D * Rg * (1 + RT x Shape.f1 D T - RT x (fun σ δ => σ.t * σ.f1 δ) D T) := by
  unfold GergEos.pressureT
  have h2 := (((hasDerivAt_id T).mul ((hasDerivAt_RT x Shape.f1 D hT).const_add 1)).const_mul (D * Rg))
  have h3 : HasDerivAt (fun T => D * Rg * T * GergEos.Z (yOf x) D T) _ T :=
    h2.congr_of_eventuallyEq ((eventually_gt_nhds hT).mono fun t ht => by
      have hτ : 0 < GergEos.Tr (yOf x) / t := by rw [← trX_eq]; exact div_pos hx.tr_pos ht
      simp only [Pi.mul_apply, id]
      rw [Z_RS x D hτ, RT_RS hx]
      ring)
  rw [h3.deriv]
  simp only [id]
  field_simp
  ring

end

/-! ## The sizes -/

theorem growT0 : IsGrow (fun _ _ => 1) (fun _ _ => 1) (fun _ _ => 1) := ⟨fun _ _ => rfl, fun _ _ => rfl⟩
theorem growT1 : IsGrow (fun σ _ => σ.t) (fun a _ => |(a.t : ℝ)|) (fun a _ => |(a.t : ℝ)|) := ⟨fun _ _ => rfl, fun _ _ => rfl⟩
theorem growT2 : IsGrow (fun σ _ => σ.t * (σ.t + 1)) (fun a _ => |(a.t : ℝ)| * (|(a.t : ℝ)| + 1))
    (fun a _ => |(a.t : ℝ)| * (|(a.t : ℝ)| + 1)) := ⟨fun _ _ => rfl, fun _ _ => rfl⟩
theorem growT11 : IsGrow (fun σ δ => σ.t * σ.f1A δ) (fun a δ => |(a.t : ℝ)| * a.grow1 δ)
    (fun a δ => |(a.t : ℝ)| * a.grow1 δ) where
  pure a δ := by dsimp only; rw [grow1_ok.pure]
  dep a δ := by dsimp only; rw [grow1_ok.dep]

/-- The hyperbolic terms of a component. -/
theorem ghyp_sum (m : Fin 8 → ℝ) : ∑ j with 4 ≤ j.1, m j = m 4 + m 5 + m 6 + m 7 := by
  rw [Finset.sum_filter]
  simp [Fin.sum_univ_succ]
  ring

variable [Libm]

theorem gs_eq {i : Fin 22} {j : Fin 8} (hi : 1 ≤ i.1) (hj : 4 ≤ j.1) (T : ℝ) :
    gs0 i T j = |gn i j| * rs * GergEos.lnSize (if j.1 = 4 ∨ j.1 = 6 then Real.sinh (gth i j / T) else Real.cosh (gth i j / T)) ∧
    gs1 i T j = |gn i j| * rs * (if j.1 = 4 ∨ j.1 = 6 then gth i j / T * Real.cosh (gth i j / T) / Real.sinh (gth i j / T)
      else gth i j / T * Real.sinh (gth i j / T) / Real.cosh (gth i j / T)) ∧
    gs2 i T j = |gn i j| * rs * (if j.1 = 4 ∨ j.1 = 6 then gth i j / T / Real.sinh (gth i j / T)
      else gth i j / T / Real.cosh (gth i j / T)) ^ 2 := by
  unfold gs0 gs1 gs2
  by_cases h : 1e-15 < gth i j
  · simp only [h, if_true]
    split <;> exact ⟨rfl, rfl, rfl⟩
  · simp only [h, if_false]
    have : gn i j = 0 := by
      rcases th_table i j hi hj with h' | h'
      · exfalso
        apply h
        unfold gth
        rw [tab2_decQ]
        have := (Rat.cast_lt (K := ℝ)).2 h'
        push_cast at this
        norm_num at this ⊢
        linarith
      · rw [gn_decQ, h', Rat.cast_zero]
    rw [this]
    simp

theorem js_eq (D T x : ℝ) {i : Fin 22} (hi : 1 ≤ i.1) :
    js0 D T x i = x * (GergEos.mixSize x D + 298.15 / T
      + 8.31451 / 8.314472 * (GergEos.ideal.getD (i.1 - 1) Inhabited.default).size0 T) ∧
    js1 T x i = x * (298.15 / T + 8.31451 / 8.314472 * (GergEos.ideal.getD (i.1 - 1) Inhabited.default).size1 T) ∧
    js2 T x i = x * (8.31451 / 8.314472 * (GergEos.ideal.getD (i.1 - 1) Inhabited.default).size2 T) := by
  obtain ⟨t1, t2, t3, t4, t5, t6, t7, t8, t9, t10, t11⟩ := ideal_table i hi
  have g4 := gs_eq (j := 4) hi (by decide) T
  have g5 := gs_eq (j := 5) hi (by decide) T
  have g6 := gs_eq (j := 6) hi (by decide) T
  have g7 := gs_eq (j := 7) hi (by decide) T
  rw [if_pos (by decide), if_pos (by decide), if_pos (by decide)] at g4 g6
  rw [if_neg (by decide), if_neg (by decide), if_neg (by decide)] at g5 g7
  have hth : ∀ j, gth i j = (decQ (aget2 TH0I i j) : ℝ) := fun j => by unfold gth; rw [tab2_decQ]
  simp only [gn_decQ, hth, ← t4, ← t5, ← t6, ← t7, ← t8, ← t9, ← t10, ← t11] at g4 g5 g6 g7
  unfold js0 js1 js2 GergEos.IdealTerms.size0 GergEos.IdealTerms.size1 GergEos.IdealTerms.size2 GergEos.mixSize
  rw [ghyp_sum, ghyp_sum, ghyp_sum, g4.1, g5.1, g6.1, g7.1, g4.2.1, g5.2.1, g6.2.1, g7.2.1, g4.2.2, g5.2.2, g6.2.2, g7.2.2]
  simp only [gn_decQ, ← t1, ← t2, ← t3]
  unfold rs grho0
  refine ⟨?_, ?_, ?_⟩ <;> ring

theorem ideal_js (x : Fin 22 → ℝ) (D T : ℝ) : ∑ i with 1 ≤ i.1, js0 D T (x i) i = GergEos.ideal0 x D T ∧
    ∑ i with 1 ≤ i.1, js1 T (x i) i = GergEos.ideal1 x T ∧ ∑ i with 1 ≤ i.1, js2 T (x i) i = GergEos.ideal2 x T := by
  unfold GergEos.ideal0 GergEos.ideal1 GergEos.ideal2
  refine ⟨?_, ?_, ?_⟩
  · exact Finset.sum_congr rfl fun i hi => (js_eq D T (x i) (Finset.mem_filter.1 hi).2).1
  · exact Finset.sum_congr rfl fun i hi => (js_eq 0 T (x i) (Finset.mem_filter.1 hi).2).2.1
  · exact Finset.sum_congr rfl fun i hi => (js_eq 0 T (x i) (Finset.mem_filter.1 hi).2).2.2

/-! ## The fields -/

theorem fresh_n0i {F : Type} [Add F] [Sub F] [Mul F] [Div F] [Neg F] [FOps F] (q : Pub F) : (freshOf q).n0i = n0i0 :=
  (congrArg Params.n0i (params_setPub newP q)).trans n0i_new

/-- The quantities of `properties` on a new object. -/
theorem ap_genergy (hL : LibmAccurate) (hN : LnAccurate) {q : Pub Float} (hq : ErrDomain q) (t1 : 50 ≤ toR q.t)
    (t2 : toR q.t ≤ 1000) (hD : 1e-4 ≤ toR q.d) :
    Ap (propertiesP (freshOf q)).1.s (GergEos.entropy (fracs q) (toR q.d) (toR q.t))
      (GergEos.entropyAbs (fracs q) (toR q.d) (toR q.t)) 3480100 1000 200 ∧
    Ap (propertiesP (freshOf q)).1.u (GergEos.energy (fracs q) (toR q.d) (toR q.t))
      (GergEos.energyAbs (fracs q) (toR q.d) (toR q.t)) 3480100 1000 210 ∧
    Ap (propertiesP (freshOf q)).1.h (GergEos.enthalpy (fracs q) (toR q.d) (toR q.t))
      (GergEos.enthalpyAbs (fracs q) (toR q.d) (toR q.t)) 3480100 1000 210 ∧
    Ap (propertiesP (freshOf q)).1.g (GergEos.gibbs (fracs q) (toR q.d) (toR q.t))
      (GergEos.gibbsAbs (fracs q) (toR q.d) (toR q.t)) 3480100 1000 210 ∧
    Ap (propertiesP (freshOf q)).1.cv (GergEos.heatV (fracs q) (toR q.d) (toR q.t))
      (GergEos.heatVAbs (fracs q) (toR q.d) (toR q.t)) 3480100 1000 200 ∧
    Ap (propertiesP (freshOf q)).1.dp_dt (GergEos.pressureT (fracs q) (toR q.d) (toR q.t))
      (GergEos.pressureTAbs (fracs q) (toR q.d) (toR q.t)) 3480100 20 210 := by
  have T0 : 0 < toR q.t := by linarith
  have D0 : 0 < toR q.d := lt_of_lt_of_le (by norm_num) hD
  have hD' : 1e-15 < toR q.d := lt_of_lt_of_le (by norm_num) hD
  have hok := okX_of hq
  have hP : Present (xr q.x) := by
    obtain ⟨k, hk, hx⟩ := hq.x_big
    exact ⟨k, hk, by rw [xr_get]; exact le_trans (by norm_num) hx⟩
  have At := ap_t hq
  have Ad := ap_d hq
  have hτ := tau_pos hL hq
  obtain ⟨ld, le, C⟩ := cl_fresh hL hN hq
  have r00 := ap_arOf hL C (eadds00 (itau := 1) (by decide))
  have r10 := ap_arOf hL C (eadds10 (itau := 1) (by decide))
  have r20 := ap_arOf hL C (eadds20 (itau := 1) (by decide))
  have r11 := ap_arOf hL C (eadds11 (itau := 1) (by decide))
  have r01 := ap_arOf hL C (eadds01 1)
  have z := ap_z hL hN hq 1
  rw [← ar_errFresh hq] at r00 r10 r20 r11 r01
  unfold dlt tauR at r00 r10 r20 r11 r01
  obtain ⟨b0, b1, b2⟩ := ap_ga0 hL hN (s := freshOf q) (fresh_n0i q) (D := toR q.d) (T := toR q.t) At t1 t2 Ad hD hok
  obtain ⟨j0, j1, j2⟩ := ideal_js (yOf (xr q.x)) (toR q.d) (toR q.t)
  have exx : (freshOf q).x = q.x := rfl
  rw [exx, j0] at b0
  rw [exx, j1] at b1
  rw [exx, j2] at b2
  have fe := fracs_eq hok
  obtain ⟨a1, a2, a3, a4, a5, a6⟩ := abs_congr' fe (toR q.d) (toR q.t)
  rw [Z_congr' fe, Zabs_congr' fe] at z
  have ez := Z_RS (xr q.x) (toR q.d) hτ
  have ea : (propsMid (freshOf q)).ar = (alpharP (freshOf q) 1).ar := propsMid_ar _
  have e0 : (propsMid (freshOf q)).a0 = (alpha0 (freshOf q)).a0 := propsMid_a0 _
  have et : (propsMid (freshOf q)).t = q.t := propsMid_t _
  have ed : (propsMid (freshOf q)).d = q.d := propsMid_d _
  rw [← RT_RS hP] at r00 r10 r20 r11 r01 ez
  rw [RA_eq growT0 _ _ hτ] at r00
  rw [RA_eq growT1 _ _ hτ] at r10
  rw [RA_eq growT2 _ _ hτ] at r20
  rw [RA_eq growT11 _ _ hτ] at r11
  rw [propertiesP_eq]
  refine ⟨?_, ?_, ?_, ?_, ?_, ?_⟩
  · rw [propsFinish_s, ea, e0, entropy_congr' fe, a1, entropy_I hP hD' T0]
    exact (apRG.mul (((b1.add r10).sub b0).sub r00)).weak (by norm_num) (by norm_num) (by norm_num)
  · rw [propsFinish_u, ea, e0, et, energy_congr' fe, a2, energy_I hP hD' T0, ← mul_add, ← mul_assoc]
    exact ((apRG.mul At).mul (b1.add r10)).weak (by norm_num) (by norm_num) (by norm_num)
  · rw [propsFinish_h, ea, e0, et, a3]
    unfold GergEos.enthalpy
    rw [energy_congr' fe, Z_congr' fe, energy_I hP hD' T0]
    have e : 8.314472 * (toR q.t * I1 m0 (xr q.x) (toR q.t) + toR q.t * RT (xr q.x) (fun σ _ => σ.t) (toR q.d) (toR q.t))
        + 8.314472 * toR q.t * GergEos.Z (yOf (xr q.x)) (toR q.d) (toR q.t)
      = 8.314472 * toR q.t * (GergEos.Z (yOf (xr q.x)) (toR q.d) (toR q.t) + I1 m0 (xr q.x) (toR q.t)
        + RT (xr q.x) (fun σ _ => σ.t) (toR q.d) (toR q.t)) := by ring
    rw [e]
    exact ((apRG.mul At).mul ((z.add b1).add r10)).weak (by norm_num) (by norm_num) (by norm_num)
  · rw [propsFinish_g, ea, e0, et, a4]
    unfold GergEos.gibbs
    rw [helmholtz_congr' fe, Z_congr' fe, helmholtz_I hP hD' T0]
    have e : 8.314472 * (toR q.t * (I0 m0 (xr q.x) (toR q.d) (toR q.t) + RT (xr q.x) (fun _ _ => 1) (toR q.d) (toR q.t)))
        + 8.314472 * toR q.t * GergEos.Z (yOf (xr q.x)) (toR q.d) (toR q.t)
      = 8.314472 * toR q.t * (GergEos.Z (yOf (xr q.x)) (toR q.d) (toR q.t) + I0 m0 (xr q.x) (toR q.d) (toR q.t)
        + RT (xr q.x) (fun _ _ => 1) (toR q.d) (toR q.t)) := by ring
    rw [e]
    exact ((apRG.mul At).mul ((z.add b0).add r00)).weak (by norm_num) (by norm_num) (by norm_num)
  · rw [propsFinish_cv, ea, e0, heatV_congr' fe, a5, heatV_I hP hD' T0, ← neg_mul]
    exact (apRG.neg.mul (b2.add r20)).weak (by norm_num) (by norm_num) (by norm_num)
  · rw [propsFinish_dp_dt, ea, ed, pressureT_congr' fe, a6, pressureT_I hP T0, ← ez]
    have W := Ap.one_le (z.sub r11) (by
      have h1 := r01.nonneg
      have h2 := r11.nonneg
      rw [Zabs_RA _ _ hτ]
      linarith)
    exact ((Ad.mul apRG).mul W).weak (by norm_num) (by norm_num) (by norm_num)

end Aga8.Gerg
