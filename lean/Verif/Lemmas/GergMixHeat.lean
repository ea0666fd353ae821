import Mathlib.Analysis.Calculus.Deriv.MeanValue
import Verif.Lemmas.GergMixRange
import Verif.Lemmas.GergErrPure3

/-! # Heating a gas mixture: the slopes of the energies and the size of their terms -/

set_option linter.unusedSectionVars false

namespace Aga8.GergEos

theorem depSize_nonneg (a : DepTerm) {δ τ : ℝ} (h0 : 0 ≤ δ) (t0 : 0 < τ) : 0 ≤ a.size δ τ := by
  unfold DepTerm.size
  have := Real.rpow_nonneg t0.le (a.t : ℝ)
  positivity

/-- The sizes grow with the factors. -/
theorem sizes_mono {g g' : PureTerm → ℝ → ℝ} {h h' : DepTerm → ℝ → ℝ} {x : Fin 22 → ℝ} (hx : ∀ i : Fin 22, 1 ≤ i.1 → 0 ≤ x i) {δ τ : ℝ}
    (h0 : 0 ≤ δ) (t0 : 0 < τ) (hg : ∀ i : Fin 22, ∀ a ∈ pureTerms.getD i.1 [], g a δ ≤ g' a δ)
    (hh : ∀ i j : Fin 22, ∀ a ∈ (departure i.1 j.1).2, h a δ ≤ h' a δ) :
    sizes g h x δ τ ≤ sizes g' h' x δ τ := by
  unfold sizes
  refine add_le_add (Finset.sum_le_sum fun i hi => ?_) (Finset.sum_le_sum fun i hi => Finset.sum_le_sum fun j hj => ?_)
  · refine mul_le_mul_of_nonneg_left (List.sum_le_sum fun a ha => ?_) (hx i (Finset.mem_filter.1 hi).2)
    exact mul_le_mul_of_nonneg_left (hg i a ha) (a.size_nonneg' h0 t0)
  · have hi' := (Finset.mem_filter.1 hi).2
    have hj' : i.1 < j.1 := (Finset.mem_filter.1 hj).2
    refine mul_le_mul_of_nonneg_left (List.sum_le_sum fun a ha => ?_)
      (mul_nonneg (mul_nonneg (hx i hi') (hx j (by omega))) (abs_nonneg _))
    exact mul_le_mul_of_nonneg_left (hh i j a ha) (depSize_nonneg a h0 t0)

theorem ideal_200 : ∀ k : Fin 22, 1 ≤ k.1 → (ideal.getD (k.1 - 1) Inhabited.default).bnd01 200 ≤ 2987 := by decide +kernel

theorem pure_d1 : ∀ i : Fin 22, (pureTerms.getD i.1 []).all (fun a => decide (1 ≤ a.d)) = true := by
  decide +kernel

theorem dep_d1 : ∀ i j : Fin 22, (departure i.1 j.1).2.all (fun a => decide (1 ≤ a.d ∧ 0 ≤ a.η ∧ 0 ≤ a.ε ∧ 0 ≤ a.β)) = true := by
  decide +kernel

/-- The size of the residual part is at most that of its density derivative. -/
theorem res00_le {x : Fin 22 → ℝ} (hx : ∀ i : Fin 22, 1 ≤ i.1 → 0 ≤ x i) {D T : ℝ} (h0 : 0 ≤ D * invRhoR x) (t0 : 0 < Tr x / T) :
    1 + res00 x D T ≤ Zabs x D T := by
  unfold res00 Zabs
  refine add_le_add_right (sizes_mono hx h0 t0 (fun i a ha => ?_) fun i j a ha => ?_) 1
  · have := List.all_eq_true.1 (pure_d1 i) a ha
    have h1 : (1 : ℝ) ≤ a.d := by exact_mod_cast of_decide_eq_true this
    have h2 : (0 : ℝ) ≤ a.c * (D * invRhoR x) ^ a.c := mul_nonneg (Nat.cast_nonneg _) (pow_nonneg h0 _)
    unfold PureTerm.grow1
    linarith
  · have := of_decide_eq_true (List.all_eq_true.1 (dep_d1 i j) a ha)
    obtain ⟨h1, h2, h3, h4⟩ := this
    have h1 : (1 : ℝ) ≤ a.d := by exact_mod_cast h1
    have h2 : (0 : ℝ) ≤ a.η := by exact_mod_cast h2
    have h3 : (0 : ℝ) ≤ a.ε := by exact_mod_cast h3
    have h4 : (0 : ℝ) ≤ a.β := by exact_mod_cast h4
    unfold DepTerm.grow1
    generalize D * invRhoR x = δ at *
    have := mul_nonneg (mul_nonneg (mul_nonneg (by norm_num : (0 : ℝ) ≤ 2) h2) h0) (add_nonneg h0 h3)
    have := mul_nonneg h4 h0
    linarith

theorem res10_le {x : Fin 22 → ℝ} (hx : ∀ i : Fin 22, 1 ≤ i.1 → 0 ≤ x i) {D T : ℝ} (h0 : 0 ≤ D * invRhoR x) (t0 : 0 < Tr x / T) :
    res10 x D T ≤ res20 x D T := by
  unfold res10 res20
  have : ∀ t : ℝ, |t| ≤ |t| * (|t| + 1) := fun t => by nlinarith [abs_nonneg t]
  exact sizes_mono hx h0 t0 (fun i a _ => this _) fun i j a _ => this _

theorem size0_nonneg (a : IdealTerms) {T : ℝ} (hT : 0 < T) : 0 ≤ a.size0 T := by
  unfold IdealTerms.size0 lnSize
  positivity

theorem size1_le (k : Fin 22) (hk : 1 ≤ k.1) {T : ℝ} (hT : 200 ≤ T) (hT2 : T ≤ 1000) :
    (ideal.getD (k.1 - 1) Inhabited.default).size0 T + (ideal.getD (k.1 - 1) Inhabited.default).size1 T ≤ 2987 := by
  obtain ⟨-, -, -, h4, h5, h6, h7⟩ := ideal_bnds k hk
  have s := size01_le _ (Tm := 200) (by norm_num) (T := T) (by norm_num; exact hT) (by linarith) hT2 h4 h5 h6 h7
  exact s.trans (by exact_mod_cast ideal_200 k hk)

/-- The sizes of the logarithms of density and mole fraction. -/
theorem lnSizes_le {x D : ℝ} (h1 : 1e-10 ≤ x) (h2 : x ≤ 2) (hD : 1e-4 ≤ D) (hD2 : D ≤ 1000) : lnSize D ≤ 11 ∧ lnSize x ≤ 25 := by
  have D0 : 0 < D := lt_of_lt_of_le (by norm_num) hD
  have x0 : 0 < x := lt_of_lt_of_le (by norm_num) h1
  have e1 := Real.exp_one_gt_d9
  have e10 : (10000 : ℝ) ≤ Real.exp 10 := by
    have h : Real.exp 10 = Real.exp 1 ^ 10 := by rw [← Real.exp_nat_mul]; norm_num
    rw [h]
    exact le_trans (by norm_num) (pow_le_pow_left₀ (by norm_num) e1.le 10)
  have e24 : (1e10 : ℝ) ≤ Real.exp 24 := by
    have h : Real.exp 24 = Real.exp 1 ^ 24 := by rw [← Real.exp_nat_mul]; norm_num
    rw [h]
    exact le_trans (by norm_num) (pow_le_pow_left₀ (by norm_num) e1.le 24)
  have lD : lnSize D ≤ 11 := by
    unfold lnSize
    have a : Real.log D ≤ 10 := (Real.log_le_iff_le_exp D0).2 (by linarith)
    have b : -10 ≤ Real.log D := by
      rw [Real.le_log_iff_exp_le D0, Real.exp_neg]
      refine le_trans (inv_anti₀ (by norm_num) e10) (le_trans ?_ hD)
      norm_num
    have : |Real.log D| ≤ 10 := abs_le.2 ⟨b, a⟩
    linarith
  have lx : lnSize x ≤ 25 := by
    unfold lnSize
    have a : Real.log x ≤ 24 := (Real.log_le_iff_le_exp x0).2 (by norm_num at e24; linarith)
    have b : -24 ≤ Real.log x := by
      rw [Real.le_log_iff_exp_le x0, Real.exp_neg]
      refine le_trans (inv_anti₀ (by norm_num) e24) (le_trans ?_ h1)
      norm_num
    have : |Real.log x| ≤ 24 := abs_le.2 ⟨b, a⟩
    linarith
  exact ⟨lD, lx⟩

theorem mixSize_le {x D : ℝ} (h1 : 1e-10 ≤ x) (h2 : x ≤ 2) (hD : 1e-4 ≤ D) (hD2 : D ≤ 1000) : mixSize x D ≤ 61 := by
  obtain ⟨lD, lx⟩ := lnSizes_le h1 h2 hD hD2
  have l0 : lnSize (101.325 / (8.314472 * 298.15)) ≤ 25 := by
    unfold lnSize
    have a := Real.one_sub_inv_le_log_of_pos (x := (101.325 / (8.314472 * 298.15) : ℝ)) (by norm_num)
    have b := Real.log_nonpos (x := (101.325 / (8.314472 * 298.15) : ℝ)) (by norm_num) (by norm_num)
    rw [abs_of_nonpos b]
    norm_num at a ⊢
    linarith
  unfold mixSize
  linarith

/-- The sizes of the ideal-gas parts from 200 K to 1000 K. -/
theorem ideal01_le {x : Fin 22 → ℝ} (hx : ∀ i : Fin 22, 1 ≤ i.1 → x i = 0 ∨ 1e-10 ≤ x i ∧ x i ≤ 2)
    (s2 : ∑ i : Fin 22 with 1 ≤ i.1, x i ≤ 1.01) {D T : ℝ} (hD : 1e-4 ≤ D) (hD2 : D ≤ 1000) (hT : 200 ≤ T) (hT2 : T ≤ 1000) :
    ideal1 x T ≤ 3019 ∧ ideal1 x T + ideal0 x D T ≤ 3083 := by
  have T0 : 0 < T := by linarith
  have b : 298.15 / T ≤ 1.5 := by rw [div_le_iff₀ T0]; norm_num; linarith
  have b0 : 0 ≤ 298.15 / T := by positivity
  constructor
  · have : ideal1 x T ≤ ∑ i : Fin 22 with 1 ≤ i.1, x i * 2988.6 := by
      unfold ideal1
      refine Finset.sum_le_sum fun i hi => ?_
      have hi' := (Finset.mem_filter.1 hi).2
      have x0 : 0 ≤ x i := by
        rcases hx i hi' with e | e
        · exact e.ge
        · exact le_trans (by norm_num) e.1
      refine mul_le_mul_of_nonneg_left ?_ x0
      have c1 := size1_le i hi' hT hT2
      have c2 := size0_nonneg (ideal.getD (i.1 - 1) Inhabited.default) T0
      generalize IdealTerms.size0 _ T = y0 at *
      generalize IdealTerms.size1 _ T = y1 at *
      norm_num at b ⊢
      linarith
    rw [← Finset.sum_mul] at this
    norm_num at this s2 ⊢
    linarith
  · have : ideal1 x T + ideal0 x D T ≤ ∑ i : Fin 22 with 1 ≤ i.1, x i * 3051.4 := by
      unfold ideal1 ideal0
      rw [← Finset.sum_add_distrib]
      refine Finset.sum_le_sum fun i hi => ?_
      have hi' := (Finset.mem_filter.1 hi).2
      rcases hx i hi' with e | e
      · rw [e]; simp
      · rw [← mul_add]
        refine mul_le_mul_of_nonneg_left ?_ (le_trans (by norm_num) e.1)
        have c1 := size1_le i hi' hT hT2
        have c3 := mixSize_le e.1 e.2 hD hD2
        generalize IdealTerms.size0 _ T = y0 at *
        generalize IdealTerms.size1 _ T = y1 at *
        generalize mixSize _ _ = y2 at *
        norm_num at b ⊢
        linarith
    rw [← Finset.sum_mul] at this
    norm_num at this s2 ⊢
    linarith

/-- A function rises at least as fast as its slope. -/
theorem rise_ge {f f' : ℝ → ℝ} {C a b : ℝ} (hab : a ≤ b) (h : ∀ t, a ≤ t → t ≤ b → HasDerivAt f (f' t) t ∧ C ≤ f' t) :
    C * (b - a) ≤ f b - f a := by
  refine Convex.mul_sub_le_image_sub_of_le_deriv (convex_Icc a b)
    (fun t ht => (h t ht.1 ht.2).1.continuousAt.continuousWithinAt)
    (fun t ht => ?_) (fun t ht => ?_) a (Set.left_mem_Icc.2 hab) b (Set.right_mem_Icc.2 hab) hab
  · rw [interior_Icc] at ht
    exact (h t ht.1.le ht.2.le).1.differentiableAt.differentiableWithinAt
  · rw [interior_Icc] at ht
    have := h t ht.1.le ht.2.le
    rw [this.1.deriv]
    exact this.2

end Aga8.GergEos

namespace Aga8.Gerg

open GergEos GergEos.MixTab

local notation "Rg" => (8.314472 : ℝ)

variable {x : Vector ℝ 22} (hP : Present x)
include hP

theorem slope_energy {D T : ℝ} (hD : 1e-15 < D) (hT : 0 < T) :
    HasDerivAt (fun T => GergEos.energy (yOf x) D T) (GergEos.heatV (yOf x) D T) T := by
  have h2 := (((hasDerivAt_I1 m0 x hT).add ((hasDerivAt_id T).mul (hasDerivAt_RT x (fun σ _ => σ.t) D hT))).const_mul Rg)
  have h3 : HasDerivAt (fun T => GergEos.energy (yOf x) D T) _ T :=
    h2.congr_of_eventuallyEq ((eventually_gt_nhds hT).mono fun t ht => by
      simp only [Pi.add_apply, Pi.mul_apply, id]
      exact energy_I hP hD ht)
  exact h3.differentiableAt.hasDerivAt

theorem slope_pressure {D T : ℝ} (hT : 0 < T) :
    HasDerivAt (fun T => D * Rg * T * GergEos.Z (yOf x) D T) (GergEos.pressureT (yOf x) D T) T := by
  have h2 := (((hasDerivAt_id T).mul ((hasDerivAt_RT x Shape.f1 D hT).const_add 1)).const_mul (D * Rg))
  have h3 : HasDerivAt (fun T => D * Rg * T * GergEos.Z (yOf x) D T) _ T :=
    h2.congr_of_eventuallyEq ((eventually_gt_nhds hT).mono fun t ht => by
      have hτ : 0 < GergEos.Tr (yOf x) / t := by rw [← trX_eq]; exact div_pos hP.tr_pos ht
      simp only [Pi.mul_apply, id]
      rw [Z_RS x D hτ, RT_RS hP]
      ring)
  exact h3.differentiableAt.hasDerivAt

theorem slope_helmholtz {D T : ℝ} (hD : 1e-15 < D) (hT : 0 < T) :
    HasDerivAt (fun T => GergEos.helmholtz (yOf x) D T) (-GergEos.entropy (yOf x) D T) T := by
  have h1 := (hasDerivAt_I0 m0 x D hT).add (hasDerivAt_RT x (fun _ _ => 1) D hT)
  have h2 := ((hasDerivAt_id T).mul h1).const_mul Rg
  have h3 : HasDerivAt (fun T => GergEos.helmholtz (yOf x) D T) _ T :=
    h2.congr_of_eventuallyEq ((eventually_gt_nhds hT).mono fun t ht => by
      simp only [Pi.add_apply, Pi.mul_apply, id]
      exact helmholtz_I hP hD ht)
  have := h3.differentiableAt.hasDerivAt
  unfold GergEos.entropy
  rw [neg_neg]
  exact this

theorem slope_entropy {D T : ℝ} (hD : 1e-15 < D) (hT : 0 < T) :
    HasDerivAt (fun T => GergEos.entropy (yOf x) D T) (GergEos.heatV (yOf x) D T / T) T := by
  have h := ((slope_energy hP hD hT).sub (slope_helmholtz hP hD hT)).div (hasDerivAt_id T) hT.ne'
  have h2 := h.congr_of_eventuallyEq (f₁ := fun T => GergEos.entropy (yOf x) D T)
    ((eventually_gt_nhds hT).mono fun t ht => by
      simp only [Pi.sub_apply, Pi.div_apply, id, GergEos.energy]
      field_simp
      ring)
  refine h2.congr_deriv ?_
  simp only [Pi.sub_apply, id, GergEos.energy]
  field_simp
  ring

/-- The density derivative of a residual sum. -/
theorem slope_RT (c : Shape → ℝ) {D : ℝ} (T : ℝ) (hD : D ≠ 0) :
    HasDerivAt (fun D => RT x (fun σ _ => c σ) D T) (RT x (fun σ δ => c σ * σ.f1 δ) D T / D) D := by
  choose φ' h1 h2 using fun ι : Ix => (shape m0 ι).deriv_phi (D / drX x)
  have h : HasDerivAt (fun D => RT x (fun σ _ => c σ) D T)
      (∑ ι : Ix, coef x ι * Real.exp ((shape m0 ι).t * Real.log (trX x / T)) * (φ' ι * (1 / drX x) * c (shape m0 ι))) D := by
    unfold RT
    refine HasDerivAt.fun_sum fun ι _ => HasDerivAt.const_mul _ (HasDerivAt.mul_const ?_ _)
    exact (h1 ι).comp D ((hasDerivAt_id D).div_const (drX x))
  refine h.congr_deriv ?_
  rw [eq_div_iff hD]
  unfold RT
  rw [Finset.sum_mul]
  refine Finset.sum_congr rfl fun ι _ => ?_
  linear_combination (coef x ι * Real.exp ((shape m0 ι).t * Real.log (trX x / T)) * c (shape m0 ι)) * (h2 ι)

theorem slope_entropy_d {D T : ℝ} (hD : 1e-15 < D) (hT : 0 < T) :
    HasDerivAt (fun D => GergEos.entropy (yOf x) D T) (-(Rg * ((∑ i : Fin 22 with 1 ≤ i.1, yOf x i) + RT x Shape.f1 D T
      - RT x (fun σ δ => σ.t * σ.f1 δ) D T)) / D) D := by
  have D0 : D ≠ 0 := by intro h; rw [h] at hD; norm_num at hD
  have h := ((((slope_RT hP (fun σ => σ.t) T D0).const_add (I1 m0 x T)).sub (hasDerivAt_I0_d m0 x T hD)).sub
    (slope_RT hP (fun _ => 1) T D0)).const_mul Rg
  have h2 := h.congr_of_eventuallyEq (f₁ := fun D => GergEos.entropy (yOf x) D T)
    ((eventually_gt_nhds hD).mono fun d hd => by
      simp only [Pi.sub_apply]
      exact entropy_I hP hd hT)
  refine h2.congr_deriv ?_
  simp only [one_mul]
  unfold yOf
  ring

variable (hx0 : ∀ i : Fin 22, 1 ≤ i.1 → 0 ≤ yOf x i)
  (s1 : 0.99 ≤ ∑ i : Fin 22 with 1 ≤ i.1, yOf x i) (s2 : ∑ i : Fin 22 with 1 ≤ i.1, yOf x i ≤ 1.01)
include hx0 s1 s2

/-- The rise of the exact energies and of the entropy. -/
theorem heating_rise (v0 : 0 ≤ invRhoR (yOf x)) {T T' D : ℝ} (T0 : 0 < T) (t1 : 1.1 * Tr (yOf x) ≤ T) (t2 : T' ≤ 100 * Tr (yOf x))
    (h : T ≤ T') (h' : T' ≤ 1000) (hD : 1e-4 ≤ D) (hd : D * invRhoR (yOf x) ≤ 0.1) :
    12.01 * (T' - T) ≤ GergEos.energy (yOf x) D T' - GergEos.energy (yOf x) D T ∧
    20.27 * (T' - T) ≤ GergEos.enthalpy (yOf x) D T' - GergEos.enthalpy (yOf x) D T ∧
    0.01201 * (T' - T) ≤ GergEos.entropy (yOf x) D T' - GergEos.entropy (yOf x) D T := by
  have D0 : 0 < D := lt_of_lt_of_le (by norm_num) hD
  have D1 : 1e-15 < D := lt_of_lt_of_le (by norm_num) hD
  have hV : ∀ t, T ≤ t → t ≤ T' → 12.01 ≤ heatV (yOf x) D t := fun t a b =>
    (range_heat hP hx0 s1 s2 v0 (T0.trans_le a) (t1.trans a) (b.trans t2) hD hd).1
  have hp : ∀ t, T ≤ t → t ≤ T' → 8.26 * D ≤ GergEos.pressureT (yOf x) D t := fun t a b => by
    obtain ⟨-, -, ⟨c, -⟩, -⟩ := range_sums hP hx0 s2 v0 (T0.trans_le a) (t1.trans a) (b.trans t2) D0.le hd
    rw [pressureT_I hP (T0.trans_le a)]
    generalize 1 + RT x Shape.f1 D t - RT x (fun σ δ => σ.t * σ.f1 δ) D t = y at *
    norm_num at c ⊢
    nlinarith
  have u := rise_ge (C := 12.01) h fun t a b => ⟨slope_energy hP D1 (T0.trans_le a), hV t a b⟩
  have p := rise_ge (C := 8.26 * D) h fun t a b => ⟨slope_pressure hP (D := D) (T0.trans_le a), hp t a b⟩
  have s := rise_ge (C := 0.01201) h fun t a b => ⟨slope_entropy hP D1 (T0.trans_le a), by
    have t0 := T0.trans_le a
    have := hV t a b
    rw [le_div_iff₀ t0]
    norm_num at this ⊢
    nlinarith⟩
  refine ⟨u, ?_, s⟩
  have p' : 8.26 * (T' - T) ≤ 8.314472 * T' * GergEos.Z (yOf x) D T' - 8.314472 * T * GergEos.Z (yOf x) D T := by
    have e : D * (8.26 * (T' - T)) ≤ D * (8.314472 * T' * GergEos.Z (yOf x) D T' - 8.314472 * T * GergEos.Z (yOf x) D T) := by
      refine le_trans (le_of_eq (by ring)) (p.trans (le_of_eq ?_))
      norm_num
      ring
    exact le_of_mul_le_mul_left e D0
  unfold GergEos.enthalpy
  norm_num at u p' ⊢
  linarith

/-- The fall of the exact entropy when the gas is compressed. -/
theorem compression_fall (v0 : 0 ≤ invRhoR (yOf x)) {T D D' : ℝ} (T0 : 0 < T) (t1 : 1.1 * Tr (yOf x) ≤ T) (t2 : T ≤ 100 * Tr (yOf x))
    (h : D ≤ D') (hD : 1e-4 ≤ D) (hd : D' * invRhoR (yOf x) ≤ 0.1) :
    8.178 * Real.log (D' / D) ≤ GergEos.entropy (yOf x) D T - GergEos.entropy (yOf x) D' T := by
  have D0 : 0 < D := lt_of_lt_of_le (by norm_num) hD
  have D1 : 1e-15 < D := lt_of_lt_of_le (by norm_num) hD
  have s := rise_ge (C := 0) h fun d a b =>
    ⟨((slope_entropy_d hP (D1.trans_le a) T0).neg).sub ((Real.hasDerivAt_log (D0.trans_le a).ne').const_mul 8.178), by
    have d0 := D0.trans_le a
    obtain ⟨-, -, ⟨c, -⟩, -⟩ := range_sums hP hx0 s2 v0 T0 t1 t2 d0.le ((mul_le_mul_of_nonneg_right b v0).trans hd)
    generalize ∑ i : Fin 22 with 1 ≤ i.1, yOf x i = S at *
    generalize RT x Shape.f1 d T = y1 at *
    generalize RT x (fun σ δ => σ.t * σ.f1 δ) d T = y2 at *
    have e : -(-(Rg * (S + y1 - y2)) / d) - 8.178 * d⁻¹ = (Rg * (S + y1 - y2) - 8.178) / d := by
      field_simp
    rw [e]
    refine div_nonneg ?_ d0.le
    norm_num at c s1 ⊢
    linarith⟩
  simp only [Pi.sub_apply, Pi.neg_apply] at s
  rw [Real.log_div (D0.trans_le h).ne' D0.ne']
  linarith

/-- The size of the terms of the energies and of the entropy. -/
theorem heating_size (hx : ∀ i : Fin 22, 1 ≤ i.1 → yOf x i = 0 ∨ 1e-10 ≤ yOf x i ∧ yOf x i ≤ 2) (v0 : 0 ≤ invRhoR (yOf x)) {T D : ℝ} (T0 : 200 ≤ T) (t1 : 1.1 * Tr (yOf x) ≤ T)
    (t2 : T ≤ 100 * Tr (yOf x)) (h' : T ≤ 1000) (hD : 1e-4 ≤ D) (hD2 : D ≤ 1000) (hd : D * invRhoR (yOf x) ≤ 0.1) :
    energyAbs (yOf x) D T ≤ 2.52e7 ∧ enthalpyAbs (yOf x) D T ≤ 2.52e7 ∧ entropyAbs (yOf x) D T ≤ 2.57e4 := by
  have T1 : 0 < T := by linarith
  have D0 : 0 < D := lt_of_lt_of_le (by norm_num) hD
  have hτ : 0 < Tr (yOf x) / T := div_pos (order_Tr hP hx0 s2) T1
  obtain ⟨i1, i2⟩ := ideal01_le hx s2 hD hD2 T0 h'
  obtain ⟨-, -, -, -, r2, ra⟩ := range_sums hP hx0 s2 v0 T1 t1 t2 D0.le hd
  have r1 := res10_le hx0 (mul_nonneg D0.le v0) hτ
  have r0 := res00_le hx0 (mul_nonneg D0.le v0) hτ
  unfold energyAbs enthalpyAbs entropyAbs
  have up : ∀ y : ℝ, y ≤ 3030 → 8.314472 * T * y ≤ 2.52e7 := fun y hy => by
    have := mul_le_mul_of_nonneg_left hy (by positivity : 0 ≤ 8.314472 * T)
    norm_num at this ⊢
    linarith
  norm_num at r2 ra
  refine ⟨up _ (by linarith), up _ (by linarith), ?_⟩
  norm_num
  linarith

end Aga8.Gerg
