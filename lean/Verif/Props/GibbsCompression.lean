import Verif.Props.GergHeating
import Verif.Props.NaturalGasHeating

/-! # C87: compressing a gas at constant temperature raises its f64 Gibbs energy (both models)

The theorems are about IEEE-754 arithmetic, with any `exp`, `powf`, `powi` and `ln` that are accurate in the sense of
`Spec/F64Accuracy`. They compare two calls of `properties`. -/

set_option linter.unusedSectionVars false

namespace Aga8

open F64

attribute [local irreducible] Detail.pressureP Detail.propertiesP Detail.densityP
attribute [local irreducible] Gerg.newP Gerg.pressureP Gerg.propertiesP Gerg.densityP

variable [Libm]

/-- The slope of `Z` from that of `D Z`. -/
theorem slope_of_mul {Z : ℝ → ℝ} {D r : ℝ} (hD : D ≠ 0) (h : HasDerivAt (fun D => D * Z D) r D) :
    HasDerivAt Z ((r - Z D) / D) D := by
  have h2 := (h.div (hasDerivAt_id D) hD).congr_of_eventuallyEq (f₁ := Z)
    ((eventually_ne_nhds hD).mono fun d hd => by
      simp only [Pi.div_apply, id]
      field_simp)
  refine h2.congr_deriv ?_
  simp only [id]
  field_simp

/-- A slope of at least `C / D` gives a rise of at least `C` times the logarithm of the ratio. -/
theorem rise_log {f f' : ℝ → ℝ} {D D' C : ℝ} (D0 : 0 < D) (h : D ≤ D') (hf : ∀ d, D ≤ d → d ≤ D' → HasDerivAt f (f' d / d) d ∧ C ≤ f' d) :
    C * Real.log (D' / D) ≤ f D' - f D := by
  have s := GergEos.rise_ge (C := 0) h fun d a b =>
    ⟨((hf d a b).1).sub ((Real.hasDerivAt_log (D0.trans_le a).ne').const_mul C), by
    have d0 := D0.trans_le a
    have := (hf d a b).2
    have e : f' d / d - C * d⁻¹ = (f' d - C) / d := by field_simp
    rw [e]
    exact div_nonneg (by linarith) d0.le⟩
  simp only [Pi.sub_apply] at s
  rw [Real.log_div (D0.trans_le h).ne' D0.ne']
  linarith

namespace Detail.Ng

theorem slope_gibbs {x : Fin 21 → ℝ} {D T : ℝ} (hx : ∀ i, 0 ≤ x i) (hD : 1e-15 < D) :
    HasDerivAt (fun D => Eos.gibbs x D T) (8.31451 * T * (∑ i, x i - 1 + Eos.dPdD x D T) / D) D := by
  have D0 : D ≠ 0 := by intro h; rw [h] at hD; norm_num at hD
  have hi : HasDerivAt (fun D => ∑ i, iv0 D T (x i) i) (∑ i, x i * D⁻¹) D := by
    refine HasDerivAt.fun_sum fun i _ => ?_
    unfold iv0
    refine HasDerivAt.const_mul _ ?_
    exact (((((Real.hasDerivAt_log D0).add_const _).add_const _).add_const _).sub_const _).add_const _
  have hr : HasDerivAt (fun D => ∑ n, tv x D T n) (∑ n, tvZ x D T n / D) D := HasDerivAt.fun_sum fun n _ => slope_tv n D0
  have hz := slope_of_mul D0 (DZ_deriv x D T)
  have hS := ((hi.add hr).add hz).const_mul (8.31451 * T)
  have hE := hS.congr_of_eventuallyEq (f₁ := fun D => Eos.gibbs x D T) ((eventually_gt_nhds hD).mono fun d hd => by
    simp only [Pi.add_apply, Eos.gibbs]
    rw [helmholtz_sum hx hd, ← Finset.mul_sum]
    ring)
  refine hE.congr_deriv ?_
  rw [← Finset.sum_div, ← Finset.sum_mul, ← tvZ_sum]
  field_simp
  ring

/-- The rise of the exact Gibbs energy when the gas is compressed. -/
theorem gibbs_rise {x : Fin 21 → ℝ} (h : Eos.NormalGas x) (hs : 0.99 ≤ ∑ i, x i) {T D D' : ℝ} (h1 : 263 ≤ T) (h2 : T ≤ 400)
    (hDD : D ≤ D') (hD : 1e-4 ≤ D) (hd : D' ≤ 1) : 1377 * Real.log (D' / D) ≤ Eos.gibbs x D' T - Eos.gibbs x D T := by
  have D0 : 0 < D := lt_of_lt_of_le (by norm_num) hD
  have D1 : 1e-15 < D := lt_of_lt_of_le (by norm_num) hD
  refine rise_log D0 hDD fun d a b => ⟨slope_gibbs h.nonneg (D1.trans_le a), ?_⟩
  obtain ⟨-, -, c, -⟩ := ng_unit h h1 h2 (D0.le.trans a) (b.trans hd)
  generalize Eos.dPdD x d T = y at *
  generalize ∑ i, x i = S at *
  norm_num at c hs ⊢
  nlinarith

end Detail.Ng

open Detail in
/-- C87 with DETAIL: with an accurate math library, for every natural gas whose fractions are zero or at least 1e-10 and sum to at least
0.99, every temperature of 263 K to 400 K and any two densities of 1e-4 mol/l to 1 mol/l at least 0.01 % apart, the Gibbs energy that
`properties` stores is larger at the higher density, by at least `1100 ln (D'/D)` J/mol. -/
theorem C87_detail_gibbs (hL : LibmAccurate) (hN : LnAccurate) (new0 : Detail Float) (hnew : Detail.new = .ok new0)
    (q q' : Pub Float) (hqx : q'.x = q.x) (hqt : q'.t = q.t) (fx : ∀ i, IsFinite (aget q.x i))
    (hx : Eos.NormalGas fun i => toR (aget q.x i)) (hx' : ∀ i, toR (aget q.x i) = 0 ∨ 1e-10 ≤ toR (aget q.x i))
    (hs : 0.99 ≤ ∑ i, toR (aget q.x i)) (ht : IsFinite q.t) (t1 : 263 ≤ toR q.t) (t2 : toR q.t ≤ 400)
    (fd : IsFinite q.d) (fd' : IsFinite q'.d) (d1 : 1e-4 ≤ toR q.d) (hd : 1.0001 * toR q.d ≤ toR q'.d) (d2 : toR q'.d ≤ 1) :
    ∃ s s', (setPub new0 q).properties = .ok s ∧ (setPub new0 q').properties = .ok s' ∧
      toR s.g + 1100 * Real.log (toR q'.d / toR q.d) ≤ toR s'.g := by
  have D0 : 0 < toR q.d := lt_of_lt_of_le (by norm_num) d1
  have hd' : toR q.d ≤ toR q'.d := by norm_num at hd; linarith
  have ef : Detail.fracs q' = Detail.fracs q := by unfold Detail.fracs; rw [hqx]
  have hf := Detail.fracs_normal hx
  have hq := Detail.err_normal fx hx hx' ht t1 t2 fd d1 (hd'.trans d2)
  have hq' : ErrDomain q' := Detail.err_normal (by rw [hqx]; exact fx) (by rw [hqx]; exact hx) (by rw [hqx]; exact hx')
    (by rw [hqt]; exact ht) (by rw [hqt]; exact t1) (by rw [hqt]; exact t2) fd' (d1.trans hd') d2
  obtain ⟨s, k1, -, -, -, -, -, a⟩ := C65_detail_energy_error hL hN new0 hnew q hq (by linarith) d1
  obtain ⟨s', k2, -, -, -, -, -, b⟩ := C65_detail_energy_error hL hN new0 hnew q' hq' (by rw [hqt]; linarith) (d1.trans hd')
  have c := Detail.Ng.gibbs_rise hx hs t1 t2 hd' d1 d2
  have z := (Detail.Ng.heating_size hx hs hx' t1 t2 d1 (hd'.trans d2)).2.2.2
  have z' := (Detail.Ng.heating_size hx hs hx' t1 t2 (d1.trans hd') d2).2.2.2
  rw [ef, hqt] at b
  rw [← hf] at c z z'
  have l : 9.99e-5 ≤ Real.log (toR q'.d / toR q.d) := by
    have r : 1.0001 ≤ toR q'.d / toR q.d := by rw [le_div_iff₀ D0]; exact hd
    have a := Real.one_sub_inv_le_log_of_pos (x := (1.0001 : ℝ)) (by norm_num)
    refine le_trans ?_ (a.trans (Real.log_le_log (by norm_num) r))
    norm_num
  refine ⟨s, s', k1, k2, ?_⟩
  clear hx hx' hs hf
  have a := abs_le.1 a
  have b := abs_le.1 b
  generalize Real.log (toR q'.d / toR q.d) = y at *
  generalize Eos.gibbsAbs (Detail.fracs q) (toR q.d) (toR q.t) = w at *
  generalize Eos.gibbsAbs (Detail.fracs q) (toR q'.d) (toR q.t) = w' at *
  norm_num at a b c l z z' ⊢
  linarith

namespace Gerg

open GergEos (Tr invRhoR)

theorem slope_gibbs {x : Vector ℝ 22} (hP : Present x) {D T : ℝ} (hD : 1e-15 < D) (hT : 0 < T) :
    HasDerivAt (fun D => GergEos.gibbs (yOf x) D T)
      (8.314472 * T * ((∑ i : Fin 22 with 1 ≤ i.1, yOf x i) - 1 + GergEos.dPdD (yOf x) D T) / D) D := by
  have D0 : D ≠ 0 := by intro h; rw [h] at hD; norm_num at hD
  have hτ : 0 < GergEos.Tr (yOf x) / T := by rw [← trX_eq]; exact div_pos hP.tr_pos hT
  have hz := slope_of_mul D0 (DZ_hasDeriv x D hτ)
  have h := (((hasDerivAt_I0_d m0 x T hD).add (slope_RT hP (fun _ => 1) T D0)).add hz).const_mul (8.314472 * T)
  have h2 := h.congr_of_eventuallyEq (f₁ := fun D => GergEos.gibbs (yOf x) D T) ((eventually_gt_nhds hD).mono fun d hd => by
    simp only [Pi.add_apply, GergEos.gibbs]
    rw [helmholtz_I hP hd hT]
    ring)
  refine h2.congr_deriv ?_
  rw [Z_RS x D hτ, RT_RS hP]
  simp only [one_mul]
  unfold yOf
  field_simp
  ring

/-- The rise of the exact Gibbs energy when the gas is compressed. -/
theorem gibbs_rise {x : Vector ℝ 22} (hP : Present x) (hx0 : ∀ i : Fin 22, 1 ≤ i.1 → 0 ≤ yOf x i)
    (s1 : 0.99 ≤ ∑ i : Fin 22 with 1 ≤ i.1, yOf x i) (s2 : ∑ i : Fin 22 with 1 ≤ i.1, yOf x i ≤ 1.01)
    (v0 : 0 ≤ invRhoR (yOf x)) {T D D' : ℝ} (T0 : 200 ≤ T) (t1 : 1.1 * Tr (yOf x) ≤ T) (t2 : T ≤ 100 * Tr (yOf x))
    (h : D ≤ D') (hD : 1e-4 ≤ D) (hd : D' * invRhoR (yOf x) ≤ 0.1) :
    1150 * Real.log (D' / D) ≤ GergEos.gibbs (yOf x) D' T - GergEos.gibbs (yOf x) D T := by
  have D0 : 0 < D := lt_of_lt_of_le (by norm_num) hD
  have D1 : 1e-15 < D := lt_of_lt_of_le (by norm_num) hD
  have T1 : 0 < T := by linarith
  refine rise_log D0 h fun d a b => ⟨slope_gibbs hP (D1.trans_le a) T1, ?_⟩
  obtain ⟨-, ⟨c, -⟩, -⟩ := range_sums hP hx0 s2 v0 T1 t1 t2 (D0.le.trans a) ((mul_le_mul_of_nonneg_right b v0).trans hd)
  generalize GergEos.dPdD (yOf x) d T = y at *
  generalize ∑ i : Fin 22 with 1 ≤ i.1, yOf x i = S at *
  norm_num at c s1 ⊢
  nlinarith

/-- The size of the terms of the Gibbs energy. -/
theorem gibbs_size {x : Vector ℝ 22} (hP : Present x) (hx0 : ∀ i : Fin 22, 1 ≤ i.1 → 0 ≤ yOf x i)
    (s2 : ∑ i : Fin 22 with 1 ≤ i.1, yOf x i ≤ 1.01)
    (hx : ∀ i : Fin 22, 1 ≤ i.1 → yOf x i = 0 ∨ 1e-10 ≤ yOf x i ∧ yOf x i ≤ 2) (v0 : 0 ≤ invRhoR (yOf x)) {T D : ℝ} (T0 : 200 ≤ T)
    (t1 : 1.1 * Tr (yOf x) ≤ T) (t2 : T ≤ 100 * Tr (yOf x)) (h' : T ≤ 1000) (hD : 1e-4 ≤ D) (hD2 : D ≤ 1000)
    (hd : D * invRhoR (yOf x) ≤ 0.1) : GergEos.gibbsAbs (yOf x) D T ≤ 2.57e7 := by
  have T1 : 0 < T := by linarith
  have D0 : 0 < D := lt_of_lt_of_le (by norm_num) hD
  have hτ : 0 < Tr (yOf x) / T := div_pos (order_Tr hP hx0 s2) T1
  obtain ⟨-, -, -, -, -, ra⟩ := range_sums hP hx0 s2 v0 T1 t1 t2 D0.le hd
  have r0 := GergEos.res00_le hx0 (mul_nonneg D0.le v0) hτ
  have i0 : GergEos.ideal0 (yOf x) D T ≤ ∑ i : Fin 22 with 1 ≤ i.1, yOf x i * 3051 := by
    unfold GergEos.ideal0
    refine Finset.sum_le_sum fun i hi => ?_
    have hi' := (Finset.mem_filter.1 hi).2
    rcases hx i hi' with e | e
    · rw [e]; simp
    · refine mul_le_mul_of_nonneg_left ?_ (le_trans (by norm_num) e.1)
      have c1 := (Detail.Ng.idealSize_le ⟨i.1 - 1, by omega⟩ T0 h').1
      have c3 := GergEos.mixSize_le e.1 e.2 hD hD2
      have c4 : (GergEos.ideal.getD (i.1 - 1) Inhabited.default).size0 T
          = Eos.idealSize0 (GergEos.ideal.getD (i.1 - 1) Inhabited.default) T + 298.15 / T := by
        unfold GergEos.IdealTerms.size0 Eos.idealSize0
        have el : ∀ y, Eos.lnSize y = GergEos.lnSize y := fun _ => rfl
        simp only [el]
        ring
      have b : 298.15 / T ≤ 1.4908 := by rw [div_le_iff₀ T1]; norm_num; linarith
      rw [c4]
      generalize Eos.idealSize0 _ T = y0 at *
      generalize GergEos.mixSize _ _ = y2 at *
      generalize 298.15 / T = y3 at *
      norm_num at b c1 ⊢
      linarith
  rw [← Finset.sum_mul] at i0
  unfold GergEos.gibbsAbs
  generalize GergEos.ideal0 (yOf x) D T = w0 at *
  generalize GergEos.res00 (yOf x) D T = w1 at *
  generalize GergEos.Zabs (yOf x) D T = w2 at *
  have hy : w2 + w0 + w1 ≤ 3087 := by
    norm_num at i0 ra s2
    linarith
  have := mul_le_mul_of_nonneg_left hy (by positivity : 0 ≤ 8.314472 * T)
  norm_num at this ⊢
  linarith

end Gerg

open Gerg in
/-- C87 with GERG-2008: with an accurate math library, for every mixture of fractions that sum to 0.99 to 1.01, every temperature from
200 K and 1.1 times the reducing temperature on and up to 1000 K, and any two densities at least 0.01 % apart, from 1e-4 mol/l up to a
tenth of the reducing density, the Gibbs energy that `properties` stores is larger at the higher density, by at least
`600 ln (D'/D)` J/mol. -/
theorem C87_gerg_gibbs (hL : LibmAccurate) (hN : LnAccurate) (new0 : Gerg Float) (hnew : Gerg.new = .ok new0)
    (q q' : Pub Float) (hqx : q'.x = q.x) (hqt : q'.t = q.t) (hq : ErrDomain q) (hq' : ErrDomain q')
    (hx : ∀ i : Fin 22, 1 ≤ i.1 → 0 ≤ toR (aget q.x i))
    (hs1 : 0.99 ≤ ∑ i : Fin 22 with 1 ≤ i.1, toR (aget q.x i)) (hs2 : ∑ i : Fin 22 with 1 ≤ i.1, toR (aget q.x i) ≤ 1.01)
    (hT0 : 200 ≤ toR q.t) (hT1 : 1.1 * GergEos.Tr (fracs q) ≤ toR q.t) (hT2 : toR q.t ≤ 1000)
    (hD : 1e-4 ≤ toR q.d) (hd : 1.0001 * toR q.d ≤ toR q'.d) (hδ : toR q'.d * GergEos.invRhoR (fracs q) ≤ 0.1) :
    ∃ s p s' p', (setPub new0 q).properties = .ok (s, p) ∧ (setPub new0 q').properties = .ok (s', p') ∧
      toR s.g + 600 * Real.log (toR q'.d / toR q.d) ≤ toR s'.g := by
  have ef : fracs q' = fracs q := by unfold fracs; rw [hqx]
  have D0 : 0 < toR q.d := lt_of_lt_of_le (by norm_num) hD
  have hd' : toR q.d ≤ toR q'.d := by norm_num at hd; linarith
  obtain ⟨e', hP, hx0, hx1, v0, es⟩ := Gerg.heat_mix hq hx
  have eV : GergEos.invRhoR (fracs q) = GergEos.invRhoR (Gerg.yOf (Gerg.xr q.x)) := Gerg.reducing_congr' e' _ _
  have eT : GergEos.Tr (fracs q) = GergEos.Tr (Gerg.yOf (Gerg.xr q.x)) := Gerg.reducing_congr' e' _ _
  have eG : ∀ D T, GergEos.gibbs (fracs q) D T = GergEos.gibbs (yOf (xr q.x)) D T := fun D T => by
    unfold GergEos.gibbs
    rw [helmholtz_congr' e', Z_congr' e']
  have hD2 : toR q'.d ≤ 1000 := by
    rcases hq'.d_rng with h | h
    · rw [h]; norm_num
    · exact h.2
  have t2 := hq.t_red1
  rw [eT] at t2 hT1
  rw [eV] at hδ
  have hδ0 := (mul_le_mul_of_nonneg_right hd' v0).trans hδ
  obtain ⟨s, p, k1, -, -, -, -, -, a⟩ := C66_gerg_energy_error hL hN new0 hnew q hq (by linarith) hT2 hD
  obtain ⟨s', p', k2, -, -, -, -, -, b⟩ := C66_gerg_energy_error hL hN new0 hnew q' hq' (by rw [hqt]; linarith) (by rw [hqt]; exact hT2)
    (hD.trans hd')
  rw [ef, hqt] at b
  rw [(abs_congr' e' _ _).2.2.2.1, eG] at a b
  have hs1' : 0.99 ≤ ∑ i : Fin 22 with 1 ≤ i.1, yOf (xr q.x) i := by rw [es]; exact hs1
  have hs2' : ∑ i : Fin 22 with 1 ≤ i.1, yOf (xr q.x) i ≤ 1.01 := by rw [es]; exact hs2
  have z := Gerg.gibbs_size hP hx0 hs2' hx1 v0 hT0 hT1 t2 hT2 hD (hd'.trans hD2) hδ0
  have z' := Gerg.gibbs_size hP hx0 hs2' hx1 v0 hT0 hT1 t2 hT2 (hD.trans hd') hD2 hδ
  have c := Gerg.gibbs_rise hP hx0 hs1' hs2' v0 hT0 hT1 t2 hd' hD hδ
  have l : 9.99e-5 ≤ Real.log (toR q'.d / toR q.d) := by
    have r : 1.0001 ≤ toR q'.d / toR q.d := by rw [le_div_iff₀ D0]; exact hd
    have a := Real.one_sub_inv_le_log_of_pos (x := (1.0001 : ℝ)) (by norm_num)
    refine le_trans ?_ (a.trans (Real.log_le_log (by norm_num) r))
    norm_num
  refine ⟨s, p, s', p', k1, k2, ?_⟩
  have a := abs_le.1 a
  have b := abs_le.1 b
  generalize Real.log (toR q'.d / toR q.d) = y at *
  generalize GergEos.gibbsAbs (yOf (xr q.x)) (toR q.d) (toR q.t) = w at *
  generalize GergEos.gibbsAbs (yOf (xr q.x)) (toR q'.d) (toR q.t) = w' at *
  norm_num at a b c l z z' ⊢
  linarith

/-! ## The hypotheses can be met -/

/-- The gas of C74 at 300 K, compressed from 0.25 mol/l to 0.5 mol/l: the stored Gibbs energy rises by more than 500 J/mol. -/
example (hL : LibmAccurate) (hN : LnAccurate) (new0 : Detail Float) (hnew : Detail.new = .ok new0) :
    ∃ s s', (Detail.setPub new0 Detail.ngQuarter).properties = .ok s ∧ (Detail.setPub new0 Detail.ngHalf).properties = .ok s' ∧
      toR s.g + 500 ≤ toR s'.g := by
  obtain ⟨hx, ht, -⟩ := Detail.ng1_ok
  have ht1 : toR Detail.ngQuarter.t = 300 := ht
  have hd : toR Detail.ngQuarter.d = 0.25 := quarter_ok.2
  have hd2 : toR Detail.ngHalf.d = 0.5 := Detail.ngLitHalf.2
  obtain ⟨s, s', e1, e2, e3⟩ := C87_detail_gibbs hL hN new0 hnew Detail.ngQuarter Detail.ngHalf rfl rfl (fun i => (hx i).1)
    Detail.ng1_normal (fun i => Detail.ng1_min i) Detail.ng1_sum Detail.errLow_ok.2.1 (by rw [ht1]; norm_num)
    (by rw [ht1]; norm_num) quarter_ok.1 Detail.ngLitHalf.1 (by rw [hd]; norm_num) (by rw [hd, hd2]; norm_num) (by rw [hd2]; norm_num)
  refine ⟨s, s', e1, e2, le_trans ?_ e3⟩
  rw [hd, hd2]
  have := Real.one_sub_inv_le_log_of_pos (x := ((0.5 : ℝ) / 0.25)) (by norm_num)
  norm_num at this ⊢
  linarith

attribute [local irreducible] Gerg.mixQuarter

/-- Equal parts of methane and nitrogen at 300 K, compressed from 0.25 mol/l to 0.5 mol/l: the stored Gibbs energy rises by at least
300 J/mol. -/
example (hL : LibmAccurate) (hN : LnAccurate) (new0 : Gerg Float) (hnew : Gerg.new = .ok new0) :
    ∃ s p s' p', (Gerg.setPub new0 Gerg.mixQuarter).properties = .ok (s, p) ∧
      (Gerg.setPub new0 Gerg.mixHalf).properties = .ok (s', p') ∧ toR s.g + 300 ≤ toR s'.g := by
  obtain ⟨hx, ft, ht, fd, hd⟩ := Gerg.mixQuarter_ok
  obtain ⟨T1, T2⟩ := Gerg.errMix_Tr
  obtain ⟨V1, V2⟩ := Gerg.errMix_V
  have hd' : toR Gerg.mixHalf.d = 0.5 := Gerg.litHalf.2
  have hs := Gerg.mixQuarter_sum
  obtain ⟨s, p, s', p', e1, e2, e3⟩ := C87_gerg_gibbs hL hN new0 hnew Gerg.mixQuarter Gerg.mixHalf rfl rfl Gerg.mixQuarter_dom
    Gerg.mixHalf_dom (fun i _ => by rw [(hx i).2]; split <;> [norm_num; (split <;> norm_num)]) (by rw [hs]; norm_num)
    (by rw [hs]; norm_num) (by rw [ht]; norm_num) (by rw [ht, Gerg.mixQuarter_fracs]; norm_num; linarith)
    (by rw [ht]; norm_num) (by rw [hd]; norm_num) (by rw [hd, hd']; norm_num)
    (by rw [hd', Gerg.mixQuarter_fracs]; norm_num at V2 ⊢; linarith)
  refine ⟨s, p, s', p', e1, e2, le_trans ?_ e3⟩
  rw [hd, hd']
  have := Real.one_sub_inv_le_log_of_pos (x := ((0.5 : ℝ) / 0.25)) (by norm_num)
  norm_num at this ⊢
  linarith

end Aga8
