import Verif.Lemmas.Virial
import Verif.Lemmas.GergDrift
import Verif.Props.DetailThermo
import Verif.Props.GergThermo

/-! # The limit of zero density (C58), exact arithmetic -/

namespace Aga8

open Filter Topology
open Detail (Pub setPub)

attribute [local irreducible] Gerg.newP Gerg.pressureP Gerg.propertiesP Gerg.densityP Detail.densityP Detail.pressureP Detail.propertiesP

/-- C58: let `r D` be the results of `properties` on a new DETAIL object at density `D`, with temperature and fractions of `q`.
As the density goes to zero, `(z - 1) / D` converges to the second virial coefficient of the AGA 8 report (`Eos.B`), and the
reported `dp_dd` has slope `2 R T B` at zero density; but the reported `d2p_dd2` is zero at every density up to 1e-15. -/
theorem C58_detail_second_virial (new0 : Detail ℝ) (hnew : Detail.new = .ok new0) (q : Pub ℝ)
    (hx : Detail.XFar q.x (fill 21 (f% 0.0))) (ht : 1e-7 < q.t) (r : ℝ → Detail ℝ)
    (hr : ∀ D, (setPub new0 { q with d := D }).properties = .ok (r D)) (B : ℝ)
    (hB : B = Eos.B (fun i => max (aget q.x i) 0) q.t) :
    Tendsto (fun D => ((r D).z - 1) / D) (𝓝[≠] 0) (𝓝 B) ∧
    HasDerivAt (fun D => (r D).dp_dd) (2 * (8.31451 * q.t * B)) 0 ∧
    ∀ D ≤ 1e-15, (r D).d2p_dd2 = 0 := by
  have e := Detail.new_eq hnew
  subst e
  have er : ∀ D, r D = Detail.propertiesP (Detail.freshOf { q with d := D }) := fun D =>
    (Except.ok.inj ((Detail.properties_ok (Detail.freshOf { q with d := D })).symm.trans (hr D))).symm
  have ht0 : q.t ≠ 0 := (lt_trans (by norm_num) ht : (0 : ℝ) < q.t).ne'
  have hv : ∀ D, Detail.view (Detail.freshOf { q with d := D }) = Detail.view (Detail.freshOf q) := by
    intro D
    have h1 : Detail.view (Detail.freshOf { q with d := D }) = Detail.viewT { q with d := D } q.t :=
      Detail.view_freshT (q := { q with d := D }) hx ht
    have h2 : Detail.view (Detail.freshOf q) = Detail.viewT q q.t := Detail.view_freshT hx ht
    rw [h1, h2]; rfl
  have hd := Detail.virial_fresh hx ht
  have hA : Detail.posPart q.x = fun i => max (aget q.x i) 0 := rfl
  rw [hA, ← hB] at hd
  have h2 := Detail.hasDerivAt_A2_zero (Detail.view (Detail.freshOf q))
  have hdd : ∀ D, (r D).dp_dd = 8.31451 * q.t * (1 + 2 * Detail.A1 (Detail.view (Detail.freshOf q)) D
      + Detail.A2 (Detail.view (Detail.freshOf q)) D) := by
    intro D
    rw [er, Detail.dp_dd_real, hv, Detail.R_real]
    rfl
  have hz : ∀ D, (r D).z - 1 = Detail.A1 (Detail.view (Detail.freshOf q)) D := by
    intro D
    have h0 : (Detail.freshOf { q with d := D }).t ≠ 0 := ht0
    rw [er, Detail.propertiesP_z_real _ h0, hv]
    show 1 + Detail.A1 _ D - 1 = _
    ring
  refine ⟨?_, ?_, ?_⟩
  · simp only [hz]
    exact slope_zero hd (Detail.A1_zero _)
  · simp only [hdd]
    refine ((((hd.const_mul 2).const_add 1).add h2).const_mul (8.31451 * q.t)).congr_deriv ?_
    ring
  · intro D hD
    have h : FOps.lt (Detail.EPSILON : ℝ) (Detail.freshOf { q with d := D }).d = false := by
      rw [Bool.eq_false_iff, ne_eq, r_lt]
      unfold Detail.EPSILON
      rw [lem15]
      exact not_lt.2 hD
    rw [er, Detail.propertiesP_eq, Detail.propsFinish_d2p_dd2, Detail.propsMid_d, h]
    exact l0

/-- C58 refuted for DETAIL: the reported `d2p_dd2` is not the derivative of the reported `dp_dd` at zero density. Pure methane at
151.3183 K. -/
theorem C58_detail_d2p_dd2_not_derivative_at_zero (new0 : Detail ℝ) (hnew : Detail.new = .ok new0) :
    ¬ ∀ (q : Pub ℝ), Detail.XFar q.x (fill 21 (f% 0.0)) → 1e-7 < q.t → ∀ r : ℝ → Detail ℝ,
      (∀ D, (setPub new0 { q with d := D }).properties = .ok (r D)) →
      HasDerivAt (fun D => (r D).dp_dd) (r 0).d2p_dd2 0 := by
  intro hall
  have hx := Detail.methane_x 0 0 0
  have ht := Detail.methane_t 0 0 0
  have e := Detail.new_eq hnew
  let r : ℝ → Detail ℝ := fun D => Detail.propertiesP (Detail.freshOf { Detail.methane 0 0 0 with d := D })
  have hr : ∀ D, (setPub new0 { Detail.methane 0 0 0 with d := D }).properties = .ok (r D) := fun D => by
    rw [e]; exact Detail.properties_ok _
  obtain ⟨-, h1, h2⟩ := C58_detail_second_virial new0 hnew _ hx ht r hr _ rfl
  have h3 := h1.unique (hall _ hx ht r hr)
  rw [h2 0 (by norm_num)] at h3
  have e1 : (Detail.methane 0 0 0).t = Detail.mE := by show (4 : ℝ) ^ 0 * Detail.mE = _; rw [pow_zero, one_mul]
  have e2 : Eos.B (fun i => max (aget (Detail.methane 0 0 0).x i) 0) (Detail.methane 0 0 0).t
      = Detail.mK ^ 3 * Detail.bq := by
    rw [e1]; exact Detail.B_methane
  rw [e2, e1] at h3
  have hb : (Detail.bq : ℝ) ≠ 0 := by
    have := Detail.bq_ne
    have h : Detail.bq ≠ 0 := by intro h; rw [h] at this; norm_num at this
    exact_mod_cast h
  have hE := Detail.mE_pos.ne'
  have hK := Detail.mK_pos.ne'
  exact (mul_ne_zero (by norm_num) (mul_ne_zero (mul_ne_zero (by norm_num) hE) (mul_ne_zero (pow_ne_zero 3 hK) hb))) h3

/-- The hypotheses of C58 are met by pure methane at 151.3183 K, whose second virial coefficient is negative. -/
example : Detail.XFar (Detail.methane 0 0 0).x (fill 21 (f% 0.0)) ∧ 1e-7 < (Detail.methane 0 0 0).t ∧
    Eos.B (fun i => max (aget (Detail.methane 0 0 0).x i) 0) Detail.mE < -(Detail.mK ^ 3) := by
  refine ⟨Detail.methane_x 0 0 0, Detail.methane_t 0 0 0, ?_⟩
  have e2 : Eos.B (fun i => max (aget (Detail.methane 0 0 0).x i) 0) Detail.mE = Detail.mK ^ 3 * Detail.bq := Detail.B_methane
  rw [e2]
  have h : (Detail.bq : ℝ) < -1 := by exact_mod_cast Detail.bq_ne
  have := pow_pos Detail.mK_pos 3
  nlinarith

/-- C58 for GERG-2008: as the density goes to zero, `(z - 1) / D` converges to the second virial coefficient
`B = (1/ρ_r) ∂α_r/∂δ` at `δ = 0` of the GERG-2008 equation, and the reported `dp_dd` has slope `2 R T B` at zero density; but the
reported `d2p_dd2` is zero at every density up to 1e-15. -/
theorem C58_gerg_second_virial (new0 : Gerg ℝ) (hnew : Gerg.new = .ok new0) (q : Gerg.Pub ℝ)
    (hx : ∃ i : Fin 22, 1 ≤ i.1 ∧ 1e-6 ≤ aget q.x i) (ht : 1e-7 < q.t)
    (y : Fin 22 → ℝ) (hy : ∀ i, y i = if 1e-15 < aget q.x i then aget q.x i else 0)
    (r : ℝ → Gerg ℝ) (p : ℝ → ℝ) (hr : ∀ D, (Gerg.setPub new0 { q with d := D }).properties = .ok (r D, p D)) (B : ℝ)
    (hB : B = GergEos.invRhoR y * deriv (fun δ => GergEos.alphaR y δ (GergEos.Tr y / q.t)) 0) :
    Tendsto (fun D => ((r D).z - 1) / D) (𝓝[≠] 0) (𝓝 B) ∧
    HasDerivAt (fun D => (r D).dp_dd) (2 * (8.314472 * q.t * B)) 0 ∧
    ∀ D ≤ 1e-15, (r D).d2p_dd2 = 0 := by
  have e := Gerg.new_eq hnew
  subst e
  have hP : Gerg.Present q.x := hx
  have ey : y = Gerg.yOf q.x := funext hy
  have er : ∀ D, r D = (Gerg.propertiesP (Gerg.freshOf { q with d := D })).1 := fun D =>
    congrArg Prod.fst (Except.ok.inj ((Gerg.props_fresh { q with d := D }).symm.trans (hr D))).symm
  have ht0 : 0 < q.t := lt_trans (by norm_num) ht
  have hτ : 0 < GergEos.Tr y / q.t := by rw [ey, ← Gerg.trX_eq]; exact div_pos hP.tr_pos ht0
  have hfun : (fun δ => GergEos.alphaR y δ (GergEos.Tr y / q.t))
      = fun δ => Gerg.RS q.x (fun _ _ => 1) δ (GergEos.Tr y / q.t) := by
    funext δ; rw [Gerg.RS_eq q.x δ hτ, ey]
  obtain ⟨h0, -, -⟩ := Gerg.hasDerivAt_RS_zero q.x (GergEos.Tr y / q.t)
  rw [hfun, h0.deriv] at hB
  obtain ⟨h1, h2⟩ := Gerg.hasDerivAt_RT_zero hP q.t
  rw [Gerg.trX_eq, ← ey, ← hB] at h1
  have hdd : ∀ D, (r D).dp_dd = 8.314472 * (q.t * (1 + 2 * Gerg.RT q.x Gerg.Shape.f1 D q.t
      + Gerg.RT q.x Gerg.Shape.f2 D q.t)) := by
    intro D
    have h : (Gerg.propertiesP (Gerg.freshOf { q with d := D })).1.dp_dd = _ := Gerg.dp_dd_RT (q := { q with d := D }) hP.xfar ht
    rw [er, h, Gerg.R_real]
  have hz : ∀ D, (r D).z - 1 = Gerg.RT q.x Gerg.Shape.f1 D q.t := by
    intro D
    have h : (Gerg.propertiesP (Gerg.freshOf { q with d := D })).1.z = 1 + Gerg.RT q.x Gerg.Shape.f1 D q.t := by
      have h3 := Gerg.ar_fresh (q := { q with d := D }) hP.xfar ht (Gerg.adds01 1)
      rw [Gerg.propertiesP_eq, Gerg.propsFinish_z]
      have h3 : aget2 (Gerg.propsMid (Gerg.freshOf { q with d := D })).ar 0 1 = _ := h3
      rw [h3, l1]
    rw [er, h]
    ring
  refine ⟨?_, ?_, ?_⟩
  · simp only [hz]
    exact slope_zero h1 (Gerg.RT_at_zero _ _ _)
  · simp only [hdd]
    refine (((((h1.const_mul 2).const_add 1).add h2).const_mul q.t).const_mul 8.314472).congr_deriv ?_
    ring
  · intro D hD
    have h : ¬ (FOps.lt (Gerg.EPSILON : ℝ) (Gerg.freshOf { q with d := D }).d = true) := by
      rw [Gerg.lt_eps]
      exact not_lt.2 hD
    rw [er, Gerg.propertiesP_eq, Gerg.propsFinish_d2p_dd2, Gerg.propsMid_d, if_neg h]
    exact l0

/-- The second virial coefficient of methane at its reducing temperature. -/
theorem B_gerg_methane : GergEos.invRhoR (Gerg.yOf (Gerg.px 1)) * deriv (fun δ => GergEos.alphaR (Gerg.yOf (Gerg.px 1)) δ
    (GergEos.Tr (Gerg.yOf (Gerg.px 1)) / (Gerg.pureAt 1 190.564 0 0).t)) 0
      = GergEos.invRhoR (Gerg.yOf (Gerg.px 1)) * Gerg.gq := by
  have e : GergEos.Tr (Gerg.yOf (Gerg.px 1)) / (Gerg.pureAt 1 190.564 0 0).t = 1 := by
    rw [← Gerg.trX_eq, Gerg.trX_methane]
    show (190.564 : ℝ) / 190.564 = 1
    norm_num
  rw [e]
  have hfun : (fun δ => GergEos.alphaR (Gerg.yOf (Gerg.px 1)) δ 1) = fun δ => Gerg.RS (Gerg.px 1) (fun _ _ => 1) δ 1 := by
    funext δ; rw [Gerg.RS_eq _ δ one_pos]
  rw [hfun, (Gerg.hasDerivAt_RS_zero (Gerg.px 1) 1).1.deriv, Gerg.BS_methane]

/-- C58 refuted for GERG-2008: the reported `d2p_dd2` is not the derivative of the reported `dp_dd` at zero density. Pure methane at
its reducing temperature. -/
theorem C58_gerg_d2p_dd2_not_derivative_at_zero (new0 : Gerg ℝ) (hnew : Gerg.new = .ok new0) :
    ¬ ∀ (q : Gerg.Pub ℝ), (∃ i : Fin 22, 1 ≤ i.1 ∧ 1e-6 ≤ aget q.x i) → 1e-7 < q.t → ∀ (r : ℝ → Gerg ℝ) (p : ℝ → ℝ),
      (∀ D, (Gerg.setPub new0 { q with d := D }).properties = .ok (r D, p D)) →
      HasDerivAt (fun D => (r D).dp_dd) (r 0).d2p_dd2 0 := by
  intro hall
  have e := Gerg.new_eq hnew
  have hP : Gerg.Present (Gerg.px 1) := ⟨1, by decide, by rw [Gerg.aget_px, if_pos rfl]; norm_num⟩
  have ht : (1e-7 : ℝ) < (Gerg.pureAt 1 190.564 0 0).t := by show (1e-7 : ℝ) < 190.564; norm_num
  let r : ℝ → Gerg ℝ := fun D => (Gerg.propertiesP (Gerg.freshOf { Gerg.pureAt 1 190.564 0 0 with d := D })).1
  let p : ℝ → ℝ := fun D => (Gerg.propertiesP (Gerg.freshOf { Gerg.pureAt 1 190.564 0 0 with d := D })).2
  have hr : ∀ D, (Gerg.setPub new0 { Gerg.pureAt 1 190.564 0 0 with d := D }).properties = .ok (r D, p D) := fun D => by
    rw [e]; exact Gerg.props_fresh _
  obtain ⟨-, h1, h2⟩ := C58_gerg_second_virial new0 hnew (Gerg.pureAt 1 190.564 0 0) hP ht (Gerg.yOf (Gerg.px 1)) (fun i => rfl) r p hr _ rfl
  have h3 := h1.unique (hall (Gerg.pureAt 1 190.564 0 0) hP ht r p hr)
  rw [h2 0 (by norm_num), B_gerg_methane] at h3
  have hb : (Gerg.gq : ℝ) ≠ 0 := by
    have := Gerg.gq_ne
    have h : Gerg.gq ≠ 0 := by intro h; rw [h] at this; norm_num at this
    exact_mod_cast h
  have hv := hP.vr
  rw [Gerg.vrX_eq] at hv
  have hv : GergEos.invRhoR (Gerg.yOf (Gerg.px 1)) ≠ 0 := (lt_trans (by norm_num) hv).ne'
  have ht0 : (Gerg.pureAt 1 190.564 0 0).t ≠ 0 := (lt_trans (by norm_num) ht).ne'
  exact (mul_ne_zero (by norm_num) (mul_ne_zero (mul_ne_zero (by norm_num) ht0) (mul_ne_zero hv hb))) h3

/-- The hypotheses of C58 are met by pure methane at 190.564 K, whose second virial coefficient is negative. -/
example : (∃ i : Fin 22, 1 ≤ i.1 ∧ 1e-6 ≤ aget (Gerg.px 1) i) ∧ (1e-7 : ℝ) < (Gerg.pureAt 1 190.564 0 0).t ∧
    GergEos.invRhoR (Gerg.yOf (Gerg.px 1)) * deriv (fun δ => GergEos.alphaR (Gerg.yOf (Gerg.px 1)) δ
      (GergEos.Tr (Gerg.yOf (Gerg.px 1)) / (Gerg.pureAt 1 190.564 0 0).t)) 0 < 0 := by
  have hP : Gerg.Present (Gerg.px 1) := ⟨1, by decide, by rw [Gerg.aget_px, if_pos rfl]; norm_num⟩
  refine ⟨hP, by show (1e-7 : ℝ) < 190.564; norm_num, ?_⟩
  rw [B_gerg_methane]
  have hv := hP.vr
  rw [Gerg.vrX_eq] at hv
  have hb : (Gerg.gq : ℝ) < 0 := by
    have h : Gerg.gq < 0 := lt_trans Gerg.gq_ne (by norm_num)
    exact_mod_cast h
  exact mul_neg_of_pos_of_neg (lt_trans (by norm_num) hv) hb

end Aga8
