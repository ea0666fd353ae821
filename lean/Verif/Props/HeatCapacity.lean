import Verif.Lemmas.DetailHeat
import Verif.Lemmas.GergHeat
import Verif.Props.MolarMass
import Verif.Lemmas.DetailProcess
import Verif.Lemmas.GergProcess
import Verif.Props.GergReal
import Verif.Props.DetailReal

/-! # The ideal-gas heat capacity is positive, and every gas is stable at low density (C51) -/

namespace Aga8

/-! ## DETAIL -/

namespace Detail

theorem XFar_of_sum {x : Vector ℝ 21} (h0 : ∀ i, 0 ≤ aget x i) (h1 : ∑ i, aget x i = 1) :
    XFar x (fill 21 (f% 0.0)) := by
  by_contra h
  have h2 : ∀ i, aget x i ≤ 1e-7 := by
    intro i
    by_contra hi
    refine h ⟨i, ?_⟩
    rw [r_lt, lem7, aget_fill, l0, r_abs, sub_zero, abs_of_nonneg (h0 i)]
    exact not_le.1 hi
  have h3 : ∑ i, aget x i ≤ ∑ _i : Fin 21, (1e-7 : ℝ) := Finset.sum_le_sum fun i _ => h2 i
  rw [h1] at h3
  norm_num at h3

theorem mass_pos : ∀ i, 0 < Detail.massQ i := by decide +kernel

theorem mm_pos {s : Detail ℝ} (h0 : ∀ i, 0 ≤ aget s.x i) (h1 : ∑ i, aget s.x i = 1) : 0 < s.molar_mass.2 := by
  rw [molar_mass_sum]
  dsimp only
  have hp : ∀ i, (0 : ℝ) < (massQ i : ℝ) := fun i => by exact_mod_cast mass_pos i
  have hn : ∀ i ∈ Finset.univ, 0 ≤ aget s.x i * (massQ i : ℝ) := fun i _ => mul_nonneg (h0 i) (hp i).le
  refine lt_of_le_of_ne (Finset.sum_nonneg hn) fun h => ?_
  have h2 := (Finset.sum_eq_zero_iff_of_nonneg hn).1 h.symm
  have h3 : ∑ i, aget s.x i = 0 := Finset.sum_eq_zero fun i hi => by
    rcases mul_eq_zero.1 (h2 i hi) with h | h
    · exact h
    · exact absurd h (hp i).ne'
  rw [h1] at h3
  norm_num at h3

/-- What follows from a positive heat capacity and a positive slope. -/
theorem stable {s s' : Detail ℝ} (h : s.properties = .ok s') (hm : 0 < s.molar_mass.2) (hT : 0 < s.t)
    (hcv : 0 < s'.cv) (hpd : 0 < s'.dp_dd) : 0 < s'.mm ∧ s'.cv ≤ s'.cp ∧ 0 < s'.w ∧
      s'.w ^ 2 = 1000 * (s'.cp / s'.cv) * s'.dp_dd / s'.mm ∧
      s'.kappa = s'.w ^ 2 * s'.mm / (1000 * 8.31451 * s.t * s'.z) := by
  have e : s' = propertiesP s := by have := h.symm.trans (properties_ok s); injection this
  have hmm : s'.mm = s.molar_mass.2 := by
    rw [e, propertiesP_eq]
    have h1 : ∀ (s : Detail ℝ) mm, (propsFinish s mm).mm = s.mm := by
      intro s mm
      unfold propsFinish
      dsimp only
      split <;> dsimp only <;> split <;> rfl
    rw [h1]
    exact congrArg Pub.mm (propsMid_pub s)
  have hcp : s'.cv ≤ s'.cp := by
    by_cases h15 : 1e-15 < s.d
    · obtain ⟨s2, m, g1, -, -, g4, -⟩ := C28_detail_derived_properties s h15
      have : s2 = s' := by have := g1.symm.trans h; injection this
      subst this
      have : 0 ≤ s.t * (s2.dp_dt / s.d) ^ 2 / s2.dp_dd := by positivity
      linarith
    · have : s'.cp = s'.cv + 8.31451 := by
        rw [e, propertiesP_eq, propsFinish_cp, propsMid_d, if_neg (by rw [lt_eps]; exact h15), R_real]
      rw [this]; norm_num
  have hpos : 0 < 1000 * (s'.cp / s'.cv) * s'.dp_dd / s'.mm := by
    rw [hmm]
    have : 0 < s'.cp := lt_of_lt_of_le hcv hcp
    positivity
  have hw2 : s'.w ^ 2 = 1000 * (s'.cp / s'.cv) * s'.dp_dd / s'.mm := by
    rw [hmm] at hpos ⊢
    rw [e, propertiesP_eq] at hpos ⊢
    rw [propsFinish_w]
    have e : (1000 : ℝ) * ((propsFinish (propsMid s) s.molar_mass.2).cp
        / (propsFinish (propsMid s) s.molar_mass.2).cv)
        * (propsFinish (propsMid s) s.molar_mass.2).dp_dd / s.molar_mass.2
        = f% 1000.0 * (propsFinish (propsMid s) s.molar_mass.2).cp
        / (propsFinish (propsMid s) s.molar_mass.2).cv
        * (propsFinish (propsMid s) s.molar_mass.2).dp_dd / s.molar_mass.2 := by
      rw [l1000]; ring
    rw [e] at hpos ⊢
    rw [if_neg (by rw [r_lt, l0]; exact not_lt.2 hpos.le), r_sqrt, Real.sq_sqrt hpos.le]
  refine ⟨hmm ▸ hm, hcp, ?_, hw2, ?_⟩
  · obtain ⟨s2, g1, g2, -⟩ := C36_detail_speed_of_sound s
    have : s2 = s' := by have := g1.symm.trans h; injection this
    subst this
    refine lt_of_le_of_ne g2 fun h0 => ?_
    rw [← hw2, ← h0] at hpos
    norm_num at hpos
  · rw [hmm, e, propertiesP_eq, propsFinish_kappa, propsMid_t, R_real, l1000]
    ring

theorem propertiesP_z_real (s : Detail ℝ) (ht : s.t ≠ 0) : (propertiesP s).z = 1 + A1 (view s) s.d := by
  rw [propertiesP_z, (ar_row0 s 0).2.1, l1]
  have := R_pos.ne'
  field_simp

theorem max_sum {x : Vector ℝ 21} (h0 : ∀ i, 0 ≤ aget x i) : ∑ i, max (aget x i) 0 = ∑ i, aget x i :=
  Finset.sum_congr rfl fun i _ => max_eq_left (h0 i)

end Detail

/-- C51: the ideal-gas heat capacity. For every composition with non-negative fractions that add up to one and at every
temperature above 1e-7 K, `properties` at zero density reports a `cv` of at least 1.47 R, a `cp` larger by R, a heat
capacity ratio between 1 and 1.681, the speed of sound of the ideal gas, which is positive, and the heat capacity ratio
as `kappa`. -/
theorem C51_detail_ideal_heat_capacity (new0 : Detail ℝ) (hnew : Detail.new = .ok new0) (q : Detail.Pub ℝ)
    (h0 : ∀ i : Fin 21, 0 ≤ aget q.x i) (h1 : ∑ i : Fin 21, aget q.x i = 1) (hT : 1e-7 < q.t) (hd : q.d = 0) :
    ∃ s', (Detail.setPub new0 q).properties = .ok s' ∧ 1.47 * 8.31451 ≤ s'.cv ∧ s'.cp = s'.cv + 8.31451 ∧
      1 < s'.cp / s'.cv ∧ s'.cp / s'.cv < 1.681 ∧ 0 < s'.mm ∧ 0 < s'.w ∧
      s'.w ^ 2 = 1000 * (s'.cp / s'.cv) * 8.31451 * q.t / s'.mm ∧ s'.kappa = s'.cp / s'.cv := by
  have e := Detail.new_eq hnew
  subst e
  have hx := Detail.XFar_of_sum h0 h1
  have hT0 : 0 < q.t := lt_trans (by norm_num) hT
  obtain ⟨s', g1, g2, -, g3, -, -, g4, -⟩ := C33_detail_zero_density (Detail.freshOf q) hd
  have es : s' = Detail.propertiesP (Detail.freshOf q) := by
    have := g1.symm.trans (Detail.properties_ok _); injection this
  have hcv : 1.47 * 8.31451 ≤ s'.cv := by
    rw [es, Detail.cv_fresh hx hT, hd, Detail.R_real]
    simp only [Detail.f0_zero, mul_zero, add_zero, Finset.sum_const_zero, sub_zero]
    have := Detail.heat_ge q.x hT0
    rw [Detail.max_sum h0, h1] at this
    linarith
  have hcv0 : 0 < s'.cv := lt_of_lt_of_le (by norm_num) hcv
  have g3' : s'.dp_dd = 8.31451 * q.t := g3
  obtain ⟨a1, a2, a3, a4, a5⟩ := Detail.stable g1 (Detail.mm_pos (s := Detail.freshOf q) h0 h1) hT0
    hcv0 (by rw [g3']; positivity)
  have hcp : s'.cp = s'.cv + 8.31451 := by linarith
  refine ⟨s', g1, hcv, hcp, ?_, ?_, a1, a3, ?_, ?_⟩
  · rw [one_lt_div hcv0, hcp]; linarith
  · rw [div_lt_iff₀ hcv0, hcp]; linarith
  · rw [a4, g3']; ring
  · rw [a5, a4, g3', g2]
    show _ / (1000 * 8.31451 * q.t * 1) = _
    field_simp

/-- Stability of a new object whose residual terms are small. -/
theorem Detail.low_stable {q : Detail.Pub ℝ} (h0 : ∀ i : Fin 21, 0 ≤ aget q.x i) (h1 : ∑ i : Fin 21, aget q.x i = 1)
    (hT : 1e-7 < q.t) (c1 : |(Detail.view (Detail.freshOf q)).k3 * q.d| ≤ 1)
    (c2 : Detail.size (Detail.view (Detail.freshOf q)) * |q.d| ≤ 1 / 10000) :
    ∃ s', (Detail.freshOf q).properties = .ok s' ∧
      1.4 * 8.31451 ≤ s'.cv ∧ s'.cv ≤ s'.cp ∧ 0 < s'.dp_dd ∧ 0 < s'.z ∧ 0 < s'.mm ∧ 0 < s'.w := by
  have hx := Detail.XFar_of_sum h0 h1
  have hT0 : 0 < q.t := lt_trans (by norm_num) hT
  have A1 := (Detail.A1_bound _ c1).trans c2
  have A2 := (Detail.A2_bound _ c1).trans c2
  have A3 := Detail.cvR_bound _ c1
  have A1' := abs_le.1 A1
  have A2' := abs_le.1 A2
  have g1 := Detail.properties_ok (Detail.freshOf q)
  have hcv : 1.4 * 8.31451 ≤ (Detail.propertiesP (Detail.freshOf q)).cv := by
    rw [Detail.cv_fresh hx hT, Detail.R_real]
    have := Detail.heat_ge q.x hT0
    rw [Detail.max_sum h0, h1] at this
    have k' := le_of_abs_le A3
    linarith
  have hpd : 0 < (Detail.propertiesP (Detail.freshOf q)).dp_dd := by
    rw [Detail.dp_dd_real, Detail.R_real]
    show 0 < 8.31451 * q.t * (1 + 2 * Detail.A1 _ q.d + Detail.A2 _ q.d)
    have : 0 < 1 + 2 * Detail.A1 (Detail.view (Detail.freshOf q)) q.d + Detail.A2 (Detail.view (Detail.freshOf q)) q.d :=
      by linarith
    positivity
  obtain ⟨a1, a2, a3, -⟩ := Detail.stable g1 (Detail.mm_pos (s := Detail.freshOf q) h0 h1) hT0
    (lt_of_lt_of_le (by norm_num) hcv) hpd
  refine ⟨_, g1, hcv, a2, hpd, ?_, a1, a3⟩
  have hz := Detail.propertiesP_z_real (Detail.freshOf q) hT0.ne'
  rw [hz]
  show 0 < 1 + Detail.A1 _ q.d
  linarith

/-- C51: every gas is stable at low density. For every such composition and temperature there is a density below which
`properties` reports a heat capacity of at least 1.4 R, `cp ≥ cv`, a positive slope of the pressure, a positive
compressibility factor and a positive speed of sound. -/
theorem C51_detail_low_density_stable (new0 : Detail ℝ) (hnew : Detail.new = .ok new0) (q : Detail.Pub ℝ)
    (h0 : ∀ i : Fin 21, 0 ≤ aget q.x i) (h1 : ∑ i : Fin 21, aget q.x i = 1) (hT : 1e-7 < q.t) :
    ∃ d1 > 0, ∀ D, 0 ≤ D → D < d1 → ∃ s', (Detail.setPub new0 { q with d := D }).properties = .ok s' ∧
      1.4 * 8.31451 ≤ s'.cv ∧ s'.cv ≤ s'.cp ∧ 0 < s'.dp_dd ∧ 0 < s'.z ∧ 0 < s'.mm ∧ 0 < s'.w := by
  have e := Detail.new_eq hnew
  subst e
  have hx := Detail.XFar_of_sum h0 h1
  have hv : ∀ D, Detail.view (Detail.freshOf { q with d := D }) = Detail.viewT q q.t := fun D => by
    rw [Detail.view_freshT (q := { q with d := D }) hx hT]
    exact Detail.viewT_atTD q q.t D q.t
  set v := Detail.viewT q q.t
  have hk : 0 ≤ |v.k3| := abs_nonneg _
  have hs := Detail.size_nonneg v
  refine ⟨min (1 / (1 + |v.k3|)) (1 / (10000 * (1 + Detail.size v))), by positivity, fun D hD hD1 => ?_⟩
  have b1 : D * (1 + |v.k3|) < 1 := by
    have := lt_of_lt_of_le hD1 (min_le_left _ _)
    rwa [lt_div_iff₀ (by positivity)] at this
  have b2 : D * (10000 * (1 + Detail.size v)) < 1 := by
    have := lt_of_lt_of_le hD1 (min_le_right _ _)
    rwa [lt_div_iff₀ (by positivity)] at this
  refine Detail.low_stable (q := { q with d := D }) h0 h1 hT ?_ ?_
  · rw [hv]
    show |v.k3 * D| ≤ 1
    rw [abs_mul, abs_of_nonneg hD]; nlinarith
  · rw [hv]
    show Detail.size v * |D| ≤ 1 / 10000
    rw [abs_of_nonneg hD]; nlinarith

/-! ## GERG-2008 -/

namespace Gerg

attribute [local irreducible] newP pressureP propertiesP

theorem XFar_of_sum {x : Vector ℝ 22} (h0 : ∀ i : Fin 22, 1 ≤ i.1 → 0 ≤ aget x i)
    (h1 : ∑ i : Fin 22 with 1 ≤ i.1, aget x i = 1) : XFar x (fill 22 (f% 0.0)) := by
  by_contra h
  have h2 : ∀ i : Fin 22, 1 ≤ i.1 → aget x i ≤ 1e-7 := by
    intro i hi
    by_contra hi'
    refine h ⟨i, hi, ?_⟩
    rw [r_lt, lem7, aget_fill, l0, r_abs, sub_zero, abs_of_nonneg (h0 i hi)]
    exact not_le.1 hi'
  have h3 : ∑ i : Fin 22 with 1 ≤ i.1, aget x i ≤ ∑ i : Fin 22 with 1 ≤ i.1, (1e-7 : ℝ) :=
    Finset.sum_le_sum fun i hi => h2 i (by simpa using hi)
  rw [h1, Finset.sum_const, show (Finset.univ.filter fun i : Fin 22 => 1 ≤ i.1).card = 21 by decide] at h3
  norm_num at h3

theorem mass_pos : ∀ i, 0 < Gerg.massQ i := by decide +kernel

theorem sum_succ (f : Fin 22 → ℝ) : ∑ i : Fin 22 with 1 ≤ i.1, f i = ∑ i : Fin 21, f i.succ := by
  rw [Finset.sum_filter, Fin.sum_univ_succ]
  simp

theorem mm_pos {s : Gerg ℝ} (h0 : ∀ i : Fin 22, 1 ≤ i.1 → 0 ≤ aget s.x i)
    (h1 : ∑ i : Fin 22 with 1 ≤ i.1, aget s.x i = 1) : 0 < s.molar_mass.mm := by
  rw [molar_mass_sum]
  dsimp only
  rw [sum_succ] at h1
  have h0' : ∀ i : Fin 21, 0 ≤ aget s.x i.succ := fun i => h0 i.succ (by simp)
  have hp : ∀ i, (0 : ℝ) < (massQ i : ℝ) := fun i => by exact_mod_cast mass_pos i
  have hn : ∀ i ∈ Finset.univ, 0 ≤ aget s.x i.succ * (massQ i : ℝ) := fun i _ => mul_nonneg (h0' i) (hp i).le
  refine lt_of_le_of_ne (Finset.sum_nonneg hn) fun h => ?_
  have h2 := (Finset.sum_eq_zero_iff_of_nonneg hn).1 h.symm
  have h3 : ∑ i : Fin 21, aget s.x i.succ = 0 := Finset.sum_eq_zero fun i hi => by
    rcases mul_eq_zero.1 (h2 i hi) with h | h
    · exact h
    · exact absurd h (hp i).ne'
  rw [h1] at h3
  norm_num at h3

/-- What follows from a positive heat capacity and a positive slope. -/
theorem stable {s s' : Gerg ℝ} {p : ℝ} (hs : Reachable s) (h : s.properties = .ok (s', p)) (hm : 0 < s.molar_mass.mm)
    (hT : 0 < s.t) (hcv : 0 < s'.cv) (hpd : 0 < s'.dp_dd) : 0 < s'.mm ∧ s'.cv ≤ s'.cp ∧ 0 < s'.w ∧
      s'.w ^ 2 = 1000 * (s'.cp / s'.cv) * s'.dp_dd / s'.mm ∧
      s'.kappa = s'.w ^ 2 * s'.mm / (1000 * 8.314472 * s.t * s'.z) := by
  have e : s' = (propertiesP s).1 := by
    have := h.symm.trans (properties_ok hs.idx); injection this with this; rw [← this]
  have h1 : ∀ r : Gerg ℝ, (propsFinish r).1.mm = r.mm := by
    intro r
    unfold propsFinish
    dsimp only
    split <;> dsimp only <;> split <;> rfl
  have hmm : s'.mm = s.molar_mass.mm := by rw [e, propertiesP_eq, h1, propsMid_mm]
  have hcp : s'.cv ≤ s'.cp := by
    by_cases h15 : 1e-15 < s.d
    · obtain ⟨s2, p2, g1, -, g4, -⟩ := C32_gerg_derived_properties s hs h15
      have : s2 = s' := by have := g1.symm.trans h; injection this with this; injection this
      subst this
      have : 0 ≤ s.t * (s2.dp_dt / s.d) ^ 2 / s2.dp_dd := by positivity
      linarith
    · have : s'.cp = s'.cv + 8.314472 := by
        rw [e, propertiesP_eq, propsFinish_cp, propsMid_d, if_neg (by rw [lt_eps]; exact h15), R_real]
      rw [this]; norm_num
  have hpos : 0 < 1000 * (s'.cp / s'.cv) * s'.dp_dd / s'.mm := by
    rw [hmm]
    have : 0 < s'.cp := lt_of_lt_of_le hcv hcp
    positivity
  have hw2 : s'.w ^ 2 = 1000 * (s'.cp / s'.cv) * s'.dp_dd / s'.mm := by
    rw [hmm] at hpos ⊢
    rw [e, propertiesP_eq] at hpos ⊢
    rw [propsFinish_w, propsMid_mm]
    have e : (1000 : ℝ) * ((propsFinish (propsMid s)).1.cp / (propsFinish (propsMid s)).1.cv)
        * (propsFinish (propsMid s)).1.dp_dd / s.molar_mass.mm
        = f% 1000.0 * (propsFinish (propsMid s)).1.cp / (propsFinish (propsMid s)).1.cv
        * (propsFinish (propsMid s)).1.dp_dd / s.molar_mass.mm := by
      rw [l1000]; ring
    rw [e] at hpos ⊢
    rw [if_neg (by rw [r_lt, l0]; exact not_lt.2 hpos.le), r_sqrt, Real.sq_sqrt hpos.le]
  refine ⟨hmm ▸ hm, hcp, ?_, hw2, ?_⟩
  · have g2 : 0 ≤ s'.w := by
      rw [e, propertiesP_eq, propsFinish_w]
      exact Real.sqrt_nonneg _
    refine lt_of_le_of_ne g2 fun h0 => ?_
    rw [← hw2, ← h0] at hpos
    norm_num at hpos
  · rw [hmm, e, propertiesP_eq, propsFinish_kappa, propsMid_t, propsMid_mm, R_real, l1000, r_powi]
    congr 1
    ring

theorem present_sum {x : Vector ℝ 22} (h1 : ∑ i : Fin 22 with 1 ≤ i.1, aget x i = 1) :
    1 - 1e-13 ≤ ∑ i : Fin 22 with 1 ≤ i.1, (if 1e-15 < aget x i then aget x i else 0) := by
  have : ∑ i : Fin 22 with 1 ≤ i.1, aget x i ≤
      ∑ i : Fin 22 with 1 ≤ i.1, ((if 1e-15 < aget x i then aget x i else 0) + 1e-15) := by
    refine Finset.sum_le_sum fun i _ => ?_
    split
    · norm_num
    · rename_i h; linarith [not_lt.1 h]
  rw [h1, Finset.sum_add_distrib, Finset.sum_const,
    show (Finset.univ.filter fun i : Fin 22 => 1 ≤ i.1).card = 21 by decide] at this
  have e : (21 : ℕ) • (1e-15 : ℝ) ≤ 1e-13 := by norm_num
  linarith

theorem continuous_RT (x : Vector ℝ 22) {fac : Fac} (hf : ∀ σ : Shape, Continuous (fac σ)) (T : ℝ) :
    Continuous fun D => RT x fac D T := by
  unfold RT
  refine continuous_finsetSum _ fun ι _ => continuous_const.mul ?_
  exact ((shape m0 ι).continuous_phi.mul (hf _)).comp (continuous_id.div_const _)

theorem RT_zero {q : Pub ℝ} (hx : XFar q.x (fill 22 (f% 0.0))) {T : ℝ} (hT : 1e-7 < T) (fac : Fac) :
    RT q.x fac 0 T = 0 := by
  rw [← AR_fresh hx hT, AR_zero (posE_reachable (reachable_fresh _))]

end Gerg

attribute [local irreducible] Gerg.newP Gerg.pressureP Gerg.propertiesP

/-- C51: the ideal-gas heat capacity. For every composition with non-negative fractions that add up to one and at every
temperature above 1e-7 K, `properties` at zero density reports a `cv` of at least 1.47 R, a `cp` larger by R, a heat
capacity ratio between 1 and 1.681, the speed of sound of the ideal gas, which is positive, and the heat capacity ratio
as `kappa`. -/
theorem C51_gerg_ideal_heat_capacity (new0 : Gerg ℝ) (hnew : Gerg.new = .ok new0) (q : Gerg.Pub ℝ)
    (h0 : ∀ i : Fin 22, 1 ≤ i.1 → 0 ≤ aget q.x i) (h1 : ∑ i : Fin 22 with 1 ≤ i.1, aget q.x i = 1) (hT : 1e-7 < q.t)
    (hd : q.d = 0) :
    ∃ s' p, (Gerg.setPub new0 q).properties = .ok (s', p) ∧ 1.47 * 8.314472 ≤ s'.cv ∧ s'.cp = s'.cv + 8.314472 ∧
      1 < s'.cp / s'.cv ∧ s'.cp / s'.cv < 1.681 ∧ 0 < s'.mm ∧ 0 < s'.w ∧
      s'.w ^ 2 = 1000 * (s'.cp / s'.cv) * 8.314472 * q.t / s'.mm ∧ s'.kappa = s'.cp / s'.cv := by
  have e := Gerg.new_eq hnew
  subst e
  have hx := Gerg.XFar_of_sum h0 h1
  have hT0 : 0 < q.t := lt_trans (by norm_num) hT
  have hr := Gerg.reachable_fresh q
  obtain ⟨s', p, g1, g2, -, g3, -, -, g4, -⟩ := C33_gerg_zero_density (Gerg.freshOf q) hr hd
  have es : s' = (Gerg.propertiesP (Gerg.freshOf q)).1 := by
    have := Except.ok.inj (g1.symm.trans (Gerg.props_fresh q)); rw [← this]
  have hcv : 1.47 * 8.314472 ≤ s'.cv := by
    have h := Gerg.cv_RT (q := q) hx hT
    rw [hd, Gerg.RT_zero hx hT, Gerg.R_real] at h
    have e2 : (Gerg.propertiesP (Gerg.freshOf (Gerg.atT q q.t))).1.cv = s'.cv := by rw [es]; rfl
    rw [e2] at h
    rw [h]
    have := Gerg.heat_ge q.x hT0
    have := Gerg.present_sum h1
    linarith
  have hcv0 : 0 < s'.cv := lt_of_lt_of_le (by norm_num) hcv
  have g3' : s'.dp_dd = 8.314472 * q.t := g3
  obtain ⟨a1, a2, a3, a4, a5⟩ := Gerg.stable hr g1 (Gerg.mm_pos (s := Gerg.freshOf q) h0 h1) hT0
    hcv0 (by rw [g3']; positivity)
  have hcp : s'.cp = s'.cv + 8.314472 := by linarith
  refine ⟨s', p, g1, hcv, hcp, ?_, ?_, a1, a3, ?_, ?_⟩
  · rw [one_lt_div hcv0, hcp]; linarith
  · rw [div_lt_iff₀ hcv0, hcp]; linarith
  · rw [a4, g3']; ring
  · rw [a5, a4, g3', g2]
    show _ / (1000 * 8.314472 * q.t * 1) = _
    field_simp

/-- Stability of a new object whose residual terms are small. -/
theorem Gerg.low_stable {q : Gerg.Pub ℝ} (h0 : ∀ i : Fin 22, 1 ≤ i.1 → 0 ≤ aget q.x i)
    (h1 : ∑ i : Fin 22 with 1 ≤ i.1, aget q.x i = 1) (hT : 1e-7 < q.t) (fa : |Gerg.RT q.x Gerg.Shape.f1 q.d q.t| ≤ 0.01)
    (fb : |Gerg.RT q.x Gerg.Shape.f2 q.d q.t| ≤ 0.01)
    (fc : |Gerg.RT q.x (fun σ _ => σ.t * (σ.t - 1)) q.d q.t| ≤ 0.01) :
    ∃ s' p, (Gerg.freshOf q).properties = .ok (s', p) ∧
      1.4 * 8.314472 ≤ s'.cv ∧ s'.cv ≤ s'.cp ∧ 0 < s'.dp_dd ∧ 0 < s'.z ∧ 0 < s'.mm ∧ 0 < s'.w := by
  have hx := Gerg.XFar_of_sum h0 h1
  have hT0 : 0 < q.t := lt_trans (by norm_num) hT
  have fa' := abs_le.1 fa
  have fb' := abs_le.1 fb
  have fc' := abs_le.1 fc
  have hr := Gerg.reachable_fresh q
  have hp := Gerg.posE_reachable hr
  have g1 := Gerg.props_fresh q
  have hAR : ∀ fac, Gerg.AR (Gerg.freshOf q) fac q.d = Gerg.RT q.x fac q.d q.t := fun fac =>
    Gerg.AR_fresh (q := q) hx hT fac q.d
  have hcv : 1.4 * 8.314472 ≤ (Gerg.propertiesP (Gerg.freshOf q)).1.cv := by
    have h' : (Gerg.propertiesP (Gerg.freshOf q)).1.cv = _ := Gerg.cv_RT (q := q) hx hT
    rw [h', Gerg.R_real]
    have := Gerg.heat_ge q.x hT0
    have := Gerg.present_sum h1
    linarith
  have hpd : 0 < (Gerg.propertiesP (Gerg.freshOf q)).1.dp_dd := by
    rw [Gerg.dp_dd_real hp, Gerg.R_real]
    show 0 < 8.314472 * q.t * (1 + 2 * Gerg.AR (Gerg.freshOf q) Gerg.Shape.f1 q.d +
      Gerg.AR (Gerg.freshOf q) Gerg.Shape.f2 q.d)
    rw [hAR, hAR]
    have : 0 < 1 + 2 * Gerg.RT q.x Gerg.Shape.f1 q.d q.t + Gerg.RT q.x Gerg.Shape.f2 q.d q.t := by linarith
    positivity
  obtain ⟨a1, a2, a3, -⟩ := Gerg.stable hr g1 (Gerg.mm_pos (s := Gerg.freshOf q) h0 h1) hT0
    (lt_of_lt_of_le (by norm_num) hcv) hpd
  refine ⟨_, _, g1, hcv, a2, hpd, ?_, a1, a3⟩
  rw [Gerg.propertiesP_z, Gerg.pressureP_z_real hp]
  show 0 < 1 + Gerg.AR (Gerg.freshOf q) Gerg.Shape.f1 q.d
  rw [hAR]
  linarith

/-- C51: every gas is stable at low density. For every such composition and temperature there is a density below which
`properties` reports a heat capacity of at least 1.4 R, `cp ≥ cv`, a positive slope of the pressure, a positive
compressibility factor and a positive speed of sound. -/
theorem C51_gerg_low_density_stable (new0 : Gerg ℝ) (hnew : Gerg.new = .ok new0) (q : Gerg.Pub ℝ)
    (h0 : ∀ i : Fin 22, 1 ≤ i.1 → 0 ≤ aget q.x i) (h1 : ∑ i : Fin 22 with 1 ≤ i.1, aget q.x i = 1) (hT : 1e-7 < q.t) :
    ∃ d1 > 0, ∀ D, 0 ≤ D → D < d1 → ∃ s' p, (Gerg.setPub new0 { q with d := D }).properties = .ok (s', p) ∧
      1.4 * 8.314472 ≤ s'.cv ∧ s'.cv ≤ s'.cp ∧ 0 < s'.dp_dd ∧ 0 < s'.z ∧ 0 < s'.mm ∧ 0 < s'.w := by
  have e := Gerg.new_eq hnew
  subst e
  have hx := Gerg.XFar_of_sum h0 h1
  have near : ∀ fac : Gerg.Fac, (∀ σ : Gerg.Shape, Continuous (fac σ)) → ∃ d > 0, ∀ D, 0 ≤ D → D < d →
      |Gerg.RT q.x fac D q.t| ≤ 0.01 := by
    intro fac hf
    have hc := (Gerg.continuous_RT q.x hf q.t).tendsto 0
    rw [Gerg.RT_zero hx hT] at hc
    obtain ⟨d, hd, h⟩ := Metric.tendsto_nhds_nhds.1 hc 0.01 (by norm_num)
    refine ⟨d, hd, fun D h1 h2 => ?_⟩
    have := h (x := D) (by rw [Real.dist_eq, sub_zero, abs_of_nonneg h1]; exact h2)
    rw [Real.dist_eq, sub_zero] at this
    exact this.le
  obtain ⟨da, ha, fa⟩ := near Gerg.Shape.f1 (fun σ => σ.continuous_f1)
  obtain ⟨db, hb, fb⟩ := near Gerg.Shape.f2 (fun σ => σ.continuous_f2)
  obtain ⟨dc, hc, fc⟩ := near (fun σ _ => σ.t * (σ.t - 1)) (fun σ => continuous_const)
  refine ⟨min da (min db dc), lt_min ha (lt_min hb hc), fun D hD hD1 => ?_⟩
  exact Gerg.low_stable (q := { q with d := D }) h0 h1 hT
    (fa D hD (lt_of_lt_of_le hD1 (min_le_left _ _)))
    (fb D hD (lt_of_lt_of_le hD1 ((min_le_right _ _).trans (min_le_left _ _))))
    (fc D hD (lt_of_lt_of_le hD1 ((min_le_right _ _).trans (min_le_right _ _))))

/-! ## Worked cases -/

/-- Nine parts of methane and one part of ethane. -/
noncomputable def Detail.nineOne : Vector ℝ 21 := aset (aset (fill 21 0) 0 0.9) 3 0.1
noncomputable def Gerg.nineOne : Vector ℝ 22 := aset (aset (fill 22 0) 1 0.9) 4 0.1

theorem Detail.nineOne_ok : (∀ i, 0 ≤ aget Detail.nineOne i) ∧ ∑ i, aget Detail.nineOne i = 1 := by
  have h : ∀ i : Fin 21, aget Detail.nineOne i = if 3 = i then 0.1 else if 0 = i then 0.9 else 0 := by
    intro i
    unfold Detail.nineOne
    simp only [aget_aset, aget_fill]
  simp only [h]
  refine ⟨fun i => by split <;> [norm_num; (split <;> norm_num)], ?_⟩
  rw [Finset.sum_ite]
  have e1 : (Finset.univ.filter fun i : Fin 21 => 3 = i) = {3} := by decide
  rw [e1, Finset.sum_singleton, Finset.sum_ite_eq, if_pos (by decide)]
  norm_num

theorem Gerg.nineOne_ok : (∀ i : Fin 22, 1 ≤ i.1 → 0 ≤ aget Gerg.nineOne i) ∧
    ∑ i : Fin 22 with 1 ≤ i.1, aget Gerg.nineOne i = 1 := by
  have h : ∀ i : Fin 22, aget Gerg.nineOne i = if 4 = i then 0.1 else if 1 = i then 0.9 else 0 := by
    intro i
    unfold Gerg.nineOne
    simp only [aget_aset, aget_fill]
  simp only [h]
  refine ⟨fun i _ => by split <;> [norm_num; (split <;> norm_num)], ?_⟩
  rw [Finset.sum_ite]
  have e1 : ((Finset.univ.filter fun i : Fin 22 => 1 ≤ i.1).filter fun i => 4 = i) = {4} := by decide
  rw [e1, Finset.sum_singleton, Finset.sum_ite_eq, if_pos (by decide)]
  norm_num

/-- The hypotheses are met by a mixture at 300 K. -/
example (q : Detail.Pub ℝ) : ∃ (new0 : Detail ℝ) (q : Detail.Pub ℝ), Detail.new = .ok new0 ∧
    (∀ i : Fin 21, 0 ≤ aget q.x i) ∧ ∑ i : Fin 21, aget q.x i = 1 ∧ q.t = 300 ∧ q.d = 0 :=
  ⟨Detail.newP, { q with x := Detail.nineOne, t := 300, d := 0 }, Detail.new_ok, Detail.nineOne_ok.1,
    Detail.nineOne_ok.2, rfl, rfl⟩

example (q : Gerg.Pub ℝ) : ∃ (new0 : Gerg ℝ) (q : Gerg.Pub ℝ), Gerg.new = .ok new0 ∧
    (∀ i : Fin 22, 1 ≤ i.1 → 0 ≤ aget q.x i) ∧ ∑ i : Fin 22 with 1 ≤ i.1, aget q.x i = 1 ∧ q.t = 300 ∧ q.d = 0 :=
  ⟨Gerg.newP, { q with x := Gerg.nineOne, t := 300, d := 0 }, Gerg.new_ok, Gerg.nineOne_ok.1,
    Gerg.nineOne_ok.2, rfl, rfl⟩

end Aga8
