import Verif.Lemmas.Accuracy
import Verif.Props.Converge
import Verif.Props.DetailThermo
import Verif.Props.GergDensity

/-! # A density that was found is accurate (C54), exact arithmetic -/

namespace Aga8

attribute [local irreducible] Gerg.pressureP Gerg.propertiesP Gerg.newP Gerg.densityP Detail.densityP

/-- C54, DETAIL: let `density` succeed, and let the logarithmic slope `D / P * dP/dD` of the pressure stay between `m` and `M`
over the densities that differ from the returned one by at most 1e-7 (1 + M/m) (logarithmically). Then there is exactly one
density in that range with the requested pressure, and the returned one agrees with it to 1e-7 (M/m - 1). -/
theorem C54_detail_density_is_accurate (s s' : Detail ℝ) (ht : s.t ≠ 0) (hp : 0 < s.p) (h : s.density = .ok (s', .ok ()))
    (P Q : ℝ → ℝ) (hP : ∀ D, ∃ s1, Detail.pressure { s with d := D } = .ok (s1, P D))
    (hQ : ∀ D, ∃ s2, Detail.properties { s with d := D } = .ok s2 ∧ s2.dp_dd = Q D)
    (m M : ℝ) (hm : 0 < m) (hmM : m ≤ M)
    (hslope : ∀ D, 0 < D → |Real.log D - Real.log s'.d| ≤ 1e-7 * (1 + M / m) →
      0 < P D ∧ m ≤ D * Q D / P D ∧ D * Q D / P D ≤ M) :
    ∃ d, 0 < d ∧ P d = s.p ∧ |Real.log s'.d - Real.log d| ≤ 1e-7 * (M / m - 1) ∧
      ∀ d', 0 < d' → |Real.log d' - Real.log s'.d| ≤ 1e-7 * (1 + M / m) → P d' = s.p → d' = d := by
  obtain ⟨e, s1, p1, s2, he, -, a1, a2, a3, a4, a5, a6, -⟩ := C16_detail_density_success_real s s' h
  have e1 : P e = p1 := by
    obtain ⟨s1', h1⟩ := hP e
    have := Except.ok.inj (h1.symm.trans a1)
    exact congrArg Prod.snd this
  have e2 : Q e = s2.dp_dd := by
    obtain ⟨s2', h1, h2⟩ := hQ e
    rw [← h2, Except.ok.inj (h1.symm.trans a2)]
  rw [← e1] at a3 a5 a6
  rw [← e2] at a4 a5 a6
  exact Newton.density_accurate hp he hm hmM (Detail.curve_hasDeriv ht hP hQ)
    (lt_of_lt_of_le (by norm_num) a3) (lt_of_lt_of_le (by norm_num) a4) a5 a6 hslope

/-- C54, GERG-2008. -/
theorem C54_gerg_density_is_accurate (s s' : Gerg ℝ) (hs : Gerg.Reachable s) (iflag : Int) (hp : 0 < s.p)
    (h : s.density iflag = .ok (s', .ok ()))
    (P Q : ℝ → ℝ) (hP : ∀ D, ∃ s1, Gerg.pressure { s with d := D } = .ok (s1, P D))
    (hQ : ∀ D, ∃ s2 p2, Gerg.properties { s with d := D } = .ok (s2, p2) ∧ s2.dp_dd = Q D)
    (m M : ℝ) (hm : 0 < m) (hmM : m ≤ M)
    (hslope : ∀ D, 0 < D → |Real.log D - Real.log s'.d| ≤ 1e-7 * (1 + M / m) →
      0 < P D ∧ m ≤ D * Q D / P D ∧ D * Q D / P D ≤ M) :
    ∃ d, 0 < d ∧ P d = s.p ∧ |Real.log s'.d - Real.log d| ≤ 1e-7 * (M / m - 1) ∧
      ∀ d', 0 < d' → |Real.log d' - Real.log s'.d| ≤ 1e-7 * (1 + M / m) → P d' = s.p → d' = d := by
  obtain ⟨e, s1, p1, s2, p2, he, a1, a2, a3, a4, a5, a6, -⟩ := C17_gerg_density_success_real s s' hs iflag h
  have e1 : P e = p1 := by
    obtain ⟨s1', h1⟩ := hP e
    have := Except.ok.inj (h1.symm.trans a1)
    exact congrArg Prod.snd this
  have e2 : Q e = s2.dp_dd := by
    obtain ⟨s2', p2', h1, h2⟩ := hQ e
    have : s2' = s2 := congrArg Prod.fst (Except.ok.inj (h1.symm.trans a2))
    rw [← h2, this]
  rw [← e1] at a3 a5 a6
  rw [← e2] at a4 a5 a6
  exact Newton.density_accurate hp he hm hmM (Gerg.curve_hasDeriv hs hP hQ)
    (lt_of_lt_of_le (by norm_num) a3) (lt_of_lt_of_le (by norm_num) a4) a5 a6 hslope

/-- The mismatch between the stored density and the stored compression factor, which belongs to the density before. -/
theorem z_mismatch {p p1 e d z q c : ℝ} (hp1 : 0 < p1) (he : 0 < e) (hd : 0 < d) (hq : 0 < q) (hc : 0 < c)
    (hz : p1 = e * c * z) (h1 : |Real.log p1 - Real.log p| < 1e-7 * (e * q / p1))
    (h2 : Real.log d = Real.log e + (Real.log p - Real.log p1) * (p1 / (e * q))) :
    0 < z ∧ |Real.log (z * d * c) - Real.log p| ≤ 1e-7 * |e * q / p1 - 1| := by
  have hz0 : 0 < z := by
    rw [hz] at hp1
    exact (mul_pos_iff_of_pos_left (mul_pos he hc)).1 hp1
  refine ⟨hz0, ?_⟩
  have e1 : Real.log p1 = Real.log e + Real.log c + Real.log z := by
    rw [hz, Real.log_mul (mul_pos he hc).ne' hz0.ne', Real.log_mul he.ne' hc.ne']
  have e2 : Real.log (z * d * c) = Real.log z + Real.log d + Real.log c := by
    rw [Real.log_mul (mul_pos hz0 hd).ne' hc.ne', Real.log_mul hz0.ne' hd.ne']
  set S := e * q / p1 with hS
  have hS0 : 0 < S := by positivity
  have e3 : p1 / (e * q) = 1 / S := by rw [hS, one_div_div]
  have e4 : Real.log (z * d * c) - Real.log p = (Real.log p1 - Real.log p) * ((S - 1) / S) := by
    rw [e2, h2, e3, sub_div, div_self hS0.ne', one_div]
    linear_combination -e1
  rw [e4, abs_mul, abs_div, abs_of_pos hS0, mul_div_assoc', div_le_iff₀ hS0]
  calc |Real.log p1 - Real.log p| * |S - 1| ≤ 1e-7 * S * |S - 1| :=
        mul_le_mul_of_nonneg_right h1.le (abs_nonneg _)
    _ = 1e-7 * |S - 1| * S := by ring

/-- C54, DETAIL: after a successful `density` the stored `z` is positive and `z d R t` agrees with the requested pressure up to
1e-7 times the distance of the logarithmic slope from that of an ideal gas, taken at a density within 1e-7 of the stored
one. -/
theorem C54_detail_z_matches (s s' : Detail ℝ) (ht : 0 < s.t) (_hp : 0 < s.p) (h : s.density = .ok (s', .ok ())) :
    ∃ e s1 p1 s2, |Real.log s'.d - Real.log e| < 1e-7 ∧
      Detail.pressure { s with d := e } = .ok (s1, p1) ∧ Detail.properties { s with d := e } = .ok s2 ∧
      0 < s'.z ∧ |Real.log (s'.z * s'.d * (8.31451 * s.t)) - Real.log s.p| ≤ 1e-7 * |e * s2.dp_dd / p1 - 1| := by
  obtain ⟨e, s1, p1, s2, he, -, a1, a2, a3, a4, a5, a6, a7, a8, -, a9⟩ := C16_detail_density_success_real s s' h
  have hz : p1 = e * (8.31451 * s.t) * s1.z := by
    have h1 : Detail.pressureP (Detail.withD s e) = (s1, p1) :=
      Except.ok.inj ((Detail.pressure_ok (Detail.withD s e)).symm.trans a1)
    have h2 := Detail.pressureP_snd (Detail.withD s e)
    rw [h1] at h2
    have h3 : p1 = e * Detail.RDETAIL * s.t * s1.z := h2
    rw [h3, Detail.R_real]; ring
  obtain ⟨g1, g2⟩ := z_mismatch (lt_of_lt_of_le (by norm_num) a3) he a8 (lt_of_lt_of_le (by norm_num) a4)
    (by positivity : 0 < 8.31451 * s.t) hz a5 a6
  rw [← a9] at g1 g2
  exact ⟨e, s1, p1, s2, a7, a1, a2, g1, g2⟩

/-- C54, GERG-2008. -/
theorem C54_gerg_z_matches (s s' : Gerg ℝ) (hs : Gerg.Reachable s) (iflag : Int) (ht : 0 < s.t) (_hp : 0 < s.p)
    (h : s.density iflag = .ok (s', .ok ())) :
    ∃ e s1 p1 s2 p2, |Real.log s'.d - Real.log e| < 1e-7 ∧
      Gerg.pressure { s with d := e } = .ok (s1, p1) ∧ Gerg.properties { s with d := e } = .ok (s2, p2) ∧
      0 < s'.z ∧ |Real.log (s'.z * s'.d * (8.314472 * s.t)) - Real.log s.p| ≤ 1e-7 * |e * s2.dp_dd / p1 - 1| := by
  obtain ⟨e, s1, p1, s2, p2, he, a1, a2, a3, a4, a5, a6, a7, a8, a9⟩ := C17_gerg_density_success_real s s' hs iflag h
  have hz : p1 = e * (8.314472 * s.t) * s1.z := by
    have h1 : Gerg.pressureP (Gerg.withD s e) = (s1, p1) :=
      Except.ok.inj ((Gerg.pressure_ok (s := Gerg.withD s e) (hs.idx.congr rfl rfl rfl)).symm.trans a1)
    have h2 := Gerg.pressureP_snd (Gerg.withD s e)
    rw [h1] at h2
    have h3 : p1 = e * Gerg.RGERG * s.t * s1.z := h2
    rw [h3, Gerg.R_real]; ring
  obtain ⟨g1, g2⟩ := z_mismatch (lt_of_lt_of_le (by norm_num) a3) he a8 (lt_of_lt_of_le (by norm_num) a4)
    (by positivity : 0 < 8.314472 * s.t) hz a5 a6
  rw [← a9] at g1 g2
  exact ⟨e, s1, p1, s2, p2, a7, a1, a2, g1, g2⟩

/-! ## Worked cases -/

/-- Methane at 605 K and 1 kPa: the density returned is within 4e-8 of the one density nearby with that pressure. -/
theorem methane_density_accurate : ∃ s' d s1, (Detail.freshOf (Detail.methane 1 1 0)).density = .ok (s', .ok ()) ∧
    Detail.pressure { Detail.freshOf (Detail.methane 1 1 0) with d := d } = .ok (s1, 1) ∧
    |Real.log s'.d - Real.log d| ≤ 4.1e-8 := by
  obtain ⟨s', d, s1, g1, g2, g3, g4, g5⟩ := methane_low_pressure
  set s := Detail.freshOf (Detail.methane 1 1 0) with hs
  have hT : 0 < s.t := lt_trans (by norm_num) (Detail.methane_t 1 1 0)
  set c := 8.31451 * s.t with hcdef
  have hc : 0 < c := by positivity
  have eP : ∀ D, (Detail.pressureP (Detail.withD s D)).2 = c * (D * (1 + Detail.A1 (Detail.view s) D)) := fun D => by
    rw [Detail.pressureP_real (Detail.withD s D) hT.ne', Detail.view_withD, Detail.R_real]; rfl
  have eQ : ∀ D, (Detail.propertiesP (Detail.withD s D)).dp_dd
      = c * (1 + 2 * Detail.A1 (Detail.view s) D + Detail.A2 (Detail.view s) D) := fun D => by
    rw [Detail.dp_dd_real (Detail.withD s D), Detail.view_withD, Detail.R_real]; rfl
  obtain ⟨d', h1, h2, h3, -⟩ := C54_detail_density_is_accurate s s' hT.ne' (by show (0:ℝ) < 1; norm_num) g1
    (fun D => (Detail.pressureP (Detail.withD s D)).2) (fun D => (Detail.propertiesP (Detail.withD s D)).dp_dd)
    (fun D => ⟨_, Detail.pressure_ok (Detail.withD s D)⟩)
    (fun D => ⟨_, Detail.properties_ok (Detail.withD s D), rfl⟩) 0.84 (1.4 * 0.84) (by norm_num) (by norm_num)
    (by
      intro D hD hw
      have hq : 1 / (8.31451 * (4 ^ 1 * Detail.mE)) ≤ 0.0002 := by unfold Detail.mE; norm_num
      have hq0 : 0 < 1 / (8.31451 * (4 ^ 1 * Detail.mE)) := by unfold Detail.mE; norm_num
      have hD4 : D ≤ 0.0006 := by
        have hl : Real.log D ≤ Real.log (1 / (8.31451 * (4 ^ 1 * Detail.mE))) + 1 := by
          rw [abs_le] at g4 g5 hw
          have := hw.2
          norm_num at this
          linarith [g4.2, g5.2]
        have := Real.exp_le_exp.2 hl
        rw [Real.exp_add, Real.exp_log hD, Real.exp_log hq0] at this
        have he : Real.exp 1 < 3 := by linarith [Real.exp_one_lt_d9]
        nlinarith [Real.exp_pos 1]
      obtain ⟨k1, k2⟩ := methane_small hD hD4
      simp only [eP, eQ]
      refine ⟨?_, Newton.slope_of_small hc hD k1 k2⟩
      have : 0 < 1 + Detail.A1 (Detail.view s) D := by linarith [(abs_le.1 k1).1]
      positivity)
  refine ⟨s', d', (Detail.pressureP (Detail.withD s d')).1, g1, ?_, h3.trans (by norm_num)⟩
  refine (Detail.pressure_ok (Detail.withD s d')).trans ?_
  exact congrArg Except.ok (Prod.ext rfl h2)

/-- GERG-2008: methane at a temperature where it is close to the ideal gas. -/
theorem gerg_methane_density_accurate : ∃ T, 1 ≤ T ∧ ∃ s' d s1,
    (Gerg.freshOf (Gerg.pureAt 1 T 0 (8.314472 * T))).density 0 = .ok (s', .ok ()) ∧
    Gerg.pressure { Gerg.freshOf (Gerg.pureAt 1 T 0 (8.314472 * T)) with d := d } = .ok (s1, 8.314472 * T) ∧
    |Real.log s'.d - Real.log d| ≤ 4.1e-8 := by
  obtain ⟨T, h1, hT⟩ := Gerg.methane_hot_range
  obtain ⟨s', d, s1, g1, g2, g3, g4, g5⟩ := gerg_methane_converges_at h1 hT
  refine ⟨T, h1, ?_⟩
  have hrs := Gerg.reachable_fresh (Gerg.pureAt 1 T 0 (8.314472 * T))
  set s := Gerg.freshOf (Gerg.pureAt 1 T 0 (8.314472 * T)) with hs
  have hT0 : 0 < T := by linarith
  have hpE := Gerg.posE_reachable hrs
  have hpE' : ∀ D, Gerg.PosE (Gerg.params (Gerg.withD s D)) := fun D => hpE
  have hi : ∀ D, Gerg.Idx (Gerg.withD s D) := fun D => hrs.idx.congr rfl rfl rfl
  set c := 8.314472 * T with hcdef
  have hc : 0 < c := by positivity
  have eP : ∀ D, (Gerg.pressureP (Gerg.withD s D)).2 = c * (D * (1 + Gerg.AR s Gerg.Shape.f1 D)) := fun D => by
    rw [Gerg.pressureP_real (hpE' D), Gerg.AR_withD, Gerg.R_real]; rfl
  have eQ : ∀ D, (Gerg.propertiesP (Gerg.withD s D)).1.dp_dd
      = c * (1 + 2 * Gerg.AR s Gerg.Shape.f1 D + Gerg.AR s Gerg.Shape.f2 D) := fun D => by
    rw [Gerg.dp_dd_real (hpE' D), Gerg.AR_withD, Gerg.AR_withD, Gerg.R_real]; rfl
  have hx : Gerg.XFar (Gerg.pureAt 1 T 0 (8.314472 * T)).x (fill 22 (f% 0.0)) := Gerg.XFar_px (by decide)
  have hv : ∀ fac D, Gerg.AR s fac D = Gerg.RT (Gerg.px 1) fac D T := fun fac D =>
    Gerg.AR_fresh (q := Gerg.pureAt 1 T 0 (8.314472 * T)) hx (lt_of_lt_of_le (by norm_num) h1) fac D
  obtain ⟨d', h1, h2, h3, -⟩ := C54_gerg_density_is_accurate s s' hrs 0 (by show 0 < 8.314472 * T; positivity) g1
    (fun D => (Gerg.pressureP (Gerg.withD s D)).2) (fun D => (Gerg.propertiesP (Gerg.withD s D)).1.dp_dd)
    (fun D => ⟨_, Gerg.pressure_ok (hi D)⟩)
    (fun D => ⟨_, _, Gerg.properties_ok (hi D), rfl⟩) 0.84 (1.4 * 0.84) (by norm_num) (by norm_num)
    (by
      intro D hD hw
      have hD4 : D ≤ Real.exp 1 := by
        have hl : Real.log D ≤ 1 := by
          rw [div_self hc.ne', Real.log_one] at g5
          rw [abs_le] at g4 g5 hw
          have := hw.2
          norm_num at this
          linarith [g4.2, g5.2]
        have := Real.exp_le_exp.2 hl
        rwa [Real.exp_log hD] at this
      obtain ⟨k1, k2⟩ := hT D ⟨hD.le, by linarith [Real.exp_one_lt_d9]⟩
      rw [← hv] at k1 k2
      simp only [eP, eQ]
      refine ⟨?_, Newton.slope_of_small hc hD k1 k2⟩
      have : 0 < 1 + Gerg.AR s Gerg.Shape.f1 D := by linarith [(abs_le.1 k1).1]
      positivity)
  refine ⟨s', d', (Gerg.pressureP (Gerg.withD s d')).1, g1, ?_, h3.trans (by norm_num)⟩
  refine (Gerg.pressure_ok (hi d')).trans ?_
  exact congrArg Except.ok (Prod.ext rfl h2)

end Aga8
