import Verif.Lemmas.DetailNewton
import Verif.Lemmas.DetailLow
import Verif.Props.DetailReal
import Verif.Lemmas.GergNewton
import Verif.Lemmas.GergLow

/-! # Convergence of the density searches in exact arithmetic (C49) -/

namespace Aga8

open Newton

attribute [local irreducible] Gerg.pressureP Gerg.propertiesP Gerg.newP

/-- The pressure curve of an object and its slope, as `pressure` and `properties` report them. -/
theorem Detail.curve_hasDeriv {s : Detail ℝ} (ht : s.t ≠ 0) {P Q : ℝ → ℝ}
    (hP : ∀ D, ∃ s1, Detail.pressure { s with d := D } = .ok (s1, P D))
    (hQ : ∀ D, ∃ s2, Detail.properties { s with d := D } = .ok s2 ∧ s2.dp_dd = Q D) (D : ℝ) :
    HasDerivAt P (Q D) D := by
  obtain ⟨s', h1, h2⟩ := C25_detail_dp_dd (Detail.withD s D) ht P hP
  obtain ⟨s2, h3, h4⟩ := hQ D
  have : s' = s2 := by
    have := h1.symm.trans h3; injection this
  rw [← h4, ← this]
  exact h2

/-- C49 for DETAIL: when the logarithmic slope `D / P * dP/dD` of the pressure varies by at most 40 per cent over the
densities within a factor e of the start of the search, and the pressure there is within that slope times 0.4 of the
requested one (logarithmically), `density` succeeds. The density found agrees to 5.6e-8 with the one density in that
range at which the equation of state has the requested pressure. -/
theorem C49_detail_density_converges (s : Detail ℝ) (ht : 0 < s.t) (P Q : ℝ → ℝ)
    (hP : ∀ D, ∃ s1, Detail.pressure { s with d := D } = .ok (s1, P D))
    (hQ : ∀ D, ∃ s2, Detail.properties { s with d := D } = .ok s2 ∧ s2.dp_dd = Q D)
    (D0 : ℝ) (hstart : (s.d = -D0 ∧ 1e-15 ≤ D0) ∨ (-1e-15 < s.d ∧ D0 = s.p / (8.31451 * s.t)))
    (hr : Real.exp (-99) ≤ D0 ∧ D0 ≤ Real.exp 6) (hp : 1e-15 ≤ s.p) (m : ℝ) (hm : 0 < m)
    (hslope : ∀ D, D0 * Real.exp (-1) ≤ D → D ≤ D0 * Real.exp 1 →
      1e-15 ≤ P D ∧ 1e-15 ≤ Q D ∧ m ≤ D * Q D / P D ∧ D * Q D / P D ≤ 1.4 * m)
    (h0 : |Real.log (P D0) - Real.log s.p| ≤ 0.4 * m) :
    ∃ s' d, s.density = .ok (s', .ok ()) ∧ P d = s.p ∧ |Real.log s'.d - Real.log d| ≤ 5.6e-8 ∧ 0 < s'.d ∧
      D0 * Real.exp (-1) ≤ d ∧ d ≤ D0 * Real.exp 1 ∧
      ∀ d', D0 * Real.exp (-1) ≤ d' → d' ≤ D0 * Real.exp 1 → P d' = s.p → d' = d := by
  have hpos : 0 < D0 := lt_of_lt_of_le (Real.exp_pos _) hr.1
  have hp0 : 0 < s.p := lt_of_lt_of_le (by norm_num) hp
  have eP : ∀ D, Detail.pAt s D = P D := fun D => by
    obtain ⟨s1, h⟩ := hP D
    have : Detail.pressureP (Detail.withD s D) = (s1, P D) := by
      have := (Detail.pressure_ok (Detail.withD s D)).symm.trans h; injection this
    unfold Detail.pAt; rw [this]
  have eQ : ∀ D, Detail.dpAt s D = Q D := fun D => by
    obtain ⟨s2, h, h'⟩ := hQ D
    have : Detail.propertiesP (Detail.withD s D) = s2 := by
      have := (Detail.properties_ok (Detail.withD s D)).symm.trans h; injection this
    unfold Detail.dpAt; rw [← Detail.propertiesP_dp_dd, this, h']
  have hv : -6 ≤ -Real.log D0 ∧ -Real.log D0 ≤ 99 := by
    have a := Real.log_le_log (Real.exp_pos _) hr.1
    have b := Real.log_le_log hpos hr.2
    rw [Real.log_exp] at a b
    constructor <;> linarith
  have hc : Detail.Curve s P Q D0 := ⟨eP, eQ, fun D a b => ⟨(hslope D a b).1, (hslope D a b).2.1⟩, hv, hpos⟩
  have hT := tame_of_slope (P := P) (Q := Q) (p := s.p) hpos hm one_pos
    (fun D _ => Detail.curve_hasDeriv ht.ne' hP hQ D)
    (fun D a b => ⟨lt_of_lt_of_le (by norm_num) (hslope D a b).1, (hslope D a b).2.2⟩) (by rw [mul_one]; exact h0)
  obtain ⟨w, hw, hg⟩ := hT.root
  rw [mul_one] at hw
  have c0 : ¬ (FOps.lt (FOps.abs s.p) (Detail.EPSILON : ℝ) = true) := by
    rw [r_lt, r_abs, abs_of_pos hp0]; unfold Detail.EPSILON; rw [lem15]; linarith
  have cd : Detail.d0Of s = D0 := by
    unfold Detail.d0Of
    rcases hstart with ⟨hd, h1⟩ | ⟨hd, h1⟩
    · have : ¬ (FOps.lt (-(Detail.EPSILON : ℝ)) s.d = true) := by
        rw [r_lt, hd]; unfold Detail.EPSILON; rw [lem15]; linarith
      rw [if_neg this, r_abs, hd, abs_neg, abs_of_pos hpos]
    · have : FOps.lt (-(Detail.EPSILON : ℝ)) s.d = true := by
        rw [r_lt]; unfold Detail.EPSILON; rw [lem15]; exact hd
      rw [if_pos this, h1, Detail.R_real, div_div]
  have hv0 : |-Real.log D0 - w| ≤ 0.4 := by rw [abs_sub_comm]; exact hw
  obtain ⟨s', u, e1, e2, e3⟩ := Detail.densityLoopP_converges hc hT hw hg 19 (-Real.log D0) hv0
    (by
      have : 1.4 * |-Real.log D0 - w| * 0.4 ^ 19 ≤ 1.4 * 0.4 * 0.4 ^ 19 := by gcongr
      refine lt_of_le_of_lt this ?_
      norm_num) (Detail.withD s D0) (Detail.view_withD s D0) rfl rfl
  have hw1 : |w - -Real.log D0| ≤ 1 := by linarith
  obtain ⟨r1, r2⟩ := exp_range hpos hw1
  have posP : ∀ D, D0 * Real.exp (-1) ≤ D → D ≤ D0 * Real.exp 1 → 0 < P D :=
    fun D a b => lt_of_lt_of_le (by norm_num) (hslope D a b).1
  refine ⟨s', Real.exp (-w), ?_, ?_, ?_, ?_, r1, r2, ?_⟩
  · rw [Detail.density_ok, Detail.densityP_eq', if_neg c0, cd, r_ln, r_ln, e1]
  · exact Real.log_injOn_pos (posP _ r1 r2) hp0 (by linarith)
  · rw [e2, Real.log_exp, Real.log_exp, neg_sub_neg, abs_sub_comm]
    exact e3
  · rw [e2]; exact Real.exp_pos _
  · intro d' a b h
    have hd' : 0 < d' := lt_of_lt_of_le (by positivity) a
    have ed : Real.exp (- -Real.log d') = d' := by rw [neg_neg, Real.exp_log hd']
    have hin : |-Real.log d' - -Real.log D0| ≤ 1 := by
      have x := Real.log_le_log (by positivity) a
      have y := Real.log_le_log hd' b
      rw [Real.log_mul hpos.ne' (Real.exp_pos _).ne', Real.log_exp] at x y
      rw [abs_le]; constructor <;> linarith
    have := hT.unique hin hw1 (by simp only [ed]; rw [h, sub_self]) hg
    rw [← this, ed]

/-- The range of start densities that the iteration covers. -/
theorem low_range {p c : ℝ} (hp : 3e-15 ≤ p) (hc0 : 0 < c) (hc : c ≤ 1e7) (h1 : p / c ≤ 1) :
    Real.exp (-99) ≤ p / c ∧ p / c ≤ Real.exp 6 := by
  constructor
  · have e : Real.exp (-99) = Real.exp (-1) ^ 99 := by rw [← Real.exp_nat_mul]; norm_num
    have h2 : Real.exp (-1) ^ 99 ≤ (0.37 : ℝ) ^ 99 := by
      gcongr
      linarith [Real.exp_neg_one_lt_d9]
    have h3 : (0.37 : ℝ) ^ 99 ≤ 3e-15 / 1e7 := by norm_num
    have h4 : (3e-15 : ℝ) / 1e7 ≤ p / c := by gcongr
    linarith
  · exact h1.trans (Real.one_le_exp (by norm_num))

/-- DETAIL converges when the residual terms are small up to e times the ideal-gas density. -/
theorem Detail.low_core (s : Detail ℝ) (ht : 1 ≤ s.t ∧ s.t ≤ 1e6) (hd : -1e-15 < s.d) (hp : 3e-15 ≤ s.p)
    (h1 : s.p / (8.31451 * s.t) ≤ 1)
    (hA : ∀ D, 0 < D → D ≤ s.p / (8.31451 * s.t) * Real.exp 1 →
      |Detail.A1 (Detail.view s) D| ≤ 0.04 ∧ |Detail.A2 (Detail.view s) D| ≤ 0.04) :
    ∃ s' d s1, s.density = .ok (s', .ok ()) ∧ Detail.pressure { s with d := d } = .ok (s1, s.p) ∧ 0 < s'.d ∧
      |Real.log s'.d - Real.log d| ≤ 5.6e-8 ∧ |Real.log d - Real.log (s.p / (8.31451 * s.t))| ≤ 0.042 := by
  have hT : 0 < s.t := by linarith
  have hp0 : 0 < s.p := lt_of_lt_of_le (by norm_num) hp
  set c := 8.31451 * s.t with hcdef
  have hc : 0 < c := by positivity
  have hD0 : 0 < s.p / c := by positivity
  have eP : ∀ D, (Detail.pressureP (Detail.withD s D)).2 = c * (D * (1 + Detail.A1 (Detail.view s) D)) := fun D => by
    rw [Detail.pressureP_real (Detail.withD s D) hT.ne', Detail.view_withD, Detail.R_real]; rfl
  have eQ : ∀ D, (Detail.propertiesP (Detail.withD s D)).dp_dd
      = c * (1 + 2 * Detail.A1 (Detail.view s) D + Detail.A2 (Detail.view s) D) := fun D => by
    rw [Detail.dp_dd_real (Detail.withD s D), Detail.view_withD, Detail.R_real]; rfl
  have he1 := Real.exp_pos 1
  have hem : 0.36 < Real.exp (-1) := by linarith [Real.exp_neg_one_gt_d9]
  have h0 := hA (s.p / c) hD0 (by
    have : (1:ℝ) ≤ Real.exp 1 := Real.one_le_exp (by norm_num)
    nlinarith)
  obtain ⟨s', d, g1, g2, g3, g4, g5, g6, -⟩ := C49_detail_density_converges s hT
    (fun D => (Detail.pressureP (Detail.withD s D)).2) (fun D => (Detail.propertiesP (Detail.withD s D)).dp_dd)
    (fun D => ⟨_, Detail.pressure_ok (Detail.withD s D)⟩)
    (fun D => ⟨_, Detail.properties_ok (Detail.withD s D), rfl⟩)
    (s.p / c) (Or.inr ⟨hd, rfl⟩) (low_range hp hc (by rw [hcdef]; linarith [ht.2]) h1)
    (le_trans (by norm_num) hp) 0.84 (by norm_num)
    (by
      intro D a b
      have hD : 0 < D := lt_of_lt_of_le (by positivity) a
      obtain ⟨k1, k2⟩ := hA D hD b
      simp only [eP, eQ]
      refine ⟨?_, ?_, slope_of_small hc hD k1 k2⟩
      · rw [abs_le] at k1
        have : s.p * 0.36 ≤ c * D := by
          have h : s.p / c * Real.exp (-1) * c = s.p * Real.exp (-1) := by field_simp
          nlinarith
        nlinarith
      · rw [abs_le] at k1 k2
        have : (1 : ℝ) ≤ c := by rw [hcdef]; linarith [ht.1]
        nlinarith)
    (by
      simp only [eP]
      have e : c * (s.p / c * (1 + Detail.A1 (Detail.view s) (s.p / c)))
          = s.p * (1 + Detail.A1 (Detail.view s) (s.p / c)) := by field_simp
      have hpos : 0 < 1 + Detail.A1 (Detail.view s) (s.p / c) := by
        have := (abs_le.1 h0.1).1; linarith
      rw [e, Real.log_mul hp0.ne' hpos.ne', add_sub_cancel_left]
      refine (log_small h0.1).trans (by norm_num))
  have hdpos : 0 < d := lt_of_lt_of_le (by positivity) g5
  refine ⟨s', d, (Detail.pressureP (Detail.withD s d)).1, g1, ?_, g4, g3, ?_⟩
  · refine (Detail.pressure_ok (Detail.withD s d)).trans ?_
    exact congrArg Except.ok (Prod.ext rfl g2)
  · have k := (hA d hdpos g6).1
    have hpos : 0 < 1 + Detail.A1 (Detail.view s) d := by
      have := (abs_le.1 k).1; linarith
    have e : s.p / c = d * (1 + Detail.A1 (Detail.view s) d) := by
      rw [← g2]; simp only [eP]; field_simp
    rw [e, Real.log_mul hdpos.ne' hpos.ne', abs_sub_comm, add_sub_cancel_left]
    exact log_small k

/-- C49 at low pressure: for every DETAIL object and every temperature from 1 K to a million kelvin there is a pressure below
which `density`, started from the ideal-gas density, always succeeds: it returns, to 5.6e-8, a density at which
`pressure` gives exactly the requested value, and which is within 4.2 per cent of the ideal-gas density. Pressures
below 3e-15 kPa are outside the statement: `density` refuses them. -/
theorem C49_detail_low_pressure (s : Detail ℝ) (ht : 1 ≤ s.t ∧ s.t ≤ 1e6) (hd : -1e-15 < s.d) :
    ∃ p1 > 0, ∀ p, 3e-15 ≤ p → p ≤ p1 → ∃ s' d s1, Detail.density { s with p := p } = .ok (s', .ok ()) ∧
      Detail.pressure { s with p := p, d := d } = .ok (s1, p) ∧ 0 < s'.d ∧
      |Real.log s'.d - Real.log d| ≤ 5.6e-8 ∧ |Real.log d - Real.log (p / (8.31451 * s.t))| ≤ 0.042 := by
  set M := Detail.size (Detail.view s) with hM
  have hM0 : 0 ≤ M := Detail.size_nonneg _
  set κ := |(Detail.view s).k3| with hκ
  have hκ0 : 0 ≤ κ := abs_nonneg _
  have hT : 0 < s.t := by linarith
  have hc : 0 < 8.31451 * s.t := by positivity
  refine ⟨1 / (100 * (1 + M + κ)) * (8.31451 * s.t), by positivity, fun p hp hp1 => ?_⟩
  have hle : p / (8.31451 * s.t) ≤ 1 / (100 * (1 + M + κ)) := by rw [div_le_iff₀ hc]; exact hp1
  have hle1 : p / (8.31451 * s.t) * (100 * (1 + M + κ)) ≤ 1 := by rwa [le_div_iff₀ (by positivity)] at hle
  have hq : 0 < p / (8.31451 * s.t) := div_pos (lt_of_lt_of_le (by norm_num) hp) hc
  refine Detail.low_core { s with p := p } ht hd hp ?_ ?_
  · show p / (8.31451 * s.t) ≤ 1
    nlinarith
  intro D hD hD2
  have hv : Detail.view { s with p := p } = Detail.view s := Detail.view_congr rfl rfl rfl rfl
  rw [hv]
  have he : Real.exp 1 < 3 := by linarith [Real.exp_one_lt_d9]
  have hD3 : D ≤ p / (8.31451 * s.t) * Real.exp 1 := hD2
  generalize p / (8.31451 * s.t) = q at *
  have hD4 : D ≤ 3 * q := by nlinarith
  have hx : D * (100 * (1 + M + κ)) ≤ 3 := by
    have : D * (100 * (1 + M + κ)) ≤ 3 * q * (100 * (1 + M + κ)) := by gcongr
    linarith
  have hDM : 0 ≤ D * M := by positivity
  have hDκ : 0 ≤ D * κ := by positivity
  have h1 : |(Detail.view s).k3 * D| ≤ 1 := by
    rw [abs_mul, abs_of_pos hD, ← hκ]; nlinarith
  have h2 : M * |D| ≤ 0.04 := by
    rw [abs_of_pos hD]; nlinarith
  exact ⟨(Detail.A1_bound _ h1).trans h2, (Detail.A2_bound _ h1).trans h2⟩

/-- The residual terms of methane at 605 K are small up to 0.0006 mol/l. -/
theorem methane_small {D : ℝ} (hD : 0 < D) (hD4 : D ≤ 0.0006) :
    |Detail.A1 (Detail.view (Detail.freshOf (Detail.methane 1 1 0))) D| ≤ 0.04 ∧
    |Detail.A2 (Detail.view (Detail.freshOf (Detail.methane 1 1 0))) D| ≤ 0.04 := by
  have hk : (Detail.view (Detail.freshOf (Detail.methane 1 1 0))).k3 = Detail.mK ^ 3 := (Detail.view_methane 1 1 0).1
  have hm : Detail.mK ^ 3 ≤ 0.1 := by unfold Detail.mK; norm_num
  have hm0 : 0 < Detail.mK ^ 3 := pow_pos Detail.mK_pos 3
  have hs : Detail.size (Detail.view (Detail.freshOf (Detail.methane 1 1 0))) ≤ 20 := by
    have h1 := Detail.size_methane 1 1 0
    have h2 : ((∑ n, Detail.rs 1 n : ℚ) : ℝ) ≤ 200 := by
      have := (Rat.cast_lt (K := ℝ)).2 Detail.num_rs
      push_cast at this ⊢
      linarith
    generalize ((∑ n, Detail.rs 1 n : ℚ) : ℝ) = r at *
    nlinarith
  have h1 : |(Detail.view (Detail.freshOf (Detail.methane 1 1 0))).k3 * D| ≤ 1 := by
    rw [hk, abs_of_pos (by positivity)]; nlinarith
  have h2 : Detail.size (Detail.view (Detail.freshOf (Detail.methane 1 1 0))) * |D| ≤ 0.04 := by
    rw [abs_of_pos hD]
    have := Detail.size_nonneg (Detail.view (Detail.freshOf (Detail.methane 1 1 0)))
    nlinarith
  exact ⟨(Detail.A1_bound _ h1).trans h2, (Detail.A2_bound _ h1).trans h2⟩

/-- Methane at 605 K and 1 kPa: the search succeeds and finds the density to 5.6e-8. So the hypotheses of
`C49_detail_density_converges` are met, and the pressures of `C49_detail_low_pressure` are not confined to the lower
bound 3e-15. -/
theorem methane_low_pressure : ∃ s' d s1, (Detail.freshOf (Detail.methane 1 1 0)).density = .ok (s', .ok ()) ∧
    Detail.pressure { Detail.freshOf (Detail.methane 1 1 0) with d := d } = .ok (s1, 1) ∧ 0 < s'.d ∧
    |Real.log s'.d - Real.log d| ≤ 5.6e-8 ∧
    |Real.log d - Real.log (1 / (8.31451 * (4 ^ 1 * Detail.mE)))| ≤ 0.042 := by
  refine Detail.low_core (Detail.freshOf (Detail.methane 1 1 0)) ?_ ?_ ?_ ?_ ?_
  · show 1 ≤ 4 ^ 1 * Detail.mE ∧ 4 ^ 1 * Detail.mE ≤ 1e6
    unfold Detail.mE; norm_num
  · show (-1e-15 : ℝ) < 0
    norm_num
  · show (3e-15 : ℝ) ≤ 1
    norm_num
  · show (1 : ℝ) / (8.31451 * (4 ^ 1 * Detail.mE)) ≤ 1
    unfold Detail.mE; norm_num
  · intro D hD hD2
    have hD3 : D ≤ 1 / (8.31451 * (4 ^ 1 * Detail.mE)) * Real.exp 1 := hD2
    have he : Real.exp 1 < 3 := by linarith [Real.exp_one_lt_d9]
    have hq : 1 / (8.31451 * (4 ^ 1 * Detail.mE)) ≤ 0.0002 := by unfold Detail.mE; norm_num
    have hD4 : D ≤ 0.0006 := by
      have := Real.exp_pos 1
      nlinarith
    exact methane_small hD hD4

/-- The GERG pressure curve and its slope, as `pressure` and `properties` report them. -/
theorem Gerg.curve_hasDeriv {s : Gerg ℝ} (hs : Gerg.Reachable s) {P Q : ℝ → ℝ}
    (hP : ∀ D, ∃ s1, Gerg.pressure { s with d := D } = .ok (s1, P D))
    (hQ : ∀ D, ∃ s2 p2, Gerg.properties { s with d := D } = .ok (s2, p2) ∧ s2.dp_dd = Q D) (D : ℝ) :
    HasDerivAt P (Q D) D := by
  have hr : Gerg.Reachable (Gerg.withD s D) :=
    hs.step (op := .write { Gerg.pub s with d := D }) (o := .unit) rfl
  obtain ⟨s', p', h1, h2⟩ := C29_gerg_dp_dd (Gerg.withD s D) hr P hP
  obtain ⟨s2, p2, h3, h4⟩ := hQ D
  have : s' = s2 := by
    have := h1.symm.trans h3; injection this with this; injection this
  rw [← h4, ← this]
  exact h2

/-- C49 for GERG-2008, with the search started from the ideal-gas density or from a density given as a negative
number: same statement, for every object a caller can construct and every flag that is not positive. -/
theorem C49_gerg_density_converges (s : Gerg ℝ) (hs : Gerg.Reachable s) (iflag : Int) (hf : iflag ≤ 0) (P Q : ℝ → ℝ)
    (hP : ∀ D, ∃ s1, Gerg.pressure { s with d := D } = .ok (s1, P D))
    (hQ : ∀ D, ∃ s2 p2, Gerg.properties { s with d := D } = .ok (s2, p2) ∧ s2.dp_dd = Q D)
    (D0 : ℝ) (hstart : (s.d = -D0 ∧ 1e-15 ≤ D0) ∨ (-1e-15 < s.d ∧ D0 = s.p / (8.314472 * s.t)))
    (hr : Real.exp (-99) ≤ D0 ∧ D0 ≤ Real.exp 6) (hp : 0 < s.p) (m : ℝ) (hm : 0 < m)
    (hslope : ∀ D, D0 * Real.exp (-1) ≤ D → D ≤ D0 * Real.exp 1 →
      1e-15 ≤ P D ∧ 1e-15 ≤ Q D ∧ m ≤ D * Q D / P D ∧ D * Q D / P D ≤ 1.4 * m)
    (h0 : |Real.log (P D0) - Real.log s.p| ≤ 0.4 * m) :
    ∃ s' d, s.density iflag = .ok (s', .ok ()) ∧ P d = s.p ∧ |Real.log s'.d - Real.log d| ≤ 5.6e-8 ∧ 0 < s'.d ∧
      D0 * Real.exp (-1) ≤ d ∧ d ≤ D0 * Real.exp 1 ∧
      ∀ d', D0 * Real.exp (-1) ≤ d' → d' ≤ D0 * Real.exp 1 → P d' = s.p → d' = d := by
  have hpos : 0 < D0 := lt_of_lt_of_le (Real.exp_pos _) hr.1
  have eP : ∀ D, Gerg.pAt s D = P D := fun D => by
    obtain ⟨s1, h⟩ := hP D
    have : Gerg.pressureP (Gerg.withD s D) = (s1, P D) := by
      have := (Gerg.pressure_ok (s := Gerg.withD s D) (hs.idx.congr rfl rfl rfl)).symm.trans h; injection this
    unfold Gerg.pAt; rw [this]
  have eQ : ∀ D, Gerg.dpAt s D = Q D := fun D => by
    obtain ⟨s2, p2, h, h'⟩ := hQ D
    have : Gerg.propertiesP (Gerg.withD s D) = (s2, p2) := by
      have := (Gerg.properties_ok (s := Gerg.withD s D) (hs.idx.congr rfl rfl rfl)).symm.trans h; injection this
    unfold Gerg.dpAt; rw [← Gerg.propertiesP_dp_dd, this, h']
  have hv : -6 ≤ -Real.log D0 ∧ -Real.log D0 ≤ 99 := by
    have a := Real.log_le_log (Real.exp_pos _) hr.1
    have b := Real.log_le_log hpos hr.2
    rw [Real.log_exp] at a b
    constructor <;> linarith
  have hc : Gerg.Curve s P Q D0 := ⟨eP, eQ, fun D a b => ⟨(hslope D a b).1, (hslope D a b).2.1⟩, hv, hpos⟩
  have hT := tame_of_slope (P := P) (Q := Q) (p := s.p) hpos hm one_pos
    (fun D _ => Gerg.curve_hasDeriv hs hP hQ D)
    (fun D a b => ⟨lt_of_lt_of_le (by norm_num) (hslope D a b).1, (hslope D a b).2.2⟩) (by rw [mul_one]; exact h0)
  obtain ⟨w, hw, hg⟩ := hT.root
  rw [mul_one] at hw
  have cd : Gerg.startD iflag s = D0 := by
    unfold Gerg.startD
    rcases hstart with ⟨hd, h1⟩ | ⟨hd, h1⟩
    · have : ¬ (FOps.lt (-(Gerg.EPSILON : ℝ)) s.d = true) := by
        rw [r_lt, hd]; unfold Gerg.EPSILON; rw [lem15]; linarith
      rw [if_neg this, r_abs, hd, abs_neg, abs_of_pos hpos]
    · have : FOps.lt (-(Gerg.EPSILON : ℝ)) s.d = true := by
        rw [r_lt]; unfold Gerg.EPSILON; rw [lem15]; exact hd
      have h2 : ¬ ((iflag == 2) = true) := by
        intro h; have := eq_of_beq h; omega
      rw [if_pos this, if_neg h2, h1, Gerg.R_real, div_div]
  have hv0 : |-Real.log D0 - w| ≤ 0.4 := by rw [abs_sub_comm]; exact hw
  obtain ⟨s', u, e1, e2, e3⟩ := Gerg.densityLoopP_converges hc hf (Gerg.pseudocriticalpoint s).1 hT hw hg 18 31 1
    (by norm_num) (-Real.log D0) hv0
    (by
      have : 1.4 * |-Real.log D0 - w| * 0.4 ^ 18 ≤ 1.4 * 0.4 * 0.4 ^ 18 := by gcongr
      refine lt_of_le_of_lt this ?_
      norm_num) (Gerg.withD s D0) (Gerg.eos_withD s D0)
  have hw1 : |w - -Real.log D0| ≤ 1 := by linarith
  obtain ⟨r1, r2⟩ := exp_range hpos hw1
  have posP : ∀ D, D0 * Real.exp (-1) ≤ D → D ≤ D0 * Real.exp 1 → 0 < P D :=
    fun D a b => lt_of_lt_of_le (by norm_num) (hslope D a b).1
  refine ⟨s', Real.exp (-w), ?_, ?_, ?_, ?_, r1, r2, ?_⟩
  · rw [Gerg.density_ok hs.idx, Gerg.densityP, cd, r_ln, r_ln]
    exact congrArg Except.ok e1
  · exact Real.log_injOn_pos (posP _ r1 r2) hp (by linarith)
  · rw [e2, Real.log_exp, Real.log_exp, neg_sub_neg, abs_sub_comm]
    exact e3
  · rw [e2]; exact Real.exp_pos _
  · intro d' a b h
    have hd' : 0 < d' := lt_of_lt_of_le (by positivity) a
    have ed : Real.exp (- -Real.log d') = d' := by rw [neg_neg, Real.exp_log hd']
    have hin : |-Real.log d' - -Real.log D0| ≤ 1 := by
      have x := Real.log_le_log (by positivity) a
      have y := Real.log_le_log hd' b
      rw [Real.log_mul hpos.ne' (Real.exp_pos _).ne', Real.log_exp] at x y
      rw [abs_le]; constructor <;> linarith
    have := hT.unique hin hw1 (by simp only [ed]; rw [h, sub_self]) hg
    rw [← this, ed]

/-- GERG-2008 converges when the residual terms are small up to e times the ideal-gas density. -/
theorem Gerg.low_core (s : Gerg ℝ) (hs : Gerg.Reachable s) (iflag : Int) (hf : iflag ≤ 0)
    (ht : 1 ≤ s.t ∧ s.p / (8.314472 * s.t) ≤ 1) (hr : Real.exp (-99) ≤ s.p / (8.314472 * s.t))
    (hd : -1e-15 < s.d) (hp : 3e-15 ≤ s.p)
    (hA : ∀ D, 0 < D → D ≤ s.p / (8.314472 * s.t) * Real.exp 1 →
      |Gerg.AR s Gerg.Shape.f1 D| ≤ 0.04 ∧ |Gerg.AR s Gerg.Shape.f2 D| ≤ 0.04) :
    ∃ s' d s1, s.density iflag = .ok (s', .ok ()) ∧ Gerg.pressure { s with d := d } = .ok (s1, s.p) ∧ 0 < s'.d ∧
      |Real.log s'.d - Real.log d| ≤ 5.6e-8 ∧ |Real.log d - Real.log (s.p / (8.314472 * s.t))| ≤ 0.042 := by
  have hT : 0 < s.t := by linarith
  have hp0 : 0 < s.p := lt_of_lt_of_le (by norm_num) hp
  have hpE := Gerg.posE_reachable hs
  have hpE' : ∀ D, Gerg.PosE (Gerg.params (Gerg.withD s D)) := fun D => hpE
  have hi : ∀ D, Gerg.Idx (Gerg.withD s D) := fun D => hs.idx.congr rfl rfl rfl
  set c := 8.314472 * s.t with hcdef
  have hc : 0 < c := by positivity
  have hD0 : 0 < s.p / c := by positivity
  have eP : ∀ D, (Gerg.pressureP (Gerg.withD s D)).2 = c * (D * (1 + Gerg.AR s Gerg.Shape.f1 D)) := fun D => by
    rw [Gerg.pressureP_real (hpE' D), Gerg.AR_withD, Gerg.R_real]; rfl
  have eQ : ∀ D, (Gerg.propertiesP (Gerg.withD s D)).1.dp_dd
      = c * (1 + 2 * Gerg.AR s Gerg.Shape.f1 D + Gerg.AR s Gerg.Shape.f2 D) := fun D => by
    rw [Gerg.dp_dd_real (hpE' D), Gerg.AR_withD, Gerg.AR_withD, Gerg.R_real]; rfl
  have he1 := Real.exp_pos 1
  have hem : 0.36 < Real.exp (-1) := by linarith [Real.exp_neg_one_gt_d9]
  have h0 := hA (s.p / c) hD0 (by
    have : (1:ℝ) ≤ Real.exp 1 := Real.one_le_exp (by norm_num)
    nlinarith)
  obtain ⟨s', d, g1, g2, g3, g4, g5, g6, -⟩ := C49_gerg_density_converges s hs iflag hf
    (fun D => (Gerg.pressureP (Gerg.withD s D)).2) (fun D => (Gerg.propertiesP (Gerg.withD s D)).1.dp_dd)
    (fun D => ⟨_, Gerg.pressure_ok (hi D)⟩)
    (fun D => ⟨_, _, Gerg.properties_ok (hi D), rfl⟩)
    (s.p / c) (Or.inr ⟨hd, rfl⟩) ⟨hr, ht.2.trans (Real.one_le_exp (by norm_num))⟩
    hp0 0.84 (by norm_num)
    (by
      intro D a b
      have hD : 0 < D := lt_of_lt_of_le (by positivity) a
      obtain ⟨k1, k2⟩ := hA D hD b
      simp only [eP, eQ]
      refine ⟨?_, ?_, slope_of_small hc hD k1 k2⟩
      · rw [abs_le] at k1
        have : s.p * 0.36 ≤ c * D := by
          have h : s.p / c * Real.exp (-1) * c = s.p * Real.exp (-1) := by field_simp
          nlinarith
        nlinarith
      · rw [abs_le] at k1 k2
        have : (1 : ℝ) ≤ c := by rw [hcdef]; linarith [ht.1]
        nlinarith)
    (by
      simp only [eP]
      have e : c * (s.p / c * (1 + Gerg.AR s Gerg.Shape.f1 (s.p / c)))
          = s.p * (1 + Gerg.AR s Gerg.Shape.f1 (s.p / c)) := by field_simp
      have hpos : 0 < 1 + Gerg.AR s Gerg.Shape.f1 (s.p / c) := by
        have := (abs_le.1 h0.1).1; linarith
      rw [e, Real.log_mul hp0.ne' hpos.ne', add_sub_cancel_left]
      refine (log_small h0.1).trans (by norm_num))
  have hdpos : 0 < d := lt_of_lt_of_le (by positivity) g5
  refine ⟨s', d, (Gerg.pressureP (Gerg.withD s d)).1, g1, ?_, g4, g3, ?_⟩
  · refine (Gerg.pressure_ok (hi d)).trans ?_
    exact congrArg Except.ok (Prod.ext rfl g2)
  · have k := (hA d hdpos g6).1
    have hpos : 0 < 1 + Gerg.AR s Gerg.Shape.f1 d := by
      have := (abs_le.1 k).1; linarith
    have e : s.p / c = d * (1 + Gerg.AR s Gerg.Shape.f1 d) := by
      rw [← g2]; simp only [eP]; field_simp
    rw [e, Real.log_mul hdpos.ne' hpos.ne', abs_sub_comm, add_sub_cancel_left]
    exact log_small k

/-- C49 at low pressure for GERG-2008: the same for every object a caller can construct and every flag that is not
positive. -/
theorem C49_gerg_low_pressure (s : Gerg ℝ) (hs : Gerg.Reachable s) (iflag : Int) (hf : iflag ≤ 0)
    (ht : 1 ≤ s.t ∧ s.t ≤ 1e6) (hd : -1e-15 < s.d) :
    ∃ p1 > 0, ∀ p, 3e-15 ≤ p → p ≤ p1 → ∃ s' d s1, Gerg.density { s with p := p } iflag = .ok (s', .ok ()) ∧
      Gerg.pressure { s with p := p, d := d } = .ok (s1, p) ∧ 0 < s'.d ∧
      |Real.log s'.d - Real.log d| ≤ 5.6e-8 ∧ |Real.log d - Real.log (p / (8.314472 * s.t))| ≤ 0.042 := by
  have hpE := Gerg.posE_reachable hs
  have e1 := (Gerg.continuous_AR1 s).tendsto 0
  have e2 := (Gerg.continuous_AR2 s).tendsto 0
  rw [Gerg.AR_zero hpE] at e1 e2
  obtain ⟨r1, hr1, k1⟩ := Metric.tendsto_nhds_nhds.1 e1 0.04 (by norm_num)
  obtain ⟨r2, hr2, k2⟩ := Metric.tendsto_nhds_nhds.1 e2 0.04 (by norm_num)
  set δ := min (min r1 r2 / 6) 1 with hδ
  have hδ0 : 0 < δ := by
    have := lt_min hr1 hr2
    rw [hδ]; exact lt_min (by linarith) one_pos
  have hT : 0 < s.t := by linarith
  have hc : 0 < 8.314472 * s.t := by positivity
  refine ⟨δ * (8.314472 * s.t), by positivity, fun p hp hp1 => ?_⟩
  have hle : p / (8.314472 * s.t) ≤ δ := by rw [div_le_iff₀ hc]; exact hp1
  have hle1 : p / (8.314472 * s.t) ≤ 1 := hle.trans (min_le_right _ _)
  have hs' : Gerg.Reachable { s with p := p } :=
    hs.step (op := .write { Gerg.pub s with p := p }) (o := .unit) rfl
  refine Gerg.low_core { s with p := p } hs' iflag hf ⟨ht.1, hle1⟩
    (low_range hp hc (by linarith [ht.2]) hle1).1 hd hp ?_
  intro D hD hD2
  have hv : ∀ fac, Gerg.AR { s with p := p } fac D = Gerg.AR s fac D := fun fac => rfl
  rw [hv, hv]
  have he : Real.exp 1 < 3 := by linarith [Real.exp_one_lt_d9]
  have hb : D < min r1 r2 := by
    have h6 : δ ≤ min r1 r2 / 6 := min_le_left _ _
    have : 0 < min r1 r2 := lt_min hr1 hr2
    have : p / (8.314472 * s.t) * Real.exp 1 ≤ δ * 3 := by
      have := Real.exp_pos 1
      gcongr
    have hD3 : D ≤ p / (8.314472 * s.t) * Real.exp 1 := hD2
    linarith
  have a1 := k1 (x := D) (by rw [Real.dist_eq, sub_zero, abs_of_pos hD]; exact lt_of_lt_of_le hb (min_le_left _ _))
  have a2 := k2 (x := D) (by rw [Real.dist_eq, sub_zero, abs_of_pos hD]; exact lt_of_lt_of_le hb (min_le_right _ _))
  rw [Real.dist_eq, sub_zero] at a1 a2
  exact ⟨a1.le, a2.le⟩

/-- A temperature at which the residual terms of methane are small up to 3 mol/l will do. -/
theorem gerg_methane_converges_at {T : ℝ} (h1 : 1 ≤ T) (hT : ∀ D ∈ Set.Icc (0 : ℝ) 3,
    |Gerg.RT (Gerg.px 1) Gerg.Shape.f1 D T| ≤ 0.04 ∧ |Gerg.RT (Gerg.px 1) Gerg.Shape.f2 D T| ≤ 0.04) : ∃ s' d s1,
    (Gerg.freshOf (Gerg.pureAt 1 T 0 (8.314472 * T))).density 0 = .ok (s', .ok ()) ∧
    Gerg.pressure { Gerg.freshOf (Gerg.pureAt 1 T 0 (8.314472 * T)) with d := d } = .ok (s1, 8.314472 * T) ∧ 0 < s'.d ∧
    |Real.log s'.d - Real.log d| ≤ 5.6e-8 ∧
    |Real.log d - Real.log (8.314472 * T / (8.314472 * T))| ≤ 0.042 := by
  have e : 8.314472 * T / (8.314472 * T) = 1 := div_self (by positivity)
  refine Gerg.low_core (Gerg.freshOf (Gerg.pureAt 1 T 0 (8.314472 * T))) (Gerg.reachable_fresh _) 0 le_rfl
    ⟨h1, ?_⟩ ?_ ?_ ?_ ?_
  · show 8.314472 * T / (8.314472 * T) ≤ 1
    rw [e]
  · show Real.exp (-99) ≤ 8.314472 * T / (8.314472 * T)
    rw [e, ← Real.exp_zero]
    exact Real.exp_le_exp.2 (by norm_num)
  · show (-1e-15 : ℝ) < 0
    norm_num
  · show 3e-15 ≤ 8.314472 * T
    linarith
  · intro D hD hD2
    have hD3 : D ≤ 8.314472 * T / (8.314472 * T) * Real.exp 1 := hD2
    rw [e, one_mul] at hD3
    have hx : Gerg.XFar (Gerg.pureAt 1 T 0 (8.314472 * T)).x (fill 22 (f% 0.0)) := Gerg.XFar_px (by decide)
    have hv : ∀ fac, Gerg.AR (Gerg.freshOf (Gerg.pureAt 1 T 0 (8.314472 * T))) fac D
        = Gerg.RT (Gerg.px 1) fac D T := fun fac =>
      Gerg.AR_fresh (q := Gerg.pureAt 1 T 0 (8.314472 * T)) hx (lt_of_lt_of_le (by norm_num) h1) fac D
    rw [hv, hv]
    exact hT D ⟨hD.le, by linarith [Real.exp_one_lt_d9]⟩

/-- Methane at a temperature where it is close to the ideal gas, at the pressure an ideal gas of 1 mol/l has there: the
search succeeds. So the hypotheses of `C49_gerg_density_converges` are met. -/
theorem gerg_methane_converges : ∃ T, 1 ≤ T ∧ ∃ s' d s1,
    (Gerg.freshOf (Gerg.pureAt 1 T 0 (8.314472 * T))).density 0 = .ok (s', .ok ()) ∧
    Gerg.pressure { Gerg.freshOf (Gerg.pureAt 1 T 0 (8.314472 * T)) with d := d } = .ok (s1, 8.314472 * T) ∧ 0 < s'.d ∧
    |Real.log s'.d - Real.log d| ≤ 5.6e-8 ∧
    |Real.log d - Real.log (8.314472 * T / (8.314472 * T))| ≤ 0.042 := by
  obtain ⟨T, h1, hT⟩ := Gerg.methane_hot_range
  exact ⟨T, h1, gerg_methane_converges_at h1 hT⟩

end Aga8
