import Verif.Spec.F64Libm
import Verif.Lemmas.F64Fin
import Verif.Props.F64History

/-! # What a successful density() says about its inputs, in IEEE-754 arithmetic

C48. -/

namespace Aga8

open FOps F64

variable [Libm]

attribute [local irreducible] Gerg.pressureP Gerg.propertiesP Gerg.newP Detail.pressureP Detail.propertiesP

theorem fin7 : IsFinite (f% 1e-7 : Float) := by
  unfold IsFinite
  rw [show up (f% 1e-7 : Float) = _ from lit7']
  trivial

omit [Libm] in
theorem lit7d : up (Float.ofScientific 7 true 0) = .finite .positive 7881299347898368 (-50) (by decide) := by
  decide +kernel
omit [Libm] in
theorem lit100d : up (Float.ofScientific 100 true 0) = .finite .positive 7036874417766400 (-46) (by decide) := by
  decide +kernel

theorem fin7' : IsFinite (f% 7.0 : Float) := by
  unfold IsFinite; rw [show up (f% 7.0 : Float) = _ from lit7d]; trivial
theorem fin100 : IsFinite (f% 100.0 : Float) := by
  unfold IsFinite; rw [show up (f% 100.0 : Float) = _ from lit100d]; trivial
theorem toR7' : toR (f% 7.0 : Float) = 7 := by
  unfold toR; rw [show up (f% 7.0 : Float) = _ from lit7d]; simp only [val, sg]; norm_num
theorem toR100 : toR (f% 100.0 : Float) = 100 := by
  unfold toR; rw [show up (f% 100.0 : Float) = _ from lit100d]; simp only [val, sg]; norm_num
theorem toR7_lt : toR (f% 1e-7 : Float) < 1 / 2 := by
  unfold toR; rw [show up (f% 1e-7 : Float) = _ from lit7']; simp only [val, sg]; norm_num

/-- The convergence test of both searches passes only on numbers. -/
theorem conv_finite (hln : LnDomain) {p1 p c : Float}
    (h : FOps.lt (abs ((ln p1 - ln p) * p1 / c)) (f% 1e-7) = true) :
    (IsFinite p1 ∧ 0 < toR p1) ∧ IsFinite p ∧ 0 < toR p := by
  rw [flt, fabs] at h
  have h1 := fin_div_left (fin_of_abs_lt fin7 h)
  have h2 := fin_mul_left h1
  exact ⟨hln _ (fin_sub_left h2), hln _ (fin_sub_right h2)⟩

omit [Libm] in
/-- A pressure that is a positive number comes from a temperature that is a number, and not zero. -/
theorem temp_finite {d r t z p1 : Float} (h : p1 = d * r * t * z) (hf : IsFinite p1) (h0 : 0 < toR p1) :
    IsFinite t ∧ toR t ≠ 0 := by
  rw [h] at hf h0
  have ht := fin_mul_right (fin_mul_left hf)
  refine ⟨ht, fun hz => ?_⟩
  have h1 : toR (d * r * t) = 0 := toR_mul_zero_right _ ht hz
  have hf' := fin_mul_left hf
  have : toR (d * r * t * z) = 0 := by
    apply toR_zero_of_zn
    refine zn_mul_left (Or.inl ?_) z
    exact isZ_of_toR hf' h1
  rw [this] at h0
  exact absurd h0 (lt_irrefl _)

/-- C48, DETAIL: `density` reports an error whenever the pressure is NaN, infinite, zero or negative, and whenever the
temperature is NaN, infinite or zero; whatever the composition, the initial density and the history of the object are. -/
theorem C48_detail_bad_input_is_an_error (hln : LnDomain) (s : Detail Float)
    (h : ¬ (IsFinite s.p ∧ 0 < toR s.p) ∨ ¬ (IsFinite s.t ∧ toR s.t ≠ 0)) :
    ∃ s' e, s.density = .ok (s', .error e) := by
  rw [Detail.density_ok]
  cases hd : Detail.densityP s with
  | mk s' r =>
    cases r with
    | error e => exact ⟨s', e, rfl⟩
    | ok u =>
      exfalso
      obtain ⟨v, s1, p1, s2, -, -, h1, -, -, -, h2, -⟩ :=
        C16_detail_density_success_f64 s s' (by rw [Detail.density_ok, hd])
      obtain ⟨⟨a1, a2⟩, a3⟩ := conv_finite hln h2
      rcases h with h | h
      · exact h a3
      · rw [Detail.pressure_ok] at h1
        have e : p1 = _ := (congrArg Prod.snd (Except.ok.inj h1)).symm.trans (Detail.pressureP_snd _)
        exact h (temp_finite e a1 a2)

/-- C48, GERG: as for DETAIL, for every object that can be reached through the API and every value of `iflag`. -/
theorem C48_gerg_bad_input_is_an_error (hln : LnDomain) (s : Gerg Float) (hs : Gerg.Reachable s) (iflag : Int)
    (h : ¬ (IsFinite s.p ∧ 0 < toR s.p) ∨ ¬ (IsFinite s.t ∧ toR s.t ≠ 0)) :
    ∃ s' e, s.density iflag = .ok (s', .error e) := by
  rw [Gerg.density_ok hs.idx]
  cases hd : Gerg.densityP s iflag with
  | mk s' r =>
    cases r with
    | error e => exact ⟨s', e, rfl⟩
    | ok u =>
      exfalso
      obtain ⟨v, s1, p1, s2, p2, -, h1, -, -, -, -, h2, -⟩ :=
        C17_gerg_density_success selfDiff s s' hs iflag (by rw [Gerg.density_ok hs.idx, hd])
      obtain ⟨⟨a1, a2⟩, a3⟩ := conv_finite hln h2
      rcases h with h | h
      · exact h a3
      · rw [Gerg.pressure_ok (s := { s with d := exp (-v) }) (hs.idx.congr rfl rfl rfl)] at h1
        have e : p1 = _ := (congrArg Prod.snd (Except.ok.inj h1)).symm.trans (Gerg.pressureP_snd _)
        exact h (temp_finite e a1 a2)

/-- C48, DETAIL: a successful `density` leaves a positive finite density. -/
theorem C48_detail_density_positive (hexp : ExpPositive) (s s' : Detail Float)
    (h : s.density = .ok (s', .ok ())) : IsFinite s'.d ∧ 0 < toR s'.d := by
  obtain ⟨v, s1, p1, s2, hv1, hv2, -, -, -, -, h2, h3, -⟩ := C16_detail_density_success_f64 s s' h
  generalize (ln p1 - ln s.p) * p1 / (-exp (-v) * s2.dp_dd) = w at h2 h3
  obtain ⟨a1, a2, a3⟩ := fin_between (fin_neg fin7') fin100 (of_decide_eq_true hv1) (of_decide_eq_true hv2)
  rw [toR_neg, toR7'] at a2
  rw [toR100] at a3
  rw [flt, fabs] at h2
  have hw := fin_of_abs_lt fin7 h2
  rw [lt_toR (fin_abs hw) fin7, toR_abs] at h2
  have hw' : |toR w| < 1 / 2 := lt_trans h2 toR7_lt
  rw [abs_lt] at hw'
  have hb : |toR v - toR w| ≤ 101 := by rw [abs_le]; constructor <;> linarith
  obtain ⟨b1, b2⟩ := sub_ok a1 hw (le_trans hb (le_trans (by norm_num) (pow_le_pow_right₀ (by norm_num : (1 : ℝ) ≤ 2)
    (by norm_num : 7 ≤ 1023))))
  rw [uu_eq] at b2
  rw [abs_le] at b2 hb
  have h0 : (0 : ℝ) ≤ |toR v - toR w| ∧ |toR v - toR w| ≤ 101 := ⟨abs_nonneg _, abs_le.2 hb⟩
  generalize |toR v - toR w| = A at *
  rw [h3]
  refine hexp _ (fin_neg b1) ?_ ?_ <;> rw [toR_neg]
  · norm_num at b2 ⊢; linarith
  · norm_num at b2 ⊢; linarith

/-! ## Worked cases -/

/-- A crude math library. -/
@[reducible] def crude : Libm where
  exp _ := 1.0
  ln a := if 0.0 < a ∧ a < 1.0e30 then 0.0 else 0.0 / 0.0
  powf _ _ := 1.0
  powi _ _ := 1.0

/-- A state at 300 K and 1 kPa. -/
def crudeState : Detail Float := letI := crude; { (Detail.default : Detail Float) with t := 300.0, p := 1.0 }

/-- Whether `density` succeeds on that state. -/
def crudeRun : Bool :=
  letI := crude
  match Detail.density crudeState with
  | .ok (_, .ok ()) => true
  | _ => false

set_option maxRecDepth 100000 in
omit [Libm] in
theorem crudeRun_ok : crudeRun = true := by decide +kernel

omit [Libm] in
theorem crude_lits : up (1.0e30 : Float) = .finite .positive 7105427357601002 47 (by decide) ∧
    up (0.0 : Float) = .zero .positive ∧ up (0.0 / 0.0 : Float) = .notANumber ∧
    up (1.0 : Float) = .finite .positive 4503599627370496 (-52) (by decide) := by
  refine ⟨?_, ?_, ?_, ?_⟩ <;> decide +kernel

omit [Libm] in
theorem crude_ln : @LnDomain crude := by
  intro a h
  obtain ⟨l1, l2, l3, -⟩ := crude_lits
  have e : crude.ln a = if 0.0 < a ∧ a < 1.0e30 then 0.0 else 0.0 / 0.0 := rfl
  rw [e] at h
  clear e
  generalize (0.0 / 0.0 : Float) = n at *
  generalize (1.0e30 : Float) = b at *
  generalize (0.0 : Float) = z at *
  have hb : IsFinite b := by unfold IsFinite; rw [l1]; trivial
  have hz : IsFinite z := by unfold IsFinite; rw [l2]; trivial
  have hz' : toR z = 0 := by unfold toR; rw [l2]; rfl
  by_cases hc : z < a ∧ a < b
  · obtain ⟨h1, -⟩ := fin_between hz hb (F64.le_of_lt hc.1) (F64.le_of_lt hc.2)
    refine ⟨h1, ?_⟩
    rw [← hz', ← lt_toR hz h1]; exact hc.1
  · rw [if_neg hc] at h
    unfold IsFinite at h
    rw [l3] at h; exact h.elim

omit [Libm] in
theorem crude_exp : @ExpPositive crude := by
  intro a _ _ _
  obtain ⟨-, -, -, l4⟩ := crude_lits
  constructor
  · show IsFin (up (1.0 : Float)); rw [l4]; trivial
  · show 0 < val (up (1.0 : Float)); rw [l4]; simp only [val, sg]; norm_num

omit [Libm] in
theorem crude_density : ∃ s', @Detail.density Float _ _ _ _ _ (@f64Ops crude) crudeState = .ok (s', .ok ()) := by
  have h := crudeRun_ok
  unfold crudeRun at h
  cases hd : @Detail.density Float _ _ _ _ _ (@f64Ops crude) crudeState with
  | error e => rw [hd] at h; cases h
  | ok r =>
    obtain ⟨s', r⟩ := r
    cases r with
    | error e => rw [hd] at h; cases h
    | ok u => exact ⟨s', rfl⟩

omit [Libm] in
/-- The hypotheses on the math library can be met, and so can those of `C48_detail_density_positive`: not every call is an
error. -/
example : ∃ m : Libm, @LnDomain m ∧ @ExpPositive m ∧
    ∃ s s' : Detail Float, @Detail.density Float _ _ _ _ _ (@f64Ops m) s = .ok (s', .ok ()) :=
  ⟨crude, crude_ln, crude_exp, crudeState, crude_density⟩

/-- States with a bad pressure and a bad temperature. -/
example : ∃ s : Detail Float, s.p.isNaN = true ∧ ¬ (IsFinite s.p ∧ 0 < toR s.p) := by
  have hn : up (0.0 / 0.0 : Float) = .notANumber := by decide +kernel
  refine ⟨{ (Detail.default : Detail Float) with p := 0.0 / 0.0 }, (isNaN_iff _).2 hn, fun h => ?_⟩
  have := h.1
  unfold IsFinite at this
  rw [show up (0.0 / 0.0 : Float) = _ from hn] at this
  exact this

/-- A GERG object that can be reached, with a negative pressure. -/
example : ∃ s : Gerg Float, Gerg.Reachable s ∧ s.p = -1.0 ∧ ¬ (IsFinite s.p ∧ 0 < toR s.p) := by
  refine ⟨Gerg.freshOf { Gerg.pub Gerg.newP with p := -1.0 }, Gerg.reachable_fresh _, rfl, fun h => ?_⟩
  have h1 : up (-1.0 : Float) = .finite .negative 4503599627370496 (-52) (by decide) := by decide +kernel
  have h2 : 0 < val (up (-1.0 : Float)) := h.2
  rw [h1] at h2
  simp only [val, sg] at h2
  norm_num at h2

end Aga8
