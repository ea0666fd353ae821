import Verif.Lemmas.NgOrder
import Verif.Lemmas.RoundTrip
import Verif.Lemmas.GergMixUpper
import Verif.Props.NaturalGasHeat
import Verif.Props.MixDensity

/-! # C80: `pressure`, then `density` at that pressure, gives the density back, in f64

The caller sets a density, asks for its pressure, stores that pressure in the same object and asks for the density. The theorems are
about IEEE-754 arithmetic, with any `exp`, `powf`, `powi` and `ln` that are accurate in the sense of `Spec/F64Accuracy`. -/

set_option linter.unusedSectionVars false

namespace Aga8

open F64

attribute [local irreducible] Detail.pressureP Detail.densityP Gerg.newP Gerg.pressureP Gerg.densityP

/-- A relative error, as a difference of logarithms. -/
theorem log_of_rel {a v c : ℝ} (h : |a - v| ≤ c * v) (hv : 0 < v) (hc : c ≤ 1e-4) :
    0 < a ∧ |Real.log a - Real.log v| ≤ 1.001 * c := by
  obtain ⟨h1, h2⟩ := abs_le.1 h
  have c0 : 0 ≤ c := nonneg_of_mul_nonneg_left ((abs_nonneg _).trans h) hv
  have a0 : 0 < a := by nlinarith
  refine ⟨a0, ?_⟩
  rw [← Real.log_div a0.ne' hv.ne', abs_le]
  have r0 : 0 < a / v := div_pos a0 hv
  have r1 : a / v ≤ 1 + c := by rw [div_le_iff₀ hv]; linarith
  have r2 : 1 - c ≤ a / v := by rw [le_div_iff₀ hv]; linarith
  have c1 : 0 < 1 - c := by norm_num at hc; linarith
  constructor
  · have := Real.one_sub_inv_le_log_of_pos r0
    have i := inv_anti₀ c1 r2
    have j : (1 - c)⁻¹ ≤ 1 + 1.001 * c := by
      rw [inv_le_iff_one_le_mul₀ c1]
      norm_num at hc ⊢
      nlinarith
    linarith
  · have := Real.log_le_sub_one_of_pos r0
    norm_num
    linarith

variable [Libm]

/-- C80, DETAIL: for every natural gas whose fractions are zero or at least 1e-10, at 263 K to 400 K and a density of 3.5e-4 mol/l to
0.63 mol/l, `density` at the pressure that `pressure` returned, on the same object, reports success and gives the density back within
the factor `exp 7.5e-8`. -/
theorem C80_detail_round_trip (hL : LibmAccurate) (hN : LnAccurate) (new0 : Detail Float) (hnew : Detail.new = .ok new0)
    (q : Detail.Pub Float) (fx : ∀ i, IsFinite (aget q.x i)) (hx : Eos.NormalGas fun i => toR (aget q.x i))
    (hx' : ∀ i, toR (aget q.x i) = 0 ∨ 1e-10 ≤ toR (aget q.x i))
    (ht : IsFinite q.t) (t1 : 263 ≤ toR q.t) (t2 : toR q.t ≤ 400)
    (fd : IsFinite q.d) (d1 : 3.5e-4 ≤ toR q.d) (d2 : toR q.d ≤ 0.63) :
    ∃ s1 p s2, (Detail.setPub new0 q).pressure = .ok (s1, p) ∧ Detail.density { s1 with p := p } = .ok (s2, .ok ()) ∧
      0 < toR s2.d ∧ |Real.log (toR s2.d) - Real.log (toR q.d)| ≤ 7.5e-8 := by
  have hq := Detail.err_normal fx hx hx' ht t1 t2 fd (le_trans (by norm_num) d1) (d2.trans (by norm_num))
  have hf := Detail.fracs_normal hx
  have D0 : 0 < toR q.d := lt_of_lt_of_le (by norm_num) d1
  have T0 : 0 < toR q.t := by linarith
  have T0' : 0 < 8.31451 * toR q.t := by positivity
  obtain ⟨z1, z2, -, z3, -⟩ := Detail.Ng.ng_window hx t1 t2 D0.le (d2.trans (by norm_num))
  obtain ⟨s1, p, e1, -, fp, -, hp⟩ := C59_detail_pressure_error hL new0 hnew q hq
  rw [hf] at hp
  set Z := Eos.Z (fun i => toR (aget q.x i)) (toR q.d) (toR q.t) with hZ
  have Z0 : 0 < Z := lt_of_lt_of_le (by norm_num) z1
  have P0 : 0 < toR q.d * 8.31451 * toR q.t * Z := by positivity
  have hp' : |toR p - toR q.d * 8.31451 * toR q.t * Z| ≤ 1.75e-9 * (toR q.d * 8.31451 * toR q.t * Z) := by
    refine hp.trans ?_
    have k : (0 : ℝ) ≤ 1e-9 * (toR q.d * 8.31451 * toR q.t) := by positivity
    have := mul_le_mul_of_nonneg_left z3 k
    have := mul_le_mul_of_nonneg_left z1 k
    norm_num at *
    nlinarith
  obtain ⟨p0, lp⟩ := log_of_rel hp' P0 (by norm_num)
  have lo : 3e-4 ≤ toR p / (8.31451 * toR q.t) := by
    rw [le_div_iff₀ T0']
    have := (abs_le.1 hp').1
    have m1 := mul_le_mul d1 z1 (by norm_num) D0.le
    have m2 := mul_le_mul_of_nonneg_left m1 T0'.le
    norm_num at this m2 ⊢
    nlinarith
  have hi : toR p / (8.31451 * toR q.t) ≤ 0.66 := by
    rw [div_le_iff₀ T0']
    have := (abs_le.1 hp').2
    have m1 := mul_le_mul d2 z2 Z0.le (by norm_num)
    have m2 := mul_le_mul_of_nonneg_left m1 T0'.le
    norm_num at this m2 ⊢
    nlinarith
  -- the same object
  have e : new0 = Detail.newP := Except.ok.inj (hnew.symm.trans Detail.new_ok)
  have e1' : (Detail.freshOf q).pressure = .ok (s1, p) := by rw [e] at e1; exact e1
  have eP := Except.ok.inj ((Detail.pressure_ok (Detail.freshOf q)).symm.trans e1')
  let q' : Detail.Pub Float := { q with p := p, z := s1.z }
  have far : Detail.XFar q.x (fill 21 (f% 0.0)) ∧ Detail.TFar q.t (f% 0.0) :=
    (Detail.dens_normal (q := q') fx hx hx' ht t1 t2 fp lo hi).far
  have hw := Detail.after_pressure F64.selfDiff far.1 far.2 p
  rw [eP] at hw
  obtain ⟨s', d, a1, -, a0, a2, a3, a4, -, a5⟩ := C74_detail_natural_gas_density hL hN new0 hnew q' fx hx hx' ht t1 t2 fp lo hi fd D0.le
  have a1' : (Detail.freshOf q').density = .ok (s', .ok ()) := by rw [e] at a1; exact a1
  have eD := Except.ok.inj ((Detail.density_ok (Detail.freshOf q')).symm.trans a1')
  have b1 : (Detail.densityP (Detail.withP s1 p)).2 = .ok () := hw.1.trans (congrArg Prod.snd eD)
  have b2 : (Detail.densityP (Detail.withP s1 p)).1.d = s'.d := (congrArg Detail.Pub.d hw.2).trans (congrArg (fun r => r.1.d) eD)
  have a4' : d * 8.31451 * toR q.t * Eos.Z (fun i => toR (aget q.x i)) d (toR q.t) = toR p := a4
  have c := Detail.Ng.density_le hx t1 t2 hi a2 a3 (C74_natural_gas_stable _ hx _ t1 t2) a4'
  have near : |Real.log d - Real.log (toR q.d)| ≤ 2.3e-9 := by
    rw [← a4', hZ] at lp
    obtain ⟨l1, l2⟩ := abs_le.1 lp
    rcases le_total d (toR q.d) with o | o
    · have s := (Detail.Ng.slope_D hx t1 t2 a2 o (d2.trans (by norm_num))).1
      have := Real.log_le_log a2 o
      rw [abs_le]
      norm_num at l1 l2 s ⊢
      constructor <;> linarith
    · have s := (Detail.Ng.slope_D hx t1 t2 D0 o c).1
      have := Real.log_le_log D0 o
      rw [abs_le]
      norm_num at l1 l2 s ⊢
      constructor <;> linarith
  refine ⟨s1, p, (Detail.densityP (Detail.withP s1 p)).1, e1, ?_, ?_, ?_⟩
  · exact (Detail.density_ok (Detail.withP s1 p)).trans (by rw [← b1])
  · rw [b2]; assumption
  · rw [b2]
    have := abs_le.1 near
    have := abs_le.1 a5
    rw [abs_le]
    norm_num at *
    constructor <;> linarith

namespace Gerg

/-- What the composition of an input gives. -/
theorem rt_mix {q : Pub Float} (hq : ErrDomain q) (hx : ∀ i : Fin 22, 1 ≤ i.1 → 0 ≤ toR (aget q.x i))
    (hs2 : ∑ i : Fin 22 with 1 ≤ i.1, toR (aget q.x i) ≤ 1.01) :
    Present (xr q.x) ∧ (∀ i : Fin 22, 1 ≤ i.1 → 0 ≤ yOf (xr q.x) i) ∧ ∑ i : Fin 22 with 1 ≤ i.1, yOf (xr q.x) i ≤ 1.01 ∧
      0 ≤ GergEos.invRhoR (yOf (xr q.x)) := by
  have fe := fracs_eq (okX_of hq)
  obtain ⟨k, k1, k2⟩ := hq.x_big
  have k2' : 1 / 100 ≤ aget (xr q.x) k := by rw [xr_get]; exact k2
  refine ⟨⟨k, k1, le_trans (by norm_num) k2'⟩, fun i hi => by rw [← fe i hi]; exact le_max_right _ _, ?_,
    le_trans (by norm_num) (vr_low k1 k2')⟩
  refine le_of_eq_of_le (Finset.sum_congr rfl fun i hi => ?_) hs2
  have hi := (Finset.mem_filter.1 hi).2
  rw [← fe i hi]
  exact max_eq_left (hx i hi)

/-- The compression factor at a small reduced density. -/
theorem rt_z {q : Pub Float} (hq : ErrDomain q) (hx : ∀ i : Fin 22, 1 ≤ i.1 → 0 ≤ toR (aget q.x i))
    (hs2 : ∑ i : Fin 22 with 1 ≤ i.1, toR (aget q.x i) ≤ 1.01) (hT : 1.1 * GergEos.Tr (fracs q) ≤ toR q.t) (D0 : 0 ≤ toR q.d)
    (c0 : toR q.d * GergEos.invRhoR (fracs q) ≤ if GergEos.Tr (fracs q) / toR q.t ≤ 8 / 10 then 0.06 else 0.05) :
    0.915 ≤ GergEos.Z (fracs q) (toR q.d) (toR q.t) ∧ GergEos.Z (fracs q) (toR q.d) (toR q.t) ≤ 1.0882 := by
  have T0 : 0 < toR q.t := by linarith [hq.t_low]
  have fe := fracs_eq (okX_of hq)
  have eT : GergEos.Tr (fracs q) = GergEos.Tr (yOf (xr q.x)) := reducing_congr' fe _ _
  have eV : GergEos.invRhoR (fracs q) = GergEos.invRhoR (yOf (xr q.x)) := reducing_congr' fe _ _
  obtain ⟨hP, y0, ys, v0⟩ := rt_mix hq hx hs2
  have t2 := hq.t_red1
  rw [eT] at hT t2 c0
  rw [eV] at c0
  obtain ⟨ρ, m, ρ0, ρ1, m1, m2, -, b2, b3⟩ := isotherm hP y0 ys v0 T0 hT t2 D0 c0
  have Z0 := (b2 _ D0 (le_mul_of_one_le_right D0 (Real.one_le_exp ρ0.le))).1
  rw [Z_congr' fe]
  generalize GergEos.Z (yOf (xr q.x)) (toR q.d) (toR q.t) = Z at *
  have lz : |Real.log Z| ≤ 0.0844 := by
    have := mul_le_mul m2 ρ1 ρ0.le (by norm_num)
    norm_num at this b3 ⊢
    linarith
  constructor
  · have := Real.add_one_le_exp (-0.0844 : ℝ)
    have h2 := Real.exp_le_exp.2 (abs_le.1 lz).1
    rw [Real.exp_log Z0] at h2
    norm_num at this h2 ⊢
    linarith
  · rw [← Real.exp_log Z0]
    exact (Real.exp_le_exp.2 (abs_le.1 lz).2).trans (GergEos.MixT.exp_le (by norm_num) (by norm_num) (by norm_num))

/-- Two densities with nearly the same pressure. -/
theorem rt_near {q : Pub Float} (hq : ErrDomain q) (hx : ∀ i : Fin 22, 1 ≤ i.1 → 0 ≤ toR (aget q.x i))
    (hs2 : ∑ i : Fin 22 with 1 ≤ i.1, toR (aget q.x i) ≤ 1.01) (hT : 1.1 * GergEos.Tr (fracs q) ≤ toR q.t) {D D' p p' : ℝ}
    (p0 : 0 < p) (p0' : 0 < p')
    (c : p / (8.314472 * toR q.t) * GergEos.invRhoR (fracs q) ≤ if GergEos.Tr (fracs q) / toR q.t ≤ 8 / 10 then 0.06 else 0.05)
    (c' : p' / (8.314472 * toR q.t) * GergEos.invRhoR (fracs q) ≤ if GergEos.Tr (fracs q) / toR q.t ≤ 8 / 10 then 0.06 else 0.05)
    (hD : 0 < D) (hd : D * GergEos.invRhoR (fracs q) ≤ 1 / 2) (hD' : 0 < D') (hd' : D' * GergEos.invRhoR (fracs q) ≤ 1 / 2)
    (e : D * 8.314472 * toR q.t * GergEos.Z (fracs q) D (toR q.t) = p)
    (e' : D' * 8.314472 * toR q.t * GergEos.Z (fracs q) D' (toR q.t) = p') {b : ℝ} (l : |Real.log p' - Real.log p| ≤ b) :
    |Real.log D' - Real.log D| ≤ b / 0.807 := by
  have T0 : 0 < toR q.t := by linarith [hq.t_low]
  have fe := fracs_eq (okX_of hq)
  have eT : GergEos.Tr (fracs q) = GergEos.Tr (yOf (xr q.x)) := reducing_congr' fe _ _
  have eV : GergEos.invRhoR (fracs q) = GergEos.invRhoR (yOf (xr q.x)) := reducing_congr' fe _ _
  obtain ⟨hP, y0, ys, v0⟩ := rt_mix hq hx hs2
  have t2 := hq.t_red1
  rw [eT] at hT t2 c c'
  rw [eV] at c c' hd hd'
  rw [Z_congr' fe] at e e'
  obtain ⟨l1, l2⟩ := abs_le.1 l
  rw [abs_le]
  rcases le_total p p' with o | o
  · obtain ⟨o1, o2⟩ := order_mix hP y0 ys v0 T0 hT le_rfl t2 p0 o c c' hD hd hD' hd' e e'
    have lo := Real.log_le_log p0 o
    rw [sub_self, mul_zero, add_zero] at o1 o2
    norm_num at o1 o2 ⊢
    constructor <;> linarith
  · obtain ⟨o1, o2⟩ := order_mix hP y0 ys v0 T0 hT le_rfl t2 p0' o c' c hD' hd' hD hd e' e
    have lo := Real.log_le_log p0' o
    rw [sub_self, mul_zero, add_zero] at o1 o2
    norm_num at o1 o2 ⊢
    constructor <;> linarith

/-- The pressure, as a relative error and with its range. -/
theorem rt_pressure {D T Z p : ℝ} (D0 : 3.5e-4 ≤ D) (T0 : 0 < T) (z1 : 0.915 ≤ Z) (z2 : Z ≤ 1.0882)
    (h : |p - D * 8.314472 * T * Z| ≤ 1.3e-8 * (D * 8.314472 * T * Z)) :
    3e-4 ≤ p / (8.314472 * T) ∧ p / (8.314472 * T) ≤ 1.0883 * D ∧ D * 8.314472 * T * Z / (8.314472 * T) ≤ 1.0883 * D := by
  have T0' : 0 < 8.314472 * T := by positivity
  have D1 : 0 < D := lt_of_lt_of_le (by norm_num) D0
  have e : D * 8.314472 * T * Z = 8.314472 * T * (D * Z) := by ring
  rw [e] at h ⊢
  obtain ⟨h1, h2⟩ := abs_le.1 h
  have m1 := mul_le_mul D0 z1 (by norm_num) D1.le
  have m2 := mul_le_mul_of_nonneg_left z2 D1.le
  generalize D * Z = u at *
  have n1 := mul_le_mul_of_nonneg_left m1 T0'.le
  have n2 := mul_le_mul_of_nonneg_left m2 T0'.le
  have n3 : 0 < 8.314472 * T * D := by positivity
  refine ⟨?_, ?_, ?_⟩
  · rw [le_div_iff₀ T0']
    norm_num at h1 n1 ⊢
    linarith
  · rw [div_le_iff₀ T0']
    norm_num at h2 n2 n3 ⊢
    linarith
  · rw [div_le_iff₀ T0']
    norm_num at n2 n3 ⊢
    linarith

end Gerg

/-- C80, GERG-2008: for every gas mixture with fractions that sum to 1 within 0.01, at a temperature from 1.1 to 100 times its reducing
temperature and a density of at least 3.5e-4 mol/l and at most 0.045 times the reducing density (0.055 times it from 1.25 times the
reducing temperature on), `density` at the pressure that `pressure` returned, on the same object, reports success and gives the density
back within the factor `exp 1.15e-7`. -/
theorem C80_gerg_round_trip (hL : LibmAccurate) (hN : LnAccurate) (new0 : Gerg Float) (hnew : Gerg.new = .ok new0)
    (q : Gerg.Pub Float) (hq : Gerg.ErrDomain q) (hx : ∀ i : Fin 22, 1 ≤ i.1 → 0 ≤ toR (aget q.x i))
    (hs1 : 0.99 ≤ ∑ i : Fin 22 with 1 ≤ i.1, toR (aget q.x i)) (hs2 : ∑ i : Fin 22 with 1 ≤ i.1, toR (aget q.x i) ≤ 1.01)
    (hT : 1.1 * GergEos.Tr (Gerg.fracs q) ≤ toR q.t) (d1 : 3.5e-4 ≤ toR q.d) (d2 : toR q.d ≤ 270)
    (d3 : toR q.d * GergEos.invRhoR (Gerg.fracs q) ≤ if 1.25 * GergEos.Tr (Gerg.fracs q) ≤ toR q.t then 0.055 else 0.045) :
    ∃ s1 p s2, (Gerg.setPub new0 q).pressure = .ok (s1, p) ∧ Gerg.density { s1 with p := p } 0 = .ok (s2, .ok ()) ∧
      0 < toR s2.d ∧ |Real.log (toR s2.d) - Real.log (toR q.d)| ≤ 1.15e-7 := by
  have D0 : 0 < toR q.d := lt_of_lt_of_le (by norm_num) d1
  have T0 : 0 < toR q.t := by linarith [hq.t_low]
  have dδ : toR q.d * GergEos.invRhoR (Gerg.fracs q) ≤ 1 / 10 := d3.trans (by split_ifs <;> norm_num)
  have hif : 1.25 * GergEos.Tr (Gerg.fracs q) ≤ toR q.t ↔ GergEos.Tr (Gerg.fracs q) / toR q.t ≤ 8 / 10 := by
    rw [div_le_iff₀ T0]
    norm_num
    constructor <;> intro _ <;> linarith
  obtain ⟨z1, z2⟩ := Gerg.rt_z hq hx hs2 hT D0.le (by
    refine d3.trans ?_
    simp only [hif]
    split_ifs <;> norm_num)
  have Z0 : 0 < GergEos.Z (Gerg.fracs q) (toR q.d) (toR q.t) := lt_of_lt_of_le (by norm_num) z1
  -- the pressure
  have cz := (Gerg.mix_cond hL q hq hx hs1 hs2 hT (le_trans (by norm_num) d1) (dδ.trans (by norm_num))).z.cond
  have hK : GergEos.loss (toR q.d * GergEos.invRhoR (Gerg.fracs q)) (GergEos.Tr (Gerg.fracs q) / toR q.t) ≤ 13 := by
    unfold GergEos.loss
    rw [if_pos dδ, if_pos dδ]
    split_ifs <;> norm_num
  obtain ⟨s1, p, e1, -, fp, -, hp⟩ := C60_gerg_pressure_error hL hN new0 hnew q hq
  have P0 : 0 < toR q.d * 8.314472 * toR q.t * GergEos.Z (Gerg.fracs q) (toR q.d) (toR q.t) := by positivity
  have hp' : |toR p - toR q.d * 8.314472 * toR q.t * GergEos.Z (Gerg.fracs q) (toR q.d) (toR q.t)|
      ≤ 1.3e-8 * (toR q.d * 8.314472 * toR q.t * GergEos.Z (Gerg.fracs q) (toR q.d) (toR q.t)) := by
    refine hp.trans ?_
    have k : (0 : ℝ) ≤ 1e-9 * (toR q.d * 8.314472 * toR q.t) := by positivity
    have w1 := mul_le_mul_of_nonneg_left (cz.trans (mul_le_mul_of_nonneg_right hK Z0.le)) k
    clear hp cz
    generalize GergEos.Z (Gerg.fracs q) (toR q.d) (toR q.t) = Z at *
    generalize GergEos.Zabs (Gerg.fracs q) (toR q.d) (toR q.t) = A at *
    norm_num at w1 ⊢
    linarith
  obtain ⟨p0, lp⟩ := log_of_rel hp' P0 (by norm_num)
  obtain ⟨lo, up, up'⟩ := Gerg.rt_pressure d1 T0 z1 z2 hp'
  have red : ∀ {r : ℝ}, r ≤ 1.0883 * toR q.d →
      r * GergEos.invRhoR (Gerg.fracs q) ≤ if 1.25 * GergEos.Tr (Gerg.fracs q) ≤ toR q.t then 0.06 else 0.05 := by
    intro r hr
    have v0 := (Gerg.rt_mix hq hx hs2).2.2.2
    rw [← show GergEos.invRhoR (Gerg.fracs q) = GergEos.invRhoR (Gerg.yOf (Gerg.xr q.x)) from Gerg.reducing_congr' (Gerg.fracs_eq (Gerg.okX_of hq)) _ _] at v0
    have w1 := mul_le_mul_of_nonneg_right hr v0
    clear hp hp' cz
    split_ifs at d3 ⊢ <;> norm_num at d3 w1 ⊢ <;> linarith
  have p300 : toR p / (8.314472 * toR q.t) ≤ 300 := up.trans (by norm_num; linarith)
  -- the same object
  have e := Gerg.new_inj hnew
  have e1' : (Gerg.freshOf q).pressure = .ok (s1, p) := by rw [e] at e1; exact e1
  have eP := Except.ok.inj ((Gerg.pressure_ok (Gerg.reachable_fresh q).idx).symm.trans e1')
  let q' : Gerg.Pub Float := { q with p := p, z := s1.z }
  have hd : Gerg.DensDomain q' := by
    have T0' : 0 < 8.314472 * toR q.t := by positivity
    have b1 := lo
    have b2 := p300
    have t1 := hq.t_low
    have t2 := hq.t_high
    rw [le_div_iff₀ T0'] at b1
    rw [div_le_iff₀ T0'] at b2
    refine ⟨hq.t_fin, hq.t_low, hq.t_high, hq.t_red1, hq.t_red2, fp, ?_, ?_, hq.x_fin, fun i hi => ?_, hq.x_big⟩
    · show 1e-6 ≤ toR p
      norm_num at b1 ⊢
      linarith
    · show toR p ≤ 1e9
      norm_num at b2 ⊢
      linarith
    · rcases hq.x_rng i hi with h | h
      · exact Or.inl (le_antisymm h (hx i hi))
      · exact Or.inr h
  have far : Gerg.XFar q.x (fill 22 (f% 0.0)) ∧ Gerg.TFar q.t (f% 0.0) := hd.far
  have hw := Gerg.after_pressure F64.selfDiff far.1 far.2 p
  rw [eP] at hw
  obtain ⟨s', d, a1, -, a0, a2, a3, a4, -, a5⟩ := C72_gerg_mixture_density hL hN new0 hnew q' hd hs2 hT lo p300 (red up) hq.d_fin D0.le 0 le_rfl
  have a1' : (Gerg.freshOf q').density 0 = .ok (s', .ok ()) := by rw [e] at a1; exact a1
  have eD := Except.ok.inj ((Gerg.density_ok (s := Gerg.freshOf q') (Gerg.reachable_fresh q').idx 0).symm.trans a1')
  have b1 : (Gerg.densityP (Gerg.withP s1 p) 0).2 = .ok () := hw.1.trans (congrArg Prod.snd eD)
  have b2 : (Gerg.densityP (Gerg.withP s1 p) 0).1.d = s'.d := (congrArg Gerg.Pub.d hw.2.1).trans (congrArg (fun r => r.1.d) eD)
  have r1 := red up
  have r2 := red up'
  simp only [hif] at r1 r2
  have near := Gerg.rt_near hq hx hs2 hT P0 p0 r2 r1 D0 (dδ.trans (by norm_num)) a2 a3 rfl a4 lp
  refine ⟨s1, p, (Gerg.densityP (Gerg.withP s1 p) 0).1, e1, ?_, ?_, ?_⟩
  · exact (Gerg.density_ok (s := Gerg.withP s1 p) hw.2.2 0).trans (by rw [← b1])
  · rw [b2]; assumption
  · rw [b2]
    have n1 := abs_le.1 near
    have n2 := abs_le.1 a5
    rw [abs_le]
    norm_num at n1 n2 ⊢
    constructor <;> linarith

end Aga8

/-! ## The hypotheses can be met -/

namespace Aga8

open F64

variable [Libm]

theorem quarter_ok : IsFinite (f% 0.25 : Float) ∧ toR (f% 0.25 : Float) = 0.25 := by
  have c : decChk true 10 10 ⟨25, 2⟩ = true := by decide +kernel
  refine ⟨decChk_fin c, ?_⟩
  show toR (litF ⟨25, 2⟩) = 0.25
  rw [(decChk_val c).2.1 rfl]; norm_num [decR]

namespace Detail

/-- The gas of C74 at 300 K and 0.25 mol/l. -/
def ngQuarter : Pub Float := { ng1 with d := f% 0.25 }

end Detail

namespace Gerg

/-- Equal parts of methane and nitrogen at 300 K and 0.25 mol/l. -/
def mixQuarter : Pub Float := { errMix with d := f% 0.25 }

theorem mixQuarter_ok : (∀ i, IsFinite (aget mixQuarter.x i) ∧
      toR (aget mixQuarter.x i) = if i = 1 then 0.5 else if i = 2 then 0.5 else 0) ∧
    IsFinite mixQuarter.t ∧ toR mixQuarter.t = 300 ∧ IsFinite mixQuarter.d ∧ toR mixQuarter.d = 0.25 := by
  obtain ⟨hx, ft, ht, -⟩ := errMix_ok
  exact ⟨hx, ft, ht, quarter_ok⟩

theorem mixQuarter_fracs : fracs mixQuarter = fracs errMix := rfl

theorem mixQuarter_dom : ErrDomain mixQuarter := by
  obtain ⟨hx, ft, ht, fd, hd⟩ := mixQuarter_ok
  obtain ⟨T1, T2⟩ := errMix_Tr
  obtain ⟨V1, V2⟩ := errMix_V
  refine ⟨ft, by rw [ht]; norm_num, by rw [ht]; norm_num, by rw [ht, mixQuarter_fracs]; linarith,
    by rw [ht, mixQuarter_fracs]; linarith, fd, Or.inr ⟨by rw [hd]; norm_num, by rw [hd]; norm_num⟩,
    by rw [hd, mixQuarter_fracs]; norm_num at V2 ⊢; linarith, fun i _ => (hx i).1, fun i _ => ?_, 1, by decide, ?_⟩
  · rw [(hx i).2]
    split
    · exact Or.inr ⟨by norm_num, by norm_num⟩
    · split
      · exact Or.inr ⟨by norm_num, by norm_num⟩
      · exact Or.inl le_rfl
  · rw [(hx 1).2, if_pos rfl]; norm_num

end Gerg

attribute [local irreducible] Gerg.mixQuarter

/-- The gas of C74 at 300 K and 0.25 mol/l meets the hypotheses. -/
example (hL : LibmAccurate) (hN : LnAccurate) (new0 : Detail Float) (hnew : Detail.new = .ok new0) :
    ∃ s1 p s2, (Detail.setPub new0 Detail.ngQuarter).pressure = .ok (s1, p) ∧ Detail.density { s1 with p := p } = .ok (s2, .ok ()) ∧
      |Real.log (toR s2.d) - Real.log 0.25| ≤ 7.5e-8 := by
  obtain ⟨hx, ht, -⟩ := Detail.ng1_ok
  have ht' : toR Detail.ngQuarter.t = 300 := ht
  have hd : toR Detail.ngQuarter.d = 0.25 := quarter_ok.2
  obtain ⟨s1, p, s2, e1, e2, -, e3⟩ := C80_detail_round_trip hL hN new0 hnew Detail.ngQuarter (fun i => (hx i).1) Detail.ng1_normal
    (fun i => Detail.ng1_min i) Detail.errLow_ok.2.1 (by rw [ht']; norm_num) (by rw [ht']; norm_num) quarter_ok.1
    (by rw [hd]; norm_num) (by rw [hd]; norm_num)
  rw [hd] at e3
  exact ⟨s1, p, s2, e1, e2, e3⟩

/-- Equal parts of methane and nitrogen at 300 K and 0.25 mol/l meet the hypotheses. -/
example (hL : LibmAccurate) (hN : LnAccurate) (new0 : Gerg Float) (hnew : Gerg.new = .ok new0) :
    ∃ s1 p s2, (Gerg.setPub new0 Gerg.mixQuarter).pressure = .ok (s1, p) ∧ Gerg.density { s1 with p := p } 0 = .ok (s2, .ok ()) ∧
      |Real.log (toR s2.d) - Real.log 0.25| ≤ 1.15e-7 := by
  obtain ⟨hx, ft, ht, fd, hd⟩ := Gerg.mixQuarter_ok
  obtain ⟨T1, T2⟩ := Gerg.errMix_Tr
  obtain ⟨V1, V2⟩ := Gerg.errMix_V
  have hs : ∑ i : Fin 22 with 1 ≤ i.1, toR (aget Gerg.mixQuarter.x i) = 1 := by
    simp only [(hx _).2]
    rw [Finset.sum_eq_add (1 : Fin 22) 2 (by decide)]
    · rw [if_pos rfl, if_neg (by decide), if_pos rfl]; norm_num
    · intro i _ h
      rw [if_neg h.1, if_neg h.2]
    · intro h; exact absurd (by decide) h
    · intro h; exact absurd (by decide) h
  obtain ⟨s1, p, s2, e1, e2, -, e3⟩ := C80_gerg_round_trip hL hN new0 hnew Gerg.mixQuarter Gerg.mixQuarter_dom
    (fun i _ => by rw [(hx i).2]; split <;> [norm_num; (split <;> norm_num)]) (by rw [hs]; norm_num) (by rw [hs]; norm_num)
    (by rw [ht, Gerg.mixQuarter_fracs]; norm_num; linarith) (by rw [hd]; norm_num) (by rw [hd]; norm_num)
    (by rw [hd, Gerg.mixQuarter_fracs]; refine le_trans ?_ (show (0.045 : ℝ) ≤ _ by split_ifs <;> norm_num); norm_num at V2 ⊢; linarith)
  rw [hd] at e3
  exact ⟨s1, p, s2, e1, e2, e3⟩

end Aga8
