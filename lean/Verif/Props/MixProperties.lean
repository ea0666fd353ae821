import Verif.Lemmas.GergMixRegion
import Verif.Props.CondError
import Verif.Props.GergEos
import Verif.Props.GergEnergyError
import Verif.Props.GergDensityError

/-! # C71: gas mixtures with GERG-2008

The mixtures are those of the 21 components with fractions that are not negative and sum to at most 1.01, at temperatures from
1.1 times to 100 times the reducing temperature and densities up to half the reducing density. Two theorems are about real numbers,
the other two about IEEE-754 arithmetic, with any `exp`, `powf`, `powi` and `ln` that are accurate in the sense of
`Spec/F64Accuracy`. -/

set_option linter.unusedSectionVars false

namespace Aga8

open F64
open Gerg (Pub setPub ErrDomain fracs)

attribute [local irreducible] Gerg.newP Gerg.pressureP Gerg.propertiesP Gerg.densityP

section real

variable {q : Pub ℝ} (hx : ∀ i : Fin 22, 1 ≤ i.1 → aget q.x i = 0 ∨ 1e-15 < aget q.x i) {y : Fin 22 → ℝ} (hy : ∀ i, y i = aget q.x i)
include hx hy

theorem Gerg.mix_yOf : ∀ i : Fin 22, 1 ≤ i.1 → y i = Gerg.yOf q.x i := by
  intro i hi
  rw [hy]
  unfold Gerg.yOf
  rcases hx i hi with h | h
  · rw [h, if_neg (by norm_num)]
  · rw [if_pos h]

end real

/-- C71, stability: over the real numbers, for every mixture of fractions that sum to at most 1.01 (each zero or above 1e-15, one of
them at least 1e-6), at a temperature from 1.1 to 100 times the reducing temperature, the pressure that `pressure` returns increases
with the density from zero up to half the reducing density: of two densities in this range, the larger one has the larger pressure.
So at most one density in this range has a given pressure. -/
theorem C71_gerg_pressure_increases (new0 : Gerg ℝ) (hnew : Gerg.new = .ok new0) (q : Pub ℝ)
    (hx : ∀ i : Fin 22, 1 ≤ i.1 → aget q.x i = 0 ∨ 1e-15 < aget q.x i) (hp : ∃ i : Fin 22, 1 ≤ i.1 ∧ 1e-6 ≤ aget q.x i)
    (hs : ∑ i : Fin 22 with 1 ≤ i.1, aget q.x i ≤ 1.01) (ht : 1e-7 < q.t)
    (ht1 : 1.1 * GergEos.Tr (aget q.x) ≤ q.t) (ht2 : q.t ≤ 100 * GergEos.Tr (aget q.x))
    (d1 d2 : ℝ) (h0 : 0 ≤ d1) (h12 : d1 < d2) (hd : d2 * GergEos.invRhoR (aget q.x) ≤ 1 / 2) :
    ∃ s1 p1 s2 p2, (setPub new0 { q with d := d1 }).pressure = .ok (s1, p1) ∧
      (setPub new0 { q with d := d2 }).pressure = .ok (s2, p2) ∧ p1 < p2 := by
  have e := Gerg.mix_yOf hx (y := aget q.x) (fun _ => rfl)
  have hP : Gerg.Present q.x := hp
  have eT : GergEos.Tr (aget q.x) = GergEos.Tr (Gerg.yOf q.x) := Gerg.reducing_congr' e _ _
  have eV : GergEos.invRhoR (aget q.x) = GergEos.invRhoR (Gerg.yOf q.x) := Gerg.reducing_congr' e _ _
  have T0 : 0 < q.t := lt_trans (by norm_num) ht
  rw [eT] at ht1 ht2
  rw [eV] at hd
  have hx0 : ∀ i : Fin 22, 1 ≤ i.1 → 0 ≤ Gerg.yOf q.x i := fun i hi => by
    rw [← e i hi]
    rcases hx i hi with h | h
    · rw [h]
    · exact le_trans (by norm_num) h.le
  have s2 : ∑ i : Fin 22 with 1 ≤ i.1, Gerg.yOf q.x i ≤ 1.01 := by
    refine le_trans (le_of_eq ?_) hs
    exact Finset.sum_congr rfl fun i hi => (e i (Finset.mem_filter.1 hi).2).symm
  have hv : 0 ≤ GergEos.invRhoR (Gerg.yOf q.x) := by
    have := hP.vr
    rw [Gerg.vrX_eq] at this
    exact le_trans (by norm_num) this.le
  have m := Gerg.mix_mono (T := q.t) hx0 s2 hv (by rw [le_div_iff₀ T0]; linarith) (by rw [div_mul_eq_mul_div, div_le_one T0]; linarith) hd
  obtain ⟨-, s1, h1⟩ := C44_gerg_pressure_is_gerg2008 new0 hnew { q with d := d1 } hp ht (Gerg.yOf q.x) (fun _ => rfl) _ _ rfl rfl
  obtain ⟨-, s2, h2⟩ := C44_gerg_pressure_is_gerg2008 new0 hnew { q with d := d2 } hp ht (Gerg.yOf q.x) (fun _ => rfl) _ _ rfl rfl
  refine ⟨s1, _, s2, _, h1, h2, ?_⟩
  have := m (Set.mem_Icc.2 ⟨h0, h12.le⟩) (Set.mem_Icc.2 ⟨h0.trans h12.le, le_refl d2⟩) h12
  unfold GergEos.Z at this
  have k := mul_lt_mul_of_pos_left this (show (0 : ℝ) < 8.314472 * q.t by positivity)
  refine lt_of_eq_of_lt ?_ (lt_of_lt_of_eq k ?_)
  · show d1 * 8.314472 * q.t * _ = _; ring
  · show _ = d2 * 8.314472 * q.t * _; ring

variable [Libm]

/-- The loss by cancellation of a gas mixture. -/
theorem Gerg.mix_cond (hL : LibmAccurate) (q : Pub Float) (hq : ErrDomain q)
    (hx : ∀ i : Fin 22, 1 ≤ i.1 → 0 ≤ toR (aget q.x i)) (hs1 : 0.99 ≤ ∑ i : Fin 22 with 1 ≤ i.1, toR (aget q.x i))
    (hs2 : ∑ i : Fin 22 with 1 ≤ i.1, toR (aget q.x i) ≤ 1.01) (hT : 1.1 * GergEos.Tr (fracs q) ≤ toR q.t) (hD : 1e-4 ≤ toR q.d)
    (hδ : toR q.d * GergEos.invRhoR (fracs q) ≤ 1 / 2) :
    GergEos.Conditioned (fracs q) (toR q.d) (toR q.t) (GergEos.loss (toR q.d * GergEos.invRhoR (fracs q)) (GergEos.Tr (fracs q) / toR q.t)) := by
  have es : ∑ i : Fin 22 with 1 ≤ i.1, Gerg.fracs q i = ∑ i : Fin 22 with 1 ≤ i.1, toR (aget q.x i) :=
    Finset.sum_congr rfl fun i hi => max_eq_left (hx i (Finset.mem_filter.1 hi).2)
  have T0 : 0 < toR q.t := by linarith [hq.t_low]
  have D0 : 0 ≤ toR q.d := le_trans (by norm_num) hD
  have v0 : 0 ≤ GergEos.invRhoR (fracs q) := by
    obtain ⟨k, hk, hx⟩ := hq.x_big
    rw [show GergEos.invRhoR (fracs q) = GergEos.invRhoR (Gerg.yOf (Gerg.xr q.x)) from Gerg.reducing_congr' (Gerg.fracs_eq (Gerg.okX_of hq)) _ _]
    exact le_trans (by norm_num) (Gerg.vr_low (x := Gerg.xr q.x) hk (by rw [Gerg.xr_get]; exact hx))
  obtain ⟨i, j, b, hk⟩ := GergEos.MixT.region (δ := toR q.d * GergEos.invRhoR (fracs q)) (τ := GergEos.Tr (fracs q) / toR q.t)
    (by rw [le_div_iff₀ T0]; linarith [hq.t_red1]) (by rw [div_mul_eq_mul_div, div_le_one T0]; linarith) (mul_nonneg D0 v0) hδ
  exact (Gerg.conditioned_box GergEos.MixT.tab_ok hL hq (by rw [es]; exact hs1) (by rw [es]; exact hs2) hD b).mono hk
    ((GergEos.loss_le _ _).2.trans (by norm_num))

theorem abs_rel {a v s K c : ℝ} (h : |a - v| ≤ c * s) (hc : 0 ≤ c) (w : WellSized v s K) : |a - v| ≤ c * K * v := by
  refine h.trans ?_
  rw [mul_assoc]
  exact mul_le_mul_of_nonneg_left w.cond hc

theorem pos_rel {a v c : ℝ} (h : |a - v| ≤ c * v) (hc : c < 1) (hv : 0 < v) : 0 < a := by
  have := (abs_le.1 h).1
  nlinarith

/-- C71, `properties`: with an accurate math library, for every mixture of fractions that sum to 0.99 to 1.01, at 50 K to 1000 K and
from 1.1 to 100 times its reducing temperature, and a density from 1e-4 mol/l up to half its reducing density, the compression
factor, the returned pressure, the derivatives of the pressure and the isochoric heat capacity that `properties` computes on a new
object are positive, and their relative errors are at most 1e-9 times `loss`, a number from 10 to 542 that depends on the reduced
density and temperature only. -/
theorem C71_gerg_mixture_properties (hL : LibmAccurate) (hN : LnAccurate) (new0 : Gerg Float) (hnew : Gerg.new = .ok new0)
    (q : Pub Float) (hq : ErrDomain q) (hx : ∀ i : Fin 22, 1 ≤ i.1 → 0 ≤ toR (aget q.x i))
    (hs1 : 0.99 ≤ ∑ i : Fin 22 with 1 ≤ i.1, toR (aget q.x i)) (hs2 : ∑ i : Fin 22 with 1 ≤ i.1, toR (aget q.x i) ≤ 1.01)
    (hT0 : 50 ≤ toR q.t) (hT1 : 1.1 * GergEos.Tr (fracs q) ≤ toR q.t) (hT2 : toR q.t ≤ 1000) (hD : 1e-4 ≤ toR q.d)
    (hδ : toR q.d * GergEos.invRhoR (fracs q) ≤ 1 / 2) (K : ℝ)
    (hK : K = GergEos.loss (toR q.d * GergEos.invRhoR (fracs q)) (GergEos.Tr (fracs q) / toR q.t)) :
    ∃ s' p, (setPub new0 q).properties = .ok (s', p) ∧
      (IsFinite s'.z ∧ IsFinite p ∧ IsFinite s'.dp_dd ∧ IsFinite s'.dp_dt ∧ IsFinite s'.cv) ∧
      (0 < toR s'.z ∧ 0 < toR p ∧ 0 < toR s'.dp_dd ∧ 0 < toR s'.dp_dt ∧ 0 < toR s'.cv) ∧
      |toR s'.z - GergEos.Z (fracs q) (toR q.d) (toR q.t)| ≤ 1e-9 * K * GergEos.Z (fracs q) (toR q.d) (toR q.t) ∧
      |toR p - toR q.d * 8.314472 * toR q.t * GergEos.Z (fracs q) (toR q.d) (toR q.t)|
        ≤ 1e-9 * K * (toR q.d * 8.314472 * toR q.t * GergEos.Z (fracs q) (toR q.d) (toR q.t)) ∧
      |toR s'.dp_dd - GergEos.pressureD (fracs q) (toR q.d) (toR q.t)|
        ≤ 1e-9 * K * GergEos.pressureD (fracs q) (toR q.d) (toR q.t) ∧
      |toR s'.dp_dt - GergEos.pressureT (fracs q) (toR q.d) (toR q.t)|
        ≤ 1e-9 * K * GergEos.pressureT (fracs q) (toR q.d) (toR q.t) ∧
      |toR s'.cv - GergEos.heatV (fracs q) (toR q.d) (toR q.t)| ≤ 1e-9 * K * GergEos.heatV (fracs q) (toR q.d) (toR q.t) := by
  have C := Gerg.mix_cond hL q hq hx hs1 hs2 hT1 hD hδ
  rw [← hK] at C
  have K1 : K ≤ 542 := by rw [hK]; exact (GergEos.loss_le _ _).2
  have K0 : 0 ≤ K := le_trans (by norm_num) (le_trans (GergEos.loss_le _ _).1 (le_of_eq hK.symm))
  obtain ⟨s1, p1, e1, f1, f2, f3, a1, a2, a3⟩ := C60_gerg_properties_error hL hN new0 hnew q hq
  obtain ⟨s2, p2, e2, -, f4, f5, -, b1, b2⟩ := C66_gerg_entropy_error hL hN new0 hnew q hq hT0 hT2 hD
  have es := Except.ok.inj (e2.symm.trans e1)
  have es1 : s2 = s1 := congrArg Prod.fst es
  subst es1
  have D0 : 0 < toR q.d := lt_of_lt_of_le (by norm_num) hD
  have T0 : 0 < toR q.t := by linarith
  have c0 : (0 : ℝ) ≤ 1e-9 := by norm_num
  have r1 := abs_rel a1 c0 C.z
  have r3 : |toR s2.dp_dd - GergEos.pressureD (fracs q) (toR q.d) (toR q.t)|
      ≤ 1e-9 * K * GergEos.pressureD (fracs q) (toR q.d) (toR q.t) := abs_rel a3 c0 C.pd
  have r4 := abs_rel b2 c0 C.pt
  have r5 := abs_rel b1 c0 C.cv
  have Z0 : 0 < GergEos.Z (fracs q) (toR q.d) (toR q.t) := lt_of_lt_of_le (by norm_num) C.z.low
  have r2 : |toR p1 - toR q.d * 8.314472 * toR q.t * GergEos.Z (fracs q) (toR q.d) (toR q.t)|
      ≤ 1e-9 * K * (toR q.d * 8.314472 * toR q.t * GergEos.Z (fracs q) (toR q.d) (toR q.t)) := by
    refine a2.trans ?_
    have h : (0 : ℝ) ≤ 1e-9 * (toR q.d * 8.314472 * toR q.t) := by positivity
    have := mul_le_mul_of_nonneg_left C.z.cond h
    linarith
  have kk : 1e-9 * K < 1 := by norm_num; linarith
  exact ⟨s2, p1, e1, ⟨f1, f2, f3, f5, f4⟩, ⟨pos_rel r1 kk Z0, pos_rel r2 kk (by positivity),
    pos_rel r3 kk (lt_of_lt_of_le (by norm_num) C.pd.low), pos_rel r4 kk (lt_of_lt_of_le (by norm_num) C.pt.low),
    pos_rel r5 kk (lt_of_lt_of_le (by norm_num) C.cv.low)⟩, r1, r2, r3, r4, r5⟩

/-- C71, derived properties: under the same conditions the isobaric heat capacity, the speed of sound and the isentropic exponent
have relative errors of at most 2.7e-9, 2.5e-9 and 6.7e-9 times `loss` (below 3.7e-6 in the whole range, and below 9e-8 up to a
tenth of the reducing density), and the Joule-Thomson coefficient is within 4.7e-9 times `loss` of the sum of its terms. -/
theorem C71_gerg_mixture_derived (hL : LibmAccurate) (hN : LnAccurate) (new0 : Gerg Float) (hnew : Gerg.new = .ok new0)
    (q : Pub Float) (hq : ErrDomain q) (hx : ∀ i : Fin 22, 1 ≤ i.1 → 0 ≤ toR (aget q.x i))
    (hs1 : 0.99 ≤ ∑ i : Fin 22 with 1 ≤ i.1, toR (aget q.x i)) (hs2 : ∑ i : Fin 22 with 1 ≤ i.1, toR (aget q.x i) ≤ 1.01)
    (hT0 : 50 ≤ toR q.t) (hT1 : 1.1 * GergEos.Tr (fracs q) ≤ toR q.t) (hT2 : toR q.t ≤ 1000) (hD : 1e-4 ≤ toR q.d)
    (hδ : toR q.d * GergEos.invRhoR (fracs q) ≤ 1 / 2) (K : ℝ)
    (hK : K = GergEos.loss (toR q.d * GergEos.invRhoR (fracs q)) (GergEos.Tr (fracs q) / toR q.t)) :
    ∃ s' p, (setPub new0 q).properties = .ok (s', p) ∧
      IsFinite s'.cp ∧ IsFinite s'.w ∧ IsFinite s'.kappa ∧ IsFinite s'.jt ∧
      |toR s'.cp - GergEos.heatP (fracs q) (toR q.d) (toR q.t)| ≤ 2.7e-9 * K * GergEos.heatP (fracs q) (toR q.d) (toR q.t) ∧
      |toR s'.w - GergEos.speed (fracs q) (toR q.d) (toR q.t)| ≤ 2.5e-9 * K * GergEos.speed (fracs q) (toR q.d) (toR q.t) ∧
      |toR s'.kappa - GergEos.exponent (fracs q) (toR q.d) (toR q.t)|
        ≤ 6.7e-9 * K * GergEos.exponent (fracs q) (toR q.d) (toR q.t) ∧
      |toR s'.jt - GergEos.jt (fracs q) (toR q.d) (toR q.t)| ≤ 4.7e-9 * K * GergEos.jtAbs (fracs q) (toR q.d) (toR q.t) := by
  have C := Gerg.mix_cond hL q hq hx hs1 hs2 hT1 hD hδ
  rw [← hK] at C
  exact C67_gerg_error hL hN new0 hnew q hq hx hT0 hT2 hD K C

/-! ## The hypotheses can be met -/

namespace Gerg

/-- Nine parts of methane and one part of nitrogen at 300 K, over the real numbers. -/
noncomputable def realMix : Pub ℝ := { pureAt 1 300 0 0 with x := aset (aset (px 1) 1 0.9) 2 0.1 }

theorem realMix_x (i : Fin 22) : aget realMix.x i = if i = 1 then 0.9 else if i = 2 then 0.1 else 0 := by
  show aget (aset (aset (px 1) 1 0.9) 2 0.1) i = _
  rw [aget_aset, aget_aset]
  by_cases h : i = 2
  · have h' : ¬ i = 1 := by rw [h]; decide
    rw [if_pos h.symm, if_neg h', if_pos h]
  · by_cases h' : i = 1
    · rw [if_neg (Ne.symm h), if_pos h'.symm, if_pos h']
    · rw [if_neg (Ne.symm h), if_neg (Ne.symm h'), if_neg h', if_neg h, aget_px, if_neg h']

theorem realMix_Tr : 100 ≤ GergEos.Tr (aget realMix.x) ∧ GergEos.Tr (aget realMix.x) ≤ 250 := by
  unfold GergEos.Tr
  rw [GergEos.reducing_pair _ _ _ (fun i h1 h2 => by rw [realMix_x]; simp [h1, h2])]
  simp only [realMix_x]
  unfold GergEos.val
  simp [Tab.GTIJ, Tab.BTIJ]
  norm_num

theorem realMix_V : GergEos.invRhoR (aget realMix.x) ≤ 0.1 := by
  unfold GergEos.invRhoR
  rw [GergEos.reducing_pair _ _ _ (fun i h1 h2 => by rw [realMix_x]; simp [h1, h2])]
  simp only [realMix_x]
  have e : (GergEos.params 1 2).1 = 0.998721377 := by decide +kernel
  unfold GergEos.val
  simp [Tab.GVIJ, e]
  norm_num

end Gerg

/-- The mixture meets the hypotheses of the stability theorem at 1 mol/l and 5 mol/l. -/
example (new0 : Gerg ℝ) (hnew : Gerg.new = .ok new0) : ∃ s1 p1 s2 p2,
    (setPub new0 { Gerg.realMix with d := 1 }).pressure = .ok (s1, p1) ∧
    (setPub new0 { Gerg.realMix with d := 5 }).pressure = .ok (s2, p2) ∧ p1 < p2 := by
  obtain ⟨T1, T2⟩ := Gerg.realMix_Tr
  have V := Gerg.realMix_V
  refine C71_gerg_pressure_increases new0 hnew Gerg.realMix (fun i _ => ?_) ⟨1, by decide, ?_⟩ ?_ (show (1e-7 : ℝ) < 300 by norm_num)
    (show _ ≤ (300 : ℝ) by norm_num; linarith) (show (300 : ℝ) ≤ _ by linarith) 1 5 (by norm_num) (by norm_num) (by norm_num at V ⊢; linarith)
  · rw [Gerg.realMix_x]
    split
    · exact Or.inr (by norm_num)
    · split
      · exact Or.inr (by norm_num)
      · exact Or.inl rfl
  · rw [Gerg.realMix_x, if_pos rfl]; norm_num
  · simp only [Gerg.realMix_x]
    rw [Finset.sum_eq_add (1 : Fin 22) 2 (by decide)]
    · rw [if_pos rfl, if_neg (by decide), if_pos rfl]; norm_num
    · intro i _ h
      rw [if_neg h.1, if_neg h.2]
    · intro h; exact absurd (by decide) h
    · intro h; exact absurd (by decide) h

/-- Equal parts of methane and nitrogen at 300 K and 2 mol/l. -/
def Gerg.denseMix : Pub Float := { Gerg.errMix with d := f% 2.0 }

theorem Gerg.denseMix_ok : (∀ i, IsFinite (aget denseMix.x i) ∧ toR (aget denseMix.x i) = if i = 1 then 0.5 else if i = 2 then 0.5 else 0) ∧
    IsFinite denseMix.t ∧ toR denseMix.t = 300 ∧ IsFinite denseMix.d ∧ toR denseMix.d = 2 := by
  obtain ⟨hx, ft, ht, fp, hp, -⟩ := Gerg.errMix_ok
  exact ⟨hx, ft, ht, fp, hp⟩

theorem Gerg.denseMix_fracs : fracs Gerg.denseMix = fracs Gerg.errMix := rfl

theorem Gerg.denseMix_dom : ErrDomain Gerg.denseMix := by
  obtain ⟨hx, ft, ht, fd, hd⟩ := Gerg.denseMix_ok
  obtain ⟨T1, T2⟩ := Gerg.errMix_Tr
  obtain ⟨V1, V2⟩ := Gerg.errMix_V
  refine ⟨ft, by rw [ht]; norm_num, by rw [ht]; norm_num, by rw [ht, Gerg.denseMix_fracs]; linarith,
    by rw [ht, Gerg.denseMix_fracs]; linarith, fd, Or.inr ⟨by rw [hd]; norm_num, by rw [hd]; norm_num⟩,
    by rw [hd, Gerg.denseMix_fracs]; norm_num at V2 ⊢; linarith, fun i _ => (hx i).1, fun i _ => ?_, 1, by decide, ?_⟩
  · rw [(hx i).2]
    split
    · exact Or.inr ⟨by norm_num, by norm_num⟩
    · split
      · exact Or.inr ⟨by norm_num, by norm_num⟩
      · exact Or.inl le_rfl
  · rw [(hx 1).2, if_pos rfl]; norm_num

/-- The mixture meets the hypotheses at 300 K and 2 mol/l, a reduced density below 0.2, so its speed of sound has a relative error
below 2.8e-7. -/
example (hL : LibmAccurate) (hN : LnAccurate) (new0 : Gerg Float) (hnew : Gerg.new = .ok new0) :
    ∃ s' p, (setPub new0 Gerg.denseMix).properties = .ok (s', p) ∧
      |toR s'.w - GergEos.speed (fracs Gerg.denseMix) 2 300| ≤ 2.8e-7 * |GergEos.speed (fracs Gerg.denseMix) 2 300| := by
  obtain ⟨hx, ft, ht, fd, hd⟩ := Gerg.denseMix_ok
  obtain ⟨T1, T2⟩ := Gerg.errMix_Tr
  obtain ⟨V1, V2⟩ := Gerg.errMix_V
  have hs : ∑ i : Fin 22 with 1 ≤ i.1, toR (aget Gerg.denseMix.x i) = 1 := by
    simp only [(hx _).2]
    rw [Finset.sum_eq_add (1 : Fin 22) 2 (by decide)]
    · rw [if_pos rfl, if_neg (by decide), if_pos rfl]; norm_num
    · intro i _ h
      rw [if_neg h.1, if_neg h.2]
    · intro h; exact absurd (by decide) h
    · intro h; exact absurd (by decide) h
  have hK : GergEos.loss (toR Gerg.denseMix.d * GergEos.invRhoR (fracs Gerg.denseMix)) (GergEos.Tr (fracs Gerg.denseMix) / toR Gerg.denseMix.t)
      ≤ 110 := by
    have c : toR Gerg.denseMix.d * GergEos.invRhoR (fracs Gerg.denseMix) ≤ 3 / 10 := by
      rw [hd, Gerg.denseMix_fracs]; norm_num at V2 ⊢; linarith
    unfold GergEos.loss
    split_ifs <;> norm_num
  obtain ⟨s', p, h, -, -, -, -, -, h2, -⟩ := C71_gerg_mixture_derived hL hN new0 hnew Gerg.denseMix Gerg.denseMix_dom
    (fun i _ => by rw [(hx i).2]; split <;> [norm_num; (split <;> norm_num)]) (by rw [hs]; norm_num) (by rw [hs]; norm_num)
    (by rw [ht]; norm_num) (by rw [ht, Gerg.denseMix_fracs]; norm_num; linarith) (by rw [ht]; norm_num) (by rw [hd]; norm_num)
    (by rw [hd, Gerg.denseMix_fracs]; norm_num at V2 ⊢; linarith) _ rfl
  have K0 := (GergEos.loss_le (toR Gerg.denseMix.d * GergEos.invRhoR (fracs Gerg.denseMix))
    (GergEos.Tr (fracs Gerg.denseMix) / toR Gerg.denseMix.t)).1
  generalize GergEos.loss _ _ = K at *
  rw [hd, ht] at h2
  refine ⟨s', p, h, h2.trans ?_⟩
  refine (mul_le_mul_of_nonneg_left (le_abs_self _) (by positivity)).trans (mul_le_mul_of_nonneg_right ?_ (abs_nonneg _))
  norm_num
  linarith

end Aga8
