import Verif.Lemmas.GergMixRange
import Verif.Props.MixDensity
import Verif.Props.NaturalGas

/-! # C88: at base conditions the two models give the same f64 density of a natural gas, within 1 %

The theorem is about IEEE-754 arithmetic, with any `exp`, `powf`, `powi` and `ln` that are accurate in the sense of
`Spec/F64Accuracy`. The two calculators have the same pressure, temperature and mole fractions (GERG-2008 counts the components from 1,
DETAIL from 0, in the same order, see `C88_same_composition`). -/

set_option linter.unusedSectionVars false

namespace Aga8.GergEos

open Mix MixTab

/-- The compression factor for densities up to 0.0051 and temperatures up to 2.5 times the reducing ones. -/
theorem MixT.base : ((List.range 33).all fun i => decide (((tab.uN (i + 1) : ℚ) / 100000) ^ 40 < 4 / 10) ||
    (decide (tab.wQ 0.0051 i 0 * tab.comb Thr.z i 0 ≤ 0.00761) && decide (tab.wQ 0.0051 i 0 * tab.comb Thr.zu i 0 ≤ 0.0016))) = true := by
  decide +kernel

theorem MixT.base_row : tab.rQ 1 = 1 / 20 := by decide +kernel

end Aga8.GergEos

namespace Aga8

open F64

attribute [local irreducible] Detail.pressureP Detail.propertiesP Detail.densityP
attribute [local irreducible] Gerg.newP Gerg.pressureP Gerg.propertiesP Gerg.densityP

namespace Gerg

open GergEos GergEos.MixTab

theorem base_Z {x : Vector ℝ 22} (hx0 : ∀ i : Fin 22, 1 ≤ i.1 → 0 ≤ yOf x i) (s2 : ∑ i : Fin 22 with 1 ≤ i.1, yOf x i ≤ 1.01)
    (v0 : 0 ≤ invRhoR (yOf x)) {T D : ℝ} (T0 : 0 < T) (t1 : 1.1 * Tr (yOf x) ≤ T) (t2 : T ≤ 2.5 * Tr (yOf x))
    (hD : 0 ≤ D) (hd : D * invRhoR (yOf x) ≤ 0.0051) : 0.99239 ≤ GergEos.Z (yOf x) D T ∧ GergEos.Z (yOf x) D T ≤ 1.0016 := by
  have Tr0 : 0 < Tr (yOf x) := by norm_num at t2; linarith
  have hτ : 0 < Tr (yOf x) / T := div_pos Tr0 T0
  have τ4 : 4 / 10 ≤ Tr (yOf x) / T := by rw [le_div_iff₀ T0]; norm_num at t2 ⊢; linarith
  have hδ : 0 ≤ D * invRhoR (yOf x) := mul_nonneg hD v0
  obtain ⟨i, m, ρ, dm', S, u0, u1⟩ := MixT.exists_strip (τ := Tr (yOf x) / T) (d0 := 0)
    (by linarith) (by rw [div_mul_eq_mul_div, div_le_one T0]; linarith) (by split_ifs <;> norm_num)
  obtain ⟨j, hj, B⟩ := MixT.exists_row S.hi (by norm_num : 0 < 16) u0 u1 hδ
    (by rw [MixT.base_row]; norm_num at hd ⊢; linarith)
  obtain rfl : j = 0 := by omega
  have c := List.all_eq_true.1 MixT.base i (List.mem_range.2 S.hi)
  simp only [Bool.or_eq_true, Bool.and_eq_true, decide_eq_true_eq] at c
  have c := c.resolve_left fun c => by
    have e : Tr (yOf x) / T ≤ ((MixT.tab.uN (i + 1) : ℝ) / 100000) ^ 40 := by
      have := pow_le_pow_left₀ (Real.rpow_nonneg hτ.le _) u1 40
      rwa [← Real.rpow_natCast, ← Real.rpow_mul hτ.le, show ((1 : ℝ) / 40 * ((40 : ℕ) : ℝ)) = 1 by norm_num, Real.rpow_one] at this
    have c' : ((MixT.tab.uN (i + 1) : ℝ) / 100000) ^ 40 < 4 / 10 := by
      have : ((((MixT.tab.uN (i + 1) : ℚ) / 100000) ^ 40 : ℚ) : ℝ) < ((4 / 10 : ℚ) : ℝ) := by exact_mod_cast c
      push_cast at this
      exact this
    linarith
  obtain ⟨c1, c2⟩ := c
  have w0 : 0 ≤ D * invRhoR (yOf x) * (Tr (yOf x) / T) ^ (t0 : ℝ) := mul_nonneg hδ (Real.rpow_nonneg hτ.le _)
  have wl := wQ_le (dm := 0.0051) B hδ hτ (hd.trans (le_of_eq (by norm_num)))
  have S' := MixT.tab_ok.sums B.hi B.hj hx0 s2 hτ B.u0 B.u1 B.r0 B.r1
  obtain ⟨vz, -⟩ := mix_values x D hτ
  rw [vz]
  have cb : ∀ {g : Thr → ℕ} {s : ℝ} {q : ℚ}, s ≤ (MixT.tab.comb g i 0 : ℝ) → MixT.tab.wQ 0.0051 i 0 * MixT.tab.comb g i 0 ≤ q →
      D * invRhoR (yOf x) * (Tr (yOf x) / T) ^ (t0 : ℝ) * s ≤ q := by
    intro g s q h1 h2
    have h2' : (MixT.tab.wQ 0.0051 i 0 : ℝ) * MixT.tab.comb g i 0 ≤ q := by exact_mod_cast h2
    have h3 := mul_le_mul_of_nonneg_left h1 w0
    have h4 := mul_le_mul_of_nonneg_right wl (MixT.tab.comb_nonneg g i 0)
    linarith
  have k1 := cb (neg_le.1 S'.z) c1
  have k2 := cb S'.zu c2
  generalize D * invRhoR (yOf x) * (Tr (yOf x) / T) ^ (t0 : ℝ) = W at *
  norm_num at k1 k2 ⊢
  constructor <;> linarith

end Gerg

variable [Libm]

namespace Detail.Ng

theorem base_chk : s1 (896 / 100000) ≤ 1 / 10000 := by decide +kernel

theorem base_Z {x : Fin 21 → ℝ} (h : Eos.NormalGas x) {D T : ℝ} (h1 : 263 ≤ T) (h2 : T ≤ 400) (hD : 0 ≤ D) (hd : D ≤ 0.08) :
    1 - 0.132 * D - 0.0001 ≤ Eos.Z x D T ∧ Eos.Z x D T ≤ 1 + 0.0303 * D + 0.0001 := by
  obtain ⟨p, -⟩ := parts h h1 h2 hD (KD_le h h1 h2 hD (R := 896 / 100000) hd (by norm_num)) (by norm_num)
  obtain ⟨a, b⟩ := abs_le.1 (p.trans (cast_le' base_chk rfl))
  obtain ⟨b1, b2, -⟩ := DB_range h h1 h2 hD
  norm_num at a b b1 b2 hd ⊢
  constructor <;> linarith

end Detail.Ng

/-- The domain of the GERG-2008 search for the natural gas of a DETAIL calculator. -/
theorem Gerg.dens_of_detail {q : Detail.Pub Float} {g : Gerg.Pub Float} (ex : ∀ i : Fin 21, aget g.x i.succ = aget q.x i)
    (et : g.t = q.t) (ep : g.p = q.p) (hq : Detail.DensDomain q) (hx : Eos.NormalGas fun i => toR (aget q.x i))
    (hx' : ∀ i, toR (aget q.x i) = 0 ∨ 1e-10 ≤ toR (aget q.x i))
    (t1 : 1.1 * GergEos.Tr (Gerg.fracs g) ≤ toR q.t) (t2 : toR q.t ≤ 2.5 * GergEos.Tr (Gerg.fracs g)) :
    Gerg.DensDomain g ∧ ∑ i : Fin 22 with 1 ≤ i.1, toR (aget g.x i) ≤ 1.01 := by
  have T0 : 1 ≤ toR q.t := hq.t_low
  have Tr0 : 0 < GergEos.Tr (Gerg.fracs g) := by norm_num at t2; linarith
  have key : ∀ i : Fin 22, 1 ≤ i.1 → ∃ j : Fin 21, i = j.succ := fun i hi => ⟨⟨i.1 - 1, by omega⟩, by ext; simp; omega⟩
  have hsum : ∑ i : Fin 22 with 1 ≤ i.1, toR (aget g.x i) = ∑ i : Fin 21, toR (aget q.x i) := by
    rw [Finset.sum_filter, Fin.sum_univ_succ]
    simp only [Fin.val_zero, Fin.val_succ, ex]
    simp
  have x2 : ∀ i, toR (aget q.x i) ≤ 2 := fun i => by
    have := Finset.single_le_sum (f := fun i => toR (aget q.x i)) (fun j _ => hx.nonneg j) (Finset.mem_univ i)
    have := hx.sum
    norm_num at this
    linarith
  refine ⟨⟨by rw [et]; exact hq.t_fin, by rw [et]; exact T0, by rw [et]; linarith [hq.t_high], ?_, ?_, by rw [ep]; exact hq.p_fin,
    by rw [ep]; exact hq.p_low, by rw [ep]; exact hq.p_high, ?_, ?_, ⟨1, by decide, ?_⟩⟩, by rw [hsum]; exact hx.sum⟩
  · rw [et]; norm_num at t2; linarith
  · rw [et]; norm_num at t1; linarith
  · intro i hi
    obtain ⟨j, rfl⟩ := key i hi
    rw [ex]; exact hq.x_fin j
  · intro i hi
    obtain ⟨j, rfl⟩ := key i hi
    rw [ex]
    exact (hx' j).imp id fun h => ⟨h, x2 j⟩
  · have : aget g.x 1 = aget q.x 0 := ex 0
    rw [this]
    have := hx.methane
    norm_num at this ⊢
    linarith

/-- C88: with an accurate math library, take a DETAIL and a GERG-2008 calculator, both new, with the same temperature, the same pressure
and the same natural gas, whose fractions are zero or at least 1e-10, at 263 K to 400 K and 1.1 to 2.5 times the GERG-2008 reducing
temperature of the gas, and a pressure whose ideal-gas density `p / (R T)` is at least 3e-4 mol/l and at most 0.05 mol/l and 0.005 times
the reducing density, as at the base conditions of gas metering. Then `density` of both reports success and the two densities differ by
at most 1 %. -/
theorem C88_models_agree_at_base_conditions (hL : LibmAccurate) (hN : LnAccurate) (newD : Detail Float) (hD : Detail.new = .ok newD)
    (newG : Gerg Float) (hG : Gerg.new = .ok newG) (q : Detail.Pub Float) (g : Gerg.Pub Float)
    (ex : ∀ i : Fin 21, aget g.x i.succ = aget q.x i) (et : g.t = q.t) (ep : g.p = q.p)
    (fx : ∀ i, IsFinite (aget q.x i)) (hx : Eos.NormalGas fun i => toR (aget q.x i))
    (hx' : ∀ i, toR (aget q.x i) = 0 ∨ 1e-10 ≤ toR (aget q.x i))
    (ht : IsFinite q.t) (t1 : 263 ≤ toR q.t) (t2 : toR q.t ≤ 400) (hp : IsFinite q.p)
    (r1 : 1.1 * GergEos.Tr (Gerg.fracs g) ≤ toR q.t) (r2 : toR q.t ≤ 2.5 * GergEos.Tr (Gerg.fracs g))
    (d1 : 3e-4 ≤ toR q.p / (8.31451 * toR q.t)) (d2 : toR q.p / (8.31451 * toR q.t) ≤ 0.05)
    (d3 : toR q.p / (8.314472 * toR q.t) * GergEos.invRhoR (Gerg.fracs g) ≤ 0.005)
    (fd : IsFinite q.d) (d0 : 0 ≤ toR q.d) (fd' : IsFinite g.d) (d0' : 0 ≤ toR g.d) (iflag : Int) (hf : iflag ≤ 0) :
    ∃ sD sG, (Detail.setPub newD q).density = .ok (sD, .ok ()) ∧ (Gerg.setPub newG g).density iflag = .ok (sG, .ok ()) ∧
      0 < toR sD.d ∧ 0 < toR sG.d ∧ |toR sG.d - toR sD.d| ≤ 0.01 * toR sD.d := by
  have T0 : 0 < toR q.t := by linarith
  have hq := Detail.dens_normal fx hx hx' ht t1 t2 hp d1 (d2.trans (by norm_num))
  obtain ⟨hg, hs⟩ := Gerg.dens_of_detail ex et ep hq hx hx' r1 r2
  have P0 : 0 < toR q.p := lt_of_lt_of_le (by norm_num) hq.p_low
  have V0 := Gerg.invRho_nonneg hg
  have m1 : toR q.p / (8.31451 * toR q.t) ≤ toR q.p / (8.314472 * toR q.t) := by
    refine div_le_div_of_nonneg_left P0.le (by positivity) ?_
    exact mul_le_mul_of_nonneg_right (by norm_num) T0.le
  have m2 : toR q.p / (8.314472 * toR q.t) ≤ 300 := by
    rw [div_le_iff₀ (by positivity)] at d2 ⊢
    norm_num at d2 ⊢
    nlinarith
  obtain ⟨sD, dD, a1, -, a2, a3, a4, a5, -, a6⟩ := C74_detail_natural_gas_density hL hN newD hD q fx hx hx' ht t1 t2 hp d1
    (d2.trans (by norm_num)) fd d0
  obtain ⟨sG, dG, b1, -, b2, b3, b4, b5, -, b6⟩ := C72_gerg_mixture_density hL hN newG hG g hg hs (by rw [et]; exact r1)
    (by rw [et, ep]; exact d1.trans m1) (by rw [et, ep]; exact m2) (by rw [et, ep]; exact d3.trans (by split_ifs <;> norm_num)) fd' d0'
    iflag hf
  rw [et, ep] at b5
  refine ⟨sD, sG, a1, b1, a2, b2, ?_⟩
  -- the compression factor of DETAIL
  have zD : 0.9932 ≤ Eos.Z (fun i => toR (aget q.x i)) dD (toR q.t) ∧ Eos.Z (fun i => toR (aget q.x i)) dD (toR q.t) ≤ 1.00165 := by
    have e : dD * Eos.Z (fun i => toR (aget q.x i)) dD (toR q.t) ≤ 0.05 := by
      have : dD * Eos.Z (fun i => toR (aget q.x i)) dD (toR q.t) = toR q.p / (8.31451 * toR q.t) := by
        rw [← a5]; field_simp
      rw [this]; exact d2
    have w := (Detail.Ng.ng_wide hx t1 t2 a3.le a4).1
    have s1 : dD ≤ 0.08 := by
      generalize Eos.Z (fun i => toR (aget q.x i)) dD (toR q.t) = z at *
      norm_num at w e ⊢
      nlinarith
    obtain ⟨w1, w2⟩ := Detail.Ng.base_Z hx t1 t2 a3.le s1
    generalize Eos.Z (fun i => toR (aget q.x i)) dD (toR q.t) = z at *
    have s2 : dD ≤ 0.0506 := by
      norm_num at w1 e s1 ⊢
      nlinarith
    norm_num at w1 w2 s2 ⊢
    constructor <;> linarith
  -- the compression factor of GERG-2008
  have zG : 0.99239 ≤ GergEos.Z (Gerg.fracs g) dG (toR q.t) ∧ GergEos.Z (Gerg.fracs g) dG (toR q.t) ≤ 1.0016 := by
    have e' : ∀ i : Fin 22, 1 ≤ i.1 → Gerg.fracs g i = Gerg.yOf (Gerg.xr g.x) i :=
      Gerg.fracs_eq (Gerg.okX_of (q := Gerg.atD g (f% 0.0)) hg.zero)
    have eV : GergEos.invRhoR (Gerg.fracs g) = GergEos.invRhoR (Gerg.yOf (Gerg.xr g.x)) := Gerg.reducing_congr' e' _ _
    have eT : GergEos.Tr (Gerg.fracs g) = GergEos.Tr (Gerg.yOf (Gerg.xr g.x)) := Gerg.reducing_congr' e' _ _
    have hx0 : ∀ i : Fin 22, 1 ≤ i.1 → 0 ≤ Gerg.yOf (Gerg.xr g.x) i := fun i hi => by rw [← e' i hi]; exact le_max_right _ _
    have s2 : ∑ i : Fin 22 with 1 ≤ i.1, Gerg.yOf (Gerg.xr g.x) i ≤ 1.01 := by
      rw [← Finset.sum_congr rfl fun i hi => e' i (Finset.mem_filter.1 hi).2, Gerg.mix_sum hg]; exact hs
    rw [Gerg.Z_congr' e'] at b5 ⊢
    rw [eV] at d3 b4 V0
    rw [eT] at r1 r2
    have eP : dG * GergEos.Z (Gerg.yOf (Gerg.xr g.x)) dG (toR q.t) = toR q.p / (8.314472 * toR q.t) := by
      rw [← b5]; field_simp
    have D0 : 0 < toR q.p / (8.314472 * toR q.t) := by positivity
    generalize toR q.p / (8.314472 * toR q.t) = D0' at *
    have δ1 : 1.02 * D0' * GergEos.invRhoR (Gerg.yOf (Gerg.xr g.x)) ≤ 0.0051 := by
      norm_num at d3 ⊢
      linarith
    have le : dG ≤ 1.02 * D0' := by
      by_contra hc
      rw [not_le] at hc
      have mono := Gerg.mix_mono (x := Gerg.xr g.x) (T := toR q.t) hx0 s2 V0 (by rw [le_div_iff₀ T0]; norm_num at r2 ⊢; linarith)
        (by rw [div_mul_eq_mul_div, div_le_one T0]; linarith) b4
      have p0 : 0 ≤ 1.02 * D0' := by positivity
      have lt := mono ⟨p0, hc.le⟩ ⟨b3.le, le_rfl⟩ hc
      have z := (Gerg.base_Z hx0 s2 V0 T0 r1 r2 p0 δ1).1
      simp only at lt
      rw [eP] at lt
      generalize GergEos.Z (Gerg.yOf (Gerg.xr g.x)) (1.02 * D0') (toR q.t) = z' at *
      norm_num at z lt
      nlinarith
    exact Gerg.base_Z hx0 s2 V0 T0 r1 r2 b3.le ((mul_le_mul_of_nonneg_right le V0).trans δ1)
  -- the densities
  have eq : dG * (8.314472 * GergEos.Z (Gerg.fracs g) dG (toR q.t)) = dD * (8.31451 * Eos.Z (fun i => toR (aget q.x i)) dD (toR q.t)) := by
    have : toR q.t * (dG * (8.314472 * GergEos.Z (Gerg.fracs g) dG (toR q.t)))
        = toR q.t * (dD * (8.31451 * Eos.Z (fun i => toR (aget q.x i)) dD (toR q.t))) := by
      linear_combination b5 - a5
    exact mul_left_cancel₀ T0.ne' this
  generalize GergEos.Z (Gerg.fracs g) dG (toR q.t) = zg at *
  generalize Eos.Z (fun i => toR (aget q.x i)) dD (toR q.t) = zd at *
  obtain ⟨zd1, zd2⟩ := zD
  obtain ⟨zg1, zg2⟩ := zG
  have q1 : dG ≤ 1.0094 * dD := by norm_num at *; nlinarith
  have q2 : 0.9915 * dD ≤ dG := by norm_num at *; nlinarith
  have l1 : Real.log dG ≤ Real.log dD + 0.0094 := by
    have := Real.log_le_log b3 q1
    rw [Real.log_mul (by norm_num) a3.ne'] at this
    have l := Real.log_le_sub_one_of_pos (x := (1.0094 : ℝ)) (by norm_num)
    norm_num at this l ⊢
    linarith
  have l2 : Real.log dD - 0.0086 ≤ Real.log dG := by
    have := Real.log_le_log (by positivity) q2
    rw [Real.log_mul (by norm_num) a3.ne'] at this
    have l := Real.one_sub_inv_le_log_of_pos (x := (0.9915 : ℝ)) (by norm_num)
    norm_num at this l ⊢
    linarith
  have a6 := abs_le.1 a6
  have b6 := abs_le.1 b6
  have u1 : toR sG.d ≤ 1.01 * toR sD.d := by
    rw [← Real.log_le_log_iff b2 (by positivity), Real.log_mul (by norm_num) a2.ne']
    have l := Real.one_sub_inv_le_log_of_pos (x := (1.01 : ℝ)) (by norm_num)
    norm_num at l a6 b6 l1 ⊢
    linarith
  have u2 : 0.99 * toR sD.d ≤ toR sG.d := by
    rw [← Real.log_le_log_iff (by positivity) b2, Real.log_mul (by norm_num) a2.ne']
    have l := Real.log_le_sub_one_of_pos (x := (0.99 : ℝ)) (by norm_num)
    norm_num at l a6 b6 l2 ⊢
    linarith
  rw [abs_le]
  norm_num at u1 u2 ⊢
  constructor <;> linarith

/-! ## The hypotheses can be met -/

theorem base100 : IsFinite (f% 100.0 : Float) ∧ toR (f% 100.0 : Float) = 100 := by
  have c : decChk true 10 10 ⟨100, 0⟩ = true := by decide +kernel
  refine ⟨decChk_fin c, ?_⟩
  show toR (F64.litF ⟨100, 0⟩) = 100
  rw [(decChk_val c).2.1 rfl]; norm_num [decR]

namespace Gerg

/-- Equal parts of methane and nitrogen at 300 K and 100 kPa. -/
def baseGas : Pub Float := { errMix with p := f% 100.0 }

theorem baseGas_x : baseGas.x = errMix.x := by unfold baseGas; with_reducible rfl
theorem baseGas_fracs : fracs baseGas = fracs errMix := by
  unfold fracs
  rw [baseGas_x]
theorem baseGas_d : IsFinite baseGas.d ∧ toR baseGas.d = 0 := by
  rw [show baseGas.d = errMix.d by unfold baseGas; with_reducible rfl]
  exact errMix_ok.2.2.2.2.2

theorem baseGas_Tr : 120 ≤ GergEos.Tr (fracs errMix) := by
  unfold GergEos.Tr
  rw [GergEos.reducing_pair _ _ _ (fun i h1 h2 => by rw [errMix_fracs]; simp [h1, h2]), errMix_fracs]
  unfold GergEos.val
  simp [Tab.GTIJ, Tab.BTIJ]
  norm_num

end Gerg

namespace Detail

/-- The same gas in the order of the DETAIL components. -/
def baseGas : Pub Float := { errLow with p := f% 100.0, x := aset (aset (fill 21 (f% 0.0)) 0 (f% 0.5)) 1 (f% 0.5) }

theorem baseGas_get (i : Fin 21) : aget baseGas.x i = if 1 = i then f% 0.5 else if 0 = i then f% 0.5 else f% 0.0 := by
  show aget (aset (aset (fill 21 (f% 0.0)) 0 (f% 0.5)) 1 (f% 0.5)) i = _
  rw [aget_aset, aget_aset, aget_fill]

theorem baseGas_x (i : Fin 21) : IsFinite (aget baseGas.x i) ∧ toR (aget baseGas.x i) = if 1 = i then 0.5 else if 0 = i then 0.5 else 0 := by
  have v : toR (litF ⟨5, 1⟩) = 0.5 := by rw [(decChk_val Gerg.chkHalf).2.1 rfl]; norm_num [decR]
  rw [baseGas_get]
  split_ifs
  · exact ⟨decChk_fin Gerg.chkHalf, v⟩
  · exact ⟨decChk_fin Gerg.chkHalf, v⟩
  · exact ⟨fin0, toR0⟩

theorem baseGas_same (i : Fin 21) : aget Gerg.baseGas.x i.succ = aget baseGas.x i := by
  rw [baseGas_get, Gerg.baseGas_x]
  show aget (aset (aset (fill 22 (f% 0.0)) 1 (f% 0.5)) 2 (f% 0.5)) i.succ = _
  rw [aget_aset, aget_aset, aget_fill]
  have e1 : ((2 : Fin 22) = i.succ) ↔ (1 : Fin 21) = i := by simp only [Fin.ext_iff, Fin.val_succ]; norm_num; omega
  have e2 : ((1 : Fin 22) = i.succ) ↔ (0 : Fin 21) = i := by simp only [Fin.ext_iff, Fin.val_succ]; norm_num; omega
  simp only [e1, e2]

theorem baseGas_normal : Eos.NormalGas fun i => toR (aget baseGas.x i) := by
  simp only [(baseGas_x _).2]
  refine ⟨fun i => ?_, ?_, ?_, ?_, ?_, ?_, ?_, ?_, ?_, ?_, ?_, ?_, ?_, ?_, ?_, ?_, ?_⟩
  · split_ifs <;> norm_num
  · simp only [Fin.sum_univ_succ]
    simp [Fin.ext_iff]
    norm_num
  all_goals simp [Fin.ext_iff]
  all_goals norm_num

theorem baseGas_t : baseGas.t = errLow.t := by unfold baseGas; with_reducible rfl
theorem baseGas_d : baseGas.d = errLow.d := by unfold baseGas; with_reducible rfl
theorem baseGas_p : baseGas.p = f% 100.0 := by unfold baseGas; with_reducible rfl

end Detail

theorem Gerg.baseGas_t : Gerg.baseGas.t = Detail.baseGas.t := by
  unfold Gerg.baseGas Detail.baseGas Gerg.errMix Detail.errLow; with_reducible rfl
theorem Gerg.baseGas_p : Gerg.baseGas.p = Detail.baseGas.p := by
  unfold Gerg.baseGas Detail.baseGas; with_reducible rfl

attribute [local irreducible] Gerg.baseGas Detail.baseGas

/-- Equal parts of methane and nitrogen at 300 K and 100 kPa: the two densities differ by at most 1 %. -/
example (hL : LibmAccurate) (hN : LnAccurate) (newD : Detail Float) (hD : Detail.new = .ok newD) (newG : Gerg Float)
    (hG : Gerg.new = .ok newG) :
    ∃ sD sG, (Detail.setPub newD Detail.baseGas).density = .ok (sD, .ok ()) ∧
      (Gerg.setPub newG Gerg.baseGas).density 0 = .ok (sG, .ok ()) ∧ |toR sG.d - toR sD.d| ≤ 0.01 * toR sD.d := by
  obtain ⟨-, ft, ht, -, -, fd, hd⟩ := Detail.errLow_ok
  obtain ⟨T1, T2⟩ := Gerg.errMix_Tr
  obtain ⟨V1, V2⟩ := Gerg.errMix_V
  have T3 := Gerg.baseGas_Tr
  rw [← Detail.baseGas_t] at ft ht
  rw [← Detail.baseGas_d] at fd hd
  have hp : toR Detail.baseGas.p = 100 := by rw [Detail.baseGas_p]; exact base100.2
  obtain ⟨sD, sG, e1, e2, -, -, e3⟩ := C88_models_agree_at_base_conditions hL hN newD hD newG hG Detail.baseGas Gerg.baseGas
    Detail.baseGas_same Gerg.baseGas_t Gerg.baseGas_p (fun i => (Detail.baseGas_x i).1) Detail.baseGas_normal
    (fun i => by rw [(Detail.baseGas_x i).2]; split_ifs <;> norm_num) ft (by rw [ht]; norm_num) (by rw [ht]; norm_num)
    (by rw [Detail.baseGas_p]; exact base100.1) (by rw [ht, Gerg.baseGas_fracs]; norm_num; linarith)
    (by rw [ht, Gerg.baseGas_fracs]; norm_num; linarith) (by rw [ht, hp]; norm_num) (by rw [ht, hp]; norm_num)
    (by rw [ht, hp, Gerg.baseGas_fracs]; norm_num at V2 ⊢; linarith) fd hd.ge Gerg.baseGas_d.1 Gerg.baseGas_d.2.ge 0 le_rfl
  exact ⟨sD, sG, e1, e2, e3⟩

end Aga8
