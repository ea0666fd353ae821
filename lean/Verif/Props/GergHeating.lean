import Verif.Lemmas.GergMixHeat
import Verif.Props.GergEnergyError
import Verif.Props.RoundTrip

/-! # C86: heating a gas mixture raises its f64 energies and its entropy, and compressing it lowers the entropy (GERG-2008)

The theorems are about IEEE-754 arithmetic, with any `exp`, `powf`, `powi` and `ln` that are accurate in the sense of
`Spec/F64Accuracy`. They compare two calls of `properties`. The mixtures are those of the 21 components from 200 K and 1.1 times their
reducing temperature on, up to a tenth of their reducing density. -/

set_option linter.unusedSectionVars false

namespace Aga8

open F64
open Gerg (Pub setPub ErrDomain fracs)

attribute [local irreducible] Gerg.newP Gerg.pressureP Gerg.propertiesP Gerg.densityP

variable [Libm]

namespace Gerg

/-- What C86 needs of the exact fractions. -/
theorem heat_mix {q : Pub Float} (hq : ErrDomain q) (hx : ∀ i : Fin 22, 1 ≤ i.1 → 0 ≤ toR (aget q.x i)) :
    (∀ i : Fin 22, 1 ≤ i.1 → fracs q i = yOf (xr q.x) i) ∧ Present (xr q.x) ∧ (∀ i : Fin 22, 1 ≤ i.1 → 0 ≤ yOf (xr q.x) i) ∧
    (∀ i : Fin 22, 1 ≤ i.1 → yOf (xr q.x) i = 0 ∨ 1e-10 ≤ yOf (xr q.x) i ∧ yOf (xr q.x) i ≤ 2) ∧
    0 ≤ GergEos.invRhoR (yOf (xr q.x)) ∧
    ∑ i : Fin 22 with 1 ≤ i.1, yOf (xr q.x) i = ∑ i : Fin 22 with 1 ≤ i.1, toR (aget q.x i) := by
  have e' : ∀ i : Fin 22, 1 ≤ i.1 → fracs q i = yOf (xr q.x) i := fracs_eq (okX_of hq)
  have e2 : ∀ i : Fin 22, 1 ≤ i.1 → yOf (xr q.x) i = toR (aget q.x i) := fun i hi => (e' i hi).symm.trans (max_eq_left (hx i hi))
  refine ⟨e', ?_, fun i hi => by rw [e2 i hi]; exact hx i hi, fun i hi => ?_, ?_,
    Finset.sum_congr rfl fun i hi => e2 i (Finset.mem_filter.1 hi).2⟩
  · obtain ⟨k, hk, hx⟩ := hq.x_big
    exact ⟨k, hk, by rw [xr_get]; exact le_trans (by norm_num) hx⟩
  · rw [e2 i hi]
    exact (hq.x_rng i hi).imp (fun h => le_antisymm h (hx i hi)) id
  · obtain ⟨k, hk, hx⟩ := hq.x_big
    exact le_trans (by norm_num) (vr_low (x := xr q.x) hk (by rw [xr_get]; exact hx))

/-- The stored energies and entropy are close to the exact ones. -/
theorem heat_stored (hL : LibmAccurate) (hN : LnAccurate) (new0 : Gerg Float) (hnew : Gerg.new = .ok new0)
    (q : Pub Float) (hq : ErrDomain q) (hx : ∀ i : Fin 22, 1 ≤ i.1 → 0 ≤ toR (aget q.x i))
    (hs1 : 0.99 ≤ ∑ i : Fin 22 with 1 ≤ i.1, toR (aget q.x i)) (hs2 : ∑ i : Fin 22 with 1 ≤ i.1, toR (aget q.x i) ≤ 1.01)
    (hT0 : 200 ≤ toR q.t) (hT1 : 1.1 * GergEos.Tr (fracs q) ≤ toR q.t) (hT2 : toR q.t ≤ 1000) (hD : 1e-4 ≤ toR q.d)
    (hδ : toR q.d * GergEos.invRhoR (fracs q) ≤ 0.1) :
    ∃ s' p, (setPub new0 q).properties = .ok (s', p) ∧ IsFinite s'.u ∧ IsFinite s'.h ∧ IsFinite s'.s ∧
      |toR s'.u - GergEos.energy (fracs q) (toR q.d) (toR q.t)| ≤ 2.52e-2 ∧
      |toR s'.h - GergEos.enthalpy (fracs q) (toR q.d) (toR q.t)| ≤ 2.52e-2 ∧
      |toR s'.s - GergEos.entropy (fracs q) (toR q.d) (toR q.t)| ≤ 2.57e-5 := by
  obtain ⟨e', hP, hx0, hx1, v0, es⟩ := heat_mix hq hx
  have eV : GergEos.invRhoR (fracs q) = GergEos.invRhoR (yOf (xr q.x)) := reducing_congr' e' _ _
  have eT : GergEos.Tr (fracs q) = GergEos.Tr (yOf (xr q.x)) := reducing_congr' e' _ _
  have t2 := hq.t_red1
  have hD2 : toR q.d ≤ 1000 := by
    rcases hq.d_rng with h | h
    · rw [h]; norm_num
    · exact h.2
  rw [eT] at hT1 t2
  rw [eV] at hδ
  obtain ⟨z1, z2, z3⟩ := heating_size hP hx0 (by rw [es]; exact hs1) (by rw [es]; exact hs2) hx1 v0 hT0 hT1 t2 hT2 hD hD2 hδ
  obtain ⟨a1, a2, a3, -⟩ := abs_congr' e' (toR q.d) (toR q.t)
  obtain ⟨s', p, k1, f1, f2, -, r1, r2, -⟩ := C66_gerg_energy_error hL hN new0 hnew q hq (by linarith) hT2 hD
  obtain ⟨s2, p2, k2, f3, -, -, r3, -⟩ := C66_gerg_entropy_error hL hN new0 hnew q hq (by linarith) hT2 hD
  have e := congrArg Prod.fst (Except.ok.inj (k1.symm.trans k2))
  dsimp only at e
  subst e
  rw [a2] at r1
  rw [a3] at r2
  rw [a1] at r3
  refine ⟨s', p, k1, f1, f2, f3, r1.trans ?_, r2.trans ?_, r3.trans ?_⟩
  · norm_num at z1 ⊢; linarith
  · norm_num at z2 ⊢; linarith
  · norm_num at z3 ⊢; linarith

end Gerg

/-- C86, heating: with an accurate math library, for every mixture of fractions that sum to 0.99 to 1.01 and every density from
1e-4 mol/l up to a tenth of its reducing density, and any two temperatures at least 0.01 K apart, from 200 K and 1.1 times the reducing
temperature on and up to 1000 K, the internal energy, the enthalpy and the entropy that `properties` stores are larger at the higher
temperature: by at least 6.9 J/mol, 15 J/mol and 0.006 J/(mol K) for each kelvin. -/
theorem C86_gerg_heating (hL : LibmAccurate) (hN : LnAccurate) (new0 : Gerg Float) (hnew : Gerg.new = .ok new0)
    (q q' : Pub Float) (hqx : q'.x = q.x) (hqd : q'.d = q.d) (hq : ErrDomain q) (hq' : ErrDomain q')
    (hx : ∀ i : Fin 22, 1 ≤ i.1 → 0 ≤ toR (aget q.x i))
    (hs1 : 0.99 ≤ ∑ i : Fin 22 with 1 ≤ i.1, toR (aget q.x i)) (hs2 : ∑ i : Fin 22 with 1 ≤ i.1, toR (aget q.x i) ≤ 1.01)
    (hT0 : 200 ≤ toR q.t) (hT1 : 1.1 * GergEos.Tr (fracs q) ≤ toR q.t) (hT : toR q.t + 0.01 ≤ toR q'.t) (hT2 : toR q'.t ≤ 1000)
    (hD : 1e-4 ≤ toR q.d) (hδ : toR q.d * GergEos.invRhoR (fracs q) ≤ 0.1) :
    ∃ s p s' p', (setPub new0 q).properties = .ok (s, p) ∧ (setPub new0 q').properties = .ok (s', p') ∧
      toR s.u + 6.9 * (toR q'.t - toR q.t) ≤ toR s'.u ∧ toR s.h + 15 * (toR q'.t - toR q.t) ≤ toR s'.h ∧
      toR s.s + 0.006 * (toR q'.t - toR q.t) ≤ toR s'.s := by
  have ef : fracs q' = fracs q := by unfold fracs; rw [hqx]
  have hT' : toR q.t ≤ toR q'.t := by norm_num at hT; linarith
  obtain ⟨s, p, k1, -, -, -, a1, a2, a3⟩ := Gerg.heat_stored hL hN new0 hnew q hq hx hs1 hs2 hT0 hT1 (hT'.trans hT2) hD hδ
  obtain ⟨s', p', k2, -, -, -, b1, b2, b3⟩ := Gerg.heat_stored hL hN new0 hnew q' hq' (by rw [hqx]; exact hx) (by rw [hqx]; exact hs1)
    (by rw [hqx]; exact hs2) (hT0.trans hT') (by rw [ef]; exact hT1.trans hT') hT2 (by rw [hqd]; exact hD) (by rw [hqd, ef]; exact hδ)
  obtain ⟨e', hP, hx0, hx1, v0, es⟩ := Gerg.heat_mix hq hx
  have eV : GergEos.invRhoR (fracs q) = GergEos.invRhoR (Gerg.yOf (Gerg.xr q.x)) := Gerg.reducing_congr' e' _ _
  have eT : GergEos.Tr (fracs q) = GergEos.Tr (Gerg.yOf (Gerg.xr q.x)) := Gerg.reducing_congr' e' _ _
  have t2 := hq'.t_red1
  rw [ef, eT] at t2
  rw [eT] at hT1
  rw [eV] at hδ
  obtain ⟨c1, c2, c3⟩ := Gerg.heating_rise hP hx0 (by rw [es]; exact hs1) (by rw [es]; exact hs2) v0 (by linarith) hT1 t2 hT' hT2 hD hδ
  have eH : ∀ D T, GergEos.enthalpy (fracs q) D T = GergEos.enthalpy (Gerg.yOf (Gerg.xr q.x)) D T := fun D T => by
    unfold GergEos.enthalpy
    rw [Gerg.energy_congr' e', Gerg.Z_congr' e']
  rw [← Gerg.energy_congr' e', ← Gerg.energy_congr' e'] at c1
  rw [← eH, ← eH] at c2
  rw [← Gerg.entropy_congr' e', ← Gerg.entropy_congr' e'] at c3
  rw [ef, hqd] at b1 b2 b3
  refine ⟨s, p, s', p', k1, k2, ?_⟩
  have a1 := abs_le.1 a1
  have a2 := abs_le.1 a2
  have a3 := abs_le.1 a3
  have b1 := abs_le.1 b1
  have b2 := abs_le.1 b2
  have b3 := abs_le.1 b3
  norm_num at a1 a2 a3 b1 b2 b3 c1 c2 c3 hT ⊢
  refine ⟨?_, ?_, ?_⟩ <;> linarith

/-- C86, compression: under the same conditions at one temperature and two densities at least 0.001 % apart, the entropy that
`properties` stores is smaller at the higher density, by at least `3 ln (D'/D)` J/(mol K). -/
theorem C86_gerg_compression (hL : LibmAccurate) (hN : LnAccurate) (new0 : Gerg Float) (hnew : Gerg.new = .ok new0)
    (q q' : Pub Float) (hqx : q'.x = q.x) (hqt : q'.t = q.t) (hq : ErrDomain q) (hq' : ErrDomain q')
    (hx : ∀ i : Fin 22, 1 ≤ i.1 → 0 ≤ toR (aget q.x i))
    (hs1 : 0.99 ≤ ∑ i : Fin 22 with 1 ≤ i.1, toR (aget q.x i)) (hs2 : ∑ i : Fin 22 with 1 ≤ i.1, toR (aget q.x i) ≤ 1.01)
    (hT0 : 200 ≤ toR q.t) (hT1 : 1.1 * GergEos.Tr (fracs q) ≤ toR q.t) (hT2 : toR q.t ≤ 1000)
    (hD : 1e-4 ≤ toR q.d) (hd : 1.00001 * toR q.d ≤ toR q'.d) (hδ : toR q'.d * GergEos.invRhoR (fracs q) ≤ 0.1) :
    ∃ s p s' p', (setPub new0 q).properties = .ok (s, p) ∧ (setPub new0 q').properties = .ok (s', p') ∧
      toR s'.s + 3 * Real.log (toR q'.d / toR q.d) ≤ toR s.s := by
  have ef : fracs q' = fracs q := by unfold fracs; rw [hqx]
  have D0 : 0 < toR q.d := lt_of_lt_of_le (by norm_num) hD
  have hd' : toR q.d ≤ toR q'.d := by norm_num at hd; linarith
  obtain ⟨e', hP, hx0, hx1, v0, es⟩ := Gerg.heat_mix hq hx
  have eV : GergEos.invRhoR (fracs q) = GergEos.invRhoR (Gerg.yOf (Gerg.xr q.x)) := Gerg.reducing_congr' e' _ _
  have eT : GergEos.Tr (fracs q) = GergEos.Tr (Gerg.yOf (Gerg.xr q.x)) := Gerg.reducing_congr' e' _ _
  have hδ0 : toR q.d * GergEos.invRhoR (fracs q) ≤ 0.1 := (mul_le_mul_of_nonneg_right hd' (by rw [eV]; exact v0)).trans hδ
  obtain ⟨s, p, k1, -, -, -, -, -, a3⟩ := Gerg.heat_stored hL hN new0 hnew q hq hx hs1 hs2 hT0 hT1 hT2 hD hδ0
  obtain ⟨s', p', k2, -, -, -, -, -, b3⟩ := Gerg.heat_stored hL hN new0 hnew q' hq' (by rw [hqx]; exact hx) (by rw [hqx]; exact hs1)
    (by rw [hqx]; exact hs2) (by rw [hqt]; exact hT0) (by rw [ef, hqt]; exact hT1) (by rw [hqt]; exact hT2) (hD.trans hd')
    (by rw [ef]; exact hδ)
  have t2 := hq.t_red1
  rw [eT] at t2 hT1
  rw [eV] at hδ
  have c3 := Gerg.compression_fall hP hx0 (by rw [es]; exact hs1) (by rw [es]; exact hs2) v0 (by linarith) hT1 t2 hd' hD hδ
  rw [← Gerg.entropy_congr' e', ← Gerg.entropy_congr' e'] at c3
  rw [ef, hqt] at b3
  have l : 9.99e-6 ≤ Real.log (toR q'.d / toR q.d) := by
    have r : 1.00001 ≤ toR q'.d / toR q.d := by rw [le_div_iff₀ D0]; exact hd
    have a := Real.one_sub_inv_le_log_of_pos (x := (1.00001 : ℝ)) (by norm_num)
    refine le_trans ?_ (a.trans (Real.log_le_log (by norm_num) r))
    norm_num
  refine ⟨s, p, s', p', k1, k2, ?_⟩
  have a3 := abs_le.1 a3
  have b3 := abs_le.1 b3
  generalize Real.log (toR q'.d / toR q.d) = y at *
  norm_num at a3 b3 c3 l ⊢
  linarith

/-! ## The hypotheses can be met -/

namespace Gerg

theorem lit310 : IsFinite (f% 310.0 : Float) ∧ toR (f% 310.0 : Float) = 310 := by
  have c : decChk true 10 10 ⟨310, 0⟩ = true := by decide +kernel
  refine ⟨decChk_fin c, ?_⟩
  show toR (F64.litF ⟨310, 0⟩) = 310
  rw [(decChk_val c).2.1 rfl]; norm_num [decR]

theorem litHalf : IsFinite (f% 0.5 : Float) ∧ toR (f% 0.5 : Float) = 0.5 := by
  have c : decChk true 10 10 ⟨5, 1⟩ = true := by decide +kernel
  refine ⟨decChk_fin c, ?_⟩
  show toR (F64.litF ⟨5, 1⟩) = 0.5
  rw [(decChk_val c).2.1 rfl]; norm_num [decR]

/-- The same gas at 310 K. -/
def mixWarm : Pub Float := { mixQuarter with t := f% 310.0 }
/-- The same gas at 0.5 mol/l. -/
def mixHalf : Pub Float := { mixQuarter with d := f% 0.5 }

theorem dom_t {q : Pub Float} (h : ErrDomain q) {t : Float} (ft : IsFinite t) (t1 : 1 ≤ toR t) (t2 : toR t ≤ 10000)
    (t3 : toR t ≤ 100 * GergEos.Tr (fracs q)) (t4 : GergEos.Tr (fracs q) ≤ 10 * toR t) : ErrDomain { q with t := t } :=
  ⟨ft, t1, t2, t3, t4, h.d_fin, h.d_rng, h.d_red, h.x_fin, h.x_rng, h.x_big⟩

theorem dom_d {q : Pub Float} (h : ErrDomain q) {d : Float} (fd : IsFinite d) (d1 : 1e-4 ≤ toR d) (d2 : toR d ≤ 1000)
    (d3 : toR d * GergEos.invRhoR (fracs q) ≤ 2.8) : ErrDomain { q with d := d } :=
  ⟨h.t_fin, h.t_low, h.t_high, h.t_red1, h.t_red2, fd, Or.inr ⟨d1, d2⟩, d3, h.x_fin, h.x_rng, h.x_big⟩

attribute [local irreducible] mixQuarter

theorem mixWarm_dom : ErrDomain mixWarm := by
  obtain ⟨T1, T2⟩ := errMix_Tr
  obtain ⟨ft, ht⟩ := lit310
  refine dom_t mixQuarter_dom ft ?_ ?_ ?_ ?_ <;> rw [ht] <;> try rw [mixQuarter_fracs]
  all_goals linarith

theorem mixHalf_dom : ErrDomain mixHalf := by
  obtain ⟨V1, V2⟩ := errMix_V
  obtain ⟨fd, hd⟩ := litHalf
  refine dom_d mixQuarter_dom fd ?_ ?_ ?_ <;> rw [hd] <;> try rw [mixQuarter_fracs]
  all_goals norm_num at V2 ⊢
  linarith

theorem mixQuarter_sum : ∑ i : Fin 22 with 1 ≤ i.1, toR (aget mixQuarter.x i) = 1 := by
  obtain ⟨hx, -⟩ := mixQuarter_ok
  simp only [(hx _).2]
  rw [Finset.sum_eq_add (1 : Fin 22) 2 (by decide)]
  · rw [if_pos rfl, if_neg (by decide), if_pos rfl]; norm_num
  · intro i _ h
    rw [if_neg h.1, if_neg h.2]
  · intro h; exact absurd (by decide) h
  · intro h; exact absurd (by decide) h

end Gerg

attribute [local irreducible] Gerg.mixQuarter

/-- Equal parts of methane and nitrogen at 0.25 mol/l, heated from 300 K to 310 K: the stored internal energy rises by at least
69 J/mol. -/
example (hL : LibmAccurate) (hN : LnAccurate) (new0 : Gerg Float) (hnew : Gerg.new = .ok new0) :
    ∃ s p s' p', (setPub new0 Gerg.mixQuarter).properties = .ok (s, p) ∧ (setPub new0 Gerg.mixWarm).properties = .ok (s', p') ∧
      toR s.u + 69 ≤ toR s'.u := by
  obtain ⟨hx, ft, ht, fd, hd⟩ := Gerg.mixQuarter_ok
  obtain ⟨T1, T2⟩ := Gerg.errMix_Tr
  obtain ⟨V1, V2⟩ := Gerg.errMix_V
  have ht' : toR Gerg.mixWarm.t = 310 := Gerg.lit310.2
  have hs := Gerg.mixQuarter_sum
  obtain ⟨s, p, s', p', e1, e2, e3, -⟩ := C86_gerg_heating hL hN new0 hnew Gerg.mixQuarter Gerg.mixWarm rfl rfl Gerg.mixQuarter_dom
    Gerg.mixWarm_dom (fun i _ => by rw [(hx i).2]; split <;> [norm_num; (split <;> norm_num)]) (by rw [hs]; norm_num)
    (by rw [hs]; norm_num) (by rw [ht]; norm_num) (by rw [ht, Gerg.mixQuarter_fracs]; norm_num; linarith)
    (by rw [ht, ht']; norm_num) (by rw [ht']; norm_num) (by rw [hd]; norm_num)
    (by rw [hd, Gerg.mixQuarter_fracs]; norm_num at V2 ⊢; linarith)
  refine ⟨s, p, s', p', e1, e2, le_trans (le_of_eq ?_) e3⟩
  rw [ht, ht']
  norm_num

/-- Equal parts of methane and nitrogen at 300 K, compressed from 0.25 mol/l to 0.5 mol/l: the stored entropy falls. -/
example (hL : LibmAccurate) (hN : LnAccurate) (new0 : Gerg Float) (hnew : Gerg.new = .ok new0) :
    ∃ s p s' p', (setPub new0 Gerg.mixQuarter).properties = .ok (s, p) ∧ (setPub new0 Gerg.mixHalf).properties = .ok (s', p') ∧
      toR s'.s < toR s.s := by
  obtain ⟨hx, ft, ht, fd, hd⟩ := Gerg.mixQuarter_ok
  obtain ⟨T1, T2⟩ := Gerg.errMix_Tr
  obtain ⟨V1, V2⟩ := Gerg.errMix_V
  have hd' : toR Gerg.mixHalf.d = 0.5 := Gerg.litHalf.2
  have hs := Gerg.mixQuarter_sum
  obtain ⟨s, p, s', p', e1, e2, e3⟩ := C86_gerg_compression hL hN new0 hnew Gerg.mixQuarter Gerg.mixHalf rfl rfl Gerg.mixQuarter_dom
    Gerg.mixHalf_dom (fun i _ => by rw [(hx i).2]; split <;> [norm_num; (split <;> norm_num)]) (by rw [hs]; norm_num)
    (by rw [hs]; norm_num) (by rw [ht]; norm_num) (by rw [ht, Gerg.mixQuarter_fracs]; norm_num; linarith)
    (by rw [ht]; norm_num) (by rw [hd]; norm_num) (by rw [hd, hd']; norm_num)
    (by rw [hd', Gerg.mixQuarter_fracs]; norm_num at V2 ⊢; linarith)
  refine ⟨s, p, s', p', e1, e2, lt_of_lt_of_le ?_ e3⟩
  rw [hd, hd']
  have : 0 < Real.log ((0.5 : ℝ) / 0.25) := Real.log_pos (by norm_num)
  linarith

end Aga8
