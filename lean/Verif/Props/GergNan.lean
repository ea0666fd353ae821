import Verif.Lemmas.GergNan
import Verif.Lemmas.FastOps

/-! # NaN inputs and later results of a GERG object, in f64 arithmetic (C52)

The property "after a NaN input, valid inputs give valid results again" is false of the code. In general: after a NaN
temperature the next temperature is ignored, the compressibility factor reported for it is, bit for bit, that of the last
temperature before. By complete runs of the program with a concrete math library: wrong numbers, or NaN, for valid inputs. -/

namespace Aga8

open FOps F64
open Gerg (Pub pub setPub Op Out runNew report NoDepX)

attribute [local irreducible] Gerg.newP Gerg.pressureP Gerg.propertiesP Gerg.densityP

theorem report_eq [Libm] (ops : List (Op Float)) :
    report ops = .ok ((Gerg.pressureP (Gerg.runP Gerg.newP ops).1).1.z, (Gerg.pressureP (Gerg.runP Gerg.newP ops).1).2) := by
  have hi : Gerg.Idx (Gerg.runP (Gerg.newP : Gerg Float) ops).1 :=
    Gerg.idx_of_params (Gerg.runP_params ops _) Gerg.newP_idx
  unfold report
  rw [Gerg.runNew_eq, Gerg.run_eq _ Gerg.newP_idx]
  dsimp only
  rw [Gerg.pressure_ok hi]

/-- C52, for every math library. After any history `h`, an object is evaluated in the state `q1`, then with a NaN temperature,
then in the state `q`, all with the same composition (without departure functions, such as a pure gas). The compressibility
factor reported for `q` is identical to the one reported for `q` with the temperature of `q1`: the temperature of `q` is
ignored. -/
theorem C52_gerg_nan_freezes_temperature [Libm] (h : List (Op Float)) (q1 q0 q : Pub Float) (hn : q0.t.isNaN = true)
    (h0 : q0.x = q1.x) (hx : q.x = q1.x) (hdep : NoDepX q.x) :
    ∃ z p p', report (h ++ [.write q1, .pressure, .write q0, .pressure, .write q]) = .ok (z, p) ∧
      report (h ++ [.write q1, .pressure, .write { q with t := q1.t }]) = .ok (z, p') ∧
      p = q.d * f% 8.314472 * q.t * z ∧ p' = q.d * f% 8.314472 * q1.t * z := by
  rw [report_eq, report_eq, Gerg.runP_append, Gerg.runP_append]
  generalize (Gerg.runP Gerg.newP h).1 = s
  obtain ⟨s1, e1⟩ : ∃ s1, s1 = (Gerg.pressureP (setPub s q1)).1 := ⟨_, rfl⟩
  obtain ⟨s2, e2⟩ : ∃ s2, s2 = (Gerg.pressureP (setPub s1 q0)).1 := ⟨_, rfl⟩
  have ea : (Gerg.runP s [.write q1, .pressure, .write q0, .pressure, .write q]).1 = setPub s2 q := by
    rw [e2, e1]; rfl
  have eb : (Gerg.runP s [.write q1, .pressure, .write { q with t := q1.t }]).1 = setPub s1 { q with t := q1.t } := by
    rw [e1]; rfl
  dsimp only
  rw [ea, eb]
  have c1 : Gerg.cache s1 = Gerg.refreshC q1.x q1.t (Gerg.params s) (Gerg.cache s) := by
    rw [e1]; exact Gerg.cache_pressureP (setPub s q1)
  have m1 : Gerg.params s1 = Gerg.params s := by rw [e1]; exact Gerg.params_pressureP (setPub s q1)
  have c2 : Gerg.cache s2 = Gerg.refreshC q0.x q0.t (Gerg.params s1) (Gerg.cache s1) := by
    rw [e2]; exact Gerg.cache_pressureP (setPub s1 q0)
  have m2 : Gerg.params s2 = Gerg.params s1 := by rw [e2]; exact Gerg.params_pressureP (setPub s1 q0)
  have hv : Gerg.view (setPub s2 q) = Gerg.view (setPub s1 { q with t := q1.t }) := by
    show Gerg.readV q.x (Gerg.refreshC q.x q.t (Gerg.params s2) (Gerg.cache s2))
      = Gerg.readV q.x (Gerg.refreshC q.x q1.t (Gerg.params s1) (Gerg.cache s1))
    rw [c2, m2, m1, c1, h0, hx, Gerg.refreshC_nan _ _ _ _ hn, Gerg.refreshC_idem selfDiff]
  have hz : (Gerg.pressureP (setPub s2 q)).1.z = (Gerg.pressureP (setPub s1 { q with t := q1.t })).1.z := by
    rw [Gerg.pressureP_z, Gerg.pressureP_z,
      Gerg.ar_nodep (s := setPub s2 q) (s' := setPub s1 { q with t := q1.t }) hdep rfl m2 hv rfl]
  refine ⟨(Gerg.pressureP (setPub s2 q)).1.z, (Gerg.pressureP (setPub s2 q)).2,
    (Gerg.pressureP (setPub s1 { q with t := q1.t })).2, rfl, by rw [hz], ?_, ?_⟩
  · exact Gerg.pressureP_snd (setPub s2 q)
  · rw [hz]; exact Gerg.pressureP_snd (setPub s1 { q with t := q1.t })

/-! ## Complete runs -/

/-- Methane at 300 K and 5 mol/l, at 400 K, and with a NaN temperature or composition; ethane at 300 K and 5 mol/l. -/
def gnan300 : Pub Float :=
  ⟨300.0, 0.0, 5.0, 0.0, 0.0, 0.0, 0.0, 0.0, 0.0, 0.0, 0.0, 0.0, 0.0, 0.0, 0.0, 0.0, 0.0, 0.0, aset (fill 22 0.0) 1 1.0⟩
def gnan400 : Pub Float := { gnan300 with t := 400.0 }
def gnanT : Pub Float := { gnan300 with t := 0.0 / 0.0 }
def gnanX : Pub Float := { gnan300 with x := aset (aset (fill 22 0.0) 1 (0.0 / 0.0)) 4 (0.0 / 0.0) }
def gnanEthane : Pub Float := { gnan300 with x := aset (fill 22 0.0) 4 1.0 }

/-- The report with the arithmetic of `FastOps`, which the kernel evaluates quickly. -/
def gfastReport (ops : List (Op Float)) : Res (Float × Float) :=
  @report Float Fast.addI Fast.subI Fast.mulI Fast.divI Fast.negI (Fast.opsI Fast.seriesI) ops

theorem greport_fast (ops : List (Op Float)) : (letI := series; report ops) = gfastReport ops := by
  unfold gfastReport
  rw [← Fast.seriesI_eq, ← Fast.opsI_eq, ← Fast.addI_eq, ← Fast.subI_eq, ← Fast.mulI_eq, ← Fast.divI_eq, ← Fast.negI_eq]

theorem gfastReport_sat {ops : List (Op Float)} {c : Float → Float → Bool} (h : Fast.sat c (gfastReport ops) = true) :
    ∃ z p, (letI := series; report ops) = .ok (z, p) ∧ c z p = true := by
  rw [greport_fast]; exact Fast.sat_ok h

set_option maxRecDepth 100000 in
theorem gnanRun400 : Fast.sat (fun z p => decide (0.97 < z) && decide (z < 0.971) && decide (16140.0 < p))
    (gfastReport [.write gnan400]) = true := by decide +kernel

set_option maxRecDepth 100000 in
theorem gnanRunFrozen : Fast.sat (fun z p => decide (z < 0.85) && decide (p < 14140.0))
    (gfastReport [.write gnan300, .pressure, .write gnanT, .pressure, .write gnan400]) = true := by decide +kernel

set_option maxRecDepth 100000 in
theorem gnanRunNan : Fast.sat (fun z _ => z.isNaN)
    (gfastReport [.write gnanT, .pressure, .write gnan400]) = true := by decide +kernel

set_option maxRecDepth 100000 in
theorem gnanRunEthane : Fast.sat (fun z _ => decide (0.35 < z) && decide (z < 0.36))
    (gfastReport [.write gnanEthane]) = true := by decide +kernel

set_option maxRecDepth 100000 in
theorem gnanRunX : Fast.sat (fun z _ => decide (0.99 < z))
    (gfastReport [.write gnan300, .pressure, .write gnanX, .pressure, .write gnanEthane]) = true := by decide +kernel

/-- C52, refuted by complete runs of the program, with the math library `series`. Methane at 400 K and 5 mol/l: a new object
reports Z ≈ 0.97 and more than 16 140 kPa; an object that was evaluated at 300 K and then with a NaN temperature reports
Z < 0.85 and less than 14 140 kPa; an object that was first evaluated with a NaN temperature reports NaN. Ethane at 300 K and
5 mol/l: a new object reports Z ≈ 0.355, an object that was evaluated with methane and then with NaN fractions of methane
and ethane reports Z > 0.99. -/
theorem C52_gerg_nan_refuted : letI := series
    gnanT.t.isNaN = true ∧ (aget gnanX.x 1).isNaN = true ∧ (aget gnanX.x 4).isNaN = true ∧
    ∃ z p zf pf zn pn ze pe zx px,
      report [.write gnan400] = .ok (z, p) ∧
      report [.write gnan300, .pressure, .write gnanT, .pressure, .write gnan400] = .ok (zf, pf) ∧
      report [.write gnanT, .pressure, .write gnan400] = .ok (zn, pn) ∧
      report [.write gnanEthane] = .ok (ze, pe) ∧
      report [.write gnan300, .pressure, .write gnanX, .pressure, .write gnanEthane] = .ok (zx, px) ∧
      0.97 < z ∧ z < 0.971 ∧ 16140.0 < p ∧ zf < 0.85 ∧ pf < 14140.0 ∧ zn.isNaN = true ∧ 0.35 < ze ∧ ze < 0.36 ∧
      0.99 < zx := by
  refine ⟨by decide +kernel, by decide +kernel, by decide +kernel, ?_⟩
  obtain ⟨z, p, e1, c1⟩ := gfastReport_sat gnanRun400
  obtain ⟨zf, pf, e2, c2⟩ := gfastReport_sat gnanRunFrozen
  obtain ⟨zn, pn, e3, c3⟩ := gfastReport_sat gnanRunNan
  obtain ⟨ze, pe, e4, c4⟩ := gfastReport_sat gnanRunEthane
  obtain ⟨zx, px, e5, c5⟩ := gfastReport_sat gnanRunX
  simp only [Bool.and_eq_true, decide_eq_true_eq] at c1 c2 c4 c5
  exact ⟨z, p, zf, pf, zn, pn, ze, pe, zx, px, e1, e2, e3, e4, e5, c1.1.1, c1.1.2, c1.2, c2.1, c2.2, c3, c4.1, c4.2, c5⟩

attribute [local instance] series in
theorem gnan400_pure : ∀ i : Fin 22, 1 ≤ i.1 → i ≠ 1 → FOps.lt (f% 1.0e-15) (aget gnan400.x i) = false := by
  decide +kernel

/-- The hypotheses of `C52_gerg_nan_freezes_temperature` are met by this methane. -/
example : letI := series
    gnanT.t.isNaN = true ∧ gnanT.x = gnan300.x ∧ gnan400.x = gnan300.x ∧ NoDepX gnan400.x := by
  refine ⟨C52_gerg_nan_refuted.1, rfl, rfl, ?_⟩
  intro i j h1 h2 _ h4
  have h5 := gnan400_pure j (Nat.le_trans h1 (Nat.le_of_lt h2)) (by
    intro e
    rw [e] at h2
    have h6 : i.1 < 1 := h2
    omega)
  rw [h5] at h4
  cases h4

end Aga8
