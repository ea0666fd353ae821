import Verif.Props.DetailNan
import Verif.Lemmas.FastOps
import Verif.Lemmas.F64Fin

/-! # A NaN input poisons later results (C21): the refutation

For every math library: wherever a new object reports a real gas, the same inputs after a NaN temperature (or composition)
report another compressibility factor, 1 or NaN. With a concrete math library: methane at 300 K and 5 mol/l has Z ≈ 0.85 on a
new object, and exactly 1 after a NaN temperature or a NaN composition; the reported pressure is too high by 1.8 MPa. -/

namespace Aga8

open FOps Detail Detail.Tab F64

/-- What `pressure()` reports after a history: the compressibility factor and the pressure. -/
def report {F : Type} [Add F] [Sub F] [Mul F] [Div F] [Neg F] [FOps F] (ops : List (Op F)) : Res (F × F) :=
  match runNew ops with
  | .ok (s, _) =>
    match s.pressure with
    | .ok r => .ok (r.1.z, r.2)
    | .error e => .error e
  | .error e => .error e

/-- C21, temperature, for every math library. If a new object with the inputs `q` reports a compressibility factor that is a
number other than 1, then an object whose pressure was once evaluated with a NaN temperature reports another one for `q`. -/
theorem C21_detail_nan_temperature_refuted [Libm] (q : Pub Float) (z p : Float) (_hnew : report [.write q] = .ok (z, p))
    (hz : ¬ IdealOrNan z) (q0 : Pub Float) (h0 : q0.t.isNaN = true) :
    ∃ z' p', report [.write q0, .pressure, .write q] = .ok (z', p') ∧ IdealOrNan z' ∧ z' ≠ z := by
  obtain ⟨s, outs, h1, ⟨r, h2, h3, -⟩, -⟩ := C21_detail_nan_temperature_ideal_or_nan q.t q0 h0 [] [.write q]
    (fun _ h => by cases h) (fun op hop => by rw [List.mem_singleton] at hop; subst hop; exact Or.inr rfl)
  rw [List.nil_append] at h1
  refine ⟨r.1.z, r.2, ?_, h3, fun e => hz (e ▸ h3)⟩
  unfold report
  rw [h1]; dsimp only; rw [h2]

/-- C21, composition, for every math library: the same after fractions that are NaN for every component of the mixture. -/
theorem C21_detail_nan_composition_refuted [Libm] (q : Pub Float) (z p : Float) (_hnew : report [.write q] = .ok (z, p))
    (hz : ¬ IdealOrNan z) (x : Vector Float 21) (hx : NanMask x q.x) (op : Op Float) (h0 : AssignsX x op) :
    ∃ z' p', report [op, .pressure, .write q] = .ok (z', p') ∧ IdealOrNan z' ∧ z' ≠ z := by
  obtain ⟨s, outs, h1, ⟨r, h2, h3, -⟩, -⟩ := C21_detail_nan_composition_ideal_or_nan x q.x hx op h0 [] [.write q]
    (fun _ h => by cases h) (fun op hop => by rw [List.mem_singleton] at hop; subst hop; exact Or.inr (Or.inr rfl))
  rw [List.nil_append] at h1
  refine ⟨r.1.z, r.2, ?_, h3, fun e => hz (e ▸ h3)⟩
  unfold report
  rw [h1]; dsimp only; rw [h2]

/-! ## The concrete case -/

/-- Methane at 300 K and 5 mol/l. -/
def nanGood : Pub Float :=
  ⟨300.0, 0.0, 5.0, 0.0, 0.0, 0.0, 0.0, 0.0, 0.0, 0.0, 0.0, 0.0, 0.0, 0.0, 0.0, 0.0, 0.0, 0.0, aset (fill 21 0.0) 0 1.0⟩

/-- The same with a NaN temperature. -/
def nanBadT : Pub Float := { nanGood with t := 0.0 / 0.0 }

/-- The same with a NaN fraction of methane. -/
def nanBadX : Pub Float := { nanGood with x := aset (fill 21 0.0) 0 (0.0 / 0.0) }

/-- The same at 400 K. -/
def nanWarm : Pub Float := { nanGood with t := 400.0 }

/-- The report with the arithmetic of `FastOps`, which the kernel evaluates quickly. -/
def fastReport (ops : List (Op Float)) : Res (Float × Float) :=
  @report Float Fast.addI Fast.subI Fast.mulI Fast.divI Fast.negI (Fast.opsI Fast.seriesI) ops

theorem report_fast (ops : List (Op Float)) : (letI := series; report ops) = fastReport ops := by
  unfold fastReport
  rw [← Fast.seriesI_eq, ← Fast.opsI_eq, ← Fast.addI_eq, ← Fast.subI_eq, ← Fast.mulI_eq, ← Fast.divI_eq, ← Fast.negI_eq]

theorem fastReport_sat {ops : List (Op Float)} {c : Float → Float → Bool} (h : Fast.sat c (fastReport ops) = true) :
    ∃ z p, (letI := series; report ops) = .ok (z, p) ∧ c z p = true := by
  rw [report_fast]; exact Fast.sat_ok h

set_option maxRecDepth 100000 in
theorem witnessNew : Fast.sat (fun z p => decide (0.849 < z) && decide (z < 0.851) && decide (p < 10620.0))
    (fastReport [.write nanGood]) = true := by decide +kernel

set_option maxRecDepth 100000 in
theorem witnessT : Fast.sat (fun z p => (z == 1.0) && decide (12470.0 < p))
    (fastReport [.write nanBadT, .pressure, .write nanGood]) = true := by decide +kernel

set_option maxRecDepth 100000 in
theorem witnessX : Fast.sat (fun z p => (z == 1.0) && decide (12470.0 < p))
    (fastReport [.write nanBadX, .pressure, .write nanGood]) = true := by decide +kernel

set_option maxRecDepth 100000 in
theorem witnessWarm : Fast.sat (fun z _ => decide (0.97 < z)) (fastReport [.write nanWarm]) = true := by decide +kernel

set_option maxRecDepth 100000 in
theorem witnessFrozen : Fast.sat (fun z _ => decide (z < 0.851))
    (fastReport [.write nanGood, .pressure, .write nanBadT, .pressure, .write nanWarm]) = true := by decide +kernel

/-- C21, refuted by a complete run of the program. With the math library `series`, methane at 300 K and 5 mol/l: a new object
reports Z ≈ 0.85 and less than 10 620 kPa. An object whose pressure was once evaluated with a NaN temperature, or with a NaN
fraction of methane, reports Z = 1 and more than 12 470 kPa for the same inputs. At 400 K a new object reports Z > 0.97; an
object that was evaluated at 300 K and then with a NaN temperature reports Z < 0.851. -/
theorem C21_detail_nan_refuted : letI := series
    nanGood.t = 300.0 ∧ nanBadT.t.isNaN = true ∧ (aget nanBadX.x 0).isNaN = true ∧
    ∃ z p zt pt zx px zw pw zf pf,
      report [.write nanGood] = .ok (z, p) ∧
      report [.write nanBadT, .pressure, .write nanGood] = .ok (zt, pt) ∧
      report [.write nanBadX, .pressure, .write nanGood] = .ok (zx, px) ∧
      report [.write nanWarm] = .ok (zw, pw) ∧
      report [.write nanGood, .pressure, .write nanBadT, .pressure, .write nanWarm] = .ok (zf, pf) ∧
      0.849 < z ∧ z < 0.851 ∧ p < 10620.0 ∧
      (zt == 1.0) = true ∧ 12470.0 < pt ∧ (zx == 1.0) = true ∧ 12470.0 < px ∧ 0.97 < zw ∧ zf < 0.851 := by
  refine ⟨rfl, by decide +kernel, by decide +kernel, ?_⟩
  obtain ⟨z, p, e1, c1⟩ := fastReport_sat witnessNew
  obtain ⟨zt, pt, e2, c2⟩ := fastReport_sat witnessT
  obtain ⟨zx, px, e3, c3⟩ := fastReport_sat witnessX
  obtain ⟨zw, pw, e4, c4⟩ := fastReport_sat witnessWarm
  obtain ⟨zf, pf, e5, c5⟩ := fastReport_sat witnessFrozen
  simp only [Bool.and_eq_true, decide_eq_true_eq] at c1 c2 c3 c4 c5
  exact ⟨z, p, zt, pt, zx, px, zw, pw, zf, pf, e1, e2, e3, e4, e5, c1.1.1, c1.1.2, c1.2, c2.1, c2.2, c3.1, c3.2, c4, c5⟩

theorem not_ideal {z : Float} (h1 : 0.849 < z) (h2 : z < 0.851) : ¬ IdealOrNan z := by
  have l1 : up (0.849 : Float) = .finite .positive 7647112167275102 (-53) (by decide) := by decide +kernel
  have l2 : up (0.851 : Float) = .finite .positive 7665126565784584 (-53) (by decide) := by decide +kernel
  have e2 : toR (0.851 : Float) < 1 := by unfold toR; rw [l2]; simp only [val, sg]; norm_num
  have f1 : IsFinite (0.849 : Float) := by unfold IsFinite; rw [l1]; trivial
  have f2 : IsFinite (0.851 : Float) := by unfold IsFinite; rw [l2]; trivial
  generalize (0.849 : Float) = a at *
  generalize (0.851 : Float) = b at *
  obtain ⟨hf, -⟩ := fin_between f1 f2 (F64.le_of_lt h1) (F64.le_of_lt h2)
  rintro (⟨-, h⟩ | h)
  · rw [lt_toR hf f2, h] at h2; linarith
  · rw [isNaN_iff] at h
    unfold IsFinite at hf
    rw [h] at hf; exact hf

/-- The hypotheses of the two general theorems are met by this run. -/
example : letI := series
    (∃ z p, report [.write nanGood] = .ok (z, p) ∧ ¬ IdealOrNan z) ∧ nanBadT.t.isNaN = true ∧
      NanMask nanBadX.x nanGood.x ∧ AssignsX nanBadX.x (.write nanBadX) := by
  obtain ⟨-, ht, hx, z, p, zt, pt, zx, px, zw, pw, zf, pf, h, -, -, -, -, h1, h2, -⟩ := C21_detail_nan_refuted
  refine ⟨⟨z, p, h, not_ideal h1 h2⟩, ht, fun i => ?_, rfl⟩
  by_cases hi : i = 0
  · subst hi; exact Or.inl hx
  · refine Or.inr ?_
    have e1 : aget nanBadX.x i = 0.0 := by
      unfold nanBadX; dsimp only; rw [aget_aset, if_neg (Ne.symm hi), aget_fill]
    have e2 : aget nanGood.x i = 0.0 := by
      unfold nanGood; dsimp only; rw [aget_aset, if_neg (Ne.symm hi), aget_fill]
    rw [e1, e2]
    have hz : IsZ (0.0 : Float) := ⟨.positive, by decide +kernel⟩
    exact ⟨hz, hz⟩

end Aga8
