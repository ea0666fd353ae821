import Verif.Lemmas.AfterDensity
import Verif.Spec.Metering
import Verif.Spec.GergMetering

/-! # Samples metered one after the other on the same object (C76) -/

set_option linter.unusedSectionVars false

namespace Aga8

open F64 FOps

section
variable [Libm]

/-- Two numbers that differ by at least 1.01e-7 differ as far as the caches are concerned. -/
theorem far_of_diff {a b : Float} (ha : IsFinite a) (hb : IsFinite b) (h : 1.01e-7 ≤ |toR a - toR b|)
    (h2 : |toR a - toR b| ≤ 10000) : FOps.lt (f% 0.0000001 : Float) (abs (a - b)) = true := by
  obtain ⟨f, e⟩ := sub_ok ha hb (h2.trans (by
    calc (10000 : ℝ) ≤ 2 ^ 14 := by norm_num
      _ ≤ 2 ^ 1023 := pow_le_pow_right₀ (by norm_num) (by norm_num)))
  have C := Ap.litPos Detail.chkTiny (by norm_num)
  have e2 : (FOps.ofDec (Dec.mk 1 7) : Float) = litF ⟨1, 7⟩ := rfl
  rw [flt, fabs, e2, lt_toR C.fin (fin_abs f), toR_abs]
  have e1 : decR ⟨1, 7⟩ = 1 / 10 ^ 7 := by simp [decR]
  have h3 := (abs_le.1 C.err).2
  rw [e1, uu_eq] at h3
  rw [uu_eq] at e
  have h4 : |toR a - toR b| - |toR (a - b)| ≤ |toR (a - b) - (toR a - toR b)| := by
    rw [abs_sub_comm (toR (a - b))]
    exact abs_sub_abs_le_abs_sub _ _
  norm_num at h3 h e h2
  linarith

end

namespace Detail

theorem aget_compX {F : Type} (x : Vector F 21) (c : Composition F) (i : Fin 21) : aget (compX x c) i = c.frac i := by
  unfold compX
  simp only [aget_aset]
  fin_cases i <;> rfl

section
variable {F : Type} [Add F] [Sub F] [Mul F] [Div F] [Neg F] [FOps F]

/-- The object with another composition, temperature and pressure. -/
def sampled (s : Detail F) (x : Vector F 21) (t p : F) : Detail F := { s with x := x, t := t, p := p }

theorem sampled_eq (s : Detail F) (x : Vector F 21) (t p : F) : ({ withX s x with t := t, p := p } : Detail F) = sampled s x t p := rfl
theorem pub_sampled (s : Detail F) (x : Vector F 21) (t p : F) :
    pub (sampled s x t p) = { pub s with x := x, t := t, p := p } := rfl
theorem params_sampled (s : Detail F) (x : Vector F 21) (t p : F) : params (sampled s x t p) = params s := rfl
theorem cache_sampled (s : Detail F) (x : Vector F 21) (t p : F) : cache (sampled s x t p) = cache s := rfl

attribute [local irreducible] pressureP propertiesP densityP

/-- `density` and `properties` on an object with a history give what they give on a new object. -/
theorem meter_sim (hself : SelfDiff F) {last : List (Vector F 21 × F)} {s : Detail F} (hc : Coherent last s)
    (hr : Resolved last (pub s)) :
    (densityP s).2 = (densityP (freshOf (pub s))).2 ∧
    pub (propertiesP (densityP s).1) = pub (propertiesP (densityP (freshOf (pub s))).1) ∧
    Coherent [(s.x, s.t)] (propertiesP (densityP s).1) := by
  obtain ⟨a1, a2, a3⟩ := step_sim hself .density hc (fun _ => hr)
  have ex : (pub (densityP s).1).x = s.x := by rw [pub_densityP]; rfl
  have et : (pub (densityP s).1).t = s.t := by rw [pub_densityP]; rfl
  obtain ⟨b1, -, b3⟩ := step_sim hself .properties a3 (fun _ => by
    show Resolved ((s.x, s.t) :: last) (pub (densityP s).1)
    unfold Resolved
    rw [ex, et]
    refine ⟨hr.1, hr.2.1, fun e he => ?_⟩
    rcases List.mem_cons.1 he with h | h
    · rw [h]; exact ⟨Or.inl rfl, Or.inl rfl⟩
    · exact hr.2.2 e h)
  have a1' : pub (densityP s).1 = pub (densityP (freshOf (pub s))).1 := a1
  refine ⟨by injection a2, ?_, ?_⟩
  · have := after_density hself hr.1 hr.2.1
    rw [this, ← a1']
    exact b1
  · have b3' : Coherent [((pub (densityP s).1).x, (pub (densityP s).1).t)] (propertiesP (densityP s).1) := b3
    rwa [ex, et] at b3'

end

end Detail

namespace Gerg

section
variable {F : Type} [Add F] [Sub F] [Mul F] [Div F] [Neg F] [FOps F]

theorem aget_compX (x : Vector F 22) (c : Composition F) (i : Fin 22) :
    aget (compX x c) i = if h : 1 ≤ i.1 then c.frac ⟨i.1 - 1, by omega⟩ else f% 0.0 := by
  unfold compX
  simp only [aget_aset]
  fin_cases i <;> rfl

/-- The object with another composition, temperature and pressure. -/
def sampled (s : Gerg F) (x : Vector F 22) (t p : F) : Gerg F := { s with x := x, t := t, p := p }

theorem sampled_eq (s : Gerg F) (x : Vector F 22) (t p : F) : ({ withX s x with t := t, p := p } : Gerg F) = sampled s x t p := rfl
theorem pub_sampled (s : Gerg F) (x : Vector F 22) (t p : F) :
    pub (sampled s x t p) = { pub s with x := x, t := t, p := p } := rfl
theorem params_sampled (s : Gerg F) (x : Vector F 22) (t p : F) : params (sampled s x t p) = params s := rfl
theorem cache_sampled (s : Gerg F) (x : Vector F 22) (t p : F) : cache (sampled s x t p) = cache s := rfl

attribute [local irreducible] newP pressureP propertiesP densityP

/-- `density` and `properties` on an object with a history give what they give on a new object. -/
theorem meter_sim (hself : SelfDiff F) {last : List (Vector F 22 × F)} {s : Gerg F} (hc : Coherent last s)
    (hr : Resolved last (pub s)) :
    (densityP s 0).2 = (densityP (freshOf (pub s)) 0).2 ∧
    pub (propertiesP (densityP s 0).1).1 = pub (propertiesP (densityP (freshOf (pub s)) 0).1).1 ∧
    (propertiesP (densityP s 0).1).2 = (propertiesP (densityP (freshOf (pub s)) 0).1).2 ∧
    Idx (densityP s 0).1 ∧
    Coherent [(s.x, s.t)] (propertiesP (densityP s 0).1).1 := by
  obtain ⟨a1, a2, a3⟩ := step_sim hself (.density 0) hc (fun _ => hr)
  have ex : (pub (densityP s 0).1).x = s.x := by rw [dz_densityP le_rfl]; rfl
  have et : (pub (densityP s 0).1).t = s.t := by rw [dz_densityP le_rfl]; rfl
  obtain ⟨b1, b2, b3⟩ := step_sim hself .properties a3 (fun _ => by
    show Resolved [(s.x, s.t)] (pub (densityP s 0).1)
    unfold Resolved
    rw [ex, et]
    refine ⟨hr.1, hr.2.1, fun e he => ?_⟩
    rw [List.mem_singleton.1 he]
    exact ⟨Or.inl fun _ _ => rfl, Or.inl rfl⟩)
  have a1' : pub (densityP s 0).1 = pub (densityP (freshOf (pub s)) 0).1 := a1
  obtain ⟨h1, h2⟩ := after_density hself hr.1 hr.2.1 0 le_rfl
  refine ⟨by injection a2, ?_, ?_, idx_newP_params a3.1, ?_⟩
  · rw [h1, ← a1']
    exact b1
  · rw [h2, ← a1']
    injection b2
  · have b3' : Coherent [((pub (densityP s 0).1).x, (pub (densityP s 0).1).t)] (propertiesP (densityP s 0).1).1 := b3
    rwa [ex, et] at b3'

end

end Gerg

end Aga8
