import Verif.Lemmas.Metering

/-! # `pressure`, then `density` with that pressure, on the same object -/

set_option linter.unusedSectionVars false

namespace Aga8

namespace Detail

section
variable {F : Type} [Add F] [Sub F] [Mul F] [Div F] [Neg F] [FOps F]

/-- The object with another pressure. -/
def withP (s : Detail F) (p : F) : Detail F := { s with p := p }

theorem pub_withP (s : Detail F) (p : F) : pub (withP s p) = { pub s with p := p } := rfl
theorem params_withP (s : Detail F) (p : F) : params (withP s p) = params s := rfl
theorem cache_withP (s : Detail F) (p : F) : cache (withP s p) = cache s := rfl

/-- `density` after `pressure` gives what it gives on a new object. -/
theorem after_pressure (hself : SelfDiff F) {q : Pub F} (h1 : XFar q.x (fill 21 (f% 0.0))) (h2 : TFar q.t (f% 0.0)) (p : F) :
    let s1 := withP (pressureP (freshOf q)).1 p
    let q' : Pub F := { q with p := p, z := (pressureP (freshOf q)).1.z }
    (densityP s1).2 = (densityP (freshOf q')).2 ∧ pub (densityP s1).1 = pub (densityP (freshOf q')).1 := by
  intro s1 q'
  have c0 : Coherent [] (freshOf q) := coherent_cache coherent_new (params_setPub newP q) (cache_setPub newP q) fun _ h => h
  have e0 : pub (freshOf q) = q := pub_setPub _ _
  obtain ⟨-, -, c1⟩ := step_sim hself .pressure c0 fun _ => ⟨by rw [e0]; exact h1, by rw [e0]; exact h2, nofun⟩
  have c2 : Coherent [(q.x, q.t)] s1 := by
    refine coherent_cache c1 (params_withP _ p) (cache_withP _ p) fun e he => ?_
    rw [e0] at he
    exact he
  have e1 : pub s1 = q' := by
    show pub (withP _ p) = _
    rw [pub_withP, pub_pressureP, e0]
  obtain ⟨a1, a2, -⟩ := step_sim hself .density c2 fun _ => by
    rw [e1]
    refine ⟨h1, h2, fun e he => ?_⟩
    rw [List.mem_singleton.1 he]
    exact ⟨Or.inl rfl, Or.inl rfl⟩
  rw [e1] at a1 a2
  exact ⟨by injection a2, a1⟩

end

end Detail

namespace Gerg

section
variable {F : Type} [Add F] [Sub F] [Mul F] [Div F] [Neg F] [FOps F]

/-- The object with another pressure. -/
def withP (s : Gerg F) (p : F) : Gerg F := { s with p := p }

theorem pub_withP (s : Gerg F) (p : F) : pub (withP s p) = { pub s with p := p } := rfl
theorem params_withP (s : Gerg F) (p : F) : params (withP s p) = params s := rfl
theorem cache_withP (s : Gerg F) (p : F) : cache (withP s p) = cache s := rfl

/-- `density` after `pressure` gives what it gives on a new object. -/
theorem after_pressure (hself : SelfDiff F) {q : Pub F} (h1 : XFar q.x (fill 22 (f% 0.0))) (h2 : TFar q.t (f% 0.0)) (p : F) :
    let s1 := withP (pressureP (freshOf q)).1 p
    let q' : Pub F := { q with p := p, z := (pressureP (freshOf q)).1.z }
    (densityP s1 0).2 = (densityP (freshOf q') 0).2 ∧ pub (densityP s1 0).1 = pub (densityP (freshOf q') 0).1 ∧ Idx s1 := by
  intro s1 q'
  have c0 : Coherent [] (freshOf q) := coherent_cache coherent_new (params_setPub newP q) (cache_setPub newP q)
  have e0 : pub (freshOf q) = q := pub_setPub _ _
  obtain ⟨-, -, c1⟩ := step_sim hself .pressure c0 fun _ => ⟨by rw [e0]; exact h1, by rw [e0]; exact h2, nofun⟩
  have c2 : Coherent [(q.x, q.t)] s1 := by
    have := coherent_cache c1 (params_withP _ p) (cache_withP _ p)
    rw [e0] at this
    exact this
  have e1 : pub s1 = q' := by
    show pub (withP _ p) = _
    rw [pub_withP, pub_pressureP, e0]
  obtain ⟨a1, a2, -⟩ := step_sim hself (.density 0) c2 fun _ => by
    rw [e1]
    refine ⟨h1, h2, fun e he => ?_⟩
    rw [List.mem_singleton.1 he]
    exact ⟨Or.inl fun _ _ => rfl, Or.inl rfl⟩
  rw [e1] at a1 a2
  exact ⟨by injection a2, a1, idx_newP_params c2.1⟩

end

end Gerg

end Aga8
