import Verif.Lemmas.DetailErrConv
import Verif.Lemmas.GergErrConv
import Verif.Lemmas.NewtonNear

/-! # `properties` after `density` -/

set_option linter.unusedSectionVars false

namespace Aga8

open F64

namespace Detail

section
variable {F : Type} [Add F] [Sub F] [Mul F] [Div F] [Neg F] [FOps F]

attribute [local irreducible] pressureP propertiesP densityP

/-- The results of `properties` after `density` are those of a new object with the density found. -/
theorem after_density (hself : SelfDiff F) {q : Pub F} (hx : XFar q.x (fill 21 (f% 0.0))) (ht : TFar q.t (f% 0.0)) :
    pub (propertiesP (densityP (freshOf q)).1) = pub (propertiesP (freshOf (pub (densityP (freshOf q)).1))) := by
  have c0 : Coherent [] (freshOf q) :=
    coherent_cache coherent_new (params_setPub newP q) (cache_setPub newP q) (fun _ h => h)
  have ep : pub (freshOf q) = q := pub_setPub _ _
  have h1 := (step_sim hself (s := freshOf q) .density c0 (fun _ => by rw [ep]; exact ⟨hx, ht, nofun⟩)).2.2
  have ex : (pub (densityP (freshOf q)).1).x = q.x := by
    rw [pub_densityP, ep]
  have et : (pub (densityP (freshOf q)).1).t = q.t := by
    rw [pub_densityP, ep]
  rw [ep] at h1
  have h2 := (step_sim hself .properties h1 (fun _ => by
    show Resolved [(q.x, q.t)] (pub (densityP (freshOf q)).1)
    unfold Resolved
    rw [ex, et]
    refine ⟨hx, ht, fun e he => ?_⟩
    rw [List.mem_singleton.1 he]
    exact ⟨Or.inl rfl, Or.inl rfl⟩)).1
  exact h2

end

variable [Libm] {q : Pub Float}

theorem DensDomain.far (h : DensDomain q) : XFar q.x (fill 21 (f% 0.0)) ∧ TFar q.t (f% 0.0) := by
  refine ⟨?_, far0 h.t_fin (by linarith [h.t_low]) (h.t_high.trans (by norm_num))⟩
  obtain ⟨i, hi⟩ := h.x_big
  refine ⟨i, ?_⟩
  rw [aget_fill]
  refine far0 (h.x_fin i) hi ?_
  rcases h.x_rng i with g | g
  · linarith
  · exact g.2.trans (by norm_num)

end Detail

namespace Gerg

section
variable {F : Type} [Add F] [Sub F] [Mul F] [Div F] [Neg F] [FOps F]

attribute [local irreducible] newP pressureP propertiesP densityP

/-- The results of `properties` after `density` are those of a new object with the density found. -/
theorem after_density (hself : SelfDiff F) {q : Pub F} (hx : XFar q.x (fill 22 (f% 0.0))) (ht : TFar q.t (f% 0.0))
    (iflag : Int) (hi : iflag ≤ 0) :
    pub (propertiesP (densityP (freshOf q) iflag).1).1 = pub (propertiesP (freshOf (pub (densityP (freshOf q) iflag).1))).1 ∧
    (propertiesP (densityP (freshOf q) iflag).1).2 = (propertiesP (freshOf (pub (densityP (freshOf q) iflag).1))).2 := by
  have c0 : Coherent [] (freshOf q) :=
    coherent_cache coherent_new (params_setPub newP q) (cache_setPub newP q)
  have ep : pub (freshOf q) = q := pub_setPub _ _
  have h1 := (step_sim hself (s := freshOf q) (.density iflag) c0 (fun _ => by rw [ep]; exact ⟨hx, ht, nofun⟩)).2.2
  have ex : (pub (densityP (freshOf q) iflag).1).x = q.x := by
    rw [dz_densityP hi, ep]
  have et : (pub (densityP (freshOf q) iflag).1).t = q.t := by
    rw [dz_densityP hi, ep]
  rw [ep] at h1
  obtain ⟨h2, h3, -⟩ := step_sim hself .properties h1 (fun _ => by
    show Resolved [(q.x, q.t)] (pub (densityP (freshOf q) iflag).1)
    unfold Resolved
    rw [ex, et]
    refine ⟨hx, ht, fun e he => ?_⟩
    rw [List.mem_singleton.1 he]
    exact ⟨Or.inl fun _ _ => rfl, Or.inl rfl⟩)
  exact ⟨h2, by injection h3⟩

end

variable [Libm] {q : Pub Float}

theorem DensDomain.far (h : DensDomain q) : XFar q.x (fill 22 (f% 0.0)) ∧ TFar q.t (f% 0.0) := by
  refine ⟨?_, far1 h.t_fin (by linarith [h.t_low]) (h.t_high.trans (by norm_num))⟩
  obtain ⟨i, hi, hi2⟩ := h.x_big
  refine ⟨i, hi, ?_⟩
  rw [aget_fill]
  refine far1 (h.x_fin i hi) hi2 ?_
  rcases h.x_rng i hi with g | g
  · rw [g]; norm_num
  · exact g.2.trans (by norm_num)

end Gerg

end Aga8
