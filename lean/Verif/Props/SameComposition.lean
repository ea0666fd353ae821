import Verif.Props.SetComposition
import Verif.Props.Detail

/-! # C88: the two models accept the same compositions and get the same mole fractions -/

namespace Aga8

variable {F : Type} [Add F] [Sub F] [Mul F] [Div F] [Neg F] [FOps F]

/-- C88, the same composition: for every number type, `set_composition` of the same composition on any DETAIL and any GERG-2008
calculator gives the same verdict. If it is an error, neither changes; otherwise the mole fractions of the two are those
`C88_models_agree_at_base_conditions` compares. -/
theorem C88_same_composition (sD : Detail F) (sG : Gerg F) (c : Composition F) :
    (∃ e, sD.set_composition c = (sD, .error e) ∧ sG.set_composition c = (sG, .error e)) ∨
    ∃ xD xG, sD.set_composition c = ({ sD with x := xD }, .ok ()) ∧ sG.set_composition c = ({ sG with x := xG }, .ok ()) ∧
      ∀ i : Fin 21, aget xG i.succ = aget xD i := by
  rcases C06_detail_set_composition sD c with ⟨e, h1, h2⟩ | ⟨h1, xD, h2, h3⟩ <;>
  rcases C07_gerg_set_composition sG c with ⟨e', k1, k2⟩ | ⟨k1, xG, k2, -, k3⟩
  · rw [h1] at k1
    cases k1
    exact Or.inl ⟨e, h2, k2⟩
  · rw [h1] at k1; cases k1
  · rw [h1] at k1; cases k1
  · refine Or.inr ⟨xD, xG, h2, k2, ?_⟩
    obtain ⟨h0, h1, h2, h3, h4, h5, h6, h7, h8, h9, h10, h11, h12, h13, h14, h15, h16, h17, h18, h19, h20⟩ := h3
    obtain ⟨k0, k1, k2, k3, k4, k5, k6, k7, k8, k9, k10, k11, k12, k13, k14, k15, k16, k17, k18, k19, k20⟩ := k3
    intro i
    fin_cases i
    · exact k0.trans h0.symm
    · exact k1.trans h1.symm
    · exact k2.trans h2.symm
    · exact k3.trans h3.symm
    · exact k4.trans h4.symm
    · exact k5.trans h5.symm
    · exact k6.trans h6.symm
    · exact k7.trans h7.symm
    · exact k8.trans h8.symm
    · exact k9.trans h9.symm
    · exact k10.trans h10.symm
    · exact k11.trans h11.symm
    · exact k12.trans h12.symm
    · exact k13.trans h13.symm
    · exact k14.trans h14.symm
    · exact k15.trans h15.symm
    · exact k16.trans h16.symm
    · exact k17.trans h17.symm
    · exact k18.trans h18.symm
    · exact k19.trans h19.symm
    · exact k20.trans h20.symm

/-- An empty composition is refused by both, pure methane accepted by both. -/
example (sD : Detail ℝ) (sG : Gerg ℝ) : (sD.set_composition Composition.default).2 = .error .Empty ∧
    (sG.set_composition Composition.default).2 = .error .Empty := by
  have h : (Composition.default : Composition ℝ).check = .error .Empty := by
    simp [Composition.check, Composition.sum, Composition.default]
  simp [Detail.set_composition, Gerg.set_composition, h]
example (sD : Detail ℝ) (sG : Gerg ℝ) : (sD.set_composition { Composition.default with methane := 1 }).2 = .ok () ∧
    (sG.set_composition { Composition.default with methane := 1 }).2 = .ok () := by
  have h : ({ Composition.default with methane := 1 } : Composition ℝ).check = .ok () := by
    simp [Composition.check, Composition.sum, Composition.default]
    norm_num
  simp [Detail.set_composition, Gerg.set_composition, h]

end Aga8
