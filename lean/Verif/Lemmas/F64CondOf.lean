import Verif.Lemmas.F64Cond
import Verif.Spec.CondError
import Verif.Props.F64MolarMass

/-! # From absolute to relative error -/

set_option linter.unusedSectionVars false

namespace Aga8.F64

theorem cond_unit {v s K : ℝ} (h : WellSized v s K) (hs : |v| ≤ s) (hK : K ≤ 10000) : RUnit (1e-10 * K) := by
  have v0 : 0 < v := lt_of_lt_of_le (by norm_num) h.low
  have h1 : 1 ≤ K := by
    have := hs.trans h.cond
    rw [abs_of_pos v0] at this
    by_contra hc
    nlinarith
  constructor
  · rw [uu_eq]; norm_num; linarith
  · norm_num; linarith

/-- A quantity with a bounded loss is known with a small relative error. -/
theorem cond_rl {a : Float} {v s K : ℝ} {k l h : ℕ} (A : Ap a v s k l h) (hk : k ≤ 6300000) (hW : WellSized v s K) :
    Rl (1e-10 * K) a v v 7 30 100 := by
  have v0 : 0 < v := lt_of_lt_of_le (by norm_num) hW.low
  refine ⟨A.fin, (abs_of_pos v0).le, A.err.trans ?_, Or.inr ⟨?_, hW.high.trans (by norm_num)⟩⟩
  · have h1 : (k : ℝ) ≤ 6300000 := by exact_mod_cast hk
    have hu := uu_pos
    have s0 := A.nonneg
    calc k * uu * s ≤ 6300000 * uu * (K * v) := by
          refine mul_le_mul (by gcongr) hW.cond s0 (by positivity)
      _ = (6300000 * uu) * (K * v) := by ring
      _ ≤ 7e-10 * (K * v) := by
          refine mul_le_mul_of_nonneg_right ?_ (s0.trans hW.cond)
          rw [uu_eq]; norm_num
      _ = _ := by push_cast; norm_num; ring
  · have := hW.low
    norm_num at this ⊢
    linarith

/-- A molar mass. -/
theorem mass_rl {ε : ℝ} (u : RUnit ε) {a : Float} {M m : ℝ} {l h : ℕ} (A : Ap a M m 47 l h) (hm : m = M) (h1 : 1 / 100 ≤ M)
    (h2 : M ≤ 10000) : Rl ε a M M 3 8 14 := by
  subst hm
  exact Rl.ofAp u (n := 3) (Ap.remag A (k' := 47) A.mag le_rfl (l' := 8) (h' := 14) (Or.inr ⟨by norm_num; linarith, h2.trans (by norm_num)⟩)) (by norm_num)

end Aga8.F64
