import Verif.Lemmas.DetailHelmholtz
import Verif.Props.DetailEos
import Verif.Spec.Aga8Tables

/-! # The Helmholtz energy that DETAIL computes is that of the AGA 8 equations

C43 (frozen constants) and C47. -/

namespace Aga8

open Detail (Pub pub Params params setPub)

/-- C47: on a new object, `properties` computes internal energy and entropy such that `u - T s` is `R T` times the sum of
the ideal-gas Helmholtz energy (`Eos.alpha0`) and the AGA 8 residual one (`Eos.alphaR`), with the crate's constants. The
ideal-gas constants of DETAIL are compared with those of the crate's GERG-2008, a second list in the same crate. -/
theorem C47_detail_helmholtz_is_aga8 (new0 : Detail ℝ) (hnew : Detail.new = .ok new0) (q : Pub ℝ)
    (hx : Detail.XFar q.x (fill 21 (f% 0.0))) (ht : 1e-7 < q.t) (hd : 1e-15 < q.d) :
    ∃ s', (setPub new0 q).properties = .ok s' ∧
      s'.u - q.t * s'.s = 8.31451 * q.t * (Eos.alpha0 (fun i => max (aget q.x i) 0) q.d q.t
        + Eos.alphaR (fun i => max (aget q.x i) 0) q.d q.t) := by
  have e := Detail.new_eq hnew
  subst e
  refine ⟨_, Detail.properties_ok _, ?_⟩
  have hu : (Detail.propertiesP (Detail.freshOf q)).u = _ := Detail.u_viewT hx ht
  have hA : Detail.A0 (Detail.view (Detail.freshOf q)) q.d = _ := Detail.alphaR_fresh hx ht q.d
  have hv : Detail.view (Detail.freshOf q) = Detail.viewT q q.t := Detail.view_atT hx ht
  rw [hv, Detail.A0_viewT] at hA
  have h1 : (Detail.propertiesP (Detail.freshOf q)).u - q.t * (Detail.propertiesP (Detail.freshOf q)).s
      = 8.31451 * q.t * (Eos.alpha0 (fun i => max (aget q.x i) 0) q.d q.t
        + Eos.alphaR (fun i => max (aget q.x i) 0) q.d q.t) := by
    have e2 : (Detail.propertiesP (Detail.freshOf (Detail.atT q q.t))).s = (Detail.propertiesP (Detail.freshOf q)).s := rfl
    rw [hu, hA, e2, Detail.I0_eq q.x hd, Detail.R_real]
    unfold Detail.posPart
    ring
  exact h1

/-- The two expressions belong together: the compression factor of C43 is `1 + D ∂α_r/∂D`. -/
theorem eos_Z_is_derivative (x : Fin 21 → ℝ) (T : ℝ) {D : ℝ} (hD : D ≠ 0) :
    HasDerivAt (fun D => Eos.alphaR x D T) ((Eos.Z x D T - 1) / D) D := by
  have hp : ∀ k : ℕ, HasDerivAt (fun D : ℝ => (Eos.Kcubed x * D) ^ k) (k * (Eos.Kcubed x * D) ^ k / D) D := by
    intro k
    cases k with
    | zero => simpa using hasDerivAt_const D (1 : ℝ)
    | succ k =>
      refine (((hasDerivAt_id D).const_mul (Eos.Kcubed x)).pow (k + 1)).congr_deriv ?_
      simp only [id, mul_one, Nat.add_sub_cancel]
      rw [pow_succ]
      field_simp
  have hs : HasDerivAt (fun D => ∑ n : Fin 58 with 12 ≤ n.1, Eos.Cstar x n * T ^ (-Eos.c Detail.Tab.UN n)
        * (Eos.Kcubed x * D) ^ Detail.Tab.BN[n.1] * Real.exp (-Eos.cn n * (Eos.Kcubed x * D) ^ Detail.Tab.KN[n.1]))
      ((∑ n : Fin 58 with 12 ≤ n.1, Eos.Cstar x n * T ^ (-Eos.c Detail.Tab.UN n)
        * ((Detail.Tab.BN[n.1] : ℝ) - Eos.cn n * Detail.Tab.KN[n.1] * (Eos.Kcubed x * D) ^ Detail.Tab.KN[n.1])
        * (Eos.Kcubed x * D) ^ Detail.Tab.BN[n.1]
        * Real.exp (-Eos.cn n * (Eos.Kcubed x * D) ^ Detail.Tab.KN[n.1])) / D) D := by
    rw [Finset.sum_div]
    refine HasDerivAt.fun_sum fun n _ => ?_
    refine (((hp Detail.Tab.BN[n.1]).const_mul (Eos.Cstar x n * T ^ (-Eos.c Detail.Tab.UN n))).mul
      (((hp Detail.Tab.KN[n.1]).const_mul (-Eos.cn n)).exp)).congr_deriv ?_
    field_simp
    ring
  have hl : ∀ b : ℝ, HasDerivAt (fun D : ℝ => D * b) b D := fun b => by simpa using (hasDerivAt_id D).mul_const b
  have h := ((hl (Eos.B x T)).sub (((hasDerivAt_id D).const_mul (Eos.Kcubed x)).mul_const
    (∑ n : Fin 58 with 12 ≤ n.1 ∧ n.1 < 18, Eos.Cstar x n * T ^ (-Eos.c Detail.Tab.UN n)))).add hs
  refine h.congr_deriv ?_
  unfold Eos.Z
  dsimp only
  field_simp
  ring

/-- The hypotheses of C47 hold of pure methane. -/
example : Detail.XFar (Detail.methane 1 0 Detail.mD).x (fill 21 (f% 0.0)) ∧ 1e-7 < (Detail.methane 1 0 Detail.mD).t ∧
    1e-15 < (Detail.methane 1 0 Detail.mD).d := by
  refine ⟨Detail.methane_x 1 0 Detail.mD, Detail.methane_t 1 0 Detail.mD, ?_⟩
  show (1e-15 : ℝ) < Detail.mD
  exact lt_of_lt_of_le (by norm_num) Detail.mD_bounds.1

/-- C43, regression only: the constants of all 58 terms equal the frozen copy in `Spec/Aga8Tables`.
That copy was generated from `/repo/src/detail.rs`, so this pins the model's table against later edits;
it is not evidence that the numbers agree with the AGA 8 report. -/
theorem C43_detail_term_constants_frozen : ∀ n : Fin 58,
    (Eos.terms.getD n.1 default).a = Detail.decQ (aget Detail.Tab.AN n) ∧
    (Eos.terms.getD n.1 default).u = Detail.decQ (aget Detail.Tab.UN n) ∧
    (Eos.terms.getD n.1 default).b = aget Detail.Tab.BN n ∧
    (Eos.terms.getD n.1 default).k = aget Detail.Tab.KN n ∧
    (Eos.terms.getD n.1 default).g = aget Detail.Tab.GN n ∧
    (Eos.terms.getD n.1 default).q = aget Detail.Tab.QN n ∧
    (Eos.terms.getD n.1 default).f = aget Detail.Tab.FN n ∧
    (Eos.terms.getD n.1 default).s = aget Detail.Tab.SN n ∧
    (Eos.terms.getD n.1 default).w = aget Detail.Tab.WN n := by decide +kernel

/-- C43, regression only: the constants of the 21 components equal the frozen copy, which was generated
from the crate (see `C43_detail_term_constants_frozen`). -/
theorem C43_detail_component_constants_frozen : ∀ i : Fin 21,
    (Eos.components.getD i.1 default).M = Detail.decQ (aget Detail.Tab.MMI i) ∧
    (Eos.components.getD i.1 default).E = Detail.decQ (aget Detail.Tab.EI i) ∧
    (Eos.components.getD i.1 default).K = Detail.decQ (aget Detail.Tab.KI i) ∧
    (Eos.components.getD i.1 default).G = Detail.decQ (aget Detail.Tab.GI i) ∧
    (Eos.components.getD i.1 default).Q = Detail.decQ (aget Detail.Tab.QI i) ∧
    (Eos.components.getD i.1 default).F = Detail.decQ (aget Detail.Tab.FI i) ∧
    (Eos.components.getD i.1 default).S = Detail.decQ (aget Detail.Tab.SI i) ∧
    (Eos.components.getD i.1 default).W = Detail.decQ (aget Detail.Tab.WI i) := by decide +kernel

/-- The binary parameters `E*, U, K, G*` of a pair in the frozen copy: 1 for pairs that are not listed. -/
def Eos.pair (i j : ℕ) : ℚ × ℚ × ℚ × ℚ :=
  ((Eos.pairs.find? fun r => r.1 = i ∧ r.2.1 = j).map fun r => r.2.2).getD (1, 1, 1, 1)

/-- C43, regression only: the binary parameters of all pairs equal the frozen copy, which was generated
from the crate (see `C43_detail_term_constants_frozen`). -/
theorem C43_detail_binary_constants_frozen : ∀ i j : Fin 21, i ≤ j →
    Eos.pair (i.1 + 1) (j.1 + 1) = (Detail.decQ (aget2 Detail.Tab.EIJ i j), Detail.decQ (aget2 Detail.Tab.UIJ i j),
      Detail.decQ (aget2 Detail.Tab.KIJ i j), Detail.decQ (aget2 Detail.Tab.GIJ i j)) := by decide +kernel

end Aga8
