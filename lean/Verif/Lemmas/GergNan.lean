import Verif.Lemmas.GergDrift
import Verif.Lemmas.F64Zero
import Verif.Spec.GergNan

/-! # A NaN temperature between two evaluations of a GERG object -/

namespace Aga8.Gerg

open FOps Tab Aga8.F64

section any
set_option linter.unusedSectionVars false
variable {F : Type} [Add F] [Sub F] [Mul F] [Div F] [Neg F] [FOps F]

theorem mnumb_nodep : ∀ i j : Fin 22, 1 ≤ i.1 → i < j → (GergEos.departure i.1 j.1).2 = [] → aget2 MNUMB i j = 0 := by
  decide +kernel

/-- Without departure functions the temperature enters through the stored terms only. -/
theorem arOf_lntau {s : Gerg F} (hx : NoDepX s.x) (itau : Int) (del l l' : F) : arOf s itau del l = arOf s itau del l' := by
  unfold arOf
  apply foldl_congr_mem
  intro ar i hi
  have h1 : 1 ≤ i.1 := mem_rangeFin.1 (List.mem_of_mem_dropLast hi)
  by_cases hxi : FOps.lt EPSILON (aget s.x i) = true
  · rw [if_pos hxi, if_pos hxi]
    apply loop_congr
    intro j ar hj
    unfold arPairP
    by_cases hxj : FOps.lt EPSILON (aget s.x j) = true
    · rw [if_pos hxj, if_pos hxj]
      have hij : i < j := hj
      have h0 := mnumb_nodep i j h1 hij (hx i j h1 hij hxi hxj)
      rw [if_neg (by omega), if_neg (by omega)]
    · rw [if_neg hxj, if_neg hxj]
  · rw [if_neg hxi, if_neg hxi]

theorem ar_nodep {s s' : Gerg F} (hn : NoDepX s.x) (hx : s.x = s'.x) (hm : params s = params s')
    (hv : view s = view s') (hd : s.d = s'.d) (i : Int) : (alpharP s i).ar = (alpharP s' i).ar := by
  rw [ar_alpharP, ar_alpharP, hd, hv]
  have e : (refresh s').x = s'.x := pub_xx (pub_refresh s')
  have hn' : NoDepX (refresh s').x := by rw [e, ← hx]; exact hn
  rw [arOf_lntau hn' _ _ (ln ((view s').tr / s'.t)) (ln ((view s').tr / s.t))]
  apply arOf_congr
  · rw [pub_xx (pub_refresh s), pub_xx (pub_refresh s'), hx]; exact SamePos.refl _
  · rw [params_refresh, params_refresh, hm]
  · rw [readV_refresh, readV_refresh, hv]

/-- A refresh that sees no change replaces the remembered temperature only. -/
theorem refreshC_none (hself : SelfDiff F) (x : Vector F 22) (t : F) (m : Params F) (c : Cache F)
    (hx : xDiff x c.xold = false) (hs : xSave x c.xold = c.xold) (h2 : c.trold2 = c.trold)
    (ht : FOps.lt (f% 0.0000001) (abs (t - c.told)) = false) : refreshC x t m c = { c with told := t } := by
  rw [refreshC_eq, hx]
  simp only [Bool.false_eq_true, if_false]
  unfold refreshT
  rw [ht, h2, hself]
  simp only [Bool.or_false, Bool.false_eq_true, if_false]
  rw [hs]

end any

variable [Libm]

theorem refreshC_nan (x : Vector Float 22) (t1 tn t : Float) (hn : tn.isNaN = true) (m : Params Float) (c : Cache Float) :
    readV x (refreshC x t m (refreshC x tn m (refreshC x t1 m c))) = readV x (refreshC x t1 m c) := by
  obtain ⟨h1, h2, h3⟩ := refreshC_keys x t1 m c
  generalize refreshC x t1 m c = c' at *
  have hx : xDiff x c'.xold = false := by
    rw [h1]; exact xDiff_self selfDiff (xSave_same x c.xold).symm
  have hs : xSave x c'.xold = c'.xold := by rw [h1, xSave_idem]
  have e1 := refreshC_none selfDiff x tn m c' hx hs h3 (nan_far_left hn _)
  have e2 := refreshC_none selfDiff x t m { c' with told := tn } hx hs h3 (nan_far_right _ hn)
  rw [e1, e2]
  rfl

end Aga8.Gerg
