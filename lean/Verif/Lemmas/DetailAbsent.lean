import Verif.Lemmas.DetailEval

/-! # Components that are absent do not contribute -/

set_option linter.unusedSectionVars false

namespace Aga8.Detail

open FOps Tab

variable {F : Type} [Add F] [Sub F] [Mul F] [Div F] [Neg F] [FOps F]

/-- Two compositions that agree on the strictly positive fractions. -/
def SamePos (x y : Vector F 21) : Prop :=
  ∀ i, aget x i = aget y i ∨ (FOps.lt (f% 0.0) (aget x i) = false ∧ FOps.lt (f% 0.0) (aget y i) = false)

theorem xPure_pos {s s' : Detail F} (hx : SamePos s.x s'.x) (hm : params s = params s') :
    xPure s = xPure s' := by
  have h1 : s.ki25 = s'.ki25 := congrArg Params.ki25 hm
  have h2 : s.ei25 = s'.ei25 := congrArg Params.ei25 hm
  have h3 : s.bsnij2 = s'.bsnij2 := congrArg Params.bsnij2 hm
  funext i a
  unfold xPure
  rcases hx i with h | ⟨h, h'⟩
  · rw [h, h1, h2, h3]
  · simp only [h, h', Bool.false_eq_true, if_false]

theorem xPair_pos {s s' : Detail F} (hx : SamePos s.x s'.x) (hm : params s = params s') (i : Fin 21)
    (hi : aget s.x i = aget s'.x i) : xPair s i = xPair s' i := by
  have h3 : s.bsnij2 = s'.bsnij2 := congrArg Params.bsnij2 hm
  have h4 : s.kij5 = s'.kij5 := congrArg Params.kij5 hm
  have h5 : s.uij5 = s'.uij5 := congrArg Params.uij5 hm
  have h6 : s.gij5 = s'.gij5 := congrArg Params.gij5 hm
  funext j a
  unfold xPair
  rcases hx j with h | ⟨h, h'⟩
  · rw [h, hi, h3, h4, h5, h6]
  · simp only [h, h', Bool.false_eq_true, if_false]

theorem xAcc_pos {s s' : Detail F} (hx : SamePos s.x s'.x) (hm : params s = params s') :
    xAcc s = xAcc s' := by
  have e2 : (fun (i : Fin 21) (a : XAcc F) =>
        if f% 0.0 <. aget s.x i then loop (i.1 + 1) 21 a (xPair s i) else a)
      = fun i a => if f% 0.0 <. aget s'.x i then loop (i.1 + 1) 21 a (xPair s' i) else a := by
    funext i a
    rcases hx i with h | ⟨h, h'⟩
    · rw [h, xPair_pos hx hm i h]
    · simp only [h, h', Bool.false_eq_true, if_false]
  unfold xAcc
  rw [xPure_pos hx hm, e2]

theorem computed_pos {s s' : Detail F} (hx : SamePos s.x s'.x) (ht : s.t = s'.t)
    (hm : params s = params s') : computed s = computed s' := by
  unfold computed
  rw [xAcc_pos hx hm, ht]
  have : csnRead (csnVec s) = csnRead (csnVec s') := by
    apply arr_ext
    intro n
    unfold csnRead csnVec csnOf
    simp only [aget_ofFn]
    rw [xAcc_pos hx hm]
    split <;> rfl
  rw [this]

theorem alpha0_pos {s s' : Detail F} (hx : SamePos s.x s'.x) (ht : s.t = s'.t) (hd : s.d = s'.d)
    (hm : params s = params s') : (alpha0_detail s).a0 = (alpha0_detail s').a0 := by
  have hn : s.n0i = s'.n0i := congrArg Params.n0i hm
  have h1 : a0Hyp s = a0Hyp s' := by
    funext i j h; unfold a0Hyp; rw [hn, ht]
  have h2 : ∀ ld lt, a0Comp s ld lt = a0Comp s' ld lt := by
    intro ld lt; funext i a; unfold a0Comp
    rcases hx i with h | ⟨h, h'⟩
    · rw [h1, hn, ht, h]
    · simp only [h, h', Bool.false_eq_true, if_false]
  unfold alpha0_detail
  simp only [h2, ht, hd]

/-- The results of `properties` that do not involve the molar mass. -/
structure NoMass (F : Type) where
  t : F
  d : F
  p : F
  z : F
  dp_dd : F
  d2p_dd2 : F
  d2p_dtd : F
  dp_dt : F
  u : F
  h : F
  s : F
  cv : F
  cp : F
  g : F
  jt : F

/-- The results of `properties` that do not involve the molar mass. -/
def noMass (s : Detail F) : NoMass F :=
  ⟨s.t, s.d, s.p, s.z, s.dp_dd, s.d2p_dd2, s.d2p_dtd, s.dp_dt, s.u, s.h, s.s, s.cv, s.cp, s.g, s.jt⟩

theorem noMass_propsFinish {s s' : Detail F} (ht : s.t = s'.t) (hd : s.d = s'.d)
    (h0 : s.a0 = s'.a0) (hr : s.ar = s'.ar) (mm mm' : F) :
    noMass (propsFinish s mm) = noMass (propsFinish s' mm') := by
  have e1 : (propsFinish s mm).dp_dd = (propsFinish s' mm').dp_dd := by
    rw [propsFinish_dp_dd, propsFinish_dp_dd, hr, ht]
  have e2 : (propsFinish s mm).dp_dt = (propsFinish s' mm').dp_dt := by
    rw [propsFinish_dp_dt, propsFinish_dp_dt, hr, hd]
  have e3 : (propsFinish s mm).z = (propsFinish s' mm').z := by
    rw [propsFinish_z, propsFinish_z, hr, ht]
  have e4 : (propsFinish s mm).p = (propsFinish s' mm').p := by
    rw [propsFinish_p, propsFinish_p, e3, ht, hd]
  have e5 : (propsFinish s mm).s = (propsFinish s' mm').s := by
    rw [propsFinish_s, propsFinish_s, hr, h0]
  have e6 : (propsFinish s mm).u = (propsFinish s' mm').u := by
    rw [propsFinish_u, propsFinish_u, hr, h0, ht, e5]
  have e7 : (propsFinish s mm).cv = (propsFinish s' mm').cv := by
    rw [propsFinish_cv, propsFinish_cv, hr, h0]
  have e8 : (propsFinish s mm).cp = (propsFinish s' mm').cp := by
    rw [propsFinish_cp, propsFinish_cp, e7, e2, e1, hd, ht]
  have e9 : (propsFinish s mm).h = (propsFinish s' mm').h := by
    rw [propsFinish_h, propsFinish_h, e6, e4, hd, ht]
  have e10 : (propsFinish s mm).g = (propsFinish s' mm').g := by
    rw [propsFinish_g, propsFinish_g, e4, hd, ht, hr, h0]
  have e11 : (propsFinish s mm).jt = (propsFinish s' mm').jt := by
    rw [propsFinish_jt, propsFinish_jt, e8, e2, e1, hd, ht]
  have e12 : (propsFinish s mm).d2p_dd2 = (propsFinish s' mm').d2p_dd2 := by
    rw [propsFinish_d2p_dd2, propsFinish_d2p_dd2, hd, hr]
  unfold noMass
  rw [e1, e2, e3, e4, e5, e6, e7, e8, e9, e10, e11, e12, propsFinish_t, propsFinish_t,
    propsFinish_d, propsFinish_d, propsFinish_d2p_dtd, propsFinish_d2p_dtd, ht, hd]

theorem noMass_propertiesP {s s' : Detail F} (ht : s.t = s'.t) (hd : s.d = s'.d)
    (hx : SamePos s.x s'.x) (hm : params s = params s') (hv : view s = view s') :
    noMass (propertiesP s) = noMass (propertiesP s') := by
  rw [propertiesP_eq, propertiesP_eq]
  apply noMass_propsFinish
  · rw [propsMid_t, propsMid_t, ht]
  · rw [propsMid_d, propsMid_d, hd]
  · rw [propsMid_a0, propsMid_a0, alpha0_pos hx ht hd hm]
  · rw [propsMid_ar, propsMid_ar, ar_eval_congr' hv hd ht]

end Aga8.Detail
