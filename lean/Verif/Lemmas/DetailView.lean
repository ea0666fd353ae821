import Verif.Lemmas.DetailFrame

/-! # Cached terms as the next evaluation will see them

`view s` are the cached terms after the refresh an evaluation starts with. Two objects with equal public
fields, parameters and views are indistinguishable (`Same`). -/

set_option linter.unusedSectionVars false

namespace Aga8.Detail

open FOps Tab

variable {F : Type} [Add F] [Sub F] [Mul F] [Div F] [Neg F] [FOps F]

/-- The cached terms an evaluation uses (the entries of `csn` below 12 are never read). -/
structure View (F : Type) where
  k3 : F
  bs : Vector F 18
  csn : Vector F 58
  tun : Vector F 58

/-- The entries of `csn` that are read. -/
def csnRead (v : Vector F 58) : Vector F 58 :=
  Vector.ofFn fun n => if 12 ≤ n.1 then aget v n else f% 0.0

/-- The terms stored in the object. -/
def stored (s : Detail F) : View F := ⟨s.k3, s.bs, csnRead s.csn, s.tun⟩

/-- The terms computed from the composition and temperature. -/
def computed (s : Detail F) : View F :=
  ⟨(xAcc s).k3, (xAcc s).bs, csnRead (csnVec s), tunOf s.t⟩

/-- The terms after the refresh. -/
def view (s : Detail F) : View F where
  k3 := if xDiff s.x s.xold then (xAcc s).k3 else s.k3
  bs := if xDiff s.x s.xold then (xAcc s).bs else s.bs
  csn := if xDiff s.x s.xold then csnRead (csnVec s) else csnRead s.csn
  tun := if tDiff s.t s.told then tunOf s.t else s.tun

theorem stored_refresh (s : Detail F) (r : Vector (Vector F 4) 4) :
    stored (arTun { x_terms s with ar := r }) = view s := by
  have hx := x_terms_eq s
  cases h : xDiff s.x s.xold <;> rw [h] at hx <;>
    simp only [Bool.false_eq_true, if_false, if_true] at hx <;>
    rw [hx, arTun_eq] <;> unfold view stored <;> dsimp only <;> rw [h] <;>
    cases tDiff s.t s.told <;> rfl

/-- The terms of `alphar` read only the stored view, the temperature and the density. -/
theorem arTermP_congr {s s' : Detail F} (hv : stored s = stored s') (hd : s.d = s'.d)
    (dred : F) (dknn : Vector F 10) (expn : Vector F 5) (n : Fin 58) :
    arTermP s dred dknn expn n = arTermP s' dred dknn expn n := by
  have hb : s.bs = s'.bs := congrArg View.bs hv
  have ht : s.tun = s'.tun := congrArg View.tun hv
  have hc : 12 ≤ n.1 → aget s.csn n = aget s'.csn n := by
    intro h
    have := congrArg (fun v => aget v n) (congrArg View.csn hv)
    simpa [stored, csnRead, h] using this
  unfold arTermP
  rw [hb, ht, hd]
  by_cases h : 12 ≤ n.1
  · simp only [ge_iff_le, h, if_true, hc h]
  · simp only [ge_iff_le, h, if_false]

theorem arOf_congr {s s' : Detail F} (hv : stored s = stored s') (hd : s.d = s'.d) (ht : s.t = s'.t)
    (i : Int) : arOf s i = arOf s' i := by
  have hk : s.k3 = s'.k3 := congrArg View.k3 hv
  unfold arOf
  rw [hk, hd, ht]
  apply loop_congr
  intro n ar _
  rw [arTermP_congr hv hd]

/-- Two objects the user cannot tell apart: equal public fields, parameters and effective terms. -/
structure Same (s s' : Detail F) : Prop where
  pub : pub s = pub s'
  params : params s = params s'
  view : view s = view s'

theorem Same.refl (s : Detail F) : Same s s := ⟨rfl, rfl, rfl⟩
theorem Same.symm {s s' : Detail F} (h : Same s s') : Same s' s :=
  ⟨h.pub.symm, h.params.symm, h.view.symm⟩
theorem Same.trans {a b c : Detail F} (h : Same a b) (h' : Same b c) : Same a c :=
  ⟨h.pub.trans h'.pub, h.params.trans h'.params, h.view.trans h'.view⟩

theorem ar_alpharP (s : Detail F) (i : Int) :
    (alpharP s i).ar = arOf (arTun { s with ar := fill 4 (fill 4 (f% 0.0)) }) i := rfl

theorem ar_eval_congr' {s s' : Detail F} (hv : view s = view s') (hd : s.d = s'.d)
    (ht : s.t = s'.t) (i : Int) :
    (alpharP (x_terms s) i).ar = (alpharP (x_terms s') i).ar := by
  rw [ar_alpharP, ar_alpharP]
  have e1 : ∀ s : Detail F, (arTun { x_terms s with ar := fill 4 (fill 4 (f% 0.0)) }).t = s.t := by
    intro s; rw [arTun_eq]; exact pub_t (pub_x_terms s)
  have e2 : ∀ s : Detail F, (arTun { x_terms s with ar := fill 4 (fill 4 (f% 0.0)) }).d = s.d := by
    intro s; rw [arTun_eq]; exact pub_d (pub_x_terms s)
  apply arOf_congr
  · rw [stored_refresh, stored_refresh, hv]
  · rw [e2, e2, hd]
  · rw [e1, e1, ht]

theorem ar_eval_congr {s s' : Detail F} (h : Same s s') (i : Int) :
    (alpharP (x_terms s) i).ar = (alpharP (x_terms s') i).ar :=
  ar_eval_congr' h.view (pub_d h.pub) (pub_t h.pub) i

/-- The state after an evaluation has the same effective terms. -/
theorem view_after (hself : ∀ a : F, FOps.lt (f% 0.0000001) (abs (a - a)) = false)
    (s s1 : Detail F) (r : Vector (Vector F 4) 4)
    (hx : s1.x = s.x) (ht : s1.t = s.t) (hxo : s1.xold = s.x) (hto : s1.told = s.t)
    (hs : stored s1 = stored (arTun { x_terms s with ar := r })) :
    view s1 = view s := by
  rw [stored_refresh] at hs
  rw [← hs]
  have h1 : xDiff s1.x s1.xold = false := by
    rw [hx, hxo]
    unfold xDiff
    rw [List.any_eq_false]
    intro i _
    rw [hself]; simp
  have h2 : tDiff s1.t s1.told = false := by
    rw [ht, hto]; exact hself _
  unfold view stored
  simp only [h1, h2, Bool.false_eq_true, if_false]

/-- Every number type used here is such that `|a - a| > 1e-7` is false. -/
abbrev SelfDiff (F : Type) [Sub F] [FOps F] : Prop :=
  ∀ a : F, FOps.lt (f% 0.0000001) (abs (a - a)) = false

/-- Cache state after an evaluation of `x_terms` and `alphar`. -/
theorem cache_eval (s : Detail F) (i : Int) :
    cache (alpharP (x_terms s) i) = cache (arTun { x_terms s with ar := fill 4 (fill 4 (f% 0.0)) }) := rfl

theorem eval_xold (s : Detail F) (i : Int) : (alpharP (x_terms s) i).xold = s.x := by
  show (arTun { x_terms s with ar := _ }).xold = _
  rw [arTun_eq, x_terms_eq]
  cases xDiff s.x s.xold <;> rfl

theorem eval_told (s : Detail F) (i : Int) : (alpharP (x_terms s) i).told = s.t := by
  show (arTun { x_terms s with ar := _ }).told = _
  rw [arTun_eq]
  exact pub_t (pub_x_terms s)

theorem view_eval (hself : SelfDiff F) (s : Detail F) (i : Int) :
    view (alpharP (x_terms s) i) = view s := by
  have h : pub (alpharP (x_terms s) i) = pub s := by simp
  exact view_after hself s _ _ (pub_xx h) (pub_t h) (eval_xold s i) (eval_told s i) rfl

/-- Views do not look at scratch or result fields. -/
theorem view_congr {s s' : Detail F} (hc : cache s = cache s') (hx : s.x = s'.x) (ht : s.t = s'.t)
    (hm : params s = params s') : view s = view s' := by
  have h1 : s.xold = s'.xold := congrArg Cache.xold hc
  have h2 : s.told = s'.told := congrArg Cache.told hc
  have h3 : s.bs = s'.bs := congrArg Cache.bs hc
  have h4 : s.k3 = s'.k3 := congrArg Cache.k3 hc
  have h5 : s.csn = s'.csn := congrArg Cache.csn hc
  have h6 : s.tun = s'.tun := congrArg Cache.tun hc
  unfold view csnVec
  rw [xAcc_congr hx hm, csnOf_congr hx hm, hx, ht, h1, h2, h3, h4, h5, h6]

/-! ## `pressure` -/

theorem cache_pressureP (s : Detail F) : cache (pressureP s).1 = cache (alpharP (x_terms s) 0) := rfl

theorem view_pressureP (hself : SelfDiff F) (s : Detail F) : view (pressureP s).1 = view s := by
  rw [← view_eval hself s 0]
  have hp : pub (alpharP (x_terms s) 0) = pub s := by simp
  have hp' := pub_pressureP s
  have hx : (pressureP s).1.x = s.x := congrArg Pub.x hp'
  have ht : (pressureP s).1.t = s.t := congrArg Pub.t hp'
  apply view_congr (cache_pressureP s)
  · rw [hx, pub_xx hp]
  · rw [ht, pub_t hp]
  · rw [params_pressureP]; simp

theorem pressureP_z (s : Detail F) : (pressureP s).1.z
    = f% 1.0 + aget2 (alpharP (x_terms s) 0).ar 0 1 / RDETAIL / s.t := by
  have h : pub (alpharP (x_terms s) 0) = pub s := by simp
  rw [← pub_t h]
  rfl

theorem pressureP_save (s : Detail F) : (pressureP s).1.dp_dd_save
    = RDETAIL * s.t + f% 2.0 * aget2 (alpharP (x_terms s) 0).ar 0 1
      + aget2 (alpharP (x_terms s) 0).ar 0 2 := by
  have h : pub (alpharP (x_terms s) 0) = pub s := by simp
  rw [← pub_t h]
  rfl

theorem Same.pressure (hself : SelfDiff F) {s s' : Detail F} (h : Same s s') :
    Same (pressureP s).1 (pressureP s').1 ∧ (pressureP s).2 = (pressureP s').2 ∧
    (pressureP s).1.dp_dd_save = (pressureP s').1.dp_dd_save := by
  have hz : (pressureP s).1.z = (pressureP s').1.z := by
    rw [pressureP_z, pressureP_z, ar_eval_congr h, pub_t h.pub]
  refine ⟨⟨?_, ?_, ?_⟩, ?_, ?_⟩
  · rw [pub_pressureP, pub_pressureP, hz, h.pub]
  · rw [params_pressureP, params_pressureP, h.params]
  · rw [view_pressureP hself, view_pressureP hself, h.view]
  · rw [pressureP_snd, pressureP_snd, hz, pub_t h.pub, pub_d h.pub]
  · rw [pressureP_save, pressureP_save, ar_eval_congr h, pub_t h.pub]

/-! ## Writing the density -/

/-- The object with another density. -/
def withD (s : Detail F) (d : F) : Detail F := { s with d := d }

theorem densityLoopP_zero (plog vlog : F) (s : Detail F) :
    densityLoopP plog 0 vlog s = (withD s (s.p / RDETAIL / s.t), .error .IterationFail) := rfl

theorem densityLoopP_succ (plog : F) (n : Nat) (vlog : F) (s : Detail F) :
    densityLoopP plog (n + 1) vlog s =
      if !(-(f% 7.0) <=. vlog && vlog <=. f% 100.0) then
        (withD s (s.p / RDETAIL / s.t), .error .IterationFail)
      else
        let r := pressureP (withD s (exp (-vlog)))
        if r.1.dp_dd_save <. EPSILON || r.2 <. EPSILON then
          densityLoopP plog n (vlog + f% 0.1) r.1
        else
          let vdiff := (ln r.2 - plog) * r.2 / (-r.1.d * r.1.dp_dd_save)
          if abs vdiff <. TOLR then (withD r.1 (exp (-(vlog - vdiff))), .ok ())
          else densityLoopP plog n (vlog - vdiff) r.1 := rfl

theorem densityP_eq (s : Detail F) : densityP s =
    if abs s.p <. EPSILON then (withD s (f% 0.0), .error .PressureTooLow)
    else
      let d0 := if -EPSILON <. s.d then s.p / RDETAIL / s.t else abs s.d
      densityLoopP (ln s.p) 20 (-ln d0) (withD s d0) := rfl

@[simp] theorem pub_withD (s : Detail F) (d : F) : pub (withD s d) = { pub s with d := d } := rfl
@[simp] theorem params_withD (s : Detail F) (d : F) : params (withD s d) = params s := rfl
@[simp] theorem view_withD (s : Detail F) (d : F) : view (withD s d) = view s :=
  view_congr rfl rfl rfl rfl
@[simp] theorem withD_d (s : Detail F) (d : F) : (withD s d).d = d := rfl
@[simp] theorem withD_t (s : Detail F) (d : F) : (withD s d).t = s.t := rfl
@[simp] theorem withD_p (s : Detail F) (d : F) : (withD s d).p = s.p := rfl
@[simp] theorem withD_x (s : Detail F) (d : F) : (withD s d).x = s.x := rfl

theorem Same.setD {s s' : Detail F} (h : Same s s') (d : F) : Same (withD s d) (withD s' d) :=
  ⟨by rw [pub_withD, pub_withD, h.pub], h.params, by rw [view_withD, view_withD, h.view]⟩

/-! ## `density` -/

theorem Same.densityLoop (hself : SelfDiff F) (plog : F) (n : Nat) (vlog : F) {s s' : Detail F}
    (h : Same s s') :
    Same (densityLoopP plog n vlog s).1 (densityLoopP plog n vlog s').1 ∧
    (densityLoopP plog n vlog s).2 = (densityLoopP plog n vlog s').2 := by
  induction n generalizing vlog s s' with
  | zero =>
    rw [densityLoopP_zero, densityLoopP_zero, pub_p h.pub, pub_t h.pub]
    exact ⟨h.setD _, rfl⟩
  | succ n ih =>
    rw [densityLoopP_succ, densityLoopP_succ]
    have hp := (h.setD (exp (-vlog))).pressure hself
    generalize pressureP (withD s (exp (-vlog))) = r at *
    generalize pressureP (withD s' (exp (-vlog))) = r' at *
    obtain ⟨h1, h2, h3⟩ := hp
    dsimp only
    rw [pub_p h.pub, pub_t h.pub, h2, h3, pub_d h1.pub]
    split
    · exact ⟨h.setD _, rfl⟩
    · split
      · exact ih _ h1
      · split
        · exact ⟨h1.setD _, rfl⟩
        · exact ih _ h1

theorem Same.density (hself : SelfDiff F) {s s' : Detail F} (h : Same s s') :
    Same (densityP s).1 (densityP s').1 ∧ (densityP s).2 = (densityP s').2 := by
  rw [densityP_eq, densityP_eq, pub_p h.pub, pub_t h.pub, pub_d h.pub]
  split
  · exact ⟨h.setD _, rfl⟩
  · exact (h.setD _).densityLoop hself _ _ _

/-! ## `molar_mass` and `properties` -/

theorem Same.molarMass {s s' : Detail F} (h : Same s s') :
    Same (molar_mass s).1 (molar_mass s').1 ∧ (molar_mass s).2 = (molar_mass s').2 := by
  have e : (molar_mass s).2 = (molar_mass s').2 := by
    unfold molar_mass; rw [pub_xx h.pub]
  refine ⟨⟨?_, h.params, ?_⟩, e⟩
  · show ({ Detail.pub s with mm := (molar_mass s).2 } : Pub F) = { Detail.pub s' with mm := (molar_mass s').2 }
    rw [e, h.pub]
  · have e : ∀ s : Detail F, Detail.view (molar_mass s).1 = Detail.view s := fun s => view_congr rfl rfl rfl rfl
    rw [e, e, h.view]

theorem alpha0_congr {s s' : Detail F} (hp : pub s = pub s') (hm : params s = params s') :
    (alpha0_detail s).a0 = (alpha0_detail s').a0 := by
  have hn : s.n0i = s'.n0i := congrArg Params.n0i hm
  have h1 : a0Hyp s = a0Hyp s' := by
    funext i j h; unfold a0Hyp; rw [hn, pub_t hp]
  have h2 : ∀ ld lt, a0Comp s ld lt = a0Comp s' ld lt := by
    intro ld lt; funext i a; unfold a0Comp; rw [h1, hn, pub_t hp, pub_xx hp]
  unfold alpha0_detail
  simp only [h2, pub_t hp, pub_d hp]

theorem propsFinish_congr {s s' : Detail F} (hp : pub s = pub s') (h0 : s.a0 = s'.a0)
    (hr : s.ar = s'.ar) (mm : F) : pub (propsFinish s mm) = pub (propsFinish s' mm) := by
  rw [← mkD_eta s, ← mkD_eta s', ← hp]
  have e0 : (scratch s).a0 = (scratch s').a0 := h0
  have e1 : (scratch s).ar = (scratch s').ar := hr
  revert e0 e1
  generalize scratch s = r
  generalize scratch s' = r'
  generalize pub s = q
  generalize params s = m
  generalize params s' = m'
  generalize cache s = c
  generalize cache s' = c'
  intro e0 e1
  obtain ⟨rs, r0, rr⟩ := r
  obtain ⟨rs', r0', rr'⟩ := r'
  simp only at e0 e1
  subst e0 e1
  unfold propsFinish mkD
  dsimp only
  split <;> dsimp only <;> split <;> rfl

theorem cache_propsFinish (s : Detail F) (mm : F) : cache (propsFinish s mm) = cache s := by
  unfold propsFinish
  dsimp only
  split <;> dsimp only <;> split <;> rfl

theorem propsFinish_x (s : Detail F) (mm : F) : (propsFinish s mm).x = s.x := by
  unfold propsFinish
  dsimp only
  split <;> dsimp only <;> split <;> rfl

theorem propsFinish_t (s : Detail F) (mm : F) : (propsFinish s mm).t = s.t := by
  unfold propsFinish
  dsimp only
  split <;> dsimp only <;> split <;> rfl

theorem propsFinish_d (s : Detail F) (mm : F) : (propsFinish s mm).d = s.d := by
  unfold propsFinish
  dsimp only
  split <;> dsimp only <;> split <;> rfl

/-- `alpha0_detail` commutes with `x_terms` and does not disturb `alphar`. -/
theorem ar_alpha0 (s : Detail F) (i : Int) :
    (alpharP (alpha0_detail s) i).ar = (alpharP s i).ar := by
  rw [ar_alpharP, ar_alpharP]
  apply arOf_congr <;> simp only [arTun_eq] <;> rfl

theorem a0_alpharP (s : Detail F) (i : Int) : (alpharP s i).a0 = s.a0 := by
  unfold alpharP; simp only [arTun_eq]

theorem cache_alpharP_alpha0 (s : Detail F) (i : Int) :
    cache (alpharP (alpha0_detail s) i) = cache (alpharP s i) := by
  unfold alpharP; simp only [arTun_eq]; rfl

theorem view_propertiesP (hself : SelfDiff F) (s : Detail F) : view (propertiesP s) = view s := by
  have e : view (molar_mass s).1 = view s := view_congr rfl rfl rfl rfl
  rw [← e, ← view_eval hself (molar_mass s).1 2]
  unfold propertiesP
  have hp : pub (alpharP (alpha0_detail (x_terms (molar_mass s).1)) 2)
      = pub (alpharP (x_terms (molar_mass s).1) 2) := by simp
  apply view_congr
  · rw [cache_propsFinish, cache_alpharP_alpha0]
  · rw [propsFinish_x]; exact pub_xx hp
  · rw [propsFinish_t]; exact pub_t hp
  · rw [params_propsFinish]; simp

theorem Same.properties (hself : SelfDiff F) {s s' : Detail F} (h : Same s s') :
    Same (propertiesP s) (propertiesP s') := by
  refine ⟨?_, ?_, ?_⟩
  · obtain ⟨hm, he⟩ := h.molarMass
    unfold propertiesP
    dsimp only
    rw [he]
    apply propsFinish_congr
    · simp only [pub_alpharP, pub_alpha0, pub_x_terms]; exact hm.pub
    · rw [a0_alpharP, a0_alpharP]
      apply alpha0_congr
      · simp only [pub_x_terms]; exact hm.pub
      · simp only [params_x_terms]; exact hm.params
    · rw [ar_alpha0, ar_alpha0]
      exact ar_eval_congr hm 2
  · rw [params_propertiesP, params_propertiesP, h.params]
  · rw [view_propertiesP hself, view_propertiesP hself, h.view]

end Aga8.Detail
