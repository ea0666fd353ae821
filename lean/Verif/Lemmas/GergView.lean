import Verif.Lemmas.GergFrame

/-! # Cached GERG terms as the next evaluation will see them -/

set_option linter.unusedSectionVars false

namespace Aga8.Gerg

open FOps Tab
open Detail (put2P)

variable {F : Type} [Add F] [Sub F] [Mul F] [Div F] [Neg F] [FOps F]

/-- The cached terms an evaluation uses; entries that are never read are blanked out. -/
structure View (F : Type) where
  dr : F
  tr : F
  taup : Vector (Vector F 25) 22
  taupijk : Vector (Vector F 13) 22

/-- The pure-fluid terms that are read. -/
def maskP (x : Vector F 22) (v : Vector (Vector F 25) 22) : Vector (Vector F 25) 22 :=
  Vector.ofFn fun i => Vector.ofFn fun k => if readP x i k then aget2 v i k else f% 0.0

open Classical in
/-- The departure terms that are read. -/
noncomputable def maskIJ (x : Vector F 22) (v : Vector (Vector F 13) 22) : Vector (Vector F 13) 22 :=
  Vector.ofFn fun m => Vector.ofFn fun k => if readIJ x m k then aget2 v m k else f% 0.0

theorem aget2_ofFn {α : Type} {n m : Nat} (f : Fin n → Fin m → α) (i : Fin n) (j : Fin m) :
    aget2 (Vector.ofFn fun i => Vector.ofFn fun j => f i j) i j = f i j := by
  unfold aget2; rw [aget_ofFn, aget_ofFn]

theorem maskP_get {x : Vector F 22} {i : Fin 22} {k : Fin 25} (h : readP x i k)
    (v : Vector (Vector F 25) 22) : aget2 (maskP x v) i k = aget2 v i k := by
  unfold maskP; rw [aget2_ofFn, if_pos h]

theorem maskIJ_get {x : Vector F 22} {m : Fin 22} {k : Fin 13} (h : readIJ x m k)
    (v : Vector (Vector F 13) 22) : aget2 (maskIJ x v) m k = aget2 v m k := by
  unfold maskIJ; rw [aget2_ofFn, if_pos h]

theorem maskP_ext {x y : Vector F 22} {v w : Vector (Vector F 25) 22}
    (hxy : ∀ i k, readP x i k ↔ readP y i k)
    (h : ∀ i k, readP x i k → aget2 v i k = aget2 w i k) : maskP x v = maskP y w := by
  apply arr2_ext
  intro i k
  unfold maskP
  rw [aget2_ofFn, aget2_ofFn]
  by_cases hr : readP x i k
  · rw [if_pos hr, if_pos ((hxy i k).1 hr), h i k hr]
  · rw [if_neg hr, if_neg (fun h => hr ((hxy i k).2 h))]

theorem maskIJ_ext {x y : Vector F 22} {v w : Vector (Vector F 13) 22}
    (hxy : ∀ i k, readIJ x i k ↔ readIJ y i k)
    (h : ∀ i k, readIJ x i k → aget2 v i k = aget2 w i k) : maskIJ x v = maskIJ y w := by
  apply arr2_ext
  intro i k
  unfold maskIJ
  rw [aget2_ofFn, aget2_ofFn]
  by_cases hr : readIJ x i k
  · rw [if_pos hr, if_pos ((hxy i k).1 hr), h i k hr]
  · rw [if_neg hr, if_neg (fun h => hr ((hxy i k).2 h))]

attribute [local irreducible] maskP maskIJ taupP taupijkP redX xDiff

/-- Two compositions that agree on the components present (fraction above 1e-15). -/
def SamePos (x y : Vector F 22) : Prop := ∀ i : Fin 22, 1 ≤ i.1 →
  aget x i = aget y i ∨ (FOps.lt EPSILON (aget x i) = false ∧ FOps.lt EPSILON (aget y i) = false)

theorem XSame.pos {x y : Vector F 22} (h : XSame x y) : SamePos x y := fun i hi => Or.inl (h i hi)
theorem SamePos.refl (x : Vector F 22) : SamePos x x := fun _ _ => Or.inl rfl
theorem SamePos.symm {x y : Vector F 22} (h : SamePos x y) : SamePos y x := fun i hi =>
  (h i hi).elim (fun e => Or.inl e.symm) (fun e => Or.inr ⟨e.2, e.1⟩)

theorem SamePos.present {x y : Vector F 22} (h : SamePos x y) {i : Fin 22} (hi : 1 ≤ i.1)
    (hx : FOps.lt EPSILON (aget x i) = true) : aget x i = aget y i := by
  rcases h i hi with e | ⟨e, -⟩
  · exact e
  · rw [e] at hx; cases hx

theorem SamePos.lt {x y : Vector F 22} (h : SamePos x y) {i : Fin 22} (hi : 1 ≤ i.1) :
    FOps.lt EPSILON (aget x i) = FOps.lt EPSILON (aget y i) := by
  rcases h i hi with e | ⟨e, e'⟩
  · rw [e]
  · rw [e, e']

theorem SamePos.readP {x y : Vector F 22} (h : SamePos x y) (i : Fin 22) (k : Fin 25) :
    readP x i k ↔ readP y i k := by
  unfold Gerg.readP
  constructor <;> rintro ⟨h1, h2, h3⟩ <;> refine ⟨h1, ?_, h3⟩
  · rw [← h.lt h1]; exact h2
  · rw [h.lt h1]; exact h2

theorem SamePos.readIJ {x y : Vector F 22} (h : SamePos x y) (m : Fin 22) (k : Fin 13) :
    readIJ x m k ↔ readIJ y m k := by
  unfold Gerg.readIJ
  constructor <;> rintro ⟨h1, h2, i, j, hi, hij, hx, hy, h3⟩ <;> refine ⟨h1, h2, i, j, hi, hij, ?_, ?_, h3⟩
  · rw [← h.lt hi]; exact hx
  · rw [← h.lt (by omega)]; exact hy
  · rw [h.lt hi]; exact hx
  · rw [h.lt (by omega)]; exact hy

theorem redX_pos {x y : Vector F 22} (h : SamePos x y) (b : Vector (Vector F 22) 22) :
    redX x b = redX y b := by
  unfold redX
  apply loop_congr
  intro i a hi
  unfold rpRow
  have hl : FOps.lt EPSILON (aget (bareXB x b).x i) = FOps.lt EPSILON (aget (bareXB y b).x i) := h.lt hi
  cases hx : FOps.lt EPSILON (aget (bareXB x b).x i)
  · rw [← hl, hx]; rfl
  · have e1 : aget (bareXB x b).x i = aget (bareXB y b).x i := h.present hi hx
    rw [← hl, hx]
    simp only [if_true]
    rw [loop_congr (body := rpPair (bareXB x b) i) (body' := rpPair (bareXB y b) i)]
    intro j a hj
    have hjj : 1 ≤ j.1 := Nat.le_trans hi hj
    have hl' : FOps.lt EPSILON (aget (bareXB x b).x j) = FOps.lt EPSILON (aget (bareXB y b).x j) := h.lt hjj
    unfold rpPair
    cases hx' : FOps.lt EPSILON (aget (bareXB x b).x j)
    · rw [← hl', hx']; rfl
    · have e2 : aget (bareXB x b).x j = aget (bareXB y b).x j := h.present hjj hx'
      have e3 : (bareXB x b).bvij = (bareXB y b).bvij := rfl
      rw [← hl', hx', e1, e2, e3]

/-- What an evaluation at composition `x` reads from a cache. -/
noncomputable def readV (x : Vector F 22) (c : Cache F) : View F :=
  ⟨c.drold, c.trold, maskP x c.taup, maskIJ x c.taupijk⟩

/-- The terms of composition `x` at reducing parameters `dr`, `tr` and temperature `t`. -/
noncomputable def termsV (x : Vector F 22) (t : F) (m : Params F) (dr tr : F) : View F :=
  ⟨dr, tr, maskP x (Vector.ofFn fun i => Vector.ofFn fun k => tpVal m.toik (ln (tr / t)) i k),
    maskIJ x (Vector.ofFn fun i => Vector.ofFn fun k => tijVal m.nijk m.tijk (ln (tr / t)) i.1 k.1)⟩

/-- The terms computed from the composition and temperature. -/
noncomputable def computedV (x : Vector F 22) (t : F) (m : Params F) : View F :=
  termsV x t m (drOf x m.bvij) (trOf x m.bvij)

/-- The terms the next evaluation uses. -/
noncomputable def view (s : Gerg F) : View F := readV s.x (refreshC s.x s.t (params s) (cache s))

theorem readV_pos {x y : Vector F 22} (h : SamePos x y) (c : Cache F) : readV x c = readV y c := by
  unfold readV
  rw [maskP_ext h.readP (fun _ _ _ => rfl), maskIJ_ext h.readIJ (fun _ _ _ => rfl)]

theorem termsV_pos {x y : Vector F 22} (h : SamePos x y) (t : F) (m : Params F) (dr tr : F) :
    termsV x t m dr tr = termsV y t m dr tr := by
  unfold termsV
  rw [maskP_ext h.readP (fun _ _ _ => rfl), maskIJ_ext h.readIJ (fun _ _ _ => rfl)]

theorem computedV_pos {x y : Vector F 22} (h : SamePos x y) (t : F) (m : Params F) :
    computedV x t m = computedV y t m := by
  unfold computedV drOf trOf
  rw [redX_pos h, termsV_pos h]

theorem readV_refreshT_stale (x : Vector F 22) (t : F) (m : Params F) (xold : Vector F 22)
    (dr tr told trold2 : F) (a : Vector (Vector F 25) 22) (b : Vector (Vector F 13) 22)
    (hs : (FOps.lt (f% 0.0000001) (abs (t - told)) || FOps.lt (f% 0.0000001) (abs (tr - trold2))) = true) :
    readV x (refreshT x t m xold dr tr told trold2 a b) = termsV x t m dr tr := by
  unfold refreshT readV termsV
  simp only [hs, if_true]
  rw [maskP_ext (x := x) (y := x) (v := taupP (bareT x m a b) (ln (tr / t)))
      (w := Vector.ofFn fun i => Vector.ofFn fun k => tpVal m.toik (ln (tr / t)) i k) (fun _ _ => Iff.rfl),
    maskIJ_ext (x := x) (y := x) (v := taupijkP (bareT x m a b) (ln (tr / t)))
      (w := Vector.ofFn fun i => Vector.ofFn fun k => tijVal m.nijk m.tijk (ln (tr / t)) i.1 k.1)
      (fun _ _ => Iff.rfl)]
  · intro i k h
    rw [aget2_ofFn]
    exact taupijkP_get (bareT x m a b) (ln (tr / t)) i k h
  · intro i k h
    rw [aget2_ofFn]
    exact taupP_get (bareT x m a b) (ln (tr / t)) i k h

theorem readV_refreshT_fresh (x : Vector F 22) (t : F) (m : Params F) (xold : Vector F 22)
    (dr tr told trold2 : F) (a : Vector (Vector F 25) 22) (b : Vector (Vector F 13) 22)
    (hs : (FOps.lt (f% 0.0000001) (abs (t - told)) || FOps.lt (f% 0.0000001) (abs (tr - trold2))) = false) :
    readV x (refreshT x t m xold dr tr told trold2 a b) = ⟨dr, tr, maskP x a, maskIJ x b⟩ := by
  unfold refreshT readV
  simp only [hs, Bool.false_eq_true, if_false]

/-- A changed composition at a temperature above 1e-7 is computed afresh. -/
theorem refresh_far (x : Vector F 22) (t : F) (m : Params F) (c : Cache F)
    (hx : xDiff x c.xold = true) (ht : TFar t (f% 0.0)) :
    readV x (refreshC x t m c) = computedV x t m := by
  have h : FOps.lt (f% 0.0000001) (abs (t - f% 0.0)) = true := ht
  rw [refreshC_eq, hx]
  simp only [if_true]
  rw [readV_refreshT_stale]
  · rfl
  · rw [h]; rfl

/-- Cache keys after a refresh. -/
theorem refreshC_keys (x : Vector F 22) (t : F) (m : Params F) (c : Cache F) :
    (refreshC x t m c).xold = xSave x c.xold ∧ (refreshC x t m c).told = t ∧
    (refreshC x t m c).trold2 = (refreshC x t m c).trold := ⟨rfl, rfl, rfl⟩

/-- Every number type used here is such that `|a - a| > 1e-7` is false. -/
abbrev SelfDiff (F : Type) [Sub F] [FOps F] : Prop :=
  ∀ a : F, FOps.lt (f% 0.0000001) (abs (a - a)) = false

theorem xDiff_self (hself : SelfDiff F) {x y : Vector F 22} (h : XSame x y) : xDiff x y = false := by
  cases h' : xDiff x y
  · rfl
  · rw [xDiff_iff] at h'
    obtain ⟨i, hi, hd⟩ := h'
    rw [h i hi, hself] at hd
    cases hd

theorem xSave_idem (x y : Vector F 22) : xSave x (xSave x y) = xSave x y := by
  apply arr_ext
  intro i
  unfold xSave
  simp only [aget_ofFn]
  split <;> rfl

/-- A second refresh changes nothing. -/
theorem refreshC_idem (hself : SelfDiff F) (x : Vector F 22) (t : F) (m : Params F) (c : Cache F) :
    refreshC x t m (refreshC x t m c) = refreshC x t m c := by
  obtain ⟨h1, h2, h3⟩ := refreshC_keys x t m c
  generalize refreshC x t m c = c' at *
  have hx : xDiff x c'.xold = false := by
    rw [h1]; exact xDiff_self hself (xSave_same x c.xold).symm
  rw [refreshC_eq, hx]
  simp only [Bool.false_eq_true, if_false]
  unfold refreshT
  rw [h2, h3, hself, hself]
  simp only [Bool.or_false, Bool.false_eq_true, if_false]
  have e : xSave x c'.xold = c'.xold := by rw [h1, xSave_idem]
  rw [e]
  obtain ⟨a, b, c2, d, e2, f, g⟩ := c'
  simp only at h2 h3 ⊢
  rw [h2, h3]

/-! ## The residual terms read the view only -/

theorem foldl_congr_mem {σ τ : Type} (l : List τ) (f g : σ → τ → σ) (s : σ)
    (h : ∀ s, ∀ a ∈ l, f s a = g s a) : l.foldl f s = l.foldl g s := by
  induction l generalizing s with
  | nil => rfl
  | cons a l ih =>
    rw [List.foldl_cons, List.foldl_cons, h s a List.mem_cons_self]
    exact ih _ fun s b hb => h s b (List.mem_cons_of_mem _ hb)

theorem gd_row {α : Type} {n m : Nat} (v : Vector (Vector α m) n) (i : Fin n) {k : Nat} (hk : k < m)
    (a : α) : gd (aget v i) k a = aget2 v i ⟨k, hk⟩ := by
  rw [gd, dif_pos hk]; rfl

theorem arOf_congr {s s' : Gerg F} (hx : SamePos s.x s'.x) (hm : params s = params s')
    (hv : readV s.x (cache s) = readV s'.x (cache s')) (itau : Int) (del lntau : F) :
    arOf s itau del lntau = arOf s' itau del lntau := by
  have p1 : s.coik = s'.coik := congrArg Params.coik hm
  have p2 : s.doik = s'.doik := congrArg Params.doik hm
  have p3 : s.toik = s'.toik := congrArg Params.toik hm
  have p4 : s.dijk = s'.dijk := congrArg Params.dijk hm
  have p5 : s.tijk = s'.tijk := congrArg Params.tijk hm
  have p6 : s.cijk = s'.cijk := congrArg Params.cijk hm
  have p7 : s.eijk = s'.eijk := congrArg Params.eijk hm
  have p8 : s.gijk = s'.gijk := congrArg Params.gijk hm
  have p9 : s.nijk = s'.nijk := congrArg Params.nijk hm
  have v1 : maskP s.x s.taup = maskP s'.x s'.taup := congrArg View.taup hv
  have v2 : maskIJ s.x s.taupijk = maskIJ s'.x s'.taupijk := congrArg View.taupijk hv
  have hP : ∀ i k, readP s.x i k → aget2 s.taup i k = aget2 s'.taup i k := by
    intro i k h
    exact (maskP_get h _).symm.trans ((congrArg (aget2 · i k) v1).trans (maskP_get ((hx.readP i k).1 h) _))
  have hIJ : ∀ m k, readIJ s.x m k → aget2 s.taupijk m k = aget2 s'.taupijk m k := by
    intro m k h
    exact (maskIJ_get h _).symm.trans ((congrArg (aget2 · m k) v2).trans (maskIJ_get ((hx.readIJ m k).1 h) _))
  unfold arOf
  rw [loop_congr (body := arPureP s itau (arDelp del).1 (arDelp del).2)
    (body' := arPureP s' itau (arDelp del).1 (arDelp del).2)]
  · apply foldl_congr_mem
    intro ar i hi
    have hi1 : 1 ≤ i.1 := mem_rangeFin.1 (List.dropLast_subset _ hi)
    rw [← hx.lt hi1]
    cases hxi : FOps.lt EPSILON (aget s.x i)
    · rfl
    · simp only [if_true]
      have ei := hx.present hi1 hxi
      apply loop_congr
      intro j ar hj
      have hj1 : 1 ≤ j.1 := by omega
      unfold arPairP
      rw [← hx.lt hj1]
      cases hxj : FOps.lt EPSILON (aget s.x j)
      · rfl
      · simp only [if_true]
        have ej := hx.present hj1 hxj
        rw [ei, ej]
        split
        · rename_i h0
          have hmn := MNUMB_lt i j
          have h3 := kpolij_lt hmn
          rw [loopNP_congr (s := ar) (body := arPolMixAt s itau (arDelp del).1
              (aget s'.x i * aget s'.x j * tab2 FIJ i j) (aget2 MNUMB i j))
            (body' := arPolMixAt s' itau (arDelp del).1
              (aget s'.x i * aget s'.x j * tab2 FIJ i j) (aget2 MNUMB i j))]
          · apply loopNP_congr
            intro k ar h1 h2
            unfold arMixAt
            rw [p4, p5, p6, p7, p8, p9]
          · intro k ar h1 h2
            have hk : k < 13 := by omega
            have hm22 : aget2 MNUMB i j < 22 := by omega
            have := hIJ ⟨aget2 MNUMB i j, hm22⟩ ⟨k, hk⟩
              ⟨h1, by show k ≤ kpolij (aget2 MNUMB i j); omega, i, j, hi1, by omega, hxi, hxj, h0, rfl⟩
            unfold arPolMixAt
            have e : gd2 s.taupijk (aget2 MNUMB i j) k (f% 0.0) = gd2 s'.taupijk (aget2 MNUMB i j) k (f% 0.0) := by
              rw [gd2, dif_pos ⟨hm22, hk⟩, gd2, dif_pos ⟨hm22, hk⟩]
              exact this
            rw [p4, p5, e]
        · rfl
  · intro i ar hi
    unfold arPureP
    rw [← hx.lt hi]
    cases hxi : FOps.lt EPSILON (aget s.x i)
    · rfl
    · simp only [if_true]
      have ei := hx.present hi hxi
      have hk25 := KPOL_KEXP_lt i
      have hrow : ∀ k, 1 ≤ k → k ≤ aget KPOL i + aget KEXP i →
          gd (aget s.taup i) k (f% 0.0) = gd (aget s'.taup i) k (f% 0.0) := by
        intro k h1 h2
        have hk : k < 25 := by omega
        rw [gd_row _ _ hk, gd_row _ _ hk]
        exact hP i ⟨k, hk⟩ ⟨hi, hxi, h1, h2⟩
      rw [loopNP_congr (s := ar) (body := arPolAt s itau (arDelp del).1 i)
        (body' := arPolAt s' itau (arDelp del).1 i)]
      · apply loopNP_congr
        intro k ar h1 h2
        unfold arExpAt
        rw [p1, p2, p3, hrow k (by omega) (by omega), ei]
      · intro k ar h1 h2
        unfold arPolAt
        rw [p2, p3, hrow k (by omega) (by omega), ei]

/-! ## Evaluations -/

theorem pub_refresh (s : Gerg F) : pub (refresh s) = pub s := by rw [refresh_eq]; rfl
theorem params_refresh (s : Gerg F) : params (refresh s) = params s := by rw [refresh_eq]; rfl
theorem cache_refresh (s : Gerg F) :
    cache (refresh s) = refreshC s.x s.t (params s) (cache s) := by rw [refresh_eq]; rfl
theorem cache_alpharP (s : Gerg F) (i : Int) :
    cache (alpharP s i) = refreshC s.x s.t (params s) (cache s) := cache_refresh s
@[simp] theorem pub_alpharP (s : Gerg F) (i : Int) : pub (alpharP s i) = pub s := pub_refresh s
@[simp] theorem params_alpharP (s : Gerg F) (i : Int) : params (alpharP s i) = params s :=
  params_refresh s

theorem pub_t {s s' : Gerg F} (h : pub s = pub s') : s.t = s'.t := congrArg Pub.t h
theorem pub_d {s s' : Gerg F} (h : pub s = pub s') : s.d = s'.d := congrArg Pub.d h
theorem pub_p {s s' : Gerg F} (h : pub s = pub s') : s.p = s'.p := congrArg Pub.p h
theorem pub_xx {s s' : Gerg F} (h : pub s = pub s') : s.x = s'.x := congrArg Pub.x h

theorem readV_refresh (s : Gerg F) : readV (refresh s).x (cache (refresh s)) = view s := by
  rw [cache_refresh, pub_xx (pub_refresh s)]; rfl

theorem refreshC_dr (x : Vector F 22) (t : F) (m : Params F) (c : Cache F) :
    (refreshC x t m c).drold = if xDiff x c.xold then drOf x m.bvij else c.drold := by
  rw [refreshC_eq]
  cases xDiff x c.xold
  · rw [if_neg Bool.false_ne_true, if_neg Bool.false_ne_true]; unfold refreshT; rfl
  · rw [if_pos rfl, if_pos rfl]; unfold refreshT; rfl

theorem refreshC_tr (x : Vector F 22) (t : F) (m : Params F) (c : Cache F) :
    (refreshC x t m c).trold = if xDiff x c.xold then trOf x m.bvij else c.trold := by
  rw [refreshC_eq]
  cases xDiff x c.xold
  · rw [if_neg Bool.false_ne_true, if_neg Bool.false_ne_true]; unfold refreshT; rfl
  · rw [if_pos rfl, if_pos rfl]; unfold refreshT; rfl

theorem red_parts (s : Gerg F) (b : Bool) (r : Gerg F × F × F) (xo : Vector F 22) (dr tr z z' : F)
    (hr : r = if b then (withRed s xo dr tr z z', dr, tr)
      else (withRed s xo s.drold s.trold s.told s.trold2, s.drold, s.trold)) :
    r.1.d = s.d ∧ r.1.t = s.t ∧ r.2.1 = (if b then dr else s.drold) ∧
    r.2.2 = (if b then tr else s.trold) := by
  subst hr
  cases b <;> exact ⟨rfl, rfl, rfl, rfl⟩

theorem reducing_dr (s : Gerg F) : (reducingparameters s).1.d = s.d ∧ (reducingparameters s).1.t = s.t ∧
    (reducingparameters s).2.1 = (if xDiff s.x s.xold then drOf s.x s.bvij else s.drold) ∧
    (reducingparameters s).2.2 = (if xDiff s.x s.xold then trOf s.x s.bvij else s.trold) :=
  red_parts s _ _ _ _ _ _ _ (reducing_eq s)

/-- The reduced variables used by an evaluation are those of the view. -/
theorem delOf_eq (s : Gerg F) : delOf s = s.d / (view s).dr := by
  have h : (view s).dr = (refreshC s.x s.t (params s) (cache s)).drold := by unfold view readV; rfl
  obtain ⟨h1, -, h2, -⟩ := reducing_dr (clearAr s)
  rw [h, refreshC_dr]
  unfold delOf
  rw [h1, h2]
  rfl

theorem lntauOf_eq (s : Gerg F) : lntauOf s = ln ((view s).tr / s.t) := by
  have h : (view s).tr = (refreshC s.x s.t (params s) (cache s)).trold := by unfold view readV; rfl
  obtain ⟨-, h1, -, h2⟩ := reducing_dr (clearAr s)
  rw [h, refreshC_tr]
  unfold lntauOf
  rw [h1, h2]
  rfl

attribute [local irreducible] refresh

theorem ar_alpharP (s : Gerg F) (i : Int) :
    (alpharP s i).ar = arOf (refresh s) i (s.d / (view s).dr) (ln ((view s).tr / s.t)) := by
  rw [← delOf_eq, ← lntauOf_eq]; rfl

theorem ar_eval_congr {s s' : Gerg F} (hx : SamePos s.x s'.x) (hm : params s = params s')
    (hv : view s = view s') (hd : s.d = s'.d) (ht : s.t = s'.t) (i : Int) :
    (alpharP s i).ar = (alpharP s' i).ar := by
  rw [ar_alpharP, ar_alpharP, hd, ht, hv]
  apply arOf_congr
  · rw [pub_xx (pub_refresh s), pub_xx (pub_refresh s')]; exact hx
  · rw [params_refresh, params_refresh, hm]
  · rw [readV_refresh, readV_refresh, hv]

/-- Two objects the user cannot tell apart: equal public fields, parameters and effective terms. -/
structure Same (s s' : Gerg F) : Prop where
  pub : pub s = pub s'
  params : params s = params s'
  view : view s = view s'

theorem Same.refl (s : Gerg F) : Same s s := ⟨rfl, rfl, rfl⟩

theorem Same.ar {s s' : Gerg F} (h : Same s s') (i : Int) : (alpharP s i).ar = (alpharP s' i).ar :=
  ar_eval_congr (by rw [pub_xx h.pub]; exact SamePos.refl _) h.params h.view (pub_d h.pub) (pub_t h.pub) i

/-- Views look at composition, temperature, parameters and cache only. -/
theorem view_congr {s s' : Gerg F} (hc : cache s = cache s') (hx : s.x = s'.x) (ht : s.t = s'.t)
    (hm : params s = params s') : view s = view s' := by
  unfold view; rw [hx, ht, hm, hc]

/-- The state after an evaluation has the same effective terms. -/
theorem view_after (hself : SelfDiff F) {s s1 : Gerg F} (hx : s1.x = s.x) (ht : s1.t = s.t)
    (hm : params s1 = params s) (hc : cache s1 = refreshC s.x s.t (params s) (cache s)) :
    view s1 = view s := by
  unfold view
  rw [hx, ht, hm, hc, refreshC_idem hself]

/-! ## `pressure` -/

theorem pressureP_z (s : Gerg F) : (pressureP s).1.z = f% 1.0 + aget2 (alpharP s 0).ar 0 1 := rfl

theorem pressureP_save (s : Gerg F) : (pressureP s).1.dpddsave
    = RGERG * s.t * (f% 1.0 + f% 2.0 * aget2 (alpharP s 0).ar 0 1 + aget2 (alpharP s 0).ar 0 2) := by
  have h : (alpharP s 0).t = s.t := pub_t (pub_alpharP s 0)
  rw [← h]; rfl

theorem pressureP_snd (s : Gerg F) : (pressureP s).2 = s.d * RGERG * s.t * (pressureP s).1.z := by
  have h1 : (alpharP s 0).t = s.t := pub_t (pub_alpharP s 0)
  have h2 : (alpharP s 0).d = s.d := pub_d (pub_alpharP s 0)
  rw [← h1, ← h2]; rfl

theorem pub_pressureP (s : Gerg F) : pub (pressureP s).1 = { pub s with z := (pressureP s).1.z } := by
  have h := pub_alpharP s 0
  show ({ pub (alpharP s 0) with z := _ } : Pub F) = _
  rw [h]

theorem params_pressureP (s : Gerg F) : params (pressureP s).1 = params s := params_alpharP s 0

theorem cache_pressureP (s : Gerg F) :
    cache (pressureP s).1 = refreshC s.x s.t (params s) (cache s) := cache_alpharP s 0

theorem pressureP_t (s : Gerg F) : (pressureP s).1.t = s.t := congrArg Pub.t (pub_pressureP s)
theorem pressureP_d (s : Gerg F) : (pressureP s).1.d = s.d := congrArg Pub.d (pub_pressureP s)
theorem pressureP_p (s : Gerg F) : (pressureP s).1.p = s.p := congrArg Pub.p (pub_pressureP s)
theorem pressureP_x (s : Gerg F) : (pressureP s).1.x = s.x := congrArg Pub.x (pub_pressureP s)

theorem view_pressureP (hself : SelfDiff F) (s : Gerg F) : view (pressureP s).1 = view s :=
  view_after hself (pressureP_x s) (pressureP_t s) (params_pressureP s) (cache_pressureP s)

theorem Same.pressure (hself : SelfDiff F) {s s' : Gerg F} (h : Same s s') :
    Same (pressureP s).1 (pressureP s').1 ∧ (pressureP s).2 = (pressureP s').2 ∧
    (pressureP s).1.dpddsave = (pressureP s').1.dpddsave := by
  have hz : (pressureP s).1.z = (pressureP s').1.z := by
    rw [pressureP_z, pressureP_z, h.ar]
  refine ⟨⟨?_, ?_, ?_⟩, ?_, ?_⟩
  · rw [pub_pressureP, pub_pressureP, hz, h.pub]
  · rw [params_pressureP, params_pressureP, h.params]
  · rw [view_pressureP hself, view_pressureP hself, h.view]
  · rw [pressureP_snd, pressureP_snd, hz, pub_t h.pub, pub_d h.pub]
  · rw [pressureP_save, pressureP_save, h.ar, pub_t h.pub]

/-! ## `molar_mass` and `properties` -/

theorem alpha0_congr {s s' : Gerg F} (hx : SamePos s.x s'.x) (hm : params s = params s')
    (hd : s.d = s'.d) (ht : s.t = s'.t) : (alpha0 s).a0 = (alpha0 s').a0 := by
  have hn : s.n0i = s'.n0i := congrArg Params.n0i hm
  have h1 : a0Hyp s = a0Hyp s' := by
    funext i j h; unfold a0Hyp; rw [hn, ht]
  have key : ∀ ld lt, loop 1 22 (f% 0.0, f% 0.0, f% 0.0) (a0Comp s ld lt)
      = loop 1 22 (f% 0.0, f% 0.0, f% 0.0) (a0Comp s' ld lt) := by
    intro ld lt
    apply loop_congr
    intro i a hi
    unfold a0Comp
    rw [← hx.lt hi]
    cases hxi : FOps.lt EPSILON (aget s.x i)
    · rfl
    · simp only [if_true]
      rw [h1, hn, ht, hx.present hi hxi]
  unfold alpha0
  simp only [key, hd, ht]

/-- The object when `properties` has evaluated everything. -/
def propsMid (s : Gerg F) : Gerg F := alpharP (alpha0 (molar_mass s)) 1

theorem propertiesP_eq (s : Gerg F) : propertiesP s = propsFinish (propsMid s) := rfl

theorem pub_propsMid (s : Gerg F) : pub (propsMid s) = { pub s with mm := (molar_mass s).mm } := by
  unfold propsMid; rw [pub_alpharP]; rfl
theorem params_propsMid (s : Gerg F) : params (propsMid s) = params s := by
  unfold propsMid; rw [params_alpharP]; rfl
theorem cache_propsMid (s : Gerg F) :
    cache (propsMid s) = refreshC s.x s.t (params s) (cache s) := cache_alpharP (alpha0 (molar_mass s)) 1
theorem view_alpha0 (s : Gerg F) : view (alpha0 (molar_mass s)) = view s := rfl

theorem propsMid_ar (s : Gerg F) : (propsMid s).ar = (alpharP s 1).ar :=
  ar_eval_congr (s := alpha0 (molar_mass s)) (s' := s) (SamePos.refl _) rfl (view_alpha0 s) rfl rfl 1

theorem propsMid_a0 (s : Gerg F) : (propsMid s).a0 = (alpha0 s).a0 := by
  have h : (propsMid s).a0 = (alpha0 (molar_mass s)).a0 := by
    show (refresh (alpha0 (molar_mass s))).a0 = _
    rw [refresh_eq]; rfl
  rw [h]
  exact alpha0_congr (SamePos.refl _) rfl rfl rfl

theorem propsFinish_congr {s s' : Gerg F} (hp : pub s = pub s') (h0 : s.a0 = s'.a0)
    (hr : s.ar = s'.ar) : pub (propsFinish s).1 = pub (propsFinish s').1 ∧
      (propsFinish s).2 = (propsFinish s').2 := by
  rw [← mkG_eta s, ← mkG_eta s', ← hp]
  have e0 : (scratch s).a0 = (scratch s').a0 := h0
  have e1 : (scratch s).ar = (scratch s').ar := hr
  revert e0 e1
  generalize scratch s = r
  generalize scratch s' = r'
  generalize pub s = q
  generalize params s = m
  generalize params s' = m'
  generalize cache s = c
  generalize cache s' = c'
  intro e0 e1
  obtain ⟨ra, r0, rr, rs⟩ := r
  obtain ⟨ra', r0', rr', rs'⟩ := r'
  simp only at e0 e1
  subst e0 e1
  unfold propsFinish mkG
  dsimp only
  split <;> dsimp only <;> split <;> exact ⟨rfl, rfl⟩

theorem cache_propsFinish (s : Gerg F) : cache (propsFinish s).1 = cache s := by
  unfold propsFinish
  dsimp only
  split <;> dsimp only <;> split <;> rfl

theorem params_propsFinish (s : Gerg F) : params (propsFinish s).1 = params s := by
  unfold propsFinish
  dsimp only
  split <;> dsimp only <;> split <;> rfl

/-- The fields `properties` keeps. -/
theorem propsFinish_keep (s : Gerg F) : (propsFinish s).1.x = s.x ∧ (propsFinish s).1.t = s.t ∧
    (propsFinish s).1.d = s.d ∧ (propsFinish s).1.p = s.p ∧ (propsFinish s).1.mm = s.mm := by
  unfold propsFinish
  dsimp only
  split <;> dsimp only <;> split <;> exact ⟨rfl, rfl, rfl, rfl, rfl⟩

theorem propertiesP_x (s : Gerg F) : (propertiesP s).1.x = s.x := by
  rw [propertiesP_eq, (propsFinish_keep _).1]; exact congrArg Pub.x (pub_propsMid s)
theorem propertiesP_t (s : Gerg F) : (propertiesP s).1.t = s.t := by
  rw [propertiesP_eq, (propsFinish_keep _).2.1]; exact congrArg Pub.t (pub_propsMid s)
theorem propertiesP_d (s : Gerg F) : (propertiesP s).1.d = s.d := by
  rw [propertiesP_eq, (propsFinish_keep _).2.2.1]; exact congrArg Pub.d (pub_propsMid s)
theorem propertiesP_p (s : Gerg F) : (propertiesP s).1.p = s.p := by
  rw [propertiesP_eq, (propsFinish_keep _).2.2.2.1]; exact congrArg Pub.p (pub_propsMid s)
theorem propertiesP_mm (s : Gerg F) : (propertiesP s).1.mm = (molar_mass s).mm := by
  rw [propertiesP_eq, (propsFinish_keep _).2.2.2.2]; exact congrArg Pub.mm (pub_propsMid s)
theorem params_propertiesP (s : Gerg F) : params (propertiesP s).1 = params s := by
  rw [propertiesP_eq, params_propsFinish, params_propsMid]
theorem cache_propertiesP (s : Gerg F) :
    cache (propertiesP s).1 = refreshC s.x s.t (params s) (cache s) := by
  rw [propertiesP_eq, cache_propsFinish, cache_propsMid]
theorem view_propertiesP (hself : SelfDiff F) (s : Gerg F) : view (propertiesP s).1 = view s :=
  view_after hself (propertiesP_x s) (propertiesP_t s) (params_propertiesP s) (cache_propertiesP s)

theorem molar_mass_congr {s s' : Gerg F} (hx : s.x = s'.x) : (molar_mass s).mm = (molar_mass s').mm := by
  unfold molar_mass; simp only [hx]

theorem Same.properties (hself : SelfDiff F) {s s' : Gerg F} (h : Same s s') :
    Same (propertiesP s).1 (propertiesP s').1 ∧ (propertiesP s).2 = (propertiesP s').2 := by
  have hx : SamePos s.x s'.x := by rw [pub_xx h.pub]; exact SamePos.refl _
  have hp : Gerg.pub (propsMid s) = Gerg.pub (propsMid s') := by
    rw [pub_propsMid, pub_propsMid, h.pub, molar_mass_congr (pub_xx h.pub)]
  have h0 : (propsMid s).a0 = (propsMid s').a0 := by
    rw [propsMid_a0, propsMid_a0]
    exact alpha0_congr hx h.params (pub_d h.pub) (pub_t h.pub)
  have hr : (propsMid s).ar = (propsMid s').ar := by
    rw [propsMid_ar, propsMid_ar, h.ar]
  have := propsFinish_congr hp h0 hr
  refine ⟨⟨this.1, ?_, ?_⟩, this.2⟩
  · rw [params_propertiesP, params_propertiesP, h.params]
  · rw [view_propertiesP hself, view_propertiesP hself, h.view]

/-! ## `density` -/

@[simp] theorem pub_withD (s : Gerg F) (d : F) : pub (withD s d) = { pub s with d := d } := rfl
@[simp] theorem params_withD (s : Gerg F) (d : F) : params (withD s d) = params s := rfl
@[simp] theorem cache_withD (s : Gerg F) (d : F) : cache (withD s d) = cache s := rfl
@[simp] theorem view_withD (s : Gerg F) (d : F) : view (withD s d) = view s := rfl
@[simp] theorem withD_d (s : Gerg F) (d : F) : (withD s d).d = d := rfl
@[simp] theorem withD_t (s : Gerg F) (d : F) : (withD s d).t = s.t := rfl
@[simp] theorem withD_p (s : Gerg F) (d : F) : (withD s d).p = s.p := rfl
@[simp] theorem withD_x (s : Gerg F) (d : F) : (withD s d).x = s.x := rfl

theorem Same.setD {s s' : Gerg F} (h : Same s s') (d : F) : Same (withD s d) (withD s' d) :=
  ⟨by rw [pub_withD, pub_withD, h.pub], h.params, by rw [view_withD, view_withD, h.view]⟩

theorem Same.giveUp {s s' : Gerg F} (h : Same s s') :
    Same (giveUp s).1 (giveUp s').1 ∧ (giveUp s).2 = (giveUp s').2 := by
  unfold Gerg.giveUp
  rw [pub_p h.pub, pub_t h.pub]
  exact ⟨h.setD _, rfl⟩

theorem Same.converged (hself : SelfDiff F) (iflag : Int) {s s' : Gerg F} (h : Same s s') :
    Same (converged iflag s).1 (converged iflag s').1 ∧
    (converged iflag s).2 = (converged iflag s').2 := by
  unfold Gerg.converged
  split
  · obtain ⟨a, b⟩ := h.properties hself
    have e : twoPhase (propertiesP s) = twoPhase (propertiesP s') := by
      unfold twoPhase
      have q := a.pub
      have q1 : (propertiesP s).1.dp_dd = (propertiesP s').1.dp_dd := congrArg Pub.dp_dd q
      have q2 : (propertiesP s).1.d2p_dtd = (propertiesP s').1.d2p_dtd := congrArg Pub.d2p_dtd q
      have q3 : (propertiesP s).1.cv = (propertiesP s').1.cv := congrArg Pub.cv q
      have q4 : (propertiesP s).1.cp = (propertiesP s').1.cp := congrArg Pub.cp q
      have q5 : (propertiesP s).1.w = (propertiesP s').1.w := congrArg Pub.w q
      rw [b, q1, q2, q3, q4, q5]
    rw [e]
    split
    · exact a.giveUp
    · exact ⟨a, rfl⟩
  · exact ⟨h, rfl⟩

theorem densityLoopP_zero (iflag : Int) (dcx plog : F) (it : Nat) (nfail ifail : Int) (vlog : F)
    (s : Gerg F) : densityLoopP iflag dcx plog 0 it nfail ifail vlog s = giveUp s := rfl

theorem densityLoopP_succ (iflag : Int) (dcx plog : F) (n it : Nat) (nfail ifail : Int) (vlog : F)
    (s : Gerg F) : densityLoopP iflag dcx plog (n + 1) it nfail ifail vlog s =
    if restart it ifail vlog && nfail > 2 then giveUp s
    else
      let r := trial dcx it nfail ifail vlog s
      let ifail' := if restart it ifail vlog then 0 else ifail
      let nfail' := if restart it ifail vlog then nfail + 1 else nfail
      let v := vlogAt dcx it nfail ifail vlog s
      if r.1.dpddsave <. EPSILON || r.2 <. EPSILON then
        densityLoopP iflag dcx plog n (it + 1) nfail' ifail' (v + vincAt dcx r.1.d it) r.1
      else if abs (newton plog r) <. TOLR then
        if r.1.dpddsave <. f% 0.0 then
          densityLoopP iflag dcx plog n (it + 1) nfail' 1 (v + -newton plog r) r.1
        else converged iflag (withD r.1 (exp (-(v + -newton plog r))))
      else
        densityLoopP iflag dcx plog n (it + 1) nfail' ifail' (v + -newton plog r) r.1 := rfl

theorem Same.trial (hself : SelfDiff F) {s s' : Gerg F} (h : Same s s') (dcx : F) (it : Nat)
    (nfail ifail : Int) (vlog : F) :
    Same (trial dcx it nfail ifail vlog s).1 (trial dcx it nfail ifail vlog s').1 ∧
    (trial dcx it nfail ifail vlog s).2 = (trial dcx it nfail ifail vlog s').2 ∧
    (trial dcx it nfail ifail vlog s).1.dpddsave = (trial dcx it nfail ifail vlog s').1.dpddsave := by
  have e : vlogAt dcx it nfail ifail vlog s = vlogAt dcx it nfail ifail vlog s' := by
    unfold vlogAt; rw [pub_d h.pub]
  unfold Gerg.trial
  rw [e]
  exact (h.setD _).pressure hself

theorem Same.densityLoop (hself : SelfDiff F) (iflag : Int) (dcx plog : F) (n it : Nat)
    (nfail ifail : Int) (vlog : F) {s s' : Gerg F} (h : Same s s') :
    Same (densityLoopP iflag dcx plog n it nfail ifail vlog s).1
      (densityLoopP iflag dcx plog n it nfail ifail vlog s').1 ∧
    (densityLoopP iflag dcx plog n it nfail ifail vlog s).2
      = (densityLoopP iflag dcx plog n it nfail ifail vlog s').2 := by
  induction n generalizing it nfail ifail vlog s s' with
  | zero => exact h.giveUp
  | succ n ih =>
    have e : vlogAt dcx it nfail ifail vlog s = vlogAt dcx it nfail ifail vlog s' := by
      unfold vlogAt; rw [pub_d h.pub]
    rw [densityLoopP_succ, densityLoopP_succ]
    obtain ⟨h1, h2, h3⟩ := h.trial hself dcx it nfail ifail vlog
    generalize Gerg.trial dcx it nfail ifail vlog s = r at *
    generalize Gerg.trial dcx it nfail ifail vlog s' = r' at *
    have hn : newton plog r = newton plog r' := by
      unfold newton; rw [h2, h3, pub_d h1.pub]
    dsimp only
    rw [h2, h3, hn, pub_d h1.pub, e]
    split
    · exact h.giveUp
    · split
      · exact ih _ _ _ _ h1
      · split
        · split
          · exact ih _ _ _ _ h1
          · exact (h1.setD _).converged hself iflag
        · exact ih _ _ _ _ h1

theorem pseudo_congr {s s' : Gerg F} (hx : s.x = s'.x) :
    pseudocriticalpoint s = pseudocriticalpoint s' := by
  unfold pseudocriticalpoint; simp only [hx]

theorem startD_congr {s s' : Gerg F} (h : pub s = pub s') (iflag : Int) :
    startD iflag s = startD iflag s' := by
  unfold startD; rw [pub_d h, pub_p h, pub_t h, pseudo_congr (pub_xx h)]

theorem Same.density (hself : SelfDiff F) (iflag : Int) {s s' : Gerg F} (h : Same s s') :
    Same (densityP s iflag).1 (densityP s' iflag).1 ∧
    (densityP s iflag).2 = (densityP s' iflag).2 := by
  unfold densityP
  rw [startD_congr h.pub, pseudo_congr (pub_xx h.pub), pub_p h.pub]
  exact (h.setD _).densityLoop hself _ _ _ _ _ _ _ _

end Aga8.Gerg
