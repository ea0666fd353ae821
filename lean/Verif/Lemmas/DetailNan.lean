import Verif.Lemmas.F64Zero
import Verif.Spec.DetailNan

/-! # Invariants of histories with NaN inputs -/

namespace Aga8.Detail

open FOps Tab Aga8.F64

section any
set_option linter.unusedSectionVars false
variable {F : Type} [Add F] [Sub F] [Mul F] [Div F] [Neg F] [FOps F]

theorem compX_get (x : Vector F 21) (c : Composition F) (i : Fin 21) :
    aget (compX x c) i = c.frac i := by
  unfold compX Composition.frac
  fin_cases i <;> simp (config := { decide := true }) [aget_aset]

theorem cache_bs {s s' : Detail F} (h : cache s = cache s') : s.bs = s'.bs := congrArg Cache.bs h
theorem cache_csn {s s' : Detail F} (h : cache s = cache s') : s.csn = s'.csn := congrArg Cache.csn h
theorem cache_tun {s s' : Detail F} (h : cache s = cache s') : s.tun = s'.tun := congrArg Cache.tun h
theorem cache_xold {s s' : Detail F} (h : cache s = cache s') : s.xold = s'.xold := congrArg Cache.xold h
theorem cache_told {s s' : Detail F} (h : cache s = cache s') : s.told = s'.told := congrArg Cache.told h
theorem stored_bs {s : Detail F} {v : View F} (h : stored s = v) : s.bs = v.bs := congrArg View.bs h
theorem stored_csn {s : Detail F} {v : View F} (h : stored s = v) : csnRead s.csn = v.csn := by rw [← h, stored]
theorem stored_tun {s : Detail F} {v : View F} (h : stored s = v) : s.tun = v.tun := congrArg View.tun h

theorem compX_eq (x y : Vector F 21) (c : Composition F) (h : ∀ i, c.frac i = aget y i) :
    compX x c = y := by
  apply arr_ext
  intro i
  rw [compX_get, h]

/-- A use either leaves the cache alone or is an evaluation. -/
theorem step_cases (hself : SelfDiff F) (s : Detail F) (op : Op F) :
    cache (stepP s op).1 = cache s ∨
    (stored (stepP s op).1 = view s ∧ (stepP s op).1.xold = s.x ∧ (stepP s op).1.told = s.t) := by
  cases op with
  | write q => exact Or.inl (cache_setPub s q)
  | setComposition c => exact Or.inl (set_composition_frame s c).2
  | molarMass => exact Or.inl rfl
  | pressure => exact Or.inr ⟨stored_pressureP s, xold_pressureP s, told_pressureP s⟩
  | density =>
    rcases cache_densityP hself s with h | ⟨a, b, c⟩
    · exact Or.inl h
    · exact Or.inr ⟨c, a, b⟩
  | properties => exact Or.inr (stored_propertiesP s)

theorem step_x (s : Detail F) (op : Op F) (h1 : ∀ q, op ≠ .write q) (h2 : ∀ c, op ≠ .setComposition c) :
    (stepP s op).1.x = s.x := by
  cases op with
  | write q => exact absurd rfl (h1 q)
  | setComposition c => exact absurd rfl (h2 c)
  | molarMass => rfl
  | pressure => exact congrArg Pub.x (pub_pressureP s)
  | density => exact congrArg Pub.x (pub_densityP s)
  | properties => exact propertiesP_x s

theorem step_t (s : Detail F) (op : Op F) (h1 : ∀ q, op ≠ .write q) : (stepP s op).1.t = s.t := by
  cases op with
  | write q => exact absurd rfl (h1 q)
  | setComposition c =>
    show (set_composition s c).1.t = s.t
    have hx : ∀ x, (withX s x).t = s.t := fun _ => rfl
    rw [set_composition_eq]
    cases c.check with
    | error e => rfl
    | ok u => exact hx _
  | molarMass => rfl
  | pressure => exact congrArg Pub.t (pub_pressureP s)
  | density => exact congrArg Pub.t (pub_densityP s)
  | properties => exact propertiesP_t s

end any

variable [Libm]

/-! ## Temperature -/

/-- The temperature terms are zero, and the current and remembered temperatures are indistinguishable. -/
structure InvT (ts tos : Float → Prop) (s : Detail Float) : Prop where
  tun : ∀ n, ZN (aget s.tun n)
  t : ts s.t
  told : tos s.told

theorem tDiff_of {ts tos : Float → Prop} {s : Detail Float}
    (hn : ∀ a b, ts a → tos b → tDiff a b = false) (h : InvT ts tos s) : (view s).tun = s.tun := by
  show (if tDiff s.t s.told then tunOf s.t else s.tun) = s.tun
  rw [hn _ _ h.t h.told]; rfl

theorem invT_step {ts tos : Float → Prop} (hsub : ∀ a, ts a → tos a)
    (hn : ∀ a b, ts a → tos b → tDiff a b = false) {s : Detail Float} (h : InvT ts tos s) (op : Op Float)
    (hop : ∀ q, op = .write q → ts q.t) : InvT ts tos (stepP s op).1 := by
  have ht : ts (stepP s op).1.t := by
    by_cases hw : ∃ q, op = .write q
    · obtain ⟨q, rfl⟩ := hw; exact hop q rfl
    · rw [step_t s op (fun q e => hw ⟨q, e⟩)]; exact h.t
  rcases step_cases selfDiff s op with hc | ⟨a, -, c⟩
  · refine ⟨?_, ht, ?_⟩
    · rw [cache_tun hc]; exact h.tun
    · rw [cache_told hc]; exact h.told
  · refine ⟨?_, ht, ?_⟩
    · rw [stored_tun a, tDiff_of hn h]; exact h.tun
    · rw [c]; exact hsub _ h.t

theorem invT_run {ts tos : Float → Prop} (hsub : ∀ a, ts a → tos a)
    (hn : ∀ a b, ts a → tos b → tDiff a b = false) (ops : List (Op Float)) {s : Detail Float}
    (h : InvT ts tos s) (hop : ∀ op ∈ ops, ∀ q, op = .write q → ts q.t) :
    InvT ts tos (runP s ops).1 := by
  induction ops generalizing s with
  | nil => exact h
  | cons op ops ih =>
    exact ih (invT_step hsub hn h op (hop op (List.mem_cons_self ..)))
      (fun o ho => hop o (List.mem_cons_of_mem _ ho))

theorem invT_view {ts tos : Float → Prop} (hn : ∀ a b, ts a → tos b → tDiff a b = false)
    {s : Detail Float} (h : InvT ts tos s) : ZView (view s) :=
  Or.inl (by rw [tDiff_of hn h]; exact h.tun)

/-! ## Composition -/

/-- The composition terms are zero, and the current and remembered fractions are indistinguishable. -/
structure InvX (xs xos : Vector Float 21 → Prop) (s : Detail Float) : Prop where
  bs : ∀ n, ZN (aget s.bs n)
  csn : ∀ n, ZN (aget (csnRead s.csn) n)
  x : xs s.x
  xold : xos s.xold

theorem xDiff_of {xs xos : Vector Float 21 → Prop} {s : Detail Float}
    (hn : ∀ a b, xs a → xos b → xDiff a b = false) (h : InvX xs xos s) :
    (view s).bs = s.bs ∧ (view s).csn = csnRead s.csn := by
  constructor
  · show (if xDiff s.x s.xold then (xAcc s).bs else s.bs) = s.bs
    rw [hn _ _ h.x h.xold]; rfl
  · show (if xDiff s.x s.xold then csnRead (csnVec s) else csnRead s.csn) = csnRead s.csn
    rw [hn _ _ h.x h.xold]; rfl

theorem invX_step {xs xos : Vector Float 21 → Prop} (hsub : ∀ a, xs a → xos a)
    (hn : ∀ a b, xs a → xos b → xDiff a b = false) {s : Detail Float} (h : InvX xs xos s) (op : Op Float)
    (hop : LeavesX op ∨ ∃ x, xs x ∧ AssignsX x op) : InvX xs xos (stepP s op).1 := by
  have ht : xs (stepP s op).1.x := by
    cases op with
    | write q =>
      rcases hop with h' | ⟨x, hx, h'⟩
      · exact h'.elim
      · show xs q.x
        rw [show q.x = x from h']; exact hx
    | setComposition c =>
      show xs (set_composition s c).1.x
      rw [set_composition_eq]
      rcases hop with h' | ⟨x, hx, h', hf⟩
      · cases hc : c.check with
        | error e => exact h.x
        | ok u => exact absurd hc h'
      · rw [h']
        show xs (compX s.x c)
        rw [compX_eq _ _ _ hf]; exact hx
    | molarMass => exact h.x
    | pressure => rw [step_x s _ (fun _ h => by cases h) (fun _ h => by cases h)]; exact h.x
    | density => rw [step_x s _ (fun _ h => by cases h) (fun _ h => by cases h)]; exact h.x
    | properties => rw [step_x s _ (fun _ h => by cases h) (fun _ h => by cases h)]; exact h.x
  obtain ⟨e1, e2⟩ := xDiff_of hn h
  rcases step_cases selfDiff s op with hc | ⟨a, b, -⟩
  · refine ⟨?_, ?_, ht, ?_⟩
    · rw [cache_bs hc]; exact h.bs
    · rw [cache_csn hc]; exact h.csn
    · rw [cache_xold hc]; exact h.xold
  · refine ⟨?_, ?_, ht, ?_⟩
    · rw [stored_bs a, e1]; exact h.bs
    · rw [stored_csn a, e2]; exact h.csn
    · rw [b]; exact hsub _ h.x

theorem invX_run {xs xos : Vector Float 21 → Prop} (hsub : ∀ a, xs a → xos a)
    (hn : ∀ a b, xs a → xos b → xDiff a b = false) (ops : List (Op Float)) {s : Detail Float}
    (h : InvX xs xos s) (hop : ∀ op ∈ ops, LeavesX op ∨ ∃ x, xs x ∧ AssignsX x op) :
    InvX xs xos (runP s ops).1 := by
  induction ops generalizing s with
  | nil => exact h
  | cons op ops ih =>
    exact ih (invX_step hsub hn h op (hop op (List.mem_cons_self ..)))
      (fun o ho => hop o (List.mem_cons_of_mem _ ho))

theorem invX_view {xs xos : Vector Float 21 → Prop} (hn : ∀ a b, xs a → xos b → xDiff a b = false)
    {s : Detail Float} (h : InvX xs xos s) : ZView (view s) := by
  obtain ⟨e1, e2⟩ := xDiff_of hn h
  exact Or.inr ⟨by rw [e1]; exact h.bs, by rw [e2]; exact h.csn⟩

theorem xDiff_false {x y : Vector Float 21} (h : ∀ i, ZN (aget x i - aget y i)) : xDiff x y = false := by
  unfold xDiff
  rw [List.any_eq_false]
  intro i _
  rw [zn_not_far (h i)]; simp

theorem run_new (ops : List (Op Float)) : runNew ops = .ok (runP newP ops) := by
  simp only [runNew, Detail.new_ok, bind, Except.bind, run_eq]

/-- The cached terms of a new object are zero. -/
theorem new_cache : (∀ n, ZN (aget (newP : Detail Float).tun n)) ∧
    (∀ n, ZN (aget (newP : Detail Float).bs n)) ∧
    (∀ n, ZN (aget (csnRead (newP : Detail Float).csn) n)) ∧
    (newP : Detail Float).told = f% 0.0 ∧ (newP : Detail Float).xold = fill 21 (f% 0.0) := by
  have hc : cache (newP : Detail Float) = cache default := newP_frame.2.1
  have h1 : (newP : Detail Float).tun = fill 58 (f% 0.0) := congrArg Cache.tun hc
  have h2 : (newP : Detail Float).bs = fill 18 (f% 0.0) := congrArg Cache.bs hc
  have h3 : (newP : Detail Float).csn = fill 58 (f% 0.0) := congrArg Cache.csn hc
  refine ⟨?_, ?_, ?_, congrArg Cache.told hc, congrArg Cache.xold hc⟩
  · intro n; rw [h1, aget_fill]; exact zn0
  · intro n; rw [h2, aget_fill]; exact zn0
  · intro n; rw [h3]; unfold csnRead; rw [aget_ofFn, aget_fill, ite_self]; exact zn0

end Aga8.Detail
