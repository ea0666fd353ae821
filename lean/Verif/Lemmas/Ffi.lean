import Verif.Spec.Ffi
import Verif.Lemmas.DetailHist
import Verif.Lemmas.GergHist

/-! # Lemmas about the C interface -/

set_option linter.unusedSectionVars false

namespace Aga8.Ffi

open FOps

variable {F : Type} [Add F] [Sub F] [Mul F] [Div F] [Neg F] [FOps F]

theorem putD_self {m : Mem F} {p : Nat} {o : Option (Detail F)} (h : m.det p = o) : m.putD p o = m := by
  cases m with
  | mk det ger =>
    simp only [Mem.putD, Mem.mk.injEq, and_true]
    funext q
    by_cases e : q = p
    · subst e; simp only [if_true]; exact h.symm
    · simp only [e, if_false]

theorem putG_self {m : Mem F} {p : Nat} {o : Option (Gerg F)} (h : m.ger p = o) : m.putG p o = m := by
  cases m with
  | mk det ger =>
    simp only [Mem.putG, Mem.mk.injEq, true_and]
    funext q
    by_cases e : q = p
    · subst e; simp only [if_true]; exact h.symm
    · simp only [e, if_false]

theorem putD_det (m : Mem F) (p q : Nat) (o : Option (Detail F)) :
    (m.putD p o).det q = if q = p then o else m.det q := rfl
theorem putD_ger (m : Mem F) (p : Nat) (o : Option (Detail F)) : (m.putD p o).ger = m.ger := rfl
theorem putG_ger (m : Mem F) (p q : Nat) (o : Option (Gerg F)) :
    (m.putG p o).ger q = if q = p then o else m.ger q := rfl
theorem putG_det (m : Mem F) (p : Nat) (o : Option (Gerg F)) : (m.putG p o).det = m.det := rfl

theorem deref_null {α : Type} (h : Nat → Option α) : deref h 0 = .error (.panic .assertFailed) := rfl
theorem deref_live {α : Type} {h : Nat → Option α} {p : Nat} {o : α} (hp : p ≠ 0) (ho : h p = some o) :
    deref h p = .ok o := by
  unfold deref; rw [if_neg hp, ho]
theorem deref_dead {α : Type} {h : Nat → Option α} {p : Nat} (hp : p ≠ 0) (ho : h p = none) :
    deref h p = .error .undefined := by
  unfold deref; rw [if_neg hp, ho]

/-- A call that fails to find its object fails with that. -/
theorem callD_error {m : Mem F} {p : Nat} {e : Fault} (h : deref m.det p = .error e) (u : Use F) :
    callD m p u = .error e := by
  cases u <;>
    simp only [callD, aga8_set_composition, aga8_set_pressure, aga8_get_pressure, aga8_set_temperature,
      aga8_get_temperature, aga8_set_density, aga8_get_density, aga8_get_properties, aga8_calculate_pressure,
      aga8_calculate_molar_mass, aga8_calculate_density, aga8_calculate_properties, h, bind, Except.bind]

theorem callG_error {m : Mem F} {p : Nat} {e : Fault} (h : deref m.ger p = .error e) (u : Use F) :
    callG m p u = .error e := by
  cases u <;>
    simp only [callG, gerg_set_composition, gerg_set_pressure, gerg_get_pressure, gerg_set_temperature,
      gerg_get_temperature, gerg_set_density, gerg_get_density, gerg_get_properties, gerg_calculate_pressure,
      gerg_calculate_molar_mass, gerg_calculate_density, gerg_calculate_properties, h, bind, Except.bind]

/-- A call on a live handle is the Rust method call on the object, and the object is written back. -/
theorem callD_live {m : Mem F} {p : Nat} {s : Detail F} (hp : p ≠ 0) (h : m.det p = some s) (u : Use F) :
    callD m p u = (do let r ← lift (useD s u); pure (m.putD p (some r.1), r.2)) := by
  have hd := deref_live hp h
  have hs := putD_self h
  cases u with
  | setComposition c =>
    simp only [callD, aga8_set_composition, hd, bind, Except.bind, useD, lift, pure, Except.pure]
    cases (s.set_composition c).2 <;> rfl
  | calculatePressure =>
    simp only [callD, aga8_calculate_pressure, hd, bind, Except.bind, useD, lift, pure, Except.pure]
    cases s.pressure <;> rfl
  | calculateDensity =>
    simp only [callD, aga8_calculate_density, hd, bind, Except.bind, useD, lift, pure, Except.pure]
    cases s.density with
    | error e => rfl
    | ok r => obtain ⟨a, b⟩ := r; cases b <;> rfl
  | calculateProperties =>
    simp only [callD, aga8_calculate_properties, hd, bind, Except.bind, useD, lift, pure, Except.pure]
    cases s.properties <;> rfl
  | calculateMolarMass =>
    simp only [callD, aga8_calculate_molar_mass, hd, bind, Except.bind, useD, lift, pure, Except.pure]
    rfl
  | setPressure v =>
    simp only [callD, aga8_set_pressure, hd, bind, Except.bind, useD, lift, pure, Except.pure]
  | setTemperature v =>
    simp only [callD, aga8_set_temperature, hd, bind, Except.bind, useD, lift, pure, Except.pure]
  | setDensity v =>
    simp only [callD, aga8_set_density, hd, bind, Except.bind, useD, lift, pure, Except.pure]
  | getPressure =>
    simp only [callD, aga8_get_pressure, hd, bind, Except.bind, useD, lift, pure, Except.pure, hs]
  | getTemperature =>
    simp only [callD, aga8_get_temperature, hd, bind, Except.bind, useD, lift, pure, Except.pure, hs]
  | getDensity =>
    simp only [callD, aga8_get_density, hd, bind, Except.bind, useD, lift, pure, Except.pure, hs]
  | getProperties =>
    simp only [callD, aga8_get_properties, hd, bind, Except.bind, useD, lift, pure, Except.pure, hs]

theorem callG_live {m : Mem F} {p : Nat} {s : Gerg F} (hp : p ≠ 0) (h : m.ger p = some s) (u : Use F) :
    callG m p u = (do let r ← lift (useG s u); pure (m.putG p (some r.1), r.2)) := by
  have hd := deref_live hp h
  have hs := putG_self h
  cases u with
  | setComposition c =>
    simp only [callG, gerg_set_composition, hd, bind, Except.bind, useG, lift, pure, Except.pure]
    cases (s.set_composition c).2 <;> rfl
  | calculatePressure =>
    simp only [callG, gerg_calculate_pressure, hd, bind, Except.bind, useG, lift, pure, Except.pure]
    cases s.pressure <;> rfl
  | calculateDensity =>
    simp only [callG, gerg_calculate_density, hd, bind, Except.bind, useG, lift, pure, Except.pure]
    cases s.density 0 with
    | error e => rfl
    | ok r => obtain ⟨a, b⟩ := r; cases b <;> rfl
  | calculateProperties =>
    simp only [callG, gerg_calculate_properties, hd, bind, Except.bind, useG, lift, pure, Except.pure]
    cases s.properties <;> rfl
  | calculateMolarMass =>
    simp only [callG, gerg_calculate_molar_mass, hd, bind, Except.bind, useG, lift, pure, Except.pure]
  | setPressure v =>
    simp only [callG, gerg_set_pressure, hd, bind, Except.bind, useG, lift, pure, Except.pure]
  | setTemperature v =>
    simp only [callG, gerg_set_temperature, hd, bind, Except.bind, useG, lift, pure, Except.pure]
  | setDensity v =>
    simp only [callG, gerg_set_density, hd, bind, Except.bind, useG, lift, pure, Except.pure]
  | getPressure =>
    simp only [callG, gerg_get_pressure, hd, bind, Except.bind, useG, lift, pure, Except.pure, hs]
  | getTemperature =>
    simp only [callG, gerg_get_temperature, hd, bind, Except.bind, useG, lift, pure, Except.pure, hs]
  | getDensity =>
    simp only [callG, gerg_get_density, hd, bind, Except.bind, useG, lift, pure, Except.pure, hs]
  | getProperties =>
    simp only [callG, gerg_get_properties, hd, bind, Except.bind, useG, lift, pure, Except.pure, hs]

/-! ## Inversion of a successful call -/

theorem callD_ok {m m' : Mem F} {p : Nat} {u : Use F} {r : Ret F} (h : callD m p u = .ok (m', r)) :
    p ≠ 0 ∧ ∃ s s', m.det p = some s ∧ useD s u = .ok (s', r) ∧ m' = m.putD p (some s') := by
  by_cases hp : p = 0
  · subst hp; rw [callD_error (deref_null _)] at h; cases h
  refine ⟨hp, ?_⟩
  cases hm : m.det p with
  | none => rw [callD_error (deref_dead hp hm)] at h; cases h
  | some s =>
    rw [callD_live hp hm] at h
    cases hu : useD s u with
    | error e => rw [hu] at h; cases h
    | ok x =>
      rw [hu] at h
      simp only [lift, bind, Except.bind, pure, Except.pure, Except.ok.injEq, Prod.mk.injEq] at h
      exact ⟨s, x.1, rfl, by rw [hu, ← h.2], h.1.symm⟩

theorem callG_ok {m m' : Mem F} {p : Nat} {u : Use F} {r : Ret F} (h : callG m p u = .ok (m', r)) :
    p ≠ 0 ∧ ∃ s s', m.ger p = some s ∧ useG s u = .ok (s', r) ∧ m' = m.putG p (some s') := by
  by_cases hp : p = 0
  · subst hp; rw [callG_error (deref_null _)] at h; cases h
  refine ⟨hp, ?_⟩
  cases hm : m.ger p with
  | none => rw [callG_error (deref_dead hp hm)] at h; cases h
  | some s =>
    rw [callG_live hp hm] at h
    cases hu : useG s u with
    | error e => rw [hu] at h; cases h
    | ok x =>
      rw [hu] at h
      simp only [lift, bind, Except.bind, pure, Except.pure, Except.ok.injEq, Prod.mk.injEq] at h
      exact ⟨s, x.1, rfl, by rw [hu, ← h.2], h.1.symm⟩

theorem freeD_ok {m m' : Mem F} {p : Nat} (h : aga8_free m p = .ok m') :
    (p = 0 ∧ m' = m) ∨ (p ≠ 0 ∧ (∃ s, m.det p = some s) ∧ m' = m.putD p none) := by
  unfold aga8_free at h
  split at h
  · next hp => exact Or.inl ⟨hp, (Except.ok.inj h).symm⟩
  · next hp =>
    split at h
    · next s hm => exact Or.inr ⟨hp, ⟨s, hm⟩, (Except.ok.inj h).symm⟩
    · cases h

theorem freeG_ok {m m' : Mem F} {p : Nat} (h : gerg_free m p = .ok m') :
    (p = 0 ∧ m' = m) ∨ (p ≠ 0 ∧ (∃ s, m.ger p = some s) ∧ m' = m.putG p none) := by
  unfold gerg_free at h
  split at h
  · next hp => exact Or.inl ⟨hp, (Except.ok.inj h).symm⟩
  · next hp =>
    split at h
    · next s hm => exact Or.inr ⟨hp, ⟨s, hm⟩, (Except.ok.inj h).symm⟩
    · cases h

theorem call_newD (m : Mem F) (a : Nat) :
    call m (.aga8New a) = .ok (m.putD a (some Detail.newP), .ptr a) := by
  simp only [call, aga8_new, Detail.new_ok, lift, bind, Except.bind, pure, Except.pure]

theorem call_newG (m : Mem F) (a : Nat) :
    call m (.gergNew a) = .ok (m.putG a (some Gerg.newP), .ptr a) := by
  simp only [call, gerg_new, Gerg.new_ok, lift, bind, Except.bind, pure, Except.pure]

theorem call_freeD {m m' : Mem F} {p : Nat} {r : Ret F} (h : call m (.aga8Free p) = .ok (m', r)) :
    aga8_free m p = .ok m' ∧ r = .unit := by
  simp only [call, bind, Except.bind] at h
  cases hf : aga8_free m p with
  | error e => rw [hf] at h; cases h
  | ok x =>
    rw [hf] at h
    simp only [pure, Except.pure, Except.ok.injEq, Prod.mk.injEq] at h
    exact ⟨by rw [h.1], h.2.symm⟩

theorem call_freeG {m m' : Mem F} {p : Nat} {r : Ret F} (h : call m (.gergFree p) = .ok (m', r)) :
    gerg_free m p = .ok m' ∧ r = .unit := by
  simp only [call, bind, Except.bind] at h
  cases hf : gerg_free m p with
  | error e => rw [hf] at h; cases h
  | ok x =>
    rw [hf] at h
    simp only [pure, Except.pure, Except.ok.injEq, Prod.mk.injEq] at h
    exact ⟨by rw [h.1], h.2.symm⟩

/-! ## Non-interference -/

theorem call_frameD {m m' : Mem F} {c : Call F} {r : Ret F} {p : Nat} (h : call m c = .ok (m', r))
    (hc : onD p c = false) : m'.det p = m.det p := by
  cases c with
  | aga8New a =>
    rw [call_newD] at h
    simp only [Except.ok.injEq, Prod.mk.injEq] at h
    have ha : p ≠ a := fun e => by subst e; simp [onD] at hc
    rw [← h.1, putD_det, if_neg ha]
  | aga8Free q =>
    have hq : p ≠ q := fun e => by subst e; simp [onD] at hc
    rcases freeD_ok (call_freeD h).1 with ⟨_, e⟩ | ⟨_, _, e⟩
    · rw [e]
    · rw [e, putD_det, if_neg hq]
  | aga8 q u =>
    have hq : p ≠ q := fun e => by subst e; simp [onD] at hc
    obtain ⟨_, s, s', _, _, e⟩ := callD_ok h
    rw [e, putD_det, if_neg hq]
  | gergNew a =>
    rw [call_newG] at h
    simp only [Except.ok.injEq, Prod.mk.injEq] at h
    rw [← h.1, putG_det]
  | gergFree q =>
    rcases freeG_ok (call_freeG h).1 with ⟨_, e⟩ | ⟨_, _, e⟩
    · rw [e]
    · rw [e, putG_det]
  | gerg q u =>
    obtain ⟨_, s, s', _, _, e⟩ := callG_ok h
    rw [e, putG_det]

theorem call_frameG {m m' : Mem F} {c : Call F} {r : Ret F} {p : Nat} (h : call m c = .ok (m', r))
    (hc : onG p c = false) : m'.ger p = m.ger p := by
  cases c with
  | gergNew a =>
    rw [call_newG] at h
    simp only [Except.ok.injEq, Prod.mk.injEq] at h
    have ha : p ≠ a := fun e => by subst e; simp [onG] at hc
    rw [← h.1, putG_ger, if_neg ha]
  | gergFree q =>
    have hq : p ≠ q := fun e => by subst e; simp [onG] at hc
    rcases freeG_ok (call_freeG h).1 with ⟨_, e⟩ | ⟨_, _, e⟩
    · rw [e]
    · rw [e, putG_ger, if_neg hq]
  | gerg q u =>
    have hq : p ≠ q := fun e => by subst e; simp [onG] at hc
    obtain ⟨_, s, s', _, _, e⟩ := callG_ok h
    rw [e, putG_ger, if_neg hq]
  | aga8New a =>
    rw [call_newD] at h
    simp only [Except.ok.injEq, Prod.mk.injEq] at h
    rw [← h.1, putD_ger]
  | aga8Free q =>
    rcases freeD_ok (call_freeD h).1 with ⟨_, e⟩ | ⟨_, _, e⟩
    · rw [e]
    · rw [e, putD_ger]
  | aga8 q u =>
    obtain ⟨_, s, s', _, _, e⟩ := callD_ok h
    rw [e, putD_ger]

/-! ## Programs -/

theorem run_cons_ok {m m' : Mem F} {c : Call F} {cs : List (Call F)} {rs : List (Ret F)}
    (h : run m (c :: cs) = .ok (m', rs)) :
    ∃ m1 r rs', call m c = .ok (m1, r) ∧ run m1 cs = .ok (m', rs') ∧ rs = r :: rs' := by
  simp only [run, bind, Except.bind] at h
  cases hc : call m c with
  | error e => rw [hc] at h; cases h
  | ok x =>
    rw [hc] at h
    simp only [] at h
    cases hr : run x.1 cs with
    | error e => rw [hr] at h; cases h
    | ok y =>
      rw [hr] at h
      simp only [pure, Except.pure, Except.ok.injEq, Prod.mk.injEq] at h
      exact ⟨x.1, x.2, y.2, rfl, by rw [hr, ← h.1], h.2.symm⟩

theorem run_snoc : ∀ (cs : List (Call F)) (m m1 : Mem F) (rs : List (Ret F)) {m2 : Mem F} {c : Call F} {r : Ret F},
    run m cs = .ok (m1, rs) → call m1 c = .ok (m2, r) → run m (cs ++ [c]) = .ok (m2, rs ++ [r])
  | [], m, m1, rs, m2, c, r, h, hc => by
    simp only [run, pure, Except.pure, Except.ok.injEq, Prod.mk.injEq] at h
    rw [← h.1] at hc
    simp only [List.nil_append, run, hc, bind, Except.bind, pure, Except.pure, ← h.2]
  | d :: cs, m, m1, rs, m2, c, r, h, hc => by
    obtain ⟨m0, r0, rs', h0, h1, e⟩ := run_cons_ok h
    have ih := run_snoc cs m0 m1 rs' h1 hc
    subst e
    simp only [List.cons_append, run, h0, ih, bind, Except.bind, pure, Except.pure]

theorem run_next {m m1 : Mem F} {c : Call F} {r : Ret F} {cs : List (Call F)} {P : Mem F → Prop}
    (h : call m c = .ok (m1, r)) (k : ∃ m' rs, run m1 cs = .ok (m', rs) ∧ P m') :
    ∃ m' rs, run m (c :: cs) = .ok (m', rs) ∧ P m' := by
  obtain ⟨m', rs, hr, hP⟩ := k
  exact ⟨m', r :: rs, by simp only [run, h, hr, bind, Except.bind, pure, Except.pure], hP⟩

theorem call_useD {m : Mem F} {p : Nat} {s s' : Detail F} {u : Use F} {r : Ret F} (hp : p ≠ 0)
    (h : m.det p = some s) (hu : useD s u = .ok (s', r)) :
    call m (.aga8 p u) = .ok (m.putD p (some s'), r) := by
  simp only [call, callD_live hp h, hu, lift, bind, Except.bind, pure, Except.pure]

theorem call_useG {m : Mem F} {p : Nat} {s s' : Gerg F} {u : Use F} {r : Ret F} (hp : p ≠ 0)
    (h : m.ger p = some s) (hu : useG s u = .ok (s', r)) :
    call m (.gerg p u) = .ok (m.putG p (some s'), r) := by
  simp only [call, callG_live hp h, hu, lift, bind, Except.bind, pure, Except.pure]

theorem retsOf_cons_pos {sel : Call F → Bool} {c : Call F} {cs : List (Call F)} {r : Ret F} {rs : List (Ret F)}
    (h : sel c = true) : retsOf sel (c :: cs) (r :: rs) = r :: retsOf sel cs rs := by
  simp only [retsOf, List.zip_cons_cons, List.filterMap_cons, h, if_true]

theorem retsOf_cons_neg {sel : Call F → Bool} {c : Call F} {cs : List (Call F)} {r : Ret F} {rs : List (Ret F)}
    (h : sel c = false) : retsOf sel (c :: cs) (r :: rs) = retsOf sel cs rs := by
  simp only [retsOf, List.zip_cons_cons, List.filterMap_cons, h, Bool.false_eq_true, if_false]

theorem run_objD {p : Nat} (hp : p ≠ 0) : ∀ (cs : List (Call F)) (m m' : Mem F) (rs : List (Ret F)),
    run m cs = .ok (m', rs) →
    objD (m.det p) (cs.filter (onD p)) = .ok (m'.det p, retsOf (onD p) cs rs)
  | [], m, m', rs, h => by
    simp only [run, pure, Except.pure, Except.ok.injEq, Prod.mk.injEq] at h
    rw [← h.1, ← h.2]; rfl
  | c :: cs, m, m', rs, h => by
    obtain ⟨m1, r, rs', hc, hr, e⟩ := run_cons_ok h
    have ih := run_objD hp cs m1 m' rs' hr
    subst e
    cases hsel : onD p c with
    | false =>
      rw [List.filter_cons_of_neg (by simp [hsel]), retsOf_cons_neg hsel, ← call_frameD hc hsel]
      exact ih
    | true =>
      rw [List.filter_cons_of_pos hsel, retsOf_cons_pos hsel]
      cases c with
      | aga8New a =>
        have ha : a = p := by simpa [onD] using hsel
        subst ha
        rw [call_newD] at hc
        simp only [Except.ok.injEq, Prod.mk.injEq] at hc
        have hm : m1.det a = some Detail.newP := by rw [← hc.1, putD_det, if_pos rfl]
        rw [hm] at ih
        simp only [objD, Detail.new_ok, bind, Except.bind, ih, pure, Except.pure, ← hc.2]
      | aga8Free q =>
        have hq : q = p := by simpa [onD] using hsel
        subst hq
        obtain ⟨hf, e⟩ := call_freeD hc
        rcases freeD_ok hf with ⟨e0, _⟩ | ⟨_, _, e1⟩
        · exact absurd e0 hp
        have hm : m1.det q = none := by rw [e1, putD_det, if_pos rfl]
        rw [hm] at ih
        simp only [objD, bind, Except.bind, ih, pure, Except.pure, e]
      | aga8 q u =>
        have hq : q = p := by simpa [onD] using hsel
        subst hq
        obtain ⟨_, s, s', h0, hu, e1⟩ := callD_ok hc
        have hm : m1.det q = some s' := by rw [e1, putD_det, if_pos rfl]
        rw [hm] at ih
        simp only [h0, objD, bind, Except.bind, hu, ih, pure, Except.pure]
      | gergNew a => cases hsel
      | gergFree q => cases hsel
      | gerg q u => cases hsel

theorem run_objG {p : Nat} (hp : p ≠ 0) : ∀ (cs : List (Call F)) (m m' : Mem F) (rs : List (Ret F)),
    run m cs = .ok (m', rs) →
    objG (m.ger p) (cs.filter (onG p)) = .ok (m'.ger p, retsOf (onG p) cs rs)
  | [], m, m', rs, h => by
    simp only [run, pure, Except.pure, Except.ok.injEq, Prod.mk.injEq] at h
    rw [← h.1, ← h.2]; rfl
  | c :: cs, m, m', rs, h => by
    obtain ⟨m1, r, rs', hc, hr, e⟩ := run_cons_ok h
    have ih := run_objG hp cs m1 m' rs' hr
    subst e
    cases hsel : onG p c with
    | false =>
      rw [List.filter_cons_of_neg (by simp [hsel]), retsOf_cons_neg hsel, ← call_frameG hc hsel]
      exact ih
    | true =>
      rw [List.filter_cons_of_pos hsel, retsOf_cons_pos hsel]
      cases c with
      | gergNew a =>
        have ha : a = p := by simpa [onG] using hsel
        subst ha
        rw [call_newG] at hc
        simp only [Except.ok.injEq, Prod.mk.injEq] at hc
        have hm : m1.ger a = some Gerg.newP := by rw [← hc.1, putG_ger, if_pos rfl]
        rw [hm] at ih
        simp only [objG, Gerg.new_ok, bind, Except.bind, ih, pure, Except.pure, ← hc.2]
      | gergFree q =>
        have hq : q = p := by simpa [onG] using hsel
        subst hq
        obtain ⟨hf, e⟩ := call_freeG hc
        rcases freeG_ok hf with ⟨e0, _⟩ | ⟨_, _, e1⟩
        · exact absurd e0 hp
        have hm : m1.ger q = none := by rw [e1, putG_ger, if_pos rfl]
        rw [hm] at ih
        simp only [objG, bind, Except.bind, ih, pure, Except.pure, e]
      | gerg q u =>
        have hq : q = p := by simpa [onG] using hsel
        subst hq
        obtain ⟨_, s, s', h0, hu, e1⟩ := callG_ok hc
        have hm : m1.ger q = some s' := by rw [e1, putG_ger, if_pos rfl]
        rw [hm] at ih
        simp only [h0, objG, bind, Except.bind, hu, ih, pure, Except.pure]
      | aga8New a => cases hsel
      | aga8Free q => cases hsel
      | aga8 q u => cases hsel

/-! ## Objects behind handles are objects of the Rust interface -/

/-- A use of a GERG handle leads from a reachable object to a reachable one. -/
theorem useG_reachable {s s' : Gerg F} {u : Use F} {r : Ret F} (hs : Gerg.Reachable s)
    (h : useG s u = .ok (s', r)) : Gerg.Reachable s' := by
  cases u with
  | setComposition c =>
    simp only [useG, pure, Except.pure, Except.ok.injEq, Prod.mk.injEq] at h
    rw [← h.1]; exact hs.step (op := .setComposition c) rfl
  | setPressure v =>
    simp only [useG, pure, Except.pure, Except.ok.injEq, Prod.mk.injEq] at h
    rw [← h.1]; exact hs.step (op := .write { Gerg.pub s with p := v }) rfl
  | setTemperature v =>
    simp only [useG, pure, Except.pure, Except.ok.injEq, Prod.mk.injEq] at h
    rw [← h.1]; exact hs.step (op := .write { Gerg.pub s with t := v }) rfl
  | setDensity v =>
    simp only [useG, pure, Except.pure, Except.ok.injEq, Prod.mk.injEq] at h
    rw [← h.1]; exact hs.step (op := .write { Gerg.pub s with d := v }) rfl
  | getPressure => cases h; exact hs
  | getTemperature => cases h; exact hs
  | getDensity => cases h; exact hs
  | getProperties => cases h; exact hs
  | calculateMolarMass =>
    simp only [useG, pure, Except.pure, Except.ok.injEq, Prod.mk.injEq] at h
    rw [← h.1]; exact hs.step (op := .molarMass) rfl
  | calculatePressure =>
    simp only [useG, bind, Except.bind] at h
    cases hq : s.pressure with
    | error e => rw [hq] at h; cases h
    | ok x =>
      rw [hq] at h
      simp only [pure, Except.pure, Except.ok.injEq, Prod.mk.injEq] at h
      rw [← h.1]
      exact hs.step (op := .pressure) (o := .num x.2)
        (by simp only [Gerg.step, hq, bind, Except.bind, pure, Except.pure])
  | calculateDensity =>
    simp only [useG, bind, Except.bind] at h
    cases hq : s.density 0 with
    | error e => rw [hq] at h; cases h
    | ok x =>
      rw [hq] at h
      simp only [pure, Except.pure, Except.ok.injEq, Prod.mk.injEq] at h
      rw [← h.1]
      exact hs.step (op := .density 0) (o := .dens x.2)
        (by simp only [Gerg.step, hq, bind, Except.bind, pure, Except.pure])
  | calculateProperties =>
    simp only [useG, bind, Except.bind] at h
    cases hq : s.properties with
    | error e => rw [hq] at h; cases h
    | ok x =>
      rw [hq] at h
      simp only [pure, Except.pure, Except.ok.injEq, Prod.mk.injEq] at h
      rw [← h.1]
      exact hs.step (op := .properties) (o := .num x.2)
        (by simp only [Gerg.step, hq, bind, Except.bind, pure, Except.pure])

theorem reachable_new : Gerg.Reachable (Gerg.newP : Gerg F) :=
  ⟨[], [], by rw [Gerg.runNew_eq]; rfl⟩

/-- Every GERG object in memory is an object of the Rust interface. -/
def Good (m : Mem F) : Prop := ∀ p s, m.ger p = some s → Gerg.Reachable s

theorem good_empty : Good (Mem.empty : Mem F) := fun _ _ h => by cases h

theorem good_call {m m' : Mem F} {c : Call F} {r : Ret F} (hm : Good m) (h : call m c = .ok (m', r)) :
    Good m' := by
  intro p s hs
  cases hsel : onG p c with
  | false => exact hm p s (by rw [← call_frameG h hsel]; exact hs)
  | true =>
    cases c with
    | gergNew a =>
      have ha : a = p := by simpa [onG] using hsel
      subst ha
      rw [call_newG] at h
      simp only [Except.ok.injEq, Prod.mk.injEq] at h
      rw [← h.1, putG_ger, if_pos rfl] at hs
      rw [← Option.some.inj hs]; exact reachable_new
    | gergFree q =>
      have hq : q = p := by simpa [onG] using hsel
      subst hq
      rcases freeG_ok (call_freeG h).1 with ⟨_, e⟩ | ⟨_, _, e⟩
      · rw [e] at hs; exact hm q s hs
      · rw [e, putG_ger, if_pos rfl] at hs; cases hs
    | gerg q u =>
      have hq : q = p := by simpa [onG] using hsel
      subst hq
      obtain ⟨_, s0, s', h0, hu, e⟩ := callG_ok h
      rw [e, putG_ger, if_pos rfl] at hs
      rw [← Option.some.inj hs]; exact useG_reachable (hm q s0 h0) hu
    | aga8New a => cases hsel
    | aga8Free q => cases hsel
    | aga8 q u => cases hsel

theorem good_run : ∀ (cs : List (Call F)) (m m' : Mem F) (rs : List (Ret F)), Good m →
    run m cs = .ok (m', rs) → Good m'
  | [], m, m', rs, hm, h => by
    simp only [run, pure, Except.pure, Except.ok.injEq, Prod.mk.injEq] at h
    rw [← h.1]; exact hm
  | c :: cs, m, m', rs, hm, h => by
    obtain ⟨m1, r, rs', hc, hr, _⟩ := run_cons_ok h
    exact good_run cs m1 m' rs' (good_call hm hc) hr

/-- The object is the result of a history of the Rust interface on a new `Detail`. -/
def DReach (s : Detail F) : Prop := ∃ ops outs, Detail.runNew ops = .ok (s, outs)

theorem drun_snoc : ∀ (ops : List (Detail.Op F)) (s s1 s2 : Detail F) (os : List (Detail.Out F))
    (op : Detail.Op F) (o : Detail.Out F), Detail.run s ops = .ok (s1, os) → Detail.step s1 op = .ok (s2, o) →
    Detail.run s (ops ++ [op]) = .ok (s2, os ++ [o])
  | [], s, s1, s2, os, op, o, h, hs => by
    simp only [Detail.run, pure, Except.pure, Except.ok.injEq, Prod.mk.injEq] at h
    rw [← h.1] at hs
    simp only [List.nil_append, Detail.run, hs, bind, Except.bind, pure, Except.pure, ← h.2]
  | a :: ops, s, s1, s2, os, op, o, h, hs => by
    simp only [Detail.run, bind, Except.bind] at h
    cases ha : Detail.step s a with
    | error e => rw [ha] at h; cases h
    | ok x =>
      rw [ha] at h
      simp only [] at h
      cases hr : Detail.run x.1 ops with
      | error e => rw [hr] at h; cases h
      | ok y =>
        rw [hr] at h
        simp only [pure, Except.pure, Except.ok.injEq, Prod.mk.injEq] at h
        have ih := drun_snoc ops x.1 s1 s2 y.2 op o (by rw [hr, ← h.1]) hs
        simp only [List.cons_append, Detail.run, ha, ih, bind, Except.bind, pure, Except.pure, ← h.2]

theorem dreach_step {s s' : Detail F} {op : Detail.Op F} {o : Detail.Out F} (h : DReach s)
    (hs : Detail.step s op = .ok (s', o)) : DReach s' := by
  obtain ⟨ops, outs, h⟩ := h
  refine ⟨ops ++ [op], outs ++ [o], ?_⟩
  simp only [Detail.runNew, Detail.new_ok, bind, Except.bind] at h ⊢
  exact drun_snoc ops _ _ _ _ _ _ h hs

theorem dreach_new : DReach (Detail.newP : Detail F) :=
  ⟨[], [], by simp only [Detail.runNew, Detail.new_ok, bind, Except.bind]; rfl⟩

/-- A use of a DETAIL handle leads from a reachable object to a reachable one. -/
theorem useD_reachable {s s' : Detail F} {u : Use F} {r : Ret F} (hs : DReach s)
    (h : useD s u = .ok (s', r)) : DReach s' := by
  cases u with
  | setComposition c =>
    simp only [useD, pure, Except.pure, Except.ok.injEq, Prod.mk.injEq] at h
    rw [← h.1]; exact dreach_step hs (op := .setComposition c) rfl
  | setPressure v =>
    simp only [useD, pure, Except.pure, Except.ok.injEq, Prod.mk.injEq] at h
    rw [← h.1]; exact dreach_step hs (op := .write { Detail.pub s with p := v }) rfl
  | setTemperature v =>
    simp only [useD, pure, Except.pure, Except.ok.injEq, Prod.mk.injEq] at h
    rw [← h.1]; exact dreach_step hs (op := .write { Detail.pub s with t := v }) rfl
  | setDensity v =>
    simp only [useD, pure, Except.pure, Except.ok.injEq, Prod.mk.injEq] at h
    rw [← h.1]; exact dreach_step hs (op := .write { Detail.pub s with d := v }) rfl
  | getPressure => cases h; exact hs
  | getTemperature => cases h; exact hs
  | getDensity => cases h; exact hs
  | getProperties => cases h; exact hs
  | calculateMolarMass =>
    simp only [useD, pure, Except.pure, Except.ok.injEq, Prod.mk.injEq] at h
    rw [← h.1]; exact dreach_step hs (op := .molarMass) rfl
  | calculatePressure =>
    simp only [useD, bind, Except.bind] at h
    cases hq : s.pressure with
    | error e => rw [hq] at h; cases h
    | ok x =>
      rw [hq] at h
      simp only [pure, Except.pure, Except.ok.injEq, Prod.mk.injEq] at h
      rw [← h.1]
      exact dreach_step hs (op := .pressure) (o := .num x.2)
        (by simp only [Detail.step, hq, bind, Except.bind, pure, Except.pure])
  | calculateDensity =>
    simp only [useD, bind, Except.bind] at h
    cases hq : s.density with
    | error e => rw [hq] at h; cases h
    | ok x =>
      rw [hq] at h
      simp only [pure, Except.pure, Except.ok.injEq, Prod.mk.injEq] at h
      rw [← h.1]
      exact dreach_step hs (op := .density) (o := .dens x.2)
        (by simp only [Detail.step, hq, bind, Except.bind, pure, Except.pure])
  | calculateProperties =>
    simp only [useD, bind, Except.bind] at h
    cases hq : s.properties with
    | error e => rw [hq] at h; cases h
    | ok x =>
      rw [hq] at h
      simp only [pure, Except.pure, Except.ok.injEq, Prod.mk.injEq] at h
      rw [← h.1]
      exact dreach_step hs (op := .properties) (o := .unit)
        (by simp only [Detail.step, hq, bind, Except.bind, pure, Except.pure])

/-- Every DETAIL object in memory is an object of the Rust interface. -/
def GoodD (m : Mem F) : Prop := ∀ p s, m.det p = some s → DReach s

theorem goodD_call {m m' : Mem F} {c : Call F} {r : Ret F} (hm : GoodD m) (h : call m c = .ok (m', r)) :
    GoodD m' := by
  intro p s hs
  cases hsel : onD p c with
  | false => exact hm p s (by rw [← call_frameD h hsel]; exact hs)
  | true =>
    cases c with
    | aga8New a =>
      have ha : a = p := by simpa [onD] using hsel
      subst ha
      rw [call_newD] at h
      simp only [Except.ok.injEq, Prod.mk.injEq] at h
      rw [← h.1, putD_det, if_pos rfl] at hs
      rw [← Option.some.inj hs]; exact dreach_new
    | aga8Free q =>
      have hq : q = p := by simpa [onD] using hsel
      subst hq
      rcases freeD_ok (call_freeD h).1 with ⟨_, e⟩ | ⟨_, _, e⟩
      · rw [e] at hs; exact hm q s hs
      · rw [e, putD_det, if_pos rfl] at hs; cases hs
    | aga8 q u =>
      have hq : q = p := by simpa [onD] using hsel
      subst hq
      obtain ⟨_, s0, s', h0, hu, e⟩ := callD_ok h
      rw [e, putD_det, if_pos rfl] at hs
      rw [← Option.some.inj hs]; exact useD_reachable (hm q s0 h0) hu
    | gergNew a => cases hsel
    | gergFree q => cases hsel
    | gerg q u => cases hsel

theorem goodD_run : ∀ (cs : List (Call F)) (m m' : Mem F) (rs : List (Ret F)), GoodD m →
    run m cs = .ok (m', rs) → GoodD m'
  | [], m, m', rs, hm, h => by
    simp only [run, pure, Except.pure, Except.ok.injEq, Prod.mk.injEq] at h
    rw [← h.1]; exact hm
  | c :: cs, m, m', rs, hm, h => by
    obtain ⟨m1, r, rs', hc, hr, _⟩ := run_cons_ok h
    exact goodD_run cs m1 m' rs' (goodD_call hm hc) hr

/-! ## No panic in the called methods -/

theorem useD_total (s : Detail F) (u : Use F) : ∃ s' r, useD s u = .ok (s', r) := by
  cases u with
  | calculatePressure => exact ⟨_, _, by simp only [useD, Detail.pressure_ok, bind, Except.bind]; rfl⟩
  | calculateDensity => exact ⟨_, _, by simp only [useD, Detail.density_ok, bind, Except.bind]; rfl⟩
  | calculateProperties => exact ⟨_, _, by simp only [useD, Detail.properties_ok, bind, Except.bind]; rfl⟩
  | _ => exact ⟨_, _, rfl⟩

theorem useG_total {s : Gerg F} (hs : Gerg.Idx s) (u : Use F) : ∃ s' r, useG s u = .ok (s', r) := by
  cases u with
  | calculatePressure => exact ⟨_, _, by simp only [useG, Gerg.pressure_ok hs, bind, Except.bind]; rfl⟩
  | calculateDensity => exact ⟨_, _, by simp only [useG, Gerg.density_ok hs, bind, Except.bind]; rfl⟩
  | calculateProperties => exact ⟨_, _, by simp only [useG, Gerg.properties_ok hs, bind, Except.bind]; rfl⟩
  | _ => exact ⟨_, _, rfl⟩

theorem call_total {m : Mem F} (hm : Good m) {c : Call F} (hc : Allowed m c) :
    ∃ m' r, call m c = .ok (m', r) := by
  cases c with
  | aga8New a => exact ⟨_, _, call_newD m a⟩
  | gergNew a => exact ⟨_, _, call_newG m a⟩
  | aga8Free p =>
    rcases hc with rfl | hc
    · exact ⟨m, .unit, rfl⟩
    · by_cases hp : p = 0
      · subst hp; exact ⟨m, .unit, rfl⟩
      obtain ⟨s, hs⟩ := Option.isSome_iff_exists.1 hc
      refine ⟨m.putD p none, .unit, ?_⟩
      simp only [call, aga8_free, if_neg hp, hs, bind, Except.bind, pure, Except.pure]
  | gergFree p =>
    rcases hc with rfl | hc
    · exact ⟨m, .unit, rfl⟩
    · by_cases hp : p = 0
      · subst hp; exact ⟨m, .unit, rfl⟩
      obtain ⟨s, hs⟩ := Option.isSome_iff_exists.1 hc
      refine ⟨m.putG p none, .unit, ?_⟩
      simp only [call, gerg_free, if_neg hp, hs, bind, Except.bind, pure, Except.pure]
  | aga8 p u =>
    obtain ⟨s, hs⟩ := Option.isSome_iff_exists.1 hc.2
    obtain ⟨s', r, hu⟩ := useD_total s u
    refine ⟨m.putD p (some s'), r, ?_⟩
    simp only [call, callD_live hc.1 hs, hu, lift, bind, Except.bind, pure, Except.pure]
  | gerg p u =>
    obtain ⟨s, hs⟩ := Option.isSome_iff_exists.1 hc.2
    obtain ⟨s', r, hu⟩ := useG_total (hm p s hs).idx u
    refine ⟨m.putG p (some s'), r, ?_⟩
    simp only [call, callG_live hc.1 hs, hu, lift, bind, Except.bind, pure, Except.pure]

end Aga8.Ffi
