import Verif.Lemmas.Ffi
import Verif.Props.Detail
import Verif.Props.Gerg
import Verif.Props.SetComposition

/-! # C38: the C interface -/

set_option linter.unusedSectionVars false

namespace Aga8

open FOps Ffi

variable {F : Type} [Add F] [Sub F] [Mul F] [Div F] [Neg F] [FOps F]

/-- C38: in any program of C calls, however the calls on different handles interleave, a DETAIL handle gives back
exactly what a Rust `Detail` variable receiving only the calls on that handle gives back, and the object behind it
is in the same state. -/
theorem C38_detail_handle_is_rust_object (cs : List (Call F)) (m : Mem F) (rs : List (Ret F))
    (h : Ffi.run Mem.empty cs = .ok (m, rs)) (p : Nat) (hp : p ≠ 0) :
    objD none (cs.filter (onD p)) = .ok (m.det p, retsOf (onD p) cs rs) :=
  run_objD hp cs Mem.empty m rs h

/-- C38: the same for a GERG handle. -/
theorem C38_gerg_handle_is_rust_object (cs : List (Call F)) (m : Mem F) (rs : List (Ret F))
    (h : Ffi.run Mem.empty cs = .ok (m, rs)) (p : Nat) (hp : p ≠ 0) :
    objG none (cs.filter (onG p)) = .ok (m.ger p, retsOf (onG p) cs rs) :=
  run_objG hp cs Mem.empty m rs h

/-- C38: so every object behind a handle is one that a history of calls of the Rust interface on a new object
produces: the theorems about such histories apply to the users of the C interface. -/
theorem C38_objects_have_rust_histories (cs : List (Call F)) (m : Mem F) (rs : List (Ret F))
    (h : Ffi.run Mem.empty cs = .ok (m, rs)) (p : Nat) :
    (∀ s, m.det p = some s → ∃ ops outs, Detail.runNew ops = .ok (s, outs)) ∧
    (∀ s, m.ger p = some s → ∃ ops outs, Gerg.runNew ops = .ok (s, outs)) :=
  ⟨goodD_run cs _ _ _ (fun _ _ h => by cases h) h p, good_run cs _ _ _ good_empty h p⟩

/-- C38: a call changes no object but that of its own handle. -/
theorem C38_handles_do_not_interfere (m m' : Mem F) (c : Call F) (r : Ret F) (h : call m c = .ok (m', r))
    (p : Nat) :
    (onD p c = false → m'.det p = m.det p) ∧ (onG p c = false → m'.ger p = m.ger p) :=
  ⟨call_frameD h, call_frameG h⟩

/-- C38: freeing null does nothing. -/
theorem C38_free_null (m : Mem F) :
    call m (.aga8Free 0) = .ok (m, .unit) ∧ call m (.gergFree 0) = .ok (m, .unit) := ⟨rfl, rfl⟩

/-- C38: every other use of a null handle is stopped by the assertion, whatever is in memory. -/
theorem C38_null_handle_aborts (m : Mem F) (u : Use F) :
    call m (.aga8 0 u) = .error (.panic .assertFailed) ∧
    call m (.gerg 0 u) = .error (.panic .assertFailed) :=
  ⟨callD_error (deref_null _) u, callG_error (deref_null _) u⟩

/-- C38: the composition error written is the verdict of `check`: its error, or `Ok` exactly when the composition
was accepted. -/
theorem C38_composition_error_is_verdict (m m' : Mem F) (p : Nat) (c : Composition F) (r : Ret F)
    (h : call m (.aga8 p (.setComposition c)) = .ok (m', r) ∨
      call m (.gerg p (.setComposition c)) = .ok (m', r)) :
    (∀ e, c.check = .error e → r = .comp e) ∧ (r = .comp .Ok ↔ c.check = .ok ()) := by
  have hr : r = .comp (compCode c.check) := by
    rcases h with h | h
    · obtain ⟨_, s, s', _, hu, _⟩ := callD_ok (u := (.setComposition c)) h
      simp only [useD, pure, Except.pure, Except.ok.injEq, Prod.mk.injEq] at hu
      rw [← hu.2]
      rcases C06_detail_set_composition s c with ⟨e, h1, h2⟩ | ⟨h1, x, h2, _⟩ <;> rw [h1, h2]
    · obtain ⟨_, s, s', _, hu, _⟩ := callG_ok (u := (.setComposition c)) h
      simp only [useG, pure, Except.pure, Except.ok.injEq, Prod.mk.injEq] at hu
      rw [← hu.2]
      rcases C07_gerg_set_composition s c with ⟨e, h1, h2⟩ | ⟨h1, x, h2, _⟩ <;> rw [h1, h2]
  have hne : c.check ≠ .error .Ok := by
    unfold Composition.check
    repeat' split
    all_goals (intro h; cases h)
  subst hr
  cases hc : c.check with
  | ok u => exact ⟨fun _ h => (nomatch h), fun _ => rfl, fun _ => rfl⟩
  | error e =>
    refine ⟨fun e' h => by cases h; rfl, fun h => ?_, fun h => (nomatch h)⟩
    have : e = .Ok := by simpa [compCode] using h
    exact absurd (this ▸ hc) hne

/-- C38: the density error written is the outcome of the density method on the object behind the handle: its error,
or `Ok` exactly when the method succeeded. -/
theorem C38_density_error_is_outcome (m m' : Mem F) (p : Nat) (r : Ret F) :
    (call m (.aga8 p .calculateDensity) = .ok (m', r) →
      ∃ s s' o, m.det p = some s ∧ s.density = .ok (s', o) ∧ m'.det p = some s' ∧
        (∀ e, o = .error e → r = .dens e) ∧ (r = .dens .Ok ↔ o = .ok ())) ∧
    (∀ cs rs, Ffi.run Mem.empty cs = .ok (m, rs) → call m (.gerg p .calculateDensity) = .ok (m', r) →
      ∃ s s' o, m.ger p = some s ∧ s.density 0 = .ok (s', o) ∧ m'.ger p = some s' ∧
        (∀ e, o = .error e → r = .dens e) ∧ (r = .dens .Ok ↔ o = .ok ())) := by
  constructor
  · intro h
    obtain ⟨_, s, s', h0, hu, e⟩ := callD_ok (u := .calculateDensity) h
    obtain ⟨s1, o, hd, ho, _⟩ := C15_detail_density_errors s
    simp only [useD, hd, bind, Except.bind, pure, Except.pure, Except.ok.injEq, Prod.mk.injEq] at hu
    refine ⟨s, s1, o, h0, hd, by rw [e, putD_det, if_pos rfl, hu.1], ?_⟩
    rw [← hu.2]
    rcases ho with rfl | rfl | rfl
    · exact ⟨fun _ h => (nomatch h), fun _ => rfl, fun _ => rfl⟩
    · exact ⟨fun _ h => by cases h; rfl, fun h => (nomatch h), fun h => (nomatch h)⟩
    · exact ⟨fun _ h => by cases h; rfl, fun h => (nomatch h), fun h => (nomatch h)⟩
  · intro cs rs hrun h
    obtain ⟨_, s, s', h0, hu, e⟩ := callG_ok (u := .calculateDensity) h
    have hs := good_run cs _ _ _ good_empty hrun p s h0
    obtain ⟨s1, o, hd, ho, _⟩ := C17_gerg_density_errors s hs 0 (Int.le_refl 0)
    simp only [useG, hd, bind, Except.bind, pure, Except.pure, Except.ok.injEq, Prod.mk.injEq] at hu
    refine ⟨s, s1, o, h0, hd, by rw [e, putG_ger, if_pos rfl, hu.1], ?_⟩
    rw [← hu.2]
    rcases ho with rfl | rfl
    · exact ⟨fun _ h => (nomatch h), fun _ => rfl, fun _ => rfl⟩
    · exact ⟨fun _ h => by cases h; rfl, fun h => (nomatch h), fun h => (nomatch h)⟩

/-- C38: a program that uses and frees live handles only (or frees null), with an allocator that returns unused
non-null addresses, neither aborts nor touches memory without an object in it. -/
theorem C38_well_behaved_program_runs (cs : List (Call F))
    (hcs : ∀ pre c post m rs, cs = pre ++ c :: post → Ffi.run Mem.empty pre = .ok (m, rs) → Allowed m c) :
    ∃ m rs, Ffi.run Mem.empty cs = .ok (m, rs) := by
  suffices H : ∀ (post pre : List (Call F)) (m : Mem F) (rs : List (Ret F)), cs = pre ++ post →
      Ffi.run Mem.empty pre = .ok (m, rs) → ∃ m' rs', Ffi.run m post = .ok (m', rs') from
    H cs [] Mem.empty [] rfl rfl
  intro post
  induction post with
  | nil => intro pre m rs _ _; exact ⟨m, [], rfl⟩
  | cons c post ih =>
    intro pre m rs e h
    obtain ⟨m1, r, h1⟩ := call_total (good_run pre _ _ _ good_empty h) (hcs pre c post m rs e h)
    obtain ⟨m', rs', h2⟩ := ih (pre ++ [c]) m1 (rs ++ [r]) (by rw [e]; simp) (run_snoc pre _ _ _ h h1)
    exact ⟨m', r :: rs', by simp only [Ffi.run, h1, h2, bind, Except.bind, pure, Except.pure]⟩

/-- C38: and the obligation is needed: using a non-null handle behind which no object lives is undefined. -/
theorem C38_dead_handle_undefined (m : Mem F) (p : Nat) (hp : p ≠ 0) (u : Use F) :
    (m.det p = none → call m (.aga8 p u) = .error .undefined ∧ call m (.aga8Free p) = .error .undefined) ∧
    (m.ger p = none → call m (.gerg p u) = .error .undefined ∧ call m (.gergFree p) = .error .undefined) := by
  refine ⟨fun h => ⟨callD_error (deref_dead hp h) u, ?_⟩, fun h => ⟨callG_error (deref_dead hp h) u, ?_⟩⟩
  · simp only [call, aga8_free, if_neg hp, h, bind, Except.bind]
  · simp only [call, gerg_free, if_neg hp, h, bind, Except.bind]

/-- C38 (finding): `gerg_calculate_properties` drops the pressure it computes: `gerg_get_pressure` afterwards still
returns the pressure stored before, whatever temperature, density and composition the handle has. -/
theorem C38_gerg_properties_keep_pressure (m m' : Mem F) (p : Nat) (s : Gerg F) (r : Ret F)
    (cs : List (Call F)) (rs : List (Ret F)) (hrun : Ffi.run Mem.empty cs = .ok (m, rs))
    (hs : m.ger p = some s) (h : call m (.gerg p .calculateProperties) = .ok (m', r)) :
    call m' (.gerg p .getPressure) = .ok (m', .num s.p) := by
  obtain ⟨hp, s0, s', h0, hu, e⟩ := callG_ok (u := .calculateProperties) h
  rw [hs] at h0
  cases h0
  have hi := (good_run cs _ _ _ good_empty hrun p s hs).idx
  simp only [useG, Gerg.properties_ok hi, bind, Except.bind, pure, Except.pure, Except.ok.injEq,
    Prod.mk.injEq] at hu
  have hm : m'.ger p = some s' := by rw [e, putG_ger, if_pos rfl]
  have hsp : s'.p = s.p := by rw [← hu.1]; exact Gerg.propertiesP_p s
  simp only [call, callG, gerg_get_pressure, deref_live hp hm, bind, Except.bind, pure, Except.pure, hsp]

/-- Two DETAIL handles and a GERG handle, interleaved. -/
private def prog (v w : F) : List (Call F) :=
  [.aga8New 1, .aga8New 2, .gergNew 3, .aga8 1 (.setPressure v), .aga8 2 (.setPressure w),
    .gerg 3 .calculateProperties, .aga8 1 .calculateProperties, .aga8 2 .getPressure, .aga8Free 2, .aga8Free 0]

/-- The hypotheses of the C38 theorems are met: the program runs, handles 1 and 3 are live at the end and handle 2
is not. -/
example (v w : F) : ∃ m rs, Ffi.run Mem.empty (prog v w) = .ok (m, rs) ∧
    ((m.det 1).isSome ∧ m.det 2 = none ∧ (m.ger 3).isSome) := by
  obtain ⟨s1, r1, h1⟩ := useD_total ({ (Detail.newP : Detail F) with p := v }) .calculateProperties
  obtain ⟨s3, r3, h3⟩ := useG_total (Gerg.newP_idx (F := F)) .calculateProperties
  refine run_next (call_newD _ 1) (run_next (call_newD _ 2) (run_next (call_newG _ 3) ?_))
  refine run_next (call_useD (s := Detail.newP) (by decide) rfl rfl) ?_
  refine run_next (call_useD (s := Detail.newP) (by decide) rfl rfl) ?_
  refine run_next (call_useG (s := Gerg.newP) (by decide) rfl h3) ?_
  refine run_next (call_useD (by decide) rfl h1) ?_
  refine run_next (call_useD (s := { (Detail.newP : Detail F) with p := w }) (by decide) rfl rfl) ?_
  exact run_next (m1 := Mem.putD _ 2 none) (r := .unit) rfl
    (run_next (r := .unit) rfl ⟨_, _, rfl, rfl, rfl, rfl⟩)

end Aga8
