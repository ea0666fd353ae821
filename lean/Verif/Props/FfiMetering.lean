import Verif.Spec.FfiMetering
import Verif.Props.GergMetering
import Verif.Props.Ffi

/-! # C78: metering through the C interface

A program that uses the C interface with any number of handles. The calls with one handle are those of a meter. Whatever the program does
with the other handles between them, the six calls for each sample report success and read accurate properties. -/

set_option linter.unusedSectionVars false

namespace Aga8

open F64 Ffi

variable [Libm]

namespace Ffi

theorem objD_sample (p : Nat) (m : Sample) (s : Detail Float) (cs : List (Call Float)) {s' : Detail Float} {o : Detail.Outcome}
    (h : s.meter m = .ok (s', o)) : objD (some s) (sampleD p m ++ cs) = (do
      let r ← objD (some s') cs
      pure (r.1, [.comp (compCode o.comp), .unit, .unit, .dens (densCode o.dens), .unit, .props (propsD o.res)] ++ r.2)) := by
  unfold Detail.meter at h
  simp only [bind, Except.bind, pure, Except.pure] at h
  simp only [sampleD, List.cons_append, List.nil_append, objD, useD, bind, Except.bind, pure, Except.pure]
  cases e1 : Detail.density { (s.set_composition m.comp).1 with t := m.t, p := m.p } with
  | error e => rw [e1] at h; cases h
  | ok r =>
    rw [e1] at h
    dsimp only at h ⊢
    cases e2 : Detail.properties r.1 with
    | error e => rw [e2] at h; cases h
    | ok s2 =>
      rw [e2] at h
      cases h
      dsimp only
      cases objD (some s') cs <;> rfl

theorem objD_samples (p : Nat) (ms : List Sample) (s : Detail Float) {s' : Detail Float} {outs : List Detail.Outcome}
    (h : s.meterAll ms = .ok (s', outs)) : objD (some s) (ms.flatMap (sampleD p)) = .ok (some s', outs.flatMap fun o =>
      [.comp (compCode o.comp), .unit, .unit, .dens (densCode o.dens), .unit, .props (propsD o.res)]) := by
  induction ms generalizing s s' outs with
  | nil => cases h; rfl
  | cons m ms ih =>
    unfold Detail.meterAll at h
    simp only [bind, Except.bind, pure, Except.pure] at h
    cases e1 : s.meter m with
    | error e => rw [e1] at h; cases h
    | ok r =>
      rw [e1] at h
      dsimp only at h
      cases e2 : Detail.meterAll r.1 ms with
      | error e => rw [e2] at h; cases h
      | ok r2 =>
        rw [e2] at h
        cases h
        rw [List.flatMap_cons, objD_sample p m s _ e1, ih r.1 e2]
        rfl

theorem objG_sample (p : Nat) (m : Sample) (s : Gerg Float) (cs : List (Call Float)) {s' : Gerg Float} {o : Gerg.Outcome}
    (h : s.meter m = .ok (s', o)) : objG (some s) (sampleG p m ++ cs) = (do
      let r ← objG (some s') cs
      pure (r.1, [.comp (compCode o.comp), .unit, .unit, .dens (densCode o.dens), .unit, .props (propsG o.res)] ++ r.2)) := by
  unfold Gerg.meter at h
  simp only [bind, Except.bind, pure, Except.pure] at h
  simp only [sampleG, List.cons_append, List.nil_append, objG, useG, bind, Except.bind, pure, Except.pure]
  cases e1 : Gerg.density { (s.set_composition m.comp).1 with t := m.t, p := m.p } 0 with
  | error e => rw [e1] at h; cases h
  | ok r =>
    rw [e1] at h
    dsimp only at h ⊢
    cases e2 : Gerg.properties r.1 with
    | error e => rw [e2] at h; cases h
    | ok s2 =>
      rw [e2] at h
      cases h
      dsimp only
      cases objG (some s2.1) cs <;> rfl

theorem objG_samples (p : Nat) (ms : List Sample) (s : Gerg Float) {s' : Gerg Float} {outs : List Gerg.Outcome}
    (h : s.meterAll ms = .ok (s', outs)) : objG (some s) (ms.flatMap (sampleG p)) = .ok (some s', outs.flatMap fun o =>
      [.comp (compCode o.comp), .unit, .unit, .dens (densCode o.dens), .unit, .props (propsG o.res)]) := by
  induction ms generalizing s s' outs with
  | nil => cases h; rfl
  | cons m ms ih =>
    unfold Gerg.meterAll at h
    simp only [bind, Except.bind, pure, Except.pure] at h
    cases e1 : s.meter m with
    | error e => rw [e1] at h; cases h
    | ok r =>
      rw [e1] at h
      dsimp only at h
      cases e2 : Gerg.meterAll r.1 ms with
      | error e => rw [e2] at h; cases h
      | ok r2 =>
        rw [e2] at h
        cases h
        rw [List.flatMap_cons, objG_sample p m s _ e1, ih r.1 e2]
        rfl

end Ffi

/-- C78, DETAIL: in a program of the C interface that runs, with any calls on other handles in between, a handle that is created once and
then only meters natural gas samples gets, for every sample, `Ok` for the composition and the density and accurate properties. -/
theorem C78_c_detail_metering (hL : LibmAccurate) (hN : LnAccurate) (cs : List (Call Float)) (m : Mem Float) (rs : List (Ret Float))
    (hrun : Ffi.run Mem.empty cs = .ok (m, rs)) (p : Nat) (hp : p ≠ 0) (ms : List Sample)
    (hcs : cs.filter (onD p) = .aga8New p :: ms.flatMap (sampleD p))
    (h : ∀ m ∈ ms, Detail.GasSample m) (hs : Sample.Steps ms) :
    ∃ outs, List.Forall₂ Detail.Accurate ms outs ∧
      retsOf (onD p) cs rs = .ptr p :: outs.flatMap fun o => successWith (propsD o.res) := by
  have h1 := C38_detail_handle_is_rust_object cs m rs hrun p hp
  obtain ⟨s', outs, e1, e2⟩ := C76_detail_metering hL hN Detail.newP Detail.new_ok ms h hs
  rw [hcs] at h1
  simp only [objD, Detail.new_ok, bind, Except.bind, objD_samples p ms _ e1, pure, Except.pure] at h1
  refine ⟨outs, e2, ?_⟩
  have h2 := congrArg Prod.snd (Except.ok.inj h1)
  dsimp only at h2
  rw [← h2]
  congr 1
  clear h1 h2 e1 hcs h hs
  induction e2 with
  | nil => rfl
  | cons a _ ih =>
    rw [List.flatMap_cons, List.flatMap_cons, ih, a.comp, a.dens]
    rfl

/-- C78, GERG-2008: the same for a GERG handle and samples of gas mixtures. -/
theorem C78_c_gerg_metering (hL : LibmAccurate) (hN : LnAccurate) (cs : List (Call Float)) (m : Mem Float) (rs : List (Ret Float))
    (hrun : Ffi.run Mem.empty cs = .ok (m, rs)) (p : Nat) (hp : p ≠ 0) (ms : List Sample)
    (hcs : cs.filter (onG p) = .gergNew p :: ms.flatMap (sampleG p))
    (h : ∀ m ∈ ms, Gerg.GasSample m) (hs : Sample.Steps ms) :
    ∃ outs, List.Forall₂ Gerg.Accurate ms outs ∧
      retsOf (onG p) cs rs = .ptr p :: outs.flatMap fun o => successWith (propsG o.res) := by
  have h1 := C38_gerg_handle_is_rust_object cs m rs hrun p hp
  obtain ⟨s', outs, e1, e2⟩ := C77_gerg_metering hL hN Gerg.newP Gerg.new_ok ms h hs
  rw [hcs] at h1
  simp only [objG, Gerg.new_ok, bind, Except.bind, objG_samples p ms _ e1, pure, Except.pure] at h1
  refine ⟨outs, e2, ?_⟩
  have h2 := congrArg Prod.snd (Except.ok.inj h1)
  dsimp only at h2
  rw [← h2]
  congr 1
  clear h1 h2 e1 hcs h hs
  induction e2 with
  | nil => rfl
  | cons a _ ih =>
    rw [List.flatMap_cons, List.flatMap_cons, ih, a.comp, a.dens]
    rfl

/-- Two meters, a DETAIL handle and a GERG handle, whose calls alternate. -/
private def twoMeters : List (Call Float) :=
  [.aga8New 1, .gergNew 2,
    .aga8 1 (.setComposition Detail.gasA), .gerg 2 (.setComposition Gerg.gasM), .aga8 1 (.setPressure (f% 1000.0)),
    .gerg 2 (.setPressure (f% 1000.0)), .aga8 1 (.setTemperature (f% 300.0)), .gerg 2 (.setTemperature (f% 310.0)),
    .gerg 2 .calculateDensity, .aga8 1 .calculateDensity, .gerg 2 .calculateProperties, .aga8 1 .calculateProperties,
    .aga8 1 .getProperties, .gerg 2 .getProperties,
    .aga8 1 (.setComposition Detail.gasA), .aga8 1 (.setPressure (f% 1000.0)), .aga8 1 (.setTemperature (f% 310.0)),
    .aga8 1 .calculateDensity, .aga8 1 .calculateProperties, .aga8 1 .getProperties]

private theorem runs_live {p q : Nat} (hp : p ≠ 0) (hq : q ≠ 0) : ∀ (cs : List (Call Float)) (m : Mem Float), Good m → (m.det p).isSome →
    (m.ger q).isSome → (∀ c ∈ cs, (∃ u, c = .aga8 p u) ∨ ∃ u, c = .gerg q u) → ∃ m' rs, Ffi.run m cs = .ok (m', rs)
  | [], m, _, _, _, _ => ⟨m, [], rfl⟩
  | c :: cs, m, hm, h1, h2, h => by
    have hc : Allowed m c := by
      rcases h c (List.mem_cons_self ..) with ⟨u, rfl⟩ | ⟨u, rfl⟩
      · exact ⟨hp, h1⟩
      · exact ⟨hq, h2⟩
    obtain ⟨m1, r, e⟩ := call_total hm hc
    have hl : (m1.det p).isSome ∧ (m1.ger q).isSome := by
      rcases h c (List.mem_cons_self ..) with ⟨u, rfl⟩ | ⟨u, rfl⟩
      · obtain ⟨_, _, s', _, _, e'⟩ := callD_ok e
        rw [e']
        exact ⟨by rw [putD_det, if_pos rfl]; rfl, h2⟩
      · obtain ⟨_, _, s', _, _, e'⟩ := callG_ok e
        rw [e']
        exact ⟨h1, by rw [putG_ger, if_pos rfl]; rfl⟩
    obtain ⟨m', rs, e2⟩ := runs_live hp hq cs m1 (good_call hm e) hl.1 hl.2 fun d hd => h d (List.mem_cons_of_mem _ hd)
    exact ⟨m', r :: rs, by simp only [Ffi.run, e, e2, bind, Except.bind, pure, Except.pure]⟩

/-- The hypotheses are met: the program runs, and each meter reads accurate properties. -/
example (hL : LibmAccurate) (hN : LnAccurate) : ∃ m rs, Ffi.run Mem.empty twoMeters = .ok (m, rs) ∧
    (∃ o1 o2, Detail.Accurate ⟨Detail.gasA, f% 300.0, f% 1000.0⟩ o1 ∧ Detail.Accurate ⟨Detail.gasA, f% 310.0, f% 1000.0⟩ o2 ∧
      retsOf (onD 1) twoMeters rs = .ptr 1 :: (successWith (propsD o1.res) ++ successWith (propsD o2.res))) ∧
    ∃ o, Gerg.Accurate ⟨Gerg.gasM, f% 310.0, f% 1000.0⟩ o ∧ retsOf (onG 2) twoMeters rs = .ptr 2 :: successWith (propsG o.res) := by
  have hrun : ∃ m rs, Ffi.run Mem.empty twoMeters = .ok (m, rs) := by
    have e1 := call_newD (Mem.empty : Mem Float) 1
    have e2 := call_newG ((Mem.empty : Mem Float).putD 1 (some Detail.newP)) 2
    have g := good_call (good_call good_empty e1) e2
    obtain ⟨m, rs, e⟩ := runs_live (p := 1) (q := 2) (by decide) (by decide) (twoMeters.drop 2) _ g rfl rfl (by
      unfold twoMeters
      simp only [List.drop_succ_cons, List.drop_zero, List.forall_mem_cons, List.not_mem_nil, Call.aga8.injEq, Call.gerg.injEq, true_and,
        exists_eq', reduceCtorEq, exists_false, or_false, false_or, and_self, false_implies, implies_true])
    refine ⟨m, .ptr 1 :: .ptr 2 :: rs, ?_⟩
    show Ffi.run Mem.empty (.aga8New 1 :: .gergNew 2 :: twoMeters.drop 2) = _
    simp only [Ffi.run, e1, e2, e, bind, Except.bind, pure, Except.pure]
  obtain ⟨m, rs, hrun⟩ := hrun
  have hA := Detail.sampleA Detail.v300 (le_refl _) (by norm_num)
  have hA' := Detail.sampleA Detail.v310 (by norm_num) (le_refl _)
  have hM := Gerg.sampleM Detail.v310 (by norm_num) (le_refl _)
  refine ⟨m, rs, hrun, ?_, ?_⟩
  · obtain ⟨outs, h2, e⟩ := C78_c_detail_metering hL hN twoMeters m rs hrun 1 (by decide)
      [⟨Detail.gasA, f% 300.0, f% 1000.0⟩, ⟨Detail.gasA, f% 310.0, f% 1000.0⟩] rfl
      (List.forall_mem_cons.2 ⟨hA, List.forall_mem_cons.2 ⟨hA', fun _ h => by cases h⟩⟩)
      ⟨⟨Or.inl rfl, Or.inr (by dsimp only; rw [Detail.v300.2, Detail.v310.2]; norm_num)⟩, trivial⟩
    cases h2 with | cons a1 h2 => cases h2 with | cons a2 h2 =>
      cases h2
      exact ⟨_, _, a1, a2, e⟩
  · obtain ⟨outs, h2, e⟩ := C78_c_gerg_metering hL hN twoMeters m rs hrun 2 (by decide)
      [⟨Gerg.gasM, f% 310.0, f% 1000.0⟩] rfl
      (List.forall_mem_cons.2 ⟨hM, fun _ h => by cases h⟩) trivial
    cases h2 with | cons a1 h2 =>
      cases h2
      exact ⟨_, a1, e⟩

end Aga8
