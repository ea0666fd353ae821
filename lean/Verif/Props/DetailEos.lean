import Verif.Lemmas.DetailDrift
import Verif.Props.DetailThermo

/-! # DETAIL computes the AGA 8 equation of state, except when its caches have drifted

C43 and C20. -/

namespace Aga8

open Detail (Pub pub Params params setPub Op Out run runNew)

/-- C43: on a new object, `pressure` returns `D R T Z` and stores `Z`, where `Z` is the compression factor of the AGA 8
report (`Eos.Z`) at the given density and temperature and the given fractions (a negative fraction counts as zero). -/
theorem C43_detail_pressure_is_aga8 (new0 : Detail ℝ) (hnew : Detail.new = .ok new0) (q : Pub ℝ)
    (hx : Detail.XFar q.x (fill 21 (f% 0.0))) (ht : 1e-7 < q.t) :
    ∃ s' p, (setPub new0 q).pressure = .ok (s', p) ∧
      s'.z = Eos.Z (fun i => max (aget q.x i) 0) q.d q.t ∧
      p = q.d * 8.31451 * q.t * Eos.Z (fun i => max (aget q.x i) 0) q.d q.t := by
  have e := Detail.new_eq hnew
  subst e
  have h0 : (Detail.freshOf q).t ≠ 0 := by
    intro h
    have h : q.t = 0 := h
    rw [h] at ht; norm_num at ht
  have hz := Detail.Z_fresh hx ht q.d
  refine ⟨(Detail.pressureP (Detail.freshOf q)).1, (Detail.pressureP (Detail.freshOf q)).2,
    Detail.pressure_ok _, ?_, ?_⟩
  · rw [Detail.pressureP_z_real _ h0]; exact hz
  · rw [Detail.pressureP_real _ h0, Detail.R_real]
    have : (Detail.freshOf q).d = q.d := rfl
    rw [this, hz]
    have : (Detail.freshOf q).t = q.t := rfl
    rw [this]
    unfold Detail.posPart
    ring

/-- Pure methane at `4 * 151.3183` K and 10.1 mol/l: the hypotheses hold and `Z` lies between 1.28 and 1.3. -/
example (new0 : Detail ℝ) (hnew : Detail.new = .ok new0) :
    ∃ s' p, (setPub new0 (Detail.methane 1 0 Detail.mD)).pressure = .ok (s', p) ∧ 1.28 < s'.z ∧ s'.z < 1.3 := by
  have hx := Detail.methane_x 1 0 Detail.mD
  have ht := Detail.methane_t 1 0 Detail.mD
  obtain ⟨s', p, h, hz, -⟩ := C43_detail_pressure_is_aga8 new0 hnew _ hx ht
  have e := Detail.Z_fresh hx ht Detail.mD
  obtain ⟨a, b, -⟩ := Detail.methane1 0 Detail.mD
  have hz : s'.z = _ := hz.trans e.symm
  refine ⟨s', p, h, ?_, ?_⟩ <;> rw [hz] <;> unfold Detail.mD at * <;> linarith

/-- C20 refuted, general form: from any state, one can walk to any other temperature `T` and composition `x` in a history
of `pressure` calls and writes of temperature and composition, after which `pressure` at `(T, x)` returns `D R T Z` with the
`Z` of the *starting* temperature and composition. -/
theorem C20_detail_small_steps_never_recompute (new0 : Detail ℝ) (hnew : Detail.new = .ok new0) (q : Pub ℝ)
    (hx : Detail.XFar q.x (fill 21 (f% 0.0))) (ht : 1e-7 < q.t) (T : ℝ) (hT : T ≠ 0) (x : Vector ℝ 21) :
    ∃ ops s' outs outs', ops.getLast? = some (Op.pressure) ∧
      (∀ op ∈ ops, op = Op.pressure ∨ ∃ t y, op = Op.write { q with t := t, x := y }) ∧
      runNew ops = .ok (s', outs) ∧ pub s' = { q with t := T, x := x, z := s'.z } ∧
      outs = outs' ++ [Out.num (q.d * 8.31451 * T * Eos.Z (fun i => max (aget q.x i) 0) q.d q.t)] := by
  have e := Detail.new_eq hnew
  obtain ⟨pre, hw, h⟩ := Detail.drift q T x hT
  obtain ⟨h1, h2⟩ := h new0 e
  refine ⟨pre ++ [.write (Detail.atTX q T x), .pressure],
    (Detail.runP new0 (pre ++ [.write (Detail.atTX q T x), .pressure])).1,
    (Detail.runP new0 (pre ++ [.write (Detail.atTX q T x), .pressure])).2,
    (Detail.runP new0 pre).2 ++ [.unit], ?_, ?_, ?_, ?_, ?_⟩
  · rw [List.getLast?_append]; rfl
  · intro op h
    rcases List.mem_append.1 h with h | h
    · exact hw op h
    · rcases List.mem_cons.1 h with h | h
      · exact Or.inr ⟨T, x, h⟩
      · exact Or.inl (List.mem_singleton.1 h)
  · simp only [runNew, hnew, bind, Except.bind, Detail.run_eq]
  · rw [Detail.runP_append]
    exact Detail.pub_pressureP (setPub (Detail.runP new0 pre).1 (Detail.atTX q T x))
  · rw [h1, Detail.R_real, Detail.Z_fresh hx ht q.d]
    unfold Detail.posPart
    rw [List.append_assoc]
    congr 3
    congr 1
    ring

/-- The hypotheses hold of pure methane; the target may be pure nitrogen at 300 K. The history ends with an object that
holds pure nitrogen at 300 K and reports the compression factor of methane at 605 K. -/
example (new0 : Detail ℝ) (hnew : Detail.new = .ok new0) :
    ∃ ops s' outs outs', runNew ops = .ok (s', outs) ∧ s'.t = 300 ∧ s'.x = aset (fill 21 0) 1 1 ∧
      outs = outs' ++ [Out.num (Detail.mD * 8.31451 * 300 *
        Eos.Z (fun i => max (aget (Detail.methane 1 0 Detail.mD).x i) 0) Detail.mD (Detail.methane 1 0 Detail.mD).t)] := by
  obtain ⟨ops, s', outs, outs', -, -, h, hp, ho⟩ := C20_detail_small_steps_never_recompute new0 hnew _
    (Detail.methane_x 1 0 Detail.mD) (Detail.methane_t 1 0 Detail.mD) 300 (by norm_num) (aset (fill 21 0) 1 1)
  exact ⟨ops, s', outs, outs', h, congrArg Pub.t hp, congrArg Pub.x hp, ho⟩

/-- C20 refuted: it is not true that every history on a new object gives the results of the specification machine that
makes every call on a freshly constructed object (the conclusion of C19 without its side condition). Pure methane, walked from
605 K to 2421 K at constant density, keeps `Z` near 1.287 although a new object computes 1.523. -/
theorem C20_detail_history_dependent (new0 : Detail ℝ) (hnew : Detail.new = .ok new0) :
    ¬ ∀ ops : List (Op ℝ), ∃ s' outs, runNew ops = .ok (s', outs) ∧
      Detail.freshRun (pub new0) ops = .ok (pub s', outs) := by
  intro hall
  have e := Detail.new_eq hnew
  have hT : (Detail.methane 2 0 Detail.mD).t ≠ 0 := by
    have := Detail.methane_t 2 0 Detail.mD
    intro h; rw [h] at this; norm_num at this
  obtain ⟨pre, -, h⟩ := Detail.drift (Detail.methane 1 0 Detail.mD) (Detail.methane 2 0 Detail.mD).t
    (Detail.methane 2 0 Detail.mD).x hT
  obtain ⟨-, h2⟩ := h new0 e
  have eq : Detail.atTX (Detail.methane 1 0 Detail.mD) (Detail.methane 2 0 Detail.mD).t (Detail.methane 2 0 Detail.mD).x
      = Detail.methane 2 0 Detail.mD := rfl
  rw [eq] at h2
  obtain ⟨s', outs, a, b⟩ := hall (pre ++ [.write (Detail.methane 2 0 Detail.mD), .pressure])
  simp only [runNew, hnew, bind, Except.bind, Detail.run_eq] at a
  rw [Detail.freshRun_eq, Detail.freshRunP_append] at b
  injection a with a
  injection b with b
  have a1 := congrArg Prod.fst a
  rw [a1] at h2
  have b1 : (Detail.pressureP (Detail.freshOf (pub (setPub
      (Detail.freshOf (Detail.freshRunP (pub new0) pre).1) (Detail.methane 2 0 Detail.mD))))).1.z = s'.z :=
    congrArg (fun r => r.1.z) b
  have b2 : pub (setPub (Detail.freshOf (Detail.freshRunP (pub new0) pre).1) (Detail.methane 2 0 Detail.mD))
    = Detail.methane 2 0 Detail.mD := rfl
  rw [b2, h2, Detail.pressureP_z_real _ hT] at b1
  have l1 := (Detail.methane1 0 Detail.mD).2.1
  have l2 := Detail.methane2 0 Detail.mD
  have b3 : 1 + Detail.A1 (Detail.view (Detail.freshOf (Detail.methane 2 0 Detail.mD))) (1 / Detail.mK ^ 3)
    = 1 + Detail.A1 (Detail.view (Detail.freshOf (Detail.methane 1 0 Detail.mD))) (1 / Detail.mK ^ 3) := b1
  linarith

end Aga8
