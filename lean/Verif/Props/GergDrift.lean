import Verif.Lemmas.GergDrift
import Verif.Lemmas.GergDriftX
import Verif.Props.GergEos

/-! # GERG results depend on history when inputs move by small steps

C23. -/

namespace Aga8

open Gerg (Pub pub setPub Op Out runNew)

attribute [local irreducible] Gerg.newP Gerg.pressureP Gerg.propertiesP Gerg.densityP

/-- C23 refuted, general form: from any state `q` one can walk to any temperature `T` and any composition `x` with the same
components present (for mixtures with departure functions: to any composition at the same temperature), in a history of
`pressure` calls and writes of temperature and composition, after which `pressure` at `(T, x)` returns
`D R T (1 + δ ∂α_r/∂δ)` with `α_r` of the composition `x` but with the reduced density and the inverse reduced temperature of
the *starting* composition and temperature. -/
theorem C23_gerg_small_steps_never_recompute (q : Pub ℝ)
    (hx : ∃ i : Fin 22, 1 ≤ i.1 ∧ 1e-6 ≤ aget q.x i) (ht : 1e-7 < q.t)
    (T : ℝ) (x : Vector ℝ 22)
    (hsame : ∀ i : Fin 22, 1 ≤ i.1 → (1e-15 < aget q.x i ↔ 1e-15 < aget x i))
    (hdep : T = q.t ∨ ∀ i j : Fin 22, 1 ≤ i.1 → i < j → 1e-15 < aget x i → 1e-15 < aget x j →
      (GergEos.departure i.1 j.1).2 = [])
    (y0 : Fin 22 → ℝ) (hy0 : ∀ i, y0 i = if 1e-15 < aget q.x i then aget q.x i else 0)
    (y : Fin 22 → ℝ) (hy : ∀ i, y i = if 1e-15 < aget x i then aget x i else 0)
    (δ τ : ℝ) (hδ : δ = q.d * GergEos.invRhoR y0) (hτ : τ = GergEos.Tr y0 / q.t) :
    ∃ ops s' outs outs', ops.getLast? = some Op.pressure ∧
      (∀ op ∈ ops, op = Op.pressure ∨ ∃ t z, op = Op.write { q with t := t, x := z }) ∧
      runNew ops = .ok (s', outs) ∧ pub s' = { q with t := T, x := x, z := s'.z } ∧
      outs = outs' ++ [Out.num (q.d * 8.314472 * T * (1 + δ * deriv (fun δ => GergEos.alphaR y δ τ) δ))] := by
  have hP : Gerg.Present q.x := hx
  obtain ⟨pre, hw, h1, h2⟩ := Gerg.driftX q hP.xfar ht T x hsame hdep
  have ey0 : y0 = Gerg.yOf q.x := funext hy0
  have ey : y = Gerg.yOf x := funext hy
  have ht0 : 0 < q.t := lt_trans (by norm_num) ht
  have hτ0 : 0 < τ := by rw [hτ, ey0, ← Gerg.trX_eq]; exact div_pos hP.tr_pos ht0
  have hfun : (fun δ => GergEos.alphaR y δ τ) = fun δ => Gerg.RS x (fun _ _ => 1) δ τ := by
    funext δ; rw [ey, Gerg.RS_eq x δ hτ0]
  rw [hfun]
  obtain ⟨hd, hR⟩ := Gerg.RS_deriv x δ τ
  rw [hP.drX_eq, Gerg.trX_eq, ← ey0, ← hδ, ← hτ, hR] at h1
  refine ⟨pre ++ [.write (Gerg.atTX q T x), .pressure],
    (Gerg.runP Gerg.newP (pre ++ [.write (Gerg.atTX q T x), .pressure])).1,
    (Gerg.runP Gerg.newP (pre ++ [.write (Gerg.atTX q T x), .pressure])).2,
    (Gerg.runP Gerg.newP pre).2 ++ [.unit], ?_, ?_, ?_, ?_, ?_⟩
  · rw [List.getLast?_append]; rfl
  · intro op h
    rcases List.mem_append.1 h with h | h
    · exact hw op h
    · rcases List.mem_cons.1 h with h | h
      · exact Or.inr ⟨T, x, h⟩
      · exact Or.inl (List.mem_singleton.1 h)
  · rw [Gerg.runNew_eq, Gerg.run_eq _ Gerg.newP_idx]
  · rw [Gerg.runP_append]
    exact Gerg.pub_pressureP (setPub (Gerg.runP Gerg.newP pre).1 (Gerg.atTX q T x))
  · rw [h1, Gerg.R_real, List.append_assoc]
    congr 3
    congr 1
    ring

/-- The hypotheses hold for methane and ethane, whose pair has a departure function: at 300 K from 90 % methane to 10 %
methane. -/
example : ∃ (q : Pub ℝ) (x : Vector ℝ 22), (∃ i : Fin 22, 1 ≤ i.1 ∧ 1e-6 ≤ aget q.x i) ∧ 1e-7 < q.t ∧
    aget q.x 1 = 0.9 ∧ aget q.x 4 = 0.1 ∧ aget x 1 = 0.1 ∧ aget x 4 = 0.9 ∧ (GergEos.departure 1 4).2 ≠ [] ∧
    ∀ i : Fin 22, 1 ≤ i.1 → (1e-15 < aget q.x i ↔ 1e-15 < aget x i) := by
  have e : ∀ (a b : ℝ) (i : Fin 22), aget (aset (aset (Gerg.px 1) 1 a) 4 b) i
      = if i = 4 then b else if i = 1 then a else 0 := by
    intro a b i
    by_cases h : i = 4
    · rw [h, if_pos rfl, aget_aset_self]
    · rw [if_neg h, aget_aset_ne _ _ (Ne.symm h)]
      by_cases h' : i = 1
      · rw [h', if_pos rfl, aget_aset_self]
      · rw [if_neg h', aget_aset_ne _ _ (Ne.symm h'), Gerg.aget_px, if_neg h']
  refine ⟨{ Gerg.pureAt 1 300 2 0 with x := aset (aset (Gerg.px 1) 1 0.9) 4 0.1 }, aset (aset (Gerg.px 1) 1 0.1) 4 0.9,
    ⟨1, by decide, ?_⟩, ?_, ?_, ?_, ?_, ?_, by decide +kernel, ?_⟩
  · show 1e-6 ≤ aget (aset (aset (Gerg.px 1) 1 (0.9 : ℝ)) 4 0.1) 1
    rw [e, if_neg (by decide), if_pos rfl]; norm_num
  · show (1e-7 : ℝ) < 300; norm_num
  · exact (e _ _ _).trans (if_neg (by decide) |>.trans (if_pos rfl))
  · exact (e _ _ _).trans (if_pos rfl)
  · exact (e _ _ _).trans (if_neg (by decide) |>.trans (if_pos rfl))
  · exact (e _ _ _).trans (if_pos rfl)
  · intro i _
    show 1e-15 < aget (aset (aset (Gerg.px 1) 1 (0.9 : ℝ)) 4 0.1) i ↔ _
    rw [e, e]
    split
    · norm_num
    · split <;> norm_num

/-- With any change of temperature, they hold for a mixture of 90 % nitrogen and 10 % oxygen at 300 K and 2 mol/l: it has
no departure function. -/
example : ∃ q : Pub ℝ, (∃ i : Fin 22, 1 ≤ i.1 ∧ 1e-6 ≤ aget q.x i) ∧ 1e-7 < q.t ∧
    aget q.x 2 = 0.9 ∧ aget q.x 16 = 0.1 ∧
    ∀ i j : Fin 22, 1 ≤ i.1 → i < j → 1e-15 < aget q.x i → 1e-15 < aget q.x j →
      (GergEos.departure i.1 j.1).2 = [] := by
  have e1 : aget (aset (aset (Gerg.px 2) 2 (0.9 : ℝ)) 16 0.1) 2 = 0.9 := by
    rw [aget_aset_ne _ _ (by decide), aget_aset_self]
  refine ⟨{ Gerg.pureAt 2 300 2 0 with x := aset (aset (Gerg.px 2) 2 0.9) 16 0.1 }, ⟨2, by decide, ?_⟩, ?_, e1, ?_, ?_⟩
  · show 1e-6 ≤ aget (aset (aset (Gerg.px 2) 2 (0.9 : ℝ)) 16 0.1) 2
    rw [e1]; norm_num
  · show (1e-7 : ℝ) < 300; norm_num
  · exact aget_aset_self _ _ _
  · intro i j _ hij h1 h2
    have key : ∀ i : Fin 22, 1e-15 < aget (aset (aset (Gerg.px 2) 2 (0.9 : ℝ)) 16 0.1) i → i = 2 ∨ i = 16 := by
      intro i h
      by_contra hn
      have h3 : i ≠ 2 := fun e => hn (Or.inl e)
      have h4 : i ≠ 16 := fun e => hn (Or.inr e)
      rw [aget_aset_ne _ _ (Ne.symm h4), aget_aset_ne _ _ (Ne.symm h3), Gerg.aget_px, if_neg h3] at h
      norm_num at h
    have hij' : i.1 < j.1 := hij
    rcases key i h1 with rfl | rfl <;> rcases key j h2 with rfl | rfl
    · exact absurd hij' (by decide)
    · decide +kernel
    · exact absurd hij' (by decide)
    · exact absurd hij' (by decide)

/-- C23 refuted: it is not true that every history on a new object gives the results of the specification machine that
makes every call on a freshly constructed object (the conclusion of C22 without its side condition). Pure methane, heated at
constant density in small steps from its critical point, keeps a compression factor below 0.7 although a new object computes
one above 0.9. -/
theorem C23_gerg_history_dependent (new0 : Gerg ℝ) (hnew : Gerg.new = .ok new0) :
    ¬ ∀ ops : List (Op ℝ), ∃ s' outs, runNew ops = .ok (s', outs) ∧
      Gerg.freshRun (pub new0) ops = .ok (pub s', outs) := by
  intro hall
  have e := Gerg.new_eq hnew
  subst e
  obtain ⟨T, hT, hw⟩ := Gerg.methane_warm
  have hT7 : 1e-7 < T := lt_of_lt_of_le (by norm_num) hT
  have hc := Gerg.methane_cold
  have hX : Gerg.XFar (Gerg.px 1) (fill 22 (f% 0.0)) := Gerg.XFar_px (by decide)
  let q := Gerg.pureAt 1 190.564 (Gerg.drX (Gerg.px 1)) 0
  obtain ⟨pre, -, -, h2⟩ := Gerg.drift q (Gerg.nodep_px 1) T
  have hA : (Gerg.freshOf q).AR Gerg.Shape.f1 q.d = Gerg.RT (Gerg.px 1) Gerg.Shape.f1 (Gerg.drX (Gerg.px 1)) 190.564 :=
    Gerg.AR_fresh (q := q) hX (T := 190.564) (by norm_num) Gerg.Shape.f1 q.d
  rw [hA] at h2
  obtain ⟨s', outs, a, b⟩ := hall (pre ++ [.write (Gerg.atT q T), .pressure])
  rw [Gerg.runNew_eq, Gerg.run_eq _ Gerg.newP_idx] at a
  rw [Gerg.freshRun_eq, Gerg.freshRunP_append] at b
  have a1 := congrArg Prod.fst (Except.ok.inj a)
  rw [a1] at h2
  have b1 : (Gerg.pressureP (Gerg.freshOf (pub (setPub
      (Gerg.freshOf (Gerg.freshRunP (pub (Gerg.newP : Gerg ℝ)) pre).1) (Gerg.atT q T))))).1.z = s'.z :=
    congrArg (fun r => r.1.z) (Except.ok.inj b)
  rw [Gerg.pub_setPub, h2, Gerg.pressureP_z_real (Gerg.posE_fresh _)] at b1
  have hB : (Gerg.freshOf (Gerg.atT q T)).AR Gerg.Shape.f1 (Gerg.freshOf (Gerg.atT q T)).d
      = Gerg.RT (Gerg.px 1) Gerg.Shape.f1 (Gerg.drX (Gerg.px 1)) T :=
    Gerg.AR_fresh (q := q) hX hT7 Gerg.Shape.f1 q.d
  rw [hB] at b1
  linarith

end Aga8
