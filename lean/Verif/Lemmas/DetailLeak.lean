import Verif.Lemmas.DetailDrift
import Verif.Spec.Leak

/-! # Stale results do not influence later results of a DETAIL object -/

set_option linter.unusedSectionVars false

namespace Aga8.Detail

open FOps

variable {F : Type} [Add F] [Sub F] [Mul F] [Div F] [Neg F] [FOps F]

/-- Objects that agree in everything a calculation reads. -/
structure Twin (s s' : Detail F) : Prop where
  ins : SameInputs (pub s) (pub s')
  params : params s = params s'
  stored : stored s = stored s'
  xold : s.xold = s'.xold
  told : s.told = s'.told

theorem csnRead_congr {v w : Vector F 58} (h : ∀ n : Fin 58, 12 ≤ n.1 → aget v n = aget w n) : csnRead v = csnRead w := by
  have e : (fun n : Fin 58 => if 12 ≤ n.1 then aget v n else f% 0.0) = fun n => if 12 ≤ n.1 then aget w n else f% 0.0 := by
    funext n
    by_cases hn : 12 ≤ n.1
    · rw [if_pos hn, if_pos hn, h n hn]
    · rw [if_neg hn, if_neg hn]
  unfold csnRead
  rw [e]

namespace Twin

variable {s s' : Detail F}

theorem t (h : Twin s s') : s.t = s'.t := h.ins.t
theorem p (h : Twin s s') : s.p = s'.p := h.ins.p
theorem d (h : Twin s s') : s.d = s'.d := h.ins.d
theorem x (h : Twin s s') : s.x = s'.x := h.ins.x

theorem view (h : Twin s s') : view s = view s' := by
  have hs := h.stored
  unfold Detail.stored at hs
  injection hs with h4 h3 h5 h6
  have h7 : csnRead (csnVec s) = csnRead (csnVec s') := csnRead_congr fun n hn => by
    unfold csnVec
    rw [aget_ofFn, aget_ofFn, if_pos hn, if_pos hn, csnOf_congr h.x h.params]
  unfold Detail.view
  rw [h7, xAcc_congr h.x h.params, h.x, h.t, h.xold, h.told, h3, h4, h5, h6]

theorem setD (h : Twin s s') (d : F) : Twin (withD s d) (withD s' d) :=
  ⟨⟨h.ins.t, h.ins.p, rfl, h.ins.x⟩, h.params, h.stored, h.xold, h.told⟩

theorem z (h : Twin s s') : (pressureP s).1.z = (pressureP s').1.z := by
  rw [pressureP_z, pressureP_z, ar_eval_congr' h.view h.d h.t, h.t]

theorem pressure (h : Twin s s') : Twin (pressureP s).1 (pressureP s').1 ∧ (pressureP s).2 = (pressureP s').2 ∧
    (pressureP s).1.dp_dd_save = (pressureP s').1.dp_dd_save := by
  refine ⟨⟨?_, ?_, ?_, ?_, ?_⟩, ?_, ?_⟩
  · rw [pub_pressureP, pub_pressureP]; exact ⟨h.ins.t, h.ins.p, h.ins.d, h.ins.x⟩
  · rw [params_pressureP, params_pressureP, h.params]
  · rw [stored_pressureP, stored_pressureP, h.view]
  · rw [xold_pressureP, xold_pressureP, h.x]
  · rw [told_pressureP, told_pressureP, h.t]
  · rw [pressureP_snd, pressureP_snd, h.z, h.t, h.d]
  · rw [pressureP_save, pressureP_save, ar_eval_congr' h.view h.d h.t, h.t]

theorem densityLoop (plog : F) (n : Nat) (vlog : F) {s s' : Detail F} (h : Twin s s') :
    Twin (densityLoopP plog n vlog s).1 (densityLoopP plog n vlog s').1 ∧
    (densityLoopP plog n vlog s).2 = (densityLoopP plog n vlog s').2 ∧
    ((densityLoopP plog n vlog s).2 = .ok () →
      (densityLoopP plog n vlog s).1.z = (densityLoopP plog n vlog s').1.z) := by
  induction n generalizing vlog s s' with
  | zero =>
    rw [densityLoopP_zero, densityLoopP_zero, h.p, h.t]
    exact ⟨h.setD _, rfl, nofun⟩
  | succ n ih =>
    rw [densityLoopP_succ, densityLoopP_succ]
    have hp := (h.setD (exp (-vlog))).pressure
    have hz := (h.setD (exp (-vlog))).z
    generalize pressureP (withD s (exp (-vlog))) = r at *
    generalize pressureP (withD s' (exp (-vlog))) = r' at *
    obtain ⟨h1, h2, h3⟩ := hp
    dsimp only
    rw [h.p, h.t, h2, h3, h1.d]
    split
    · exact ⟨h.setD _, rfl, nofun⟩
    · split
      · exact ih _ h1
      · split
        · exact ⟨h1.setD _, rfl, fun _ => hz⟩
        · exact ih _ h1

theorem density (h : Twin s s') : Twin (densityP s).1 (densityP s').1 ∧ (densityP s).2 = (densityP s').2 := by
  rw [densityP_eq, densityP_eq, h.p, h.t, h.d]
  split
  · exact ⟨h.setD _, rfl⟩
  · obtain ⟨h1, h2, -⟩ := (h.setD (if -EPSILON <. s'.d then s'.p / RDETAIL / s'.t else abs s'.d)).densityLoop (ln s'.p) 20
      (-ln (if -EPSILON <. s'.d then s'.p / RDETAIL / s'.t else abs s'.d))
    exact ⟨h1, h2⟩

theorem molarMass (h : Twin s s') : Twin (molar_mass s).1 (molar_mass s').1 ∧ (molar_mass s).2 = (molar_mass s').2 := by
  have e : (molar_mass s).2 = (molar_mass s').2 := by unfold molar_mass; rw [h.x]
  exact ⟨⟨⟨h.ins.t, h.ins.p, h.ins.d, h.ins.x⟩, h.params, h.stored, h.xold, h.told⟩, e⟩

theorem properties_pub (h : Twin s s') : pub (propertiesP s) = pub (propertiesP s') := by
  have hm : (molar_mass s).2 = (molar_mass s').2 := h.molarMass.2
  rw [propertiesP_eq, propertiesP_eq, hm]
  apply propsFinish_congr'
  · rw [propsMid_t, propsMid_t, h.t]
  · rw [propsMid_d, propsMid_d, h.d]
  · rw [propsMid_x, propsMid_x, h.x]
  · have e : ∀ s : Detail F, (propsMid s).mm = (molar_mass s).2 := fun s => congrArg Pub.mm (propsMid_pub s)
    rw [e, e, hm]
  · rw [propsMid_a0, propsMid_a0]
    have hn : s.n0i = s'.n0i := congrArg Params.n0i h.params
    have h1 : a0Hyp s = a0Hyp s' := by
      funext i j a; unfold a0Hyp; rw [hn, h.t]
    have h2 : ∀ ld lt, a0Comp s ld lt = a0Comp s' ld lt := by
      intro ld lt; funext i a; unfold a0Comp; rw [h1, hn, h.t, h.x]
    unfold alpha0_detail
    simp only [h2, h.t, h.d]
  · rw [propsMid_ar, propsMid_ar, ar_eval_congr' h.view h.d h.t]

theorem properties (h : Twin s s') : Twin (propertiesP s) (propertiesP s') := by
  have hp := h.properties_pub
  obtain ⟨a, b, c⟩ := stored_propertiesP s
  obtain ⟨a', b', c'⟩ := stored_propertiesP s'
  refine ⟨?_, ?_, ?_, ?_, ?_⟩
  · rw [hp]; exact ⟨rfl, rfl, rfl, rfl⟩
  · rw [params_propertiesP, params_propertiesP, h.params]
  · rw [a, a', h.view]
  · rw [b, b', h.x]
  · rw [c, c', h.t]

theorem setX (h : Twin s s') (x : Vector F 21) : Twin (withX s x) (withX s' x) :=
  ⟨⟨h.ins.t, h.ins.p, h.ins.d, rfl⟩, h.params, h.stored, h.xold, h.told⟩

theorem setComposition (h : Twin s s') (c : Composition F) :
    Twin (set_composition s c).1 (set_composition s' c).1 ∧ (set_composition s c).2 = (set_composition s' c).2 := by
  rw [set_composition_eq, set_composition_eq, h.x]
  split
  · exact ⟨h, rfl⟩
  · exact ⟨h.setX _, rfl⟩

theorem write (h : Twin s s') {q q' : Pub F} (hq : SameInputs q q') : Twin (setPub s q) (setPub s' q') :=
  ⟨hq, h.params, h.stored, h.xold, h.told⟩

theorem step (h : Twin s s') {op op' : Op F} (ho : SameUse op op') :
    Twin (stepP s op).1 (stepP s' op').1 ∧ (stepP s op).2 = (stepP s' op').2 := by
  cases ho with
  | write hq => exact ⟨h.write hq, rfl⟩
  | call op =>
    cases op with
    | write q => exact ⟨h.write ⟨rfl, rfl, rfl, rfl⟩, rfl⟩
    | setComposition c => exact ⟨(h.setComposition c).1, congrArg Out.comp (h.setComposition c).2⟩
    | molarMass => exact ⟨h.molarMass.1, congrArg Out.num h.molarMass.2⟩
    | pressure => exact ⟨h.pressure.1, congrArg Out.num h.pressure.2.1⟩
    | density => exact ⟨h.density.1, congrArg Out.dens h.density.2⟩
    | properties => exact ⟨h.properties, rfl⟩

theorem run {ops ops' : List (Op F)} (ho : List.Forall₂ SameUse ops ops') {s s' : Detail F} (h : Twin s s') :
    Twin (runP s ops).1 (runP s' ops').1 ∧ (runP s ops).2 = (runP s' ops').2 := by
  induction ho generalizing s s' with
  | nil => exact ⟨h, rfl⟩
  | cons h1 _ ih =>
    obtain ⟨h2, h3⟩ := h.step h1
    obtain ⟨h4, h5⟩ := ih h2
    exact ⟨h4, congrArg₂ List.cons h3 h5⟩

end Twin

theorem Twin.refl (s : Detail F) : Twin s s := ⟨⟨rfl, rfl, rfl, rfl⟩, rfl, rfl, rfl, rfl⟩

end Aga8.Detail
