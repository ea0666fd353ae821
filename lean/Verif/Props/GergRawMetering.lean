import Verif.Spec.GergRawMetering
import Verif.Props.RawMetering
import Verif.Props.GergMetering

/-! # C82: readings in any unit, normalized and metered with a GERG-2008 object, in f64 -/

set_option linter.unusedSectionVars false

namespace Aga8

open F64

attribute [local irreducible] Gerg.pressureP Gerg.propertiesP Gerg.densityP

variable [Libm]

namespace Gerg

theorem RawSample.gas {m : Sample} (h : RawSample m) : m.comp.normalize.2 = .ok () ∧ m.Near m.normalized.x ∧ GasSample m.normalized := by
  obtain ⟨a1, a2, a3, a4, a5⟩ := normalize_near m h.x_fin h.nonneg h.sum_low h.sum_high h.x_min
  obtain ⟨b1, b2⟩ := abs_le.1 a4
  refine ⟨a1, a3, a2, a5, ?_, ?_, h.t_fin, h.t_low, h.t_high, (h.region _ a3).t_red1, (h.region _ a3).t_red2, h.p_fin, h.p_low,
    h.p_high, (h.region _ a3).p_red⟩
  · norm_num at b1 ⊢; linarith
  · norm_num at b2 ⊢; linarith

theorem raw_steps : ∀ {ms : List Sample}, (∀ m ∈ ms, RawSample m) → Sample.RawSteps ms → Sample.Steps (ms.map Sample.normalized)
  | [], _, _ => trivial
  | [_], _, _ => trivial
  | m :: m' :: ms, h, hs =>
    have h1 := h m (List.mem_cons_self ..)
    have h2 := h m' (List.mem_cons_of_mem _ (List.mem_cons_self ..))
    ⟨raw_step h1.nonneg h2.nonneg h1.sum_low h2.sum_low h1.gas.2.1 h2.gas.2.1 hs.1,
      raw_steps (ms := m' :: ms) (fun k hk => h k (List.mem_cons_of_mem _ hk)) hs.2⟩

theorem raw_all : ∀ {ms : List Sample} {s s' : Gerg Float} {outs : List Outcome}, (∀ m ∈ ms, RawSample m) →
    meterAll s (ms.map Sample.normalized) = .ok (s', outs) → List.Forall₂ Accurate (ms.map Sample.normalized) outs →
    ∃ outs', meterRawAll s ms = .ok (s', outs') ∧ List.Forall₂ RawAccurate ms outs'
  | [], s, s', outs, _, h, _ => by
    have := Except.ok.inj h
    refine ⟨[], ?_, .nil⟩
    have e : s = s' := congrArg Prod.fst this
    rw [e]
    rfl
  | m :: ms, s, s', outs, hm, h, ha => by
    rw [List.map_cons] at h ha
    unfold meterAll at h
    cases e1 : meter s m.normalized with
    | error e => rw [e1] at h; cases h
    | ok r =>
      rw [e1] at h
      change (meterAll r.1 (ms.map Sample.normalized) >>= fun r' => pure (r'.1, r.2 :: r'.2)) = _ at h
      cases e2 : meterAll r.1 (ms.map Sample.normalized) with
      | error e => rw [e2] at h; cases h
      | ok r' =>
        rw [e2] at h
        have h := Except.ok.inj h
        have o1 : r'.1 = s' := congrArg Prod.fst h
        have o2 : r.2 :: r'.2 = outs := congrArg Prod.snd h
        subst o1 o2
        obtain ⟨g1, g2, g3⟩ := (hm m (List.mem_cons_self ..)).gas
        cases ha with
        | cons a1 a2 =>
          obtain ⟨outs', k1, k2⟩ := raw_all (fun k hk => hm k (List.mem_cons_of_mem _ hk)) (s' := r'.1) (outs := r'.2) e2 a2
          refine ⟨(m.comp.normalize.2, r.2) :: outs', ?_, .cons ⟨g1, g2, a1⟩ k2⟩
          · unfold meterRawAll
            change (meter s m.normalized >>= fun r => meterRawAll r.1 ms >>= fun r' => pure (r'.1, (m.comp.normalize.2, r.2) :: r'.2)) = _
            rw [e1]
            change (meterRawAll r.1 ms >>= fun r' => pure (r'.1, (m.comp.normalize.2, r.2) :: r'.2)) = _
            rw [k1]
            rfl

end Gerg

/-- C82: a new GERG-2008 object is given any list of samples with readings in any unit (percent, peak areas), and for each of them the
program calls `normalize`, `set_composition`, `density` and `properties`. Every call of every sample reports success, the fractions are
right to one part in 1e14 and every result is accurate. -/
theorem C82_gerg_raw_metering (hL : LibmAccurate) (hN : LnAccurate) (new0 : Gerg Float) (hnew : Gerg.new = .ok new0)
    (ms : List Sample) (h : ∀ m ∈ ms, Gerg.RawSample m) (hs : Sample.RawSteps ms) :
    ∃ s' outs, new0.meterRawAll ms = .ok (s', outs) ∧ List.Forall₂ Gerg.RawAccurate ms outs := by
  obtain ⟨s', outs, e1, e2⟩ := C77_gerg_metering hL hN new0 hnew (ms.map Sample.normalized)
    (fun m hm => by
      obtain ⟨k, hk, rfl⟩ := List.mem_map.1 hm
      exact (h k hk).gas.2.2) (Gerg.raw_steps h hs)
  obtain ⟨outs', k1, k2⟩ := Gerg.raw_all h e1 e2
  exact ⟨s', outs', k1, k2⟩

/-! ## The hypotheses can be met -/

namespace Gerg

theorem rwc : decChk true 0 20 ⟨100, 0⟩ = true := by decide +kernel

/-- Methane, in percent. -/
def methanePercent : Composition Float := { Composition.default with methane := f% 100.0, nitrogen := f% 0.0 }

theorem methanePercent_ok (i : Fin 21) : IsFinite (methanePercent.frac i) ∧ toR (methanePercent.frac i) = if 0 = i then 100 else 0 := by
  have v0 : toR (litF ⟨100, 0⟩) = 100 := by rw [(decChk_val rwc).2.1 rfl]; norm_num [decR]
  unfold methanePercent
  rw [Detail.frac_two]
  split_ifs with h1 h2 h2
  · rw [← h1] at h2; exact absurd h2 (by decide)
  · exact ⟨fin0, toR0⟩
  · exact ⟨decChk_fin rwc, v0⟩
  · exact ⟨fin0, toR0⟩

theorem methane_red {y : Fin 21 → ℝ} (hy : ∀ i, i ≠ 0 → y i = 0) (h1 : 0.99 ≤ y 0) (h2 : y 0 ≤ 1.01) :
    (150 ≤ GergEos.Tr (shift y) ∧ GergEos.Tr (shift y) ≤ 220) ∧ 0 ≤ GergEos.invRhoR (shift y) ∧ GergEos.invRhoR (shift y) ≤ 0.12 := by
  have hz : ∀ i : Fin 22, i ≠ 1 → i ≠ 2 → shift y i = 0 := fun i a _ => by
    unfold shift
    split_ifs with h
    · refine hy _ fun e => a ?_
      have : i.1 - 1 = 0 := congrArg Fin.val e
      exact Fin.ext (by show i.1 = 1; omega)
    · rfl
  have e1 : shift y 1 = y 0 := rfl
  have e2 : shift y 2 = 0 := hy 1 (by decide)
  unfold GergEos.Tr GergEos.invRhoR
  rw [GergEos.reducing_pair _ _ _ hz, GergEos.reducing_pair _ _ _ hz, e1, e2]
  have a1 : 0.98 ≤ y 0 ^ 2 := by norm_num at h1 ⊢; nlinarith
  have a2 : y 0 ^ 2 ≤ 1.03 := by norm_num at h1 h2 ⊢; nlinarith
  have t : GergEos.val Tab.GTIJ[(1 : Fin 22).1][(1 : Fin 22).1] = 190.564 := by
    unfold GergEos.val; simp [Tab.GTIJ]; norm_num
  have v : 0.09 ≤ GergEos.val Tab.GVIJ[(1 : Fin 22).1][(1 : Fin 22).1] ∧
      GergEos.val Tab.GVIJ[(1 : Fin 22).1][(1 : Fin 22).1] ≤ 0.11 := by
    unfold GergEos.val; simp [Tab.GVIJ]; norm_num
  rw [t]
  generalize GergEos.val Tab.GVIJ[(1 : Fin 22).1][(1 : Fin 22).1] = g at *
  generalize y 0 ^ 2 = z at *
  norm_num at a1 a2 v ⊢
  exact ⟨⟨by linarith, by linarith⟩, by nlinarith, by nlinarith⟩

theorem samplePercent : RawSample ⟨methanePercent, f% 300.0, f% 1000.0⟩ := by
  have hx : Sample.x ⟨methanePercent, f% 300.0, f% 1000.0⟩ = fun i => if 0 = i then 100 else 0 := funext fun i => (methanePercent_ok i).2
  have hS : ∑ i, Sample.x ⟨methanePercent, f% 300.0, f% 1000.0⟩ i = 100 := by
    rw [hx]; simp
  have hsh : ∀ i, Sample.share ⟨methanePercent, f% 300.0, f% 1000.0⟩ i = if 0 = i then 1 else 0 := fun i => by
    unfold Sample.share
    rw [hS, hx]
    dsimp only
    split_ifs <;> norm_num
  refine ⟨fun i => (methanePercent_ok i).1, fun i => ?_, ?_, ?_, fun y hy => ?_, fun i => ?_, Detail.v300.1, ?_, ?_, Detail.v1000.1, ?_, ?_⟩
  · rw [hx]; dsimp only; split_ifs <;> norm_num
  · rw [hS]; norm_num
  · rw [hS]; norm_num
  · have h0 := hy 0
    rw [hsh, if_pos rfl] at h0
    obtain ⟨b1, b2⟩ := abs_le.1 h0
    have hz : ∀ i, i ≠ 0 → y i = 0 := fun i hi => by
      have := hy i
      rw [hsh, if_neg (Ne.symm hi), mul_zero, sub_zero] at this
      exact abs_eq_zero.1 (le_antisymm this (abs_nonneg _))
    obtain ⟨⟨T1, T2⟩, V1, V2⟩ := methane_red hz (by norm_num at b1 ⊢; linarith) (by norm_num at b2 ⊢; linarith)
    refine ⟨?_, ?_, ?_⟩
    all_goals dsimp only
    · rw [Detail.v300.2]; norm_num; linarith
    · rw [Detail.v300.2]; linarith
    · rw [Detail.v300.2, Detail.v1000.2]
      refine (mul_le_mul (show (1000 : ℝ) / (8.314472 * 300) ≤ 0.41 by norm_num) V2 V1 (by norm_num)).trans ?_
      split_ifs <;> norm_num
  · rw [hsh, hx]
    by_cases h : 0 = i
    · right; rw [if_pos h]; norm_num
    · left; exact if_neg h
  all_goals dsimp only
  · rw [Detail.v300.2]; norm_num
  · rw [Detail.v300.2]; norm_num
  · rw [Detail.v300.2, Detail.v1000.2]; norm_num
  · rw [Detail.v300.2, Detail.v1000.2]; norm_num

end Gerg

/-- Methane in percent at 300 K meets the hypotheses, twice in a row. -/
example (hL : LibmAccurate) (hN : LnAccurate) (new0 : Gerg Float) (hnew : Gerg.new = .ok new0) :
    ∃ s' o1 o2, new0.meterRawAll [⟨Gerg.methanePercent, f% 300.0, f% 1000.0⟩, ⟨Gerg.methanePercent, f% 300.0, f% 1000.0⟩] =
        .ok (s', [o1, o2]) ∧ Gerg.RawAccurate ⟨Gerg.methanePercent, f% 300.0, f% 1000.0⟩ o2 := by
  obtain ⟨s', outs, h1, h2⟩ := C82_gerg_raw_metering hL hN new0 hnew
    [⟨Gerg.methanePercent, f% 300.0, f% 1000.0⟩, ⟨Gerg.methanePercent, f% 300.0, f% 1000.0⟩]
    (List.forall_mem_cons.2 ⟨Gerg.samplePercent, List.forall_mem_cons.2 ⟨Gerg.samplePercent, fun _ h => by cases h⟩⟩)
    ⟨⟨Or.inl rfl, Or.inl rfl⟩, trivial⟩
  cases h2 with | cons a h2 => cases h2 with | cons a2 h2 =>
    cases h2
    exact ⟨s', _, _, h1, a2⟩

end Aga8
