import Verif.Spec.RawMetering
import Verif.Props.F64
import Verif.Props.Metering

/-! # C82: readings in any unit, normalized and metered, in f64 -/

set_option linter.unusedSectionVars false

namespace Aga8

open F64
open Detail (Pub setPub)

attribute [local irreducible] Detail.pressureP Detail.propertiesP Detail.densityP

variable [Libm]

/-- What `normalize` does to readings with a sum of ordinary size: the error is relative, and zero stays zero. -/
theorem normalize_near (m : Sample) (fx : ∀ i, IsFinite (m.comp.frac i)) (h0 : ∀ i, 0 ≤ m.x i) (s1 : 1e-9 ≤ ∑ i, m.x i)
    (s2 : ∑ i, m.x i ≤ 1e9) (hm : ∀ i, m.x i = 0 ∨ 1.01e-10 ≤ m.share i) :
    m.comp.normalize.2 = .ok () ∧ (∀ i, IsFinite (m.normalized.comp.frac i)) ∧ m.Near m.normalized.x ∧
    |∑ i, m.normalized.x i - 1| ≤ 1e-14 ∧ (∀ i, m.normalized.x i = 0 ∨ 1e-10 ≤ m.normalized.x i) := by
  have p1 : (2 : ℝ) ^ (-1021 : Int) ≤ 1e-9 := by
    refine le_trans (zpow_le_zpow_right₀ (by norm_num) (by norm_num : (-1021 : Int) ≤ -31)) ?_
    norm_num [zpow_neg]
  have p2 : (1e9 : ℝ) ≤ 2 ^ 1022 := le_trans (by norm_num : (1e9 : ℝ) ≤ 2 ^ 40) (pow_le_pow_right₀ (by norm_num) (by norm_num))
  have p3 : (2 : ℝ) ^ (-1074 : Int) ≤ 1e-30 := by
    refine le_trans (zpow_le_zpow_right₀ (by norm_num) (by norm_num : (-1074 : Int) ≤ -100)) ?_
    norm_num [zpow_neg]
  have p4 : (2 : ℝ) ^ (-48 : Int) ≤ 3.6e-15 := by norm_num [zpow_neg]
  obtain ⟨a1, a2, a3, -⟩ := C41_normalize_f64 m.comp fx h0 (p1.trans s1) (s2.trans p2)
  have T0 : 0 < ∑ i, m.x i := lt_of_lt_of_le (by norm_num) s1
  have hn : ∀ i, m.x i = 0 → m.normalized.x i = 0 := fun i hi => by
    show toR (m.comp.normalize.1.frac i) = 0
    rw [C03_normalize_scales m.comp a1 i]
    exact toR_zero_of_zn (zn_mul_left (Or.inl (isZ_of_toR (fx i) hi)) _)
  have hnear : m.Near m.normalized.x := fun i => by
    rcases hm i with e | e
    · have e' : m.share i = 0 := by unfold Sample.share; rw [e, zero_div]
      rw [hn i e, e']; norm_num
    · have h := (a2 i).2.2
      change |m.normalized.x i - m.share i| ≤ 2 ^ (-48 : Int) * m.share i + 2 ^ (-1074 : Int) at h
      generalize (2 : ℝ) ^ (-48 : Int) = A at *
      generalize (2 : ℝ) ^ (-1074 : Int) = B at *
      refine h.trans ?_
      have : A * m.share i ≤ 3.6e-15 * m.share i := mul_le_mul_of_nonneg_right p4 (le_trans (by norm_num) e)
      norm_num at this e p3 ⊢
      linarith
  refine ⟨a1, fun i => (a2 i).1, hnear, a3.trans (p4.trans (by norm_num)), fun i => ?_⟩
  rcases hm i with e | e
  · exact Or.inl (hn i e)
  · have h := abs_le.1 (hnear i)
    norm_num at h e ⊢
    right
    linarith

/-- Different readings stay different. -/
theorem raw_step {m m' : Sample} (h0 : ∀ i, 0 ≤ m.x i) (h0' : ∀ i, 0 ≤ m'.x i) (T0 : 1e-9 ≤ ∑ i, m.x i) (T0' : 1e-9 ≤ ∑ i, m'.x i)
    (hn : m.Near m.normalized.x) (hn' : m'.Near m'.normalized.x) (hs : Sample.RawStep m m') :
    Sample.Step m.normalized m'.normalized := by
  refine ⟨?_, hs.2⟩
  rcases hs.1 with e | ⟨i, e⟩
  · exact Or.inl (by show m'.comp.normalize.1 = m.comp.normalize.1; rw [e])
  · right
    refine ⟨i, ?_⟩
    have le1 : ∀ m : Sample, (∀ i, 0 ≤ m.x i) → 1e-9 ≤ ∑ i, m.x i → m.share i ≤ 1 := fun m h0 h => by
      have T0 : 0 < ∑ i, m.x i := lt_of_lt_of_le (by norm_num) h
      unfold Sample.share
      rw [div_le_one T0]
      exact Finset.single_le_sum (f := m.x) (fun j _ => h0 j) (Finset.mem_univ i)
    have n1 := abs_le.1 (hn i)
    have n2 := abs_le.1 (hn' i)
    have l1 := le1 m h0 T0
    have l2 := le1 m' h0' T0'
    rw [le_abs] at e ⊢
    norm_num at n1 n2 e ⊢
    rcases e with e | e
    · left; linarith
    · right; linarith

namespace Detail

theorem RawSample.gas {m : Sample} (h : RawSample m) : m.comp.normalize.2 = .ok () ∧ m.Near m.normalized.x ∧ GasSample m.normalized := by
  obtain ⟨a1, a2, a3, a4, a5⟩ := normalize_near m h.x_fin h.nonneg h.sum_low h.sum_high h.x_min
  obtain ⟨b1, b2⟩ := abs_le.1 a4
  refine ⟨a1, a3, a2, h.normal _ a3, a5, ?_, ?_, h.t_fin, h.t_low, h.t_high, h.p_fin, h.p_low, h.p_high⟩
  · norm_num at b1 ⊢; linarith
  · norm_num at b2 ⊢; linarith

theorem raw_steps : ∀ {ms : List Sample}, (∀ m ∈ ms, RawSample m) → Sample.RawSteps ms → Sample.Steps (ms.map Sample.normalized)
  | [], _, _ => trivial
  | [_], _, _ => trivial
  | m :: m' :: ms, h, hs =>
    have h1 := h m (List.mem_cons_self ..)
    have h2 := h m' (List.mem_cons_of_mem _ (List.mem_cons_self ..))
    ⟨raw_step h1.nonneg h2.nonneg h1.sum_low h2.sum_low h1.gas.2.1 h2.gas.2.1 hs.1,
      raw_steps (ms := m' :: ms) (fun k hk => h k (List.mem_cons_of_mem _ hk)) hs.2⟩

theorem raw_all : ∀ {ms : List Sample} {s s' : Detail Float} {outs : List Outcome}, (∀ m ∈ ms, RawSample m) →
    meterAll s (ms.map Sample.normalized) = .ok (s', outs) → List.Forall₂ Accurate (ms.map Sample.normalized) outs →
    ∃ outs', meterRawAll s ms = .ok (s', outs') ∧ List.Forall₂ RawAccurate ms outs'
  | [], s, s', outs, _, h, _ => by
    have := Except.ok.inj h
    refine ⟨[], ?_, .nil⟩
    have e : s = s' := congrArg Prod.fst this
    rw [e]
    rfl
  | m :: ms, s, s', outs, hm, h, ha => by
    rw [List.map_cons] at h ha
    unfold meterAll at h
    cases e1 : meter s m.normalized with
    | error e => rw [e1] at h; cases h
    | ok r =>
      rw [e1] at h
      change (meterAll r.1 (ms.map Sample.normalized) >>= fun r' => pure (r'.1, r.2 :: r'.2)) = _ at h
      cases e2 : meterAll r.1 (ms.map Sample.normalized) with
      | error e => rw [e2] at h; cases h
      | ok r' =>
        rw [e2] at h
        have h := Except.ok.inj h
        have o1 : r'.1 = s' := congrArg Prod.fst h
        have o2 : r.2 :: r'.2 = outs := congrArg Prod.snd h
        subst o1 o2
        obtain ⟨g1, g2, g3⟩ := (hm m (List.mem_cons_self ..)).gas
        cases ha with
        | cons a1 a2 =>
          obtain ⟨outs', k1, k2⟩ := raw_all (fun k hk => hm k (List.mem_cons_of_mem _ hk)) (s' := r'.1) (outs := r'.2) e2 a2
          refine ⟨(m.comp.normalize.2, r.2) :: outs', ?_, .cons ⟨g1, ?_, a1⟩ k2⟩
          · unfold meterRawAll
            change (meter s m.normalized >>= fun r => meterRawAll r.1 ms >>= fun r' => pure (r'.1, (m.comp.normalize.2, r.2) :: r'.2)) = _
            rw [e1]
            change (meterRawAll r.1 ms >>= fun r' => pure (r'.1, (m.comp.normalize.2, r.2) :: r'.2)) = _
            rw [k1]
            rfl
          · refine cast (congrArg m.Near (funext fun i => ?_)) g2
            show toR (m.normalized.comp.frac i) = _
            rw [← a1.fractions i]

end Detail

/-- C82: a new DETAIL object is given any list of samples with readings in any unit (percent, peak areas), and for each of them the
program calls `normalize`, `set_composition`, `density` and `properties`. Every call of every sample reports success, the fractions are
right to one part in 1e14 and every result is accurate. -/
theorem C82_detail_raw_metering (hL : LibmAccurate) (hN : LnAccurate) (new0 : Detail Float) (hnew : Detail.new = .ok new0)
    (ms : List Sample) (h : ∀ m ∈ ms, Detail.RawSample m) (hs : Sample.RawSteps ms) :
    ∃ s' outs, new0.meterRawAll ms = .ok (s', outs) ∧ List.Forall₂ Detail.RawAccurate ms outs := by
  obtain ⟨s', outs, e1, e2⟩ := C76_detail_metering hL hN new0 hnew (ms.map Sample.normalized)
    (fun m hm => by
      obtain ⟨k, hk, rfl⟩ := List.mem_map.1 hm
      exact (h k hk).gas.2.2) (Detail.raw_steps h hs)
  obtain ⟨outs', k1, k2⟩ := Detail.raw_all h e1 e2
  exact ⟨s', outs', k1, k2⟩

/-! ## The hypotheses can be met -/

namespace Detail

theorem rwc0 : decChk true 0 20 ⟨28, 0⟩ = true := by decide +kernel
theorem rwc1 : decChk true 0 20 ⟨2, 0⟩ = true := by decide +kernel
theorem rwc2 : decChk true 0 20 ⟨1, 0⟩ = true := by decide +kernel

/-- The gas of the C74 example, in peak areas. -/
def gasPeaks : Composition Float :=
  { Composition.default with methane := f% 28.0, nitrogen := f% 2.0, carbon_dioxide := f% 1.0, ethane := f% 1.0 }

theorem gasPeaks_ok (i : Fin 21) : IsFinite (gasPeaks.frac i) ∧ toR (gasPeaks.frac i) = 32 * ng1x i := by
  have v0 : toR (litF ⟨28, 0⟩) = 28 := by rw [(decChk_val rwc0).2.1 rfl]; norm_num [decR]
  have v1 : toR (litF ⟨2, 0⟩) = 2 := by rw [(decChk_val rwc1).2.1 rfl]; norm_num [decR]
  have v2 : toR (litF ⟨1, 0⟩) = 1 := by rw [(decChk_val rwc2).2.1 rfl]; norm_num [decR]
  unfold gasPeaks ng1x
  rw [frac_four]
  split_ifs
  · exact ⟨decChk_fin rwc2, v2.trans (by norm_num)⟩
  · exact ⟨decChk_fin rwc2, v2.trans (by norm_num)⟩
  · exact ⟨decChk_fin rwc1, v1.trans (by norm_num)⟩
  · exact ⟨decChk_fin rwc0, v0.trans (by norm_num)⟩
  · exact ⟨fin0, toR0.trans (by norm_num)⟩

theorem samplePeaks : RawSample ⟨gasPeaks, f% 300.0, f% 1000.0⟩ := by
  have hx : Sample.x ⟨gasPeaks, f% 300.0, f% 1000.0⟩ = fun i => 32 * ng1x i := funext fun i => (gasPeaks_ok i).2
  have hs : ∑ i, ng1x i = 1 := by
    simp only [Fin.sum_univ_succ]
    simp [ng1x, Fin.ext_iff]
    norm_num
  have hS : ∑ i, Sample.x ⟨gasPeaks, f% 300.0, f% 1000.0⟩ i = 32 := by
    rw [hx]; rw [← Finset.mul_sum, hs, mul_one]
  have hsh : ∀ i, Sample.share ⟨gasPeaks, f% 300.0, f% 1000.0⟩ i = ng1x i := fun i => by
    unfold Sample.share
    rw [hS, hx]
    ring
  have hn : ∀ i, 0 ≤ ng1x i := fun i => by unfold ng1x; split_ifs <;> norm_num
  refine ⟨fun i => (gasPeaks_ok i).1, fun i => ?_, ?_, ?_, fun y hy => ?_, fun i => ?_, v300.1, ?_, ?_, v1000.1, ?_, ?_⟩
  · rw [hx]; exact mul_nonneg (by norm_num) (hn i)
  · rw [hS]; norm_num
  · rw [hS]; norm_num
  · have hy' : ∀ i, |y i - ng1x i| ≤ 1e-14 * ng1x i := fun i => by have := hy i; rwa [hsh] at this
    have lo : ∀ i, ng1x i * (1 - 1e-14) ≤ y i := fun i => by
      have := (abs_le.1 (hy' i)).1
      norm_num at this ⊢; linarith
    have hi : ∀ i, y i ≤ ng1x i * (1 + 1e-14) := fun i => by
      have := (abs_le.1 (hy' i)).2
      norm_num at this ⊢; linarith
    have hsum : ∑ i, y i ≤ 1 + 1e-14 := by
      refine (Finset.sum_le_sum fun i _ => hi i).trans ?_
      rw [← Finset.sum_mul, hs, one_mul]
    have z : ∀ i : Fin 21, 4 ≤ i.1 → y i ≤ 0 := fun i hi4 => by
      refine (hi i).trans ?_
      have : ng1x i = 0 := by
        unfold ng1x
        split_ifs with h1 h2 h3 h4
        · subst h1; exact absurd hi4 (by decide)
        · subst h2; exact absurd hi4 (by decide)
        · subst h3; exact absurd hi4 (by decide)
        · subst h4; exact absurd hi4 (by decide)
        · rfl
      rw [this, zero_mul]
    have k0 := lo 0
    have k1 := hi 1
    have k2 := hi 2
    have k3 := hi 3
    have q0 : ng1x 0 = 0.875 := by simp [ng1x]
    have q1 : ng1x 1 = 0.0625 := by simp [ng1x, Fin.ext_iff]
    have q2 : ng1x 2 = 0.03125 := by simp [ng1x, Fin.ext_iff]
    have q3 : ng1x 3 = 0.03125 := by simp [ng1x, Fin.ext_iff]
    rw [q0] at k0
    rw [q1] at k1
    rw [q2] at k2
    rw [q3] at k3
    have w := fun (i : Fin 21) (h : 4 ≤ i.1) => z i h
    refine ⟨fun i => le_trans (mul_nonneg (hn i) (by norm_num)) (lo i), hsum.trans (by norm_num), le_trans (by norm_num) k0,
      k1.trans (by norm_num), k2.trans (by norm_num), k3.trans (by norm_num), (w 4 (by decide)).trans (by norm_num), ?_, ?_, ?_,
      (w 14 (by decide)).trans (by norm_num), (w 15 (by decide)).trans (by norm_num), (w 16 (by decide)).trans (by norm_num),
      (w 17 (by decide)).trans (by norm_num), (w 18 (by decide)).trans (by norm_num), (w 19 (by decide)).trans (by norm_num),
      (w 20 (by decide)).trans (by norm_num)⟩
    · have := w 5 (by decide); have := w 6 (by decide); norm_num; linarith
    · have := w 7 (by decide); have := w 8 (by decide); norm_num; linarith
    · have := w 9 (by decide); have := w 10 (by decide); have := w 11 (by decide); have := w 12 (by decide); have := w 13 (by decide)
      norm_num; linarith
  · rw [hsh, hx]
    have : ng1x i = 0 ∨ 1.01e-10 ≤ ng1x i := by
      unfold ng1x
      split_ifs <;> norm_num
    exact this.imp (fun e => by show 32 * ng1x i = 0; rw [e, mul_zero]) id
  all_goals dsimp only
  · rw [v300.2]; norm_num
  · rw [v300.2]; norm_num
  · rw [v300.2, v1000.2]; norm_num
  · rw [v300.2, v1000.2]; norm_num

end Detail

/-- The gas of C74 in peak areas at 300 K meets the hypotheses, twice in a row. -/
example (hL : LibmAccurate) (hN : LnAccurate) (new0 : Detail Float) (hnew : Detail.new = .ok new0) :
    ∃ s' o1 o2, new0.meterRawAll [⟨Detail.gasPeaks, f% 300.0, f% 1000.0⟩, ⟨Detail.gasPeaks, f% 300.0, f% 1000.0⟩] = .ok (s', [o1, o2]) ∧
      Detail.RawAccurate ⟨Detail.gasPeaks, f% 300.0, f% 1000.0⟩ o2 := by
  obtain ⟨s', outs, h1, h2⟩ := C82_detail_raw_metering hL hN new0 hnew
    [⟨Detail.gasPeaks, f% 300.0, f% 1000.0⟩, ⟨Detail.gasPeaks, f% 300.0, f% 1000.0⟩]
    (List.forall_mem_cons.2 ⟨Detail.samplePeaks, List.forall_mem_cons.2 ⟨Detail.samplePeaks, fun _ h => by cases h⟩⟩)
    ⟨⟨Or.inl rfl, Or.inl rfl⟩, trivial⟩
  cases h2 with | cons a h2 => cases h2 with | cons a2 h2 =>
    cases h2
    exact ⟨s', _, _, h1, a2⟩

end Aga8
