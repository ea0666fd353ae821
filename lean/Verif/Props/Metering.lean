import Verif.Lemmas.Metering
import Verif.Props.NaturalGasHeat
import Verif.Props.F64

/-! # C76: a DETAIL object that meters natural gas

One object, any number of samples, in IEEE-754 arithmetic, with any accurate math library. `Spec/Metering` says what is called for a
sample, which samples are meant and what accurate results are. -/

set_option linter.unusedSectionVars false

namespace Aga8

open F64
open Detail (Pub setPub pub fracs Coherent Resolved)

attribute [local irreducible] Detail.pressureP Detail.propertiesP Detail.densityP

variable [Libm]

namespace Detail

/-- The results on a new object, and that the density found can be kept for the next sample. -/
theorem fresh_accurate (hL : LibmAccurate) (hN : LnAccurate) {m : Sample} (h : GasSample m) {q : Pub Float}
    (hx : ∀ i, aget q.x i = m.comp.frac i) (ht : q.t = m.t) (hp : q.p = m.p) (fd : IsFinite q.d) (d0 : 0 ≤ toR q.d) :
    (densityP (freshOf q)).2 = .ok () ∧ IsFinite (propertiesP (densityP (freshOf q)).1).d ∧
      Accurate m ⟨.ok (), .ok (), pub (propertiesP (densityP (freshOf q)).1)⟩ := by
  have ex : m.x = fun i => toR (aget q.x i) := funext fun i => by rw [hx]; rfl
  have n := h.normal
  have s1 := h.sum_low
  have xm := h.x_min
  rw [ex] at n s1 xm
  have fx : ∀ i, IsFinite (aget q.x i) := fun i => by rw [hx]; exact h.x_fin i
  have T := h.t_fin
  have T1 := h.t_low
  have T2 := h.t_high
  have P := h.p_fin
  have P1 := h.p_low
  have P2 := h.p_high
  rw [← ht] at T T1 T2 P1 P2
  rw [← hp] at P P1 P2
  have s1' : 0.99 ≤ ∑ i, toR (aget q.x i) := le_trans (by norm_num) s1
  obtain ⟨s', d, e1, e2, e3, e4, e5, e6, e7, e8⟩ := C74_detail_natural_gas_density hL hN newP new_ok q fx n xm T T1 T2 P P1 P2 fd d0
  obtain ⟨s2, s2', d2, a1, a2, a3, a4, a5, a6, a7, a8, a9, a10, a11⟩ :=
    C74_detail_natural_gas_workflow hL hN newP new_ok q fx n xm T T1 T2 P P1 P2 fd d0
  obtain ⟨s3, s3', -, b1, b2, -, -, -, -, -, -, b3, b4, b5, b6, b7, b8, b9, b10, b11, b12, b13, b14, b15, b16⟩ :=
    C75_detail_natural_gas_workflow hL hN newP new_ok q fx n xm s1' T T1 T2 P P1 P2 fd d0 m.x ex
  have i1 : densityP (freshOf q) = (s', .ok ()) := Except.ok.inj ((density_ok (freshOf q)).symm.trans e1)
  have i2 : densityP (freshOf q) = (s2, .ok ()) := Except.ok.inj ((density_ok (freshOf q)).symm.trans a1)
  have i3 : densityP (freshOf q) = (s3, .ok ()) := Except.ok.inj ((density_ok (freshOf q)).symm.trans b1)
  have j2 : s2 = s' := congrArg Prod.fst (i2.symm.trans i1)
  have j3 : s3 = s' := congrArg Prod.fst (i3.symm.trans i1)
  subst j2 j3
  have k2 : propertiesP s3 = s2' := Except.ok.inj ((properties_ok s3).symm.trans a2)
  have k3 : propertiesP s3 = s3' := Except.ok.inj ((properties_ok s3).symm.trans b2)
  have k : s2' = s3' := k2.symm.trans k3
  subst k
  have dd : d2 = d := e7 d2 a3 a4 a5
  subst dd
  rw [← ex, ht, hp] at e6 e7
  rw [hp] at a11
  rw [ht, hp] at a9
  rw [ht] at b4 b6 b8 b10 b12 b14 b16
  rw [i1]
  dsimp only
  rw [k2]
  have hd : s2'.d = s3.d := by
    rw [← k2]; exact propertiesP_d s3
  have hpub := pub_densityP (freshOf q)
  rw [i1] at hpub
  dsimp only at hpub
  have et : s2'.t = m.t := by
    rw [← k2, propertiesP_t, ← ht]
    exact congrArg Pub.t hpub
  have exx : s2'.x = q.x := by
    rw [← k2, propertiesP_x]
    exact congrArg Pub.x hpub
  refine ⟨rfl, by rw [hd]; exact e2, ?_⟩
  exact ⟨rfl, rfl, et, fun i => by rw [← hx, ← exx]; rfl, ⟨a6, d2, a3, a4, e6, e7, a7, a8, a9⟩, ⟨a10, a11⟩, b4, b6, b8, ⟨b9, b10⟩,
    ⟨b11, b12⟩, ⟨b13, b14⟩, ⟨b15, b16⟩⟩

theorem GasSample.dens {m : Sample} (h : GasSample m) {q : Pub Float}
    (hx : ∀ i, aget q.x i = m.comp.frac i) (ht : q.t = m.t) (hp : q.p = m.p) : DensDomain q := by
  have ex : m.x = fun i => toR (aget q.x i) := funext fun i => by rw [hx]; rfl
  have n := h.normal
  have xm := h.x_min
  rw [ex] at n xm
  have T := h.t_fin
  have T1 := h.t_low
  have T2 := h.t_high
  have P := h.p_fin
  have P1 := h.p_low
  have P2 := h.p_high
  rw [← ht] at T T1 T2 P1 P2
  rw [← hp] at P P1 P2
  exact dens_normal (fun i => by rw [hx]; exact h.x_fin i) n xm T T1 T2 P P1 P2

theorem GasSample.check {m : Sample} (h : GasSample m) : m.comp.check = .ok () := by
  refine (C02_f64_sound m.comp h.x_fin h.normal.nonneg (h.sum_high.trans ?_)).2 (abs_le.2 ?_)
  · calc (1.01 - 1e-14 : ℝ) ≤ 2 ^ 1 := by norm_num
      _ ≤ 2 ^ 1022 := pow_le_pow_right₀ (by norm_num) (by norm_num)
  · have a := h.sum_low
    have b := h.sum_high
    have e : ∑ i, m.x i = ∑ i, toR (m.comp.frac i) := rfl
    rw [← e]
    generalize ∑ i, m.x i = S at *
    norm_num at a b ⊢
    constructor <;> linarith

/-- The fractions and the temperature evaluated last. -/
def LastIs (m : Option Sample) (last : List (Vector Float 21 × Float)) : Prop :=
  ∀ e ∈ last, ∃ m', m = some m' ∧ GasSample m' ∧ (∀ i, aget e.1 i = m'.comp.frac i) ∧ e.2 = m'.t

theorem resolved_sample {m0 : Option Sample} {m : Sample} (h : GasSample m) (hs : ∀ m', m0 = some m' → Sample.Step m' m)
    {last : List (Vector Float 21 × Float)} (hl : LastIs m0 last) {q : Pub Float}
    (hx : ∀ i, aget q.x i = m.comp.frac i) (ht : q.t = m.t) (hp : q.p = m.p) : Resolved last q := by
  have D := (h.dens hx ht hp).far
  refine ⟨D.1, D.2, fun e he => ?_⟩
  obtain ⟨m', e0, g, e1, e2⟩ := hl e he
  obtain ⟨s1, s2⟩ := hs m' e0
  constructor
  · rcases s1 with s1 | ⟨i, hi⟩
    · left
      exact Vector.ext fun i hi => by
        have a := hx ⟨i, hi⟩
        have b := e1 ⟨i, hi⟩
        rw [← s1, ← a] at b
        exact b.symm
    · right
      refine ⟨i, ?_⟩
      rw [hx, e1]
      refine far_of_diff (h.x_fin i) (g.x_fin i) hi ?_
      have a1 := h.normal.nonneg i
      have a2 := normal_le_two h.normal i
      have b1 := g.normal.nonneg i
      have b2 := normal_le_two g.normal i
      unfold Sample.x at a1 a2 b1 b2
      exact abs_le.2 ⟨by linarith, by linarith⟩
  · rcases s2 with s2 | s2
    · left; rw [ht, e2, s2]
    · right
      unfold TFar
      rw [ht, e2]
      refine far_of_diff h.t_fin g.t_fin s2 ?_
      have a1 := h.t_low
      have a2 := h.t_high
      have b1 := g.t_low
      have b2 := g.t_high
      exact abs_le.2 ⟨by linarith, by linarith⟩

/-- One sample, on an object that metered others before. -/
theorem meter_one (hL : LibmAccurate) (hN : LnAccurate) {m0 : Option Sample} {m : Sample} (h : GasSample m)
    (hs : ∀ m', m0 = some m' → Sample.Step m' m) {last : List (Vector Float 21 × Float)} (hl : LastIs m0 last) {s : Detail Float}
    (hc : Coherent last s) (fd : IsFinite s.d) (d0 : 0 ≤ toR s.d) :
    ∃ s' o last', meter s m = .ok (s', o) ∧ Accurate m o ∧ LastIs (some m) last' ∧ Coherent last' s' ∧ IsFinite s'.d ∧
      0 ≤ toR s'.d := by
  have es : set_composition s m.comp = (withX s (compX s.x m.comp), .ok ()) := by
    rw [set_composition_eq, h.check]
  obtain ⟨s1, hs1⟩ : ∃ s1, s1 = sampled s (compX s.x m.comp) m.t m.p := ⟨_, rfl⟩
  have hpub : pub s1 = { pub s with x := compX s.x m.comp, t := m.t, p := m.p } := by rw [hs1]; exact pub_sampled _ _ _ _
  have hx : ∀ i, aget (pub s1).x i = m.comp.frac i := fun i => by rw [hpub]; exact aget_compX s.x m.comp i
  have ht : (pub s1).t = m.t := by rw [hpub]
  have hp : (pub s1).p = m.p := by rw [hpub]
  have hd : (pub s1).d = s.d := by rw [hpub]; rfl
  have hc1 : Coherent last s1 := coherent_cache hc (by rw [hs1]; exact params_sampled _ _ _ _) (by rw [hs1]; exact cache_sampled _ _ _ _)
    (fun _ h => h)
  have hr := resolved_sample h hs hl hx ht hp
  obtain ⟨r1, r2, r3⟩ := meter_sim F64.selfDiff hc1 hr
  obtain ⟨f1, f2, f3⟩ := fresh_accurate hL hN h hx ht hp (by rw [hd]; exact fd) (by rw [hd]; exact d0)
  rw [f1] at r1
  rw [← r2] at f3
  have r4 : (propertiesP (densityP s1).1).d = (propertiesP (densityP (freshOf (pub s1))).1).d := congrArg Pub.d r2
  rw [← r4] at f2
  have f4 := f3.density.1.le
  have r5 : meter s m = .ok (propertiesP (densityP s1).1, ⟨.ok (), .ok (), pub (propertiesP (densityP s1).1)⟩) := by
    unfold meter
    rw [es]
    dsimp only
    rw [sampled_eq, ← hs1, density_ok]
    simp only [bind, Except.bind, properties_ok, pure, Except.pure]
    rw [r1]
  clear r2 f1 r1 r4 hs1
  generalize propertiesP (densityP s1).1 = s2 at *
  refine ⟨s2, ⟨.ok (), .ok (), pub s2⟩, [(s1.x, s1.t)], r5, f3, fun e he => ?_, r3, f2, f4⟩
  rw [List.mem_singleton.1 he]
  exact ⟨m, rfl, h, hx, ht⟩

theorem meter_list (hL : LibmAccurate) (hN : LnAccurate) (ms : List Sample) (m0 : Option Sample) (h : ∀ m ∈ ms, GasSample m)
    (hs0 : ∀ m' m, m0 = some m' → ms.head? = some m → Sample.Step m' m) (hs : Sample.Steps ms)
    {last : List (Vector Float 21 × Float)} (hl : LastIs m0 last) {s : Detail Float} (hc : Coherent last s) (fd : IsFinite s.d)
    (d0 : 0 ≤ toR s.d) :
    ∃ s' outs, meterAll s ms = .ok (s', outs) ∧ List.Forall₂ Accurate ms outs := by
  induction ms generalizing m0 last s with
  | nil => exact ⟨s, [], rfl, .nil⟩
  | cons m ms ih =>
    obtain ⟨s1, o, last', e1, e2, e3, e4, e5, e6⟩ := meter_one hL hN (h m List.mem_cons_self) (fun m' e => hs0 m' m e rfl) hl hc fd d0
    have hs' : Sample.Steps ms ∧ ∀ m' m'', some m = some m' → ms.head? = some m'' → Sample.Step m' m'' := by
      cases ms with
      | nil => exact ⟨trivial, fun _ _ _ e => by cases e⟩
      | cons b ms =>
        refine ⟨hs.2, fun m' m'' a c => ?_⟩
        cases a
        cases c
        exact hs.1
    obtain ⟨s2, outs, g1, g2⟩ := ih (some m) (fun k hk => h k (List.mem_cons_of_mem _ hk)) hs'.2 hs'.1 e3 e4 e5 e6
    refine ⟨s2, o :: outs, ?_, .cons e2 g2⟩
    simp only [meterAll, e1, g1, bind, Except.bind, pure, Except.pure]

end Detail

/-- C76: with an accurate math library, an object that is created once and meters any number of natural gas samples, whose compositions
and temperatures change noticeably or not at all from each sample to the next, gives accurate results for every sample. -/
theorem C76_detail_metering (hL : LibmAccurate) (hN : LnAccurate) (new0 : Detail Float) (hnew : Detail.new = .ok new0)
    (ms : List Sample) (h : ∀ m ∈ ms, Detail.GasSample m) (hs : Sample.Steps ms) :
    ∃ s' outs, new0.meterAll ms = .ok (s', outs) ∧ List.Forall₂ Detail.Accurate ms outs := by
  have e := Except.ok.inj (hnew.symm.trans Detail.new_ok)
  subst e
  have hd : (Detail.newP : Detail Float).d = f% 0.0 := congrArg Pub.d Detail.newP_frame.1
  exact Detail.meter_list hL hN ms none h nofun hs (last := []) (fun _ h => by cases h) Detail.coherent_new (by rw [hd]; exact fin0)
    (by rw [hd]; exact toR0.ge)

/-! ## The hypotheses can be met -/

namespace Detail

theorem mtc0 : decChk true 6 20 ⟨75, 2⟩ = true := by decide +kernel
theorem mtc1 : decChk true 6 20 ⟨25, 2⟩ = true := by decide +kernel
theorem mtc2 : decChk true 0 20 ⟨310, 0⟩ = true := by decide +kernel
theorem mtc3 : decChk true 0 20 ⟨300, 0⟩ = true := by decide +kernel

/-- The gas of the C74 example. -/
def gasA : Composition Float :=
  { Composition.default with methane := f% 0.875, nitrogen := f% 0.0625, carbon_dioxide := f% 0.03125, ethane := f% 0.03125 }

/-- Three parts of methane and one part of nitrogen. -/
def gasB : Composition Float := { Composition.default with methane := f% 0.75, nitrogen := f% 0.25 }

/-- Its mole fractions. -/
noncomputable def gasBx (i : Fin 21) : ℝ := if 1 = i then 0.25 else if 0 = i then 0.75 else 0

theorem frac_four {F : Type} [Add F] [Sub F] [Mul F] [Div F] [Neg F] [FOps F] (a b c d : F) (i : Fin 21) :
    Composition.frac { (Composition.default : Composition F) with methane := a, nitrogen := b, carbon_dioxide := c, ethane := d } i =
      if 3 = i then d else if 2 = i then c else if 1 = i then b else if 0 = i then a else f% 0.0 := by
  fin_cases i <;> rfl

theorem frac_two {F : Type} [Add F] [Sub F] [Mul F] [Div F] [Neg F] [FOps F] (a b : F) (i : Fin 21) :
    Composition.frac { (Composition.default : Composition F) with methane := a, nitrogen := b } i =
      if 1 = i then b else if 0 = i then a else f% 0.0 := by
  fin_cases i <;> rfl

theorem gasA_ok (i : Fin 21) : IsFinite (gasA.frac i) ∧ toR (gasA.frac i) = ng1x i := by
  have v0 : toR (litF ⟨875, 3⟩) = 0.875 := by rw [(decChk_val ngc0).2.1 rfl]; norm_num [decR]
  have v1 : toR (litF ⟨625, 4⟩) = 0.0625 := by rw [(decChk_val ngc1).2.1 rfl]; norm_num [decR]
  have v2 : toR (litF ⟨3125, 5⟩) = 0.03125 := by rw [(decChk_val ngc2).2.1 rfl]; norm_num [decR]
  unfold gasA ng1x
  rw [frac_four]
  split_ifs
  · exact ⟨decChk_fin ngc2, v2⟩
  · exact ⟨decChk_fin ngc2, v2⟩
  · exact ⟨decChk_fin ngc1, v1⟩
  · exact ⟨decChk_fin ngc0, v0⟩
  · exact ⟨fin0, toR0⟩

theorem gasB_ok (i : Fin 21) : IsFinite (gasB.frac i) ∧ toR (gasB.frac i) = gasBx i := by
  have v0 : toR (litF ⟨75, 2⟩) = 0.75 := by rw [(decChk_val mtc0).2.1 rfl]; norm_num [decR]
  have v1 : toR (litF ⟨25, 2⟩) = 0.25 := by rw [(decChk_val mtc1).2.1 rfl]; norm_num [decR]
  unfold gasB gasBx
  rw [frac_two]
  split_ifs
  · exact ⟨decChk_fin mtc1, v1⟩
  · exact ⟨decChk_fin mtc0, v0⟩
  · exact ⟨fin0, toR0⟩

theorem gasBx_normal : Eos.NormalGas gasBx := by
  refine ⟨fun i => ?_, ?_, ?_, ?_, ?_, ?_, ?_, ?_, ?_, ?_, ?_, ?_, ?_, ?_, ?_, ?_, ?_⟩
  · unfold gasBx
    split_ifs <;> norm_num
  · simp only [Fin.sum_univ_succ]
    simp [gasBx, Fin.ext_iff]
    norm_num
  all_goals simp [gasBx, Fin.ext_iff]
  all_goals norm_num

theorem v300 : IsFinite (f% 300.0 : Float) ∧ toR (f% 300.0 : Float) = 300 := by
  refine ⟨decChk_fin mtc3, ?_⟩
  show toR (litF ⟨300, 0⟩) = 300
  rw [(decChk_val mtc3).2.1 rfl]; norm_num [decR]
theorem v310 : IsFinite (f% 310.0 : Float) ∧ toR (f% 310.0 : Float) = 310 := by
  refine ⟨decChk_fin mtc2, ?_⟩
  show toR (litF ⟨310, 0⟩) = 310
  rw [(decChk_val mtc2).2.1 rfl]; norm_num [decR]
theorem v1000 : IsFinite (f% 1000.0 : Float) ∧ toR (f% 1000.0 : Float) = 1000 := by
  refine ⟨decChk_fin chk1000, ?_⟩
  show toR (litF ⟨1000, 0⟩) = 1000
  rw [(decChk_val chk1000).2.1 rfl]; norm_num [decR]

theorem sampleA {t : Float} {T : ℝ} (ht : IsFinite t ∧ toR t = T) (h1 : 300 ≤ T) (h2 : T ≤ 310) :
    GasSample ⟨gasA, t, f% 1000.0⟩ := by
  have e : Sample.x ⟨gasA, t, f% 1000.0⟩ = ng1x := funext fun i => (gasA_ok i).2
  have n := ng1_normal
  rw [show (fun i => toR (aget ng1.x i)) = ng1x from funext fun i => (ng1_ok.1 i).2] at n
  have hs : ∑ i, ng1x i = 1 := by
    simp only [Fin.sum_univ_succ]
    simp [ng1x, Fin.ext_iff]
    norm_num
  have T0 : 0 < 8.31451 * T := by positivity
  refine ⟨fun i => (gasA_ok i).1, by rw [e]; exact n, fun i => ?_, by rw [e, hs]; norm_num, by rw [e, hs]; norm_num, ht.1, ?_, ?_, v1000.1,
    ?_, ?_⟩
  · rw [e]
    unfold ng1x
    split_ifs <;> norm_num
  all_goals dsimp only
  · rw [ht.2]; linarith
  · rw [ht.2]; linarith
  · rw [ht.2, v1000.2, le_div_iff₀ T0]; norm_num; linarith
  · rw [ht.2, v1000.2, div_le_iff₀ T0]; norm_num; linarith

theorem sampleB : GasSample ⟨gasB, f% 300.0, f% 1000.0⟩ := by
  have e : Sample.x ⟨gasB, f% 300.0, f% 1000.0⟩ = gasBx := funext fun i => (gasB_ok i).2
  have hs : ∑ i, gasBx i = 1 := by
    simp only [Fin.sum_univ_succ]
    simp [gasBx, Fin.ext_iff]
    norm_num
  refine ⟨fun i => (gasB_ok i).1, by rw [e]; exact gasBx_normal, fun i => ?_, by rw [e, hs]; norm_num, by rw [e, hs]; norm_num, v300.1, ?_,
    ?_, v1000.1, ?_, ?_⟩
  · rw [e]
    unfold gasBx
    split_ifs <;> norm_num
  all_goals dsimp only
  · rw [v300.2]; norm_num
  · rw [v300.2]; norm_num
  · rw [v300.2, v1000.2]; norm_num
  · rw [v300.2, v1000.2]; norm_num

end Detail

/-- Four samples that meet the hypotheses: the gas of C74 at 300 K, twice, then at 310 K, then another gas at 300 K. -/
example (hL : LibmAccurate) (hN : LnAccurate) (new0 : Detail Float) (hnew : Detail.new = .ok new0) :
    ∃ s' o1 o2 o3 o4, new0.meterAll [⟨Detail.gasA, f% 300.0, f% 1000.0⟩, ⟨Detail.gasA, f% 300.0, f% 1000.0⟩,
        ⟨Detail.gasA, f% 310.0, f% 1000.0⟩, ⟨Detail.gasB, f% 300.0, f% 1000.0⟩] = .ok (s', [o1, o2, o3, o4]) ∧
      Detail.Accurate ⟨Detail.gasB, f% 300.0, f% 1000.0⟩ o4 := by
  have hA := Detail.sampleA Detail.v300 (le_refl _) (by norm_num)
  have hA' := Detail.sampleA Detail.v310 (by norm_num) (le_refl _)
  have hall : ∀ m ∈ [(⟨Detail.gasA, f% 300.0, f% 1000.0⟩ : Sample), ⟨Detail.gasA, f% 300.0, f% 1000.0⟩,
      ⟨Detail.gasA, f% 310.0, f% 1000.0⟩, ⟨Detail.gasB, f% 300.0, f% 1000.0⟩], Detail.GasSample m :=
    List.forall_mem_cons.2 ⟨hA, List.forall_mem_cons.2 ⟨hA, List.forall_mem_cons.2 ⟨hA', List.forall_mem_cons.2 ⟨Detail.sampleB,
      fun _ h => by cases h⟩⟩⟩⟩
  have hst : Sample.Steps [⟨Detail.gasA, f% 300.0, f% 1000.0⟩, ⟨Detail.gasA, f% 300.0, f% 1000.0⟩,
      ⟨Detail.gasA, f% 310.0, f% 1000.0⟩, ⟨Detail.gasB, f% 300.0, f% 1000.0⟩] := by
    refine ⟨⟨Or.inl rfl, Or.inl rfl⟩, ⟨Or.inl rfl, Or.inr ?_⟩, ⟨Or.inr ⟨0, ?_⟩, Or.inr ?_⟩, trivial⟩
    · dsimp only
      rw [Detail.v300.2, Detail.v310.2]; norm_num
    · unfold Sample.x
      rw [(Detail.gasA_ok 0).2, (Detail.gasB_ok 0).2]
      unfold Detail.ng1x Detail.gasBx
      simp only [if_neg (show ¬ (3 : Fin 21) = 0 by decide), if_neg (show ¬ (2 : Fin 21) = 0 by decide),
        if_neg (show ¬ (1 : Fin 21) = 0 by decide), if_pos]
      rw [abs_of_neg (by norm_num)]
      norm_num
    · dsimp only
      rw [Detail.v300.2, Detail.v310.2]; norm_num
  obtain ⟨s', outs, h1, h2⟩ := C76_detail_metering hL hN new0 hnew _ hall hst
  cases h2 with | cons a h2 => cases h2 with | cons a h2 => cases h2 with | cons a h2 => cases h2 with | cons a4 h2 =>
    cases h2
    exact ⟨s', _, _, _, _, h1, a4⟩

end Aga8
