import Verif.Lemmas.Metering
import Verif.Props.MixDensity
import Verif.Props.Metering

/-! # C77: a GERG-2008 object that meters gas mixtures

One object, any number of samples, in IEEE-754 arithmetic, with any accurate math library. `Spec/GergMetering` says what is called for a
sample, which samples are meant and what accurate results are. -/

set_option linter.unusedSectionVars false

namespace Aga8

open F64
open Gerg (Pub setPub pub fracs Coherent Resolved DensDomain)

attribute [local irreducible] Gerg.newP Gerg.pressureP Gerg.propertiesP Gerg.densityP

variable [Libm]

namespace Gerg

/-- The public fields hold the sample. -/
structure Holds (m : Sample) (q : Pub Float) : Prop where
  x : ∀ i : Fin 22, aget q.x i = if h : 1 ≤ i.1 then m.comp.frac ⟨i.1 - 1, by omega⟩ else f% 0.0
  t : q.t = m.t
  p : q.p = m.p

theorem GasSample.nonneg {m : Sample} (h : GasSample m) (i : Fin 21) : 0 ≤ m.x i := by
  rcases h.x_min i with e | e
  · exact e.ge
  · exact le_trans (by norm_num) e

theorem GasSample.le_two {m : Sample} (h : GasSample m) (i : Fin 21) : m.x i ≤ 2 := by
  have a := Finset.single_le_sum (fun j _ => h.nonneg j) (Finset.mem_univ i)
  have b := h.sum_high
  norm_num at b
  linarith

theorem Holds.val {m : Sample} {q : Pub Float} (hq : Holds m q) (i : Fin 22) : toR (aget q.x i) = sampleX m i := by
  rw [hq.x]
  unfold sampleX
  split_ifs
  · rfl
  · exact toR0

theorem sampleX_nonneg {m : Sample} (h : GasSample m) (i : Fin 22) : 0 ≤ sampleX m i := by
  unfold sampleX
  split_ifs
  · exact h.nonneg _
  · exact le_refl _

theorem Holds.fracs {m : Sample} (h : GasSample m) {q : Pub Float} (hq : Holds m q) : fracs q = sampleX m := by
  funext i
  unfold Gerg.fracs
  rw [hq.val]
  exact max_eq_left (sampleX_nonneg h i)

theorem sampleX_sum (m : Sample) : ∑ i : Fin 22 with 1 ≤ i.1, sampleX m i = ∑ i, m.x i := by
  rw [Finset.sum_filter, Fin.sum_univ_succ]
  simp only [Fin.val_zero, Fin.val_succ]
  rw [if_neg (by norm_num), zero_add]
  refine Finset.sum_congr rfl fun i _ => ?_
  rw [if_pos (by omega)]
  unfold sampleX
  rw [dif_pos (by simp)]
  rfl

theorem Holds.dens {m : Sample} (h : GasSample m) {q : Pub Float} (hq : Holds m q) : DensDomain q := by
  have T0 : 0 < 8.314472 * toR m.t := by have := h.t_low; positivity
  have p1 := h.p_low
  have p2 := h.p_high
  rw [le_div_iff₀ T0] at p1
  rw [div_le_iff₀ T0] at p2
  have t1 := h.t_low
  have t2 := h.t_high
  have r1 := h.t_red1
  have r2 := h.t_red2
  norm_num at p1 p2 r1
  refine ⟨by rw [hq.t]; exact h.t_fin, by rw [hq.t]; linarith, by rw [hq.t]; linarith, by rw [hq.t, hq.fracs h]; exact r2,
    by rw [hq.t, hq.fracs h]; linarith, by rw [hq.p]; exact h.p_fin, by rw [hq.p]; norm_num; linarith,
    by rw [hq.p]; norm_num; linarith, fun i hi => ?_, fun i hi => ?_, ?_⟩
  · rw [hq.x, dif_pos hi]; exact h.x_fin _
  · rw [hq.val]
    unfold sampleX
    rw [dif_pos hi]
    exact (h.x_min _).imp_right fun a => ⟨a, h.le_two _⟩
  · by_contra hc
    push Not at hc
    have a : ∑ i, m.x i ≤ ∑ i : Fin 21, (1 / 100 : ℝ) := Finset.sum_le_sum fun i _ => by
      have := hc i.succ (by simp)
      rw [hq.val] at this
      unfold sampleX at this
      rw [dif_pos (by simp)] at this
      exact this.le
    have b := h.sum_low
    rw [Finset.sum_const] at a
    simp at a
    norm_num at b
    linarith

theorem GasSample.check {m : Sample} (h : GasSample m) : m.comp.check = .ok () := by
  refine (C02_f64_sound m.comp h.x_fin h.nonneg (h.sum_high.trans ?_)).2 (abs_le.2 ?_)
  · calc (1.01 - 1e-14 : ℝ) ≤ 2 ^ 1 := by norm_num
      _ ≤ 2 ^ 1022 := pow_le_pow_right₀ (by norm_num) (by norm_num)
  · have a := h.sum_low
    have b := h.sum_high
    have e : ∑ i, m.x i = ∑ i, toR (m.comp.frac i) := rfl
    rw [← e]
    generalize ∑ i, m.x i = S at *
    norm_num at a b ⊢
    constructor <;> linarith

/-- The results on a new object, and that the density found can be kept for the next sample. -/
theorem fresh_accurate (hL : LibmAccurate) (hN : LnAccurate) {m : Sample} (h : GasSample m) {q : Pub Float} (hq : Holds m q)
    (fd : IsFinite q.d) (d0 : 0 ≤ toR q.d) :
    (densityP (freshOf q) 0).2 = .ok () ∧ IsFinite (propertiesP (densityP (freshOf q) 0).1).1.d ∧
      Accurate m ⟨.ok (), .ok (), (propertiesP (densityP (freshOf q) 0).1).2, pub (propertiesP (densityP (freshOf q) 0).1).1⟩ := by
  have D := hq.dens h
  have ef := hq.fracs h
  have es : ∑ i : Fin 22 with 1 ≤ i.1, toR (aget q.x i) = ∑ i, m.x i := by
    rw [← sampleX_sum]
    exact Finset.sum_congr rfl fun i _ => hq.val i
  have s1 : 0.99 ≤ ∑ i : Fin 22 with 1 ≤ i.1, toR (aget q.x i) := by
    rw [es]; exact le_trans (by norm_num) h.sum_low
  have s2 : ∑ i : Fin 22 with 1 ≤ i.1, toR (aget q.x i) ≤ 1.01 := by
    rw [es]; exact h.sum_high.trans (by norm_num)
  have T1 : 50 ≤ toR q.t := by rw [hq.t]; exact h.t_low
  have T2 : toR q.t ≤ 1000 := by rw [hq.t]; exact h.t_high
  have T3 : 1.1 * GergEos.Tr (Gerg.fracs q) ≤ toR q.t := by rw [hq.t, ef]; exact h.t_red1
  have P1 : 3e-4 ≤ toR q.p / (8.314472 * toR q.t) := by rw [hq.t, hq.p]; exact h.p_low
  have P2 : toR q.p / (8.314472 * toR q.t) ≤ 300 := by rw [hq.t, hq.p]; exact h.p_high
  have P3 : toR q.p / (8.314472 * toR q.t) * GergEos.invRhoR (Gerg.fracs q)
      ≤ if 1.25 * GergEos.Tr (Gerg.fracs q) ≤ toR q.t then 0.06 else 0.05 := by rw [hq.t, hq.p, ef]; exact h.p_red
  obtain ⟨s', d, e1, e2, e3, e4, e5, e6, e7, e8⟩ := C72_gerg_mixture_density hL hN newP new_ok q D s2 T3 P1 P2 P3 fd d0 0 le_rfl
  obtain ⟨s2', s'', p, d2, a1, a2, a3, c1, c2, a4, a5, a6, a7, a8, a9, a10, -, b4, -, b6, -, b8, b9, b10, b11, b12, b13, b14, -⟩ :=
    C72_gerg_mixture_workflow hL hN newP new_ok q D s1 s2 T1 T2 T3 P1 P2 P3 fd d0 0 le_rfl
  have ix : Idx (freshOf q) := idx_newP_params (params_setPub newP q)
  have i1 : densityP (freshOf q) 0 = (s', .ok ()) := Except.ok.inj ((density_ok ix 0).symm.trans e1)
  have i2 : densityP (freshOf q) 0 = (s2', .ok ()) := Except.ok.inj ((density_ok ix 0).symm.trans a1)
  have j2 : s2' = s' := congrArg Prod.fst (i2.symm.trans i1)
  subst j2
  have ix2 : Idx s2' := by
    have k := (keeps_densityP (freshOf q) 0).params
    rw [i2] at k
    exact idx_newP_params (k.trans (params_setPub newP q))
  have k2 : propertiesP s2' = (s'', p) := Except.ok.inj ((properties_ok ix2).symm.trans a2)
  rw [i1]
  dsimp only
  rw [k2]
  dsimp only
  have hdz : pub s2' = { pub (freshOf q) with d := s2'.d, z := s2'.z } := by
    have := dz_densityP le_rfl (freshOf q) (iflag := 0)
    rw [i1] at this
    exact this
  have et : s''.t = m.t := by
    have := propertiesP_t s2'
    rw [k2] at this
    rw [← hq.t, this]
    exact congrArg Pub.t hdz
  have ep : s''.p = m.p := by
    have := propertiesP_p s2'
    rw [k2] at this
    rw [← hq.p, this]
    exact congrArg Pub.p hdz
  have dd : d2 = d := e7 d2 c1 c2 a4
  subst dd
  rw [ef, hq.t, hq.p] at e6 e7
  rw [ef] at e5
  rw [ef, hq.t] at a8 b4 b6 b8 b10 b12 b14
  rw [hq.p] at a10
  exact ⟨rfl, by rw [a3]; exact e2, rfl, rfl, et, ep, ⟨a5, d2, e4, e5, e6, e7, a6, a7, a8⟩, ⟨a9, a10⟩, b4, b6, b8, ⟨b9, b10⟩, ⟨b11, b12⟩,
    ⟨b13, b14⟩⟩

/-- The fractions and the temperature evaluated last. -/
def LastIs (m : Option Sample) (last : List (Vector Float 22 × Float)) : Prop :=
  ∀ e ∈ last, ∃ m' q, m = some m' ∧ GasSample m' ∧ Holds m' q ∧ e.1 = q.x ∧ e.2 = m'.t

theorem resolved_sample {m0 : Option Sample} {m : Sample} (h : GasSample m) (hs : ∀ m', m0 = some m' → Sample.Step m' m)
    {last : List (Vector Float 22 × Float)} (hl : LastIs m0 last) {q : Pub Float} (hq : Holds m q) : Resolved last q := by
  have D := (hq.dens h).far
  refine ⟨D.1, D.2, fun e he => ?_⟩
  obtain ⟨m', q', e0, g, hq', e1, e2⟩ := hl e he
  obtain ⟨s1, s2⟩ := hs m' e0
  constructor
  · rcases s1 with s1 | ⟨i, hi⟩
    · left
      intro i h1
      rw [e1, hq.x, hq'.x, s1]
    · right
      refine ⟨i.succ, by simp, ?_⟩
      rw [e1, hq.x, hq'.x, dif_pos (by simp), dif_pos (by simp)]
      have a1 := h.nonneg i
      have a2 := h.le_two i
      have b1 := g.nonneg i
      have b2 := g.le_two i
      have hb : |m.x i - m'.x i| ≤ 10000 := abs_le.2 ⟨by linarith, by linarith⟩
      exact far_of_diff (h.x_fin i) (g.x_fin i) hi hb
  · rcases s2 with s2 | s2
    · left; rw [hq.t, e2, s2]
    · right
      unfold TFar
      rw [hq.t, e2]
      refine far_of_diff h.t_fin g.t_fin s2 ?_
      have a1 := h.t_low
      have a2 := h.t_high
      have b1 := g.t_low
      have b2 := g.t_high
      exact abs_le.2 ⟨by linarith, by linarith⟩

/-- One sample, on an object that metered others before. -/
theorem meter_one (hL : LibmAccurate) (hN : LnAccurate) {m0 : Option Sample} {m : Sample} (h : GasSample m)
    (hs : ∀ m', m0 = some m' → Sample.Step m' m) {last : List (Vector Float 22 × Float)} (hl : LastIs m0 last) {s : Gerg Float}
    (hc : Coherent last s) (fd : IsFinite s.d) (d0 : 0 ≤ toR s.d) :
    ∃ s' o last', meter s m = .ok (s', o) ∧ Accurate m o ∧ LastIs (some m) last' ∧ Coherent last' s' ∧ IsFinite s'.d ∧
      0 ≤ toR s'.d := by
  have es : set_composition s m.comp = (withX s (compX s.x m.comp), .ok ()) := by
    rw [set_composition_eq, h.check]
  obtain ⟨s1, hs1⟩ : ∃ s1, s1 = sampled s (compX s.x m.comp) m.t m.p := ⟨_, rfl⟩
  have hpub : pub s1 = { pub s with x := compX s.x m.comp, t := m.t, p := m.p } := by rw [hs1]; exact pub_sampled _ _ _ _
  have hq : Holds m (pub s1) := ⟨fun i => by rw [hpub]; exact aget_compX s.x m.comp i, by rw [hpub], by rw [hpub]⟩
  have hd : (pub s1).d = s.d := by rw [hpub]; rfl
  have hc1 : Coherent last s1 := coherent_cache hc (by rw [hs1]; exact params_sampled _ _ _ _) (by rw [hs1]; exact cache_sampled _ _ _ _)
  have hr := resolved_sample h hs hl hq
  have ix : Idx s1 := idx_newP_params hc1.1
  obtain ⟨r1, r2, r2', ix2, r3⟩ := meter_sim F64.selfDiff hc1 hr
  obtain ⟨f1, f2, f3⟩ := fresh_accurate hL hN h hq (by rw [hd]; exact fd) (by rw [hd]; exact d0)
  rw [f1] at r1
  rw [← r2, ← r2'] at f3
  have r4 : (propertiesP (densityP s1 0).1).1.d = (propertiesP (densityP (freshOf (pub s1)) 0).1).1.d := congrArg Pub.d r2
  rw [← r4] at f2
  have f4 := f3.density.1.le
  have r5 : meter s m = .ok ((propertiesP (densityP s1 0).1).1,
      ⟨.ok (), .ok (), (propertiesP (densityP s1 0).1).2, pub (propertiesP (densityP s1 0).1).1⟩) := by
    unfold meter
    rw [es]
    dsimp only
    rw [sampled_eq, ← hs1, density_ok ix]
    simp only [bind, Except.bind, pure, Except.pure]
    rw [properties_ok ix2, r1]
  clear r2 r2' f1 r1 r4 hs1 ix2
  generalize propertiesP (densityP s1 0).1 = s2 at *
  refine ⟨s2.1, ⟨.ok (), .ok (), s2.2, pub s2.1⟩, [(s1.x, s1.t)], r5, f3, fun e he => ?_, r3, f2, f4⟩
  rw [List.mem_singleton.1 he]
  exact ⟨m, pub s1, rfl, h, hq, rfl, hq.t⟩

theorem meter_list (hL : LibmAccurate) (hN : LnAccurate) (ms : List Sample) (m0 : Option Sample) (h : ∀ m ∈ ms, GasSample m)
    (hs0 : ∀ m' m, m0 = some m' → ms.head? = some m → Sample.Step m' m) (hs : Sample.Steps ms)
    {last : List (Vector Float 22 × Float)} (hl : LastIs m0 last) {s : Gerg Float} (hc : Coherent last s) (fd : IsFinite s.d)
    (d0 : 0 ≤ toR s.d) :
    ∃ s' outs, meterAll s ms = .ok (s', outs) ∧ List.Forall₂ Accurate ms outs := by
  induction ms generalizing m0 last s with
  | nil => exact ⟨s, [], rfl, .nil⟩
  | cons m ms ih =>
    obtain ⟨s1, o, last', e1, e2, e3, e4, e5, e6⟩ := meter_one hL hN (h m List.mem_cons_self) (fun m' e => hs0 m' m e rfl) hl hc fd d0
    have hs' : Sample.Steps ms ∧ ∀ m' m'', some m = some m' → ms.head? = some m'' → Sample.Step m' m'' := by
      cases ms with
      | nil => exact ⟨trivial, fun _ _ _ e => by cases e⟩
      | cons b ms =>
        refine ⟨hs.2, fun m' m'' a c => ?_⟩
        cases a
        cases c
        exact hs.1
    obtain ⟨s2, outs, g1, g2⟩ := ih (some m) (fun k hk => h k (List.mem_cons_of_mem _ hk)) hs'.2 hs'.1 e3 e4 e5 e6
    refine ⟨s2, o :: outs, ?_, .cons e2 g2⟩
    simp only [meterAll, e1, g1, bind, Except.bind, pure, Except.pure]

end Gerg

/-- C77: with an accurate math library, an object that is created once and meters any number of samples of gas mixtures, whose
compositions and temperatures change noticeably or not at all from each sample to the next, gives accurate results for every sample. -/
theorem C77_gerg_metering (hL : LibmAccurate) (hN : LnAccurate) (new0 : Gerg Float) (hnew : Gerg.new = .ok new0)
    (ms : List Sample) (h : ∀ m ∈ ms, Gerg.GasSample m) (hs : Sample.Steps ms) :
    ∃ s' outs, new0.meterAll ms = .ok (s', outs) ∧ List.Forall₂ Gerg.Accurate ms outs := by
  have e := Gerg.new_inj hnew
  subst e
  have hd : (Gerg.newP : Gerg Float).d = f% 0.0 := congrArg Pub.d Gerg.newP_frame.1
  exact Gerg.meter_list hL hN ms none h nofun hs (last := []) (fun _ h => by cases h) Gerg.coherent_new (by rw [hd]; exact fin0)
    (by rw [hd]; exact toR0.ge)

/-! ## The hypotheses can be met -/

namespace Gerg

/-- Equal parts of methane and nitrogen. -/
def gasM : Composition Float := { Composition.default with methane := f% 0.5, nitrogen := f% 0.5 }

theorem gasM_ok (i : Fin 21) : IsFinite (gasM.frac i) ∧ toR (gasM.frac i) = if 1 = i then 0.5 else if 0 = i then 0.5 else 0 := by
  have c : decChk true 6 20 ⟨5, 1⟩ = true := by decide +kernel
  have v : toR (litF ⟨5, 1⟩) = 0.5 := by rw [(decChk_val c).2.1 rfl]; norm_num [decR]
  unfold gasM
  rw [Detail.frac_two]
  split_ifs
  · exact ⟨decChk_fin c, v⟩
  · exact ⟨decChk_fin c, v⟩
  · exact ⟨fin0, toR0⟩

theorem gasM_x (t p : Float) : sampleX ⟨gasM, t, p⟩ = fracs errMix := by
  rw [errMix_fracs]
  funext i
  unfold sampleX Sample.x
  simp only [(gasM_ok _).2]
  fin_cases i <;> simp [Fin.ext_iff]

theorem sampleM {t : Float} {T : ℝ} (ht : IsFinite t ∧ toR t = T) (h1 : 300 ≤ T) (h2 : T ≤ 310) :
    GasSample ⟨gasM, t, f% 1000.0⟩ := by
  have e : Sample.x ⟨gasM, t, f% 1000.0⟩ = fun i => if 1 = i then 0.5 else if 0 = i then 0.5 else 0 := funext fun i => (gasM_ok i).2
  have hs : ∑ i : Fin 21, (if 1 = i then 0.5 else if 0 = i then 0.5 else 0 : ℝ) = 1 := by
    simp only [Fin.sum_univ_succ]
    simp [Fin.ext_iff]
    norm_num
  obtain ⟨T1, T2⟩ := errMix_Tr
  obtain ⟨V1, V2⟩ := errMix_V
  have T0 : 0 < 8.314472 * T := by positivity
  have P2 : (1000 : ℝ) / (8.314472 * T) ≤ 0.41 := by rw [div_le_iff₀ T0]; norm_num; linarith
  refine ⟨fun i => (gasM_ok i).1, fun i => ?_, by rw [e, hs]; norm_num, by rw [e, hs]; norm_num, ht.1, ?_, ?_, ?_, ?_, Detail.v1000.1, ?_,
    ?_, ?_⟩
  · rw [e]
    dsimp only
    split_ifs <;> norm_num
  · dsimp only; rw [ht.2]; linarith
  · dsimp only; rw [ht.2]; linarith
  · rw [gasM_x]; dsimp only; rw [ht.2]; norm_num; linarith
  · rw [gasM_x]; dsimp only; rw [ht.2]; linarith
  · dsimp only; rw [ht.2, Detail.v1000.2, le_div_iff₀ T0]; norm_num; linarith
  · dsimp only; rw [ht.2, Detail.v1000.2]; exact P2.trans (by norm_num)
  · rw [gasM_x]; dsimp only; rw [ht.2, Detail.v1000.2]
    refine (mul_le_mul P2 V2 V1 (by norm_num)).trans ?_
    split_ifs <;> norm_num

end Gerg

/-- Three samples that meet the hypotheses: equal parts of methane and nitrogen at 300 K, twice, then at 310 K. -/
example (hL : LibmAccurate) (hN : LnAccurate) (new0 : Gerg Float) (hnew : Gerg.new = .ok new0) :
    ∃ s' o1 o2 o3, new0.meterAll [⟨Gerg.gasM, f% 300.0, f% 1000.0⟩, ⟨Gerg.gasM, f% 300.0, f% 1000.0⟩,
        ⟨Gerg.gasM, f% 310.0, f% 1000.0⟩] = .ok (s', [o1, o2, o3]) ∧ Gerg.Accurate ⟨Gerg.gasM, f% 310.0, f% 1000.0⟩ o3 := by
  have hA := Gerg.sampleM Detail.v300 (le_refl _) (by norm_num)
  have hA' := Gerg.sampleM Detail.v310 (by norm_num) (le_refl _)
  have hall : ∀ m ∈ [(⟨Gerg.gasM, f% 300.0, f% 1000.0⟩ : Sample), ⟨Gerg.gasM, f% 300.0, f% 1000.0⟩,
      ⟨Gerg.gasM, f% 310.0, f% 1000.0⟩], Gerg.GasSample m :=
    List.forall_mem_cons.2 ⟨hA, List.forall_mem_cons.2 ⟨hA, List.forall_mem_cons.2 ⟨hA', fun _ h => by cases h⟩⟩⟩
  have hst : Sample.Steps [⟨Gerg.gasM, f% 300.0, f% 1000.0⟩, ⟨Gerg.gasM, f% 300.0, f% 1000.0⟩,
      ⟨Gerg.gasM, f% 310.0, f% 1000.0⟩] := by
    refine ⟨⟨Or.inl rfl, Or.inl rfl⟩, ⟨Or.inl rfl, Or.inr ?_⟩, trivial⟩
    dsimp only
    rw [Detail.v300.2, Detail.v310.2]; norm_num
  obtain ⟨s', outs, h1, h2⟩ := C77_gerg_metering hL hN new0 hnew _ hall hst
  cases h2 with | cons a h2 => cases h2 with | cons a h2 => cases h2 with | cons a3 h2 =>
    cases h2
    exact ⟨s', _, _, _, h1, a3⟩

end Aga8
