import Verif.Lemmas.GergMixUpper
import Verif.Props.GergMetering

/-! # C79 for GERG-2008: the densities a meter reads follow pressure and temperature

Two samples of the same gas mixture, anywhere in a list of samples that one GERG-2008 object meters, in IEEE-754 arithmetic with any
accurate math library. `Spec/GergMetering` says what is called for a sample and which samples are meant. -/

set_option linter.unusedSectionVars false

namespace Aga8

open F64

variable [Libm]

namespace Gerg

/-- The fractions of a sample as a vector. -/
noncomputable def vecX (m : Sample) : Vector ℝ 22 := Vector.ofFn (sampleX m)

theorem aget_vecX (m : Sample) (i : Fin 22) : aget (vecX m) i = sampleX m i := by
  unfold vecX
  simp [aget]

theorem yOf_vecX {m : Sample} (h : GasSample m) : yOf (vecX m) = sampleX m := by
  funext i
  unfold yOf
  rw [aget_vecX]
  split_ifs with c
  · rfl
  · unfold sampleX at c ⊢
    split_ifs at c ⊢ with hi
    · rcases h.x_min ⟨i.1 - 1, by omega⟩ with e | e
      · exact e.symm
      · exact absurd (lt_of_lt_of_le (by norm_num) e) c
    · rfl

theorem vecX_big {m : Sample} (h : GasSample m) : ∃ k : Fin 22, 1 ≤ k.1 ∧ 1 / 100 ≤ aget (vecX m) k := by
  by_contra hc
  push Not at hc
  have a : ∑ i, m.x i ≤ ∑ i : Fin 21, (1 / 100 : ℝ) := Finset.sum_le_sum fun i _ => by
    have := hc i.succ (by simp)
    rw [aget_vecX] at this
    unfold sampleX at this
    rw [dif_pos (by simp)] at this
    exact this.le
  have b := h.sum_low
  rw [Finset.sum_const] at a
  simp at a
  norm_num at b
  linarith

theorem GasSample.red {m : Sample} (h : GasSample m) : toR m.p / (8.314472 * toR m.t) * GergEos.invRhoR (sampleX m) ≤
    if GergEos.Tr (sampleX m) / toR m.t ≤ 8 / 10 then 0.06 else 0.05 := by
  have T0 : 0 < toR m.t := lt_of_lt_of_le (by norm_num) h.t_low
  refine h.p_red.trans (le_of_eq ?_)
  have : 1.25 * GergEos.Tr (sampleX m) ≤ toR m.t ↔ GergEos.Tr (sampleX m) / toR m.t ≤ 8 / 10 := by
    rw [div_le_iff₀ T0]
    norm_num
    constructor <;> intro _ <;> linarith
  simp only [this]

theorem GasSample.p_pos {m : Sample} (h : GasSample m) : 0 < toR m.p := by
  have T0 : 0 < 8.314472 * toR m.t := by have := h.t_low; positivity
  have := h.p_low
  rw [le_div_iff₀ T0] at this
  exact lt_of_lt_of_le (by positivity) this

/-- Two accurate results for samples of the same gas. -/
theorem accurate_order {m m' : Sample} (h : GasSample m) (h' : GasSample m') (hc : m'.comp = m.comp) (ht : toR m'.t ≤ toR m.t)
    (hp : toR m.p ≤ toR m'.p) {o o' : Outcome} (a : Accurate m o) (a' : Accurate m' o') :
    (Real.log (toR m'.p) - Real.log (toR m.p) + 0.9 * (Real.log (toR m.t) - Real.log (toR m'.t))) / 1.1816 - 1.94e-7
        ≤ Real.log (toR o'.res.d) - Real.log (toR o.res.d) ∧
      Real.log (toR o'.res.d) - Real.log (toR o.res.d)
        ≤ (Real.log (toR m'.p) - Real.log (toR m.p) + 5.7 * (Real.log (toR m.t) - Real.log (toR m'.t))) / 0.807 + 1.94e-7 := by
  have ex : sampleX m' = sampleX m := by unfold sampleX Sample.x; rw [hc]
  obtain ⟨-, d, d1, d2, e, -, l, -⟩ := a.density
  obtain ⟨-, d', d1', d2', e', -, l', -⟩ := a'.density
  have ey := yOf_vecX h
  have r := h.red
  have r' := h'.red
  have t1 := h'.t_red1
  have t2 := h.t_red2
  rw [ex] at e' d2' r' t1
  rw [← ey] at e' d2' r' t1 e d2 r t2
  obtain ⟨k, k1, k2⟩ := vecX_big h
  have v0 := vr_low k1 k2
  obtain ⟨o1, o2⟩ := order_mix (x := vecX m) ⟨k, k1, le_trans (by norm_num) k2⟩ (fun i _ => by rw [ey]; exact sampleX_nonneg h i)
    (by rw [ey, sampleX_sum]; exact h.sum_high.trans (by norm_num)) (le_trans (by norm_num) v0) (lt_of_lt_of_le (by norm_num) h'.t_low)
    t1 ht t2 h.p_pos hp r r' d1 d2 d1' d2' e e'
  obtain ⟨l1, l2⟩ := abs_le.1 l
  obtain ⟨l1', l2'⟩ := abs_le.1 l'
  norm_num at l1 l2 l1' l2' o1 o2 ⊢
  constructor <;> linarith

end Gerg

/-- C79: one object meters a list of samples of gas mixtures. For any two samples of it with the same composition, the second with a
pressure that is not lower and a temperature that is not higher, the logarithm of the density read grows at least and at most by what
pressure and temperature account for, up to 1.94e-7. -/
theorem C79_gerg_density_follows (hL : LibmAccurate) (hN : LnAccurate) (new0 : Gerg Float) (hnew : Gerg.new = .ok new0)
    (ms : List Sample) (h : ∀ m ∈ ms, Gerg.GasSample m) (hs : Sample.Steps ms) :
    ∃ s' outs, new0.meterAll ms = .ok (s', outs) ∧ ∃ hlen : outs.length = ms.length, ∀ i j : Fin ms.length,
      (ms.get j).comp = (ms.get i).comp → toR (ms.get j).t ≤ toR (ms.get i).t → toR (ms.get i).p ≤ toR (ms.get j).p →
      let Δp := Real.log (toR (ms.get j).p) - Real.log (toR (ms.get i).p)
      let Δt := Real.log (toR (ms.get i).t) - Real.log (toR (ms.get j).t)
      let Δd := Real.log (toR (outs.get (j.cast hlen.symm)).res.d) - Real.log (toR (outs.get (i.cast hlen.symm)).res.d)
      (Δp + 0.9 * Δt) / 1.1816 - 1.94e-7 ≤ Δd ∧ Δd ≤ (Δp + 5.7 * Δt) / 0.807 + 1.94e-7 := by
  obtain ⟨s', outs, e1, e2⟩ := C77_gerg_metering hL hN new0 hnew ms h hs
  refine ⟨s', outs, e1, e2.length_eq.symm, fun i j hc ht hp => ?_⟩
  exact Gerg.accurate_order (h _ (List.get_mem ms i)) (h _ (List.get_mem ms j)) hc ht hp (e2.get i.2 _) (e2.get j.2 _)

/-- C79: and so the densities read are in the right order, when the pressures differ by 0.3 ppm or the temperatures by 0.3 ppm: a sample
of the same gas with more pressure and no more temperature, or with less temperature and no less pressure, has the larger density. -/
theorem C79_gerg_density_order (hL : LibmAccurate) (hN : LnAccurate) (new0 : Gerg Float) (hnew : Gerg.new = .ok new0)
    (ms : List Sample) (h : ∀ m ∈ ms, Gerg.GasSample m) (hs : Sample.Steps ms) :
    ∃ s' outs, new0.meterAll ms = .ok (s', outs) ∧ ∃ hlen : outs.length = ms.length, ∀ i j : Fin ms.length,
      (ms.get j).comp = (ms.get i).comp →
      (toR (ms.get j).t ≤ toR (ms.get i).t ∧ 1.0000003 * toR (ms.get i).p ≤ toR (ms.get j).p ∨
        1.0000003 * toR (ms.get j).t ≤ toR (ms.get i).t ∧ toR (ms.get i).p ≤ toR (ms.get j).p) →
      toR (outs.get (i.cast hlen.symm)).res.d < toR (outs.get (j.cast hlen.symm)).res.d := by
  obtain ⟨s', outs, e1, e2⟩ := C77_gerg_metering hL hN new0 hnew ms h hs
  refine ⟨s', outs, e1, e2.length_eq.symm, fun i j hc hor => ?_⟩
  have hi := h _ (List.get_mem ms i)
  have hj := h _ (List.get_mem ms j)
  have ai : Gerg.Accurate (ms.get i) (outs.get (i.cast e2.length_eq)) := e2.get i.2 _
  have aj : Gerg.Accurate (ms.get j) (outs.get (j.cast e2.length_eq)) := e2.get j.2 _
  generalize ms.get i = m at *
  generalize ms.get j = m' at *
  generalize outs.get (i.cast e2.length_eq) = o at *
  generalize outs.get (j.cast e2.length_eq) = o' at *
  have T0 : 0 < toR m.t := lt_of_lt_of_le (by norm_num) hi.t_low
  have T0' : 0 < toR m'.t := lt_of_lt_of_le (by norm_num) hj.t_low
  have p0 := hi.p_pos
  rw [← Real.log_lt_log_iff ai.density.1 aj.density.1]
  rcases hor with ⟨ht, hp⟩ | ⟨ht, hp⟩
  · have hp' : toR m.p ≤ toR m'.p := le_trans (by norm_num; linarith) hp
    have r := (Gerg.accurate_order hi hj hc ht hp' ai aj).1
    have l1 := Real.log_le_log (by positivity) hp
    rw [Real.log_mul (by norm_num) p0.ne'] at l1
    have l2 := Real.log_le_log T0' ht
    have l3 := Real.one_sub_inv_le_log_of_pos (show (0 : ℝ) < 1.0000003 by norm_num)
    norm_num at l1 l3 r ⊢
    linarith
  · have ht' : toR m'.t ≤ toR m.t := le_trans (by norm_num; linarith) ht
    have r := (Gerg.accurate_order hi hj hc ht' hp ai aj).1
    have l1 := Real.log_le_log (by positivity) ht
    rw [Real.log_mul (by norm_num) T0'.ne'] at l1
    have l2 := Real.log_le_log p0 hp
    have l3 := Real.one_sub_inv_le_log_of_pos (show (0 : ℝ) < 1.0000003 by norm_num)
    norm_num at l1 l3 r ⊢
    linarith

/-- Non-vacuity: an equimolar mixture of methane and nitrogen at 1 MPa, metered at 300 K and again at 310 K by the same object: the
second density read is the smaller one. -/
example (hL : LibmAccurate) (hN : LnAccurate) (new0 : Gerg Float) (hnew : Gerg.new = .ok new0) :
    ∃ s' o1 o2, new0.meterAll [⟨Gerg.gasM, f% 300.0, f% 1000.0⟩, ⟨Gerg.gasM, f% 310.0, f% 1000.0⟩] = .ok (s', [o1, o2]) ∧
      toR o2.res.d < toR o1.res.d := by
  have hA := Gerg.sampleM Detail.v300 (le_refl _) (by norm_num)
  have hA' := Gerg.sampleM Detail.v310 (by norm_num) (le_refl _)
  have hall : ∀ m ∈ [(⟨Gerg.gasM, f% 300.0, f% 1000.0⟩ : Sample), ⟨Gerg.gasM, f% 310.0, f% 1000.0⟩], Gerg.GasSample m :=
    List.forall_mem_cons.2 ⟨hA, List.forall_mem_cons.2 ⟨hA', fun _ h => by cases h⟩⟩
  have hst : Sample.Steps [⟨Gerg.gasM, f% 300.0, f% 1000.0⟩, ⟨Gerg.gasM, f% 310.0, f% 1000.0⟩] := by
    refine ⟨⟨Or.inl rfl, Or.inr ?_⟩, trivial⟩
    dsimp only
    rw [Detail.v300.2, Detail.v310.2]; norm_num
  obtain ⟨s', outs, h1, hlen, h2⟩ := C79_gerg_density_order hL hN new0 hnew _ hall hst
  match outs, hlen with
  | [o1, o2], hlen =>
    refine ⟨s', o1, o2, h1, ?_⟩
    refine h2 ⟨1, Nat.lt_succ_self 1⟩ ⟨0, Nat.succ_pos 1⟩ rfl (Or.inr ⟨?_, le_refl _⟩)
    show 1.0000003 * toR (f% 300.0 : Float) ≤ toR (f% 310.0 : Float)
    rw [Detail.v300.2, Detail.v310.2]; norm_num

end Aga8
