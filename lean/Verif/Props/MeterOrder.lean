import Verif.Lemmas.NgOrder
import Verif.Props.Metering

/-! # C79: the densities a meter reads follow pressure and temperature

Two samples of the same natural gas, anywhere in a list of samples that one DETAIL object meters, in IEEE-754 arithmetic with any
accurate math library. `Spec/Metering` says what is called for a sample and which samples are meant. -/

set_option linter.unusedSectionVars false

namespace Aga8

open F64

variable [Libm]

namespace Detail

/-- Two accurate results for samples of the same gas. -/
theorem accurate_order {m m' : Sample} (h : GasSample m) (h' : GasSample m') (hc : m'.comp = m.comp) (ht : toR m'.t ≤ toR m.t)
    (hp : toR m.p ≤ toR m'.p) {o o' : Outcome} (a : Accurate m o) (a' : Accurate m' o') :
    (Real.log (toR m'.p) - Real.log (toR m.p) + 0.57 * (Real.log (toR m.t) - Real.log (toR m'.t))) / 1.09 - 1.44e-7
        ≤ Real.log (toR o'.res.d) - Real.log (toR o.res.d) ∧
      Real.log (toR o'.res.d) - Real.log (toR o.res.d)
        ≤ (Real.log (toR m'.p) - Real.log (toR m.p) + 1.63 * (Real.log (toR m.t) - Real.log (toR m'.t))) / 0.78 + 1.44e-7 := by
  have ex : m'.x = m.x := by unfold Sample.x; rw [hc]
  obtain ⟨-, d, d1, d2, e, -, l, -⟩ := a.density
  obtain ⟨-, d', d1', d2', e', -, l', -⟩ := a'.density
  rw [ex] at e'
  have p0 : 0 < toR m.p := by
    have T0 : 0 < 8.31451 * toR m.t := by have := h.t_low; positivity
    have := h.p_low
    rw [le_div_iff₀ T0] at this
    exact lt_of_lt_of_le (by positivity) this
  have c := Ng.density_le h.normal h.t_low h.t_high h.p_high d1 d2 (C74_natural_gas_stable _ h.normal _ h.t_low h.t_high) e
  have c' := Ng.density_le h.normal h'.t_low h'.t_high h'.p_high d1' d2' (C74_natural_gas_stable _ h.normal _ h'.t_low h'.t_high) e'
  obtain ⟨r1, r2⟩ := Ng.order_exact h.normal h'.t_low ht h.t_high p0 hp d1 c d1' c' e e'
  obtain ⟨l1, l2⟩ := abs_le.1 l
  obtain ⟨l1', l2'⟩ := abs_le.1 l'
  norm_num at l1 l2 l1' l2' ⊢
  norm_num at r1 r2
  constructor <;> linarith

end Detail

/-- C79: one object meters a list of natural gas samples. For any two samples of it with the same composition, the second with a pressure
that is not lower and a temperature that is not higher, the logarithm of the density read changes by what pressure and temperature
account for, up to 1.44e-7: there are no jumps and no reversals. -/
theorem C79_detail_density_follows (hL : LibmAccurate) (hN : LnAccurate) (new0 : Detail Float) (hnew : Detail.new = .ok new0)
    (ms : List Sample) (h : ∀ m ∈ ms, Detail.GasSample m) (hs : Sample.Steps ms) :
    ∃ s' outs, new0.meterAll ms = .ok (s', outs) ∧ ∃ hlen : outs.length = ms.length, ∀ i j : Fin ms.length,
      (ms.get j).comp = (ms.get i).comp → toR (ms.get j).t ≤ toR (ms.get i).t → toR (ms.get i).p ≤ toR (ms.get j).p →
      let Δp := Real.log (toR (ms.get j).p) - Real.log (toR (ms.get i).p)
      let Δt := Real.log (toR (ms.get i).t) - Real.log (toR (ms.get j).t)
      let Δd := Real.log (toR (outs.get (j.cast hlen.symm)).res.d) - Real.log (toR (outs.get (i.cast hlen.symm)).res.d)
      (Δp + 0.57 * Δt) / 1.09 - 1.44e-7 ≤ Δd ∧ Δd ≤ (Δp + 1.63 * Δt) / 0.78 + 1.44e-7 := by
  obtain ⟨s', outs, e1, e2⟩ := C76_detail_metering hL hN new0 hnew ms h hs
  refine ⟨s', outs, e1, e2.length_eq.symm, fun i j hc ht hp => ?_⟩
  exact Detail.accurate_order (h _ (List.get_mem ms i)) (h _ (List.get_mem ms j)) hc ht hp (e2.get i.2 _) (e2.get j.2 _)

/-- C79: and so the densities read are in the right order, when the pressures differ by 0.2 ppm or the temperatures by 0.3 ppm: a sample
of the same gas with more pressure and no more temperature, or with less temperature and no less pressure, has the larger density. -/
theorem C79_detail_density_order (hL : LibmAccurate) (hN : LnAccurate) (new0 : Detail Float) (hnew : Detail.new = .ok new0)
    (ms : List Sample) (h : ∀ m ∈ ms, Detail.GasSample m) (hs : Sample.Steps ms) :
    ∃ s' outs, new0.meterAll ms = .ok (s', outs) ∧ ∃ hlen : outs.length = ms.length, ∀ i j : Fin ms.length,
      (ms.get j).comp = (ms.get i).comp →
      (toR (ms.get j).t ≤ toR (ms.get i).t ∧ 1.0000002 * toR (ms.get i).p ≤ toR (ms.get j).p ∨
        1.0000003 * toR (ms.get j).t ≤ toR (ms.get i).t ∧ toR (ms.get i).p ≤ toR (ms.get j).p) →
      toR (outs.get (i.cast hlen.symm)).res.d < toR (outs.get (j.cast hlen.symm)).res.d := by
  obtain ⟨s', outs, e1, e2⟩ := C76_detail_metering hL hN new0 hnew ms h hs
  refine ⟨s', outs, e1, e2.length_eq.symm, fun i j hc hor => ?_⟩
  have hi := h _ (List.get_mem ms i)
  have hj := h _ (List.get_mem ms j)
  have ai : Detail.Accurate (ms.get i) (outs.get (i.cast e2.length_eq)) := e2.get i.2 _
  have aj : Detail.Accurate (ms.get j) (outs.get (j.cast e2.length_eq)) := e2.get j.2 _
  generalize ms.get i = m at *
  generalize ms.get j = m' at *
  generalize outs.get (i.cast e2.length_eq) = o at *
  generalize outs.get (j.cast e2.length_eq) = o' at *
  have T0 : 0 < toR m.t := lt_of_lt_of_le (by norm_num) hi.t_low
  have T0' : 0 < toR m'.t := lt_of_lt_of_le (by norm_num) hj.t_low
  have p0 : 0 < toR m.p := by
    have T0 : 0 < 8.31451 * toR m.t := by positivity
    have := hi.p_low
    rw [le_div_iff₀ T0] at this
    exact lt_of_lt_of_le (by positivity) this
  rw [← Real.log_lt_log_iff ai.density.1 aj.density.1]
  rcases hor with ⟨ht, hp⟩ | ⟨ht, hp⟩
  · have hp' : toR m.p ≤ toR m'.p := le_trans (by norm_num; linarith) hp
    have r := (Detail.accurate_order hi hj hc ht hp' ai aj).1
    have l1 := Real.log_le_log (by positivity) hp
    rw [Real.log_mul (by norm_num) p0.ne'] at l1
    have l2 := Real.log_le_log T0' ht
    have l3 := Real.one_sub_inv_le_log_of_pos (show (0 : ℝ) < 1.0000002 by norm_num)
    norm_num at l1 l3 r ⊢
    linarith
  · have ht' : toR m'.t ≤ toR m.t := le_trans (by norm_num; linarith) ht
    have r := (Detail.accurate_order hi hj hc ht' hp ai aj).1
    have l1 := Real.log_le_log (by positivity) ht
    rw [Real.log_mul (by norm_num) T0'.ne'] at l1
    have l2 := Real.log_le_log p0 hp
    have l3 := Real.one_sub_inv_le_log_of_pos (show (0 : ℝ) < 1.0000003 by norm_num)
    norm_num at l1 l3 r ⊢
    linarith

end Aga8

namespace Aga8

open F64

/-- Non-vacuity: a gas of 87.5 % methane at 1 MPa, metered at 300 K and again at 310 K by the same object: the second density read is
the smaller one. -/
example [Libm] (hL : LibmAccurate) (hN : LnAccurate) (new0 : Detail Float) (hnew : Detail.new = .ok new0) :
    ∃ s' o1 o2, new0.meterAll [⟨Detail.gasA, f% 300.0, f% 1000.0⟩, ⟨Detail.gasA, f% 310.0, f% 1000.0⟩] = .ok (s', [o1, o2]) ∧
      toR o2.res.d < toR o1.res.d := by
  have hA := Detail.sampleA Detail.v300 (le_refl _) (by norm_num)
  have hA' := Detail.sampleA Detail.v310 (by norm_num) (le_refl _)
  have hall : ∀ m ∈ [(⟨Detail.gasA, f% 300.0, f% 1000.0⟩ : Sample), ⟨Detail.gasA, f% 310.0, f% 1000.0⟩], Detail.GasSample m :=
    List.forall_mem_cons.2 ⟨hA, List.forall_mem_cons.2 ⟨hA', fun _ h => by cases h⟩⟩
  have hst : Sample.Steps [⟨Detail.gasA, f% 300.0, f% 1000.0⟩, ⟨Detail.gasA, f% 310.0, f% 1000.0⟩] := by
    refine ⟨⟨Or.inl rfl, Or.inr ?_⟩, trivial⟩
    dsimp only
    rw [Detail.v300.2, Detail.v310.2]; norm_num
  obtain ⟨s', outs, h1, hlen, h2⟩ := C79_detail_density_order hL hN new0 hnew _ hall hst
  match outs, hlen with
  | [o1, o2], hlen =>
    refine ⟨s', o1, o2, h1, ?_⟩
    refine h2 ⟨1, Nat.lt_succ_self 1⟩ ⟨0, Nat.succ_pos 1⟩ rfl (Or.inr ⟨?_, le_refl _⟩)
    show 1.0000003 * toR (f% 300.0 : Float) ≤ toR (f% 310.0 : Float)
    rw [Detail.v300.2, Detail.v310.2]; norm_num

end Aga8
