import Verif.Spec.Estimate
import Verif.Props.FailedAnalyzer
import Verif.Lemmas.NgOrder
import Verif.Props.Metering

/-! # C85: searches that start from an estimate find the same density -/

set_option linter.unusedSectionVars false

namespace Aga8

open F64
open Detail (Pub setPub pub fracs)

attribute [local irreducible] Detail.pressureP Detail.propertiesP Detail.densityP

variable [Libm]

namespace Detail

/-- The logarithm of the pressure along an isotherm, in either direction. -/
theorem Ng.slope_D_abs {x : Fin 21 → ℝ} (h : Eos.NormalGas x) {T : ℝ} (h1 : 263 ≤ T) (h2 : T ≤ 400) {D D' : ℝ} (hD : 0 < D) (hd : D ≤ 0.93)
    (hD' : 0 < D') (hd' : D' ≤ 0.93) :
    0.78 * |Real.log D' - Real.log D| ≤
        |Real.log (D' * 8.31451 * T * Eos.Z x D' T) - Real.log (D * 8.31451 * T * Eos.Z x D T)| ∧
      |Real.log (D' * 8.31451 * T * Eos.Z x D' T) - Real.log (D * 8.31451 * T * Eos.Z x D T)| ≤
        1.09 * |Real.log D' - Real.log D| := by
  rcases le_total D D' with c | c
  · obtain ⟨a, b⟩ := Ng.slope_D h h1 h2 hD c hd'
    have l := Real.log_le_log hD c
    rw [abs_of_nonneg (sub_nonneg.2 l), abs_of_nonneg (le_trans (by linarith) a)]
    exact ⟨a, b⟩
  · obtain ⟨a, b⟩ := Ng.slope_D h h1 h2 hD' c hd
    have l := Real.log_le_log hD' c
    rw [abs_sub_comm, abs_sub_comm (Real.log (_ * _)), abs_of_nonneg (sub_nonneg.2 l), abs_of_nonneg (le_trans (by linarith) a)]
    exact ⟨a, b⟩

/-- The logarithm of the pressure along an isochor, in either direction. -/
theorem Ng.slope_T_abs {x : Fin 21 → ℝ} (h : Eos.NormalGas x) {T T' : ℝ} (h1 : 263 ≤ T) (h2 : T ≤ 400) (h1' : 263 ≤ T') (h2' : T' ≤ 400)
    {D : ℝ} (hD : 0 < D) (hd : D ≤ 0.93) :
    |Real.log (D * 8.31451 * T' * Eos.Z x D T') - Real.log (D * 8.31451 * T * Eos.Z x D T)| ≤ 1.63 * |Real.log T' - Real.log T| := by
  rcases le_total T T' with c | c
  · obtain ⟨a, b⟩ := Ng.slope_T h h1 c h2' hD hd
    have l := Real.log_le_log (by linarith) c
    rw [abs_of_nonneg (sub_nonneg.2 l), abs_of_nonneg (le_trans (by linarith) a)]
    exact b
  · obtain ⟨a, b⟩ := Ng.slope_T h h1' c h2 hD hd
    have l := Real.log_le_log (by linarith) c
    rw [abs_sub_comm, abs_sub_comm (Real.log T'), abs_of_nonneg (sub_nonneg.2 l), abs_of_nonneg (le_trans (by linarith) a)]
    exact b

/-- Reals only. -/
theorem exp_034 : Real.exp 0.34 ≤ 1.409 := by
  have := Real.exp_bound' (x := 0.34) (by norm_num) (by norm_num) (n := 4) (by norm_num)
  simp only [Finset.sum_range_succ, Finset.sum_range_zero, Nat.factorial] at this
  norm_num at this ⊢
  linarith

/-- What the convergence theorem needs, around an estimate. -/
theorem Ng.estimate_curve {q : Pub Float} (h : DensDomain q) (hx : Eos.NormalGas (fracs q)) (t1 : 263 ≤ toR q.t) (t2 : toR q.t ≤ 400)
    {D0 : ℝ} (hd1 : 3e-4 ≤ D0) (hd2 : D0 ≤ 0.66)
    (h0 : |Real.log (D0 * 8.31451 * toR q.t * Eos.Z (fracs q) D0 (toR q.t)) - Real.log (toR q.p)| ≤ 0.106) :
    F64Curve q D0 3.2 0.785 0.34 := by
  have D0p : 0 < D0 := lt_of_lt_of_le (by norm_num) hd1
  have rng : ∀ D, D ≤ D0 * Real.exp 0.34 → D ≤ 0.93 := by
    intro D b
    have := mul_le_mul hd2 exp_034 (Real.exp_pos _).le (by norm_num)
    norm_num at *
    linarith
  refine ⟨h, by norm_num, by norm_num, by norm_num, by norm_num, by norm_num, hd1, hd2.trans (by norm_num), ?_, ?_, ?_⟩
  · have := mul_le_mul (Ng.Kcubed_le hx).2 hd2 D0p.le (by norm_num)
    exact this.trans (by norm_num)
  · intro D a b
    have hD : 0 ≤ D := le_trans (by positivity) a
    obtain ⟨c1, c2, c3, c4, c5⟩ := Ng.ng_window hx t1 t2 hD (rng D b)
    generalize Eos.Z (fracs q) D (toR q.t) = Z at *
    generalize Eos.dPdD (fracs q) D (toR q.t) = Y at *
    obtain ⟨u, v⟩ := abs_le.1 c3
    norm_num at c1 c2 u v c4 c5 ⊢
    have z0 : 0 < Z := by linarith
    refine ⟨z0, by linarith, by linarith, ?_, ?_⟩
    · rw [le_div_iff₀ z0]; linarith
    · rw [div_le_iff₀ z0]; linarith
  · exact h0.trans (by norm_num)

/-- Reals only: the density for a pressure of a sample. -/
theorem Ng.track_range {x : Fin 21 → ℝ} (h : Eos.NormalGas x) {T p d : ℝ} (h1 : 263 ≤ T) (h2 : T ≤ 400) (p1 : 3.5e-4 ≤ p / (8.31451 * T))
    (p2 : p / (8.31451 * T) ≤ 0.59) (d0 : 0 < d) (d2 : d ≤ 2) (e : d * 8.31451 * T * Eos.Z x d T = p) :
    3.3e-4 ≤ d ∧ d ≤ 0.652 := by
  have T0 : 0 < 8.31451 * T := by positivity
  have mono := C74_natural_gas_stable x h T h1 h2
  have hd : d ≤ 0.652 := by
    by_contra c
    have c := not_le.1 c
    have m := mono ⟨by norm_num, by norm_num⟩ ⟨d0.le, d2⟩ c
    dsimp only at m
    rw [e] at m
    have z := (Ng.ng_start h h1 h2 (D := 0.652) (by norm_num) (by norm_num)).1
    rw [div_le_iff₀ T0] at p2
    generalize Eos.Z x 0.652 T = Z at *
    norm_num at z m p2
    nlinarith
  refine ⟨?_, hd⟩
  have z := (Ng.ng_start h h1 h2 d0.le (hd.trans (by norm_num)))
  rw [le_div_iff₀ T0] at p1
  generalize Eos.Z x d T = Z at *
  by_contra c
  have c := not_le.1 c
  obtain ⟨z1, z2⟩ := z
  have k : d * Z ≤ 3.3e-4 * 1.03 := mul_le_mul c.le z2 (by linarith) (by norm_num)
  have : d * 8.31451 * T * Z = d * Z * (8.31451 * T) := by ring
  rw [this] at e
  norm_num at k p1
  nlinarith

end Detail

/-- C85, one search: with an accurate math library, a natural gas of C74 at 263 K to 400 K has the density `d` at the pressure of the
fields. A negative `d` field is an estimate: from every estimate of 3e-4 mol/l to 0.66 mol/l within the factor `exp 0.095` of `d`,
`density` on a new object reports success and the computed density is within the factor `exp 7.2e-8` of `d`. -/
theorem C85_detail_from_estimate (hL : LibmAccurate) (hN : LnAccurate) (new0 : Detail Float) (hnew : Detail.new = .ok new0)
    (q : Pub Float) (fx : ∀ i, IsFinite (aget q.x i)) (hx : Eos.NormalGas fun i => toR (aget q.x i))
    (hx' : ∀ i, toR (aget q.x i) = 0 ∨ 1e-10 ≤ toR (aget q.x i))
    (ht : IsFinite q.t) (t1 : 263 ≤ toR q.t) (t2 : toR q.t ≤ 400) (hp : IsFinite q.p) (d : ℝ) (d0 : 0 < d) (d2 : d ≤ 0.93)
    (hd : d * 8.31451 * toR q.t * Eos.Z (fun i => toR (aget q.x i)) d (toR q.t) = toR q.p)
    (fd : IsFinite q.d) (e1 : 3e-4 ≤ -toR q.d) (e2 : -toR q.d ≤ 0.66) (he : |Real.log (-toR q.d) - Real.log d| ≤ 0.095) :
    ∃ s', (setPub new0 q).density = .ok (s', .ok ()) ∧ IsFinite s'.d ∧ 0 < toR s'.d ∧ |Real.log (toR s'.d) - Real.log d| ≤ 7.2e-8 := by
  have E0 : 0 < -toR q.d := lt_of_lt_of_le (by norm_num) e1
  have hs := (Detail.Ng.slope_D_abs hx t1 t2 d0 d2 E0 (e2.trans (by norm_num))).2
  rw [hd] at hs
  have z := Detail.Ng.ng_window hx t1 t2 d0.le d2
  have l1 : Real.log (3e-4 / 1.2) ≤ Real.log d := by
    have a := Real.log_le_log (by norm_num) e1
    have b : Real.log (3e-4 / 1.2) = Real.log 3e-4 - Real.log 1.2 := Real.log_div (by norm_num) (by norm_num)
    have c := Real.one_sub_inv_le_log_of_pos (show (0 : ℝ) < 1.2 by norm_num)
    rw [b]
    have := (abs_le.1 he).2
    norm_num at c this a ⊢
    linarith
  have dl : 2.5e-4 ≤ d := by
    have := (Real.log_le_log_iff (by norm_num) d0).1 l1
    norm_num at this ⊢
    linarith
  have D : Detail.DensDomain q := by
    have hz := z.1
    have hz' := z.2.1
    have a1 : 2.5e-4 * 8.31451 * 263 ≤ d * 8.31451 * toR q.t := by gcongr
    have a2 : d * 8.31451 * toR q.t ≤ 0.93 * 8.31451 * 400 := by gcongr
    have b1 := mul_le_mul a1 hz (by norm_num) (by positivity)
    have b2 := mul_le_mul a2 hz' (le_trans (by norm_num) hz) (by norm_num)
    rw [hd] at b1 b2
    refine ⟨ht, by linarith, by linarith, hp, le_trans (by norm_num) b1, b2.trans (by norm_num), fx, fun i => ?_, 0, ?_⟩
    · rcases hx' i with e | e
      · exact Or.inl e.le
      · exact Or.inr ⟨e, Detail.normal_le_two hx i⟩
    · have := hx.methane
      norm_num at this ⊢
      linarith
  have hf := Detail.fracs_normal hx
  rw [← hf] at hx hs hd
  have C := Detail.Ng.estimate_curve D hx t1 t2 e1 e2 (hs.trans (by
    have := mul_le_mul_of_nonneg_left he (show (0 : ℝ) ≤ 1.09 by norm_num)
    exact this.trans (by norm_num)))
  obtain ⟨s', d', k1, k2, k3, k4, k5, k6, k7, -⟩ := C64_detail_density_converges hL hN new0 hnew q D _ _ _ _ fd
    (Or.inr (neg_neg _).symm) C.m_pos C.K1 C.r1 C.r2 C.K2 C.d1 C.d2 C.d3 C.slope C.start
  have dp : 0 < d' := lt_of_lt_of_le (by positivity) k6
  have d2' : d' ≤ 2 := by
    refine k7.trans ?_
    have := mul_le_mul e2 Detail.exp_034 (Real.exp_pos _).le (by norm_num)
    norm_num at this ⊢
    linarith
  have : d' = d := Detail.pipe_unique (by linarith) (fun D a b => Detail.Ng.ng_dPdD_pos hx t1 t2 a b) d0 (d2.trans (by norm_num)) dp d2'
    (k4.trans hd.symm)
  subst this
  exact ⟨s', k1, k2, k3, k5.trans (by norm_num)⟩

namespace Detail

/-- Reals only: how far the density moves with the pressure and the temperature. -/
theorem Ng.near_exact {x : Fin 21 → ℝ} (h : Eos.NormalGas x) {T T' d d' p p' : ℝ} (h1 : 263 ≤ T) (h2 : T ≤ 400) (h1' : 263 ≤ T')
    (h2' : T' ≤ 400) (d0 : 0 < d) (d2 : d ≤ 0.93) (d0' : 0 < d') (d2' : d' ≤ 0.93) (e : d * 8.31451 * T * Eos.Z x d T = p)
    (e' : d' * 8.31451 * T' * Eos.Z x d' T' = p') (hp : |Real.log p' - Real.log p| ≤ 0.05) (hT : |Real.log T' - Real.log T| ≤ 0.01) :
    |Real.log d' - Real.log d| ≤ 0.086 := by
  have a := (Ng.slope_D_abs h h1' h2' d0 d2 d0' d2').1
  have b := Ng.slope_T_abs h h1 h2 h1' h2' d0 d2
  rw [e] at b
  rw [e'] at a
  have c := abs_sub_le (Real.log p') (Real.log p) (Real.log (d * 8.31451 * T' * Eos.Z x d T'))
  rw [abs_sub_comm (Real.log p)] at c
  norm_num at a b c hp hT ⊢
  linarith

/-- Reals only: a density near one of 3.3e-4 mol/l to 0.652 mol/l. -/
theorem near_range {D d : ℝ} (hD : 0 < D) (d1 : 3.3e-4 ≤ d) (d2 : d ≤ 0.652) (h : |Real.log D - Real.log d| ≤ 7.2e-8) :
    3e-4 ≤ D ∧ D ≤ 0.66 := by
  have d0 : 0 < d := lt_of_lt_of_le (by norm_num) d1
  obtain ⟨a, b⟩ := abs_le.1 h
  have u := Real.log_le_log (by norm_num) d1
  have v := Real.log_le_log d0 d2
  have u' : Real.log 3.3e-4 = Real.log 3e-4 + Real.log 1.1 := by
    rw [← Real.log_mul (by norm_num) (by norm_num)]; norm_num
  have v' : Real.log 0.66 = Real.log 0.652 + Real.log (0.66 / 0.652) := by
    rw [← Real.log_mul (by norm_num) (by norm_num)]; norm_num
  have c := Real.one_sub_inv_le_log_of_pos (show (0 : ℝ) < 1.1 by norm_num)
  have c' := Real.one_sub_inv_le_log_of_pos (show (0 : ℝ) < 0.66 / 0.652 by norm_num)
  refine ⟨(Real.log_le_log_iff (by norm_num) hD).1 ?_, (Real.log_le_log_iff hD (by norm_num)).1 ?_⟩
  · rw [u'] at u
    generalize Real.log 1.1 = y at *
    generalize Real.log 3e-4 = w at *
    norm_num at a c
    linarith
  · rw [v']
    generalize Real.log (0.66 / 0.652) = y at *
    generalize Real.log 0.652 = w at *
    norm_num at b c'
    linarith

/-- A gas that can be tracked. -/
structure TrackGas (x : Vector Float 21) : Prop where
  x_fin : ∀ i, IsFinite (aget x i)
  normal : Eos.NormalGas fun i => toR (aget x i)
  x_min : ∀ i, toR (aget x i) = 0 ∨ 1e-10 ≤ toR (aget x i)

theorem TrackPoint.root (hL : LibmAccurate) (hN : LnAccurate) {x : Vector Float 21} (g : TrackGas x) {t p : Float} (h : TrackPoint t p)
    (r : Pub Float) :
    ∃ d, 0 < d ∧ d ≤ 2 ∧ d * 8.31451 * toR t * Eos.Z (fun i => toR (aget x i)) d (toR t) = toR p ∧
      ∀ d', 0 < d' → d' ≤ 2 → d' * 8.31451 * toR t * Eos.Z (fun i => toR (aget x i)) d' (toR t) = toR p → d' = d := by
  have p1 := h.p_low
  have p2 := h.p_high
  obtain ⟨s', d, -, -, -, a, b, c, e, -⟩ := C74_detail_natural_gas_density hL hN _ Detail.new_ok { r with x := x, t := t, p := p, d := f% 0.0 }
    g.x_fin g.normal g.x_min h.t_fin h.t_low h.t_high h.p_fin (le_trans (by norm_num) p1) (p2.trans (by norm_num)) fin0 toR0.ge
  exact ⟨d, a, b, c, e⟩

/-- One search from the density found last, on a new object. -/
theorem track_fresh (hL : LibmAccurate) (hN : LnAccurate) {q : Pub Float} (g : TrackGas q.x) {t p D : Float} (h : TrackPoint t p)
    (h' : TrackPoint q.t q.p) (hs : TrackStep t p q.t q.p) (hD : Found (fun i => toR (aget q.x i)) t p D) (hd : q.d = -D) :
    (densityP (freshOf q)).2 = .ok () ∧ Found (fun i => toR (aget q.x i)) q.t q.p (densityP (freshOf q)).1.d := by
  obtain ⟨fD, D0, d, d0, d2, e, -, hDd⟩ := hD
  obtain ⟨d', d0', d2', e', u'⟩ := TrackPoint.root hL hN g h' q
  obtain ⟨r1, r2⟩ := Ng.track_range g.normal h.t_low h.t_high h.p_low h.p_high d0 d2 e
  obtain ⟨r1', r2'⟩ := Ng.track_range g.normal h'.t_low h'.t_high h'.p_low h'.p_high d0' d2' e'
  have n := Ng.near_exact g.normal h.t_low h.t_high h'.t_low h'.t_high d0 (r2.trans (by norm_num)) d0' (r2'.trans (by norm_num)) e e'
    hs.pressure hs.temperature
  obtain ⟨w1, w2⟩ := near_range D0 r1 r2 hDd
  have eD : -toR q.d = toR D := by rw [hd, toR_neg, neg_neg]
  obtain ⟨s', k1, k2, k3, k4⟩ := C85_detail_from_estimate hL hN _ Detail.new_ok q g.x_fin g.normal g.x_min h'.t_fin h'.t_low h'.t_high h'.p_fin
    d' d0' (r2'.trans (by norm_num)) e' (by rw [hd]; exact fin_neg fD) (by rw [eD]; exact w1) (by rw [eD]; exact w2) (by
      rw [eD]
      have := abs_sub_le (Real.log (toR D)) (Real.log d) (Real.log d')
      rw [abs_sub_comm (Real.log d)] at this
      norm_num at this n hDd ⊢
      linarith)
  rw [density_ok] at k1
  have k1 := Except.ok.inj k1
  have a1 : (densityP (freshOf q)).1 = s' := congrArg Prod.fst k1
  have a2 : (densityP (freshOf q)).2 = .ok () := congrArg Prod.snd k1
  rw [a1]
  exact ⟨a2, k2, k3, d', d0', d2', e', u', k4⟩

/-- `density` on an object with a history that reports success. -/
theorem density_hist {last : List (Vector Float 21 × Float)} {s : Detail Float} (hc : Coherent last s) (hr : Resolved last (pub s))
    (hok : (densityP (freshOf (pub s))).2 = .ok ()) :
    (densityP s).2 = .ok () ∧ pub (densityP s).1 = pub (densityP (freshOf (pub s))).1 ∧ Coherent [(s.x, s.t)] (densityP s).1 := by
  obtain ⟨a1, a2, -⟩ := step_sim F64.selfDiff .density hc (fun _ => hr)
  have a2' : (densityP s).2 = (densityP (freshOf (pub s))).2 := by injection a2
  have hok' := a2'.trans hok
  obtain ⟨b1, b2, b3⟩ := density_evaluated s hok'
  exact ⟨hok', a1, coherent_after hc hr (params_densityP s) b1 b2 b3 _ (List.mem_singleton.2 rfl)⟩

section
variable {F : Type} [Add F] [Sub F] [Mul F] [Div F] [Neg F] [FOps F]

/-- The object with another temperature and pressure and the density negated. -/
def tracked (s : Detail F) (t p : F) : Detail F := { s with t := t, p := p, d := -s.d }

theorem tracked_eq (s : Detail F) (t p : F) : ({ s with t := t, p := p, d := -s.d } : Detail F) = tracked s t p := rfl
theorem pub_tracked (s : Detail F) (t p : F) : pub (tracked s t p) = { pub s with t := t, p := p, d := -s.d } := rfl
theorem params_tracked (s : Detail F) (t p : F) : params (tracked s t p) = params s := rfl
theorem cache_tracked (s : Detail F) (t p : F) : cache (tracked s t p) = cache s := rfl

end

theorem track_resolved {x : Vector Float 21} (g : TrackGas x) {t : Float} {q : Pub Float} (h : IsFinite t ∧ 263 ≤ toR t ∧ toR t ≤ 400)
    (h' : TrackPoint q.t q.p) (hs : q.t = t ∨ 1.01e-7 ≤ |toR q.t - toR t|) (hx : q.x = x) : Resolved [(x, t)] q := by
  have D := (dens_normal (q := q) (by rw [hx]; exact g.x_fin) (by rw [hx]; exact g.normal) (by rw [hx]; exact g.x_min) h'.t_fin h'.t_low h'.t_high
    h'.p_fin (le_trans (by norm_num) h'.p_low) (h'.p_high.trans (by norm_num))).far
  refine ⟨D.1, D.2, fun e he => ?_⟩
  rw [List.mem_singleton.1 he]
  refine ⟨Or.inl hx, ?_⟩
  rcases hs with hs | hs
  · exact Or.inl hs
  · refine Or.inr (far_of_diff h'.t_fin h.1 hs ?_)
    have a1 := h.2.1
    have a2 := h.2.2
    have b1 := h'.t_low
    have b2 := h'.t_high
    exact abs_le.2 ⟨by linarith, by linarith⟩

theorem track_list (hL : LibmAccurate) (hN : LnAccurate) {x : Vector Float 21} (g : TrackGas x) (l : List (Float × Float)) {t p : Float}
    (h : TrackPoint t p) (hs : TrackSteps t p l) {s : Detail Float} (hc : Coherent [(x, t)] s) (hx : s.x = x)
    (hD : Found (fun i => toR (aget x i)) t p s.d) :
    ∃ s' outs, trackAll s l = .ok (s', outs) ∧
      List.Forall₂ (fun e o => o.1 = .ok () ∧ Found (fun i => toR (aget x i)) e.1 e.2 o.2) l outs := by
  induction l generalizing t p s with
  | nil => exact ⟨s, [], rfl, .nil⟩
  | cons e l ih =>
    obtain ⟨h1, h2, h3⟩ := hs
    obtain ⟨s1, hs1⟩ : ∃ s1, s1 = tracked s e.1 e.2 := ⟨_, rfl⟩
    have hpub : pub s1 = { pub s with t := e.1, p := e.2, d := -s.d } := by rw [hs1]; exact pub_tracked _ _ _
    have qx : (pub s1).x = x := by rw [hpub]; exact hx
    have qt : (pub s1).t = e.1 := by rw [hpub]
    have qp : (pub s1).p = e.2 := by rw [hpub]
    have qd : (pub s1).d = -s.d := by rw [hpub]
    have hc1 : Coherent [(x, t)] s1 := coherent_cache hc (by rw [hs1]; exact params_tracked _ _ _) (by rw [hs1]; exact cache_tracked _ _ _)
      (fun _ h => h)
    have hr : Resolved [(x, t)] (pub s1) := track_resolved g ⟨h.t_fin, h.t_low, h.t_high⟩ (by rw [qt, qp]; exact h1)
      (by rw [qt]; exact h2.noticed) qx
    have T := track_fresh hL hN (q := pub s1) (by rw [qx]; exact g) h (by rw [qt, qp]; exact h1) (by rw [qt, qp]; exact h2)
      (by rw [qx]; exact hD) qd
    obtain ⟨T1, T2⟩ := T
    obtain ⟨r1, r2, r3⟩ := density_hist hc1 hr T1
    have r4 : (densityP s1).1.d = (densityP (freshOf (pub s1))).1.d := congrArg Pub.d r2
    have r5 : (densityP s1).1.x = x := by
      have : (pub (densityP s1).1).x = (pub s1).x := by rw [pub_densityP]
      rw [qx] at this
      exact this
    rw [← r4, qx, qt, qp] at T2
    rw [show s1.x = x from qx, show s1.t = e.1 from qt] at r3
    have r6 : trackAll s (e :: l) = (trackAll (densityP s1).1 l).bind fun r' => .ok (r'.1, ((densityP s1).2, (densityP s1).1.d) :: r'.2) := by
      show (Detail.density _ >>= _) = _
      rw [tracked_eq, ← hs1, density_ok]
      rfl
    rw [r1] at r6
    clear T1 r1 r2 r4 hpub qx qt qp qd hc1 hr hs1
    generalize (densityP s1).1 = s2 at *
    obtain ⟨s', outs, k1, k2⟩ := ih h1 h3 r3 r5 T2
    refine ⟨s', (.ok (), s2.d) :: outs, ?_, .cons ⟨rfl, T2⟩ k2⟩
    rw [r6, k1]
    rfl

end Detail

/-- C85, tracking: with an accurate math library, an object finds the density of a natural gas once, from the estimate of the
ideal gas. From then on the pressure and the temperature change by at most 5 % and 1 % from each sample to the next, and each search
starts from the density found last. Then every search reports success, and its density is within the factor `exp 7.2e-8` of the one
density of the equation: however many samples there are, the errors do not add up and no search is led astray. -/
theorem C85_detail_tracking (hL : LibmAccurate) (hN : LnAccurate) (new0 : Detail Float) (hnew : Detail.new = .ok new0)
    (q : Pub Float) (fx : ∀ i, IsFinite (aget q.x i)) (hx : Eos.NormalGas fun i => toR (aget q.x i))
    (hx' : ∀ i, toR (aget q.x i) = 0 ∨ 1e-10 ≤ toR (aget q.x i)) (h : Detail.TrackPoint q.t q.p) (fd : IsFinite q.d) (d0 : 0 ≤ toR q.d)
    (l : List (Float × Float)) (hl : Detail.TrackSteps q.t q.p l) :
    ∃ s s' outs, (setPub new0 q).density = .ok (s, .ok ()) ∧ Detail.Found (fun i => toR (aget q.x i)) q.t q.p s.d ∧
      Detail.trackAll s l = .ok (s', outs) ∧
      List.Forall₂ (fun e o => o.1 = .ok () ∧ Detail.Found (fun i => toR (aget q.x i)) e.1 e.2 o.2) l outs := by
  obtain ⟨s, d, a1, a2, a3, a4, a5, a6, a7, a8⟩ := C74_detail_natural_gas_density hL hN new0 hnew q fx hx hx' h.t_fin h.t_low h.t_high
    h.p_fin (le_trans (by norm_num) h.p_low) (h.p_high.trans (by norm_num)) fd d0
  have D := (Detail.dens_normal (q := q) fx hx hx' h.t_fin h.t_low h.t_high h.p_fin (le_trans (by norm_num) h.p_low)
    (h.p_high.trans (by norm_num))).far
  have e := Except.ok.inj (hnew.symm.trans Detail.new_ok)
  have hc : Detail.Coherent [] new0 := by rw [e]; exact Detail.coherent_new
  have k1 := Except.ok.inj ((Detail.density_ok _).symm.trans a1)
  have b1 : (Detail.densityP (setPub new0 q)).1 = s := congrArg Prod.fst k1
  have b2 : (Detail.densityP (setPub new0 q)).2 = .ok () := congrArg Prod.snd k1
  have hf : Detail.freshOf (pub (setPub new0 q)) = setPub new0 q := by rw [Detail.pub_setPub, e]; rfl
  obtain ⟨-, r2, r3⟩ := Detail.density_hist (s := setPub new0 q) (Detail.coherent_cache hc (Detail.params_setPub new0 q)
    (Detail.cache_setPub new0 q) (last' := []) (fun _ h => h)) ⟨D.1, D.2, fun _ h => by cases h⟩ (by rw [hf]; exact b2)
  have r5 : (Detail.densityP (setPub new0 q)).1.x = q.x := by
    have : (pub (Detail.densityP (setPub new0 q)).1).x = (pub (setPub new0 q)).x := by rw [Detail.pub_densityP]
    exact this
  rw [b1] at r3 r5
  have F : Detail.Found (fun i => toR (aget q.x i)) q.t q.p s.d := ⟨a2, a3, d, a4, a5, a6, a7, a8⟩
  obtain ⟨s', outs, g1, g2⟩ := Detail.track_list hL hN ⟨fx, hx, hx'⟩ l h hl (s := s) r3 r5 F
  exact ⟨s, s', outs, a1, F, g1, g2⟩

/-! ## The hypotheses can be met -/

namespace Detail

theorem esc0 : decChk true 0 20 ⟨302, 0⟩ = true := by decide +kernel
theorem esc1 : decChk true 0 20 ⟨1040, 0⟩ = true := by decide +kernel
theorem esc2 : decChk true 6 20 ⟨40625, 5⟩ = true := by decide +kernel

theorem v302 : IsFinite (f% 302.0 : Float) ∧ toR (f% 302.0 : Float) = 302 := by
  refine ⟨decChk_fin esc0, ?_⟩
  show toR (F64.litF ⟨302, 0⟩) = 302
  rw [(decChk_val esc0).2.1 rfl]; norm_num [decR]

theorem v1040 : IsFinite (f% 1040.0 : Float) ∧ toR (f% 1040.0 : Float) = 1040 := by
  refine ⟨decChk_fin esc1, ?_⟩
  show toR (F64.litF ⟨1040, 0⟩) = 1040
  rw [(decChk_val esc1).2.1 rfl]; norm_num [decR]

theorem v040625 : IsFinite (f% 0.40625 : Float) ∧ toR (f% 0.40625 : Float) = 0.40625 := by
  refine ⟨decChk_fin esc2, ?_⟩
  show toR (F64.litF ⟨40625, 5⟩) = 0.40625
  rw [(decChk_val esc2).2.1 rfl]; norm_num [decR]

theorem trackPoint_mk {t p : Float} {T P : ℝ} (ht : IsFinite t ∧ toR t = T) (hp : IsFinite p ∧ toR p = P) (h1 : 263 ≤ T) (h2 : T ≤ 400)
    (h3 : 3.5e-4 ≤ P / (8.31451 * T)) (h4 : P / (8.31451 * T) ≤ 0.59) : TrackPoint t p :=
  ⟨ht.1, by rw [ht.2]; exact h1, by rw [ht.2]; exact h2, hp.1, by rw [hp.2, ht.2]; exact h3, by rw [hp.2, ht.2]; exact h4⟩

/-- Reals only. -/
theorem log_step {a b c : ℝ} (ha : 0 < a) (hb : 0 < b) (h1 : b - a ≤ c * a) (h2 : a - b ≤ c * b) : |Real.log b - Real.log a| ≤ c := by
  rw [← Real.log_div hb.ne' ha.ne']
  have u := Real.log_le_sub_one_of_pos (div_pos hb ha)
  have v := Real.one_sub_inv_le_log_of_pos (div_pos hb ha)
  rw [inv_div] at v
  have u' : b / a - 1 ≤ c := by rw [sub_le_iff_le_add, div_le_iff₀ ha]; linarith
  have v' : a / b - 1 ≤ c := by rw [sub_le_iff_le_add, div_le_iff₀ hb]; linarith
  exact abs_le.2 ⟨by linarith, by linarith⟩

theorem trackStep_mk {t p t' p' : Float} {T P T' P' : ℝ} (ht : IsFinite t ∧ toR t = T) (hp : IsFinite p ∧ toR p = P)
    (ht' : IsFinite t' ∧ toR t' = T') (hp' : IsFinite p' ∧ toR p' = P') (T0 : 0 < T) (P0 : 0 < P) (T0' : 0 < T') (P0' : 0 < P')
    (h1 : P' - P ≤ 0.05 * P) (h2 : P - P' ≤ 0.05 * P') (h3 : T' - T ≤ 0.01 * T) (h4 : T - T' ≤ 0.01 * T')
    (h5 : t' = t ∨ 1.01e-7 ≤ |T' - T|) : TrackStep t p t' p' :=
  ⟨by rw [hp.2, hp'.2]; exact log_step P0 P0' h1 h2, by rw [ht.2, ht'.2]; exact log_step T0 T0' h3 h4, by rw [ht.2, ht'.2]; exact h5⟩

/-- From 300 K and 1 MPa to 302 K and 1.04 MPa and back again, `n` times. -/
def backAndForth : Nat → List (Float × Float)
  | 0 => []
  | n + 1 => (f% 302.0, f% 1040.0) :: (f% 300.0, f% 1000.0) :: backAndForth n

theorem backAndForth_ok (n : Nat) : TrackSteps (f% 300.0) (f% 1000.0) (backAndForth n) := by
  induction n with
  | zero => trivial
  | succ n ih =>
    refine ⟨trackPoint_mk v302 v1040 (by norm_num) (by norm_num) (by norm_num) (by norm_num), trackStep_mk v300 v1000 v302 v1040 (by norm_num)
      (by norm_num) (by norm_num) (by norm_num) (by norm_num) (by norm_num) (by norm_num) (by norm_num) (Or.inr ?_),
      trackPoint_mk v300 v1000 (by norm_num) (by norm_num) (by norm_num) (by norm_num), trackStep_mk v302 v1040 v300 v1000 (by norm_num)
      (by norm_num) (by norm_num) (by norm_num) (by norm_num) (by norm_num) (by norm_num) (by norm_num) (Or.inr ?_), ih⟩
    · rw [show (302 : ℝ) - 300 = 2 by norm_num, abs_two]; norm_num
    · rw [show (300 : ℝ) - 302 = -2 by norm_num, abs_neg, abs_two]; norm_num

end Detail

/-- A natural gas at 300 K and 1 MPa, from the estimate 0.40625 mol/l. -/
example (hL : LibmAccurate) (hN : LnAccurate) (new0 : Detail Float) (hnew : Detail.new = .ok new0) :
    ∃ s' d, (setPub new0 { Detail.ng1 with d := -(f% 0.40625) }).density = .ok (s', .ok ()) ∧
      d * 8.31451 * 300 * Eos.Z (fun i => toR (aget Detail.ng1.x i)) d 300 = 1000 ∧
      |Real.log (toR s'.d) - Real.log d| ≤ 7.2e-8 := by
  obtain ⟨hx, ht, fp, hp, -, -⟩ := Detail.ng1_ok
  have g : Detail.TrackGas Detail.ng1.x := ⟨fun i => (hx i).1, Detail.ng1_normal, Detail.ng1_min⟩
  have h : Detail.TrackPoint Detail.ng1.t Detail.ng1.p := Detail.trackPoint_mk ⟨Detail.errLow_ok.2.1, ht⟩ ⟨fp, hp⟩ (by norm_num) (by norm_num)
    (by norm_num) (by norm_num)
  obtain ⟨d, d0, d2, e, -⟩ := h.root hL hN g Detail.ng1
  obtain ⟨r1, r2⟩ := Detail.Ng.track_range g.normal h.t_low h.t_high h.p_low h.p_high d0 d2 e
  obtain ⟨z1, z2⟩ := Detail.Ng.ng_start g.normal h.t_low h.t_high d0.le (r2.trans (by norm_num))
  have E : toR (-(f% 0.40625 : Float)) = -0.40625 := by rw [toR_neg, Detail.v040625.2]
  obtain ⟨s', k1, -, -, k4⟩ := C85_detail_from_estimate hL hN new0 hnew { Detail.ng1 with d := -(f% 0.40625) } g.x_fin g.normal g.x_min
    h.t_fin h.t_low h.t_high h.p_fin d d0 (r2.trans (by norm_num)) e (fin_neg Detail.v040625.1) (by dsimp only; rw [E]; norm_num)
    (by dsimp only; rw [E]; norm_num) (by
      dsimp only
      rw [E, neg_neg]
      rw [ht, hp] at e
      rw [ht] at z1 z2
      generalize Eos.Z _ d 300 = Z at *
      norm_num at z1 z2 e
      apply Detail.log_step d0 (by norm_num) <;> norm_num <;> nlinarith)
  rw [ht, hp] at e
  exact ⟨s', d, k1, e, k4⟩

/-- The same gas, tracked back and forth any number of times. -/
example (hL : LibmAccurate) (hN : LnAccurate) (new0 : Detail Float) (hnew : Detail.new = .ok new0) (n : Nat) :
    ∃ s s' outs, (setPub new0 { Detail.ng1 with t := f% 300.0 }).density = .ok (s, .ok ()) ∧
      Detail.trackAll s (Detail.backAndForth n) = .ok (s', outs) ∧ ∀ o ∈ outs, o.1 = .ok () := by
  obtain ⟨hx, -, fp, hp, fd, hd⟩ := Detail.ng1_ok
  obtain ⟨s, s', outs, a, -, b, c⟩ := C85_detail_tracking hL hN new0 hnew { Detail.ng1 with t := f% 300.0 } (fun i => (hx i).1) Detail.ng1_normal
    Detail.ng1_min (Detail.trackPoint_mk Detail.v300 ⟨fp, hp⟩ (by norm_num) (by norm_num) (by norm_num) (by norm_num)) fd hd.ge
    (Detail.backAndForth n) (Detail.backAndForth_ok n)
  refine ⟨s, s', outs, a, b, fun o ho => ?_⟩
  clear a b
  generalize Detail.backAndForth n = l at c
  induction c with
  | nil => cases ho
  | cons h _ ih =>
    rcases List.mem_cons.1 ho with e | e
    · rw [e]; exact h.1
    · exact ih e

end Aga8
