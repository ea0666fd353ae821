import Verif.Lemmas.DetailTemp
import Verif.Props.DetailReal

/-! # Temperature derivatives, Helmholtz energy and the density contract of DETAIL in exact arithmetic

C26, the Helmholtz part of C27, and the real-number reading of C16. -/

namespace Aga8

open Detail (Pub pub Params params setPub)

theorem Detail.new_eq {new0 : Detail ℝ} (hnew : Detail.new = .ok new0) : new0 = Detail.newP := by
  rw [Detail.new_ok] at hnew; injection hnew with h; exact h.symm

theorem Detail.near_of {f g : ℝ → ℝ} {T0 : ℝ} (h0 : 1e-7 < T0) (h : ∀ T, 1e-7 < T → f T = g T) :
    f =ᶠ[nhds T0] g := by
  filter_upwards [lt_mem_nhds h0] with T hT using h T hT

/-- C26: `dp_dt` is the derivative of the pressure with respect to temperature: if `P T` is what `pressure` returns
on a new object given temperature `T` (and the same density and composition), then `P` has derivative `dp_dt`. -/
theorem C26_detail_dp_dt (new0 : Detail ℝ) (hnew : Detail.new = .ok new0) (q : Pub ℝ)
    (hx : Detail.XFar q.x (fill 21 (f% 0.0))) (ht : 1e-7 < q.t) (P : ℝ → ℝ)
    (hP : ∀ T, ∃ s1, (setPub new0 { q with t := T }).pressure = .ok (s1, P T)) :
    ∃ s', (setPub new0 q).properties = .ok s' ∧ HasDerivAt P s'.dp_dt q.t := by
  have e := Detail.new_eq hnew
  subst e
  refine ⟨_, Detail.properties_ok _, ?_⟩
  have hT0 : 0 < q.t := lt_trans (by norm_num) ht
  have h1 : P =ᶠ[nhds q.t] fun T => Detail.RDETAIL * q.d
      * (T + T * ∑ n, T ^ (-(Detail.tab Detail.Tab.UN n : ℝ)) * Detail.k1 q q.d n) := by
    refine Detail.near_of ht fun T hT => ?_
    obtain ⟨s1, h⟩ := hP T
    have h2 : Detail.pressureP (Detail.freshOf (Detail.atT q T)) = (s1, P T) := by
      have := (Detail.pressure_ok (Detail.freshOf (Detail.atT q T))).symm.trans h; injection this
    have h3 := Detail.pressure_viewT hx hT
    rw [h2] at h3
    exact h3
  refine HasDerivAt.congr_of_eventuallyEq ?_ h1
  have h4 : (Detail.propertiesP (setPub Detail.newP q)).dp_dt = _ := Detail.dp_dt_viewT hx ht
  rw [h4]
  exact ((hasDerivAt_id q.t).add (Detail.hasDerivAt_tpow (fun n => Detail.tab Detail.Tab.UN n) (Detail.k1 q q.d) hT0)).const_mul _

/-- C26: if `U T` and `S T` are the internal energy and entropy that `properties` computes on a new object given
temperature `T`, then the Helmholtz energy `U - T S` has derivative `-s`, `U` has derivative `cv` and `S` has
derivative `cv / T`. -/
theorem C26_detail_entropy_and_cv (new0 : Detail ℝ) (hnew : Detail.new = .ok new0) (q : Pub ℝ)
    (hx : Detail.XFar q.x (fill 21 (f% 0.0))) (ht : 1e-7 < q.t) (U S : ℝ → ℝ)
    (hUS : ∀ T, ∃ s1, (setPub new0 { q with t := T }).properties = .ok s1 ∧ s1.u = U T ∧ s1.s = S T) :
    ∃ s', (setPub new0 q).properties = .ok s' ∧
      HasDerivAt (fun T => U T - T * S T) (-s'.s) q.t ∧
      HasDerivAt U s'.cv q.t ∧ HasDerivAt S (s'.cv / q.t) q.t := by
  have e := Detail.new_eq hnew
  subst e
  refine ⟨_, Detail.properties_ok _, ?_⟩
  have hT0 : 0 < q.t := lt_trans (by norm_num) ht
  have hS : ∀ T, 1e-7 < T → S T = -Detail.RDETAIL * (Detail.I1 (params (Detail.newP : Detail ℝ)) q.x q.d T
        + ∑ n, (1 - Detail.tab Detail.Tab.UN n) * (T ^ (-(Detail.tab Detail.Tab.UN n : ℝ)) * Detail.k0 q q.d n)) := by
    intro T hT
    obtain ⟨s1, h, -, h2⟩ := hUS T
    have h3 : Detail.propertiesP (Detail.freshOf (Detail.atT q T)) = s1 := by
      have := (Detail.properties_ok (Detail.freshOf (Detail.atT q T))).symm.trans h; injection this
    rw [← h2, ← h3]
    exact Detail.s_viewT hx hT
  have hU : ∀ T, 1e-7 < T → U T - T * S T
      = Detail.RDETAIL * (T * Detail.I0 (params (Detail.newP : Detail ℝ)) q.x q.d T
        + T * ∑ n, T ^ (-(Detail.tab Detail.Tab.UN n : ℝ)) * Detail.k0 q q.d n) := by
    intro T hT
    obtain ⟨s1, h, h2, h2'⟩ := hUS T
    have h3 : Detail.propertiesP (Detail.freshOf (Detail.atT q T)) = s1 := by
      have := (Detail.properties_ok (Detail.freshOf (Detail.atT q T))).symm.trans h; injection this
    have h4 := Detail.u_viewT hx hT
    rw [h3] at h4
    rw [← h2, ← h2', h4]
    ring
  have es : (Detail.propertiesP (setPub Detail.newP q)).s = _ := Detail.s_viewT hx ht
  have ecv : (Detail.propertiesP (setPub Detail.newP q)).cv = _ := Detail.cv_viewT hx ht
  have dA : HasDerivAt (fun T => U T - T * S T) (-(Detail.propertiesP (setPub Detail.newP q)).s) q.t := by
    refine HasDerivAt.congr_of_eventuallyEq ?_ (Detail.near_of ht hU)
    rw [es]
    refine (((Detail.hasDerivAt_I0 (params (Detail.newP : Detail ℝ)) q.x q.d hT0).add
      (Detail.hasDerivAt_tpow (fun n => Detail.tab Detail.Tab.UN n) (Detail.k0 q q.d) hT0)).const_mul
      Detail.RDETAIL).congr_deriv ?_
    ring
  have dS : HasDerivAt S ((Detail.propertiesP (setPub Detail.newP q)).cv / q.t) q.t := by
    refine HasDerivAt.congr_of_eventuallyEq ?_ (Detail.near_of ht hS)
    rw [ecv]
    refine (((Detail.hasDerivAt_I1 (params (Detail.newP : Detail ℝ)) q.x q.d hT0).add
      (Detail.hasDerivAt_tpow' (fun n => Detail.tab Detail.Tab.UN n) (Detail.k0 q q.d) hT0)).const_mul
      (-Detail.RDETAIL)).congr_deriv ?_
    ring
  refine ⟨dA, ?_, dS⟩
  have h := dA.add ((hasDerivAt_id q.t).mul dS)
  have e1 : U = (fun T => U T - T * S T) + (id * S) := by
    funext T; simp
  rw [e1]
  refine h.congr_deriv ?_
  have : S q.t = (Detail.propertiesP (setPub Detail.newP q)).s := by rw [hS _ ht]; exact es.symm
  simp only [id, one_mul, this]
  field_simp
  ring

/-- C27: the Helmholtz energy `u - T s` determines the pressure. If `U D` and `S D` are the internal energy and
entropy that `properties` computes at density `D` (everything else in the object fixed) and the positive fractions sum to
one, then `U - T S` has derivative `p / D^2` and `S` has derivative `-dp_dt / D^2` in `D`. -/
theorem C27_detail_helmholtz (s : Detail ℝ) (ht : s.t ≠ 0) (hd : 1e-15 < s.d)
    (hsum : ∑ i : Fin 21, max (aget s.x i) 0 = 1) (U S : ℝ → ℝ)
    (hUS : ∀ D, ∃ s1, Detail.properties { s with d := D } = .ok s1 ∧ s1.u = U D ∧ s1.s = S D) :
    ∃ s', s.properties = .ok s' ∧
      HasDerivAt (fun D => U D - s.t * S D) (s'.p / s.d ^ 2) s.d ∧
      HasDerivAt S (-s'.dp_dt / s.d ^ 2) s.d := by
  have hd0 : s.d ≠ 0 := by intro h; rw [h] at hd; norm_num at hd
  have hsum' : (∑ i : Fin 21, if 0 < aget s.x i then aget s.x i else 0) = 1 := by
    rw [← hsum]
    refine Finset.sum_congr rfl fun i _ => ?_
    split
    · rename_i h; rw [max_eq_left h.le]
    · rename_i h; rw [max_eq_right (not_lt.1 h)]
  refine ⟨_, Detail.properties_ok s, ?_, ?_⟩
  · have e : (fun D => U D - s.t * S D) = fun D => Detail.RDETAIL * s.t
        * (Detail.I0 (params s) s.x D s.t + Detail.A0 (Detail.view s) D) := by
      funext D
      obtain ⟨s1, h, h2, h2'⟩ := hUS D
      have h3 : Detail.propertiesP (Detail.withD s D) = s1 := by
        have := (Detail.properties_ok (Detail.withD s D)).symm.trans h; injection this
      rw [← h2, ← h2', ← h3, Detail.propertiesP_eq, Detail.propsFinish_u, Detail.propsMid_a0,
        (Detail.a0_real _).1, Detail.propsMid_ar, (Detail.ar_row0 _ 2).1, Detail.propsMid_t,
        Detail.view_withD]
      show Detail.RDETAIL * s.t * Detail.I0 (params s) s.x D s.t
        + Detail.RDETAIL * s.t * Detail.A0 (Detail.view s) D + s.t * _ - s.t * _ = _
      ring
    rw [e, Detail.propertiesP_p, Detail.propertiesP_z, (Detail.ar_row0 s 0).2.1, l1]
    refine (((Detail.hasDerivAt_I0_d (params s) s.x s.t hd).add
      (Detail.hasDerivAt_A0 (Detail.view s) hd0)).const_mul (Detail.RDETAIL * s.t)).congr_deriv ?_
    rw [hsum']
    have hR := Detail.R_pos.ne'
    field_simp
  · have e : S = fun D => -(Detail.RDETAIL * Detail.I1 (params s) s.x D s.t)
        - ∑ n, Detail.RDETAIL * (1 - Detail.tab Detail.Tab.UN n)
          * (Detail.f0 (Detail.view s) n D + Detail.linB (Detail.view s) n * D) := by
      funext D
      obtain ⟨s1, h, -, h2'⟩ := hUS D
      have h3 : Detail.propertiesP (Detail.withD s D) = s1 := by
        have := (Detail.properties_ok (Detail.withD s D)).symm.trans h; injection this
      rw [← h2', ← h3, Detail.propertiesP_eq, Detail.propsFinish_s, Detail.propsMid_a0,
        (Detail.a0_real _).2.1, Detail.propsMid_ar, (Detail.ar_rows _ 2 (by norm_num)).1,
        Detail.view_withD]
      rfl
    rw [e, Detail.propertiesP_eq, Detail.propsFinish_dp_dt, Detail.propsMid_ar, Detail.propsMid_d,
      (Detail.ar_rows _ 2 (by norm_num)).2.1]
    have hs : HasDerivAt (fun D => ∑ n, Detail.RDETAIL * (1 - Detail.tab Detail.Tab.UN n)
          * (Detail.f0 (Detail.view s) n D + Detail.linB (Detail.view s) n * D))
        ((∑ n, Detail.RDETAIL * (1 - Detail.tab Detail.Tab.UN n)
          * (Detail.f0 (Detail.view s) n s.d * Detail.c1 (Detail.view s) n s.d
            + Detail.linB (Detail.view s) n * s.d)) / s.d) s.d := by
      rw [Finset.sum_div]
      refine HasDerivAt.fun_sum fun n _ => ?_
      refine (((Detail.hasDerivAt_f0 (Detail.view s) n hd0).add
        (Detail.hasDerivAt_lin (Detail.linB (Detail.view s) n) s.d)).const_mul _).congr_deriv ?_
      field_simp
    refine (((Detail.hasDerivAt_I1_d (params s) s.x s.t hd).const_mul Detail.RDETAIL).neg.sub
      hs).congr_deriv ?_
    rw [hsum']
    field_simp
    ring

/-- C16 in exact arithmetic: when `density` succeeds there is a positive density `e`, at most
`exp 7`, at which the pressure `p1` and its density derivative, as `pressure` and `properties` report them, are at
least 1e-15; the requested pressure agrees with `p1` to 1e-7 times the logarithmic stiffness `e * dp_dd / p1`; and
the density returned is one Newton step in log-density away from `e`, less than 1e-7 in log-density; the compression
factor stored is the one at `e`. -/
theorem C16_detail_density_success_real (s s' : Detail ℝ)
    (h : s.density = .ok (s', .ok ())) :
    ∃ e s1 p1 s2, 0 < e ∧ e ≤ Real.exp 7 ∧
      Detail.pressure { s with d := e } = .ok (s1, p1) ∧
      Detail.properties { s with d := e } = .ok s2 ∧
      1e-15 ≤ p1 ∧ 1e-15 ≤ s2.dp_dd ∧
      |Real.log p1 - Real.log s.p| < 1e-7 * (e * s2.dp_dd / p1) ∧
      Real.log s'.d = Real.log e + (Real.log s.p - Real.log p1) * (p1 / (e * s2.dp_dd)) ∧
      |Real.log s'.d - Real.log e| < 1e-7 ∧ 0 < s'.d ∧ s'.d ≤ Real.exp (7 + 1e-7) ∧ s'.z = s1.z := by
  obtain ⟨v, s1, p1, s2, a1, a2, a3, a4, a5, a6, a7, a8, a9⟩ :=
    C16_detail_density_success Detail.selfDiff_real s s' h
  rw [r_le, l7] at a1
  rw [r_lt_false, lem15] at a5 a6
  simp only [r_exp, r_ln, r_abs, r_lt] at a3 a4 a7 a8
  have lem7' : (f% 1e-7 : ℝ) = 1e-7 := lem7
  rw [lem7'] at a7
  have hp1 : 0 < p1 := lt_of_lt_of_le (by norm_num) a5
  have hdp : 0 < s2.dp_dd := lt_of_lt_of_le (by norm_num) a6
  have hE := Real.exp_pos (-v)
  set w := (Real.log p1 - Real.log s.p) * p1 / (-Real.exp (-v) * s2.dp_dd) with hw
  have hws : w = (Real.log s.p - Real.log p1) * (p1 / (Real.exp (-v) * s2.dp_dd)) := by
    rw [hw]; field_simp; ring
  have hld : Real.log s'.d = -v + w := by rw [a8, Real.log_exp]; ring
  refine ⟨Real.exp (-v), s1, p1, s2, hE, Real.exp_le_exp.2 (by linarith), a3, a4, a5, a6, ?_, ?_, ?_, ?_, ?_, a9⟩
  · have hpos : 0 < p1 / (Real.exp (-v) * s2.dp_dd) := by positivity
    rw [hws, abs_mul, abs_of_pos hpos, abs_sub_comm] at a7
    have : |Real.log p1 - Real.log s.p| < 1e-7 / (p1 / (Real.exp (-v) * s2.dp_dd)) := by
      rw [lt_div_iff₀ hpos]; exact a7
    rwa [div_div_eq_mul_div, mul_div_assoc] at this
  · rw [hld, Real.log_exp, hws]
  · rw [hld, Real.log_exp]
    have e : -v + w - -v = w := by ring
    rw [e]; exact a7
  · rw [a8]; exact Real.exp_pos _
  · rw [a8]
    have := (abs_lt.1 a7).2
    exact Real.exp_le_exp.2 (by linarith)

/-! ## Worked cases -/

/-- Pure methane at 605 K meets the hypotheses of C26, and the functions it speaks about exist. -/
example : Detail.XFar (Detail.methane 1 0 1).x (fill 21 (f% 0.0 : ℝ)) ∧ 1e-7 < (Detail.methane 1 0 1).t :=
  ⟨Detail.methane_x 1 0 1, Detail.methane_t 1 0 1⟩
example (q : Pub ℝ) : ∃ U S : ℝ → ℝ, ∀ T, ∃ s1, (setPub (Detail.newP : Detail ℝ) { q with t := T }).properties = .ok s1 ∧
    s1.u = U T ∧ s1.s = S T :=
  ⟨fun T => (Detail.propertiesP (Detail.freshOf (Detail.atT q T))).u,
    fun T => (Detail.propertiesP (Detail.freshOf (Detail.atT q T))).s,
    fun T => ⟨_, Detail.properties_ok (Detail.freshOf (Detail.atT q T)), rfl, rfl⟩⟩
/-- Pure methane meets the hypotheses of C27. -/
example : ∑ i : Fin 21, max (aget (Detail.methane 1 0 1).x i) 0 = 1 := by
  have : ∀ i, max (aget (Detail.methane 1 0 1).x i) 0 = if i = 0 then 1 else 0 := fun i => Detail.posPart_mx i
  simp only [this]
  simp
/-- `density` succeeds on pure methane at 605 K (C16). -/
example : ∃ s', (Detail.freshOf (Detail.methane 1 Detail.mP (-Detail.mD))).density = .ok (s', .ok ()) := by
  obtain ⟨s', h, -⟩ := methane_density_succeeds
  exact ⟨s', h⟩

end Aga8
