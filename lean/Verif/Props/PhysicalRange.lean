import Verif.Props.NaturalGasHeat
import Verif.Props.RoundTrip

/-! # C81: the f64 heat capacities and the speed of sound of a natural gas are in physical order and range

The theorems are about IEEE-754 arithmetic, with any `exp`, `powf`, `powi` and `ln` that are accurate in the sense of
`Spec/F64Accuracy`. `Spec/NormalGas` says which compositions are natural gases. -/

set_option linter.unusedSectionVars false

namespace Aga8

open F64
open Detail (Pub setPub)
open Detail.Tab

attribute [local irreducible] Detail.pressureP Detail.propertiesP Detail.densityP

variable [Libm]

namespace Detail.Ng

/-- The exact heat capacities of a natural gas up to 1 mol/l. -/
theorem heat_range {x : Fin 21 → ℝ} (h : Eos.NormalGas x) (hs : 0.99 ≤ ∑ i, x i) {D T : ℝ} (h1 : 263 ≤ T) (h2 : T ≤ 400)
    (hD : 1e-4 ≤ D) (hd : D ≤ 1) : 9.56 ≤ Eos.heatV x D T ∧ Eos.heatV x D T ≤ 1092 ∧
      2.485 ≤ Eos.heatP x D T - Eos.heatV x D T ∧ Eos.heatP x D T - Eos.heatV x D T ≤ 25.51 := by
  have D0 : 0 < D := lt_of_lt_of_le (by norm_num) hD
  have T0 : 0 < T := by linarith
  obtain ⟨c1, c2, c3, c4, c5, c6⟩ := ng_unit h h1 h2 D0.le hd
  obtain ⟨s1, s2, s3, s4⟩ := sums_ng h h1 h2 D0.le hd
  obtain ⟨i1, i2, i3⟩ := ideal_ng h hs T0
  have pT : Eos.pressureT x D T = D * 8.31451 * (1 - ∑ n, (Eos.c UN n - 1) * tvZ x D T n) := by
    rw [pressureT_sum T0, Finset.sum_neg_distrib]
    simp only [mul_assoc, ← Finset.mul_sum]
    ring
  have hV : Eos.heatV x D T = 8.31451 * (-∑ i, iv2 T (x i) i - ∑ n, (Eos.c UN n - 1) * Eos.c UN n * tv x D T n) := by
    rw [heatV_sum h.nonneg (lt_of_lt_of_le (by norm_num) hD) T0]
    simp only [mul_assoc, ← Finset.mul_sum]
    ring
  obtain ⟨a1, a2⟩ := abs_le.1 s3
  obtain ⟨b1, b2⟩ := abs_le.1 s4
  have hP : Eos.heatP x D T - Eos.heatV x D T = 8.31451 * ((1 - ∑ n, (Eos.c UN n - 1) * tvZ x D T n) ^ 2 / Eos.dPdD x D T) := by
    have d0 : Eos.dPdD x D T ≠ 0 := (lt_of_lt_of_le (by norm_num) c3).ne'
    unfold Eos.heatP isobaric Eos.pressureD
    rw [pT]
    field_simp
    ring
  rw [hP, hV]
  generalize ∑ n, (Eos.c UN n - 1) * tvZ x D T n = y1 at *
  generalize ∑ n, (Eos.c UN n - 1) * Eos.c UN n * tv x D T n = y2 at *
  generalize Eos.dPdD x D T = d at *
  generalize -∑ i, iv2 T (x i) i = C at *
  clear s1 s2 s3 s4 i3 pT hV hP c5 c6 c1 c2
  have d0 : 0 < d := lt_of_lt_of_le (by norm_num) c3
  norm_num at a1 a2 b1 b2 c3 c4 i1
  refine ⟨by norm_num; linarith, by norm_num; linarith, ?_, ?_⟩
  · have : (0.2989 : ℝ) ≤ (1 - y1) ^ 2 / d := by
      rw [le_div_iff₀ d0]
      norm_num
      nlinarith
    norm_num at this ⊢
    linarith
  · have : (1 - y1) ^ 2 / d ≤ 3.068 := by
      rw [div_le_iff₀ d0]
      norm_num
      nlinarith
    norm_num at this ⊢
    linarith

def mLo (i : Fin 21) : ℚ := if i = 14 then 2 else if i = 19 then 4 else 16
def mHi (i : Fin 21) : ℚ := if 5 ≤ i.1 ∧ i.1 ≤ 13 then 143 else 45

theorem mass_chk : ∀ i, mLo i ≤ massQ i ∧ massQ i ≤ mHi i := by decide +kernel

/-- The molar mass of a natural gas. -/
theorem mass_range {x : Fin 21 → ℝ} (h : Eos.NormalGas x) (hs : 0.99 ≤ ∑ i, x i) : 14.4 ≤ Eos.mass x ∧ Eos.mass x ≤ 47 := by
  have hm : ∀ i : Fin 21, (mLo i : ℝ) ≤ Eos.c MMI i ∧ Eos.c MMI i ≤ (mHi i : ℝ) := fun i => by
    have e : Eos.c MMI i = ((massQ i : ℚ) : ℝ) := by
      unfold Eos.c massQ; push_cast; rfl
    rw [e]
    exact ⟨by exact_mod_cast (mass_chk i).1, by exact_mod_cast (mass_chk i).2⟩
  have a : ∑ i, x i * (mLo i : ℝ) ≤ Eos.mass x := Finset.sum_le_sum fun i _ => mul_le_mul_of_nonneg_left (hm i).1 (h.nonneg i)
  have b : Eos.mass x ≤ ∑ i, x i * (mHi i : ℝ) := Finset.sum_le_sum fun i _ => mul_le_mul_of_nonneg_left (hm i).2 (h.nonneg i)
  have n := h.nonneg
  have k1 := h.hydrogen
  have k2 := h.helium
  have k3 := h.butanes
  have k4 := h.pentanes
  have k5 := h.hexanes_plus
  have k6 := h.sum
  have e1 : ∑ i, x i * (mLo i : ℝ) = 16 * ∑ i, x i - 14 * x 14 - 12 * x 19 := by
    simp only [Fin.sum_univ_succ, mLo, Fin.ext_iff]
    simp
    ring
  have e2 : ∑ i, x i * (mHi i : ℝ) = 45 * ∑ i, x i + 98 * (x 5 + x 6 + (x 7 + x 8) + (x 9 + x 10 + x 11 + x 12 + x 13)) := by
    simp only [Fin.sum_univ_succ, mHi]
    simp
    ring
  rw [e1] at a
  rw [e2] at b
  norm_num at k1 k2 k3 k4 k5 k6 hs ⊢
  constructor <;> linarith

/-- The square root of a number in this range. -/
theorem speed_aux {V P T d M Z : ℝ} (v1 : 9.56 ≤ V) (v3 : 2.485 ≤ P - V) (v4 : P - V ≤ 25.51) (h1 : 263 ≤ T) (h2 : T ≤ 400)
    (c1 : 0.85 ≤ Z) (c2 : Z ≤ 1.05) (c3 : 0.64 ≤ d) (c4 : d ≤ 1.2) (m1 : 14.4 ≤ M) (m2 : M ≤ 47) :
    172 ≤ soundSpeed P V (8.31451 * T * d) M ∧ soundSpeed P V (8.31451 * T * d) M ≤ 1009 ∧
    0.609 ≤ isentropic (soundSpeed P V (8.31451 * T * d) M) M 8.31451 T Z ∧
    isentropic (soundSpeed P V (8.31451 * T * d) M) M 8.31451 T Z ≤ 5.181 := by
  norm_num at v1 v3 v4 c1 c2 c3 c4 m1
  have V0 : 0 < V := by linarith
  have T0 : 0 < T := by linarith
  have M0 : 0 < M := by linarith
  have d0 : 0 < d := by linarith
  have Z0 : 0 < Z := by linarith
  obtain ⟨r, er⟩ : ∃ r, r = P / V := ⟨_, rfl⟩
  have r1 : 1 ≤ r := by rw [er, le_div_iff₀ V0]; linarith
  have r2 : r ≤ 3.669 := by rw [er, div_le_iff₀ V0]; norm_num; linarith
  have e : 1000 * P / V * (8.31451 * T * d) / M = 8314.51 * (r * d) * T / M := by rw [er]; ring
  have k1 : 0.64 ≤ r * d := by norm_num; nlinarith
  have k2 : r * d ≤ 4.4028 := by norm_num at r2 ⊢; nlinarith
  have e2 : isentropic (soundSpeed P V (8.31451 * T * d) M) M 8.31451 T Z = r * d / Z := by
    unfold isentropic soundSpeed
    rw [e, Real.sq_sqrt (by positivity)]
    field_simp
    norm_num
  rw [e2]
  unfold soundSpeed
  rw [e]
  generalize r * d = y at *
  norm_num at k1 k2
  refine ⟨?_, ?_, ?_, ?_⟩
  · apply Real.le_sqrt_of_sq_le
    rw [le_div_iff₀ M0]
    nlinarith
  · apply Real.sqrt_le_iff.2 ⟨by norm_num, ?_⟩
    rw [div_le_iff₀ M0]
    nlinarith
  · rw [le_div_iff₀ Z0]; norm_num; linarith
  · rw [div_le_iff₀ Z0]; norm_num; linarith

/-- The exact speed of sound and isentropic exponent of a natural gas up to 1 mol/l. -/
theorem speed_range {x : Fin 21 → ℝ} (h : Eos.NormalGas x) (hs : 0.99 ≤ ∑ i, x i) {D T : ℝ} (h1 : 263 ≤ T) (h2 : T ≤ 400)
    (hD : 1e-4 ≤ D) (hd : D ≤ 1) : 172 ≤ Eos.speed x D T ∧ Eos.speed x D T ≤ 1009 ∧
      0.609 ≤ Eos.exponent x D T ∧ Eos.exponent x D T ≤ 5.181 := by
  have D0 : 0 < D := lt_of_lt_of_le (by norm_num) hD
  obtain ⟨c1, c2, c3, c4, -, -⟩ := ng_unit h h1 h2 D0.le hd
  obtain ⟨v1, -, v3, v4⟩ := heat_range h hs h1 h2 hD hd
  obtain ⟨m1, m2⟩ := mass_range h hs
  exact speed_aux v1 v3 v4 h1 h2 c1 c2 c3 c4 m1 m2

end Detail.Ng

/-- C81, heat capacities: with an accurate math library, for every natural gas whose fractions are zero or at least 1e-10 and sum to at
least 0.99, at 263 K to 400 K and a density of 1e-4 mol/l to 1 mol/l, the isochoric heat capacity that `properties` stores is between
9.5 and 1093 J/(mol K), and the isobaric one is larger by 2.4 to 25.6 J/(mol K). -/
theorem C81_detail_heat_capacities (hL : LibmAccurate) (hN : LnAccurate) (new0 : Detail Float) (hnew : Detail.new = .ok new0)
    (q : Pub Float) (fx : ∀ i, IsFinite (aget q.x i)) (hx : Eos.NormalGas fun i => toR (aget q.x i))
    (hx' : ∀ i, toR (aget q.x i) = 0 ∨ 1e-10 ≤ toR (aget q.x i)) (hs : 0.99 ≤ ∑ i, toR (aget q.x i))
    (ht : IsFinite q.t) (t1 : 263 ≤ toR q.t) (t2 : toR q.t ≤ 400)
    (fd : IsFinite q.d) (d1 : 1e-4 ≤ toR q.d) (d2 : toR q.d ≤ 1) :
    ∃ s', (setPub new0 q).properties = .ok s' ∧ 9.5 ≤ toR s'.cv ∧ toR s'.cv ≤ 1093 ∧
      toR s'.cv + 2.4 ≤ toR s'.cp ∧ toR s'.cp ≤ toR s'.cv + 25.6 := by
  obtain ⟨v1, v2, v3, v4⟩ := Detail.Ng.heat_range hx hs t1 t2 d1 d2
  obtain ⟨s', e1, -, -, -, -, -, r1, -, r2, -⟩ := C75_detail_natural_gas_properties hL hN new0 hnew q fx hx hx' hs ht t1 t2 fd d1 d2 _ rfl
  refine ⟨s', e1, ?_⟩
  generalize Eos.heatV (fun i => toR (aget q.x i)) (toR q.d) (toR q.t) = V at *
  generalize Eos.heatP (fun i => toR (aget q.x i)) (toR q.d) (toR q.t) = P at *
  generalize toR s'.cv = cv at *
  generalize toR s'.cp = cp at *
  clear hx hx' hs
  have r1 := abs_le.1 r1
  have r2 := abs_le.1 r2
  norm_num at v1 v2 v3 v4 r1 r2 ⊢
  refine ⟨?_, ?_, ?_, ?_⟩ <;> linarith

/-- C81, sound: under the same hypotheses the speed of sound that `properties` stores is between 171 and 1010 m/s and the isentropic
exponent is between 0.6 and 5.2. -/
theorem C81_detail_sound (hL : LibmAccurate) (hN : LnAccurate) (new0 : Detail Float) (hnew : Detail.new = .ok new0)
    (q : Pub Float) (fx : ∀ i, IsFinite (aget q.x i)) (hx : Eos.NormalGas fun i => toR (aget q.x i))
    (hx' : ∀ i, toR (aget q.x i) = 0 ∨ 1e-10 ≤ toR (aget q.x i)) (hs : 0.99 ≤ ∑ i, toR (aget q.x i))
    (ht : IsFinite q.t) (t1 : 263 ≤ toR q.t) (t2 : toR q.t ≤ 400)
    (fd : IsFinite q.d) (d1 : 1e-4 ≤ toR q.d) (d2 : toR q.d ≤ 1) :
    ∃ s', (setPub new0 q).properties = .ok s' ∧ IsFinite s'.w ∧ 171 ≤ toR s'.w ∧ toR s'.w ≤ 1010 ∧
      IsFinite s'.kappa ∧ 0.6 ≤ toR s'.kappa ∧ toR s'.kappa ≤ 5.2 := by
  obtain ⟨v1, v2, v3, v4⟩ := Detail.Ng.speed_range hx hs t1 t2 d1 d2
  obtain ⟨s', e1, -, -, -, -, -, -, -, -, f1, r1, f2, r2, -⟩ :=
    C75_detail_natural_gas_properties hL hN new0 hnew q fx hx hx' hs ht t1 t2 fd d1 d2 _ rfl
  refine ⟨s', e1, f1, ?_⟩
  generalize Eos.speed (fun i => toR (aget q.x i)) (toR q.d) (toR q.t) = V at *
  generalize Eos.exponent (fun i => toR (aget q.x i)) (toR q.d) (toR q.t) = P at *
  generalize toR s'.w = cv at *
  refine ⟨?_, ?_, f2, ?_⟩
  all_goals
    generalize toR s'.kappa = cp at *
    clear hx hx' hs
    have r1 := abs_le.1 r1
    have r2 := abs_le.1 r2
    norm_num at v1 v2 v3 v4 r1 r2 ⊢
  · linarith
  · linarith
  · constructor <;> linarith

/-- C81, after `density`: the same for the density that `density` finds at any pressure that gives the ideal gas 3e-4 mol/l to
0.66 mol/l. -/
theorem C81_detail_workflow (hL : LibmAccurate) (hN : LnAccurate) (new0 : Detail Float) (hnew : Detail.new = .ok new0)
    (q : Pub Float) (fx : ∀ i, IsFinite (aget q.x i)) (hx : Eos.NormalGas fun i => toR (aget q.x i))
    (hx' : ∀ i, toR (aget q.x i) = 0 ∨ 1e-10 ≤ toR (aget q.x i)) (hs : 0.99 ≤ ∑ i, toR (aget q.x i))
    (ht : IsFinite q.t) (t1 : 263 ≤ toR q.t) (t2 : toR q.t ≤ 400) (hp : IsFinite q.p)
    (d1 : 3e-4 ≤ toR q.p / (8.31451 * toR q.t)) (d2 : toR q.p / (8.31451 * toR q.t) ≤ 0.66)
    (fd : IsFinite q.d) (d0 : 0 ≤ toR q.d) :
    ∃ s' s'', (setPub new0 q).density = .ok (s', .ok ()) ∧ s'.properties = .ok s'' ∧ 9.5 ≤ toR s''.cv ∧ toR s''.cv ≤ 1093 ∧
      toR s''.cv + 2.4 ≤ toR s''.cp ∧ toR s''.cp ≤ toR s''.cv + 25.6 ∧ 171 ≤ toR s''.w ∧ toR s''.w ≤ 1010 ∧
      0.6 ≤ toR s''.kappa ∧ toR s''.kappa ≤ 5.2 := by
  obtain ⟨s', s'', d, e1, e2, -, -, -, a1, a2, -, -, -, -, -, -, r1, -, r2, -, r3, -, r4, -⟩ :=
    C75_detail_natural_gas_workflow hL hN new0 hnew q fx hx hx' hs ht t1 t2 hp d1 d2 fd d0 _ rfl
  obtain ⟨v1, v2, v3, v4⟩ := Detail.Ng.heat_range hx hs t1 t2 a1 a2
  obtain ⟨u1, u2, u3, u4⟩ := Detail.Ng.speed_range hx hs t1 t2 a1 a2
  refine ⟨s', s'', e1, e2, ?_⟩
  clear e1 e2 d1 d2 a1
  generalize Eos.heatV (fun i => toR (aget q.x i)) (toR s''.d) (toR q.t) = V at *
  generalize Eos.heatP (fun i => toR (aget q.x i)) (toR s''.d) (toR q.t) = P at *
  generalize Eos.speed (fun i => toR (aget q.x i)) (toR s''.d) (toR q.t) = W at *
  generalize Eos.exponent (fun i => toR (aget q.x i)) (toR s''.d) (toR q.t) = K at *
  generalize toR s''.cv = cv at *
  generalize toR s''.cp = cp at *
  generalize toR s''.w = w at *
  generalize toR s''.kappa = k at *
  clear hx hx' hs
  have r1 := abs_le.1 r1
  have r2 := abs_le.1 r2
  have r3 := abs_le.1 r3
  have r4 := abs_le.1 r4
  norm_num at v1 v2 v3 v4 u1 u2 u3 u4 r1 r2 r3 r4 ⊢
  refine ⟨?_, ?_, ?_, ?_, ?_, ?_, ?_, ?_⟩ <;> linarith

/-- The gas of C74 at 300 K and 0.25 mol/l meets the hypotheses. -/
example (hL : LibmAccurate) (hN : LnAccurate) (new0 : Detail Float) (hnew : Detail.new = .ok new0) :
    ∃ s', (setPub new0 Detail.ngQuarter).properties = .ok s' ∧ 171 ≤ toR s'.w ∧ toR s'.cv + 2.4 ≤ toR s'.cp := by
  obtain ⟨hx, ht, -⟩ := Detail.ng1_ok
  have ht' : toR Detail.ngQuarter.t = 300 := ht
  have hd : toR Detail.ngQuarter.d = 0.25 := quarter_ok.2
  have hs : 0.99 ≤ ∑ i, toR (aget Detail.ng1.x i) := by
    simp only [fun i => (hx i).2, Fin.sum_univ_succ]
    simp [Detail.ng1x, Fin.ext_iff]
    norm_num
  obtain ⟨s', e1, -, -, r, -⟩ := C81_detail_heat_capacities hL hN new0 hnew Detail.ngQuarter (fun i => (hx i).1) Detail.ng1_normal
    (fun i => Detail.ng1_min i) hs Detail.errLow_ok.2.1 (by rw [ht']; norm_num) (by rw [ht']; norm_num) quarter_ok.1
    (by rw [hd]; norm_num) (by rw [hd]; norm_num)
  obtain ⟨s2, e2, -, r2, -⟩ := C81_detail_sound hL hN new0 hnew Detail.ngQuarter (fun i => (hx i).1) Detail.ng1_normal
    (fun i => Detail.ng1_min i) hs Detail.errLow_ok.2.1 (by rw [ht']; norm_num) (by rw [ht']; norm_num) quarter_ok.1
    (by rw [hd]; norm_num) (by rw [hd]; norm_num)
  have e := Except.ok.inj (e1.symm.trans e2)
  subst e
  exact ⟨s', e1, r2, r⟩

/-- The gas of C74 at 300 K and its pressure meets the hypotheses of the workflow. -/
example (hL : LibmAccurate) (hN : LnAccurate) (new0 : Detail Float) (hnew : Detail.new = .ok new0) :
    ∃ s' s'', (setPub new0 Detail.ng1).density = .ok (s', .ok ()) ∧ s'.properties = .ok s'' ∧ 9.5 ≤ toR s''.cv ∧ 171 ≤ toR s''.w := by
  obtain ⟨hx, ht, fp, hp, fd, hd⟩ := Detail.ng1_ok
  have hs : 0.99 ≤ ∑ i, toR (aget Detail.ng1.x i) := by
    simp only [fun i => (hx i).2, Fin.sum_univ_succ]
    simp [Detail.ng1x, Fin.ext_iff]
    norm_num
  obtain ⟨s', s'', e1, e2, a1, -, -, -, a2, -⟩ := C81_detail_workflow hL hN new0 hnew Detail.ng1 (fun i => (hx i).1) Detail.ng1_normal
    (fun i => Detail.ng1_min i) hs Detail.errLow_ok.2.1 (by rw [ht]; norm_num) (by rw [ht]; norm_num) fp (by rw [ht, hp]; norm_num)
    (by rw [ht, hp]; norm_num) fd hd.ge
  exact ⟨s', s'', e1, e2, a1, a2⟩

end Aga8
