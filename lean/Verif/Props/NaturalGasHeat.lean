import Verif.Lemmas.NgCond
import Verif.Props.NaturalGas
import Verif.Props.CondError
import Verif.Props.DetailEnergyError

/-! # C75: heat capacities, speed of sound and isentropic exponent of every natural gas, in f64

The theorems are about IEEE-754 arithmetic, with any `exp`, `powf`, `powi` and `ln` that are accurate in the sense of
`Spec/F64Accuracy`. `Spec/NormalGas` says which compositions are natural gases, `Spec/DetailEnergyError` and `Spec/CondError` what the
thermodynamic quantities are: derivatives of the Helmholtz energy of the AGA 8 equation, on real numbers. -/

set_option linter.unusedSectionVars false

namespace Aga8

open F64
open Detail (Pub setPub DensDomain fracs)

attribute [local irreducible] Detail.pressureP Detail.propertiesP Detail.densityP

variable [Libm]

/-- C75, the equation: for every natural gas with fractions that sum to at least 0.99, at 263 K to 400 K and a density of 1e-4 mol/l to
1 mol/l, the isochoric heat capacity of the AGA 8 equation is above `1.15 R`, and the pressure grows with the temperature and the
density. -/
theorem C75_natural_gas_derivatives (x : Fin 21 → ℝ) (h : Eos.NormalGas x) (hs : 0.99 ≤ ∑ i, x i) (D T : ℝ) (t1 : 263 ≤ T) (t2 : T ≤ 400)
    (d1 : 1e-4 ≤ D) (d2 : D ≤ 1) :
    8.31451 * 1.15 ≤ Eos.heatV x D T ∧ 0 < Eos.pressureT x D T ∧ 0 < Eos.pressureD x D T := by
  have c := Detail.Ng.conditioned_ng h hs t1 t2 d1 d2
  refine ⟨Detail.Ng.heat_ng h hs t1 t2 d1 d2, lt_of_lt_of_le (by norm_num) c.pt.low, lt_of_lt_of_le (by norm_num) c.pd.low⟩

theorem Detail.err_normal {q : Pub Float} (fx : ∀ i, IsFinite (aget q.x i))
    (hx : Eos.NormalGas fun i => toR (aget q.x i)) (hx' : ∀ i, toR (aget q.x i) = 0 ∨ 1e-10 ≤ toR (aget q.x i))
    (ht : IsFinite q.t) (t1 : 263 ≤ toR q.t) (t2 : toR q.t ≤ 400)
    (fd : IsFinite q.d) (d1 : 1e-4 ≤ toR q.d) (d2 : toR q.d ≤ 1) : Detail.ErrDomain q := by
  have d0 : 0 ≤ toR q.d := le_trans (by norm_num) d1
  refine ⟨ht, by linarith, by linarith, fd, Or.inr ⟨d1, d2.trans (by norm_num)⟩, ?_, fx, fun i => ?_, 0, ?_⟩
  · rw [Detail.fracs_normal hx]
    exact (mul_le_mul (Detail.Ng.Kcubed_le hx).2 d2 d0 (by norm_num)).trans (by norm_num)
  · rcases hx' i with e | e
    · exact Or.inl e.le
    · exact Or.inr ⟨e, Detail.normal_le_two hx i⟩
  · have := hx.methane
    norm_num at this ⊢
    linarith

/-- C75, `properties`: with an accurate math library, for every natural gas whose fractions are zero or at least 1e-10 and sum to at
least 0.99, at 263 K to 400 K and a density of 1e-4 mol/l to 1 mol/l, `properties` on a new object stores the derivatives of the pressure
and the isochoric heat capacity with a relative error of at most 1.3e-8, the isobaric heat capacity with 3.6e-8, the speed of sound with
3.3e-8, the isentropic exponent with 8.8e-8 and the Joule-Thomson coefficient with 6.2e-8 of the size of its terms. -/
theorem C75_detail_natural_gas_properties (hL : LibmAccurate) (hN : LnAccurate) (new0 : Detail Float) (hnew : Detail.new = .ok new0)
    (q : Pub Float) (fx : ∀ i, IsFinite (aget q.x i)) (hx : Eos.NormalGas fun i => toR (aget q.x i))
    (hx' : ∀ i, toR (aget q.x i) = 0 ∨ 1e-10 ≤ toR (aget q.x i)) (hs : 0.99 ≤ ∑ i, toR (aget q.x i))
    (ht : IsFinite q.t) (t1 : 263 ≤ toR q.t) (t2 : toR q.t ≤ 400)
    (fd : IsFinite q.d) (d1 : 1e-4 ≤ toR q.d) (d2 : toR q.d ≤ 1) (x : Fin 21 → ℝ) (ex : x = fun i => toR (aget q.x i)) :
    ∃ s', (setPub new0 q).properties = .ok s' ∧
      0 < toR s'.dp_dd ∧ |toR s'.dp_dd - Eos.pressureD x (toR q.d) (toR q.t)| ≤ 1.3e-8 * Eos.pressureD x (toR q.d) (toR q.t) ∧
      0 < toR s'.dp_dt ∧ |toR s'.dp_dt - Eos.pressureT x (toR q.d) (toR q.t)| ≤ 1.3e-8 * Eos.pressureT x (toR q.d) (toR q.t) ∧
      0 < toR s'.cv ∧ |toR s'.cv - Eos.heatV x (toR q.d) (toR q.t)| ≤ 1.3e-8 * Eos.heatV x (toR q.d) (toR q.t) ∧
      IsFinite s'.cp ∧ |toR s'.cp - Eos.heatP x (toR q.d) (toR q.t)| ≤ 3.6e-8 * Eos.heatP x (toR q.d) (toR q.t) ∧
      IsFinite s'.w ∧ |toR s'.w - Eos.speed x (toR q.d) (toR q.t)| ≤ 3.3e-8 * Eos.speed x (toR q.d) (toR q.t) ∧
      IsFinite s'.kappa ∧ |toR s'.kappa - Eos.exponent x (toR q.d) (toR q.t)| ≤ 8.8e-8 * Eos.exponent x (toR q.d) (toR q.t) ∧
      IsFinite s'.jt ∧ |toR s'.jt - Eos.jt x (toR q.d) (toR q.t)| ≤ 6.2e-8 * Eos.jtAbs x (toR q.d) (toR q.t) := by
  have hq := Detail.err_normal fx hx hx' ht t1 t2 fd d1 d2
  have hf := Detail.fracs_normal hx
  have c := Detail.Ng.conditioned_ng hx hs t1 t2 d1 d2
  rw [← hf] at c ex
  subst ex
  obtain ⟨s', e1, f1, f2, f3, f4, g1, g2, g3, g4⟩ := C67_detail_error hL hN new0 hnew q hq hx.nonneg (by linarith) d1 13 c
  obtain ⟨s2, e2, -, -, -, -, k1, k2⟩ := C65_detail_entropy_error hL hN new0 hnew q hq (by linarith) d1
  obtain ⟨s3, e3, -, k3⟩ := C59_detail_dpdd_error hL new0 hnew q hq
  have es := Except.ok.inj (e2.symm.trans e1)
  subst es
  have es := Except.ok.inj (e3.symm.trans e1)
  subst es
  obtain ⟨p1, p2, -⟩ := c.pd
  obtain ⟨u1, u2, -⟩ := c.pt
  obtain ⟨v1, v2, -⟩ := c.cv
  have up : ∀ {a v s : ℝ}, |a - v| ≤ 1e-9 * s → s ≤ 13 * v → 1e-8 ≤ v → 0 < a ∧ |a - v| ≤ 1.3e-8 * v := by
    intro a v s h1 h2 h3
    have k : |a - v| ≤ 1.3e-8 * v := by norm_num at *; linarith
    refine ⟨?_, k⟩
    have := (abs_le.1 k).1
    norm_num at *
    linarith
  have w : ∀ {a v c c' : ℝ}, |a - v| ≤ c * 13 * v → 0 < c → c * 13 ≤ c' → |a - v| ≤ c' * v := by
    intro a v c c' h1 hc h2
    have c0 : 0 < c * 13 := by positivity
    have v0 : 0 ≤ v := nonneg_of_mul_nonneg_right ((abs_nonneg _).trans h1) c0
    exact h1.trans (mul_le_mul_of_nonneg_right h2 v0)
  have w' : ∀ {a v s c c' : ℝ}, |a - v| ≤ c * 13 * s → 0 < c → c * 13 ≤ c' → |a - v| ≤ c' * s := by
    intro a v s c c' h1 hc h2
    have c0 : 0 < c * 13 := by positivity
    have v0 : 0 ≤ s := nonneg_of_mul_nonneg_right ((abs_nonneg _).trans h1) c0
    exact h1.trans (mul_le_mul_of_nonneg_right h2 v0)
  have eD : 8.31451 * toR q.t * Eos.dPdD (fracs q) (toR q.d) (toR q.t) = Eos.pressureD (fracs q) (toR q.d) (toR q.t) := rfl
  rw [eD] at k3
  obtain ⟨a1, a2⟩ := up k3 p1 p2
  obtain ⟨a3, a4⟩ := up k2 u1 u2
  obtain ⟨a5, a6⟩ := up k1 v1 v2
  exact ⟨_, e1, a1, a2, a3, a4, a5, a6, f1, w g1 (by norm_num) (by norm_num), f2, w g2 (by norm_num) (by norm_num),
    f3, w g3 (by norm_num) (by norm_num), f4, w' g4 (by norm_num) (by norm_num)⟩

/-- C75, `density` and then `properties`: for a new object with every natural gas and pressure of the C74 theorem on `density`, with
fractions that sum to at least 0.99, both report success. The density is within the factor `exp 7.2e-8` of the density `d` of the
equation at the requested pressure, and the heat capacities, the speed of sound, the isentropic exponent and the Joule-Thomson
coefficient have the errors above against the equation at the density computed. -/
theorem C75_detail_natural_gas_workflow (hL : LibmAccurate) (hN : LnAccurate) (new0 : Detail Float) (hnew : Detail.new = .ok new0)
    (q : Pub Float) (fx : ∀ i, IsFinite (aget q.x i)) (hx : Eos.NormalGas fun i => toR (aget q.x i))
    (hx' : ∀ i, toR (aget q.x i) = 0 ∨ 1e-10 ≤ toR (aget q.x i)) (hs : 0.99 ≤ ∑ i, toR (aget q.x i))
    (ht : IsFinite q.t) (t1 : 263 ≤ toR q.t) (t2 : toR q.t ≤ 400) (hp : IsFinite q.p)
    (d1 : 3e-4 ≤ toR q.p / (8.31451 * toR q.t)) (d2 : toR q.p / (8.31451 * toR q.t) ≤ 0.66)
    (fd : IsFinite q.d) (d0 : 0 ≤ toR q.d) (x : Fin 21 → ℝ) (ex : x = fun i => toR (aget q.x i)) :
    ∃ s' s'' d, (setPub new0 q).density = .ok (s', .ok ()) ∧ s'.properties = .ok s'' ∧ 0 < d ∧ d ≤ 2 ∧
      d * 8.31451 * toR q.t * Eos.Z x d (toR q.t) = toR q.p ∧ 1e-4 ≤ toR s''.d ∧ toR s''.d ≤ 1 ∧
      |Real.log (toR s''.d) - Real.log d| ≤ 7.2e-8 ∧
      0 < toR s''.dp_dd ∧ |toR s''.dp_dd - Eos.pressureD x (toR s''.d) (toR q.t)| ≤ 1.3e-8 * Eos.pressureD x (toR s''.d) (toR q.t) ∧
      0 < toR s''.dp_dt ∧ |toR s''.dp_dt - Eos.pressureT x (toR s''.d) (toR q.t)| ≤ 1.3e-8 * Eos.pressureT x (toR s''.d) (toR q.t) ∧
      0 < toR s''.cv ∧ |toR s''.cv - Eos.heatV x (toR s''.d) (toR q.t)| ≤ 1.3e-8 * Eos.heatV x (toR s''.d) (toR q.t) ∧
      IsFinite s''.cp ∧ |toR s''.cp - Eos.heatP x (toR s''.d) (toR q.t)| ≤ 3.6e-8 * Eos.heatP x (toR s''.d) (toR q.t) ∧
      IsFinite s''.w ∧ |toR s''.w - Eos.speed x (toR s''.d) (toR q.t)| ≤ 3.3e-8 * Eos.speed x (toR s''.d) (toR q.t) ∧
      IsFinite s''.kappa ∧ |toR s''.kappa - Eos.exponent x (toR s''.d) (toR q.t)| ≤ 8.8e-8 * Eos.exponent x (toR s''.d) (toR q.t) ∧
      IsFinite s''.jt ∧ |toR s''.jt - Eos.jt x (toR s''.d) (toR q.t)| ≤ 6.2e-8 * Eos.jtAbs x (toR s''.d) (toR q.t) := by
  have h := Detail.dens_normal fx hx hx' ht t1 t2 hp d1 d2
  have hf := Detail.fracs_normal hx
  have hx2 := hx
  rw [← hf] at hx2
  obtain ⟨C, w⟩ := Detail.Ng.ng_curve h hx2 t1 t2 d1 d2
  obtain ⟨s', s'', d, a1, a2, a3, a4, a5, a6, b1, a7, a8, -⟩ := C70_detail_workflow hL hN new0 hnew q h _ _ _ _ _ fd
    (Or.inl ⟨d0, rfl⟩) C.m_pos C.K1 C.r1 C.r2 C.K2 rfl C.d1 C.d2 C.d3 C.slope C.start
  have a8' : |Real.log (toR s''.d) - Real.log d| ≤ 7.2e-8 := a8.trans (by norm_num)
  have dp : 0 < d := lt_of_lt_of_le (by have := C.pos; positivity) a4
  rw [a3] at a7 a8' b1
  obtain ⟨r1, r2⟩ := Detail.Ng.near_ng a7 dp a8' d1 a4 (w d a5)
  -- the object after `density`
  have e := Except.ok.inj (hnew.symm.trans Detail.new_ok)
  have a1' : (Detail.freshOf q).density = .ok (s', .ok ()) := by rw [e] at a1; exact a1
  have eD : (Detail.densityP (Detail.freshOf q)).1 = s' := by
    have := (Detail.density_ok (Detail.freshOf q)).symm.trans a1'
    rw [Except.ok.inj this]
  have hd : Detail.pub s' = { q with d := s'.d, z := s'.z } := by
    rw [← eD]; exact Detail.pub_densityP (Detail.freshOf q)
  have hw := Detail.after_density F64.selfDiff h.far.1 h.far.2
  rw [eD] at hw
  have es : Detail.propertiesP s' = s'' := Except.ok.inj ((Detail.properties_ok s').symm.trans a2)
  rw [es] at hw
  have et : (Detail.pub s').t = q.t := by rw [hd]
  have ex' : (Detail.pub s').x = q.x := by rw [hd]
  have ed : (Detail.pub s').d = s'.d := rfl
  obtain ⟨r, k1, k⟩ := C75_detail_natural_gas_properties hL hN new0 hnew (Detail.pub s') (by rw [ex']; exact fx) (by rw [ex']; exact hx)
    (by rw [ex']; exact hx') (by rw [ex']; exact hs) (by rw [et]; exact ht) (by rw [et]; exact t1) (by rw [et]; exact t2) b1 r1 r2 x
    (by rw [ex']; exact ex)
  have ez : Detail.pub s'' = Detail.pub r := by
    rw [hw]
    rw [e] at k1
    rw [Except.ok.inj ((Detail.properties_ok (Detail.freshOf (Detail.pub s'))).symm.trans k1)]
  have z1 : s''.dp_dd = r.dp_dd := congrArg Pub.dp_dd ez
  have z2 : s''.dp_dt = r.dp_dt := congrArg Pub.dp_dt ez
  have z3 : s''.cv = r.cv := congrArg Pub.cv ez
  have z4 : s''.cp = r.cp := congrArg Pub.cp ez
  have z5 : s''.w = r.w := congrArg Pub.w ez
  have z6 : s''.kappa = r.kappa := congrArg Pub.kappa ez
  have z7 : s''.jt = r.jt := congrArg Pub.jt ez
  rw [et, ed] at k
  rw [hf, ← ex] at a6
  refine ⟨s', s'', d, a1, a2, dp, (w d a5).trans (by norm_num), a6, ?_⟩
  rw [a3, z1, z2, z3, z4, z5, z6, z7]
  exact ⟨r1, r2, a8', k⟩

/-- The natural gas of the C74 example meets the hypotheses: 87.5 % methane at 300 K and 1 MPa. -/
example (hL : LibmAccurate) (hN : LnAccurate) (new0 : Detail Float) (hnew : Detail.new = .ok new0) :
    ∃ s' s'', (setPub new0 Detail.ng1).density = .ok (s', .ok ()) ∧ s'.properties = .ok s'' ∧
      |toR s''.w - Eos.speed Detail.ng1x (toR s''.d) 300| ≤ 3.3e-8 * Eos.speed Detail.ng1x (toR s''.d) 300 := by
  obtain ⟨hx, ht, fp, hp, fd, hd⟩ := Detail.ng1_ok
  have e : Detail.ng1x = fun i => toR (aget Detail.ng1.x i) := funext fun i => (hx i).2.symm
  have hs : 0.99 ≤ ∑ i, toR (aget Detail.ng1.x i) := by
    simp only [fun i => (hx i).2, Fin.sum_univ_succ]
    simp [Detail.ng1x, Fin.ext_iff]
    norm_num
  obtain ⟨s', s'', d, e1, e2, -, -, -, -, -, -, -, -, -, -, -, -, -, -, -, e3, -⟩ := C75_detail_natural_gas_workflow hL hN new0 hnew
    Detail.ng1 (fun i => (hx i).1) Detail.ng1_normal (fun i => Detail.ng1_min i) hs Detail.errLow_ok.2.1 (by rw [ht]; norm_num)
    (by rw [ht]; norm_num) fp (by rw [ht, hp]; norm_num) (by rw [ht, hp]; norm_num) fd hd.ge _ e
  rw [ht] at e3
  exact ⟨s', s'', e1, e2, e3⟩

end Aga8
