import Verif.Lemmas.NgCurve
import Verif.Props.Workflow

/-! # C74: the density of every natural gas at moderate pressures, and the properties after it, in f64

The theorems are about IEEE-754 arithmetic, with any `exp`, `powf`, `powi` and `ln` that are accurate in the sense of
`Spec/F64Accuracy`. `Spec/NormalGas` says which compositions are natural gases. The pressure that belongs to a density is `D R T Z`
with `R = 8.31451` and `Z` the AGA 8 equation of `Spec/Aga8Eos`, on real numbers. -/

set_option linter.unusedSectionVars false

namespace Aga8

open F64
open Detail (Pub setPub DensDomain fracs)

attribute [local irreducible] Detail.pressureP Detail.propertiesP Detail.densityP

variable [Libm]

/-- C74, the equation: the AGA 8 pressure of every natural gas at 263 K to 400 K grows strictly with the density up to 2 mol/l. -/
theorem C74_natural_gas_stable (x : Fin 21 → ℝ) (h : Eos.NormalGas x) (T : ℝ) (t1 : 263 ≤ T) (t2 : T ≤ 400) :
    StrictMonoOn (fun D => D * 8.31451 * T * Eos.Z x D T) (Set.Icc 0 2) := by
  have der : ∀ D, HasDerivAt (fun D => D * 8.31451 * T * Eos.Z x D T) (8.31451 * T * Eos.dPdD x D T) D := fun D => by
    refine ((Detail.DZ_deriv x D T).const_mul (8.31451 * T)).congr_of_eventuallyEq (Filter.Eventually.of_forall fun D => ?_)
    ring
  refine strictMonoOn_of_deriv_pos (convex_Icc 0 2) (fun D _ => (der D).continuousAt.continuousWithinAt) fun D hD => ?_
  rw [interior_Icc] at hD
  rw [(der D).deriv]
  have := Detail.Ng.ng_dPdD_pos h t1 t2 hD.1.le hD.2.le
  have T0 : 0 < T := by linarith
  positivity

theorem Detail.fracs_normal {q : Pub Float} (hx : Eos.NormalGas fun i => toR (aget q.x i)) :
    fracs q = fun i => toR (aget q.x i) := by
  funext i
  exact max_eq_left (hx.nonneg i)

theorem Detail.normal_le_two {x : Fin 21 → ℝ} (hx : Eos.NormalGas x) (i : Fin 21) : x i ≤ 2 := by
  have a := Finset.single_le_sum (fun j _ => hx.nonneg j) (Finset.mem_univ i)
  have b := hx.sum
  norm_num at b
  linarith

theorem Detail.dens_normal {q : Pub Float} (fx : ∀ i, IsFinite (aget q.x i))
    (hx : Eos.NormalGas fun i => toR (aget q.x i)) (hx' : ∀ i, toR (aget q.x i) = 0 ∨ 1e-10 ≤ toR (aget q.x i))
    (ht : IsFinite q.t) (t1 : 263 ≤ toR q.t) (t2 : toR q.t ≤ 400) (hp : IsFinite q.p)
    (d1 : 3e-4 ≤ toR q.p / (8.31451 * toR q.t)) (d2 : toR q.p / (8.31451 * toR q.t) ≤ 0.66) : DensDomain q := by
  have T0 : 0 < 8.31451 * toR q.t := by positivity
  rw [le_div_iff₀ T0] at d1
  rw [div_le_iff₀ T0] at d2
  norm_num at d1 d2
  refine ⟨ht, by linarith, by linarith, hp, by norm_num; linarith, by norm_num; linarith, fx, fun i => ?_, 0, ?_⟩
  · rcases hx' i with e | e
    · exact Or.inl e.le
    · exact Or.inr ⟨e, Detail.normal_le_two hx i⟩
  · have := hx.methane
    norm_num at this ⊢
    linarith

/-- C74, `density`: with an accurate math library, for every natural gas whose fractions are zero or at least 1e-10, at 263 K to 400 K,
and a pressure whose ideal-gas density `p / (R T)` is 3e-4 mol/l to 0.66 mol/l (up to 1.44 MPa at 263 K and 1.64 MPa at 300 K),
`density` on a new object reports success. The equation has exactly one density `d` up to 2 mol/l with the requested pressure, and the
computed density is within the factor `exp 7.2e-8` of it. -/
theorem C74_detail_natural_gas_density (hL : LibmAccurate) (hN : LnAccurate) (new0 : Detail Float) (hnew : Detail.new = .ok new0)
    (q : Pub Float) (fx : ∀ i, IsFinite (aget q.x i)) (hx : Eos.NormalGas fun i => toR (aget q.x i))
    (hx' : ∀ i, toR (aget q.x i) = 0 ∨ 1e-10 ≤ toR (aget q.x i))
    (ht : IsFinite q.t) (t1 : 263 ≤ toR q.t) (t2 : toR q.t ≤ 400) (hp : IsFinite q.p)
    (d1 : 3e-4 ≤ toR q.p / (8.31451 * toR q.t)) (d2 : toR q.p / (8.31451 * toR q.t) ≤ 0.66)
    (fd : IsFinite q.d) (d0 : 0 ≤ toR q.d) :
    ∃ s' d, (setPub new0 q).density = .ok (s', .ok ()) ∧ IsFinite s'.d ∧ 0 < toR s'.d ∧ 0 < d ∧ d ≤ 2 ∧
      d * 8.31451 * toR q.t * Eos.Z (fun i => toR (aget q.x i)) d (toR q.t) = toR q.p ∧
      (∀ d', 0 < d' → d' ≤ 2 → d' * 8.31451 * toR q.t * Eos.Z (fun i => toR (aget q.x i)) d' (toR q.t) = toR q.p → d' = d) ∧
      |Real.log (toR s'.d) - Real.log d| ≤ 7.2e-8 := by
  have h := Detail.dens_normal fx hx hx' ht t1 t2 hp d1 d2
  have hf := Detail.fracs_normal hx
  rw [← hf] at hx ⊢
  obtain ⟨C, w⟩ := Detail.Ng.ng_curve h hx t1 t2 d1 d2
  obtain ⟨s', d, e1, e2, e3, e4, e5, e6, e7, -⟩ := C64_detail_density_converges hL hN new0 hnew q h _ _ _ _ fd
    (Or.inl ⟨d0, rfl⟩) C.m_pos C.K1 C.r1 C.r2 C.K2 C.d1 C.d2 C.d3 C.slope C.start
  have dp : 0 < d := lt_of_lt_of_le (by have := C.pos; positivity) e6
  have d2' : d ≤ 2 := (w d e7).trans (by norm_num)
  refine ⟨s', d, e1, e2, e3, dp, d2', e4, fun d' p' g' e => ?_, e5.trans (by norm_num)⟩
  exact Detail.pipe_unique (by linarith) (fun D a b => Detail.Ng.ng_dPdD_pos hx t1 t2 a b) dp d2' p' g' (e.trans e4.symm)

/-- C74, `density` and then `properties`: in the same range, the compression factor stored is within the factor `exp 2e-8` of that of the
equation at `d`, which is `p / (d R T)`, and the pressure stored is within the factor `exp 8.4e-8` of the requested one. -/
theorem C74_detail_natural_gas_workflow (hL : LibmAccurate) (hN : LnAccurate) (new0 : Detail Float) (hnew : Detail.new = .ok new0)
    (q : Pub Float) (fx : ∀ i, IsFinite (aget q.x i)) (hx : Eos.NormalGas fun i => toR (aget q.x i))
    (hx' : ∀ i, toR (aget q.x i) = 0 ∨ 1e-10 ≤ toR (aget q.x i))
    (ht : IsFinite q.t) (t1 : 263 ≤ toR q.t) (t2 : toR q.t ≤ 400) (hp : IsFinite q.p)
    (d1 : 3e-4 ≤ toR q.p / (8.31451 * toR q.t)) (d2 : toR q.p / (8.31451 * toR q.t) ≤ 0.66)
    (fd : IsFinite q.d) (d0 : 0 ≤ toR q.d) :
    ∃ s' s'' d, (setPub new0 q).density = .ok (s', .ok ()) ∧ s'.properties = .ok s'' ∧ 0 < d ∧ d ≤ 2 ∧
      d * 8.31451 * toR q.t * Eos.Z (fun i => toR (aget q.x i)) d (toR q.t) = toR q.p ∧
      0 < toR s''.d ∧ |Real.log (toR s''.d) - Real.log d| ≤ 7.2e-8 ∧
      0 < toR s''.z ∧ |Real.log (toR s''.z) - Real.log (toR q.p / (d * 8.31451 * toR q.t))| ≤ 2e-8 ∧
      0 < toR s''.p ∧ |Real.log (toR s''.p) - Real.log (toR q.p)| ≤ 8.4e-8 := by
  have h := Detail.dens_normal fx hx hx' ht t1 t2 hp d1 d2
  have hf := Detail.fracs_normal hx
  rw [← hf] at hx ⊢
  obtain ⟨C, w⟩ := Detail.Ng.ng_curve h hx t1 t2 d1 d2
  obtain ⟨s', s'', d, a1, a2, -, a4, a5, a6, -, a7, a8, -, a9, a10, -, a11, a12⟩ := C70_detail_workflow hL hN new0 hnew q h _ _ _ _ _ fd
    (Or.inl ⟨d0, rfl⟩) C.m_pos C.K1 C.r1 C.r2 C.K2 rfl C.d1 C.d2 C.d3 C.slope C.start
  have dp : 0 < d := lt_of_lt_of_le (by have := C.pos; positivity) a4
  have eZ : Eos.Z (fracs q) d (toR q.t) = toR q.p / (d * 8.31451 * toR q.t) := by
    rw [← a6]
    have : 0 < toR q.t := by linarith
    field_simp
  rw [eZ] at a10
  refine ⟨s', s'', d, a1, a2, dp, (w d a5).trans (by norm_num), a6, a7, a8.trans (by norm_num), a9, a10.trans (by norm_num), a11,
    a12.trans (by norm_num)⟩

/-- C74, `properties` at a given density: with an accurate math library, for every natural gas whose fractions are zero or at least 1e-10,
at 263 K to 400 K and a density of zero or 1e-4 mol/l to 2 mol/l, `properties` stores a compression factor that is positive and within
2.2e-9 of the equation, and a density derivative of the pressure that is positive and within `3.8e-9 R T` of the equation. -/
theorem C74_detail_natural_gas_properties (hL : LibmAccurate) (new0 : Detail Float) (hnew : Detail.new = .ok new0)
    (q : Pub Float) (fx : ∀ i, IsFinite (aget q.x i)) (hx : Eos.NormalGas fun i => toR (aget q.x i))
    (hx' : ∀ i, toR (aget q.x i) = 0 ∨ 1e-10 ≤ toR (aget q.x i))
    (ht : IsFinite q.t) (t1 : 263 ≤ toR q.t) (t2 : toR q.t ≤ 400)
    (fd : IsFinite q.d) (hd : toR q.d = 0 ∨ 1e-4 ≤ toR q.d ∧ toR q.d ≤ 2) :
    ∃ s', (setPub new0 q).properties = .ok s' ∧ IsFinite s'.z ∧ 0 < toR s'.z ∧
      |toR s'.z - Eos.Z (fun i => toR (aget q.x i)) (toR q.d) (toR q.t)| ≤ 2.2e-9 ∧ IsFinite s'.dp_dd ∧ 0 < toR s'.dp_dd ∧
      |toR s'.dp_dd - 8.31451 * toR q.t * Eos.dPdD (fun i => toR (aget q.x i)) (toR q.d) (toR q.t)| ≤ 3.8e-9 * (8.31451 * toR q.t) := by
  have d0 : 0 ≤ toR q.d := by rcases hd with h | h <;> norm_num at h <;> linarith [h]
  have d2 : toR q.d ≤ 2 := by rcases hd with h | h <;> norm_num at h <;> linarith [h]
  have hf := Detail.fracs_normal hx
  rw [← hf] at hx ⊢
  have hq : Detail.ErrDomain q := by
    refine ⟨ht, by linarith, by linarith, fd, hd.imp_right fun a => ⟨a.1, a.2.trans (by norm_num)⟩, ?_, fx, fun i => ?_, 0, ?_⟩
    · exact (mul_le_mul (Detail.Ng.Kcubed_le hx).2 d2 d0 (by norm_num)).trans (by norm_num)
    · rcases hx' i with e | e
      · exact Or.inl e.le
      · exact Or.inr ⟨e, Detail.normal_le_two (hf ▸ hx) i⟩
    · have := hx.methane
      rw [hf] at this
      norm_num at this ⊢
      linarith
  obtain ⟨c1, -, c2, c3, c4⟩ := Detail.Ng.ng_wide hx t1 t2 d0 d2
  obtain ⟨s', e1, f1, -, e2, -⟩ := C59_detail_properties_error hL new0 hnew q hq
  obtain ⟨s'', g1, f2, g2⟩ := C59_detail_dpdd_error hL new0 hnew q hq
  have es := Except.ok.inj (g1.symm.trans e1)
  subst es
  have RT : 0 < 8.31451 * toR q.t := by positivity
  have e3 := e2.trans (mul_le_mul_of_nonneg_left c3 (by norm_num))
  have g3 := g2.trans (mul_le_mul_of_nonneg_left (mul_le_mul_of_nonneg_left c4 RT.le) (by norm_num))
  have g4 := mul_le_mul_of_nonneg_left c2 RT.le
  refine ⟨s'', e1, f1, ?_, e3.trans (by norm_num), f2, ?_, ?_⟩
  · have := (abs_le.1 e3).1
    norm_num at this c1
    linarith
  · have := (abs_le.1 g3).1
    generalize 8.31451 * toR q.t * Eos.dPdD (fracs q) (toR q.d) (toR q.t) = Y at *
    generalize 8.31451 * toR q.t = RT' at *
    norm_num at this g4
    linarith
  · refine g3.trans ?_
    generalize 8.31451 * toR q.t = RT' at *
    norm_num
    linarith

/-! ## The hypotheses can be met -/

namespace Detail

theorem chk1000 : decChk true 0 20 ⟨1000, 0⟩ = true := by decide +kernel
theorem ngc0 : decChk true 6 20 ⟨875, 3⟩ = true := by decide +kernel
theorem ngc1 : decChk true 6 20 ⟨625, 4⟩ = true := by decide +kernel
theorem ngc2 : decChk true 6 20 ⟨3125, 5⟩ = true := by decide +kernel

/-- 87.5 % methane, 6.25 % nitrogen, 3.125 % carbon dioxide and 3.125 % ethane, at 300 K and 1 MPa. -/
def ng1 : Pub Float := { errLow with
  p := f% 1000.0, x := aset (aset (aset (aset (fill 21 (f% 0.0)) 0 (f% 0.875)) 1 (f% 0.0625)) 2 (f% 0.03125)) 3 (f% 0.03125) }

/-- Its mole fractions. -/
noncomputable def ng1x (i : Fin 21) : ℝ :=
  if 3 = i then 0.03125 else if 2 = i then 0.03125 else if 1 = i then 0.0625 else if 0 = i then 0.875 else 0

theorem ng1_ok : (∀ i, IsFinite (aget ng1.x i) ∧ toR (aget ng1.x i) = ng1x i) ∧ toR ng1.t = 300 ∧ IsFinite ng1.p ∧ toR ng1.p = 1000 ∧
    IsFinite ng1.d ∧ toR ng1.d = 0 := by
  obtain ⟨-, -, ht, -, -, fd, hd⟩ := errLow_ok
  refine ⟨fun i => ?_, ht, decChk_fin chk1000, ?_, fd, hd⟩
  · have e : aget ng1.x i = if 3 = i then f% 0.03125 else if 2 = i then f% 0.03125 else if 1 = i then f% 0.0625 else
        if 0 = i then f% 0.875 else f% 0.0 := by
      show aget (aset (aset (aset (aset (fill 21 (f% 0.0)) 0 (f% 0.875)) 1 (f% 0.0625)) 2 (f% 0.03125)) 3 (f% 0.03125)) i = _
      rw [aget_aset, aget_aset, aget_aset, aget_aset, aget_fill]
    rw [e]
    unfold ng1x
    have v0 : toR (litF ⟨875, 3⟩) = 0.875 := by rw [(decChk_val ngc0).2.1 rfl]; norm_num [decR]
    have v1 : toR (litF ⟨625, 4⟩) = 0.0625 := by rw [(decChk_val ngc1).2.1 rfl]; norm_num [decR]
    have v2 : toR (litF ⟨3125, 5⟩) = 0.03125 := by rw [(decChk_val ngc2).2.1 rfl]; norm_num [decR]
    split_ifs
    · exact ⟨decChk_fin ngc2, v2⟩
    · exact ⟨decChk_fin ngc2, v2⟩
    · exact ⟨decChk_fin ngc1, v1⟩
    · exact ⟨decChk_fin ngc0, v0⟩
    · exact ⟨fin0, toR0⟩
  · show toR (litF ⟨1000, 0⟩) = 1000
    rw [(decChk_val chk1000).2.1 rfl]; norm_num [decR]

theorem ng1_min (i : Fin 21) : toR (aget ng1.x i) = 0 ∨ 1e-10 ≤ toR (aget ng1.x i) := by
  rw [(ng1_ok.1 i).2]
  unfold ng1x
  split_ifs <;> norm_num

theorem ng1_normal : Eos.NormalGas fun i => toR (aget ng1.x i) := by
  have e : (fun i => toR (aget ng1.x i)) = ng1x := funext fun i => (ng1_ok.1 i).2
  rw [e]
  refine ⟨fun i => ?_, ?_, ?_, ?_, ?_, ?_, ?_, ?_, ?_, ?_, ?_, ?_, ?_, ?_, ?_, ?_, ?_⟩
  · unfold ng1x
    split_ifs <;> norm_num
  · simp only [Fin.sum_univ_succ]
    simp [ng1x, Fin.ext_iff]
    norm_num
  all_goals simp [ng1x, Fin.ext_iff]
  all_goals norm_num

end Detail

/-- This gas meets the hypotheses of the density and workflow theorems. -/
example (hL : LibmAccurate) (hN : LnAccurate) (new0 : Detail Float) (hnew : Detail.new = .ok new0) :
    ∃ s' d, (setPub new0 Detail.ng1).density = .ok (s', .ok ()) ∧
      d * 8.31451 * 300 * Eos.Z (fun i => toR (aget Detail.ng1.x i)) d 300 = 1000 ∧
      |Real.log (toR s'.d) - Real.log d| ≤ 7.2e-8 := by
  obtain ⟨hx, ht, fp, hp, fd, hd⟩ := Detail.ng1_ok
  obtain ⟨s', d, e1, -, -, -, -, e2, -, e3⟩ := C74_detail_natural_gas_density hL hN new0 hnew Detail.ng1 (fun i => (hx i).1)
    Detail.ng1_normal (fun i => Detail.ng1_min i) Detail.errLow_ok.2.1 (by rw [ht]; norm_num) (by rw [ht]; norm_num) fp
    (by rw [ht, hp]; norm_num) (by rw [ht, hp]; norm_num) fd hd.ge
  rw [ht, hp] at e2
  exact ⟨s', d, e1, e2, e3⟩

/-- And, at its density zero, those of the theorem on `properties`. -/
example (hL : LibmAccurate) (new0 : Detail Float) (hnew : Detail.new = .ok new0) :
    ∃ s', (setPub new0 Detail.ng1).properties = .ok s' ∧ 0 < toR s'.dp_dd := by
  obtain ⟨hx, ht, fp, hp, fd, hd⟩ := Detail.ng1_ok
  obtain ⟨s', e1, -, -, -, -, e2, -⟩ := C74_detail_natural_gas_properties hL new0 hnew Detail.ng1 (fun i => (hx i).1)
    Detail.ng1_normal (fun i => Detail.ng1_min i) Detail.errLow_ok.2.1 (by rw [ht]; norm_num) (by rw [ht]; norm_num) fd (Or.inl hd)
  exact ⟨s', e1, e2⟩

end Aga8
