import Verif.Lemmas.AfterDensity
import Verif.Props.MethanePipeline
import Verif.Props.GergPipeline
import Verif.Props.DetailError
import Verif.Props.GergError

/-! # C70: from pressure and temperature to the compression factor, in f64

The documented use of the crate is to set the composition, the temperature and the pressure, to call `density` and then
`properties`, and to read the results. These theorems follow both calls on the same object, in IEEE-754 arithmetic, with any `exp`,
`powf`, `powi` and `ln` that are accurate in the sense of `Spec/F64Accuracy`. -/

set_option linter.unusedSectionVars false

namespace Aga8

open F64

attribute [local irreducible] Detail.pressureP Detail.propertiesP Detail.densityP Gerg.newP Gerg.pressureP Gerg.propertiesP
  Gerg.densityP

/-- The logarithm of the compression factor. -/
theorem log_z {d d' c z z' p k m ε : ℝ} (hd : 0 < d) (hd' : 0 < d') (hc : 0 < c) (hz : 0 < z) (hz' : 0 < z')
    (hp : d * c * z = p) (hk : Real.log (d' * c * z') - Real.log p = k * (Real.log d' - Real.log d))
    (k1 : m ≤ k) (k2 : k ≤ 1.4 * m) (he : |Real.log d' - Real.log d| ≤ ε) :
    |Real.log z' - Real.log z| ≤ max (1 - m) (1.4 * m - 1) * ε := by
  subst hp
  rw [Real.log_mul (by positivity) hz'.ne', Real.log_mul hd'.ne' hc.ne', Real.log_mul (by positivity) hz.ne',
    Real.log_mul hd.ne' hc.ne'] at hk
  have e : Real.log z' - Real.log z = (k - 1) * (Real.log d' - Real.log d) := by linarith
  rw [e, abs_mul]
  have h1 : |k - 1| ≤ max (1 - m) (1.4 * m - 1) := by
    rw [abs_le]
    constructor
    · linarith [le_max_left (1 - m) (1.4 * m - 1)]
    · linarith [le_max_right (1 - m) (1.4 * m - 1)]
  exact mul_le_mul h1 he (abs_nonneg _) ((abs_nonneg _).trans h1)

variable [Libm]

section
open Detail (Pub setPub DensDomain fracs)

/-- C70, DETAIL: under the conditions of C64, `density` on a new object reports success and `properties` called next on the same
object returns. It keeps the density found. The compression factor it stores is within the factor
`exp (max (1 - m) (1.4 m - 1) ε + 1.1e-9 K)` of the exact one at the exact density `d`, where `ε = 5.6e-8 + 2.1e-9 K (1 + 1/m)`, and
the pressure it stores is within the factor `exp (1.4 m ε + 1.1e-9 K)` of the requested one. -/
theorem C70_detail_workflow (hL : LibmAccurate) (hN : LnAccurate) (new0 : Detail Float) (hnew : Detail.new = .ok new0)
    (q : Pub Float) (h : DensDomain q) (D0 K m ρ ε : ℝ) (fd : IsFinite q.d)
    (hstart : (0 ≤ toR q.d ∧ D0 = toR q.p / (8.31451 * toR q.t)) ∨ toR q.d = -D0)
    (hm : 0 < m) (hK1 : 1 ≤ K) (hρ1 : 0.01 ≤ ρ) (hρ2 : ρ ≤ 1) (hK : K * (1 + 1 / m) ≤ 22 - 3 * ρ)
    (hε : ε = 5.6e-8 + 2.1e-9 * (K * (1 + 1 / m)))
    (d1 : 3e-4 ≤ D0) (d2 : D0 ≤ 300)
    (d3 : Eos.Kcubed (fracs q) * D0 ≤ 1)
    (hslope : ∀ D, D0 * Real.exp (-ρ) ≤ D → D ≤ D0 * Real.exp ρ →
      0 < Eos.Z (fracs q) D (toR q.t) ∧ Eos.Zabs (fracs q) D (toR q.t) ≤ K * Eos.Z (fracs q) D (toR q.t) ∧
      Eos.dPdDabs (fracs q) D (toR q.t) ≤ K * Eos.dPdD (fracs q) D (toR q.t) ∧
      m ≤ Eos.dPdD (fracs q) D (toR q.t) / Eos.Z (fracs q) D (toR q.t) ∧
      Eos.dPdD (fracs q) D (toR q.t) / Eos.Z (fracs q) D (toR q.t) ≤ 1.4 * m)
    (h0 : |Real.log (D0 * 8.31451 * toR q.t * Eos.Z (fracs q) D0 (toR q.t)) - Real.log (toR q.p)| ≤ 0.4 * m * ρ) :
    ∃ s' s'' d, (setPub new0 q).density = .ok (s', .ok ()) ∧ s'.properties = .ok s'' ∧ s''.d = s'.d ∧
      D0 * Real.exp (-ρ) ≤ d ∧ d ≤ D0 * Real.exp ρ ∧
      d * 8.31451 * toR q.t * Eos.Z (fracs q) d (toR q.t) = toR q.p ∧
      IsFinite s''.d ∧ 0 < toR s''.d ∧ |Real.log (toR s''.d) - Real.log d| ≤ ε ∧
      IsFinite s''.z ∧ 0 < toR s''.z ∧
      |Real.log (toR s''.z) - Real.log (Eos.Z (fracs q) d (toR q.t))| ≤ max (1 - m) (1.4 * m - 1) * ε + 1.1e-9 * K ∧
      IsFinite s''.p ∧ 0 < toR s''.p ∧
      |Real.log (toR s''.p) - Real.log (toR q.p)| ≤ 1.4 * m * ε + 1.1e-9 * K := by
  obtain ⟨s', d, e1, e2, e3, e4, e5, e6, e7, -⟩ := C64_detail_density_converges hL hN new0 hnew q h D0 K m ρ fd hstart hm hK1 hρ1
    hρ2 hK d1 d2 d3 hslope h0
  have e := Except.ok.inj (hnew.symm.trans Detail.new_ok)
  have e1' : (Detail.freshOf q).density = .ok (s', .ok ()) := by rw [e] at e1; exact e1
  have C : Detail.F64Curve q D0 K m ρ := ⟨h, hm, hρ1, hρ2, hK1, hK, d1, d2, d3, hslope, h0⟩
  have T0 : 0 < toR q.t := by linarith [h.t_low]
  have P0 : 0 < toR q.p := lt_of_lt_of_le (by norm_num) h.p_low
  have D0p := C.pos
  have dp : 0 < d := lt_of_lt_of_le (by positivity) e6
  rw [← hε] at e5
  have ε0 : 0 ≤ ε := (abs_nonneg _).trans e5
  have ε1 : ε ≤ 0.6 * ρ := by
    have := C.K3
    rw [hε]
    norm_num at this hρ1 ⊢
    linarith
  obtain ⟨w1, w2, k, k1, k2, k3⟩ := C.tame.near D0p e6 e7 e4 e3 (e5.trans ε1)
  obtain ⟨z0, za, -, -, -⟩ := hslope _ w1 w2
  obtain ⟨zd, -⟩ := hslope _ e6 e7
  have eD : (Detail.densityP (Detail.freshOf q)).1 = s' := by
    have := (Detail.density_ok (Detail.freshOf q)).symm.trans e1'
    rw [Except.ok.inj this]
  have hd : Detail.pub s' = { q with d := s'.d, z := s'.z } := by
    rw [← eD]; exact Detail.pub_densityP (Detail.freshOf q)
  -- `properties` sees a new object
  have hw := Detail.after_density F64.selfDiff h.far.1 h.far.2
  rw [eD] at hw
  have ex1 : Real.exp ρ ≤ 2.72 := (Real.exp_le_exp.2 hρ2).trans (by have := Real.exp_one_lt_d9; norm_num; linarith)
  have ex2 : 0.36 ≤ Real.exp (-ρ) := by
    have := Real.exp_one_lt_d9
    rw [Real.exp_neg]
    rw [le_inv_comm₀ (by norm_num) (Real.exp_pos _)]
    refine (Real.exp_le_exp.2 hρ2).trans ?_
    norm_num
    linarith
  have dl : 1e-4 ≤ toR s'.d := by
    refine le_trans ?_ w1
    have := mul_le_mul d1 ex2 (by norm_num) D0p.le
    refine le_trans (by norm_num) this
  have dh : toR s'.d ≤ D0 * 2.72 := w2.trans (mul_le_mul_of_nonneg_left ex1 D0p.le)
  have k0 : 0 ≤ Eos.Kcubed (fracs q) := Detail.K_nonneg hL h
  have hq : Detail.ErrDomain (Detail.pub s') := by
    rw [hd]
    refine ⟨h.t_fin, h.t_low, h.t_high, e2, Or.inr ⟨dl, ?_⟩, ?_, h.x_fin, h.x_rng, h.x_big⟩
    · norm_num at d2 dh ⊢; linarith
    · have := mul_le_mul_of_nonneg_left dh k0
      show Eos.Kcubed (fracs q) * toR s'.d ≤ 3
      norm_num at this d3 ⊢
      linarith
  obtain ⟨r, r1, r2, r3, r4, r5⟩ := C59_detail_properties_error hL new0 hnew _ hq
  rw [e] at r1
  have er : Detail.propertiesP (Detail.freshOf (Detail.pub s')) = r := by
    have := (Detail.properties_ok (Detail.freshOf (Detail.pub s'))).symm.trans r1
    injection this
  rw [er] at hw
  have ez : (Detail.propertiesP s').z = r.z := congrArg Pub.z hw
  have ep : (Detail.propertiesP s').p = r.p := congrArg Pub.p hw
  have ed : (Detail.propertiesP s').d = s'.d := Detail.propertiesP_d s'
  have ef : fracs (Detail.pub s') = fracs q := by rw [hd]; rfl
  have et : (Detail.pub s').t = q.t := by rw [hd]
  have ed' : (Detail.pub s').d = s'.d := rfl
  rw [ef, et, ed'] at r4 r5
  have K22 := C.K6
  have zl : |toR r.z - Eos.Z (fracs q) (toR s'.d) (toR q.t)| ≤ (1e-9 * K) * Eos.Z (fracs q) (toR s'.d) (toR q.t) := by
    refine r4.trans ?_
    rw [mul_assoc]
    exact mul_le_mul_of_nonneg_left za (by norm_num)
  have c0 : 0 < toR s'.d * 8.31451 * toR q.t := by positivity
  have pl : |toR r.p - toR s'.d * 8.31451 * toR q.t * Eos.Z (fracs q) (toR s'.d) (toR q.t)|
      ≤ (1e-9 * K) * (toR s'.d * 8.31451 * toR q.t * Eos.Z (fracs q) (toR s'.d) (toR q.t)) := by
    refine r5.trans ?_
    have := mul_le_mul_of_nonneg_left za c0.le
    rw [mul_assoc (1e-9 : ℝ)]
    exact mul_le_mul_of_nonneg_left (this.trans (le_of_eq (by ring))) (by norm_num)
  have K1 : 1e-9 * K ≤ 1 / 100 := by norm_num; linarith
  obtain ⟨za0, zl⟩ := Newton.log_rel z0 zl K1
  obtain ⟨pa0, pl⟩ := Newton.log_rel (mul_pos c0 z0) pl K1
  have lz := log_z (c := 8.31451 * toR q.t) (p := toR q.p) dp e3 (by positivity) zd z0 (by rw [← e4]; ring)
    (by rw [← k3]; unfold Detail.PT; ring_nf) k1 k2 e5
  refine ⟨s', Detail.propertiesP s', d, e1, Detail.properties_ok s', ed, e6, e7, e4, by rw [ed]; exact e2, by rw [ed]; exact e3,
    by rw [ed]; exact e5, by rw [ez]; exact r2, by rw [ez]; exact za0, ?_, by rw [ep]; exact r3, by rw [ep]; exact pa0, ?_⟩
  · rw [ez]
    have := abs_sub_le (Real.log (toR r.z)) (Real.log (Eos.Z (fracs q) (toR s'.d) (toR q.t))) (Real.log (Eos.Z (fracs q) d (toR q.t)))
    refine this.trans ?_
    norm_num at zl lz ⊢
    linarith
  · rw [ep]
    have := abs_sub_le (Real.log (toR r.p)) (Real.log (toR s'.d * 8.31451 * toR q.t * Eos.Z (fracs q) (toR s'.d) (toR q.t)))
      (Real.log (toR q.p))
    refine this.trans ?_
    have k4 : |Real.log (toR s'.d * 8.31451 * toR q.t * Eos.Z (fracs q) (toR s'.d) (toR q.t)) - Real.log (toR q.p)| ≤ 1.4 * m * ε := by
      have k3' : Real.log (toR s'.d * 8.31451 * toR q.t * Eos.Z (fracs q) (toR s'.d) (toR q.t)) - Real.log (toR q.p)
        = k * (Real.log (toR s'.d) - Real.log d) := k3
      rw [k3', abs_mul, abs_of_pos (lt_of_lt_of_le hm k1)]
      exact mul_le_mul k2 e5 (abs_nonneg _) (by positivity)
    norm_num at pl k4 ⊢
    linarith

/-- A bound for the compression factor when the slope is at most 1.1. -/
theorem workflow_bounds {K m ρ ε : ℝ} (hm : 0 < m) (hm2 : m ≤ 1.1) (hK1 : 1 ≤ K) (hρ : 0.01 ≤ ρ) (hK : K * (1 + 1 / m) ≤ 22 - 3 * ρ)
    (hε : ε = 5.6e-8 + 2.1e-9 * (K * (1 + 1 / m))) :
    ε ≤ 1.03e-7 ∧ max (1 - m) (1.4 * m - 1) * ε + 1.1e-9 * K ≤ 1.3e-7 ∧ 1.4 * m * ε + 1.1e-9 * K ≤ 1.9e-7 := by
  have h0 : 0 ≤ K * (1 / m) := by positivity
  have K22 : K ≤ 22 := by norm_num at hρ; linarith
  have e0 : 0 ≤ ε := by rw [hε]; positivity
  have e1 : ε ≤ 1.03e-7 := by
    rw [hε]
    norm_num at hρ hK ⊢
    linarith
  refine ⟨e1, ?_, ?_⟩
  · have : max (1 - m) (1.4 * m - 1) ≤ 1 := max_le (by linarith) (by norm_num at hm2 ⊢; linarith)
    have := mul_le_mul_of_nonneg_right this e0
    norm_num at e1 this ⊢
    linarith
  · have : 1.4 * m ≤ 1.54 := by norm_num at hm2 ⊢; linarith
    have := mul_le_mul_of_nonneg_right this e0
    norm_num at e1 this ⊢
    linarith

/-- C70, DETAIL methane: in the range of C68, `density` and then `properties` give a density within the factor `exp 1.03e-7` of the
gas density `d`, a compression factor within the factor `exp 1.3e-7` of that of the equation at `d`, which is `p / (d R T)`, and a
pressure within the factor `exp 1.9e-7` of the requested one. -/
theorem C70_detail_methane (hL : LibmAccurate) (hN : LnAccurate) (new0 : Detail Float) (hnew : Detail.new = .ok new0)
    (q : Pub Float) (hx : ∀ i, IsFinite (aget q.x i) ∧ toR (aget q.x i) = if i = 0 then 1 else 0)
    (ht : IsFinite q.t) (ht1 : 200 ≤ toR q.t) (ht2 : toR q.t ≤ 600) (hp : IsFinite q.p)
    (d1 : 3e-4 ≤ toR q.p / (8.31451 * toR q.t)) (d2 : toR q.p / (8.31451 * toR q.t) ≤ 5)
    (d3 : toR q.p / (8.31451 * toR q.t) ≤ 1 + 0.022 * (toR q.t - 200))
    (fd : IsFinite q.d) (d0 : 0 ≤ toR q.d) :
    ∃ s' s'' d, (setPub new0 q).density = .ok (s', .ok ()) ∧ s'.properties = .ok s'' ∧ 0 < d ∧
      d * 8.31451 * toR q.t * Eos.Z (fun i => if i = 0 then 1 else 0) d (toR q.t) = toR q.p ∧
      (∀ d', 0 < d' → d' * 8.31451 * toR q.t * Eos.Z (fun i => if i = 0 then 1 else 0) d' (toR q.t) = toR q.p → d ≤ d') ∧
      0 < toR s''.d ∧ |Real.log (toR s''.d) - Real.log d| ≤ 1.03e-7 ∧
      0 < toR s''.z ∧ |Real.log (toR s''.z) - Real.log (toR q.p / (d * 8.31451 * toR q.t))| ≤ 1.3e-7 ∧
      0 < toR s''.p ∧ |Real.log (toR s''.p) - Real.log (toR q.p)| ≤ 1.9e-7 := by
  have hf : fracs q = Detail.posPart Detail.mx := Detail.fracs_methane hx
  have hf2 : (fun i => if i = 0 then 1 else 0) = fracs q := by
    funext i
    rw [hf, Detail.posPart_mx]
  have h := Detail.dens_methane_wide hx ht (by linarith) ht2 hp d1 d2
  obtain ⟨K, m, ρ, C, hm, hY⟩ := Detail.pipe_curve h hf ht1 ht2 d1 d2 d3
  obtain ⟨s', s'', d, a1, a2, -, a4, a5, a6, -, a7, a8, -, a9, a10, -, a11, a12⟩ := C70_detail_workflow hL hN new0 hnew q h _ _ _ _ _ fd
    (Or.inl ⟨d0, rfl⟩) C.m_pos C.K1 C.r1 C.r2 C.K2 rfl C.d1 C.d2 C.d3 C.slope C.start
  obtain ⟨b1, b2, b3⟩ := workflow_bounds C.m_pos hm C.K1 C.r1 C.K2 rfl
  have dp : 0 < d := lt_of_lt_of_le (by have := C.pos; positivity) a4
  have eZ : Eos.Z (fracs q) d (toR q.t) = toR q.p / (d * 8.31451 * toR q.t) := by
    rw [← a6]
    have : 0 < toR q.t := by linarith
    field_simp
  rw [eZ] at a10
  rw [hf2]
  refine ⟨s', s'', d, a1, a2, dp, a6, fun d' p' g => ?_, a7, a8.trans b1, a9, a10.trans b2, a11, a12.trans b3⟩
  rcases le_total d d' with l | l
  · exact l
  · exact (Detail.pipe_unique (by linarith) hY dp a5 p' (l.trans a5) (g.trans a6.symm)).ge

/-- Methane at 300 K and 7 MPa. -/
example (hL : LibmAccurate) (hN : LnAccurate) (new0 : Detail Float) (hnew : Detail.new = .ok new0) :
    ∃ s' s'' d, (setPub new0 Detail.pipe7).density = .ok (s', .ok ()) ∧ s'.properties = .ok s'' ∧
      |Real.log (toR s''.z) - Real.log (7000 / (d * 8.31451 * 300))| ≤ 1.3e-7 := by
  obtain ⟨hx, ft, ht, -, -, fd, hd⟩ := Detail.errLow_ok
  have hp : toR Detail.pipe7.p = 7000 := by
    show toR (litF ⟨7000, 0⟩) = 7000
    rw [(decChk_val Detail.chk7000).2.1 rfl]; simp [decR]
  have ht' : toR Detail.pipe7.t = 300 := ht
  have hd' : toR Detail.pipe7.d = 0 := hd
  obtain ⟨s', s'', d, e1, e2, -, -, -, -, -, -, e3, -⟩ := C70_detail_methane hL hN new0 hnew Detail.pipe7 hx ft (by rw [ht']; norm_num)
    (by rw [ht']; norm_num) (decChk_fin Detail.chk7000) (by rw [ht', hp]; norm_num) (by rw [ht', hp]; norm_num)
    (by rw [ht', hp]; norm_num) fd (by rw [hd'])
  rw [ht', hp] at e3
  exact ⟨s', s'', d, e1, e2, e3⟩

end

section
open Gerg (Pub setPub DensDomain fracs)

/-- C70, GERG-2008: under the conditions of C62, `density` on a new object with a flag that is not positive reports success and `properties` called next on the same
object returns. It keeps the density found. The compression factor it stores is within the factor
`exp (max (1 - m) (1.4 m - 1) ε + 1.1e-9 K)` of the exact one at the exact density `d`, where `ε = 5.6e-8 + 2.1e-9 K (1 + 1/m)`, and
the pressure it returns is within the factor `exp (1.4 m ε + 1.1e-9 K)` of the requested one. -/
theorem C70_gerg_workflow (hL : LibmAccurate) (hN : LnAccurate) (new0 : Gerg Float) (hnew : Gerg.new = .ok new0)
    (q : Pub Float) (h : DensDomain q) (iflag : Int) (hf : iflag ≤ 0) (D0 K m ρ ε : ℝ) (fd : IsFinite q.d)
    (hstart : (0 ≤ toR q.d ∧ D0 = toR q.p / (8.314472 * toR q.t)) ∨ toR q.d = -D0)
    (hm : 0 < m) (hK1 : 1 ≤ K) (hρ1 : 0.01 ≤ ρ) (hρ2 : ρ ≤ 1) (hK : K * (1 + 1 / m) ≤ 22 - 9 * ρ)
    (hε : ε = 5.6e-8 + 2.1e-9 * (K * (1 + 1 / m)))
    (d1 : 3e-4 ≤ D0) (d2 : D0 ≤ 300)
    (d3 : D0 * GergEos.invRhoR (fracs q) ≤ 1)
    (hslope : ∀ D, D0 * Real.exp (-ρ) ≤ D → D ≤ D0 * Real.exp ρ →
      0 < GergEos.Z (fracs q) D (toR q.t) ∧ GergEos.Zabs (fracs q) D (toR q.t) ≤ K * GergEos.Z (fracs q) D (toR q.t) ∧
      GergEos.dPdDabs (fracs q) D (toR q.t) ≤ K * GergEos.dPdD (fracs q) D (toR q.t) ∧
      m ≤ GergEos.dPdD (fracs q) D (toR q.t) / GergEos.Z (fracs q) D (toR q.t) ∧
      GergEos.dPdD (fracs q) D (toR q.t) / GergEos.Z (fracs q) D (toR q.t) ≤ 1.4 * m)
    (h0 : |Real.log (D0 * 8.314472 * toR q.t * GergEos.Z (fracs q) D0 (toR q.t)) - Real.log (toR q.p)| ≤ 0.4 * m * ρ) :
    ∃ s' s'' p d, (setPub new0 q).density iflag = .ok (s', .ok ()) ∧ s'.properties = .ok (s'', p) ∧ s''.d = s'.d ∧
      D0 * Real.exp (-ρ) ≤ d ∧ d ≤ D0 * Real.exp ρ ∧
      d * 8.314472 * toR q.t * GergEos.Z (fracs q) d (toR q.t) = toR q.p ∧
      IsFinite s''.d ∧ 0 < toR s''.d ∧ |Real.log (toR s''.d) - Real.log d| ≤ ε ∧
      IsFinite s''.z ∧ 0 < toR s''.z ∧
      |Real.log (toR s''.z) - Real.log (GergEos.Z (fracs q) d (toR q.t))| ≤ max (1 - m) (1.4 * m - 1) * ε + 1.1e-9 * K ∧
      IsFinite p ∧ 0 < toR p ∧
      |Real.log (toR p) - Real.log (toR q.p)| ≤ 1.4 * m * ε + 1.1e-9 * K := by
  obtain ⟨s', d, e1, e2, e3, e4, e5, e6, e7, -⟩ := C62_gerg_density_converges hL hN new0 hnew q h iflag hf D0 K m ρ fd hstart hm hK1 hρ1
    hρ2 hK d1 d2 d3 hslope h0
  have e := Gerg.new_inj hnew
  have e1' : (Gerg.freshOf q).density iflag = .ok (s', .ok ()) := by rw [e] at e1; exact e1
  have C : Gerg.F64Curve q D0 K m ρ := ⟨h, hm, hρ1, hρ2, hK1, hK, d1, d2, d3, hslope, h0⟩
  have T0 : 0 < toR q.t := by linarith [h.t_low]
  have P0 : 0 < toR q.p := lt_of_lt_of_le (by norm_num) h.p_low
  have D0p := C.pos
  have dp : 0 < d := lt_of_lt_of_le (by positivity) e6
  rw [← hε] at e5
  have ε0 : 0 ≤ ε := (abs_nonneg _).trans e5
  have ε1 : ε ≤ 0.6 * ρ := by
    have := C.K2
    rw [hε]
    norm_num at hρ1 ⊢
    norm_num at this
    linarith
  obtain ⟨w1, w2, k, k1, k2, k3⟩ := (C.tame hL).near D0p e6 e7 e4 e3 (e5.trans ε1)
  obtain ⟨z0, za, -, -, -⟩ := hslope _ w1 w2
  obtain ⟨zd, -⟩ := hslope _ e6 e7
  have eD : (Gerg.densityP (Gerg.freshOf q) iflag).1 = s' := by
    have := (Gerg.density_ok (s := Gerg.freshOf q) (Gerg.reachable_fresh q).idx iflag).symm.trans e1'
    rw [Except.ok.inj this]
  have hd : Gerg.pub s' = { q with d := s'.d, z := s'.z } := by
    rw [← eD]; exact Gerg.dz_densityP hf (Gerg.freshOf q)
  -- `properties` sees a new object
  have hw := Gerg.after_density F64.selfDiff h.far.1 h.far.2 iflag hf
  rw [eD] at hw
  have ex1 : Real.exp ρ ≤ 2.72 := (Real.exp_le_exp.2 hρ2).trans (by have := Real.exp_one_lt_d9; norm_num; linarith)
  have ex2 : 0.36 ≤ Real.exp (-ρ) := by
    have := Real.exp_one_lt_d9
    rw [Real.exp_neg]
    rw [le_inv_comm₀ (by norm_num) (Real.exp_pos _)]
    refine (Real.exp_le_exp.2 hρ2).trans ?_
    norm_num
    linarith
  have dl : 1e-4 ≤ toR s'.d := by
    refine le_trans ?_ w1
    have := mul_le_mul d1 ex2 (by norm_num) D0p.le
    refine le_trans (by norm_num) this
  have dh : toR s'.d ≤ D0 * 2.72 := w2.trans (mul_le_mul_of_nonneg_left ex1 D0p.le)
  have hq : Gerg.ErrDomain (Gerg.pub s') := by
    rw [hd]
    refine ⟨h.t_fin, h.t_low, h.t_high, h.t_red1, h.t_red2, e2, Or.inr ⟨dl, ?_⟩, ?_, h.x_fin,
      fun i hi => (h.x_rng i hi).imp le_of_eq id, h.x_big⟩
    · norm_num at d2 dh ⊢; linarith
    · show toR s'.d * GergEos.invRhoR (fracs q) ≤ 2.8
      have V0 := Gerg.invRho_nonneg h
      have := mul_le_mul_of_nonneg_right dh V0
      norm_num at this d3 ⊢
      linarith
  obtain ⟨r, pr, r1, r2, r3, -, r4, r5, -⟩ := C60_gerg_properties_error hL hN new0 hnew _ hq
  rw [e] at r1
  have er : Gerg.propertiesP (Gerg.freshOf (Gerg.pub s')) = (r, pr) := by
    have := (Gerg.properties_ok (s := Gerg.freshOf (Gerg.pub s')) (Gerg.reachable_fresh _).idx).symm.trans r1
    exact Except.ok.inj this
  rw [er] at hw
  have ez : (Gerg.propertiesP s').1.z = r.z := congrArg Pub.z hw.1
  have ep : (Gerg.propertiesP s').2 = pr := hw.2
  have ei : Gerg.Idx s' := (Gerg.Reachable.step (op := .density iflag) (Gerg.reachable_fresh q) (by
    simp only [Gerg.step, e1', bind, Except.bind, pure, Except.pure]
    rfl)).idx
  have ed : (Gerg.propertiesP s').1.d = s'.d := Gerg.propertiesP_d s'
  have ef : fracs (Gerg.pub s') = fracs q := by rw [hd]; rfl
  have et : (Gerg.pub s').t = q.t := by rw [hd]
  have ed' : (Gerg.pub s').d = s'.d := rfl
  rw [ef, et, ed'] at r4 r5
  have K22 := C.K6
  have zl : |toR r.z - GergEos.Z (fracs q) (toR s'.d) (toR q.t)| ≤ (1e-9 * K) * GergEos.Z (fracs q) (toR s'.d) (toR q.t) := by
    refine r4.trans ?_
    rw [mul_assoc]
    exact mul_le_mul_of_nonneg_left za (by norm_num)
  have c0 : 0 < toR s'.d * 8.314472 * toR q.t := by positivity
  have pl : |toR pr - toR s'.d * 8.314472 * toR q.t * GergEos.Z (fracs q) (toR s'.d) (toR q.t)|
      ≤ (1e-9 * K) * (toR s'.d * 8.314472 * toR q.t * GergEos.Z (fracs q) (toR s'.d) (toR q.t)) := by
    refine r5.trans ?_
    have := mul_le_mul_of_nonneg_left za c0.le
    rw [mul_assoc (1e-9 : ℝ)]
    exact mul_le_mul_of_nonneg_left (this.trans (le_of_eq (by ring))) (by norm_num)
  have K1 : 1e-9 * K ≤ 1 / 100 := by norm_num; linarith
  obtain ⟨za0, zl⟩ := Newton.log_rel z0 zl K1
  obtain ⟨pa0, pl⟩ := Newton.log_rel (mul_pos c0 z0) pl K1
  have lz := log_z (c := 8.314472 * toR q.t) (p := toR q.p) dp e3 (by positivity) zd z0 (by rw [← e4]; ring)
    (by rw [← k3]; unfold Gerg.PT; ring_nf) k1 k2 e5
  refine ⟨s', (Gerg.propertiesP s').1, (Gerg.propertiesP s').2, d, e1, Gerg.properties_ok ei, ed, e6, e7, e4, by rw [ed]; exact e2, by rw [ed]; exact e3,
    by rw [ed]; exact e5, by rw [ez]; exact r2, by rw [ez]; exact za0, ?_, by rw [ep]; exact r3, by rw [ep]; exact pa0, ?_⟩
  · rw [ez]
    have := abs_sub_le (Real.log (toR r.z)) (Real.log (GergEos.Z (fracs q) (toR s'.d) (toR q.t))) (Real.log (GergEos.Z (fracs q) d (toR q.t)))
    refine this.trans ?_
    norm_num at zl lz ⊢
    linarith
  · rw [ep]
    have := abs_sub_le (Real.log (toR pr)) (Real.log (toR s'.d * 8.314472 * toR q.t * GergEos.Z (fracs q) (toR s'.d) (toR q.t)))
      (Real.log (toR q.p))
    refine this.trans ?_
    have k4 : |Real.log (toR s'.d * 8.314472 * toR q.t * GergEos.Z (fracs q) (toR s'.d) (toR q.t)) - Real.log (toR q.p)| ≤ 1.4 * m * ε := by
      have k3' : Real.log (toR s'.d * 8.314472 * toR q.t * GergEos.Z (fracs q) (toR s'.d) (toR q.t)) - Real.log (toR q.p)
        = k * (Real.log (toR s'.d) - Real.log d) := k3
      rw [k3', abs_mul, abs_of_pos (lt_of_lt_of_le hm k1)]
      exact mul_le_mul k2 e5 (abs_nonneg _) (by positivity)
    norm_num at pl k4 ⊢
    linarith

/-- C70, GERG-2008 methane: in the range of C69, `density` and then `properties` give a density within the factor `exp 1.03e-7` of
the gas density `d`, a compression factor within the factor `exp 1.3e-7` of that of the equation at `d`, which is `p / (d R T)`, and
a pressure within the factor `exp 1.9e-7` of the requested one. -/
theorem C70_gerg_methane (hL : LibmAccurate) (hN : LnAccurate) (new0 : Gerg Float) (hnew : Gerg.new = .ok new0)
    (q : Pub Float) (hx : ∀ i : Fin 22, 1 ≤ i.1 → IsFinite (aget q.x i) ∧ toR (aget q.x i) = if i = 1 then 1 else 0)
    (ht : IsFinite q.t) (ht1 : 200 ≤ toR q.t) (ht2 : toR q.t ≤ 600) (hp : IsFinite q.p)
    (d1 : 3e-4 ≤ toR q.p / (8.314472 * toR q.t)) (d2 : toR q.p / (8.314472 * toR q.t) ≤ 5)
    (d3 : toR q.p / (8.314472 * toR q.t) ≤ 1 + 0.017 * (toR q.t - 200))
    (fd : IsFinite q.d) (d0 : 0 ≤ toR q.d) (iflag : Int) (hf : iflag ≤ 0) :
    ∃ s' s'' p d, (setPub new0 q).density iflag = .ok (s', .ok ()) ∧ s'.properties = .ok (s'', p) ∧ 0 < d ∧
      d * 8.314472 * toR q.t * GergEos.Z (fun i => if i = 1 then 1 else 0) d (toR q.t) = toR q.p ∧
      (∀ d', 0 < d' → d' * 8.314472 * toR q.t * GergEos.Z (fun i => if i = 1 then 1 else 0) d' (toR q.t) = toR q.p → d ≤ d') ∧
      0 < toR s''.d ∧ |Real.log (toR s''.d) - Real.log d| ≤ 1.03e-7 ∧
      0 < toR s''.z ∧ |Real.log (toR s''.z) - Real.log (toR q.p / (d * 8.314472 * toR q.t))| ≤ 1.3e-7 ∧
      0 < toR p ∧ |Real.log (toR p) - Real.log (toR q.p)| ≤ 1.9e-7 := by
  obtain ⟨h, K, m, ρ, C, hm, hY⟩ := Gerg.methane_curve hx ht ht1 ht2 hp d1 d2 d3
  obtain ⟨s', s'', p, d, a1, a2, -, a4, a5, a6, -, a7, a8, -, a9, a10, -, a11, a12⟩ := C70_gerg_workflow hL hN new0 hnew q h iflag hf
    _ _ _ _ _ fd (Or.inl ⟨d0, rfl⟩) C.m_pos C.K1 C.r1 C.r2 C.K2 rfl C.d1 C.d2 C.d3 C.slope C.start
  obtain ⟨b1, b2, b3⟩ := workflow_bounds C.m_pos hm C.K1 C.r1 (C.K2.trans (by linarith [C.rpos])) rfl
  have cZ : GergEos.Z (fracs q) = GergEos.Z (fun i => if i = 1 then 1 else 0) := by
    funext D T
    exact Gerg.Z_congr' (Gerg.fracs_pure hx) D T
  have dp : 0 < d := lt_of_lt_of_le (by have := C.pos; positivity) a4
  have eZ : GergEos.Z (fracs q) d (toR q.t) = toR q.p / (d * 8.314472 * toR q.t) := by
    rw [← a6]
    have : 0 < toR q.t := by linarith
    field_simp
  rw [eZ] at a10
  rw [← cZ]
  refine ⟨s', s'', p, d, a1, a2, dp, a6, fun d' p' g => ?_, a7, a8.trans b1, a9, a10.trans b2, a11, a12.trans b3⟩
  rcases le_total d d' with l | l
  · exact l
  · exact (Gerg.pipe_unique hL h hY dp a5 p' (l.trans a5) (g.trans a6.symm)).ge

/-- Methane at 300 K and 6 MPa. -/
example (hL : LibmAccurate) (hN : LnAccurate) (new0 : Gerg Float) (hnew : Gerg.new = .ok new0) :
    ∃ s' s'' p d, (setPub new0 Gerg.pipe6).density 0 = .ok (s', .ok ()) ∧ s'.properties = .ok (s'', p) ∧
      |Real.log (toR s''.z) - Real.log (6000 / (d * 8.314472 * 300))| ≤ 1.3e-7 := by
  obtain ⟨-, ft, ht, -, -, fd, hd⟩ := Gerg.errMix_ok
  have hp : toR Gerg.pipe6.p = 6000 := by
    show toR (litF ⟨6000, 0⟩) = 6000
    rw [(decChk_val Gerg.chk6000).2.1 rfl]; simp [decR]
  have ht' : toR Gerg.pipe6.t = 300 := ht
  have hd' : toR Gerg.pipe6.d = 0 := hd
  obtain ⟨s', s'', p, d, e1, e2, -, -, -, -, -, -, e3, -⟩ := C70_gerg_methane hL hN new0 hnew Gerg.pipe6 (fun i _ => Gerg.pipe6_x i) ft
    (by rw [ht']; norm_num) (by rw [ht']; norm_num) (decChk_fin Gerg.chk6000) (by rw [ht', hp]; norm_num)
    (by rw [ht', hp]; norm_num) (by rw [ht', hp]; norm_num) fd (by rw [hd']) 0 le_rfl
  rw [ht', hp] at e3
  exact ⟨s', s'', p, d, e1, e2, e3⟩

/-- C70, GERG-2008 mixtures at low pressure: for every mixture and state in the range of the low-pressure theorem of C62, `density`
and then `properties` give a density within the factor `exp 6.2e-8` of the only density `d` within a factor e of the ideal-gas
density that has exactly the requested pressure, a compression factor within the factor `exp 1.4e-8` of that of the equation at `d`,
and a pressure within the factor `exp 7.6e-8` of the requested one. -/
theorem C70_gerg_low_pressure (hL : LibmAccurate) (hN : LnAccurate) (new0 : Gerg Float) (hnew : Gerg.new = .ok new0)
    (q : Pub Float) (h : DensDomain q) (hsum : ∑ i : Fin 22 with 1 ≤ i.1, fracs q i ≤ 1.01)
    (ht : GergEos.Tr (fracs q) ≤ toR q.t) (hp : toR q.p ≤ 1000) (d1 : 3e-4 ≤ toR q.p / (8.314472 * toR q.t))
    (d2 : toR q.p / (8.314472 * toR q.t) * GergEos.invRhoR (fracs q) ≤ 3.6e-4)
    (fd : IsFinite q.d) (d0 : 0 ≤ toR q.d) (iflag : Int) (hf : iflag ≤ 0) :
    ∃ s' s'' p d, (setPub new0 q).density iflag = .ok (s', .ok ()) ∧ s'.properties = .ok (s'', p) ∧
      toR q.p / (8.314472 * toR q.t) * Real.exp (-1) ≤ d ∧ d ≤ toR q.p / (8.314472 * toR q.t) * Real.exp 1 ∧
      d * 8.314472 * toR q.t * GergEos.Z (fracs q) d (toR q.t) = toR q.p ∧
      0 < toR s''.d ∧ |Real.log (toR s''.d) - Real.log d| ≤ 6.2e-8 ∧
      0 < toR s''.z ∧ |Real.log (toR s''.z) - Real.log (GergEos.Z (fracs q) d (toR q.t))| ≤ 1.4e-8 ∧
      0 < toR p ∧ |Real.log (toR p) - Real.log (toR q.p)| ≤ 7.6e-8 := by
  have C := Gerg.low_curve hL (q := q) ⟨h, hsum, ht, hp, d1, d2⟩
  obtain ⟨s', s'', p, d, a1, a2, -, a4, a5, a6, -, a7, a8, -, a9, a10, -, a11, a12⟩ := C70_gerg_workflow hL hN new0 hnew q h iflag hf
    _ _ _ _ _ fd (Or.inl ⟨d0, rfl⟩) C.m_pos C.K1 C.r1 C.r2 C.K2 rfl C.d1 C.d2 C.d3 C.slope C.start
  refine ⟨s', s'', p, d, a1, a2, a4, a5, a6, a7, a8.trans (by norm_num), a9, a10.trans ?_, a11, a12.trans (by norm_num)⟩
  rw [max_eq_right (by norm_num)]
  norm_num

/-- Equal parts of methane and nitrogen at 300 K and 2 kPa. -/
example (hL : LibmAccurate) (hN : LnAccurate) (new0 : Gerg Float) (hnew : Gerg.new = .ok new0) :
    ∃ s' s'' p d, (setPub new0 Gerg.errMix).density 0 = .ok (s', .ok ()) ∧ s'.properties = .ok (s'', p) ∧
      |Real.log (toR s''.z) - Real.log (GergEos.Z (fracs Gerg.errMix) d (toR Gerg.errMix.t))| ≤ 1.4e-8 := by
  have L := Gerg.errMix_low
  obtain ⟨s', s'', p, d, e1, e2, -, -, -, -, -, -, e3, -⟩ := C70_gerg_low_pressure hL hN new0 hnew Gerg.errMix L.dom L.sum L.t1 L.p1
    L.d1 L.d2 Gerg.errMix_ok.2.2.2.2.2.1 (by rw [Gerg.errMix_ok.2.2.2.2.2.2]) 0 (by norm_num)
  exact ⟨s', s'', p, d, e1, e2, e3⟩

end

end Aga8
