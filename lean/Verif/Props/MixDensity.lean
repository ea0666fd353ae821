import Verif.Lemmas.GergMixDens
import Verif.Props.MixProperties
import Verif.Props.Workflow

/-! # C72: the GERG-2008 density of every gas mixture at moderate pressures, and the properties after it, in f64

The theorems are about IEEE-754 arithmetic, with any `exp`, `powf`, `powi` and `ln` that are accurate in the sense of
`Spec/F64Accuracy`. `GergEos.Tr` is the reducing temperature of a mixture and `GergEos.invRhoR` the inverse of its reducing density.
The pressure that belongs to a density is `D R T Z` with `R = 8.314472` and `Z` the GERG-2008 equation of `Spec/GergEos`, on real
numbers. -/

set_option linter.unusedSectionVars false

namespace Aga8

open F64
open Gerg (Pub setPub DensDomain ErrDomain fracs)

attribute [local irreducible] Gerg.newP Gerg.pressureP Gerg.propertiesP Gerg.densityP

variable [Libm]

theorem Gerg.mix_sum {q : Pub Float} (h : DensDomain q) :
    ∑ i : Fin 22 with 1 ≤ i.1, fracs q i = ∑ i : Fin 22 with 1 ≤ i.1, toR (aget q.x i) :=
  Finset.sum_congr rfl fun i hi => max_eq_left (by
    rcases h.x_rng i (Finset.mem_filter.1 hi).2 with e | e
    · exact e.ge
    · exact le_trans (by norm_num) e.1)

/-- The conditions of C62 for a gas mixture, and the slope of the pressure. -/
theorem Gerg.mix_curve' (hL : LibmAccurate) {q : Pub Float} (h : DensDomain q)
    (hs : ∑ i : Fin 22 with 1 ≤ i.1, toR (aget q.x i) ≤ 1.01)
    (hT : 1.1 * GergEos.Tr (fracs q) ≤ toR q.t) (d1 : 3e-4 ≤ toR q.p / (8.314472 * toR q.t))
    (d2 : toR q.p / (8.314472 * toR q.t) ≤ 300)
    (d3 : toR q.p / (8.314472 * toR q.t) * GergEos.invRhoR (fracs q) ≤ if 1.25 * GergEos.Tr (fracs q) ≤ toR q.t then 0.06 else 0.05) :
    ∃ m ρ, Gerg.F64Curve q (toR q.p / (8.314472 * toR q.t)) 8.7 m ρ ∧ 0.807 ≤ m ∧ m ≤ 0.844 ∧ ρ ≤ 0.25 ∧
      (∀ D, D ≤ toR q.p / (8.314472 * toR q.t) * Real.exp ρ → D * GergEos.invRhoR (fracs q) ≤ 0.09) := by
  have T0 : 0 < toR q.t := by linarith [h.t_low]
  have e : 1.25 * GergEos.Tr (fracs q) ≤ toR q.t ↔ GergEos.Tr (fracs q) / toR q.t ≤ 8 / 10 := by
    rw [div_le_iff₀ T0]
    norm_num
    constructor <;> intro h <;> linarith
  have d3' : toR q.p / (8.314472 * toR q.t) * GergEos.invRhoR (fracs q) ≤ if GergEos.Tr (fracs q) / toR q.t ≤ 8 / 10 then 0.06 else 0.05 := by
    refine d3.trans (le_of_eq ?_)
    by_cases c : 1.25 * GergEos.Tr (fracs q) ≤ toR q.t
    · rw [if_pos c, if_pos (e.1 c)]
    · rw [if_neg c, if_neg fun c' => c (e.2 c')]
  obtain ⟨m, ρ, C, c1, c2, c3⟩ := Gerg.mix_curve hL h (by rw [Gerg.mix_sum h]; exact hs) hT d1 d2 d3'
  refine ⟨m, ρ, C, c1, c2, c3, fun D hD => ?_⟩
  have V0 := Gerg.invRho_nonneg h
  have e1 : Real.exp ρ ≤ 1.5 := (Real.exp_le_exp.2 c3).trans
    (GergEos.MixT.exp_le (by norm_num) (by norm_num) (by norm_num))
  have d4 : toR q.p / (8.314472 * toR q.t) * GergEos.invRhoR (fracs q) ≤ 0.06 := d3.trans (by split_ifs <;> norm_num)
  have m1 := mul_le_mul_of_nonneg_right hD V0
  have m2 := mul_le_mul d4 e1 (Real.exp_pos _).le (by norm_num)
  have m3 : toR q.p / (8.314472 * toR q.t) * Real.exp ρ * GergEos.invRhoR (fracs q)
    = toR q.p / (8.314472 * toR q.t) * GergEos.invRhoR (fracs q) * Real.exp ρ := by ring
  rw [m3] at m1
  exact m1.trans (m2.trans (by norm_num))

/-- C72, `density`: with an accurate math library, for every mixture of fractions that sum to at most 1.01, at a temperature from 1.1
to 100 times its reducing temperature, and a pressure whose ideal-gas density `p / (R T)` is at least 3e-4 mol/l and at most 0.05
times the reducing density (0.06 times it from 1.25 times the reducing temperature on), `density` on a new object with a flag that is
not positive reports success. The equation has exactly one density `d` up to half the reducing density with the requested pressure,
and the computed density is within the factor `exp 9.7e-8` of it. -/
theorem C72_gerg_mixture_density (hL : LibmAccurate) (hN : LnAccurate) (new0 : Gerg Float) (hnew : Gerg.new = .ok new0)
    (q : Pub Float) (h : DensDomain q) (hs : ∑ i : Fin 22 with 1 ≤ i.1, toR (aget q.x i) ≤ 1.01)
    (hT : 1.1 * GergEos.Tr (fracs q) ≤ toR q.t) (d1 : 3e-4 ≤ toR q.p / (8.314472 * toR q.t))
    (d2 : toR q.p / (8.314472 * toR q.t) ≤ 300)
    (d3 : toR q.p / (8.314472 * toR q.t) * GergEos.invRhoR (fracs q) ≤ if 1.25 * GergEos.Tr (fracs q) ≤ toR q.t then 0.06 else 0.05)
    (fd : IsFinite q.d) (d0 : 0 ≤ toR q.d) (iflag : Int) (hf : iflag ≤ 0) :
    ∃ s' d, (setPub new0 q).density iflag = .ok (s', .ok ()) ∧ IsFinite s'.d ∧ 0 < toR s'.d ∧
      0 < d ∧ d * GergEos.invRhoR (fracs q) ≤ 1 / 2 ∧
      d * 8.314472 * toR q.t * GergEos.Z (fracs q) d (toR q.t) = toR q.p ∧
      (∀ d', 0 < d' → d' * GergEos.invRhoR (fracs q) ≤ 1 / 2 →
        d' * 8.314472 * toR q.t * GergEos.Z (fracs q) d' (toR q.t) = toR q.p → d' = d) ∧
      |Real.log (toR s'.d) - Real.log d| ≤ 9.7e-8 := by
  obtain ⟨m, ρ, C, c1, c2, c3, c4⟩ := Gerg.mix_curve' hL h hs hT d1 d2 d3
  obtain ⟨s', d, e1, e2, e3, e4, e5, e6, e7, -⟩ := C62_gerg_density_converges hL hN new0 hnew q h iflag hf _ _ _ _ fd
    (Or.inl ⟨d0, rfl⟩) C.m_pos C.K1 C.r1 C.r2 C.K2 C.d1 C.d2 C.d3 C.slope C.start
  have dp : 0 < d := lt_of_lt_of_le (by have := C.pos; positivity) e6
  have V0 := Gerg.invRho_nonneg h
  have dh : d * GergEos.invRhoR (fracs q) ≤ 1 / 2 := (c4 d e7).trans (by norm_num)
  refine ⟨s', d, e1, e2, e3, dp, dh, e4, fun d' p' h' g => ?_, e5.trans ?_⟩
  · refine Gerg.pipe_unique hL h (E := max d d') (fun D hD1 hD2 => ?_) dp (le_max_left _ _) p' (le_max_right _ _) (g.trans e4.symm)
    refine Gerg.mix_dPdD_pos hL h (by rw [Gerg.mix_sum h]; exact hs) hT hD1 ?_
    rcases le_max_iff.1 hD2 with l | l
    · exact (mul_le_mul_of_nonneg_right l V0).trans dh
    · exact (mul_le_mul_of_nonneg_right l V0).trans h'
  · have : 1 / m ≤ 1 / 0.807 := one_div_le_one_div_of_le (by norm_num) c1
    norm_num at this ⊢
    linarith

/-- Reals only: the range of the density found. -/
theorem near_range {a d D0 ρ V : ℝ} (ha : 0 < a) (dp : 0 < d) (lx : |Real.log a - Real.log d| ≤ 1e-6) (d1 : 3e-4 ≤ D0) (d2 : D0 ≤ 300)
    (V0 : 0 ≤ V) (hρ : ρ ≤ 0.25) (h1 : D0 * Real.exp (-ρ) ≤ d) (h2 : d ≤ D0 * Real.exp ρ) (h3 : d * V ≤ 0.09) :
    1e-4 ≤ a ∧ a * V ≤ 1 / 10 ∧ a ≤ 1000 := by
  have hl : 0.009 ≤ Real.log 1.01 := by
    have := Real.one_sub_inv_le_log_of_pos (show (0 : ℝ) < 1.01 by norm_num)
    norm_num at this ⊢
    linarith
  obtain ⟨l1, l2⟩ := abs_le.1 lx
  have ed1 : a ≤ d * 1.01 := by
    refine (Real.log_le_log_iff ha (by positivity)).1 ?_
    rw [Real.log_mul dp.ne' (by norm_num)]
    norm_num at hl l2
    linarith
  have ed2 : d ≤ a * 1.01 := by
    refine (Real.log_le_log_iff dp (by positivity)).1 ?_
    rw [Real.log_mul ha.ne' (by norm_num)]
    norm_num at hl l1
    linarith
  have ex : 0.7 ≤ Real.exp (-ρ) := by
    have := Real.add_one_le_exp (-ρ)
    norm_num at hρ ⊢
    linarith
  have ex2 : Real.exp ρ ≤ 1.5 := (Real.exp_le_exp.2 hρ).trans (GergEos.MixT.exp_le (by norm_num) (by norm_num) (by norm_num))
  have m1 := mul_le_mul d1 ex (by norm_num) (le_trans (by norm_num) d1)
  have m2 := mul_le_mul d2 ex2 (Real.exp_pos _).le (by norm_num)
  have m3 := mul_le_mul_of_nonneg_right ed1 V0
  norm_num at m1 m2 m3 ed1 ed2 h3 ⊢
  exact ⟨by linarith, by linarith, by linarith⟩

/-- C72, `density` and then `properties`: for every mixture and pressure of the `density` theorem, with fractions that sum to at least
0.99 and at 50 K to 1000 K, `properties` called on the same object after `density` returns and keeps the density. The stored
compression factor is within the factor `exp 2.9e-8` of that of the equation at the exact density `d`, and the returned pressure
within the factor `exp 1.3e-7` of the requested one. The derivatives of the pressure and the isochoric heat capacity are positive, with
relative errors of at most 1.3e-8 from those of the equation at the density found, and the isobaric heat capacity, the speed of sound
and the isentropic exponent are finite, with relative errors of at most 3.6e-8, 3.3e-8 and 8.8e-8. The density found is at least
1e-4 mol/l and at most a tenth of the reducing density. -/
theorem C72_gerg_mixture_workflow (hL : LibmAccurate) (hN : LnAccurate) (new0 : Gerg Float) (hnew : Gerg.new = .ok new0)
    (q : Pub Float) (h : DensDomain q) (hs1 : 0.99 ≤ ∑ i : Fin 22 with 1 ≤ i.1, toR (aget q.x i))
    (hs2 : ∑ i : Fin 22 with 1 ≤ i.1, toR (aget q.x i) ≤ 1.01) (hT0 : 50 ≤ toR q.t) (hT2 : toR q.t ≤ 1000)
    (hT : 1.1 * GergEos.Tr (fracs q) ≤ toR q.t) (d1 : 3e-4 ≤ toR q.p / (8.314472 * toR q.t))
    (d2 : toR q.p / (8.314472 * toR q.t) ≤ 300)
    (d3 : toR q.p / (8.314472 * toR q.t) * GergEos.invRhoR (fracs q) ≤ if 1.25 * GergEos.Tr (fracs q) ≤ toR q.t then 0.06 else 0.05)
    (fd : IsFinite q.d) (d0 : 0 ≤ toR q.d) (iflag : Int) (hf : iflag ≤ 0) :
    ∃ s' s'' p d, (setPub new0 q).density iflag = .ok (s', .ok ()) ∧ s'.properties = .ok (s'', p) ∧ s''.d = s'.d ∧
      0 < d ∧ d * GergEos.invRhoR (fracs q) ≤ 1 / 2 ∧ d * 8.314472 * toR q.t * GergEos.Z (fracs q) d (toR q.t) = toR q.p ∧
      0 < toR s''.d ∧ |Real.log (toR s''.d) - Real.log d| ≤ 9.7e-8 ∧
      0 < toR s''.z ∧ |Real.log (toR s''.z) - Real.log (GergEos.Z (fracs q) d (toR q.t))| ≤ 2.9e-8 ∧
      0 < toR p ∧ |Real.log (toR p) - Real.log (toR q.p)| ≤ 1.3e-7 ∧
      0 < toR s''.dp_dd ∧ |toR s''.dp_dd - GergEos.pressureD (fracs q) (toR s''.d) (toR q.t)|
        ≤ 1.3e-8 * GergEos.pressureD (fracs q) (toR s''.d) (toR q.t) ∧
      0 < toR s''.dp_dt ∧ |toR s''.dp_dt - GergEos.pressureT (fracs q) (toR s''.d) (toR q.t)|
        ≤ 1.3e-8 * GergEos.pressureT (fracs q) (toR s''.d) (toR q.t) ∧
      0 < toR s''.cv ∧ |toR s''.cv - GergEos.heatV (fracs q) (toR s''.d) (toR q.t)|
        ≤ 1.3e-8 * GergEos.heatV (fracs q) (toR s''.d) (toR q.t) ∧
      IsFinite s''.cp ∧ |toR s''.cp - GergEos.heatP (fracs q) (toR s''.d) (toR q.t)|
        ≤ 3.6e-8 * GergEos.heatP (fracs q) (toR s''.d) (toR q.t) ∧
      IsFinite s''.w ∧ |toR s''.w - GergEos.speed (fracs q) (toR s''.d) (toR q.t)|
        ≤ 3.3e-8 * GergEos.speed (fracs q) (toR s''.d) (toR q.t) ∧
      IsFinite s''.kappa ∧ |toR s''.kappa - GergEos.exponent (fracs q) (toR s''.d) (toR q.t)|
        ≤ 8.8e-8 * GergEos.exponent (fracs q) (toR s''.d) (toR q.t) ∧
      1e-4 ≤ toR s''.d ∧ toR s''.d * GergEos.invRhoR (fracs q) ≤ 0.1 := by
  obtain ⟨m, ρ, C, c1, c2, c3, c4⟩ := Gerg.mix_curve' hL h hs2 hT d1 d2 d3
  obtain ⟨s', s'', p, d, a1, a2, a3, a4, a5, a6, f1, a7, a8, f2, a9, a10, f3, a11, a12⟩ := C70_gerg_workflow hL hN new0 hnew q h iflag
    hf _ _ _ _ _ fd (Or.inl ⟨d0, rfl⟩) C.m_pos C.K1 C.r1 C.r2 C.K2 rfl C.d1 C.d2 C.d3 C.slope C.start
  have im : 1 / m ≤ 1 / 0.807 := one_div_le_one_div_of_le (by norm_num) c1
  have im0 : 0 < 1 / m := one_div_pos.2 C.m_pos
  have eε : 5.6e-8 + 2.1e-9 * (8.7 * (1 + 1 / m)) ≤ 9.7e-8 := by norm_num at im ⊢; linarith
  have eε0 : 0 ≤ 5.6e-8 + 2.1e-9 * (8.7 * (1 + 1 / m)) := by positivity
  -- the object after `density`
  have e := Gerg.new_inj hnew
  have a1' : (Gerg.freshOf q).density iflag = .ok (s', .ok ()) := by rw [e] at a1; exact a1
  have eD : (Gerg.densityP (Gerg.freshOf q) iflag).1 = s' := by
    have := (Gerg.density_ok (s := Gerg.freshOf q) (Gerg.reachable_fresh q).idx iflag).symm.trans a1'
    rw [Except.ok.inj this]
  have hd : Gerg.pub s' = { q with d := s'.d, z := s'.z } := by
    rw [← eD]; exact Gerg.dz_densityP hf (Gerg.freshOf q)
  have hw := Gerg.after_density F64.selfDiff h.far.1 h.far.2 iflag hf
  rw [eD] at hw
  have ei : Gerg.Idx s' := (Gerg.Reachable.step (op := .density iflag) (Gerg.reachable_fresh q) (by
    simp only [Gerg.step, a1', bind, Except.bind, pure, Except.pure]
    rfl)).idx
  have es : (Gerg.propertiesP s').1 = s'' := by
    have := (Gerg.properties_ok ei).symm.trans a2
    rw [Except.ok.inj this]
  rw [es] at hw
  rw [a3] at f1 a7 a8
  -- the density found
  have V0 := Gerg.invRho_nonneg h
  have dp : 0 < d := lt_of_lt_of_le (by have := C.pos; positivity) a4
  have D0p := C.pos
  obtain ⟨dl, dδ, dh⟩ := near_range a7 dp (a8.trans (eε.trans (by norm_num))) d1 d2 V0 c3 a4 a5 (c4 d a5)
  have hq : ErrDomain (Gerg.pub s') := by
    rw [hd]
    exact ⟨h.t_fin, h.t_low, h.t_high, h.t_red1, h.t_red2, f1, Or.inr ⟨dl, dh⟩, dδ.trans (by norm_num), h.x_fin,
      fun i hi => (h.x_rng i hi).imp le_of_eq id, h.x_big⟩
  have ef : fracs (Gerg.pub s') = fracs q := by rw [hd]; rfl
  have et : (Gerg.pub s').t = q.t := by rw [hd]
  have ex : (Gerg.pub s').x = q.x := by rw [hd]
  have ed' : (Gerg.pub s').d = s'.d := rfl
  have hx : ∀ i : Fin 22, 1 ≤ i.1 → 0 ≤ toR (aget (Gerg.pub s').x i) := fun i hi => by
    rw [ex]
    rcases h.x_rng i hi with e | e
    · exact e.ge
    · exact le_trans (by norm_num) e.1
  have hK : GergEos.loss (toR (Gerg.pub s').d * GergEos.invRhoR (fracs (Gerg.pub s'))) (GergEos.Tr (fracs (Gerg.pub s')) / toR (Gerg.pub s').t)
      ≤ 13 := by
    rw [ef, ed']
    unfold GergEos.loss
    rw [if_pos dδ, if_pos dδ]
    split_ifs <;> norm_num
  obtain ⟨r, pr, r1, -, ⟨-, -, g1, g2, g3⟩, -, -, r3, r4, r5⟩ := C71_gerg_mixture_properties hL hN new0 hnew _ hq hx (by rw [ex]; exact hs1)
    (by rw [ex]; exact hs2) (by rw [et]; exact hT0) (by rw [ef, et]; exact hT) (by rw [et]; exact hT2) dl
    (by rw [ef]; exact dδ.trans (by norm_num)) _ rfl
  obtain ⟨r', pr', r1', b1, b2, b3, -, r6, r7, r8, -⟩ := C71_gerg_mixture_derived hL hN new0 hnew _ hq hx (by rw [ex]; exact hs1)
    (by rw [ex]; exact hs2) (by rw [et]; exact hT0) (by rw [ef, et]; exact hT) (by rw [et]; exact hT2) dl
    (by rw [ef]; exact dδ.trans (by norm_num)) _ rfl
  have er : r' = r := congrArg Prod.fst (Except.ok.inj (r1'.symm.trans r1))
  subst er
  have K10 := (GergEos.loss_le (toR (Gerg.pub s').d * GergEos.invRhoR (fracs (Gerg.pub s'))) (GergEos.Tr (fracs (Gerg.pub s')) / toR (Gerg.pub s').t)).1
  generalize GergEos.loss _ _ = K at K10 hK r3 r4 r5 r6 r7 r8
  have ez : Gerg.pub s'' = Gerg.pub r' := by
    rw [hw.1]
    rw [e] at r1
    have := (Gerg.properties_ok (s := Gerg.freshOf (Gerg.pub s')) (Gerg.reachable_fresh _).idx).symm.trans r1
    rw [Except.ok.inj this]
  have z1 : s''.dp_dd = r'.dp_dd := congrArg Pub.dp_dd ez
  have z2 : s''.dp_dt = r'.dp_dt := congrArg Pub.dp_dt ez
  have z3 : s''.cv = r'.cv := congrArg Pub.cv ez
  have z4 : s''.cp = r'.cp := congrArg Pub.cp ez
  have z5 : s''.w = r'.w := congrArg Pub.w ez
  have z6 : s''.kappa = r'.kappa := congrArg Pub.kappa ez
  have up : ∀ {a v c c' : ℝ}, |a - v| ≤ c * K * v → 0 < c → c * 13 ≤ c' → |a - v| ≤ c' * v := by
    intro a v c c' h1 hc h2
    have c0 : 0 < c * K := mul_pos hc (by linarith)
    have v0 : 0 ≤ v := nonneg_of_mul_nonneg_right ((abs_nonneg _).trans h1) c0
    exact h1.trans (mul_le_mul_of_nonneg_right ((mul_le_mul_of_nonneg_left hK hc.le).trans h2) v0)
  rw [ef, et, ed'] at r3 r4 r5 r6 r7 r8
  refine ⟨s', s'', p, d, a1, a2, a3, lt_of_lt_of_le (by have := C.pos; positivity) a4, (c4 d a5).trans (by norm_num), a6,
    by rw [a3]; exact a7, by rw [a3]; exact a8.trans eε, a9, a10.trans ?_, a11, a12.trans ?_, ?_⟩
  · have : max (1 - m) (1.4 * m - 1) ≤ 0.193 := max_le (by norm_num at c1 ⊢; linarith) (by norm_num at c2 ⊢; linarith)
    have := mul_le_mul this eε eε0 (by norm_num)
    norm_num at this ⊢
    linarith
  · have : 1.4 * m ≤ 1.1816 := by norm_num at c2 ⊢; linarith
    have := mul_le_mul this eε eε0 (by norm_num)
    norm_num at this ⊢
    linarith
  · rw [a3, z1, z2, z3, z4, z5, z6]
    exact ⟨g1, up r3 (by norm_num) (by norm_num), g2, up r4 (by norm_num) (by norm_num), g3, up r5 (by norm_num) (by norm_num),
      b1, up r6 (by norm_num) (by norm_num), b2, up r7 (by norm_num) (by norm_num), b3, up r8 (by norm_num) (by norm_num), dl,
      dδ.trans (by norm_num)⟩

/-! ## The hypotheses can be met -/

namespace Gerg

theorem chk1200 : decChk true 0 20 ⟨1200, 0⟩ = true := by decide +kernel

/-- Equal parts of methane and nitrogen at 300 K and 1.2 MPa. -/
def mix12 : Pub Float := { errMix with p := f% 1200.0 }

theorem mix12_p : IsFinite mix12.p ∧ toR mix12.p = 1200 := by
  refine ⟨decChk_fin chk1200, ?_⟩
  show toR (litF ⟨1200, 0⟩) = 1200
  rw [(decChk_val chk1200).2.1 rfl]; simp [decR]

theorem mix12_x : mix12.x = errMix.x := by unfold mix12; with_reducible rfl
theorem mix12_t' : mix12.t = errMix.t := by unfold mix12; with_reducible rfl
theorem mix12_fracs : fracs mix12 = fracs errMix := by
  unfold fracs
  rw [mix12_x]

theorem mix12_t : toR mix12.t = 300 := by rw [mix12_t']; exact errMix_ok.2.2.1

theorem mix12_dom : DensDomain mix12 := by
  have h := errMix_dom
  obtain ⟨fp, hp⟩ := mix12_p
  refine ⟨?_, ?_, ?_, ?_, ?_, fp, by rw [hp]; norm_num, by rw [hp]; norm_num, ?_, ?_, ?_⟩
  · rw [mix12_t']; exact h.t_fin
  · rw [mix12_t']; exact h.t_low
  · rw [mix12_t']; exact h.t_high
  · rw [mix12_t', mix12_fracs]; exact h.t_red1
  · rw [mix12_t', mix12_fracs]; exact h.t_red2
  · rw [mix12_x]; exact h.x_fin
  · rw [mix12_x]; exact h.x_rng
  · rw [mix12_x]; exact h.x_big

theorem mix12_sum : ∑ i : Fin 22 with 1 ≤ i.1, toR (aget mix12.x i) = 1 := by
  rw [mix12_x]
  simp only [(errMix_ok.1 _).2]
  rw [Finset.sum_eq_add (1 : Fin 22) 2 (by decide)]
  · rw [if_pos rfl, if_neg (by decide), if_pos rfl]; norm_num
  · intro i _ h
    rw [if_neg h.1, if_neg h.2]
  · intro h; exact absurd (by decide) h
  · intro h; exact absurd (by decide) h

theorem mix12_d : IsFinite mix12.d ∧ toR mix12.d = 0 := by
  rw [show mix12.d = errMix.d by unfold mix12; with_reducible rfl]
  exact errMix_ok.2.2.2.2.2

theorem mix12_red : 1.1 * GergEos.Tr (fracs mix12) ≤ toR mix12.t ∧ 3e-4 ≤ toR mix12.p / (8.314472 * toR mix12.t) ∧
    toR mix12.p / (8.314472 * toR mix12.t) ≤ 300 ∧ toR mix12.p / (8.314472 * toR mix12.t) * GergEos.invRhoR (fracs mix12)
      ≤ if 1.25 * GergEos.Tr (fracs mix12) ≤ toR mix12.t then 0.06 else 0.05 := by
  have hp := mix12_p.2
  have ht := mix12_t
  have T2 := errMix_Tr.2
  have V2 := errMix_V.2
  rw [hp, ht, mix12_fracs]
  refine ⟨by norm_num; linarith, by norm_num, by norm_num, (mul_le_mul_of_nonneg_left V2 (by norm_num)).trans ?_⟩
  split_ifs <;> norm_num

end Gerg

attribute [local irreducible] Gerg.mix12

/-- Equal parts of methane and nitrogen at 300 K and 1.2 MPa meet the hypotheses. -/
example (hL : LibmAccurate) (hN : LnAccurate) (new0 : Gerg Float) (hnew : Gerg.new = .ok new0) :
    ∃ s' d, (setPub new0 Gerg.mix12).density 0 = .ok (s', .ok ()) ∧ |Real.log (toR s'.d) - Real.log d| ≤ 9.7e-8 := by
  obtain ⟨h1, h2, h3, h4⟩ := Gerg.mix12_red
  obtain ⟨s', d, e1, -, -, -, -, -, -, e2⟩ := C72_gerg_mixture_density hL hN new0 hnew Gerg.mix12 Gerg.mix12_dom
    (by rw [Gerg.mix12_sum]; norm_num) h1 h2 h3 h4 Gerg.mix12_d.1 Gerg.mix12_d.2.ge 0 le_rfl
  exact ⟨s', d, e1, e2⟩

/-- The same mixture, with the properties. -/
example (hL : LibmAccurate) (hN : LnAccurate) (new0 : Gerg Float) (hnew : Gerg.new = .ok new0) :
    ∃ s' s'' p, (setPub new0 Gerg.mix12).density 0 = .ok (s', .ok ()) ∧ s'.properties = .ok (s'', p) ∧
      |Real.log (toR p) - Real.log 1200| ≤ 1.3e-7 := by
  obtain ⟨h1, h2, h3, h4⟩ := Gerg.mix12_red
  have ht := Gerg.mix12_t
  obtain ⟨s', s'', p, d, e1, e2, -, -, -, -, -, -, -, -, -, e3, -⟩ := C72_gerg_mixture_workflow hL hN new0 hnew
    Gerg.mix12 Gerg.mix12_dom (by rw [Gerg.mix12_sum]; norm_num) (by rw [Gerg.mix12_sum]; norm_num) (by rw [ht]; norm_num)
    (by rw [ht]; norm_num) h1 h2 h3 h4 Gerg.mix12_d.1 Gerg.mix12_d.2.ge 0 le_rfl
  rw [Gerg.mix12_p.2] at e3
  exact ⟨s', s'', p, e1, e2, e3⟩

end Aga8
