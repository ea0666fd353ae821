import Verif.Spec.Estimate
import Verif.Lemmas.GergMixUpper
import Verif.Lemmas.Metering
import Verif.Props.MixDensity

/-! # C85 for GERG-2008: searches that start from an estimate find the same density -/

set_option linter.unusedSectionVars false

namespace Aga8

open F64
open Gerg (Pub setPub pub DensDomain fracs)

attribute [local irreducible] Gerg.newP Gerg.pressureP Gerg.propertiesP Gerg.densityP

variable [Libm]

namespace Gerg

open GergEos GergEos.MixTab

/-- Reals only: the slopes carry a bound on the densities over to the pressures. -/
theorem estimate_start {f : ℝ → ℝ} {m e d : ℝ}
    (hs : ∀ D D', 0 < D → D ≤ D' → D' ≤ max e d → f D' - f D ≤ 1.4 * m * (Real.log D' - Real.log D) ∧
      m * (Real.log D' - Real.log D) ≤ f D' - f D)
    (e0 : 0 < e) (d0 : 0 < d) (m0 : 0.807 ≤ m) (m1 : m ≤ 0.844) (h : |Real.log e - Real.log d| ≤ 0.054) : |f e - f d| ≤ 0.0639 := by
  have key : ∀ u, 0 ≤ u → u ≤ 0.054 → 1.4 * m * u ≤ 0.0639 := fun u u0 u1 => by
    have := mul_le_mul (mul_le_mul_of_nonneg_left m1 (by norm_num : (0 : ℝ) ≤ 1.4)) u1 u0 (by norm_num)
    exact this.trans (by norm_num)
  have mp : 0 ≤ m := le_trans (by norm_num) m0
  rcases le_total d e with c | c
  · obtain ⟨a, b⟩ := hs d e d0 c (le_max_left _ _)
    have l := sub_nonneg.2 (Real.log_le_log d0 c)
    rw [abs_of_nonneg l] at h
    rw [abs_of_nonneg ((mul_nonneg mp l).trans b)]
    exact a.trans (key _ l h)
  · obtain ⟨a, b⟩ := hs e d e0 c (le_max_right _ _)
    have l := sub_nonneg.2 (Real.log_le_log e0 c)
    rw [abs_sub_comm, abs_of_nonneg l] at h
    rw [abs_sub_comm, abs_of_nonneg ((mul_nonneg mp l).trans b)]
    exact a.trans (key _ l h)

/-- The conditions of the convergence theorem around an estimate. -/
theorem estimate_curve (hL : LibmAccurate) {q : Pub Float} (h : DensDomain q) (s2 : ∑ i : Fin 22 with 1 ≤ i.1, fracs q i ≤ 1.01)
    (t2 : 1.1 * Tr (fracs q) ≤ toR q.t) {D0 d : ℝ} (d1 : 3e-4 ≤ D0) (d2 : D0 ≤ 300)
    (d3 : D0 * invRhoR (fracs q) ≤ if Tr (fracs q) / toR q.t ≤ 8 / 10 then 0.06 else 0.05)
    (dp : 0 < d) (hd : d * 8.314472 * toR q.t * GergEos.Z (fracs q) d (toR q.t) = toR q.p)
    (he : |Real.log D0 - Real.log d| ≤ 0.054) :
    ∃ m ρ, F64Curve q D0 8.7 m ρ ∧ 0.807 ≤ m ∧ m ≤ 0.844 ∧ 0.2 ≤ ρ ∧ d ≤ D0 * Real.exp ρ := by
  have hq := h.zero
  have hτ : 0 < Tr (yOf (xr q.x)) / toR q.t := tau_pos (q := atD q (f% 0.0)) hL hq
  have e' : ∀ i : Fin 22, 1 ≤ i.1 → fracs q i = yOf (xr q.x) i := fracs_eq (okX_of (q := atD q (f% 0.0)) hq)
  have eV : invRhoR (fracs q) = invRhoR (yOf (xr q.x)) := reducing_congr' e' _ _
  have eT : Tr (fracs q) = Tr (yOf (xr q.x)) := reducing_congr' e' _ _
  have v0 := invRho_nonneg h
  have T0 : 0 < toR q.t := by linarith [h.t_low]
  have hx0 : ∀ i : Fin 22, 1 ≤ i.1 → 0 ≤ yOf (xr q.x) i := fun i hi => by rw [← e' i hi]; exact le_max_right _ _
  have s2' : ∑ i : Fin 22 with 1 ≤ i.1, yOf (xr q.x) i ≤ 1.01 := by
    rw [← Finset.sum_congr rfl fun i hi => e' i (Finset.mem_filter.1 hi).2]; exact s2
  have hP : Present (xr q.x) := by
    obtain ⟨k, hk, hx⟩ := h.x_big
    exact ⟨k, hk, by rw [xr_get]; exact le_trans (by norm_num) hx⟩
  have D0p : 0 < D0 := lt_of_lt_of_le (by norm_num) d1
  obtain ⟨i, m, ρ, dm, S, u0, u1⟩ := MixT.exists_strip (τ := Tr (fracs q) / toR q.t)
    (by rw [le_div_iff₀ T0]; linarith [h.t_red1]) (by rw [div_mul_eq_mul_div, div_le_one T0]; linarith) d3
  have m0 : 0 < m := lt_of_lt_of_le (by norm_num) S.m0
  have ρ0 : 0 < ρ := lt_of_lt_of_le (by norm_num) S.r0
  have d05 : D0 * invRhoR (fracs q) ≤ 1 := d3.trans (by split_ifs <;> norm_num)
  rw [eT] at u0 u1
  have slope : ∀ D, 0 ≤ D → D ≤ D0 * Real.exp ρ →
      0 < GergEos.Z (yOf (xr q.x)) D (toR q.t) ∧
      GergEos.Zabs (yOf (xr q.x)) D (toR q.t) ≤ 8.7 * GergEos.Z (yOf (xr q.x)) D (toR q.t) ∧
      GergEos.dPdDabs (yOf (xr q.x)) D (toR q.t) ≤ 8.7 * GergEos.dPdD (yOf (xr q.x)) D (toR q.t) ∧
      m ≤ GergEos.dPdD (yOf (xr q.x)) D (toR q.t) / GergEos.Z (yOf (xr q.x)) D (toR q.t) ∧
      GergEos.dPdD (yOf (xr q.x)) D (toR q.t) / GergEos.Z (yOf (xr q.x)) D (toR q.t) ≤ 1.4 * m := by
    intro D hD b
    have hδ : 0 ≤ D * invRhoR (yOf (xr q.x)) := mul_nonneg hD (by rw [← eV]; exact v0)
    have hdm : D * invRhoR (yOf (xr q.x)) ≤ dm := by
      rw [← eV]
      refine le_trans ?_ S.dm1
      have := mul_le_mul_of_nonneg_right b v0
      linarith
    obtain ⟨j, hj, B⟩ := MixT.exists_row S.hi (by norm_num : 1 < 16) u0 u1 hδ
      (hdm.trans (by rw [MixT.rQ_vals.2.1]; have := S.dm2; norm_num at this ⊢; exact this))
    obtain ⟨m', em, hc⟩ := S.slope j hj
    have := mix_slope MixT.tab_ok hx0 s2' hδ hτ B hdm (by rw [em]; exact m0) hc
    rw [em] at this
    exact this
  have hdl : d ≤ D0 * Real.exp ρ := by
    refine (Real.log_le_log_iff dp (by positivity)).1 ?_
    rw [Real.log_mul D0p.ne' (Real.exp_pos _).ne', Real.log_exp]
    have a := (abs_le.1 he).1
    have b := S.r0
    norm_num at a b
    linarith
  refine ⟨m, ρ, ⟨h, m0, le_trans (by norm_num) S.r0, S.r1.trans (by norm_num), by norm_num, S.K, d1, d2, d05, ?_, ?_⟩, S.m0, S.m1, S.r0, hdl⟩
  · intro D a b
    rw [Z_congr' e', Zabs_congr' e', dPdD_congr' e', dPdDabs_congr' e']
    exact slope D (le_trans (by positivity) a) b
  · have hmax : max D0 d ≤ D0 * Real.exp ρ := max_le (le_mul_of_one_le_right D0p.le (Real.one_le_exp ρ0.le)) hdl
    have key := estimate_start (f := fun D => Real.log (D * 8.314472 * toR q.t * GergEos.Z (yOf (xr q.x)) D (toR q.t))) (m := m)
      (fun D D' a b c => by
        have := order_D hP hx0 s2' (m := m) (D1 := D0 * Real.exp ρ) T0 (fun D a b => by
          obtain ⟨z, -, -, l, u⟩ := slope D a b
          rw [le_div_iff₀ z] at l
          rw [div_le_iff₀ z] at u
          exact ⟨z, l, u⟩) a b (c.trans hmax)
        exact ⟨this.2, this.1⟩) D0p dp S.m0 S.m1 he
    rw [Z_congr' e'] at hd
    rw [hd] at key
    unfold PT
    rw [Z_congr' e']
    refine key.trans ?_
    have := mul_le_mul S.m0 S.r0 (by norm_num) m0.le
    norm_num at this ⊢
    linarith

end Gerg

/-- C85, GERG-2008, one search: with an accurate math library, a mixture of C72 at a temperature from 1.1 to 100 times its reducing
temperature has the density `d` at the pressure of the fields. A negative `d` field is an estimate: from every estimate that is at least
3e-4 mol/l, at most 0.05 times the reducing density (0.06 times it from 1.25 times the reducing temperature on) and within the factor
`exp 0.054` of `d`, `density` on a new object with a flag that is not positive reports success and the computed density is within the
factor `exp 9.7e-8` of `d`. -/
theorem C85_gerg_from_estimate (hL : LibmAccurate) (hN : LnAccurate) (new0 : Gerg Float) (hnew : Gerg.new = .ok new0)
    (q : Pub Float) (h : DensDomain q) (hs : ∑ i : Fin 22 with 1 ≤ i.1, toR (aget q.x i) ≤ 1.01)
    (hT : 1.1 * GergEos.Tr (fracs q) ≤ toR q.t) (d : ℝ) (d0 : 0 < d)
    (hd : d * 8.314472 * toR q.t * GergEos.Z (fracs q) d (toR q.t) = toR q.p) (fd : IsFinite q.d) (e1 : 3e-4 ≤ -toR q.d)
    (e2 : -toR q.d ≤ 300)
    (e3 : -toR q.d * GergEos.invRhoR (fracs q) ≤ if 1.25 * GergEos.Tr (fracs q) ≤ toR q.t then 0.06 else 0.05)
    (he : |Real.log (-toR q.d) - Real.log d| ≤ 0.054) (iflag : Int) (hf : iflag ≤ 0) :
    ∃ s', (setPub new0 q).density iflag = .ok (s', .ok ()) ∧ IsFinite s'.d ∧ 0 < toR s'.d ∧
      |Real.log (toR s'.d) - Real.log d| ≤ 9.7e-8 := by
  have T0 : 0 < toR q.t := by linarith [h.t_low]
  have e : 1.25 * GergEos.Tr (fracs q) ≤ toR q.t ↔ GergEos.Tr (fracs q) / toR q.t ≤ 8 / 10 := by
    rw [div_le_iff₀ T0]
    norm_num
    constructor <;> intro h <;> linarith
  have e3' : -toR q.d * GergEos.invRhoR (fracs q) ≤ if GergEos.Tr (fracs q) / toR q.t ≤ 8 / 10 then 0.06 else 0.05 := by
    refine e3.trans (le_of_eq ?_)
    by_cases c : 1.25 * GergEos.Tr (fracs q) ≤ toR q.t
    · rw [if_pos c, if_pos (e.1 c)]
    · rw [if_neg c, if_neg fun c' => c (e.2 c')]
  obtain ⟨m, ρ, C, c1, c2, c3, c4⟩ := Gerg.estimate_curve hL h (by rw [Gerg.mix_sum h]; exact hs) hT e1 e2 e3' d0 hd he
  obtain ⟨s', d', k1, k2, k3, k4, k5, k6, k7, k8⟩ := C62_gerg_density_converges hL hN new0 hnew q h iflag hf _ _ _ _ fd
    (Or.inr (neg_neg _).symm) C.m_pos C.K1 C.r1 C.r2 C.K2 C.d1 C.d2 C.d3 C.slope C.start
  have E0 : 0 < -toR q.d := lt_of_lt_of_le (by norm_num) e1
  have : d = d' := by
    refine k8 d ?_ c4 hd
    refine (Real.log_le_log_iff (by positivity) d0).1 ?_
    rw [Real.log_mul E0.ne' (Real.exp_pos _).ne', Real.log_exp]
    have a := (abs_le.1 he).2
    generalize Real.log (-toR q.d) = y at *
    norm_num at a c3
    linarith
  subst this
  refine ⟨s', k1, k2, k3, k5.trans ?_⟩
  have : 1 / m ≤ 1 / 0.807 := one_div_le_one_div_of_le (by norm_num) c1
  norm_num at this ⊢
  linarith

namespace Gerg

/-- The public fields with another temperature, pressure and density. -/
def atTP (q : Pub Float) (t p d z : Float) : Pub Float := { q with t := t, p := p, d := d, z := z }

/-- A gas as C72 asks for. -/
structure TrackGas (q : Pub Float) : Prop where
  x_fin : ∀ i : Fin 22, 1 ≤ i.1 → IsFinite (aget q.x i)
  x_rng : ∀ i : Fin 22, 1 ≤ i.1 → toR (aget q.x i) = 0 ∨ 1e-10 ≤ toR (aget q.x i) ∧ toR (aget q.x i) ≤ 2
  x_big : ∃ i : Fin 22, 1 ≤ i.1 ∧ 1 / 100 ≤ toR (aget q.x i)
  sum : ∑ i : Fin 22 with 1 ≤ i.1, toR (aget q.x i) ≤ 1.01

theorem TrackGas.at {q : Pub Float} (g : TrackGas q) {t p : Float} (h : TrackPoint q t p) (d z : Float) : DensDomain (atTP q t p d z) := by
  have T1 := h.t_low
  have T2 := h.t_high
  have T3 := h.t_red1
  have T0 : 0 < 8.314472 * toR t := by positivity
  have p1 := h.p_low
  have p2 := h.p_high
  rw [le_div_iff₀ T0] at p1
  rw [div_le_iff₀ T0] at p2
  norm_num at p1 p2 T3
  have P1 : 1e-6 ≤ toR p := by norm_num; linarith
  have P2 : toR p ≤ 1e9 := by norm_num; linarith
  have T4 : GergEos.Tr (fracs q) ≤ 10 * toR t := by linarith
  exact ⟨h.t_fin, h.t_low, h.t_high, h.t_red2, T4, h.p_fin, P1, P2, g.x_fin, g.x_rng, g.x_big⟩

theorem TrackGas.vol {q : Pub Float} (g : TrackGas q) {t p : Float} (h : TrackPoint q t p) : 0 ≤ GergEos.invRhoR (fracs q) :=
  invRho_nonneg (q := atTP q t p (f% 0.0) (f% 0.0)) (g.at h _ _)

theorem exp_quarter : Real.exp 0.25 ≤ 1.2841 ∧ 0.7787 ≤ Real.exp (-0.25) := by
  have a : Real.exp 0.25 ≤ 1.2841 := GergEos.MixT.exp_le (by norm_num) (by norm_num) (by norm_num)
  refine ⟨a, ?_⟩
  rw [Real.exp_neg, le_inv_comm₀ (by norm_num) (Real.exp_pos _)]
  exact a.trans (by norm_num)

/-- The density at a sample, and its range. -/
theorem TrackPoint.root (hL : LibmAccurate) (hN : LnAccurate) {q : Pub Float} (g : TrackGas q) {t p : Float} (h : TrackPoint q t p) :
    ∃ d, 0 < d ∧ d * GergEos.invRhoR (fracs q) ≤ 1 / 2 ∧ d * 8.314472 * toR t * GergEos.Z (fracs q) d (toR t) = toR p ∧
      (∀ d', 0 < d' → d' * GergEos.invRhoR (fracs q) ≤ 1 / 2 →
        d' * 8.314472 * toR t * GergEos.Z (fracs q) d' (toR t) = toR p → d' = d) ∧
      3.03e-4 ≤ d ∧ d ≤ 296 ∧ d * GergEos.invRhoR (fracs q) ≤ 0.0495 := by
  have G := g.at h (f% 0.0) (f% 0.0)
  have p1 : 3e-4 ≤ toR p / (8.314472 * toR t) := le_trans (by norm_num) h.p_low
  have p2 : toR p / (8.314472 * toR t) ≤ 300 := h.p_high.trans (by norm_num)
  have p3 : toR p / (8.314472 * toR t) * GergEos.invRhoR (fracs q) ≤ if 1.25 * GergEos.Tr (fracs q) ≤ toR t then 0.06 else 0.05 :=
    h.p_red.trans (by split_ifs <;> norm_num)
  obtain ⟨s', d, -, -, -, a, b, c, u, -⟩ := C72_gerg_mixture_density hL hN _ new_ok (atTP q t p (f% 0.0) (f% 0.0)) G g.sum h.t_red1 p1 p2 p3
    fin0 toR0.ge 0 le_rfl
  obtain ⟨m, ρ, C, c1, c2, c3, c4⟩ := Gerg.mix_curve' hL G g.sum h.t_red1 p1 p2 p3
  obtain ⟨-, d2, -, -, -, e4, -, e6, e7, -⟩ := C62_gerg_density_converges hL hN _ new_ok (atTP q t p (f% 0.0) (f% 0.0)) G 0 le_rfl _ _ _ _
    fin0 (Or.inl ⟨toR0.ge, rfl⟩) C.m_pos C.K1 C.r1 C.r2 C.K2 C.d1 C.d2 C.d3 C.slope C.start
  have dp2 : 0 < d2 := lt_of_lt_of_le (by have := C.pos; positivity) e6
  have e : d2 = d := u d2 dp2 ((c4 d2 e7).trans (by norm_num)) e4
  subst e
  refine ⟨d2, a, b, c, u, ?_⟩
  have V0 := g.vol h
  have f1 := h.p_low
  have f2 := h.p_high
  have f3 := h.p_red
  have e6' : toR p / (8.314472 * toR t) * Real.exp (-ρ) ≤ d2 := e6
  have e7' : d2 ≤ toR p / (8.314472 * toR t) * Real.exp ρ := e7
  clear e6 e7 C c4 G e4 u b c p1 p2 p3 h
  generalize toR p / (8.314472 * toR t) = D0 at *
  generalize GergEos.invRhoR (fracs q) = V at *
  have x1 : Real.exp ρ ≤ 1.2841 := (Real.exp_le_exp.2 c3).trans exp_quarter.1
  have x2 : 0.7787 ≤ Real.exp (-ρ) := exp_quarter.2.trans (Real.exp_le_exp.2 (neg_le_neg c3))
  have D0p : 0 ≤ D0 := le_trans (by norm_num) f1
  refine ⟨?_, ?_, ?_⟩
  · exact le_trans (le_trans (by norm_num) (mul_le_mul f1 x2 (by norm_num) D0p)) e6'
  · exact e7'.trans ((mul_le_mul f2 x1 (Real.exp_pos _).le (by norm_num)).trans (by norm_num))
  · refine (mul_le_mul_of_nonneg_right e7' V0).trans ?_
    have := mul_le_mul f3 x1 (Real.exp_pos _).le (by norm_num)
    calc D0 * Real.exp ρ * V = D0 * V * Real.exp ρ := by ring
      _ ≤ _ := this
      _ ≤ _ := by norm_num

section
open GergEos

/-- How far the density moves with the pressure and the temperature, from the warmer to the colder. -/
theorem near_down {x : Vector ℝ 22} (hP : Present x) (hx0 : ∀ i : Fin 22, 1 ≤ i.1 → 0 ≤ yOf x i)
    (s2 : ∑ i : Fin 22 with 1 ≤ i.1, yOf x i ≤ 1.01) (v0 : 0 ≤ invRhoR (yOf x)) {T T' p p' d d' : ℝ} (T0 : 0 < T')
    (t1 : 1.1 * Tr (yOf x) ≤ T') (hT : T' ≤ T) (t2 : T ≤ 100 * Tr (yOf x)) (hd : 0 < d) (hd' : 0 < d')
    (c : d * invRhoR (yOf x) ≤ 0.0495) (c' : d' * invRhoR (yOf x) ≤ 0.0495)
    (e : d * 8.314472 * T * GergEos.Z (yOf x) d T = p) (e' : d' * 8.314472 * T' * GergEos.Z (yOf x) d' T' = p') :
    0.807 * |Real.log d' - Real.log d| ≤ |Real.log p' - Real.log p| + 3.2 * |Real.log T' - Real.log T| := by
  have T00 := T0.trans_le hT
  have u := order_T_up hP hx0 s2 (dm := 0.05) (b := 3.2) (by norm_num) (by norm_num) MixT.up05 v0 T0 t1 hT t2 hd' (by
    push_cast
    exact c'.trans (by norm_num))
  have l := order_T hP hx0 s2 v0 T0 t1 hT t2 hd' (c'.trans (by norm_num))
  have hm : max d d' * invRhoR (yOf x) ≤ 0.0495 := by
    rcases max_choice d d' with h | h <;> rw [h] <;> assumption
  obtain ⟨ρ, m, ρ0, -, m1, -, -, b2, -⟩ := isotherm hP hx0 s2 v0 T00 (t1.trans hT) t2 (hd.le.trans (le_max_left d d'))
    (hm.trans (by split_ifs <;> norm_num))
  have hE : max d d' ≤ max d d' * Real.exp ρ := le_mul_of_one_le_right (hd.le.trans (le_max_left _ _)) (Real.one_le_exp ρ0.le)
  have lT : 0 ≤ Real.log T - Real.log T' := sub_nonneg.2 (Real.log_le_log T0 hT)
  rw [e'] at u l
  rw [abs_sub_comm (Real.log T'), abs_of_nonneg lT]
  have k := le_abs_self (Real.log p' - Real.log p)
  have k' := neg_abs_le (Real.log p' - Real.log p)
  push_cast at u
  rcases le_total d d' with o | o
  · have s := (order_D hP hx0 s2 T00 b2 hd o ((le_max_right d d').trans hE)).1
    rw [e] at s
    have ld : 0 ≤ Real.log d' - Real.log d := sub_nonneg.2 (Real.log_le_log hd o)
    rw [abs_of_nonneg ld]
    have := mul_le_mul_of_nonneg_right m1 ld
    generalize Real.log (d' * 8.314472 * T * GergEos.Z (yOf x) d' T) = P at *
    linarith
  · have s := (order_D hP hx0 s2 T00 b2 hd' o ((le_max_left d d').trans hE)).1
    rw [e] at s
    have ld : 0 ≤ Real.log d - Real.log d' := sub_nonneg.2 (Real.log_le_log hd' o)
    rw [abs_sub_comm (Real.log d'), abs_of_nonneg ld]
    have := mul_le_mul_of_nonneg_right m1 ld
    have l0 : 0 ≤ 0.9 * (Real.log T - Real.log T') := by positivity
    generalize Real.log (d' * 8.314472 * T * GergEos.Z (yOf x) d' T) = P at *
    generalize |Real.log p' - Real.log p| = q at *
    norm_num at *
    linarith

theorem track_near {q : Pub Float} (g : TrackGas q) {t p t' p' : Float} (h : TrackPoint q t p) (h' : TrackPoint q t' p') {d d' : ℝ}
    (hd : 0 < d) (hd' : 0 < d') (c : d * invRhoR (fracs q) ≤ 0.0495) (c' : d' * invRhoR (fracs q) ≤ 0.0495)
    (e : d * 8.314472 * toR t * GergEos.Z (fracs q) d (toR t) = toR p)
    (e' : d' * 8.314472 * toR t' * GergEos.Z (fracs q) d' (toR t') = toR p') :
    0.807 * |Real.log d' - Real.log d| ≤ |Real.log (toR p') - Real.log (toR p)| + 3.2 * |Real.log (toR t') - Real.log (toR t)| := by
  have D := g.at h (f% 0.0) (f% 0.0)
  have ef : ∀ i : Fin 22, 1 ≤ i.1 → fracs q i = yOf (xr q.x) i := fracs_eq (okX_of (q := atD (atTP q t p (f% 0.0) (f% 0.0)) (f% 0.0)) D.zero)
  have eV : invRhoR (fracs q) = invRhoR (yOf (xr q.x)) := reducing_congr' ef _ _
  have eT : Tr (fracs q) = Tr (yOf (xr q.x)) := reducing_congr' ef _ _
  have v0 := g.vol h
  have hx0 : ∀ i : Fin 22, 1 ≤ i.1 → 0 ≤ yOf (xr q.x) i := fun i hi => by rw [← ef i hi]; exact le_max_right _ _
  have s2' : ∑ i : Fin 22 with 1 ≤ i.1, yOf (xr q.x) i ≤ 1.01 := by
    rw [← Finset.sum_congr rfl fun i hi => ef i (Finset.mem_filter.1 hi).2]
    exact (Gerg.mix_sum D).le.trans g.sum
  have hP : Present (xr q.x) := by
    obtain ⟨k, hk, hx⟩ := g.x_big
    exact ⟨k, hk, by rw [xr_get]; exact le_trans (by norm_num) hx⟩
  have a1 := h.t_red1
  have a2 := h.t_red2
  have a1' := h'.t_red1
  have a2' := h'.t_red2
  rw [eV] at c c' v0
  rw [eT] at a1 a2 a1' a2'
  rw [Z_congr' ef] at e e'
  have T0 : 0 < toR t := lt_of_lt_of_le (by norm_num) h.t_low
  have T0' : 0 < toR t' := lt_of_lt_of_le (by norm_num) h'.t_low
  rcases le_total (toR t') (toR t) with o | o
  · exact near_down hP hx0 s2' v0 T0' a1' o a2 hd hd' c c' e e'
  · rw [abs_sub_comm (Real.log d'), abs_sub_comm (Real.log (toR p')), abs_sub_comm (Real.log (toR t'))]
    exact near_down hP hx0 s2' v0 T0 a1 o a2' hd' hd c' c e' e

end

/-- Reals only: a density near one of a sample. -/
theorem track_range {D d V : ℝ} (hD : 0 < D) (V0 : 0 ≤ V) (d1 : 3.03e-4 ≤ d) (d2 : d ≤ 296) (d3 : d * V ≤ 0.0495)
    (h : |Real.log D - Real.log d| ≤ 9.7e-8) : 3e-4 ≤ D ∧ D ≤ 300 ∧ D * V ≤ 0.05 := by
  have d0 : 0 < d := lt_of_lt_of_le (by norm_num) d1
  obtain ⟨a, b⟩ := abs_le.1 h
  have u := Real.one_sub_inv_le_log_of_pos (show (0 : ℝ) < 1.005 by norm_num)
  have l1 : D ≤ d * 1.005 := by
    refine (Real.log_le_log_iff hD (by positivity)).1 ?_
    rw [Real.log_mul d0.ne' (by norm_num)]
    generalize Real.log 1.005 = y at *
    norm_num at b u
    linarith
  have l2 : d ≤ D * 1.005 := by
    refine (Real.log_le_log_iff d0 (by positivity)).1 ?_
    rw [Real.log_mul hD.ne' (by norm_num)]
    generalize Real.log 1.005 = y at *
    norm_num at a u
    linarith
  have l3 := mul_le_mul_of_nonneg_right l1 V0
  norm_num at d1 d2 d3 l1 l2 l3 ⊢
  exact ⟨by linarith, by linarith, by linarith⟩

/-- One search from the density found last, on a new object. -/
theorem track_fresh (hL : LibmAccurate) (hN : LnAccurate) {q : Pub Float} (g : TrackGas q) {t p t' p' D z : Float} (h : TrackPoint q t p)
    (h' : TrackPoint q t' p') (hs : TrackStep t p t' p') (hD : Found q t p D) :
    (densityP (freshOf (atTP q t' p' (-D) z)) 0).2 = .ok () ∧ Found q t' p' (densityP (freshOf (atTP q t' p' (-D) z)) 0).1.d := by
  obtain ⟨fD, D0, d, d0, d2, e, u, hDd⟩ := hD
  obtain ⟨dr, dr0, dr2, er, ur, r1, r2, r3⟩ := h.root hL hN g
  obtain ⟨d', d0', d2', e', u', r1', r2', r3'⟩ := h'.root hL hN g
  have := u dr dr0 dr2 er
  subst this
  have n : |Real.log d' - Real.log dr| ≤ 0.05 := by
    have a := (track_near g h h' dr0 d0' r3 r3' er e').trans hs.change
    norm_num at a ⊢
    linarith
  have G := g.at h' (-D) z
  obtain ⟨w1, w2, w3⟩ := track_range D0 (g.vol h) r1 r2 r3 hDd
  have eD : -toR (-D) = toR D := by rw [toR_neg, neg_neg]
  obtain ⟨s', k1, k2, k3, k4⟩ := C85_gerg_from_estimate hL hN _ new_ok (atTP q t' p' (-D) z) G g.sum h'.t_red1 d' d0' e' (fin_neg fD)
    (w1.trans eD.ge) (eD.le.trans w2) (le_trans (by
      have : -toR (-D) * GergEos.invRhoR (fracs q) ≤ 0.05 := by rw [eD]; exact w3
      exact this) (by split_ifs <;> norm_num)) (by
      show |Real.log (-toR (-D)) - Real.log d'| ≤ 0.054
      rw [eD]
      have := abs_sub_le (Real.log (toR D)) (Real.log dr) (Real.log d')
      rw [abs_sub_comm (Real.log dr)] at this
      norm_num at this n hDd ⊢
      linarith) 0 le_rfl
  have ix : Idx (freshOf (atTP q t' p' (-D) z)) := idx_newP_params (params_setPub newP _)
  have k1 : densityP (freshOf (atTP q t' p' (-D) z)) 0 = (s', .ok ()) := Except.ok.inj ((density_ok ix 0).symm.trans k1)
  rw [k1]
  exact ⟨rfl, k2, k3, d', d0', d2', e', u', k4⟩

section
variable {F : Type} [Add F] [Sub F] [Mul F] [Div F] [Neg F] [FOps F]

/-- The object with another temperature and pressure and the density negated. -/
def tracked (s : Gerg F) (t p : F) : Gerg F := { s with t := t, p := p, d := -s.d }

theorem tracked_eq (s : Gerg F) (t p : F) : ({ s with t := t, p := p, d := -s.d } : Gerg F) = tracked s t p := rfl
theorem pub_tracked (s : Gerg F) (t p : F) : pub (tracked s t p) = { pub s with t := t, p := p, d := -s.d } := rfl
theorem params_tracked (s : Gerg F) (t p : F) : params (tracked s t p) = params s := rfl
theorem cache_tracked (s : Gerg F) (t p : F) : cache (tracked s t p) = cache s := rfl

end

theorem track_list (hL : LibmAccurate) (hN : LnAccurate) {q : Pub Float} (g : TrackGas q) (l : List (Float × Float)) {t p z : Float}
    (h : TrackPoint q t p) (hs : TrackSteps q t p l) {s : Gerg Float} (hc : Coherent [(q.x, t)] s) (hq : pub s = atTP q t p s.d z)
    (hD : Found q t p s.d) :
    ∃ s' outs, trackAll s l = .ok (s', outs) ∧ List.Forall₂ (fun e o => o.1 = .ok () ∧ Found q e.1 e.2 o.2) l outs := by
  induction l generalizing t p z s with
  | nil => exact ⟨s, [], rfl, .nil⟩
  | cons e l ih =>
    obtain ⟨h1, h2, h3⟩ := hs
    obtain ⟨s1, hs1⟩ : ∃ s1, s1 = tracked s e.1 e.2 := ⟨_, rfl⟩
    have hpub : pub s1 = atTP q e.1 e.2 (-s.d) z := by rw [hs1, pub_tracked, hq]; rfl
    have hc1 : Coherent [(q.x, t)] s1 := coherent_cache hc (by rw [hs1]; exact params_tracked _ _ _) (by rw [hs1]; exact cache_tracked _ _ _)
    have hr : Resolved [(q.x, t)] (pub s1) := by
      rw [hpub]
      have F := (g.at h1 (-s.d) z).far
      refine ⟨F.1, F.2, fun e' he => ?_⟩
      rw [List.mem_singleton.1 he]
      refine ⟨Or.inl fun _ _ => rfl, ?_⟩
      rcases h2.noticed with hs | hs
      · exact Or.inl hs
      · refine Or.inr (far_of_diff h1.t_fin h.t_fin hs ?_)
        have a1 := h.t_low
        have a2 := h.t_high
        have b1 := h1.t_low
        have b2 := h1.t_high
        show |toR e.1 - toR t| ≤ 10000
        exact abs_le.2 ⟨by linarith, by linarith⟩
    obtain ⟨T1, T2⟩ := track_fresh hL hN g (z := z) h h1 h2 hD
    obtain ⟨a1, a2, a3⟩ := step_sim F64.selfDiff (.density 0) hc1 (fun _ => hr)
    have a1' : pub (densityP s1 0).1 = pub (densityP (freshOf (pub s1)) 0).1 := a1
    have a2' : (densityP s1 0).2 = (densityP (freshOf (pub s1)) 0).2 := by injection a2
    have a3' : Coherent [((pub s1).x, (pub s1).t)] (densityP s1 0).1 := a3
    have r4 : (densityP s1 0).1.d = (densityP (freshOf (pub s1)) 0).1.d := congrArg Pub.d a1'
    have r5 : pub (densityP s1 0).1 = atTP q e.1 e.2 (densityP s1 0).1.d (densityP s1 0).1.z := by
      have := dz_densityP le_rfl s1 (iflag := 0)
      unfold SameButDZ at this
      rw [this, hpub]
      rfl
    rw [hpub] at a2' a3' r4
    rw [T1] at a2'
    rw [← r4] at T2
    have r6 : trackAll s (e :: l) = (trackAll (densityP s1 0).1 l).bind fun r' => .ok (r'.1, ((densityP s1 0).2, (densityP s1 0).1.d) :: r'.2) := by
      show (Gerg.density _ 0 >>= _) = _
      rw [tracked_eq, ← hs1, density_ok (idx_newP_params hc1.1)]
      rfl
    rw [a2'] at r6
    clear T1 a1 a2 a3 a1' a2' r4 hpub hc1 hr hs1
    generalize (densityP s1 0).1 = s2 at *
    obtain ⟨s', outs, k1, k2⟩ := ih h1 h3 a3' r5 T2
    refine ⟨s', (.ok (), s2.d) :: outs, ?_, .cons ⟨rfl, T2⟩ k2⟩
    rw [r6, k1]
    rfl

end Gerg

/-- C85, GERG-2008, tracking: with an accurate math library, an object finds the density of a gas mixture once, from the estimate of
the ideal gas. From then on the pressure and the temperature change in small steps (`TrackStep`) from each sample to the next, and each
search starts from the density found last. Then every search reports success, and its density is within the factor `exp 9.7e-8` of the
one density of the equation: however many samples there are, the errors do not add up and no search is led astray. -/
theorem C85_gerg_tracking (hL : LibmAccurate) (hN : LnAccurate) (new0 : Gerg Float) (hnew : Gerg.new = .ok new0)
    (q : Pub Float) (fx : ∀ i : Fin 22, 1 ≤ i.1 → IsFinite (aget q.x i))
    (hx : ∀ i : Fin 22, 1 ≤ i.1 → toR (aget q.x i) = 0 ∨ 1e-10 ≤ toR (aget q.x i) ∧ toR (aget q.x i) ≤ 2)
    (hx' : ∃ i : Fin 22, 1 ≤ i.1 ∧ 1 / 100 ≤ toR (aget q.x i)) (hs : ∑ i : Fin 22 with 1 ≤ i.1, toR (aget q.x i) ≤ 1.01)
    (h : Gerg.TrackPoint q q.t q.p) (fd : IsFinite q.d) (d0 : 0 ≤ toR q.d) (l : List (Float × Float))
    (hl : Gerg.TrackSteps q q.t q.p l) :
    ∃ s s' outs, (setPub new0 q).density 0 = .ok (s, .ok ()) ∧ Gerg.Found q q.t q.p s.d ∧ Gerg.trackAll s l = .ok (s', outs) ∧
      List.Forall₂ (fun e o => o.1 = .ok () ∧ Gerg.Found q e.1 e.2 o.2) l outs := by
  have g : Gerg.TrackGas q := ⟨fx, hx, hx', hs⟩
  have D : DensDomain q := g.at h q.d q.z
  obtain ⟨s, d, a1, a2, a3, a4, a5, a6, a7, a8⟩ := C72_gerg_mixture_density hL hN new0 hnew q D hs h.t_red1 (le_trans (by norm_num) h.p_low)
    (h.p_high.trans (by norm_num)) (h.p_red.trans (by split_ifs <;> norm_num)) fd d0 0 le_rfl
  have e := Gerg.new_inj hnew
  subst e
  have F : Gerg.Found q q.t q.p s.d := ⟨a2, a3, d, a4, a5, a6, a7, a8⟩
  have ix : Gerg.Idx (Gerg.freshOf q) := Gerg.idx_newP_params (Gerg.params_setPub Gerg.newP q)
  have k1 : Gerg.densityP (Gerg.freshOf q) 0 = (s, .ok ()) := Except.ok.inj ((Gerg.density_ok ix 0).symm.trans a1)
  obtain ⟨-, -, c3⟩ := Gerg.step_sim F64.selfDiff (.density 0) (s := Gerg.freshOf q) (last := []) (Gerg.coherent_cache Gerg.coherent_new
    (Gerg.params_setPub Gerg.newP q) (Gerg.cache_setPub Gerg.newP q)) (fun _ => ⟨D.far.1, D.far.2, fun _ h => by cases h⟩)
  have c3' : Gerg.Coherent [(q.x, q.t)] (Gerg.densityP (Gerg.freshOf q) 0).1 := c3
  have r5 : pub (Gerg.densityP (Gerg.freshOf q) 0).1
      = Gerg.atTP q q.t q.p (Gerg.densityP (Gerg.freshOf q) 0).1.d (Gerg.densityP (Gerg.freshOf q) 0).1.z :=
    Gerg.dz_densityP le_rfl (Gerg.freshOf q) (iflag := 0)
  rw [k1] at c3' r5
  obtain ⟨s', outs, g1, g2⟩ := Gerg.track_list hL hN g l h hl c3' r5 F
  exact ⟨s, s', outs, a1, F, g1, g2⟩

/-! ## The hypotheses can be met -/

namespace Gerg

theorem trk1 : decChk true 0 20 ⟨900, 0⟩ = true := by decide +kernel
theorem trk2 : decChk true 0 20 ⟨915, 0⟩ = true := by decide +kernel
theorem trk3 : decChk true 0 20 ⟨301, 0⟩ = true := by decide +kernel
theorem trk4 : decChk true 0 20 ⟨300, 0⟩ = true := by decide +kernel

theorem v900 : IsFinite (f% 900.0 : Float) ∧ toR (f% 900.0 : Float) = 900 := by
  refine ⟨decChk_fin trk1, ?_⟩
  show toR (F64.litF ⟨900, 0⟩) = 900
  rw [(decChk_val trk1).2.1 rfl]; norm_num [decR]

theorem v915 : IsFinite (f% 915.0 : Float) ∧ toR (f% 915.0 : Float) = 915 := by
  refine ⟨decChk_fin trk2, ?_⟩
  show toR (F64.litF ⟨915, 0⟩) = 915
  rw [(decChk_val trk2).2.1 rfl]; norm_num [decR]

theorem v301 : IsFinite (f% 301.0 : Float) ∧ toR (f% 301.0 : Float) = 301 := by
  refine ⟨decChk_fin trk3, ?_⟩
  show toR (F64.litF ⟨301, 0⟩) = 301
  rw [(decChk_val trk3).2.1 rfl]; norm_num [decR]

theorem v300 : IsFinite (f% 300.0 : Float) ∧ toR (f% 300.0 : Float) = 300 := by
  refine ⟨decChk_fin trk4, ?_⟩
  show toR (F64.litF ⟨300, 0⟩) = 300
  rw [(decChk_val trk4).2.1 rfl]; norm_num [decR]

theorem mix12_gas : TrackGas mix12 := ⟨mix12_dom.x_fin, mix12_dom.x_rng, mix12_dom.x_big, by rw [mix12_sum]; norm_num⟩

theorem mix12_point {t p : Float} {u v : ℝ} (ht : IsFinite t ∧ toR t = u) (h : IsFinite p ∧ toR p = v) (u1 : 300 ≤ u) (u2 : u ≤ 301)
    (h1 : 900 ≤ v) (h2 : v ≤ 915) : TrackPoint mix12 t p := by
  have V2 := errMix_V.2
  have V0 := errMix_V.1
  have T1 := errMix_Tr.1
  have T2 := errMix_Tr.2
  have u0 : 0 < 8.314472 * u := by positivity
  refine ⟨ht.1, ?_, ?_, ?_, ?_, h.1, ?_, ?_, ?_⟩ <;> simp only [h.2, ht.2, mix12_fracs]
  · linarith
  · linarith
  · norm_num; linarith
  · linarith
  · rw [le_div_iff₀ u0]; norm_num; linarith
  · rw [div_le_iff₀ u0]; norm_num; linarith
  · have : v / (8.314472 * u) ≤ 0.373 := by rw [div_le_iff₀ u0]; norm_num; linarith
    exact (mul_le_mul this V2 V0 (by norm_num)).trans (by norm_num)

theorem log_near {a b : ℝ} (ha : 0 < a) (hab : a ≤ b) : |Real.log b - Real.log a| ≤ b / a - 1 := by
  have h := Real.log_le_log ha hab
  have k := Real.log_le_sub_one_of_pos (show (0 : ℝ) < b / a by have := ha.trans_le hab; positivity)
  rw [Real.log_div (ha.trans_le hab).ne' ha.ne'] at k
  rw [abs_of_nonneg (sub_nonneg.2 h)]
  exact k

theorem mix12_change : |Real.log (915 : ℝ) - Real.log 900| + 3.2 * |Real.log (301 : ℝ) - Real.log 300| ≤ 0.04 := by
  have a := log_near (a := 900) (b := 915) (by norm_num) (by norm_num)
  have b := log_near (a := 300) (b := 301) (by norm_num) (by norm_num)
  generalize |Real.log (915 : ℝ) - Real.log 900| = y at *
  generalize |Real.log (301 : ℝ) - Real.log 300| = z at *
  norm_num at a b ⊢
  linarith

/-- The gas warms up to 301 K at 915 kPa and goes back to 300 K and 900 kPa, `n` times. -/
def upAndDown : Nat → List (Float × Float)
  | 0 => []
  | n + 1 => (f% 301.0, f% 915.0) :: (f% 300.0, f% 900.0) :: upAndDown n

theorem upAndDown_ok (n : Nat) : TrackSteps mix12 (f% 300.0) (f% 900.0) (upAndDown n) := by
  induction n with
  | zero => trivial
  | succ n ih =>
    refine ⟨mix12_point v301 v915 (by norm_num) le_rfl (by norm_num) le_rfl, ⟨?_, Or.inr ?_⟩,
      mix12_point v300 v900 le_rfl (by norm_num) le_rfl (by norm_num), ⟨?_, Or.inr ?_⟩, ih⟩
    · rw [v915.2, v900.2, v301.2, v300.2]; exact mix12_change
    · rw [v301.2, v300.2, show (301 : ℝ) - 300 = 1 by norm_num, abs_one]; norm_num
    · rw [v915.2, v900.2, v301.2, v300.2, abs_sub_comm, abs_sub_comm (Real.log 300)]; exact mix12_change
    · rw [v301.2, v300.2, show (300 : ℝ) - 301 = -1 by norm_num, abs_neg, abs_one]; norm_num

end Gerg

attribute [local irreducible] Gerg.mix12

/-- Equal parts of methane and nitrogen at 300 K and 900 kPa: the density found is an estimate that meets the hypotheses, and another
search from it, on a new object, finds the density again. -/
example (hL : LibmAccurate) (hN : LnAccurate) (new0 : Gerg Float) (hnew : Gerg.new = .ok new0) (z : Float) :
    ∃ s s', (setPub new0 (Gerg.atTP Gerg.mix12 (f% 300.0) (f% 900.0) Gerg.mix12.d z)).density 0 = .ok (s, .ok ()) ∧
      (setPub new0 (Gerg.atTP Gerg.mix12 (f% 300.0) (f% 900.0) (-s.d) z)).density 0 = .ok (s', .ok ()) ∧
      |Real.log (toR s'.d) - Real.log (toR s.d)| ≤ 2e-7 := by
  have P := Gerg.mix12_point Gerg.v300 Gerg.v900 le_rfl (by norm_num) le_rfl (by norm_num)
  have G := Gerg.mix12_gas.at P Gerg.mix12.d z
  obtain ⟨s, d, a1, a2, a3, a4, a5, a6, a7, a8⟩ := C72_gerg_mixture_density hL hN new0 hnew _ G Gerg.mix12_gas.sum P.t_red1
    (le_trans (by norm_num) P.p_low) (P.p_high.trans (by norm_num)) (P.p_red.trans (by split_ifs <;> norm_num)) Gerg.mix12_d.1
    Gerg.mix12_d.2.ge 0 le_rfl
  obtain ⟨dr, r0, r2, er, ur, r3, r4, r5⟩ := P.root hL hN Gerg.mix12_gas
  have := a7 dr r0 r2 er
  subst this
  obtain ⟨w1, w2, w3⟩ := Gerg.track_range a3 (Gerg.mix12_gas.vol P) r3 r4 r5 a8
  have G' := Gerg.mix12_gas.at P (-s.d) z
  have eD : -toR (-s.d) = toR s.d := by rw [toR_neg, neg_neg]
  obtain ⟨s', k1, -, -, k4⟩ := C85_gerg_from_estimate hL hN new0 hnew (Gerg.atTP Gerg.mix12 (f% 300.0) (f% 900.0) (-s.d) z) G'
    Gerg.mix12_gas.sum P.t_red1
    dr r0 er (fin_neg a2) (w1.trans eD.ge) (eD.le.trans w2) (le_trans (by
      have : -toR (-s.d) * GergEos.invRhoR (fracs Gerg.mix12) ≤ 0.05 := by rw [eD]; exact w3
      exact this) (by split_ifs <;> norm_num)) (by
      show |Real.log (-toR (-s.d)) - Real.log dr| ≤ 0.054
      rw [eD]
      exact a8.trans (by norm_num)) 0 le_rfl
  refine ⟨s, s', a1, k1, ?_⟩
  have := abs_sub_le (Real.log (toR s'.d)) (Real.log dr) (Real.log (toR s.d))
  rw [abs_sub_comm (Real.log dr)] at this
  norm_num at this a8 k4 ⊢
  linarith

/-- The same mixture, warming and cooling any number of times. -/
example (hL : LibmAccurate) (hN : LnAccurate) (new0 : Gerg Float) (hnew : Gerg.new = .ok new0) (n : Nat) (z : Float) :
    ∃ s s' outs, (setPub new0 (Gerg.atTP Gerg.mix12 (f% 300.0) (f% 900.0) Gerg.mix12.d z)).density 0 = .ok (s, .ok ()) ∧
      Gerg.trackAll s (Gerg.upAndDown n) = .ok (s', outs) ∧ ∀ o ∈ outs, o.1 = .ok () := by
  have P := Gerg.mix12_point Gerg.v300 Gerg.v900 le_rfl (by norm_num) le_rfl (by norm_num)
  obtain ⟨g1, g2, g3, g4⟩ := Gerg.mix12_gas
  have mk : ∀ {t p}, Gerg.TrackPoint Gerg.mix12 t p →
      Gerg.TrackPoint (Gerg.atTP Gerg.mix12 (f% 300.0) (f% 900.0) Gerg.mix12.d z) t p := fun h =>
    ⟨h.t_fin, h.t_low, h.t_high, h.t_red1, h.t_red2, h.p_fin, h.p_low, h.p_high, h.p_red⟩
  have steps : ∀ (l : List (Float × Float)) t p, Gerg.TrackSteps Gerg.mix12 t p l →
      Gerg.TrackSteps (Gerg.atTP Gerg.mix12 (f% 300.0) (f% 900.0) Gerg.mix12.d z) t p l := by
    intro l
    induction l with
    | nil => intro t p h; trivial
    | cons e l ih => intro t p h; exact ⟨mk h.1, h.2.1, ih _ _ h.2.2⟩
  obtain ⟨s, s', outs, a, -, b, c⟩ := C85_gerg_tracking hL hN new0 hnew (Gerg.atTP Gerg.mix12 (f% 300.0) (f% 900.0) Gerg.mix12.d z)
    g1 g2 g3 g4 (mk P) Gerg.mix12_d.1 Gerg.mix12_d.2.ge (Gerg.upAndDown n) (steps _ _ _ (Gerg.upAndDown_ok n))
  refine ⟨s, s', outs, a, b, fun o ho => ?_⟩
  clear a b
  generalize Gerg.upAndDown n = l at c
  induction c with
  | nil => cases ho
  | cons h _ ih =>
    rcases List.mem_cons.1 ho with e | e
    · rw [e]; exact h.1
    · exact ih e

end Aga8
