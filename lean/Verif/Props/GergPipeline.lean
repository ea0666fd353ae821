import Verif.Lemmas.GergBoxMethaneChk
import Verif.Props.GergDensityError

/-! # C69: the GERG-2008 density of methane at pipeline pressures, in f64

The theorem is about IEEE-754 arithmetic, with any `exp`, `powf`, `powi` and `ln` that are accurate in the sense of
`Spec/F64Accuracy`. The pressure that belongs to a density is `D R T Z` with `R = 8.314472` and `Z` the GERG-2008 equation of
`Spec/GergEos`, on real numbers. -/

set_option linter.unusedSectionVars false

namespace Aga8

open F64
open Gerg (Pub setPub DensDomain fracs)

attribute [local irreducible] Gerg.newP Gerg.pressureP Gerg.propertiesP Gerg.densityP

variable [Libm]

/-- The density of a pure fluid with a checked table of bounds. -/
theorem Gerg.pipeline {t : GergEos.BoxTab} {k : Fin 22} (ok : t.Ok k) (hL : LibmAccurate) (hN : LnAccurate) (new0 : Gerg Float)
    (hnew : Gerg.new = .ok new0) (q : Pub Float)
    (hx : ∀ i : Fin 22, 1 ≤ i.1 → IsFinite (aget q.x i) ∧ toR (aget q.x i) = if i = k then 1 else 0)
    (ht : IsFinite q.t) (ht1 : (t.Tlo : ℝ) ≤ toR q.t) (ht2 : toR q.t ≤ t.Thi) (hp : IsFinite q.p)
    (d1 : 3e-4 ≤ toR q.p / (8.314472 * toR q.t)) (d2 : toR q.p / (8.314472 * toR q.t) ≤ t.Dmax)
    (d3 : toR q.p / (8.314472 * toR q.t) ≤ t.a + t.b * (toR q.t - t.Tlo))
    (fd : IsFinite q.d) (d0 : 0 ≤ toR q.d) (iflag : Int) (hf : iflag ≤ 0) :
    ∃ s' d, (setPub new0 q).density iflag = .ok (s', .ok ()) ∧ IsFinite s'.d ∧ 0 < toR s'.d ∧ 0 < d ∧
      d * 8.314472 * toR q.t * GergEos.Z (fun i => if i = k then 1 else 0) d (toR q.t) = toR q.p ∧
      (∀ d', 0 < d' → d' * 8.314472 * toR q.t * GergEos.Z (fun i => if i = k then 1 else 0) d' (toR q.t) = toR q.p → d ≤ d') ∧
      |Real.log (toR s'.d) - Real.log d| ≤ 1.03e-7 := by
  have hy := Gerg.fracs_pure hx
  have h := Gerg.dens_pure ok hx ht ht1 ht2 hp d1 d2
  obtain ⟨K, m, ρ, C, -, hY⟩ := Gerg.pipe_curve ok h hy ht1 ht2 d1 d2 d3
  obtain ⟨s', d, e1, e2, e3, e4, e5, e6, e7, -⟩ := C62_gerg_density_converges hL hN new0 hnew q h iflag hf _ _ _ _ fd
    (Or.inl ⟨d0, rfl⟩) C.m_pos C.K1 C.r1 C.r2 C.K2 C.d1 C.d2 C.d3 C.slope C.start
  have cZ : GergEos.Z (fracs q) = GergEos.Z (fun i => if i = k then 1 else 0) := by
    funext D T
    exact Gerg.Z_congr' hy D T
  have dp : 0 < d := lt_of_lt_of_le (by have := C.pos; positivity) e6
  rw [← cZ]
  refine ⟨s', d, e1, e2, e3, dp, e4, fun d' p' g => ?_, e5.trans ?_⟩
  · rcases le_total d d' with l | l
    · exact l
    · exact (Gerg.pipe_unique hL h hY dp e7 p' (l.trans e7) (g.trans e4.symm)).ge
  · have := C.K2
    have := C.r1
    have e : K * (1 + 1 / m) ≤ 22 - 9 * 0.01 := by linarith
    norm_num only at e ⊢
    linarith

theorem Gerg.tab_vals : ((GergEos.Methane.tab.Tlo : ℚ) : ℝ) = 200 ∧ ((GergEos.Methane.tab.Thi : ℚ) : ℝ) = 600 ∧
    ((GergEos.Methane.tab.Dmax : ℚ) : ℝ) = 5 ∧ ((GergEos.Methane.tab.a : ℚ) : ℝ) = 1 ∧ ((GergEos.Methane.tab.b : ℚ) : ℝ) = 0.017 := by
  unfold GergEos.Methane.tab
  norm_num

/-- The equation for methane is well-behaved in this range. -/
theorem Gerg.methane_curve {q : Pub Float}
    (hx : ∀ i : Fin 22, 1 ≤ i.1 → IsFinite (aget q.x i) ∧ toR (aget q.x i) = if i = 1 then 1 else 0)
    (ht : IsFinite q.t) (ht1 : 200 ≤ toR q.t) (ht2 : toR q.t ≤ 600) (hp : IsFinite q.p)
    (d1 : 3e-4 ≤ toR q.p / (8.314472 * toR q.t)) (d2 : toR q.p / (8.314472 * toR q.t) ≤ 5)
    (d3 : toR q.p / (8.314472 * toR q.t) ≤ 1 + 0.017 * (toR q.t - 200)) :
    DensDomain q ∧ ∃ K m ρ : ℝ, Gerg.F64Curve q (toR q.p / (8.314472 * toR q.t)) K m ρ ∧ m ≤ 1.1 ∧
      ∀ D, 0 ≤ D → D ≤ toR q.p / (8.314472 * toR q.t) * Real.exp ρ → 0 < GergEos.dPdD (fracs q) D (toR q.t) := by
  obtain ⟨e1, e2, e3, e4, e5⟩ := Gerg.tab_vals
  have h := Gerg.dens_pure GergEos.Methane.tab_ok hx ht (by rw [e1]; exact ht1) (by rw [e2]; exact ht2) hp d1 (by rw [e3]; exact d2)
  exact ⟨h, Gerg.pipe_curve GergEos.Methane.tab_ok h (Gerg.fracs_pure hx) (by rw [e1]; exact ht1) (by rw [e2]; exact ht2) d1
    (by rw [e3]; exact d2) (by rw [e1, e4, e5]; exact d3)⟩

/-- C69: with an accurate math library, for pure methane at 200 K to 600 K and an ideal-gas density `p / (R T)` of 3e-4 mol/l up to
`1 + 0.017 (T - 200)` and at most 5 mol/l (up to 6.7 MPa at 300 K, 10.3 MPa at 350 K), `density` on a new object with a flag that is
not positive reports success. The equation has a density `d` with exactly the requested pressure, no smaller positive density has
this pressure, and the computed density is within the factor `exp 1.03e-7` of `d`. -/
theorem C69_gerg_methane_pipeline (hL : LibmAccurate) (hN : LnAccurate) (new0 : Gerg Float) (hnew : Gerg.new = .ok new0)
    (q : Pub Float) (hx : ∀ i : Fin 22, 1 ≤ i.1 → IsFinite (aget q.x i) ∧ toR (aget q.x i) = if i = 1 then 1 else 0)
    (ht : IsFinite q.t) (ht1 : 200 ≤ toR q.t) (ht2 : toR q.t ≤ 600) (hp : IsFinite q.p)
    (d1 : 3e-4 ≤ toR q.p / (8.314472 * toR q.t)) (d2 : toR q.p / (8.314472 * toR q.t) ≤ 5)
    (d3 : toR q.p / (8.314472 * toR q.t) ≤ 1 + 0.017 * (toR q.t - 200))
    (fd : IsFinite q.d) (d0 : 0 ≤ toR q.d) (iflag : Int) (hf : iflag ≤ 0) :
    ∃ s' d, (setPub new0 q).density iflag = .ok (s', .ok ()) ∧ IsFinite s'.d ∧ 0 < toR s'.d ∧ 0 < d ∧
      d * 8.314472 * toR q.t * GergEos.Z (fun i => if i = 1 then 1 else 0) d (toR q.t) = toR q.p ∧
      (∀ d', 0 < d' → d' * 8.314472 * toR q.t * GergEos.Z (fun i => if i = 1 then 1 else 0) d' (toR q.t) = toR q.p → d ≤ d') ∧
      |Real.log (toR s'.d) - Real.log d| ≤ 1.03e-7 := by
  obtain ⟨e1, e2, e3, e4, e5⟩ := Gerg.tab_vals
  exact Gerg.pipeline GergEos.Methane.tab_ok hL hN new0 hnew q hx ht (by rw [e1]; exact ht1) (by rw [e2]; exact ht2) hp d1
    (by rw [e3]; exact d2) (by rw [e1, e4, e5]; exact d3) fd d0 iflag hf

/-! ## The hypotheses can be met -/

namespace Gerg

theorem chk6000 : decChk true 0 20 ⟨6000, 0⟩ = true := by decide +kernel

/-- Methane at 300 K and 6 MPa. -/
def pipe6 : Pub Float := { errMix with p := f% 6000.0, x := aset (fill 22 (f% 0.0)) 1 (f% 1.0) }

theorem pipe6_x (i : Fin 22) : IsFinite (aget pipe6.x i) ∧ toR (aget pipe6.x i) = if i = 1 then 1 else 0 := by
  have e : aget pipe6.x i = if 1 = i then (f% 1.0) else f% 0.0 := by
    show aget (aset (fill 22 (f% 0.0)) 1 (f% 1.0)) i = _
    rw [aget_aset, aget_fill]
  rw [e]
  by_cases h : i = 1
  · rw [if_pos h.symm, if_pos h]; exact ⟨fin1, toR1⟩
  · rw [if_neg (Ne.symm h), if_neg h]; exact ⟨fin0, toR0⟩

end Gerg

/-- Methane at 300 K and 6 MPa meets the hypotheses. -/
example (hL : LibmAccurate) (hN : LnAccurate) (new0 : Gerg Float) (hnew : Gerg.new = .ok new0) :
    ∃ s' d, (setPub new0 Gerg.pipe6).density 0 = .ok (s', .ok ()) ∧
      d * 8.314472 * 300 * GergEos.Z (fun i => if i = 1 then 1 else 0) d 300 = 6000 ∧
      |Real.log (toR s'.d) - Real.log d| ≤ 1.03e-7 := by
  obtain ⟨-, ft, ht, -, -, fd, hd⟩ := Gerg.errMix_ok
  have hp : toR Gerg.pipe6.p = 6000 := by
    show toR (litF ⟨6000, 0⟩) = 6000
    rw [(decChk_val Gerg.chk6000).2.1 rfl]; simp [decR]
  have ht' : toR Gerg.pipe6.t = 300 := ht
  have hd' : toR Gerg.pipe6.d = 0 := hd
  obtain ⟨s', d, e1, -, -, -, e2, -, e3⟩ := C69_gerg_methane_pipeline hL hN new0 hnew Gerg.pipe6 (fun i _ => Gerg.pipe6_x i) ft
    (by rw [ht']; norm_num) (by rw [ht']; norm_num) (decChk_fin Gerg.chk6000) (by rw [ht', hp]; norm_num)
    (by rw [ht', hp]; norm_num) (by rw [ht', hp]; norm_num) fd (by rw [hd']) 0 le_rfl
  rw [ht', hp] at e2
  exact ⟨s', d, e1, e2, e3⟩

end Aga8
