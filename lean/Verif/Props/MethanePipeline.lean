import Verif.Lemmas.DetailBoxCurve
import Verif.Props.DetailDensityError

/-! # C68: the density of methane at pipeline pressures, in f64

The theorem is about IEEE-754 arithmetic, with any `exp`, `powf`, `powi` and `ln` that are accurate in the sense of
`Spec/F64Accuracy`. The pressure that belongs to a density is `D R T Z` with `R = 8.31451` and `Z` the AGA 8 equation of
`Spec/Aga8Eos`, on real numbers. -/

set_option linter.unusedSectionVars false

namespace Aga8

open F64
open Detail (Pub setPub DensDomain fracs)

attribute [local irreducible] Detail.pressureP Detail.propertiesP Detail.densityP

variable [Libm]

/-- C68: with an accurate math library, for pure methane at 200 K to 600 K and an ideal-gas density `p / (R T)` of 3e-4 mol/l up to
`1 + 0.022 (T - 200)` and at most 5 mol/l (up to 7.9 MPa at 300 K, 12.5 MPa at 350 K), `density` on a new object reports success.
The equation has a density `d` with exactly the requested pressure, no smaller positive density has this pressure, and the computed
density is within the factor `exp 1.03e-7` of `d`. -/
theorem C68_detail_methane_pipeline (hL : LibmAccurate) (hN : LnAccurate) (new0 : Detail Float) (hnew : Detail.new = .ok new0)
    (q : Pub Float) (hx : ∀ i, IsFinite (aget q.x i) ∧ toR (aget q.x i) = if i = 0 then 1 else 0)
    (ht : IsFinite q.t) (ht1 : 200 ≤ toR q.t) (ht2 : toR q.t ≤ 600) (hp : IsFinite q.p)
    (d1 : 3e-4 ≤ toR q.p / (8.31451 * toR q.t)) (d2 : toR q.p / (8.31451 * toR q.t) ≤ 5)
    (d3 : toR q.p / (8.31451 * toR q.t) ≤ 1 + 0.022 * (toR q.t - 200))
    (fd : IsFinite q.d) (d0 : 0 ≤ toR q.d) :
    ∃ s' d, (setPub new0 q).density = .ok (s', .ok ()) ∧ IsFinite s'.d ∧ 0 < toR s'.d ∧ 0 < d ∧
      d * 8.31451 * toR q.t * Eos.Z (fun i => if i = 0 then 1 else 0) d (toR q.t) = toR q.p ∧
      (∀ d', 0 < d' → d' * 8.31451 * toR q.t * Eos.Z (fun i => if i = 0 then 1 else 0) d' (toR q.t) = toR q.p → d ≤ d') ∧
      |Real.log (toR s'.d) - Real.log d| ≤ 1.03e-7 := by
  have hf : fracs q = Detail.posPart Detail.mx := Detail.fracs_methane hx
  have hf2 : (fun i => if i = 0 then 1 else 0) = fracs q := by
    funext i
    rw [hf, Detail.posPart_mx]
  have h := Detail.dens_methane_wide hx ht (by linarith) ht2 hp d1 d2
  obtain ⟨K, m, ρ, C, -, hY⟩ := Detail.pipe_curve h hf ht1 ht2 d1 d2 d3
  obtain ⟨s', d, e1, e2, e3, e4, e5, e6, e7, -⟩ := C64_detail_density_converges hL hN new0 hnew q h _ _ _ _ fd
    (Or.inl ⟨d0, rfl⟩) C.m_pos C.K1 C.r1 C.r2 C.K2 C.d1 C.d2 C.d3 C.slope C.start
  rw [hf2]
  have dp : 0 < d := lt_of_lt_of_le (by have := C.pos; positivity) e6
  refine ⟨s', d, e1, e2, e3, dp, e4, fun d' p' g => ?_, e5.trans ?_⟩
  · rcases le_total d d' with l | l
    · exact l
    · exact (Detail.pipe_unique (by linarith) hY dp e7 p' (l.trans e7) (g.trans e4.symm)).ge
  · have := C.K3
    norm_num at this ⊢
    linarith

/-! ## The hypotheses can be met -/

namespace Detail

theorem chk7000 : decChk true 0 20 ⟨7000, 0⟩ = true := by decide +kernel

/-- Methane at 300 K and 7 MPa. -/
def pipe7 : Pub Float := { errLow with p := f% 7000.0 }

end Detail

/-- Methane at 300 K and 7 MPa meets the hypotheses. -/
example (hL : LibmAccurate) (hN : LnAccurate) (new0 : Detail Float) (hnew : Detail.new = .ok new0) :
    ∃ s' d, (setPub new0 Detail.pipe7).density = .ok (s', .ok ()) ∧
      d * 8.31451 * 300 * Eos.Z (fun i => if i = 0 then 1 else 0) d 300 = 7000 ∧
      |Real.log (toR s'.d) - Real.log d| ≤ 1.03e-7 := by
  obtain ⟨hx, ft, ht, -, -, fd, hd⟩ := Detail.errLow_ok
  have hp : toR Detail.pipe7.p = 7000 := by
    show toR (litF ⟨7000, 0⟩) = 7000
    rw [(decChk_val Detail.chk7000).2.1 rfl]; simp [decR]
  have ht' : toR Detail.pipe7.t = 300 := ht
  have hd' : toR Detail.pipe7.d = 0 := hd
  obtain ⟨s', d, e1, -, -, -, e2, -, e3⟩ := C68_detail_methane_pipeline hL hN new0 hnew Detail.pipe7 hx ft (by rw [ht']; norm_num)
    (by rw [ht']; norm_num) (decChk_fin Detail.chk7000) (by rw [ht', hp]; norm_num) (by rw [ht', hp]; norm_num)
    (by rw [ht', hp]; norm_num) fd (by rw [hd'])
  rw [ht', hp] at e2
  exact ⟨s', d, e1, e2, e3⟩

end Aga8
