import Verif.Lemmas.DetailErrTemp
import Verif.Lemmas.DetailErrDens
import Verif.Lemmas.DetailEval
import Verif.Spec.DetailEnergyError

/-! # The rounding error of the DETAIL energies, entropy and heat capacity -/

set_option linter.unusedSectionVars false

namespace Aga8.Detail

open FOps F64 Tab

/-! ## The quantities of `Spec/DetailEnergyError` as sums -/

section
variable [Libm] {x : Fin 21 → ℝ} {D T : ℝ}

theorem helmholtz_sum (hx : ∀ i, 0 ≤ x i) (hD : 1e-15 < D) :
    Eos.helmholtz x D T = (∑ i, iv0 D T (x i) i) * 8.31451 * T + ∑ n, 8.31451 * T * tv x D T n := by
  unfold Eos.helmholtz
  rw [(ideal_deriv x hx hD).1, ← tv_sum, ← Finset.mul_sum]
  ring

theorem entropy_sum (hx : ∀ i, 0 ≤ x i) (hD : 1e-15 < D) (hT : 0 < T) :
    Eos.entropy x D T = -((∑ i, iv1 D T (x i) i) * 8.31451) - ∑ n, -(8.31451 * (Eos.c UN n - 1) * tv x D T n) := by
  unfold Eos.entropy
  have h := ((((ideal_deriv x hx hD).2.1 T hT).add (hasDerivAt_alphaR x D hT)).const_mul (8.31451 : ℝ))
  have e : (fun T => Eos.helmholtz x D T)
      = fun T => 8.31451 * ((fun T => T * Eos.alpha0 x D T) + fun T => T * Eos.alphaR x D T) T := by
    funext T
    simp only [Pi.add_apply]
    unfold Eos.helmholtz
    ring
  rw [e, h.deriv, Finset.sum_neg_distrib]
  have e2 : ∑ n, 8.31451 * (Eos.c UN n - 1) * tv x D T n = 8.31451 * ∑ n, (Eos.c UN n - 1) * tv x D T n := by
    rw [Finset.mul_sum]
    exact Finset.sum_congr rfl fun n _ => by ring
  rw [e2]
  ring

theorem heatV_sum (hx : ∀ i, 0 ≤ x i) (hD : 1e-15 < D) (hT : 0 < T) :
    Eos.heatV x D T
      = -((∑ i, iv2 T (x i) i) * 8.31451 + ∑ n, 8.31451 * (Eos.c UN n - 1) * Eos.c UN n * tv x D T n) := by
  unfold Eos.heatV
  have hA := ((((ideal_deriv x hx hD).2.1 T hT).add (hasDerivAt_alphaR x D hT)).const_mul (8.31451 : ℝ))
  have e : (fun T => Eos.helmholtz x D T)
      = fun T => 8.31451 * ((fun T => T * Eos.alpha0 x D T) + fun T => T * Eos.alphaR x D T) T := by
    funext T
    simp only [Pi.add_apply]
    unfold Eos.helmholtz
    ring
  rw [← e] at hA
  have hS := ((((ideal_deriv x hx hD).2.2 T hT).sub (hasDerivAt_alphaR2 x D hT)).const_mul (-8.31451 : ℝ))
  have hE : HasDerivAt (fun T => Eos.entropy x D T)
      (-8.31451 * ((∑ i, iv2 T (x i) i) / T - (-∑ n, (Eos.c UN n - 1) * Eos.c UN n * tv x D T n) / T)) T := by
    refine hS.congr_of_eventuallyEq ((eventually_gt_nhds hT).mono fun t ht => ?_)
    simp only [Pi.sub_apply]
    rw [entropy_sum hx hD ht, Finset.sum_neg_distrib]
    have e2 : ∑ n, 8.31451 * (Eos.c UN n - 1) * tv x D t n = 8.31451 * ∑ n, (Eos.c UN n - 1) * tv x D t n := by
      rw [Finset.mul_sum]
      exact Finset.sum_congr rfl fun n _ => by ring
    rw [e2]
    ring
  have hU := hA.add ((hasDerivAt_id T).mul hE)
  have e3 : (fun T => Eos.energy x D T) = (fun T => Eos.helmholtz x D T) + (id * fun T => Eos.entropy x D T) := rfl
  rw [e3, hU.deriv]
  rw [entropy_sum hx hD hT, Finset.sum_neg_distrib]
  have e2 : ∑ n, 8.31451 * (Eos.c UN n - 1) * tv x D T n = 8.31451 * ∑ n, (Eos.c UN n - 1) * tv x D T n := by
    rw [Finset.mul_sum]
    exact Finset.sum_congr rfl fun n _ => by ring
  have e4 : ∑ n, 8.31451 * (Eos.c UN n - 1) * Eos.c UN n * tv x D T n
      = 8.31451 * ∑ n, (Eos.c UN n - 1) * Eos.c UN n * tv x D T n := by
    rw [Finset.mul_sum]
    exact Finset.sum_congr rfl fun n _ => by ring
  rw [e2, e4]
  simp only [id]
  field_simp
  ring

theorem pressureT_sum (hT : 0 < T) :
    Eos.pressureT x D T = D * 8.31451 + D * ∑ n, -(8.31451 * (Eos.c UN n - 1) * tvZ x D T n) := by
  unfold Eos.pressureT
  rw [(hasDerivAt_ZT x D hT).deriv, Finset.sum_neg_distrib]
  have e2 : ∑ n, 8.31451 * (Eos.c UN n - 1) * tvZ x D T n = 8.31451 * ∑ n, (Eos.c UN n - 1) * tvZ x D T n := by
    rw [Finset.mul_sum]
    exact Finset.sum_congr rfl fun n _ => by ring
  rw [e2]
  ring

theorem helmholtzAbs_sum : Eos.helmholtzAbs x D T
    = (∑ i, is0 D T (x i) i) * 8.31451 * T + ∑ n, 8.31451 * T * ta x D T n := by
  unfold Eos.helmholtzAbs
  simp only [(is_eq _ _ _ _).1, (ta_eq _ _ _ _).1, ← Finset.mul_sum]
  ring

theorem entropyAbs_sum : Eos.entropyAbs x D T
    = (∑ i, is1 D T (x i) i) * 8.31451 + ∑ n, 8.31451 * (|Eos.c UN n| + 1) * ta x D T n := by
  unfold Eos.entropyAbs
  simp only [(is_eq _ _ _ _).2.1, (ta_eq _ _ _ _).1, mul_assoc, ← Finset.mul_sum]
  ring

theorem heatVAbs_sum : Eos.heatVAbs x D T
    = (∑ i, is2 T (x i) i) * 8.31451 + ∑ n, 8.31451 * (|Eos.c UN n| + 1) * |Eos.c UN n| * ta x D T n := by
  unfold Eos.heatVAbs
  simp only [(is_eq 0 _ _ _).2.2, (ta_eq _ _ _ _).1, mul_assoc, ← Finset.mul_sum]
  ring

theorem pressureTAbs_sum : Eos.pressureTAbs x D T
    = D * 8.31451 + D * ∑ n, 8.31451 * (|Eos.c UN n| + 1) * taZ x D T n := by
  unfold Eos.pressureTAbs
  simp only [(ta_eq _ _ _ _).2, mul_assoc, ← Finset.mul_sum]
  ring

end

/-! ## The fields -/

section
variable {F : Type} [Add F] [Sub F] [Mul F] [Div F] [Neg F] [FOps F]

theorem setPub_n0i (s : Detail F) (q : Pub F) : (setPub s q).n0i = s.n0i := rfl
theorem fresh_n0i (q : Pub F) : (freshOf q).n0i = (newP : Detail F).n0i := setPub_n0i newP q
theorem fresh_x (q : Pub F) : (freshOf q).x = q.x := rfl
theorem fresh_t (q : Pub F) : (freshOf q).t = q.t := rfl
theorem fresh_d (q : Pub F) : (freshOf q).d = q.d := rfl

/-- The residual array of `properties` on a new object. -/
def arF (q : Pub F) : Vector (Vector F 4) 4 :=
  arOf (arTun { x_terms (freshOf q) with ar := fill 4 (fill 4 (f% 0.0)) }) 2
/-- The ideal-gas array of `properties` on a new object. -/
def a0F (q : Pub F) : Vector F 3 := (alpha0_detail (freshOf q)).a0

theorem props_fields (q : Pub F) :
    (propertiesP (freshOf q)).s = -aget (a0F q) 1 - aget2 (arF q) 1 0 ∧
    (propertiesP (freshOf q)).u = aget (a0F q) 0 + aget2 (arF q) 0 0 + q.t * (-aget (a0F q) 1 - aget2 (arF q) 1 0) ∧
    (propertiesP (freshOf q)).cv = -(aget (a0F q) 2 + aget2 (arF q) 2 0) ∧
    (propertiesP (freshOf q)).dp_dt = q.d * RDETAIL + q.d * aget2 (arF q) 1 1 ∧
    (propertiesP (freshOf q)).p = q.d * (RDETAIL * q.t) * (f% 1.0 + aget2 (arF q) 0 1 / (RDETAIL * q.t)) ∧
    ((EPSILON <. q.d) = true →
      (propertiesP (freshOf q)).h = (propertiesP (freshOf q)).u + (propertiesP (freshOf q)).p / q.d ∧
      (propertiesP (freshOf q)).g = aget (a0F q) 0 + aget2 (arF q) 0 0 + (propertiesP (freshOf q)).p / q.d) := by
  have ea : (propsMid (freshOf q)).ar = arF q := by rw [propsMid_ar, ar_alpharP]; rfl
  have e0 : (propsMid (freshOf q)).a0 = a0F q := propsMid_a0 _
  have et : (propsMid (freshOf q)).t = q.t := (propsMid_t _).trans (fresh_t q)
  have ed : (propsMid (freshOf q)).d = q.d := (propsMid_d _).trans (fresh_d q)
  rw [propertiesP_eq]
  refine ⟨?_, ?_, ?_, ?_, ?_, fun hd => ⟨?_, ?_⟩⟩
  · rw [propsFinish_s, ea, e0]
  · rw [propsFinish_u, propsFinish_s, ea, e0, et]
  · rw [propsFinish_cv, ea, e0]
  · rw [propsFinish_dp_dt, ea, ed]
  · rw [propsFinish_p, propsFinish_z, ea, ed, et]
  · rw [propsFinish_h, ed, if_pos hd]
  · rw [propsFinish_g, ed, if_pos hd, ea, e0]

end

variable [Libm]

theorem eps_lt {d : Float} {D : ℝ} (Ad : Ap d D D 0 14 10) (hD : 1e-4 ≤ D) : FOps.lt (EPSILON : Float) d = true := by
  have D0 : 0 < D := lt_of_lt_of_le (by norm_num) hD
  have E : Ap (EPSILON : Float) (decR ⟨1, 15⟩) (decR ⟨1, 15⟩) 1 50 0 :=
    Ap.litPos (d := ⟨1, 15⟩) (by decide +kernel) (by norm_num)
  have e : decR ⟨1, 15⟩ = 1 / 10 ^ 15 := by simp [decR]
  rw [e] at E
  rw [flt, lt_toR E.fin Ad.fin]
  have h1 := (E.rel_bounds (by norm_num) (by norm_num)).2.1
  have h2 := (Ad.rel_bounds D0 (by norm_num)).1
  rw [uu_eq] at h1 h2
  norm_num at h1 h2 hD
  linarith

/-- The quantities of `properties` on a new object. -/
theorem ap_energy (hL : LibmAccurate) (hN : LnAccurate) {q : Pub Float} (hq : ErrDomain q) (hT : 50 ≤ toR q.t)
    (hD : 1e-4 ≤ toR q.d) :
    Ap (propertiesP (freshOf q)).s (Eos.entropy (fracs q) (toR q.d) (toR q.t))
      (Eos.entropyAbs (fracs q) (toR q.d) (toR q.t)) 6112978 940 701 ∧
    Ap (propertiesP (freshOf q)).u (Eos.energy (fracs q) (toR q.d) (toR q.t))
      (Eos.energyAbs (fracs q) (toR q.d) (toR q.t)) 6112982 940 712 ∧
    Ap (propertiesP (freshOf q)).h (Eos.enthalpy (fracs q) (toR q.d) (toR q.t))
      (Eos.enthalpyAbs (fracs q) (toR q.d) (toR q.t)) 6112984 972 730 ∧
    Ap (propertiesP (freshOf q)).g (Eos.gibbs (fracs q) (toR q.d) (toR q.t))
      (Eos.gibbsAbs (fracs q) (toR q.d) (toR q.t)) 6112984 972 730 ∧
    Ap (propertiesP (freshOf q)).cv (Eos.heatV (fracs q) (toR q.d) (toR q.t))
      (Eos.heatVAbs (fracs q) (toR q.d) (toR q.t)) 6112978 940 701 ∧
    Ap (propertiesP (freshOf q)).dp_dt (Eos.pressureT (fracs q) (toR q.d) (toR q.t))
      (Eos.pressureTAbs (fracs q) (toR q.d) (toR q.t)) 6112980 954 711 := by
  have hc := close_of_domain hL hq (fill 4 (fill 4 (f% 0.0)))
  obtain ⟨et, ed⟩ := refresh_td (freshOf q) (fill 4 (fill 4 (f% 0.0)))
  have T0 : 0 < toR q.t := by linarith
  have D0 : 0 < toR q.d := lt_of_lt_of_le (by norm_num) hD
  have hD' : 1e-15 < toR q.d := lt_of_lt_of_le (by norm_num) hD
  have hx : ∀ i, 0 ≤ fracs q i := fun i => le_max_right _ _
  have At := hc.t
  have Ad := hc.d
  rw [et, fresh_t] at At
  rw [ed, fresh_d] at Ad
  obtain ⟨r00, r11, r10, r20⟩ := ap_ar hL hc
  have Ap' := ap_p' hL hc 2
  rw [et, ed] at Ap'
  obtain ⟨b0, b1, b2⟩ := ap_a0 hL hN (s := freshOf q) (fresh_n0i q) (D := toR q.d) (T := toR q.t) At hT hq.t_high Ad hD
    ⟨hq.x_fin, hq.x_rng, hq.x_big⟩
  have ex : xr (freshOf q).x = fracs q := rfl
  rw [ex] at b0 b1 b2
  obtain ⟨fs, fu, fcv, fdt, fp, fhg⟩ := props_fields q
  obtain ⟨fh, fg⟩ := fhg (eps_lt Ad hD)
  have S := b1.neg.sub r10
  rw [← entropy_sum hx hD' T0, ← entropyAbs_sum] at S
  have A := b0.add r00
  rw [← helmholtz_sum hx hD', ← helmholtzAbs_sum] at A
  have U := A.add (At.mul S)
  have P := Ap'.div Ad D0
  have ez : ∀ z : ℝ, toR q.d * 8.31451 * toR q.t * z / toR q.d = 8.31451 * toR q.t * z := fun z => by field_simp
  rw [ez, ez] at P
  have H := U.add P
  have G := A.add P
  have V := (b2.add r20).neg
  rw [← heatV_sum hx hD' T0, ← heatVAbs_sum] at V
  have W := (Ad.mul apR).add (Ad.mul r11)
  rw [← pressureT_sum T0, ← pressureTAbs_sum] at W
  refine ⟨?_, ?_, ?_, ?_, ?_, ?_⟩
  · rw [fs]; exact S.weak (by norm_num) (by norm_num) (by norm_num)
  · rw [fu]; exact U.weak (by norm_num) (by norm_num) (by norm_num)
  · rw [fh, fu, fp]; exact H.weak (by norm_num) (by norm_num) (by norm_num)
  · rw [fg, fp]; exact G.weak (by norm_num) (by norm_num) (by norm_num)
  · rw [fcv]; exact V.weak (by norm_num) (by norm_num) (by norm_num)
  · rw [fdt]; exact W.weak (by norm_num) (by norm_num) (by norm_num)

end Aga8.Detail
