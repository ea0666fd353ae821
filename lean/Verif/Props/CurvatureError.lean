import Verif.Lemmas.DetailErrCurv
import Verif.Lemmas.GergErrCurv
import Verif.Lemmas.GergErrPure3
import Verif.Props.DetailEnergyError
import Verif.Props.GergEnergyError

/-! # C73: the rounding error of the second derivatives of the pressure

These theorems are about IEEE-754 arithmetic, with any `exp`, `powf`, `powi` and `ln` that are accurate in the sense of
`Spec/F64Accuracy`. They compare the f64 results with the derivatives of `Spec/DetailCurvature` and `Spec/GergCurvature`,
taken on real numbers. -/

set_option linter.unusedSectionVars false

namespace Aga8

open F64

attribute [local irreducible] Detail.pressureP Detail.propertiesP Gerg.newP Gerg.pressureP Gerg.propertiesP

variable [Libm]

/-- C73, DETAIL: with an accurate math library, on a new object with inputs in the stated range, `properties` stores a second
density derivative of the pressure that is finite and differs from the exact one by at most 1e-9 of the size of its terms. -/
theorem C73_detail_curvature_error (hL : LibmAccurate) (new0 : Detail Float) (hnew : Detail.new = .ok new0)
    (q : Detail.Pub Float) (hq : Detail.ErrDomain q) (hD : 1e-4 ≤ toR q.d) :
    ∃ s', (Detail.setPub new0 q).properties = .ok s' ∧ IsFinite s'.d2p_dd2 ∧
      |toR s'.d2p_dd2 - Eos.pressureDD (Detail.fracs q) (toR q.d) (toR q.t)|
        ≤ 1e-9 * Eos.pressureDDAbs (Detail.fracs q) (toR q.d) (toR q.t) := by
  have e : new0 = Detail.newP := Except.ok.inj (hnew.symm.trans Detail.new_ok)
  subst e
  have A := Detail.ap_dcurv hL hq hD
  exact ⟨Detail.propertiesP (Detail.freshOf q), Detail.properties_ok _, A.fin, Detail.ap_small A (by norm_num)⟩

/-- C73, GERG-2008: with an accurate math library, on a new object with inputs in the stated range and a temperature of at
least 50 K, `properties` stores second derivatives of the pressure, by density twice and by temperature and density, that
are finite and differ from the exact ones by at most 1e-9 of the sizes of their terms. -/
theorem C73_gerg_curvature_error (hL : LibmAccurate) (hN : LnAccurate) (new0 : Gerg Float) (hnew : Gerg.new = .ok new0)
    (q : Gerg.Pub Float) (hq : Gerg.ErrDomain q) (hT : 50 ≤ toR q.t) (hD : 1e-4 ≤ toR q.d) :
    ∃ s' p, (Gerg.setPub new0 q).properties = .ok (s', p) ∧ IsFinite s'.d2p_dd2 ∧ IsFinite s'.d2p_dtd ∧
      |toR s'.d2p_dd2 - GergEos.pressureDD (Gerg.fracs q) (toR q.d) (toR q.t)|
        ≤ 1e-9 * GergEos.pressureDDAbs (Gerg.fracs q) (toR q.d) (toR q.t) ∧
      |toR s'.d2p_dtd - GergEos.pressureTD (Gerg.fracs q) (toR q.d) (toR q.t)|
        ≤ 1e-9 * GergEos.pressureTDAbs (Gerg.fracs q) (toR q.d) (toR q.t) := by
  have e := Gerg.new_inj hnew
  subst e
  obtain ⟨A, B⟩ := Gerg.ap_gcurv hL hN hq hT hD
  exact ⟨(Gerg.propertiesP (Gerg.freshOf q)).1, (Gerg.propertiesP (Gerg.freshOf q)).2,
    Gerg.properties_ok (Gerg.reachable_fresh q).idx, A.fin, B.fin, Gerg.err_small A (by norm_num),
    Gerg.err_small B (by norm_num)⟩

/-- C73, pure fluids: above the reducing temperature (190.564 K for methane) and up to the reducing density (10.14 mol/l for
methane), the second derivatives that GERG-2008 `properties` computes for any of the 21 pure components are within
`2.61e-5 T / D_c` (1e-3 kPa/(mol/l)² for methane at 300 K) and 3.36e-5 kPa/(mol/l)/K of the exact ones. -/
theorem C73_gerg_pure_error (hL : LibmAccurate) (hN : LnAccurate) (new0 : Gerg Float) (hnew : Gerg.new = .ok new0)
    (q : Gerg.Pub Float) (k : Fin 22) (hk : 1 ≤ k.1)
    (hx : ∀ i : Fin 22, IsFinite (aget q.x i) ∧ toR (aget q.x i) = if i = k then 1 else 0)
    (ht : IsFinite q.t) (ht0 : 50 ≤ toR q.t) (ht1 : GergEos.val Gerg.Tab.GTIJ[k.1][k.1] ≤ toR q.t)
    (ht2 : toR q.t ≤ 100 * GergEos.val Gerg.Tab.GTIJ[k.1][k.1]) (ht3 : toR q.t ≤ 1000)
    (hd : IsFinite q.d) (hd1 : 1e-4 ≤ toR q.d) (hd2 : toR q.d ≤ 1000)
    (hd3 : toR q.d * GergEos.val Gerg.Tab.GVIJ[k.1][k.1] ≤ 1) :
    ∃ s' p, (Gerg.setPub new0 q).properties = .ok (s', p) ∧
      |toR s'.d2p_dd2 - GergEos.pressureDD (fun i => if i = k then 1 else 0) (toR q.d) (toR q.t)|
        ≤ 2.61e-5 * toR q.t * GergEos.val Gerg.Tab.GVIJ[k.1][k.1] ∧
      |toR s'.d2p_dtd - GergEos.pressureTD (fun i => if i = k then 1 else 0) (toR q.d) (toR q.t)| ≤ 3.36e-5 := by
  have hf : Gerg.fracs q = fun i => if i = k then 1 else 0 := by
    funext i
    unfold Gerg.fracs
    rw [(hx i).2]
    split <;> simp
  have hT : GergEos.Tr (Gerg.fracs q) = GergEos.val Gerg.Tab.GTIJ[k.1][k.1] := by
    rw [hf]; exact GergEos.reducing_single _ _ k hk
  have hV : GergEos.invRhoR (Gerg.fracs q) = GergEos.val Gerg.Tab.GVIJ[k.1][k.1] := by
    rw [hf]; exact GergEos.reducing_single _ _ k hk
  have hTp : 0 < GergEos.val Gerg.Tab.GTIJ[k.1][k.1] := by linarith
  have hVp : 0 ≤ GergEos.val Gerg.Tab.GVIJ[k.1][k.1] := by
    rw [Gerg.val_eq]; exact (Gerg.tab2_pos (Gerg.GVIJ_pos k k hk (le_refl _))).le
  have d0 : 0 < toR q.d := lt_of_lt_of_le (by norm_num) hd1
  have hq : Gerg.ErrDomain q := by
    refine ⟨ht, by linarith, by linarith, by rw [hT]; exact ht2, by rw [hT]; linarith, hd, Or.inr ⟨hd1, hd2⟩,
      by rw [hV]; linarith, fun i _ => (hx i).1, ?_, k, hk, ?_⟩
    · intro i _
      rw [(hx i).2]
      split <;> norm_num
    · rw [(hx k).2, if_pos rfl]; norm_num
  obtain ⟨s', p, h1, -, -, h2, h3⟩ := C73_gerg_curvature_error hL hN new0 hnew q hq ht0 hd1
  refine ⟨s', p, h1, ?_⟩
  obtain ⟨a1, a2⟩ := GergEos.curvAbs_single k hk (T := toR q.t) d0 (by rw [← hf, hV]; exact hd3) (by rw [← hf, hV]; exact hVp)
    (by rw [← hf, hT]; exact hTp) (by rw [← hf, hT]; exact ht1)
  rw [← hf] at a1 a2 ⊢
  rw [hV] at a1
  constructor
  · refine h2.trans ((mul_le_mul_of_nonneg_left a1 (by norm_num)).trans (le_of_eq ?_))
    norm_num only
    ring
  · norm_num at h3 ⊢; linarith

/-! ## The hypotheses can be met -/

/-- There is an accurate library. -/
example : ∃ L : Libm, @LibmAccurate L ∧ @LnAccurate L := ⟨idealLibm, idealLibm_accurate, idealLibm_ln⟩

/-- Methane at 300 K and 5 mol/l with DETAIL. -/
example (hL : LibmAccurate) (new0 : Detail Float) (hnew : Detail.new = .ok new0) :
    ∃ s', (Detail.setPub new0 Detail.errMethane).properties = .ok s' ∧ IsFinite s'.d2p_dd2 ∧
      |toR s'.d2p_dd2 - Eos.pressureDD (Detail.fracs Detail.errMethane) 5 300|
        ≤ 1e-9 * Eos.pressureDDAbs (Detail.fracs Detail.errMethane) 5 300 := by
  obtain ⟨-, -, ht', -, hd'⟩ := Detail.errMethane_ok
  have := C73_detail_curvature_error hL new0 hnew _ Detail.errMethane_domain (by rw [hd']; norm_num)
  rw [ht', hd'] at this
  exact this

/-- Methane at 300 K and 5 mol/l with GERG-2008. -/
example (hL : LibmAccurate) (hN : LnAccurate) (new0 : Gerg Float) (hnew : Gerg.new = .ok new0) :
    ∃ s' p, (Gerg.setPub new0 Gerg.errMethane).properties = .ok (s', p) ∧
      |toR s'.d2p_dd2 - GergEos.pressureDD (fun i => if i = 1 then 1 else 0) 5 300| ≤ 1e-3 ∧
      |toR s'.d2p_dtd - GergEos.pressureTD (fun i => if i = 1 then 1 else 0) 5 300| ≤ 3.36e-5 := by
  obtain ⟨hx, ht, ht', hd, hd'⟩ := Gerg.errMethane_ok
  have h1 := Gerg.methane_Tc
  have h2 := Gerg.methane_Vc
  obtain ⟨s', p, e, b1, b2⟩ := C73_gerg_pure_error hL hN new0 hnew Gerg.errMethane 1 (by decide) hx ht (by rw [ht']; norm_num)
    (by rw [ht']; exact le_trans h1.2 (by norm_num))
    (by rw [ht']; have := h1.1; norm_num at this ⊢; linarith) (by rw [ht']; norm_num) hd (by rw [hd']; norm_num)
    (by rw [hd']; norm_num) (by rw [hd']; norm_num at h2 ⊢; linarith)
  rw [ht', hd'] at b1 b2
  refine ⟨s', p, e, b1.trans ?_, b2⟩
  norm_num at h2 ⊢
  linarith

end Aga8
