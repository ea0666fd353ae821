import Verif.Lemmas.GergErrEnergy
import Verif.Lemmas.GergErrPure2
import Verif.Props.GergError

/-! # C66: the rounding error of the GERG-2008 energies, entropy, heat capacity and `dp_dt`

These theorems are about IEEE-754 arithmetic, with any `exp`, `powf`, `powi` and `ln` that are accurate in the sense of
`Spec/F64Accuracy`. They compare the f64 results with the thermodynamic definitions of `Spec/GergEnergyError`, evaluated on
real numbers. -/

set_option linter.unusedSectionVars false

namespace Aga8

open F64
open Gerg (Pub setPub ErrDomain fracs)

attribute [local irreducible] Gerg.newP Gerg.pressureP Gerg.propertiesP

variable [Libm]

/-- C66, entropy and heat capacity: with an accurate math library, on a new object with inputs in the stated range and a
temperature of 50 K to 1000 K, `properties` stores an entropy, an isochoric heat capacity and a temperature derivative of the
pressure that are finite and differ from the exact ones by at most 1e-9 of the sizes of their terms. -/
theorem C66_gerg_entropy_error (hL : LibmAccurate) (hN : LnAccurate) (new0 : Gerg Float) (hnew : Gerg.new = .ok new0)
    (q : Pub Float) (hq : ErrDomain q) (hT1 : 50 ≤ toR q.t) (hT2 : toR q.t ≤ 1000) (hD : 1e-4 ≤ toR q.d) :
    ∃ s' p, (setPub new0 q).properties = .ok (s', p) ∧ IsFinite s'.s ∧ IsFinite s'.cv ∧ IsFinite s'.dp_dt ∧
      |toR s'.s - GergEos.entropy (fracs q) (toR q.d) (toR q.t)| ≤ 1e-9 * GergEos.entropyAbs (fracs q) (toR q.d) (toR q.t) ∧
      |toR s'.cv - GergEos.heatV (fracs q) (toR q.d) (toR q.t)| ≤ 1e-9 * GergEos.heatVAbs (fracs q) (toR q.d) (toR q.t) ∧
      |toR s'.dp_dt - GergEos.pressureT (fracs q) (toR q.d) (toR q.t)|
        ≤ 1e-9 * GergEos.pressureTAbs (fracs q) (toR q.d) (toR q.t) := by
  have e := Gerg.new_inj hnew
  subst e
  obtain ⟨A, -, -, -, B, C⟩ := Gerg.ap_genergy hL hN hq hT1 hT2 hD
  exact ⟨(Gerg.propertiesP (Gerg.freshOf q)).1, (Gerg.propertiesP (Gerg.freshOf q)).2,
    Gerg.properties_ok (Gerg.reachable_fresh q).idx, A.fin, B.fin, C.fin, Gerg.err_small A (by norm_num),
    Gerg.err_small B (by norm_num), Gerg.err_small C (by norm_num)⟩

/-- C66, energies: the same for the internal energy, the enthalpy and the Gibbs energy. -/
theorem C66_gerg_energy_error (hL : LibmAccurate) (hN : LnAccurate) (new0 : Gerg Float) (hnew : Gerg.new = .ok new0)
    (q : Pub Float) (hq : ErrDomain q) (hT1 : 50 ≤ toR q.t) (hT2 : toR q.t ≤ 1000) (hD : 1e-4 ≤ toR q.d) :
    ∃ s' p, (setPub new0 q).properties = .ok (s', p) ∧ IsFinite s'.u ∧ IsFinite s'.h ∧ IsFinite s'.g ∧
      |toR s'.u - GergEos.energy (fracs q) (toR q.d) (toR q.t)| ≤ 1e-9 * GergEos.energyAbs (fracs q) (toR q.d) (toR q.t) ∧
      |toR s'.h - GergEos.enthalpy (fracs q) (toR q.d) (toR q.t)|
        ≤ 1e-9 * GergEos.enthalpyAbs (fracs q) (toR q.d) (toR q.t) ∧
      |toR s'.g - GergEos.gibbs (fracs q) (toR q.d) (toR q.t)| ≤ 1e-9 * GergEos.gibbsAbs (fracs q) (toR q.d) (toR q.t) := by
  have e := Gerg.new_inj hnew
  subst e
  obtain ⟨-, A, B, C, -, -⟩ := Gerg.ap_genergy hL hN hq hT1 hT2 hD
  exact ⟨(Gerg.propertiesP (Gerg.freshOf q)).1, (Gerg.propertiesP (Gerg.freshOf q)).2,
    Gerg.properties_ok (Gerg.reachable_fresh q).idx, A.fin, B.fin, C.fin, Gerg.err_small A (by norm_num),
    Gerg.err_small B (by norm_num), Gerg.err_small C (by norm_num)⟩

/-- C66, pure fluids: above the reducing temperature (190.564 K for methane) and up to the reducing density (10.14 mol/l for
methane), the entropy and the isochoric heat capacity that `properties` computes for any of the 21 pure components are within
1.6e-5 J/(mol K) and 6.6e-6 J/(mol K) of the exact ones. -/
theorem C66_gerg_pure_error (hL : LibmAccurate) (hN : LnAccurate) (new0 : Gerg Float) (hnew : Gerg.new = .ok new0)
    (q : Pub Float) (k : Fin 22) (hk : 1 ≤ k.1)
    (hx : ∀ i : Fin 22, IsFinite (aget q.x i) ∧ toR (aget q.x i) = if i = k then 1 else 0)
    (ht : IsFinite q.t) (ht0 : 50 ≤ toR q.t) (ht1 : GergEos.val Gerg.Tab.GTIJ[k.1][k.1] ≤ toR q.t)
    (ht2 : toR q.t ≤ 100 * GergEos.val Gerg.Tab.GTIJ[k.1][k.1]) (ht3 : toR q.t ≤ 1000)
    (hd : IsFinite q.d) (hd1 : 1e-4 ≤ toR q.d) (hd2 : toR q.d ≤ 1000)
    (hd3 : toR q.d * GergEos.val Gerg.Tab.GVIJ[k.1][k.1] ≤ 1) :
    ∃ s' p, (setPub new0 q).properties = .ok (s', p) ∧
      |toR s'.s - GergEos.entropy (fun i => if i = k then 1 else 0) (toR q.d) (toR q.t)| ≤ 1.6e-5 ∧
      |toR s'.cv - GergEos.heatV (fun i => if i = k then 1 else 0) (toR q.d) (toR q.t)| ≤ 6.6e-6 := by
  have hf : fracs q = fun i => if i = k then 1 else 0 := by
    funext i
    unfold fracs
    rw [(hx i).2]
    split <;> simp
  have hT : GergEos.Tr (fracs q) = GergEos.val Gerg.Tab.GTIJ[k.1][k.1] := by
    rw [hf]; exact GergEos.reducing_single _ _ k hk
  have hV : GergEos.invRhoR (fracs q) = GergEos.val Gerg.Tab.GVIJ[k.1][k.1] := by
    rw [hf]; exact GergEos.reducing_single _ _ k hk
  have hTp : 0 < GergEos.val Gerg.Tab.GTIJ[k.1][k.1] := by linarith
  have hVp : 0 ≤ GergEos.val Gerg.Tab.GVIJ[k.1][k.1] := by
    rw [Gerg.val_eq]; exact (Gerg.tab2_pos (Gerg.GVIJ_pos k k hk (le_refl _))).le
  have d0 : 0 ≤ toR q.d := by norm_num at hd1; linarith
  have hq : ErrDomain q := by
    refine ⟨ht, by linarith, by linarith, by rw [hT]; exact ht2, by rw [hT]; linarith, hd, Or.inr ⟨hd1, hd2⟩,
      by rw [hV]; linarith, fun i _ => (hx i).1, ?_, k, hk, ?_⟩
    · intro i _
      rw [(hx i).2]
      split <;> norm_num
    · rw [(hx k).2, if_pos rfl]; norm_num
  obtain ⟨s', p, h1, -, -, -, h2, h3, -⟩ := C66_gerg_entropy_error hL hN new0 hnew q hq ht0 ht3 hd1
  refine ⟨s', p, h1, ?_⟩
  have a1 := GergEos.entropyAbs_single k hk (T := toR q.t) hd1 hd2 (by rw [← hf, hV]; exact hd3) (by rw [← hf, hV]; exact hVp)
    (by rw [← hf, hT]; exact hTp) (by rw [← hf, hT]; exact ht1) (by rw [← hf, hT]; unfold GergEos.val Gerg.decQ; push_cast; rfl) ht0 ht3
  have a2 := GergEos.heatVAbs_single k hk (T := toR q.t) d0 (by rw [← hf, hV]; exact hd3) (by rw [← hf, hV]; exact hVp)
    (by rw [← hf, hT]; exact hTp) (by rw [← hf, hT]; exact ht1)
  rw [← hf] at a1 a2 ⊢
  constructor
  · norm_num at h2 ⊢; linarith
  · norm_num at h3 ⊢; linarith

/-! ## The hypotheses can be met -/

/-- There is an accurate library. -/
example : ∃ L : Libm, @LibmAccurate L ∧ @LnAccurate L := ⟨idealLibm, idealLibm_accurate, idealLibm_ln⟩

/-- Methane at 300 K and 5 mol/l. -/
example (hL : LibmAccurate) (hN : LnAccurate) (new0 : Gerg Float) (hnew : Gerg.new = .ok new0) :
    ∃ s' p, (setPub new0 Gerg.errMethane).properties = .ok (s', p) ∧
      |toR s'.s - GergEos.entropy (fun i => if i = 1 then 1 else 0) 5 300| ≤ 1.6e-5 ∧
      |toR s'.cv - GergEos.heatV (fun i => if i = 1 then 1 else 0) 5 300| ≤ 6.6e-6 := by
  obtain ⟨hx, ht, ht', hd, hd'⟩ := Gerg.errMethane_ok
  have h1 := Gerg.methane_Tc
  have h2 := Gerg.methane_Vc
  have := C66_gerg_pure_error hL hN new0 hnew Gerg.errMethane 1 (by decide) hx ht (by rw [ht']; norm_num)
    (by rw [ht']; exact le_trans h1.2 (by norm_num))
    (by rw [ht']; exact le_trans (by norm_num) (mul_le_mul_of_nonneg_left h1.1 (by norm_num)))
    (by rw [ht']; norm_num) hd (by rw [hd']; norm_num) (by rw [hd']; norm_num)
    (by rw [hd']; exact le_trans (mul_le_mul_of_nonneg_left h2 (by norm_num)) (by norm_num))
  rwa [ht', hd'] at this

end Aga8
