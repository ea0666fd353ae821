import Verif.Lemmas.DetailErrEnergy
import Verif.Lemmas.DetailErrMethane2
import Verif.Props.DetailError

/-! # C65: the rounding error of the DETAIL energies, entropy, heat capacity and `dp_dt`

These theorems are about IEEE-754 arithmetic, with any `exp`, `powf`, `powi` and `ln` that are accurate in the sense of
`Spec/F64Accuracy`. They compare the f64 results with the thermodynamic definitions of `Spec/DetailEnergyError`, evaluated on
real numbers. -/

set_option linter.unusedSectionVars false

namespace Aga8

open F64
open Detail (Pub setPub ErrDomain fracs)

attribute [local irreducible] Detail.pressureP Detail.propertiesP

variable [Libm]

/-- C65, entropy and heat capacity: with an accurate math library, on a new object with inputs in the stated range and a
temperature of at least 50 K, `properties` stores an entropy, an isochoric heat capacity and a temperature derivative of the
pressure that are finite and differ from the exact ones by at most 1e-9 of the sizes of their terms. -/
theorem C65_detail_entropy_error (hL : LibmAccurate) (hN : LnAccurate) (new0 : Detail Float) (hnew : Detail.new = .ok new0)
    (q : Pub Float) (hq : ErrDomain q) (hT : 50 ≤ toR q.t) (hD : 1e-4 ≤ toR q.d) :
    ∃ s', (setPub new0 q).properties = .ok s' ∧ IsFinite s'.s ∧ IsFinite s'.cv ∧ IsFinite s'.dp_dt ∧
      |toR s'.s - Eos.entropy (fracs q) (toR q.d) (toR q.t)| ≤ 1e-9 * Eos.entropyAbs (fracs q) (toR q.d) (toR q.t) ∧
      |toR s'.cv - Eos.heatV (fracs q) (toR q.d) (toR q.t)| ≤ 1e-9 * Eos.heatVAbs (fracs q) (toR q.d) (toR q.t) ∧
      |toR s'.dp_dt - Eos.pressureT (fracs q) (toR q.d) (toR q.t)|
        ≤ 1e-9 * Eos.pressureTAbs (fracs q) (toR q.d) (toR q.t) := by
  have e : new0 = Detail.newP := Except.ok.inj (hnew.symm.trans Detail.new_ok)
  subst e
  obtain ⟨A, -, -, -, B, C⟩ := Detail.ap_energy hL hN hq hT hD
  exact ⟨Detail.propertiesP (Detail.freshOf q), Detail.properties_ok _, A.fin, B.fin, C.fin, Detail.ap_small A (by norm_num),
    Detail.ap_small B (by norm_num), Detail.ap_small C (by norm_num)⟩

/-- C65, energies: the same for the internal energy, the enthalpy and the Gibbs energy. -/
theorem C65_detail_energy_error (hL : LibmAccurate) (hN : LnAccurate) (new0 : Detail Float) (hnew : Detail.new = .ok new0)
    (q : Pub Float) (hq : ErrDomain q) (hT : 50 ≤ toR q.t) (hD : 1e-4 ≤ toR q.d) :
    ∃ s', (setPub new0 q).properties = .ok s' ∧ IsFinite s'.u ∧ IsFinite s'.h ∧ IsFinite s'.g ∧
      |toR s'.u - Eos.energy (fracs q) (toR q.d) (toR q.t)| ≤ 1e-9 * Eos.energyAbs (fracs q) (toR q.d) (toR q.t) ∧
      |toR s'.h - Eos.enthalpy (fracs q) (toR q.d) (toR q.t)| ≤ 1e-9 * Eos.enthalpyAbs (fracs q) (toR q.d) (toR q.t) ∧
      |toR s'.g - Eos.gibbs (fracs q) (toR q.d) (toR q.t)| ≤ 1e-9 * Eos.gibbsAbs (fracs q) (toR q.d) (toR q.t) := by
  have e : new0 = Detail.newP := Except.ok.inj (hnew.symm.trans Detail.new_ok)
  subst e
  obtain ⟨-, A, B, C, -, -⟩ := Detail.ap_energy hL hN hq hT hD
  exact ⟨Detail.propertiesP (Detail.freshOf q), Detail.properties_ok _, A.fin, B.fin, C.fin, Detail.ap_small A (by norm_num),
    Detail.ap_small B (by norm_num), Detail.ap_small C (by norm_num)⟩

/-- C65, methane: at 184 K to 600 K and 1e-4 mol/l to 10 mol/l, the entropy and the isochoric heat capacity that `properties`
computes for pure methane are within 2.9e-6 J/(mol K) of the exact ones. -/
theorem C65_detail_methane_error (hL : LibmAccurate) (hN : LnAccurate) (new0 : Detail Float) (hnew : Detail.new = .ok new0)
    (q : Pub Float) (hx : ∀ i, IsFinite (aget q.x i) ∧ toR (aget q.x i) = if i = 0 then 1 else 0)
    (ht : IsFinite q.t) (ht1 : 184 ≤ toR q.t) (ht2 : toR q.t ≤ 600)
    (hd : IsFinite q.d) (hd1 : 1e-4 ≤ toR q.d) (hd2 : toR q.d ≤ 10) :
    ∃ s', (setPub new0 q).properties = .ok s' ∧
      |toR s'.s - Eos.entropy (fun i => if i = 0 then 1 else 0) (toR q.d) (toR q.t)| ≤ 2.9e-6 ∧
      |toR s'.cv - Eos.heatV (fun i => if i = 0 then 1 else 0) (toR q.d) (toR q.t)| ≤ 1.7e-6 := by
  have d0 : 0 ≤ toR q.d := by norm_num at hd1; linarith
  have hf : fracs q = Detail.posPart Detail.mx := by
    funext i
    unfold fracs
    rw [(hx i).2, Detail.posPart_mx]
    split <;> simp
  have hf2 : (fun i => if i = 0 then 1 else 0) = fracs q := by
    funext i
    rw [hf, Detail.posPart_mx]
  have hr : Detail.mK ^ 3 * toR q.d ≤ 1 := by
    unfold Detail.mK
    nlinarith
  have hq : ErrDomain q := by
    refine ⟨ht, by linarith, by linarith, hd, Or.inr ⟨hd1, by linarith⟩, ?_, fun i => (hx i).1, ?_, 0, ?_⟩
    · rw [hf, Detail.Kcubed_mx]; linarith
    · intro i
      rw [(hx i).2]
      split <;> norm_num
    · rw [(hx 0).2]; norm_num
  obtain ⟨s', h1, -, -, -, h2, h3, -⟩ := C65_detail_entropy_error hL hN new0 hnew q hq (by linarith) hd1
  have a1 : 1.21 * Detail.mE ≤ toR q.t := by unfold Detail.mE; norm_num; linarith
  have a2 : toR q.t ≤ 4 * Detail.mE := by unfold Detail.mE; norm_num; linarith
  have b1 := Detail.entropyAbs_mx a1 a2 hd1 hd2 hr
  have b2 := Detail.heatVAbs_mx a1 a2 d0 hr
  rw [← hf] at b1 b2
  refine ⟨s', h1, ?_, ?_⟩ <;> rw [hf2]
  · norm_num at h2 ⊢; linarith
  · norm_num at h3 ⊢; linarith

/-! ## The hypotheses can be met -/

/-- There is an accurate library. -/
example : ∃ L : Libm, @LibmAccurate L ∧ @LnAccurate L := ⟨idealLibm, idealLibm_accurate, idealLibm_ln⟩

/-- Methane at 300 K and 5 mol/l. -/
example (hL : LibmAccurate) (hN : LnAccurate) (new0 : Detail Float) (hnew : Detail.new = .ok new0) :
    ErrDomain Detail.errMethane ∧ ∃ s', (setPub new0 Detail.errMethane).properties = .ok s' ∧
      |toR s'.s - Eos.entropy (fun i => if i = 0 then 1 else 0) 5 300| ≤ 2.9e-6 := by
  obtain ⟨hx, ht, ht', hd, hd'⟩ := Detail.errMethane_ok
  refine ⟨Detail.errMethane_domain, ?_⟩
  obtain ⟨s', h, h1, -⟩ := C65_detail_methane_error hL hN new0 hnew Detail.errMethane hx ht (by rw [ht']; norm_num)
    (by rw [ht']; norm_num) hd (by rw [hd']; norm_num) (by rw [hd']; norm_num)
  rw [ht', hd'] at h1
  exact ⟨s', h, h1⟩

end Aga8
