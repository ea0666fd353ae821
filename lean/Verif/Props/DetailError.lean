import Verif.Lemmas.DetailErrDens
import Verif.Lemmas.DetailErrMethane
import Verif.Lemmas.DetailEval
import Verif.Lemmas.F64ApLib

/-! # C59: the rounding error of the DETAIL compression factor and pressure

These theorems are about IEEE-754 arithmetic, with any `exp`, `powf` and `powi` that are accurate in the sense of
`Spec/F64Accuracy`. They compare the f64 results with the AGA 8 equation of `Spec/Aga8Eos`, evaluated on real numbers. -/

set_option linter.unusedSectionVars false

namespace Aga8

open F64
open Detail (Pub setPub ErrDomain fracs)

attribute [local irreducible] Detail.pressureP Detail.propertiesP

variable [Libm]

/-- C59: with an accurate math library, on a new object with inputs in the stated range, `pressure` returns, sets `z` and gives
a pressure, both finite; `z` differs from the AGA 8 equation by at most 1e-9 of the sum of the absolute values of the terms of
the equation, and the pressure from `D R T Z` by at most `D R T` times as much. -/
theorem C59_detail_pressure_error (hL : LibmAccurate) (new0 : Detail Float) (hnew : Detail.new = .ok new0) (q : Pub Float)
    (hq : ErrDomain q) :
    ∃ s' p, (setPub new0 q).pressure = .ok (s', p) ∧ IsFinite s'.z ∧ IsFinite p ∧
      |toR s'.z - Eos.Z (fracs q) (toR q.d) (toR q.t)| ≤ 1e-9 * Eos.Zabs (fracs q) (toR q.d) (toR q.t) ∧
      |toR p - toR q.d * 8.31451 * toR q.t * Eos.Z (fracs q) (toR q.d) (toR q.t)|
        ≤ 1e-9 * (toR q.d * 8.31451 * toR q.t * Eos.Zabs (fracs q) (toR q.d) (toR q.t)) := by
  have e : new0 = Detail.newP := Except.ok.inj (hnew.symm.trans Detail.new_ok)
  subst e
  have hc := Detail.close_of_domain hL hq (fill 4 (fill 4 (f% 0.0)))
  obtain ⟨et, ed⟩ := Detail.refresh_td (Detail.freshOf q) (fill 4 (fill 4 (f% 0.0)))
  have hz := Detail.ap_z hL hc 0
  have hp := Detail.ap_p hL hc 0
  refine ⟨(Detail.pressureP (Detail.freshOf q)).1, (Detail.pressureP (Detail.freshOf q)).2, Detail.pressure_ok _, ?_⟩
  have vz : (Detail.pressureP (Detail.freshOf q)).1.z = _ := Detail.pressureP_z (Detail.freshOf q)
  have vp : (Detail.pressureP (Detail.freshOf q)).2 = _ := Detail.pressureP_snd (Detail.freshOf q)
  rw [Detail.ar_alpharP] at vz
  rw [et] at hz
  rw [et, ed] at hp
  rw [vz] at vp
  rw [vz, vp]
  exact ⟨hz.fin, hp.fin, Detail.ap_small hz (by norm_num), Detail.ap_small hp (by norm_num)⟩

/-- C59, `properties`: the same for the `z` and `p` it stores. -/
theorem C59_detail_properties_error (hL : LibmAccurate) (new0 : Detail Float) (hnew : Detail.new = .ok new0) (q : Pub Float)
    (hq : ErrDomain q) :
    ∃ s', (setPub new0 q).properties = .ok s' ∧ IsFinite s'.z ∧ IsFinite s'.p ∧
      |toR s'.z - Eos.Z (fracs q) (toR q.d) (toR q.t)| ≤ 1e-9 * Eos.Zabs (fracs q) (toR q.d) (toR q.t) ∧
      |toR s'.p - toR q.d * 8.31451 * toR q.t * Eos.Z (fracs q) (toR q.d) (toR q.t)|
        ≤ 1e-9 * (toR q.d * 8.31451 * toR q.t * Eos.Zabs (fracs q) (toR q.d) (toR q.t)) := by
  have e : new0 = Detail.newP := Except.ok.inj (hnew.symm.trans Detail.new_ok)
  subst e
  have hc := Detail.close_of_domain hL hq (fill 4 (fill 4 (f% 0.0)))
  obtain ⟨et, ed⟩ := Detail.refresh_td (Detail.freshOf q) (fill 4 (fill 4 (f% 0.0)))
  have hz := Detail.ap_z' hL hc 0
  have hp := Detail.ap_p' hL hc 0
  rw [et] at hz
  rw [et, ed] at hp
  have vz : (Detail.propertiesP (Detail.freshOf q)).z = _ := Detail.propertiesP_z (Detail.freshOf q)
  have vp : (Detail.propertiesP (Detail.freshOf q)).p = _ := Detail.propertiesP_p (Detail.freshOf q)
  rw [Detail.ar_alpharP] at vz
  rw [vz] at vp
  refine ⟨Detail.propertiesP (Detail.freshOf q), Detail.properties_ok _, ?_⟩
  rw [vz, vp]
  exact ⟨hz.fin, hp.fin, Detail.ap_small hz (by norm_num), Detail.ap_small hp (by norm_num)⟩

/-- C59, density derivative: `properties` stores a finite `dp_dd` that differs from `R T d(D Z)/dD` by at most 1e-9 of the sum of
the absolute values of its terms. -/
theorem C59_detail_dpdd_error (hL : LibmAccurate) (new0 : Detail Float) (hnew : Detail.new = .ok new0) (q : Pub Float)
    (hq : ErrDomain q) :
    ∃ s', (setPub new0 q).properties = .ok s' ∧ IsFinite s'.dp_dd ∧
      |toR s'.dp_dd - 8.31451 * toR q.t * Eos.dPdD (fracs q) (toR q.d) (toR q.t)|
        ≤ 1e-9 * (8.31451 * toR q.t * Eos.dPdDabs (fracs q) (toR q.d) (toR q.t)) := by
  have e : new0 = Detail.newP := Except.ok.inj (hnew.symm.trans Detail.new_ok)
  subst e
  have A := Detail.ap_dpdd hL hq
  refine ⟨Detail.propertiesP (Detail.freshOf q), Detail.properties_ok _, ?_⟩
  rw [Detail.propertiesP_dp_dd]
  exact ⟨A.fin, Detail.ap_small A (by norm_num)⟩

/-- C59, methane: at 184 K to 600 K and up to 10 mol/l, the compression factor that `pressure` computes for pure methane is
within 1.5e-8 of the AGA 8 equation. -/
theorem C59_detail_methane_error (hL : LibmAccurate) (new0 : Detail Float) (hnew : Detail.new = .ok new0) (q : Pub Float)
    (hx : ∀ i, IsFinite (aget q.x i) ∧ toR (aget q.x i) = if i = 0 then 1 else 0)
    (ht : IsFinite q.t) (ht1 : 184 ≤ toR q.t) (ht2 : toR q.t ≤ 600)
    (hd : IsFinite q.d) (hd1 : toR q.d = 0 ∨ 1e-4 ≤ toR q.d ∧ toR q.d ≤ 10) :
    ∃ s' p, (setPub new0 q).pressure = .ok (s', p) ∧
      |toR s'.z - Eos.Z (fun i => if i = 0 then 1 else 0) (toR q.d) (toR q.t)| ≤ 1.5e-8 := by
  have d0 : 0 ≤ toR q.d := by rcases hd1 with h | h <;> norm_num at h <;> linarith [h]
  have d10 : toR q.d ≤ 10 := by rcases hd1 with h | h <;> norm_num at h <;> linarith [h]
  have hf : fracs q = Detail.posPart Detail.mx := by
    funext i
    unfold fracs
    rw [(hx i).2, Detail.posPart_mx]
    split <;> simp
  have hf2 : (fun i => if i = 0 then 1 else 0) = fracs q := by
    funext i
    rw [hf, Detail.posPart_mx]
  have hr : Detail.mK ^ 3 * toR q.d ≤ 1 := by
    unfold Detail.mK
    nlinarith
  have hq : ErrDomain q := by
    refine ⟨ht, by linarith, by linarith, hd, hd1.imp id fun h => ⟨h.1, by linarith [h.2]⟩, ?_, fun i => (hx i).1, ?_, 0, ?_⟩
    · rw [hf, Detail.Kcubed_mx]; linarith
    · intro i
      rw [(hx i).2]
      split <;> norm_num
    · rw [(hx 0).2]; norm_num
  obtain ⟨s', p, h1, -, -, h2, -⟩ := C59_detail_pressure_error hL new0 hnew q hq
  refine ⟨s', p, h1, ?_⟩
  rw [hf2]
  have hz := Detail.Zabs_mx (T := toR q.t) (D := toR q.d) (by unfold Detail.mE; norm_num; linarith)
    (by unfold Detail.mE; norm_num; linarith) d0 hr
  rw [← hf] at hz
  norm_num at h2 ⊢
  linarith

/-! ## The hypotheses can be met -/

/-- There is an accurate library. -/
example : ∃ L : Libm, @LibmAccurate L := ⟨idealLibm, idealLibm_accurate⟩

namespace Detail

theorem chk300 : decChk true 0 10 ⟨300, 0⟩ = true := by decide +kernel
theorem chk5 : decChk true 0 10 ⟨5, 0⟩ = true := by decide +kernel

/-- Methane at 300 K and 5 mol/l. -/
def errMethane : Pub Float :=
  ⟨f% 300.0, f% 0.0, f% 5.0, f% 0.0, f% 0.0, f% 0.0, f% 0.0, f% 0.0, f% 0.0, f% 0.0, f% 0.0, f% 0.0, f% 0.0, f% 0.0,
    f% 0.0, f% 0.0, f% 0.0, f% 0.0, aset (fill 21 (f% 0.0)) 0 (f% 1.0)⟩

theorem errMethane_ok : (∀ i, IsFinite (aget errMethane.x i) ∧ toR (aget errMethane.x i) = if i = 0 then 1 else 0) ∧
    IsFinite errMethane.t ∧ toR errMethane.t = 300 ∧ IsFinite errMethane.d ∧ toR errMethane.d = 5 := by
  have h1 := (decChk_val chk300).2.1 rfl
  have h2 := (decChk_val chk5).2.1 rfl
  refine ⟨fun i => ?_, decChk_fin chk300, ?_, decChk_fin chk5, ?_⟩
  · have e : aget errMethane.x i = if 0 = i then f% 1.0 else f% 0.0 := by
      show aget (aset (fill 21 (f% 0.0)) 0 (f% 1.0)) i = _
      rw [aget_aset, aget_fill]
    rw [e]
    by_cases h : i = 0
    · subst h; exact ⟨fin1, toR1⟩
    · rw [if_neg (Ne.symm h), if_neg h]; exact ⟨fin0, toR0⟩
  · show toR (litF ⟨300, 0⟩) = 300
    rw [h1]; simp [decR]
  · show toR (litF ⟨5, 0⟩) = 5
    rw [h2]; simp [decR]

theorem errMethane_domain : ErrDomain errMethane := by
  obtain ⟨hx, ht, ht', hd, hd'⟩ := errMethane_ok
  have hf : fracs errMethane = posPart mx := by
    funext i
    unfold fracs
    rw [(hx i).2, posPart_mx]
    split <;> simp
  refine ⟨ht, by rw [ht']; norm_num, by rw [ht']; norm_num, hd, by rw [hd']; norm_num, ?_, fun i => (hx i).1, ?_, 0, ?_⟩
  · rw [hf, Kcubed_mx, hd']; unfold mK; norm_num
  · intro i
    rw [(hx i).2]
    split <;> norm_num
  · rw [(hx 0).2]; norm_num

end Detail

/-- Methane at 300 K and 5 mol/l is in the range, so its computed compression factor is within 1.5e-8 of the equation. -/
example (hL : LibmAccurate) (new0 : Detail Float) (hnew : Detail.new = .ok new0) :
    ErrDomain Detail.errMethane ∧ ∃ s' p, (setPub new0 Detail.errMethane).pressure = .ok (s', p) ∧
      |toR s'.z - Eos.Z (fun i => if i = 0 then 1 else 0) 5 300| ≤ 1.5e-8 := by
  obtain ⟨hx, ht, ht', hd, hd'⟩ := Detail.errMethane_ok
  refine ⟨Detail.errMethane_domain, ?_⟩
  have := C59_detail_methane_error hL new0 hnew Detail.errMethane hx ht (by rw [ht']; norm_num) (by rw [ht']; norm_num) hd
    (by rw [hd']; norm_num)
  rwa [ht', hd'] at this

end Aga8
