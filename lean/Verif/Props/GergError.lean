import Verif.Lemmas.GergErrFresh
import Verif.Lemmas.GergErrPure
import Verif.Lemmas.GergErrDens
import Verif.Lemmas.GergEval
import Verif.Lemmas.F64ApLib
import Verif.Lemmas.DetailErrAr

/-! # C60: the rounding error of the GERG-2008 compression factor, pressure and density derivative

These theorems are about IEEE-754 arithmetic, with any `exp`, `powf`, `powi` and `ln` that are accurate in the sense of
`Spec/F64Accuracy`. They compare the f64 results with the GERG-2008 equation of `Spec/GergEos`, evaluated on real
numbers. -/

set_option linter.unusedSectionVars false

namespace Aga8

open F64
open Gerg (Pub setPub ErrDomain fracs)

attribute [local irreducible] Gerg.newP Gerg.pressureP Gerg.propertiesP

variable [Libm]

/-- C60: with an accurate math library, on a new object with inputs in the stated range, `pressure` returns, sets `z` and gives
a pressure, both finite; `z` differs from the GERG-2008 equation by at most 1e-9 of the sum of the absolute values of the terms
of the equation, and the pressure from `D R T Z` by at most `D R T` times as much. -/
theorem C60_gerg_pressure_error (hL : LibmAccurate) (hN : LnAccurate) (new0 : Gerg Float) (hnew : Gerg.new = .ok new0)
    (q : Pub Float) (hq : ErrDomain q) :
    ∃ s' p, (setPub new0 q).pressure = .ok (s', p) ∧ IsFinite s'.z ∧ IsFinite p ∧
      |toR s'.z - GergEos.Z (fracs q) (toR q.d) (toR q.t)| ≤ 1e-9 * GergEos.Zabs (fracs q) (toR q.d) (toR q.t) ∧
      |toR p - toR q.d * 8.314472 * toR q.t * GergEos.Z (fracs q) (toR q.d) (toR q.t)|
        ≤ 1e-9 * (toR q.d * 8.314472 * toR q.t * GergEos.Zabs (fracs q) (toR q.d) (toR q.t)) := by
  have e := Gerg.new_inj hnew
  subst e
  have hz := Gerg.ap_z hL hN hq 0
  have hp := ((((Gerg.ap_d hq).mul Gerg.apRG).mul (Gerg.ap_t hq)).mul hz).weak (k' := 3480020) (l' := 40) (h' := 300)
    (by norm_num) (by norm_num) (by norm_num)
  refine ⟨(Gerg.pressureP (Gerg.freshOf q)).1, (Gerg.pressureP (Gerg.freshOf q)).2, Gerg.pressure_ok (Gerg.reachable_fresh q).idx, ?_⟩
  have vz : (Gerg.pressureP (Gerg.freshOf q)).1.z = _ := Gerg.pressureP_z (Gerg.freshOf q)
  have vp : (Gerg.pressureP (Gerg.freshOf q)).2 = _ := Gerg.pressureP_snd (Gerg.freshOf q)
  rw [vz] at vp
  rw [vz, vp]
  exact ⟨hz.fin, hp.fin, Gerg.err_small hz (by norm_num), Gerg.err_small hp (by norm_num)⟩

/-- C60, `properties`: the same for the `z` it stores and the pressure it returns; and its `dp_dd` differs from the density
derivative of `D R T Z` by at most 1e-9 of the sum of the absolute values of its terms. -/
theorem C60_gerg_properties_error (hL : LibmAccurate) (hN : LnAccurate) (new0 : Gerg Float) (hnew : Gerg.new = .ok new0)
    (q : Pub Float) (hq : ErrDomain q) :
    ∃ s' p, (setPub new0 q).properties = .ok (s', p) ∧ IsFinite s'.z ∧ IsFinite p ∧ IsFinite s'.dp_dd ∧
      |toR s'.z - GergEos.Z (fracs q) (toR q.d) (toR q.t)| ≤ 1e-9 * GergEos.Zabs (fracs q) (toR q.d) (toR q.t) ∧
      |toR p - toR q.d * 8.314472 * toR q.t * GergEos.Z (fracs q) (toR q.d) (toR q.t)|
        ≤ 1e-9 * (toR q.d * 8.314472 * toR q.t * GergEos.Zabs (fracs q) (toR q.d) (toR q.t)) ∧
      |toR s'.dp_dd - 8.314472 * toR q.t * GergEos.dPdD (fracs q) (toR q.d) (toR q.t)|
        ≤ 1e-9 * (8.314472 * toR q.t * GergEos.dPdDabs (fracs q) (toR q.d) (toR q.t)) := by
  have e := Gerg.new_inj hnew
  subst e
  have hz := Gerg.ap_z hL hN hq 0
  have hd := Gerg.ap_dp hL hN hq 0
  have hp := (((Gerg.ap_d hq).mul (Gerg.apRG.mul (Gerg.ap_t hq))).mul hz).weak (k' := 3480020) (l' := 40) (h' := 300)
    (by norm_num) (by norm_num) (by norm_num)
  have hdd := ((Gerg.apRG.mul (Gerg.ap_t hq)).mul hd).weak (k' := 3480020) (l' := 40) (h' := 300)
    (by norm_num) (by norm_num) (by norm_num)
  rw [← mul_assoc (toR q.d)] at hp
  refine ⟨(Gerg.propertiesP (Gerg.freshOf q)).1, (Gerg.propertiesP (Gerg.freshOf q)).2,
    Gerg.properties_ok (Gerg.reachable_fresh q).idx, ?_⟩
  have vz : (Gerg.propertiesP (Gerg.freshOf q)).1.z = _ := Gerg.propertiesP_z (Gerg.freshOf q)
  have vp : (Gerg.propertiesP (Gerg.freshOf q)).2 = _ := Gerg.propertiesP_snd (Gerg.freshOf q)
  have vd : (Gerg.propertiesP (Gerg.freshOf q)).1.dp_dd = _ := Gerg.propertiesP_dp_dd (Gerg.freshOf q)
  rw [Gerg.pressureP_z] at vz
  rw [Gerg.pressureP_save] at vd
  rw [vz] at vp
  rw [vz, vp, vd]
  exact ⟨hz.fin, hp.fin, hdd.fin, Gerg.err_small hz (by norm_num), Gerg.err_small hp (by norm_num),
    Gerg.err_small hdd (by norm_num)⟩

/-- C60, pure fluids: above the reducing temperature (190.564 K for methane) and up to the reducing density (10.14 mol/l for
methane), the compression factor that `pressure` computes for a pure component is within 2e-8 of the GERG-2008 equation. -/
theorem C60_gerg_pure_error (hL : LibmAccurate) (hN : LnAccurate) (new0 : Gerg Float) (hnew : Gerg.new = .ok new0)
    (q : Pub Float) (k : Fin 22) (hk : 1 ≤ k.1)
    (hx : ∀ i : Fin 22, IsFinite (aget q.x i) ∧ toR (aget q.x i) = if i = k then 1 else 0)
    (ht : IsFinite q.t) (ht0 : 1 ≤ toR q.t) (ht1 : GergEos.val Gerg.Tab.GTIJ[k.1][k.1] ≤ toR q.t)
    (ht2 : toR q.t ≤ 10 * GergEos.val Gerg.Tab.GTIJ[k.1][k.1]) (ht3 : toR q.t ≤ 10000)
    (hd : IsFinite q.d) (hd1 : toR q.d = 0 ∨ 1e-4 ≤ toR q.d ∧ toR q.d ≤ 1000)
    (hd2 : toR q.d * GergEos.val Gerg.Tab.GVIJ[k.1][k.1] ≤ 1) :
    ∃ s' p, (setPub new0 q).pressure = .ok (s', p) ∧
      |toR s'.z - GergEos.Z (fun i => if i = k then 1 else 0) (toR q.d) (toR q.t)| ≤ 2e-8 := by
  have hf : fracs q = fun i => if i = k then 1 else 0 := by
    funext i
    unfold fracs
    rw [(hx i).2]
    split <;> simp
  have hT : GergEos.Tr (fracs q) = GergEos.val Gerg.Tab.GTIJ[k.1][k.1] := by
    rw [hf]; exact GergEos.reducing_single _ _ k hk
  have hV : GergEos.invRhoR (fracs q) = GergEos.val Gerg.Tab.GVIJ[k.1][k.1] := by
    rw [hf]; exact GergEos.reducing_single _ _ k hk
  have hTp : 0 < GergEos.val Gerg.Tab.GTIJ[k.1][k.1] := by linarith
  have hVp : 0 ≤ GergEos.val Gerg.Tab.GVIJ[k.1][k.1] := by
    rw [Gerg.val_eq]; exact (Gerg.tab2_pos (Gerg.GVIJ_pos k k hk (le_refl _))).le
  have d0 : 0 ≤ toR q.d := by rcases hd1 with h | h <;> norm_num at h <;> linarith [h]
  have hq : ErrDomain q := by
    refine ⟨ht, ht0, ht3, by rw [hT]; linarith, by rw [hT]; linarith, hd, hd1, by rw [hV]; linarith,
      fun i _ => (hx i).1, ?_, k, hk, ?_⟩
    · intro i _
      rw [(hx i).2]
      split <;> norm_num
    · rw [(hx k).2, if_pos rfl]; norm_num
  obtain ⟨s', p, h1, -, -, h2, -⟩ := C60_gerg_pressure_error hL hN new0 hnew q hq
  refine ⟨s', p, h1, ?_⟩
  rw [← hf]
  have hz := GergEos.Zabs_single k hk (T := toR q.t) d0 (by rw [← hf, hV]; exact hd2) (by rw [← hf, hV]; exact hVp)
    (by rw [← hf, hT]; exact hTp) (by rw [← hf, hT]; exact ht1)
  rw [← hf] at hz
  norm_num at h2 ⊢
  linarith

/-! ## The hypotheses can be met -/

/-- There is an accurate library. -/
example : ∃ L : Libm, @LibmAccurate L ∧ @LnAccurate L := ⟨idealLibm, idealLibm_accurate, idealLibm_ln⟩

namespace Gerg

theorem chk300 : decChk true 0 10 ⟨300, 0⟩ = true := by decide +kernel
theorem chk5 : decChk true 0 10 ⟨5, 0⟩ = true := by decide +kernel

/-- Methane at 300 K and 5 mol/l. -/
def errMethane : Pub Float :=
  ⟨f% 300.0, f% 0.0, f% 5.0, f% 0.0, f% 0.0, f% 0.0, f% 0.0, f% 0.0, f% 0.0, f% 0.0, f% 0.0, f% 0.0, f% 0.0, f% 0.0,
    f% 0.0, f% 0.0, f% 0.0, f% 0.0, aset (fill 22 (f% 0.0)) 1 (f% 1.0)⟩

theorem errMethane_ok : (∀ i, IsFinite (aget errMethane.x i) ∧ toR (aget errMethane.x i) = if i = 1 then 1 else 0) ∧
    IsFinite errMethane.t ∧ toR errMethane.t = 300 ∧ IsFinite errMethane.d ∧ toR errMethane.d = 5 := by
  have h1 := (decChk_val chk300).2.1 rfl
  have h2 := (decChk_val chk5).2.1 rfl
  refine ⟨fun i => ?_, decChk_fin chk300, ?_, decChk_fin chk5, ?_⟩
  · have e : aget errMethane.x i = if 1 = i then f% 1.0 else f% 0.0 := by
      show aget (aset (fill 22 (f% 0.0)) 1 (f% 1.0)) i = _
      rw [aget_aset, aget_fill]
    rw [e]
    by_cases h : i = 1
    · subst h; exact ⟨fin1, toR1⟩
    · rw [if_neg (Ne.symm h), if_neg h]; exact ⟨fin0, toR0⟩
  · show toR (litF ⟨300, 0⟩) = 300
    rw [h1]; simp [decR]
  · show toR (litF ⟨5, 0⟩) = 5
    rw [h2]; simp [decR]

theorem methane_Tc : 190 ≤ GergEos.val Tab.GTIJ[1][1] ∧ GergEos.val Tab.GTIJ[1][1] ≤ 191 := by
  unfold GergEos.val
  simp [Tab.GTIJ]
  norm_num

theorem methane_Vc : GergEos.val Tab.GVIJ[1][1] ≤ 1 / 10 := by
  unfold GergEos.val
  simp [Tab.GVIJ]
  norm_num

end Gerg

/-- Methane at 300 K and 5 mol/l meets the hypotheses, so its computed compression factor is within 2e-8 of the equation. -/
example (hL : LibmAccurate) (hN : LnAccurate) (new0 : Gerg Float) (hnew : Gerg.new = .ok new0) :
    ∃ s' p, (setPub new0 Gerg.errMethane).pressure = .ok (s', p) ∧
      |toR s'.z - GergEos.Z (fun i => if i = 1 then 1 else 0) 5 300| ≤ 2e-8 := by
  obtain ⟨hx, ht, ht', hd, hd'⟩ := Gerg.errMethane_ok
  have h1 := Gerg.methane_Tc
  have h2 := Gerg.methane_Vc
  have := C60_gerg_pure_error hL hN new0 hnew Gerg.errMethane 1 (by decide) hx ht (by rw [ht']; norm_num)
    (by rw [ht']; exact le_trans h1.2 (by norm_num)) (by rw [ht']; exact le_trans (by norm_num) (mul_le_mul_of_nonneg_left h1.1 (by norm_num)))
    (by rw [ht']; norm_num) hd (by rw [hd']; norm_num)
    (by rw [hd']; exact le_trans (mul_le_mul_of_nonneg_left h2 (by norm_num)) (by norm_num))
  rwa [ht', hd'] at this

end Aga8
