import Verif.Lemmas.IdealAgree
import Verif.Props.DetailReal
import Verif.Props.GergReal

/-! # The two models describe the same ideal gas (C56), exact arithmetic -/

namespace Aga8

open Finset Real

attribute [local irreducible] Gerg.newP Gerg.pressureP Gerg.propertiesP Gerg.densityP Detail.densityP Detail.pressureP Detail.propertiesP

namespace Detail

/-- `cv` and `u` of DETAIL at zero density, for any history. -/
theorem ideal_zero {s : Detail ℝ} (hs : params s = params (newP : Detail ℝ)) (hd : s.d = 0) (hT : s.t ≠ 0) :
    (propertiesP s).cv = RDETAIL * ∑ i, (if 0 < aget s.x i then aget s.x i * ((decQ (aget2 n0iD i 2) : ℝ) - 1
      + H2 (params (newP : Detail ℝ)) i s.t) else 0) ∧
    (propertiesP s).u = RDETAIL * ∑ i, (if 0 < aget s.x i then aget s.x i * ((decQ (aget2 n0iD i 1) : ℝ)
      + s.t * ((decQ (aget2 n0iD i 2) : ℝ) - 1
        + (H0 (params (newP : Detail ℝ)) i s.t - H1 (params (newP : Detail ℝ)) i s.t))) else 0) := by
  have e1 : ∀ i, aget2 (params (newP : Detail ℝ)).n0i i 1 = (decQ (aget2 n0iD i 1) : ℝ) := fun i => by
    show aget2 (newP : Detail ℝ).n0i i 1 = _
    rw [newP_n0i, if_neg (by decide), if_neg (by decide), ofDec_decQ]
  have e2 : ∀ i, aget2 (params (newP : Detail ℝ)).n0i i 2 = (decQ (aget2 n0iD i 2) : ℝ) - 1 := fun i => by
    show aget2 (newP : Detail ℝ).n0i i 2 = _
    rw [newP_n0i, if_neg (by decide), if_pos rfl, ofDec_decQ, l1]
  constructor
  · rw [propertiesP_eq, propsFinish_cv, propsMid_ar, (ar_rows s 2 (by norm_num)).2.2, propsMid_a0, (a0_real s).2.2, hs, hd]
    simp only [f0_zero, mul_zero, add_zero, Finset.sum_const_zero]
    rw [← mul_neg]
    congr 1
    unfold I2
    rw [← Finset.sum_neg_distrib]
    refine Finset.sum_congr rfl fun i _ => ?_
    split
    · rw [e2]; ring
    · ring
  · rw [propertiesP_eq, propsFinish_u, propsFinish_s, propsMid_ar, (ar_row0 s 2).1, (ar_rows s 2 (by norm_num)).1, propsMid_a0,
      (a0_real s).1, (a0_real s).2.1, hs, hd, A0_zero, propsMid_t]
    simp only [f0_zero, mul_zero, add_zero, Finset.sum_const_zero, sub_zero]
    have : RDETAIL * s.t * I0 (params (newP : Detail ℝ)) s.x 0 s.t + s.t * -(RDETAIL * I1 (params (newP : Detail ℝ)) s.x 0 s.t)
        = RDETAIL * (s.t * (I0 (params (newP : Detail ℝ)) s.x 0 s.t - I1 (params (newP : Detail ℝ)) s.x 0 s.t)) := by ring
    rw [this]
    congr 1
    unfold I0 I1
    rw [← Finset.sum_sub_distrib, Finset.mul_sum]
    refine Finset.sum_congr rfl fun i _ => ?_
    split
    · rw [e1, e2]; field_simp; ring
    · ring

end Detail

namespace Gerg

/-- `cv` and `u` of GERG-2008 at zero density, for any history. -/
theorem ideal_zero {s : Gerg ℝ} (hs : Reachable s) (hd : s.d = 0) (hT : s.t ≠ 0) :
    (propertiesP s).1.cv = 8.31451 * ∑ i : Fin 21, (if 1e-15 < aget s.x i.succ then aget s.x i.succ *
      ((decQ (aget2 n0iD i.succ 3) : ℝ) - 1 + H2 m0 i.succ s.t / (8.31451 / 8.314472)) else 0) ∧
    (propertiesP s).1.u = ∑ i : Fin 21, (if 1e-15 < aget s.x i.succ then aget s.x i.succ *
      (8.31451 * ((decQ (aget2 n0iD i.succ 2) : ℝ)
        + s.t * ((decQ (aget2 n0iD i.succ 3) : ℝ) - 1 + H1 m0 i.succ s.t / (8.31451 / 8.314472)))
        + (8.31451 - 8.314472) * 298.15) else 0) := by
  have hp := posE_reachable hs
  have hm : params s = m0 := hs.params
  have h298 : (f% 298.15 : ℝ) = 298.15 := by rw [r_ofDec]; norm_num
  have e2 : ∀ i : Fin 22, 1 ≤ i.1 → aget2 m0.n0i i 2 = ((decQ (aget2 n0iD i 2) : ℝ) + 298.15) * (8.31451 / 8.314472) - 298.15 :=
    fun i hi => by
      rw [m0_fields.2.2.2.2.2.2.2.2.2, n0i0_get i 2 hi (by decide), if_neg (by decide), if_pos rfl, ofDec_decQ, RSR_real, h298]
  have e3 : ∀ i : Fin 22, 1 ≤ i.1 → aget2 m0.n0i i 3 = ((decQ (aget2 n0iD i 3) : ℝ) - 1) * (8.31451 / 8.314472) :=
    fun i hi => by
      rw [m0_fields.2.2.2.2.2.2.2.2.2, n0i0_get i 3 hi (by decide), if_neg (by decide), if_neg (by decide), if_pos rfl,
        ofDec_decQ, RSR_real, l1]
  have reidx : ∀ f : Fin 22 → ℝ, ∑ i : Fin 22 with 1 ≤ i.1, f i = ∑ i : Fin 21, f i.succ := fun f => by
    rw [Finset.sum_filter, Fin.sum_univ_succ, if_neg (by decide), zero_add]
    exact Finset.sum_congr rfl fun i _ => if_pos (by simp [Fin.succ])
  have hs1 : ∀ i : Fin 21, 1 ≤ i.succ.1 := fun i => by simp [Fin.succ]
  constructor
  · rw [propertiesP_eq, propsFinish_cv, propsMid_ar, ar_entry hp (adds20 (by decide)), hd, AR_zero hp, propsMid_a0, (a0_real s).2.2,
      hm, R_real]
    unfold I2
    rw [reidx, add_zero, Finset.mul_sum, Finset.mul_sum]
    refine Finset.sum_congr rfl fun i _ => ?_
    split
    · rw [e3 _ (hs1 i)]; field_simp
    · ring
  · rw [propertiesP_eq, propsFinish_u, propsMid_ar, ar_entry hp (adds10 (by decide)), hd, AR_zero hp, propsMid_a0, (a0_real s).2.1,
      hm, R_real, propsMid_t]
    unfold I1
    rw [reidx, add_zero, Finset.mul_sum]
    refine Finset.sum_congr rfl fun i _ => ?_
    split
    · rw [e3 _ (hs1 i), e2 _ (hs1 i)]; field_simp; ring
    · ring

end Gerg

/-- C56: after any history, at zero density, equal non-zero temperature and equal fractions, none of them in (0, 1e-15],
DETAIL and GERG-2008 report the same `cv`. Energies and `cp` differ only by the difference of the two gas constants: `cp` by
that difference, `u` by 298.15 times it and `h` by 298.15 - T times it, both weighted with the sum of the positive fractions
where the code does so. -/
theorem C56_models_share_the_ideal_gas (ops : List (Detail.Op ℝ)) (ops' : List (Gerg.Op ℝ)) (sd : Detail ℝ) (sg : Gerg ℝ)
    (outs : List (Detail.Out ℝ)) (outs' : List (Gerg.Out ℝ)) (hd : Detail.runNew ops = .ok (sd, outs))
    (hg : Gerg.runNew ops' = .ok (sg, outs')) (hdd : sd.d = 0) (hgd : sg.d = 0) (ht : sd.t = sg.t) (hT : sd.t ≠ 0)
    (hx : ∀ i : Fin 21, aget sg.x i.succ = aget sd.x i) (hx0 : ∀ i : Fin 21, aget sd.x i ≤ 0 ∨ 1e-15 < aget sd.x i) :
    ∃ rd rg p, sd.properties = .ok rd ∧ sg.properties = .ok (rg, p) ∧
      rg.cv = rd.cv ∧
      rg.cp - rd.cp = 8.314472 - 8.31451 ∧
      rg.u - rd.u = (8.31451 - 8.314472) * (298.15 * ∑ i, max (aget sd.x i) 0) ∧
      rg.h - rd.h = (8.31451 - 8.314472) * (298.15 * ∑ i, max (aget sd.x i) 0 - sd.t) := by
  have hr : Gerg.Reachable sg := ⟨ops', outs', hg⟩
  have hm : Detail.params sd = Detail.params (Detail.newP : Detail ℝ) := by
    have e : Detail.runNew ops = .ok (Detail.runP Detail.newP ops) := by
      simp only [Detail.runNew, Detail.new_ok, bind, Except.bind, Detail.run_eq]
    rw [e] at hd
    have := Except.ok.inj hd
    rw [← Detail.runP_params ops Detail.newP, this]
  obtain ⟨cd, ud⟩ := Detail.ideal_zero hm hdd hT
  obtain ⟨cg, ug⟩ := Gerg.ideal_zero hr hgd (ht ▸ hT)
  obtain ⟨rd, h1, -, -, -, -, -, h2, -, h3⟩ := C33_detail_zero_density sd hdd
  obtain ⟨rg, p, h4, -, -, -, -, -, h5, -, h6⟩ := C33_gerg_zero_density sg hr hgd
  have k1 : rd = Detail.propertiesP sd := by
    rw [Detail.properties_ok] at h1; exact (Except.ok.inj h1).symm
  have k2 : rg = (Gerg.propertiesP sg).1 := by
    rw [Gerg.properties_ok hr.idx] at h4; rw [Except.ok.inj h4]
  rw [← k1] at cd ud
  rw [← k2] at cg ug
  have hxi : ∀ i, (1e-15 < aget sd.x i) ↔ 0 < aget sd.x i := fun i => by
    refine ⟨fun h => lt_trans (by norm_num) h, fun h => ?_⟩
    rcases hx0 i with h' | h'
    · linarith
    · exact h'
  have hRD : (Detail.RDETAIL : ℝ) = 8.31451 := Detail.R_real
  have cv : rg.cv = rd.cv := by
    rw [cd, cg, hRD, Finset.mul_sum, Finset.mul_sum]
    refine Finset.sum_congr rfl fun i _ => ?_
    obtain ⟨-, a3, a4, a5, a6, a7, b4, b5, b6, b7⟩ := ideal_same i
    rw [hx, Gerg.H2_eq _ (by simp [Fin.succ]), Detail.H2_eq, a3, a4, a5, a6, a7, b4, b5, b6, b7, ← ht]
    simp only [hxi]
    split
    · rw [mul_div_cancel_left₀ _ (by norm_num : (8.31451 / 8.314472 : ℝ) ≠ 0)]
    · rfl
  have u : rg.u - rd.u = (8.31451 - 8.314472) * (298.15 * ∑ i, max (aget sd.x i) 0) := by
    rw [ug, ud, hRD, Finset.mul_sum, Finset.mul_sum, Finset.mul_sum, ← Finset.sum_sub_distrib]
    refine Finset.sum_congr rfl fun i _ => ?_
    obtain ⟨a2, a3, a4, a5, a6, a7, b4, b5, b6, b7⟩ := ideal_same i
    rw [hx, Gerg.H1_eq _ (by simp [Fin.succ]), Detail.H01_eq, a2, a3, a4, a5, a6, a7, b4, b5, b6, b7, ← ht]
    simp only [hxi]
    split
    · rename_i h
      rw [mul_div_cancel_left₀ _ (by norm_num : (8.31451 / 8.314472 : ℝ) ≠ 0), max_eq_left h.le]
      ring
    · rename_i h
      rw [max_eq_right (not_lt.1 h)]; ring
  refine ⟨rd, rg, p, h1, h4, cv, by linarith, u, ?_⟩
  rw [h3, h6, ← ht]
  linear_combination u

/-- A mixture of 70 % of the first and 30 % of the third component at 300 K and zero density on new objects meets the
hypotheses of C56. -/
example : ∃ (ops : List (Detail.Op ℝ)) (ops' : List (Gerg.Op ℝ)) (sd : Detail ℝ) (sg : Gerg ℝ) (outs : List (Detail.Out ℝ))
    (outs' : List (Gerg.Out ℝ)), Detail.runNew ops = .ok (sd, outs) ∧ Gerg.runNew ops' = .ok (sg, outs') ∧ sd.d = 0 ∧ sg.d = 0 ∧
    sd.t = sg.t ∧ sd.t ≠ 0 ∧ (∀ i : Fin 21, aget sg.x i.succ = aget sd.x i) ∧
    (∀ i : Fin 21, aget sd.x i ≤ 0 ∨ 1e-15 < aget sd.x i) ∧ ∑ i, aget sd.x i = 1 := by
  let f : Fin 21 → ℝ := fun i => if i = 0 then 0.7 else if i = 2 then 0.3 else 0
  let q : Detail.Pub ℝ := ⟨300, 0, 0, 0, 0, 0, 0, 0, 0, 0, 0, 0, 0, 0, 0, 0, 0, 0, Vector.ofFn f⟩
  let q' : Gerg.Pub ℝ := ⟨300, 0, 0, 0, 0, 0, 0, 0, 0, 0, 0, 0, 0, 0, 0, 0, 0, 0, Vector.ofFn (Fin.cons 0 f : Fin 22 → ℝ)⟩
  refine ⟨[.write q], [.write q'], Detail.setPub Detail.newP q, Gerg.setPub Gerg.newP q', [.unit], [.unit], ?_, ?_, rfl, rfl, rfl,
    ?_, fun i => ?_, fun i => ?_, ?_⟩
  · simp only [Detail.runNew, Detail.new_ok, Detail.run, Detail.step, bind, Except.bind, pure, Except.pure]
  · rw [Gerg.runNew_eq]
    simp only [Gerg.run, Gerg.step, bind, Except.bind, pure, Except.pure]
  · show (300 : ℝ) ≠ 0
    norm_num
  · show aget (Vector.ofFn (Fin.cons 0 f : Fin 22 → ℝ)) i.succ = aget (Vector.ofFn f) i
    rw [aget_ofFn, aget_ofFn, Fin.cons_succ]
  · show aget (Vector.ofFn f) i ≤ 0 ∨ 1e-15 < aget (Vector.ofFn f) i
    rw [aget_ofFn]
    show (if i = 0 then (0.7 : ℝ) else if i = 2 then 0.3 else 0) ≤ 0 ∨ 1e-15 < (if i = 0 then (0.7 : ℝ) else if i = 2 then 0.3 else 0)
    split
    · right; norm_num
    · split
      · right; norm_num
      · left; norm_num
  · show ∑ i, aget (Vector.ofFn f) i = 1
    simp only [aget_ofFn]
    show ∑ i, (if i = 0 then (0.7 : ℝ) else if i = 2 then 0.3 else 0) = 1
    simp [Fin.sum_univ_succ]
    norm_num

end Aga8
