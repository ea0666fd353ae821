import Verif.Lemmas.DetailCont
import Verif.Lemmas.GergCont
import Verif.Props.DetailThermo
import Verif.Props.MolarMass

/-! # The results depend continuously on temperature, density and composition (C57), exact arithmetic -/

namespace Aga8

open Filter Topology
open Detail (Pub setPub)

attribute [local irreducible] Gerg.newP Gerg.pressureP Gerg.propertiesP Gerg.densityP Detail.densityP Detail.pressureP Detail.propertiesP

/-- C57: let `r k` be the results of `properties` on a new DETAIL object given temperature, density and fractions of `q k`. If
these converge, along any filter, to those of `q0`, with a temperature above 1e-7 K and a fraction above 1e-7 in the limit, then
the results converge to those for `q0`. Where the density in the limit is above 1e-15 this holds for all of them, as long as the
quantities the code divides by are not zero in the limit. -/
theorem C57_detail_results_continuous {ι : Type*} (l : Filter ι) (new0 : Detail ℝ) (hnew : Detail.new = .ok new0)
    (q : ι → Pub ℝ) (q0 : Pub ℝ) (ht : Tendsto (fun k => (q k).t) l (𝓝 q0.t)) (hd : Tendsto (fun k => (q k).d) l (𝓝 q0.d))
    (hx : ∀ i, Tendsto (fun k => aget (q k).x i) l (𝓝 (aget q0.x i))) (hT : 1e-7 < q0.t) (hX : ∃ i, 1e-7 < aget q0.x i)
    (r : ι → Detail ℝ) (r0 : Detail ℝ) (hr : ∀ k, (setPub new0 (q k)).properties = .ok (r k))
    (hr0 : (setPub new0 q0).properties = .ok r0) :
    (Tendsto (fun k => (r k).mm) l (𝓝 r0.mm) ∧ Tendsto (fun k => (r k).z) l (𝓝 r0.z) ∧ Tendsto (fun k => (r k).p) l (𝓝 r0.p) ∧
      Tendsto (fun k => (r k).dp_dd) l (𝓝 r0.dp_dd) ∧ Tendsto (fun k => (r k).dp_dt) l (𝓝 r0.dp_dt) ∧
      Tendsto (fun k => (r k).u) l (𝓝 r0.u) ∧ Tendsto (fun k => (r k).s) l (𝓝 r0.s) ∧ Tendsto (fun k => (r k).cv) l (𝓝 r0.cv)) ∧
    (1e-15 < q0.d →
      (Tendsto (fun k => (r k).d2p_dd2) l (𝓝 r0.d2p_dd2) ∧ Tendsto (fun k => (r k).h) l (𝓝 r0.h) ∧
        Tendsto (fun k => (r k).g) l (𝓝 r0.g)) ∧
      (r0.dp_dd ≠ 0 → Tendsto (fun k => (r k).cp) l (𝓝 r0.cp) ∧
        (r0.cp ≠ 0 → Tendsto (fun k => (r k).jt) l (𝓝 r0.jt)) ∧
        (r0.cv ≠ 0 → r0.mm ≠ 0 → Tendsto (fun k => (r k).w) l (𝓝 r0.w) ∧
          (r0.z ≠ 0 → Tendsto (fun k => (r k).kappa) l (𝓝 r0.kappa))))) := by
  have e := Detail.new_eq hnew
  subst e
  have er : ∀ k, r k = Detail.propsFinish (Detail.propsMid (Detail.freshOf (q k))) (Detail.molar_mass (Detail.freshOf (q k))).2 := by
    intro k
    rw [← Detail.propertiesP_eq]
    exact (Except.ok.inj ((Detail.properties_ok (Detail.freshOf (q k))).symm.trans (hr k))).symm
  have er0 : r0 = Detail.propsFinish (Detail.propsMid (Detail.freshOf q0)) (Detail.molar_mass (Detail.freshOf q0)).2 := by
    rw [← Detail.propertiesP_eq]
    exact (Except.ok.inj ((Detail.properties_ok (Detail.freshOf q0)).symm.trans hr0)).symm
  obtain ⟨a00, a01, a02, a03, a10, a11, a20, i0, i1, i2⟩ := Detail.tendsto_entries ht hd hx hT hX
  have emm : ∀ q : Pub ℝ, (Detail.molar_mass (Detail.freshOf q)).2 = ∑ i, aget q.x i * Detail.massQ i := fun q => by
    rw [Detail.molar_mass_sum]; rfl
  have hmm : Tendsto (fun k => (Detail.molar_mass (Detail.freshOf (q k))).2) l (𝓝 (Detail.molar_mass (Detail.freshOf q0)).2) := by
    simp only [emm]
    exact tendsto_finsetSum _ fun i _ => (hx i).mul tendsto_const_nhds
  have ht' : Tendsto (fun k => (Detail.propsMid (Detail.freshOf (q k))).t) l (𝓝 (Detail.propsMid (Detail.freshOf q0)).t) := by
    simp only [Detail.propsMid_t]; exact ht
  have hd' : Tendsto (fun k => (Detail.propsMid (Detail.freshOf (q k))).d) l (𝓝 (Detail.propsMid (Detail.freshOf q0)).d) := by
    simp only [Detail.propsMid_d]; exact hd
  have hT0 : (Detail.propsMid (Detail.freshOf q0)).t ≠ 0 := by
    rw [Detail.propsMid_t]; exact (lt_trans (by norm_num) hT : (0 : ℝ) < q0.t).ne'
  have ed0 : (Detail.propsMid (Detail.freshOf q0)).d = q0.d := Detail.propsMid_d _
  simp only [er, er0, Detail.propsFinish_mm, Detail.propsMid_mm]
  obtain ⟨z, p, dd, dt⟩ := Detail.tendsto_finish (mm := fun k => (Detail.molar_mass (Detail.freshOf (q k))).2)
    (mm0 := (Detail.molar_mass (Detail.freshOf q0)).2) ht' hd' hT0 a01 a02 a11
  obtain ⟨u, s, cv⟩ := Detail.tendsto_finish_cal (mm := fun k => (Detail.molar_mass (Detail.freshOf (q k))).2)
    (mm0 := (Detail.molar_mass (Detail.freshOf q0)).2) ht' a00 a10 a20 i0 i1 i2
  exact ⟨⟨hmm, z, p, dd, dt, u, s, cv⟩, fun h => Detail.tendsto_finish_dense ht' hd' hT0 hmm a00 a01 a02 a03 i0 z p dd dt u cv
    (ed0 ▸ h)⟩

/-- A DETAIL sequence meeting the hypotheses of C57 with all of the conclusions in force: a mixture of the first and third
component whose third component appears gradually, at 300 K and 1 mol/l; the limit is the pure first component. -/
example : ∃ (q : ℕ → Pub ℝ) (q0 : Pub ℝ), Tendsto (fun k => (q k).t) atTop (𝓝 q0.t) ∧ Tendsto (fun k => (q k).d) atTop (𝓝 q0.d) ∧
    (∀ i, Tendsto (fun k => aget (q k).x i) atTop (𝓝 (aget q0.x i))) ∧ 1e-7 < q0.t ∧ (∃ i, 1e-7 < aget q0.x i) ∧ 1e-15 < q0.d ∧
    (∀ k, ∑ i, aget (q k).x i = 1) ∧ (∀ k, 0 < aget (q k).x 2) ∧ aget q0.x 2 = 0 := by
  let f : ℝ → Fin 21 → ℝ := fun e i => if i = 0 then 1 - e else if i = 2 then e else 0
  let m : ℝ → Pub ℝ := fun e => ⟨300, 0, 1, 0, 0, 0, 0, 0, 0, 0, 0, 0, 0, 0, 0, 0, 0, 0, Vector.ofFn (f e)⟩
  have hx : ∀ e i, aget (m e).x i = if i = 0 then 1 - e else if i = 2 then e else 0 := fun e i => aget_ofFn (f e) i
  have h0 : Tendsto (fun k : ℕ => 1 / ((k : ℝ) + 1)) atTop (𝓝 0) := tendsto_one_div_add_atTop_nhds_zero_nat
  refine ⟨fun k => m (1 / ((k : ℝ) + 1)), m 0, tendsto_const_nhds, tendsto_const_nhds, fun i => ?_, ?_, ⟨0, ?_⟩, ?_, fun k => ?_,
    fun k => ?_, ?_⟩
  · simp only [hx]
    split
    · simpa using (tendsto_const_nhds (x := (1 : ℝ))).sub h0
    · split
      · exact h0
      · exact tendsto_const_nhds
  · show (1e-7 : ℝ) < 300
    norm_num
  · rw [hx]; norm_num
  · show (1e-15 : ℝ) < 1
    norm_num
  · simp only [hx]
    simp [Fin.sum_univ_succ]
  · rw [hx, if_neg (by decide), if_pos rfl]; positivity
  · rw [hx, if_neg (by decide), if_pos rfl]

/-- C57 for GERG-2008: the same as for DETAIL, where a component that is present (fraction above 1e-15) has to stay present and
one that is not has to stay absent, which is the case unless a fraction of the limit is exactly 1e-15. All results that do not
depend on the density by division converge at every density. -/
theorem C57_gerg_results_continuous {ι : Type*} (l : Filter ι) (new0 : Gerg ℝ) (hnew : Gerg.new = .ok new0)
    (q : ι → Gerg.Pub ℝ) (q0 : Gerg.Pub ℝ) (ht : Tendsto (fun k => (q k).t) l (𝓝 q0.t))
    (hd : Tendsto (fun k => (q k).d) l (𝓝 q0.d))
    (hx : ∀ i : Fin 22, 1 ≤ i.1 → Tendsto (fun k => aget (q k).x i) l (𝓝 (aget q0.x i)))
    (hT : 1e-7 < q0.t) (hX : ∃ i : Fin 22, 1 ≤ i.1 ∧ 1e-6 ≤ aget q0.x i) (h15 : ∀ i : Fin 22, 1 ≤ i.1 → aget q0.x i ≠ 1e-15)
    (r : ι → Gerg ℝ) (p : ι → ℝ) (r0 : Gerg ℝ) (p0 : ℝ) (hr : ∀ k, (Gerg.setPub new0 (q k)).properties = .ok (r k, p k))
    (hr0 : (Gerg.setPub new0 q0).properties = .ok (r0, p0)) :
    (Tendsto (fun k => (r k).mm) l (𝓝 r0.mm) ∧ Tendsto (fun k => (r k).z) l (𝓝 r0.z) ∧ Tendsto p l (𝓝 p0) ∧
      Tendsto (fun k => (r k).dp_dd) l (𝓝 r0.dp_dd) ∧ Tendsto (fun k => (r k).dp_dt) l (𝓝 r0.dp_dt) ∧
      Tendsto (fun k => (r k).d2p_dtd) l (𝓝 r0.d2p_dtd) ∧
      Tendsto (fun k => (r k).u) l (𝓝 r0.u) ∧ Tendsto (fun k => (r k).h) l (𝓝 r0.h) ∧ Tendsto (fun k => (r k).s) l (𝓝 r0.s) ∧
      Tendsto (fun k => (r k).g) l (𝓝 r0.g) ∧ Tendsto (fun k => (r k).cv) l (𝓝 r0.cv)) ∧
    (1e-15 < q0.d → Tendsto (fun k => (r k).d2p_dd2) l (𝓝 r0.d2p_dd2) ∧
      (r0.dp_dd ≠ 0 → Tendsto (fun k => (r k).cp) l (𝓝 r0.cp) ∧
        (r0.cp ≠ 0 → Tendsto (fun k => (r k).jt) l (𝓝 r0.jt)) ∧
        (r0.cv ≠ 0 → r0.mm ≠ 0 → Tendsto (fun k => (r k).w) l (𝓝 r0.w) ∧
          (r0.z ≠ 0 → Tendsto (fun k => (r k).kappa) l (𝓝 r0.kappa))))) := by
  have e : new0 = Gerg.newP := by
    rw [Gerg.new_ok] at hnew; exact (Except.ok.inj hnew).symm
  subst e
  have key : ∀ (q : Gerg.Pub ℝ) r p, (Gerg.setPub Gerg.newP q).properties = .ok (r, p) →
      (r, p) = Gerg.propsFinish (Gerg.propsMid (Gerg.freshOf q)) := by
    intro q r p h
    rw [← Gerg.propertiesP_eq]
    exact (Except.ok.inj ((Gerg.properties_ok (Gerg.reachable_fresh q).idx).symm.trans h)).symm
  have er : ∀ k, r k = (Gerg.propsFinish (Gerg.propsMid (Gerg.freshOf (q k)))).1 := fun k => congrArg Prod.fst (key _ _ _ (hr k))
  have ep : ∀ k, p k = (Gerg.propsFinish (Gerg.propsMid (Gerg.freshOf (q k)))).2 := fun k => congrArg Prod.snd (key _ _ _ (hr k))
  have er0 : r0 = (Gerg.propsFinish (Gerg.propsMid (Gerg.freshOf q0))).1 := congrArg Prod.fst (key _ _ _ hr0)
  have ep0 : p0 = (Gerg.propsFinish (Gerg.propsMid (Gerg.freshOf q0))).2 := congrArg Prod.snd (key _ _ _ hr0)
  have emm : ∀ q : Gerg.Pub ℝ, (Gerg.molar_mass (Gerg.freshOf q)).mm = ∑ i : Fin 21, aget q.x i.succ * Gerg.massQ i := fun q => by
    rw [Gerg.molar_mass_sum]; rfl
  have hmm : Tendsto (fun k => (Gerg.molar_mass (Gerg.freshOf (q k))).mm) l (𝓝 (Gerg.molar_mass (Gerg.freshOf q0)).mm) := by
    simp only [emm]
    exact tendsto_finsetSum _ fun i _ => (hx i.succ (by simp [Fin.succ])).mul tendsto_const_nhds
  have H := Gerg.tendsto_mid ht hd hx hT hX h15 hmm
  have hd0 : (Gerg.propsMid (Gerg.freshOf q0)).d = q0.d := Gerg.propsMid_d _
  have hT0 : (Gerg.propsMid (Gerg.freshOf q0)).t ≠ 0 := by
    rw [Gerg.propsMid_t]; exact (lt_trans (by norm_num) hT : (0 : ℝ) < q0.t).ne'
  have emid : ∀ s : Gerg ℝ, (Gerg.propsFinish s).1.mm = s.mm := fun s => by
    unfold Gerg.propsFinish
    dsimp only
    split <;> dsimp only <;> split <;> rfl
  have ep' : p = fun k => (Gerg.propsFinish (Gerg.propsMid (Gerg.freshOf (q k)))).2 := funext ep
  rw [ep', ep0, er0]
  simp only [er, emid]
  rw [← hd0]
  exact ⟨⟨H.mm, H.z, H.p, H.dp_dd, H.dp_dt, H.d2p_dtd, H.u, H.h, H.ent, H.g, H.cv⟩, fun h => ⟨H.d2p_dd2 h, fun hdd =>
    ⟨H.cp h hdd, fun hcp => H.jt h hdd hcp, fun hcv hm => ⟨H.w h hdd hcv hm, fun hz => H.kappa hT0 h hdd hcv hm hz⟩⟩⟩⟩

/-- A GERG-2008 sequence meeting the hypotheses of C57: a mixture of 70 % and 30 % of the first and third component at 1 mol/l
heated up to 300 K while the fractions approach these values. -/
example : ∃ (q : ℕ → Gerg.Pub ℝ) (q0 : Gerg.Pub ℝ), Tendsto (fun k => (q k).t) atTop (𝓝 q0.t) ∧
    Tendsto (fun k => (q k).d) atTop (𝓝 q0.d) ∧
    (∀ i : Fin 22, 1 ≤ i.1 → Tendsto (fun k => aget (q k).x i) atTop (𝓝 (aget q0.x i))) ∧ 1e-7 < q0.t ∧
    (∃ i : Fin 22, 1 ≤ i.1 ∧ 1e-6 ≤ aget q0.x i) ∧ (∀ i : Fin 22, 1 ≤ i.1 → aget q0.x i ≠ 1e-15) ∧ 1e-15 < q0.d ∧
    (∀ k, (q k).t < q0.t) ∧ ∀ k, aget (q k).x 1 ≠ aget q0.x 1 := by
  let f : ℝ → Fin 22 → ℝ := fun e i => if i = 1 then 0.7 - e else if i = 3 then 0.3 + e else 0
  let m : ℝ → Gerg.Pub ℝ := fun e => ⟨300 - e, 0, 1, 0, 0, 0, 0, 0, 0, 0, 0, 0, 0, 0, 0, 0, 0, 0, Vector.ofFn (f e)⟩
  have hx : ∀ e i, aget (m e).x i = if i = 1 then 0.7 - e else if i = 3 then 0.3 + e else 0 := fun e i => aget_ofFn (f e) i
  have h0 : Tendsto (fun k : ℕ => 1 / ((k : ℝ) + 1)) atTop (𝓝 0) := tendsto_one_div_add_atTop_nhds_zero_nat
  refine ⟨fun k => m (1 / ((k : ℝ) + 1)), m 0, ?_, tendsto_const_nhds, fun i _ => ?_, ?_, ⟨1, le_refl _, ?_⟩, fun i _ => ?_, ?_,
    fun k => ?_, fun k => ?_⟩
  · show Tendsto (fun k : ℕ => 300 - 1 / ((k : ℝ) + 1)) atTop (𝓝 (300 - 0))
    exact tendsto_const_nhds.sub h0
  · simp only [hx]
    split
    · exact tendsto_const_nhds.sub h0
    · split
      · exact tendsto_const_nhds.add h0
      · exact tendsto_const_nhds
  · show (1e-7 : ℝ) < 300 - 0
    norm_num
  · rw [hx]; norm_num
  · rw [hx]
    split
    · norm_num
    · split <;> norm_num
  · show (1e-15 : ℝ) < 1
    norm_num
  · show 300 - 1 / ((k : ℝ) + 1) < 300 - 0
    have : 0 < 1 / ((k : ℝ) + 1) := by positivity
    linarith
  · rw [hx, hx, if_pos rfl, if_pos rfl]
    have : 0 < 1 / ((k : ℝ) + 1) := by positivity
    intro h
    linarith

end Aga8
