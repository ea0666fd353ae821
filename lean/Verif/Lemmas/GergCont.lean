import Mathlib.Analysis.SpecialFunctions.Log.NegMulLog
import Mathlib.Analysis.SpecialFunctions.Pow.Continuity
import Mathlib.Topology.Algebra.Monoid
import Mathlib.Order.Filter.Finite
import Verif.Lemmas.GergEos

/-! # Continuity of the GERG-2008 equation of state -/

namespace Aga8.Gerg

open Tab Finset Real Filter Topology

attribute [local irreducible] newP pressureP propertiesP

variable {ι : Type*} {l : Filter ι}

theorem tendsto_ite' {P : ι → Prop} {P0 : Prop} [∀ k, Decidable (P k)] [Decidable P0] {f : ι → ℝ} {f0 c : ℝ}
    (h : ∀ᶠ k in l, (P k ↔ P0)) (hf : P0 → Tendsto f l (𝓝 f0)) :
    Tendsto (fun k => if P k then f k else c) l (𝓝 (if P0 then f0 else c)) := by
  by_cases h0 : P0
  · rw [if_pos h0]
    exact (hf h0).congr' (h.mono fun k hk => (if_pos (hk.2 h0)).symm)
  · rw [if_neg h0]
    exact tendsto_const_nhds.congr' (h.mono fun k hk => (if_neg (fun h => h0 (hk.1 h))).symm)

/-- The same components are present. -/
def SamePat (x y : Vector ℝ 22) : Prop := ∀ i : Fin 22, 1 ≤ i.1 → (1e-15 < aget x i ↔ 1e-15 < aget y i)

section
variable {x : ι → Vector ℝ 22} {x0 : Vector ℝ 22}

theorem eventually_samePat (hx : ∀ i : Fin 22, 1 ≤ i.1 → Tendsto (fun k => aget (x k) i) l (𝓝 (aget x0 i)))
    (h0 : ∀ i : Fin 22, 1 ≤ i.1 → aget x0 i ≠ 1e-15) : ∀ᶠ k in l, SamePat (x k) x0 := by
  unfold SamePat
  refine eventually_all.2 fun i => ?_
  by_cases hi : 1 ≤ i.1
  · rcases lt_or_gt_of_ne (h0 i hi) with h | h
    · exact ((hx i hi).eventually (gt_mem_nhds h)).mono fun k hk _ =>
        ⟨fun h' => absurd h' hk.not_gt, fun h' => absurd h' h.not_gt⟩
    · exact ((hx i hi).eventually (lt_mem_nhds h)).mono fun k hk _ => ⟨fun _ => h, fun _ => hk⟩
  · exact Eventually.of_forall fun k h => absurd h hi

theorem SamePat.readP {x y : Vector ℝ 22} (h : SamePat x y) (i : Fin 22) (k : Fin 25) : Gerg.readP x i k ↔ Gerg.readP y i k := by
  unfold Gerg.readP
  simp only [lt_eps]
  exact and_congr_right fun hi => and_congr_left fun _ => h i hi

theorem SamePat.actM {x y : Vector ℝ 22} (h : SamePat x y) (i j : Fin 22) (k : ℕ) : Gerg.actM x i j k ↔ Gerg.actM y i j k := by
  unfold Gerg.actM
  simp only [lt_eps]
  exact and_congr_right fun hi => and_congr_right fun hj => and_congr (h i hi)
    (and_congr (h j (by omega)) Iff.rfl)

variable (hx : ∀ i : Fin 22, 1 ≤ i.1 → Tendsto (fun k => aget (x k) i) l (𝓝 (aget x0 i)))
  (hs : ∀ᶠ k in l, SamePat (x k) x0)
include hx hs

theorem tendsto_coef (n : Ix) : Tendsto (fun k => coef (x k) n) l (𝓝 (coef x0 n)) := by
  rcases n with ⟨i, k⟩ | ⟨i, j, k⟩ <;> simp only [coef]
  · exact tendsto_ite' (hs.mono fun m h => h.readP i k) fun h => (hx i h.1).mul tendsto_const_nhds
  · refine tendsto_ite' (hs.mono fun m h => h.actM i j k.1) fun h => ?_
    have hj : 1 ≤ j.1 := by have := h.1; have := h.2.1; omega
    exact (((hx i h.1).mul (hx j hj)).mul tendsto_const_nhds).mul tendsto_const_nhds

theorem tendsto_redSum (G B : Fin 22 → Fin 22 → ℝ) (hB : ∀ i j : Fin 22, 1 ≤ i.1 → i.1 ≤ j.1 → 0 < B i j) :
    Tendsto (fun k => redSum (x k) G B) l (𝓝 (redSum x0 G B)) := by
  have term : ∀ (i j : Fin 22), 1 ≤ i.1 → i.1 ≤ j.1 → 1e-15 < aget x0 i → 1e-15 < aget x0 j →
      Tendsto (fun k => redTerm (x k) (G i j) (B i j) i j) l (𝓝 (redTerm x0 (G i j) (B i j) i j)) := by
    intro i j hi hj h1 h2
    have ti := hx i hi
    have tj := hx j (by omega)
    have p1 : 0 < aget x0 i := lt_trans (by norm_num) h1
    have p2 : 0 < aget x0 j := lt_trans (by norm_num) h2
    unfold redTerm
    exact (((ti.mul tj).mul (ti.add tj)).mul tendsto_const_nhds).div ((tendsto_const_nhds.mul ti).add tj)
      (add_pos (mul_pos (hB i j hi hj) p1) p2).ne'
  unfold redSum
  refine tendsto_finsetSum _ fun i hi => ?_
  simp only [Finset.mem_filter, Finset.mem_univ, true_and] at hi
  simp only [lt_eps]
  refine tendsto_ite' (hs.mono fun m h => h i hi) fun h => ?_
  refine (term i i hi le_rfl h h).add (tendsto_finsetSum _ fun j hj => ?_)
  simp only [Finset.mem_filter, Finset.mem_univ, true_and] at hj
  exact tendsto_ite' (hs.mono fun m h => h j (by omega)) fun h' => (term i j hi (by omega) h h').const_mul 2

theorem tendsto_trX : Tendsto (fun k => trX (x k)) l (𝓝 (trX x0)) := by
  unfold trX trOf
  simp only [(redX_real _ _).2]
  exact tendsto_redSum hx hs _ _ fun i j hi hj => tab2_pos (BTIJ_pos i j hi hj)

theorem tendsto_drX (h0 : Present x0) : Tendsto (fun k => drX (x k)) l (𝓝 (drX x0)) ∧ drX x0 ≠ 0 := by
  have hB : ∀ i j : Fin 22, 1 ≤ i.1 → i.1 ≤ j.1 → 0 < aget2 m0.bvij i j := by
    rw [m0_fields.2.2.2.2.2.2.2.2.1]; exact bvij0_pos
  have hv : Tendsto (fun k => (redX (x k) m0.bvij).1) l (𝓝 (redX x0 m0.bvij).1) := by
    simp only [(redX_real _ _).1]
    exact tendsto_redSum hx hs _ _ hB
  have hp := h0.vr
  have hne : (redX x0 m0.bvij).1 ≠ 0 := (lt_trans (by norm_num) hp : (0 : ℝ) < _).ne'
  unfold drX drOf
  simp only [lt_eps]
  refine ⟨tendsto_ite' ((hv.eventually (lt_mem_nhds hp)).mono fun k hk => ⟨fun _ => hp, fun _ => hk⟩) fun _ => ?_, ?_⟩
  · exact tendsto_const_nhds.div hv hne
  · rw [if_pos hp, l1]; exact one_div_ne_zero hne

/-- A weight that depends continuously on the reduced density. -/
def ContFac (fac : Fac) : Prop := ∀ σ, Continuous (fac σ)

theorem tendsto_RT (h0 : Present x0) {fac : Fac} (hf : ContFac fac) {d t : ι → ℝ} {d0 T : ℝ} (hd : Tendsto d l (𝓝 d0))
    (ht : Tendsto t l (𝓝 T)) (hT : 0 < T) : Tendsto (fun k => RT (x k) fac (d k) (t k)) l (𝓝 (RT x0 fac d0 T)) := by
  obtain ⟨hdr, hdr0⟩ := tendsto_drX hx hs h0
  have hδ := hd.div hdr hdr0
  have hτ := ((tendsto_trX hx hs).div ht hT.ne').log (div_pos h0.tr_pos hT).ne'
  unfold RT
  refine tendsto_finsetSum _ fun n _ => ?_
  exact ((tendsto_coef hx hs n).mul ((tendsto_const_nhds.mul hτ).rexp)).mul
    ((((shape m0 n).continuous_phi.tendsto _).comp hδ).mul (((hf _).tendsto _).comp hδ))

end

theorem contFac_f1 : ContFac Shape.f1 := fun σ => by
  show Continuous fun δ => σ.f1 δ
  unfold Shape.f1; fun_prop
theorem contFac_l2 : ContFac Shape.l2 := fun σ => by
  show Continuous fun δ => σ.l2 δ
  unfold Shape.l2; fun_prop
theorem contFac_l3 : ContFac Shape.l3 := fun σ => by
  show Continuous fun δ => σ.l3 δ
  unfold Shape.l3; fun_prop
theorem contFac_f2 : ContFac Shape.f2 := fun σ => by
  have h1 : Continuous fun δ => σ.f1 δ := contFac_f1 σ
  have h2 : Continuous fun δ => σ.l2 δ := contFac_l2 σ
  show Continuous fun δ => σ.f2 δ
  unfold Shape.f2; fun_prop
theorem contFac_f3 : ContFac Shape.f3 := fun σ => by
  have h1 : Continuous fun δ => σ.f1 δ := contFac_f1 σ
  have h2 : Continuous fun δ => σ.l2 δ := contFac_l2 σ
  have h3 : Continuous fun δ => σ.l3 δ := contFac_l3 σ
  show Continuous fun δ => σ.f3 δ
  unfold Shape.f3; fun_prop

/-! ## Ideal gas -/

theorem continuousAt_H2 (m : Params ℝ) (i : Fin 22) {T : ℝ} (hT : 0 < T) : ContinuousAt (H2 m i) T := by
  refine tendsto_finsetSum _ fun j _ => ?_
  by_cases h : 1e-15 < (tab2 TH0I i j : ℝ)
  · simp only [h, if_true]
    have ht := (hasDerivAt_theta (tab2 TH0I i j : ℝ) hT.ne').continuousAt
    have h0 : (0 : ℝ) < tab2 TH0I i j := lt_trans (by norm_num) h
    split
    · exact ((ht.div (continuous_sinh.continuousAt.comp ht) (sinh_pos_iff.2 (div_pos h0 hT)).ne').pow 2).const_mul _
    · exact ((ht.div (continuous_cosh.continuousAt.comp ht) (cosh_pos _).ne').pow 2).const_mul _
  · simp only [h, if_false]; exact tendsto_const_nhds

theorem logD_max (d : ℝ) : logD d = log (max d 1e-15) := by
  unfold logD
  split
  · rename_i h; rw [max_eq_left h.le]
  · rename_i h; rw [max_eq_right (not_lt.1 h)]

theorem tendsto_logD {d : ι → ℝ} {d0 : ℝ} (hd : Tendsto d l (𝓝 d0)) : Tendsto (fun k => logD (d k)) l (𝓝 (logD d0)) := by
  simp only [logD_max]
  refine (continuousAt_log ?_).tendsto.comp (hd.max tendsto_const_nhds)
  exact (lt_of_lt_of_le (by norm_num) (le_max_right d0 1e-15)).ne'

section
variable {x : ι → Vector ℝ 22} {x0 : Vector ℝ 22} {d t : ι → ℝ} {d0 T : ℝ}
  (hx : ∀ i : Fin 22, 1 ≤ i.1 → Tendsto (fun k => aget (x k) i) l (𝓝 (aget x0 i)))
  (hs : ∀ᶠ k in l, SamePat (x k) x0)
include hx hs

theorem tendsto_I0 (m : Params ℝ) (hd : Tendsto d l (𝓝 d0)) (ht : Tendsto t l (𝓝 T)) (hT : 0 < T) :
    Tendsto (fun k => I0 m (x k) (d k) (t k)) l (𝓝 (I0 m x0 d0 T)) := by
  refine tendsto_finsetSum _ fun i hi => ?_
  simp only [Finset.mem_filter, Finset.mem_univ, true_and] at hi
  refine tendsto_ite' (hs.mono fun k h => h i hi) fun h => (hx i hi).mul ?_
  have h0 : aget x0 i ≠ 0 := (lt_trans (by norm_num) h : (0 : ℝ) < aget x0 i).ne'
  exact (((((tendsto_logD hd).add ((hx i hi).log h0)).add tendsto_const_nhds).add (tendsto_const_nhds.div ht hT.ne')).sub
    (tendsto_const_nhds.mul (ht.log hT.ne'))).add ((hasDerivAt_H0 m i hT).continuousAt.tendsto.comp ht)

theorem tendsto_I1 (m : Params ℝ) (ht : Tendsto t l (𝓝 T)) (hT : 0 < T) :
    Tendsto (fun k => I1 m (x k) (t k)) l (𝓝 (I1 m x0 T)) := by
  refine tendsto_finsetSum _ fun i hi => ?_
  simp only [Finset.mem_filter, Finset.mem_univ, true_and] at hi
  refine tendsto_ite' (hs.mono fun k h => h i hi) fun h => (hx i hi).mul ?_
  exact (tendsto_const_nhds.add (tendsto_const_nhds.div ht hT.ne')).add ((hasDerivAt_H1 m i hT).continuousAt.tendsto.comp ht)

theorem tendsto_I2 (m : Params ℝ) (ht : Tendsto t l (𝓝 T)) (hT : 0 < T) :
    Tendsto (fun k => I2 m (x k) (t k)) l (𝓝 (I2 m x0 T)) := by
  refine tendsto_finsetSum _ fun i hi => ?_
  simp only [Finset.mem_filter, Finset.mem_univ, true_and] at hi
  refine tendsto_ite' (hs.mono fun k h => h i hi) fun h => (hx i hi).neg.mul ?_
  exact tendsto_const_nhds.add ((continuousAt_H2 m i hT).tendsto.comp ht)

end

/-! ## Results -/

section
variable {s : ι → Gerg ℝ} {s0 : Gerg ℝ}

/-- Everything the results are made of converges. -/
structure MidTends (l : Filter ι) (s : ι → Gerg ℝ) (s0 : Gerg ℝ) : Prop where
  t : Tendsto (fun k => (s k).t) l (𝓝 s0.t)
  d : Tendsto (fun k => (s k).d) l (𝓝 s0.d)
  mm : Tendsto (fun k => (s k).mm) l (𝓝 s0.mm)
  a00 : Tendsto (fun k => aget2 (s k).ar 0 0) l (𝓝 (aget2 s0.ar 0 0))
  a01 : Tendsto (fun k => aget2 (s k).ar 0 1) l (𝓝 (aget2 s0.ar 0 1))
  a02 : Tendsto (fun k => aget2 (s k).ar 0 2) l (𝓝 (aget2 s0.ar 0 2))
  a03 : Tendsto (fun k => aget2 (s k).ar 0 3) l (𝓝 (aget2 s0.ar 0 3))
  a10 : Tendsto (fun k => aget2 (s k).ar 1 0) l (𝓝 (aget2 s0.ar 1 0))
  a11 : Tendsto (fun k => aget2 (s k).ar 1 1) l (𝓝 (aget2 s0.ar 1 1))
  a12 : Tendsto (fun k => aget2 (s k).ar 1 2) l (𝓝 (aget2 s0.ar 1 2))
  a20 : Tendsto (fun k => aget2 (s k).ar 2 0) l (𝓝 (aget2 s0.ar 2 0))
  i0 : Tendsto (fun k => aget (s k).a0 0) l (𝓝 (aget s0.a0 0))
  i1 : Tendsto (fun k => aget (s k).a0 1) l (𝓝 (aget s0.a0 1))
  i2 : Tendsto (fun k => aget (s k).a0 2) l (𝓝 (aget s0.a0 2))

namespace MidTends
variable (H : MidTends l s s0)
include H

theorem rt : Tendsto (fun k => RGERG * (s k).t) l (𝓝 (RGERG * s0.t)) := tendsto_const_nhds.mul H.t

theorem z : Tendsto (fun k => (propsFinish (s k)).1.z) l (𝓝 (propsFinish s0).1.z) := by
  simp only [propsFinish_z]
  exact tendsto_const_nhds.add H.a01

theorem p : Tendsto (fun k => (propsFinish (s k)).2) l (𝓝 (propsFinish s0).2) := by
  simp only [propsFinish_p]
  exact (H.d.mul H.rt).mul (tendsto_const_nhds.add H.a01)

theorem dp_dd : Tendsto (fun k => (propsFinish (s k)).1.dp_dd) l (𝓝 (propsFinish s0).1.dp_dd) := by
  simp only [propsFinish_dp_dd]
  exact H.rt.mul ((tendsto_const_nhds.add (tendsto_const_nhds.mul H.a01)).add H.a02)

theorem dp_dt : Tendsto (fun k => (propsFinish (s k)).1.dp_dt) l (𝓝 (propsFinish s0).1.dp_dt) := by
  simp only [propsFinish_dp_dt]
  exact (H.d.mul tendsto_const_nhds).mul ((tendsto_const_nhds.add H.a01).sub H.a11)

theorem d2p_dtd : Tendsto (fun k => (propsFinish (s k)).1.d2p_dtd) l (𝓝 (propsFinish s0).1.d2p_dtd) := by
  simp only [propsFinish_d2p_dtd]
  exact tendsto_const_nhds.mul ((((tendsto_const_nhds.add (tendsto_const_nhds.mul H.a01)).add H.a02).sub
    (tendsto_const_nhds.mul H.a11)).sub H.a12)

theorem g : Tendsto (fun k => (propsFinish (s k)).1.g) l (𝓝 (propsFinish s0).1.g) := by
  simp only [propsFinish_g]
  exact H.rt.mul (((tendsto_const_nhds.add H.a01).add H.i0).add H.a00)

theorem u : Tendsto (fun k => (propsFinish (s k)).1.u) l (𝓝 (propsFinish s0).1.u) := by
  simp only [propsFinish_u]
  exact H.rt.mul (H.i1.add H.a10)

theorem h : Tendsto (fun k => (propsFinish (s k)).1.h) l (𝓝 (propsFinish s0).1.h) := by
  simp only [propsFinish_h]
  exact H.rt.mul (((tendsto_const_nhds.add H.a01).add H.i1).add H.a10)

theorem ent : Tendsto (fun k => (propsFinish (s k)).1.s) l (𝓝 (propsFinish s0).1.s) := by
  simp only [propsFinish_s]
  exact tendsto_const_nhds.mul (((H.i1.add H.a10).sub H.i0).sub H.a00)

theorem cv : Tendsto (fun k => (propsFinish (s k)).1.cv) l (𝓝 (propsFinish s0).1.cv) := by
  simp only [propsFinish_cv]
  exact tendsto_const_nhds.mul (H.i2.add H.a20)

theorem near (hd : 1e-15 < s0.d) : ∀ᶠ k in l, FOps.lt (EPSILON : ℝ) (Gerg.d (s k)) = true :=
  (H.d.eventually (lt_mem_nhds hd)).mono fun _ h => (lt_eps _).2 h

omit H in
theorem dne (hd : 1e-15 < s0.d) : s0.d ≠ 0 := (lt_trans (by norm_num) hd : (0 : ℝ) < s0.d).ne'

theorem d2p_dd2 (hd : 1e-15 < s0.d) : Tendsto (fun k => (propsFinish (s k)).1.d2p_dd2) l (𝓝 (propsFinish s0).1.d2p_dd2) := by
  simp only [propsFinish_d2p_dd2, lt_eps, hd, if_true]
  exact ((H.rt.mul (((tendsto_const_nhds.mul H.a01).add (tendsto_const_nhds.mul H.a02)).add H.a03)).div H.d (dne hd)).congr'
    ((H.near hd).mono fun k h => by simp only [(lt_eps _).1 h, if_true, Pi.div_apply])

theorem cp (hd : 1e-15 < s0.d) (hdd : (propsFinish s0).1.dp_dd ≠ 0) :
    Tendsto (fun k => (propsFinish (s k)).1.cp) l (𝓝 (propsFinish s0).1.cp) := by
  have q := H.dp_dt.div H.d (dne hd)
  rw [propsFinish_cp, (lt_eps _).2 hd, if_pos rfl]
  exact (H.cv.add (((H.t.mul q).mul q).div H.dp_dd hdd)).congr'
    ((H.near hd).mono fun k h => by simp only [propsFinish_cp, h, if_true, Pi.div_apply])

theorem jt (hd : 1e-15 < s0.d) (hdd : (propsFinish s0).1.dp_dd ≠ 0) (hcp : (propsFinish s0).1.cp ≠ 0) :
    Tendsto (fun k => (propsFinish (s k)).1.jt) l (𝓝 (propsFinish s0).1.jt) := by
  rw [propsFinish_jt, (lt_eps _).2 hd, if_pos rfl]
  exact (((((H.t.div H.d (dne hd)).mul H.dp_dt).div H.dp_dd hdd).sub tendsto_const_nhds).div (H.cp hd hdd) hcp |>.div H.d (dne hd)).congr'
    ((H.near hd).mono fun k h => by simp only [propsFinish_jt, h, if_true, Pi.div_apply])

theorem w (hd : 1e-15 < s0.d) (hdd : (propsFinish s0).1.dp_dd ≠ 0) (hcv : (propsFinish s0).1.cv ≠ 0) (hmm : s0.mm ≠ 0) :
    Tendsto (fun k => (propsFinish (s k)).1.w) l (𝓝 (propsFinish s0).1.w) := by
  have e : ∀ y : ℝ, FOps.sqrt (if FOps.lt y (f% 0.0 : ℝ) = true then (f% 0.0 : ℝ) else y) = √(max y 0) := by
    intro y
    simp only [r_lt, l0, r_sqrt]
    split
    · rename_i h; rw [max_eq_right h.le]
    · rename_i h; rw [max_eq_left (not_lt.1 h)]
  simp only [propsFinish_w, e]
  exact (((((tendsto_const_nhds.mul (H.cp hd hdd)).div H.cv hcv).mul H.dp_dd).div H.mm hmm).max tendsto_const_nhds).sqrt

theorem kappa (hT : s0.t ≠ 0) (hd : 1e-15 < s0.d) (hdd : (propsFinish s0).1.dp_dd ≠ 0) (hcv : (propsFinish s0).1.cv ≠ 0)
    (hmm : s0.mm ≠ 0) (hz : (propsFinish s0).1.z ≠ 0) :
    Tendsto (fun k => (propsFinish (s k)).1.kappa) l (𝓝 (propsFinish s0).1.kappa) := by
  have h1000 : (f% 1000.0 : ℝ) ≠ 0 := by rw [r_ofDec]; norm_num
  have hR : (RGERG : ℝ) ≠ 0 := by rw [R_real]; norm_num
  simp only [propsFinish_kappa, r_powi]
  exact (((H.w hd hdd hcv hmm).pow 2).mul H.mm).div ((H.rt.mul tendsto_const_nhds).mul H.z)
    (mul_ne_zero (mul_ne_zero (mul_ne_zero hR hT) h1000) hz)

end MidTends
end

/-- The entries of `ar` and `a0` of new objects converge. -/
theorem tendsto_mid {q : ι → Pub ℝ} {q0 : Pub ℝ} (ht : Tendsto (fun k => (q k).t) l (𝓝 q0.t))
    (hd : Tendsto (fun k => (q k).d) l (𝓝 q0.d))
    (hx : ∀ i : Fin 22, 1 ≤ i.1 → Tendsto (fun k => aget (q k).x i) l (𝓝 (aget q0.x i))) (hT : 1e-7 < q0.t)
    (hX : Present q0.x) (h0 : ∀ i : Fin 22, 1 ≤ i.1 → aget q0.x i ≠ 1e-15)
    (hmm : Tendsto (fun k => (molar_mass (freshOf (q k))).mm) l (𝓝 (molar_mass (freshOf q0)).mm)) :
    MidTends l (fun k => propsMid (freshOf (q k))) (propsMid (freshOf q0)) := by
  have hT0 : 0 < q0.t := lt_trans (by norm_num) hT
  have hs := eventually_samePat hx h0
  have near : ∀ᶠ k in l, XFar (q k).x (fill 22 (f% 0.0)) ∧ 1e-7 < (q k).t := by
    obtain ⟨i, hi, hi'⟩ := hX
    filter_upwards [ht.eventually (lt_mem_nhds hT), (hx i hi).eventually (lt_mem_nhds (lt_of_lt_of_le (by norm_num : (1e-7 : ℝ) < 1e-6) hi'))] with k h1 h2
    refine ⟨⟨i, hi, ?_⟩, h1⟩
    rw [r_lt, lem7, r_abs, aget_fill, l0, sub_zero]
    exact lt_of_lt_of_le h2 (le_abs_self _)
  have ar : ∀ {a b : Fin 4} {fac : Fac}, Adds 1 a b fac → ContFac fac →
      Tendsto (fun k => aget2 (propsMid (freshOf (q k))).ar a b) l (𝓝 (aget2 (propsMid (freshOf q0)).ar a b)) := by
    intro a b fac h hf
    have e : aget2 (propsMid (freshOf q0)).ar a b = RT q0.x fac q0.d q0.t := ar_fresh (q := q0) hX.xfar hT h
    rw [e]
    exact (tendsto_RT hx hs hX hf hd ht hT0).congr' (near.mono fun k hk => (ar_fresh (q := q k) hk.1 hk.2 h).symm)
  have a0 : ∀ q : Pub ℝ, aget (propsMid (freshOf q)).a0 0 = I0 m0 q.x q.d q.t ∧ aget (propsMid (freshOf q)).a0 1 = I1 m0 q.x q.t ∧
      aget (propsMid (freshOf q)).a0 2 = I2 m0 q.x q.t := fun q => a0_fresh (q := q) q.t
  have f1 : ∀ σ, Continuous fun δ => Shape.f1 σ δ := contFac_f1
  have f2 : ∀ σ, Continuous fun δ => Shape.f2 σ δ := contFac_f2
  refine ⟨?_, ?_, ?_, ar (adds00 (by decide)) fun _ => continuous_const, ar (adds01 1) contFac_f1, ar (adds02 1) contFac_f2,
    ar (adds03 (by decide)) contFac_f3, ar (adds10 (by decide)) fun _ => continuous_const,
    ar (adds11 (by decide)) fun σ => (f1 σ).const_mul _, ar (adds12 (by decide)) fun σ => (f2 σ).const_mul _,
    ar (adds20 (by decide)) fun _ => continuous_const, ?_, ?_, ?_⟩
  · simp only [propsMid_t]; exact ht
  · simp only [propsMid_d]; exact hd
  · simp only [propsMid_mm]; exact hmm
  · simp only [(a0 _).1]; exact tendsto_I0 hx hs m0 hd ht hT0
  · simp only [(a0 _).2.1]; exact tendsto_I1 hx hs m0 ht hT0
  · simp only [(a0 _).2.2]; exact tendsto_I2 hx hs m0 ht hT0

end Aga8.Gerg
