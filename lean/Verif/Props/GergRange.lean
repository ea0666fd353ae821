import Verif.Lemmas.GergMixRange
import Verif.Props.RoundTrip

/-! # C81: the f64 heat capacities and the speed of sound of a gas mixture are in physical order and range (GERG-2008)

The theorems are about IEEE-754 arithmetic, with any `exp`, `powf`, `powi` and `ln` that are accurate in the sense of
`Spec/F64Accuracy`. The mixtures are those of the 21 components from 1.1 times their reducing temperature on, up to a tenth of their
reducing density. -/

set_option linter.unusedSectionVars false

namespace Aga8

open F64
open Gerg (Pub setPub ErrDomain DensDomain fracs)

attribute [local irreducible] Gerg.newP Gerg.pressureP Gerg.propertiesP Gerg.densityP

namespace Gerg

/-- Reals only: the speed of sound and the isentropic exponent. -/
theorem speed_aux {V P T d M Z : ℝ} (v1 : 12.01 ≤ V) (v3 : 6.97 ≤ P - V) (v4 : P - V ≤ 280) (T0 : 0 < T)
    (c1 : 0.854 ≤ Z) (c2 : Z ≤ 1.088) (c3 : 0.702 ≤ d) (c4 : d ≤ 1.176) (M0 : 0 < M) :
    0.837 * √(8314.472 * T / M) ≤ soundSpeed P V (8.314472 * T * d) M ∧
    soundSpeed P V (8.314472 * T * d) M ≤ 5.36 * √(8314.472 * T / M) ∧
    0.645 ≤ isentropic (soundSpeed P V (8.314472 * T * d) M) M 8.314472 T Z ∧
    isentropic (soundSpeed P V (8.314472 * T * d) M) M 8.314472 T Z ≤ 33.6 := by
  norm_num at v1 v3 v4 c1 c2 c3 c4
  have V0 : 0 < V := by linarith
  have d0 : 0 < d := by linarith
  have Z0 : 0 < Z := by linarith
  obtain ⟨r, er⟩ : ∃ r, r = P / V := ⟨_, rfl⟩
  have r1 : 1 ≤ r := by rw [er, le_div_iff₀ V0]; linarith
  have r2 : r ≤ 24.32 := by rw [er, div_le_iff₀ V0]; norm_num; linarith
  have e : 1000 * P / V * (8.314472 * T * d) / M = r * d * (8314.472 * T / M) := by rw [er]; ring
  have k1 : 0.702 ≤ r * d := by norm_num; nlinarith
  have k2 : r * d ≤ 28.61 := by norm_num at r2 ⊢; nlinarith
  have e2 : isentropic (soundSpeed P V (8.314472 * T * d) M) M 8.314472 T Z = r * d / Z := by
    unfold isentropic soundSpeed
    rw [e, Real.sq_sqrt (by positivity)]
    field_simp
    norm_num
  rw [e2]
  unfold soundSpeed
  rw [e]
  generalize r * d = y at *
  have X0 : 0 ≤ 8314.472 * T / M := by positivity
  generalize 8314.472 * T / M = X at *
  norm_num at k1 k2
  have y0 : 0 ≤ y := by linarith
  rw [Real.sqrt_mul y0]
  refine ⟨mul_le_mul_of_nonneg_right ?_ (Real.sqrt_nonneg _), mul_le_mul_of_nonneg_right ?_ (Real.sqrt_nonneg _), ?_, ?_⟩
  · apply Real.le_sqrt_of_sq_le
    norm_num
    linarith
  · apply Real.sqrt_le_iff.2 ⟨by norm_num, ?_⟩
    norm_num
    linarith
  · rw [le_div_iff₀ Z0]; norm_num; linarith
  · rw [div_le_iff₀ Z0]; norm_num; linarith

variable [Libm]

/-- The exact properties of a gas mixture up to a tenth of the reducing density. -/
theorem mix_range {q : Pub Float} (hq : ErrDomain q) (hx : ∀ i : Fin 22, 1 ≤ i.1 → 0 ≤ toR (aget q.x i))
    (hs1 : 0.99 ≤ ∑ i : Fin 22 with 1 ≤ i.1, toR (aget q.x i)) (hs2 : ∑ i : Fin 22 with 1 ≤ i.1, toR (aget q.x i) ≤ 1.01)
    (hT : 1.1 * GergEos.Tr (fracs q) ≤ toR q.t) {D : ℝ} (hD : 1e-4 ≤ D) (hδ : D * GergEos.invRhoR (fracs q) ≤ 0.1) :
    (12.01 ≤ GergEos.heatV (fracs q) D (toR q.t) ∧ GergEos.heatV (fracs q) D (toR q.t) ≤ 1122.5 ∧
      6.97 ≤ GergEos.heatP (fracs q) D (toR q.t) - GergEos.heatV (fracs q) D (toR q.t) ∧
      GergEos.heatP (fracs q) D (toR q.t) - GergEos.heatV (fracs q) D (toR q.t) ≤ 280) ∧
    0.837 * √(8314.472 * toR q.t / GergEos.mass (fracs q)) ≤ GergEos.speed (fracs q) D (toR q.t) ∧
    GergEos.speed (fracs q) D (toR q.t) ≤ 5.36 * √(8314.472 * toR q.t / GergEos.mass (fracs q)) ∧
    0.645 ≤ GergEos.exponent (fracs q) D (toR q.t) ∧ GergEos.exponent (fracs q) D (toR q.t) ≤ 33.6 := by
  have T0 : 0 < toR q.t := by linarith [hq.t_low]
  have e' : ∀ i : Fin 22, 1 ≤ i.1 → fracs q i = yOf (xr q.x) i := fracs_eq (okX_of hq)
  have eV : GergEos.invRhoR (fracs q) = GergEos.invRhoR (yOf (xr q.x)) := reducing_congr' e' _ _
  have eT : GergEos.Tr (fracs q) = GergEos.Tr (yOf (xr q.x)) := reducing_congr' e' _ _
  have es : ∑ i : Fin 22 with 1 ≤ i.1, yOf (xr q.x) i = ∑ i : Fin 22 with 1 ≤ i.1, toR (aget q.x i) :=
    Finset.sum_congr rfl fun i hi => (e' i (Finset.mem_filter.1 hi).2).symm.trans (max_eq_left (hx i (Finset.mem_filter.1 hi).2))
  have hx0 : ∀ i : Fin 22, 1 ≤ i.1 → 0 ≤ yOf (xr q.x) i := fun i hi => by rw [← e' i hi]; exact le_max_right _ _
  have hP : Present (xr q.x) := by
    obtain ⟨k, hk, hx⟩ := hq.x_big
    exact ⟨k, hk, by rw [xr_get]; exact le_trans (by norm_num) hx⟩
  have v0 : 0 ≤ GergEos.invRhoR (yOf (xr q.x)) := by
    obtain ⟨k, hk, hx⟩ := hq.x_big
    exact le_trans (by norm_num) (vr_low (x := xr q.x) hk (by rw [xr_get]; exact hx))
  have t2 := hq.t_red1
  rw [eT] at hT t2
  rw [eV] at hδ
  have t2' : toR q.t ≤ 100 * GergEos.Tr (yOf (xr q.x)) := by linarith
  have D0 : 0 ≤ D := le_trans (by norm_num) hD
  obtain ⟨⟨c1, c2⟩, ⟨c3, c4⟩, -⟩ := range_sums hP hx0 (by rw [es]; exact hs2) v0 T0 hT t2' D0 hδ
  obtain ⟨v1, v2, v3, v4⟩ := range_heat hP hx0 (by rw [es]; exact hs1) (by rw [es]; exact hs2) v0 T0 hT t2' hD hδ
  have eP : GergEos.heatP (fracs q) D (toR q.t) = GergEos.heatP (yOf (xr q.x)) D (toR q.t) := by
    unfold GergEos.heatP GergEos.pressureD
    rw [heatV_congr' e', pressureT_congr' e', dPdD_congr' e']
  rw [← heatV_congr' e', ← eP] at v3 v4
  rw [← heatV_congr' e'] at v1 v2
  rw [← Z_congr' e'] at c1 c2
  rw [← dPdD_congr' e'] at c3 c4
  have M0 : 0 < GergEos.mass (fracs q) := lt_of_lt_of_le (by norm_num) (ap_mm hq hx).2.1
  exact ⟨⟨v1, v2, v3, v4⟩, speed_aux v1 v3 v4 T0 c1 c2 c3 c4 M0⟩

end Gerg

variable [Libm]

/-- Reals only: the stored values have the range of the exact ones. -/
theorem gerg_range_aux {V P W K S cv cp w k : ℝ} (v1 : 12.01 ≤ V) (v2 : V ≤ 1122.5) (v3 : 6.97 ≤ P - V) (v4 : P - V ≤ 280)
    (S0 : 0 ≤ S) (u1 : 0.837 * S ≤ W) (u2 : W ≤ 5.36 * S) (u3 : 0.645 ≤ K) (u4 : K ≤ 33.6)
    (r1 : |cv - V| ≤ 1e-7 * V) (r2 : |cp - P| ≤ 1e-7 * P) (r3 : |w - W| ≤ 1e-7 * W) (r4 : |k - K| ≤ 1e-7 * K) :
    12 ≤ cv ∧ cv ≤ 1123 ∧ cv + 6.9 ≤ cp ∧ cp ≤ cv + 281 ∧ 0.83 * S ≤ w ∧ w ≤ 5.4 * S ∧ 0.64 ≤ k ∧ k ≤ 34 := by
  have r1 := abs_le.1 r1
  have r2 := abs_le.1 r2
  have r3 := abs_le.1 r3
  have r4 := abs_le.1 r4
  norm_num at v1 v2 v3 v4 u1 u2 u3 u4 r1 r2 r3 r4 ⊢
  refine ⟨?_, ?_, ?_, ?_, ?_, ?_, ?_, ?_⟩ <;> linarith

/-- C81, GERG-2008: with an accurate math library, for every mixture of fractions that sum to 0.99 to 1.01, at 50 K to 1000 K and from
1.1 times its reducing temperature on, and a density from 1e-4 mol/l up to a tenth of its reducing density, the isochoric heat
capacity that `properties` stores is between 12 and 1123 J/(mol K), and the isobaric one is larger by 6.9 to 281 J/(mol K). The speed
of sound is between 0.83 and 5.4 times `√(R T / M)`, and the isentropic exponent is between 0.64 and 34. -/
theorem C81_gerg_properties (hL : LibmAccurate) (hN : LnAccurate) (new0 : Gerg Float) (hnew : Gerg.new = .ok new0)
    (q : Pub Float) (hq : ErrDomain q) (hx : ∀ i : Fin 22, 1 ≤ i.1 → 0 ≤ toR (aget q.x i))
    (hs1 : 0.99 ≤ ∑ i : Fin 22 with 1 ≤ i.1, toR (aget q.x i)) (hs2 : ∑ i : Fin 22 with 1 ≤ i.1, toR (aget q.x i) ≤ 1.01)
    (hT0 : 50 ≤ toR q.t) (hT1 : 1.1 * GergEos.Tr (fracs q) ≤ toR q.t) (hT2 : toR q.t ≤ 1000) (hD : 1e-4 ≤ toR q.d)
    (hδ : toR q.d * GergEos.invRhoR (fracs q) ≤ 0.1) :
    ∃ s' p, (setPub new0 q).properties = .ok (s', p) ∧ IsFinite s'.cv ∧ IsFinite s'.cp ∧ IsFinite s'.w ∧ IsFinite s'.kappa ∧
      12 ≤ toR s'.cv ∧ toR s'.cv ≤ 1123 ∧ toR s'.cv + 6.9 ≤ toR s'.cp ∧ toR s'.cp ≤ toR s'.cv + 281 ∧
      0.83 * √(8314.472 * toR q.t / GergEos.mass (fracs q)) ≤ toR s'.w ∧
      toR s'.w ≤ 5.4 * √(8314.472 * toR q.t / GergEos.mass (fracs q)) ∧ 0.64 ≤ toR s'.kappa ∧ toR s'.kappa ≤ 34 := by
  obtain ⟨⟨v1, v2, v3, v4⟩, u1, u2, u3, u4⟩ := Gerg.mix_range hq hx hs1 hs2 hT1 hD hδ
  have hδ' : toR q.d * GergEos.invRhoR (fracs q) ≤ 1 / 2 := hδ.trans (by norm_num)
  obtain ⟨s', p, e1, ⟨-, -, -, -, f0⟩, -, -, -, -, -, r1⟩ := C71_gerg_mixture_properties hL hN new0 hnew q hq hx hs1 hs2 hT0 hT1 hT2 hD hδ' _ rfl
  obtain ⟨s2, p2, e2, f1, f2, f3, -, r2, r3, r4, -⟩ := C71_gerg_mixture_derived hL hN new0 hnew q hq hx hs1 hs2 hT0 hT1 hT2 hD hδ' _ rfl
  have e := congrArg Prod.fst (Except.ok.inj (e1.symm.trans e2))
  dsimp only at e
  subst e
  have K1 : GergEos.loss (toR q.d * GergEos.invRhoR (fracs q)) (GergEos.Tr (fracs q) / toR q.t) ≤ 13 := by
    have c : toR q.d * GergEos.invRhoR (fracs q) ≤ 1 / 10 := hδ.trans (by norm_num)
    unfold GergEos.loss
    rw [if_pos c, if_pos c]
    split_ifs <;> norm_num
  have K0 := (GergEos.loss_le (toR q.d * GergEos.invRhoR (fracs q)) (GergEos.Tr (fracs q) / toR q.t)).1
  refine ⟨s', p, e1, f0, f1, f2, f3, ?_⟩
  clear e1 e2
  generalize GergEos.loss _ _ = L at *
  have S0 := Real.sqrt_nonneg (8314.472 * toR q.t / GergEos.mass (fracs q))
  generalize √(8314.472 * toR q.t / GergEos.mass (fracs q)) = S at *
  have up : ∀ {a v c : ℝ}, |a - v| ≤ c * L * v → 0 < c → c * 13 ≤ 1e-7 → |a - v| ≤ 1e-7 * v := by
    intro a v c h1 hc h2
    have c0 : 0 < c * L := mul_pos hc (by linarith)
    have v0 : 0 ≤ v := nonneg_of_mul_nonneg_right ((abs_nonneg _).trans h1) c0
    exact h1.trans (mul_le_mul_of_nonneg_right ((mul_le_mul_of_nonneg_left K1 hc.le).trans h2) v0)
  exact gerg_range_aux v1 v2 v3 v4 S0 u1 u2 u3 u4 (up r1 (by norm_num) (by norm_num)) (up r2 (by norm_num) (by norm_num))
    (up r3 (by norm_num) (by norm_num)) (up r4 (by norm_num) (by norm_num))

/-- C81, GERG-2008 after `density`: the same for the density that `density` finds at the pressures of C72. -/
theorem C81_gerg_workflow (hL : LibmAccurate) (hN : LnAccurate) (new0 : Gerg Float) (hnew : Gerg.new = .ok new0)
    (q : Pub Float) (h : DensDomain q) (hs1 : 0.99 ≤ ∑ i : Fin 22 with 1 ≤ i.1, toR (aget q.x i))
    (hs2 : ∑ i : Fin 22 with 1 ≤ i.1, toR (aget q.x i) ≤ 1.01) (hT0 : 50 ≤ toR q.t) (hT2 : toR q.t ≤ 1000)
    (hT : 1.1 * GergEos.Tr (fracs q) ≤ toR q.t) (d1 : 3e-4 ≤ toR q.p / (8.314472 * toR q.t))
    (d2 : toR q.p / (8.314472 * toR q.t) ≤ 300)
    (d3 : toR q.p / (8.314472 * toR q.t) * GergEos.invRhoR (fracs q) ≤ if 1.25 * GergEos.Tr (fracs q) ≤ toR q.t then 0.06 else 0.05)
    (fd : IsFinite q.d) (d0 : 0 ≤ toR q.d) (iflag : Int) (hf : iflag ≤ 0) :
    ∃ s' s'' p, (setPub new0 q).density iflag = .ok (s', .ok ()) ∧ s'.properties = .ok (s'', p) ∧
      12 ≤ toR s''.cv ∧ toR s''.cv ≤ 1123 ∧ toR s''.cv + 6.9 ≤ toR s''.cp ∧ toR s''.cp ≤ toR s''.cv + 281 ∧
      0.83 * √(8314.472 * toR q.t / GergEos.mass (fracs q)) ≤ toR s''.w ∧
      toR s''.w ≤ 5.4 * √(8314.472 * toR q.t / GergEos.mass (fracs q)) ∧ 0.64 ≤ toR s''.kappa ∧ toR s''.kappa ≤ 34 := by
  obtain ⟨s', s'', p, d, e1, e2, -, -, -, -, -, -, -, -, -, -, -, -, -, -, -, r1, -, r2, -, r3, -, r4, l1, l2⟩ :=
    C72_gerg_mixture_workflow hL hN new0 hnew q h hs1 hs2 hT0 hT2 hT d1 d2 d3 fd d0 iflag hf
  have hx : ∀ i : Fin 22, 1 ≤ i.1 → 0 ≤ toR (aget q.x i) := fun i hi => by
    rcases h.x_rng i hi with e | e
    · exact e.ge
    · exact le_trans (by norm_num) e.1
  have hq : ErrDomain { q with d := f% 0.0 } :=
    ⟨h.t_fin, h.t_low, h.t_high, h.t_red1, h.t_red2, Gerg.mix12_d.1, Or.inl Gerg.mix12_d.2, by
      show toR (f% 0.0 : Float) * _ ≤ _
      rw [show toR (f% 0.0 : Float) = 0 from Gerg.mix12_d.2]; norm_num, h.x_fin,
      fun i hi => (h.x_rng i hi).imp le_of_eq id, h.x_big⟩
  obtain ⟨⟨v1, v2, v3, v4⟩, u1, u2, u3, u4⟩ := Gerg.mix_range hq hx hs1 hs2 hT l1 l2
  change 12.01 ≤ GergEos.heatV (fracs q) (toR s''.d) (toR q.t) at v1
  change GergEos.heatV (fracs q) (toR s''.d) (toR q.t) ≤ 1122.5 at v2
  change 6.97 ≤ GergEos.heatP (fracs q) (toR s''.d) (toR q.t) - GergEos.heatV (fracs q) (toR s''.d) (toR q.t) at v3
  change GergEos.heatP (fracs q) (toR s''.d) (toR q.t) - GergEos.heatV (fracs q) (toR s''.d) (toR q.t) ≤ 280 at v4
  change _ ≤ GergEos.speed (fracs q) (toR s''.d) (toR q.t) at u1
  change GergEos.speed (fracs q) (toR s''.d) (toR q.t) ≤ _ at u2
  change 0.645 ≤ GergEos.exponent (fracs q) (toR s''.d) (toR q.t) at u3
  change GergEos.exponent (fracs q) (toR s''.d) (toR q.t) ≤ 33.6 at u4
  refine ⟨s', s'', p, e1, e2, ?_⟩
  have up : ∀ {a v c : ℝ}, |a - v| ≤ c * v → 0 < c → c ≤ 1e-7 → |a - v| ≤ 1e-7 * v := by
    intro a v c h1 hc h2
    exact h1.trans (mul_le_mul_of_nonneg_right h2 (nonneg_of_mul_nonneg_right ((abs_nonneg _).trans h1) hc))
  exact gerg_range_aux v1 v2 v3 v4 (Real.sqrt_nonneg _) u1 u2 u3 u4 (up r1 (by norm_num) (by norm_num))
    (up r2 (by norm_num) (by norm_num)) (up r3 (by norm_num) (by norm_num)) (up r4 (by norm_num) (by norm_num))

/-! ## The hypotheses can be met -/

attribute [local irreducible] Gerg.mix12 Gerg.mixQuarter

/-- Equal parts of methane and nitrogen at 300 K and 0.25 mol/l meet the hypotheses. -/
example (hL : LibmAccurate) (hN : LnAccurate) (new0 : Gerg Float) (hnew : Gerg.new = .ok new0) :
    ∃ s' p, (setPub new0 Gerg.mixQuarter).properties = .ok (s', p) ∧ 12 ≤ toR s'.cv := by
  obtain ⟨hx, ft, ht, fd, hd⟩ := Gerg.mixQuarter_ok
  obtain ⟨T1, T2⟩ := Gerg.errMix_Tr
  obtain ⟨V1, V2⟩ := Gerg.errMix_V
  have hs : ∑ i : Fin 22 with 1 ≤ i.1, toR (aget Gerg.mixQuarter.x i) = 1 := by
    simp only [(hx _).2]
    rw [Finset.sum_eq_add (1 : Fin 22) 2 (by decide)]
    · rw [if_pos rfl, if_neg (by decide), if_pos rfl]; norm_num
    · intro i _ h
      rw [if_neg h.1, if_neg h.2]
    · intro h; exact absurd (by decide) h
    · intro h; exact absurd (by decide) h
  obtain ⟨s', p, e1, -, -, -, -, e2, -⟩ := C81_gerg_properties hL hN new0 hnew Gerg.mixQuarter Gerg.mixQuarter_dom
    (fun i _ => by rw [(hx i).2]; split <;> [norm_num; (split <;> norm_num)]) (by rw [hs]; norm_num) (by rw [hs]; norm_num)
    (by rw [ht]; norm_num) (by rw [ht, Gerg.mixQuarter_fracs]; norm_num; linarith) (by rw [ht]; norm_num) (by rw [hd]; norm_num)
    (by rw [hd, Gerg.mixQuarter_fracs]; norm_num at V2 ⊢; linarith)
  exact ⟨s', p, e1, e2⟩

/-- Equal parts of methane and nitrogen at 300 K and 1.2 MPa meet the hypotheses of the workflow. -/
example (hL : LibmAccurate) (hN : LnAccurate) (new0 : Gerg Float) (hnew : Gerg.new = .ok new0) :
    ∃ s' s'' p, (setPub new0 Gerg.mix12).density 0 = .ok (s', .ok ()) ∧ s'.properties = .ok (s'', p) ∧ 12 ≤ toR s''.cv := by
  obtain ⟨h1, h2, h3, h4⟩ := Gerg.mix12_red
  have ht := Gerg.mix12_t
  obtain ⟨s', s'', p, e1, e2, e3, -⟩ := C81_gerg_workflow hL hN new0 hnew
    Gerg.mix12 Gerg.mix12_dom (by rw [Gerg.mix12_sum]; norm_num) (by rw [Gerg.mix12_sum]; norm_num) (by rw [ht]; norm_num)
    (by rw [ht]; norm_num) h1 h2 h3 h4 Gerg.mix12_d.1 Gerg.mix12_d.2.ge 0 le_rfl
  exact ⟨s', s'', p, e1, e2, e3⟩

end Aga8
