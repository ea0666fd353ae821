import Verif.Lemmas.GergMixHeat
import Verif.Props.PhysicalRange

/-! # C86: heating a natural gas raises its f64 energies and its entropy, and compressing it lowers the entropy (DETAIL)

The theorems are about IEEE-754 arithmetic, with any `exp`, `powf`, `powi` and `ln` that are accurate in the sense of
`Spec/F64Accuracy`. They compare two calls of `properties`. `Spec/NormalGas` says which compositions are natural gases. -/

set_option linter.unusedSectionVars false

namespace Aga8

open F64
open Detail (Pub setPub)
open Detail.Tab

attribute [local irreducible] Detail.pressureP Detail.propertiesP Detail.densityP

variable [Libm]

namespace Detail.Ng

/-! ## The slopes of the exact quantities -/

section
variable {x : Fin 21 → ℝ} {D T : ℝ}

theorem slope_entropy (hx : ∀ i, 0 ≤ x i) (hD : 1e-15 < D) (hT : 0 < T) :
    HasDerivAt (fun T => Eos.entropy x D T) (Eos.heatV x D T / T) T := by
  have hS := ((((ideal_deriv x hx hD).2.2 T hT).sub (hasDerivAt_alphaR2 x D hT)).const_mul (-8.31451 : ℝ))
  have hE := hS.congr_of_eventuallyEq (f₁ := fun T => Eos.entropy x D T) ((eventually_gt_nhds hT).mono fun t ht => by
    simp only [Pi.sub_apply]
    rw [entropy_sum hx hD ht, Finset.sum_neg_distrib]
    simp only [mul_assoc, ← Finset.mul_sum]
    ring)
  refine hE.congr_deriv ?_
  rw [heatV_sum hx hD hT]
  simp only [mul_assoc, ← Finset.mul_sum]
  ring

theorem slope_energy (hx : ∀ i, 0 ≤ x i) (hD : 1e-15 < D) (hT : 0 < T) :
    HasDerivAt (fun T => Eos.energy x D T) (Eos.heatV x D T) T := by
  have hA := ((((ideal_deriv x hx hD).2.1 T hT).add (hasDerivAt_alphaR x D hT)).const_mul (8.31451 : ℝ))
  have e : (fun T => Eos.helmholtz x D T)
      = fun T => 8.31451 * ((fun T => T * Eos.alpha0 x D T) + fun T => T * Eos.alphaR x D T) T := by
    funext T
    simp only [Pi.add_apply]
    unfold Eos.helmholtz
    ring
  rw [← e] at hA
  exact (hA.add ((hasDerivAt_id T).mul (slope_entropy hx hD hT))).differentiableAt.hasDerivAt

theorem slope_pressure (hT : 0 < T) :
    HasDerivAt (fun T => D * 8.31451 * T * Eos.Z x D T) (Eos.pressureT x D T) T :=
  (hasDerivAt_ZT x D hT).differentiableAt.hasDerivAt

theorem slope_tv (n : Fin 58) (hD : D ≠ 0) : HasDerivAt (fun D => tv x D T n) (tvZ x D T n / D) D := by
  have hl : HasDerivAt (fun D : ℝ => Eos.Kcubed x * D) (Eos.Kcubed x) D := by
    simpa using (hasDerivAt_id D).const_mul (Eos.Kcubed x)
  have a : HasDerivAt (fun D => zExp0 (Eos.Cstar x) (Eos.Kcubed x * D) T n)
      (zExp (Eos.Cstar x) (-1) (Eos.Kcubed x * D) T n / D) D := by
    unfold zExp0 zExp
    split
    · have hp : ∀ k : ℕ, HasDerivAt (fun D : ℝ => (Eos.Kcubed x * D) ^ k) ((k : ℝ) * (Eos.Kcubed x * D) ^ k / D) D := fun k => by
        refine (hl.pow k).congr_deriv ?_
        rcases k with _ | k
        · simp
        · rw [Nat.add_sub_cancel]
          field_simp
          ring
      have he : HasDerivAt (fun D => expK (aget KN n) (Eos.Kcubed x * D))
          (expK (aget KN n) (Eos.Kcubed x * D) * -((aget KN n : ℕ) * (Eos.Kcubed x * D) ^ aget KN n / D)) D := by
        unfold expK
        by_cases hk : aget KN n = 0
        · simp only [hk]
          simpa using hasDerivAt_const D (1 : ℝ)
        · simp only [hk, if_false]
          exact (hp (aget KN n)).neg.exp
      refine ((((hp (aget BN n)).const_mul (Eos.Cstar x n)).mul_const (T ^ (-Eos.c UN n))).mul he).congr_deriv ?_
      field_simp
    · simpa using hasDerivAt_const D (0 : ℝ)
  have b : HasDerivAt (fun D => zLin (bv x) (Eos.Cstar x) (-1) D (Eos.Kcubed x * D) T n)
      (zLin (bv x) (Eos.Cstar x) (-1) D (Eos.Kcubed x * D) T n / D) D := by
    unfold zLin
    split
    · split
      · refine ((((hasDerivAt_id D).const_mul (bv x ⟨n.1, by omega⟩)).add (hl.const_mul (-1 * Eos.Cstar x n))).mul_const
          (T ^ (-Eos.c UN n))).congr_deriv ?_
        field_simp
      · refine ((((hasDerivAt_id D).const_mul (bv x ⟨n.1, by omega⟩)).add (hasDerivAt_const D 0)).mul_const
          (T ^ (-Eos.c UN n))).congr_deriv ?_
        field_simp
        ring
    · simpa using hasDerivAt_const D (0 : ℝ)
  refine (a.add b).congr_deriv ?_
  unfold tvZ
  ring

theorem slope_entropy_d (hx : ∀ i, 0 ≤ x i) (hD : 1e-15 < D) (hT : 0 < T) :
    HasDerivAt (fun D => Eos.entropy x D T) (-(8.31451 * (∑ i, x i - ∑ n, (Eos.c UN n - 1) * tvZ x D T n)) / D) D := by
  have D0 : D ≠ 0 := by intro h; rw [h] at hD; norm_num at hD
  have hi : HasDerivAt (fun D => ∑ i, iv1 D T (x i) i) (∑ i, x i * D⁻¹) D := by
    refine HasDerivAt.fun_sum fun i _ => ?_
    unfold iv1
    refine HasDerivAt.const_mul _ ?_
    exact ((((Real.hasDerivAt_log D0).add_const _).add_const _).sub_const _).add_const _
  have hr : HasDerivAt (fun D => ∑ n, (Eos.c UN n - 1) * tv x D T n) (∑ n, (Eos.c UN n - 1) * (tvZ x D T n / D)) D :=
    HasDerivAt.fun_sum fun n _ => (slope_tv n D0).const_mul _
  have hS := (hi.sub hr).const_mul (-8.31451 : ℝ)
  have hE := hS.congr_of_eventuallyEq (f₁ := fun D => Eos.entropy x D T) ((eventually_gt_nhds hD).mono fun d hd => by
    simp only [Pi.sub_apply]
    rw [entropy_sum hx hd hT, Finset.sum_neg_distrib]
    simp only [mul_assoc, ← Finset.mul_sum]
    ring)
  refine hE.congr_deriv ?_
  simp only [← mul_div_assoc, ← Finset.sum_div, ← Finset.sum_mul]
  field_simp

end

section
variable {x : Fin 21 → ℝ} (h : Eos.NormalGas x) (hs : 0.99 ≤ ∑ i, x i)
include h hs

theorem pressureT_ge {D T : ℝ} (h1 : 263 ≤ T) (h2 : T ≤ 400) (hD : 0 ≤ D) (hd : D ≤ 1) : 4.98 * D ≤ Eos.pressureT x D T := by
  have T0 : 0 < T := by linarith
  obtain ⟨-, -, -, s4⟩ := sums_ng h h1 h2 hD hd
  have pT : Eos.pressureT x D T = D * 8.31451 * (1 - ∑ n, (Eos.c UN n - 1) * tvZ x D T n) := by
    rw [pressureT_sum T0, Finset.sum_neg_distrib]
    simp only [mul_assoc, ← Finset.mul_sum]
    ring
  rw [pT]
  generalize ∑ n, (Eos.c UN n - 1) * tvZ x D T n = y at *
  have := (abs_le.1 s4).2
  norm_num at this ⊢
  nlinarith

/-- The rise of the exact energies and of the entropy. -/
theorem heating_rise {T T' D : ℝ} (h1 : 263 ≤ T) (h2 : T' ≤ 400) (hT : T ≤ T') (hD : 1e-4 ≤ D) (hd : D ≤ 1) :
    9.56 * (T' - T) ≤ Eos.energy x D T' - Eos.energy x D T ∧
    14.54 * (T' - T) ≤ Eos.enthalpy x D T' - Eos.enthalpy x D T ∧
    0.0239 * (T' - T) ≤ Eos.entropy x D T' - Eos.entropy x D T := by
  have D0 : 0 < D := lt_of_lt_of_le (by norm_num) hD
  have D1 : 1e-15 < D := lt_of_lt_of_le (by norm_num) hD
  have T0 : 0 < T := by linarith
  have hV : ∀ t, T ≤ t → t ≤ T' → 9.56 ≤ Eos.heatV x D t := fun t a b => (heat_range h hs (h1.trans a) (b.trans h2) hD hd).1
  have u := GergEos.rise_ge (C := 9.56) hT fun t a b => ⟨slope_energy h.nonneg D1 (T0.trans_le a), hV t a b⟩
  have p := GergEos.rise_ge (C := 4.98 * D) hT fun t a b =>
    ⟨slope_pressure (x := x) (D := D) (T0.trans_le a), pressureT_ge h hs (h1.trans a) (b.trans h2) D0.le hd⟩
  have s := GergEos.rise_ge (C := 0.0239) hT fun t a b => ⟨slope_entropy h.nonneg D1 (T0.trans_le a), by
    have t0 := T0.trans_le a
    have := hV t a b
    rw [le_div_iff₀ t0]
    norm_num at this ⊢
    nlinarith⟩
  refine ⟨u, ?_, s⟩
  have p' : 4.98 * (T' - T) ≤ 8.31451 * T' * Eos.Z x D T' - 8.31451 * T * Eos.Z x D T := by
    have e : D * (4.98 * (T' - T)) ≤ D * (8.31451 * T' * Eos.Z x D T' - 8.31451 * T * Eos.Z x D T) := by
      refine le_trans (le_of_eq (by ring)) (p.trans (le_of_eq (by ring)))
    exact le_of_mul_le_mul_left e D0
  unfold Eos.enthalpy
  norm_num at u p' ⊢
  linarith

/-- The fall of the exact entropy when the gas is compressed. -/
theorem compression_fall {T D D' : ℝ} (h1 : 263 ≤ T) (h2 : T ≤ 400) (hDD : D ≤ D') (hD : 1e-4 ≤ D) (hd : D' ≤ 1) :
    4.89 * Real.log (D' / D) ≤ Eos.entropy x D T - Eos.entropy x D' T := by
  have D0 : 0 < D := lt_of_lt_of_le (by norm_num) hD
  have D1 : 1e-15 < D := lt_of_lt_of_le (by norm_num) hD
  have T0 : 0 < T := by linarith
  have s := GergEos.rise_ge (C := 0) hDD fun d a b =>
    ⟨((slope_entropy_d h.nonneg (D1.trans_le a) T0).neg).sub ((Real.hasDerivAt_log (D0.trans_le a).ne').const_mul 4.89), by
    have d0 := D0.trans_le a
    obtain ⟨-, -, -, s4⟩ := sums_ng h h1 h2 d0.le (b.trans hd)
    have c := (abs_le.1 s4).2
    generalize ∑ n, (Eos.c UN n - 1) * tvZ x d T n = y at *
    generalize ∑ i, x i = S at *
    have e : -(-(8.31451 * (S - y)) / d) - 4.89 * d⁻¹ = (8.31451 * (S - y) - 4.89) / d := by
      field_simp
    rw [e]
    refine div_nonneg ?_ d0.le
    norm_num at c hs ⊢
    linarith⟩
  simp only [Pi.sub_apply, Pi.neg_apply] at s
  rw [Real.log_div (D0.trans_le hDD).ne' D0.ne']
  linarith

omit h hs [Libm] in
/-- The size of the logarithms of density and mole fraction. -/
theorem mixSize_le {x D : ℝ} (h1 : 1e-10 ≤ x) (h2 : x ≤ 2) (hD : 1e-4 ≤ D) (hD2 : D ≤ 1000) : Eos.mixSize x D ≤ 61 := by
  have a := GergEos.lnSizes_le h1 h2 hD hD2
  have l0 : Eos.lnSize (101.325 / (8.31451 * 298.15)) ≤ 25 := by
    unfold Eos.lnSize
    have a := Real.one_sub_inv_le_log_of_pos (x := (101.325 / (8.31451 * 298.15) : ℝ)) (by norm_num)
    have b := Real.log_nonpos (x := (101.325 / (8.31451 * 298.15) : ℝ)) (by norm_num) (by norm_num)
    rw [abs_of_nonpos b]
    norm_num at a ⊢
    linarith
  unfold Eos.mixSize
  have b1 : Eos.lnSize D ≤ 11 := a.1
  have b2 : Eos.lnSize x ≤ 25 := a.2
  linarith

omit h hs [Libm] in
/-- The sizes of the ideal-gas parts of a component. -/
theorem idealSize_le (i : Fin 21) {T : ℝ} (hT : 200 ≤ T) (hT2 : T ≤ 1000) :
    Eos.idealSize0 (GergEos.ideal.getD i.1 Inhabited.default) T ≤ 2987 ∧
    Eos.idealSize1 (GergEos.ideal.getD i.1 Inhabited.default) T ≤ 2987 := by
  have T0 : 0 < T := by linarith
  have c : (GergEos.ideal.getD i.1 Inhabited.default).size0 T + (GergEos.ideal.getD i.1 Inhabited.default).size1 T ≤ 2987 :=
    GergEos.size1_le ⟨i.1 + 1, by omega⟩ (by simp) hT hT2
  have h4 := (GergEos.ideal_bnds ⟨i.1 + 1, by omega⟩ (by simp)).2.2.2
  simp only [Nat.add_sub_cancel] at h4
  generalize GergEos.ideal.getD i.1 Inhabited.default = a at *
  obtain ⟨h4, h5, h6, h7⟩ := h4
  have nn : ∀ {n θ : ℚ} {y : ℝ}, (n = 0 ∨ 156 ≤ θ) → (0 ≤ (θ : ℝ) → 0 ≤ y) → 0 ≤ |(n : ℝ)| * y := by
    intro n θ y h hy
    rcases h with h | h
    · rw [h]; simp
    · exact mul_nonneg (abs_nonneg _) (hy (by exact_mod_cast (le_trans (by norm_num) h)))
  have sh : ∀ {θ : ℝ}, 0 ≤ θ → 0 ≤ Real.sinh (θ / T) := fun h => Real.sinh_nonneg_iff.2 (div_nonneg h T0.le)
  have k4 := nn h4 (y := a.th4 / T * Real.cosh (a.th4 / T) / Real.sinh (a.th4 / T)) fun h => by have := sh h; positivity
  have k5 := nn h5 (y := a.th5 / T * Real.sinh (a.th5 / T) / Real.cosh (a.th5 / T)) fun h => by have := sh h; positivity
  have k6 := nn h6 (y := a.th6 / T * Real.cosh (a.th6 / T) / Real.sinh (a.th6 / T)) fun h => by have := sh h; positivity
  have k7 := nn h7 (y := a.th7 / T * Real.sinh (a.th7 / T) / Real.cosh (a.th7 / T)) fun h => by have := sh h; positivity
  have m1 : 0 ≤ (|(a.n2 : ℝ)| + 298.15) / T := by positivity
  have m2 : |(a.n2 : ℝ)| / T ≤ (|(a.n2 : ℝ)| + 298.15) / T := by gcongr; linarith
  have m3 := abs_nonneg (a.n3 : ℝ)
  unfold GergEos.IdealTerms.size0 GergEos.IdealTerms.size1 at c
  unfold Eos.idealSize0 Eos.idealSize1
  have el : ∀ y, Eos.lnSize y = GergEos.lnSize y := fun _ => rfl
  simp only [el]
  constructor <;> linarith

/-- The size of the terms of the energies and of the entropy. -/
theorem heating_size (hx' : ∀ i, x i = 0 ∨ 1e-10 ≤ x i) {T D : ℝ} (h1 : 263 ≤ T) (h2 : T ≤ 400) (hD : 1e-4 ≤ D) (hd : D ≤ 1) :
    Eos.energyAbs x D T ≤ 2.06e7 ∧ Eos.enthalpyAbs x D T ≤ 2.06e7 ∧ Eos.entropyAbs x D T ≤ 2.57e4 ∧
      Eos.gibbsAbs x D T ≤ 1.04e7 := by
  have D0 : 0 < D := lt_of_lt_of_le (by norm_num) hD
  have T0 : 0 < T := by linarith
  obtain ⟨-, s2, -⟩ := sums_ng h h1 h2 D0.le hd
  obtain ⟨-, -, -, -, z, -⟩ := ng_unit h h1 h2 D0.le hd
  have t := ta_bounds h h1 h2 D0.le
  have t0 : ∀ n, 0 ≤ ta x D T n := fun n => (abs_nonneg _).trans (t n).1
  have b1 : ∑ n, (|Eos.c UN n| + 1) * ta x D T n ≤ 1.48 := (Finset.sum_le_sum fun n _ =>
    mul_le_mul_of_nonneg_left (t n).2.2 (by positivity)).trans s2
  have b0 : ∑ n, ta x D T n ≤ 1.48 := (Finset.sum_le_sum fun n _ => by
    have := mul_nonneg (abs_nonneg (Eos.c UN n)) (t0 n)
    linarith : _ ≤ ∑ n, (|Eos.c UN n| + 1) * ta x D T n).trans b1
  have x2 : ∀ i, x i ≤ 2 := fun i => by
    have := Finset.single_le_sum (fun j _ => h.nonneg j) (Finset.mem_univ i)
    have := h.sum
    norm_num at this
    linarith
  have i0 : ∑ i, is0 D T (x i) i ≤ ∑ i, x i * 3048 := Finset.sum_le_sum fun i _ => by
    rw [(is_eq _ _ _ _).1]
    rcases hx' i with e | e
    · rw [e]; simp
    · refine mul_le_mul_of_nonneg_left ?_ (h.nonneg i)
      have := mixSize_le e (x2 i) hD (hd.trans (by norm_num))
      have := (idealSize_le i (T := T) (by linarith) (by linarith)).1
      linarith
  have i1 : ∑ i, is1 D T (x i) i ≤ ∑ i, x i * 3048 := Finset.sum_le_sum fun i _ => by
    rw [(is_eq _ _ _ _).2.1]
    rcases hx' i with e | e
    · rw [e]; simp
    · refine mul_le_mul_of_nonneg_left ?_ (h.nonneg i)
      have := mixSize_le e (x2 i) hD (hd.trans (by norm_num))
      have := (idealSize_le i (T := T) (by linarith) (by linarith)).2
      linarith
  rw [← Finset.sum_mul] at i0 i1
  have hsum := h.sum
  have eh : Eos.helmholtzAbs x D T = 8.31451 * T * (∑ i, is0 D T (x i) i + ∑ n, ta x D T n) := by
    rw [helmholtzAbs_sum]
    simp only [mul_assoc, ← Finset.mul_sum]
    ring
  have ee : Eos.entropyAbs x D T = 8.31451 * (∑ i, is1 D T (x i) i + ∑ n, (|Eos.c UN n| + 1) * ta x D T n) := by
    rw [entropyAbs_sum]
    simp only [mul_assoc, ← Finset.mul_sum]
    ring
  unfold Eos.energyAbs Eos.enthalpyAbs Eos.gibbsAbs
  unfold Eos.energyAbs
  rw [eh, ee]
  generalize ∑ i, is0 D T (x i) i = y0 at *
  generalize ∑ i, is1 D T (x i) i = y1 at *
  generalize ∑ n, (|Eos.c UN n| + 1) * ta x D T n = y2 at *
  generalize ∑ n, ta x D T n = y3 at *
  generalize Eos.Zabs x D T = y4 at *
  generalize ∑ i, x i = S at *
  clear h hs hx' t t0 s2 x2 eh ee
  norm_num at b0 b1 z hsum i0 i1
  have up : ∀ y : ℝ, y ≤ 6166 → 8.31451 * T * y ≤ 2.06e7 := fun y hy => by
    have := mul_le_mul_of_nonneg_left hy (by positivity : 0 ≤ 8.31451 * T)
    norm_num at this ⊢
    linarith
  refine ⟨le_trans (le_of_eq (by ring)) (up (y0 + y3 + (y1 + y2)) (by linarith)),
    le_trans (le_of_eq (by ring)) (up (y0 + y3 + (y1 + y2) + y4) (by linarith)), ?_, ?_⟩
  · norm_num
    linarith
  · have hy : y0 + y3 + y4 ≤ 3083 := by linarith
    have := mul_le_mul_of_nonneg_left hy (by positivity : 0 ≤ 8.31451 * T)
    norm_num at this ⊢
    linarith

end

end Detail.Ng

/-- The stored energies and entropy are close to the exact ones. -/
theorem detail_heat_stored (hL : LibmAccurate) (hN : LnAccurate) (new0 : Detail Float) (hnew : Detail.new = .ok new0)
    (q : Pub Float) (fx : ∀ i, IsFinite (aget q.x i)) (hx : Eos.NormalGas fun i => toR (aget q.x i))
    (hx' : ∀ i, toR (aget q.x i) = 0 ∨ 1e-10 ≤ toR (aget q.x i)) (hs : 0.99 ≤ ∑ i, toR (aget q.x i))
    (ht : IsFinite q.t) (t1 : 263 ≤ toR q.t) (t2 : toR q.t ≤ 400)
    (fd : IsFinite q.d) (d1 : 1e-4 ≤ toR q.d) (d2 : toR q.d ≤ 1) (x : Fin 21 → ℝ) (ex : x = fun i => toR (aget q.x i)) :
    ∃ s', (setPub new0 q).properties = .ok s' ∧ |toR s'.u - Eos.energy x (toR q.d) (toR q.t)| ≤ 2.06e-2 ∧
      |toR s'.h - Eos.enthalpy x (toR q.d) (toR q.t)| ≤ 2.06e-2 ∧ |toR s'.s - Eos.entropy x (toR q.d) (toR q.t)| ≤ 2.57e-5 := by
  have hq := Detail.err_normal fx hx hx' ht t1 t2 fd d1 d2
  have hf := Detail.fracs_normal hx
  obtain ⟨z1, z2, z3, -⟩ := Detail.Ng.heating_size hx hs hx' t1 t2 d1 d2
  rw [← hf] at z1 z2 z3 ex
  subst ex
  obtain ⟨s', e1, -, -, -, r1, r2, -⟩ := C65_detail_energy_error hL hN new0 hnew q hq (by linarith) d1
  obtain ⟨s2, e2, -, -, -, r3, -⟩ := C65_detail_entropy_error hL hN new0 hnew q hq (by linarith) d1
  have es := Except.ok.inj (e2.symm.trans e1)
  subst es
  refine ⟨_, e1, r1.trans ?_, r2.trans ?_, r3.trans ?_⟩
  · norm_num at z1 ⊢; linarith
  · norm_num at z2 ⊢; linarith
  · norm_num at z3 ⊢; linarith

/-- C86, heating with DETAIL: with an accurate math library, for every natural gas whose fractions are zero or at least 1e-10 and sum to
at least 0.99, every density of 1e-4 mol/l to 1 mol/l, and any two temperatures of 263 K to 400 K at least 0.01 K apart, the internal
energy, the enthalpy and the entropy that `properties` stores are larger at the higher temperature: by at least 5.4 J/mol, 10 J/mol and
0.018 J/(mol K) for each kelvin. -/
theorem C86_detail_heating (hL : LibmAccurate) (hN : LnAccurate) (new0 : Detail Float) (hnew : Detail.new = .ok new0)
    (q q' : Pub Float) (hqx : q'.x = q.x) (hqd : q'.d = q.d) (fx : ∀ i, IsFinite (aget q.x i))
    (hx : Eos.NormalGas fun i => toR (aget q.x i)) (hx' : ∀ i, toR (aget q.x i) = 0 ∨ 1e-10 ≤ toR (aget q.x i))
    (hs : 0.99 ≤ ∑ i, toR (aget q.x i)) (ht : IsFinite q.t) (ht' : IsFinite q'.t) (t1 : 263 ≤ toR q.t) (t2 : toR q'.t ≤ 400)
    (hT : toR q.t + 0.01 ≤ toR q'.t) (fd : IsFinite q.d) (d1 : 1e-4 ≤ toR q.d) (d2 : toR q.d ≤ 1) :
    ∃ s s', (setPub new0 q).properties = .ok s ∧ (setPub new0 q').properties = .ok s' ∧
      toR s.u + 5.4 * (toR q'.t - toR q.t) ≤ toR s'.u ∧ toR s.h + 10 * (toR q'.t - toR q.t) ≤ toR s'.h ∧
      toR s.s + 0.018 * (toR q'.t - toR q.t) ≤ toR s'.s := by
  have hT' : toR q.t ≤ toR q'.t := by norm_num at hT; linarith
  obtain ⟨s, k1, a1, a2, a3⟩ := detail_heat_stored hL hN new0 hnew q fx hx hx' hs ht t1 (hT'.trans t2) fd d1 d2 _ rfl
  obtain ⟨s', k2, b1, b2, b3⟩ := detail_heat_stored hL hN new0 hnew q' (by rw [hqx]; exact fx) (by rw [hqx]; exact hx)
    (by rw [hqx]; exact hx') (by rw [hqx]; exact hs) ht' (t1.trans hT') t2 (by rw [hqd]; exact fd) (by rw [hqd]; exact d1)
    (by rw [hqd]; exact d2) (fun i => toR (aget q.x i)) (by rw [hqx])
  obtain ⟨c1, c2, c3⟩ := Detail.Ng.heating_rise hx hs t1 t2 hT' d1 d2
  rw [hqd] at b1 b2 b3
  refine ⟨s, s', k1, k2, ?_⟩
  clear hx hx' hs
  have a1 := abs_le.1 a1
  have a2 := abs_le.1 a2
  have a3 := abs_le.1 a3
  have b1 := abs_le.1 b1
  have b2 := abs_le.1 b2
  have b3 := abs_le.1 b3
  norm_num at a1 a2 a3 b1 b2 b3 c1 c2 c3 hT ⊢
  refine ⟨?_, ?_, ?_⟩ <;> linarith

/-- C86, compression with DETAIL: under the same conditions at one temperature and two densities at least 0.002 % apart, the entropy
that `properties` stores is smaller at the higher density, by at least `2 ln (D'/D)` J/(mol K). -/
theorem C86_detail_compression (hL : LibmAccurate) (hN : LnAccurate) (new0 : Detail Float) (hnew : Detail.new = .ok new0)
    (q q' : Pub Float) (hqx : q'.x = q.x) (hqt : q'.t = q.t) (fx : ∀ i, IsFinite (aget q.x i))
    (hx : Eos.NormalGas fun i => toR (aget q.x i)) (hx' : ∀ i, toR (aget q.x i) = 0 ∨ 1e-10 ≤ toR (aget q.x i))
    (hs : 0.99 ≤ ∑ i, toR (aget q.x i)) (ht : IsFinite q.t) (t1 : 263 ≤ toR q.t) (t2 : toR q.t ≤ 400)
    (fd : IsFinite q.d) (fd' : IsFinite q'.d) (d1 : 1e-4 ≤ toR q.d) (hd : 1.00002 * toR q.d ≤ toR q'.d) (d2 : toR q'.d ≤ 1) :
    ∃ s s', (setPub new0 q).properties = .ok s ∧ (setPub new0 q').properties = .ok s' ∧
      toR s'.s + 2 * Real.log (toR q'.d / toR q.d) ≤ toR s.s := by
  have D0 : 0 < toR q.d := lt_of_lt_of_le (by norm_num) d1
  have hd' : toR q.d ≤ toR q'.d := by norm_num at hd; linarith
  obtain ⟨s, k1, -, -, a3⟩ := detail_heat_stored hL hN new0 hnew q fx hx hx' hs ht t1 t2 fd d1 (hd'.trans d2) _ rfl
  obtain ⟨s', k2, -, -, b3⟩ := detail_heat_stored hL hN new0 hnew q' (by rw [hqx]; exact fx) (by rw [hqx]; exact hx)
    (by rw [hqx]; exact hx') (by rw [hqx]; exact hs) (by rw [hqt]; exact ht) (by rw [hqt]; exact t1) (by rw [hqt]; exact t2) fd'
    (d1.trans hd') d2 (fun i => toR (aget q.x i)) (by rw [hqx])
  have c3 := Detail.Ng.compression_fall hx hs t1 t2 hd' d1 d2
  rw [hqt] at b3
  have l : 1.99e-5 ≤ Real.log (toR q'.d / toR q.d) := by
    have r : 1.00002 ≤ toR q'.d / toR q.d := by rw [le_div_iff₀ D0]; exact hd
    have a := Real.one_sub_inv_le_log_of_pos (x := (1.00002 : ℝ)) (by norm_num)
    refine le_trans ?_ (a.trans (Real.log_le_log (by norm_num) r))
    norm_num
  refine ⟨s, s', k1, k2, ?_⟩
  clear hx hx' hs
  have a3 := abs_le.1 a3
  have b3 := abs_le.1 b3
  generalize Real.log (toR q'.d / toR q.d) = y at *
  norm_num at a3 b3 c3 l ⊢
  linarith

/-! ## The hypotheses can be met -/

namespace Detail

/-- The gas of C74 at 310 K and 0.25 mol/l. -/
def ngWarm : Pub Float := { ngQuarter with t := f% 310.0 }
/-- The gas of C74 at 300 K and 0.5 mol/l. -/
def ngHalf : Pub Float := { ngQuarter with d := f% 0.5 }

theorem ngLit310 : IsFinite (f% 310.0 : Float) ∧ toR (f% 310.0 : Float) = 310 := by
  have c : decChk true 10 10 ⟨310, 0⟩ = true := by decide +kernel
  refine ⟨decChk_fin c, ?_⟩
  show toR (F64.litF ⟨310, 0⟩) = 310
  rw [(decChk_val c).2.1 rfl]; norm_num [decR]

theorem ngLitHalf : IsFinite (f% 0.5 : Float) ∧ toR (f% 0.5 : Float) = 0.5 := by
  have c : decChk true 10 10 ⟨5, 1⟩ = true := by decide +kernel
  refine ⟨decChk_fin c, ?_⟩
  show toR (F64.litF ⟨5, 1⟩) = 0.5
  rw [(decChk_val c).2.1 rfl]; norm_num [decR]

theorem ng1_sum : 0.99 ≤ ∑ i, toR (aget ng1.x i) := by
  obtain ⟨hx, -⟩ := ng1_ok
  simp only [fun i => (hx i).2, Fin.sum_univ_succ]
  simp [ng1x, Fin.ext_iff]
  norm_num

end Detail

/-- The gas of C74 at 0.25 mol/l, heated from 300 K to 310 K: the stored internal energy rises by at least 54 J/mol. -/
example (hL : LibmAccurate) (hN : LnAccurate) (new0 : Detail Float) (hnew : Detail.new = .ok new0) :
    ∃ s s', (setPub new0 Detail.ngQuarter).properties = .ok s ∧ (setPub new0 Detail.ngWarm).properties = .ok s' ∧
      toR s.u + 54 ≤ toR s'.u := by
  obtain ⟨hx, ht, -⟩ := Detail.ng1_ok
  have ht1 : toR Detail.ngQuarter.t = 300 := ht
  have ht2 : toR Detail.ngWarm.t = 310 := Detail.ngLit310.2
  have hd : toR Detail.ngQuarter.d = 0.25 := quarter_ok.2
  obtain ⟨s, s', e1, e2, e3, -⟩ := C86_detail_heating hL hN new0 hnew Detail.ngQuarter Detail.ngWarm rfl rfl (fun i => (hx i).1)
    Detail.ng1_normal (fun i => Detail.ng1_min i) Detail.ng1_sum Detail.errLow_ok.2.1 Detail.ngLit310.1 (by rw [ht1]; norm_num)
    (by rw [ht2]; norm_num) (by rw [ht1, ht2]; norm_num) quarter_ok.1 (by rw [hd]; norm_num) (by rw [hd]; norm_num)
  refine ⟨s, s', e1, e2, le_trans (le_of_eq ?_) e3⟩
  rw [ht1, ht2]
  norm_num

/-- The gas of C74 at 300 K, compressed from 0.25 mol/l to 0.5 mol/l: the stored entropy falls. -/
example (hL : LibmAccurate) (hN : LnAccurate) (new0 : Detail Float) (hnew : Detail.new = .ok new0) :
    ∃ s s', (setPub new0 Detail.ngQuarter).properties = .ok s ∧ (setPub new0 Detail.ngHalf).properties = .ok s' ∧
      toR s'.s < toR s.s := by
  obtain ⟨hx, ht, -⟩ := Detail.ng1_ok
  have ht1 : toR Detail.ngQuarter.t = 300 := ht
  have hd : toR Detail.ngQuarter.d = 0.25 := quarter_ok.2
  have hd2 : toR Detail.ngHalf.d = 0.5 := Detail.ngLitHalf.2
  obtain ⟨s, s', e1, e2, e3⟩ := C86_detail_compression hL hN new0 hnew Detail.ngQuarter Detail.ngHalf rfl rfl (fun i => (hx i).1)
    Detail.ng1_normal (fun i => Detail.ng1_min i) Detail.ng1_sum Detail.errLow_ok.2.1 (by rw [ht1]; norm_num)
    (by rw [ht1]; norm_num) quarter_ok.1 Detail.ngLitHalf.1 (by rw [hd]; norm_num) (by rw [hd, hd2]; norm_num) (by rw [hd2]; norm_num)
  refine ⟨s, s', e1, e2, lt_of_lt_of_le ?_ e3⟩
  rw [hd, hd2]
  have : 0 < Real.log ((0.5 : ℝ) / 0.25) := Real.log_pos (by norm_num)
  linarith

end Aga8
