import Verif.Lemmas.GergErrSum
import Verif.Spec.GergError

/-! # The sizes of the residual sums as sums over the terms of the equation -/

set_option linter.unusedSectionVars false

namespace Aga8.Gerg

open Tab Real GergEos

/-- `facA` is the factor `g` on terms of pure fluids and `h` on departure terms. -/
structure IsGrow (facA : Fac) (g : PureTerm → ℝ → ℝ) (h : DepTerm → ℝ → ℝ) : Prop where
  pure : ∀ (a : PureTerm) δ, facA ⟨a.d, a.c, 0, 0, |(a.t : ℝ)|⟩ δ = g a δ
  dep : ∀ (a : DepTerm) δ, facA ⟨a.d, 0, a.η, 2 * a.η * a.ε + a.β, |(a.t : ℝ)|⟩ δ = h a δ

theorem grow1_ok : IsGrow Shape.f1A PureTerm.grow1 DepTerm.grow1 where
  pure a δ := by unfold Shape.f1A PureTerm.grow1; dsimp only; ring
  dep a δ := by unfold Shape.f1A DepTerm.grow1; dsimp only; push_cast; ring

theorem grow2_ok : IsGrow Shape.f2A PureTerm.grow2 DepTerm.grow2 where
  pure a δ := by unfold Shape.f2A Shape.f1A Shape.l2A PureTerm.grow2 PureTerm.grow1; dsimp only; ring
  dep a δ := by unfold Shape.f2A Shape.f1A Shape.l2A DepTerm.grow2 DepTerm.grow1; dsimp only; push_cast; ring

variable {facA : Fac} {g : PureTerm → ℝ → ℝ} {h : DepTerm → ℝ → ℝ}

theorem abs4 {a b c d : ℝ} (ha : 0 < a) (hb : 0 < b) : |a * b * c * d| = a * b * |c| * |d| := by
  rw [abs_mul, abs_mul, abs_mul, abs_of_pos ha, abs_of_pos hb]

/-- One fluid's part. -/
theorem pure_partA (hg : IsGrow facA g h) (x : Vector ℝ 22) (i : Fin 22) (δ : ℝ) {τ : ℝ} (hτ : 0 < τ) :
    ∑ k : Fin 25, tA x facA δ τ (.inl (i, k))
      = if 1 ≤ i.1 then yOf x i * ((pureTerms.getD i.1 []).map fun a => a.size δ τ * g a δ).sum else 0 := by
  unfold tA
  by_cases hi : 1 ≤ i.1
  swap
  · rw [if_neg hi]
    refine Finset.sum_eq_zero fun k _ => ?_
    simp only [coef]
    rw [if_neg (fun h : readP x i k => hi h.1), abs_zero, zero_mul, zero_mul]
  rw [if_pos hi]
  unfold yOf
  by_cases hx : 1e-15 < aget x i
  swap
  · rw [if_neg hx, zero_mul]
    refine Finset.sum_eq_zero fun k _ => ?_
    simp only [coef]
    rw [if_neg (fun h : readP x i k => hx ((lt_eps _).1 h.2.1)), abs_zero, zero_mul, zero_mul]
  rw [if_pos hx]
  have hx0 : 0 < aget x i := lt_trans (by norm_num) hx
  obtain ⟨hl, ht⟩ := pure_table i hi
  have h25 := KPOL_KEXP_lt i
  rw [sum_map_fin (n := 24) _ _ (by rw [hl]; omega), Fin.sum_univ_succ, Finset.mul_sum]
  have h0 : coef x (.inl (i, 0)) = 0 := by
    simp only [coef]
    exact if_neg (fun h : readP x i 0 => absurd h.2.2.1 (by decide))
  rw [h0, abs_zero, zero_mul, zero_mul, zero_add]
  refine Finset.sum_congr rfl fun k _ => ?_
  simp only [coef]
  by_cases hk : k.1 < (pureTerms.getD i.1 []).length
  · obtain ⟨t1, t2, t3, t4⟩ := ht k hk
    have hr : readP x i k.succ := ⟨hi, (lt_eps _).2 hx, by show 1 ≤ k.1 + 1; omega, by show k.1 + 1 ≤ _; omega⟩
    rw [if_pos hr, if_pos hk]
    show _ = aget x i * ((pT i.1 k.1).size δ τ * g (pT i.1 k.1) δ)
    have hs : shapeA (.inl (i, k.succ)) = ⟨(pT i.1 k.1).d, (pT i.1 k.1).c, 0, 0, |((pT i.1 k.1).t : ℝ)|⟩ := by
      simp only [shapeA]
      rw [t2, t3, t4, m0_toik, ofDec_decQ]
    rw [hs, hg.pure]
    unfold PureTerm.size
    rw [t1, t2, t3, t4, tab2_decQ, abs_mul, abs_of_pos hx0]
    simp only [shape]
    rw [m0_toik, ofDec_decQ, exp_log_mul hτ, m0_fields.1, m0_fields.2.1]
    unfold Shape.phi Shape.q
    dsimp only
    split
    · simp only [if_true, neg_zero, zero_mul, add_zero, exp_zero]; ring
    · split
      · simp only [neg_zero, zero_mul, add_zero, exp_zero]; ring
      · simp only [zero_mul, add_zero]; ring
  · rw [if_neg hk, mul_zero, if_neg (fun h : readP x i k.succ => hk (by
      have h2 : k.1 + 1 ≤ _ := h.2.2.2; omega)), abs_zero, zero_mul, zero_mul]

/-- One pair's part. -/
theorem dep_partA (hg : IsGrow facA g h) (x : Vector ℝ 22) (i j : Fin 22) (δ : ℝ) {τ : ℝ} (hτ : 0 < τ) :
    ∑ k : Fin 13, tA x facA δ τ (.inr (i, j, k))
      = if 1 ≤ i.1 ∧ i < j then yOf x i * yOf x j * |((departure i.1 j.1).1 : ℝ)|
        * ((departure i.1 j.1).2.map fun a => a.size δ τ * h a δ).sum else 0 := by
  unfold tA
  by_cases hij : 1 ≤ i.1 ∧ i < j
  swap
  · rw [if_neg hij]
    refine Finset.sum_eq_zero fun k _ => ?_
    simp only [coef]
    rw [if_neg (fun h : actM x i j k.1 => hij ⟨h.1, h.2.1⟩), abs_zero, zero_mul, zero_mul]
  rw [if_pos hij]
  obtain ⟨hi, hj⟩ := hij
  unfold yOf
  by_cases hx : 1e-15 < aget x i
  swap
  · rw [if_neg hx, zero_mul, zero_mul, zero_mul]
    refine Finset.sum_eq_zero fun k _ => ?_
    simp only [coef]
    rw [if_neg (fun h : actM x i j k.1 => hx ((lt_eps _).1 h.2.2.1)), abs_zero, zero_mul, zero_mul]
  rw [if_pos hx]
  by_cases hy : 1e-15 < aget x j
  swap
  · rw [if_neg hy, mul_zero, zero_mul, zero_mul]
    refine Finset.sum_eq_zero fun k _ => ?_
    simp only [coef]
    rw [if_neg (fun h : actM x i j k.1 => hy ((lt_eps _).1 h.2.2.2.1)), abs_zero, zero_mul, zero_mul]
  rw [if_pos hy]
  have hx0 : 0 < aget x i := lt_trans (by norm_num) hx
  have hy0 : 0 < aget x j := lt_trans (by norm_num) hy
  obtain ⟨hl, hF, ht⟩ := dep_table i j hi hj
  by_cases hm : aget2 MNUMB i j = 0
  · rw [if_pos hm] at hl
    rw [List.length_eq_zero_iff.1 hl, List.map_nil, List.sum_nil, mul_zero]
    refine Finset.sum_eq_zero fun k _ => ?_
    simp only [coef]
    rw [if_neg (fun h : actM x i j k.1 => by have := h.2.2.2.2.1; omega), abs_zero, zero_mul, zero_mul]
  rw [if_neg hm] at hl
  have h11 := MNUMB_lt i j
  have h13 := kpolij_lt h11
  rw [sum_map_fin (n := 12) _ _ (by rw [hl]; omega), Fin.sum_univ_succ, Finset.mul_sum]
  have h0 : coef x (.inr (i, j, 0)) = 0 := by
    simp only [coef]
    exact if_neg (fun h : actM x i j 0 => absurd h.2.2.2.2.2.1 (by decide))
  rw [h0, abs_zero, zero_mul, zero_mul, zero_add]
  refine Finset.sum_congr rfl fun k _ => ?_
  simp only [coef]
  by_cases hk : k.1 < (departure i.1 j.1).2.length
  swap
  · rw [if_neg hk, mul_zero, if_neg (fun h : actM x i j k.succ.1 => hk (by
      have h2 : k.1 + 1 ≤ _ := h.2.2.2.2.2.2; omega)), abs_zero, zero_mul, zero_mul]
  obtain ⟨t1, t2, t3, t4⟩ := ht ⟨aget2 MNUMB i j, h11⟩ k rfl hk
  have hr : actM x i j k.succ.1 := ⟨hi, hj, (lt_eps _).2 hx, (lt_eps _).2 hy, by omega,
    by show 1 ≤ k.1 + 1; omega, by show k.1 + 1 ≤ _; omega⟩
  rw [if_pos hr, if_pos hk]
  show _ = aget x i * aget x j * _ * ((dT i.1 j.1 k.1).size δ τ * h (dT i.1 j.1 k.1) δ)
  obtain ⟨-, -, e3, e4, e5, e6, e7, e8, -, -⟩ := m0_fields
  have g : ∀ (v : Vector (Vector ℝ 13) 11), gd2 v (aget2 MNUMB i j) k.succ.1 0
      = aget2 v ⟨aget2 MNUMB i j, h11⟩ k.succ := fun v => gd2_pos v 0 h11 k.succ.2
  have gD : ∀ (v : Vector (Vector Dec 13) 11), gd2 v (aget2 MNUMB i j) k.succ.1 ⟨0, 0⟩
      = aget2 v ⟨aget2 MNUMB i j, h11⟩ k.succ := fun v => gd2_pos v _ h11 k.succ.2
  have hm1 : 1 ≤ (⟨aget2 MNUMB i j, h11⟩ : Fin 11).1 := by show 1 ≤ aget2 MNUMB i j; omega
  have hk1 : 1 ≤ k.succ.1 := by show 1 ≤ k.1 + 1; omega
  have gn : gd2 m0.nijk (aget2 MNUMB i j) k.succ.1 0 = (decQ (aget2 nijkD ⟨aget2 MNUMB i j, h11⟩ k.succ) : ℝ) := by
    rw [e5, g, nijk0_get, ofDec_decQ]
  have hs : shapeA (.inr (i, j, k.succ)) = ⟨(dT i.1 j.1 k.1).d, 0, ((dT i.1 j.1 k.1).η : ℝ),
      2 * (dT i.1 j.1 k.1).η * (dT i.1 j.1 k.1).ε + (dT i.1 j.1 k.1).β, |((dT i.1 j.1 k.1).t : ℝ)|⟩ := by
    simp only [shapeA]
    by_cases hp : k.succ.1 ≤ kpolij (aget2 MNUMB i j)
    · rw [if_pos hp] at t4
      rw [if_pos hp, t2, t3, t4.1, t4.2, e4, g tijk0, tijk0_get, ofDec_decQ]
      simp
    · rw [if_neg hp] at t4
      rw [if_neg hp, t2, t3, t4.1, t4.2.1, t4.2.2.1, e4, g tijk0, tijk0_get, ofDec_decQ]
      unfold cA eA
      rw [gD, gD, gD, decR_decQ, decR_decQ, decR_decQ]
  rw [hs, hg.dep]
  unfold DepTerm.size
  rw [t1, t2, t3, hF hm, tab2_decQ]
  simp only [shape]
  rw [shapeM_t, gn, e4, g tijk0, tijk0_get, ofDec_decQ, exp_log_mul hτ, abs4 hx0 hy0]
  unfold shapeM
  by_cases hp : k.succ.1 ≤ kpolij (aget2 MNUMB i j)
  · rw [if_pos hp] at t4
    rw [if_pos hp, if_pos hp, t4.1, t4.2, e3, mul_one]
    unfold Shape.phi Shape.q
    simp only [if_true, neg_zero, zero_mul, add_zero, sub_zero, exp_zero, Rat.cast_zero]
    ring
  · rw [if_neg hp] at t4
    obtain ⟨d1, d2, d3⟩ := dep0_get (F := ℝ) ⟨aget2 MNUMB i j, h11⟩ k.succ hm1 hk1
    rw [if_neg hp, if_neg hp, t4.1, t4.2.1, t4.2.2.1, t4.2.2.2, e3, e6, e7, e8, g dep0.cijk, g dep0.eijk, g dep0.gijk, d1, d2, d3,
      abs_mul, abs_of_pos (exp_pos _)]
    unfold Shape.phi Shape.q
    simp only [Aga8.l2]
    simp only [if_true, neg_zero, zero_add, ofDec_decQ, r_powi]
    have he : ∀ (n t Q G : ℝ) (η ε β γ : ℝ), n * exp (-η * ε ^ 2 + β * γ)
        * t * (Q * exp (-η * δ ^ 2 + (2 * η * ε - β) * δ) * G)
        = n * Q * t * exp (-η * (δ - ε) ^ 2 - β * (δ - γ)) * G := by
      intro n t Q G η ε β γ
      have : -η * (δ - ε) ^ 2 - β * (δ - γ)
        = (-η * ε ^ 2 + β * γ) + (-η * δ ^ 2 + (2 * η * ε - β) * δ) := by
          ring
      rw [this, exp_add (-η * ε ^ 2 + β * γ)]; ring
    rw [mul_assoc (aget x i * aget x j * _) _ (_ ^ _), mul_assoc (aget x i * aget x j * _), he]

theorem RA_eq (hg : IsGrow facA g h) (x : Vector ℝ 22) (δ : ℝ) {τ : ℝ} (hτ : 0 < τ) :
    RA x facA δ τ = sizes g h (yOf x) δ τ := by
  unfold RA sizes
  rw [Fintype.sum_sum_type, Fintype.sum_prod_type, Fintype.sum_prod_type]
  congr 1
  · rw [Finset.sum_filter]
    exact Finset.sum_congr rfl fun i _ => pure_partA hg x i δ hτ
  · rw [Finset.sum_filter]
    refine Finset.sum_congr rfl fun i _ => ?_
    rw [Fintype.sum_prod_type]
    rw [Finset.sum_congr rfl fun j _ => dep_partA hg x i j δ hτ]
    by_cases hi : 1 ≤ i.1
    · simp only [hi, true_and, if_true, ← Finset.sum_filter]
    · simp only [hi, false_and, if_false, Finset.sum_const_zero]

end Aga8.Gerg
