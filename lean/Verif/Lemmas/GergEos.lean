import Verif.Lemmas.GergTemp
import Verif.Spec.GergEos

/-! # The model computes the GERG-2008 equation of state -/

namespace Aga8.Gerg

open Tab Finset Real
open GergEos (PureTerm DepTerm IdealTerms alphaPure alphaDep alphaR pureTerms departure)

attribute [local irreducible] newP pressureP propertiesP

/-- Rational value of a decimal. -/
def decQ (d : Dec) : ℚ := (d.m : ℚ) / 10 ^ d.e

theorem ofDec_decQ (d : Dec) : (FOps.ofDec d : ℝ) = (decQ d : ℝ) := by
  rw [r_ofDec, decQ]; push_cast; rfl

theorem tab2_decQ {n m : Nat} (v : Vector (Vector Dec m) n) (i : Fin n) (j : Fin m) :
    (tab2 v i j : ℝ) = (decQ (aget2 v i j) : ℝ) := ofDec_decQ _

theorem val_eq (d : Dec) : GergEos.val d = FOps.ofDec d := by rw [r_ofDec]; rfl

/-! ## Tables -/

/-- The `k`th term (frozen copy) of a pure fluid. -/
def pT (i k : ℕ) : PureTerm := (pureTerms.getD i []).getD k Inhabited.default

/-- The `k`th departure term of a pair. -/
def dT (i j k : ℕ) : DepTerm := (departure i j).2.getD k Inhabited.default

/-- The exponents and coefficients of the pure fluids are those of the frozen copy. -/
theorem pure_table : ∀ i : Fin 22, 1 ≤ i.1 →
    (pureTerms.getD i.1 []).length = aget KPOL i + aget KEXP i ∧
    ∀ k : Fin 24, k.1 < (pureTerms.getD i.1 []).length →
      (pT i.1 k.1).n = decQ (aget2 NOIK i k.succ) ∧
      (pT i.1 k.1).d = aget2 doik0 i k.succ ∧
      (pT i.1 k.1).t = decQ (aget2 toikD i k.succ) ∧
      (pT i.1 k.1).c
        = if k.succ.1 ≤ aget KPOL i then 0 else aget2 coik0 i k.succ := by
  decide +kernel

/-- The departure functions are those of the frozen copy. -/
theorem dep_table : ∀ i j : Fin 22, 1 ≤ i.1 → i < j →
    (departure i.1 j.1).2.length
      = (if aget2 MNUMB i j = 0 then 0 else kpolij (aget2 MNUMB i j) + kexpij (aget2 MNUMB i j)) ∧
    (aget2 MNUMB i j ≠ 0 → (departure i.1 j.1).1 = decQ (aget2 FIJ i j)) ∧
    ∀ (mn : Fin 11) (k : Fin 12), mn.1 = aget2 MNUMB i j → k.1 < (departure i.1 j.1).2.length →
      (dT i.1 j.1 k.1).n = decQ (aget2 nijkD mn k.succ) ∧
      (dT i.1 j.1 k.1).d = gd2 dijk0 mn.1 k.succ.1 0 ∧
      (dT i.1 j.1 k.1).t = decQ (aget2 tijkD mn k.succ) ∧
      if k.succ.1 ≤ kpolij mn then
        (dT i.1 j.1 k.1).η = 0 ∧ (dT i.1 j.1 k.1).β = 0
      else
        (dT i.1 j.1 k.1).η = decQ (aget2 cijkD mn k.succ) ∧
        (dT i.1 j.1 k.1).ε = decQ (aget2 eijkD mn k.succ) ∧
        (dT i.1 j.1 k.1).β = decQ (aget2 bijkD mn k.succ) ∧
        (dT i.1 j.1 k.1).γ = decQ (aget2 gijkD mn k.succ) := by
  decide +kernel

/-- The binary parameters β_v are those of the frozen copy. -/
theorem bv_table : ∀ i j : Fin 22, 1 ≤ i.1 → i < j →
    (GergEos.params i.1 j.1).1 = decQ (aget2 bvijD i j) := by decide +kernel

/-! ## Sums -/

theorem sum_map_getD {α : Type} [Inhabited α] (l : List α) (f : α → ℝ) :
    (l.map f).sum = ∑ k ∈ Finset.range l.length, f (l.getD k Inhabited.default) := by
  induction l with
  | nil => rfl
  | cons a l ih =>
    rw [List.map_cons, List.sum_cons, List.length_cons, Finset.sum_range_succ', ih, add_comm]
    rfl

theorem sum_map_fin {α : Type} [Inhabited α] (l : List α) (f : α → ℝ) {n : ℕ} (h : l.length ≤ n) :
    (l.map f).sum = ∑ k : Fin n, if k.1 < l.length then f (l.getD k.1 Inhabited.default) else 0 := by
  rw [sum_map_getD, Finset.range_eq_Ico, sum_Ico_fin h]
  simp only [Nat.zero_le, true_and]

/-- The fraction that enters the equation of state. -/
noncomputable def yOf (x : Vector ℝ 22) (i : Fin 22) : ℝ := if 1e-15 < aget x i then aget x i else 0

theorem m0_fields : m0.doik = doik0 ∧ m0.coik = coik0 ∧ m0.dijk = dijk0 ∧ m0.tijk = tijk0 ∧ m0.nijk = nijk0 ∧
    m0.cijk = dep0.cijk ∧ m0.eijk = dep0.eijk ∧ m0.gijk = dep0.gijk ∧ m0.bvij = bin0.bvij ∧ m0.n0i = n0i0 := by
  unfold m0 newP
  exact ⟨rfl, rfl, rfl, rfl, rfl, rfl, rfl, rfl, rfl, rfl⟩

/-- The residual sum as a function of the reduced density and inverse reduced temperature. -/
noncomputable def RS (x : Vector ℝ 22) (fac : Fac) (δ τ : ℝ) : ℝ :=
  ∑ ι : Ix, coef x ι * exp ((shape m0 ι).t * log τ) * ((shape m0 ι).phi δ * fac (shape m0 ι) δ)

theorem RT_eq (x : Vector ℝ 22) (fac : Fac) (D T : ℝ) : RT x fac D T = RS x fac (D / drX x) (trX x / T) := rfl

theorem exp_log_mul {τ : ℝ} (hτ : 0 < τ) (t : ℝ) : exp (t * log τ) = τ ^ t := by
  rw [rpow_def_of_pos hτ, mul_comm]

/-- One fluid's part. -/
theorem pure_part (x : Vector ℝ 22) (i : Fin 22) (δ : ℝ) {τ : ℝ} (hτ : 0 < τ) :
    ∑ k : Fin 25, coef x (.inl (i, k)) * exp ((shape m0 (.inl (i, k))).t * log τ)
      * ((shape m0 (.inl (i, k))).phi δ * 1) = if 1 ≤ i.1 then yOf x i * alphaPure i.1 δ τ else 0 := by
  by_cases hi : 1 ≤ i.1
  swap
  · rw [if_neg hi]
    refine Finset.sum_eq_zero fun k _ => ?_
    simp only [coef]
    rw [if_neg (fun h : readP x i k => hi h.1), zero_mul, zero_mul]
  rw [if_pos hi]
  unfold yOf
  by_cases hx : 1e-15 < aget x i
  swap
  · rw [if_neg hx, zero_mul]
    refine Finset.sum_eq_zero fun k _ => ?_
    simp only [coef]
    rw [if_neg (fun h : readP x i k => hx ((lt_eps _).1 h.2.1)), zero_mul, zero_mul]
  rw [if_pos hx]
  obtain ⟨hl, ht⟩ := pure_table i hi
  have h25 := KPOL_KEXP_lt i
  unfold alphaPure
  rw [sum_map_fin (n := 24) _ _ (by rw [hl]; omega), Fin.sum_univ_succ, Finset.mul_sum]
  have h0 : coef x (.inl (i, 0)) = 0 := by
    simp only [coef]
    exact if_neg (fun h : readP x i 0 => absurd h.2.2.1 (by decide))
  rw [h0, zero_mul, zero_mul, zero_add]
  refine Finset.sum_congr rfl fun k _ => ?_
  simp only [coef]
  by_cases hk : k.1 < (pureTerms.getD i.1 []).length
  · obtain ⟨t1, t2, t3, t4⟩ := ht k hk
    have hr : readP x i k.succ := ⟨hi, (lt_eps _).2 hx, by show 1 ≤ k.1 + 1; omega, by show k.1 + 1 ≤ _; omega⟩
    rw [if_pos hr, if_pos hk]
    show _ = aget x i * (pT i.1 k.1).eval δ τ
    unfold PureTerm.eval
    rw [t1, t2, t3, t4, tab2_decQ]
    simp only [shape]
    rw [m0_toik, ofDec_decQ, exp_log_mul hτ, m0_fields.1, m0_fields.2.1]
    unfold Shape.phi Shape.q
    dsimp only
    split
    · simp only [if_true, neg_zero, zero_mul, add_zero, exp_zero]; ring
    · split
      · simp only [neg_zero, zero_mul, add_zero, exp_zero]; ring
      · simp only [zero_mul, add_zero]; ring
  · rw [if_neg hk, mul_zero, if_neg (fun h : readP x i k.succ => hk (by
      have h2 : k.1 + 1 ≤ _ := h.2.2.2; omega)), zero_mul, zero_mul]

/-- One pair's part. -/
theorem dep_part (x : Vector ℝ 22) (i j : Fin 22) (δ : ℝ) {τ : ℝ} (hτ : 0 < τ) :
    ∑ k : Fin 13, coef x (.inr (i, j, k)) * exp ((shape m0 (.inr (i, j, k))).t * log τ)
      * ((shape m0 (.inr (i, j, k))).phi δ * 1)
      = if 1 ≤ i.1 ∧ i < j then yOf x i * yOf x j * (departure i.1 j.1).1 * alphaDep i.1 j.1 δ τ else 0 := by
  by_cases hij : 1 ≤ i.1 ∧ i < j
  swap
  · rw [if_neg hij]
    refine Finset.sum_eq_zero fun k _ => ?_
    simp only [coef]
    rw [if_neg (fun h : actM x i j k.1 => hij ⟨h.1, h.2.1⟩), zero_mul, zero_mul]
  rw [if_pos hij]
  obtain ⟨hi, hj⟩ := hij
  unfold yOf
  by_cases hx : 1e-15 < aget x i
  swap
  · rw [if_neg hx, zero_mul, zero_mul, zero_mul]
    refine Finset.sum_eq_zero fun k _ => ?_
    simp only [coef]
    rw [if_neg (fun h : actM x i j k.1 => hx ((lt_eps _).1 h.2.2.1)), zero_mul, zero_mul]
  rw [if_pos hx]
  by_cases hy : 1e-15 < aget x j
  swap
  · rw [if_neg hy, mul_zero, zero_mul, zero_mul]
    refine Finset.sum_eq_zero fun k _ => ?_
    simp only [coef]
    rw [if_neg (fun h : actM x i j k.1 => hy ((lt_eps _).1 h.2.2.2.1)), zero_mul, zero_mul]
  rw [if_pos hy]
  obtain ⟨hl, hF, ht⟩ := dep_table i j hi hj
  by_cases hm : aget2 MNUMB i j = 0
  · rw [if_pos hm] at hl
    unfold alphaDep
    rw [List.length_eq_zero_iff.1 hl, List.map_nil, List.sum_nil, mul_zero]
    refine Finset.sum_eq_zero fun k _ => ?_
    simp only [coef]
    rw [if_neg (fun h : actM x i j k.1 => by have := h.2.2.2.2.1; omega), zero_mul, zero_mul]
  rw [if_neg hm] at hl
  have h11 := MNUMB_lt i j
  have h13 := kpolij_lt h11
  unfold alphaDep
  rw [sum_map_fin (n := 12) _ _ (by rw [hl]; omega), Fin.sum_univ_succ, Finset.mul_sum]
  have h0 : coef x (.inr (i, j, 0)) = 0 := by
    simp only [coef]
    exact if_neg (fun h : actM x i j 0 => absurd h.2.2.2.2.2.1 (by decide))
  rw [h0, zero_mul, zero_mul, zero_add]
  refine Finset.sum_congr rfl fun k _ => ?_
  simp only [coef]
  by_cases hk : k.1 < (departure i.1 j.1).2.length
  swap
  · rw [if_neg hk, mul_zero, if_neg (fun h : actM x i j k.succ.1 => hk (by
      have h2 : k.1 + 1 ≤ _ := h.2.2.2.2.2.2; omega)), zero_mul, zero_mul]
  obtain ⟨t1, t2, t3, t4⟩ := ht ⟨aget2 MNUMB i j, h11⟩ k rfl hk
  have hr : actM x i j k.succ.1 := ⟨hi, hj, (lt_eps _).2 hx, (lt_eps _).2 hy, by omega,
    by show 1 ≤ k.1 + 1; omega, by show k.1 + 1 ≤ _; omega⟩
  rw [if_pos hr, if_pos hk]
  show _ = aget x i * aget x j * _ * (dT i.1 j.1 k.1).eval δ τ
  unfold DepTerm.eval
  rw [t1, t2, t3, hF hm, tab2_decQ]
  obtain ⟨-, -, e3, e4, e5, e6, e7, e8, -, -⟩ := m0_fields
  simp only [shape]
  have g : ∀ (v : Vector (Vector ℝ 13) 11), gd2 v (aget2 MNUMB i j) k.succ.1 0
      = aget2 v ⟨aget2 MNUMB i j, h11⟩ k.succ := fun v => gd2_pos v 0 h11 k.succ.2
  have hm1 : 1 ≤ (⟨aget2 MNUMB i j, h11⟩ : Fin 11).1 := by show 1 ≤ aget2 MNUMB i j; omega
  have hk1 : 1 ≤ k.succ.1 := by show 1 ≤ k.1 + 1; omega
  have gn : gd2 m0.nijk (aget2 MNUMB i j) k.succ.1 0 = (decQ (aget2 nijkD ⟨aget2 MNUMB i j, h11⟩ k.succ) : ℝ) := by
    rw [e5, g, nijk0_get, ofDec_decQ]
  rw [shapeM_t, gn, e4, g tijk0, tijk0_get, ofDec_decQ, exp_log_mul hτ]
  unfold shapeM
  by_cases hp : k.succ.1 ≤ kpolij (aget2 MNUMB i j)
  · rw [if_pos hp] at t4
    rw [if_pos hp, if_pos hp, t4.1, t4.2, e3]
    unfold Shape.phi Shape.q
    simp only [if_true, neg_zero, zero_mul, add_zero, sub_zero, exp_zero, Rat.cast_zero]
    ring
  · rw [if_neg hp] at t4
    obtain ⟨d1, d2, d3⟩ := dep0_get (F := ℝ) ⟨aget2 MNUMB i j, h11⟩ k.succ hm1 hk1
    rw [if_neg hp, if_neg hp, t4.1, t4.2.1, t4.2.2.1, t4.2.2.2, e3, e6, e7, e8, g dep0.cijk, g dep0.eijk, g dep0.gijk, d1, d2, d3]
    unfold Shape.phi Shape.q
    simp only [Aga8.l2]
    simp only [if_true, neg_zero, zero_add, ofDec_decQ, r_powi]
    have he : ∀ (n P t Q : ℝ) (η ε β γ : ℝ), n * exp (-η * ε ^ 2 + β * γ)
        * t * (Q * exp (-η * δ ^ 2 + (2 * η * ε - β) * δ) * 1)
        = n * Q * t * exp (-η * (δ - ε) ^ 2 - β * (δ - γ)) := by
      intro n P t Q η ε β γ
      have : -η * (δ - ε) ^ 2 - β * (δ - γ)
        = (-η * ε ^ 2 + β * γ) + (-η * δ ^ 2 + (2 * η * ε - β) * δ) := by
          ring
      rw [this, exp_add (-η * ε ^ 2 + β * γ)]; ring
    rw [mul_assoc (aget x i * aget x j * _) _ (_ ^ _), mul_assoc (aget x i * aget x j * _), he _ 0]

theorem RS_eq (x : Vector ℝ 22) (δ : ℝ) {τ : ℝ} (hτ : 0 < τ) :
    RS x (fun _ _ => 1) δ τ = alphaR (yOf x) δ τ := by
  unfold RS alphaR
  rw [Fintype.sum_sum_type, Fintype.sum_prod_type, Fintype.sum_prod_type]
  congr 1
  · rw [Finset.sum_filter]
    exact Finset.sum_congr rfl fun i _ => pure_part x i δ hτ
  · rw [Finset.sum_filter]
    refine Finset.sum_congr rfl fun i _ => ?_
    rw [Fintype.sum_prod_type]
    rw [Finset.sum_congr rfl fun j _ => dep_part x i j δ hτ]
    by_cases hi : 1 ≤ i.1
    · simp only [hi, true_and, if_true, ← Finset.sum_filter]
    · simp only [hi, false_and, if_false, Finset.sum_const_zero]

/-! ## Density derivative -/

theorem Shape.deriv_phi (σ : Shape) (δ : ℝ) : ∃ φ', HasDerivAt σ.phi φ' δ ∧ δ * φ' = σ.phi δ * σ.f1 δ := by
  have hpow : ∀ n : ℕ, δ * (n * δ ^ (n - 1)) = n * δ ^ n := by
    intro n
    cases n with
    | zero => simp
    | succ n => rw [Nat.add_sub_cancel, pow_succ]; ring
  have h2 := (((hasDerivAt_id δ).pow 2).const_mul σ.c).add ((hasDerivAt_id δ).const_mul σ.e)
  by_cases hk : σ.k = 0
  · have hq : HasDerivAt σ.q (σ.c * (2 * δ) + σ.e) δ := by
      refine HasDerivAt.congr_of_eventuallyEq (h2.congr_deriv ?_) (Filter.Eventually.of_forall fun y => ?_)
      · simp
      · simp only [Shape.q, hk, if_true, neg_zero, zero_add, Pi.add_apply]; rfl
    refine ⟨_, ((hasDerivAt_pow σ.n δ).mul hq.exp), ?_⟩
    unfold Shape.phi Shape.f1
    rw [mul_add, ← mul_assoc, hpow, hk]
    push_cast
    ring
  · have hq : HasDerivAt σ.q (-(σ.k * δ ^ (σ.k - 1)) + (σ.c * (2 * δ) + σ.e)) δ := by
      refine HasDerivAt.congr_of_eventuallyEq (((hasDerivAt_pow σ.k δ).neg.add h2).congr_deriv ?_)
        (Filter.Eventually.of_forall fun y => ?_)
      · simp
      · simp only [Shape.q, hk, if_false, Pi.add_apply, add_assoc]; rfl
    refine ⟨_, ((hasDerivAt_pow σ.n δ).mul hq.exp), ?_⟩
    unfold Shape.phi Shape.f1
    rw [mul_add, ← mul_assoc, hpow]
    have := hpow σ.k
    linear_combination (-(δ ^ σ.n * exp (σ.q δ))) * this

theorem RS_deriv (x : Vector ℝ 22) (δ τ : ℝ) : DifferentiableAt ℝ (fun δ => RS x (fun _ _ => 1) δ τ) δ ∧
    RS x Shape.f1 δ τ = δ * deriv (fun δ => RS x (fun _ _ => 1) δ τ) δ := by
  choose φ' h1 h2 using fun ι : Ix => (shape m0 ι).deriv_phi δ
  have h : HasDerivAt (fun δ => RS x (fun _ _ => 1) δ τ)
      (∑ ι : Ix, coef x ι * exp ((shape m0 ι).t * log τ) * (φ' ι * 1)) δ :=
    HasDerivAt.fun_sum fun ι _ => ((h1 ι).mul_const 1).const_mul _
  refine ⟨h.differentiableAt, ?_⟩
  rw [h.deriv, Finset.mul_sum]
  refine Finset.sum_congr rfl fun ι _ => ?_
  linear_combination (-(coef x ι * exp ((shape m0 ι).t * log τ))) * h2 ι

/-! ## Reducing functions -/

theorem BTIJ_diag : ∀ i : Fin 22, 1 ≤ i.1 → decQ (aget2 BTIJ i i) = 1 := by decide +kernel

theorem GVIJ_diag_ge : ∀ i : Fin 22, 1 ≤ i.1 → 0.01 ≤ decQ (aget2 GVIJ i i) := by decide +kernel

theorem redSum_eq (x : Vector ℝ 22) (G B B' : Fin 22 → Fin 22 → ℝ) (hB : ∀ i : Fin 22, 1 ≤ i.1 → B i i = 1)
    (hB' : ∀ i j : Fin 22, 1 ≤ i.1 → i < j → B i j = B' i j) :
    redSum x G B = GergEos.reducing G B' (yOf x) := by
  unfold redSum GergEos.reducing
  refine Finset.sum_congr rfl fun i hi => ?_
  simp only [Finset.mem_filter, Finset.mem_univ, true_and] at hi
  simp only [lt_eps]
  by_cases hx : 1e-15 < aget x i
  · have hy : yOf x i = aget x i := if_pos hx
    have h0 : (0 : ℝ) < aget x i := lt_trans (by norm_num) hx
    rw [if_pos hx, hy]
    congr 1
    · unfold redTerm
      rw [hB i hi]
      have : 1 * aget x i + aget x i ≠ 0 := by positivity
      field_simp
    · refine Finset.sum_congr rfl fun j hj => ?_
      have hij : i < j := by simpa using hj
      rw [← hB' i j hi hij]
      unfold yOf
      split
      · unfold redTerm; ring
      · ring
  · have hy : yOf x i = 0 := if_neg hx
    rw [if_neg hx, hy]
    symm
    have : ∀ j ∈ (Finset.univ.filter fun j : Fin 22 => i < j),
        2 * 0 * yOf x j * G i j * ((0 + yOf x j) / (B' i j * 0 + yOf x j)) = 0 := by intros; ring
    rw [Finset.sum_eq_zero this]
    ring

theorem trX_eq (x : Vector ℝ 22) : trX x = GergEos.Tr (yOf x) := by
  unfold trX trOf
  rw [(redX_real x _).2]
  unfold GergEos.Tr
  simp only [val_eq]
  exact redSum_eq x _ _ _ (fun i hi => by rw [tab2_decQ, BTIJ_diag i hi]; norm_num) (fun _ _ _ _ => rfl)

theorem vrX_eq (x : Vector ℝ 22) : (redX x m0.bvij).1 = GergEos.invRhoR (yOf x) := by
  rw [(redX_real x _).1]
  unfold GergEos.invRhoR
  simp only [val_eq]
  have hb := m0_fields.2.2.2.2.2.2.2.2.1
  refine redSum_eq x _ _ _ (fun i hi => ?_) (fun i j hi hij => ?_)
  · rw [hb, bvij0_get i i hi (le_refl _), if_pos rfl, l1]
  · rw [hb, bvij0_get i j hi (le_of_lt hij), if_neg (ne_of_lt hij), r_powi, ofDec_decQ, bv_table i j hi hij]

/-- Some component is present. -/
def Present (x : Vector ℝ 22) : Prop := ∃ i : Fin 22, 1 ≤ i.1 ∧ 1e-6 ≤ aget x i

theorem Present.xfar {x : Vector ℝ 22} (h : Present x) : XFar x (fill 22 (f% 0.0)) := by
  obtain ⟨i, hi, hx⟩ := h
  refine ⟨i, hi, ?_⟩
  rw [r_lt, lem7, r_abs, aget_fill, l0, sub_zero]
  exact lt_of_lt_of_le (by norm_num) (le_trans hx (le_abs_self _))

theorem Present.tr_pos {x : Vector ℝ 22} (h : Present x) : 0 < trX x := by
  obtain ⟨i, hi, hx⟩ := h
  exact trOf_pos _ _ hi ((lt_eps _).2 (lt_of_lt_of_le (by norm_num) hx))

theorem Present.vr {x : Vector ℝ 22} (h : Present x) : 1e-15 < (redX x m0.bvij).1 := by
  obtain ⟨k, hk, hx⟩ := h
  have hxk : 1e-15 < aget x k := lt_of_lt_of_le (by norm_num) hx
  have hG : ∀ i j : Fin 22, 1 ≤ i.1 → i.1 ≤ j.1 → 0 < (tab2 GVIJ i j : ℝ) := fun i j hi hj => tab2_pos (GVIJ_pos i j hi hj)
  have hB : ∀ i j : Fin 22, 1 ≤ i.1 → i.1 ≤ j.1 → 0 < aget2 m0.bvij i j := by
    rw [m0_fields.2.2.2.2.2.2.2.2.1]; exact bvij0_pos
  have hg : (0.01 : ℝ) ≤ tab2 GVIJ k k := by
    rw [tab2_decQ]
    have := GVIJ_diag_ge k hk
    have h' : ((0.01 : ℚ) : ℝ) ≤ (decQ (aget2 GVIJ k k) : ℝ) := by exact_mod_cast this
    have e : ((0.01 : ℚ) : ℝ) = 0.01 := by norm_num
    rwa [e] at h'
  rw [vrX_eq, GergEos.invRhoR]
  unfold GergEos.reducing
  have hnn : ∀ i, 0 ≤ yOf x i := by
    intro i
    unfold yOf
    split
    · rename_i h; exact le_of_lt (lt_trans (by norm_num) h)
    · exact le_refl _
  refine lt_of_lt_of_le ?_ (Finset.single_le_sum (f := fun i : Fin 22 => yOf x i ^ 2 * GergEos.val GVIJ[i.1][i.1]
    + ∑ j with i < j, 2 * yOf x i * yOf x j * GergEos.val GVIJ[i.1][j.1]
      * ((yOf x i + yOf x j) / (((GergEos.params i.1 j.1).1 : ℝ) ^ 2 * yOf x i + yOf x j))) ?_
    (Finset.mem_filter.2 ⟨Finset.mem_univ k, hk⟩))
  · have hs : 0 ≤ ∑ j with k < j, 2 * yOf x k * yOf x j * GergEos.val GVIJ[k.1][j.1]
      * ((yOf x k + yOf x j) / (((GergEos.params k.1 j.1).1 : ℝ) ^ 2 * yOf x k + yOf x j)) := by
      refine Finset.sum_nonneg fun j hj => ?_
      have hkj : k < j := by simpa using hj
      have h1 : 0 < GergEos.val GVIJ[k.1][j.1] := by rw [val_eq]; exact hG k j hk (le_of_lt hkj)
      have := hnn k
      have := hnn j
      positivity
    have hv : (0.01 : ℝ) ≤ GergEos.val GVIJ[k.1][k.1] := by rw [val_eq]; exact hg
    have hy : yOf x k = aget x k := if_pos hxk
    have : 1e-15 < yOf x k ^ 2 * GergEos.val GVIJ[k.1][k.1] := by rw [hy]; nlinarith
    linarith
  · intro i hi
    simp only [Finset.mem_filter, Finset.mem_univ, true_and] at hi
    have h0 : 0 < GergEos.val GVIJ[i.1][i.1] := by rw [val_eq]; exact hG i i hi (le_refl _)
    have hs : 0 ≤ ∑ j with i < j, 2 * yOf x i * yOf x j * GergEos.val GVIJ[i.1][j.1]
      * ((yOf x i + yOf x j) / (((GergEos.params i.1 j.1).1 : ℝ) ^ 2 * yOf x i + yOf x j)) := by
      refine Finset.sum_nonneg fun j hj => ?_
      have hij : i < j := by simpa using hj
      have h1 : 0 < GergEos.val GVIJ[i.1][j.1] := by rw [val_eq]; exact hG i j hi (le_of_lt hij)
      have := hnn i
      have := hnn j
      positivity
    have := hnn i
    positivity

theorem Present.drX_eq {x : Vector ℝ 22} (h : Present x) (D : ℝ) : D / drX x = D * GergEos.invRhoR (yOf x) := by
  unfold drX drOf
  rw [if_pos ((lt_eps _).2 h.vr), vrX_eq, l1, one_div, div_inv_eq_mul]

/-! ## Ideal gas -/

/-- The ideal-gas coefficients are those of the frozen copy; a term without a temperature has coefficient zero. -/
theorem ideal_table : ∀ i : Fin 22, 1 ≤ i.1 →
    (GergEos.ideal.getD (i.1 - 1) Inhabited.default).n1 = decQ (aget2 n0iD i 1) ∧
    (GergEos.ideal.getD (i.1 - 1) Inhabited.default).n2 = decQ (aget2 n0iD i 2) ∧
    (GergEos.ideal.getD (i.1 - 1) Inhabited.default).n3 = decQ (aget2 n0iD i 3) ∧
    (GergEos.ideal.getD (i.1 - 1) Inhabited.default).n4 = decQ (aget2 n0iD i 4) ∧
    (GergEos.ideal.getD (i.1 - 1) Inhabited.default).th4 = decQ (aget2 TH0I i 4) ∧
    (GergEos.ideal.getD (i.1 - 1) Inhabited.default).n5 = decQ (aget2 n0iD i 5) ∧
    (GergEos.ideal.getD (i.1 - 1) Inhabited.default).th5 = decQ (aget2 TH0I i 5) ∧
    (GergEos.ideal.getD (i.1 - 1) Inhabited.default).n6 = decQ (aget2 n0iD i 6) ∧
    (GergEos.ideal.getD (i.1 - 1) Inhabited.default).th6 = decQ (aget2 TH0I i 6) ∧
    (GergEos.ideal.getD (i.1 - 1) Inhabited.default).n7 = decQ (aget2 n0iD i 7) ∧
    (GergEos.ideal.getD (i.1 - 1) Inhabited.default).th7 = decQ (aget2 TH0I i 7) := by decide +kernel

theorem th_table : ∀ (i : Fin 22) (j : Fin 8), 1 ≤ i.1 → 4 ≤ j.1 →
    1e-15 < decQ (aget2 TH0I i j) ∨ decQ (aget2 n0iD i j) = 0 := by decide +kernel

theorem m0_n0i (i : Fin 22) (j : Fin 8) (hi : 1 ≤ i.1) (hj : 4 ≤ j.1) :
    aget2 m0.n0i i j = (decQ (aget2 n0iD i j) : ℝ) * (8.31451 / 8.314472) := by
  have hr : (RSR : ℝ) = 8.31451 / 8.314472 := by
    unfold RSR; rw [R_real, r_ofDec]; norm_num
  rw [m0_fields.2.2.2.2.2.2.2.2.2, n0i0_get i j hi (by omega), if_neg (by omega), if_neg (by omega), if_neg (by omega),
    ofDec_decQ, hr]

theorem I0_eq (x : Vector ℝ 22) {D : ℝ} (hD : 1e-15 < D) (T : ℝ) :
    I0 m0 x D T = GergEos.alpha0 (yOf x) D T := by
  have hr : (RSR : ℝ) = 8.31451 / 8.314472 := by
    unfold RSR; rw [R_real, r_ofDec]; norm_num
  unfold I0 GergEos.alpha0
  refine Finset.sum_congr rfl fun i hi => ?_
  simp only [Finset.mem_filter, Finset.mem_univ, true_and] at hi
  unfold yOf
  split
  swap
  · rw [zero_mul]
  rename_i hx
  congr 1
  have hH : H0 m0 i T = 8.31451 / 8.314472 * (
      (decQ (aget2 n0iD i 4) : ℝ) * log (sinh ((decQ (aget2 TH0I i 4) : ℝ) / T))
      - (decQ (aget2 n0iD i 5) : ℝ) * log (cosh ((decQ (aget2 TH0I i 5) : ℝ) / T))
      + (decQ (aget2 n0iD i 6) : ℝ) * log (sinh ((decQ (aget2 TH0I i 6) : ℝ) / T))
      - (decQ (aget2 n0iD i 7) : ℝ) * log (cosh ((decQ (aget2 TH0I i 7) : ℝ) / T))) := by
    unfold H0
    have key : ∀ (j : Fin 8) (hj : 4 ≤ j.1) (s : ℝ), (if 1e-15 < (tab2 TH0I i j : ℝ) then
        (decQ (aget2 n0iD i j) : ℝ) * (8.31451 / 8.314472) * s else 0) =
        (decQ (aget2 n0iD i j) : ℝ) * (8.31451 / 8.314472) * s := by
      intro j hj s
      rcases th_table i j hi hj with h | h
      · rw [if_pos]
        rw [tab2_decQ]
        have h' : ((1e-15 : ℚ) : ℝ) < (decQ (aget2 TH0I i j) : ℝ) := by exact_mod_cast h
        have e : ((1e-15 : ℚ) : ℝ) = 1e-15 := by norm_num
        rwa [e] at h'
      · rw [h]; simp
    have hf : (Finset.univ.filter fun j : Fin 8 => 4 ≤ j.1) = {4, 5, 6, 7} := by decide
    rw [hf, Finset.sum_insert (by decide), Finset.sum_insert (by decide), Finset.sum_insert (by decide),
      Finset.sum_singleton]
    have n4 := m0_n0i i 4 hi (by decide)
    have n5 := m0_n0i i 5 hi (by decide)
    have n6 := m0_n0i i 6 hi (by decide)
    have n7 := m0_n0i i 7 hi (by decide)
    have k4 := key 4 (by decide) (log (sinh (tab2 TH0I i 4 / T)))
    have k5 := key 5 (by decide) (-log (cosh (tab2 TH0I i 5 / T)))
    have k6 := key 6 (by decide) (log (sinh (tab2 TH0I i 6 / T)))
    have k7 := key 7 (by decide) (-log (cosh (tab2 TH0I i 7 / T)))
    rw [if_pos (show (4 : Fin 8).1 = 4 ∨ (4 : Fin 8).1 = 6 by decide),
      if_neg (show ¬ ((5 : Fin 8).1 = 4 ∨ (5 : Fin 8).1 = 6) by decide),
      if_pos (show (6 : Fin 8).1 = 4 ∨ (6 : Fin 8).1 = 6 by decide),
      if_neg (show ¬ ((7 : Fin 8).1 = 4 ∨ (7 : Fin 8).1 = 6) by decide), n4, n5, n6, n7, k4, k6]
    have m5 : ∀ a b : ℝ, -a * b = a * -b := by intros; ring
    rw [m5 _ (log (cosh (tab2 TH0I i 5 / T))), m5 _ (log (cosh (tab2 TH0I i 7 / T))), k5, k7]
    simp only [tab2_decQ]
    ring
  obtain ⟨t1, t2, t3, t4, t5, t6, t7, t8, t9, t10, t11⟩ := ideal_table i hi
  unfold IdealTerms.eval
  have hD0 : (0 : ℝ) < D := lt_trans (by norm_num) hD
  rw [hH]
  show logD D + log (aget x i) + _ + _ / T - _ * log T + _ = log (aget x i) + log (D / _) - 298.15 / T +
    8.31451 / 8.314472 * _
  rw [t1, t2, t3, t4, t5, t6, t7, t8, t9, t10, t11, m0_fields.2.2.2.2.2.2.2.2.2,
    n0i0_get i 1 hi (by decide), n0i0_get i 2 hi (by decide), n0i0_get i 3 hi (by decide), if_pos rfl,
    if_neg (by decide), if_pos rfl, if_neg (by decide), if_neg (by decide), if_pos rfl, hr]
  have hlit : (f% 298.15 : ℝ) = 298.15 := by rw [r_ofDec]; norm_num
  have hlit2 : (f% 101.325 : ℝ) = 101.325 := by rw [r_ofDec]; norm_num
  rw [hlit, hlit2, R_real, l1, r_ln, ofDec_decQ, ofDec_decQ, ofDec_decQ]
  unfold logD
  rw [if_pos hD, log_div hD0.ne' (by norm_num)]
  have : (101.325 : ℝ) / 8.314472 / 298.15 = 101.325 / (8.314472 * 298.15) := by norm_num
  rw [this]
  ring

end Aga8.Gerg
