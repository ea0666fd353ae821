import Verif.Lemmas.GergErrEnergy
import Verif.Lemmas.GergBox

/-! # The residual sums of a mixture as sums over the terms of the equation

The terms of pure fluids and of departure functions are written in one form. A power `τ ^ t0` and one factor of the density are
taken out of all of them. -/

set_option linter.unusedSectionVars false

namespace Aga8.GergEos

open Detail (expK)

/-- What a term depends on the density by. -/
structure Key where
  d : ℕ
  c : ℕ
  η : ℚ
  ε : ℚ
  β : ℚ
  γ : ℚ
deriving DecidableEq

/-- A term of a pure fluid or of a departure function. -/
structure UTerm where
  n : ℚ
  t : ℚ
  k : Key
deriving DecidableEq

def PureTerm.uni (a : PureTerm) : UTerm := ⟨a.n, a.t, ⟨a.d, a.c, 0, 0, 0, 0⟩⟩
def DepTerm.uni (a : DepTerm) : UTerm := ⟨a.n, a.t, ⟨a.d, 0, a.η, a.ε, a.β, a.γ⟩⟩

def pureU (i : ℕ) : List UTerm := (pureTerms.getD i []).map PureTerm.uni
def depU (i j : ℕ) : List UTerm := (departure i j).2.map DepTerm.uni

/-- The density factor without one power of the density. -/
noncomputable def Key.base (k : Key) (δ : ℝ) : ℝ :=
  δ ^ (k.d - 1) * expK k.c δ * Real.exp (-k.η * (δ - k.ε) ^ 2 - k.β * (δ - k.γ))
/-- `δ ∂/∂δ` multiplies the term by this. -/
noncomputable def Key.hZ (k : Key) (δ : ℝ) : ℝ := k.d - k.c * δ ^ k.c - δ * (2 * k.η * (δ - k.ε) + k.β)
/-- `2 δ ∂/∂δ + δ² ∂²/∂δ²` multiplies the term by this. -/
noncomputable def Key.hP (k : Key) (δ : ℝ) : ℝ :=
  k.hZ δ * (k.hZ δ + 1) - k.c ^ 2 * δ ^ k.c - δ * (2 * k.η * (2 * δ - k.ε) + k.β)
noncomputable def Key.hZa (k : Key) (δ : ℝ) : ℝ := k.d + k.c * δ ^ k.c + δ * (2 * k.η * (δ + k.ε) + k.β)
noncomputable def Key.hPa (k : Key) (δ : ℝ) : ℝ :=
  k.hZa δ * (k.hZa δ + 3) + k.c ^ 2 * δ ^ k.c + δ * (2 * k.η * (2 * δ + k.ε) + k.β)

/-- The power of the inverse reduced temperature that is taken out. -/
def t0 : ℚ := 5 / 4

/-- A sum over terms, each with a factor of its temperature exponent and one of its density exponents. -/
noncomputable def uSum (L : List UTerm) (q : ℚ → ℚ) (h : Key → ℝ → ℝ) (δ τ : ℝ) : ℝ :=
  (L.map fun u => ((u.n * q u.t : ℚ) : ℝ) * τ ^ ((u.t - t0 : ℚ) : ℝ) * (u.k.base δ * h u.k δ)).sum
/-- The sum of the sizes of the terms. -/
noncomputable def uAbs (L : List UTerm) (q : ℚ → ℚ) (h : Key → ℝ → ℝ) (δ τ : ℝ) : ℝ :=
  (L.map fun u => ((|u.n| * q u.t : ℚ) : ℝ) * τ ^ ((u.t - t0 : ℚ) : ℝ) * (u.k.base δ * h u.k δ)).sum

noncomputable def mixSum (q : ℚ → ℚ) (h : Key → ℝ → ℝ) (x : Fin 22 → ℝ) (δ τ : ℝ) : ℝ :=
  ∑ i with 1 ≤ i.1, x i * uSum (pureU i.1) q h δ τ
    + ∑ i with 1 ≤ i.1, ∑ j with i < j, x i * x j * (((departure i.1 j.1).1 : ℝ) * uSum (depU i.1 j.1) q h δ τ)
noncomputable def mixAbs (q : ℚ → ℚ) (h : Key → ℝ → ℝ) (x : Fin 22 → ℝ) (δ τ : ℝ) : ℝ :=
  ∑ i with 1 ≤ i.1, x i * uAbs (pureU i.1) q h δ τ
    + ∑ i with 1 ≤ i.1, ∑ j with i < j, x i * x j * (|((departure i.1 j.1).1 : ℝ)| * uAbs (depU i.1 j.1) q h δ τ)

theorem pure_d : ∀ i : Fin 22, ∀ a ∈ pureTerms.getD i.1 [], 1 ≤ a.d := by decide +kernel
theorem dep_d : ∀ i j : Fin 22, ∀ a ∈ (departure i.1 j.1).2, 1 ≤ a.d := by decide +kernel

theorem expK_zero' (δ : ℝ) : expK 0 δ = 1 := by simp [expK]

theorem pow_pred {d : ℕ} (hd : 1 ≤ d) (δ : ℝ) : δ * δ ^ (d - 1) = δ ^ d := by
  obtain ⟨m, rfl⟩ : ∃ m, d = m + 1 := ⟨d - 1, by omega⟩
  rw [Nat.add_sub_cancel, pow_succ, mul_comm]

theorem pow_t0 {τ : ℝ} (hτ : 0 < τ) (t : ℚ) : τ ^ (t0 : ℝ) * τ ^ ((t - t0 : ℚ) : ℝ) = τ ^ (t : ℝ) := by
  rw [← Real.rpow_add hτ]
  congr 1
  push_cast
  ring

theorem list_mul {α : Type} (l : List α) (c : ℝ) (f g : α → ℝ) (h : ∀ a ∈ l, f a = c * g a) : (l.map f).sum = c * (l.map g).sum := by
  rw [← List.sum_map_mul_left]
  congr 1
  exact List.map_congr_left h

theorem pure_uni {i : Fin 22} {q : ℚ → ℚ} {h : Key → ℝ → ℝ} {g : PureTerm → ℝ → ℝ}
    (hg : ∀ a δ, g a δ = (q a.t : ℝ) * h a.uni.k δ) (δ : ℝ) {τ : ℝ} (hτ : 0 < τ) :
    ((pureTerms.getD i.1 []).map fun a => a.eval δ τ * g a δ).sum = δ * τ ^ (t0 : ℝ) * uSum (pureU i.1) q h δ τ := by
  unfold uSum pureU
  rw [List.map_map]
  refine list_mul _ _ _ _ fun a ha => ?_
  rw [hg]
  simp only [Function.comp, PureTerm.uni, PureTerm.eval, Key.base, expK_eq, Rat.cast_zero, neg_zero, zero_mul, sub_zero, Real.exp_zero,
    mul_one]
  rw [← pow_t0 hτ a.t, ← pow_pred (pure_d i a ha)]
  push_cast
  ring

theorem dep_uni {i j : Fin 22} {q : ℚ → ℚ} {h : Key → ℝ → ℝ} {g : DepTerm → ℝ → ℝ}
    (hg : ∀ a δ, g a δ = (q a.t : ℝ) * h a.uni.k δ) (δ : ℝ) {τ : ℝ} (hτ : 0 < τ) :
    ((departure i.1 j.1).2.map fun a => a.eval δ τ * g a δ).sum = δ * τ ^ (t0 : ℝ) * uSum (depU i.1 j.1) q h δ τ := by
  unfold uSum depU
  rw [List.map_map]
  refine list_mul _ _ _ _ fun a ha => ?_
  rw [hg]
  simp only [Function.comp, DepTerm.uni, DepTerm.eval, Key.base, expK_zero', mul_one]
  rw [← pow_t0 hτ a.t, ← pow_pred (dep_d i j a ha)]
  push_cast
  ring

theorem pure_uniA {i : Fin 22} {q : ℚ → ℚ} {h : Key → ℝ → ℝ} {g : PureTerm → ℝ → ℝ}
    (hg : ∀ a δ, g a δ = (q a.t : ℝ) * h a.uni.k δ) (δ : ℝ) {τ : ℝ} (hτ : 0 < τ) :
    ((pureTerms.getD i.1 []).map fun a => a.size δ τ * g a δ).sum = δ * τ ^ (t0 : ℝ) * uAbs (pureU i.1) q h δ τ := by
  unfold uAbs pureU
  rw [List.map_map]
  refine list_mul _ _ _ _ fun a ha => ?_
  rw [hg]
  simp only [Function.comp, PureTerm.uni, PureTerm.size, Key.base, expK_eq, Rat.cast_zero, neg_zero, zero_mul, sub_zero, Real.exp_zero,
    mul_one]
  rw [← pow_t0 hτ a.t, ← pow_pred (pure_d i a ha)]
  push_cast
  ring

theorem dep_uniA {i j : Fin 22} {q : ℚ → ℚ} {h : Key → ℝ → ℝ} {g : DepTerm → ℝ → ℝ}
    (hg : ∀ a δ, g a δ = (q a.t : ℝ) * h a.uni.k δ) (δ : ℝ) {τ : ℝ} (hτ : 0 < τ) :
    ((departure i.1 j.1).2.map fun a => a.size δ τ * g a δ).sum = δ * τ ^ (t0 : ℝ) * uAbs (depU i.1 j.1) q h δ τ := by
  unfold uAbs depU
  rw [List.map_map]
  refine list_mul _ _ _ _ fun a ha => ?_
  rw [hg]
  simp only [Function.comp, DepTerm.uni, DepTerm.size, Key.base, expK_zero', mul_one]
  rw [← pow_t0 hτ a.t, ← pow_pred (dep_d i j a ha)]
  push_cast
  ring

theorem sizes_mix {q : ℚ → ℚ} {h : Key → ℝ → ℝ} {g : PureTerm → ℝ → ℝ} {g' : DepTerm → ℝ → ℝ}
    (hg : ∀ a δ, g a δ = (q a.t : ℝ) * h a.uni.k δ) (hg' : ∀ a δ, g' a δ = (q a.t : ℝ) * h a.uni.k δ) (x : Fin 22 → ℝ) (δ : ℝ)
    {τ : ℝ} (hτ : 0 < τ) : sizes g g' x δ τ = δ * τ ^ (t0 : ℝ) * mixAbs q h x δ τ := by
  unfold sizes mixAbs
  rw [mul_add, Finset.mul_sum, Finset.mul_sum]
  congr 1
  · refine Finset.sum_congr rfl fun i _ => ?_
    rw [pure_uniA hg δ hτ]
    ring
  · refine Finset.sum_congr rfl fun i _ => ?_
    rw [Finset.mul_sum]
    refine Finset.sum_congr rfl fun j _ => ?_
    rw [dep_uniA hg' δ hτ]
    ring

end Aga8.GergEos

namespace Aga8.Gerg

open Tab Real GergEos

/-- `fac` is the factor `g` on terms of pure fluids and `h` on departure terms. -/
structure IsFac (fac : Fac) (g : PureTerm → ℝ → ℝ) (h : DepTerm → ℝ → ℝ) : Prop where
  pure : ∀ (a : PureTerm) δ, fac ⟨a.d, a.c, 0, 0, a.t⟩ δ = g a δ
  dep : ∀ (a : DepTerm) δ, fac ⟨a.d, 0, -a.η, 2 * a.η * a.ε - a.β, a.t⟩ δ = h a δ

variable {fac : Fac} {g : PureTerm → ℝ → ℝ} {h : DepTerm → ℝ → ℝ}

/-- One fluid's part. -/
theorem pure_partF (hg : IsFac fac g h) (x : Vector ℝ 22) (i : Fin 22) (δ : ℝ) {τ : ℝ} (hτ : 0 < τ) :
    ∑ k : Fin 25, tV x fac δ τ (.inl (i, k))
      = if 1 ≤ i.1 then yOf x i * ((pureTerms.getD i.1 []).map fun a => a.eval δ τ * g a δ).sum else 0 := by
  unfold tV
  by_cases hi : 1 ≤ i.1
  swap
  · rw [if_neg hi]
    refine Finset.sum_eq_zero fun k _ => ?_
    simp only [coef]
    rw [if_neg (fun h : readP x i k => hi h.1), zero_mul, zero_mul]
  rw [if_pos hi]
  unfold yOf
  by_cases hx : 1e-15 < aget x i
  swap
  · rw [if_neg hx, zero_mul]
    refine Finset.sum_eq_zero fun k _ => ?_
    simp only [coef]
    rw [if_neg (fun h : readP x i k => hx ((lt_eps _).1 h.2.1)), zero_mul, zero_mul]
  rw [if_pos hx]
  obtain ⟨hl, ht⟩ := pure_table i hi
  have h25 := KPOL_KEXP_lt i
  rw [sum_map_fin (n := 24) _ _ (by rw [hl]; omega), Fin.sum_univ_succ, Finset.mul_sum]
  have h0 : coef x (.inl (i, 0)) = 0 := by
    simp only [coef]
    exact if_neg (fun h : readP x i 0 => absurd h.2.2.1 (by decide))
  rw [h0, zero_mul, zero_mul, zero_add]
  refine Finset.sum_congr rfl fun k _ => ?_
  simp only [coef]
  by_cases hk : k.1 < (pureTerms.getD i.1 []).length
  · obtain ⟨t1, t2, t3, t4⟩ := ht k hk
    have hr : readP x i k.succ := ⟨hi, (lt_eps _).2 hx, by show 1 ≤ k.1 + 1; omega, by show k.1 + 1 ≤ _; omega⟩
    rw [if_pos hr, if_pos hk]
    show _ = aget x i * ((pT i.1 k.1).eval δ τ * g (pT i.1 k.1) δ)
    have hs : shape m0 (.inl (i, k.succ)) = ⟨(pT i.1 k.1).d, (pT i.1 k.1).c, 0, 0, ((pT i.1 k.1).t : ℝ)⟩ := by
      simp only [shape]
      rw [t2, t3, t4, m0_toik, ofDec_decQ, m0_fields.1, m0_fields.2.1]
    rw [hs, hg.pure]
    unfold PureTerm.eval
    rw [t1, tab2_decQ, exp_log_mul hτ]
    unfold Shape.phi Shape.q
    dsimp only
    split
    · simp only [neg_zero, zero_mul, add_zero, exp_zero]; ring
    · simp only [zero_mul, add_zero]; ring
  · rw [if_neg hk, mul_zero, if_neg (fun h : readP x i k.succ => hk (by
      have h2 : k.1 + 1 ≤ _ := h.2.2.2; omega)), zero_mul, zero_mul]

/-- One pair's part. -/
theorem dep_partF (hg : IsFac fac g h) (x : Vector ℝ 22) (i j : Fin 22) (δ : ℝ) {τ : ℝ} (hτ : 0 < τ) :
    ∑ k : Fin 13, tV x fac δ τ (.inr (i, j, k))
      = if 1 ≤ i.1 ∧ i < j then yOf x i * yOf x j * ((departure i.1 j.1).1 : ℝ)
        * ((departure i.1 j.1).2.map fun a => a.eval δ τ * h a δ).sum else 0 := by
  unfold tV
  by_cases hij : 1 ≤ i.1 ∧ i < j
  swap
  · rw [if_neg hij]
    refine Finset.sum_eq_zero fun k _ => ?_
    simp only [coef]
    rw [if_neg (fun h : actM x i j k.1 => hij ⟨h.1, h.2.1⟩), zero_mul, zero_mul]
  rw [if_pos hij]
  obtain ⟨hi, hj⟩ := hij
  unfold yOf
  by_cases hx : 1e-15 < aget x i
  swap
  · rw [if_neg hx, zero_mul, zero_mul, zero_mul]
    refine Finset.sum_eq_zero fun k _ => ?_
    simp only [coef]
    rw [if_neg (fun h : actM x i j k.1 => hx ((lt_eps _).1 h.2.2.1)), zero_mul, zero_mul]
  rw [if_pos hx]
  by_cases hy : 1e-15 < aget x j
  swap
  · rw [if_neg hy, mul_zero, zero_mul, zero_mul]
    refine Finset.sum_eq_zero fun k _ => ?_
    simp only [coef]
    rw [if_neg (fun h : actM x i j k.1 => hy ((lt_eps _).1 h.2.2.2.1)), zero_mul, zero_mul]
  rw [if_pos hy]
  obtain ⟨hl, hF, ht⟩ := dep_table i j hi hj
  by_cases hm : aget2 MNUMB i j = 0
  · rw [if_pos hm] at hl
    rw [List.length_eq_zero_iff.1 hl, List.map_nil, List.sum_nil, mul_zero]
    refine Finset.sum_eq_zero fun k _ => ?_
    simp only [coef]
    rw [if_neg (fun h : actM x i j k.1 => by have := h.2.2.2.2.1; omega), zero_mul, zero_mul]
  rw [if_neg hm] at hl
  have h11 := MNUMB_lt i j
  have h13 := kpolij_lt h11
  rw [sum_map_fin (n := 12) _ _ (by rw [hl]; omega), Fin.sum_univ_succ, Finset.mul_sum]
  have h0 : coef x (.inr (i, j, 0)) = 0 := by
    simp only [coef]
    exact if_neg (fun h : actM x i j 0 => absurd h.2.2.2.2.2.1 (by decide))
  rw [h0, zero_mul, zero_mul, zero_add]
  refine Finset.sum_congr rfl fun k _ => ?_
  simp only [coef]
  by_cases hk : k.1 < (departure i.1 j.1).2.length
  swap
  · rw [if_neg hk, mul_zero, if_neg (fun h : actM x i j k.succ.1 => hk (by
      have h2 : k.1 + 1 ≤ _ := h.2.2.2.2.2.2; omega)), zero_mul, zero_mul]
  obtain ⟨t1, t2, t3, t4⟩ := ht ⟨aget2 MNUMB i j, h11⟩ k rfl hk
  have hr : actM x i j k.succ.1 := ⟨hi, hj, (lt_eps _).2 hx, (lt_eps _).2 hy, by omega,
    by show 1 ≤ k.1 + 1; omega, by show k.1 + 1 ≤ _; omega⟩
  rw [if_pos hr, if_pos hk]
  show _ = aget x i * aget x j * _ * ((dT i.1 j.1 k.1).eval δ τ * h (dT i.1 j.1 k.1) δ)
  obtain ⟨-, -, e3, e4, e5, e6, e7, e8, -, -⟩ := m0_fields
  have g' : ∀ (v : Vector (Vector ℝ 13) 11), gd2 v (aget2 MNUMB i j) k.succ.1 0
      = aget2 v ⟨aget2 MNUMB i j, h11⟩ k.succ := fun v => gd2_pos v 0 h11 k.succ.2
  have hm1 : 1 ≤ (⟨aget2 MNUMB i j, h11⟩ : Fin 11).1 := by show 1 ≤ aget2 MNUMB i j; omega
  have hk1 : 1 ≤ k.succ.1 := by show 1 ≤ k.1 + 1; omega
  have gn : gd2 m0.nijk (aget2 MNUMB i j) k.succ.1 0 = (decQ (aget2 nijkD ⟨aget2 MNUMB i j, h11⟩ k.succ) : ℝ) := by
    rw [e5, g', nijk0_get, ofDec_decQ]
  obtain ⟨d1, d2, d3⟩ := dep0_get (F := ℝ) ⟨aget2 MNUMB i j, h11⟩ k.succ hm1 hk1
  have hs : shape m0 (.inr (i, j, k.succ)) = ⟨(dT i.1 j.1 k.1).d, 0, -((dT i.1 j.1 k.1).η : ℝ),
      2 * (dT i.1 j.1 k.1).η * (dT i.1 j.1 k.1).ε - (dT i.1 j.1 k.1).β, ((dT i.1 j.1 k.1).t : ℝ)⟩ := by
    simp only [shape]
    unfold shapeM
    by_cases hp : k.succ.1 ≤ kpolij (aget2 MNUMB i j)
    · rw [if_pos hp] at t4
      rw [if_pos hp, t2, t3, t4.1, t4.2, e3, e4, g' tijk0, tijk0_get, ofDec_decQ]
      simp
    · rw [if_neg hp] at t4
      rw [if_neg hp, t2, t3, t4.1, t4.2.1, t4.2.2.1, e3, e4, e6, e7, g' tijk0, tijk0_get, g' dep0.cijk, g' dep0.eijk, d1, d2]
      have e2 : ((decQ ⟨2, 0⟩ : ℚ) : ℝ) = 2 := by unfold decQ; norm_num
      simp only [ofDec_decQ, e2]
  unfold DepTerm.eval
  rw [hF hm, tab2_decQ, t1, gn]
  by_cases hp : k.succ.1 ≤ kpolij (aget2 MNUMB i j)
  · rw [if_pos hp] at t4
    rw [if_pos hp, hs, hg.dep, exp_log_mul hτ, t4.1, t4.2]
    unfold Shape.phi Shape.q
    simp only [if_true, Rat.cast_zero, neg_zero, zero_mul, mul_zero, add_zero, sub_zero, exp_zero]
    ring
  · rw [if_neg hp] at t4
    rw [if_neg hp, hs, hg.dep, exp_log_mul hτ, e8, g' dep0.gijk, d3]
    unfold Shape.phi Shape.q
    rw [t4.1, t4.2.1, t4.2.2.1, t4.2.2.2]
    simp only [if_true, neg_zero, zero_add, ofDec_decQ, r_powi]
    have he : ∀ (n t Q G : ℝ) (η ε β γ : ℝ), n * exp (-η * ε ^ 2 + β * γ)
        * t * (Q * exp (-η * δ ^ 2 + (2 * η * ε - β) * δ) * G)
        = n * Q * t * exp (-η * (δ - ε) ^ 2 - β * (δ - γ)) * G := by
      intro n t Q G η ε β γ
      have : -η * (δ - ε) ^ 2 - β * (δ - γ)
        = (-η * ε ^ 2 + β * γ) + (-η * δ ^ 2 + (2 * η * ε - β) * δ) := by
          ring
      rw [this, exp_add (-η * ε ^ 2 + β * γ)]; ring
    rw [mul_assoc (aget x i * aget x j * _) _ (_ ^ _), mul_assoc (aget x i * aget x j * _), he]

/-- The residual sum of a mixture with the factor `q t * h`. -/
theorem RS_mix {q : ℚ → ℚ} {H : Key → ℝ → ℝ}
    (hg : IsFac fac (fun a δ => (q a.t : ℝ) * H a.uni.k δ) (fun a δ => (q a.t : ℝ) * H a.uni.k δ)) (x : Vector ℝ 22) (δ : ℝ) {τ : ℝ}
    (hτ : 0 < τ) : RS x fac δ τ = δ * τ ^ (t0 : ℝ) * mixSum q H (yOf x) δ τ := by
  have e : RS x fac δ τ = ∑ ι, tV x fac δ τ ι := rfl
  rw [e]
  unfold mixSum
  rw [Fintype.sum_sum_type, Fintype.sum_prod_type, Fintype.sum_prod_type, mul_add, Finset.mul_sum, Finset.mul_sum]
  congr 1
  · rw [Finset.sum_filter]
    refine Finset.sum_congr rfl fun i _ => ?_
    rw [pure_partF hg x i δ hτ]
    split
    · rw [pure_uni (fun _ _ => rfl) δ hτ]; ring
    · rfl
  · rw [Finset.sum_filter]
    refine Finset.sum_congr rfl fun i _ => ?_
    rw [Fintype.sum_prod_type, Finset.sum_congr rfl fun j _ => dep_partF hg x i j δ hτ]
    by_cases hi : 1 ≤ i.1
    · simp only [hi, true_and, if_true]
      rw [← Finset.sum_filter, Finset.mul_sum]
      refine Finset.sum_congr rfl fun j _ => ?_
      rw [dep_uni (fun _ _ => rfl) δ hτ]
      ring
    · simp only [hi, false_and, if_false, Finset.sum_const_zero]

theorem facZ : IsFac Shape.f1 (fun a δ => ((1 : ℚ) : ℝ) * a.uni.k.hZ δ) (fun a δ => ((1 : ℚ) : ℝ) * a.uni.k.hZ δ) where
  pure a δ := by unfold Shape.f1 Key.hZ PureTerm.uni; push_cast; ring
  dep a δ := by unfold Shape.f1 Key.hZ DepTerm.uni; push_cast; ring
theorem facP : IsFac (fun σ δ => 2 * σ.f1 δ + σ.f2 δ) (fun a δ => ((1 : ℚ) : ℝ) * a.uni.k.hP δ)
    (fun a δ => ((1 : ℚ) : ℝ) * a.uni.k.hP δ) where
  pure a δ := by unfold Shape.f2 Shape.l2 Shape.f1 Key.hP Key.hZ PureTerm.uni; push_cast; ring
  dep a δ := by unfold Shape.f2 Shape.l2 Shape.f1 Key.hP Key.hZ DepTerm.uni; push_cast; ring
theorem facT : IsFac (fun σ δ => σ.f1 δ - σ.t * σ.f1 δ) (fun a δ => ((1 - a.t : ℚ) : ℝ) * a.uni.k.hZ δ)
    (fun a δ => ((1 - a.t : ℚ) : ℝ) * a.uni.k.hZ δ) where
  pure a δ := by unfold Shape.f1 Key.hZ PureTerm.uni; push_cast; ring
  dep a δ := by unfold Shape.f1 Key.hZ DepTerm.uni; push_cast; ring
theorem facV : IsFac (fun σ _ => σ.t * (σ.t - 1)) (fun a _ => ((a.t * (a.t - 1) : ℚ) : ℝ) * 1)
    (fun a _ => ((a.t * (a.t - 1) : ℚ) : ℝ) * 1) where
  pure a δ := by push_cast; ring
  dep a δ := by push_cast; ring

theorem RS_lin (x : Vector ℝ 22) (f g : Fac) (a : ℝ) (δ τ : ℝ) :
    RS x (fun σ δ => a * f σ δ + g σ δ) δ τ = a * RS x f δ τ + RS x g δ τ := by
  unfold RS
  rw [Finset.mul_sum, ← Finset.sum_add_distrib]
  exact Finset.sum_congr rfl fun ι _ => by ring

end Aga8.Gerg
