import Verif.Lemmas.GergErrConv
import Verif.Lemmas.GergErrPure

/-! # The GERG-2008 equation at low density -/

set_option linter.unusedSectionVars false

namespace Aga8.Gerg

open Tab F64 GergEos

/-- The shape `σA` bounds `σ`. -/
structure Shape.Le (σ σA : Shape) : Prop where
  n : σ.n = σA.n
  k : σ.k = σA.k
  c : |σ.c| ≤ σA.c
  e : |σ.e| ≤ σA.e
  t : |σ.t| ≤ σA.t

theorem Shape.Le.f1 {σ σA : Shape} (h : Shape.Le σ σA) {δ : ℝ} (hδ : 0 ≤ δ) : |σ.f1 δ| ≤ σA.f1A δ := by
  unfold Shape.f1 Shape.f1A
  rw [← h.n, ← h.k]
  have k0 : 0 ≤ (σ.k : ℝ) * δ ^ σ.k := by positivity
  have c1 := mul_le_mul_of_nonneg_right h.c (pow_nonneg hδ 2)
  have e1 := mul_le_mul_of_nonneg_right h.e hδ
  have c2 := abs_mul σ.c (δ ^ 2)
  have e2 := abs_mul σ.e δ
  rw [abs_of_nonneg (pow_nonneg hδ 2)] at c2
  rw [abs_of_nonneg hδ] at e2
  have c3 := abs_le.1 (le_of_eq c2)
  have e3 := abs_le.1 (le_of_eq e2)
  have n0 : (0 : ℝ) ≤ σ.n := Nat.cast_nonneg _
  rw [abs_le]
  constructor <;> linarith

theorem Shape.Le.l2 {σ σA : Shape} (h : Shape.Le σ σA) {δ : ℝ} (hδ : 0 ≤ δ) : |σ.l2 δ| ≤ σA.l2A δ := by
  unfold Shape.l2 Shape.l2A
  rw [← h.k]
  have k0 : 0 ≤ (σ.k : ℝ) ^ 2 * δ ^ σ.k := by positivity
  have c1 := mul_le_mul_of_nonneg_right h.c (pow_nonneg hδ 2)
  have e1 := mul_le_mul_of_nonneg_right h.e hδ
  have c2 := abs_mul σ.c (δ ^ 2)
  have e2 := abs_mul σ.e δ
  rw [abs_of_nonneg (pow_nonneg hδ 2)] at c2
  rw [abs_of_nonneg hδ] at e2
  have c3 := abs_le.1 (le_of_eq c2)
  have e3 := abs_le.1 (le_of_eq e2)
  rw [abs_le]
  constructor <;> linarith

theorem Shape.Le.f2 {σ σA : Shape} (h : Shape.Le σ σA) {δ : ℝ} (hδ : 0 ≤ δ) : |σ.f2 δ| ≤ σA.f2A δ := by
  unfold Shape.f2 Shape.f2A
  have a := h.f1 hδ
  have b := h.l2 hδ
  have e : σ.f1 δ ^ 2 - σ.f1 δ + σ.l2 δ = σ.f1 δ * (σ.f1 δ - 1) + σ.l2 δ := by ring
  rw [e]
  refine (abs_add_le _ _).trans (add_le_add ?_ b)
  rw [abs_mul]
  refine mul_le_mul a ((abs_sub _ _).trans ?_) (abs_nonneg _) ((abs_nonneg _).trans a)
  rw [abs_one]
  linarith

theorem dec_nonneg {d : Dec} (h : 0 ≤ d.m) : 0 ≤ decR d := by
  unfold decR
  have : (0 : ℝ) ≤ d.m := by exact_mod_cast h
  positivity

theorem shape_le (x : Vector ℝ 22) (ι : Ix) (h : coef x ι ≠ 0) : Shape.Le (shape m0 ι) (shapeA ι) := by
  obtain ⟨e1, e2, e3, e4, e5, e6, e7, e8, -, -⟩ := m0_fields
  rcases ι with ⟨i, k⟩ | ⟨i, j, k⟩
  · refine ⟨?_, ?_, ?_, ?_, ?_⟩ <;> simp only [shape, shapeA, e1, e2, abs_zero, le_refl]
  · have hr : actM x i j k.1 := by
      by_contra hn
      exact h (by simp only [coef]; exact if_neg hn)
    have h11 := MNUMB_lt i j
    have g : ∀ (v : Vector (Vector ℝ 13) 11), gd2 v (aget2 MNUMB i j) k.1 0
        = aget2 v ⟨aget2 MNUMB i j, h11⟩ k := fun v => gd2_pos v 0 h11 k.2
    have gD : ∀ (v : Vector (Vector Dec 13) 11), gd2 v (aget2 MNUMB i j) k.1 ⟨0, 0⟩
        = aget2 v ⟨aget2 MNUMB i j, h11⟩ k := fun v => gd2_pos v _ h11 k.2
    obtain ⟨d1, d2, -⟩ := dep0_get (F := ℝ) ⟨aget2 MNUMB i j, h11⟩ k hr.2.2.2.2.1 hr.2.2.2.2.2.1
    simp only [shape, shapeA]
    unfold shapeM
    by_cases hp : k.1 ≤ kpolij (aget2 MNUMB i j)
    · rw [if_pos hp, if_pos hp]
      exact ⟨by rw [e3], rfl, by simp, by simp, le_refl _⟩
    · rw [if_neg hp, if_neg hp]
      have hk := not_le.1 hp
      have c0 := dec_nonneg (chkCijk ⟨aget2 MNUMB i j, h11⟩ k hr.2.2.2.2.1 hk hr.2.2.2.2.2.2).2.1
      have e0 := dec_nonneg (chkEijk ⟨aget2 MNUMB i j, h11⟩ k hr.2.2.2.2.1 hk hr.2.2.2.2.2.2).2
      have b0 := dec_nonneg (chkBijk ⟨aget2 MNUMB i j, h11⟩ k hr.2.2.2.2.1 hk hr.2.2.2.2.2.2).2.1
      refine ⟨by rw [e3], rfl, ?_, ?_, le_refl _⟩
      · show |gd2 m0.cijk _ _ _| ≤ cA _ _
        unfold cA
        rw [e6, g, d1, gD, abs_neg, ofDec_decR, abs_of_nonneg c0]
      · show |gd2 m0.eijk _ _ _| ≤ eA _ _
        unfold eA
        rw [e7, g, d2, gD, gD, gD, ofDec_decR, ofDec_decR, ofDec_decR, ofDec_decR]
        have ce := mul_nonneg c0 e0
        have l2 : decR ⟨2, 0⟩ = 2 := by simp [decR]
        rw [l2, abs_le]
        constructor <;> linarith

theorem abs_RS_le (x : Vector ℝ 22) {fac facA : Fac} {δ : ℝ} (hδ : 0 ≤ δ)
    (hf : ∀ σ σA, Shape.Le σ σA → |fac σ δ| ≤ facA σA δ) (τ : ℝ) : |RS x fac δ τ| ≤ RA x facA δ τ := by
  rw [RS_tV]
  unfold RA
  refine (Finset.abs_sum_le_sum_abs _ _).trans (Finset.sum_le_sum fun ι _ => ?_)
  unfold tV tA
  by_cases h : coef x ι = 0
  · rw [h]; simp
  have p : 0 ≤ (shape m0 ι).phi δ := by unfold Shape.phi; positivity
  rw [abs_mul, abs_mul, abs_of_pos (Real.exp_pos _), abs_mul, abs_of_nonneg p]
  exact mul_le_mul_of_nonneg_left (mul_le_mul_of_nonneg_left (hf _ _ (shape_le x ι h)) p) (by positivity)

/-- The compression factor and the derivative differ from 1 by at most the sizes of their terms. -/
theorem Z_close (x : Vector ℝ 22) {D T : ℝ} (hτ : 0 < Tr (yOf x) / T) (hδ : 0 ≤ D * invRhoR (yOf x)) :
    |GergEos.Z (yOf x) D T - 1| ≤ GergEos.Zabs (yOf x) D T - 1 ∧ |dPdD (yOf x) D T - 1| ≤ dPdDabs (yOf x) D T - 1 := by
  rw [Z_RS x D hτ, Zabs_RA x D hτ, dPdD_RS x D hτ, dPdDabs_RA x D hτ]
  have a := abs_RS_le x (fac := Shape.f1) (facA := Shape.f1A) hδ (fun _ _ h => h.f1 hδ) (Tr (yOf x) / T)
  have b := abs_RS_le x (fac := Shape.f2) (facA := Shape.f2A) hδ (fun _ _ h => h.f2 hδ) (Tr (yOf x) / T)
  rw [abs_le] at *
  rw [abs_le]
  refine ⟨⟨?_, ?_⟩, ?_, ?_⟩ <;> linarith

end Aga8.Gerg
