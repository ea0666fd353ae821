import Verif.Spec.GergError
import Mathlib.Algebra.Order.BigOperators.Group.List

/-! # The size of the terms of the compression factor of a pure fluid -/

namespace Aga8.GergEos

open Finset

theorem reducing_single (Y B : Fin 22 → Fin 22 → ℝ) (k : Fin 22) (hk : 1 ≤ k.1) :
    reducing Y B (fun i => if i = k then 1 else 0) = Y k k := by
  unfold reducing
  rw [Finset.sum_eq_single k]
  · rw [Finset.sum_eq_zero]
    · simp
    · intro j hj
      have : k < j := (Finset.mem_filter.1 hj).2
      simp only [if_neg (ne_of_gt this), mul_zero, zero_mul]
  · intro i _ hi
    simp [if_neg hi]
  · intro h
    exact absurd (by simpa using hk) h

theorem sizes_single (g : PureTerm → ℝ → ℝ) (h : DepTerm → ℝ → ℝ) (k : Fin 22) (hk : 1 ≤ k.1) (δ τ : ℝ) :
    sizes g h (fun i => if i = k then 1 else 0) δ τ
      = ((pureTerms.getD k.1 []).map fun a => a.size δ τ * g a δ).sum := by
  unfold sizes
  rw [Finset.sum_eq_single k]
  · rw [Finset.sum_eq_zero]
    · simp
    · intro i _
      refine Finset.sum_eq_zero fun j hj => ?_
      have : i < j := (Finset.mem_filter.1 hj).2
      by_cases hi : i = k
      · have hj : ¬j = k := by rw [← hi]; exact ne_of_gt this
        simp only [if_neg hj, mul_zero, zero_mul]
      · simp only [if_neg hi, zero_mul]
  · intro i _ hi
    simp only [if_neg hi, zero_mul]
  · intro h
    exact absurd (by simpa using hk) h

/-- Below the critical density and above the critical temperature a term is at most its coefficient. -/
theorem PureTerm.size_le (a : PureTerm) (ht : 0 ≤ a.t) {δ τ : ℝ} (h0 : 0 ≤ δ) (h1 : δ ≤ 1) (t0 : 0 < τ) (t1 : τ ≤ 1) :
    a.size δ τ * a.grow1 δ ≤ ((|a.n| * (a.d + a.c) : ℚ) : ℝ) := by
  have e1 : δ ^ a.d ≤ 1 := pow_le_one₀ h0 h1
  have e2 : τ ^ (a.t : ℝ) ≤ 1 := Real.rpow_le_one t0.le t1 (by exact_mod_cast ht)
  have e3 : (if a.c = 0 then (1 : ℝ) else Real.exp (-δ ^ a.c)) ≤ 1 := by
    split
    · exact le_refl _
    · rw [Real.exp_le_one_iff]
      have := pow_nonneg h0 a.c
      linarith
  have e3' : 0 ≤ (if a.c = 0 then (1 : ℝ) else Real.exp (-δ ^ a.c)) := by
    split
    · norm_num
    · exact (Real.exp_pos _).le
  have e4 : a.grow1 δ ≤ a.d + a.c := by
    unfold PureTerm.grow1
    have := mul_le_mul_of_nonneg_left (pow_le_one₀ h0 h1 : δ ^ a.c ≤ 1) (Nat.cast_nonneg a.c : (0 : ℝ) ≤ a.c)
    linarith
  have e5 : 0 ≤ a.grow1 δ := by unfold PureTerm.grow1; positivity
  have e6 := Real.rpow_nonneg t0.le (a.t : ℝ)
  have hn := abs_nonneg (a.n : ℝ)
  have s1 : a.size δ τ ≤ |(a.n : ℝ)| := by
    unfold PureTerm.size
    calc |(a.n : ℝ)| * δ ^ a.d * τ ^ (a.t : ℝ) * (if a.c = 0 then 1 else Real.exp (-δ ^ a.c))
        ≤ |(a.n : ℝ)| * 1 * 1 * 1 := by gcongr
      _ = |(a.n : ℝ)| := by ring
  push_cast
  exact mul_le_mul s1 e4 e5 hn

theorem pure_tpos : ∀ k : Fin 22, (pureTerms.getD k.1 []).all (fun a => decide (0 ≤ a.t)) = true := by decide +kernel

theorem pure_sum : ∀ k : Fin 22, ((pureTerms.getD k.1 []).map fun a => |a.n| * ((a.d : ℚ) + a.c)).sum ≤ 19 := by
  decide +kernel

theorem sum_le_cast {l : List PureTerm} {f : PureTerm → ℝ} {g : PureTerm → ℚ} (h : ∀ a ∈ l, f a ≤ (g a : ℝ)) :
    (l.map f).sum ≤ (((l.map g).sum : ℚ) : ℝ) := by
  induction l with
  | nil => simp
  | cons a l ih =>
    simp only [List.map_cons, List.sum_cons, Rat.cast_add]
    exact add_le_add (h a (by simp)) (ih fun b hb => h b (by simp [hb]))

theorem Zabs_single (k : Fin 22) (hk : 1 ≤ k.1) {D T : ℝ} (hD : 0 ≤ D)
    (hδ : D * invRhoR (fun i => if i = k then 1 else 0) ≤ 1) (hv : 0 ≤ invRhoR (fun i => if i = k then 1 else 0))
    (hT : 0 < Tr (fun i => if i = k then 1 else 0)) (hτ : Tr (fun i => if i = k then 1 else 0) ≤ T) :
    Zabs (fun i => if i = k then 1 else 0) D T ≤ 20 := by
  unfold Zabs
  rw [sizes_single _ _ k hk]
  have ht := pure_tpos k
  rw [List.all_eq_true] at ht
  have h := sum_le_cast (l := pureTerms.getD k.1 []) (g := fun a => |a.n| * ((a.d : ℚ) + a.c)) fun a ha =>
    a.size_le (of_decide_eq_true (ht a ha)) (mul_nonneg hD hv) hδ (div_pos hT (lt_of_lt_of_le hT hτ))
      ((div_le_one (lt_of_lt_of_le hT hτ)).2 hτ)
  have h2 : ((((pureTerms.getD k.1 []).map fun a => |a.n| * ((a.d : ℚ) + a.c)).sum : ℚ) : ℝ) ≤ 19 := by
    exact_mod_cast pure_sum k
  linarith

end Aga8.GergEos
