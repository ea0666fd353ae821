import Verif.Lemmas.GergErrPure2
import Verif.Spec.GergCurvature

/-! # The size of the terms of the second derivatives of the pressure of a pure fluid -/

namespace Aga8.GergEos

open Finset

theorem PureTerm.size_nonneg' (a : PureTerm) {δ τ : ℝ} (h0 : 0 ≤ δ) (t0 : 0 < τ) : 0 ≤ a.size δ τ := by
  unfold PureTerm.size
  have := Real.rpow_nonneg t0.le (a.t : ℝ)
  have e3' : 0 ≤ (if a.c = 0 then (1 : ℝ) else Real.exp (-δ ^ a.c)) := by
    split
    · norm_num
    · exact (Real.exp_pos _).le
  positivity

/-- Below the critical density and above the critical temperature a term is at most its coefficient times the reduced
density. -/
theorem PureTerm.size_lin (a : PureTerm) (ht : 0 ≤ a.t) (hd : 1 ≤ a.d) {δ τ : ℝ} (h0 : 0 ≤ δ) (h1 : δ ≤ 1) (t0 : 0 < τ)
    (t1 : τ ≤ 1) : a.size δ τ ≤ δ * |(a.n : ℝ)| := by
  have e1 : δ ^ a.d ≤ δ := pow_le_of_le_one h0 h1 (by omega)
  have e2 : τ ^ (a.t : ℝ) ≤ 1 := Real.rpow_le_one t0.le t1 (by exact_mod_cast ht)
  have e3 : (if a.c = 0 then (1 : ℝ) else Real.exp (-δ ^ a.c)) ≤ 1 := by
    split
    · exact le_refl _
    · rw [Real.exp_le_one_iff]
      have := pow_nonneg h0 a.c
      linarith
  have e3' : 0 ≤ (if a.c = 0 then (1 : ℝ) else Real.exp (-δ ^ a.c)) := by
    split
    · norm_num
    · exact (Real.exp_pos _).le
  have e6 := Real.rpow_nonneg t0.le (a.t : ℝ)
  have hn := abs_nonneg (a.n : ℝ)
  unfold PureTerm.size
  calc |(a.n : ℝ)| * δ ^ a.d * τ ^ (a.t : ℝ) * (if a.c = 0 then 1 else Real.exp (-δ ^ a.c))
      ≤ |(a.n : ℝ)| * δ * 1 * 1 := by gcongr
    _ = δ * |(a.n : ℝ)| := by ring

theorem pure_dpos : ∀ k : Fin 22, (pureTerms.getD k.1 []).all (fun a => decide (1 ≤ a.d)) = true := by decide +kernel

/-- Bounds on the factors of a term below the critical density. -/
def PureTerm.top1 (a : PureTerm) : ℚ := a.d + a.c
def PureTerm.top2 (a : PureTerm) : ℚ := a.top1 * (a.top1 + 1) + a.c ^ 2
def PureTerm.top3 (a : PureTerm) : ℚ := a.top1 * (a.top1 + 1) * (a.top1 + 2) + 3 * (a.top1 + 1) * a.c ^ 2 + a.c ^ 3

theorem PureTerm.grow_le (a : PureTerm) {δ : ℝ} (h0 : 0 ≤ δ) (h1 : δ ≤ 1) :
    (0 ≤ a.grow1 δ ∧ a.grow1 δ ≤ (a.top1 : ℝ)) ∧ (0 ≤ a.grow2 δ ∧ a.grow2 δ ≤ (a.top2 : ℝ)) ∧
      (0 ≤ a.grow3 δ ∧ a.grow3 δ ≤ (a.top3 : ℝ)) := by
  have p0 := pow_nonneg h0 a.c
  have p1 : δ ^ a.c ≤ 1 := pow_le_one₀ h0 h1
  have c0 : (0 : ℝ) ≤ a.c := Nat.cast_nonneg _
  have d0 : (0 : ℝ) ≤ a.d := Nat.cast_nonneg _
  have e0 : 0 ≤ a.grow1 δ := by unfold PureTerm.grow1; positivity
  have e1 : a.grow1 δ ≤ (a.top1 : ℝ) := by
    unfold PureTerm.grow1 PureTerm.top1
    push_cast
    have := mul_le_mul_of_nonneg_left p1 c0
    linarith
  have b0 : (0 : ℝ) ≤ a.top1 := e0.trans e1
  have s2 : (a.c : ℝ) ^ 2 * δ ^ a.c ≤ (a.c : ℝ) ^ 2 := mul_le_of_le_one_right (by positivity) p1
  have s3 : (a.c : ℝ) ^ 3 * δ ^ a.c ≤ (a.c : ℝ) ^ 3 := mul_le_of_le_one_right (by positivity) p1
  have s0 : 0 ≤ (a.c : ℝ) ^ 2 * δ ^ a.c := by positivity
  refine ⟨⟨e0, e1⟩, ⟨?_, ?_⟩, ?_, ?_⟩
  · unfold PureTerm.grow2; positivity
  · unfold PureTerm.grow2 PureTerm.top2
    push_cast
    gcongr
  · unfold PureTerm.grow3; positivity
  · unfold PureTerm.grow3 PureTerm.top3
    push_cast
    gcongr

/-- A residual size of a pure fluid. -/
theorem sizes_single_lin (f : PureTerm → ℚ) (g : PureTerm → ℝ → ℝ) (h : DepTerm → ℝ → ℝ) (k : Fin 22) (hk : 1 ≤ k.1) {δ τ : ℝ}
    (h0 : 0 ≤ δ) (h1 : δ ≤ 1) (t0 : 0 < τ) (t1 : τ ≤ 1)
    (hg : ∀ a, 0 ≤ a.t → 0 ≤ g a δ ∧ g a δ ≤ (f a : ℝ)) : sizes g h (fun i => if i = k then 1 else 0) δ τ
      ≤ δ * ((((pureTerms.getD k.1 []).map fun a => |a.n| * f a).sum : ℚ) : ℝ) := by
  rw [sizes_single _ _ k hk]
  have ht := pure_tpos k
  have hd := pure_dpos k
  rw [List.all_eq_true] at ht hd
  have aux : ∀ l : List PureTerm, (∀ a ∈ l, a.size δ τ * g a δ ≤ δ * (((|a.n| * f a : ℚ)) : ℝ)) →
      (l.map fun a => a.size δ τ * g a δ).sum ≤ δ * (((l.map fun a => |a.n| * f a).sum : ℚ) : ℝ) := by
    intro l
    induction l with
    | nil => intro _; simp
    | cons a l ih =>
      intro H
      simp only [List.map_cons, List.sum_cons, Rat.cast_add, mul_add]
      exact add_le_add (H a (by simp)) (ih fun b hb => H b (by simp [hb]))
  refine aux _ fun a ha => ?_
  have hta := of_decide_eq_true (ht a ha)
  have := a.size_lin hta (of_decide_eq_true (hd a ha)) h0 h1 t0 t1
  obtain ⟨g0, g1⟩ := hg a hta
  push_cast
  rw [← mul_assoc]
  exact mul_le_mul this g1 g0 (by positivity)

theorem pure_sums3 : ∀ k : Fin 22, ((pureTerms.getD k.1 []).map fun a => |a.n| * a.top1).sum * 2
      + ((pureTerms.getD k.1 []).map fun a => |a.n| * a.top2).sum * 4 + ((pureTerms.getD k.1 []).map fun a => |a.n| * a.top3).sum ≤ 3133 ∧
    ((pureTerms.getD k.1 []).map fun a => |a.n| * a.top1).sum * 2 + ((pureTerms.getD k.1 []).map fun a => |a.n| * a.top2).sum
      + ((pureTerms.getD k.1 []).map fun a => |a.n| * (a.t * a.top1)).sum * 2
      + ((pureTerms.getD k.1 []).map fun a => |a.n| * (a.t * a.top2)).sum ≤ 4031 := by
  decide +kernel

theorem curvAbs_single (k : Fin 22) (hk : 1 ≤ k.1) {D T : ℝ} (hD : 0 < D)
    (hδ : D * invRhoR (fun i => if i = k then 1 else 0) ≤ 1) (hv : 0 ≤ invRhoR (fun i => if i = k then 1 else 0))
    (hT : 0 < Tr (fun i => if i = k then 1 else 0)) (hτ : Tr (fun i => if i = k then 1 else 0) ≤ T) :
    pressureDDAbs (fun i => if i = k then 1 else 0) D T ≤ 26100 * T * invRhoR (fun i => if i = k then 1 else 0) ∧
    pressureTDAbs (fun i => if i = k then 1 else 0) D T ≤ 33600 := by
  have T0 := lt_of_lt_of_le hT hτ
  obtain ⟨w1, w2⟩ := pure_sums3 k
  have d0 := mul_nonneg hD.le hv
  have t0 := div_pos hT T0
  have t1 := (div_le_one T0).2 hτ
  have tt : ∀ (a : PureTerm) (g : ℝ) (b : ℚ), 0 ≤ a.t → 0 ≤ g ∧ g ≤ (b : ℝ) → 0 ≤ |(a.t : ℝ)| * g ∧ |(a.t : ℝ)| * g ≤ ((a.t * b : ℚ) : ℝ) := by
    intro a g b ha hg
    have : (0 : ℝ) ≤ a.t := by exact_mod_cast ha
    rw [abs_of_nonneg this]
    push_cast
    exact ⟨mul_nonneg this hg.1, mul_le_mul_of_nonneg_left hg.2 this⟩
  have r1 := sizes_single_lin PureTerm.top1 PureTerm.grow1 DepTerm.grow1 k hk d0 hδ t0 t1 fun a _ => (a.grow_le d0 hδ).1
  have r2 := sizes_single_lin PureTerm.top2 PureTerm.grow2 DepTerm.grow2 k hk d0 hδ t0 t1 fun a _ => (a.grow_le d0 hδ).2.1
  have r3 := sizes_single_lin PureTerm.top3 PureTerm.grow3 DepTerm.grow3 k hk d0 hδ t0 t1 fun a _ => (a.grow_le d0 hδ).2.2
  have r11 := sizes_single_lin (fun a => a.t * a.top1) (fun a δ => |(a.t : ℝ)| * a.grow1 δ) (fun a δ => |(a.t : ℝ)| * a.grow1 δ)
    k hk d0 hδ t0 t1 fun a ha => tt a _ _ ha (a.grow_le d0 hδ).1
  have r12 := sizes_single_lin (fun a => a.t * a.top2) (fun a δ => |(a.t : ℝ)| * a.grow2 δ) (fun a δ => |(a.t : ℝ)| * a.grow2 δ)
    k hk d0 hδ t0 t1 fun a ha => tt a _ _ ha (a.grow_le d0 hδ).2.1
  unfold pressureDDAbs pressureTDAbs dPdDabs res11 res12
  have w1' := (Rat.cast_le (K := ℝ)).2 w1
  have w2' := (Rat.cast_le (K := ℝ)).2 w2
  simp only [Rat.cast_add, Rat.cast_mul, Rat.cast_ofNat] at w1' w2'
  generalize invRhoR (fun i => if i = k then 1 else 0) = v at *
  constructor
  · rw [div_le_iff₀ hD]
    have a1 := mul_le_mul_of_nonneg_left w1' d0
    have a2 : 2 * sizes PureTerm.grow1 DepTerm.grow1 (fun i => if i = k then 1 else 0) (D * v) (Tr (fun i => if i = k then 1 else 0) / T)
        + 4 * sizes PureTerm.grow2 DepTerm.grow2 (fun i => if i = k then 1 else 0) (D * v) (Tr (fun i => if i = k then 1 else 0) / T)
        + sizes PureTerm.grow3 DepTerm.grow3 (fun i => if i = k then 1 else 0) (D * v) (Tr (fun i => if i = k then 1 else 0) / T)
        ≤ D * v * 3133 := by linarith
    have a3 := mul_le_mul_of_nonneg_left a2 (show 0 ≤ 8.314472 * T by positivity)
    refine a3.trans ?_
    have e : 8.314472 * T * (D * v * 3133) = (8.314472 * 3133) * (T * (D * v)) := by ring
    have e' : 26100 * T * v * D = 26100 * (T * (D * v)) := by ring
    rw [e, e']
    exact mul_le_mul_of_nonneg_right (by norm_num) (by positivity)
  · have a1 := mul_le_mul_of_nonneg_left w2' d0
    have a2 : D * v * 4031 ≤ 4031 := by linarith
    norm_num only at *
    linarith

end Aga8.GergEos
