import Mathlib.Algebra.BigOperators.Fin
import Mathlib.Algebra.BigOperators.Group.Finset.Basic
import Verif.Lemmas.Basic
import Verif.RealArith

/-! # Accumulating loops are sums -/

namespace Aga8

open Finset

/-- The index set of `for i in lo..n`. -/
theorem sum_rangeFin {M : Type} [AddCommMonoid M] (lo n : Nat) (g : Fin n → M) :
    ((rangeFin lo n).map g).sum = ∑ i with lo ≤ i.1, g i := by
  rw [← List.sum_toFinset g (nodup_rangeFin lo n)]
  apply Finset.sum_congr _ (fun _ _ => rfl)
  ext i
  simp [mem_rangeFin]

theorem foldl_proj_add {σ τ M : Type} [AddCommMonoid M] (π : σ → M) (g : τ → M) (body : σ → τ → σ)
    (l : List τ) (s : σ) (h : ∀ a, ∀ i ∈ l, π (body a i) = π a + g i) :
    π (l.foldl body s) = π s + (l.map g).sum := by
  induction l generalizing s with
  | nil => simp
  | cons i l ih =>
    rw [List.foldl_cons, ih _ (fun a j hj => h a j (List.mem_cons_of_mem _ hj)),
      h s i List.mem_cons_self, List.map_cons, List.sum_cons, add_assoc]

/-- A component of the loop state that each round adds to is the sum of what was added. -/
theorem loop_proj_add {σ M : Type} [AddCommMonoid M] {lo n : Nat} (π : σ → M) (g : Fin n → M)
    (body : Fin n → σ → σ) (s : σ) (h : ∀ i a, lo ≤ i.1 → π (body i a) = π a + g i) :
    π (loop lo n s body) = π s + ∑ i with lo ≤ i.1, g i := by
  unfold loop
  rw [foldl_proj_add π g (fun s i => body i s) _ _ (fun a i hi => h i a (mem_rangeFin.1 hi)),
    sum_rangeFin]

theorem loop_proj_add0 {σ M : Type} [AddCommMonoid M] {n : Nat} (π : σ → M) (g : Fin n → M)
    (body : Fin n → σ → σ) (s : σ) (h : ∀ i a, π (body i a) = π a + g i) :
    π (loop 0 n s body) = π s + ∑ i, g i := by
  rw [loop_proj_add π g body s (fun i a _ => h i a)]
  simp

theorem foldl_range'_proj_add {σ M : Type} [AddCommMonoid M] (lo hi : Nat) (π : σ → M) (g : Nat → M)
    (body : Nat → σ → σ) (s : σ) (h : ∀ i a, lo ≤ i → i < hi → π (body i a) = π a + g i) :
    π (loopNP lo hi s body) = π s + ∑ k ∈ Finset.Ico lo hi, g k := by
  unfold loopNP
  rw [foldl_proj_add π g (fun s i => body i s) _ _ (fun a i hi => by
    rw [List.mem_range'_1] at hi; exact h i a hi.1 (by omega))]
  congr 1

end Aga8
