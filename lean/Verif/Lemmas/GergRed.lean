import Mathlib.Tactic.Positivity
import Mathlib.Algebra.Order.BigOperators.Group.Finset
import Verif.Lemmas.GergSetup
import Verif.Lemmas.GergDens

/-! # The reducing functions of GERG over the reals -/

set_option linter.unusedSectionVars false

namespace Aga8.Gerg

open FOps Tab Finset

/-- One pair's part of a reducing function with table `G` and asymmetry `B`, without the factor 2. -/
noncomputable def redTerm (x : Vector ℝ 22) (G B : ℝ) (i j : Fin 22) : ℝ :=
  aget x i * aget x j * (aget x i + aget x j) * G / (B * aget x i + aget x j)

/-- A reducing function. -/
noncomputable def redSum (x : Vector ℝ 22) (G B : Fin 22 → Fin 22 → ℝ) : ℝ :=
  ∑ i with 1 ≤ i.1, if FOps.lt EPSILON (aget x i) = true then
    redTerm x (G i i) (B i i) i i
      + ∑ j : Fin 22 with i.1 + 1 ≤ j.1, if FOps.lt EPSILON (aget x j) = true then 2 * redTerm x (G i j) (B i j) i j else 0
  else 0

/-- The inner loop once the factor is 2. -/
theorem rpPair_loop (s : Gerg ℝ) (i : Fin 22) (a b : ℝ) :
    loop (i.1 + 1) 22 (a, b, (2 : ℝ)) (rpPair s i)
      = (a + ∑ j : Fin 22 with i.1 + 1 ≤ j.1, (if FOps.lt EPSILON (aget s.x j) = true then
            2 * redTerm s.x (tab2 GVIJ i j) (aget2 s.bvij i j) i j else 0),
          b + ∑ j : Fin 22 with i.1 + 1 ≤ j.1, (if FOps.lt EPSILON (aget s.x j) = true then
            2 * redTerm s.x (tab2 GTIJ i j) (tab2 BTIJ i j) i j else 0), 2) := by
  have h3 : ∀ n : Nat, (loop n 22 (a, b, (2 : ℝ)) (rpPair s i)).2.2 = 2 := by
    intro n
    apply loop_inv (fun a : ℝ × ℝ × ℝ => a.2.2 = 2) rfl
    intro j a _ h
    unfold rpPair
    split
    · exact l2
    · exact h
  let body : Fin 22 → ℝ × ℝ × ℝ → ℝ × ℝ × ℝ := fun j a => if FOps.lt EPSILON (aget s.x j) = true then
    (a.1 + 2 * redTerm s.x (tab2 GVIJ i j) (aget2 s.bvij i j) i j,
      a.2.1 + 2 * redTerm s.x (tab2 GTIJ i j) (tab2 BTIJ i j) i j, 2) else a
  have e : loop (i.1 + 1) 22 (a, b, (2 : ℝ)) (rpPair s i) = loop (i.1 + 1) 22 (a, b, (2 : ℝ)) body := by
    have := loop_rel (lo := i.1 + 1) (n := 22) (s := (a, b, (2 : ℝ))) (t := (a, b, (2 : ℝ)))
      (body := rpPair s i) (body' := body) (fun u v => u = v ∧ u.2.2 = 2) ⟨rfl, rfl⟩ ?_
    · exact this.1
    · rintro j ⟨u1, u2, u3⟩ v _ ⟨rfl, h2⟩
      have h2 : u3 = 2 := h2
      subst h2
      unfold rpPair
      simp only [body]
      split
      · refine ⟨?_, l2⟩
        simp only [Prod.mk.injEq, l2, and_true]
        unfold redTerm
        constructor <;> ring
      · exact ⟨rfl, rfl⟩
  have p1 := loop_proj_add (lo := i.1 + 1) (n := 22) (fun a : ℝ × ℝ × ℝ => a.1)
    (fun j => if FOps.lt EPSILON (aget s.x j) = true then
            2 * redTerm s.x (tab2 GVIJ i j) (aget2 s.bvij i j) i j else 0) body (a, b, (2 : ℝ)) (by
      intro j u _
      simp only [body]
      split <;> simp)
  have p2 := loop_proj_add (lo := i.1 + 1) (n := 22) (fun a : ℝ × ℝ × ℝ => a.2.1)
    (fun j => if FOps.lt EPSILON (aget s.x j) = true then
            2 * redTerm s.x (tab2 GTIJ i j) (tab2 BTIJ i j) i j else 0) body (a, b, (2 : ℝ)) (by
      intro j u _
      simp only [body]
      split <;> simp)
  have p3 := h3 (i.1 + 1)
  rw [← e] at p1 p2
  generalize loop (i.1 + 1) 22 (a, b, (2 : ℝ)) (rpPair s i) = r at *
  obtain ⟨r1, r2, r3⟩ := r
  simp only at p1 p2 p3
  rw [p1, p2, p3]

theorem rpRow_real (s : Gerg ℝ) (i : Fin 22) (a : ℝ × ℝ) (hx : FOps.lt EPSILON (aget s.x i) = true) :
    rpRow s i a = (a.1 + (redTerm s.x (tab2 GVIJ i i) (aget2 s.bvij i i) i i
        + ∑ j : Fin 22 with i.1 + 1 ≤ j.1, (if FOps.lt EPSILON (aget s.x j) = true then
            2 * redTerm s.x (tab2 GVIJ i j) (aget2 s.bvij i j) i j else 0)),
      a.2 + (redTerm s.x (tab2 GTIJ i i) (tab2 BTIJ i i) i i
        + ∑ j : Fin 22 with i.1 + 1 ≤ j.1, (if FOps.lt EPSILON (aget s.x j) = true then
            2 * redTerm s.x (tab2 GTIJ i j) (tab2 BTIJ i j) i j else 0))) := by
  unfold rpRow
  rw [if_pos hx, loop_step _ _ i.2]
  have e : rpPair s i ⟨i.1, i.2⟩ (a.1, a.2, f% 1.0)
      = (a.1 + redTerm s.x (tab2 GVIJ i i) (aget2 s.bvij i i) i i,
        a.2 + redTerm s.x (tab2 GTIJ i i) (tab2 BTIJ i i) i i, (2 : ℝ)) := by
    unfold rpPair
    rw [Fin.eta, if_pos hx]
    simp only [l1, l2, Prod.mk.injEq, and_true]
    unfold redTerm
    constructor <;> ring
  rw [e, rpPair_loop]
  simp only [add_assoc]

theorem redX_real (x : Vector ℝ 22) (b : Vector (Vector ℝ 22) 22) :
    (redX x b).1 = redSum x (fun i j => tab2 GVIJ i j) (fun i j => aget2 b i j) ∧
    (redX x b).2 = redSum x (fun i j => tab2 GTIJ i j) (fun i j => tab2 BTIJ i j) := by
  unfold redX redSum
  constructor
  · rw [loop_proj_add (fun a : ℝ × ℝ => a.1) (fun i => if FOps.lt EPSILON (aget x i) = true then
        redTerm x (tab2 GVIJ i i) (aget2 b i i) i i
        + ∑ j : Fin 22 with i.1 + 1 ≤ j.1, (if FOps.lt EPSILON (aget x j) = true then
            2 * redTerm x (tab2 GVIJ i j) (aget2 b i j) i j else 0) else 0), l0, zero_add]
    intro i a _
    by_cases hx : FOps.lt EPSILON (aget x i) = true
    · rw [rpRow_real (bareXB x b) i a hx, if_pos hx]; rfl
    · unfold rpRow
      rw [if_neg (show ¬ FOps.lt EPSILON (aget (bareXB x b).x i) = true from hx), if_neg hx, add_zero]
  · rw [loop_proj_add (fun a : ℝ × ℝ => a.2) (fun i => if FOps.lt EPSILON (aget x i) = true then
        redTerm x (tab2 GTIJ i i) (tab2 BTIJ i i) i i
        + ∑ j : Fin 22 with i.1 + 1 ≤ j.1, (if FOps.lt EPSILON (aget x j) = true then
            2 * redTerm x (tab2 GTIJ i j) (tab2 BTIJ i j) i j else 0) else 0), l0, zero_add]
    intro i a _
    by_cases hx : FOps.lt EPSILON (aget x i) = true
    · rw [rpRow_real (bareXB x b) i a hx, if_pos hx]; rfl
    · unfold rpRow
      rw [if_neg (show ¬ FOps.lt EPSILON (aget (bareXB x b).x i) = true from hx), if_neg hx, add_zero]

/-! ## Positivity -/

theorem tab2_pos {n m : Nat} {v : Vector (Vector Dec m) n} {i : Fin n} {j : Fin m} (h : 0 < (aget2 v i j).m) :
    0 < (tab2 v i j : ℝ) := by
  unfold tab2
  rw [r_ofDec]
  have : (0 : ℝ) < ((aget2 v i j).m : ℝ) := by exact_mod_cast h
  positivity

theorem GVIJ_pos : ∀ i j : Fin 22, 1 ≤ i.1 → i.1 ≤ j.1 → 0 < (aget2 GVIJ i j).m := by decide +kernel
theorem GTIJ_pos : ∀ i j : Fin 22, 1 ≤ i.1 → i.1 ≤ j.1 → 0 < (aget2 GTIJ i j).m := by decide +kernel
theorem BTIJ_pos : ∀ i j : Fin 22, 1 ≤ i.1 → i.1 ≤ j.1 → 0 < (aget2 BTIJ i j).m := by decide +kernel
theorem bvijD_pos : ∀ i j : Fin 22, 1 ≤ i.1 → i.1 < j.1 → 0 < (aget2 bvijD i j).m := by decide +kernel

theorem ofDec_pos {d : Dec} (h : 0 < d.m) : 0 < (FOps.ofDec d : ℝ) := by
  rw [r_ofDec]
  have : (0 : ℝ) < (d.m : ℝ) := by exact_mod_cast h
  positivity

theorem bvij0_pos (i j : Fin 22) (hi : 1 ≤ i.1) (hj : i.1 ≤ j.1) : 0 < aget2 (bin0 : BinPar ℝ).bvij i j := by
  rw [bvij0_get i j hi hj]
  split
  · rw [l1]; norm_num
  · rename_i h
    rw [r_powi]
    have hlt : i.1 < j.1 := lt_of_le_of_ne hj (fun e => h (Fin.ext e))
    have := ofDec_pos (bvijD_pos i j hi hlt)
    positivity

theorem lt_eps_pos {a : ℝ} (h : FOps.lt (EPSILON : ℝ) a = true) : 0 < a :=
  lt_trans (by norm_num) ((lt_eps a).1 h)

theorem redTerm_pos {x : Vector ℝ 22} {G B : ℝ} {i j : Fin 22} (hG : 0 < G) (hB : 0 < B)
    (hi : FOps.lt (EPSILON : ℝ) (aget x i) = true) (hj : FOps.lt (EPSILON : ℝ) (aget x j) = true) :
    0 < redTerm x G B i j := by
  unfold redTerm
  have := lt_eps_pos hi
  have := lt_eps_pos hj
  positivity

/-- A reducing function is positive as soon as one component is present. -/
theorem redSum_pos {x : Vector ℝ 22} {G B : Fin 22 → Fin 22 → ℝ}
    (hG : ∀ i j : Fin 22, 1 ≤ i.1 → i.1 ≤ j.1 → 0 < G i j) (hB : ∀ i j : Fin 22, 1 ≤ i.1 → i.1 ≤ j.1 → 0 < B i j)
    {k : Fin 22} (hk : 1 ≤ k.1) (hx : FOps.lt EPSILON (aget x k) = true) : 0 < redSum x G B := by
  unfold redSum
  have inner : ∀ i : Fin 22, 1 ≤ i.1 → FOps.lt EPSILON (aget x i) = true → 0 ≤ ∑ j : Fin 22 with i.1 + 1 ≤ j.1,
      (if FOps.lt EPSILON (aget x j) = true then 2 * redTerm x (G i j) (B i j) i j else 0) := by
    intro i hi hx
    apply Finset.sum_nonneg
    intro j hj
    simp only [Finset.mem_filter, Finset.mem_univ, true_and] at hj
    split
    · rename_i hy
      have := redTerm_pos (hG i j hi (by omega)) (hB i j hi (by omega)) hx hy
      positivity
    · exact le_refl _
  apply Finset.sum_pos'
  · intro i hi
    simp only [Finset.mem_filter, Finset.mem_univ, true_and] at hi
    split
    · rename_i hy
      have := redTerm_pos (hG i i hi (le_refl _)) (hB i i hi (le_refl _)) hy hy
      have := inner i hi hy
      linarith
    · exact le_refl _
  · refine ⟨k, by simp [hk], ?_⟩
    rw [if_pos hx]
    have := redTerm_pos (hG k k hk (le_refl _)) (hB k k hk (le_refl _)) hx hx
    have := inner k hk hx
    linarith

theorem trOf_pos (x : Vector ℝ 22) (b : Vector (Vector ℝ 22) 22) {k : Fin 22} (hk : 1 ≤ k.1)
    (hx : FOps.lt EPSILON (aget x k) = true) : 0 < trOf x b := by
  unfold trOf
  rw [(redX_real x b).2]
  exact redSum_pos (fun i j hi hj => tab2_pos (GTIJ_pos i j hi hj)) (fun i j hi hj => tab2_pos (BTIJ_pos i j hi hj)) hk hx

theorem vr_pos (x : Vector ℝ 22) {k : Fin 22} (hk : 1 ≤ k.1)
    (hx : FOps.lt EPSILON (aget x k) = true) : 0 < (redX x (bin0 : BinPar ℝ).bvij).1 := by
  rw [(redX_real x _).1]
  exact redSum_pos (fun i j hi hj => tab2_pos (GVIJ_pos i j hi hj)) bvij0_pos hk hx

end Aga8.Gerg
