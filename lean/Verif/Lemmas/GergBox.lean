import Verif.Lemmas.DetailBoxIv
import Verif.Lemmas.GergErrLow

/-! # A pure fluid: the GERG-2008 equation as a sum of products

The terms of a pure fluid that have the same exponents of the density are added up. What remains is a sum of products of a factor
that depends on the temperature and a factor that depends on the density. -/

set_option linter.unusedSectionVars false

namespace Aga8.GergEos

open Detail (expK hZ hP hZa hPa)

/-- The composition of a pure fluid. -/
def pureX (k : Fin 22) (i : Fin 22) : ℝ := if i = k then 1 else 0

/-- The residual terms of a fluid. -/
abbrev termsOf (k : Fin 22) : List PureTerm := pureTerms.getD k.1 []

theorem pureX_prod {k i j : Fin 22} (h : i < j) : pureX k i * pureX k j = 0 := by
  unfold pureX
  by_cases hi : i = k
  · subst hi
    rw [if_neg (fun e : j = i => absurd h (by rw [e]; exact lt_irrefl _))]; simp
  · rw [if_neg hi]; simp

theorem pureX_sum {k : Fin 22} (hk : 1 ≤ k.1) (f : Fin 22 → ℝ) : ∑ i with 1 ≤ i.1, pureX k i * f i = f k := by
  have : ∀ i ∈ Finset.univ.filter (fun i : Fin 22 => 1 ≤ i.1), pureX k i * f i = if i = k then f i else 0 := by
    intro i _
    unfold pureX
    split <;> simp
  rw [Finset.sum_congr rfl this, Finset.sum_ite_eq' _ k f, if_pos (by simpa using hk)]

theorem alphaR_pure {k : Fin 22} (hk : 1 ≤ k.1) (δ τ : ℝ) : alphaR (pureX k) δ τ = alphaPure k.1 δ τ := by
  unfold alphaR
  rw [pureX_sum hk (fun i => alphaPure i.1 δ τ)]
  rw [Finset.sum_eq_zero (s := Finset.univ.filter (fun i : Fin 22 => 1 ≤ i.1)), add_zero]
  intro i _
  refine Finset.sum_eq_zero fun j hj => ?_
  rw [pureX_prod (Finset.mem_filter.1 hj).2]
  simp

theorem reducing_pure {k : Fin 22} (hk : 1 ≤ k.1) (Y B : Fin 22 → Fin 22 → ℝ) : reducing Y B (pureX k) = Y k k := by
  unfold reducing
  rw [← pureX_sum hk (fun i => Y i i)]
  refine Finset.sum_congr rfl fun i _ => ?_
  rw [Finset.sum_eq_zero]
  · unfold pureX; split <;> simp
  · intro j hj
    rw [mul_assoc 2, pureX_prod (Finset.mem_filter.1 hj).2]
    simp

theorem sizes_pure {k : Fin 22} (hk : 1 ≤ k.1) (g : PureTerm → ℝ → ℝ) (h : DepTerm → ℝ → ℝ) (δ τ : ℝ) :
    sizes g h (pureX k) δ τ = ((termsOf k).map fun a => a.size δ τ * g a δ).sum := by
  unfold sizes
  rw [pureX_sum hk (fun i => ((pureTerms.getD i.1 []).map fun a => a.size δ τ * g a δ).sum)]
  rw [Finset.sum_eq_zero (s := Finset.univ.filter (fun i : Fin 22 => 1 ≤ i.1)), add_zero]
  intro i _
  refine Finset.sum_eq_zero fun j hj => ?_
  rw [pureX_prod (Finset.mem_filter.1 hj).2]
  simp

/-! ## Derivatives -/

/-- The factor of a term that depends on the density. -/
noncomputable def phi (h : ℕ → ℕ → ℝ → ℝ) (δ : ℝ) (p : ℕ × ℕ) : ℝ := δ ^ p.1 * expK p.2 δ * h p.1 p.2 (δ ^ p.2)

theorem expK_eq (c : ℕ) (δ : ℝ) : (if c = 0 then (1 : ℝ) else Real.exp (-δ ^ c)) = expK c δ := by
  unfold expK
  split <;> simp

theorem expK_c (c : ℕ) (δ : ℝ) : expK c δ = Real.exp (-(if c = 0 then 0 else 1) * δ ^ c) := by
  unfold expK
  split <;> simp

theorem eval_deriv (a : PureTerm) (hd : 1 ≤ a.d) (δ τ : ℝ) :
    ∃ r, HasDerivAt (fun δ => a.eval δ τ) r δ ∧ δ * r = a.n * τ ^ (a.t : ℝ) * phi hZ δ (a.d, a.c) := by
  have h0 := hasDerivAt_id δ
  have hk := h0.pow a.c
  have hb := h0.pow a.d
  have h1 := (hb.mul (hk.const_mul (-(if a.c = 0 then (0 : ℝ) else 1))).exp).const_mul ((a.n : ℝ) * τ ^ (a.t : ℝ))
  refine ⟨_, h1.congr_of_eventuallyEq (Filter.Eventually.of_forall fun x => ?_), ?_⟩
  · simp only [PureTerm.eval, expK_eq, expK_c, Pi.mul_apply, Pi.pow_apply, id]
    ring
  · unfold phi hZ
    rw [expK_c]
    simp only [Pi.pow_apply, id]
    generalize (a.n : ℝ) * τ ^ (a.t : ℝ) = w
    obtain ⟨m, hm⟩ : ∃ m, a.d = m + 1 := ⟨a.d - 1, by omega⟩
    rw [hm]
    rcases Nat.eq_zero_or_pos a.c with h | h
    · rw [h]
      simp [pow_succ]
      ring
    · obtain ⟨j, hj⟩ : ∃ j, a.c = j + 1 := ⟨a.c - 1, by omega⟩
      rw [hj, if_neg (by omega)]
      simp only [Nat.add_sub_cancel, pow_succ]
      push_cast
      ring

theorem list_deriv {α : Type} (l : List α) (f : α → ℝ → ℝ) (x : ℝ) (e : α → ℝ)
    (h : ∀ a ∈ l, ∃ r, HasDerivAt (f a) r x ∧ x * r = e a) :
    ∃ r, HasDerivAt (fun y => (l.map fun a => f a y).sum) r x ∧ x * r = (l.map e).sum := by
  induction l with
  | nil => exact ⟨0, by simpa using hasDerivAt_const x (0 : ℝ), by simp⟩
  | cons a l ih =>
    obtain ⟨r, h1, h2⟩ := ih fun b hb => h b (List.mem_cons_of_mem _ hb)
    obtain ⟨s, h3, h4⟩ := h a List.mem_cons_self
    refine ⟨s + r, ?_, ?_⟩
    · simp only [List.map_cons, List.sum_cons]
      exact h3.add h1
    · rw [mul_add, h4, h2]; simp

section
variable {k : Fin 22} (hk : 1 ≤ k.1) (hd : ∀ a ∈ termsOf k, 1 ≤ a.d)

/-- A sum over the terms of a fluid. -/
noncomputable def termSum (k : Fin 22) (c : PureTerm → ℝ) (h : ℕ → ℕ → ℝ → ℝ) (δ : ℝ) : ℝ :=
  ((termsOf k).map fun a => c a * phi h δ (a.d, a.c)).sum

include hk hd

theorem Z_pure (D T : ℝ) : Z (pureX k) D T =
    1 + termSum k (fun a => a.n * (Tr (pureX k) / T) ^ (a.t : ℝ)) hZ (D * invRhoR (pureX k)) := by
  unfold Z
  generalize D * invRhoR (pureX k) = δ
  generalize Tr (pureX k) / T = τ
  obtain ⟨r, h1, h2⟩ := list_deriv (termsOf k) (fun a δ => a.eval δ τ) δ _ (fun a ha => eval_deriv a (hd a ha) δ τ)
  have e : (fun δ => alphaR (pureX k) δ τ) = fun y => ((termsOf k).map fun a => a.eval y τ).sum := by
    funext y
    rw [alphaR_pure hk]
    rfl
  rw [e, h1.deriv, h2]
  rfl

theorem dPdD_pure [Libm] (D T : ℝ) : dPdD (pureX k) D T =
    1 + termSum k (fun a => a.n * (Tr (pureX k) / T) ^ (a.t : ℝ)) hP (D * invRhoR (pureX k)) := by
  unfold dPdD
  have e : (fun D => D * Z (pureX k) D T) = fun D => D * (1 +
      ((termsOf k).map fun a => a.n * (Tr (pureX k) / T) ^ (a.t : ℝ) * phi hZ (D * invRhoR (pureX k)) (a.d, a.c)).sum) := by
    funext D
    rw [Z_pure hk hd]
    rfl
  rw [e]
  generalize invRhoR (pureX k) = V
  generalize Tr (pureX k) / T = τ
  obtain ⟨r, h1, h2⟩ := list_deriv (termsOf k) (fun a D => a.n * τ ^ (a.t : ℝ) * phi hZ (D * V) (a.d, a.c)) D
    (fun a => a.n * τ ^ (a.t : ℝ) * (phi hP (D * V) (a.d, a.c) - phi hZ (D * V) (a.d, a.c))) (fun a ha => by
      obtain ⟨r, h1, h2⟩ := Detail.term_deriv a.d a.c (hd a ha) V (if a.c = 0 then 0 else 1) rfl D
      refine ⟨a.n * τ ^ (a.t : ℝ) * r, (h1.const_mul ((a.n : ℝ) * τ ^ (a.t : ℝ))).congr_of_eventuallyEq
        (Filter.Eventually.of_forall fun x => ?_), ?_⟩
      · unfold phi hZ
        dsimp only
        rw [expK_c, mul_comm x V]
        split
        · rename_i h; rw [h, Nat.cast_zero]; ring
        · ring
      · rw [mul_left_comm, h2]
        unfold phi hZ hP
        dsimp only
        rw [expK_c, mul_comm D V]
        split
        · rename_i h; rw [h, Nat.cast_zero]; ring
        · ring)
  have h3 := (hasDerivAt_id D).mul (h1.const_add 1)
  simp only [id] at h3
  refine h3.deriv.trans ?_
  rw [h2, one_mul, add_assoc]
  congr 1
  unfold termSum
  rw [← List.sum_map_add]
  congr 2
  funext a
  ring

theorem Zabs_pure (D T : ℝ) : Zabs (pureX k) D T =
    1 + termSum k (fun a => |(a.n : ℝ)| * (Tr (pureX k) / T) ^ (a.t : ℝ)) hZa (D * invRhoR (pureX k)) := by
  unfold Zabs termSum
  rw [sizes_pure hk]
  congr 3
  funext a
  unfold PureTerm.size PureTerm.grow1 phi hZa
  rw [expK_eq]
  ring

theorem dPdDabs_pure (D T : ℝ) : dPdDabs (pureX k) D T =
    1 + termSum k (fun a => |(a.n : ℝ)| * (Tr (pureX k) / T) ^ (a.t : ℝ)) hPa (D * invRhoR (pureX k)) := by
  unfold dPdDabs termSum
  rw [sizes_pure hk, sizes_pure hk, add_assoc, ← List.sum_map_mul_left, ← List.sum_map_add]
  congr 3
  funext a
  unfold PureTerm.size PureTerm.grow2 PureTerm.grow1 phi hPa
  rw [expK_eq]
  ring

end

/-! ## Terms with the same exponents -/

/-- The sum of the coefficients of the terms with the exponents `G j`. -/
noncomputable def coefG (L : List PureTerm) (c : PureTerm → ℝ) (G : List (ℕ × ℕ)) (j : Fin G.length) : ℝ :=
  ((L.filter fun a => (a.d, a.c) = G.get j).map c).sum

theorem group_sum (L : List PureTerm) (c : PureTerm → ℝ) (φ : ℕ × ℕ → ℝ) {G : List (ℕ × ℕ)} (hG : G.Nodup)
    (h : ∀ a ∈ L, (a.d, a.c) ∈ G) : (L.map fun a => c a * φ (a.d, a.c)).sum = ∑ j, coefG L c G j * φ (G.get j) := by
  induction L with
  | nil => simp [coefG]
  | cons a L ih =>
    rw [List.map_cons, List.sum_cons, ih fun b hb => h b (List.mem_cons_of_mem _ hb)]
    obtain ⟨i, hi⟩ := List.mem_iff_get.1 (h a List.mem_cons_self)
    have e : ∀ j, coefG (a :: L) c G j * φ (G.get j) = (if j = i then c a * φ (a.d, a.c) else 0) + coefG L c G j * φ (G.get j) := by
      intro j
      unfold coefG
      rw [List.filter_cons]
      by_cases hj : j = i
      · subst hj
        rw [if_pos rfl, if_pos (decide_eq_true hi.symm), List.map_cons, List.sum_cons, add_mul, hi]
      · have : ¬ (a.d, a.c) = G.get j := by
          rw [← hi]
          intro hh
          exact hj (List.nodup_iff_injective_get.1 hG hh).symm
        rw [if_neg hj, if_neg (by simpa using this), zero_add]
    rw [Finset.sum_congr rfl fun j _ => e j, Finset.sum_add_distrib, Finset.sum_ite_eq' Finset.univ i]
    simp

end Aga8.GergEos
