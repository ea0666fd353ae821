import Verif.Lemmas.NgPair

/-! # The mixture parameters of natural gas -/

namespace Aga8.Detail.Ng

open FOps Tab Finset

/-- A sum of products of two sums and a sum over the pairs, as one form. -/
theorem form5 (x k : Fin 21 → ℝ) (f : Fin 21 → Fin 21 → ℝ) :
    (∑ i, x i * k i) ^ 2 + 2 * ∑ i, ∑ j with i < j, x i * x j * f i j
      = ∑ i, ∑ j, x i * x j * (k i * k j + if i < j then 2 * f i j else 0) := by
  rw [pow_two, sum_mul_sum, mul_sum, ← sum_add_distrib]
  refine sum_congr rfl fun i _ => ?_
  rw [mul_sum, sum_filter, ← sum_add_distrib]
  refine sum_congr rfl fun j _ => ?_
  split <;> ring

def k5q (l : List ℕ) (i : Fin 21) : ℚ := (l.getD i.1 0 : ℚ) / 1000000

/-- The entries of the forms of `K^5` and `U^5 / 10^10`. -/
def w5 (l : List ℕ) (v : Vector (Vector Dec 21) 21) (i j : Fin 21) : ℚ := (if i = j then 1 else sq v i j ^ 5) * (k5q l i * k5q l j)

theorem half5 {a q : ℝ} (ha : 0 < a) (hq : 0 ≤ q) (h : a ^ 5 ≤ q ^ 2) : a ^ (5 / 2 : ℝ) ≤ q := by
  refine le_of_pow_le_pow_left₀ two_ne_zero hq ?_
  refine le_trans (le_of_eq ?_) h
  rw [← Real.rpow_natCast, ← Real.rpow_mul ha.le, ← Real.rpow_natCast]
  norm_num

theorem pair5 {v : Vector (Vector Dec 21) 21} {c : Fin 21 → ℝ} (hc : ∀ i, 0 < c i) (i j : Fin 21) :
    ((c i ^ (5 / 2 : ℝ) * c j ^ (5 / 2 : ℝ) + if i < j then 2 * ((Eos.star v i j ^ 5 - 1) * (c i * c j) ^ (5 / 2 : ℝ)) else 0)
      + (c j ^ (5 / 2 : ℝ) * c i ^ (5 / 2 : ℝ) + if j < i then 2 * ((Eos.star v j i ^ 5 - 1) * (c j * c i) ^ (5 / 2 : ℝ)) else 0)) / 2
    = (if i = j then 1 else Eos.star v i j ^ 5) * (c i ^ (5 / 2 : ℝ) * c j ^ (5 / 2 : ℝ)) := by
  have m : (c i * c j) ^ (5 / 2 : ℝ) = c i ^ (5 / 2 : ℝ) * c j ^ (5 / 2 : ℝ) := Real.mul_rpow (hc i).le (hc j).le
  have m' : (c j * c i) ^ (5 / 2 : ℝ) = c i ^ (5 / 2 : ℝ) * c j ^ (5 / 2 : ℝ) := by rw [mul_comm, m]
  rw [m, m', star_comm v j i]
  rcases lt_trichotomy i j with h | h | h
  · rw [if_pos h, if_neg (not_lt.2 h.le), if_neg h.ne]
    ring
  · subst h
    rw [if_neg (lt_irrefl _), if_pos rfl]
    ring
  · rw [if_pos h, if_neg (not_lt.2 h.le), if_neg h.ne']
    ring

theorem symm_sum (x : Fin 21 → ℝ) (v : Fin 21 → Fin 21 → ℝ) :
    ∑ i, ∑ j, x i * x j * v i j = ∑ i, ∑ j, x i * x j * ((v i j + v j i) / 2) := by
  have e : ∑ i, ∑ j, x i * x j * ((v i j + v j i) / 2) = (∑ i, ∑ j, x i * x j * v i j + ∑ i, ∑ j, x i * x j * v j i) / 2 := by
    rw [← sum_add_distrib, sum_div]
    refine sum_congr rfl fun i _ => ?_
    rw [← sum_add_distrib, sum_div]
    exact sum_congr rfl fun j _ => by ring
  have c : ∑ i, ∑ j, x i * x j * v j i = ∑ i, ∑ j, x i * x j * v i j := by
    rw [sum_comm]
    exact sum_congr rfl fun i _ => sum_congr rfl fun j _ => by ring
  rw [e, c]
  ring

theorem form5s (x : Fin 21 → ℝ) {v : Vector (Vector Dec 21) 21} {c : Fin 21 → ℝ} (hc : ∀ i, 0 < c i) :
    (∑ i, x i * c i ^ (5 / 2 : ℝ)) ^ 2 + 2 * ∑ i, ∑ j with i < j, x i * x j * (Eos.star v i j ^ 5 - 1) * (c i * c j) ^ (5 / 2 : ℝ)
      = ∑ i, ∑ j, x i * x j * ((if i = j then 1 else Eos.star v i j ^ 5) * (c i ^ (5 / 2 : ℝ) * c j ^ (5 / 2 : ℝ))) := by
  have e := form5 x (fun i => c i ^ (5 / 2 : ℝ)) (fun i j => (Eos.star v i j ^ 5 - 1) * (c i * c j) ^ (5 / 2 : ℝ))
  rw [symm_sum] at e
  simp only [pair5 hc] at e
  rw [← e]
  simp only [mul_assoc]

/-- Bounds of such a form. -/
theorem bound5 {x : Fin 21 → ℝ} (h : Eos.NormalGas x) {v : Vector (Vector Dec 21) 21} {c : Fin 21 → ℝ} {l g : List ℕ} {M : ℝ} (hM : 0 < M)
    (hc : ∀ i, 0 < c i) (hq : ∀ i, c i ^ (5 / 2 : ℝ) ≤ M * (k5q l i : ℝ)) (hs : ∀ i j, 0 ≤ sq v i j) :
    x 0 ^ 2 * c 0 ^ 5 ≤ (∑ i, x i * c i ^ (5 / 2 : ℝ)) ^ 2
        + 2 * ∑ i, ∑ j with i < j, x i * x j * (Eos.star v i j ^ 5 - 1) * (c i * c j) ^ (5 / 2 : ℝ) ∧
      (∑ i, x i * c i ^ (5 / 2 : ℝ)) ^ 2 + 2 * ∑ i, ∑ j with i < j, x i * x j * (Eos.star v i j ^ 5 - 1) * (c i * c j) ^ (5 / 2 : ℝ)
        ≤ M ^ 2 * (Eos.quad (w5 l v) (gq g) : ℝ) := by
  have p : ∀ i, 0 ≤ c i ^ (5 / 2 : ℝ) := fun i => Real.rpow_nonneg (hc i).le _
  have s0 : ∀ i j, (0 : ℝ) ≤ if i = j then 1 else Eos.star v i j ^ 5 := fun i j => by
    split
    · norm_num
    · rw [star_sq]
      have : (0 : ℝ) ≤ sq v i j := by exact_mod_cast hs i j
      positivity
  rw [form5s x hc]
  constructor
  · have t : ∀ i j, 0 ≤ x i * x j * ((if i = j then 1 else Eos.star v i j ^ 5) * (c i ^ (5 / 2 : ℝ) * c j ^ (5 / 2 : ℝ))) := fun i j =>
      mul_nonneg (mul_nonneg (h.nonneg i) (h.nonneg j)) (mul_nonneg (s0 i j) (mul_nonneg (p i) (p j)))
    have a := single_le_sum (f := fun i => ∑ j, x i * x j * ((if i = j then 1 else Eos.star v i j ^ 5) * (c i ^ (5 / 2 : ℝ) * c j ^ (5 / 2 : ℝ))))
      (fun i _ => sum_nonneg fun j _ => t i j) (mem_univ 0)
    have b := single_le_sum (f := fun j => x 0 * x j * ((if 0 = j then 1 else Eos.star v 0 j ^ 5) * (c 0 ^ (5 / 2 : ℝ) * c j ^ (5 / 2 : ℝ))))
      (fun j _ => t 0 j) (mem_univ 0)
    refine le_trans (le_of_eq ?_) (b.trans a)
    rw [if_pos rfl, ← Real.rpow_add (hc 0), show (5 / 2 : ℝ) + 5 / 2 = ((5 : ℕ) : ℝ) by norm_num, Real.rpow_natCast]
    ring
  · have k := h.quad (v := fun i j => ((if i = j then 1 else Eos.star v i j ^ 5) * (c i ^ (5 / 2 : ℝ) * c j ^ (5 / 2 : ℝ))) / M ^ 2)
      (w := w5 l v) (fun i j => by
        rw [div_le_iff₀ (by positivity)]
        have q0 : c i ^ (5 / 2 : ℝ) * c j ^ (5 / 2 : ℝ) ≤ M * k5q l i * (M * k5q l j) := mul_le_mul (hq i) (hq j) (p j) ((p i).trans (hq i))
        refine (mul_le_mul_of_nonneg_left q0 (s0 i j)).trans (le_of_eq ?_)
        unfold w5
        rw [star_sq]
        split <;> push_cast <;> ring) (gq g) (gq_nonneg _)
    simp only [← mul_div_assoc, ← sum_div] at k
    rw [div_le_iff₀ (by positivity)] at k
    linarith

theorem k5_chk : ∀ i : Fin 21, cq KI i ^ 5 ≤ k5q k5v i ^ 2 ∧ cq EI i ^ 5 ≤ (100000 * k5q e5v i) ^ 2 ∧ 0 < cq KI i ∧ 0 < cq EI i := by
  decide +kernel
theorem s5_chk : ∀ i j : Fin 21, 0 ≤ sq KIJ i j ∧ 0 ≤ sq UIJ i j := by decide +kernel
theorem chk_K : Eos.quad (w5 k5v KIJ) (gq gamK) ^ 3 ≤ (112 / 1000) ^ 5 ∧ 0 ≤ Eos.quad (w5 k5v KIJ) (gq gamK) := by decide +kernel
theorem chk_U : Eos.quad (w5 e5v UIJ) (gq gamU) * 100000 ^ 2 ≤ (2122 / 10) ^ 5 := by decide +kernel

section
variable {x : Fin 21 → ℝ} (h : Eos.NormalGas x)
include h

theorem Kcubed_le : 0 ≤ Eos.Kcubed x ∧ Eos.Kcubed x ≤ 0.112 := by
  have c0 : ∀ i, 0 < Eos.c KI i := fun i => by rw [c_cq]; exact_mod_cast (k5_chk i).2.2.1
  obtain ⟨l, k⟩ := bound5 h (v := KIJ) (c := Eos.c KI) (l := k5v) (g := gamK) one_pos c0 (fun i => by
    rw [one_mul]
    exact half5 (c0 i) (by unfold k5q; push_cast; positivity) (by rw [c_cq]; exact_mod_cast (k5_chk i).1)) (fun i j => (s5_chk i j).1)
  rw [one_pow, one_mul] at k
  have K0 : 0 ≤ Eos.K5 x := le_trans (by have := c0 0; positivity) l
  obtain ⟨a, b⟩ := chk_K
  have a' : (Eos.quad (w5 k5v KIJ) (gq gamK) : ℝ) ^ 3 ≤ (112 / 1000) ^ 5 := by
    have := (Rat.cast_le (K := ℝ)).2 a; push_cast at this; exact this
  have b' : (0 : ℝ) ≤ (Eos.quad (w5 k5v KIJ) (gq gamK) : ℝ) := by exact_mod_cast b
  refine ⟨Real.rpow_nonneg K0 _, ?_⟩
  unfold Eos.Kcubed
  refine (Real.rpow_le_rpow K0 k (by norm_num)).trans ?_
  refine le_of_pow_le_pow_left₀ (n := 5) (by norm_num) (by norm_num) ?_
  rw [← Real.rpow_natCast, ← Real.rpow_mul b']
  norm_num at a' ⊢
  exact_mod_cast a'

theorem U_range : 109 ≤ Eos.U x ∧ Eos.U x ≤ 212.2 := by
  have c0 : ∀ i, 0 < Eos.c EI i := fun i => by rw [c_cq]; exact_mod_cast (k5_chk i).2.2.2
  obtain ⟨l, k⟩ := bound5 h (v := UIJ) (c := Eos.c EI) (l := e5v) (g := gamU) (show (0 : ℝ) < 100000 by norm_num) c0 (fun i =>
    half5 (c0 i) (by unfold k5q; push_cast; positivity) (by
      rw [c_cq]
      have := (Rat.cast_le (K := ℝ)).2 (k5_chk i).2.1
      push_cast at this
      exact this)) (fun i j => (s5_chk i j).2)
  have a' : (Eos.quad (w5 e5v UIJ) (gq gamU) : ℝ) * 100000 ^ 2 ≤ (2122 / 10) ^ 5 := by
    have := (Rat.cast_le (K := ℝ)).2 chk_U; push_cast at this; exact this
  have u0 : (109 : ℝ) ^ 5 ≤ x 0 ^ 2 * Eos.c EI 0 ^ 5 := by
    have e : 151 ≤ cq EI 0 := by decide +kernel
    have e' : (151 : ℝ) ≤ Eos.c EI 0 := by rw [c_cq]; exact_mod_cast e
    have m := h.methane
    refine le_trans ?_ (mul_le_mul (pow_le_pow_left₀ (by norm_num) m 2) (pow_le_pow_left₀ (by norm_num) e' 5) (by positivity) (by positivity))
    norm_num
  have l' : (109 : ℝ) ^ 5 ≤ Eos.U5 x := u0.trans l
  have k' : Eos.U5 x ≤ (212.2 : ℝ) ^ 5 := by
    refine le_trans k ?_
    norm_num at a' ⊢
    linarith
  have U0 : 0 ≤ Eos.U5 x := le_trans (by positivity) l'
  have e5 : Eos.U x ^ 5 = Eos.U5 x := by
    unfold Eos.U
    rw [← Real.rpow_natCast, ← Real.rpow_mul U0]
    norm_num
  constructor
  · exact le_of_pow_le_pow_left₀ (n := 5) (by norm_num) (Real.rpow_nonneg U0 _) (by rw [e5]; exact l')
  · exact le_of_pow_le_pow_left₀ (n := 5) (by norm_num) (by norm_num) (by rw [e5]; exact k')

end

/-! ## Orientation, quadrupole and high temperature parameters -/

def wG (i j : Fin 21) : ℚ := if i = j then 0 else (sq GIJ i j + 1) * (cq GI i + cq GI j) / 2

theorem chk_G : Eos.quad wG (gq gamG) + Eos.lim (cq GI) ≤ 27 / 100 := by decide +kernel
theorem chk_Q : 0 ≤ Eos.lim (cq QI) ∧ Eos.lim (cq QI) ^ 2 ≤ 433 / 10000 := by decide +kernel
theorem chk_F : ∑ i, Eos.ub i ^ 2 * cq FI i ≤ 101 / 10000 := by decide +kernel

section
variable {x : Fin 21 → ℝ} (h : Eos.NormalGas x)
include h

theorem Gabs_le : |Eos.G x| ≤ Eos.Gabs x ∧ Eos.Gabs x ≤ 0.27 := by
  have g0 : ∀ i, 0 ≤ Eos.c GI i := fun i => by rw [c_cq]; exact_mod_cast (table_nonneg.2 i).1
  have s0 : ∀ i j, 0 ≤ Eos.star GIJ i j := fun i j => by rw [star_sq]; exact_mod_cast sq_GIJ_nonneg i j
  constructor
  · unfold Eos.G Eos.Gabs
    refine (abs_add_le _ _).trans (add_le_add (le_of_eq (abs_of_nonneg (sum_nonneg fun i _ => mul_nonneg (h.nonneg i) (g0 i)))) ?_)
    refine (abs_sum_le_sum_abs _ _).trans (sum_le_sum fun i _ => (abs_sum_le_sum_abs _ _).trans (sum_le_sum fun j _ => ?_))
    rw [abs_mul, abs_mul, abs_of_nonneg (mul_nonneg (h.nonneg i) (h.nonneg j)), abs_of_nonneg (add_nonneg (g0 i) (g0 j))]
    refine mul_le_mul_of_nonneg_right (mul_le_mul_of_nonneg_left ?_ (mul_nonneg (h.nonneg i) (h.nonneg j))) (add_nonneg (g0 i) (g0 j))
    rw [abs_le]
    have := s0 i j
    constructor <;> linarith
  · unfold Eos.Gabs
    have e : ∑ i, ∑ j with i < j, x i * x j * (Eos.star GIJ i j + 1) * (Eos.c GI i + Eos.c GI j)
        = ∑ i, ∑ j, x i * x j * (if i < j then (Eos.star GIJ i j + 1) * (Eos.c GI i + Eos.c GI j) else 0) := by
      refine sum_congr rfl fun i _ => ?_
      rw [sum_filter]
      refine sum_congr rfl fun j _ => ?_
      split <;> ring
    have k := h.quadS (v := fun i j => if i < j then (Eos.star GIJ i j + 1) * (Eos.c GI i + Eos.c GI j) else 0) (w := wG) (fun i j => by
      unfold wG
      rw [star_comm GIJ j i]
      rcases lt_trichotomy i j with h | h | h
      · rw [if_pos h, if_neg (not_lt.2 h.le), if_neg h.ne, star_sq, c_cq, c_cq]
        push_cast
        linarith
      · subst h
        rw [if_neg (lt_irrefl _), if_pos rfl]
        norm_num
      · rw [if_pos h, if_neg (not_lt.2 h.le), if_neg h.ne', star_sq, c_cq, c_cq]
        push_cast
        linarith) (gq gamG) (gq_nonneg _)
    have l := h.lin (cq GI) (table_nonneg.2 0).1
    have c : (Eos.quad wG (gq gamG) : ℝ) + (Eos.lim (cq GI) : ℝ) ≤ 27 / 100 := by
      have := (Rat.cast_le (K := ℝ)).2 chk_G; push_cast at this; exact this
    have e2 : ∑ i, x i * Eos.c GI i = ∑ i, (cq GI i : ℝ) * x i := sum_congr rfl fun i _ => by rw [c_cq]; ring
    rw [e, e2]
    refine (add_le_add l k).trans ?_
    rw [add_comm]
    exact c.trans (by norm_num)

theorem Q_le : Eos.Q x ^ 2 ≤ 0.0433 := by
  obtain ⟨a, b⟩ := chk_Q
  have l := h.lin (cq QI) (table_nonneg.2 0).2.1
  have e2 : Eos.Q x = ∑ i, (cq QI i : ℝ) * x i := sum_congr rfl fun i _ => by rw [c_cq]; ring
  rw [← e2] at l
  have q0 : 0 ≤ Eos.Q x := by
    rw [e2]
    exact sum_nonneg fun i _ => mul_nonneg (by exact_mod_cast (table_nonneg.2 i).2.1) (h.nonneg i)
  have b' : (Eos.lim (cq QI) : ℝ) ^ 2 ≤ 433 / 10000 := by
    have := (Rat.cast_le (K := ℝ)).2 b; push_cast at this; exact this
  refine (pow_le_pow_left₀ q0 l 2).trans (b'.trans (by norm_num))

theorem F_le : 0 ≤ Eos.Fhigh x ∧ Eos.Fhigh x ≤ 0.0101 := by
  have f0 : ∀ i, 0 ≤ Eos.c FI i := fun i => by rw [c_cq]; exact_mod_cast (table_nonneg.2 i).2.2.1
  refine ⟨sum_nonneg fun i _ => mul_nonneg (sq_nonneg _) (f0 i), ?_⟩
  unfold Eos.Fhigh
  have a : ∑ i, x i ^ 2 * Eos.c FI i ≤ ∑ i, (Eos.ub i : ℝ) ^ 2 * (cq FI i : ℝ) := sum_le_sum fun i _ => by
    rw [← c_cq]
    exact mul_le_mul_of_nonneg_right (pow_le_pow_left₀ (h.nonneg i) (h.le_ub i) 2) (f0 i)
  have c : ∑ i, (Eos.ub i : ℝ) ^ 2 * (cq FI i : ℝ) ≤ 101 / 10000 := by
    have := (Rat.cast_le (K := ℝ)).2 chk_F; push_cast at this; exact this
  exact a.trans (c.trans (by norm_num))

end

end Aga8.Detail.Ng
