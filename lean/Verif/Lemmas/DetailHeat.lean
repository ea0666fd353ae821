import Verif.Lemmas.DetailHelmholtz
import Verif.Lemmas.DetailTemp
import Verif.Lemmas.DetailLow
import Verif.Lemmas.HeatCapacity

/-! # Ideal-gas heat capacities of DETAIL -/

namespace Aga8.Detail

open Tab Finset Real HeatCapacity

/-- What the coefficients of the whole table satisfy. -/
theorem heat_table : ∀ i : Fin 21, 0 ≤ decQ (aget2 n0iD i 3) ∧ 0 ≤ decQ (aget2 n0iD i 5) ∧
    (0 ≤ decQ (aget2 n0iD i 6) ∨ (0 < decQ (aget2 TH0I i 5) ∧ decQ (aget2 TH0I i 5) ≤ decQ (aget2 TH0I i 6) ∧
      -decQ (aget2 n0iD i 6) * decQ (aget2 TH0I i 6) ^ 2 ≤ decQ (aget2 n0iD i 5) * decQ (aget2 TH0I i 5) ^ 2)) ∧
    1.479 ≤ decQ (aget2 n0iD i 2) - 1 + min (decQ (aget2 n0iD i 4)) 0 / 2 := by decide +kernel

theorem H2_eq (i : Fin 21) (T : ℝ) : H2 (params (newP : Detail ℝ)) i T =
    (decQ (aget2 n0iD i 3) : ℝ) * ((decQ (aget2 TH0I i 3) : ℝ) / T / sinh ((decQ (aget2 TH0I i 3) : ℝ) / T)) ^ 2
    + (decQ (aget2 n0iD i 4) : ℝ) * ((decQ (aget2 TH0I i 4) : ℝ) / T / cosh ((decQ (aget2 TH0I i 4) : ℝ) / T)) ^ 2
    + (decQ (aget2 n0iD i 5) : ℝ) * ((decQ (aget2 TH0I i 5) : ℝ) / T / sinh ((decQ (aget2 TH0I i 5) : ℝ) / T)) ^ 2
    + (decQ (aget2 n0iD i 6) : ℝ) * ((decQ (aget2 TH0I i 6) : ℝ) / T / cosh ((decQ (aget2 TH0I i 6) : ℝ) / T)) ^ 2 := by
  unfold H2
  have key : ∀ (j : Fin 7) (hj : 3 ≤ j.1) (s : ℝ), (if 0 < (tab2 TH0I i j : ℝ) then
      (decQ (aget2 n0iD i j) : ℝ) * s else 0) = (decQ (aget2 n0iD i j) : ℝ) * s := by
    intro j hj s
    rcases th_table i j hj with h | h
    · rw [if_pos]
      rw [tab2_decQ]
      exact_mod_cast h
    · rw [h]; simp
  have hf : (Finset.univ.filter fun j : Fin 7 => 3 ≤ j.1) = {3, 4, 5, 6} := by decide
  rw [hf, Finset.sum_insert (by decide), Finset.sum_insert (by decide), Finset.sum_insert (by decide),
    Finset.sum_singleton]
  rw [if_pos (show (3 : Fin 7).1 = 3 ∨ (3 : Fin 7).1 = 5 by decide),
    if_neg (show ¬ ((4 : Fin 7).1 = 3 ∨ (4 : Fin 7).1 = 5) by decide),
    if_pos (show (5 : Fin 7).1 = 3 ∨ (5 : Fin 7).1 = 5 by decide),
    if_neg (show ¬ ((6 : Fin 7).1 = 3 ∨ (6 : Fin 7).1 = 5) by decide),
    newP_n0i_real i 3 (by decide), newP_n0i_real i 4 (by decide), newP_n0i_real i 5 (by decide),
    newP_n0i_real i 6 (by decide), key 3 (by decide), key 4 (by decide), key 5 (by decide), key 6 (by decide)]
  simp only [tab2_decQ]
  ring

theorem comp_heat_ge (i : Fin 21) {T : ℝ} (hT : 0 < T) :
    1.479 ≤ aget2 (params (newP : Detail ℝ)).n0i i 2 + H2 (params (newP : Detail ℝ)) i T := by
  obtain ⟨h3, h5, h6, h2⟩ := heat_table i
  have e : aget2 (params (newP : Detail ℝ)).n0i i 2 = (decQ (aget2 n0iD i 2) : ℝ) - 1 := by
    show aget2 (newP : Detail ℝ).n0i i 2 = _
    rw [newP_n0i, if_neg (by decide), if_pos rfl, ofDec_decQ, l1]
  have h2' : (1.479 : ℝ) ≤ (decQ (aget2 n0iD i 2) : ℝ) - 1 + min (decQ (aget2 n0iD i 4) : ℝ) 0 / 2 := by
    have := (Rat.cast_le (K := ℝ)).2 h2
    push_cast at this
    norm_num at this ⊢
    linarith
  rw [e, H2_eq]
  have k := terms_ge (n4 := (decQ (aget2 n0iD i 3) : ℝ)) (n5 := (decQ (aget2 n0iD i 4) : ℝ))
    (n6 := (decQ (aget2 n0iD i 5) : ℝ)) (n7 := (decQ (aget2 n0iD i 6) : ℝ))
    (t4 := (decQ (aget2 TH0I i 3) : ℝ)) (t5 := (decQ (aget2 TH0I i 4) : ℝ))
    (t6 := (decQ (aget2 TH0I i 5) : ℝ)) (t7 := (decQ (aget2 TH0I i 6) : ℝ)) (T := T)
    (by exact_mod_cast h3) (by exact_mod_cast h5) (by exact_mod_cast h6) hT
  linarith

/-- The ideal-gas part of `cv` over `R`. -/
theorem heat_ge (x : Vector ℝ 21) {T : ℝ} (hT : 0 < T) :
    1.479 * ∑ i, max (aget x i) 0 ≤ -I2 (params (newP : Detail ℝ)) x T := by
  unfold I2
  rw [Finset.mul_sum, ← Finset.sum_neg_distrib]
  refine Finset.sum_le_sum fun i _ => ?_
  split
  case isTrue h =>
    rw [max_eq_left h.le]
    nlinarith [comp_heat_ge i hT]
  case isFalse h => rw [max_eq_right (not_lt.1 h)]; simp

theorem UN_bound : ∀ n : Fin 58, |(decQ (aget UN n) - 1) * decQ (aget UN n)| ≤ 506 := by decide +kernel

theorem UN_bound_real (n : Fin 58) : |((tab UN n : ℝ) - 1) * tab UN n| ≤ 506 := by
  have e : (tab UN n : ℝ) = (decQ (aget UN n) : ℝ) := ofDec_decQ _
  rw [e]
  exact_mod_cast UN_bound n

/-- The residual part of `cv` over `R` is linear in the density. -/
theorem cvR_bound (v : View ℝ) {d : ℝ} (hd : |v.k3 * d| ≤ 1) :
    |∑ n, ((tab UN n : ℝ) - 1) * tab UN n * (f0 v n d + linB v n * d)| ≤ 506 * (size v * |d|) := by
  refine (Finset.abs_sum_le_sum_abs _ _).trans ?_
  unfold size
  rw [Finset.sum_mul, Finset.mul_sum]
  refine Finset.sum_le_sum fun n _ => ?_
  rw [abs_mul]
  refine mul_le_mul (UN_bound_real n) ?_ (abs_nonneg _) (by norm_num)
  refine (abs_add_le _ _).trans ?_
  have a := f0_bound v n hd
  rw [abs_mul (v.k3)] at a
  rw [abs_mul (linB v n), add_mul]
  have : 0 ≤ (if 12 ≤ n.1 then |aget v.csn n * aget v.tun n| else 0) := by split <;> positivity
  have : 0 ≤ (if 12 ≤ n.1 then |aget v.csn n * aget v.tun n| else 0) * (|v.k3| * |d|) := by positivity
  nlinarith

variable {q : Pub ℝ}

/-- `cv` of a new object. -/
theorem cv_fresh (hx : XFar q.x (fill 21 (f% 0.0))) (hT : 1e-7 < q.t) :
    (propertiesP (freshOf q)).cv = RDETAIL * (-I2 (params (newP : Detail ℝ)) q.x q.t
      - ∑ n, ((tab UN n : ℝ) - 1) * tab UN n * (f0 (view (freshOf q)) n q.d + linB (view (freshOf q)) n * q.d)) := by
  have h := cv_viewT (q := q) hx hT
  have e : atT q q.t = q := rfl
  rw [e] at h
  rw [h, view_freshT hx hT]
  have : ∀ n, ((tab UN n : ℝ) - 1) * tab UN n * (f0 (viewT q q.t) n q.d + linB (viewT q q.t) n * q.d) =
      ((tab UN n : ℝ) - 1) * tab UN n * (q.t ^ (-(tab UN n : ℝ)) * k0 q q.d n) := by
    intro n
    rw [f0_viewT, linB_viewT, k0]
    ring
  rw [Finset.sum_congr rfl fun n _ => this n]
  ring

end Aga8.Detail
