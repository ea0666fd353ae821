import Verif.Lemmas.DetailMethane
import Verif.Lemmas.DetailRealEval

/-! # The DETAIL equation of state at low density

Bounds on the residual terms that are linear in the density. -/

namespace Aga8.Detail

open Tab Finset

theorem BN_KN_bound : ∀ n : Fin 58, 12 ≤ n.1 → 1 ≤ aget BN n ∧ aget BN n ≤ 9 ∧ aget KN n ≤ 4 := by decide +kernel

/-- Size of the residual terms per unit of reduced density. -/
noncomputable def size (v : View ℝ) : ℝ :=
  ∑ n : Fin 58, (600 * (if 12 ≤ n.1 then |aget v.csn n * aget v.tun n| else 0) * |v.k3| + |linB v n|)

theorem size_nonneg (v : View ℝ) : 0 ≤ size v :=
  Finset.sum_nonneg fun n _ => by
    have : 0 ≤ (if 12 ≤ n.1 then |aget v.csn n * aget v.tun n| else 0) := by split <;> positivity
    positivity

theorem f0_bound (v : View ℝ) (n : Fin 58) {d : ℝ} (hd : |v.k3 * d| ≤ 1) :
    |f0 v n d| ≤ 3 * (if 12 ≤ n.1 then |aget v.csn n * aget v.tun n| else 0) * |v.k3 * d| := by
  unfold f0
  split
  case isFalse h => simp
  case isTrue h =>
    obtain ⟨b1, -, -⟩ := BN_KN_bound n h
    have he : expK (aget KN n) (v.k3 * d) ≤ 3 := by
      unfold expK
      have : -(if aget KN n = 0 then 0 else (v.k3 * d) ^ aget KN n) ≤ 1 := by
        split
        · norm_num
        · have := pow_le_one₀ (n := aget KN n) (abs_nonneg (v.k3 * d)) hd
          rw [← abs_pow] at this
          linarith [neg_le_abs ((v.k3 * d) ^ aget KN n)]
      refine (Real.exp_le_exp.2 this).trans ?_
      linarith [Real.exp_one_lt_d9]
    have he0 : 0 < expK (aget KN n) (v.k3 * d) := Real.exp_pos _
    have hp : |(v.k3 * d) ^ aget BN n| ≤ |v.k3 * d| := by
      rw [abs_pow]
      exact pow_le_of_le_one (abs_nonneg _) hd (by omega)
    rw [abs_mul, abs_mul, abs_of_pos he0]
    have h1 : |aget v.csn n * aget v.tun n| * |(v.k3 * d) ^ aget BN n|
        ≤ |aget v.csn n * aget v.tun n| * |v.k3 * d| := mul_le_mul_of_nonneg_left hp (abs_nonneg _)
    have h2 : 0 ≤ |aget v.csn n * aget v.tun n| * |v.k3 * d| := by positivity
    calc _ ≤ |aget v.csn n * aget v.tun n| * |v.k3 * d| * 3 :=
          mul_le_mul h1 he he0.le h2
      _ = _ := by ring

theorem c1_bound (v : View ℝ) (n : Fin 58) (hn : 12 ≤ n.1) {d : ℝ} (hd : |v.k3 * d| ≤ 1) :
    |c1 v n d| ≤ 13 ∧ |c2 v n d| ≤ 198 := by
  obtain ⟨-, b2, b3⟩ := BN_KN_bound n hn
  have hk : |(v.k3 * d) ^ aget KN n| ≤ 1 := by
    rw [abs_pow]; exact pow_le_one₀ (abs_nonneg _) hd
  have e2 : ((aget BN n : ℕ) : ℝ) ≤ 9 := by exact_mod_cast b2
  have e3 : ((aget KN n : ℕ) : ℝ) ≤ 4 := by exact_mod_cast b3
  have e4 : (0 : ℝ) ≤ ((aget BN n : ℕ) : ℝ) := Nat.cast_nonneg _
  have e5 : (0 : ℝ) ≤ ((aget KN n : ℕ) : ℝ) := Nat.cast_nonneg _
  rw [abs_le] at hk
  have h1 : |c1 v n d| ≤ 13 := by
    unfold c1; rw [abs_le]; constructor <;> nlinarith
  refine ⟨h1, ?_⟩
  have h2 : |ck v n d| ≤ 16 := by
    unfold ck
    rw [abs_mul, abs_of_nonneg (by positivity : (0 : ℝ) ≤ aget KN n * aget KN n)]
    have : |(v.k3 * d) ^ aget KN n| ≤ 1 := abs_le.2 hk
    have := abs_nonneg ((v.k3 * d) ^ aget KN n)
    nlinarith
  unfold c2
  rw [abs_le] at *
  constructor <;> nlinarith

theorem A1_bound (v : View ℝ) {d : ℝ} (hd : |v.k3 * d| ≤ 1) : |A1 v d| ≤ size v * |d| := by
  unfold A1 size
  rw [Finset.sum_mul]
  refine (Finset.abs_sum_le_sum_abs _ _).trans (Finset.sum_le_sum fun n _ => ?_)
  refine (abs_add_le _ _).trans ?_
  rw [abs_mul, abs_mul]
  have h := f0_bound v n hd
  rw [add_mul]
  refine add_le_add ?_ le_rfl
  by_cases hn : 12 ≤ n.1
  · obtain ⟨a, -⟩ := c1_bound v n hn hd
    rw [if_pos hn] at h ⊢
    rw [abs_mul v.k3 d] at h
    have : 0 ≤ |aget v.csn n * aget v.tun n| * (|v.k3| * |d|) := by positivity
    calc _ ≤ 3 * |aget v.csn n * aget v.tun n| * (|v.k3| * |d|) * 13 :=
          mul_le_mul h a (abs_nonneg _) (by positivity)
      _ ≤ _ := by nlinarith
  · rw [if_neg hn] at h ⊢
    simp only [mul_zero, zero_mul] at h ⊢
    have := abs_nonneg (c1 v n d)
    have h0 : |f0 v n d| = 0 := le_antisymm h (abs_nonneg _)
    rw [h0, zero_mul]

theorem A2_bound (v : View ℝ) {d : ℝ} (hd : |v.k3 * d| ≤ 1) : |A2 v d| ≤ size v * |d| := by
  unfold A2 size
  rw [Finset.sum_mul]
  refine (Finset.abs_sum_le_sum_abs _ _).trans (Finset.sum_le_sum fun n _ => ?_)
  rw [abs_mul]
  have h := f0_bound v n hd
  rw [add_mul]
  refine le_trans ?_ (le_add_of_nonneg_right (by positivity))
  by_cases hn : 12 ≤ n.1
  · obtain ⟨-, a⟩ := c1_bound v n hn hd
    rw [if_pos hn] at h ⊢
    rw [abs_mul v.k3 d] at h
    have : 0 ≤ |aget v.csn n * aget v.tun n| * (|v.k3| * |d|) := by positivity
    calc _ ≤ 3 * |aget v.csn n * aget v.tun n| * (|v.k3| * |d|) * 198 :=
          mul_le_mul h a (abs_nonneg _) (by positivity)
      _ ≤ _ := by nlinarith
  · rw [if_neg hn] at h ⊢
    simp only [mul_zero, zero_mul] at h ⊢
    have h0 : |f0 v n d| = 0 := le_antisymm h (abs_nonneg _)
    rw [h0, zero_mul]

/-! ## Methane -/

/-- Bound on the size of the residual terms of methane over the size parameter, exactly. -/
def rs (m : Nat) (n : Fin 58) : ℚ :=
  600 * (if 12 ≤ n.1 ∧ nf n then |aq m n| else 0) + (if n.1 < 18 ∧ nb n then |aq m n| else 0)
    + (if 12 ≤ n.1 ∧ n.1 < 18 ∧ nf n then |aq m n| else 0)

theorem size_methane (m : Nat) (p d : ℝ) :
    size (view (freshOf (methane m p d))) ≤ ((∑ n, rs m n : ℚ) : ℝ) * mK ^ 3 := by
  obtain ⟨w1, w2, w3⟩ := view_methane m p d
  generalize view (freshOf (methane m p d)) = v at *
  have hK : 0 < mK ^ 3 := pow_pos mK_pos 3
  unfold size
  push_cast
  rw [Finset.sum_mul]
  refine Finset.sum_le_sum fun n _ => ?_
  have hl : |linB v n| ≤ ((if n.1 < 18 ∧ nb n then |((aq m n : ℚ) : ℝ)| else 0)
      + (if 12 ≤ n.1 ∧ n.1 < 18 ∧ nf n then |((aq m n : ℚ) : ℝ)| else 0)) * mK ^ 3 := by
    unfold linB
    by_cases h : n.1 ≤ 17
    · have h18 : n.1 < 18 := by omega
      rw [dif_pos h, sub_mul]
      have a := w3 ⟨n.1, h18⟩
      dsimp only at a
      rw [a]
      refine (abs_sub _ _).trans ?_
      rw [add_mul]
      refine add_le_add ?_ ?_
      · rw [abs_mul, abs_of_pos hK]
        simp only [h18, true_and]
        refine mul_le_mul_of_nonneg_right ?_ hK.le
        split <;> simp
      · by_cases h12 : 12 ≤ n.1
        · have b := w2 n h12
          simp only [h12, h18, true_and, if_true]
          have e : aget v.csn n * v.k3 * aget v.tun n = aget v.csn n * aget v.tun n * mK ^ 3 := by rw [w1]; ring
          rw [e, b, abs_mul, abs_of_pos hK]
          refine mul_le_mul_of_nonneg_right ?_ hK.le
          split <;> simp
        · simp [h12]
    · rw [dif_neg h, abs_zero]
      have h18 : ¬ n.1 < 18 := by omega
      simp [h18]
  rw [w1, abs_of_pos hK]
  unfold rs
  push_cast
  rw [add_assoc, add_mul]
  refine add_le_add ?_ ?_
  · refine le_of_eq ?_
    congr 2
    by_cases h12 : 12 ≤ n.1
    · simp only [h12, true_and, if_true]
      rw [w2 n h12]
      split <;> simp
    · simp [h12]
  · refine hl.trans (le_of_eq ?_)
    congr 2 <;> split <;> simp

theorem num_rs : ∑ n, rs 1 n < 200 := by decide +kernel

end Aga8.Detail
