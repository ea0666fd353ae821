import Verif.Lemmas.DetailErrMethane
import Verif.Lemmas.DetailErrStart

/-! # The DETAIL equation at low density -/

set_option linter.unusedSectionVars false

namespace Aga8.Detail

open FOps Tab F64 Newton

/-! ## The terms and their sizes -/

section
variable {C C' : Fin 58 → ℝ} {D r T : ℝ}

theorem expK_pos (k : ℕ) (r : ℝ) : 0 < expK k r := Real.exp_pos _

theorem expK_le (k : ℕ) {r : ℝ} (hr : 0 ≤ r) : expK k r ≤ 1 := by
  unfold expK
  rw [Real.exp_le_one_iff, neg_nonpos]
  split
  · exact le_rfl
  · exact pow_nonneg hr k

theorem abs_zExp (hC : ∀ n, |C n| ≤ C' n) (hr : 0 ≤ r) (hT : 0 < T) (n : Fin 58) :
    |zExp C (-1) r T n| ≤ zExp C' 1 r T n := by
  unfold zExp
  split
  · have g : |((aget BN n : ℕ) : ℝ) + -1 * (((aget KN n : ℕ) : ℝ) * r ^ aget KN n)|
        ≤ ((aget BN n : ℕ) : ℝ) + 1 * (((aget KN n : ℕ) : ℝ) * r ^ aget KN n) := by
      have h1 : (0 : ℝ) ≤ ((aget BN n : ℕ) : ℝ) := Nat.cast_nonneg _
      have h2 : (0 : ℝ) ≤ ((aget KN n : ℕ) : ℝ) * r ^ aget KN n := by positivity
      rw [abs_le]
      constructor <;> linarith
    have e := (expK_pos (aget KN n) r).le
    have t : 0 ≤ T ^ (-Eos.c UN n) := by positivity
    have b : 0 ≤ r ^ aget BN n := pow_nonneg hr _
    rw [abs_mul, abs_mul, abs_mul, abs_mul, abs_of_nonneg b, abs_of_nonneg t, abs_of_nonneg e]
    refine mul_le_mul ?_ g (abs_nonneg _) ?_
    · exact mul_le_mul_of_nonneg_right (mul_le_mul_of_nonneg_right (mul_le_mul_of_nonneg_right (hC n) b) t) e
    · have := (abs_nonneg _).trans (hC n)
      positivity
  · simp

theorem abs_zExp2 (hC : ∀ n, |C n| ≤ C' n) (hr : 0 ≤ r) (hT : 0 < T) (n : Fin 58) :
    |zExp2 C (-1) r T n| ≤ zExp2 C' 1 r T n := by
  unfold zExp2
  split
  · have h1 : (0 : ℝ) ≤ ((aget BN n : ℕ) : ℝ) := Nat.cast_nonneg _
    have h2 : (0 : ℝ) ≤ ((aget KN n : ℕ) : ℝ) * r ^ aget KN n := by positivity
    have h3 : (0 : ℝ) ≤ ((aget KN n : ℕ) : ℝ) * ((aget KN n : ℕ) : ℝ) * r ^ aget KN n := by positivity
    have g : |(((aget BN n : ℕ) : ℝ) + -1 * (((aget KN n : ℕ) : ℝ) * r ^ aget KN n))
        * (((aget BN n : ℕ) : ℝ) + -1 * (((aget KN n : ℕ) : ℝ) * r ^ aget KN n) + -1)
      + -1 * (((aget KN n : ℕ) : ℝ) * ((aget KN n : ℕ) : ℝ) * r ^ aget KN n)|
        ≤ (((aget BN n : ℕ) : ℝ) + 1 * (((aget KN n : ℕ) : ℝ) * r ^ aget KN n))
        * (((aget BN n : ℕ) : ℝ) + 1 * (((aget KN n : ℕ) : ℝ) * r ^ aget KN n) + 1)
      + 1 * (((aget KN n : ℕ) : ℝ) * ((aget KN n : ℕ) : ℝ) * r ^ aget KN n) := by
      refine (abs_add_le _ _).trans (add_le_add ?_ ?_)
      · rw [abs_mul]
        refine mul_le_mul ?_ ?_ (abs_nonneg _) (by linarith)
        · rw [abs_le]; constructor <;> linarith
        · rw [abs_le]; constructor <;> linarith
      · rw [neg_one_mul, abs_neg, abs_of_nonneg h3, one_mul]
    have e := (expK_pos (aget KN n) r).le
    have t : 0 ≤ T ^ (-Eos.c UN n) := by positivity
    have b : 0 ≤ r ^ aget BN n := pow_nonneg hr _
    rw [abs_mul, abs_mul, abs_mul, abs_mul, abs_of_nonneg b, abs_of_nonneg t, abs_of_nonneg e]
    refine mul_le_mul ?_ g (abs_nonneg _) ?_
    · exact mul_le_mul_of_nonneg_right (mul_le_mul_of_nonneg_right (mul_le_mul_of_nonneg_right (hC n) b) t) e
    · have := (abs_nonneg _).trans (hC n)
      positivity
  · simp

theorem abs_zLin (hC : ∀ n, |C n| ≤ C' n) {S : Fin 18 → ℝ} (hS : ∀ n, 0 ≤ S n) (a : Fin 18 → ℝ) (hD : 0 ≤ D) (hr : 0 ≤ r)
    (hT : 0 < T) (n : Fin 58) :
    |zLin (fun n => a n * S n) C (-1) D r T n| ≤ zLin (fun n => |a n| * S n) C' 1 D r T n := by
  unfold zLin
  split
  · rename_i h
    have t : 0 ≤ T ^ (-Eos.c UN n) := by positivity
    rw [abs_mul, abs_of_nonneg t]
    refine mul_le_mul_of_nonneg_right ((abs_add_le _ _).trans (add_le_add ?_ ?_)) t
    · rw [abs_mul, abs_mul, abs_of_nonneg hD, abs_of_nonneg (hS _)]
    · split
      · rw [abs_mul, neg_one_mul, abs_neg, abs_of_nonneg hr, one_mul]
        exact mul_le_mul_of_nonneg_right (hC n) hr
      · simp
  · simp

end

variable [Libm]

/-- The equation differs from the ideal gas by the sizes of its terms at most. -/
theorem abs_Z {x : Fin 21 → ℝ} {D T : ℝ} (hC : ∀ n, |Eos.Cstar x n| ≤ Eos.Cabs x n)
    (hS : ∀ n : Fin 18, 0 ≤ ∑ i, ∑ j, x i * x j * bTerm n i j) (hK : 0 ≤ Eos.Kcubed x) (hD : 0 ≤ D) (hT : 0 < T) :
    |Eos.Z x D T - 1| ≤ Eos.Zabs x D T - 1 ∧ |Eos.dPdD x D T - 1| ≤ Eos.dPdDabs x D T - 1 := by
  have hr := mul_nonneg hK hD
  have k1 : |Eos.Z x D T - 1| ≤ Eos.Zabs x D T - 1 := by
    rw [← zsum_Z, ← zsum_Zabs, add_sub_cancel_left, add_sub_cancel_left]
    refine (Finset.abs_sum_le_sum_abs _ _).trans (Finset.sum_le_sum fun n _ => ?_)
    exact (abs_add_le _ _).trans (add_le_add (abs_zExp hC hr hT n) (abs_zLin hC hS _ hD hr hT n))
  refine ⟨k1, ?_⟩
  rw [← dsum_dPdD, ← dsum_dPdDabs]
  have k2 := (Finset.abs_sum_le_sum_abs (fun n => zExp2 (Eos.Cstar x) (-1) (Eos.Kcubed x * D) T n) Finset.univ).trans
    (Finset.sum_le_sum fun n _ => abs_zExp2 hC hr hT n)
  have e : 1 + 2 * (Eos.Z x D T - 1) + ∑ n, zExp2 (Eos.Cstar x) (-1) (Eos.Kcubed x * D) T n - 1
      = 2 * (Eos.Z x D T - 1) + ∑ n, zExp2 (Eos.Cstar x) (-1) (Eos.Kcubed x * D) T n := by ring
  have e2 : 1 + 2 * (Eos.Zabs x D T - 1) + ∑ n, zExp2 (Eos.Cabs x) 1 (Eos.Kcubed x * D) T n - 1
      = 2 * (Eos.Zabs x D T - 1) + ∑ n, zExp2 (Eos.Cabs x) 1 (Eos.Kcubed x * D) T n := by ring
  rw [e, e2]
  refine (abs_add_le _ _).trans (add_le_add ?_ k2)
  rw [abs_mul, abs_two]
  linarith

/-! ## Methane -/

/-- The largest reduced density considered. -/
def lowR : ℚ := 1 / 100

/-- Bounds of the parts of term `n` per unit of reduced density. -/
def lowK (n : Fin 58) : ℚ := ((aget KN n : ℕ) : ℚ) * lowR ^ aget KN n
def lowD (n : Fin 58) : ℚ :=
  if 12 ≤ n.1 ∧ nf n then aabs n * tb n * (((aget BN n : ℕ) : ℚ) + lowK n) * lowR ^ (aget BN n - 1) else 0
def lowE (n : Fin 58) : ℚ :=
  if 12 ≤ n.1 ∧ nf n then aabs n * tb n * ((((aget BN n : ℕ) : ℚ) + lowK n) * (((aget BN n : ℕ) : ℚ) + lowK n + 1)
    + ((aget KN n : ℕ) : ℚ) * lowK n) * lowR ^ (aget BN n - 1) else 0

theorem low_sum1 : ∑ n, lowD n + ∑ n, (bndB n + bndC n) ≤ 5 := by decide +kernel
theorem low_sum2 : ∑ n, lowE n ≤ 7 / 10 + 1 / 10 := by decide +kernel
theorem lowBN : ∀ n : Fin 58, 1 ≤ aget BN n := by decide +kernel

theorem low_pow {r : ℝ} (h0 : 0 ≤ r) (h1 : r ≤ (lowR : ℝ)) {b : ℕ} (hb : 1 ≤ b) : r ^ b ≤ r * (lowR : ℝ) ^ (b - 1) := by
  obtain ⟨k, rfl⟩ : ∃ k, b = k + 1 := ⟨b - 1, by omega⟩
  rw [Nat.add_sub_cancel, pow_succ, mul_comm]
  exact mul_le_mul_of_nonneg_left (pow_le_pow_left₀ h0 h1 k) h0

section
variable {D r T : ℝ} (h1 : 1.21 * mE ≤ T) (h2 : T ≤ 4 * mE)
include h1 h2

theorem Cabs_low (n : Fin 58) : 0 ≤ Eos.Cabs (posPart mx) n * T ^ (-Eos.c UN n) ∧
    Eos.Cabs (posPart mx) n * T ^ (-Eos.c UN n) ≤ if nf n then ((aabs n * tb n : ℚ) : ℝ) else 0 := by
  obtain ⟨t0, t1⟩ := theta_le h1 h2 n
  rw [Cabs_mx, mul_assoc]
  split
  · refine ⟨mul_nonneg (abs_nonneg _) t0, ?_⟩
    push_cast
    rw [aabs_real]
    exact mul_le_mul_of_nonneg_left t1 (abs_nonneg _)
  · simp

theorem zExp_low (h0 : 0 ≤ r) (hr : r ≤ (lowR : ℝ)) (n : Fin 58) :
    zExp (Eos.Cabs (posPart mx)) 1 r T n ≤ r * (lowD n : ℝ) ∧ zExp2 (Eos.Cabs (posPart mx)) 1 r T n ≤ r * (lowE n : ℝ) := by
  obtain ⟨c0, c1⟩ := Cabs_low h1 h2 n
  unfold zExp zExp2 lowD lowE
  by_cases hn : 12 ≤ n.1
  · rw [if_pos hn, if_pos hn]
    have e0 := (expK_pos (aget KN n) r).le
    have e1 := expK_le (aget KN n) h0
    have b0 : 0 ≤ r ^ aget BN n := pow_nonneg h0 _
    have b1 := low_pow h0 hr (lowBN n)
    have k0 : 0 ≤ r ^ aget KN n := pow_nonneg h0 _
    have k1 : r ^ aget KN n ≤ (lowR : ℝ) ^ aget KN n := pow_le_pow_left₀ h0 hr _
    have L0 : (0 : ℝ) ≤ (lowR : ℝ) := h0.trans hr
    have kk : ((aget KN n : ℕ) : ℝ) * r ^ aget KN n ≤ (lowK n : ℝ) := by
      unfold lowK
      push_cast
      exact mul_le_mul_of_nonneg_left k1 (Nat.cast_nonneg _)
    have kk0 : 0 ≤ ((aget KN n : ℕ) : ℝ) * r ^ aget KN n := by positivity
    have K0 : (0 : ℝ) ≤ (lowK n : ℝ) := kk0.trans kk
    have main : ∀ g G : ℝ, 0 ≤ g → g ≤ G → Eos.Cabs (posPart mx) n * r ^ aget BN n * T ^ (-Eos.c UN n) * expK (aget KN n) r * g
        ≤ (if nf n then ((aabs n * tb n : ℚ) : ℝ) else 0) * G * (r * (lowR : ℝ) ^ (aget BN n - 1)) := by
      intro g G g0 gG
      have e : Eos.Cabs (posPart mx) n * r ^ aget BN n * T ^ (-Eos.c UN n) * expK (aget KN n) r * g
          = (Eos.Cabs (posPart mx) n * T ^ (-Eos.c UN n) * g * r ^ aget BN n) * expK (aget KN n) r := by ring
      rw [e]
      have p := c0.trans c1
      refine (mul_le_of_le_one_right (mul_nonneg (mul_nonneg c0 g0) b0) e1).trans ?_
      exact mul_le_mul (mul_le_mul c1 gG g0 p) b1 b0 (mul_nonneg p (g0.trans gG))
    have bn : (0 : ℝ) ≤ ((aget BN n : ℕ) : ℝ) := Nat.cast_nonneg _
    have m1 := main (((aget BN n : ℕ) : ℝ) + 1 * (((aget KN n : ℕ) : ℝ) * r ^ aget KN n)) (((aget BN n : ℕ) : ℝ) + lowK n)
      (by linarith) (by linarith)
    have m2 := main ((((aget BN n : ℕ) : ℝ) + 1 * (((aget KN n : ℕ) : ℝ) * r ^ aget KN n))
        * (((aget BN n : ℕ) : ℝ) + 1 * (((aget KN n : ℕ) : ℝ) * r ^ aget KN n) + 1)
      + 1 * (((aget KN n : ℕ) : ℝ) * ((aget KN n : ℕ) : ℝ) * r ^ aget KN n))
      ((((aget BN n : ℕ) : ℝ) + lowK n) * (((aget BN n : ℕ) : ℝ) + lowK n + 1) + ((aget KN n : ℕ) : ℝ) * lowK n)
      (by
        have : (0 : ℝ) ≤ ((aget KN n : ℕ) : ℝ) * ((aget KN n : ℕ) : ℝ) * r ^ aget KN n := by positivity
        have h3 : 0 ≤ ((aget BN n : ℕ) : ℝ) + 1 * (((aget KN n : ℕ) : ℝ) * r ^ aget KN n) := by linarith
        have := mul_nonneg h3 (by linarith : 0 ≤ ((aget BN n : ℕ) : ℝ) + 1 * (((aget KN n : ℕ) : ℝ) * r ^ aget KN n) + 1)
        linarith) (by
        refine add_le_add (mul_le_mul (by linarith) (by linarith) (by linarith) (by linarith)) ?_
        rw [one_mul, mul_assoc]
        exact mul_le_mul_of_nonneg_left kk (Nat.cast_nonneg _))
    cases hb : nf n
    · rw [hb] at m1 m2
      simp only [hn, true_and, Bool.false_eq_true, if_false, zero_mul] at m1 m2 ⊢
      rw [Rat.cast_zero, mul_zero]
      exact ⟨m1, m2⟩
    · rw [hb] at m1 m2
      simp only [hn, true_and, if_true] at m1 m2 ⊢
      push_cast at m1 m2 ⊢
      constructor
      · refine m1.trans (le_of_eq ?_); ring
      · refine m2.trans (le_of_eq ?_); ring
  · rw [if_neg hn, if_neg hn, if_neg (fun h => hn h.1), if_neg (fun h => hn h.1)]
    simp

theorem bsum_mx (n : Fin 18) : ∑ i, ∑ j, posPart mx i * posPart mx j * bTerm n i j
    = (if nb ⟨n.1, by omega⟩ then 1 else 0) * mE ^ Eos.c UN ⟨n.1, by omega⟩ * mK ^ 3 := by
  have e : ∑ i, ∑ j, posPart mx i * posPart mx j * bTerm n i j = bTerm n 0 0 := by
    have := (sum_mx fun i => ∑ j, posPart mx j * bTerm n i j).trans (sum_mx fun j => bTerm n 0 j)
    rw [← this]
    refine Finset.sum_congr rfl fun i _ => ?_
    rw [Finset.mul_sum]
    exact Finset.sum_congr rfl fun j _ => by ring
  have hE : Eos.Eij 0 0 = mE := by
    unfold Eos.Eij
    rw [star_EIJ0, c_EI0, one_mul, Real.sqrt_mul_self mE_pos.le]
  have hK : (mK * mK) ^ (3 / 2 : ℝ) = mK ^ 3 := by
    rw [← pow_two, ← Real.rpow_natCast, ← Real.rpow_mul mK_pos.le, ← Real.rpow_natCast]
    norm_num
  rw [e]
  unfold bTerm
  rw [Bstar_mx, hE, c_KI0, hK]

theorem zLin_low (hD : 0 ≤ D) (n : Fin 58) :
    zLin (fun n => |Eos.c AN ⟨n.1, by omega⟩| * ∑ i, ∑ j, posPart mx i * posPart mx j * bTerm n i j) (Eos.Cabs (posPart mx)) 1 D
      (mK ^ 3 * D) T n ≤ mK ^ 3 * D * ((bndB n + bndC n : ℚ) : ℝ) := by
  obtain ⟨c0, c1⟩ := Cabs_low h1 h2 n
  obtain ⟨t0, t1⟩ := theta_le h1 h2 n
  have hr : 0 ≤ mK ^ 3 * D := mul_nonneg (pow_nonneg mK_pos.le 3) hD
  unfold zLin bndB bndC
  by_cases hn : n.1 ≤ 17
  · rw [dif_pos hn]
    dsimp only
    rw [bsum_mx h1 h2]
    have hn' : n.1 < 18 := by omega
    have e : (|Eos.c AN n| * ((if nb n then (1 : ℝ) else 0) * mE ^ Eos.c UN n * mK ^ 3) * D
        + if 12 ≤ n.1 then 1 * Eos.Cabs (posPart mx) n * (mK ^ 3 * D) else 0) * T ^ (-Eos.c UN n)
      = mK ^ 3 * D * ((if nb n then (1 : ℝ) else 0) * (|Eos.c AN n| * (mE ^ Eos.c UN n * T ^ (-Eos.c UN n)))
        + if 12 ≤ n.1 then Eos.Cabs (posPart mx) n * T ^ (-Eos.c UN n) else 0) := by
      split <;> split <;> ring
    rw [e]
    refine mul_le_mul_of_nonneg_left ?_ hr
    rw [Rat.cast_add]
    refine add_le_add ?_ ?_
    · cases hb : nb n
      · simp
      · simp only [hn', true_and, if_true, one_mul]
        push_cast
        rw [aabs_real]
        exact mul_le_mul_of_nonneg_left t1 (abs_nonneg _)
    · by_cases h12 : 12 ≤ n.1
      · simp only [h12, hn', true_and, if_true]
        refine c1.trans (le_of_eq ?_)
        split <;> simp
      · rw [if_neg h12, if_neg (fun h => h12 h.1)]
        simp
  · rw [dif_neg hn, if_neg (fun h => hn (by omega)), if_neg (fun h => hn (by omega))]
    simp

/-- The terms of methane at reduced densities up to 0.01. -/
theorem abs_mx_low (hD : 0 ≤ D) (hr : mK ^ 3 * D ≤ 0.01) :
    Eos.Zabs (posPart mx) D T - 1 ≤ 5 * (mK ^ 3 * D) ∧ Eos.dPdDabs (posPart mx) D T - 1 ≤ 10.8 * (mK ^ 3 * D) := by
  have r0 : 0 ≤ mK ^ 3 * D := mul_nonneg (pow_nonneg mK_pos.le 3) hD
  have hr' : mK ^ 3 * D ≤ (lowR : ℝ) := by rw [lowR]; push_cast; norm_num at hr ⊢; exact hr
  have s1 : ((∑ n, lowD n : ℚ) : ℝ) + ((∑ n, (bndB n + bndC n) : ℚ) : ℝ) ≤ 5 := by exact_mod_cast low_sum1
  have s2 : ((∑ n, lowE n : ℚ) : ℝ) ≤ 0.8 := by
    have := (Rat.cast_le (K := ℝ)).2 low_sum2
    push_cast at this ⊢
    norm_num at this ⊢
    exact this
  have z : Eos.Zabs (posPart mx) D T - 1 ≤ 5 * (mK ^ 3 * D) := by
    rw [← zsum_Zabs, add_sub_cancel_left, Kcubed_mx, Finset.sum_add_distrib]
    have a := Finset.sum_le_sum (s := Finset.univ) fun n _ => (zExp_low h1 h2 r0 hr' n).1
    have b := Finset.sum_le_sum (s := Finset.univ) fun n _ => zLin_low h1 h2 hD n
    rw [← Finset.mul_sum] at a b
    rw [← Rat.cast_sum] at a b
    have := mul_le_mul_of_nonneg_left s1 r0
    linarith
  refine ⟨z, ?_⟩
  rw [← dsum_dPdDabs, Kcubed_mx]
  have a := Finset.sum_le_sum (s := Finset.univ) fun n _ => (zExp_low h1 h2 r0 hr' n).2
  rw [← Finset.mul_sum, ← Rat.cast_sum] at a
  have := a.trans (mul_le_mul_of_nonneg_left s2 r0)
  norm_num at z this ⊢
  linarith

theorem mx_low (hD : 0 ≤ D) (hr : mK ^ 3 * D ≤ 0.01) :
    |Eos.Z (posPart mx) D T - 1| ≤ 0.05 ∧ |Eos.dPdD (posPart mx) D T - 1| ≤ 0.108 ∧
      Eos.Zabs (posPart mx) D T ≤ 1.05 ∧ Eos.dPdDabs (posPart mx) D T ≤ 1.108 := by
  have hT : 0 < T := by have := mE_pos; linarith
  obtain ⟨a, b⟩ := abs_mx_low h1 h2 hD hr
  obtain ⟨c, d⟩ := abs_Z (x := posPart mx) (D := D) (T := T) (fun n => by
      rw [Cstar_mx, Cabs_mx]
      split
      · rw [abs_mul, abs_of_nonneg (by have := mE_pos; positivity : (0 : ℝ) ≤ mE ^ Eos.c UN n)]
      · simp) (fun n => by
      rw [bsum_mx h1 h2]
      have := mE_pos
      have := mK_pos
      split <;> positivity) (by rw [Kcubed_mx]; exact pow_nonneg mK_pos.le 3) hD hT
  norm_num at *
  refine ⟨by linarith, by linarith, by linarith, by linarith⟩

end

/-- What the convergence theorem needs, for methane at low pressure. -/
theorem low_curve {q : Pub Float} (h : DensDomain q) (hf : fracs q = posPart mx) (t1 : 184 ≤ toR q.t) (t2 : toR q.t ≤ 600)
    (hd1 : 3e-4 ≤ toR q.p / (8.31451 * toR q.t)) (hd2 : toR q.p / (8.31451 * toR q.t) ≤ 0.037) :
    F64Curve q (toR q.p / (8.31451 * toR q.t)) 1.3 0.84 1 := by
  have T0 : 0 < toR q.t := by linarith
  have P0 : 0 < toR q.p := lt_of_lt_of_le (by norm_num) h.p_low
  have PT0 : PT q (toR q.p / (8.31451 * toR q.t)) = toR q.p * Eos.Z (fracs q) (toR q.p / (8.31451 * toR q.t)) (toR q.t) := by
    unfold PT; field_simp
  have D0p : 0 < toR q.p / (8.31451 * toR q.t) := by positivity
  generalize toR q.p / (8.31451 * toR q.t) = D0 at *
  have e1 : 1.21 * mE ≤ toR q.t := by unfold mE; norm_num; linarith
  have e2 : toR q.t ≤ 4 * mE := by unfold mE; norm_num; linarith
  have b2 := Real.exp_one_lt_d9
  have rng : ∀ D, D ≤ D0 * Real.exp 1 → mK ^ 3 * D ≤ 0.01 := by
    intro D b
    have h2 := mul_le_mul hd2 b2.le (Real.exp_pos _).le (by norm_num)
    unfold mK
    norm_num at *
    linarith
  refine ⟨h, by norm_num, by norm_num, by norm_num, by norm_num, by norm_num, hd1, hd2.trans (by norm_num), ?_, ?_, ?_⟩
  · rw [hf, Kcubed_mx]
    unfold mK
    norm_num at hd2 ⊢
    linarith
  · intro D a b
    have hD : 0 ≤ D := le_trans (by positivity) a
    obtain ⟨c1, c2, c3, c4⟩ := mx_low e1 e2 hD (rng D b)
    rw [hf]
    generalize Eos.Z (posPart mx) D (toR q.t) = Z at *
    generalize Eos.dPdD (posPart mx) D (toR q.t) = Y at *
    rw [abs_le] at c1 c2
    have z0 : 0 < Z := by norm_num at c1; linarith [c1.1]
    norm_num at c1 c2 c3 c4 ⊢
    refine ⟨z0, by linarith, by linarith, ?_, ?_⟩
    · rw [le_div_iff₀ z0]; linarith
    · rw [div_le_iff₀ z0]; linarith
  · obtain ⟨c1, -⟩ := mx_low e1 e2 D0p.le (rng D0 (by
      have : (1 : ℝ) ≤ Real.exp 1 := Real.one_le_exp (by norm_num)
      nlinarith))
    rw [← hf] at c1
    have z0 : 0 < Eos.Z (fracs q) D0 (toR q.t) := by
      rw [abs_le] at c1; norm_num at c1; linarith [c1.1]
    rw [PT0, Real.log_mul P0.ne' z0.ne', add_sub_cancel_left]
    refine le_trans ?_ (by norm_num : (0.06 : ℝ) ≤ _)
    obtain ⟨u, v⟩ := abs_le.1 c1
    have a := Real.log_le_sub_one_of_pos z0
    have b := Real.one_sub_inv_le_log_of_pos z0
    have i : (Eos.Z (fracs q) D0 (toR q.t))⁻¹ ≤ 1.06 := by
      rw [inv_le_comm₀ z0 (by norm_num)]
      norm_num at u ⊢
      linarith
    rw [abs_le]
    norm_num at u v i ⊢
    constructor <;> linarith

theorem fracs_methane {q : Pub Float} (hx : ∀ i, IsFinite (aget q.x i) ∧ toR (aget q.x i) = if i = 0 then 1 else 0) :
    fracs q = posPart mx := by
  funext i
  unfold fracs
  rw [(hx i).2, posPart_mx]
  split <;> simp

theorem dens_methane {q : Pub Float} (hx : ∀ i, IsFinite (aget q.x i) ∧ toR (aget q.x i) = if i = 0 then 1 else 0)
    (ht : IsFinite q.t) (ht1 : 184 ≤ toR q.t) (ht2 : toR q.t ≤ 600) (hp : IsFinite q.p)
    (d1 : 3e-4 ≤ toR q.p / (8.31451 * toR q.t)) (d2 : toR q.p / (8.31451 * toR q.t) ≤ 0.037) : DensDomain q := by
  have T0 : 0 < 8.31451 * toR q.t := by positivity
  rw [le_div_iff₀ T0] at d1
  rw [div_le_iff₀ T0] at d2
  norm_num at d1 d2
  refine ⟨ht, by linarith, by linarith, hp, by norm_num; linarith, by norm_num; linarith, fun i => (hx i).1, ?_, 0, ?_⟩
  · intro i
    rw [(hx i).2]
    split <;> norm_num
  · rw [(hx 0).2]; norm_num

end Aga8.Detail
