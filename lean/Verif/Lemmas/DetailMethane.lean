import Mathlib.Analysis.Complex.ExponentialBounds
import Mathlib.Data.Rat.Cast.Order
import Verif.Lemmas.DetailEos

/-! # A worked state: pure methane

At reduced density `K^3 D = 1` and temperature `4^m` times the energy parameter of methane, the equation of state
takes values `r + r' / e` with rational `r`, `r'`, which the kernel computes exactly. Used as the concrete case beside
the theorems. -/

namespace Aga8.Detail

open Tab Finset

/-- Pure methane. -/
noncomputable def mx : Vector ℝ 21 := Vector.ofFn fun i => if i = 0 then 1 else 0

theorem posPart_mx (i : Fin 21) : posPart mx i = if i = 0 then 1 else 0 := by
  unfold posPart mx
  rw [aget_ofFn]
  split <;> simp

theorem XFar_mx : XFar mx (fill 21 (f% 0.0 : ℝ)) := by
  refine ⟨0, ?_⟩
  rw [r_lt, lem7, r_abs, aget_fill, l0]
  unfold mx
  rw [aget_ofFn]
  norm_num

/-- Energy parameter of methane. -/
noncomputable def mE : ℝ := 151.3183
/-- Size parameter of methane. -/
noncomputable def mK : ℝ := 0.4619255

theorem c_EI0 : Eos.c EI 0 = mE := by
  have h : EI[(0 : Fin 21).1] = ⟨1513183, 4⟩ := by decide +kernel
  unfold Eos.c mE
  rw [h]; norm_num
theorem c_KI0 : Eos.c KI 0 = mK := by
  have h : KI[(0 : Fin 21).1] = ⟨4619255, 7⟩ := by decide +kernel
  unfold Eos.c mK
  rw [h]; norm_num
theorem c_zero0 : Eos.c GI 0 = 0 ∧ Eos.c QI 0 = 0 ∧ Eos.c FI 0 = 0 ∧ Eos.c SI 0 = 0 ∧ Eos.c WI 0 = 0 := by
  have h1 : GI[(0 : Fin 21).1] = ⟨0, 0⟩ := by decide +kernel
  have h2 : QI[(0 : Fin 21).1] = ⟨0, 0⟩ := by decide +kernel
  have h3 : FI[(0 : Fin 21).1] = ⟨0, 0⟩ := by decide +kernel
  have h4 : SI[(0 : Fin 21).1] = ⟨0, 0⟩ := by decide +kernel
  have h5 : WI[(0 : Fin 21).1] = ⟨0, 0⟩ := by decide +kernel
  unfold Eos.c
  rw [h1, h2, h3, h4, h5]
  simp
theorem star_EIJ0 : Eos.star EIJ 0 0 = 1 := by
  have h : aget2 EIJ 0 0 = ⟨1, 0⟩ := by decide +kernel
  unfold aget2 aget at h
  unfold Eos.star
  rw [if_pos le_rfl]
  unfold Eos.c
  rw [h]; norm_num
theorem star_GIJ0 : Eos.star GIJ 0 0 = 1 := by
  have h : aget2 GIJ 0 0 = ⟨1, 0⟩ := by decide +kernel
  unfold aget2 aget at h
  unfold Eos.star
  rw [if_pos le_rfl]
  unfold Eos.c
  rw [h]; norm_num

theorem mE_pos : 0 < mE := by unfold mE; norm_num
theorem mK_pos : 0 < mK := by unfold mK; norm_num

theorem pair_zero (g : Fin 21 → Fin 21 → ℝ) :
    ∑ i, ∑ j with i < j, posPart mx i * posPart mx j * g i j = 0 := by
  refine Finset.sum_eq_zero fun i _ => Finset.sum_eq_zero fun j hj => ?_
  have hij : i < j := (Finset.mem_filter.1 hj).2
  rw [posPart_mx j, if_neg (by intro h; rw [h] at hij; exact absurd hij (Fin.not_lt_zero i))]
  ring

theorem sum_mx (g : Fin 21 → ℝ) : ∑ i, posPart mx i * g i = g 0 := by
  simp [posPart_mx]

theorem Kcubed_mx : Eos.Kcubed (posPart mx) = mK ^ 3 := by
  unfold Eos.Kcubed Eos.K5
  have h := pair_zero (fun i j => (Eos.star KIJ i j ^ 5 - 1) * (Eos.c KI i * Eos.c KI j) ^ (5 / 2 : ℝ))
  simp only [mul_assoc] at h ⊢
  rw [h, sum_mx, c_KI0, mul_zero, add_zero, ← Real.rpow_natCast, ← Real.rpow_mul mK_pos.le,
    ← Real.rpow_mul mK_pos.le, ← Real.rpow_natCast]
  norm_num

theorem U_mx : Eos.U (posPart mx) = mE := by
  unfold Eos.U Eos.U5
  have h := pair_zero (fun i j => (Eos.star UIJ i j ^ 5 - 1) * (Eos.c EI i * Eos.c EI j) ^ (5 / 2 : ℝ))
  simp only [mul_assoc] at h ⊢
  rw [h, sum_mx, c_EI0, mul_zero, add_zero, ← Real.rpow_natCast, ← Real.rpow_mul mE_pos.le,
    ← Real.rpow_mul mE_pos.le]
  norm_num

theorem G_mx : Eos.G (posPart mx) = 0 := by
  unfold Eos.G
  have h := pair_zero (fun i j => (Eos.star GIJ i j - 1) * (Eos.c GI i + Eos.c GI j))
  simp only [mul_assoc] at h ⊢
  rw [h, sum_mx, c_zero0.1, add_zero]

theorem Q_mx : Eos.Q (posPart mx) = 0 := by
  unfold Eos.Q; rw [sum_mx, c_zero0.2.1]

theorem F_mx : Eos.Fhigh (posPart mx) = 0 := by
  unfold Eos.Fhigh
  simp [posPart_mx, c_zero0.2.2.1]

theorem flag_z {k : Nat} (h : k = 0 ∨ k = 1) : Eos.flag 0 k = if k = 0 then 1 else 0 := by
  rcases h with rfl | rfl <;> simp [Eos.flag]

/-- No flag among G, Q, F. -/
def nf (n : Fin 58) : Bool := aget GN n == 0 && aget QN n == 0 && aget FN n == 0
/-- No flag at all. -/
def nb (n : Fin 58) : Bool := nf n && aget SN n == 0 && aget WN n == 0

theorem Cstar_mx (n : Fin 58) :
    Eos.Cstar (posPart mx) n = (if nf n then Eos.c AN n else 0) * mE ^ Eos.c UN n := by
  obtain ⟨h1, h2, h3, -, -⟩ := flags01 n
  unfold Eos.Cstar nf
  rw [G_mx, Q_mx, F_mx, U_mx]
  unfold aget at *
  rw [zero_pow (by norm_num), flag_z h1, flag_z h2, flag_z h3]
  congr 1
  by_cases a1 : GN[n.1] = 0 <;> by_cases a2 : QN[n.1] = 0 <;> by_cases a3 : FN[n.1] = 0 <;>
    simp [a1, a2, a3]

theorem Bstar_mx (n : Fin 58) : Eos.Bstar n 0 0 = if nb n then 1 else 0 := by
  obtain ⟨h1, h2, h3, h4, h5⟩ := flags01 n
  unfold Eos.Bstar Eos.Gij nb nf
  obtain ⟨c1, c2, c3, c4, c5⟩ := c_zero0
  rw [c1, c2, c3, c4, c5]
  unfold aget at *
  simp only [mul_zero, add_zero, zero_div, Real.sqrt_zero]
  rw [flag_z h1, flag_z h2, flag_z h3, flag_z h4, flag_z h5]
  by_cases a1 : GN[n.1] = 0 <;> by_cases a2 : QN[n.1] = 0 <;> by_cases a3 : FN[n.1] = 0 <;>
    by_cases a4 : SN[n.1] = 0 <;> by_cases a5 : WN[n.1] = 0 <;> simp [a1, a2, a3, a4, a5]

/-- Methane at temperature `4^m E` and density `1 / K^3`; the pressure field is set to `p`. -/
noncomputable def methane (m : Nat) (p d : ℝ) : Pub ℝ :=
  ⟨4 ^ m * mE, p, d, 0, 0, 0, 0, 0, 0, 0, 0, 0, 0, 0, 0, 0, 0, 0, mx⟩

theorem methane_t (m : Nat) (p d : ℝ) : 1e-7 < (methane m p d).t := by
  show (1e-7 : ℝ) < 4 ^ m * mE
  have h1 : (1:ℝ) ≤ 4 ^ m := one_le_pow₀ (by norm_num)
  have h2 : (1e-7:ℝ) < mE := by unfold mE; norm_num
  nlinarith [mE_pos]

theorem methane_x (m : Nat) (p d : ℝ) : XFar (methane m p d).x (fill 21 (f% 0.0 : ℝ)) := XFar_mx

/-- Twice the temperature exponents, which are integers. -/
def u2 (n : Fin 58) : Int := 2 * (aget UN n).m / 10 ^ (aget UN n).e
theorem u2_spec : ∀ n : Fin 58, u2 n * 10 ^ (aget UN n).e = 2 * (aget UN n).m := by decide +kernel

theorem c_UN (n : Fin 58) : Eos.c UN n = u2 n / 2 := by
  have h := u2_spec n
  unfold Eos.c
  unfold aget at h
  have h' : (u2 n : ℝ) * 10 ^ UN[n.1].e = 2 * UN[n.1].m := by exact_mod_cast h
  rw [div_eq_div_iff (by positivity) (by norm_num)]
  linarith

/-- Temperature factor of term `n`. -/
theorem theta_mx (m : Nat) (n : Fin 58) :
    mE ^ Eos.c UN n * (4 ^ m * mE) ^ (-Eos.c UN n) = (2 : ℝ) ^ (-((m : Int) * u2 n)) := by
  rw [Real.mul_rpow (by positivity) mE_pos.le, Real.rpow_neg mE_pos.le,
    mul_comm ((4 ^ m : ℝ) ^ (-Eos.c UN n)), ← mul_assoc,
    mul_inv_cancel₀ (Real.rpow_pos_of_pos mE_pos _).ne', one_mul, c_UN, ← Real.rpow_intCast]
  have h4 : ((4:ℝ) ^ m) = (2:ℝ) ^ ((2 * m : ℕ) : ℝ) := by
    rw [Real.rpow_natCast, pow_mul]; norm_num
  rw [h4, ← Real.rpow_mul (by norm_num)]
  congr 1
  push_cast
  ring

/-- The coefficients, exactly. -/
def aq (m : Nat) (n : Fin 58) : ℚ := ((aget AN n).m : ℚ) / 10 ^ (aget AN n).e * 2 ^ (-((m : Int) * u2 n))

theorem aq_real (m : Nat) (n : Fin 58) :
    ((aq m n : ℚ) : ℝ) = Eos.c AN n * (2 : ℝ) ^ (-((m : Int) * u2 n)) := by
  unfold aq Eos.c aget
  push_cast
  rfl

/-- Value of the terms without exponential in `Z - 1`. -/
def r1 (m : Nat) (n : Fin 58) : ℚ :=
  (if n.1 < 18 ∧ nb n then aq m n else 0) - (if 12 ≤ n.1 ∧ n.1 < 18 ∧ nf n then aq m n else 0)
    + (if 12 ≤ n.1 ∧ nf n ∧ aget KN n = 0 then aq m n * aget BN n else 0)
/-- Value of the terms with exponential in `Z - 1`. -/
def r1e (m : Nat) (n : Fin 58) : ℚ :=
  if 12 ≤ n.1 ∧ nf n ∧ aget KN n ≠ 0 then aq m n * (aget BN n - aget KN n : ℚ) else 0
/-- Terms of the second derivative without exponential. -/
def r2 (m : Nat) (n : Fin 58) : ℚ :=
  if 12 ≤ n.1 ∧ nf n ∧ aget KN n = 0 then aq m n * (aget BN n * (aget BN n - 1) : ℚ) else 0
/-- Terms of the second derivative with exponential. -/
def r2e (m : Nat) (n : Fin 58) : ℚ :=
  if 12 ≤ n.1 ∧ nf n ∧ aget KN n ≠ 0 then
    aq m n * ((aget BN n - aget KN n) * (aget BN n - aget KN n - 1) - aget KN n * aget KN n : ℚ) else 0

theorem view_methane (m : Nat) (p d : ℝ) :
    (view (freshOf (methane m p d))).k3 = mK ^ 3 ∧
    (∀ n, 12 ≤ n.1 → aget (view (freshOf (methane m p d))).csn n * aget (view (freshOf (methane m p d))).tun n
      = if nf n then ((aq m n : ℚ) : ℝ) else 0) ∧
    (∀ n : Fin 18, aget (view (freshOf (methane m p d))).bs n
        * aget (view (freshOf (methane m p d))).tun ⟨n.1, by omega⟩
      = (if nb ⟨n.1, by omega⟩ then ((aq m ⟨n.1, by omega⟩ : ℚ) : ℝ) else 0) * mK ^ 3) := by
  have hv : view (freshOf (methane m p d)) = viewT (methane m p d) (methane m p d).t :=
    view_freshT (methane_x m p d) (methane_t m p d)
  have hq : posPart (methane m p d).x = posPart mx := rfl
  have w1 := k3_viewT (methane m p d) (methane m p d).t
  have w2 : ∀ n : Fin 58, 12 ≤ n.1 → aget (viewT (methane m p d) (methane m p d).t).csn n
      = Eos.Cstar (posPart (methane m p d).x) n := fun n hn => csn_viewT _ _ hn
  have w3 : ∀ n : Fin 18, aget (viewT (methane m p d) (methane m p d).t).bs n = _ := bs_fresh _
  have w4 : ∀ n, aget (viewT (methane m p d) (methane m p d).t).tun n = (4 ^ m * mE) ^ (-Eos.c UN n) :=
    tun_viewT _ _
  rw [hv]
  rw [hq] at w1 w2 w3
  generalize viewT (methane m p d) (methane m p d).t = v at *
  refine ⟨w1.trans Kcubed_mx, ?_, ?_⟩
  · intro n hn
    rw [w2 n hn, w4, Cstar_mx, mul_assoc, theta_mx, aq_real]
    split <;> ring
  · intro n
    rw [w3, w4]
    have e : ∑ i, ∑ j, posPart mx i * posPart mx j * Eos.Bstar ⟨n.1, by omega⟩ i j
        * Eos.Eij i j ^ Eos.c UN ⟨n.1, by omega⟩ * (Eos.c KI i * Eos.c KI j) ^ (3 / 2 : ℝ)
        = Eos.Bstar ⟨n.1, by omega⟩ 0 0 * Eos.Eij 0 0 ^ Eos.c UN ⟨n.1, by omega⟩
          * (Eos.c KI 0 * Eos.c KI 0) ^ (3 / 2 : ℝ) := by
      have := (sum_mx fun i => ∑ j, posPart mx j * (Eos.Bstar ⟨n.1, by omega⟩ i j
        * Eos.Eij i j ^ Eos.c UN ⟨n.1, by omega⟩ * (Eos.c KI i * Eos.c KI j) ^ (3 / 2 : ℝ))).trans
        (sum_mx fun j => Eos.Bstar ⟨n.1, by omega⟩ 0 j
        * Eos.Eij 0 j ^ Eos.c UN ⟨n.1, by omega⟩ * (Eos.c KI 0 * Eos.c KI j) ^ (3 / 2 : ℝ))
      rw [← this]
      refine Finset.sum_congr rfl fun i _ => ?_
      rw [Finset.mul_sum]
      exact Finset.sum_congr rfl fun j _ => by ring
    have hE : Eos.Eij 0 0 = mE := by
      unfold Eos.Eij
      rw [star_EIJ0, c_EI0, one_mul, Real.sqrt_mul_self mE_pos.le]
    have hK : (mK * mK) ^ (3 / 2 : ℝ) = mK ^ 3 := by
      rw [← pow_two, ← Real.rpow_natCast, ← Real.rpow_mul mK_pos.le, ← Real.rpow_natCast]
      norm_num
    rw [e, Bstar_mx, hE, c_KI0, hK, aq_real, ← theta_mx]
    split <;> ring

theorem sums_methane (m : Nat) (p d : ℝ) :
    A1 (view (freshOf (methane m p d))) (1 / mK ^ 3)
      = ((∑ n, r1 m n : ℚ) : ℝ) + ((∑ n, r1e m n : ℚ) : ℝ) * Real.exp (-1) ∧
    A2 (view (freshOf (methane m p d))) (1 / mK ^ 3)
      = ((∑ n, r2 m n : ℚ) : ℝ) + ((∑ n, r2e m n : ℚ) : ℝ) * Real.exp (-1) := by
  obtain ⟨w1, w2, w3⟩ := view_methane m p d
  generalize view (freshOf (methane m p d)) = v at *
  have hK : mK ^ 3 * (1 / mK ^ 3) = 1 := by
    have := mK_pos.ne'
    field_simp
  have hf : ∀ n : Fin 58, f0 v n (1 / mK ^ 3)
      = (if 12 ≤ n.1 ∧ nf n then ((aq m n : ℚ) : ℝ) else 0) * (if aget KN n = 0 then 1 else Real.exp (-1)) := by
    intro n
    unfold f0 expK
    rw [w1, hK, one_pow, one_pow]
    by_cases h : 12 ≤ n.1
    · rw [if_pos h, w2 n h]
      by_cases hk : aget KN n = 0 <;> by_cases hn : nf n = true <;> simp [hk, hn, h]
    · simp [h]
  have hc1 : ∀ n, c1 v n (1 / mK ^ 3) = ((aget BN n : ℕ) : ℝ) - ((aget KN n : ℕ) : ℝ) := by
    intro n; unfold c1; rw [w1, hK, one_pow]; ring
  have hck : ∀ n, ck v n (1 / mK ^ 3) = ((aget KN n : ℕ) : ℝ) * ((aget KN n : ℕ) : ℝ) := by
    intro n; unfold ck; rw [w1, hK, one_pow]; ring
  have hl : ∀ n : Fin 58, linB v n * (1 / mK ^ 3) = (if n.1 < 18 ∧ nb n then ((aq m n : ℚ) : ℝ) else 0)
      - (if 12 ≤ n.1 ∧ n.1 < 18 ∧ nf n then ((aq m n : ℚ) : ℝ) else 0) := by
    intro n
    unfold linB
    by_cases h : n.1 ≤ 17
    · have h18 : n.1 < 18 := by omega
      rw [dif_pos h]
      have a := w3 ⟨n.1, h18⟩
      have hn : mK ^ 3 ≠ 0 := pow_ne_zero _ mK_pos.ne'
      generalize mK ^ 3 = κ at *
      rw [sub_mul, sub_mul]
      dsimp only at a
      have : (⟨n.1, n.2⟩ : Fin 58) = n := rfl
      rw [a]
      congr 1
      · simp only [h18, true_and]
        rw [mul_assoc, hK, mul_one]
      · by_cases h12 : 12 ≤ n.1
        · have b := w2 n h12
          simp only [h12, h18, true_and, if_true]
          rw [← b, w1]
          linear_combination (aget v.csn n * aget v.tun n) * hK
        · simp [h12]
    · rw [dif_neg h]
      have h18 : ¬ n.1 < 18 := by omega
      simp [h18]
  constructor
  · unfold A1
    push_cast
    rw [Finset.sum_mul, ← Finset.sum_add_distrib]
    refine Finset.sum_congr rfl fun n _ => ?_
    rw [hf, hc1, hl]
    unfold r1 r1e
    by_cases hk : aget KN n = 0 <;> by_cases hn : nf n = true <;> by_cases h : 12 ≤ n.1 <;>
      simp [hk, hn, h] <;> split <;> (try split) <;> push_cast <;> ring
  · unfold A2
    push_cast
    rw [Finset.sum_mul, ← Finset.sum_add_distrib]
    refine Finset.sum_congr rfl fun n _ => ?_
    unfold c2
    rw [hf, hc1, hck]
    unfold r2 r2e
    by_cases hk : aget KN n = 0 <;> by_cases hn : nf n = true <;> by_cases h : 12 ≤ n.1 <;>
      simp [hk, hn, h] <;> ring

theorem num1 : (28/100 < ∑ n, r1 1 n ∧ ∑ n, r1 1 n < 29/100) ∧ (0 < ∑ n, r1e 1 n ∧ ∑ n, r1e 1 n < 1/100) := by
  decide +kernel
theorem num1' : (28/100 < ∑ n, r2 1 n ∧ ∑ n, r2 1 n < 29/100) ∧ (-2/100 < ∑ n, r2e 1 n ∧ ∑ n, r2e 1 n < 0) := by
  decide +kernel
theorem num2 : (52/100 < ∑ n, r1 2 n ∧ ∑ n, r1 2 n < 53/100) ∧ (-1/100 < ∑ n, r1e 2 n ∧ ∑ n, r1e 2 n < 0) := by
  decide +kernel

theorem exp_bounds : 0.36 < Real.exp (-1) ∧ Real.exp (-1) < 0.37 :=
  ⟨lt_trans (by norm_num) Real.exp_neg_one_gt_d9, lt_trans Real.exp_neg_one_lt_d9 (by norm_num)⟩

/-- Methane at `4 E`: `Z` is about 1.287 and the isotherm rises. -/
theorem methane1 (p d : ℝ) :
    0.28 < A1 (view (freshOf (methane 1 p d))) (1 / mK ^ 3) ∧
    A1 (view (freshOf (methane 1 p d))) (1 / mK ^ 3) < 0.3 ∧
    0.27 < A2 (view (freshOf (methane 1 p d))) (1 / mK ^ 3) := by
  obtain ⟨h1, h2⟩ := sums_methane 1 p d
  rw [h1, h2]
  obtain ⟨⟨a1, a2⟩, a3, a4⟩ := num1
  obtain ⟨⟨b1, b2⟩, b3, b4⟩ := num1'
  obtain ⟨e1, e2⟩ := exp_bounds
  generalize (∑ n, r1 1 n : ℚ) = x1 at *
  generalize (∑ n, r1e 1 n : ℚ) = x2 at *
  generalize (∑ n, r2 1 n : ℚ) = x3 at *
  generalize (∑ n, r2e 1 n : ℚ) = x4 at *
  have a1 : (28/100 : ℝ) < (x1 : ℝ) := by
    have := (Rat.cast_lt (K := ℝ)).2 a1; push_cast at this; linarith
  have a2 : (x1 : ℝ) < 29/100 := by
    have := (Rat.cast_lt (K := ℝ)).2 a2; push_cast at this; linarith
  have a3 : (0 : ℝ) < (x2 : ℝ) := by
    have := (Rat.cast_lt (K := ℝ)).2 a3; push_cast at this; linarith
  have a4 : (x2 : ℝ) < 1/100 := by
    have := (Rat.cast_lt (K := ℝ)).2 a4; push_cast at this; linarith
  have b1 : (28/100 : ℝ) < (x3 : ℝ) := by
    have := (Rat.cast_lt (K := ℝ)).2 b1; push_cast at this; linarith
  have b3 : (-2/100 : ℝ) < (x4 : ℝ) := by
    have := (Rat.cast_lt (K := ℝ)).2 b3; push_cast at this; linarith
  refine ⟨?_, ?_, ?_⟩ <;> nlinarith

/-- Methane at `16 E`: `Z` is about 1.523. -/
theorem methane2 (p d : ℝ) : 0.5 < A1 (view (freshOf (methane 2 p d))) (1 / mK ^ 3) := by
  obtain ⟨h1, -⟩ := sums_methane 2 p d
  rw [h1]
  obtain ⟨⟨a1, -⟩, a3, -⟩ := num2
  obtain ⟨e1, e2⟩ := exp_bounds
  generalize (∑ n, r1 2 n : ℚ) = x1 at *
  generalize (∑ n, r1e 2 n : ℚ) = x2 at *
  have a1 : (52/100 : ℝ) < (x1 : ℝ) := by
    have := (Rat.cast_lt (K := ℝ)).2 a1; push_cast at this; linarith
  have a3 : (-1/100 : ℝ) < (x2 : ℝ) := by
    have := (Rat.cast_lt (K := ℝ)).2 a3; push_cast at this; linarith
  nlinarith

/-- The density of the worked state. -/
noncomputable def mD : ℝ := 1 / mK ^ 3
/-- The pressure of the worked state. -/
noncomputable def mP : ℝ := RDETAIL * (4 * mE) * (mD * (1 + A1 (view (freshOf (methane 1 0 0))) mD))

theorem mD_bounds : 1 ≤ mD ∧ mD ≤ 100 := by
  unfold mD mK
  norm_num

theorem mP_ge : 1 ≤ mP := by
  unfold mP
  have h := (methane1 0 0).1
  have h : 0.28 < A1 (view (freshOf (methane 1 0 0))) mD := h
  have h1 := mD_bounds.1
  rw [R_real]
  have h2 : (1 : ℝ) ≤ 8.31451 * (4 * mE) := by unfold mE; norm_num
  have h3 : 1 ≤ mD * (1 + A1 (view (freshOf (methane 1 0 0))) mD) := by nlinarith
  nlinarith

theorem pressure_methane (p d : ℝ) : (pressureP (withD (freshOf (methane 1 p d)) mD)).2 = mP := by
  have ht : (withD (freshOf (methane 1 p d)) mD).t = 4 * mE := by
    show (4 : ℝ) ^ 1 * mE = _
    rw [pow_one]
  rw [pressureP_real _ (by rw [ht]; exact mul_ne_zero (by norm_num) mE_pos.ne'), ht, view_withD]
  show RDETAIL * (4 * mE) * (mD * (1 + A1 (view (freshOf (methane 1 p d))) (1 / mK ^ 3))) = _
  rw [(sums_methane 1 p d).1, ← (sums_methane 1 0 0).1]
  rfl

theorem dp_dd_methane (p d : ℝ) : 1 ≤ (propertiesP (withD (freshOf (methane 1 p d)) mD)).dp_dd := by
  have ht : (withD (freshOf (methane 1 p d)) mD).t = 4 * mE := by
    show (4 : ℝ) ^ 1 * mE = _
    rw [pow_one]
  rw [dp_dd_real, ht, view_withD, R_real]
  show 1 ≤ 8.31451 * (4 * mE) * (1 + 2 * A1 (view (freshOf (methane 1 p d))) (1 / mK ^ 3)
    + A2 (view (freshOf (methane 1 p d))) (1 / mK ^ 3))
  obtain ⟨a, -, b⟩ := methane1 p d
  have h2 : (1 : ℝ) ≤ 8.31451 * (4 * mE) := by unfold mE; norm_num
  nlinarith

end Aga8.Detail
