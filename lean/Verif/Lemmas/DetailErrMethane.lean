import Verif.Lemmas.DetailMethane
import Verif.Spec.DetailError

/-! # The size of the terms for methane -/

namespace Aga8.Detail

open FOps Tab

/-- A bound on the temperature factor of term `n` between `1.21 E` and `4 E`. -/
def tb (n : Fin 58) : ℚ := if 0 ≤ u2 n then (10 / 11) ^ (u2 n) else 2 ^ (-u2 n)

theorem rpow_half {b : ℝ} (hb : 0 < b) (k : ℤ) : (b ^ 2) ^ ((k : ℝ) / 2) = b ^ k := by
  rw [← Real.rpow_natCast, ← Real.rpow_mul hb.le, ← Real.rpow_intCast]
  congr 1
  push_cast
  ring

theorem theta_le {T : ℝ} (h1 : 1.21 * mE ≤ T) (h2 : T ≤ 4 * mE) (n : Fin 58) :
    0 ≤ mE ^ Eos.c UN n * T ^ (-Eos.c UN n) ∧ mE ^ Eos.c UN n * T ^ (-Eos.c UN n) ≤ (tb n : ℝ) := by
  have hE := mE_pos
  have hT : 0 < T := by linarith
  refine ⟨by positivity, ?_⟩
  have e : mE ^ Eos.c UN n * T ^ (-Eos.c UN n) = (mE / T) ^ Eos.c UN n := by
    rw [Real.div_rpow hE.le hT.le, Real.rpow_neg hT.le, div_eq_mul_inv]
  rw [e, c_UN]
  unfold tb
  by_cases h : 0 ≤ u2 n
  · rw [if_pos h]
    push_cast
    rw [← rpow_half (by norm_num : (0 : ℝ) < 10 / 11)]
    refine Real.rpow_le_rpow (by positivity) ?_ (by have : (0 : ℝ) ≤ u2 n := by exact_mod_cast h
                                                    positivity)
    rw [div_le_iff₀ hT]
    norm_num at h1 ⊢
    linarith
  · rw [if_neg h]
    push_cast
    have e2 : (mE / T) ^ ((u2 n : ℝ) / 2) = (T / mE) ^ (((-u2 n : ℤ) : ℝ) / 2) := by
      rw [show mE / T = (T / mE)⁻¹ by rw [inv_div], Real.inv_rpow (by positivity), ← Real.rpow_neg (by positivity)]
      congr 1
      push_cast; ring
    rw [e2, ← rpow_half (by norm_num : (0 : ℝ) < 2)]
    refine Real.rpow_le_rpow (by positivity) ?_ ?_
    · rw [div_le_iff₀ hE]; linarith
    · have : (0 : ℝ) ≤ ((-u2 n : ℤ) : ℝ) := by exact_mod_cast (by omega : (0 : ℤ) ≤ -u2 n)
      positivity

theorem Gabs_mx : Eos.Gabs (posPart mx) = 0 := by
  unfold Eos.Gabs
  have h := pair_zero (fun i j => (Eos.star GIJ i j + 1) * (Eos.c GI i + Eos.c GI j))
  simp only [mul_assoc] at h ⊢
  rw [h, sum_mx, c_zero0.1, add_zero]

theorem Cabs_mx (n : Fin 58) :
    Eos.Cabs (posPart mx) n = (if nf n then |Eos.c AN n| else 0) * mE ^ Eos.c UN n := by
  obtain ⟨h1, h2, h3, -, -⟩ := flags01 n
  unfold Eos.Cabs nf
  rw [Gabs_mx, Q_mx, F_mx, U_mx]
  unfold aget at *
  rw [zero_pow (by norm_num), flag_z h1, flag_z h2, flag_z h3]
  congr 1
  by_cases a1 : GN[n.1] = 0 <;> by_cases a2 : QN[n.1] = 0 <;> by_cases a3 : FN[n.1] = 0 <;>
    simp [a1, a2, a3]

/-- The size of coefficient `n`. -/
def aabs (n : Fin 58) : ℚ := |((aget AN n).m : ℚ)| / 10 ^ (aget AN n).e

theorem aabs_real (n : Fin 58) : ((aabs n : ℚ) : ℝ) = |Eos.c AN n| := by
  unfold aabs Eos.c aget
  rw [abs_div, abs_of_pos (by positivity : (0 : ℝ) < 10 ^ AN[n.1].e)]
  push_cast
  rfl

def bndB (n : Fin 58) : ℚ := if n.1 < 18 ∧ nb n then aabs n * tb n else 0
def bndC (n : Fin 58) : ℚ := if 12 ≤ n.1 ∧ n.1 < 18 ∧ nf n then aabs n * tb n else 0
def bndD (n : Fin 58) : ℚ := if 12 ≤ n.1 ∧ nf n then aabs n * tb n * (aget BN n + aget KN n) else 0

theorem bnd_sum : ∑ n, bndB n + ∑ n, bndC n + ∑ n, bndD n ≤ 13 := by decide +kernel

theorem Babs_mx {T D : ℝ} (h1 : 1.21 * mE ≤ T) (h2 : T ≤ 4 * mE) (hD1 : mK ^ 3 * D ≤ 1) :
    D * Eos.Babs (posPart mx) T ≤ ((∑ n, bndB n : ℚ) : ℝ) := by
  unfold Eos.Babs
  rw [Finset.mul_sum, Finset.sum_filter]
  push_cast
  refine Finset.sum_le_sum fun n _ => ?_
  have e : ∑ i, ∑ j, posPart mx i * posPart mx j * Eos.Bstar n i j
      * Eos.Eij i j ^ Eos.c UN n * (Eos.c KI i * Eos.c KI j) ^ (3 / 2 : ℝ)
      = Eos.Bstar n 0 0 * Eos.Eij 0 0 ^ Eos.c UN n * (Eos.c KI 0 * Eos.c KI 0) ^ (3 / 2 : ℝ) := by
    have := (sum_mx fun i => ∑ j, posPart mx j * (Eos.Bstar n i j
      * Eos.Eij i j ^ Eos.c UN n * (Eos.c KI i * Eos.c KI j) ^ (3 / 2 : ℝ))).trans
      (sum_mx fun j => Eos.Bstar n 0 j
      * Eos.Eij 0 j ^ Eos.c UN n * (Eos.c KI 0 * Eos.c KI j) ^ (3 / 2 : ℝ))
    rw [← this]
    refine Finset.sum_congr rfl fun i _ => ?_
    rw [Finset.mul_sum]
    exact Finset.sum_congr rfl fun j _ => by ring
  have hE : Eos.Eij 0 0 = mE := by
    unfold Eos.Eij
    rw [star_EIJ0, c_EI0, one_mul, Real.sqrt_mul_self mE_pos.le]
  have hK : (mK * mK) ^ (3 / 2 : ℝ) = mK ^ 3 := by
    rw [← pow_two, ← Real.rpow_natCast, ← Real.rpow_mul mK_pos.le, ← Real.rpow_natCast]
    norm_num
  unfold bndB
  by_cases hn : n.1 < 18
  · rw [if_pos hn, e, Bstar_mx, hE, c_KI0, hK]
    cases hb : nb n
    · simp
    · simp only [hn, and_self, if_true]
      push_cast
      rw [aabs_real]
      obtain ⟨t0, t1⟩ := theta_le h1 h2 n
      calc D * (|Eos.c AN n| * T ^ (-Eos.c UN n) * (1 * mE ^ Eos.c UN n * mK ^ 3))
          = |Eos.c AN n| * (mE ^ Eos.c UN n * T ^ (-Eos.c UN n)) * (mK ^ 3 * D) := by ring
        _ ≤ |Eos.c AN n| * (mE ^ Eos.c UN n * T ^ (-Eos.c UN n)) * 1 := mul_le_mul_of_nonneg_left hD1 (by positivity)
        _ ≤ |Eos.c AN n| * (tb n : ℝ) := by
          rw [mul_one]; exact mul_le_mul_of_nonneg_left t1 (abs_nonneg _)
  · rw [if_neg hn, if_neg (fun h => hn h.1)]
    simp

/-- Between 1.21 and 4 times its energy parameter (183 K to 605 K) and at reduced densities up to 1, the terms of methane add
up to at most 14. -/
theorem Zabs_mx {T D : ℝ} (h1 : 1.21 * mE ≤ T) (h2 : T ≤ 4 * mE) (hD : 0 ≤ D) (hD1 : mK ^ 3 * D ≤ 1) :
    Eos.Zabs (posPart mx) D T ≤ 14 := by
  have hB := Babs_mx h1 h2 hD1
  have hs : ((∑ n, bndB n : ℚ) : ℝ) + ((∑ n, bndC n : ℚ) : ℝ) + ((∑ n, bndD n : ℚ) : ℝ) ≤ 13 := by
    exact_mod_cast bnd_sum
  unfold Eos.Zabs
  dsimp only
  rw [Kcubed_mx]
  have hr : 0 ≤ mK ^ 3 * D := mul_nonneg (pow_nonneg mK_pos.le 3) hD
  generalize mK ^ 3 * D = r at *
  have ct : ∀ n : Fin 58, nf n = true → Eos.Cabs (posPart mx) n * T ^ (-Eos.c UN n) ≤ ((aabs n * tb n : ℚ) : ℝ) := by
    intro n hn
    obtain ⟨t0, t1⟩ := theta_le h1 h2 n
    rw [Cabs_mx, if_pos hn, mul_assoc]
    push_cast
    rw [aabs_real]
    exact mul_le_mul_of_nonneg_left t1 (abs_nonneg _)
  have cz : ∀ n : Fin 58, nf n = false → Eos.Cabs (posPart mx) n = 0 := by
    intro n hn
    rw [Cabs_mx, hn]; simp
  have c0 : ∀ n : Fin 58, 0 ≤ Eos.Cabs (posPart mx) n * T ^ (-Eos.c UN n) := by
    intro n
    have := mE_pos
    have hT : 0 < T := by linarith
    rw [Cabs_mx]
    split <;> positivity
  have hC : r * ∑ n : Fin 58 with 12 ≤ n.1 ∧ n.1 < 18, Eos.Cabs (posPart mx) n * T ^ (-Eos.c UN n)
      ≤ ((∑ n, bndC n : ℚ) : ℝ) := by
    refine le_trans (mul_le_of_le_one_left (Finset.sum_nonneg fun n _ => c0 n) hD1) ?_
    rw [Finset.sum_filter]
    push_cast
    refine Finset.sum_le_sum fun n _ => ?_
    unfold bndC
    by_cases hn : 12 ≤ n.1 ∧ n.1 < 18
    · rw [if_pos hn]
      cases hb : nf n
      · rw [cz n hb]; simp
      · rw [if_pos ⟨hn.1, hn.2, rfl⟩]; exact ct n hb
    · rw [if_neg hn, if_neg (fun h => hn ⟨h.1, h.2.1⟩)]
      simp
  have hDD : ∑ n : Fin 58 with 12 ≤ n.1, Eos.Cabs (posPart mx) n * T ^ (-Eos.c UN n)
      * ((BN[n.1] : ℝ) + Eos.cn n * KN[n.1] * r ^ KN[n.1]) * r ^ BN[n.1] * Real.exp (-Eos.cn n * r ^ KN[n.1])
      ≤ ((∑ n, bndD n : ℚ) : ℝ) := by
    rw [Finset.sum_filter]
    push_cast
    refine Finset.sum_le_sum fun n _ => ?_
    unfold bndD
    by_cases hn : 12 ≤ n.1
    · rw [if_pos hn]
      cases hb : nf n
      · rw [cz n hb]; simp
      · rw [if_pos ⟨hn, rfl⟩]
        have p1 : r ^ KN[n.1] ≤ 1 := pow_le_one₀ hr hD1
        have p2 : r ^ BN[n.1] ≤ 1 := pow_le_one₀ hr hD1
        have p3 : 0 ≤ r ^ KN[n.1] := pow_nonneg hr _
        have p4 : 0 ≤ r ^ BN[n.1] := pow_nonneg hr _
        have cn0 : 0 ≤ Eos.cn n ∧ Eos.cn n ≤ 1 := by unfold Eos.cn; split <;> norm_num
        have p5 : Real.exp (-Eos.cn n * r ^ KN[n.1]) ≤ 1 := by
          rw [Real.exp_le_one_iff]
          have := mul_nonneg cn0.1 p3
          linarith
        have p6 := Real.exp_pos (-Eos.cn n * r ^ KN[n.1])
        have p7 : (BN[n.1] : ℝ) + Eos.cn n * KN[n.1] * r ^ KN[n.1] ≤ BN[n.1] + KN[n.1] := by
          have h3 : Eos.cn n * KN[n.1] ≤ 1 * KN[n.1] := mul_le_mul_of_nonneg_right cn0.2 (Nat.cast_nonneg _)
          have h4 : Eos.cn n * KN[n.1] * r ^ KN[n.1] ≤ Eos.cn n * KN[n.1] * 1 :=
            mul_le_mul_of_nonneg_left p1 (mul_nonneg cn0.1 (Nat.cast_nonneg _))
          linarith
        have p8 : 0 ≤ (BN[n.1] : ℝ) + Eos.cn n * KN[n.1] * r ^ KN[n.1] :=
          add_nonneg (Nat.cast_nonneg _) (mul_nonneg (mul_nonneg cn0.1 (Nat.cast_nonneg _)) p3)
        have q0 := c0 n
        have q1 := ct n hb
        push_cast at q1 ⊢
        have q2 : (0 : ℝ) ≤ aabs n * tb n := q0.trans q1
        refine le_trans (mul_le_of_le_one_right (mul_nonneg (mul_nonneg q0 p8) p4) p5) ?_
        refine le_trans (mul_le_of_le_one_right (mul_nonneg q0 p8) p2) ?_
        exact mul_le_mul q1 p7 p8 q2
    · rw [if_neg hn, if_neg (fun h => hn h.1)]
      simp
  linarith

end Aga8.Detail
