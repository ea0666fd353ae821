import Verif.Lemmas.DetailErrCondLow
import Verif.Lemmas.GergErrCondLow
import Verif.Spec.NormalGas

/-! # The ideal-gas heat capacity of natural gas -/

set_option linter.unusedSectionVars false

namespace Aga8.Detail.Ng

open FOps Tab Finset F64 HeatCapacity Real

/-- Lower limits of the isochoric heat capacities over `R`. -/
def hl (i : Fin 21) : ℚ := if i = 0 then 3 else if i = 2 then 1969 / 1000 else if i = 14 ∨ i = 19 ∨ i = 20 then 1479 / 1000 else 242 / 100

theorem hl_table : ∀ i : Fin 21, hl i ≤ decQ (aget2 n0iD i 2) - 1 + min (decQ (aget2 n0iD i 4)) 0 / 2 ∧ 0 ≤ decQ (aget2 n0iD i 2) ∧
    2 + max (-decQ (aget2 n0iD i 4)) 0 + max (-decQ (aget2 n0iD i 6)) 0
      ≤ 3.43 * (decQ (aget2 n0iD i 2) - 1 + min (decQ (aget2 n0iD i 4)) 0 / 2) ∧
    decQ (aget2 n0iD i 2) + decQ (aget2 n0iD i 3) + |decQ (aget2 n0iD i 4)| + decQ (aget2 n0iD i 5) + |decQ (aget2 n0iD i 6)| ≤ 128 ∧
    0 ≤ decQ (aget2 TH0I i 3) ∧ 0 ≤ decQ (aget2 TH0I i 4) ∧ 0 ≤ decQ (aget2 TH0I i 5) ∧ 0 ≤ decQ (aget2 TH0I i 6) := by decide +kernel

theorem sinh_le {y : ℝ} (hy : 0 ≤ y) : (y / sinh y) ^ 2 ≤ 1 := by
  rcases hy.eq_or_lt with rfl | h
  · simp
  · exact xsinh_sq h

theorem cosh_le {y : ℝ} (hy : 0 ≤ y) : (y / cosh y) ^ 2 ≤ 1 := by
  rcases hy.eq_or_lt with rfl | h
  · simp
  · exact xcosh_sq h

/-- A component: the value over `R`, and the size of the terms. -/
noncomputable def hc (i : Fin 21) (T : ℝ) : ℝ := aget2 (params (newP : Detail ℝ)).n0i i 2 + H2 (params (newP : Detail ℝ)) i T

theorem hc_range (i : Fin 21) {T : ℝ} (hT : 0 < T) :
    (hl i : ℝ) ≤ hc i T ∧ hc i T ≤ 128 ∧ Eos.idealSize2 (GergEos.ideal.getD i.1 Inhabited.default) T ≤ 4.43 * hc i T := by
  obtain ⟨h4, h6, h7, -⟩ := heat_table i
  obtain ⟨l, c3, c, b, p3, p4, p5, p6⟩ := hl_table i
  have e : hc i T = (decQ (aget2 n0iD i 2) : ℝ) - 1 + H2 (params (newP : Detail ℝ)) i T := by
    show aget2 (newP : Detail ℝ).n0i i 2 + _ = _
    rw [newP_n0i, if_neg (by decide), if_pos rfl, ofDec_decQ, l1]
  obtain ⟨-, -, t3, t4, t5, t6, t7, t8, t9, t10, t11⟩ := ideal_table i
  rw [e, H2_eq i]
  unfold Eos.idealSize2
  rw [t3, t4, t5, t6, t7, t8, t9, t10, t11]
  have l' : (hl i : ℝ) ≤ (decQ (aget2 n0iD i 2) : ℝ) - 1 + min (decQ (aget2 n0iD i 4) : ℝ) 0 / 2 := by
    have := (Rat.cast_le (K := ℝ)).2 l
    push_cast at this
    exact this
  have c' : (2 : ℝ) + max (-(decQ (aget2 n0iD i 4) : ℝ)) 0 + max (-(decQ (aget2 n0iD i 6) : ℝ)) 0
      ≤ 3.43 * ((decQ (aget2 n0iD i 2) : ℝ) - 1 + min (decQ (aget2 n0iD i 4) : ℝ) 0 / 2) := by
    have := (Rat.cast_le (K := ℝ)).2 c
    push_cast at this
    norm_num at this ⊢
    exact this
  have b' : (decQ (aget2 n0iD i 2) : ℝ) + decQ (aget2 n0iD i 3) + |(decQ (aget2 n0iD i 4) : ℝ)| + decQ (aget2 n0iD i 5)
      + |(decQ (aget2 n0iD i 6) : ℝ)| ≤ 128 := by
    have := (Rat.cast_le (K := ℝ)).2 b
    push_cast at this
    exact this
  have r3 : (0 : ℝ) ≤ decQ (aget2 n0iD i 2) := by exact_mod_cast c3
  have r4 : (0 : ℝ) ≤ decQ (aget2 n0iD i 3) := by exact_mod_cast h4
  have r6 : (0 : ℝ) ≤ decQ (aget2 n0iD i 5) := by exact_mod_cast h6
  have q3 : (0 : ℝ) ≤ (decQ (aget2 TH0I i 3) : ℝ) / T := div_nonneg (by exact_mod_cast p3) hT.le
  have q4 : (0 : ℝ) ≤ (decQ (aget2 TH0I i 4) : ℝ) / T := div_nonneg (by exact_mod_cast p4) hT.le
  have q5 : (0 : ℝ) ≤ (decQ (aget2 TH0I i 5) : ℝ) / T := div_nonneg (by exact_mod_cast p5) hT.le
  have q6 : (0 : ℝ) ≤ (decQ (aget2 TH0I i 6) : ℝ) / T := div_nonneg (by exact_mod_cast p6) hT.le
  have k := terms_ge (n4 := (decQ (aget2 n0iD i 3) : ℝ)) (n5 := (decQ (aget2 n0iD i 4) : ℝ))
    (n6 := (decQ (aget2 n0iD i 5) : ℝ)) (n7 := (decQ (aget2 n0iD i 6) : ℝ))
    (t4 := (decQ (aget2 TH0I i 3) : ℝ)) (t5 := (decQ (aget2 TH0I i 4) : ℝ))
    (t6 := (decQ (aget2 TH0I i 5) : ℝ)) (t7 := (decQ (aget2 TH0I i 6) : ℝ)) (T := T)
    r4 r6 (by exact_mod_cast h7) hT
  have a5 := Gerg.abs_half (n := (decQ (aget2 n0iD i 4) : ℝ)) (y := (decQ (aget2 TH0I i 4) : ℝ) / T)
  have a7 := Gerg.abs_half (n := (decQ (aget2 n0iD i 6) : ℝ)) (y := (decQ (aget2 TH0I i 6) : ℝ) / T)
  have g : ∀ {n y : ℝ}, y ^ 2 ≤ 1 → n * y ^ 2 ≤ |n| := fun {n y} hy =>
    (mul_le_mul_of_nonneg_right (le_abs_self n) (sq_nonneg y)).trans (mul_le_of_le_one_right (abs_nonneg n) hy)
  have u3 := g (n := (decQ (aget2 n0iD i 3) : ℝ)) (sinh_le q3)
  have u4 := g (n := (decQ (aget2 n0iD i 4) : ℝ)) (cosh_le q4)
  have u5 := g (n := (decQ (aget2 n0iD i 5) : ℝ)) (sinh_le q5)
  have u6 := g (n := (decQ (aget2 n0iD i 6) : ℝ)) (cosh_le q6)
  rw [abs_of_nonneg r4] at u3
  rw [abs_of_nonneg r6] at u5
  rw [abs_of_nonneg r3, abs_of_nonneg r4, abs_of_nonneg r6]
  generalize (decQ (aget2 n0iD i 3) : ℝ) * _ = A4 at *
  generalize (decQ (aget2 n0iD i 5) : ℝ) * _ = A6 at *
  generalize (decQ (aget2 n0iD i 4) : ℝ) * _ = A5 at *
  generalize (decQ (aget2 n0iD i 6) : ℝ) * _ = A7 at *
  generalize |(decQ (aget2 n0iD i 4) : ℝ)| * _ = B5 at *
  generalize |(decQ (aget2 n0iD i 6) : ℝ)| * _ = B7 at *
  clear t3 t4 t5 t6 t7 t8 t9 t10 t11 l c b
  refine ⟨by linarith, by linarith, ?_⟩
  norm_num at *
  linarith

variable [Libm] {x : Fin 21 → ℝ} (h : Eos.NormalGas x) (hs : 0.99 ≤ ∑ i, x i) {T : ℝ} (hT : 0 < T)
include h hT

theorem iv2_hc : -∑ i, iv2 T (x i) i = ∑ i, x i * hc i T := by
  rw [← sum_neg_distrib]
  refine sum_congr rfl fun i _ => ?_
  unfold iv2 hc
  rw [(nv_eq0 i).2.2, (H_eq i T).2.2]
  ring

include hs

theorem ideal_ng : 2.42 ≤ -∑ i, iv2 T (x i) i ∧ -∑ i, iv2 T (x i) i ≤ 130 ∧
    ∑ i, is2 T (x i) i ≤ 4.43 * -∑ i, iv2 T (x i) i := by
  rw [iv2_hc h hT]
  have n := h.nonneg
  have a : ∑ i, x i * (hl i : ℝ) ≤ ∑ i, x i * hc i T := sum_le_sum fun i _ => mul_le_mul_of_nonneg_left (hc_range i hT).1 (n i)
  have b : ∑ i, x i * hc i T ≤ ∑ i, x i * 128 := sum_le_sum fun i _ => mul_le_mul_of_nonneg_left (hc_range i hT).2.1 (n i)
  have c : ∑ i, is2 T (x i) i ≤ ∑ i, 4.43 * (x i * hc i T) := sum_le_sum fun i _ => by
    rw [(is_eq 0 _ _ _).2.2]
    have := mul_le_mul_of_nonneg_left (hc_range i hT).2.2 (n i)
    linarith
  rw [← mul_sum] at c
  rw [← sum_mul] at b
  have e : ∀ i, x i * (hl i : ℝ) = 2.42 * x i + (if i = 0 then 0.58 * x i else 0) - (if i = 2 then 0.451 * x i else 0) - (if i = 14 then 0.941 * x i else 0)
      - (if i = 19 then 0.941 * x i else 0) - (if i = 20 then 0.941 * x i else 0) := by
    intro i
    unfold hl
    fin_cases i <;> simp <;> ring
  rw [sum_congr rfl fun i _ => e i] at a
  simp only [sum_sub_distrib, sum_add_distrib, sum_ite_eq', mem_univ, if_true, ← mul_sum] at a
  have s := h.sum
  have m := h.methane
  have h2 := h.carbon_dioxide
  have h14 := h.hydrogen
  have h19 := h.helium
  have h20 := h.argon
  norm_num at a s m h2 h14 h19 h20 hs ⊢
  norm_num at c
  exact ⟨by linarith, by linarith, c⟩

end Aga8.Detail.Ng
