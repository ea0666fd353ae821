import Verif.Lemmas.DetailErrLow

/-! # Methane: the DETAIL equation as a sum of 18 products

For pure methane the terms of the DETAIL equation that have the same exponents of the density are added up. What remains is a sum
of 18 products of a factor that depends on the temperature and a factor that depends on the density. Bounds for the two families
of factors on intervals then give bounds for the equation on rectangles. -/

set_option linter.unusedSectionVars false

namespace Aga8.Detail

open FOps Tab

/-! ## The sum of products -/

/-- The pairs of density exponents that occur. -/
def bkTab : List (ℕ × ℕ) :=
  [(1, 2), (1, 4), (2, 0), (2, 2), (2, 4), (3, 2), (3, 4), (4, 0), (4, 2), (4, 4), (5, 0), (5, 2), (5, 4), (6, 0), (7, 2), (8, 2),
    (9, 2)]
def bk (j : Fin 17) : ℕ × ℕ := bkTab.getD j.1 (0, 0)

/-- Term `n` has the exponents `j`. -/
def hit (j : Fin 17) (n : Fin 58) : Bool :=
  decide (12 ≤ n.1) && nf n && (aget BN n == (bk j).1) && (aget KN n == (bk j).2)

theorem hit_ex : ∀ n : Fin 58, 12 ≤ n.1 → nf n = true → ∃ j, hit j n = true ∧ ∀ i, hit i n = true → i = j := by
  decide +kernel

theorem hit_bk {j : Fin 17} {n : Fin 58} (h : hit j n = true) :
    12 ≤ n.1 ∧ nf n = true ∧ aget BN n = (bk j).1 ∧ aget KN n = (bk j).2 := by
  unfold hit at h
  simp only [Bool.and_eq_true, decide_eq_true_eq, beq_iff_eq] at h
  exact ⟨h.1.1.1, h.1.1.2, h.1.2, h.2⟩

/-- How often the coefficient of term `n` counts in the linear factor, and in the factor `j`; `σ` is -1 or 1. -/
def mult0 (σ : ℤ) (n : Fin 58) : ℤ :=
  (if n.1 < 18 ∧ nb n then 1 else 0) + (if 12 ≤ n.1 ∧ n.1 < 18 ∧ nf n then σ else 0)
def mult (σ : ℤ) (j : Fin 18) (n : Fin 58) : ℤ := Fin.cases (mult0 σ n) (fun j => if hit j n then 1 else 0) j

/-- The temperature factor of term `n`. -/
noncomputable def theta (T : ℝ) (n : Fin 58) : ℝ := mE ^ Eos.c UN n * T ^ (-Eos.c UN n)

/-- The factor that depends on the temperature, from the coefficients `a`. -/
noncomputable def coef (a : Fin 58 → ℝ) (σ : ℤ) (T : ℝ) (j : Fin 18) : ℝ := ∑ n, (mult σ j n : ℝ) * (a n * theta T n)

/-- The factor that depends on the density: the linear one, and the ones with exponents `j`. -/
noncomputable def dens (l : ℝ) (h : ℕ → ℕ → ℝ → ℝ) (r : ℝ) (j : Fin 18) : ℝ :=
  Fin.cases (l * r) (fun j => r ^ (bk j).1 * expK (bk j).2 r * h (bk j).1 (bk j).2 (r ^ (bk j).2)) j

theorem coef_dens (a : Fin 58 → ℝ) (σ : ℤ) (T l : ℝ) (h : ℕ → ℕ → ℝ → ℝ) (r : ℝ) :
    ∑ j, coef a σ T j * dens l h r j = ∑ n, a n * theta T n * (mult0 σ n * (l * r)
      + if 12 ≤ n.1 ∧ nf n then r ^ aget BN n * expK (aget KN n) r * h (aget BN n) (aget KN n) (r ^ aget KN n) else 0) := by
  unfold coef
  simp only [Finset.sum_mul]
  rw [Finset.sum_comm]
  refine Finset.sum_congr rfl fun n _ => ?_
  have e : ∀ j, (mult σ j n : ℝ) * (a n * theta T n) * dens l h r j = a n * theta T n * ((mult σ j n : ℝ) * dens l h r j) :=
    fun j => by ring
  simp only [e]
  rw [← Finset.mul_sum]
  congr 1
  rw [Fin.sum_univ_succ]
  simp only [mult, dens, Fin.cases_zero, Fin.cases_succ]
  congr 1
  by_cases hn : 12 ≤ n.1 ∧ nf n = true
  · obtain ⟨j, hj, hu⟩ := hit_ex n hn.1 hn.2
    obtain ⟨-, -, e1, e2⟩ := hit_bk hj
    rw [if_pos hn, Finset.sum_eq_single j]
    · rw [if_pos hj, e1, e2]; simp
    · intro i _ hi
      rw [if_neg (fun h => hi (hu i h))]; simp
    · intro h; exact absurd (Finset.mem_univ j) h
  · rw [if_neg hn]
    refine Finset.sum_eq_zero fun j _ => ?_
    rw [if_neg (fun h => hn ⟨(hit_bk h).1, (hit_bk h).2.1⟩)]
    simp

/-- The density factors of the compression factor, of the pressure derivative, and the same with all terms positive. -/
def hZ (b k : ℕ) (y : ℝ) : ℝ := b - k * y
def hP (b k : ℕ) (y : ℝ) : ℝ := (b - k * y) * (b - k * y + 1) - k * k * y
def hZa (b k : ℕ) (y : ℝ) : ℝ := b + k * y
def hPa (b k : ℕ) (y : ℝ) : ℝ := (b + k * y) * (b + k * y + 3) + k * k * y

section
variable [Libm] {T D : ℝ} (h1 : 1.21 * mE ≤ T) (h2 : T ≤ 4 * mE)
include h1 h2

theorem zLin_mx (a C : Fin 58 → ℝ) (σ : ℤ) (hC : ∀ n, C n = (if nf n then a n else 0) * mE ^ Eos.c UN n) (n : Fin 58) :
    zLin (fun n => a ⟨n.1, by omega⟩ * ∑ i, ∑ j, posPart mx i * posPart mx j * bTerm n i j) C σ D (mK ^ 3 * D) T n
      = a n * theta T n * (mult0 σ n * (mK ^ 3 * D)) := by
  unfold zLin mult0 theta
  by_cases hn : n.1 ≤ 17
  · rw [dif_pos hn]
    dsimp only
    rw [bsum_mx h1 h2, hC]
    have e1 : n.1 < 18 := by omega
    simp only [e1, true_and]
    cases nb n <;> cases nf n <;> by_cases h12 : 12 ≤ n.1 <;> simp [h12] <;> ring
  · rw [dif_neg hn]
    have e1 : ¬ n.1 < 18 := by omega
    simp [e1]

theorem zExp_mx (a C : Fin 58 → ℝ) (σ : ℤ) (hC : ∀ n, C n = (if nf n then a n else 0) * mE ^ Eos.c UN n) (n : Fin 58) (r : ℝ) :
    zExp C σ r T n = a n * theta T n * if 12 ≤ n.1 ∧ nf n then r ^ aget BN n * expK (aget KN n) r
      * (aget BN n + σ * (aget KN n * r ^ aget KN n)) else 0 := by
  unfold zExp theta
  rw [hC]
  by_cases h12 : 12 ≤ n.1
  · cases nf n <;> simp [h12]; ring
  · simp [h12]

theorem zExp2_mx (a C : Fin 58 → ℝ) (σ : ℤ) (hC : ∀ n, C n = (if nf n then a n else 0) * mE ^ Eos.c UN n) (n : Fin 58) (r : ℝ) :
    zExp2 C σ r T n = a n * theta T n * if 12 ≤ n.1 ∧ nf n then r ^ aget BN n * expK (aget KN n) r
      * ((aget BN n + σ * (aget KN n * r ^ aget KN n)) * (aget BN n + σ * (aget KN n * r ^ aget KN n) + σ)
        + σ * (aget KN n * aget KN n * r ^ aget KN n)) else 0 := by
  unfold zExp2 theta
  rw [hC]
  by_cases h12 : 12 ≤ n.1
  · cases nf n <;> simp [h12]; ring
  · simp [h12]

theorem Z_sum : Eos.Z (posPart mx) D T = 1 + ∑ j, coef (fun n => Eos.c AN n) (-1) T j * dens 1 hZ (mK ^ 3 * D) j := by
  rw [← zsum_Z, Kcubed_mx, coef_dens]
  congr 1
  refine Finset.sum_congr rfl fun n _ => ?_
  have e1 := zExp_mx h1 h2 (fun n => Eos.c AN n) _ (-1) Cstar_mx n (mK ^ 3 * D)
  have e2 := zLin_mx h1 h2 (D := D) (fun n => Eos.c AN n) _ (-1) Cstar_mx n
  push_cast at e1 e2
  rw [e1, e2]
  unfold hZ
  split <;> ring

theorem Zabs_sum : Eos.Zabs (posPart mx) D T = 1 + ∑ j, coef (fun n => |Eos.c AN n|) 1 T j * dens 1 hZa (mK ^ 3 * D) j := by
  rw [← zsum_Zabs, Kcubed_mx, coef_dens]
  congr 1
  refine Finset.sum_congr rfl fun n _ => ?_
  have e1 := zExp_mx h1 h2 (fun n => |Eos.c AN n|) _ 1 Cabs_mx n (mK ^ 3 * D)
  have e2 := zLin_mx h1 h2 (D := D) (fun n => |Eos.c AN n|) _ 1 Cabs_mx n
  push_cast at e1 e2
  rw [e1, e2]
  unfold hZa
  split <;> ring

theorem dPdD_sum : Eos.dPdD (posPart mx) D T = 1 + ∑ j, coef (fun n => Eos.c AN n) (-1) T j * dens 2 hP (mK ^ 3 * D) j := by
  rw [← dsum_dPdD, Z_sum h1 h2, Kcubed_mx, coef_dens, coef_dens, add_sub_cancel_left, Finset.mul_sum, add_assoc,
    ← Finset.sum_add_distrib]
  congr 1
  refine Finset.sum_congr rfl fun n _ => ?_
  have e1 := zExp2_mx h1 h2 (fun n => Eos.c AN n) _ (-1) Cstar_mx n (mK ^ 3 * D)
  push_cast at e1
  rw [e1]
  unfold hZ hP
  split <;> ring

theorem dPdDabs_sum :
    Eos.dPdDabs (posPart mx) D T = 1 + ∑ j, coef (fun n => |Eos.c AN n|) 1 T j * dens 2 hPa (mK ^ 3 * D) j := by
  rw [← dsum_dPdDabs, Zabs_sum h1 h2, Kcubed_mx, coef_dens, coef_dens, add_sub_cancel_left, Finset.mul_sum, add_assoc,
    ← Finset.sum_add_distrib]
  congr 1
  refine Finset.sum_congr rfl fun n _ => ?_
  have e1 := zExp2_mx h1 h2 (fun n => |Eos.c AN n|) _ 1 Cabs_mx n (mK ^ 3 * D)
  push_cast at e1
  rw [e1]
  unfold hZa hPa
  split <;> ring

end

end Aga8.Detail
