import Verif.Lemmas.NgCurve
import Verif.Lemmas.NgTab2
import Verif.Lemmas.NgIdeal

/-! # The temperature derivatives of the DETAIL equation for natural gas -/

set_option linter.unusedSectionVars false

namespace Aga8.Detail.Ng

open FOps Tab Finset

/-! ## The linear part with weights -/

/-- The sizes of the common and of the other terms, with weights. -/
def abW (w : Fin 58 → ℚ) (s : ℕ) : ℚ := (unL.map fun n => w n * |aq n| * ((s : ℚ) / 100) ^ u2 n).sum
def exW (w : Fin 58 → ℚ) (i j : Fin 21) (l s : ℕ) : ℚ :=
  (flL.map fun n => w n * |aq n| * bq n i j * ((if 0 ≤ u2 n then (s : ℚ) else l) / 100) ^ u2 n).sum

def tA (l : List ℕ) (g : ℕ) : ℚ := (l.getD g 0 : ℚ) / 10000
def tE (l : List (List ℕ)) (i j : Fin 21) : ℚ := ((l.getD i.1 []).getD j.1 0 : ℚ) / 100000
def wW (la : List ℕ) (le : List (List ℕ)) (i j : Fin 21) : ℚ := k3q i * k3q j * (tA la (hiG i j) + tE le i j)

theorem tE_nonneg (l : List (List ℕ)) (i j : Fin 21) : 0 ≤ tE l i j := by unfold tE; positivity
theorem tA_nonneg (l : List ℕ) (g : ℕ) : 0 ≤ tA l g := by unfold tA; positivity

theorem exW_comm (w : Fin 58 → ℚ) (i j : Fin 21) (l s : ℕ) : exW w i j l s = exW w j i l s := by
  unfold exW
  simp only [bq_comm _ i j]

section
variable {w : Fin 58 → ℚ} {la : List ℕ} {le : List (List ℕ)} (w0 : ∀ n, 0 ≤ w n)
  (cA : ∀ g < 151, abW w g ≤ tA la g) (cE : ∀ i j : Fin 21, i ≤ j → exW w i j (loG i j) (hiG i j) ≤ tE le i j)
  (cS : ∀ i j : Fin 21, tE le i j = tE le j i)
include w0 cA cE cS

theorem exW_le (i j : Fin 21) : exW w i j (loG i j) (hiG i j) ≤ tE le i j := by
  rcases le_total i j with h | h
  · exact cE i j h
  · obtain ⟨a, b, -⟩ := tab_symm i j
    rw [a, b, cS, exW_comm]
    exact cE j i h

theorem pair_w {T : ℝ} (h1 : 263 ≤ T) (h2 : T ≤ 400) (i j : Fin 21) :
    pairSum (fun n => (w n : ℝ) * |Eos.c AN n|) i j (sg i j T) * (Eos.c KI i * Eos.c KI j) ^ (3 / 2 : ℝ) ≤ (wW la le i j : ℝ) := by
  obtain ⟨-, -, c1, c2, c3⟩ := pair_chk i j
  obtain ⟨r1, r2⟩ := sg_range h1 h2 i j
  obtain ⟨k0, k1⟩ := kk_le i j
  have ex : ((exW w i j (loG i j) (hiG i j) : ℚ) : ℝ) ≤ tE le i j := by exact_mod_cast exW_le w0 cA cE cS i j
  have s0 := sg_pos (show 0 < T by linarith) i j
  have l0 : (0 : ℝ) < (loG i j : ℝ) / 100 := by positivity
  have y1 : ((abW w (hiG i j) : ℚ) : ℝ) ≤ tA la (hiG i j) := by exact_mod_cast cA _ (by omega)
  have w0' : ∀ n, (0 : ℝ) ≤ w n := fun n => by exact_mod_cast w0 n
  have b : ∑ n ∈ unL.toFinset, (w n : ℝ) * |(aq n : ℝ)| * sg i j T ^ u2 n ≤ (abW w (hiG i j) : ℝ) := by
    unfold abW
    rw [← List.sum_toFinset _ unL_nodup]
    push_cast
    exact sum_le_sum fun n hn => mul_le_mul_of_nonneg_left (zpow_up s0.le r2 (mem_un hn)) (mul_nonneg (w0' n) (abs_nonneg _))
  have x : ∑ n ∈ flL.toFinset, (w n : ℝ) * |(aq n : ℝ)| * (bq n i j : ℝ) * sg i j T ^ u2 n ≤ (exW w i j (loG i j) (hiG i j) : ℝ) := by
    unfold exW
    rw [← List.sum_toFinset _ flL_nodup]
    push_cast
    refine sum_le_sum fun n hn => ?_
    have hb : (0 : ℝ) ≤ bq n i j := by exact_mod_cast bq_nonneg n i j
    refine mul_le_mul_of_nonneg_left ?_ (mul_nonneg (mul_nonneg (w0' n) (abs_nonneg _)) hb)
    split
    · rename_i k
      exact zpow_up (l0.le.trans r1) r2 k
    · rename_i k
      exact zpow_down l0 r1 k
  have e : pairSum (fun n => (w n : ℝ) * |Eos.c AN n|) i j (sg i j T)
      = ∑ n ∈ unL.toFinset, (w n : ℝ) * |(aq n : ℝ)| * sg i j T ^ u2 n
        + ∑ n ∈ flL.toFinset, (w n : ℝ) * |(aq n : ℝ)| * (bq n i j : ℝ) * sg i j T ^ u2 n := by
    unfold pairSum
    rw [split_sum]
    congr 1
    · refine sum_congr rfl fun n hn => ?_
      dsimp only
      rw [bq_un (List.mem_toFinset.1 hn) i j, c_cq]
      unfold aq
      simp
    · exact sum_congr rfl fun n _ => by dsimp only; rw [c_cq]; rfl
  have p0 := tA_nonneg la (hiG i j)
  have p1 := tE_nonneg le i j
  have p0' : (0 : ℝ) ≤ tA la (hiG i j) := by exact_mod_cast p0
  have p1' : (0 : ℝ) ≤ tE le i j := by exact_mod_cast p1
  rw [e, wW]
  push_cast
  rw [mul_comm ((k3q i : ℝ) * k3q j)]
  exact mul_le_mul (by linarith) k1 k0 (by linarith)

/-- The linear part. -/
noncomputable def bp (x : Fin 21 → ℝ) (T : ℝ) (n : Fin 58) : ℝ := |Eos.c AN n| * T ^ (-Eos.c UN n)
      * ∑ i, ∑ j, x i * x j * Eos.Bstar n i j * Eos.Eij i j ^ Eos.c UN n * (Eos.c KI i * Eos.c KI j) ^ (3 / 2 : ℝ)

theorem B_weight {x : Fin 21 → ℝ} (h : Eos.NormalGas x) {T : ℝ} (h1 : 263 ≤ T) (h2 : T ≤ 400) {γ : List ℕ} {b : ℚ}
    (cQ : Eos.quad (wW la le) (gq γ) ≤ b) : ∑ n : Fin 58 with n.1 < 18, (w n : ℝ) * bp x T n ≤ (b : ℝ) := by
  have a := h.quad (pair_w w0 cA cE cS h1 h2) (gq γ) (gq_nonneg _)
  rw [← form _ x (by linarith)] at a
  have a' : (Eos.quad (wW la le) (gq γ) : ℝ) ≤ b := by exact_mod_cast cQ
  refine le_trans (le_of_eq ?_) (a.trans a')
  refine sum_congr rfl fun n _ => ?_
  unfold bp
  ring

end

/-! ## All the terms with weights -/

def ma (R : ℚ) (n : Fin 58) : ℚ := R ^ aget BN n + if n.1 < 18 then R else 0

section
variable [Libm]

theorem bsum_bp (x : Fin 21 → ℝ) (D T : ℝ) (C : Fin 58 → ℝ) (r : ℝ) (n : Fin 58) :
    zLin (ba x) C 1 D r T n = D * (if n.1 < 18 then bp x T n else 0) + zLin (fun _ => 0) C 1 D r T n := by
  unfold zLin
  by_cases a : n.1 ≤ 17
  · have a' : n.1 < 18 := by omega
    rw [dif_pos a, dif_pos a, if_pos a']
    have e : ba x ⟨n.1, by omega⟩ = |Eos.c AN n| *
        ∑ i, ∑ j, x i * x j * Eos.Bstar n i j * Eos.Eij i j ^ Eos.c UN n * (Eos.c KI i * Eos.c KI j) ^ (3 / 2 : ℝ) := by
      unfold ba
      congr 1
      refine sum_congr rfl fun i _ => sum_congr rfl fun j _ => ?_
      unfold bTerm; ring
    rw [e]
    unfold bp
    ring
  · have a' : ¬ n.1 < 18 := by omega
    rw [dif_neg a, dif_neg a, if_neg a']
    ring

variable {x : Fin 21 → ℝ} (h : Eos.NormalGas x) {D T : ℝ} (h1 : 263 ≤ T) (h2 : T ≤ 400) {R : ℚ} (hD : 0 ≤ D)
    (hR : Eos.Kcubed x * D ≤ (R : ℝ))
include h h1 h2 hD hR

theorem rest_le (n : Fin 58) :
    zExp (Eos.Cabs x) 1 (Eos.Kcubed x * D) T n + zLin (fun _ => 0) (Eos.Cabs x) 1 D (Eos.Kcubed x * D) T n
      ≤ ((if 12 ≤ n.1 then cB n * mza R n else 0 : ℚ) : ℝ) ∧
    zExp0 (Eos.Cabs x) (Eos.Kcubed x * D) T n + zLin (fun _ => 0) (Eos.Cabs x) 1 D (Eos.Kcubed x * D) T n
      ≤ ((if 12 ≤ n.1 then cB n * ma R n else 0 : ℚ) : ℝ) := by
  have r0 : 0 ≤ Eos.Kcubed x * D := mul_nonneg (Kcubed_le h).1 hD
  have cc := Cabs_ng h h1 h2
  rw [zLin_eq]
  by_cases a : 12 ≤ n.1
  · rw [if_pos a, if_pos a]
    have k := (zExp_abs_le r0 hR a (cc n).1 (cc n).2).1
    have c0 : (0 : ℝ) ≤ cB n := (cc n).1.trans (cc n).2
    have k0 : zExp0 (Eos.Cabs x) (Eos.Kcubed x * D) T n ≤ cB n * (R : ℝ) ^ aget BN n := by
      unfold zExp0
      rw [if_pos a]
      have e0 := (expK_pos (aget KN n) (Eos.Kcubed x * D)).le
      have e1 := expK_le (aget KN n) r0
      have p := pow_le_pow_left₀ r0 hR (aget BN n)
      have p0 := pow_nonneg r0 (aget BN n)
      calc _ = Eos.Cabs x n * T ^ (-Eos.c UN n) * ((Eos.Kcubed x * D) ^ aget BN n * expK (aget KN n) (Eos.Kcubed x * D)) := by ring
        _ ≤ cB n * ((R : ℝ) ^ aget BN n * 1) :=
          mul_le_mul (cc n).2 (mul_le_mul p e1 e0 (p0.trans p)) (mul_nonneg p0 e0) c0
        _ = _ := by rw [mul_one]
    have l : (if 12 ≤ n.1 ∧ n.1 < 18 then 1 * (Eos.Cabs x n * T ^ (-Eos.c UN n) * (Eos.Kcubed x * D)) else 0)
        ≤ (cB n : ℝ) * ((if n.1 < 18 then R else 0 : ℚ) : ℝ) := by
      by_cases b : n.1 < 18
      · rw [if_pos ⟨a, b⟩, if_pos b, one_mul]
        exact mul_le_mul (cc n).2 hR r0 c0
      · rw [if_neg fun h => b h.2, if_neg b]
        simp
    unfold mza ma
    rw [Rat.cast_mul, Rat.cast_mul, Rat.cast_add, Rat.cast_add, mul_add, mul_add]
    refine ⟨add_le_add ?_ l, add_le_add ?_ l⟩
    · push_cast; exact k
    · push_cast; exact k0
  · rw [if_neg a, if_neg a, if_neg fun h => a h.1]
    unfold zExp zExp0
    rw [if_neg a, if_neg a]
    simp

theorem weight_sum {w : Fin 58 → ℚ} (w0 : ∀ n, 0 ≤ w n) {b : ℝ} (hb : ∑ n : Fin 58 with n.1 < 18, (w n : ℝ) * bp x T n ≤ b) :
    ∑ n, (w n : ℝ) * taZ x D T n ≤ D * b + ((∑ n : Fin 58 with 12 ≤ n.1, w n * (cB n * mza R n) : ℚ) : ℝ) ∧
    ∑ n, (w n : ℝ) * ta x D T n ≤ D * b + ((∑ n : Fin 58 with 12 ≤ n.1, w n * (cB n * ma R n) : ℚ) : ℝ) := by
  have w0' : ∀ n, (0 : ℝ) ≤ w n := fun n => by exact_mod_cast w0 n
  have hb' := mul_le_mul_of_nonneg_left hb hD
  rw [sum_filter, sum_filter]
  rw [sum_filter, mul_sum] at hb'
  constructor
  · refine le_trans ?_ (add_le_add hb' le_rfl)
    rw [Rat.cast_sum, ← sum_add_distrib]
    refine sum_le_sum fun n _ => ?_
    unfold taZ
    rw [bsum_bp]
    have := mul_le_mul_of_nonneg_left (rest_le h h1 h2 hD hR n).1 (w0' n)
    have e : ((if 12 ≤ n.1 then w n * (cB n * mza R n) else 0 : ℚ) : ℝ) = (w n : ℝ) * ((if 12 ≤ n.1 then cB n * mza R n else 0 : ℚ) : ℝ) := by
      split <;> simp
    rw [e]
    have e2 : D * (if n.1 < 18 then (w n : ℝ) * bp x T n else 0) = (w n : ℝ) * (D * if n.1 < 18 then bp x T n else 0) := by
      split <;> ring
    rw [e2]
    linarith
  · refine le_trans ?_ (add_le_add hb' le_rfl)
    rw [Rat.cast_sum, ← sum_add_distrib]
    refine sum_le_sum fun n _ => ?_
    unfold ta
    rw [bsum_bp]
    have := mul_le_mul_of_nonneg_left (rest_le h h1 h2 hD hR n).2 (w0' n)
    have e : ((if 12 ≤ n.1 then w n * (cB n * ma R n) else 0 : ℚ) : ℝ) = (w n : ℝ) * ((if 12 ≤ n.1 then cB n * ma R n else 0 : ℚ) : ℝ) := by
      split <;> simp
    rw [e]
    have e2 : D * (if n.1 < 18 then (w n : ℝ) * bp x T n else 0) = (w n : ℝ) * (D * if n.1 < 18 then bp x T n else 0) := by
      split <;> ring
    rw [e2]
    linarith

omit hR in
theorem ta_bounds (n : Fin 58) : |tv x D T n| ≤ ta x D T n ∧ |tvZ x D T n| ≤ taZ x D T n ∧ ta x D T n ≤ taZ x D T n := by
  have T0 : 0 < T := by linarith
  have r0 : 0 ≤ Eos.Kcubed x * D := mul_nonneg (Kcubed_le h).1 hD
  have hC := Cstar_le h
  have hS : ∀ n : Fin 18, 0 ≤ ∑ i, ∑ j, x i * x j * bTerm n i j := fun n => by
    refine sum_nonneg fun i _ => sum_nonneg fun j _ => mul_nonneg (mul_nonneg (h.nonneg i) (h.nonneg j)) ?_
    unfold bTerm
    have b : 0 ≤ Eos.Bstar ⟨n.1, by omega⟩ i j := by rw [Bstar_bq]; exact_mod_cast bq_nonneg _ i j
    have e := (Eij_pos i j).le
    have k := (kk_le i j).1
    have e' := Real.rpow_nonneg e (Eos.c UN ⟨n.1, by omega⟩)
    positivity
  have zl := abs_zLin hC hS (fun n => Eos.c AN ⟨n.1, by omega⟩) hD r0 T0 n
  unfold tv ta tvZ taZ
  exact ⟨(abs_add_le _ _).trans (add_le_add (abs_zExp0 hC r0 T0 n) zl),
    (abs_add_le _ _).trans (add_le_add (abs_zExp hC r0 T0 n) zl),
    add_le_add (zExp0_le (fun n => (abs_nonneg _).trans (hC n)) r0 T0 n) le_rfl⟩

end

/-! ## The two weights -/

def v1 (n : Fin 58) : ℚ := |(u2 n : ℚ) / 2 - 1|
def v2 (n : Fin 58) : ℚ := |(u2 n : ℚ) / 2 - 1| * |(u2 n : ℚ) / 2|

theorem v1_nonneg (n : Fin 58) : 0 ≤ v1 n := abs_nonneg _
theorem v2_nonneg (n : Fin 58) : 0 ≤ v2 n := mul_nonneg (abs_nonneg _) (abs_nonneg _)

theorem v1_ab : ∀ g < 151, abW v1 g ≤ tA aWt1 g := by decide +kernel
theorem v2_ab : ∀ g < 151, abW v2 g ≤ tA aWt2 g := by decide +kernel
theorem v1_ex : ∀ i j : Fin 21, i ≤ j → exW v1 i j (loG i j) (hiG i j) ≤ tE eWt1 i j := by decide +kernel
theorem v2_ex : ∀ i j : Fin 21, i ≤ j → exW v2 i j (loG i j) (hiG i j) ≤ tE eWt2 i j := by decide +kernel
theorem v_symm : ∀ i j : Fin 21, tE eWt1 i j = tE eWt1 j i ∧ tE eWt2 i j = tE eWt2 j i := by decide +kernel
theorem v1_quad : Eos.quad (wW aWt1 eWt1) (gq gamW1) ≤ 211 / 1000 := by decide +kernel
theorem v2_quad : Eos.quad (wW aWt2 eWt2) (gq gamW2) ≤ 697 / 1000 := by decide +kernel

theorem v1_C : ∑ n : Fin 58 with 12 ≤ n.1, v1 n * (cB n * mza (112 / 1000) n) ≤ 19 / 100 := by decide +kernel
theorem v2_C : ∑ n : Fin 58 with 12 ≤ n.1, v2 n * (cB n * ma (112 / 1000) n) ≤ 57 / 100 := by decide +kernel

theorem c_u2 (n : Fin 58) : Eos.c UN n = ((u2 n : ℚ) : ℝ) / 2 := by
  rw [c_UN, Rat.cast_intCast]

end Aga8.Detail.Ng
