import Mathlib.Analysis.SpecialFunctions.ExpDeriv
import Mathlib.Analysis.Calculus.Deriv.Pow
import Mathlib.Analysis.Calculus.Deriv.Mul
import Mathlib.Analysis.Calculus.Deriv.Add
import Mathlib.Algebra.BigOperators.Field
import Mathlib.Algebra.BigOperators.Ring.Finset
import Mathlib.Tactic.LinearCombination
import Mathlib.Tactic.FieldSimp
import Mathlib.Tactic.Ring
import Mathlib.Tactic.Linarith
import Mathlib.Tactic.FinCases
import Verif.Lemmas.RealSum
import Verif.Lemmas.DetailEval

/-! # The DETAIL residual part over the reals: sums and density derivatives -/

namespace Aga8.Detail

open Tab Finset

theorem selfDiff_real : SelfDiff ℝ := by
  intro a
  rw [r_lt_false]
  simp

/-- The gas constant of DETAIL. -/
theorem R_real : (RDETAIL : ℝ) = 8.31451 := by
  unfold RDETAIL; norm_num

theorem R_pos : (0 : ℝ) < RDETAIL := by rw [R_real]; norm_num

/-- `expn[k]`. -/
noncomputable def expK (k : Nat) (δ : ℝ) : ℝ := Real.exp (-(if k = 0 then 0 else δ ^ k))

theorem arDknn_real (δ : ℝ) (n : Fin 10) : aget (arDknn δ) n = δ ^ n.1 := by
  have h : arDknn δ = #v[1, δ, δ ^ 2, δ ^ 3, δ ^ 4, δ ^ 5, δ ^ 6, δ ^ 7, δ ^ 8, δ ^ 9] := by
    have h0 : arDknn δ = #v[(FOps.ofDec ⟨1, 0⟩ : ℝ), δ * (FOps.ofDec ⟨1, 0⟩ : ℝ),
      δ * (δ * (FOps.ofDec ⟨1, 0⟩ : ℝ)),
      δ * (δ * (δ * (FOps.ofDec ⟨1, 0⟩ : ℝ))),
      δ * (δ * (δ * (δ * (FOps.ofDec ⟨1, 0⟩ : ℝ)))),
      δ * (δ * (δ * (δ * (δ * (FOps.ofDec ⟨1, 0⟩ : ℝ))))),
      δ * (δ * (δ * (δ * (δ * (δ * (FOps.ofDec ⟨1, 0⟩ : ℝ)))))),
      δ * (δ * (δ * (δ * (δ * (δ * (δ * (FOps.ofDec ⟨1, 0⟩ : ℝ))))))),
      δ * (δ * (δ * (δ * (δ * (δ * (δ * (δ * (FOps.ofDec ⟨1, 0⟩ : ℝ)))))))),
      δ * (δ * (δ * (δ * (δ * (δ * (δ * (δ * (δ * (FOps.ofDec ⟨1, 0⟩ : ℝ)))))))))] := rfl
    rw [h0]
    simp only [r_ofDec]
    norm_num
    refine ⟨?_, ?_, ?_, ?_, ?_, ?_, ?_, ?_⟩ <;> ring
  rw [h]
  fin_cases n <;> simp [aget]

theorem arExpn_real (δ : ℝ) (n : Fin 5) : aget (arExpn (arDknn δ)) n = expK n.1 δ := by
  unfold arExpn
  rw [aget_loop_const]
  split
  · rename_i h
    rw [arDknn_real]
    have : n.1 ≠ 0 := by omega
    simp [expK, this]
  · rename_i h
    have : n = 0 := by apply Fin.ext; simp; omega
    subst this
    simp [expK]

/-- Coefficient of the part of term `n` linear in the density. -/
noncomputable def linB (v : View ℝ) (n : Fin 58) : ℝ :=
  if h : n.1 ≤ 17 then
    (aget v.bs ⟨n.1, by omega⟩ - (if 12 ≤ n.1 then aget v.csn n * v.k3 else 0)) * aget v.tun n
  else 0

/-- The other part of term `n` (`sum0`). -/
noncomputable def f0 (v : View ℝ) (n : Fin 58) (d : ℝ) : ℝ :=
  if 12 ≤ n.1 then aget v.csn n * aget v.tun n * (v.k3 * d) ^ aget BN n * expK (aget KN n) (v.k3 * d)
  else 0

/-- `coefd1`. -/
noncomputable def c1 (v : View ℝ) (n : Fin 58) (d : ℝ) : ℝ :=
  aget BN n - aget KN n * (v.k3 * d) ^ aget KN n
/-- `ckd`. -/
noncomputable def ck (v : View ℝ) (n : Fin 58) (d : ℝ) : ℝ :=
  aget KN n * aget KN n * (v.k3 * d) ^ aget KN n
/-- `coefd2`. -/
noncomputable def c2 (v : View ℝ) (n : Fin 58) (d : ℝ) : ℝ := c1 v n d * (c1 v n d - 1) - ck v n d
/-- `coefd3`. -/
noncomputable def c3 (v : View ℝ) (n : Fin 58) (d : ℝ) : ℝ :=
  (c1 v n d - 2) * c2 v n d + ck v n d * (1 - aget KN n - 2 * c1 v n d)

theorem arTermP_real (s : Detail ℝ) (n : Fin 58) :
    let c := arTermP s (s.k3 * s.d) (arDknn (s.k3 * s.d)) (arExpn (arDknn (s.k3 * s.d))) n
    c.sumb = linB (stored s) n * s.d ∧
    c.sum0 = f0 (stored s) n s.d ∧
    c.sum0 * c.coefd1 = f0 (stored s) n s.d * c1 (stored s) n s.d ∧
    c.sum0 * c.coefd2 = f0 (stored s) n s.d * c2 (stored s) n s.d ∧
    c.sum0 * c.coefd3 = f0 (stored s) n s.d * c3 (stored s) n s.d ∧
    c.coeft1 = RDETAIL * (tab UN n - 1) ∧ c.coeft2 = RDETAIL * (tab UN n - 1) * tab UN n := by
  have hcs : 12 ≤ n.1 → aget (csnRead s.csn) n = aget s.csn n := by
    intro h; simp [csnRead, h]
  unfold arTermP linB f0 c3 c2 c1 ck stored
  dsimp only
  simp only [arDknn_real, arExpn_real, l0, l1, l2, r_ofNat, bnI, knI, knJ]
  by_cases h12 : 12 ≤ n.1
  · simp only [ge_iff_le, h12, if_true, hcs h12]
    refine ⟨?_, ?_, ?_, ?_, ?_, ?_, ?_⟩
    · split
      · ring
      · simp
    · ring
    · ring
    · ring
    · ring
    · trivial
    · trivial
  · have h17 : n.1 ≤ 17 := by omega
    simp only [ge_iff_le, h12, if_false, h17, dif_pos, zero_mul, sub_zero, true_and]
    exact ⟨by ring, trivial⟩

/-! ## The entries of `ar` -/

/-- Residual Helmholtz energy over `RT`, and its density derivatives multiplied by powers of the density. -/
noncomputable def A0 (v : View ℝ) (d : ℝ) : ℝ := ∑ n, (f0 v n d + linB v n * d)
noncomputable def A1 (v : View ℝ) (d : ℝ) : ℝ := ∑ n, (f0 v n d * c1 v n d + linB v n * d)
noncomputable def A2 (v : View ℝ) (d : ℝ) : ℝ := ∑ n, f0 v n d * c2 v n d
noncomputable def A3 (v : View ℝ) (d : ℝ) : ℝ := ∑ n, f0 v n d * c3 v n d

theorem arAcc_get (itau : Int) (rt : ℝ) (c : ArTerm ℝ) (a : Vector (Vector ℝ 4) 4) :
    aget2 (arAcc itau rt c a) 0 0 = aget2 a 0 0 + rt * (c.sum0 + c.sumb) ∧
    aget2 (arAcc itau rt c a) 0 1 = aget2 a 0 1 + rt * (c.sum0 * c.coefd1 + c.sumb) ∧
    aget2 (arAcc itau rt c a) 0 2 = aget2 a 0 2 + rt * (c.sum0 * c.coefd2) ∧
    aget2 (arAcc itau rt c a) 0 3 = aget2 a 0 3 + rt * (c.sum0 * c.coefd3) ∧
    (0 < itau → aget2 (arAcc itau rt c a) 1 0 = aget2 a 1 0 + -(c.coeft1 * (c.sum0 + c.sumb)) ∧
      aget2 (arAcc itau rt c a) 1 1 = aget2 a 1 1 + -(c.coeft1 * (c.sum0 * c.coefd1 + c.sumb)) ∧
      aget2 (arAcc itau rt c a) 2 0 = aget2 a 2 0 + c.coeft2 * (c.sum0 + c.sumb)) := by
  unfold arAcc
  dsimp only
  by_cases h : itau > 0
  · simp only [h, if_true]
    simp [aget2_aset2, sub_eq_add_neg]
  · simp only [h, if_false]
    simp [aget2_aset2]

/-- Row 0 of `ar` after an evaluation. -/
theorem ar_row0 (s : Detail ℝ) (i : Int) :
    aget2 (alpharP (x_terms s) i).ar 0 0 = RDETAIL * s.t * A0 (view s) s.d ∧
    aget2 (alpharP (x_terms s) i).ar 0 1 = RDETAIL * s.t * A1 (view s) s.d ∧
    aget2 (alpharP (x_terms s) i).ar 0 2 = RDETAIL * s.t * A2 (view s) s.d ∧
    aget2 (alpharP (x_terms s) i).ar 0 3 = RDETAIL * s.t * A3 (view s) s.d := by
  rw [ar_alpharP, ← stored_refresh s (fill 4 (fill 4 (f% 0.0)))]
  have e1 : (arTun { x_terms s with ar := fill 4 (fill 4 (f% 0.0)) }).t = s.t := by
    rw [arTun_eq]; exact pub_t (pub_x_terms s)
  have e2 : (arTun { x_terms s with ar := fill 4 (fill 4 (f% 0.0)) }).d = s.d := by
    rw [arTun_eq]; exact pub_d (pub_x_terms s)
  rw [← e1, ← e2]
  generalize arTun { x_terms s with ar := fill 4 (fill 4 (f% 0.0)) } = s1
  unfold arOf A0 A1 A2 A3
  dsimp only
  have key := fun n a => arAcc_get i (RDETAIL * s1.t)
    (arTermP s1 (s1.k3 * s1.d) (arDknn (s1.k3 * s1.d)) (arExpn (arDknn (s1.k3 * s1.d))) n) a
  have val := arTermP_real s1
  dsimp only at val
  refine ⟨?_, ?_, ?_, ?_⟩
  · rw [loop_proj_add0 (fun a => aget2 a 0 0) _ _ _ (fun n a => (key n a).1), aget2_fill, l0,
      zero_add, Finset.mul_sum]
    exact Finset.sum_congr rfl fun n _ => by rw [(val n).1, (val n).2.1]
  · rw [loop_proj_add0 (fun a => aget2 a 0 1) _ _ _ (fun n a => (key n a).2.1), aget2_fill, l0,
      zero_add, Finset.mul_sum]
    exact Finset.sum_congr rfl fun n _ => by rw [(val n).1, (val n).2.2.1]
  · rw [loop_proj_add0 (fun a => aget2 a 0 2) _ _ _ (fun n a => (key n a).2.2.1), aget2_fill, l0,
      zero_add, Finset.mul_sum]
    exact Finset.sum_congr rfl fun n _ => by rw [(val n).2.2.2.1]
  · rw [loop_proj_add0 (fun a => aget2 a 0 3) _ _ _ (fun n a => (key n a).2.2.2.1), aget2_fill, l0,
      zero_add, Finset.mul_sum]
    exact Finset.sum_congr rfl fun n _ => by rw [(val n).2.2.2.2.1]

/-- The temperature rows of `ar` after an evaluation with `itau > 0`. -/
theorem ar_rows (s : Detail ℝ) (i : Int) (hi : 0 < i) :
    aget2 (alpharP (x_terms s) i).ar 1 0
      = ∑ n, RDETAIL * (1 - tab UN n) * (f0 (view s) n s.d + linB (view s) n * s.d) ∧
    aget2 (alpharP (x_terms s) i).ar 1 1
      = ∑ n, RDETAIL * (1 - tab UN n)
        * (f0 (view s) n s.d * c1 (view s) n s.d + linB (view s) n * s.d) ∧
    aget2 (alpharP (x_terms s) i).ar 2 0
      = ∑ n, RDETAIL * (tab UN n - 1) * tab UN n * (f0 (view s) n s.d + linB (view s) n * s.d) := by
  rw [ar_alpharP, ← stored_refresh s (fill 4 (fill 4 (f% 0.0)))]
  have e2 : (arTun { x_terms s with ar := fill 4 (fill 4 (f% 0.0)) }).d = s.d := by
    rw [arTun_eq]; exact pub_d (pub_x_terms s)
  rw [← e2]
  generalize arTun { x_terms s with ar := fill 4 (fill 4 (f% 0.0)) } = s1
  unfold arOf
  dsimp only
  have key := fun n a => (arAcc_get i (RDETAIL * s1.t)
    (arTermP s1 (s1.k3 * s1.d) (arDknn (s1.k3 * s1.d)) (arExpn (arDknn (s1.k3 * s1.d))) n) a).2.2.2.2 hi
  have val := arTermP_real s1
  dsimp only at val
  refine ⟨?_, ?_, ?_⟩
  · rw [loop_proj_add0 (fun a => aget2 a 1 0) _ _ _ (fun n a => (key n a).1), aget2_fill, l0,
      zero_add]
    exact Finset.sum_congr rfl fun n _ => by
      rw [(val n).1, (val n).2.1, (val n).2.2.2.2.2.1]; ring
  · rw [loop_proj_add0 (fun a => aget2 a 1 1) _ _ _ (fun n a => (key n a).2.1), aget2_fill, l0,
      zero_add]
    exact Finset.sum_congr rfl fun n _ => by
      rw [(val n).1, (val n).2.2.1, (val n).2.2.2.2.2.1]; ring
  · rw [loop_proj_add0 (fun a => aget2 a 2 0) _ _ _ (fun n a => (key n a).2.2), aget2_fill, l0,
      zero_add]
    exact Finset.sum_congr rfl fun n _ => by
      rw [(val n).1, (val n).2.1, (val n).2.2.2.2.2.2]

/-! ## Density derivatives -/

theorem hasDerivAt_expK (k : Nat) (δ : ℝ) :
    HasDerivAt (expK k) (-(k * δ ^ (k - 1)) * expK k δ) δ := by
  unfold expK
  by_cases h : k = 0
  · subst h; simpa using hasDerivAt_const δ (1 : ℝ)
  · simp only [h, if_false]
    have := ((hasDerivAt_pow k δ).neg).exp
    rw [mul_comm] at this
    exact this

theorem hasDerivAt_lin (k d : ℝ) : HasDerivAt (fun d => k * d) k d := by
  simpa using (hasDerivAt_id d).const_mul k

theorem pow_pred_mul {k : Nat} (x : ℝ) (h : k ≠ 0) : x ^ (k - 1) * x = x ^ k := by
  rw [← pow_succ]; congr 1; omega

theorem natpow_pred (k : Nat) (x : ℝ) : (k : ℝ) * x ^ (k - 1) * x = k * x ^ k := by
  by_cases h : k = 0
  · subst h; simp
  · rw [mul_assoc, pow_pred_mul x h]

theorem hasDerivAt_f0 (v : View ℝ) (n : Fin 58) {d : ℝ} (hd : d ≠ 0) :
    HasDerivAt (f0 v n) (f0 v n d * c1 v n d / d) d := by
  unfold f0
  by_cases h12 : 12 ≤ n.1
  · simp only [h12, if_true]
    have hp : HasDerivAt (fun d => (v.k3 * d) ^ aget BN n)
        (aget BN n * (v.k3 * d) ^ (aget BN n - 1) * v.k3) d := by
      exact (hasDerivAt_lin v.k3 d).pow (aget BN n)
    have he : HasDerivAt (fun d => expK (aget KN n) (v.k3 * d))
        (-(aget KN n * (v.k3 * d) ^ (aget KN n - 1)) * expK (aget KN n) (v.k3 * d) * v.k3) d :=
      HasDerivAt.comp (h₂ := expK (aget KN n)) d (hasDerivAt_expK (aget KN n) (v.k3 * d))
        (hasDerivAt_lin v.k3 d)
    have hmul := (hp.const_mul (aget v.csn n * aget v.tun n)).mul he
    refine hmul.congr_deriv ?_
    have b := natpow_pred (aget BN n) (v.k3 * d)
    have k := natpow_pred (aget KN n) (v.k3 * d)
    unfold c1
    rw [eq_div_iff hd]
    generalize (v.k3 * d) ^ (aget BN n - 1) = X at *
    generalize (v.k3 * d) ^ (aget BN n) = Y at *
    generalize (v.k3 * d) ^ (aget KN n - 1) = Z at *
    generalize (v.k3 * d) ^ (aget KN n) = W at *
    linear_combination (aget v.csn n * aget v.tun n * expK (aget KN n) (v.k3 * d)) * b
      - (aget v.csn n * aget v.tun n * expK (aget KN n) (v.k3 * d)) * Y * k
  · simp only [h12, if_false]
    simpa using hasDerivAt_const d (0 : ℝ)

theorem hasDerivAt_powK (v : View ℝ) (n : Fin 58) {d : ℝ} (hd : d ≠ 0) :
    HasDerivAt (fun d => ((aget KN n : ℕ) : ℝ) * (v.k3 * d) ^ aget KN n) (ck v n d / d) d := by
  have hp : HasDerivAt (fun d => (v.k3 * d) ^ aget KN n)
      (aget KN n * (v.k3 * d) ^ (aget KN n - 1) * v.k3) d := by
    exact (hasDerivAt_lin v.k3 d).pow (aget KN n)
  refine (hp.const_mul _).congr_deriv ?_
  have k := natpow_pred (aget KN n) (v.k3 * d)
  unfold ck
  rw [eq_div_iff hd]
  linear_combination ((aget KN n : ℕ) : ℝ) * k

theorem hasDerivAt_c1 (v : View ℝ) (n : Fin 58) {d : ℝ} (hd : d ≠ 0) :
    HasDerivAt (c1 v n) (-ck v n d / d) d := by
  have := (hasDerivAt_powK v n hd).const_sub ((aget BN n : ℕ) : ℝ)
  refine this.congr_deriv ?_
  ring

theorem hasDerivAt_ck (v : View ℝ) (n : Fin 58) {d : ℝ} (hd : d ≠ 0) :
    HasDerivAt (ck v n) (((aget KN n : ℕ) : ℝ) * ck v n d / d) d := by
  have h := (hasDerivAt_powK v n hd).const_mul ((aget KN n : ℕ) : ℝ)
  have e : (fun d => ((aget KN n : ℕ) : ℝ) * (((aget KN n : ℕ) : ℝ) * (v.k3 * d) ^ aget KN n)) = ck v n := by
    funext d; unfold ck; ring
  rw [e] at h
  refine h.congr_deriv ?_
  ring

theorem hasDerivAt_c2 (v : View ℝ) (n : Fin 58) {d : ℝ} (hd : d ≠ 0) :
    HasDerivAt (c2 v n) ((-ck v n d * (2 * c1 v n d - 1) - ((aget KN n : ℕ) : ℝ) * ck v n d) / d) d := by
  have h1 := hasDerivAt_c1 v n hd
  have h := (h1.mul (h1.sub_const 1)).sub (hasDerivAt_ck v n hd)
  refine h.congr_deriv ?_
  ring

theorem hasDerivAt_f1 (v : View ℝ) (n : Fin 58) {d : ℝ} (hd : d ≠ 0) :
    HasDerivAt (fun d => f0 v n d * c1 v n d) (f0 v n d * (c1 v n d + c2 v n d) / d) d := by
  refine ((hasDerivAt_f0 v n hd).mul (hasDerivAt_c1 v n hd)).congr_deriv ?_
  unfold c2
  field_simp
  ring

theorem hasDerivAt_f2 (v : View ℝ) (n : Fin 58) {d : ℝ} (hd : d ≠ 0) :
    HasDerivAt (fun d => f0 v n d * c2 v n d) (f0 v n d * (2 * c2 v n d + c3 v n d) / d) d := by
  refine ((hasDerivAt_f0 v n hd).mul (hasDerivAt_c2 v n hd)).congr_deriv ?_
  unfold c3
  field_simp
  ring

theorem hasDerivAt_A0 (v : View ℝ) {d : ℝ} (hd : d ≠ 0) : HasDerivAt (A0 v) (A1 v d / d) d := by
  have h : HasDerivAt (fun d => ∑ n, (f0 v n d + linB v n * d))
      (∑ n, (f0 v n d * c1 v n d / d + linB v n)) d :=
    HasDerivAt.fun_sum fun n _ => (hasDerivAt_f0 v n hd).add (hasDerivAt_lin _ d)
  refine h.congr_deriv ?_
  unfold A1
  rw [Finset.sum_div]
  exact Finset.sum_congr rfl fun n _ => by field_simp

theorem hasDerivAt_A1 (v : View ℝ) {d : ℝ} (hd : d ≠ 0) :
    HasDerivAt (A1 v) ((A1 v d + A2 v d) / d) d := by
  have h : HasDerivAt (fun d => ∑ n, (f0 v n d * c1 v n d + linB v n * d))
      (∑ n, (f0 v n d * (c1 v n d + c2 v n d) / d + linB v n)) d :=
    HasDerivAt.fun_sum fun n _ => (hasDerivAt_f1 v n hd).add (hasDerivAt_lin _ d)
  refine h.congr_deriv ?_
  unfold A1 A2
  rw [← Finset.sum_add_distrib, Finset.sum_div]
  exact Finset.sum_congr rfl fun n _ => by field_simp; ring

theorem hasDerivAt_A2 (v : View ℝ) {d : ℝ} (hd : d ≠ 0) :
    HasDerivAt (A2 v) ((2 * A2 v d + A3 v d) / d) d := by
  have h : HasDerivAt (fun d => ∑ n, f0 v n d * c2 v n d)
      (∑ n, f0 v n d * (2 * c2 v n d + c3 v n d) / d) d :=
    HasDerivAt.fun_sum fun n _ => hasDerivAt_f2 v n hd
  refine h.congr_deriv ?_
  unfold A2 A3
  rw [Finset.mul_sum, ← Finset.sum_add_distrib, Finset.sum_div]
  exact Finset.sum_congr rfl fun n _ => by ring

end Aga8.Detail
