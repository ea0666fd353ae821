import Verif.Lemmas.DetailErrAr2
import Verif.Lemmas.DetailErrIdealSum
import Verif.Lemmas.DetailTemp

/-! # The sums of the rounding-error estimates are the quantities of `Spec/DetailEnergyError` -/

set_option linter.unusedSectionVars false

namespace Aga8.Detail

open FOps Tab

variable [Libm]

/-! ## The residual part -/

/-- The factor of `T^(-u)` in a term of the residual Helmholtz energy. -/
noncomputable def kv (x : Fin 21 → ℝ) (D : ℝ) (n : Fin 58) : ℝ :=
  (if 12 ≤ n.1 then Eos.Cstar x n * (Eos.Kcubed x * D) ^ aget BN n * expK (aget KN n) (Eos.Kcubed x * D) else 0)
    + (if h : n.1 ≤ 17 then bv x ⟨n.1, by omega⟩ * D + (if 12 ≤ n.1 then -1 * Eos.Cstar x n * (Eos.Kcubed x * D) else 0) else 0)

/-- The factor of `T^(-u)` in a term of the compression factor. -/
noncomputable def kvZ (x : Fin 21 → ℝ) (D : ℝ) (n : Fin 58) : ℝ :=
  (if 12 ≤ n.1 then Eos.Cstar x n * (Eos.Kcubed x * D) ^ aget BN n * expK (aget KN n) (Eos.Kcubed x * D)
      * (((aget BN n : ℕ) : ℝ) + -1 * (((aget KN n : ℕ) : ℝ) * (Eos.Kcubed x * D) ^ aget KN n)) else 0)
    + (if h : n.1 ≤ 17 then bv x ⟨n.1, by omega⟩ * D + (if 12 ≤ n.1 then -1 * Eos.Cstar x n * (Eos.Kcubed x * D) else 0) else 0)

theorem tv_eq (x : Fin 21 → ℝ) (D T : ℝ) (n : Fin 58) : tv x D T n = T ^ (-Eos.c UN n) * kv x D n := by
  unfold tv kv zExp0 zLin
  split <;> split <;> ring

theorem tvZ_eq (x : Fin 21 → ℝ) (D T : ℝ) (n : Fin 58) : tvZ x D T n = T ^ (-Eos.c UN n) * kvZ x D n := by
  unfold tvZ kvZ zExp zLin
  split <;> split <;> ring

theorem expK_cn (n : Fin 58) (Dr : ℝ) : expK (aget KN n) Dr = Real.exp (-Eos.cn n * Dr ^ KN[n.1]) := by
  unfold expK Eos.cn aget
  by_cases h : KN[n.1] = 0
  · simp [h]
  · simp [h]

theorem tv_sum (x : Fin 21 → ℝ) (D T : ℝ) : ∑ n, tv x D T n = Eos.alphaR x D T := by
  unfold Eos.alphaR Eos.B
  dsimp only
  rw [Finset.sum_filter, Finset.sum_filter, Finset.sum_filter, Finset.mul_sum, Finset.mul_sum, ← Finset.sum_sub_distrib,
    ← Finset.sum_add_distrib]
  refine Finset.sum_congr rfl fun n _ => ?_
  unfold tv zExp0 zLin bv
  rw [expK_cn]
  unfold aget
  have e : ∀ h : n.1 < 18, ∑ i, ∑ j, x i * x j * bTerm ⟨n.1, h⟩ i j
      = ∑ i, ∑ j, x i * x j * Eos.Bstar n i j * Eos.Eij i j ^ Eos.c UN n * (Eos.c KI i * Eos.c KI j) ^ (3 / 2 : ℝ) := by
    intro h
    refine Finset.sum_congr rfl fun i _ => Finset.sum_congr rfl fun j _ => ?_
    unfold bTerm; ring
  by_cases h12 : 12 ≤ n.1 <;> by_cases h17 : n.1 < 18
  · simp only [h12, h17, show n.1 ≤ 17 by omega, if_true, dite_true, and_self]
    rw [e h17]
    ring
  · simp only [h12, h17, show ¬ n.1 ≤ 17 by omega, if_true, dite_false, if_false, and_false]
    ring
  · simp only [h12, h17, show n.1 ≤ 17 by omega, if_true, dite_true, if_false, false_and]
    rw [e h17]
    ring
  · omega

theorem ta_eq (x : Fin 21 → ℝ) (D T : ℝ) (n : Fin 58) : ta x D T n = Eos.termSize x D T n ∧ taZ x D T n = Eos.termSizeZ x D T n := by
  unfold ta taZ zExp0 zExp zLin ba Eos.termSize Eos.termSizeZ
  have e : ∀ h : n.1 < 18, ∑ i, ∑ j, x i * x j * bTerm ⟨n.1, h⟩ i j
      = ∑ i, ∑ j, x i * x j * Eos.Bstar n i j * Eos.Eij i j ^ Eos.c UN n * (Eos.c KI i * Eos.c KI j) ^ (3 / 2 : ℝ) := by
    intro h
    refine Finset.sum_congr rfl fun i _ => Finset.sum_congr rfl fun j _ => ?_
    unfold bTerm; ring
  have ek : ((aget KN n : ℕ) : ℝ) = Eos.cn n * KN[n.1] := by
    unfold Eos.cn aget
    by_cases h : KN[n.1] = 0
    · simp [h]
    · simp [h]
  rw [expK_cn, ek]
  unfold aget
  by_cases h12 : 12 ≤ n.1 <;> by_cases h17 : n.1 < 18
  · simp only [h12, h17, show n.1 ≤ 17 by omega, if_true, dite_true, and_self]
    rw [e h17]
    constructor <;> ring
  · simp only [h12, h17, show ¬ n.1 ≤ 17 by omega, if_true, dite_false, if_false, and_false]
    constructor <;> ring
  · simp only [h12, h17, show n.1 ≤ 17 by omega, if_true, dite_true, if_false, false_and]
    rw [e h17]
    constructor <;> ring
  · omega

theorem tvZ_sum (x : Fin 21 → ℝ) (D T : ℝ) : 1 + ∑ n, tvZ x D T n = Eos.Z x D T := by
  rw [← zsum_Z]
  rfl

theorem taZ_sum (x : Fin 21 → ℝ) (D T : ℝ) : 1 + ∑ n, taZ x D T n = Eos.Zabs x D T := by
  rw [← zsum_Zabs]
  rfl

/-- The temperature derivatives of a sum of powers of the temperature. -/
theorem pow_deriv1 (u κ : Fin 58 → ℝ) {T : ℝ} (hT : 0 < T) :
    HasDerivAt (fun T => T * ∑ n, T ^ (-u n) * κ n) (-∑ n, (u n - 1) * (T ^ (-u n) * κ n)) T := by
  have e : (fun T : ℝ => T * ∑ n, T ^ (-u n) * κ n) = fun T => ∑ n, T * T ^ (-u n) * κ n := by
    funext T
    rw [Finset.mul_sum]
    exact Finset.sum_congr rfl fun n _ => by ring
  rw [e, ← Finset.sum_neg_distrib]
  refine HasDerivAt.fun_sum fun n _ => ?_
  have h := (hasDerivAt_id T).mul (Real.hasDerivAt_rpow_const (p := -u n) (Or.inl hT.ne'))
  refine (h.mul_const (κ n)).congr_deriv ?_
  rw [Real.rpow_sub_one hT.ne']
  simp only [id]
  field_simp
  ring

theorem pow_deriv2 (u κ : Fin 58 → ℝ) {T : ℝ} (hT : 0 < T) :
    HasDerivAt (fun T => ∑ n, (u n - 1) * (T ^ (-u n) * κ n)) (-(∑ n, (u n - 1) * u n * (T ^ (-u n) * κ n)) / T) T := by
  rw [← Finset.sum_neg_distrib, Finset.sum_div]
  refine HasDerivAt.fun_sum fun n _ => ?_
  have h := (Real.hasDerivAt_rpow_const (p := -u n) (Or.inl hT.ne')).mul_const (κ n)
  refine (h.const_mul (u n - 1)).congr_deriv ?_
  rw [Real.rpow_sub_one hT.ne']
  field_simp

theorem hasDerivAt_alphaR (x : Fin 21 → ℝ) (D : ℝ) {T : ℝ} (hT : 0 < T) :
    HasDerivAt (fun T => T * Eos.alphaR x D T) (-∑ n, (Eos.c UN n - 1) * tv x D T n) T := by
  have := pow_deriv1 (Eos.c UN) (kv x D) hT
  simp only [← tv_eq, tv_sum] at this
  exact this

theorem hasDerivAt_alphaR2 (x : Fin 21 → ℝ) (D : ℝ) {T : ℝ} (hT : 0 < T) :
    HasDerivAt (fun T => ∑ n, (Eos.c UN n - 1) * tv x D T n) (-(∑ n, (Eos.c UN n - 1) * Eos.c UN n * tv x D T n) / T) T := by
  have := pow_deriv2 (Eos.c UN) (kv x D) hT
  simp only [← tv_eq] at this
  exact this

theorem hasDerivAt_ZT (x : Fin 21 → ℝ) (D : ℝ) {T : ℝ} (hT : 0 < T) :
    HasDerivAt (fun T => D * 8.31451 * T * Eos.Z x D T) (D * 8.31451 * (1 + -∑ n, (Eos.c UN n - 1) * tvZ x D T n)) T := by
  have := pow_deriv1 (Eos.c UN) (kvZ x D) hT
  simp only [← tvZ_eq] at this
  have h := ((hasDerivAt_id T).add this).const_mul (D * 8.31451)
  refine h.congr_of_eventuallyEq (Filter.Eventually.of_forall fun T => ?_)
  simp only [Pi.add_apply, id, ← tvZ_sum]
  ring

/-! ## The ideal part -/

theorem th_eq (i : Fin 21) (j : Fin 7) : (tab2 TH0I i j : ℝ) = th i j := by
  rw [tab2_decQ]; unfold th; rw [decR_decQ]

theorem nv_eq (i : Fin 21) (j : Fin 7) (hj : 3 ≤ j.1) : aget2 (params (newP : Detail ℝ)).n0i i j = nv i j := by
  rw [newP_n0i_real i j hj]; unfold nv; rw [decR_decQ]

theorem D0_real : (D0 : ℝ) = rho0 := by
  have hlit : (f% 298.15 : ℝ) = 298.15 := by rw [r_ofDec]; norm_num
  have hlit2 : (f% 101.325 : ℝ) = 101.325 := by rw [r_ofDec]; norm_num
  unfold D0 rho0; rw [hlit, hlit2, R_real]; norm_num

theorem nv_eq0 (i : Fin 21) : aget2 (params (newP : Detail ℝ)).n0i i 0 = nv i 0 - Real.log rho0 ∧
    aget2 (params (newP : Detail ℝ)).n0i i 1 = nv i 1 ∧ aget2 (params (newP : Detail ℝ)).n0i i 2 = nv i 2 - 1 := by
  refine ⟨?_, ?_, ?_⟩
  · show aget2 (newP : Detail ℝ).n0i i 0 = _
    rw [newP_n0i, if_pos rfl, r_ln, D0_real, ofDec_decQ]
    unfold nv; rw [decR_decQ]
  · show aget2 (newP : Detail ℝ).n0i i 1 = _
    rw [newP_n0i, if_neg (by decide), if_neg (by decide), ofDec_decQ]
    unfold nv; rw [decR_decQ]
  · show aget2 (newP : Detail ℝ).n0i i 2 = _
    rw [newP_n0i, if_neg (by decide), if_pos rfl, ofDec_decQ, l1]
    unfold nv; rw [decR_decQ]

theorem H_eq (i : Fin 21) (T : ℝ) : H0 (params (newP : Detail ℝ)) i T = ∑ j with 3 ≤ j.1, hv0 i T j ∧
    H1 (params (newP : Detail ℝ)) i T = ∑ j with 3 ≤ j.1, hv1 i T j ∧
    H2 (params (newP : Detail ℝ)) i T = ∑ j with 3 ≤ j.1, hv2 i T j := by
  unfold H0 H1 H2
  refine ⟨Finset.sum_congr rfl fun j hj => ?_, Finset.sum_congr rfl fun j hj => ?_, Finset.sum_congr rfl fun j hj => ?_⟩
  all_goals rw [th_eq, nv_eq i j (Finset.mem_filter.1 hj).2]; rfl

theorem I_eq (x : Vector ℝ 21) {D : ℝ} (hD : 1e-15 < D) (T : ℝ) :
    I0 (params (newP : Detail ℝ)) x D T = ∑ i, iv0 D T (posPart x i) i ∧
    I1 (params (newP : Detail ℝ)) x D T = ∑ i, iv1 D T (posPart x i) i ∧
    I2 (params (newP : Detail ℝ)) x T = ∑ i, iv2 T (posPart x i) i := by
  have hl : logD D = Real.log D := by unfold logD; rw [if_pos hD]
  unfold I0 I1 I2
  refine ⟨Finset.sum_congr rfl fun i _ => ?_, Finset.sum_congr rfl fun i _ => ?_, Finset.sum_congr rfl fun i _ => ?_⟩
  all_goals
    obtain ⟨n0, n1, n2⟩ := nv_eq0 i
    obtain ⟨h0, h1, h2⟩ := H_eq i T
    unfold posPart
    by_cases hx : 0 < aget x i
    · rw [if_pos hx, max_eq_left hx.le]
      simp only [n0, n1, n2, h0, h1, h2, hl]
      rfl
    · rw [if_neg hx, max_eq_right (not_lt.1 hx)]
      simp [iv0, iv1, iv2]

/-- The fractions of a list of non-negative numbers. -/
theorem posPart_ofFn (x : Fin 21 → ℝ) (hx : ∀ i, 0 ≤ x i) : posPart (Vector.ofFn x) = x := by
  funext i
  unfold posPart aget
  simp [hx i]

theorem ideal_deriv (x : Fin 21 → ℝ) (hx : ∀ i, 0 ≤ x i) {D : ℝ} (hD : 1e-15 < D) :
    (∀ T, Eos.alpha0 x D T = ∑ i, iv0 D T (x i) i) ∧
    (∀ T, 0 < T → HasDerivAt (fun T => T * Eos.alpha0 x D T) (∑ i, iv1 D T (x i) i) T) ∧
    (∀ T, 0 < T → HasDerivAt (fun T => ∑ i, iv1 D T (x i) i) ((∑ i, iv2 T (x i) i) / T) T) := by
  have h := posPart_ofFn x hx
  have e0 := fun T => I0_eq (Vector.ofFn x) hD T
  have e := fun T => I_eq (Vector.ofFn x) hD T
  rw [h] at e0 e
  refine ⟨fun T => ?_, fun T hT => ?_, fun T hT => ?_⟩
  · rw [← e0, (e T).1]
  · have d := hasDerivAt_I0 (params (newP : Detail ℝ)) (Vector.ofFn x) D hT
    simp only [e0] at d
    rwa [(e T).2.1] at d
  · have d := hasDerivAt_I1 (params (newP : Detail ℝ)) (Vector.ofFn x) D hT
    simp only [fun T => (e T).2.1] at d
    rwa [(e T).2.2] at d

/-! ## Sizes -/

theorem sum_hyp (f : Fin 7 → ℝ) : ∑ j with 3 ≤ j.1, f j = f 3 + f 4 + f 5 + f 6 := by
  have hf : (Finset.univ.filter fun j : Fin 7 => 3 ≤ j.1) = {3, 4, 5, 6} := by decide
  rw [hf, Finset.sum_insert (by decide), Finset.sum_insert (by decide), Finset.sum_insert (by decide), Finset.sum_singleton]
  ring

theorem th_or (i : Fin 21) (j : Fin 7) (hj : 3 ≤ j.1) : 0 < th i j ∨ nv i j = 0 := by
  rcases th_table i j hj with h | h
  · left; unfold th; rw [decR_decQ]; exact_mod_cast h
  · right; unfold nv; rw [decR_decQ, h]; simp

theorem hs_drop (i : Fin 21) (j : Fin 7) (hj : 3 ≤ j.1) (y : ℝ) : (if 0 < th i j then |nv i j| * y else 0) = |nv i j| * y := by
  rcases th_or i j hj with h | h
  · rw [if_pos h]
  · rw [h]; simp

theorem hs_eq (i : Fin 21) (T : ℝ) :
    ∑ j with 3 ≤ j.1, hs0 i T j = |nv i 3| * Eos.lnSize (Real.sinh (th i 3 / T)) + |nv i 4| * Eos.lnSize (Real.cosh (th i 4 / T))
      + |nv i 5| * Eos.lnSize (Real.sinh (th i 5 / T)) + |nv i 6| * Eos.lnSize (Real.cosh (th i 6 / T)) ∧
    ∑ j with 3 ≤ j.1, hs1 i T j
      = |nv i 3| * (Eos.lnSize (Real.sinh (th i 3 / T)) + th i 3 / T * Real.cosh (th i 3 / T) / Real.sinh (th i 3 / T))
      + |nv i 4| * (Eos.lnSize (Real.cosh (th i 4 / T)) + th i 4 / T * Real.sinh (th i 4 / T) / Real.cosh (th i 4 / T))
      + |nv i 5| * (Eos.lnSize (Real.sinh (th i 5 / T)) + th i 5 / T * Real.cosh (th i 5 / T) / Real.sinh (th i 5 / T))
      + |nv i 6| * (Eos.lnSize (Real.cosh (th i 6 / T)) + th i 6 / T * Real.sinh (th i 6 / T) / Real.cosh (th i 6 / T)) ∧
    ∑ j with 3 ≤ j.1, hs2 i T j = |nv i 3| * (th i 3 / T / Real.sinh (th i 3 / T)) ^ 2
      + |nv i 4| * (th i 4 / T / Real.cosh (th i 4 / T)) ^ 2 + |nv i 5| * (th i 5 / T / Real.sinh (th i 5 / T)) ^ 2
      + |nv i 6| * (th i 6 / T / Real.cosh (th i 6 / T)) ^ 2 := by
  rw [sum_hyp, sum_hyp, sum_hyp]
  unfold hs0 hs1 hs2
  rw [if_pos (show (3 : Fin 7).1 = 3 ∨ (3 : Fin 7).1 = 5 by decide),
    if_neg (show ¬ ((4 : Fin 7).1 = 3 ∨ (4 : Fin 7).1 = 5) by decide),
    if_pos (show (5 : Fin 7).1 = 3 ∨ (5 : Fin 7).1 = 5 by decide),
    if_neg (show ¬ ((6 : Fin 7).1 = 3 ∨ (6 : Fin 7).1 = 5) by decide),
    if_pos (show (3 : Fin 7).1 = 3 ∨ (3 : Fin 7).1 = 5 by decide),
    if_neg (show ¬ ((4 : Fin 7).1 = 3 ∨ (4 : Fin 7).1 = 5) by decide),
    if_pos (show (5 : Fin 7).1 = 3 ∨ (5 : Fin 7).1 = 5 by decide),
    if_neg (show ¬ ((6 : Fin 7).1 = 3 ∨ (6 : Fin 7).1 = 5) by decide),
    if_pos (show (3 : Fin 7).1 = 3 ∨ (3 : Fin 7).1 = 5 by decide),
    if_neg (show ¬ ((4 : Fin 7).1 = 3 ∨ (4 : Fin 7).1 = 5) by decide),
    if_pos (show (5 : Fin 7).1 = 3 ∨ (5 : Fin 7).1 = 5 by decide),
    if_neg (show ¬ ((6 : Fin 7).1 = 3 ∨ (6 : Fin 7).1 = 5) by decide)]
  simp only [hs_drop i 3 (by decide), hs_drop i 4 (by decide), hs_drop i 5 (by decide), hs_drop i 6 (by decide), and_self]

theorem is_eq (D T x : ℝ) (i : Fin 21) :
    is0 D T x i = x * (Eos.mixSize x D + Eos.idealSize0 (GergEos.ideal.getD i.1 Inhabited.default) T) ∧
    is1 D T x i = x * (Eos.mixSize x D + Eos.idealSize1 (GergEos.ideal.getD i.1 Inhabited.default) T) ∧
    is2 T x i = x * Eos.idealSize2 (GergEos.ideal.getD i.1 Inhabited.default) T := by
  obtain ⟨t1, t2, t3, t4, t5, t6, t7, t8, t9, t10, t11⟩ := ideal_table i
  obtain ⟨h0, h1, h2⟩ := hs_eq i T
  unfold is0 is1 is2 Eos.mixSize Eos.idealSize0 Eos.idealSize1 Eos.idealSize2
  rw [h0, h1, h2]
  rw [t1, t2, t3, t4, t5, t6, t7, t8, t9, t10, t11]
  simp only [← decR_decQ]
  rw [show (101.325 / (8.31451 * 298.15) : ℝ) = rho0 from rfl]
  simp only [nv, th]
  refine ⟨?_, ?_, ?_⟩ <;> ring

end Aga8.Detail
