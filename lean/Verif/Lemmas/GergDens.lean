import Mathlib.Analysis.Calculus.Deriv.Pow
import Mathlib.Algebra.BigOperators.Field
import Mathlib.Tactic.FieldSimp
import Verif.Lemmas.GergReal
import Verif.Lemmas.GergEval
import Verif.Lemmas.GergHist

/-! # Density derivatives of the residual GERG terms -/

set_option linter.unusedSectionVars false

namespace Aga8.Gerg

open FOps Tab Finset

namespace Shape
variable (σ : Shape) (r : ℝ) {d : ℝ}

theorem hasDerivAt_redpow (k : ℕ) (hd : d ≠ 0) :
    HasDerivAt (fun d => (d / r) ^ k) (k * (d / r) ^ k / d) d := by
  have h := ((hasDerivAt_id d).div_const r).pow k
  refine h.congr_deriv ?_
  by_cases hk : k = 0
  · subst hk; simp
  · obtain ⟨j, rfl⟩ := Nat.exists_eq_succ_of_ne_zero hk
    simp only [id, Nat.succ_eq_add_one, Nat.add_sub_cancel, pow_succ]
    by_cases hr : r = 0
    · subst hr; simp
    · field_simp

theorem hasDerivAt_red (hd : d ≠ 0) : HasDerivAt (fun d => d / r) (d / r / d) d := by
  have := hasDerivAt_redpow r 1 hd
  simpa using this

theorem hasDerivAt_q (hd : d ≠ 0) :
    HasDerivAt (fun d => σ.q (d / r)) ((σ.f1 (d / r) - σ.n) / d) d := by
  unfold q f1
  have h2 := (hasDerivAt_redpow r 2 hd).const_mul σ.c
  have h1 := (hasDerivAt_red r hd).const_mul σ.e
  by_cases hk : σ.k = 0
  · have h0 := hasDerivAt_const d (-(0 : ℝ))
    simp only [hk, if_true]
    refine ((h0.add h2).add h1).congr_deriv ?_
    push_cast; field_simp; ring
  · simp only [hk, if_false]
    refine (((hasDerivAt_redpow r σ.k hd).neg.add h2).add h1).congr_deriv ?_
    push_cast; field_simp; ring

theorem hasDerivAt_phi (hd : d ≠ 0) :
    HasDerivAt (fun d => σ.phi (d / r)) (σ.phi (d / r) * σ.f1 (d / r) / d) d := by
  unfold phi
  refine ((hasDerivAt_redpow r σ.n hd).mul (σ.hasDerivAt_q r hd).exp).congr_deriv ?_
  field_simp
  ring

theorem hasDerivAt_f1 (hd : d ≠ 0) : HasDerivAt (fun d => σ.f1 (d / r)) (σ.l2 (d / r) / d) d := by
  unfold f1 l2
  have h2 := ((hasDerivAt_redpow r 2 hd).const_mul σ.c).const_mul 2
  have h1 := (hasDerivAt_red r hd).const_mul σ.e
  refine (((((hasDerivAt_redpow r σ.k hd).const_mul (σ.k : ℝ)).const_sub (σ.n : ℝ)).add h2).add h1).congr_deriv ?_
  push_cast; field_simp; ring

theorem hasDerivAt_l2 (hd : d ≠ 0) : HasDerivAt (fun d => σ.l2 (d / r)) (σ.l3 (d / r) / d) d := by
  unfold l2 l3
  have h2 := ((hasDerivAt_redpow r 2 hd).const_mul σ.c).const_mul 4
  have h1 := (hasDerivAt_red r hd).const_mul σ.e
  refine ((((hasDerivAt_redpow r σ.k hd).const_mul ((σ.k : ℝ) ^ 2)).neg.add h2).add h1).congr_deriv ?_
  push_cast; field_simp; ring

theorem hasDerivAt_f2 (hd : d ≠ 0) :
    HasDerivAt (fun d => σ.f2 (d / r)) ((2 * σ.f1 (d / r) * σ.l2 (d / r) - σ.l2 (d / r) + σ.l3 (d / r)) / d) d := by
  unfold f2
  have h := σ.hasDerivAt_f1 r hd
  refine (((h.pow 2).sub h).add (σ.hasDerivAt_l2 r hd)).congr_deriv ?_
  push_cast; field_simp

/-- The first density derivative of a term. -/
theorem hasDerivAt_phi_f1 (hd : d ≠ 0) : HasDerivAt (fun d => σ.phi (d / r) * σ.f1 (d / r))
    ((σ.phi (d / r) * σ.f1 (d / r) + σ.phi (d / r) * σ.f2 (d / r)) / d) d := by
  refine ((σ.hasDerivAt_phi r hd).mul (σ.hasDerivAt_f1 r hd)).congr_deriv ?_
  unfold f2; field_simp; ring

theorem hasDerivAt_phi_f2 (hd : d ≠ 0) : HasDerivAt (fun d => σ.phi (d / r) * σ.f2 (d / r))
    ((2 * (σ.phi (d / r) * σ.f2 (d / r)) + σ.phi (d / r) * σ.f3 (d / r)) / d) d := by
  refine ((σ.hasDerivAt_phi r hd).mul (σ.hasDerivAt_f2 r hd)).congr_deriv ?_
  unfold f2 f3; field_simp; ring

theorem continuous_f1 : Continuous σ.f1 := by unfold f1; fun_prop
theorem continuous_phi : Continuous σ.phi := by
  unfold phi q
  by_cases hk : σ.k = 0
  · simp only [hk, if_true]; fun_prop
  · simp only [hk, if_false]; fun_prop

theorem phi_zero (h : σ.n ≠ 0) : σ.phi 0 = 0 := by unfold phi; rw [zero_pow h, zero_mul]

end Shape

/-! ## The sums -/

theorem hasDerivAt_res0 (A : Ix → ℝ) (m : Params ℝ) (r : ℝ) {d : ℝ} (hd : d ≠ 0) :
    HasDerivAt (fun d => resSum A m (fun _ _ => 1) (d / r)) (resSum A m Shape.f1 (d / r) / d) d := by
  unfold resSum
  have h := HasDerivAt.fun_sum (u := (univ : Finset Ix)) fun ι _ =>
    (((shape m ι).hasDerivAt_phi r hd).mul_const 1).const_mul (A ι)
  refine h.congr_deriv ?_
  rw [Finset.sum_div]
  apply Finset.sum_congr rfl
  intro ι _
  ring

theorem hasDerivAt_res1 (A : Ix → ℝ) (m : Params ℝ) (r : ℝ) {d : ℝ} (hd : d ≠ 0) :
    HasDerivAt (fun d => resSum A m Shape.f1 (d / r))
      ((resSum A m Shape.f1 (d / r) + resSum A m Shape.f2 (d / r)) / d) d := by
  unfold resSum
  have h := HasDerivAt.fun_sum (u := (univ : Finset Ix)) fun ι _ =>
    (((shape m ι).hasDerivAt_phi_f1 r hd)).const_mul (A ι)
  refine h.congr_deriv ?_
  rw [← Finset.sum_add_distrib, Finset.sum_div]
  apply Finset.sum_congr rfl
  intro ι _
  ring

theorem hasDerivAt_res2 (A : Ix → ℝ) (m : Params ℝ) (r : ℝ) {d : ℝ} (hd : d ≠ 0) :
    HasDerivAt (fun d => resSum A m Shape.f2 (d / r))
      ((2 * resSum A m Shape.f2 (d / r) + resSum A m Shape.f3 (d / r)) / d) d := by
  unfold resSum
  have h := HasDerivAt.fun_sum (u := (univ : Finset Ix)) fun ι _ =>
    (((shape m ι).hasDerivAt_phi_f2 r hd)).const_mul (A ι)
  refine h.congr_deriv ?_
  rw [Finset.mul_sum, ← Finset.sum_add_distrib, Finset.sum_div]
  apply Finset.sum_congr rfl
  intro ι _
  ring

theorem continuous_res1 (A : Ix → ℝ) (m : Params ℝ) : Continuous (resSum A m Shape.f1) := by
  unfold resSum
  refine continuous_finsetSum _ fun ι _ => ?_
  exact continuous_const.mul ((shape m ι).continuous_phi.mul (shape m ι).continuous_f1)

/-- Terms that enter the sum carry a positive density exponent. -/
theorem amp_zero_or {m : Params ℝ} (hp : PosE m) (x : Vector ℝ 22) (v : Vector (Vector ℝ 25) 22)
    (w : Vector (Vector ℝ 13) 22) (lt : ℝ) (ι : Ix) : amp x v w m lt ι = 0 ∨ (shape m ι).n ≠ 0 := by
  rcases ι with ⟨i, k⟩ | ⟨i, j, k⟩ <;> simp only [amp]
  · by_cases h : readP x i k
    · right
      have := (hp.doik i k h.1 h.2.2.1 h.2.2.2).1
      simp only [shape]; omega
    · left; rw [if_neg h]
  · by_cases h : actM x i j k.1
    · right
      have := (hp.dijk i j k.1 h.2.2.2.2.1 h.2.2.2.2.2.1 h.2.2.2.2.2.2).1
      simp only [shape, shapeM]
      split <;> dsimp only <;> omega
    · left; rw [if_neg h]

theorem res_zero {m : Params ℝ} (hp : PosE m) (x : Vector ℝ 22) (v : Vector (Vector ℝ 25) 22)
    (w : Vector (Vector ℝ 13) 22) (lt : ℝ) (fac : Fac) : resSum (amp x v w m lt) m fac 0 = 0 := by
  unfold resSum
  apply Finset.sum_eq_zero
  intro ι _
  rcases amp_zero_or hp x v w lt ι with h | h
  · rw [h, zero_mul]
  · rw [(shape m ι).phi_zero h, zero_mul, mul_zero]

/-! ## New objects -/

theorem doik0_pos : ∀ (i : Fin 22) (k : Fin 25), 1 ≤ i.1 → 1 ≤ k.1 → k.1 ≤ aget KPOL i + aget KEXP i →
    1 ≤ aget2 doik0 i k ∧ aget2 doik0 i k < 8 := by decide +kernel

theorem coik0_pos : ∀ (i : Fin 22) (k : Fin 25), 1 ≤ i.1 → aget KPOL i < k.1 → k.1 ≤ aget KPOL i + aget KEXP i →
    1 ≤ aget2 coik0 i k ∧ aget2 coik0 i k < 8 := by decide +kernel

theorem dijk0_pos : ∀ (i j : Fin 22) (k : Fin 13), 0 < aget2 MNUMB i j → 1 ≤ k.1 →
    k.1 ≤ kpolij (aget2 MNUMB i j) + kexpij (aget2 MNUMB i j) →
    1 ≤ gd2 dijk0 (aget2 MNUMB i j) k.1 0 ∧ gd2 dijk0 (aget2 MNUMB i j) k.1 0 < 8 := by decide +kernel

theorem posE_new : PosE (params (newP : Gerg ℝ)) where
  doik := doik0_pos
  coik := coik0_pos
  dijk i j k h1 h3 h4 := dijk0_pos i j ⟨k, by have := kpolij_lt (MNUMB_lt i j); omega⟩ h1 h3 h4

/-- Every reachable object has positive density exponents. -/
theorem posE_reachable {s : Gerg ℝ} (h : Reachable s) : PosE (params s) := by
  rw [h.params]; exact posE_new

/-! ## Pressure and its density derivatives in closed form -/

theorem R_real : (RGERG : ℝ) = 8.314472 := by unfold RGERG; rw [r_ofDec]; norm_num

theorem lt_eps (d : ℝ) : (FOps.lt (EPSILON : ℝ) d = true) ↔ 1e-15 < d := by
  rw [r_lt]; unfold EPSILON; rw [lem15]

/-- `δ ∂α/∂δ` and its likes at density `D`, everything else as in `s`. -/
noncomputable def AR (s : Gerg ℝ) (fac : Fac) (D : ℝ) : ℝ :=
  resSum (ampOf s) (params s) fac (D / (view s).dr)

theorem ampOf_withD (s : Gerg ℝ) (D : ℝ) : ampOf (withD s D) = ampOf s := by
  unfold ampOf; rw [view_withD]; rfl
theorem AR_withD (s : Gerg ℝ) (fac : Fac) (D E : ℝ) : AR (withD s D) fac E = AR s fac E := by
  unfold AR; rw [ampOf_withD, view_withD]; rfl

theorem ar_entry {s : Gerg ℝ} (hp : PosE (params s)) {itau : Int} {a b : Fin 4} {fac : Fac}
    (h : Adds itau a b fac) : aget2 (alpharP s itau).ar a b = AR s fac s.d := alpharP_entry hp h

theorem pressureP_z_real {s : Gerg ℝ} (hp : PosE (params s)) :
    (pressureP s).1.z = 1 + AR s Shape.f1 s.d := by
  rw [pressureP_z, ar_entry hp (adds01 0), l1]

theorem pressureP_real {s : Gerg ℝ} (hp : PosE (params s)) :
    (pressureP s).2 = RGERG * s.t * (s.d * (1 + AR s Shape.f1 s.d)) := by
  rw [pressureP_snd, pressureP_z_real hp]; ring

theorem dp_dd_real {s : Gerg ℝ} (hp : PosE (params s)) :
    (propertiesP s).1.dp_dd = RGERG * s.t * (1 + 2 * AR s Shape.f1 s.d + AR s Shape.f2 s.d) := by
  rw [propertiesP_dp_dd, pressureP_save, ar_entry hp (adds01 0), ar_entry hp (adds02 0), l1, l2]

theorem d2p_dd2_real {s : Gerg ℝ} (hp : PosE (params s)) (hd : 1e-15 < s.d) :
    (propertiesP s).1.d2p_dd2 = RGERG * s.t
      * (2 * AR s Shape.f1 s.d + 4 * AR s Shape.f2 s.d + AR s Shape.f3 s.d) / s.d := by
  rw [propertiesP_eq, propsFinish_d2p_dd2, propsMid_d, propsMid_ar, if_pos ((lt_eps _).2 hd), propsMid_t,
    ar_entry hp (adds01 1), ar_entry hp (adds02 1), ar_entry hp (adds03 (by decide)), l2, l4]

theorem AR_zero {s : Gerg ℝ} (hp : PosE (params s)) (fac : Fac) : AR s fac 0 = 0 := by
  unfold AR ampOf; rw [zero_div, res_zero hp]

theorem continuous_AR1 (s : Gerg ℝ) : Continuous (AR s Shape.f1) := by
  have h := continuous_res1 (ampOf s) (params s)
  unfold AR
  exact h.comp (continuous_id.div_const _)

theorem hasDerivAt_AR0 (s : Gerg ℝ) {d : ℝ} (hd : d ≠ 0) :
    HasDerivAt (AR s fun _ _ => 1) (AR s Shape.f1 d / d) d := hasDerivAt_res0 _ _ _ hd
theorem hasDerivAt_AR1 (s : Gerg ℝ) {d : ℝ} (hd : d ≠ 0) :
    HasDerivAt (AR s Shape.f1) ((AR s Shape.f1 d + AR s Shape.f2 d) / d) d := hasDerivAt_res1 _ _ _ hd
theorem hasDerivAt_AR2 (s : Gerg ℝ) {d : ℝ} (hd : d ≠ 0) :
    HasDerivAt (AR s Shape.f2) ((2 * AR s Shape.f2 d + AR s Shape.f3 d) / d) d := hasDerivAt_res2 _ _ _ hd

end Aga8.Gerg
