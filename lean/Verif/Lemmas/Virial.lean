import Mathlib.Analysis.Calculus.Deriv.Mul
import Mathlib.Analysis.Calculus.Deriv.Slope
import Verif.Lemmas.DetailMethane
import Verif.Lemmas.GergMethane
import Verif.Lemmas.GergTablesReal

/-! # Zero density: derivatives of the density sums -/

namespace Aga8

open Filter Topology

/-- A product at a zero of the first factor. -/
theorem hasDerivAt_mul_zero {f g : ℝ → ℝ} {f' g' d : ℝ} (hf : HasDerivAt f f' d) (h0 : f d = 0) (hg : HasDerivAt g g' d) :
    HasDerivAt (fun d => f d * g d) (f' * g d) d := by
  refine (hf.mul hg).congr_deriv ?_
  rw [h0, zero_mul, add_zero]

/-- The slope at zero of a function that is zero there. -/
theorem slope_zero {f : ℝ → ℝ} {f' : ℝ} (hf : HasDerivAt f f' 0) (h0 : f 0 = 0) :
    Tendsto (fun D => f D / D) (𝓝[≠] 0) (𝓝 f') := by
  have h := hasDerivAt_iff_tendsto_slope.1 hf
  refine h.congr fun D => ?_
  rw [slope_def_field, h0, sub_zero, sub_zero]

namespace Detail

open Tab Finset

/-- The terms linear in the density are those numbered 12 to 17 (from zero). -/
theorem BN_one : ∀ n : Fin 58, 12 ≤ n.1 → (aget BN n = 1 ↔ n.1 ≤ 17) := by decide +kernel

theorem c1_zero (v : View ℝ) (n : Fin 58) : c1 v n 0 = aget BN n := by
  unfold c1
  rw [mul_zero]
  by_cases h : aget KN n = 0
  · simp [h]
  · simp [h]

theorem ck_zero (v : View ℝ) (n : Fin 58) : ck v n 0 = 0 := by
  unfold ck
  rw [mul_zero]
  by_cases h : aget KN n = 0
  · simp [h]
  · simp [h]

theorem expK_zero (k : ℕ) : expK k 0 = 1 := by
  unfold expK
  by_cases h : k = 0 <;> simp [h]

theorem propertiesP_z_real (s : Detail ℝ) (ht : s.t ≠ 0) : (propertiesP s).z = 1 + A1 (view s) s.d := by
  rw [propertiesP_z, (ar_row0 s 0).2.1, l1]
  have := R_pos.ne'
  field_simp

/-- A term at zero density. -/
theorem hasDerivAt_f0_zero (v : View ℝ) (n : Fin 58) :
    HasDerivAt (f0 v n) (if 12 ≤ n.1 ∧ n.1 ≤ 17 then aget v.csn n * aget v.tun n * v.k3 else 0) 0 := by
  unfold f0
  by_cases h12 : 12 ≤ n.1
  · simp only [h12, if_true, true_and]
    have hp : HasDerivAt (fun d => (v.k3 * d) ^ aget BN n)
        (aget BN n * (v.k3 * 0) ^ (aget BN n - 1) * v.k3) 0 := (hasDerivAt_lin v.k3 0).pow (aget BN n)
    have he : HasDerivAt (fun d => expK (aget KN n) (v.k3 * d))
        (-(aget KN n * (v.k3 * 0) ^ (aget KN n - 1)) * expK (aget KN n) (v.k3 * 0) * v.k3) 0 :=
      HasDerivAt.comp (h₂ := expK (aget KN n)) 0 (hasDerivAt_expK (aget KN n) (v.k3 * 0)) (hasDerivAt_lin v.k3 0)
    have hb := BN_pos n h12
    refine (hasDerivAt_mul_zero (hp.const_mul (aget v.csn n * aget v.tun n)) (by simp [hb]) he).congr_deriv ?_
    rw [mul_zero, expK_zero]
    have h1 := BN_one n h12
    by_cases h : n.1 ≤ 17
    · rw [if_pos h, h1.2 h]; simp
    · rw [if_neg h]
      have : aget BN n - 1 ≠ 0 := by
        have := mt h1.1 h
        omega
      simp [this]
  · simp only [h12, if_false, false_and]
    exact hasDerivAt_const _ _

theorem hasDerivAt_powK_zero (v : View ℝ) (n : Fin 58) : ∃ e, HasDerivAt (fun d => (v.k3 * d) ^ aget KN n) e 0 :=
  ⟨_, (hasDerivAt_lin v.k3 0).pow (aget KN n)⟩

theorem hasDerivAt_A1_zero (v : View ℝ) :
    HasDerivAt (A1 v) (∑ n : Fin 58, if h : n.1 < 18 then aget v.bs ⟨n.1, h⟩ * aget v.tun n else 0) 0 := by
  have key : ∀ n : Fin 58, HasDerivAt (fun d => f0 v n d * c1 v n d + linB v n * d)
      (if h : n.1 < 18 then aget v.bs ⟨n.1, h⟩ * aget v.tun n else 0) 0 := by
    intro n
    obtain ⟨e, he⟩ := hasDerivAt_powK_zero v n
    have hc : HasDerivAt (c1 v n) (0 - aget KN n * e) 0 := (hasDerivAt_const (0 : ℝ) ((aget BN n : ℕ) : ℝ)).sub (he.const_mul _)
    refine ((hasDerivAt_mul_zero (hasDerivAt_f0_zero v n) (f0_zero v n) hc).add (hasDerivAt_lin (linB v n) 0)).congr_deriv ?_
    rw [c1_zero]
    unfold linB
    by_cases h17 : n.1 ≤ 17
    · rw [dif_pos h17, dif_pos (by omega)]
      by_cases h12 : 12 ≤ n.1
      · rw [if_pos ⟨h12, h17⟩, if_pos h12, (BN_one n h12).2 h17]
        push_cast
        ring
      · rw [if_neg (fun h => h12 h.1), if_neg h12]
        ring
    · rw [dif_neg h17, dif_neg (by omega), if_neg (fun h => h17 h.2)]
      ring
  exact HasDerivAt.fun_sum fun n _ => key n

theorem hasDerivAt_A2_zero (v : View ℝ) : HasDerivAt (A2 v) 0 0 := by
  have key : ∀ n : Fin 58, HasDerivAt (fun d => f0 v n d * c2 v n d) 0 0 := by
    intro n
    obtain ⟨e, he⟩ := hasDerivAt_powK_zero v n
    have hc : HasDerivAt (c1 v n) (0 - aget KN n * e) 0 := (hasDerivAt_const (0 : ℝ) ((aget BN n : ℕ) : ℝ)).sub (he.const_mul _)
    have hk : HasDerivAt (ck v n) (aget KN n * aget KN n * e) 0 := he.const_mul _
    have h2 := (hc.mul (hc.sub_const 1)).sub hk
    refine (hasDerivAt_mul_zero (hasDerivAt_f0_zero v n) (f0_zero v n) h2).congr_deriv ?_
    show _ * (c1 v n 0 * (c1 v n 0 - 1) - ck v n 0) = 0
    rw [c1_zero, ck_zero]
    by_cases h : 12 ≤ n.1 ∧ n.1 ≤ 17
    · rw [(BN_one n h.1).2 h.2]; simp
    · rw [if_neg h, zero_mul]
  have := HasDerivAt.fun_sum (u := Finset.univ) fun n _ => key n
  rw [Finset.sum_const_zero] at this
  exact this

/-- The slope of the compression factor at zero density. -/
theorem virial_fresh {q : Pub ℝ} (hx : XFar q.x (fill 21 (f% 0.0))) (ht : 1e-7 < q.t) :
    HasDerivAt (A1 (view (freshOf q))) (Eos.B (posPart q.x) q.t) 0 := by
  refine (hasDerivAt_A1_zero _).congr_deriv ?_
  have hv : view (freshOf q) = viewT q q.t := view_atT hx ht
  rw [hv]
  have w3 : ∀ n : Fin 18, aget (viewT q q.t).bs n = _ := bs_fresh q
  have w4 := tun_viewT q q.t
  generalize viewT q q.t = v at *
  unfold Eos.B
  rw [Finset.sum_filter]
  refine Finset.sum_congr rfl fun n _ => ?_
  by_cases hn : n.1 < 18
  · rw [dif_pos hn, if_pos hn, w3, w4]; ring
  · rw [dif_neg hn, if_neg hn]

/-- The second virial coefficient of methane at its energy parameter, over `K^3`. -/
def bq : ℚ := ∑ n : Fin 58, if n.1 < 18 ∧ nb n then aq 0 n else 0
theorem bq_ne : bq < -1 := by decide +kernel

theorem B_methane : Eos.B (posPart mx) mE = mK ^ 3 * bq := by
  have hx : XFar (methane 0 0 0).x (fill 21 (f% 0.0)) := methane_x 0 0 0
  have ht := methane_t 0 0 0
  have h1 := virial_fresh hx ht
  have h2 := hasDerivAt_A1_zero (view (freshOf (methane 0 0 0)))
  have e1 : (methane 0 0 0).t = mE := by show (4 : ℝ) ^ 0 * mE = mE; rw [pow_zero, one_mul]
  have e2 : (methane 0 0 0).x = mx := rfl
  rw [e1, e2] at h1
  rw [h1.unique h2]
  obtain ⟨-, -, hb⟩ := view_methane 0 0 0
  generalize view (freshOf (methane 0 0 0)) = v at *
  unfold bq
  push_cast
  rw [Finset.mul_sum]
  refine Finset.sum_congr rfl fun n _ => ?_
  by_cases hn : n.1 < 18
  · rw [dif_pos hn, hb ⟨n.1, hn⟩]
    by_cases hnb : nb n <;> simp [hn, hnb, mul_comm]
  · rw [dif_neg hn, if_neg (fun h => hn h.1)]; simp

end Detail

namespace Gerg

open Tab Finset Real

theorem coef_n (x : Vector ℝ 22) (ι : Ix) : coef x ι = 0 ∨ 1 ≤ (shape m0 ι).n := by
  rcases ι with ⟨i, k⟩ | ⟨i, j, k⟩ <;> simp only [coef]
  · split
    case isFalse h => exact Or.inl rfl
    case isTrue h => exact Or.inr (posE_m0.doik i k h.1 h.2.2.1 h.2.2.2).1
  · split
    case isFalse h => exact Or.inl rfl
    case isTrue h =>
      right
      have := (posE_m0.dijk i j k.1 h.2.2.2.2.1 h.2.2.2.2.2.1 h.2.2.2.2.2.2).1
      simp only [shape, shapeM]
      split <;> exact this

theorem Shape.f1_zero (σ : Shape) : σ.f1 0 = σ.n := by
  unfold Shape.f1
  by_cases h : σ.k = 0 <;> simp [h]
theorem Shape.l2_zero (σ : Shape) : σ.l2 0 = 0 := by
  unfold Shape.l2
  by_cases h : σ.k = 0 <;> simp [h]

theorem Shape.hasDerivAt_phi_zero (σ : Shape) (h : 1 ≤ σ.n) : HasDerivAt σ.phi (if σ.n = 1 then 1 else 0) 0 := by
  have hq : ∃ e, HasDerivAt σ.q e 0 := by
    unfold Shape.q
    by_cases hk : σ.k = 0
    · simp only [hk, if_true]
      exact ⟨_, (((hasDerivAt_const (0 : ℝ) (-(0 : ℝ)))).add (((hasDerivAt_pow 2 (0 : ℝ))).const_mul σ.c)).add
        (hasDerivAt_const_mul σ.e)⟩
    · simp only [hk, if_false]
      exact ⟨_, ((hasDerivAt_pow σ.k (0 : ℝ)).neg.add (((hasDerivAt_pow 2 (0 : ℝ))).const_mul σ.c)).add
        (hasDerivAt_const_mul σ.e)⟩
  obtain ⟨e, he⟩ := hq
  have q0 : σ.q 0 = 0 := by
    unfold Shape.q
    by_cases h : σ.k = 0 <;> simp [h]
  refine (hasDerivAt_mul_zero (hasDerivAt_pow σ.n (0 : ℝ)) (zero_pow (by omega)) he.exp).congr_deriv ?_
  rw [q0, exp_zero, mul_one]
  by_cases h1 : σ.n = 1
  · simp [h1]
  · have : σ.n - 1 ≠ 0 := by omega
    simp [h1, this]

theorem Shape.diff_f1 (σ : Shape) : Differentiable ℝ σ.f1 := by unfold Shape.f1; fun_prop
theorem Shape.diff_f2 (σ : Shape) : Differentiable ℝ σ.f2 := by
  have h1 := σ.diff_f1
  have h2 : Differentiable ℝ σ.l2 := by unfold Shape.l2; fun_prop
  unfold Shape.f2
  fun_prop

/-- The derivative of the residual Helmholtz energy at zero density. -/
noncomputable def BS (x : Vector ℝ 22) (τ : ℝ) : ℝ :=
  ∑ ι : Ix, coef x ι * exp ((shape m0 ι).t * log τ) * if (shape m0 ι).n = 1 then 1 else 0

theorem hasDerivAt_RS_zero (x : Vector ℝ 22) (τ : ℝ) :
    HasDerivAt (fun δ => RS x (fun _ _ => 1) δ τ) (BS x τ) 0 ∧
    HasDerivAt (fun δ => RS x Shape.f1 δ τ) (BS x τ) 0 ∧ HasDerivAt (fun δ => RS x Shape.f2 δ τ) 0 0 := by
  have key : ∀ (fac : Fac) (ι : Ix), Differentiable ℝ (fac (shape m0 ι)) → HasDerivAt
      (fun δ => coef x ι * exp ((shape m0 ι).t * log τ) * ((shape m0 ι).phi δ * fac (shape m0 ι) δ))
      (coef x ι * exp ((shape m0 ι).t * log τ) * ((if (shape m0 ι).n = 1 then 1 else 0) * fac (shape m0 ι) 0)) 0 := by
    intro fac ι hd
    rcases coef_n x ι with h | h
    · simp only [h, zero_mul]; exact hasDerivAt_const _ _
    · exact (hasDerivAt_mul_zero ((shape m0 ι).hasDerivAt_phi_zero h) ((shape m0 ι).phi_zero (by omega))
        (hd 0).hasDerivAt).const_mul _
  refine ⟨?_, ?_, ?_⟩
  · refine (HasDerivAt.fun_sum (u := Finset.univ) fun ι _ => key (fun _ _ => 1) ι (differentiable_const _)).congr_deriv ?_
    unfold BS
    exact Finset.sum_congr rfl fun ι _ => by rw [mul_one]
  · refine (HasDerivAt.fun_sum (u := Finset.univ) fun ι _ => key Shape.f1 ι (Shape.diff_f1 _)).congr_deriv ?_
    unfold BS
    refine Finset.sum_congr rfl fun ι _ => ?_
    rw [Shape.f1_zero]
    by_cases h : (shape m0 ι).n = 1 <;> simp [h]
  · refine (HasDerivAt.fun_sum (u := Finset.univ) fun ι _ => key Shape.f2 ι (Shape.diff_f2 _)).congr_deriv ?_
    refine Finset.sum_eq_zero fun ι _ => ?_
    unfold Shape.f2
    rw [Shape.f1_zero, Shape.l2_zero]
    by_cases h : (shape m0 ι).n = 1 <;> simp [h]

/-- The same as functions of the density. -/
theorem hasDerivAt_RT_zero {x : Vector ℝ 22} (hP : Present x) (T : ℝ) :
    HasDerivAt (fun D => RT x Shape.f1 D T) (GergEos.invRhoR (yOf x) * BS x (trX x / T)) 0 ∧
    HasDerivAt (fun D => RT x Shape.f2 D T) 0 0 := by
  obtain ⟨-, h1, h2⟩ := hasDerivAt_RS_zero x (trX x / T)
  have hl : HasDerivAt (fun D : ℝ => D * GergEos.invRhoR (yOf x)) (GergEos.invRhoR (yOf x)) 0 := by
    simpa using (hasDerivAt_id (0 : ℝ)).mul_const (GergEos.invRhoR (yOf x))
  have e0 : (0 : ℝ) * GergEos.invRhoR (yOf x) = 0 := zero_mul _
  simp only [RT_eq, hP.drX_eq]
  constructor
  · have := HasDerivAt.comp (h₂ := fun δ => RS x Shape.f1 δ (trX x / T)) 0 (by rw [e0]; exact h1) hl
    rw [mul_comm]
    exact this
  · have := HasDerivAt.comp (h₂ := fun δ => RS x Shape.f2 δ (trX x / T)) 0 (by rw [e0]; exact h2) hl
    rw [zero_mul] at this
    exact this

theorem RT_at_zero (x : Vector ℝ 22) (fac : Fac) (T : ℝ) : RT x fac 0 T = 0 := by
  unfold RT
  refine Finset.sum_eq_zero fun ι _ => ?_
  rw [zero_div]
  rcases coef_n x ι with h | h
  · rw [h]; simp
  · rw [(shape m0 ι).phi_zero (by omega)]; simp

/-- The sum of the coefficients of the terms of methane linear in the density. -/
def gq : ℚ := ∑ k : Fin 25, if 1 ≤ k.1 ∧ k.1 ≤ aget KPOL 1 + aget KEXP 1 ∧ aget2 doik0 1 k = 1 then
  ((aget2 NOIK 1 k).m : ℚ) / 10 ^ (aget2 NOIK 1 k).e else 0
theorem gq_ne : gq < -1/10 := by decide +kernel

theorem BS_methane : BS (px 1) 1 = gq := by
  unfold BS gq
  rw [Fintype.sum_sum_type, Fintype.sum_prod_type, Finset.sum_eq_zero (s := Finset.univ (α := Fin 22 × Fin 22 × Fin 13)), add_zero]
  · rw [Finset.sum_eq_single 1]
    · push_cast
      refine Finset.sum_congr rfl fun k _ => ?_
      have e : (shape m0 (.inl (1, k))).n = aget2 doik0 1 k := by
        show aget2 m0.doik 1 k = _
        rw [m0_fields.1]
      rw [e, log_one, mul_zero, exp_zero, mul_one]
      have h1 : FOps.lt (EPSILON : ℝ) (aget (px 1) 1) = true := by
        rw [lt_eps, aget_px, if_pos rfl]; norm_num
      have hr : readP (px 1) 1 k ↔ 1 ≤ k.1 ∧ k.1 ≤ aget KPOL 1 + aget KEXP 1 := by
        unfold readP
        exact ⟨fun h => h.2.2, fun h => ⟨by decide, h1, h⟩⟩
      simp only [coef]
      rw [aget_px, if_pos rfl, one_mul]
      have hn : (tab2 NOIK 1 k : ℝ) = ((aget2 NOIK 1 k).m : ℝ) / 10 ^ (aget2 NOIK 1 k).e := rfl
      by_cases a : readP (px 1) 1 k
      · have b := hr.1 a
        rw [if_pos a, hn]
        by_cases c : aget2 doik0 1 k = 1
        · rw [if_pos c, if_pos ⟨b.1, b.2, c⟩, mul_one]
          push_cast
          rfl
        · rw [if_neg c, if_neg (fun h => c h.2.2), mul_zero, Rat.cast_zero]
      · rw [if_neg a, zero_mul, if_neg (fun h : _ ∧ _ ∧ _ => a (hr.2 ⟨h.1, h.2.1⟩)), Rat.cast_zero]
    · intro i _ hi
      refine Finset.sum_eq_zero fun k _ => ?_
      rcases coef_px 1 (.inl (i, k)) with h | ⟨n, h, -⟩
      · rw [h]; simp
      · injection h with h
        injection h with h
        exact absurd h hi
    · intro h; exact absurd (Finset.mem_univ _) h
  · intro ι _
    rcases coef_px 1 (.inr ι) with h | ⟨n, h, -⟩
    · rw [h]; simp
    · injection h

end Gerg
end Aga8
