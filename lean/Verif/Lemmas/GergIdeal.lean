import Mathlib.Tactic.Positivity
import Verif.Lemmas.IdealReal
import Verif.Lemmas.GergDens

/-! # The GERG ideal-gas part over the reals and its derivatives -/

namespace Aga8.Gerg

open Tab Finset Real

/-- The hyperbolic terms of one component (`sumhyp0`), as a function of temperature. -/
noncomputable def H0 (m : Params ℝ) (i : Fin 22) (T : ℝ) : ℝ :=
  ∑ j : Fin 8 with 4 ≤ j.1, if 1e-15 < (tab2 TH0I i j : ℝ) then
    (if j.1 = 4 ∨ j.1 = 6 then aget2 m.n0i i j * log (sinh (tab2 TH0I i j / T))
      else -aget2 m.n0i i j * log (cosh (tab2 TH0I i j / T))) else 0

/-- `sumhyp1`. -/
noncomputable def H1 (m : Params ℝ) (i : Fin 22) (T : ℝ) : ℝ :=
  ∑ j : Fin 8 with 4 ≤ j.1, if 1e-15 < (tab2 TH0I i j : ℝ) then
    (if j.1 = 4 ∨ j.1 = 6 then aget2 m.n0i i j
        * (tab2 TH0I i j / T * cosh (tab2 TH0I i j / T) / sinh (tab2 TH0I i j / T))
      else -aget2 m.n0i i j
        * (tab2 TH0I i j / T * sinh (tab2 TH0I i j / T) / cosh (tab2 TH0I i j / T))) else 0

/-- `sumhyp2`. -/
noncomputable def H2 (m : Params ℝ) (i : Fin 22) (T : ℝ) : ℝ :=
  ∑ j : Fin 8 with 4 ≤ j.1, if 1e-15 < (tab2 TH0I i j : ℝ) then
    (if j.1 = 4 ∨ j.1 = 6 then aget2 m.n0i i j * (tab2 TH0I i j / T / sinh (tab2 TH0I i j / T)) ^ 2
      else aget2 m.n0i i j * (tab2 TH0I i j / T / cosh (tab2 TH0I i j / T)) ^ 2) else 0

/-- `ln` of the density as the code takes it. -/
noncomputable def logD (d : ℝ) : ℝ := if 1e-15 < d then log d else log 1e-15

/-- `a0[0]`. -/
noncomputable def I0 (m : Params ℝ) (x : Vector ℝ 22) (d T : ℝ) : ℝ :=
  ∑ i : Fin 22 with 1 ≤ i.1, if 1e-15 < aget x i then aget x i * (logD d + log (aget x i) + aget2 m.n0i i 1
    + aget2 m.n0i i 2 / T - aget2 m.n0i i 3 * log T + H0 m i T) else 0

/-- `a0[1]`. -/
noncomputable def I1 (m : Params ℝ) (x : Vector ℝ 22) (T : ℝ) : ℝ :=
  ∑ i : Fin 22 with 1 ≤ i.1, if 1e-15 < aget x i then aget x i * (aget2 m.n0i i 3 + aget2 m.n0i i 2 / T
    + H1 m i T) else 0

/-- `a0[2]`. -/
noncomputable def I2 (m : Params ℝ) (x : Vector ℝ 22) (T : ℝ) : ℝ :=
  ∑ i : Fin 22 with 1 ≤ i.1, if 1e-15 < aget x i then -aget x i * (aget2 m.n0i i 3 + H2 m i T) else 0

theorem a0Hyp_real (s : Gerg ℝ) (i : Fin 22) :
    loop 4 8 ((f% 0.0 : ℝ), (f% 0.0 : ℝ), (f% 0.0 : ℝ)) (a0Hyp s i)
      = (H0 (params s) i s.t, H1 (params s) i s.t, H2 (params s) i s.t) := by
  have key : ∀ (j : Fin 8) (h : ℝ × ℝ × ℝ), a0Hyp s i j h =
      (h.1 + (if 1e-15 < (tab2 TH0I i j : ℝ) then
        (if j.1 = 4 ∨ j.1 = 6 then aget2 s.n0i i j * log (sinh (tab2 TH0I i j / s.t))
        else -aget2 s.n0i i j * log (cosh (tab2 TH0I i j / s.t))) else 0),
       h.2.1 + (if 1e-15 < (tab2 TH0I i j : ℝ) then
        (if j.1 = 4 ∨ j.1 = 6 then aget2 s.n0i i j
          * (tab2 TH0I i j / s.t * cosh (tab2 TH0I i j / s.t) / sinh (tab2 TH0I i j / s.t))
        else -aget2 s.n0i i j
          * (tab2 TH0I i j / s.t * sinh (tab2 TH0I i j / s.t) / cosh (tab2 TH0I i j / s.t))) else 0),
       h.2.2 + (if 1e-15 < (tab2 TH0I i j : ℝ) then
        (if j.1 = 4 ∨ j.1 = 6 then
          aget2 s.n0i i j * (tab2 TH0I i j / s.t / sinh (tab2 TH0I i j / s.t)) ^ 2
        else aget2 s.n0i i j * (tab2 TH0I i j / s.t / cosh (tab2 TH0I i j / s.t)) ^ 2) else 0)) := by
    intro j h
    unfold a0Hyp
    simp only [ep_sinh, ep_cosh, lt_eps, r_ln, r_abs, log_abs, Bool.or_eq_true, beq_iff_eq]
    by_cases h0 : 1e-15 < (tab2 TH0I i j : ℝ)
    · simp only [h0, if_true]
      split
      · refine Prod.ext rfl (Prod.ext ?_ ?_) <;> dsimp only <;> ring
      · refine Prod.ext ?_ (Prod.ext ?_ ?_) <;> dsimp only <;> ring
    · simp only [h0, if_false, add_zero]
  refine Prod.ext ?_ (Prod.ext ?_ ?_)
  · rw [loop_proj_add (fun h : ℝ × ℝ × ℝ => h.1) _ _ _ (fun j h _ => by rw [key]), l0, zero_add]
    rfl
  · rw [loop_proj_add (fun h : ℝ × ℝ × ℝ => h.2.1) _ _ _ (fun j h _ => by rw [key]), l0, zero_add]
    rfl
  · rw [loop_proj_add (fun h : ℝ × ℝ × ℝ => h.2.2) _ _ _ (fun j h _ => by rw [key]), l0, zero_add]
    rfl

theorem a0_real (s : Gerg ℝ) :
    aget (alpha0 s).a0 0 = I0 (params s) s.x s.d s.t ∧
    aget (alpha0 s).a0 1 = I1 (params s) s.x s.t ∧
    aget (alpha0 s).a0 2 = I2 (params s) s.x s.t := by
  have hl : (if FOps.lt (EPSILON : ℝ) s.d = true then FOps.ln s.d else FOps.ln EPSILON) = logD s.d := by
    unfold logD
    simp only [lt_eps, r_ln]
    unfold EPSILON
    rw [lem15]
  have key : ∀ (i : Fin 22) (a : ℝ × ℝ × ℝ), a0Comp s (logD s.d) (log s.t) i a =
      (a.1 + (if 1e-15 < aget s.x i then aget s.x i * (logD s.d + log (aget s.x i)
          + aget2 s.n0i i 1 + aget2 s.n0i i 2 / s.t
          - aget2 s.n0i i 3 * log s.t + H0 (params s) i s.t) else 0),
       a.2.1 + (if 1e-15 < aget s.x i then aget s.x i * (aget2 s.n0i i 3 + aget2 s.n0i i 2 / s.t
          + H1 (params s) i s.t) else 0),
       a.2.2 + (if 1e-15 < aget s.x i then -aget s.x i * (aget2 s.n0i i 3 + H2 (params s) i s.t) else 0)) := by
    intro i a
    unfold a0Comp
    simp only [a0Hyp_real, lt_eps, r_ln]
    split <;> simp
  have e : (alpha0 s).a0 = #v[
      (loop 1 22 ((f% 0.0 : ℝ), (f% 0.0 : ℝ), (f% 0.0 : ℝ)) (a0Comp s (logD s.d) (log s.t))).1,
      (loop 1 22 ((f% 0.0 : ℝ), (f% 0.0 : ℝ), (f% 0.0 : ℝ)) (a0Comp s (logD s.d) (log s.t))).2.1,
      (loop 1 22 ((f% 0.0 : ℝ), (f% 0.0 : ℝ), (f% 0.0 : ℝ)) (a0Comp s (logD s.d) (log s.t))).2.2] := by
    unfold alpha0
    dsimp only
    rw [hl]
    rfl
  rw [e]
  refine ⟨?_, ?_, ?_⟩
  · show (loop 1 22 ((f% 0.0 : ℝ), (f% 0.0 : ℝ), (f% 0.0 : ℝ)) (a0Comp s (logD s.d) (log s.t))).1 = _
    rw [loop_proj_add (fun h : ℝ × ℝ × ℝ => h.1) _ _ _ (fun j h _ => by rw [key]), l0, zero_add]
    rfl
  · show (loop 1 22 ((f% 0.0 : ℝ), (f% 0.0 : ℝ), (f% 0.0 : ℝ)) (a0Comp s (logD s.d) (log s.t))).2.1 = _
    rw [loop_proj_add (fun h : ℝ × ℝ × ℝ => h.2.1) _ _ _ (fun j h _ => by rw [key]), l0, zero_add]
    rfl
  · show (loop 1 22 ((f% 0.0 : ℝ), (f% 0.0 : ℝ), (f% 0.0 : ℝ)) (a0Comp s (logD s.d) (log s.t))).2.2 = _
    rw [loop_proj_add (fun h : ℝ × ℝ × ℝ => h.2.2) _ _ _ (fun j h _ => by rw [key]), l0, zero_add]
    rfl

/-! ## Temperature derivatives -/

theorem hasDerivAt_H0 (m : Params ℝ) (i : Fin 22) {T : ℝ} (hT : 0 < T) :
    HasDerivAt (H0 m i) (-H1 m i T / T) T := by
  have h : HasDerivAt (H0 m i)
      (∑ j : Fin 8 with 4 ≤ j.1, if 1e-15 < (tab2 TH0I i j : ℝ) then
        (if j.1 = 4 ∨ j.1 = 6 then aget2 m.n0i i j *
            (-(tab2 TH0I i j / T * cosh (tab2 TH0I i j / T) / sinh (tab2 TH0I i j / T)) / T)
        else -aget2 m.n0i i j *
            (-(tab2 TH0I i j / T * sinh (tab2 TH0I i j / T) / cosh (tab2 TH0I i j / T)) / T)) else 0) T := by
    unfold H0
    refine HasDerivAt.fun_sum fun j _ => ?_
    split
    · rename_i h0
      split
      · exact (hasDerivAt_logsinh (lt_trans (by norm_num) h0) hT).const_mul _
      · exact (hasDerivAt_logcosh hT).const_mul _
    · exact hasDerivAt_const _ _
  refine h.congr_deriv ?_
  unfold H1
  rw [← Finset.sum_neg_distrib, Finset.sum_div]
  refine Finset.sum_congr rfl fun j _ => ?_
  split
  · split <;> ring
  · simp

theorem hasDerivAt_H1 (m : Params ℝ) (i : Fin 22) {T : ℝ} (hT : 0 < T) :
    HasDerivAt (H1 m i) ((H2 m i T - H1 m i T) / T) T := by
  have h : HasDerivAt (H1 m i)
      (∑ j : Fin 8 with 4 ≤ j.1, if 1e-15 < (tab2 TH0I i j : ℝ) then
        (if j.1 = 4 ∨ j.1 = 6 then aget2 m.n0i i j *
            (-(tab2 TH0I i j / T * cosh (tab2 TH0I i j / T) / sinh (tab2 TH0I i j / T)
                - (tab2 TH0I i j / T / sinh (tab2 TH0I i j / T)) ^ 2) / T)
        else -aget2 m.n0i i j *
            (-(tab2 TH0I i j / T * sinh (tab2 TH0I i j / T) / cosh (tab2 TH0I i j / T)
                + (tab2 TH0I i j / T / cosh (tab2 TH0I i j / T)) ^ 2) / T)) else 0) T := by
    unfold H1
    refine HasDerivAt.fun_sum fun j _ => ?_
    split
    · rename_i h0
      split
      · exact (hasDerivAt_xcoth (lt_trans (by norm_num) h0) hT).const_mul _
      · exact (hasDerivAt_xtanh hT).const_mul _
    · exact hasDerivAt_const _ _
  refine h.congr_deriv ?_
  unfold H2 H1
  rw [← Finset.sum_sub_distrib, Finset.sum_div]
  refine Finset.sum_congr rfl fun j _ => ?_
  split
  · split <;> ring
  · simp

theorem hasDerivAt_I0 (m : Params ℝ) (x : Vector ℝ 22) (d : ℝ) {T : ℝ} (hT : 0 < T) :
    HasDerivAt (fun T => I0 m x d T) (-I1 m x T / T) T := by
  unfold I0 I1
  rw [← Finset.sum_neg_distrib, Finset.sum_div]
  refine HasDerivAt.fun_sum fun i _ => ?_
  split
  · have h := (((hasDerivAt_theta (aget2 m.n0i i 2) hT.ne').const_add
      (logD d + log (aget x i) + aget2 m.n0i i 1)).sub
        ((Real.hasDerivAt_log hT.ne').const_mul (aget2 m.n0i i 3))).add (hasDerivAt_H0 m i hT)
    refine (h.const_mul (aget x i)).congr_deriv ?_
    field_simp
    ring
  · simpa using hasDerivAt_const T (0 : ℝ)

theorem hasDerivAt_I1 (m : Params ℝ) (x : Vector ℝ 22) {T : ℝ} (hT : 0 < T) :
    HasDerivAt (fun T => T * I1 m x T) (-I2 m x T) T := by
  have e : (fun T => T * I1 m x T) = fun T => ∑ i : Fin 22 with 1 ≤ i.1, if 1e-15 < aget x i then
      aget x i * (T * (aget2 m.n0i i 3 + aget2 m.n0i i 2 / T + H1 m i T)) else 0 := by
    funext T
    unfold I1
    rw [Finset.mul_sum]
    refine Finset.sum_congr rfl fun i _ => ?_
    split
    · ring
    · simp
  rw [e]
  unfold I2
  rw [← Finset.sum_neg_distrib]
  refine HasDerivAt.fun_sum fun i _ => ?_
  split
  · have h := (hasDerivAt_id T).mul (((hasDerivAt_theta (aget2 m.n0i i 2) hT.ne').const_add
      (aget2 m.n0i i 3)).add (hasDerivAt_H1 m i hT))
    refine (h.const_mul (aget x i)).congr_deriv ?_
    simp only [id, Pi.add_apply]
    field_simp
    ring
  · simpa using hasDerivAt_const T (0 : ℝ)

/-! ## Density derivative -/

theorem hasDerivAt_I0_d (m : Params ℝ) (x : Vector ℝ 22) (T : ℝ) {d : ℝ} (hd : 1e-15 < d) :
    HasDerivAt (fun d => I0 m x d T)
      ((∑ i : Fin 22 with 1 ≤ i.1, if 1e-15 < aget x i then aget x i else 0) / d) d := by
  have hd0 : d ≠ 0 := by intro h; rw [h] at hd; norm_num at hd
  have hl : HasDerivAt logD (1 / d) d := by
    have := Real.hasDerivAt_log hd0
    rw [one_div]
    refine this.congr_of_eventuallyEq ?_
    filter_upwards [lt_mem_nhds hd] with e he
    simp [logD, he]
  unfold I0
  rw [Finset.sum_div]
  refine HasDerivAt.fun_sum fun i _ => ?_
  split
  · have h := ((((hl.add_const (log (aget x i))).add_const (aget2 m.n0i i 1)).add_const
      (aget2 m.n0i i 2 / T)).sub_const (aget2 m.n0i i 3 * log T)).add_const (H0 m i T)
    refine (h.const_mul (aget x i)).congr_deriv ?_
    ring
  · simpa using hasDerivAt_const d (0 : ℝ)

end Aga8.Gerg
