import Mathlib.Analysis.Complex.ExponentialBounds
import Verif.Lemmas.GergMethane
import Verif.Lemmas.GergEos
import Verif.Lemmas.DetailDrift

/-! # Drift of the remembered temperature in the GERG model

Lemmas for C23: a sequence of evaluations at temperatures that move by at most 1e-7 never recomputes the temperature powers. -/

namespace Aga8.Gerg

open Tab

section any
variable {F : Type} [Add F] [Sub F] [Mul F] [Div F] [Neg F] [FOps F]

attribute [local irreducible] newP pressureP propertiesP densityP

/-- Pure form of `run`. -/
def runP (s : Gerg F) : List (Op F) → Gerg F × List (Out F)
  | [] => (s, [])
  | op :: ops => ((runP (stepP s op).1 ops).1, (stepP s op).2 :: (runP (stepP s op).1 ops).2)

theorem run_eq (ops : List (Op F)) {s : Gerg F} (hs : Idx s) : run s ops = .ok (runP s ops) := by
  induction ops generalizing s with
  | nil => rfl
  | cons op ops ih =>
    simp only [run, step_ok hs, bind, Except.bind, ih (idx_of_params (params_stepP s op) hs), pure, Except.pure, runP]

theorem runP_append (a b : List (Op F)) (s : Gerg F) :
    runP s (a ++ b) = ((runP (runP s a).1 b).1, (runP s a).2 ++ (runP (runP s a).1 b).2) := by
  induction a generalizing s with
  | nil => rfl
  | cons op ops ih => simp only [List.cons_append, runP, ih]

/-- Pure form of `freshRun`. -/
def freshRunP (q : Pub F) : List (Op F) → Pub F × List (Out F)
  | [] => (q, [])
  | op :: ops => ((freshRunP (pub (stepP (freshOf q) op).1) ops).1,
      (stepP (freshOf q) op).2 :: (freshRunP (pub (stepP (freshOf q) op).1) ops).2)

theorem freshRun_eq (ops : List (Op F)) (q : Pub F) : freshRun q ops = .ok (freshRunP q ops) := by
  induction ops generalizing q with
  | nil => rfl
  | cons op ops ih => simp only [freshRun, freshStep_ok, bind, Except.bind, ih, pure, Except.pure, freshRunP]

theorem freshRunP_append (a b : List (Op F)) (q : Pub F) :
    freshRunP q (a ++ b) = ((freshRunP (freshRunP q a).1 b).1,
      (freshRunP q a).2 ++ (freshRunP (freshRunP q a).1 b).2) := by
  induction a generalizing q with
  | nil => rfl
  | cons op ops ih => simp only [List.cons_append, freshRunP, ih]

theorem runP_params (ops : List (Op F)) (s : Gerg F) : params (runP s ops).1 = params s := by
  induction ops generalizing s with
  | nil => rfl
  | cons op ops ih => rw [runP, ih]; exact params_stepP s op

end any

attribute [local irreducible] newP pressureP propertiesP densityP

/-- The remembered terms `V` belong to composition `x` and, for the program, to temperature `T`. -/
structure Stored (s : Gerg ℝ) (x : Vector ℝ 22) (T : ℝ) (V : View ℝ) : Prop where
  params : params s = m0
  xold : XSame s.xold x
  told : s.told = T
  trold2 : s.trold2 = s.trold
  view : readV x (cache s) = V

theorem stored_after {s : Gerg ℝ} (hm : Gerg.params s = m0) : Stored (pressureP s).1 s.x s.t (Gerg.view s) := by
  have hc := cache_pressureP s
  obtain ⟨k1, k2, k3⟩ := refreshC_keys s.x s.t (Gerg.params s) (cache s)
  refine ⟨(params_pressureP s).trans hm, ?_, ?_, ?_, ?_⟩
  · have : (pressureP s).1.xold = xSave s.x (cache s).xold := (congrArg Cache.xold hc).trans k1
    rw [this]; exact xSave_same _ _
  · exact (congrArg Cache.told hc).trans k2
  · have a : (pressureP s).1.trold2 = _ := congrArg Cache.trold2 hc
    have b : (pressureP s).1.trold = _ := congrArg Cache.trold hc
    rw [a, b, k3]
  · rw [hc]; rfl

theorem stored_view {s : Gerg ℝ} {q : Pub ℝ} {T : ℝ} {V : View ℝ} (h : Stored s q.x T V) (ht : |q.t - T| ≤ 1e-7) :
    Gerg.view (setPub s q) = V := by
  have hx : xDiff q.x s.xold = false := xDiff_self selfDiff_real h.xold.symm
  have hc : cache (setPub s q) = cache s := cache_setPub s q
  have e : Gerg.view (setPub s q) = readV q.x (refreshC q.x q.t (Gerg.params (setPub s q)) (cache s)) := by
    rw [← hc]; rfl
  rw [e, refreshC_eq]
  have hx' : xDiff q.x (cache s).xold = false := hx
  rw [hx']
  simp only [Bool.false_eq_true, if_false]
  rw [readV_refreshT_fresh]
  · exact h.view
  · have a : FOps.lt (f% 0.0000001) (FOps.abs (q.t - (cache s).told)) = false := by
      show FOps.lt (f% 0.0000001) (FOps.abs (q.t - s.told)) = false
      rw [h.told, r_lt_false, r_abs, lem7]; exact ht
    have b : FOps.lt (f% 0.0000001) (FOps.abs ((cache s).trold - (cache s).trold2)) = false := by
      show FOps.lt (f% 0.0000001) (FOps.abs (s.trold - s.trold2)) = false
      rw [h.trold2]; exact selfDiff_real _
    rw [a, b]; rfl

/-- `n` evaluations of the pressure, the `k`-th at temperature `T0 + k h`. -/
noncomputable def walk (q : Pub ℝ) (h : ℝ) : Nat → List (Op ℝ)
  | 0 => [.write q, .pressure]
  | n + 1 => walk q h n ++ [.write (atT q (q.t + (n + 1 : ℕ) * h)), .pressure]

theorem walk_stored (q : Pub ℝ) (h : ℝ) (hh : |h| ≤ 1e-7) (n : Nat) :
    Stored (runP (newP : Gerg ℝ) (walk q h n)).1 q.x (q.t + n * h) (Gerg.view (freshOf q)) := by
  induction n with
  | zero =>
    have := stored_after (s := freshOf q) (params_freshOf q)
    have e : q.t + (0 : ℕ) * h = q.t := by simp
    rw [e]; exact this
  | succ n ih =>
    have e : (runP (newP : Gerg ℝ) (walk q h (n + 1))).1
        = (pressureP (setPub (runP (newP : Gerg ℝ) (walk q h n)).1 (atT q (q.t + (n + 1 : ℕ) * h)))).1 := by
      rw [walk, runP_append]; rfl
    rw [e]
    generalize (runP (newP : Gerg ℝ) (walk q h n)).1 = r at *
    have hv := stored_view (q := atT q (q.t + (n + 1 : ℕ) * h)) ih (by
      show |q.t + (n + 1 : ℕ) * h - (q.t + n * h)| ≤ 1e-7
      have : q.t + (n + 1 : ℕ) * h - (q.t + n * h) = h := by push_cast; ring
      rw [this]; exact hh)
    have := stored_after (s := setPub r (atT q (q.t + (n + 1 : ℕ) * h))) ((params_setPub _ _).trans ih.params)
    rw [hv] at this
    exact this

theorem walk_ops (q : Pub ℝ) (h : ℝ) (n : Nat) : ∀ op ∈ walk q h n, op = .pressure ∨ ∃ t, op = .write (atT q t) := by
  induction n with
  | zero =>
    intro op h
    rcases List.mem_cons.1 h with h | h
    · exact Or.inr ⟨q.t, h⟩
    · exact Or.inl (List.mem_singleton.1 h)
  | succ n ih =>
    intro op h
    rcases List.mem_append.1 h with h | h
    · exact ih op h
    · rcases List.mem_cons.1 h with h | h
      · exact Or.inr ⟨_, h⟩
      · exact Or.inl (List.mem_singleton.1 h)

/-- No two components that are present have a departure function. -/
def NoDep (x : Vector ℝ 22) : Prop := ∀ i j : Fin 22, 1 ≤ i.1 → i < j → 1e-15 < aget x i → 1e-15 < aget x j →
  (GergEos.departure i.1 j.1).2 = []

theorem NoDep.act {x : Vector ℝ 22} (h : NoDep x) (i j : Fin 22) (k : ℕ) : ¬ actM x i j k := by
  rintro ⟨h1, h2, h3, h4, h5, h6, h7⟩
  have e := h i j h1 h2 ((lt_eps _).1 h3) ((lt_eps _).1 h4)
  have hl := (dep_table i j h1 h2).1
  rw [e, if_neg (by omega)] at hl
  simp only [List.length_nil] at hl
  omega

theorem AR_nodep {s s' : Gerg ℝ} (hv : Gerg.view s = Gerg.view s') (hx : s.x = s'.x) (hm : Gerg.params s = Gerg.params s')
    (hn : NoDep s.x) (fac : Fac) (D : ℝ) : AR s fac D = AR s' fac D := by
  have ha : ampOf s = ampOf s' := by
    unfold ampOf
    funext ι
    rcases ι with ⟨i, k⟩ | ⟨i, j, k⟩ <;> simp only [amp]
    · rw [hv, hx]
    · rw [if_neg (hn.act i j k.1), if_neg (by rw [← hx]; exact hn.act i j k.1)]
  unfold AR
  rw [ha, hv, hm]

/-- After walking from `q` to any temperature, the pressure is computed with the terms of the start. -/
theorem drift (q : Pub ℝ) (hn : NoDep q.x) (T : ℝ) :
    ∃ pre : List (Op ℝ), (∀ op ∈ pre, op = .pressure ∨ ∃ t, op = .write (atT q t)) ∧
      (runP newP (pre ++ [.write (atT q T), .pressure])).2
        = (runP newP pre).2 ++ [.unit, .num (RGERG * T * (q.d * (1 + AR (freshOf q) Shape.f1 q.d)))] ∧
      (runP newP (pre ++ [.write (atT q T), .pressure])).1.z = 1 + AR (freshOf q) Shape.f1 q.d := by
  obtain ⟨n, h, hh, e⟩ := Detail.exists_steps q.t T
  refine ⟨walk q h n, walk_ops q h n, ?_⟩
  have ih := walk_stored q h hh n
  rw [runP_append]
  generalize (runP (newP : Gerg ℝ) (walk q h n)) = r at *
  have hv : Gerg.view (setPub r.1 (atT q T)) = Gerg.view (freshOf q) := by
    refine stored_view (q := atT q T) ih ?_
    show |T - (q.t + n * h)| ≤ 1e-7
    have : T - (q.t + n * h) = h := by rw [← e]; push_cast; ring
    rw [this]; exact hh
  have hm : Gerg.params (setPub r.1 (atT q T)) = m0 := (params_setPub _ _).trans ih.params
  have hp : PosE (Gerg.params (setPub r.1 (atT q T))) := by rw [hm]; exact posE_m0
  have ha := AR_nodep (s := setPub r.1 (atT q T)) (s' := freshOf q) hv rfl (hm.trans (params_freshOf q).symm) hn
    Shape.f1 q.d
  have h1 : (pressureP (setPub r.1 (atT q T))).2 = RGERG * T * (q.d * (1 + AR (setPub r.1 (atT q T)) Shape.f1 q.d)) :=
    pressureP_real hp
  have h2 : (pressureP (setPub r.1 (atT q T))).1.z = 1 + AR (setPub r.1 (atT q T)) Shape.f1 q.d :=
    pressureP_z_real hp
  rw [ha] at h1 h2
  refine ⟨?_, h2⟩
  show _ ++ [_, Out.num (pressureP (setPub r.1 (atT q T))).2] = _
  rw [h1]
  rfl

theorem nodep_px (k : Fin 22) : NoDep (px k) := by
  intro i j _ hij h1 h2
  have e : ∀ i, 1e-15 < aget (px k) i → i = k := by
    intro i h
    by_contra hne
    rw [aget_px, if_neg hne] at h
    norm_num at h
  rw [e i h1, e j h2] at hij
  exact absurd hij (lt_irrefl _)

/-! ## Methane at its critical point -/

/-- Sums of the polynomial and of the exponential terms of methane at the critical point. -/
theorem methane_sums :
    (∑ k : Fin 25, if 1 ≤ k.1 ∧ k.1 ≤ aget KPOL 1 then decQ (aget2 NOIK 1 k) * ((aget2 doik0 1 k : ℕ) : ℚ) else 0) < -0.94 ∧
    (∑ k : Fin 25, if aget KPOL 1 < k.1 ∧ k.1 ≤ aget KPOL 1 + aget KEXP 1 then
      decQ (aget2 NOIK 1 k) * (((aget2 doik0 1 k : ℕ) : ℚ) - ((aget2 coik0 1 k : ℕ) : ℚ)) else 0) < 0.64 ∧
    (0 ≤ ∑ k : Fin 25, if aget KPOL 1 < k.1 ∧ k.1 ≤ aget KPOL 1 + aget KEXP 1 then
      decQ (aget2 NOIK 1 k) * (((aget2 doik0 1 k : ℕ) : ℚ) - ((aget2 coik0 1 k : ℕ) : ℚ)) else 0) ∧
    ∀ k : Fin 25, aget KPOL 1 < k.1 ∧ k.1 ≤ aget KPOL 1 + aget KEXP 1 → aget2 coik0 1 k ≠ 0 := by
  decide +kernel

theorem shape_one (n k : ℕ) (t : ℝ) : (⟨n, k, 0, 0, t⟩ : Shape).phi 1 * (⟨n, k, 0, 0, t⟩ : Shape).f1 1
    = (n - k) * if k = 0 then 1 else Real.exp (-1) := by
  unfold Shape.phi Shape.q Shape.f1
  dsimp only
  split
  · simp [*]
  · simp [*]; ring

theorem methane_term (k : Fin 25) :
    coef (px 1) (.inl (1, k)) * Real.exp ((shape m0 (.inl (1, k))).t * Real.log 1)
      * ((shape m0 (.inl (1, k))).phi 1 * (shape m0 (.inl (1, k))).f1 1)
    = ((if 1 ≤ k.1 ∧ k.1 ≤ aget KPOL 1 then decQ (aget2 NOIK 1 k) * ((aget2 doik0 1 k : ℕ) : ℚ) else 0 : ℚ) : ℝ)
      + ((if aget KPOL 1 < k.1 ∧ k.1 ≤ aget KPOL 1 + aget KEXP 1 then
      decQ (aget2 NOIK 1 k) * (((aget2 doik0 1 k : ℕ) : ℚ) - ((aget2 coik0 1 k : ℕ) : ℚ)) else 0 : ℚ) : ℝ) * Real.exp (-1) := by
  have hx : FOps.lt EPSILON (aget (px 1) 1) = true := by rw [lt_eps, aget_px, if_pos rfl]; norm_num
  rw [Real.log_one, mul_zero, Real.exp_zero, mul_one]
  simp only [coef]
  by_cases hk : 1 ≤ k.1 ∧ k.1 ≤ aget KPOL 1 + aget KEXP 1
  · have hr : readP (px 1) 1 k := ⟨by decide, hx, hk⟩
    rw [if_pos hr, aget_px, if_pos rfl, one_mul, tab2_decQ]
    simp only [shape]
    rw [m0_fields.1, m0_fields.2.1, shape_one]
    have h0 := methane_sums.2.2.2 k
    generalize aget2 doik0 1 k = d, aget2 coik0 1 k = c, decQ (aget2 NOIK 1 k) = n at *
    by_cases hp : k.1 ≤ aget KPOL 1
    · have h1 : ¬ (aget KPOL 1 < k.1 ∧ k.1 ≤ aget KPOL 1 + aget KEXP 1) := fun h => absurd h.1 (not_lt.2 hp)
      have h2 : 1 ≤ k.1 ∧ k.1 ≤ aget KPOL 1 := ⟨hk.1, hp⟩
      simp only [if_pos hp, if_pos h2, if_neg h1]
      push_cast
      ring
    · have h1 : aget KPOL 1 < k.1 ∧ k.1 ≤ aget KPOL 1 + aget KEXP 1 := ⟨not_le.1 hp, hk.2⟩
      have h2 : ¬ (1 ≤ k.1 ∧ k.1 ≤ aget KPOL 1) := fun h => hp h.2
      simp only [if_neg hp, if_neg h2, if_pos h1, if_neg (h0 h1)]
      push_cast
      ring
  · rw [if_neg (fun h : readP (px 1) 1 k => hk h.2.2), if_neg (fun h => hk ⟨h.1, h.2.trans (Nat.le_add_right _ _)⟩),
      if_neg (fun h => hk ⟨by omega, h.2⟩)]
    simp

/-- At the critical point the residual part of the compression factor of methane is below -0.3. -/
theorem methane_critical : RS (px 1) Shape.f1 1 1 < -0.3 := by
  have e : RS (px 1) Shape.f1 1 1 = ∑ k : Fin 25, coef (px 1) (.inl (1, k)) *
      Real.exp ((shape m0 (.inl (1, k))).t * Real.log 1) *
      ((shape m0 (.inl (1, k))).phi 1 * (shape m0 (.inl (1, k))).f1 1) := by
    unfold RS
    rw [Fintype.sum_sum_type, Fintype.sum_prod_type, Finset.sum_eq_single 1,
      Finset.sum_eq_zero (s := (Finset.univ : Finset (Fin 22 × Fin 22 × Fin 13))), add_zero]
    · intro ι _
      rcases coef_px 1 (.inr ι) with h | ⟨n, h, -⟩
      · rw [h, zero_mul, zero_mul]
      · cases h
    · intro i _ hi
      refine Finset.sum_eq_zero fun k _ => ?_
      rcases coef_px 1 (.inl (i, k)) with h | ⟨n, h, -⟩
      · rw [h, zero_mul, zero_mul]
      · cases h; exact absurd rfl hi
    · intro h; exact absurd (Finset.mem_univ _) h
  rw [e, Finset.sum_congr rfl fun k _ => methane_term k, Finset.sum_add_distrib, ← Finset.sum_mul]
  obtain ⟨a, b, c, -⟩ := methane_sums
  rw [← Rat.cast_sum, ← Rat.cast_sum]
  have he : Real.exp (-1) ≤ 1 := Real.exp_le_one_iff.2 (by norm_num)
  have a := Rat.cast_lt (K := ℝ) |>.2 a
  have b := Rat.cast_lt (K := ℝ) |>.2 b
  have c := Rat.cast_le (K := ℝ) |>.2 c
  generalize ((∑ k : Fin 25, if 1 ≤ k.1 ∧ k.1 ≤ aget KPOL 1 then decQ (aget2 NOIK 1 k) * ((aget2 doik0 1 k : ℕ) : ℚ) else 0 : ℚ) : ℝ) = A at *
  generalize ((∑ k : Fin 25, if aget KPOL 1 < k.1 ∧ k.1 ≤ aget KPOL 1 + aget KEXP 1 then
      decQ (aget2 NOIK 1 k) * (((aget2 doik0 1 k : ℕ) : ℚ) - ((aget2 coik0 1 k : ℕ) : ℚ)) else 0 : ℚ) : ℝ) = B at *
  push_cast at a b c
  nlinarith [Real.exp_pos (-1)]

theorem present_px : Present (px 1) := ⟨1, by decide, by rw [aget_px, if_pos rfl]; norm_num⟩

theorem trX_methane : trX (px 1) = 190.564 := by
  rw [trX_eq]
  unfold GergEos.Tr GergEos.reducing
  have hy : ∀ i, yOf (px 1) i = if i = 1 then 1 else 0 := by
    intro i
    unfold yOf
    rw [aget_px]
    split <;> norm_num
  simp only [hy]
  rw [Finset.sum_eq_single 1]
  · rw [if_pos rfl, Finset.sum_eq_zero]
    · rw [val_eq, ofDec_decQ]
      have : decQ GTIJ[(1 : Fin 22).1][(1 : Fin 22).1] = 190.564 := by decide +kernel
      rw [this]; norm_num
    · intro j hj
      have : j ≠ 1 := by
        intro h; rw [h] at hj; simp at hj
      rw [if_neg this]; ring
  · intro i _ hi
    rw [if_neg hi, Finset.sum_eq_zero]
    · ring
    · intro j _; ring
  · intro h; simp at h

theorem drX_methane : drX (px 1) ≠ 0 := by
  unfold drX drOf
  rw [if_pos ((lt_eps _).2 present_px.vr), l1]
  have : (0 : ℝ) < (redX (px 1) m0.bvij).1 := lt_trans (by norm_num) present_px.vr
  positivity

theorem methane_cold : RT (px 1) Shape.f1 (drX (px 1)) 190.564 < -0.3 := by
  rw [RT_eq, trX_methane, div_self drX_methane, div_self (by norm_num)]
  exact methane_critical

theorem methane_warm : ∃ T : ℝ, 1 ≤ T ∧ -0.1 < RT (px 1) Shape.f1 (drX (px 1)) T :=
  ((Filter.eventually_ge_atTop 1).and
    ((RT_methane_tendsto Shape.f1 (drX (px 1))).eventually_const_lt (by norm_num))).exists

end Aga8.Gerg
