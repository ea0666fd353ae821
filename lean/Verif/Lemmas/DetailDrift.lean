import Verif.Lemmas.DetailMethane

/-! # Drift of the remembered temperature and composition

Lemmas for C20: a sequence of evaluations at inputs that move by at most 1e-7 never recomputes the
temperature and composition terms. -/

namespace Aga8.Detail

section any
variable {F : Type} [Add F] [Sub F] [Mul F] [Div F] [Neg F] [FOps F]

/-- Pure form of `run`. -/
def runP (s : Detail F) : List (Op F) → Detail F × List (Out F)
  | [] => (s, [])
  | op :: ops => ((runP (stepP s op).1 ops).1, (stepP s op).2 :: (runP (stepP s op).1 ops).2)

theorem run_eq (ops : List (Op F)) (s : Detail F) : run s ops = .ok (runP s ops) := by
  induction ops generalizing s with
  | nil => rfl
  | cons op ops ih => simp only [run, step_ok, bind, Except.bind, ih, pure, Except.pure, runP]

theorem runP_append (a b : List (Op F)) (s : Detail F) :
    runP s (a ++ b) = ((runP (runP s a).1 b).1, (runP s a).2 ++ (runP (runP s a).1 b).2) := by
  induction a generalizing s with
  | nil => rfl
  | cons op ops ih => simp only [List.cons_append, runP, ih]

/-- Pure form of `freshRun`. -/
def freshRunP (q : Pub F) : List (Op F) → Pub F × List (Out F)
  | [] => (q, [])
  | op :: ops => ((freshRunP (pub (stepP (freshOf q) op).1) ops).1,
      (stepP (freshOf q) op).2 :: (freshRunP (pub (stepP (freshOf q) op).1) ops).2)

theorem freshRun_eq (ops : List (Op F)) (q : Pub F) : freshRun q ops = .ok (freshRunP q ops) := by
  induction ops generalizing q with
  | nil => rfl
  | cons op ops ih => simp only [freshRun, freshStep_ok, bind, Except.bind, ih, pure, Except.pure, freshRunP]

theorem freshRunP_append (a b : List (Op F)) (q : Pub F) :
    freshRunP q (a ++ b) = ((freshRunP (freshRunP q a).1 b).1,
      (freshRunP q a).2 ++ (freshRunP (freshRunP q a).1 b).2) := by
  induction a generalizing q with
  | nil => rfl
  | cons op ops ih => simp only [List.cons_append, freshRunP, ih]

theorem runP_params (ops : List (Op F)) (s : Detail F) : params (runP s ops).1 = params s := by
  induction ops generalizing s with
  | nil => rfl
  | cons op ops ih => rw [runP, ih]; exact params_stepP s op

end any

/-- `q` at temperature `T` and composition `x`. -/
def atTX (q : Pub ℝ) (T : ℝ) (x : Vector ℝ 21) : Pub ℝ := { q with t := T, x := x }

/-- Two inputs whose temperature and fractions differ by at most 1e-7. -/
def Near (a b : Pub ℝ) : Prop := |b.t - a.t| ≤ 1e-7 ∧ ∀ i : Fin 21, |aget b.x i - aget a.x i| ≤ 1e-7

/-- Evaluations of the pressure at the points `f 0, …, f n` of a path. -/
noncomputable def walk (f : Nat → Pub ℝ) : Nat → List (Op ℝ)
  | 0 => [.write (f 0), .pressure]
  | n + 1 => walk f n ++ [.write (f (n + 1)), .pressure]

theorem view_same {s : Detail ℝ} {r : Pub ℝ} (q : Pub ℝ) (hx : s.xold = r.x) (ht : s.told = r.t)
    (h : Near r q) : view (setPub s q) = stored s := by
  have a : xDiff (setPub s q).x (setPub s q).xold = false := by
    show xDiff q.x s.xold = false
    rw [hx]
    unfold xDiff
    rw [List.any_eq_false]
    intro i _
    rw [Bool.not_eq_true, r_lt_false, r_abs, lem7]
    exact h.2 i
  have b : tDiff (setPub s q).t (setPub s q).told = false := by
    show FOps.lt (f% 0.0000001) (FOps.abs (q.t - s.told)) = false
    rw [ht, r_lt_false, r_abs, lem7]; exact h.1
  unfold view
  rw [a, b]
  rfl

theorem walk_stored (f : Nat → Pub ℝ) (hf : ∀ k, Near (f k) (f (k + 1))) (n : Nat) (s : Detail ℝ) :
    (runP s (walk f n)).1.xold = (f n).x ∧ (runP s (walk f n)).1.told = (f n).t ∧
    stored (runP s (walk f n)).1 = view (setPub s (f 0)) := by
  induction n with
  | zero =>
    have e : (runP s (walk f 0)).1 = (pressureP (setPub s (f 0))).1 := rfl
    rw [e, xold_pressureP, told_pressureP, stored_pressureP]
    exact ⟨rfl, rfl, rfl⟩
  | succ n ih =>
    obtain ⟨i1, i2, i3⟩ := ih
    have e : (runP s (walk f (n + 1))).1 = (pressureP (setPub (runP s (walk f n)).1 (f (n + 1)))).1 := by
      rw [walk, runP_append]; rfl
    rw [e, xold_pressureP, told_pressureP, stored_pressureP]
    refine ⟨rfl, rfl, ?_⟩
    rw [← i3]
    exact view_same _ i1 i2 (hf n)

theorem walk_ops (f : Nat → Pub ℝ) (n : Nat) : ∀ op ∈ walk f n, op = Op.pressure ∨ ∃ k, op = Op.write (f k) := by
  induction n with
  | zero =>
    intro op h
    rcases List.mem_cons.1 h with h | h
    · exact Or.inr ⟨0, h⟩
    · exact Or.inl (List.mem_singleton.1 h)
  | succ n ih =>
    intro op h
    rcases List.mem_append.1 h with h | h
    · exact ih op h
    · rcases List.mem_cons.1 h with h | h
      · exact Or.inr ⟨_, h⟩
      · exact Or.inl (List.mem_singleton.1 h)

/-- The point reached after `k` of `n + 1` equal steps from `q` to `(T, x)`. -/
noncomputable def lerp (q : Pub ℝ) (T : ℝ) (x : Vector ℝ 21) (n : Nat) (k : Nat) : Pub ℝ :=
  atTX q (q.t + k * ((T - q.t) / (n + 1 : ℕ)))
    (Vector.ofFn fun i => aget q.x i + k * ((aget x i - aget q.x i) / (n + 1 : ℕ)))

theorem lerp_zero (q : Pub ℝ) (T : ℝ) (x : Vector ℝ 21) (n : Nat) : lerp q T x n 0 = q := by
  have h : (Vector.ofFn fun i => aget q.x i + (0 : ℕ) * ((aget x i - aget q.x i) / (n + 1 : ℕ))) = q.x := by
    apply arr_ext; intro i; rw [aget_ofFn]; simp
  unfold lerp
  rw [h]
  simp [atTX]

theorem lerp_end (q : Pub ℝ) (T : ℝ) (x : Vector ℝ 21) (n : Nat) : lerp q T x n (n + 1) = atTX q T x := by
  have hn : ((n + 1 : ℕ) : ℝ) ≠ 0 := by positivity
  have h : (Vector.ofFn fun i => aget q.x i + (n + 1 : ℕ) * ((aget x i - aget q.x i) / (n + 1 : ℕ))) = x := by
    apply arr_ext; intro i; rw [aget_ofFn, mul_div_cancel₀ _ hn]; ring
  unfold lerp
  rw [h, mul_div_cancel₀ _ hn]
  congr 1
  ring

/-- Everything can be reached with steps of at most 1e-7. -/
theorem lerp_near (q : Pub ℝ) (T : ℝ) (x : Vector ℝ 21) : ∃ n, ∀ k, Near (lerp q T x n k) (lerp q T x n (k + 1)) := by
  obtain ⟨n, hn⟩ := exists_nat_ge ((|T - q.t| + ∑ i, |aget x i - aget q.x i|) / 1e-7)
  rw [div_le_iff₀ (by norm_num)] at hn
  have hs : ∀ i : Fin 21, |aget x i - aget q.x i| ≤ ∑ i, |aget x i - aget q.x i| := fun i =>
    Finset.single_le_sum (f := fun i => |aget x i - aget q.x i|) (fun j _ => abs_nonneg _) (Finset.mem_univ i)
  have h0 : 0 ≤ ∑ i, |aget x i - aget q.x i| := Finset.sum_nonneg fun i _ => abs_nonneg _
  have hT := abs_nonneg (T - q.t)
  have key : ∀ a : ℝ, |a| ≤ |T - q.t| + ∑ i, |aget x i - aget q.x i| → |a / (n + 1 : ℕ)| ≤ 1e-7 := by
    intro a ha
    rw [abs_div, div_le_iff₀ (by positivity), abs_of_nonneg (by positivity : (0 : ℝ) ≤ ((n + 1 : ℕ) : ℝ))]
    push_cast
    linarith
  refine ⟨n, fun k => ⟨?_, fun i => ?_⟩⟩
  · show |q.t + (k + 1 : ℕ) * ((T - q.t) / (n + 1 : ℕ)) - (q.t + k * ((T - q.t) / (n + 1 : ℕ)))| ≤ 1e-7
    have e : q.t + (k + 1 : ℕ) * ((T - q.t) / (n + 1 : ℕ)) - (q.t + k * ((T - q.t) / (n + 1 : ℕ)))
        = (T - q.t) / (n + 1 : ℕ) := by push_cast; ring
    rw [e]
    exact key _ (by linarith)
  · show |aget (Vector.ofFn _) i - aget (Vector.ofFn _) i| ≤ 1e-7
    rw [aget_ofFn, aget_ofFn]
    have e : aget q.x i + (k + 1 : ℕ) * ((aget x i - aget q.x i) / (n + 1 : ℕ))
        - (aget q.x i + k * ((aget x i - aget q.x i) / (n + 1 : ℕ))) = (aget x i - aget q.x i) / (n + 1 : ℕ) := by
      push_cast; ring
    rw [e]
    exact key _ (by linarith [hs i])

/-- Every temperature can be reached with steps of at most 1e-7. -/
theorem exists_steps (a b : ℝ) : ∃ (n : Nat) (h : ℝ), |h| ≤ 1e-7 ∧ a + (n + 1 : ℕ) * h = b := by
  obtain ⟨n, hn⟩ := exists_nat_ge (|b - a| / 1e-7)
  refine ⟨n, (b - a) / (n + 1 : ℕ), ?_, ?_⟩
  · rw [abs_div, div_le_iff₀ (by positivity)]
    rw [div_le_iff₀ (by norm_num)] at hn
    rw [abs_of_nonneg (by positivity : (0 : ℝ) ≤ ((n + 1 : ℕ) : ℝ))]
    push_cast
    nlinarith
  · field_simp
    ring

/-- After walking from `q` to any temperature and composition, the pressure is computed with the terms of the
start. -/
theorem drift (q : Pub ℝ) (T : ℝ) (x : Vector ℝ 21) (hT : T ≠ 0) :
    ∃ pre : List (Op ℝ),
      (∀ op ∈ pre, op = Op.pressure ∨ ∃ t y, op = Op.write (atTX q t y)) ∧ ∀ s : Detail ℝ, s = newP →
      (runP s (pre ++ [.write (atTX q T x), .pressure])).2
        = (runP s pre).2 ++ [.unit, .num (RDETAIL * T * (q.d * (1 + A1 (view (freshOf q)) q.d)))] ∧
      (runP s (pre ++ [.write (atTX q T x), .pressure])).1.z = 1 + A1 (view (freshOf q)) q.d := by
  obtain ⟨n, hn⟩ := lerp_near q T x
  refine ⟨walk (lerp q T x n) n, ?_, fun s hs => ?_⟩
  · intro op h
    rcases walk_ops _ n op h with h | ⟨k, h⟩
    · exact Or.inl h
    · exact Or.inr ⟨_, _, h⟩
  obtain ⟨i1, i2, i3⟩ := walk_stored _ hn n s
  have hv : view (setPub (runP s (walk (lerp q T x n) n)).1 (atTX q T x)) = view (freshOf q) := by
    have hl := hn n
    rw [lerp_end] at hl
    rw [view_same _ i1 i2 hl, i3, hs, lerp_zero]
    rfl
  rw [runP_append]
  generalize (runP s (walk (lerp q T x n) n)).1 = r at *
  have h1 := pressureP_real (setPub r (atTX q T x)) hT
  have h2 := pressureP_z_real (setPub r (atTX q T x)) hT
  rw [hv] at h1 h2
  refine ⟨?_, h2⟩
  show _ ++ [_, Out.num (pressureP (setPub r (atTX q T x))).2] = _
  rw [h1]
  rfl

end Aga8.Detail
