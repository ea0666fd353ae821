import Verif.Lemmas.GergDrift

/-! # Drift of the remembered composition in the GERG model

Lemmas for C23: a sequence of evaluations at compositions and temperatures that move by at most 1e-7 keeps the reducing
values and temperature powers of its first evaluation. -/

namespace Aga8.Gerg

open Tab

attribute [local irreducible] newP pressureP propertiesP densityP

/-- The same components are present (fraction above 1e-15). -/
def SameSup (x y : Vector ℝ 22) : Prop := ∀ i : Fin 22, 1 ≤ i.1 → (1e-15 < aget x i ↔ 1e-15 < aget y i)

theorem SameSup.lt {x y : Vector ℝ 22} (h : SameSup x y) {i : Fin 22} (hi : 1 ≤ i.1) :
    FOps.lt EPSILON (aget x i) = true ↔ FOps.lt EPSILON (aget y i) = true := by
  rw [lt_eps, lt_eps]; exact h i hi

theorem SameSup.readP {x y : Vector ℝ 22} (h : SameSup x y) (i : Fin 22) (k : Fin 25) :
    readP x i k ↔ readP y i k := by
  unfold Gerg.readP
  constructor <;> rintro ⟨h1, h2, h3⟩ <;> refine ⟨h1, ?_, h3⟩
  · exact (h.lt h1).1 h2
  · exact (h.lt h1).2 h2

theorem SameSup.readIJ {x y : Vector ℝ 22} (h : SameSup x y) (m : Fin 22) (k : Fin 13) :
    readIJ x m k ↔ readIJ y m k := by
  unfold Gerg.readIJ
  constructor <;> rintro ⟨h1, h2, i, j, hi, hij, hx, hy, h3⟩ <;> refine ⟨h1, h2, i, j, hi, hij, ?_, ?_, h3⟩
  · exact (h.lt hi).1 hx
  · exact (h.lt (by omega)).1 hy
  · exact (h.lt hi).2 hx
  · exact (h.lt (by omega)).2 hy

theorem SameSup.readV {x y : Vector ℝ 22} (h : SameSup x y) (c : Cache ℝ) : readV x c = readV y c := by
  unfold Gerg.readV
  rw [maskP_ext h.readP fun _ _ _ => rfl, maskIJ_ext h.readIJ fun _ _ _ => rfl]

theorem SameSup.termsV {x y : Vector ℝ 22} (h : SameSup x y) (T : ℝ) (m : Params ℝ) (dr tr : ℝ) :
    termsV x T m dr tr = termsV y T m dr tr := by
  unfold Gerg.termsV
  rw [maskP_ext h.readP fun _ _ _ => rfl, maskIJ_ext h.readIJ fun _ _ _ => rfl]

/-- Two states that differ in temperature and composition by at most 1e-7, with the same components present. -/
def Near (a b : Pub ℝ) : Prop :=
  |b.t - a.t| ≤ 1e-7 ∧ (∀ i : Fin 22, |aget b.x i - aget a.x i| ≤ 1e-7) ∧ SameSup b.x a.x

theorem near_view {s : Gerg ℝ} {p q : Pub ℝ} {V : View ℝ} (h : Stored s p.x p.t V) (hn : Near p q) :
    Gerg.view (setPub s q) = V := by
  have hx : xDiff q.x s.xold = false := by
    rw [← Bool.not_eq_true, xDiff_iff]
    rintro ⟨i, hi, hl⟩
    rw [h.xold i hi, r_lt, r_abs, lem7] at hl
    exact absurd (hn.2.1 i) (not_le.2 hl)
  have hc : cache (setPub s q) = cache s := cache_setPub s q
  have e : Gerg.view (setPub s q) = readV q.x (refreshC q.x q.t (Gerg.params (setPub s q)) (cache s)) := by
    rw [← hc]; rfl
  rw [e, refreshC_eq]
  have hx' : xDiff q.x (cache s).xold = false := hx
  rw [hx']
  simp only [Bool.false_eq_true, if_false]
  rw [readV_refreshT_fresh]
  · exact (hn.2.2.readV (cache s)).trans h.view
  · have a : FOps.lt (f% 0.0000001) (FOps.abs (q.t - (cache s).told)) = false := by
      show FOps.lt (f% 0.0000001) (FOps.abs (q.t - s.told)) = false
      rw [h.told, r_lt_false, r_abs, lem7]; exact hn.1
    have b : FOps.lt (f% 0.0000001) (FOps.abs ((cache s).trold - (cache s).trold2)) = false := by
      show FOps.lt (f% 0.0000001) (FOps.abs (s.trold - s.trold2)) = false
      rw [h.trold2]; exact selfDiff_real _
    rw [a, b]; rfl

/-- `pressure` at the points `f 0`, ..., `f n`. -/
def walkX (f : Nat → Pub ℝ) : Nat → List (Op ℝ)
  | 0 => [.write (f 0), .pressure]
  | n + 1 => walkX f n ++ [.write (f (n + 1)), .pressure]

theorem walkX_stored (f : Nat → Pub ℝ) (n : Nat) (hf : ∀ k < n, Near (f k) (f (k + 1))) :
    Stored (runP (newP : Gerg ℝ) (walkX f n)).1 (f n).x (f n).t (Gerg.view (freshOf (f 0))) := by
  induction n with
  | zero => exact stored_after (s := freshOf (f 0)) (params_freshOf _)
  | succ n ih =>
    have ih := ih fun k hk => hf k (by omega)
    have e : (runP (newP : Gerg ℝ) (walkX f (n + 1))).1
        = (pressureP (setPub (runP (newP : Gerg ℝ) (walkX f n)).1 (f (n + 1)))).1 := by
      rw [walkX, runP_append]; rfl
    rw [e]
    generalize (runP (newP : Gerg ℝ) (walkX f n)).1 = r at *
    have hv := near_view ih (hf n (by omega))
    have := stored_after (s := setPub r (f (n + 1))) ((params_setPub _ _).trans ih.params)
    rw [hv] at this
    exact this

theorem walkX_ops (f : Nat → Pub ℝ) (n : Nat) : ∀ op ∈ walkX f n, op = .pressure ∨ ∃ k, op = .write (f k) := by
  induction n with
  | zero =>
    intro op h
    rcases List.mem_cons.1 h with h | h
    · exact Or.inr ⟨0, h⟩
    · exact Or.inl (List.mem_singleton.1 h)
  | succ n ih =>
    intro op h
    rcases List.mem_append.1 h with h | h
    · exact ih op h
    · rcases List.mem_cons.1 h with h | h
      · exact Or.inr ⟨_, h⟩
      · exact Or.inl (List.mem_singleton.1 h)

/-- A state with another temperature and composition. -/
def atTX (q : Pub ℝ) (T : ℝ) (x : Vector ℝ 22) : Pub ℝ := { q with t := T, x := x }

/-- The point reached after `k` of `n + 1` equal steps from `q` to `(T, x)`. -/
noncomputable def lerp (q : Pub ℝ) (T : ℝ) (x : Vector ℝ 22) (n : Nat) (k : Nat) : Pub ℝ :=
  atTX q (q.t + k * ((T - q.t) / (n + 1 : ℕ)))
    (Vector.ofFn fun i => aget q.x i + k * ((aget x i - aget q.x i) / (n + 1 : ℕ)))

theorem lerp_zero (q : Pub ℝ) (T : ℝ) (x : Vector ℝ 22) (n : Nat) : lerp q T x n 0 = q := by
  have h : (Vector.ofFn fun i => aget q.x i + (0 : ℕ) * ((aget x i - aget q.x i) / (n + 1 : ℕ))) = q.x := by
    apply arr_ext; intro i; rw [aget_ofFn]; simp
  unfold lerp
  rw [h]
  simp [atTX]

theorem lerp_end (q : Pub ℝ) (T : ℝ) (x : Vector ℝ 22) (n : Nat) : lerp q T x n (n + 1) = atTX q T x := by
  have hn : ((n + 1 : ℕ) : ℝ) ≠ 0 := by positivity
  have h : (Vector.ofFn fun i => aget q.x i + (n + 1 : ℕ) * ((aget x i - aget q.x i) / (n + 1 : ℕ))) = x := by
    apply arr_ext; intro i; rw [aget_ofFn, mul_div_cancel₀ _ hn]; ring
  unfold lerp
  rw [h, mul_div_cancel₀ _ hn]
  congr 1
  ring

/-- A point of the segment from `a` to `b` lies above a bound iff its ends do, when these lie on the same side. -/
theorem lerp_side {a b c : ℝ} (h : c < a ↔ c < b) {n k : ℕ} (hk : k ≤ n + 1) :
    c < a + k * ((b - a) / (n + 1 : ℕ)) ↔ c < a := by
  have hn : (0 : ℝ) < ((n + 1 : ℕ) : ℝ) := by positivity
  obtain ⟨l, hl⟩ : ∃ l : ℝ, l = k / (n + 1 : ℕ) := ⟨_, rfl⟩
  have h0 : 0 ≤ l := by rw [hl]; positivity
  have h1 : l ≤ 1 := by rw [hl, div_le_one hn]; exact_mod_cast hk
  have e : a + k * ((b - a) / (n + 1 : ℕ)) = a + l * (b - a) := by rw [hl]; ring
  rw [e]
  constructor
  · intro hc
    by_contra ha
    have hb : ¬ c < b := fun hb => ha (h.2 hb)
    nlinarith
  · intro ha
    have hb := h.1 ha
    rcases eq_or_lt_of_le h0 with h0 | h0
    · rw [← h0]; linarith
    · nlinarith

theorem lerp_sup {q : Pub ℝ} (T : ℝ) {x : Vector ℝ 22} (h : SameSup q.x x) {n k : ℕ} (hk : k ≤ n + 1) :
    SameSup (lerp q T x n k).x q.x := by
  intro i hi
  show 1e-15 < aget (Vector.ofFn _) i ↔ _
  rw [aget_ofFn]
  exact lerp_side (h i hi) hk

theorem lerp_near {q : Pub ℝ} (T : ℝ) {x : Vector ℝ 22} (hx : SameSup q.x x) :
    ∃ n, ∀ k < n + 1, Near (lerp q T x n k) (lerp q T x n (k + 1)) := by
  obtain ⟨n, hn⟩ := exists_nat_ge ((|T - q.t| + ∑ i, |aget x i - aget q.x i|) / 1e-7)
  rw [div_le_iff₀ (by norm_num)] at hn
  have hs : ∀ i : Fin 22, |aget x i - aget q.x i| ≤ ∑ i, |aget x i - aget q.x i| := fun i =>
    Finset.single_le_sum (f := fun i => |aget x i - aget q.x i|) (fun j _ => abs_nonneg _) (Finset.mem_univ i)
  have h0 : 0 ≤ ∑ i, |aget x i - aget q.x i| := Finset.sum_nonneg fun i _ => abs_nonneg _
  have hT := abs_nonneg (T - q.t)
  have key : ∀ a : ℝ, |a| ≤ |T - q.t| + ∑ i, |aget x i - aget q.x i| → |a / (n + 1 : ℕ)| ≤ 1e-7 := by
    intro a ha
    rw [abs_div, div_le_iff₀ (by positivity), abs_of_nonneg (by positivity : (0 : ℝ) ≤ ((n + 1 : ℕ) : ℝ))]
    push_cast
    linarith
  refine ⟨n, fun k hk => ⟨?_, fun i => ?_, fun i hi => ?_⟩⟩
  · show |q.t + (k + 1 : ℕ) * ((T - q.t) / (n + 1 : ℕ)) - (q.t + k * ((T - q.t) / (n + 1 : ℕ)))| ≤ 1e-7
    have e : q.t + (k + 1 : ℕ) * ((T - q.t) / (n + 1 : ℕ)) - (q.t + k * ((T - q.t) / (n + 1 : ℕ)))
        = (T - q.t) / (n + 1 : ℕ) := by push_cast; ring
    rw [e]
    exact key _ (by linarith)
  · show |aget (Vector.ofFn _) i - aget (Vector.ofFn _) i| ≤ 1e-7
    rw [aget_ofFn, aget_ofFn]
    have e : aget q.x i + (k + 1 : ℕ) * ((aget x i - aget q.x i) / (n + 1 : ℕ))
        - (aget q.x i + k * ((aget x i - aget q.x i) / (n + 1 : ℕ))) = (aget x i - aget q.x i) / (n + 1 : ℕ) := by
      push_cast; ring
    rw [e]
    exact key _ (by linarith [hs i])
  · rw [lerp_sup T hx (by omega) i hi, lerp_sup T hx (by omega) i hi]

/-- The residual sums of an object that uses the terms computed at `(x0, T0)` at composition `s.x`. -/
theorem AR_stale {s : Gerg ℝ} {x0 : Vector ℝ 22} {T0 : ℝ} (hm : Gerg.params s = m0)
    (hv : Gerg.view s = termsV x0 T0 m0 (drX x0) (trX x0)) (hs : SameSup x0 s.x) (hT : s.t = T0 ∨ NoDep s.x)
    (fac : Fac) (D : ℝ) : AR s fac D = RS s.x fac (D / drX x0) (trX x0 / T0) := by
  have ha : ampOf s = fun ι => coef s.x ι * Real.exp ((shape m0 ι).t * Real.log (trX x0 / T0)) := by
    rw [← amp_terms s.x T0 (trX x0) (drX x0)]
    unfold ampOf
    rw [hv, hm, hs.termsV]
    rcases hT with h | h
    · rw [h]; rfl
    · funext ι
      rcases ι with ⟨i, k⟩ | ⟨i, j, k⟩ <;> simp only [amp]
      rw [if_neg (h.act i j k.1), if_neg (h.act i j k.1)]
  unfold AR resSum RS
  rw [ha, hm, hv]
  rfl

/-- After walking from `q` to temperature `T` and composition `x`, the pressure is computed with the reducing values and
temperature powers of the start. -/
theorem driftX (q : Pub ℝ) (h0 : XFar q.x (fill 22 (f% 0.0))) (ht : 1e-7 < q.t) (T : ℝ) (x : Vector ℝ 22)
    (hx : SameSup q.x x) (hT : T = q.t ∨ NoDep x) :
    ∃ pre : List (Op ℝ), (∀ op ∈ pre, op = .pressure ∨ ∃ t y, op = .write (atTX q t y)) ∧
      (runP newP (pre ++ [.write (atTX q T x), .pressure])).2
        = (runP newP pre).2 ++ [.unit,
          .num (RGERG * T * (q.d * (1 + RS x Shape.f1 (q.d / drX q.x) (trX q.x / q.t))))] ∧
      (runP newP (pre ++ [.write (atTX q T x), .pressure])).1.z
        = 1 + RS x Shape.f1 (q.d / drX q.x) (trX q.x / q.t) := by
  obtain ⟨n, hn⟩ := lerp_near T hx
  refine ⟨walkX (lerp q T x n) n, ?_, ?_⟩
  · intro op h
    rcases walkX_ops _ n op h with h | ⟨k, h⟩
    · exact Or.inl h
    · exact Or.inr ⟨_, _, h⟩
  have ih := walkX_stored _ n fun k hk => hn k (by omega)
  rw [lerp_zero] at ih
  have hl := hn n (by omega)
  rw [lerp_end] at hl
  rw [runP_append]
  generalize (runP (newP : Gerg ℝ) (walkX (lerp q T x n) n)) = r at *
  have hv := near_view ih hl
  have hv0 : Gerg.view (freshOf q) = _ := view_atT (q := q) h0 ht
  rw [hv0] at hv
  have hm : Gerg.params (setPub r.1 (atTX q T x)) = m0 := (params_setPub _ _).trans ih.params
  have hp : PosE (Gerg.params (setPub r.1 (atTX q T x))) := by rw [hm]; exact posE_m0
  have ha : AR (setPub r.1 (atTX q T x)) Shape.f1 q.d = RS x Shape.f1 (q.d / drX q.x) (trX q.x / q.t) :=
    AR_stale hm hv hx hT Shape.f1 q.d
  have h1 : (pressureP (setPub r.1 (atTX q T x))).2
      = RGERG * T * (q.d * (1 + AR (setPub r.1 (atTX q T x)) Shape.f1 q.d)) := pressureP_real hp
  have h2 : (pressureP (setPub r.1 (atTX q T x))).1.z = 1 + AR (setPub r.1 (atTX q T x)) Shape.f1 q.d :=
    pressureP_z_real hp
  rw [ha] at h1 h2
  refine ⟨?_, h2⟩
  show _ ++ [_, Out.num (pressureP (setPub r.1 (atTX q T x))).2] = _
  rw [h1]
  rfl

end Aga8.Gerg
