import Mathlib.Analysis.Calculus.MeanValue
import Mathlib.Analysis.SpecialFunctions.Log.Deriv
import Mathlib.Analysis.SpecialFunctions.ExpDeriv
import Mathlib.Tactic.Linarith
import Mathlib.Tactic.Positivity
import Mathlib.Tactic.FieldSimp
import Mathlib.Tactic.Ring

/-! # Newton's method for a function whose slope varies by at most 40 per cent

Facts about real functions, independent of the model. They are used for the convergence of the density searches. -/

namespace Aga8.Newton

/-- `g` decreases on `[v0 - ρ, v0 + ρ]` with slopes between `-1.4 m` and `-m`, and `g v0` is small. -/
structure Tame (g g' : ℝ → ℝ) (v0 m ρ : ℝ) : Prop where
  pos : 0 < m
  rpos : 0 < ρ
  der : ∀ v, |v - v0| ≤ ρ → HasDerivAt g (g' v) v
  lo : ∀ v, |v - v0| ≤ ρ → m ≤ -g' v
  hi : ∀ v, |v - v0| ≤ ρ → -g' v ≤ 1.4 * m
  start : |g v0| ≤ 0.4 * m * ρ

variable {g g' : ℝ → ℝ} {v0 m ρ : ℝ}

/-- Two values differ by the distance of the arguments times a slope in the allowed range. -/
theorem Tame.mvt (h : Tame g g' v0 m ρ) {a b : ℝ} (ha : |a - v0| ≤ ρ) (hb : |b - v0| ≤ ρ) :
    ∃ k, m ≤ k ∧ k ≤ 1.4 * m ∧ g a - g b = -(k * (a - b)) := by
  have aux : ∀ {a b : ℝ}, |a - v0| ≤ ρ → |b - v0| ≤ ρ → a < b →
      ∃ k, m ≤ k ∧ k ≤ 1.4 * m ∧ g a - g b = -(k * (a - b)) := by
    intro a b ha hb hab
    rw [abs_le] at ha hb
    have hin : ∀ v ∈ Set.Icc a b, |v - v0| ≤ ρ := fun v hv => by
      rw [abs_le]; constructor <;> linarith [hv.1, hv.2]
    obtain ⟨c, hc, e⟩ := exists_hasDerivAt_eq_slope g g' hab
      (fun v hv => (h.der v (hin v hv)).continuousAt.continuousWithinAt)
      (fun v hv => h.der v (hin v ⟨hv.1.le, hv.2.le⟩))
    have hc' := hin c ⟨hc.1.le, hc.2.le⟩
    refine ⟨-g' c, h.lo c hc', h.hi c hc', ?_⟩
    have : b - a ≠ 0 := by intro h; linarith
    rw [e]; field_simp; ring
  rcases lt_trichotomy a b with hab | hab | hab
  · exact aux ha hb hab
  · exact ⟨m, le_refl _, by linarith [h.pos], by rw [hab]; ring⟩
  · obtain ⟨k, h1, h2, h3⟩ := aux hb ha hab
    exact ⟨k, h1, h2, by linarith⟩

/-- There is a root within `0.4 ρ` of the start. -/
theorem Tame.root (h : Tame g g' v0 m ρ) : ∃ w, |w - v0| ≤ 0.4 * ρ ∧ g w = 0 := by
  have h0 := h.start
  have hm := h.pos
  have hr := h.rpos
  have hmr := mul_pos hm hr
  rw [abs_le] at h0
  have hin : ∀ v ∈ Set.Icc (v0 - 0.4 * ρ) (v0 + 0.4 * ρ), |v - v0| ≤ ρ := fun v hv => by
    rw [abs_le]; constructor <;> linarith [hv.1, hv.2]
  have hz : |v0 - v0| ≤ ρ := by rw [sub_self, abs_zero]; exact hr.le
  have hc : ContinuousOn g (Set.Icc (v0 - 0.4 * ρ) (v0 + 0.4 * ρ)) :=
    fun v hv => (h.der v (hin v hv)).continuousAt.continuousWithinAt
  have h1 : 0 ≤ g (v0 - 0.4 * ρ) := by
    obtain ⟨k, k1, k2, e⟩ := h.mvt (a := v0 - 0.4 * ρ) (b := v0)
      (hin _ ⟨le_refl _, by linarith⟩) hz
    nlinarith
  have h2 : g (v0 + 0.4 * ρ) ≤ 0 := by
    obtain ⟨k, k1, k2, e⟩ := h.mvt (a := v0 + 0.4 * ρ) (b := v0)
      (hin _ ⟨by linarith, le_refl _⟩) hz
    nlinarith
  obtain ⟨w, hw, e⟩ := intermediate_value_Icc' (by linarith : v0 - 0.4 * ρ ≤ v0 + 0.4 * ρ) hc ⟨h2, h1⟩
  exact ⟨w, by rw [abs_le]; constructor <;> linarith [hw.1, hw.2], e⟩

/-- One Newton step from `v` reduces the distance to the root by 0.4 at least, and the length of the step and the
distance to the root agree up to a factor 1.4. -/
theorem Tame.step (h : Tame g g' v0 m ρ) {w v : ℝ} (hw : |w - v0| ≤ ρ) (e : g w = 0) (hv : |v - v0| ≤ ρ) :
    |v - g v / g' v - w| ≤ 0.4 * |v - w| ∧ |g v / g' v| ≤ 1.4 * |v - w| ∧ |v - w| ≤ 1.4 * |g v / g' v| := by
  obtain ⟨k, k1, k2, e1⟩ := h.mvt hv hw
  have hm := h.pos
  have l := h.lo v hv
  have u := h.hi v hv
  set q := -g' v with hq
  have hq0 : 0 < q := by linarith
  have eq1 : g v / g' v = k / q * (v - w) := by
    have : g' v = -q := by rw [hq]; ring
    rw [this, show g v = -(k * (v - w)) by linarith]
    field_simp
  have r1 : k / q ≤ 1.4 := by rw [div_le_iff₀ hq0]; linarith
  have r2 : (1 / 1.4 : ℝ) ≤ k / q := by rw [le_div_iff₀ hq0]; linarith
  have r0 : 0 < k / q := by positivity
  rw [eq1, abs_mul, abs_of_pos r0]
  have ha := abs_nonneg (v - w)
  refine ⟨?_, by nlinarith, by nlinarith⟩
  have : v - k / q * (v - w) - w = (1 - k / q) * (v - w) := by ring
  rw [this, abs_mul]
  refine mul_le_mul_of_nonneg_right ?_ ha
  rw [abs_le]
  constructor
  · linarith
  · norm_num at r2 ⊢; linarith

/-- The root is unique in the interval. -/
theorem Tame.unique (h : Tame g g' v0 m ρ) {w w' : ℝ} (hw : |w - v0| ≤ ρ) (hw' : |w' - v0| ≤ ρ) (e : g w = 0)
    (e' : g w' = 0) : w = w' := by
  obtain ⟨k, k1, k2, e1⟩ := h.mvt hw hw'
  have hm := h.pos
  have : k * (w - w') = 0 := by linarith
  rcases mul_eq_zero.1 this with h | h <;> linarith

/-- Densities within a factor `exp ρ` of `D0` are log-volumes within `ρ` of `-log D0`. -/
theorem exp_range {D0 v : ℝ} (h0 : 0 < D0) (hv : |v - -Real.log D0| ≤ ρ) :
    D0 * Real.exp (-ρ) ≤ Real.exp (-v) ∧ Real.exp (-v) ≤ D0 * Real.exp ρ := by
  rw [abs_le] at hv
  have e1 : D0 * Real.exp (-ρ) = Real.exp (Real.log D0 + -ρ) := by rw [Real.exp_add, Real.exp_log h0]
  have e2 : D0 * Real.exp ρ = Real.exp (Real.log D0 + ρ) := by rw [Real.exp_add, Real.exp_log h0]
  rw [e1, e2, Real.exp_le_exp, Real.exp_le_exp]
  constructor <;> linarith [hv.1, hv.2]

/-- The logarithm of a pressure as a function of log-volume is tame when the logarithmic slope of the pressure varies by
at most 40 per cent. -/
theorem tame_of_slope {P Q : ℝ → ℝ} {D0 p : ℝ} (h0 : 0 < D0) (hm : 0 < m) (hr : 0 < ρ)
    (hd : ∀ D, 0 < D → HasDerivAt P (Q D) D)
    (hs : ∀ D, D0 * Real.exp (-ρ) ≤ D → D ≤ D0 * Real.exp ρ →
      0 < P D ∧ m ≤ D * Q D / P D ∧ D * Q D / P D ≤ 1.4 * m)
    (hst : |Real.log (P D0) - Real.log p| ≤ 0.4 * m * ρ) :
    Tame (fun v => Real.log (P (Real.exp (-v))) - Real.log p)
      (fun v => -(Real.exp (-v) * Q (Real.exp (-v)) / P (Real.exp (-v)))) (-Real.log D0) m ρ where
  pos := hm
  rpos := hr
  der v hv := by
    obtain ⟨a, b⟩ := exp_range h0 hv
    obtain ⟨c, -, -⟩ := hs _ a b
    have h1 : HasDerivAt (fun v => Real.exp (-v)) (Real.exp (-v) * -1) v := ((hasDerivAt_id v).neg).exp
    have h2 := (hd _ (Real.exp_pos (-v))).comp v h1
    refine ((h2.log c.ne').sub_const _).congr_deriv ?_
    simp only [Function.comp]
    ring
  lo v hv := by
    obtain ⟨a, b⟩ := exp_range h0 hv
    rw [neg_neg]
    exact (hs _ a b).2.1
  hi v hv := by
    obtain ⟨a, b⟩ := exp_range h0 hv
    rw [neg_neg]
    exact (hs _ a b).2.2
  start := by
    simp only [neg_neg, Real.exp_log h0]
    exact hst

/-- The Newton step in log-volume. -/
noncomputable def nstep (P Q : ℝ → ℝ) (p v : ℝ) : ℝ :=
  (Real.log (P (Real.exp (-v))) - Real.log p) / -(Real.exp (-v) * Q (Real.exp (-v)) / P (Real.exp (-v)))

/-- A pressure within 4 per cent of the ideal-gas one, with a slope within 12 per cent of it, satisfies the conditions
of convergence. -/
theorem slope_of_small {c D a1 a2 : ℝ} (hc : 0 < c) (hD : 0 < D) (h1 : |a1| ≤ 0.04) (h2 : |a2| ≤ 0.04) :
    0.84 ≤ D * (c * (1 + 2 * a1 + a2)) / (c * (D * (1 + a1))) ∧
      D * (c * (1 + 2 * a1 + a2)) / (c * (D * (1 + a1))) ≤ 1.4 * 0.84 := by
  rw [abs_le] at h1 h2
  have h : 0 < 1 + a1 := by linarith
  have e : D * (c * (1 + 2 * a1 + a2)) / (c * (D * (1 + a1))) = (1 + 2 * a1 + a2) / (1 + a1) := by
    field_simp
  rw [e, le_div_iff₀ h, div_le_iff₀ h]
  constructor <;> linarith

/-- The logarithm near 1. -/
theorem log_small {a : ℝ} (h : |a| ≤ 0.04) : |Real.log (1 + a)| ≤ 0.042 := by
  rw [abs_le] at h
  have h0 : 0 < 1 + a := by linarith
  rw [abs_le]
  constructor
  · have := Real.one_sub_inv_le_log_of_pos h0
    refine le_trans ?_ this
    rw [le_sub_iff_add_le, add_comm, ← le_sub_iff_add_le, inv_le_comm₀ h0 (by norm_num)]
    norm_num
    linarith
  · have := Real.log_le_sub_one_of_pos h0
    linarith

end Aga8.Newton
