import Mathlib.Analysis.Calculus.MeanValue
import Mathlib.Analysis.SpecialFunctions.Log.Deriv
import Mathlib.Analysis.SpecialFunctions.ExpDeriv
import Mathlib.Tactic.Linarith
import Mathlib.Tactic.Positivity
import Mathlib.Tactic.FieldSimp
import Mathlib.Tactic.Ring

/-! # Accuracy of the last step of Newton's method

Facts about real functions, independent of the model. -/

namespace Aga8.Newton

/-- A function whose slope lies between `m` and `M` on `|u - c| ≤ w`: the increments. -/
theorem incr {f g : ℝ → ℝ} {c w m M : ℝ} (hd : ∀ u, |u - c| ≤ w → HasDerivAt f (g u) u)
    (hg : ∀ u, |u - c| ≤ w → m ≤ g u ∧ g u ≤ M) {a b : ℝ} (ha : |a - c| ≤ w) (hb : |b - c| ≤ w) (hab : a ≤ b) :
    m * (b - a) ≤ f b - f a ∧ f b - f a ≤ M * (b - a) := by
  rcases eq_or_lt_of_le hab with rfl | hab
  · simp
  rw [abs_le] at ha hb
  have hin : ∀ v ∈ Set.Icc a b, |v - c| ≤ w := fun v hv => by
    rw [abs_le]; constructor <;> linarith [hv.1, hv.2]
  obtain ⟨x, hx, e⟩ := exists_hasDerivAt_eq_slope f g hab
    (fun v hv => (hd v (hin v hv)).continuousAt.continuousWithinAt)
    (fun v hv => hd v (hin v ⟨hv.1.le, hv.2.le⟩))
  obtain ⟨h1, h2⟩ := hg x (hin x ⟨hx.1.le, hx.2.le⟩)
  have hba : 0 < b - a := by linarith
  have e' : f b - f a = g x * (b - a) := by rw [e]; field_simp
  rw [e']
  exact ⟨mul_le_mul_of_nonneg_right h1 hba.le, mul_le_mul_of_nonneg_right h2 hba.le⟩

/-- One Newton step from `b`, shorter than `τ`, ends at `c`; slopes around `c` lie between `m` and `M`. Then the equation has
exactly one root near `c`, and `c` is within `τ (M / m - 1)` of it. -/
theorem step_accurate {f g : ℝ → ℝ} {b c m M q τ : ℝ} (hm : 0 < m) (hmM : m ≤ M)
    (hd : ∀ u, |u - c| ≤ τ * (1 + M / m) → HasDerivAt f (g u) u)
    (hg : ∀ u, |u - c| ≤ τ * (1 + M / m) → m ≤ g u ∧ g u ≤ M)
    (hc : c = b - (f b - q) / g b) (hs : |(f b - q) / g b| < τ) :
    ∃ z, f z = q ∧ |c - z| ≤ τ * (M / m - 1) ∧ |z - c| ≤ τ * (1 + M / m) ∧
      ∀ z', |z' - c| ≤ τ * (1 + M / m) → f z' = q → z' = z := by
  have hτ : 0 < τ := lt_of_le_of_lt (abs_nonneg _) hs
  have hM : 0 < M := by linarith
  have hM1 : 1 ≤ M / m := by rw [le_div_iff₀ hm]; linarith
  have hMτ : 0 ≤ τ * (M / m) := by positivity
  set w := τ * (1 + M / m) with hw
  have hw' : w = τ + τ * (M / m) := by rw [hw]; ring
  set k := (f b - q) / g b with hk
  have hbc : b - c = k := by rw [hc]; ring
  have hbw : |b - c| ≤ w := by rw [hbc, hw']; linarith
  obtain ⟨hS1, hS2⟩ := hg b hbw
  set S := g b with hS
  have hS0 : 0 < S := by linarith
  have er : f b - q = k * S := by rw [hk]; field_simp
  have hks := abs_lt.1 hs
  -- the far end of the bracket
  set a := b - k * S / m with ha
  have hSm : S / m ≤ M / m := by gcongr
  have hSm1 : 1 ≤ S / m := by rw [le_div_iff₀ hm]; linarith
  have hab : |a - b| ≤ τ * (M / m) := by
    have : a - b = -(k * (S / m)) := by rw [ha]; ring
    rw [this, abs_neg, abs_mul, abs_of_nonneg (by linarith : 0 ≤ S / m)]
    exact mul_le_mul hs.le hSm (by linarith) hτ.le
  have haw : |a - c| ≤ w := by
    have : a - c = (a - b) + (b - c) := by ring
    rw [this, hw']
    refine (abs_add_le _ _).trans ?_
    rw [hbc]; linarith
  have hcont : ∀ x y : ℝ, |x - c| ≤ w → |y - c| ≤ w → ContinuousOn f (Set.Icc x y) := by
    intro x y hx hy u hu
    refine (hd u ?_).continuousAt.continuousWithinAt
    rw [abs_le] at hx hy ⊢
    constructor <;> linarith [hu.1, hu.2]
  have hma : m * (k * S / m) = k * S := by field_simp
  -- a root between `a` and `b`
  have root : ∃ z, f z = q ∧ |z - c| ≤ w := by
    rcases le_total 0 k with h0 | h0
    · have hle : a ≤ b := by
        have : 0 ≤ k * S / m := by positivity
        linarith
      obtain ⟨i1, -⟩ := incr hd hg haw hbw hle
      have e1 : b - a = k * S / m := by rw [ha]; ring
      rw [e1, hma] at i1
      obtain ⟨z, hz, e⟩ := intermediate_value_Icc hle (hcont a b haw hbw)
        (show q ∈ Set.Icc (f a) (f b) from ⟨by linarith, by nlinarith⟩)
      refine ⟨z, e, ?_⟩
      rw [abs_le] at haw hbw ⊢
      constructor <;> linarith [hz.1, hz.2]
    · have hle : b ≤ a := by
        have : k * S / m ≤ 0 := div_nonpos_of_nonpos_of_nonneg (by nlinarith) hm.le
        linarith
      obtain ⟨i1, -⟩ := incr hd hg hbw haw hle
      have e1 : a - b = -(k * S / m) := by rw [ha]; ring
      rw [e1, mul_neg, hma] at i1
      obtain ⟨z, hz, e⟩ := intermediate_value_Icc hle (hcont b a hbw haw)
        (show q ∈ Set.Icc (f b) (f a) from ⟨by nlinarith, by linarith⟩)
      refine ⟨z, e, ?_⟩
      rw [abs_le] at haw hbw ⊢
      constructor <;> linarith [hz.1, hz.2]
  obtain ⟨z, hz, hzw⟩ := root
  refine ⟨z, hz, ?_, hzw, fun z' h' e' => ?_⟩
  · -- distance
    have hlow : 0 ≤ 1 - S / M := by
      rw [sub_nonneg, div_le_one (by linarith)]; exact hS2
    have hMm : 1 - S / M ≤ M / m - 1 := by
      have h1 : m / M ≤ S / M := by gcongr
      have hx : 0 < m / M := by positivity
      have e2 : M / m = (m / M)⁻¹ := by rw [inv_div]
      have h2 : 2 ≤ (m / M)⁻¹ + m / M := by
        rw [← sub_nonneg]
        have : (m / M)⁻¹ + m / M - 2 = (1 - m / M) ^ 2 / (m / M) := by
          field_simp; ring
        rw [this]; positivity
      rw [e2]; linarith
    have hSM : S / m - 1 ≤ M / m - 1 := by linarith
    have ecz : c - z = (b - z) - k := by rw [← hbc]; ring
    rcases le_total z b with hzb | hzb
    · obtain ⟨i1, i2⟩ := incr hd hg hzw hbw hzb
      rw [hz, er] at i1 i2
      have k0 : 0 ≤ k := by
        by_contra h; rw [not_le] at h
        have : 0 ≤ m * (b - z) := mul_nonneg hm.le (by linarith)
        nlinarith
      have j1 : b - z ≤ k * (S / m) := by
        rw [mul_div_assoc', le_div_iff₀ hm]; linarith
      have j2 : k * (S / M) ≤ b - z := by
        rw [mul_div_assoc', div_le_iff₀ (by linarith)]; linarith
      rw [ecz, abs_le]
      constructor
      · have : k * (1 - S / M) ≤ τ * (M / m - 1) := mul_le_mul hks.2.le hMm hlow hτ.le
        linarith
      · have : k * (S / m - 1) ≤ τ * (M / m - 1) := mul_le_mul hks.2.le hSM (by linarith) hτ.le
        linarith
    · obtain ⟨i1, i2⟩ := incr hd hg hbw hzw hzb
      have er' : f z - f b = -k * S := by rw [hz]; linarith
      rw [er'] at i1 i2
      have k0 : 0 ≤ -k := by
        by_contra h; rw [not_le] at h
        have : 0 ≤ m * (z - b) := mul_nonneg hm.le (by linarith)
        nlinarith
      have j1 : z - b ≤ -k * (S / m) := by
        rw [mul_div_assoc', le_div_iff₀ hm]; linarith
      have j2 : -k * (S / M) ≤ z - b := by
        rw [mul_div_assoc', div_le_iff₀ (by linarith)]; linarith
      have kt : -k ≤ τ := by linarith
      rw [ecz, abs_le]
      constructor
      · have : -k * (S / m - 1) ≤ τ * (M / m - 1) := mul_le_mul kt hSM (by linarith) hτ.le
        linarith
      · have : -k * (1 - S / M) ≤ τ * (M / m - 1) := mul_le_mul kt hMm hlow hτ.le
        linarith
  · rcases le_total z' z with hle | hle
    · obtain ⟨i1, -⟩ := incr hd hg h' hzw hle
      rw [hz, e', sub_self] at i1
      rcases eq_or_lt_of_le hle with h | h
      · exact h
      · exact absurd i1 (not_le.2 (mul_pos hm (sub_pos.2 h)))
    · obtain ⟨i1, -⟩ := incr hd hg hzw h' hle
      rw [hz, e', sub_self] at i1
      rcases eq_or_lt_of_le hle with h | h
      · exact h.symm
      · exact absurd i1 (not_le.2 (mul_pos hm (sub_pos.2 h)))

/-- The same for a positive pressure curve on a logarithmic scale: the step was made from the density `e` and ended at `d`. -/
theorem density_accurate {P Q : ℝ → ℝ} {p e d m M : ℝ} (hp : 0 < p) (he : 0 < e) (hm : 0 < m) (hmM : m ≤ M)
    (hder : ∀ D, HasDerivAt P (Q D) D) (hpe : 0 < P e) (hqe : 0 < Q e)
    (h1 : |Real.log (P e) - Real.log p| < 1e-7 * (e * Q e / P e))
    (h2 : Real.log d = Real.log e + (Real.log p - Real.log (P e)) * (P e / (e * Q e)))
    (hs : ∀ D, 0 < D → |Real.log D - Real.log d| ≤ 1e-7 * (1 + M / m) →
      0 < P D ∧ m ≤ D * Q D / P D ∧ D * Q D / P D ≤ M) :
    ∃ D, 0 < D ∧ P D = p ∧ |Real.log d - Real.log D| ≤ 1e-7 * (M / m - 1) ∧
      ∀ D', 0 < D' → |Real.log D' - Real.log d| ≤ 1e-7 * (1 + M / m) → P D' = p → D' = D := by
  have hS : 0 < e * Q e / P e := by positivity
  have hg' : ∀ u, |u - Real.log d| ≤ 1e-7 * (1 + M / m) →
      0 < P (Real.exp u) ∧ m ≤ Real.exp u * Q (Real.exp u) / P (Real.exp u) ∧
        Real.exp u * Q (Real.exp u) / P (Real.exp u) ≤ M := fun u hu =>
    hs _ (Real.exp_pos u) (by rw [Real.log_exp]; exact hu)
  have hee : Real.exp (Real.log e) = e := Real.exp_log he
  obtain ⟨z, hz1, hz2, hz3, hz4⟩ := step_accurate (f := fun u => Real.log (P (Real.exp u)))
    (g := fun u => Real.exp u * Q (Real.exp u) / P (Real.exp u)) (b := Real.log e) (c := Real.log d) (q := Real.log p)
    (τ := 1e-7) hm hmM
    (fun u hu => by
      have a : HasDerivAt (fun u => P (Real.exp u)) (Q (Real.exp u) * Real.exp u) u :=
        (hder (Real.exp u)).comp u (Real.hasDerivAt_exp u)
      have b := a.log (hg' u hu).1.ne'
      rwa [mul_comm] at b)
    (fun u hu => (hg' u hu).2)
    (by
      simp only [hee]
      rw [h2]
      field_simp
      ring)
    (by
      simp only [hee]
      rw [abs_div, abs_of_pos hS, div_lt_iff₀ hS]
      exact h1)
  refine ⟨Real.exp z, Real.exp_pos z, ?_, ?_, ?_⟩
  · exact Real.log_injOn_pos (hg' z hz3).1 hp hz1
  · rw [Real.log_exp]; exact hz2
  · intro D' h0 h' e'
    have := hz4 (Real.log D') h' (by simp only [Real.exp_log h0]; rw [e'])
    rw [← this, Real.exp_log h0]

end Aga8.Newton
