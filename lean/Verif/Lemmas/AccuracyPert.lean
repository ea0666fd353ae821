import Verif.Lemmas.Accuracy

/-! # Accuracy of the last step of Newton's method with rounding errors

Facts about real functions, independent of the model. -/

namespace Aga8.Newton

/-- `step_accurate` for a step that does not end exactly at the Newton point. -/
theorem step_accurate_pert {f g : ℝ → ℝ} {b c m M q τ η : ℝ} (hm : 0 < m) (hmM : m ≤ M) 
    (hd : ∀ u, |u - c| ≤ τ * (1 + M / m) + η → HasDerivAt f (g u) u)
    (hg : ∀ u, |u - c| ≤ τ * (1 + M / m) + η → m ≤ g u ∧ g u ≤ M)
    (hc : |c - (b - (f b - q) / g b)| ≤ η) (hs : |(f b - q) / g b| < τ) :
    ∃ z, f z = q ∧ |c - z| ≤ τ * (M / m - 1) + η ∧ |z - c| ≤ τ * (1 + M / m) + η ∧
      ∀ z', |z' - c| ≤ τ * (1 + M / m) + η → f z' = q → z' = z := by
  set c' := b - (f b - q) / g b with hc'
  have sub : ∀ u, |u - c'| ≤ τ * (1 + M / m) → |u - c| ≤ τ * (1 + M / m) + η := fun u hu => by
    have e : u - c = (u - c') - (c - c') := by ring
    rw [e]
    exact (abs_sub _ _).trans (by linarith)
  obtain ⟨z, hz1, hz2, hz3, -⟩ := step_accurate (f := f) (g := g) (b := b) (c := c') (q := q) (τ := τ) hm hmM
    (fun u hu => hd u (sub u hu)) (fun u hu => hg u (sub u hu)) hc' hs
  have hzc := sub z hz3
  refine ⟨z, hz1, ?_, hzc, fun z' h' e' => ?_⟩
  · have e : c - z = (c' - z) + (c - c') := by ring
    rw [e]
    exact (abs_add_le _ _).trans (by linarith)
  · rcases le_total z' z with hle | hle
    · obtain ⟨i1, -⟩ := incr hd hg h' hzc hle
      rw [hz1, e', sub_self] at i1
      rcases eq_or_lt_of_le hle with h | h
      · exact h
      · exact absurd i1 (not_le.2 (mul_pos hm (sub_pos.2 h)))
    · obtain ⟨i1, -⟩ := incr hd hg hzc h' hle
      rw [hz1, e', sub_self] at i1
      rcases eq_or_lt_of_le hle with h | h
      · exact h.symm
      · exact absurd i1 (not_le.2 (mul_pos hm (sub_pos.2 h)))

theorem log_close {x κ : ℝ} (hκ : κ ≤ 1e-3) (h : |x - 1| ≤ κ) : |Real.log x| ≤ 1.002 * κ := by
  obtain ⟨h1, h2⟩ := abs_le.1 h
  norm_num at hκ
  have k0 : 0 ≤ κ := (abs_nonneg _).trans h
  have x0 : 0 < x := by linarith
  have u1 := Real.log_le_sub_one_of_pos x0
  have u2 := Real.one_sub_inv_le_log_of_pos x0
  have u3 : x⁻¹ ≤ 1 + 1.002 * κ := by
    rw [inv_le_iff_one_le_mul₀ x0]
    norm_num
    nlinarith
  rw [abs_le]
  norm_num at u3 ⊢
  constructor <;> linarith

theorem pert_sum {κ B μ σ i a b c ab : ℝ} (k0 : 0 ≤ κ) (B0 : 0 ≤ κ * B) (hμ : 0 < 1 / μ) (ha : a ≤ 1e-12 * i)
    (hb : b ≤ 2.008 * κ * (B + 1e-12 * i)) (hc : c ≤ 1.002 * κ * (1 / σ)) (hab : ab ≤ a + b) (i2 : i ≤ 1.0021 * (1 / μ))
    (i3 : κ * (1 / σ) ≤ κ * (1 / μ)) (i4 : κ * i ≤ κ * (1.0021 * (1 / μ))) :
    ab + c ≤ (1.003 * κ + 1.1e-12) / μ + 2.01 * κ * B := by
  rw [div_eq_mul_one_div (1.003 * κ + 1.1e-12)]
  have h := mul_nonneg k0 hμ.le
  generalize 1 / μ = x at *
  generalize 1 / σ = y at *
  have e1 : b ≤ 2.008 * (κ * B) + 2.008e-12 * (κ * i) := hb.trans (le_of_eq (by ring))
  have e2 : c ≤ 1.002 * (κ * y) := hc.trans (le_of_eq (by ring))
  have e3 : κ * i ≤ 1.0021 * (κ * x) := i4.trans (le_of_eq (by ring))
  have e4 : (1.003 * κ + 1.1e-12) * x + 2.01 * κ * B = 1.003 * (κ * x) + 1.1e-12 * x + 2.01 * (κ * B) := by ring
  rw [e4]
  norm_num at *
  linarith

/-- How far a computed Newton step `w` is from the exact one, when the pressure and its slope have a relative error of at most
`κ`: `S` is the logarithmic slope, `r` the exact logarithm of the pressure ratio. -/
theorem step_pert {Pe Qe p e p1 dp w m κ : ℝ} (he : 0 < e) (hm : 0 < m) (hκ : κ ≤ 1e-3)
    (hP : 0 < Pe) (hQ : 0 < Qe) (h1 : |p1 - Pe| ≤ κ * Pe) (h2 : |dp - Qe| ≤ κ * Qe) (hS : m ≤ e * Qe / Pe)
    (hw : |w + (Real.log p1 - Real.log p) * p1 / (e * dp)| ≤ 1e-12 * (p1 / (e * dp))) (B : ℝ) (hB : |w| ≤ B) :
    |w + (Real.log Pe - Real.log p) / (e * Qe / Pe)| ≤ (1.003 * κ + 1.1e-12) / m + 2.01 * κ * B := by
  have k0 : 0 ≤ κ := by
    have := (abs_nonneg _).trans h1
    by_contra h; nlinarith
  obtain ⟨a1, a2⟩ := abs_le.1 h1
  obtain ⟨b1, b2⟩ := abs_le.1 h2
  norm_num at hκ
  have p10 : 0 < p1 := by nlinarith
  have dp0 : 0 < dp := by nlinarith
  set S := e * Qe / Pe with hSd
  have S0 : 0 < S := by linarith
  set i1 := p1 / (e * dp) with hi1
  have i10 : 0 < i1 := by positivity
  -- ratio of the slopes
  have hrat : i1 * S = (p1 / Pe) * (Qe / dp) := by rw [hi1, hSd]; field_simp
  have c1 : p1 / Pe ≤ 1 + κ := by rw [div_le_iff₀ hP]; linarith
  have c2 : 1 - κ ≤ p1 / Pe := by rw [le_div_iff₀ hP]; linarith
  have c3 : Qe / dp ≤ 1 + 1.0015 * κ := by
    rw [div_le_iff₀ dp0]
    have : (1 + 1.0015 * κ) * (Qe - κ * Qe) ≤ (1 + 1.0015 * κ) * dp := by
      apply mul_le_mul_of_nonneg_left (by linarith) (by linarith)
    have h4 : Qe ≤ (1 + 1.0015 * κ) * (Qe - κ * Qe) := by
      have : 0 ≤ κ * Qe * (0.0015 - 1.0015 * κ) := by
        apply mul_nonneg (by positivity); norm_num; linarith
      nlinarith
    linarith
  have c4 : 1 - κ ≤ Qe / dp := by
    rw [le_div_iff₀ dp0]
    have : (1 - κ) * dp ≤ (1 - κ) * (Qe + κ * Qe) := mul_le_mul_of_nonneg_left (by linarith) (by linarith)
    nlinarith [mul_nonneg (mul_nonneg k0 k0) hQ.le]
  have t1 : i1 * S ≤ 1 + 2.003 * κ := by
    rw [hrat]
    calc p1 / Pe * (Qe / dp) ≤ (1 + κ) * (1 + 1.0015 * κ) := mul_le_mul c1 c3 (by positivity) (by linarith)
      _ ≤ 1 + 2.003 * κ := by norm_num; nlinarith
  have t2 : 1 - 2 * κ ≤ i1 * S := by
    rw [hrat]
    calc 1 - 2 * κ ≤ (1 - κ) * (1 - κ) := by nlinarith
      _ ≤ p1 / Pe * (Qe / dp) := mul_le_mul c2 c4 (by linarith) (by positivity)
  have t3 : |1 / S - i1| ≤ 2.003 * κ * (1 / S) := by
    have e1 : 1 / S - i1 = (1 - i1 * S) * (1 / S) := by field_simp
    rw [e1, abs_mul, abs_of_pos (by positivity : 0 < 1 / S)]
    refine mul_le_mul_of_nonneg_right ?_ (by positivity)
    rw [abs_le]; constructor <;> norm_num at t1 ⊢ <;> linarith
  have hSm : 1 / S ≤ 1 / m := one_div_le_one_div_of_le hm hS
  have u1 : i1 ≤ 1.0021 / S := by
    rw [le_div_iff₀ S0]; norm_num at t1 ⊢; linarith
  have v1 : 1 / S ≤ 1.0021 * i1 := by
    rw [div_le_iff₀ S0]
    norm_num
    nlinarith
  set r := Real.log p1 - Real.log p with hr
  have hw' : |w + r * i1| ≤ 1e-12 * i1 := by rw [hi1]; rw [mul_div_assoc] at hw; exact hw
  have hri : |r * i1| ≤ B + 1e-12 * i1 := by
    have e1 : r * i1 = (w + r * i1) - w := by ring
    rw [e1]
    exact (abs_sub _ _).trans (by linarith)
  have hlog : |r - (Real.log Pe - Real.log p)| ≤ 1.002 * κ := by
    have e1 : r - (Real.log Pe - Real.log p) = Real.log (p1 / Pe) := by
      rw [Real.log_div p10.ne' hP.ne', hr]; ring
    rw [e1]
    refine log_close (by norm_num; linarith) ?_
    rw [abs_le]; constructor <;> linarith
  have e : w + (Real.log Pe - Real.log p) / S
      = (w + r * i1) + r * (1 / S - i1) - (r - (Real.log Pe - Real.log p)) * (1 / S) := by
    field_simp; ring
  rw [e]
  have B0 : 0 ≤ B := (abs_nonneg _).trans hB
  have w1 : |r * (1 / S - i1)| ≤ 2.008 * κ * (B + 1e-12 * i1) := by
    rw [abs_mul]
    rw [abs_mul, abs_of_pos i10] at hri
    calc |r| * |1 / S - i1| ≤ |r| * (2.003 * κ * (1.0021 * i1)) := by
          refine mul_le_mul_of_nonneg_left (t3.trans ?_) (abs_nonneg _)
          refine mul_le_mul_of_nonneg_left v1 (by positivity)
      _ = (2.003 * 1.0021) * κ * (|r| * i1) := by ring
      _ ≤ 2.008 * κ * (B + 1e-12 * i1) := by
          refine mul_le_mul ?_ hri (by positivity) (by positivity)
          refine mul_le_mul_of_nonneg_right (by norm_num) k0
  have w2 : |(r - (Real.log Pe - Real.log p)) * (1 / S)| ≤ 1.002 * κ * (1 / S) := by
    rw [abs_mul, abs_of_pos (by positivity : 0 < 1 / S)]
    exact mul_le_mul_of_nonneg_right hlog (by positivity)
  refine (abs_sub _ _).trans ?_
  have w3 := abs_add_le (w + r * i1) (r * (1 / S - i1))
  have i2 : i1 ≤ 1.0021 * (1 / m) := by
    refine u1.trans ?_
    rw [div_eq_mul_one_div]
    exact mul_le_mul_of_nonneg_left hSm (by norm_num)
  have i3 : κ * (1 / S) ≤ κ * (1 / m) := mul_le_mul_of_nonneg_left hSm k0
  have i4 := mul_le_mul_of_nonneg_left i2 k0
  exact pert_sum k0 (by positivity) (by positivity) hw' w1 w2 w3 i2 i3 i4

/-- `density_accurate` with rounding errors. -/
theorem density_accurate_pert {P Q : ℝ → ℝ} {p e d p1 dp w m M κ ρ : ℝ} (hp : 0 < p) (he : 0 < e) (hm : 0 < m)
    (hmM : m ≤ M) (hκ0 : 0 ≤ κ) (hκ : κ ≤ 1e-3) (hρ : ρ = 2 * (κ + 1e-12) * (1 + 1 / m))
    (hder : ∀ D, 0 < D → HasDerivAt P (Q D) D)
    (h1 : |p1 - P e| ≤ κ * P e) (h2 : |dp - Q e| ≤ κ * Q e)
    (hw : |w + (Real.log p1 - Real.log p) * p1 / (e * dp)| ≤ 1e-12 * (p1 / (e * dp))) (hw1 : |w| ≤ 1e-7)
    (hd : |Real.log d - (Real.log e + w)| ≤ 4e-14)
    (hs : ∀ D, 0 < D → |Real.log D - Real.log d| ≤ (1e-7 + 2 * ρ) * (1 + M / m) →
      0 < P D ∧ m ≤ D * Q D / P D ∧ D * Q D / P D ≤ M) :
    ∃ D, 0 < D ∧ P D = p ∧ |Real.log d - Real.log D| ≤ 1e-7 * (M / m - 1) + ρ * (M / m) ∧
      ∀ D', 0 < D' → |Real.log D' - Real.log d| ≤ 1e-7 * (1 + M / m) → P D' = p → D' = D := by
  have hM1 : 1 ≤ M / m := by rw [le_div_iff₀ hm]; linarith
  have m1 : 0 < 1 / m := by positivity
  have ρ0 : 0 < ρ := by rw [hρ]; positivity
  have hρM : 0 ≤ ρ * (M / m) := by positivity
  have hE : 0 < P e ∧ m ≤ e * Q e / P e ∧ e * Q e / P e ≤ M := by
    refine hs e he ?_
    have e1 : Real.log e - Real.log d = -(Real.log d - (Real.log e + w)) - w := by ring
    rw [e1]
    refine (abs_sub _ _).trans ?_
    rw [abs_neg]
    have : (1e-7 : ℝ) * 2 ≤ (1e-7 + 2 * ρ) * (1 + M / m) := mul_le_mul (by linarith) (by linarith) (by norm_num) (by norm_num; linarith)
    norm_num at this hd hw1 ⊢
    linarith
  have hQe : 0 < Q e := by
    have h := lt_of_lt_of_le hm hE.2.1
    by_contra hn
    have : e * Q e / P e ≤ 0 := div_nonpos_of_nonpos_of_nonneg (mul_nonpos_of_nonneg_of_nonpos he.le (not_lt.1 hn)) hE.1.le
    linarith
  have hst := step_pert (p := p) (B := 1e-7) he hm hκ hE.1 hQe h1 h2 hE.2.1 hw hw1
  have hη : (1.003 * κ + 1.1e-12) / m + 2.01 * κ * 1e-7 + 4e-14 < ρ := by
    rw [hρ, div_eq_mul_one_div]
    have := mul_nonneg hκ0 m1.le
    norm_num at *
    nlinarith
  have hg' : ∀ u, |u - Real.log d| ≤ (1e-7 + ρ) * (1 + M / m) + ρ →
      0 < P (Real.exp u) ∧ m ≤ Real.exp u * Q (Real.exp u) / P (Real.exp u) ∧
        Real.exp u * Q (Real.exp u) / P (Real.exp u) ≤ M := fun u hu =>
    hs _ (Real.exp_pos u) (by rw [Real.log_exp]; refine hu.trans ?_; nlinarith)
  have hee : Real.exp (Real.log e) = e := Real.exp_log he
  obtain ⟨z, hz1, hz2, hz3, hz4⟩ := step_accurate_pert (f := fun u => Real.log (P (Real.exp u)))
    (g := fun u => Real.exp u * Q (Real.exp u) / P (Real.exp u)) (b := Real.log e) (c := Real.log d) (q := Real.log p)
    (τ := 1e-7 + ρ) (η := ρ) hm hmM
    (fun u hu => by
      have a : HasDerivAt (fun u => P (Real.exp u)) (Q (Real.exp u) * Real.exp u) u :=
        (hder (Real.exp u) (Real.exp_pos u)).comp u (Real.hasDerivAt_exp u)
      have b := a.log (hg' u hu).1.ne'
      rwa [mul_comm] at b)
    (fun u hu => (hg' u hu).2)
    (by
      simp only [hee]
      have e1 : Real.log d - (Real.log e - (Real.log (P e) - Real.log p) / (e * Q e / P e))
          = (Real.log d - (Real.log e + w)) + (w + (Real.log (P e) - Real.log p) / (e * Q e / P e)) := by ring
      rw [e1]
      exact (abs_add_le _ _).trans (by linarith))
    (by
      simp only [hee]
      have e1 : (Real.log (P e) - Real.log p) / (e * Q e / P e)
          = (w + (Real.log (P e) - Real.log p) / (e * Q e / P e)) - w := by ring
      rw [e1]
      refine lt_of_le_of_lt (abs_sub _ _) ?_
      norm_num at hst hw1 hη ⊢
      linarith)
  refine ⟨Real.exp z, Real.exp_pos z, ?_, ?_, ?_⟩
  · exact Real.log_injOn_pos (hg' z hz3).1 hp hz1
  · rw [Real.log_exp]
    refine hz2.trans (le_of_eq ?_)
    ring
  · intro D' h0 h' e'
    have := hz4 (Real.log D') (h'.trans (by nlinarith)) (by simp only [Real.exp_log h0]; rw [e'])
    rw [← this, Real.exp_log h0]

end Aga8.Newton
