import Verif.Lemmas.GergMixSum
import Verif.Lemmas.GergBoxCurve

/-! # Bounds of the density factors on an interval of densities -/

set_option linter.unusedSectionVars false

namespace Aga8.GergEos

open Detail (expK elQ ehQ expK_in)

namespace Key

def hZq (k : Key) (r : ℚ) : ℚ := k.d - k.c * r ^ k.c - r * (2 * k.η * (r - k.ε) + k.β)
def hPq (k : Key) (r : ℚ) : ℚ := k.hZq r * (k.hZq r + 1) - k.c ^ 2 * r ^ k.c - r * (2 * k.η * (2 * r - k.ε) + k.β)
def hZaq (k : Key) (r : ℚ) : ℚ := k.d + k.c * r ^ k.c + r * (2 * k.η * (r + k.ε) + k.β)
def hPaq (k : Key) (r : ℚ) : ℚ := k.hZaq r * (k.hZaq r + 3) + k.c ^ 2 * r ^ k.c + r * (2 * k.η * (2 * r + k.ε) + k.β)

theorem hZq_real (k : Key) (r : ℚ) : ((k.hZq r : ℚ) : ℝ) = k.hZ r := by unfold hZq hZ; push_cast; rfl
theorem hPq_real (k : Key) (r : ℚ) : ((k.hPq r : ℚ) : ℝ) = k.hP r := by unfold hPq hP; push_cast [hZq_real]; rfl
theorem hZaq_real (k : Key) (r : ℚ) : ((k.hZaq r : ℚ) : ℝ) = k.hZa r := by unfold hZaq hZa; push_cast; rfl
theorem hPaq_real (k : Key) (r : ℚ) : ((k.hPaq r : ℚ) : ℝ) = k.hPa r := by unfold hPaq hPa; push_cast [hZaq_real]; rfl

/-- The exponent of a departure term. -/
def gq (k : Key) (r : ℚ) : ℚ := -k.η * (r - k.ε) ^ 2 - k.β * (r - k.γ)
noncomputable def g (k : Key) (δ : ℝ) : ℝ := -k.η * (δ - k.ε) ^ 2 - k.β * (δ - k.γ)
theorem gq_real (k : Key) (r : ℚ) : ((k.gq r : ℚ) : ℝ) = k.g r := by unfold gq g; push_cast; rfl

def eLow (k : Key) (r : ℚ) : ℚ := if k.η = 0 ∧ k.β = 0 then 1 else 7.389056 * elQ 1 ((2 - k.gq r) / 16) ^ 16
def eHigh (k : Key) (r : ℚ) : ℚ := if k.η = 0 ∧ k.β = 0 then 1 else 7.389057 * ehQ 1 ((2 - k.gq r) / 16) ^ 16

/-- What the bounds need of a term and an interval. -/
structure Fit (k : Key) (r0 r1 : ℚ) : Prop where
  η0 : 0 ≤ k.η
  ε0 : 0 ≤ k.ε
  β0 : 2 * k.η * k.ε ≤ k.β
  lo0 : 0 ≤ r0
  r01 : r0 ≤ r1
  hi1 : r1 ≤ 1
  g1 : 0 ≤ 2 - k.gq r0
  g2 : 2 - k.gq r1 ≤ 16
  e1 : 0 ≤ elQ 1 ((2 - k.gq r1) / 16)
  e2 : 0 ≤ elQ k.c r1
  z : 0 ≤ k.hZq r1

instance (k : Key) (r0 r1 : ℚ) : Decidable (k.Fit r0 r1) :=
  decidable_of_iff (0 ≤ k.η ∧ 0 ≤ k.ε ∧ 2 * k.η * k.ε ≤ k.β ∧ 0 ≤ r0 ∧ r0 ≤ r1 ∧ r1 ≤ 1 ∧ 0 ≤ 2 - k.gq r0 ∧ 2 - k.gq r1 ≤ 16 ∧
    0 ≤ elQ 1 ((2 - k.gq r1) / 16) ∧ 0 ≤ elQ k.c r1 ∧ 0 ≤ k.hZq r1)
    ⟨fun ⟨a, b, c, d, e, f, g, h, i, j, l⟩ => ⟨a, b, c, d, e, f, g, h, i, j, l⟩,
     fun ⟨a, b, c, d, e, f, g, h, i, j, l⟩ => ⟨a, b, c, d, e, f, g, h, i, j, l⟩⟩

theorem exp_in {ρ : ℚ} (h0 : 0 ≤ ρ) (h1 : ρ ≤ 1) :
    ((elQ 1 ρ : ℚ) : ℝ) ≤ Real.exp (-(ρ : ℝ)) ∧ Real.exp (-(ρ : ℝ)) ≤ ((ehQ 1 ρ : ℚ) : ℝ) := by
  have := expK_in (k := 1) h0 (le_refl (ρ : ℝ)) (le_refl (ρ : ℝ)) h1
  unfold expK at this
  simpa using this

theorem e2_in : (7.389056 : ℝ) ≤ Real.exp 2 ∧ Real.exp 2 ≤ 7.389057 := by
  have h1 := Real.exp_one_gt_d9
  have h2 := Real.exp_one_lt_d9
  have e : Real.exp 2 = Real.exp 1 * Real.exp 1 := by rw [← Real.exp_add]; norm_num
  rw [e]
  constructor <;> nlinarith [Real.exp_pos 1]

theorem exp16 (x : ℝ) : Real.exp x = Real.exp 2 * Real.exp (-((2 - x) / 16)) ^ 16 := by
  rw [← Real.exp_nat_mul, ← Real.exp_add]
  congr 1
  push_cast
  ring

variable {k : Key} {r0 r1 : ℚ} (F : k.Fit r0 r1) {δ : ℝ} (h0 : (r0 : ℝ) ≤ δ) (h1 : δ ≤ r1)
include F

theorem Fit.real : (0 : ℝ) ≤ k.η ∧ (0 : ℝ) ≤ k.ε ∧ 2 * (k.η : ℝ) * k.ε ≤ k.β ∧ (0 : ℝ) ≤ r0 ∧ (r1 : ℝ) ≤ 1 ∧ (0 : ℝ) ≤ k.β := by
  have a : 2 * (k.η : ℝ) * k.ε ≤ k.β := by exact_mod_cast F.β0
  have b : (0 : ℝ) ≤ k.η := by exact_mod_cast F.η0
  have c : (0 : ℝ) ≤ k.ε := by exact_mod_cast F.ε0
  exact ⟨b, c, a, by exact_mod_cast F.lo0, by exact_mod_cast F.hi1, le_trans (by positivity) a⟩

theorem Fit.g_anti {x y : ℝ} (hx : 0 ≤ x) (h : x ≤ y) : k.g y ≤ k.g x := by
  obtain ⟨a, b, c, -⟩ := F.real
  unfold g
  nlinarith [mul_nonneg a (sub_nonneg.2 h), mul_nonneg (mul_nonneg a (sub_nonneg.2 h)) hx, mul_nonneg (sub_nonneg.2 c) (sub_nonneg.2 h),
    mul_nonneg (mul_nonneg a (sub_nonneg.2 h)) (hx.trans h)]

theorem Fit.hZ_anti {x y : ℝ} (hx : 0 ≤ x) (h : x ≤ y) : k.hZ y ≤ k.hZ x := by
  obtain ⟨a, b, c, -⟩ := F.real
  unfold hZ
  have h1 : (k.c : ℝ) * x ^ k.c ≤ k.c * y ^ k.c := mul_le_mul_of_nonneg_left (pow_le_pow_left₀ hx h _) (Nat.cast_nonneg _)
  have h2 : x * (2 * k.η * (x - k.ε) + k.β) ≤ y * (2 * k.η * (y - k.ε) + k.β) := by
    refine mul_le_mul h ?_ ?_ (hx.trans h)
    · nlinarith [mul_nonneg a (sub_nonneg.2 h)]
    · nlinarith [mul_nonneg a hx]
  linarith

theorem Fit.hP_anti {x y : ℝ} (hx : 0 ≤ x) (h : x ≤ y) (hz : 0 ≤ k.hZ y) : k.hP y ≤ k.hP x := by
  obtain ⟨a, b, c, -⟩ := F.real
  unfold hP
  have h0 := F.hZ_anti hx h
  have h1 : (k.c : ℝ) ^ 2 * x ^ k.c ≤ k.c ^ 2 * y ^ k.c := mul_le_mul_of_nonneg_left (pow_le_pow_left₀ hx h _) (by positivity)
  have h2 : x * (2 * k.η * (2 * x - k.ε) + k.β) ≤ y * (2 * k.η * (2 * y - k.ε) + k.β) := by
    refine mul_le_mul h ?_ ?_ (hx.trans h)
    · nlinarith [mul_nonneg a (sub_nonneg.2 h)]
    · nlinarith [mul_nonneg a hx]
  have h3 : k.hZ y * (k.hZ y + 1) ≤ k.hZ x * (k.hZ x + 1) := mul_le_mul h0 (by linarith) (by linarith) (hz.trans h0)
  linarith

theorem Fit.hZa_mono {x y : ℝ} (hx : 0 ≤ x) (h : x ≤ y) : 0 ≤ k.hZa x ∧ k.hZa x ≤ k.hZa y := by
  obtain ⟨a, b, c, -, -, d⟩ := F.real
  have hy := hx.trans h
  unfold hZa
  have h1 : (k.c : ℝ) * x ^ k.c ≤ k.c * y ^ k.c := mul_le_mul_of_nonneg_left (pow_le_pow_left₀ hx h _) (Nat.cast_nonneg _)
  have h2 : x * (2 * k.η * (x + k.ε) + k.β) ≤ y * (2 * k.η * (y + k.ε) + k.β) := by
    refine mul_le_mul h ?_ (by positivity) hy
    nlinarith [mul_nonneg a (sub_nonneg.2 h)]
  exact ⟨by positivity, by linarith⟩

theorem Fit.hPa_mono {x y : ℝ} (hx : 0 ≤ x) (h : x ≤ y) : 0 ≤ k.hPa x ∧ k.hPa x ≤ k.hPa y := by
  obtain ⟨a, b, c, -, -, d⟩ := F.real
  have hy := hx.trans h
  obtain ⟨z0, z1⟩ := F.hZa_mono hx h
  unfold hPa
  have h1 : (k.c : ℝ) ^ 2 * x ^ k.c ≤ k.c ^ 2 * y ^ k.c := mul_le_mul_of_nonneg_left (pow_le_pow_left₀ hx h _) (by positivity)
  have h2 : x * (2 * k.η * (2 * x + k.ε) + k.β) ≤ y * (2 * k.η * (2 * y + k.ε) + k.β) := by
    refine mul_le_mul h ?_ (by positivity) hy
    nlinarith [mul_nonneg a (sub_nonneg.2 h)]
  have h3 : k.hZa x * (k.hZa x + 3) ≤ k.hZa y * (k.hZa y + 3) := mul_le_mul z1 (by linarith) (by linarith) (z0.trans z1)
  exact ⟨by positivity, by linarith⟩

include h0 h1

theorem Fit.e_in : ((k.eLow r1 : ℚ) : ℝ) ≤ Real.exp (k.g δ) ∧ Real.exp (k.g δ) ≤ ((k.eHigh r0 : ℚ) : ℝ) := by
  obtain ⟨a, b, c, d, e, f⟩ := F.real
  unfold eLow eHigh
  by_cases hc : k.η = 0 ∧ k.β = 0
  · rw [if_pos hc, if_pos hc]
    unfold g
    rw [hc.1, hc.2]
    simp
  · rw [if_neg hc, if_neg hc]
    have m1 := F.g_anti (d.trans h0) h1
    have m0 := F.g_anti d h0
    rw [← gq_real] at m0 m1
    obtain ⟨q1, q2⟩ := e2_in
    have g0 : 0 ≤ 2 - k.gq r1 := by
      have : k.gq r1 ≤ k.gq r0 := by exact_mod_cast m1.trans m0
      linarith [F.g1]
    have g3 : 2 - k.gq r0 ≤ 16 := by
      have : k.gq r1 ≤ k.gq r0 := by exact_mod_cast m1.trans m0
      linarith [F.g2]
    constructor
    · refine le_trans ?_ (Real.exp_le_exp.2 m1)
      rw [exp16]
      have := (exp_in (ρ := (2 - k.gq r1) / 16) (by linarith) (by linarith [F.g2])).1
      have e1 : (0 : ℝ) ≤ ((elQ 1 ((2 - k.gq r1) / 16) : ℚ) : ℝ) := by exact_mod_cast F.e1
      push_cast at this ⊢
      refine mul_le_mul (by norm_num at q1 ⊢; linarith) (pow_le_pow_left₀ e1 this _) (pow_nonneg e1 _) (Real.exp_pos 2).le
    · refine le_trans (Real.exp_le_exp.2 m0) ?_
      rw [exp16]
      have := (exp_in (ρ := (2 - k.gq r0) / 16) (by linarith [F.g1]) (by linarith)).2
      push_cast at this ⊢
      refine mul_le_mul (by norm_num at q2 ⊢; linarith) (pow_le_pow_left₀ (Real.exp_pos _).le this _) (by positivity) (by norm_num)

/-- Bounds of the density factor. -/
def bLow (k : Key) (r0 r1 : ℚ) : ℚ := r0 ^ (k.d - 1) * elQ k.c r1 * k.eLow r1
def bHigh (k : Key) (r0 r1 : ℚ) : ℚ := r1 ^ (k.d - 1) * ehQ k.c r0 * k.eHigh r0

theorem Fit.base_in : (0 : ℝ) ≤ (bLow k r0 r1 : ℚ) ∧ ((bLow k r0 r1 : ℚ) : ℝ) ≤ k.base δ ∧ k.base δ ≤ (bHigh k r0 r1 : ℚ) := by
  obtain ⟨a, b, c, d, e, f⟩ := F.real
  obtain ⟨x1, x2⟩ := F.e_in h0 h1
  obtain ⟨y1, y2⟩ := expK_in (k := k.c) F.lo0 h0 h1 F.hi1
  have p0 : (0 : ℝ) ≤ (r0 : ℝ) ^ (k.d - 1) := pow_nonneg d _
  have p1 : (r0 : ℝ) ^ (k.d - 1) ≤ δ ^ (k.d - 1) := pow_le_pow_left₀ d h0 _
  have p2 : δ ^ (k.d - 1) ≤ (r1 : ℝ) ^ (k.d - 1) := pow_le_pow_left₀ (d.trans h0) h1 _
  have y0 : (0 : ℝ) ≤ (elQ k.c r1 : ℚ) := by exact_mod_cast F.e2
  have x0 : (0 : ℝ) ≤ (k.eLow r1 : ℚ) := by
    have : 0 ≤ k.eLow r1 := by
      unfold eLow
      split
      · norm_num
      · exact mul_nonneg (by norm_num) (pow_nonneg F.e1 _)
    exact_mod_cast this
  have z0 : 0 ≤ expK k.c δ := (Real.exp_pos _).le
  have w0 := (Real.exp_pos (k.g δ)).le
  unfold bLow bHigh base
  push_cast
  change _ ∧ _ ≤ _ * _ * Real.exp (k.g δ) ∧ _ * _ * Real.exp (k.g δ) ≤ _
  refine ⟨by positivity, ?_, ?_⟩
  · exact mul_le_mul (mul_le_mul p1 y1 y0 (p0.trans p1)) x1 x0 (mul_nonneg (p0.trans p1) z0)
  · exact mul_le_mul (mul_le_mul p2 y2 z0 ((p0.trans p1).trans p2)) x2 w0 (mul_nonneg ((p0.trans p1).trans p2) (z0.trans y2))

theorem Fit.z_in : ((bLow k r0 r1 * k.hZq r1 : ℚ) : ℝ) ≤ k.base δ * k.hZ δ ∧ k.base δ * k.hZ δ ≤ (bHigh k r0 r1 * k.hZq r0 : ℚ) ∧
    0 ≤ k.base δ * k.hZ δ := by
  obtain ⟨a, b, c, d, e, f⟩ := F.real
  obtain ⟨b0, b1, b2⟩ := F.base_in h0 h1
  have m1 := F.hZ_anti (d.trans h0) h1
  have m0 := F.hZ_anti d h0
  rw [← hZq_real] at m0 m1
  have z : (0 : ℝ) ≤ (k.hZq r1 : ℚ) := by exact_mod_cast F.z
  push_cast
  exact ⟨mul_le_mul b1 m1 z (b0.trans b1), mul_le_mul b2 m0 (z.trans m1) ((b0.trans b1).trans b2),
    mul_nonneg (b0.trans b1) (z.trans m1)⟩

theorem Fit.za_in : 0 ≤ k.base δ * k.hZa δ ∧ k.base δ * k.hZa δ ≤ (bHigh k r0 r1 * k.hZaq r1 : ℚ) := by
  obtain ⟨a, b, c, d, e, f⟩ := F.real
  obtain ⟨b0, b1, b2⟩ := F.base_in h0 h1
  obtain ⟨m0, m1⟩ := F.hZa_mono (d.trans h0) h1
  rw [← hZaq_real] at m1
  push_cast
  exact ⟨mul_nonneg (b0.trans b1) m0, mul_le_mul b2 m1 m0 ((b0.trans b1).trans b2)⟩

theorem Fit.pa_in : 0 ≤ k.base δ * k.hPa δ ∧ k.base δ * k.hPa δ ≤ (bHigh k r0 r1 * k.hPaq r1 : ℚ) := by
  obtain ⟨a, b, c, d, e, f⟩ := F.real
  obtain ⟨b0, b1, b2⟩ := F.base_in h0 h1
  obtain ⟨m0, m1⟩ := F.hPa_mono (d.trans h0) h1
  rw [← hPaq_real] at m1
  push_cast
  exact ⟨mul_nonneg (b0.trans b1) m0, mul_le_mul b2 m1 m0 ((b0.trans b1).trans b2)⟩

/-- Bounds of the positive and the negative part. -/
theorem Fit.p_in : ((bLow k r0 r1 * max (k.hPq r1) 0 : ℚ) : ℝ) ≤ max (k.base δ * k.hP δ) 0 ∧
    max (k.base δ * k.hP δ) 0 ≤ (bHigh k r0 r1 * max (k.hPq r0) 0 : ℚ) ∧
    ((bLow k r0 r1 * max (-k.hPq r0) 0 : ℚ) : ℝ) ≤ max (-(k.base δ * k.hP δ)) 0 ∧
    max (-(k.base δ * k.hP δ)) 0 ≤ (bHigh k r0 r1 * max (-k.hPq r1) 0 : ℚ) := by
  obtain ⟨a, b, c, d, e, f⟩ := F.real
  obtain ⟨b0, b1, b2⟩ := F.base_in h0 h1
  have z : (0 : ℝ) ≤ (k.hZq r1 : ℚ) := by exact_mod_cast F.z
  rw [hZq_real] at z
  have z' := z.trans (F.hZ_anti (d.trans h0) h1)
  have m1 := F.hP_anti (d.trans h0) h1 z
  have m0 := F.hP_anti d h0 z'
  rw [← hPq_real] at m0 m1
  have b3 := b0.trans b1
  have e1 : max (k.base δ * k.hP δ) 0 = k.base δ * max (k.hP δ) 0 := by rw [mul_max_of_nonneg _ _ b3, mul_zero]
  have e2 : max (-(k.base δ * k.hP δ)) 0 = k.base δ * max (-k.hP δ) 0 := by rw [mul_max_of_nonneg _ _ b3, mul_zero, mul_neg]
  rw [e1, e2]
  push_cast
  refine ⟨mul_le_mul b1 (max_le_max m1 le_rfl) (le_max_right _ _) b3, mul_le_mul b2 (max_le_max m0 le_rfl) (le_max_right _ _) (b3.trans b2),
    mul_le_mul b1 (max_le_max (neg_le_neg m0) le_rfl) (le_max_right _ _) b3,
    mul_le_mul b2 (max_le_max (neg_le_neg m1) le_rfl) (le_max_right _ _) (b3.trans b2)⟩

end Key

end Aga8.GergEos
