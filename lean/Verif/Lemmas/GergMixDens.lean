import Verif.Lemmas.GergMixRegion
import Verif.Lemmas.GergErrLow
import Verif.Lemmas.GergBoxCurve

/-! # The pressure of a gas mixture near the ideal-gas density

Bounds of `Lemmas/GergMixTable` for the rectangles up to a tenth of the reducing density, in the form that the convergence of the
density iteration needs. -/

namespace Aga8.GergEos.MixTab

variable (t : MixTab)

/-- A bound for `δ τ^(5/4)` in a rectangle, for densities up to `dm`. -/
def wQ (dm : ℚ) (i j : ℕ) : ℚ := min dm (t.rQ (j + 1)) * ((t.uN (i + 1) : ℚ) / 100000) ^ 50

/-- The slopes on the rectangle, for densities up to `dm`. -/
def slopeChk (dm m : ℚ) (i j : ℕ) : Bool :=
  let w := t.wQ dm i j
  decide (w * t.comb Thr.z i j < 1) && decide (1 + w * t.comb Thr.za i j ≤ 8.7 * (1 - w * t.comb Thr.z i j)) &&
    decide (1 + w * t.comb Thr.pa i j ≤ 8.7 * (1 - w * t.comb Thr.p i j)) &&
    decide (m * (1 + w * t.comb Thr.zu i j) ≤ 1 - w * t.comb Thr.p i j) &&
    decide (1 + w * t.comb Thr.pu i j ≤ 1.4 * m * (1 - w * t.comb Thr.z i j))

/-- The compression factor on the rectangle, for densities up to `d0`. -/
def startChk (d0 a : ℚ) (i j : ℕ) : Bool :=
  let w := t.wQ d0 i j
  decide (w * t.comb Thr.zu i j ≤ a) && decide (1 ≤ (1 - w * t.comb Thr.z i j) * (1 + a))

theorem wQ_le {t : MixTab} {i j : ℕ} {δ τ : ℝ} (b : t.InBox i j δ τ) (h0 : 0 ≤ δ) (hτ : 0 < τ) {dm : ℚ} (h : δ ≤ dm) :
    δ * τ ^ (t0 : ℝ) ≤ t.wQ dm i j := by
  have e : τ ^ (t0 : ℝ) = (τ ^ ((1 : ℝ) / 40)) ^ 50 := by
    rw [← Real.rpow_natCast, ← Real.rpow_mul hτ.le]
    congr 1
    unfold t0
    norm_num
  have u0 : 0 ≤ τ ^ ((1 : ℝ) / 40) := Real.rpow_nonneg hτ.le _
  have p := pow_le_pow_left₀ u0 b.u1 50
  have hm : δ ≤ min (dm : ℝ) (t.rQ (j + 1)) := le_min h b.r1
  rw [e]
  unfold wQ
  push_cast
  exact mul_le_mul hm p (pow_nonneg u0 _) (h0.trans hm)

end Aga8.GergEos.MixTab

namespace Aga8.GergEos.MixT

open MixTab
open Detail (cover)

theorem slopeA : ((List.range 27).all fun i => (List.range 2).all fun j => tab.slopeChk (0.06 * 1.2215) 0.844 i j) = true := by decide +kernel
theorem slopeB : ((List.range 33).all fun i => Nat.blt i 27 || (List.range 2).all fun j => tab.slopeChk (0.05 * 1.2841) 0.807 i j) = true := by
  decide +kernel
theorem startA : ((List.range 27).all fun i => (List.range 2).all fun j => tab.startChk 0.06 (0.4 * 0.844 * 0.2) i j) = true := by decide +kernel
theorem startB : ((List.range 33).all fun i => Nat.blt i 27 || tab.startChk 0.05 (0.4 * 0.807 * 0.25) i 0) = true := by decide +kernel

/-- A strip of temperatures in which the iteration converges from an ideal-gas density up to `d0`. -/
structure Strip (i : ℕ) (d0 m ρ : ℝ) (dm : ℚ) : Prop where
  hi : i < 33
  m0 : 0.807 ≤ m
  m1 : m ≤ 0.844
  r0 : 0.2 ≤ ρ
  r1 : ρ ≤ 0.25
  K : 8.7 * (1 + 1 / m) ≤ 22 - 9 * ρ
  dm1 : d0 * Real.exp ρ ≤ dm
  dm2 : (dm : ℝ) ≤ 1 / 10
  slope : ∀ j < 2, ∃ m' : ℚ, (m' : ℝ) = m ∧ tab.slopeChk dm m' i j = true
  start : ∃ (b : ℕ) (d' a : ℚ), b < 16 ∧ d0 ≤ d' ∧ d0 ≤ tab.rQ (b + 1) ∧ (a : ℝ) = 0.4 * m * ρ ∧ ∀ j < b + 1, tab.startChk d' a i j = true

theorem exp_le {ρ c : ℝ} (h0 : 0 ≤ ρ) (h1 : ρ ≤ 1) (h : 1 + ρ + ρ ^ 2 / 2 + ρ ^ 3 / 6 + ρ ^ 4 * (5 / 96) ≤ c) : Real.exp ρ ≤ c := by
  have := Real.exp_bound' h0 h1 (n := 4) (by norm_num)
  simp only [Finset.sum_range_succ, Finset.sum_range_zero, Nat.factorial] at this
  norm_num at this
  linarith

theorem r1_val : ((tab.rQ (0 + 1) : ℚ) : ℝ) = 1 / 20 := by
  rw [show tab.rQ (0 + 1) = 1 / 20 from by decide +kernel]; norm_num

theorem stripA {i : ℕ} (h : i < 27) {d0 : ℝ} (hd : d0 ≤ 0.06) : Strip i d0 0.844 0.2 (0.06 * 1.2215) where
  hi := by omega
  m0 := by norm_num
  m1 := le_rfl
  r0 := le_rfl
  r1 := by norm_num
  K := by norm_num
  dm1 := by
    have e := exp_le (ρ := 0.2) (c := 1.2215) (by norm_num) (by norm_num) (by norm_num)
    have := mul_le_mul_of_nonneg_right hd (Real.exp_nonneg 0.2)
    push_cast
    linarith
  dm2 := by norm_num
  slope j hj := ⟨0.844, by norm_num, List.all_eq_true.1 (List.all_eq_true.1 slopeA i (List.mem_range.2 h)) j (List.mem_range.2 hj)⟩
  start := ⟨1, 0.06, 0.4 * 0.844 * 0.2, by norm_num, by norm_num at hd ⊢; exact hd, by rw [rQ_vals.2.1]; norm_num at hd ⊢; linarith,
    by norm_num, fun j hj => List.all_eq_true.1 (List.all_eq_true.1 startA i (List.mem_range.2 h)) j (List.mem_range.2 hj)⟩

theorem stripB {i : ℕ} (h : ¬i < 27) (h' : i < 33) {d0 : ℝ} (hd : d0 ≤ 0.05) : Strip i d0 0.807 0.25 (0.05 * 1.2841) where
  hi := h'
  m0 := le_rfl
  m1 := by norm_num
  r0 := by norm_num
  r1 := le_rfl
  K := by norm_num
  dm1 := by
    have e := exp_le (ρ := 0.25) (c := 1.2841) (by norm_num) (by norm_num) (by norm_num)
    have := mul_le_mul_of_nonneg_right hd (Real.exp_nonneg 0.25)
    push_cast
    linarith
  dm2 := by norm_num
  slope j hj := by
    have := List.all_eq_true.1 slopeB i (List.mem_range.2 h')
    rw [show Nat.blt i 27 = false from by rw [Bool.eq_false_iff]; simpa [Nat.blt_eq] using h, Bool.false_or] at this
    exact ⟨0.807, by norm_num, List.all_eq_true.1 this j (List.mem_range.2 hj)⟩
  start := by
    have := List.all_eq_true.1 startB i (List.mem_range.2 h')
    rw [show Nat.blt i 27 = false from by rw [Bool.eq_false_iff]; simpa [Nat.blt_eq] using h, Bool.false_or] at this
    exact ⟨0, 0.05, 0.4 * 0.807 * 0.25, by norm_num, by norm_num at hd ⊢; exact hd, by rw [r1_val]; norm_num at hd ⊢; linarith,
      by norm_num, fun j hj => by obtain rfl : j = 0 := by omega
                                  exact this⟩

/-- The strip of a temperature. -/
theorem exists_strip {d0 τ : ℝ} (t1 : 1 / 100 ≤ τ) (t2 : τ * 1.1 ≤ 1) (hd : d0 ≤ if τ ≤ 8 / 10 then 0.06 else 0.05) :
    ∃ i m ρ dm, Strip i d0 m ρ dm ∧ (tab.uN i : ℝ) / 100000 ≤ τ ^ ((1 : ℝ) / 40) ∧
      τ ^ ((1 : ℝ) / 40) ≤ (tab.uN (i + 1) : ℝ) / 100000 := by
  have hτ : 0 < τ := by linarith
  have e27 : (8 / 10 : ℝ) ≤ (((tab.uN (26 + 1) : ℕ) : ℝ) / 100000) ^ 40 := by rw [uN_vals.2.1]; norm_num
  have e33 : (1 / 1.1 : ℝ) ≤ (((tab.uN (32 + 1) : ℕ) : ℝ) / 100000) ^ 40 := by rw [uN_vals.2.2]; norm_num
  have t2' : τ ≤ 1 / 1.1 := by rw [le_div_iff₀ (by norm_num)]; exact t2
  have key : ∀ a : ℕ, τ ≤ ((tab.uN (a + 1) : ℝ) / 100000) ^ 40 → ∃ i ≤ a, (tab.uN i : ℝ) / 100000 ≤ τ ^ ((1 : ℝ) / 40) ∧
      τ ^ ((1 : ℝ) / 40) ≤ (tab.uN (i + 1) : ℝ) / 100000 := fun a h =>
    cover (fun i => (tab.uN i : ℝ) / 100000) (x := τ ^ ((1 : ℝ) / 40)) a
      (le_root (by positivity) (by rw [uN_vals.1]; norm_num at t1 ⊢; linarith)) (root_le hτ (by positivity) h)
  by_cases c : τ ≤ 8 / 10
  · rw [if_pos c] at hd
    obtain ⟨i, hi, u⟩ := key 26 (c.trans e27)
    exact ⟨i, _, _, _, stripA (by omega) hd, u⟩
  · rw [if_neg c] at hd
    obtain ⟨i, hi, u⟩ := key 32 (t2'.trans e33)
    by_cases h : i < 27
    · exact ⟨i, _, _, _, stripA h (hd.trans (by norm_num)), u⟩
    · exact ⟨i, _, _, _, stripB h (by omega) hd, u⟩

/-- The rectangle of a density in a strip. -/
theorem exists_row {i b : ℕ} (hi : i < 33) (hb : b < 16) {δ τ : ℝ} (u0 : (tab.uN i : ℝ) / 100000 ≤ τ ^ ((1 : ℝ) / 40))
    (u1 : τ ^ ((1 : ℝ) / 40) ≤ (tab.uN (i + 1) : ℝ) / 100000) (d1 : 0 ≤ δ) (d2 : δ ≤ tab.rQ (b + 1)) :
    ∃ j < b + 1, tab.InBox i j δ τ := by
  obtain ⟨j, hj, r0, r1⟩ := cover (fun j => (tab.rQ j : ℝ)) (x := δ) b (by rw [rQ_vals.1]; simpa using d1) d2
  exact ⟨j, by omega, by rw [nS_eq]; exact hi, by rw [nR_eq]; omega, u0, u1, r0, r1⟩

end Aga8.GergEos.MixT

namespace Aga8.Gerg

open F64 GergEos GergEos.MixTab

/-- Reals only. -/
theorem slope_real {W w sz sp za pa cz cp zA pA zu pu m : ℝ} (W0 : 0 ≤ W) (hW : W ≤ w) (hm : 0 < m)
    (z1 : -cz ≤ sz) (z2 : sz ≤ zu) (p1 : -cp ≤ sp) (p2 : sp ≤ pu) (a1 : za ≤ zA) (a2 : pa ≤ pA)
    (n1 : 0 ≤ cz) (n2 : 0 ≤ zu) (n3 : 0 ≤ cp) (n4 : 0 ≤ pu) (n5 : 0 ≤ zA) (n6 : 0 ≤ pA)
    (k1 : w * cz < 1) (k2 : 1 + w * zA ≤ 8.7 * (1 - w * cz)) (k3 : 1 + w * pA ≤ 8.7 * (1 - w * cp))
    (k4 : m * (1 + w * zu) ≤ 1 - w * cp) (k5 : 1 + w * pu ≤ 1.4 * m * (1 - w * cz)) :
    0 < 1 + W * sz ∧ 1 + W * za ≤ 8.7 * (1 + W * sz) ∧ 1 + W * pa ≤ 8.7 * (1 + W * sp) ∧
      m ≤ (1 + W * sp) / (1 + W * sz) ∧ (1 + W * sp) / (1 + W * sz) ≤ 1.4 * m := by
  have lo : ∀ {s c : ℝ}, -c ≤ s → 0 ≤ c → 1 - w * c ≤ 1 + W * s := by
    intro s c h hc
    have h1 := mul_le_mul_of_nonneg_left h W0
    have h2 := mul_le_mul_of_nonneg_right hW hc
    linarith
  have hi : ∀ {s c : ℝ}, s ≤ c → 0 ≤ c → 1 + W * s ≤ 1 + w * c := by
    intro s c h hc
    have h1 := mul_le_mul_of_nonneg_left h W0
    have h2 := mul_le_mul_of_nonneg_right hW hc
    linarith
  have Z1 := lo z1 n1
  have P1 := lo p1 n3
  have Z2 := hi z2 n2
  have P2 := hi p2 n4
  have A1 := hi a1 n5
  have A2 := hi a2 n6
  have Z0 : 0 < 1 + W * sz := by linarith
  refine ⟨Z0, by linarith, by linarith, ?_, ?_⟩
  · rw [le_div_iff₀ Z0]
    exact (mul_le_mul_of_nonneg_left Z2 hm.le).trans (k4.trans P1)
  · rw [div_le_iff₀ Z0]
    exact P2.trans (k5.trans (mul_le_mul_of_nonneg_left Z1 (by positivity)))

theorem log_le_real {Z a : ℝ} (h1 : Z ≤ 1 + a) (h2 : 1 ≤ Z * (1 + a)) (ha : 0 ≤ a) : |Real.log Z| ≤ a := by
  have Z0 : 0 < Z := pos_of_mul_pos_left (lt_of_lt_of_le one_pos h2) (by linarith)
  rw [abs_le]
  constructor
  · have := Real.log_le_sub_one_of_pos (inv_pos.2 Z0)
    rw [Real.log_inv] at this
    have : Z⁻¹ ≤ 1 + a := by rw [inv_le_iff_one_le_mul₀' Z0]; exact h2
    linarith
  · linarith [Real.log_le_sub_one_of_pos Z0]

/-- The slopes of a mixture on a rectangle. -/
theorem mix_slope {t : GergEos.MixTab} (ok : t.Ok) {i j : ℕ} {x : Vector ℝ 22} {D T : ℝ} {dm m : ℚ}
    (hx0 : ∀ i : Fin 22, 1 ≤ i.1 → 0 ≤ yOf x i) (s2 : ∑ i : Fin 22 with 1 ≤ i.1, yOf x i ≤ 1.01) (hδ : 0 ≤ D * invRhoR (yOf x))
    (hτ : 0 < Tr (yOf x) / T) (b : t.InBox i j (D * invRhoR (yOf x)) (Tr (yOf x) / T)) (hd : D * invRhoR (yOf x) ≤ dm)
    (hm : (0 : ℝ) < m) (h : t.slopeChk dm m i j = true) :
    0 < GergEos.Z (yOf x) D T ∧ Zabs (yOf x) D T ≤ 8.7 * GergEos.Z (yOf x) D T ∧ dPdDabs (yOf x) D T ≤ 8.7 * dPdD (yOf x) D T ∧
      m ≤ dPdD (yOf x) D T / GergEos.Z (yOf x) D T ∧ dPdD (yOf x) D T / GergEos.Z (yOf x) D T ≤ 1.4 * m := by
  have S := ok.sums b.hi b.hj hx0 s2 hτ b.u0 b.u1 b.r0 b.r1
  have w0 : 0 ≤ D * invRhoR (yOf x) * (Tr (yOf x) / T) ^ (t0 : ℝ) := mul_nonneg hδ (Real.rpow_nonneg hτ.le _)
  have wl := wQ_le b hδ hτ hd
  obtain ⟨vz, vp, -, -⟩ := mix_values x D hτ
  have ea : Zabs (yOf x) D T = 1 + D * invRhoR (yOf x) * (Tr (yOf x) / T) ^ (t0 : ℝ)
      * mixAbs q0 Key.hZa (yOf x) (D * invRhoR (yOf x)) (Tr (yOf x) / T) := by
    unfold Zabs
    rw [sizes_Z _ _ hτ]
  have ep : dPdDabs (yOf x) D T = 1 + D * invRhoR (yOf x) * (Tr (yOf x) / T) ^ (t0 : ℝ)
      * mixAbs q0 Key.hPa (yOf x) (D * invRhoR (yOf x)) (Tr (yOf x) / T) := by
    unfold dPdDabs
    rw [add_assoc, sizes_P _ _ hτ]
  unfold slopeChk at h
  simp only [Bool.and_eq_true, decide_eq_true_eq] at h
  obtain ⟨⟨⟨⟨k1, k2⟩, k3⟩, k4⟩, k5⟩ := h
  have k1' : (t.wQ dm i j : ℝ) * t.comb Thr.z i j < 1 := by exact_mod_cast k1
  have k2' : 1 + (t.wQ dm i j : ℝ) * t.comb Thr.za i j ≤ ((8.7 : ℚ) : ℝ) * (1 - t.wQ dm i j * t.comb Thr.z i j) := by exact_mod_cast k2
  have k3' : 1 + (t.wQ dm i j : ℝ) * t.comb Thr.pa i j ≤ ((8.7 : ℚ) : ℝ) * (1 - t.wQ dm i j * t.comb Thr.p i j) := by exact_mod_cast k3
  have k4' : (m : ℝ) * (1 + (t.wQ dm i j : ℝ) * t.comb Thr.zu i j) ≤ 1 - t.wQ dm i j * t.comb Thr.p i j := by exact_mod_cast k4
  have k5' : 1 + (t.wQ dm i j : ℝ) * t.comb Thr.pu i j ≤ ((1.4 : ℚ) : ℝ) * m * (1 - t.wQ dm i j * t.comb Thr.z i j) := by
    exact_mod_cast k5
  have e1 : ((8.7 : ℚ) : ℝ) = 8.7 := by norm_num
  have e2 : ((1.4 : ℚ) : ℝ) = 1.4 := by norm_num
  rw [e1] at k2' k3'
  rw [e2] at k5'
  rw [vz, vp, ea, ep]
  exact slope_real w0 wl hm S.z S.zu S.p S.pu S.za S.pa (t.comb_nonneg _ i j) (t.comb_nonneg _ i j) (t.comb_nonneg _ i j)
    (t.comb_nonneg _ i j) (t.comb_nonneg _ i j) (t.comb_nonneg _ i j) k1' k2' k3' k4' k5'

/-- The compression factor of a mixture on a rectangle. -/
theorem mix_start {t : GergEos.MixTab} (ok : t.Ok) {i j : ℕ} {x : Vector ℝ 22} {D T : ℝ} {d0 a : ℚ}
    (hx0 : ∀ i : Fin 22, 1 ≤ i.1 → 0 ≤ yOf x i) (s2 : ∑ i : Fin 22 with 1 ≤ i.1, yOf x i ≤ 1.01) (hδ : 0 ≤ D * invRhoR (yOf x))
    (hτ : 0 < Tr (yOf x) / T) (b : t.InBox i j (D * invRhoR (yOf x)) (Tr (yOf x) / T)) (hd : D * invRhoR (yOf x) ≤ d0)
    (ha : (0 : ℝ) ≤ a) (h : t.startChk d0 a i j = true) : |Real.log (GergEos.Z (yOf x) D T)| ≤ a := by
  have S := ok.sums b.hi b.hj hx0 s2 hτ b.u0 b.u1 b.r0 b.r1
  have w0 : 0 ≤ D * invRhoR (yOf x) * (Tr (yOf x) / T) ^ (t0 : ℝ) := mul_nonneg hδ (Real.rpow_nonneg hτ.le _)
  have wl := wQ_le b hδ hτ hd
  obtain ⟨vz, -, -, -⟩ := mix_values x D hτ
  unfold startChk at h
  simp only [Bool.and_eq_true, decide_eq_true_eq] at h
  obtain ⟨k1, k2⟩ := h
  have k1' : (t.wQ d0 i j : ℝ) * t.comb Thr.zu i j ≤ a := by exact_mod_cast k1
  have k2' : 1 ≤ (1 - (t.wQ d0 i j : ℝ) * t.comb Thr.z i j) * (1 + a) := by exact_mod_cast k2
  rw [vz]
  have c1 := mul_le_mul_of_nonneg_left S.z w0
  have c2 := mul_le_mul_of_nonneg_right wl (t.comb_nonneg Thr.z i j)
  have c3 := mul_le_mul_of_nonneg_left S.zu w0
  have c4 := mul_le_mul_of_nonneg_right wl (t.comb_nonneg Thr.zu i j)
  exact log_le_real (by linarith) (k2'.trans (mul_le_mul_of_nonneg_right (by linarith) (by linarith))) ha

variable [Libm] {q : Pub Float}

/-- The conditions of the convergence theorem for a gas mixture. -/
theorem mix_curve (hL : LibmAccurate) (h : DensDomain q) (s2 : ∑ i : Fin 22 with 1 ≤ i.1, fracs q i ≤ 1.01)
    (t2 : 1.1 * Tr (fracs q) ≤ toR q.t) (d1 : 3e-4 ≤ toR q.p / (8.314472 * toR q.t)) (d2 : toR q.p / (8.314472 * toR q.t) ≤ 300)
    (d3 : toR q.p / (8.314472 * toR q.t) * invRhoR (fracs q) ≤ if Tr (fracs q) / toR q.t ≤ 8 / 10 then 0.06 else 0.05) :
    ∃ m ρ, F64Curve q (toR q.p / (8.314472 * toR q.t)) 8.7 m ρ ∧ 0.807 ≤ m ∧ m ≤ 0.844 ∧ ρ ≤ 0.25 := by
  have hq := h.zero
  have hτ : 0 < Tr (yOf (xr q.x)) / toR q.t := tau_pos (q := atD q (f% 0.0)) hL hq
  have e' : ∀ i : Fin 22, 1 ≤ i.1 → fracs q i = yOf (xr q.x) i := fracs_eq (okX_of (q := atD q (f% 0.0)) hq)
  have eV : invRhoR (fracs q) = invRhoR (yOf (xr q.x)) := reducing_congr' e' _ _
  have eT : Tr (fracs q) = Tr (yOf (xr q.x)) := reducing_congr' e' _ _
  have v0 := invRho_nonneg h
  have T0 : 0 < toR q.t := by linarith [h.t_low]
  have P0 : 0 < toR q.p := lt_of_lt_of_le (by norm_num) h.p_low
  have hx0 : ∀ i : Fin 22, 1 ≤ i.1 → 0 ≤ yOf (xr q.x) i := fun i hi => by rw [← e' i hi]; exact le_max_right _ _
  have s2' : ∑ i : Fin 22 with 1 ≤ i.1, yOf (xr q.x) i ≤ 1.01 := by
    rw [← Finset.sum_congr rfl fun i hi => e' i (Finset.mem_filter.1 hi).2]; exact s2
  have PT0 : PT q (toR q.p / (8.314472 * toR q.t)) = toR q.p * GergEos.Z (fracs q) (toR q.p / (8.314472 * toR q.t)) (toR q.t) := by
    unfold PT; field_simp
  have D0p : 0 < toR q.p / (8.314472 * toR q.t) := by positivity
  obtain ⟨i, m, ρ, dm, S, u0, u1⟩ := MixT.exists_strip (τ := Tr (fracs q) / toR q.t)
    (by rw [le_div_iff₀ T0]; linarith [h.t_red1]) (by rw [div_mul_eq_mul_div, div_le_one T0]; linarith) d3
  generalize toR q.p / (8.314472 * toR q.t) = D0 at *
  have m0 : 0 < m := lt_of_lt_of_le (by norm_num) S.m0
  have ρ0 : 0 < ρ := lt_of_lt_of_le (by norm_num) S.r0
  have d05 : D0 * invRhoR (fracs q) ≤ 1 := d3.trans (by split_ifs <;> norm_num)
  rw [eT] at u0 u1
  refine ⟨m, ρ, ⟨h, m0, le_trans (by norm_num) S.r0, S.r1.trans (by norm_num), by norm_num, S.K, d1, d2, d05, ?_, ?_⟩, S.m0, S.m1, S.r1⟩
  · intro D a b
    have hD : 0 ≤ D := le_trans (by positivity) a
    have hδ : 0 ≤ D * invRhoR (yOf (xr q.x)) := mul_nonneg hD (by rw [← eV]; exact v0)
    have hdm : D * invRhoR (yOf (xr q.x)) ≤ dm := by
      rw [← eV]
      refine le_trans ?_ S.dm1
      have := mul_le_mul_of_nonneg_right b v0
      linarith
    obtain ⟨j, hj, B⟩ := MixT.exists_row S.hi (by norm_num : 1 < 16) u0 u1 hδ
      (hdm.trans (by rw [MixT.rQ_vals.2.1]; have := S.dm2; norm_num at this ⊢; exact this))
    obtain ⟨m', em, hc⟩ := S.slope j hj
    have := mix_slope MixT.tab_ok hx0 s2' hδ hτ B hdm (by rw [em]; exact m0) hc
    rw [em] at this
    rw [Z_congr' e', Zabs_congr' e', dPdD_congr' e', dPdDabs_congr' e']
    exact this
  · have hδ : 0 ≤ D0 * invRhoR (yOf (xr q.x)) := mul_nonneg D0p.le (by rw [← eV]; exact v0)
    obtain ⟨b, d', a, hb, c1, c2, c3, c4⟩ := S.start
    rw [eV] at c1 c2
    obtain ⟨j, hj, B⟩ := MixT.exists_row S.hi hb u0 u1 hδ c2
    have Z0 := (stable_box MixT.tab_ok hx0 s2' hδ hτ B).1
    have := mix_start MixT.tab_ok hx0 s2' hδ hτ B c1 (by rw [c3]; positivity) (c4 j hj)
    rw [PT0, Z_congr' e', Real.log_mul P0.ne' Z0.ne', add_sub_cancel_left, ← c3]
    exact this

/-- The slope of the pressure of a gas mixture is positive up to half the reducing density. -/
theorem mix_dPdD_pos (hL : LibmAccurate) (h : DensDomain q) (s2 : ∑ i : Fin 22 with 1 ≤ i.1, fracs q i ≤ 1.01)
    (t2 : 1.1 * Tr (fracs q) ≤ toR q.t) {D : ℝ} (hD : 0 ≤ D) (hδ : D * invRhoR (fracs q) ≤ 1 / 2) :
    0 < dPdD (fracs q) D (toR q.t) := by
  have hq := h.zero
  have hτ : 0 < Tr (yOf (xr q.x)) / toR q.t := tau_pos (q := atD q (f% 0.0)) hL hq
  have e' : ∀ i : Fin 22, 1 ≤ i.1 → fracs q i = yOf (xr q.x) i := fracs_eq (okX_of (q := atD q (f% 0.0)) hq)
  have eV : invRhoR (fracs q) = invRhoR (yOf (xr q.x)) := reducing_congr' e' _ _
  have eT : Tr (fracs q) = Tr (yOf (xr q.x)) := reducing_congr' e' _ _
  have v0 := invRho_nonneg h
  have T0 : 0 < toR q.t := by linarith [h.t_low]
  have hx0 : ∀ i : Fin 22, 1 ≤ i.1 → 0 ≤ yOf (xr q.x) i := fun i hi => by rw [← e' i hi]; exact le_max_right _ _
  have s2' : ∑ i : Fin 22 with 1 ≤ i.1, yOf (xr q.x) i ≤ 1.01 := by
    rw [← Finset.sum_congr rfl fun i hi => e' i (Finset.mem_filter.1 hi).2]; exact s2
  have d0 := mul_nonneg hD v0
  rw [eV] at hδ d0
  have r1 := h.t_red1
  rw [eT] at t2 r1
  obtain ⟨i, j, b, -⟩ := MixT.region (τ := Tr (yOf (xr q.x)) / toR q.t) (by rw [le_div_iff₀ T0]; linarith)
    (by rw [div_mul_eq_mul_div, div_le_one T0]; linarith) d0 hδ
  rw [dPdD_congr' e']
  exact (stable_box MixT.tab_ok hx0 s2' d0 hτ b).2

end Aga8.Gerg
