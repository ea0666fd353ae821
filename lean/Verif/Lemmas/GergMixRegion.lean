import Verif.Lemmas.GergMixChk
import Verif.Lemmas.GergMixCond
import Verif.Spec.GergMixture

/-! # The cancellation of a mixture by regions of reduced temperature and density -/

namespace Aga8.GergEos.MixT

open MixTab
open Detail (cover)

/-- Every number of the table in the first `a` temperature and `b` density intervals is at most `K`. -/
def kChk (a b K : ℕ) : Bool := (List.range a).all fun i => (List.range b).all fun j => Nat.ble (tab.kN i j) K

theorem k1 : kChk 27 2 10 = true := by decide +kernel
theorem k2 : kChk 27 6 54 = true := by decide +kernel
theorem k3 : kChk 27 16 231 = true := by decide +kernel
theorem k4 : kChk 33 2 13 = true := by decide +kernel
theorem k5 : kChk 33 6 110 = true := by decide +kernel
theorem k6 : kChk 33 16 542 = true := by decide +kernel

theorem kChk_le {a b K i j : ℕ} (h : kChk a b K = true) (hi : i < a) (hj : j < b) : tab.kN i j ≤ K :=
  Nat.le_of_ble_eq_true (List.all_eq_true.1 (List.all_eq_true.1 h i (List.mem_range.2 hi)) j (List.mem_range.2 hj))

theorem nS_eq : tab.nS = 33 := by decide +kernel
theorem nR_eq : tab.nR = 16 := by decide +kernel
theorem uN_vals : tab.uN 0 = 89125 ∧ tab.uN 27 = 99444 ∧ tab.uN 33 = 99763 := by decide +kernel
theorem rQ_vals : tab.rQ 0 = 0 ∧ tab.rQ 2 = 1 / 10 ∧ tab.rQ 6 = 3 / 10 ∧ tab.rQ 16 = 1 / 2 := by decide +kernel

theorem root_le {τ c : ℝ} (hτ : 0 < τ) (hc : 0 ≤ c) (h : τ ≤ c ^ 40) : τ ^ ((1 : ℝ) / 40) ≤ c := by
  have := Real.rpow_le_rpow hτ.le h (by norm_num : (0 : ℝ) ≤ 1 / 40)
  refine this.trans (le_of_eq ?_)
  rw [← Real.rpow_natCast, ← Real.rpow_mul hc]
  norm_num
theorem le_root {τ c : ℝ} (hc : 0 ≤ c) (h : c ^ 40 ≤ τ) : c ≤ τ ^ ((1 : ℝ) / 40) := by
  have := Real.rpow_le_rpow (pow_nonneg hc _) h (by norm_num : (0 : ℝ) ≤ 1 / 40)
  refine le_trans (le_of_eq ?_) this
  rw [← Real.rpow_natCast, ← Real.rpow_mul hc]
  norm_num

theorem exists_box {a b : ℕ} (ha : a < 33) (hb : b < 16) {δ τ : ℝ} (t1 : 1 / 100 ≤ τ) (t2 : τ ≤ ((tab.uN (a + 1) : ℝ) / 100000) ^ 40)
    (d1 : 0 ≤ δ) (d2 : δ ≤ tab.rQ (b + 1)) : ∃ i j, i < a + 1 ∧ j < b + 1 ∧ tab.InBox i j δ τ := by
  have hτ : 0 < τ := by linarith
  obtain ⟨i, hi, u0, u1⟩ := cover (fun i => (tab.uN i : ℝ) / 100000) (x := τ ^ ((1 : ℝ) / 40)) a
    (le_root (by positivity) (by rw [uN_vals.1]; norm_num at t1 ⊢; linarith)) (root_le hτ (by positivity) t2)
  obtain ⟨j, hj, r0, r1⟩ := cover (fun j => (tab.rQ j : ℝ)) (x := δ) b (by rw [rQ_vals.1]; simpa using d1) d2
  exact ⟨i, j, by omega, by omega, by rw [nS_eq]; omega, by rw [nR_eq]; omega, u0, u1, r0, r1⟩

/-- The rectangle of a state, with the bound of the region. -/
theorem region {δ τ : ℝ} (t1 : 1 / 100 ≤ τ) (t2 : τ * 1.1 ≤ 1) (d1 : 0 ≤ δ) (d2 : δ ≤ 1 / 2) :
    ∃ i j, tab.InBox i j δ τ ∧ (tab.kN i j : ℝ) ≤ loss δ τ := by
  have e27 : (8 / 10 : ℝ) ≤ (((tab.uN (26 + 1) : ℕ) : ℝ) / 100000) ^ 40 := by rw [uN_vals.2.1]; norm_num
  have e33 : (1 / 1.1 : ℝ) ≤ (((tab.uN (32 + 1) : ℕ) : ℝ) / 100000) ^ 40 := by rw [uN_vals.2.2]; norm_num
  have t2' : τ ≤ 1 / 1.1 := by rw [le_div_iff₀ (by norm_num)]; exact t2
  have r2 : ((tab.rQ (1 + 1) : ℚ) : ℝ) = 1 / 10 := by rw [rQ_vals.2.1]; norm_num
  have r6 : ((tab.rQ (5 + 1) : ℚ) : ℝ) = 3 / 10 := by rw [rQ_vals.2.2.1]; norm_num
  have r16 : ((tab.rQ (15 + 1) : ℚ) : ℝ) = 1 / 2 := by rw [rQ_vals.2.2.2]; norm_num
  have key : ∀ {a b K : ℕ}, kChk (a + 1) (b + 1) K = true → a < 33 → b < 16 → τ ≤ ((tab.uN (a + 1) : ℝ) / 100000) ^ 40 →
      δ ≤ tab.rQ (b + 1) → loss δ τ = K → ∃ i j, tab.InBox i j δ τ ∧ (tab.kN i j : ℝ) ≤ loss δ τ := by
    intro a b K hk ha hb h1 h2 h3
    obtain ⟨i, j, hi, hj, hB⟩ := exists_box ha hb t1 h1 d1 h2
    refine ⟨i, j, hB, ?_⟩
    rw [h3]
    exact_mod_cast kChk_le hk hi hj
  by_cases hτ : τ ≤ 8 / 10
  · by_cases c1 : δ ≤ 1 / 10
    · exact key k1 (by norm_num) (by norm_num) (hτ.trans e27) (by rw [r2]; exact c1) (by simp only [loss, if_pos hτ, if_pos c1]; norm_num)
    · by_cases c2 : δ ≤ 3 / 10
      · exact key k2 (by norm_num) (by norm_num) (hτ.trans e27) (by rw [r6]; exact c2) (by simp only [loss, if_pos hτ, if_neg c1, if_pos c2]; norm_num)
      · exact key k3 (by norm_num) (by norm_num) (hτ.trans e27) (by rw [r16]; exact d2) (by simp only [loss, if_pos hτ, if_neg c1, if_neg c2]; norm_num)
  · by_cases c1 : δ ≤ 1 / 10
    · exact key k4 (by norm_num) (by norm_num) (t2'.trans e33) (by rw [r2]; exact c1) (by simp only [loss, if_neg hτ, if_pos c1]; norm_num)
    · by_cases c2 : δ ≤ 3 / 10
      · exact key k5 (by norm_num) (by norm_num) (t2'.trans e33) (by rw [r6]; exact c2) (by simp only [loss, if_neg hτ, if_neg c1, if_pos c2]; norm_num)
      · exact key k6 (by norm_num) (by norm_num) (t2'.trans e33) (by rw [r16]; exact d2) (by simp only [loss, if_neg hτ, if_neg c1, if_neg c2]; norm_num)

end Aga8.GergEos.MixT

theorem Aga8.WellSized.mono {v s K K' : ℝ} (h : WellSized v s K) (hK : K ≤ K') : WellSized v s K' := by
  have v0 : 0 ≤ v := le_trans (by norm_num) h.low
  exact ⟨h.cond.trans (mul_le_mul_of_nonneg_right hK v0), h.low, h.high⟩

namespace Aga8.GergEos

theorem Conditioned.mono {x : Fin 22 → ℝ} {D T K K' : ℝ} (h : Conditioned x D T K) (hK : K ≤ K') (hK' : K' ≤ 10000) :
    Conditioned x D T K' :=
  ⟨hK', h.z.mono hK, h.pd.mono hK, h.pt.mono hK, h.cv.mono hK⟩

theorem loss_le (δ τ : ℝ) : 10 ≤ loss δ τ ∧ loss δ τ ≤ 542 := by
  unfold loss
  split_ifs <;> norm_num

end Aga8.GergEos

namespace Aga8.Gerg

open F64 GergEos GergEos.MixTab

/-- On a rectangle of the tables the compression factor and the slope of the pressure are positive. -/
theorem stable_box {t : GergEos.MixTab} (ok : t.Ok) {i j : ℕ} {x : Vector ℝ 22} {D T : ℝ}
    (hx0 : ∀ i : Fin 22, 1 ≤ i.1 → 0 ≤ yOf x i) (s2 : ∑ i : Fin 22 with 1 ≤ i.1, yOf x i ≤ 1.01) (hδ : 0 ≤ D * invRhoR (yOf x))
    (hτ : 0 < Tr (yOf x) / T) (b : t.InBox i j (D * invRhoR (yOf x)) (Tr (yOf x) / T)) :
    0 < GergEos.Z (yOf x) D T ∧ 0 < dPdD (yOf x) D T := by
  have S := ok.sums b.hi b.hj hx0 s2 hτ b.u0 b.u1 b.r0 b.r1
  have F := t.fin_of (List.all_eq_true.1 (List.all_eq_true.1 ok.fin i (List.mem_range.2 b.hi)) j (List.mem_range.2 b.hj))
  have w0 : 0 ≤ D * invRhoR (yOf x) * (Tr (yOf x) / T) ^ (t0 : ℝ) := mul_nonneg hδ (Real.rpow_nonneg hτ.le _)
  have wl := b.w_le hδ hτ
  obtain ⟨vz, vp, -, -⟩ := mix_values x D hτ
  have K0 : (0 : ℝ) < t.kN i j := by have := F.k5; exact_mod_cast (by omega : 0 < t.kN i j)
  have low : ∀ {c a s : ℝ}, 0 ≤ c → 0 ≤ a → -c ≤ s → 1 + t.w1 i j * a ≤ t.kN i j * (1 - t.w1 i j * c) →
      0 < 1 + D * invRhoR (yOf x) * (Tr (yOf x) / T) ^ (t0 : ℝ) * s := by
    intro c a s hc ha hs h
    have w1 := w0.trans wl
    have h1 := mul_le_mul_of_nonneg_left hs w0
    have h2 := mul_le_mul_of_nonneg_right wl hc
    have h3 := mul_nonneg w1 ha
    have h4 : 0 < 1 - t.w1 i j * c := pos_of_mul_pos_right (lt_of_lt_of_le (by linarith) h) K0.le
    linarith
  rw [vz, vp]
  exact ⟨low (t.comb_nonneg _ i j) (t.comb_nonneg _ i j) S.z F.fz, low (t.comb_nonneg _ i j) (t.comb_nonneg _ i j) S.p F.fp⟩

theorem DZ_hasDeriv (x : Vector ℝ 22) {T : ℝ} (D : ℝ) (hτ : 0 < Tr (yOf x) / T) :
    HasDerivAt (fun D => D * GergEos.Z (yOf x) D T) (dPdD (yOf x) D T) D := by
  have h : DifferentiableAt ℝ (fun D => D * GergEos.Z (yOf x) D T) D := by
    simp only [Z_RS x _ hτ]
    obtain ⟨r', h1, -⟩ := RS_deriv1 x (D * invRhoR (yOf x)) (Tr (yOf x) / T)
    have h3 : HasDerivAt (fun D => D * invRhoR (yOf x)) (invRhoR (yOf x)) D := by
      simpa using (hasDerivAt_id D).mul_const (invRhoR (yOf x))
    exact ((hasDerivAt_id D).mul ((h1.comp D h3).const_add 1)).differentiableAt
  exact h.hasDerivAt

/-- The pressure of a gas mixture increases with the density. -/
theorem mix_mono {x : Vector ℝ 22} {T : ℝ} (hx0 : ∀ i : Fin 22, 1 ≤ i.1 → 0 ≤ yOf x i)
    (s2 : ∑ i : Fin 22 with 1 ≤ i.1, yOf x i ≤ 1.01) (hv : 0 ≤ invRhoR (yOf x)) (t1 : 1 / 100 ≤ Tr (yOf x) / T)
    (t2 : Tr (yOf x) / T * 1.1 ≤ 1) {D : ℝ} (hD : D * invRhoR (yOf x) ≤ 1 / 2) :
    StrictMonoOn (fun D => D * GergEos.Z (yOf x) D T) (Set.Icc 0 D) := by
  have hτ : 0 < Tr (yOf x) / T := by linarith
  refine strictMonoOn_of_deriv_pos (convex_Icc 0 D) (fun d _ => (DZ_hasDeriv x d hτ).continuousAt.continuousWithinAt) ?_
  intro d hd
  rw [interior_Icc] at hd
  rw [(DZ_hasDeriv x d hτ).deriv]
  have d0 := mul_nonneg hd.1.le hv
  obtain ⟨i, j, b, -⟩ := MixT.region t1 t2 d0 ((mul_le_mul_of_nonneg_right hd.2.le hv).trans hD)
  exact (stable_box MixT.tab_ok hx0 s2 d0 hτ b).2

end Aga8.Gerg
