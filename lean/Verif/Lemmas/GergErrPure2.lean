import Verif.Lemmas.GergErrPure
import Verif.Lemmas.DetailErrMethane2
import Verif.Lemmas.GergEos
import Verif.Spec.GergEnergyError

/-! # The size of the terms of the entropy and the heat capacity of a pure fluid -/

namespace Aga8.GergEos

open Finset

theorem sum_single (f : Fin 22 → ℝ) (k : Fin 22) (hk : 1 ≤ k.1) :
    ∑ i with 1 ≤ i.1, (if i = k then (1 : ℝ) else 0) * f i = f k := by
  rw [Finset.sum_eq_single k]
  · simp
  · intro i _ hi; simp [hi]
  · intro h; exact absurd (by simpa using hk) h

/-- Below the critical density and above the critical temperature a term is at most its coefficient. -/
theorem PureTerm.size_le' (a : PureTerm) (ht : 0 ≤ a.t) {δ τ : ℝ} (h0 : 0 ≤ δ) (h1 : δ ≤ 1) (t0 : 0 < τ) (t1 : τ ≤ 1) :
    a.size δ τ ≤ ((|a.n| : ℚ) : ℝ) := by
  have e1 : δ ^ a.d ≤ 1 := pow_le_one₀ h0 h1
  have e2 : τ ^ (a.t : ℝ) ≤ 1 := Real.rpow_le_one t0.le t1 (by exact_mod_cast ht)
  have e3 : (if a.c = 0 then (1 : ℝ) else Real.exp (-δ ^ a.c)) ≤ 1 := by
    split
    · exact le_refl _
    · rw [Real.exp_le_one_iff]
      have := pow_nonneg h0 a.c
      linarith
  have e3' : 0 ≤ (if a.c = 0 then (1 : ℝ) else Real.exp (-δ ^ a.c)) := by
    split
    · norm_num
    · exact (Real.exp_pos _).le
  have e6 := Real.rpow_nonneg t0.le (a.t : ℝ)
  have hn := abs_nonneg (a.n : ℝ)
  push_cast
  unfold PureTerm.size
  calc |(a.n : ℝ)| * δ ^ a.d * τ ^ (a.t : ℝ) * (if a.c = 0 then 1 else Real.exp (-δ ^ a.c))
      ≤ |(a.n : ℝ)| * 1 * 1 * 1 := by gcongr
    _ = |(a.n : ℝ)| := by ring

/-- A residual size of a pure fluid, when the factor depends on the exponent only. -/
theorem sizes_single_le (f : ℚ → ℚ) (hf : ∀ t, 0 ≤ t → 0 ≤ f t) (g : PureTerm → ℝ → ℝ) (h : DepTerm → ℝ → ℝ)
    (hg : ∀ a δ, 0 ≤ a.t → g a δ = (f a.t : ℝ)) (k : Fin 22) (hk : 1 ≤ k.1) {δ τ : ℝ} (h0 : 0 ≤ δ) (h1 : δ ≤ 1) (t0 : 0 < τ)
    (t1 : τ ≤ 1) : sizes g h (fun i => if i = k then 1 else 0) δ τ
      ≤ ((((pureTerms.getD k.1 []).map fun a => |a.n| * f a.t).sum : ℚ) : ℝ) := by
  rw [sizes_single _ _ k hk]
  have ht := pure_tpos k
  rw [List.all_eq_true] at ht
  refine sum_le_cast fun a ha => ?_
  have hta := of_decide_eq_true (ht a ha)
  rw [hg a δ hta]
  push_cast
  have := a.size_le' hta h0 h1 t0 t1
  push_cast at this
  exact mul_le_mul_of_nonneg_right this (by exact_mod_cast hf _ hta)

theorem pure_sums : ∀ k : Fin 22, ((pureTerms.getD k.1 []).map fun a => |a.n| * (fun _ => (1 : ℚ)) a.t).sum ≤ 14 ∧
    ((pureTerms.getD k.1 []).map fun a => |a.n| * (fun t : ℚ => t) a.t).sum ≤ 30 ∧
    ((pureTerms.getD k.1 []).map fun a => |a.n| * (fun t : ℚ => t * (t + 1)) a.t).sum ≤ 663 := by
  decide +kernel

/-! ## The ideal-gas part -/

/-- A bound on the heat capacity of a component. -/
def IdealTerms.bnd2 (a : IdealTerms) : ℚ := |a.n3| + 1 + |a.n4| + |a.n5| + |a.n6| + |a.n7|

/-- A bound on the two parts of its entropy, above the temperature `T`. -/
def IdealTerms.bnd01 (a : IdealTerms) (T : ℚ) : ℚ :=
  |a.n1| + 2 * ((|a.n2| + 298.15) / T) + 9 * (|a.n3| + 1)
    + |a.n4| * (2 + 2 * (a.th4 / T) + 1000 / 156) + |a.n5| * (1 + 2 * (a.th5 / T))
    + |a.n6| * (2 + 2 * (a.th6 / T) + 1000 / 156) + |a.n7| * (1 + 2 * (a.th7 / T))

theorem ideal_bnds : ∀ k : Fin 22, 1 ≤ k.1 →
    (ideal.getD (k.1 - 1) Inhabited.default).bnd2 ≤ 128 ∧
    298.15 / Gerg.decQ (aget2 Gerg.Tab.GTIJ k k) * 2
      + (ideal.getD (k.1 - 1) Inhabited.default).bnd01 (Gerg.decQ (aget2 Gerg.Tab.GTIJ k k)) ≤ 1800 ∧
    0 < Gerg.decQ (aget2 Gerg.Tab.GTIJ k k) ∧
    ((ideal.getD (k.1 - 1) Inhabited.default).n4 = 0 ∨ 156 ≤ (ideal.getD (k.1 - 1) Inhabited.default).th4) ∧
    ((ideal.getD (k.1 - 1) Inhabited.default).n5 = 0 ∨ 156 ≤ (ideal.getD (k.1 - 1) Inhabited.default).th5) ∧
    ((ideal.getD (k.1 - 1) Inhabited.default).n6 = 0 ∨ 156 ≤ (ideal.getD (k.1 - 1) Inhabited.default).th6) ∧
    ((ideal.getD (k.1 - 1) Inhabited.default).n7 = 0 ∨ 156 ≤ (ideal.getD (k.1 - 1) Inhabited.default).th7) := by
  decide +kernel

/-- A factor of a hyperbolic term. -/
theorem mul_bnd {n θ : ℚ} (h : n = 0 ∨ 156 ≤ θ) {A B : ℝ} (hA : 156 ≤ (θ : ℝ) → A ≤ B) : |(n : ℝ)| * A ≤ |(n : ℝ)| * B := by
  rcases h with h | h
  · rw [h]; simp
  · exact mul_le_mul_of_nonneg_left (hA (by exact_mod_cast h)) (abs_nonneg _)

theorem size2_le (a : IdealTerms) {T : ℝ} (hT : 0 < T) (h4 : a.n4 = 0 ∨ 156 ≤ a.th4) (h5 : a.n5 = 0 ∨ 156 ≤ a.th5)
    (h6 : a.n6 = 0 ∨ 156 ≤ a.th6) (h7 : a.n7 = 0 ∨ 156 ≤ a.th7) : a.size2 T ≤ (a.bnd2 : ℝ) := by
  have b4 := mul_bnd h4 (A := (a.th4 / T / Real.sinh (a.th4 / T)) ^ 2) (B := 1) fun h => Detail.xsinh_sq (by positivity)
  have b5 := mul_bnd h5 (A := (a.th5 / T / Real.cosh (a.th5 / T)) ^ 2) (B := 1) fun h => Detail.xcosh_sq (by positivity)
  have b6 := mul_bnd h6 (A := (a.th6 / T / Real.sinh (a.th6 / T)) ^ 2) (B := 1) fun h => Detail.xsinh_sq (by positivity)
  have b7 := mul_bnd h7 (A := (a.th7 / T / Real.cosh (a.th7 / T)) ^ 2) (B := 1) fun h => Detail.xcosh_sq (by positivity)
  unfold IdealTerms.size2 IdealTerms.bnd2
  push_cast
  linarith

theorem size01_le (a : IdealTerms) {Tm : ℚ} (hm : 0 < Tm) {T : ℝ} (hT : (Tm : ℝ) ≤ T) (hT1 : 50 ≤ T) (hT2 : T ≤ 1000)
    (h4 : a.n4 = 0 ∨ 156 ≤ a.th4) (h5 : a.n5 = 0 ∨ 156 ≤ a.th5)
    (h6 : a.n6 = 0 ∨ 156 ≤ a.th6) (h7 : a.n7 = 0 ∨ 156 ≤ a.th7) : a.size0 T + a.size1 T ≤ (a.bnd01 Tm : ℝ) := by
  have hm' : (0 : ℝ) < Tm := by exact_mod_cast hm
  have T0 : 0 < T := hm'.trans_le hT
  have e7 : (1000 : ℝ) ≤ Real.exp 7 := by
    have := Real.exp_one_gt_d9
    have h : Real.exp 7 = Real.exp 1 ^ 7 := by rw [← Real.exp_nat_mul]; norm_num
    rw [h]
    exact le_trans (by norm_num) (pow_le_pow_left₀ (by norm_num) this.le 7)
  have lT : lnSize T ≤ 8 := by
    unfold lnSize
    rw [abs_of_nonneg (Real.log_nonneg (by linarith))]
    have : Real.log T ≤ 7 := (Real.log_le_iff_le_exp T0).2 (hT2.trans e7)
    linarith
  have hy : ∀ θ : ℝ, 156 ≤ θ → θ / T ≤ θ / Tm ∧ 1 / (θ / T) ≤ 1000 / 156 := by
    intro θ h
    constructor
    · exact div_le_div_of_nonneg_left (by linarith) hm' hT
    · rw [one_div, inv_div]
      exact div_le_div₀ (by norm_num) hT2 (by norm_num) h
  have sh : ∀ θ : ℝ, 156 ≤ θ → lnSize (Real.sinh (θ / T)) + θ / T * Real.cosh (θ / T) / Real.sinh (θ / T)
      ≤ 2 + 2 * (θ / Tm) + 1000 / 156 := by
    intro θ h
    have p : 0 < θ / T := div_pos (by linarith) T0
    have a := Detail.lnsinh_size p
    have b := Detail.xcoth_le p
    obtain ⟨c, d⟩ := hy θ h
    have e : lnSize (Real.sinh (θ / T)) = Eos.lnSize (Real.sinh (θ / T)) := rfl
    rw [e]
    linarith
  have ch : ∀ θ : ℝ, 156 ≤ θ → lnSize (Real.cosh (θ / T)) + θ / T * Real.sinh (θ / T) / Real.cosh (θ / T)
      ≤ 1 + 2 * (θ / Tm) := by
    intro θ h
    have p : 0 < θ / T := div_pos (by linarith) T0
    have a := Detail.lncosh_size p
    have b := Detail.xtanh_le p
    obtain ⟨c, d⟩ := hy θ h
    have e : lnSize (Real.cosh (θ / T)) = Eos.lnSize (Real.cosh (θ / T)) := rfl
    rw [e]
    linarith
  have b4 := mul_bnd h4 (sh a.th4)
  have b5 := mul_bnd h5 (ch a.th5)
  have b6 := mul_bnd h6 (sh a.th6)
  have b7 := mul_bnd h7 (ch a.th7)
  have b2 : (|(a.n2 : ℝ)| + 298.15) / T ≤ (|(a.n2 : ℝ)| + 298.15) / Tm :=
    div_le_div_of_nonneg_left (by positivity) hm' hT
  have b3 : (|(a.n3 : ℝ)| + 1) * lnSize T ≤ (|(a.n3 : ℝ)| + 1) * 8 := mul_le_mul_of_nonneg_left lT (by positivity)
  unfold IdealTerms.size0 IdealTerms.size1 IdealTerms.bnd01
  push_cast
  linarith

theorem heatVAbs_single (k : Fin 22) (hk : 1 ≤ k.1) {D T : ℝ} (hD : 0 ≤ D)
    (hδ : D * invRhoR (fun i => if i = k then 1 else 0) ≤ 1) (hv : 0 ≤ invRhoR (fun i => if i = k then 1 else 0))
    (hT : 0 < Tr (fun i => if i = k then 1 else 0)) (hτ : Tr (fun i => if i = k then 1 else 0) ≤ T) :
    heatVAbs (fun i => if i = k then 1 else 0) D T ≤ 6600 := by
  obtain ⟨i2, -, -, h4, h5, h6, h7⟩ := ideal_bnds k hk
  have T0 := lt_of_lt_of_le hT hτ
  have r := sizes_single_le (fun t => t * (t + 1)) (fun t ht => by positivity)
    (fun a _ => |(a.t : ℝ)| * (|(a.t : ℝ)| + 1)) (fun a _ => |(a.t : ℝ)| * (|(a.t : ℝ)| + 1)) (fun a _ ht => by
      have : (0 : ℝ) ≤ a.t := by exact_mod_cast ht
      rw [abs_of_nonneg this]; push_cast; rfl) k hk (mul_nonneg hD hv) hδ (div_pos hT T0) ((div_le_one T0).2 hτ)
  have s := size2_le _ T0 h4 h5 h6 h7
  have i2' : ((IdealTerms.bnd2 (ideal.getD (k.1 - 1) Inhabited.default) : ℚ) : ℝ) ≤ 128 := by exact_mod_cast i2
  have r' : (((((pureTerms.getD k.1 []).map fun a => |a.n| * (fun t : ℚ => t * (t + 1)) a.t).sum : ℚ)) : ℝ) ≤ 663 := by
    exact_mod_cast (pure_sums k).2.2
  unfold heatVAbs ideal2 res20
  rw [sum_single (fun i => 8.31451 / 8.314472 * (ideal.getD (i.1 - 1) Inhabited.default).size2 T) k hk]
  norm_num at r s i2' r' ⊢
  linarith

theorem entropyAbs_single (k : Fin 22) (hk : 1 ≤ k.1) {D T : ℝ} (hD : 1e-4 ≤ D) (hD2 : D ≤ 1000)
    (hδ : D * invRhoR (fun i => if i = k then 1 else 0) ≤ 1) (hv : 0 ≤ invRhoR (fun i => if i = k then 1 else 0))
    (hT : 0 < Tr (fun i => if i = k then 1 else 0)) (hτ : Tr (fun i => if i = k then 1 else 0) ≤ T)
    (hTr : Tr (fun i => if i = k then 1 else 0) = Gerg.decQ (aget2 Gerg.Tab.GTIJ k k)) (hT1 : 50 ≤ T) (hT2 : T ≤ 1000) :
    entropyAbs (fun i => if i = k then 1 else 0) D T ≤ 16000 := by
  obtain ⟨-, i01, hm, h4, h5, h6, h7⟩ := ideal_bnds k hk
  have T0 := lt_of_lt_of_le hT hτ
  have D0 : 0 < D := lt_of_lt_of_le (by norm_num) hD
  have r0 := sizes_single_le (fun _ => 1) (fun t ht => by positivity) (fun _ _ => 1) (fun _ _ => 1) (fun a _ ht => by simp)
    k hk (mul_nonneg D0.le hv) hδ (div_pos hT T0) ((div_le_one T0).2 hτ)
  have r1 := sizes_single_le (fun t => t) (fun t ht => ht) (fun a _ => |(a.t : ℝ)|) (fun a _ => |(a.t : ℝ)|) (fun a _ ht =>
    abs_of_nonneg (by exact_mod_cast ht)) k hk (mul_nonneg D0.le hv) hδ (div_pos hT T0) ((div_le_one T0).2 hτ)
  have s := size01_le _ hm (T := T) (by rw [← hTr]; exact hτ) hT1 hT2 h4 h5 h6 h7
  have r0' : (((((pureTerms.getD k.1 []).map fun a => |a.n| * (fun _ => (1 : ℚ)) a.t).sum : ℚ)) : ℝ) ≤ 14 := by
    exact_mod_cast (pure_sums k).1
  have r1' : (((((pureTerms.getD k.1 []).map fun a => |a.n| * (fun t : ℚ => t) a.t).sum : ℚ)) : ℝ) ≤ 30 := by
    exact_mod_cast (pure_sums k).2.1
  have i01' : ((298.15 / Gerg.decQ (aget2 Gerg.Tab.GTIJ k k) * 2
      + (ideal.getD (k.1 - 1) Inhabited.default).bnd01 (Gerg.decQ (aget2 Gerg.Tab.GTIJ k k)) : ℚ) : ℝ) ≤ 1800 := by
    exact_mod_cast i01
  push_cast at i01'
  have b : 298.15 / T ≤ 298.15 / (Gerg.decQ (aget2 Gerg.Tab.GTIJ k k) : ℝ) :=
    div_le_div_of_nonneg_left (by norm_num) (by exact_mod_cast hm) (by rw [← hTr]; exact hτ)
  have e10 : (10000 : ℝ) ≤ Real.exp 10 := by
    have := Real.exp_one_gt_d9
    have h : Real.exp 10 = Real.exp 1 ^ 10 := by rw [← Real.exp_nat_mul]; norm_num
    rw [h]
    exact le_trans (by norm_num) (pow_le_pow_left₀ (by norm_num) this.le 10)
  have lD : lnSize D ≤ 11 := by
    unfold lnSize
    have a : Real.log D ≤ 10 := (Real.log_le_iff_le_exp D0).2 (by linarith)
    have b : -10 ≤ Real.log D := by
      rw [Real.le_log_iff_exp_le D0, Real.exp_neg]
      refine le_trans (inv_anti₀ (by norm_num) e10) (le_trans ?_ hD)
      norm_num
    have : |Real.log D| ≤ 10 := abs_le.2 ⟨b, a⟩
    linarith
  have l1 : lnSize 1 = 1 := by unfold lnSize; simp
  have l0 : lnSize (101.325 / (8.314472 * 298.15)) ≤ 25 := by
    unfold lnSize
    have a := Real.one_sub_inv_le_log_of_pos (x := (101.325 / (8.314472 * 298.15) : ℝ)) (by norm_num)
    have b := Real.log_nonpos (x := (101.325 / (8.314472 * 298.15) : ℝ)) (by norm_num) (by norm_num)
    rw [abs_of_nonpos b]
    norm_num at a ⊢
    linarith
  unfold entropyAbs ideal0 ideal1 res00 res10
  rw [sum_single (fun i => 298.15 / T + 8.31451 / 8.314472 * (ideal.getD (i.1 - 1) Inhabited.default).size1 T) k hk,
    sum_single (fun i => mixSize (if i = k then 1 else 0) D + 298.15 / T
      + 8.31451 / 8.314472 * (ideal.getD (i.1 - 1) Inhabited.default).size0 T) k hk]
  unfold mixSize
  rw [if_pos rfl, l1]
  have b0 : 0 ≤ 298.15 / (Gerg.decQ (aget2 Gerg.Tab.GTIJ k k) : ℝ) := div_nonneg (by norm_num) (by exact_mod_cast hm.le)
  norm_num only at b0
  norm_num at r0 r1 s i01' r0' r1' b lD l0 ⊢
  linarith

end Aga8.GergEos
