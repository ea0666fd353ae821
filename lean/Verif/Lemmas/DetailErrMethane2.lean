import Verif.Lemmas.DetailErrMethane
import Verif.Spec.DetailEnergyError
import Mathlib.Analysis.SpecialFunctions.Trigonometric.DerivHyp

/-! # The size of the terms of the heat capacity and of the entropy for methane -/

namespace Aga8.Detail

open FOps Tab

def bndE (n : Fin 58) : ℚ := if 12 ≤ n.1 ∧ nf n then aabs n * tb n else 0
/-- A bound on the size of term `n`. -/
def bndT (n : Fin 58) : ℚ := bndB n + bndC n + bndE n
/-- The absolute value of the temperature exponent. -/
def uq (n : Fin 58) : ℚ := |(u2 n : ℚ)| / 2

theorem uq_real (n : Fin 58) : ((uq n : ℚ) : ℝ) = |Eos.c UN n| := by
  rw [c_UN, abs_div]
  unfold uq
  push_cast
  norm_num

theorem bndT_sum1 : ∑ n, (uq n + 1) * bndT n ≤ 24 := by decide +kernel
theorem bndT_sum2 : ∑ n, (uq n + 1) * uq n * bndT n ≤ 181 := by decide +kernel

theorem termSize_mx {T D : ℝ} (h1 : 1.21 * mE ≤ T) (h2 : T ≤ 4 * mE) (hD : 0 ≤ D) (hD1 : mK ^ 3 * D ≤ 1) (n : Fin 58) :
    Eos.termSize (posPart mx) D T n ≤ (bndT n : ℝ) := by
  have hB : D * (if n.1 < 18 then |Eos.c AN n| * T ^ (-Eos.c UN n)
      * ∑ i, ∑ j, posPart mx i * posPart mx j * Eos.Bstar n i j * Eos.Eij i j ^ Eos.c UN n
        * (Eos.c KI i * Eos.c KI j) ^ (3 / 2 : ℝ) else 0) ≤ (bndB n : ℝ) := by
    have e : ∑ i, ∑ j, posPart mx i * posPart mx j * Eos.Bstar n i j
        * Eos.Eij i j ^ Eos.c UN n * (Eos.c KI i * Eos.c KI j) ^ (3 / 2 : ℝ)
        = Eos.Bstar n 0 0 * Eos.Eij 0 0 ^ Eos.c UN n * (Eos.c KI 0 * Eos.c KI 0) ^ (3 / 2 : ℝ) := by
      have := (sum_mx fun i => ∑ j, posPart mx j * (Eos.Bstar n i j
        * Eos.Eij i j ^ Eos.c UN n * (Eos.c KI i * Eos.c KI j) ^ (3 / 2 : ℝ))).trans
        (sum_mx fun j => Eos.Bstar n 0 j
        * Eos.Eij 0 j ^ Eos.c UN n * (Eos.c KI 0 * Eos.c KI j) ^ (3 / 2 : ℝ))
      rw [← this]
      refine Finset.sum_congr rfl fun i _ => ?_
      rw [Finset.mul_sum]
      exact Finset.sum_congr rfl fun j _ => by ring
    have hE : Eos.Eij 0 0 = mE := by
      unfold Eos.Eij
      rw [star_EIJ0, c_EI0, one_mul, Real.sqrt_mul_self mE_pos.le]
    have hK : (mK * mK) ^ (3 / 2 : ℝ) = mK ^ 3 := by
      rw [← pow_two, ← Real.rpow_natCast, ← Real.rpow_mul mK_pos.le, ← Real.rpow_natCast]
      norm_num
    unfold bndB
    by_cases hn : n.1 < 18
    · rw [if_pos hn, e, Bstar_mx, hE, c_KI0, hK]
      cases hb : nb n
      · simp
      · simp only [hn, and_self, if_true]
        push_cast
        rw [aabs_real]
        obtain ⟨t0, t1⟩ := theta_le h1 h2 n
        calc D * (|Eos.c AN n| * T ^ (-Eos.c UN n) * (1 * mE ^ Eos.c UN n * mK ^ 3))
            = |Eos.c AN n| * (mE ^ Eos.c UN n * T ^ (-Eos.c UN n)) * (mK ^ 3 * D) := by ring
          _ ≤ |Eos.c AN n| * (mE ^ Eos.c UN n * T ^ (-Eos.c UN n)) * 1 := mul_le_mul_of_nonneg_left hD1 (by positivity)
          _ ≤ |Eos.c AN n| * (tb n : ℝ) := by
            rw [mul_one]; exact mul_le_mul_of_nonneg_left t1 (abs_nonneg _)
    · rw [if_neg hn, if_neg (fun h => hn h.1)]
      simp
  unfold Eos.termSize bndT
  dsimp only
  rw [Kcubed_mx]
  have hr : 0 ≤ mK ^ 3 * D := mul_nonneg (pow_nonneg mK_pos.le 3) hD
  generalize mK ^ 3 * D = r at *
  have ct : nf n = true → Eos.Cabs (posPart mx) n * T ^ (-Eos.c UN n) ≤ ((aabs n * tb n : ℚ) : ℝ) := by
    intro hn
    obtain ⟨t0, t1⟩ := theta_le h1 h2 n
    rw [Cabs_mx, if_pos hn, mul_assoc]
    push_cast
    rw [aabs_real]
    exact mul_le_mul_of_nonneg_left t1 (abs_nonneg _)
  have cz : nf n = false → Eos.Cabs (posPart mx) n = 0 := by
    intro hn
    rw [Cabs_mx, hn]; simp
  have c0 : 0 ≤ Eos.Cabs (posPart mx) n * T ^ (-Eos.c UN n) := by
    have := mE_pos
    have hT : 0 < T := by linarith
    rw [Cabs_mx]
    split <;> positivity
  have hC : r * (if 12 ≤ n.1 ∧ n.1 < 18 then Eos.Cabs (posPart mx) n * T ^ (-Eos.c UN n) else 0) ≤ (bndC n : ℝ) := by
    unfold bndC
    by_cases hn : 12 ≤ n.1 ∧ n.1 < 18
    · rw [if_pos hn]
      cases hb : nf n
      · rw [cz hb]; simp
      · rw [if_pos ⟨hn.1, hn.2, rfl⟩]; exact (mul_le_of_le_one_left c0 hD1).trans (ct hb)
    · rw [if_neg hn, if_neg (fun h => hn ⟨h.1, h.2.1⟩)]
      simp
  have hE : (if 12 ≤ n.1 then Eos.Cabs (posPart mx) n * T ^ (-Eos.c UN n) * r ^ BN[n.1]
      * Real.exp (-Eos.cn n * r ^ KN[n.1]) else 0) ≤ (bndE n : ℝ) := by
    unfold bndE
    by_cases hn : 12 ≤ n.1
    · rw [if_pos hn]
      cases hb : nf n
      · rw [cz hb]; simp
      · rw [if_pos ⟨hn, rfl⟩]
        have p2 : r ^ BN[n.1] ≤ 1 := pow_le_one₀ hr hD1
        have p3 : 0 ≤ r ^ KN[n.1] := pow_nonneg hr _
        have p4 : 0 ≤ r ^ BN[n.1] := pow_nonneg hr _
        have cn0 : 0 ≤ Eos.cn n := by unfold Eos.cn; split <;> norm_num
        have p5 : Real.exp (-Eos.cn n * r ^ KN[n.1]) ≤ 1 := by
          rw [Real.exp_le_one_iff]
          have := mul_nonneg cn0 p3
          linarith
        refine le_trans (mul_le_of_le_one_right (mul_nonneg c0 p4) p5) ?_
        exact le_trans (mul_le_of_le_one_right c0 p2) (ct hb)
    · rw [if_neg hn, if_neg (fun h => hn h.1)]
      simp
  push_cast
  linarith

/-! ## The hyperbolic functions -/

theorem x_le_sinh {x : ℝ} (hx : 0 < x) : x ≤ Real.sinh x := Real.self_le_sinh_iff.2 hx.le

theorem lnsinh_size {x : ℝ} (hx : 0 < x) : Eos.lnSize (Real.sinh x) ≤ 1 + x + 1 / x := by
  unfold Eos.lnSize
  have h := x_le_sinh hx
  have hs : 0 < Real.sinh x := hx.trans_le h
  have h1 : Real.log (Real.sinh x) ≤ x := by
    rw [Real.log_le_iff_le_exp hs, Real.sinh_eq]
    have := Real.exp_pos (-x)
    have := Real.exp_pos x
    linarith
  have h2 : 1 - 1 / x ≤ Real.log (Real.sinh x) := by
    have := Real.one_sub_inv_le_log_of_pos hx
    rw [one_div]
    exact this.trans (Real.log_le_log hx h)
  have h3 : |Real.log (Real.sinh x)| ≤ x + 1 / x := by
    rw [abs_le]
    have : 0 < 1 / x := by positivity
    constructor <;> linarith
  linarith

theorem lncosh_size {x : ℝ} (hx : 0 < x) : Eos.lnSize (Real.cosh x) ≤ 1 + x := by
  unfold Eos.lnSize
  have h1 := Real.one_le_cosh x
  rw [abs_of_nonneg (Real.log_nonneg h1)]
  have : Real.log (Real.cosh x) ≤ x := by
    rw [Real.log_le_iff_le_exp (by linarith), Real.cosh_eq]
    have : Real.exp (-x) ≤ Real.exp x := Real.exp_le_exp.2 (by linarith)
    linarith
  linarith

theorem xcoth_le {x : ℝ} (hx : 0 < x) : x * Real.cosh x / Real.sinh x ≤ 1 + x := by
  have h := x_le_sinh hx
  have hs : 0 < Real.sinh x := hx.trans_le h
  rw [div_le_iff₀ hs]
  have h1 : Real.cosh x - Real.sinh x = Real.exp (-x) := Real.cosh_sub_sinh x
  have h2 : Real.exp (-x) ≤ 1 := Real.exp_le_one_iff.2 (by linarith)
  nlinarith

theorem xtanh_le {x : ℝ} (hx : 0 < x) : x * Real.sinh x / Real.cosh x ≤ x := by
  have hc := Real.cosh_pos x
  rw [div_le_iff₀ hc]
  exact mul_le_mul_of_nonneg_left (Real.sinh_lt_cosh x).le hx.le

theorem xsinh_sq {x : ℝ} (hx : 0 < x) : (x / Real.sinh x) ^ 2 ≤ 1 := by
  have h := x_le_sinh hx
  have hs : 0 < Real.sinh x := hx.trans_le h
  exact pow_le_one₀ (by positivity) ((div_le_one hs).2 h)

theorem xcosh_sq {x : ℝ} (hx : 0 < x) : (x / Real.cosh x) ^ 2 ≤ 1 := by
  have hc := Real.cosh_pos x
  exact pow_le_one₀ (by positivity) ((div_le_one hc).2 ((x_le_sinh hx).trans (Real.sinh_lt_cosh x).le))

/-! ## Methane -/

theorem ideal_mx : GergEos.ideal.getD 0 Inhabited.default
    = ⟨29.83843397, -15999.69151, 4.00088, 0.76315, 820.659, 0.0046, 178.41, 8.74432, 1062.82, -4.46921, 1090.53⟩ := rfl

theorem heatVAbs_mx {T D : ℝ} (h1 : 1.21 * mE ≤ T) (h2 : T ≤ 4 * mE) (hD : 0 ≤ D) (hD1 : mK ^ 3 * D ≤ 1) :
    Eos.heatVAbs (posPart mx) D T ≤ 1667 := by
  have hT : 0 < T := by have := mE_pos; linarith
  unfold Eos.heatVAbs
  rw [sum_mx fun i => Eos.idealSize2 (GergEos.ideal.getD i.1 Inhabited.default) T]
  have hi : Eos.idealSize2 (GergEos.ideal.getD (0 : Fin 21).1 Inhabited.default) T ≤ 19 := by
    rw [show (0 : Fin 21).1 = 0 from rfl, ideal_mx]
    unfold Eos.idealSize2
    have a := xsinh_sq (x := ((820.659 : ℚ) : ℝ) / T) (by positivity)
    have b := xcosh_sq (x := ((178.41 : ℚ) : ℝ) / T) (by positivity)
    have c := xsinh_sq (x := ((1062.82 : ℚ) : ℝ) / T) (by positivity)
    have d := xcosh_sq (x := ((1090.53 : ℚ) : ℝ) / T) (by positivity)
    dsimp only
    generalize (((820.659 : ℚ) : ℝ) / T / Real.sinh (((820.659 : ℚ) : ℝ) / T)) ^ 2 = A at *
    generalize (((178.41 : ℚ) : ℝ) / T / Real.cosh (((178.41 : ℚ) : ℝ) / T)) ^ 2 = B at *
    generalize (((1062.82 : ℚ) : ℝ) / T / Real.sinh (((1062.82 : ℚ) : ℝ) / T)) ^ 2 = C at *
    generalize (((1090.53 : ℚ) : ℝ) / T / Real.cosh (((1090.53 : ℚ) : ℝ) / T)) ^ 2 = E at *
    norm_num [abs_of_pos, abs_of_neg]
    linarith
  have hs : ∑ n, (|Eos.c UN n| + 1) * |Eos.c UN n| * Eos.termSize (posPart mx) D T n ≤ 181 := by
    have h : ((∑ n, (uq n + 1) * uq n * bndT n : ℚ) : ℝ) ≤ 181 := by exact_mod_cast bndT_sum2
    refine le_trans ?_ h
    push_cast
    refine Finset.sum_le_sum fun n _ => ?_
    rw [uq_real]
    exact mul_le_mul_of_nonneg_left (termSize_mx h1 h2 hD hD1 n) (by positivity)
  calc (8.31451 : ℝ) * _ ≤ 8.31451 * (19 + 181) := mul_le_mul_of_nonneg_left (add_le_add hi hs) (by norm_num)
    _ ≤ 1667 := by norm_num

theorem entropyAbs_mx {T D : ℝ} (h1 : 1.21 * mE ≤ T) (h2 : T ≤ 4 * mE) (hD : 1e-4 ≤ D) (hD2 : D ≤ 10) (hD1 : mK ^ 3 * D ≤ 1) :
    Eos.entropyAbs (posPart mx) D T ≤ 2850 := by
  have hT : 0 < T := by have := mE_pos; linarith
  have hD0 : 0 < D := lt_of_lt_of_le (by norm_num) hD
  have tlo : 183 ≤ T := by unfold mE at h1; norm_num at h1; linarith
  have thi : T ≤ 606 := by unfold mE at h2; norm_num at h2; linarith
  have e7 : (606 : ℝ) ≤ Real.exp 7 := by
    have := Real.exp_one_gt_d9
    have h : Real.exp 7 = Real.exp 1 ^ 7 := by rw [← Real.exp_nat_mul]; norm_num
    rw [h]
    exact le_trans (by norm_num) (pow_le_pow_left₀ (by norm_num) this.le 7)
  have e10 : (10000 : ℝ) ≤ Real.exp 10 := by
    have := Real.exp_one_gt_d9
    have h : Real.exp 10 = Real.exp 1 ^ 10 := by rw [← Real.exp_nat_mul]; norm_num
    rw [h]
    exact le_trans (by norm_num) (pow_le_pow_left₀ (by norm_num) this.le 10)
  have lT : Eos.lnSize T ≤ 8 := by
    unfold Eos.lnSize
    rw [abs_of_nonneg (Real.log_nonneg (by linarith))]
    have : Real.log T ≤ 7 := (Real.log_le_iff_le_exp hT).2 (thi.trans e7)
    linarith
  have lD : Eos.lnSize D ≤ 11 := by
    unfold Eos.lnSize
    have a : Real.log D ≤ D - 1 := Real.log_le_sub_one_of_pos hD0
    have b : -10 ≤ Real.log D := by
      rw [Real.le_log_iff_exp_le hD0, Real.exp_neg]
      refine le_trans (inv_anti₀ (by norm_num) e10) (le_trans ?_ hD)
      norm_num
    have : |Real.log D| ≤ 10 := abs_le.2 ⟨b, by linarith⟩
    linarith
  have l1 : Eos.lnSize 1 = 1 := by unfold Eos.lnSize; simp
  have l0 : Eos.lnSize (101.325 / (8.31451 * 298.15)) ≤ 25 := by
    unfold Eos.lnSize
    have a := Real.one_sub_inv_le_log_of_pos (x := (101.325 / (8.31451 * 298.15) : ℝ)) (by norm_num)
    have b := Real.log_nonpos (x := (101.325 / (8.31451 * 298.15) : ℝ)) (by norm_num) (by norm_num)
    rw [abs_of_nonpos b]
    norm_num at a ⊢
    linarith
  have hy : ∀ θ : ℝ, 0 < θ → θ / T ≤ θ / 183 ∧ 1 / (θ / T) ≤ 606 / θ := by
    intro θ h
    constructor
    · exact div_le_div_of_nonneg_left h.le (by norm_num) tlo
    · rw [one_div, inv_div]; exact div_le_div_of_nonneg_right thi h.le
  have sh : ∀ θ : ℝ, 0 < θ → Eos.lnSize (Real.sinh (θ / T)) + θ / T * Real.cosh (θ / T) / Real.sinh (θ / T)
      ≤ 2 + 2 * (θ / 183) + 606 / θ := by
    intro θ h
    have p : 0 < θ / T := by positivity
    have a := lnsinh_size p
    have b := xcoth_le p
    obtain ⟨c, d⟩ := hy θ h
    linarith
  have ch : ∀ θ : ℝ, 0 < θ → Eos.lnSize (Real.cosh (θ / T)) + θ / T * Real.sinh (θ / T) / Real.cosh (θ / T)
      ≤ 1 + 2 * (θ / 183) := by
    intro θ h
    have p : 0 < θ / T := by positivity
    have a := lncosh_size p
    have b := xtanh_le p
    obtain ⟨c, d⟩ := hy θ h
    linarith
  unfold Eos.entropyAbs
  rw [sum_mx fun i => Eos.mixSize (posPart mx i) D + Eos.idealSize1 (GergEos.ideal.getD i.1 Inhabited.default) T]
  have hm : Eos.mixSize (posPart mx 0) D ≤ 37 := by
    unfold Eos.mixSize
    rw [posPart_mx, if_pos rfl, l1]
    linarith
  have hi : Eos.idealSize1 (GergEos.ideal.getD (0 : Fin 21).1 Inhabited.default) T ≤ 278 := by
    rw [show (0 : Fin 21).1 = 0 from rfl, ideal_mx]
    unfold Eos.idealSize1
    have a := sh ((820.659 : ℚ) : ℝ) (by positivity)
    have b := ch ((178.41 : ℚ) : ℝ) (by positivity)
    have c := sh ((1062.82 : ℚ) : ℝ) (by positivity)
    have d := ch ((1090.53 : ℚ) : ℝ) (by positivity)
    dsimp only
    generalize Eos.lnSize (Real.sinh (((820.659 : ℚ) : ℝ) / T)) + ((820.659 : ℚ) : ℝ) / T * Real.cosh (((820.659 : ℚ) : ℝ) / T)
      / Real.sinh (((820.659 : ℚ) : ℝ) / T) = A at *
    generalize Eos.lnSize (Real.cosh (((178.41 : ℚ) : ℝ) / T)) + ((178.41 : ℚ) : ℝ) / T * Real.sinh (((178.41 : ℚ) : ℝ) / T)
      / Real.cosh (((178.41 : ℚ) : ℝ) / T) = B at *
    generalize Eos.lnSize (Real.sinh (((1062.82 : ℚ) : ℝ) / T)) + ((1062.82 : ℚ) : ℝ) / T
      * Real.cosh (((1062.82 : ℚ) : ℝ) / T) / Real.sinh (((1062.82 : ℚ) : ℝ) / T) = C at *
    generalize Eos.lnSize (Real.cosh (((1090.53 : ℚ) : ℝ) / T)) + ((1090.53 : ℚ) : ℝ) / T
      * Real.sinh (((1090.53 : ℚ) : ℝ) / T) / Real.cosh (((1090.53 : ℚ) : ℝ) / T) = E at *
    generalize Eos.lnSize T = L at *
    norm_num [abs_of_pos, abs_of_neg] at a b c d ⊢
    linarith
  have hs : ∑ n, (|Eos.c UN n| + 1) * Eos.termSize (posPart mx) D T n ≤ 24 := by
    have h : ((∑ n, (uq n + 1) * bndT n : ℚ) : ℝ) ≤ 24 := by exact_mod_cast bndT_sum1
    refine le_trans ?_ h
    push_cast
    refine Finset.sum_le_sum fun n _ => ?_
    rw [uq_real]
    exact mul_le_mul_of_nonneg_left (termSize_mx h1 h2 hD0.le hD1 n) (by positivity)
  calc (8.31451 : ℝ) * _ ≤ 8.31451 * ((37 + 278) + 24) :=
        mul_le_mul_of_nonneg_left (add_le_add (add_le_add hm hi) hs) (by norm_num)
    _ ≤ 2850 := by norm_num

end Aga8.Detail
