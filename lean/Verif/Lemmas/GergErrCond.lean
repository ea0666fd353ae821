import Verif.Lemmas.F64CondOf
import Verif.Lemmas.GergErrEnergy
import Verif.Lemmas.GergErrDens
import Verif.Lemmas.DetailErrEnergy

/-! # The rounding error of the GERG isobaric heat capacity, speed of sound, isentropic exponent and Joule-Thomson coefficient -/

set_option linter.unusedSectionVars false

namespace Aga8.Gerg

open FOps Tab F64

attribute [local irreducible] newP pressureP propertiesP

section
variable {F : Type} [Add F] [Sub F] [Mul F] [Div F] [Neg F] [FOps F]

theorem gfresh_x (q : Pub F) : (freshOf q).x = q.x := rfl
theorem gfresh_t (q : Pub F) : (freshOf q).t = q.t := rfl
theorem gfresh_d (q : Pub F) : (freshOf q).d = q.d := rfl

/-- The molar mass of `properties` on a new object. -/
def mmF (q : Pub F) : F := loop 1 22 (f% 0.0) fun i mm => mm + aget q.x i * tab MMI_GERG i

/-- The last steps of `properties` on a new object of positive density. -/
theorem cond_fields (q : Pub F) (hd : (EPSILON <. q.d) = true) :
    (propertiesP (freshOf q)).1.cp = (propertiesP (freshOf q)).1.cv + q.t * ((propertiesP (freshOf q)).1.dp_dt / q.d)
      * ((propertiesP (freshOf q)).1.dp_dt / q.d) / (propertiesP (freshOf q)).1.dp_dd ∧
    (propertiesP (freshOf q)).1.w = sqrt (if (f% 1000.0 * (propertiesP (freshOf q)).1.cp / (propertiesP (freshOf q)).1.cv
          * (propertiesP (freshOf q)).1.dp_dd / mmF q) <. f% 0.0 then f% 0.0
        else f% 1000.0 * (propertiesP (freshOf q)).1.cp / (propertiesP (freshOf q)).1.cv
          * (propertiesP (freshOf q)).1.dp_dd / mmF q) ∧
    (propertiesP (freshOf q)).1.kappa = powi (propertiesP (freshOf q)).1.w 2 * mmF q
      / (RGERG * q.t * f% 1000.0 * (propertiesP (freshOf q)).1.z) ∧
    (propertiesP (freshOf q)).1.jt = (q.t / q.d * (propertiesP (freshOf q)).1.dp_dt / (propertiesP (freshOf q)).1.dp_dd - f% 1.0)
      / (propertiesP (freshOf q)).1.cp / q.d := by
  have et : (propsMid (freshOf q)).t = q.t := (propsMid_t _).trans (gfresh_t q)
  have ed : (propsMid (freshOf q)).d = q.d := (propsMid_d _).trans (gfresh_d q)
  have em : (propsMid (freshOf q)).mm = mmF q := propsMid_mm _
  rw [propertiesP_eq]
  refine ⟨?_, ?_, ?_, ?_⟩
  · rw [propsFinish_cp, ed, if_pos hd, et]
  · rw [propsFinish_w, em]
  · rw [propsFinish_kappa, em, et]
  · rw [propsFinish_jt, ed, if_pos hd, et]

end

variable [Libm]

theorem massLo : ∀ i : Fin 22, 1 ≤ i.1 → (1 : ℚ) ≤ decQ (aget MMI_GERG i) ∧ decQ (aget MMI_GERG i) ≤ 200 := by decide +kernel

theorem ap_mm {q : Pub Float} (hq : ErrDomain q) (hx : ∀ i : Fin 22, 1 ≤ i.1 → 0 ≤ toR (aget q.x i)) :
    Ap (mmF q) (GergEos.mass (fracs q)) (GergEos.mass (fracs q)) 47 900 913 ∧
    1 / 100 ≤ GergEos.mass (fracs q) ∧ GergEos.mass (fracs q) ≤ 10000 := by
  have hv : ∀ i : Fin 22, GergEos.val MMI_GERG[i.1] = decR (aget MMI_GERG i) := fun i => rfl
  have hl : mmF q = loop 1 22 (f% 0.0) fun i mm => mm + (if i = 0 then f% 0.0 else aget q.x i) * tab MMI_GERG i := by
    unfold mmF
    refine loop_congr fun i a hi => ?_
    rw [if_neg (by rintro rfl; simp at hi)]
  have := wsum_ap (by norm_num) 1 (fun i : Fin 22 => if i = 0 then f% 0.0 else aget q.x i)
    (fun i => tab MMI_GERG i) (fun i => decR (aget MMI_GERG i)) (fun i => by
      refine Fin.cases ?_ (fun j => ?_) i
      · simp only [if_true]; exact ⟨fin0, Or.inl toR0⟩
      · rw [if_neg (Fin.succ_ne_zero j)]
        have hj : 1 ≤ (j.succ).1 := by simp
        refine ⟨hq.x_fin _ hj, ?_⟩
        rcases hq.x_rng _ hj with h | h
        · exact Or.inl (le_antisymm h (hx _ hj))
        · right
          have h1 := h.1
          rw [abs_of_nonneg (hx _ hj)]
          constructor
          · refine le_trans ?_ h1
            refine (one_div_le_one_div_of_le (by norm_num) (pow_le_pow_right₀ (by norm_num : (1 : ℝ) ≤ 2) (show 100 ≤ 900 by norm_num))).trans ?_
            norm_num
          · exact h.2.trans (le_self_pow₀ (by norm_num) (by norm_num))) (fun i hi => Ap.litPos (chkMMG i hi).1 (chkMMG i hi).2.le)
  have e1 : ∑ i : Fin 22 with 1 ≤ i.1, toR (if i = 0 then (f% 0.0 : Float) else aget q.x i) * decR (aget MMI_GERG i)
      = GergEos.mass (fracs q) := by
    unfold GergEos.mass
    refine Finset.sum_congr rfl fun i hi => ?_
    have hi' := (Finset.mem_filter.1 hi).2
    rw [if_neg (by rintro rfl; simp at hi'), hv]
    unfold fracs
    rw [max_eq_left (hx i hi')]
  have e2 : ∑ i : Fin 22 with 1 ≤ i.1, |toR (if i = 0 then (f% 0.0 : Float) else aget q.x i)| * decR (aget MMI_GERG i)
      = GergEos.mass (fracs q) := by
    unfold GergEos.mass
    refine Finset.sum_congr rfl fun i hi => ?_
    have hi' := (Finset.mem_filter.1 hi).2
    rw [if_neg (by rintro rfl; simp at hi'), hv]
    unfold fracs
    rw [max_eq_left (hx i hi'), abs_of_nonneg (hx i hi')]
  rw [← hl, e1, e2] at this
  have hm : ∀ i : Fin 22, 1 ≤ i.1 → 1 ≤ GergEos.val MMI_GERG[i.1] ∧ GergEos.val MMI_GERG[i.1] ≤ 200 := by
    intro i hi
    have h := massLo i hi
    have e : GergEos.val MMI_GERG[i.1] = ((decQ (aget MMI_GERG i) : ℚ) : ℝ) := by
      unfold GergEos.val decQ; push_cast; rfl
    rw [e]
    exact_mod_cast h
  refine ⟨this, ?_, ?_⟩
  · obtain ⟨k, hk, hb⟩ := hq.x_big
    have h0 : ∀ i ∈ (Finset.univ.filter fun i : Fin 22 => 1 ≤ i.1), 0 ≤ fracs q i * GergEos.val MMI_GERG[i.1] := fun i hi =>
      mul_nonneg (le_max_right _ _) (by linarith [(hm i (Finset.mem_filter.1 hi).2).1])
    refine le_trans ?_ (Finset.single_le_sum h0 (Finset.mem_filter.2 ⟨Finset.mem_univ k, hk⟩))
    have h1 : 1 / 100 ≤ fracs q k := hb.trans (le_max_left _ _)
    nlinarith [(hm k hk).1]
  · have h1 : ∀ i ∈ (Finset.univ.filter fun i : Fin 22 => 1 ≤ i.1), fracs q i * GergEos.val MMI_GERG[i.1] ≤ 400 := fun i hi => by
      have hi' := (Finset.mem_filter.1 hi).2
      have : fracs q i ≤ 2 := by
        unfold fracs
        refine max_le ?_ (by norm_num)
        rcases hq.x_rng i hi' with h | h
        · linarith
        · exact h.2
      have h0 : 0 ≤ fracs q i := le_max_right _ _
      nlinarith [(hm i hi').1, (hm i hi').2]
    refine (Finset.sum_le_card_nsmul _ _ _ h1).trans ?_
    have : (Finset.univ.filter fun i : Fin 22 => 1 ≤ i.1).card = 21 := by decide
    rw [this]; norm_num

/-- The inputs of the last steps. -/
theorem condIn (hL : LibmAccurate) (hN : LnAccurate) {q : Pub Float} (hq : ErrDomain q) (t1 : 50 ≤ toR q.t)
    (t2 : toR q.t ≤ 1000) (hD : 1e-4 ≤ toR q.d) (hx : ∀ i : Fin 22, 1 ≤ i.1 → 0 ≤ toR (aget q.x i)) {K : ℝ}
    (hC : GergEos.Conditioned (fracs q) (toR q.d) (toR q.t) K) :
    CondIn (1e-10 * K) q.t q.d (mmF q) (propertiesP (freshOf q)).1.z (propertiesP (freshOf q)).1.dp_dd
      (propertiesP (freshOf q)).1.dp_dt (propertiesP (freshOf q)).1.cv (toR q.t) (toR q.d) (GergEos.mass (fracs q))
      (GergEos.Z (fracs q) (toR q.d) (toR q.t)) (GergEos.pressureD (fracs q) (toR q.d) (toR q.t))
      (GergEos.pressureT (fracs q) (toR q.d) (toR q.t)) (GergEos.heatV (fracs q) (toR q.d) (toR q.t)) := by
  have hz := ap_z hL hN hq 0
  have vz : (propertiesP (freshOf q)).1.z = _ := propertiesP_z (freshOf q)
  rw [pressureP_z] at vz
  have u := cond_unit hC.z hz.mag hC.K_le
  rw [← vz] at hz
  obtain ⟨-, -, -, -, hcv, hpt⟩ := ap_genergy hL hN hq t1 t2 hD
  have hpd := ap_dpdd hL hN hq
  obtain ⟨hm, m1, m2⟩ := ap_mm hq hx
  have hd : Rl (1e-10 * K) q.d (toR q.d) (toR q.d) 0 14 10 := Rl.ofAp u (n := 0) (ap_d hq) (by norm_num)
  have ht : Ap q.t (toR q.t) (toR q.t) 0 0 10 := Ap.remag (ap_t hq) (ap_t hq).mag le_rfl
    (Or.inr ⟨by linarith, t2.trans (by norm_num)⟩)
  exact ⟨u, by linarith, lt_of_lt_of_le (by norm_num) hD, by linarith, lt_of_lt_of_le (by norm_num) hC.z.low,
    lt_of_lt_of_le (by norm_num) hC.pd.low, lt_of_lt_of_le (by norm_num) hC.pt.low, lt_of_lt_of_le (by norm_num) hC.cv.low,
    Rl.ofAp u (n := 0) ht (by norm_num), hd, mass_rl u hm rfl m1 m2, cond_rl hz (by norm_num) hC.z,
    cond_rl hpd (by norm_num) hC.pd, cond_rl hpt (by norm_num) hC.pt, cond_rl hcv (by norm_num) hC.cv⟩

/-- The last steps of `properties` on a new object. -/
theorem cond_rls (hL : LibmAccurate) (hN : LnAccurate) {q : Pub Float} (hq : ErrDomain q) (t1 : 50 ≤ toR q.t)
    (t2 : toR q.t ≤ 1000) (hD : 1e-4 ≤ toR q.d) (hx : ∀ i : Fin 22, 1 ≤ i.1 → 0 ≤ toR (aget q.x i)) {K : ℝ}
    (hC : GergEos.Conditioned (fracs q) (toR q.d) (toR q.t) K) :
    Rl (1e-10 * K) (propertiesP (freshOf q)).1.cp (GergEos.heatP (fracs q) (toR q.d) (toR q.t))
      (GergEos.heatP (fracs q) (toR q.d) (toR q.t)) 27 190 270 ∧
    Rl (1e-10 * K) (propertiesP (freshOf q)).1.w (GergEos.speed (fracs q) (toR q.d) (toR q.t))
      (GergEos.speed (fracs q) (toR q.d) (toR q.t)) 25 340 420 ∧
    Rl (1e-10 * K) (propertiesP (freshOf q)).1.kappa (GergEos.exponent (fracs q) (toR q.d) (toR q.t))
      (GergEos.exponent (fracs q) (toR q.d) (toR q.t)) 67 900 900 ∧
    Rl (1e-10 * K) (propertiesP (freshOf q)).1.jt (GergEos.jt (fracs q) (toR q.d) (toR q.t))
      (GergEos.jtAbs (fracs q) (toR q.d) (toR q.t)) 47 900 900 := by
  have H := condIn hL hN hq t1 t2 hD hx hC
  have e : (FOps.lt (EPSILON : Float) q.d) = true := Detail.eps_lt (ap_d hq) hD
  obtain ⟨f1, f2, f3, f4⟩ := cond_fields q e
  have C := H.cpG
  have hcp := H.cp0
  rw [← f1] at C
  have W := H.w hcp C
  rw [← f2] at W
  have hW : 0 < √(1000 * (GergEos.heatV (fracs q) (toR q.d) (toR q.t) + toR q.t * (GergEos.pressureT (fracs q) (toR q.d) (toR q.t)
      / toR q.d) ^ 2 / GergEos.pressureD (fracs q) (toR q.d) (toR q.t)) / GergEos.heatV (fracs q) (toR q.d) (toR q.t)
      * GergEos.pressureD (fracs q) (toR q.d) (toR q.t) / GergEos.mass (fracs q)) := by
    have := H.CV0; have := H.PD0; have := H.M0
    positivity
  have Kp := H.kG hL hW (by norm_num) W apRG
  have J := H.jt hcp C
  have ek : (Libm.powi (propertiesP (freshOf q)).1.w 2 * mmF q / (RGERG * q.t * f% 1000.0 * (propertiesP (freshOf q)).1.z))
    = (propertiesP (freshOf q)).1.kappa := f3.symm
  rw [ek] at Kp
  rw [← f4] at J
  exact ⟨C, W, Kp, J⟩

end Aga8.Gerg
