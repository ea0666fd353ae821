import Verif.Lemmas.F64CondOf
import Verif.Lemmas.DetailErrEnergy
import Verif.Lemmas.DetailErrDens

/-! # The rounding error of the DETAIL isobaric heat capacity, speed of sound, isentropic exponent and Joule-Thomson coefficient -/

set_option linter.unusedSectionVars false

namespace Aga8.Detail

open FOps Tab F64

attribute [local irreducible] pressureP propertiesP

section
variable {F : Type} [Add F] [Sub F] [Mul F] [Div F] [Neg F] [FOps F]

/-- The molar mass of `properties` on a new object. -/
def mmF (q : Pub F) : F := loop 0 21 (f% 0.0) fun i mm => mm + aget q.x i * tab MMI i

theorem molar_mass_fresh (q : Pub F) : (molar_mass (freshOf q)).2 = mmF q := rfl

/-- The last steps of `properties` on a new object of positive density. -/
theorem cond_fields (q : Pub F) (hd : (EPSILON <. q.d) = true) :
    (propertiesP (freshOf q)).cp = (propertiesP (freshOf q)).cv + q.t * powi ((propertiesP (freshOf q)).dp_dt / q.d) 2
      / (propertiesP (freshOf q)).dp_dd ∧
    (propertiesP (freshOf q)).w = sqrt (if (f% 1000.0 * (propertiesP (freshOf q)).cp / (propertiesP (freshOf q)).cv
          * (propertiesP (freshOf q)).dp_dd / mmF q) <. f% 0.0 then f% 0.0
        else f% 1000.0 * (propertiesP (freshOf q)).cp / (propertiesP (freshOf q)).cv
          * (propertiesP (freshOf q)).dp_dd / mmF q) ∧
    (propertiesP (freshOf q)).kappa = (propertiesP (freshOf q)).w * (propertiesP (freshOf q)).w * mmF q
      / (RDETAIL * q.t * f% 1000.0 * (propertiesP (freshOf q)).z) ∧
    (propertiesP (freshOf q)).jt = (q.t / q.d * (propertiesP (freshOf q)).dp_dt / (propertiesP (freshOf q)).dp_dd - f% 1.0)
      / (propertiesP (freshOf q)).cp / q.d := by
  have et : (propsMid (freshOf q)).t = q.t := (propsMid_t _).trans (fresh_t q)
  have ed : (propsMid (freshOf q)).d = q.d := (propsMid_d _).trans (fresh_d q)
  rw [propertiesP_eq, molar_mass_fresh]
  refine ⟨?_, ?_, ?_, ?_⟩
  · rw [propsFinish_cp, ed, if_pos hd, et]
  · rw [propsFinish_w]
  · rw [propsFinish_kappa, et]
  · rw [propsFinish_jt, ed, if_pos hd, et]

end

variable [Libm]

theorem massLo : ∀ i : Fin 21, (1 : ℚ) ≤ massQ i ∧ massQ i ≤ 200 := by decide +kernel

theorem ap_mm {q : Pub Float} (hq : ErrDomain q) (hx : ∀ i, 0 ≤ toR (aget q.x i)) :
    Ap (mmF q) (Eos.mass (fracs q)) (Eos.mass (fracs q)) 47 900 913 ∧
    1 / 100 ≤ Eos.mass (fracs q) ∧ Eos.mass (fracs q) ≤ 10000 := by
  have hv : ∀ i : Fin 21, Eos.c MMI i = decR (aget MMI i) := fun i => rfl
  have := wsum_ap (by norm_num) 0 (fun i : Fin 21 => aget q.x i)
    (fun i => tab MMI i) (fun i => decR (aget MMI i)) (fun i => by
        refine ⟨hq.x_fin i, ?_⟩
        rcases hq.x_rng i with h | h
        · exact Or.inl (le_antisymm h (hx i))
        · right
          have h1 := h.1
          rw [abs_of_nonneg (hx i)]
          constructor
          · refine le_trans ?_ h1
            refine (one_div_le_one_div_of_le (by norm_num) (pow_le_pow_right₀ (by norm_num : (1 : ℝ) ≤ 2) (show 100 ≤ 900 by norm_num))).trans ?_
            norm_num
          · exact h.2.trans (le_self_pow₀ (by norm_num) (by norm_num))) (fun i _ => Ap.litPos (chkMMI i).1 (chkMMI i).2.le)
  simp only [Nat.zero_le, Finset.filter_true] at this
  have ef : ∀ i, fracs q i = toR (aget q.x i) := fun i => max_eq_left (hx i)
  have e1 : ∑ i : Fin 21, toR (aget q.x i) * decR (aget MMI i) = Eos.mass (fracs q) := by
    unfold Eos.mass
    refine Finset.sum_congr rfl fun i _ => ?_
    rw [hv, ef]
  have e2 : ∑ i : Fin 21, |toR (aget q.x i)| * decR (aget MMI i) = Eos.mass (fracs q) := by
    unfold Eos.mass
    refine Finset.sum_congr rfl fun i _ => ?_
    rw [hv, ef, abs_of_nonneg (hx i)]
  rw [e1, e2] at this
  have hm : ∀ i : Fin 21, 1 ≤ Eos.c MMI i ∧ Eos.c MMI i ≤ 200 := by
    intro i
    have h := massLo i
    have e : Eos.c MMI i = ((massQ i : ℚ) : ℝ) := by
      rw [hv]; unfold decR massQ; push_cast; rfl
    rw [e]
    exact_mod_cast h
  refine ⟨this, ?_, ?_⟩
  · obtain ⟨k, hb⟩ := hq.x_big
    have h0 : ∀ i ∈ (Finset.univ : Finset (Fin 21)), 0 ≤ fracs q i * Eos.c MMI i := fun i _ =>
      mul_nonneg (le_max_right _ _) (by linarith [(hm i).1])
    refine le_trans ?_ (Finset.single_le_sum h0 (Finset.mem_univ k))
    have h1 : 1 / 100 ≤ fracs q k := hb.trans (le_max_left _ _)
    nlinarith [(hm k).1]
  · have h1 : ∀ i ∈ (Finset.univ : Finset (Fin 21)), fracs q i * Eos.c MMI i ≤ 400 := fun i _ => by
      have : fracs q i ≤ 2 := by
        unfold fracs
        refine max_le ?_ (by norm_num)
        rcases hq.x_rng i with h | h
        · linarith
        · exact h.2
      have h0 : 0 ≤ fracs q i := le_max_right _ _
      nlinarith [(hm i).1, (hm i).2]
    refine (Finset.sum_le_card_nsmul _ _ _ h1).trans ?_
    rw [Finset.card_univ, Fintype.card_fin]; norm_num

/-- The inputs of the last steps. -/
theorem condIn (hL : LibmAccurate) (hN : LnAccurate) {q : Pub Float} (hq : ErrDomain q) (t1 : 50 ≤ toR q.t)
    (hD : 1e-4 ≤ toR q.d) (hx : ∀ i, 0 ≤ toR (aget q.x i)) {K : ℝ}
    (hC : Eos.Conditioned (fracs q) (toR q.d) (toR q.t) K) :
    CondIn (1e-10 * K) q.t q.d (mmF q) (propertiesP (freshOf q)).z (propertiesP (freshOf q)).dp_dd
      (propertiesP (freshOf q)).dp_dt (propertiesP (freshOf q)).cv (toR q.t) (toR q.d) (Eos.mass (fracs q))
      (Eos.Z (fracs q) (toR q.d) (toR q.t)) (Eos.pressureD (fracs q) (toR q.d) (toR q.t))
      (Eos.pressureT (fracs q) (toR q.d) (toR q.t)) (Eos.heatV (fracs q) (toR q.d) (toR q.t)) := by
  have hc := close_of_domain hL hq (fill 4 (fill 4 (f% 0.0)))
  obtain ⟨et, ed⟩ := refresh_td (freshOf q) (fill 4 (fill 4 (f% 0.0)))
  have hz := ap_z' hL hc 0
  have At := hc.t
  have Ad := hc.d
  rw [et, fresh_t] at At
  rw [ed, fresh_d] at Ad
  rw [et] at hz
  have vz : (propertiesP (freshOf q)).z = _ := propertiesP_z (freshOf q)
  rw [ar_alpharP] at vz
  rw [← vz] at hz
  have u := cond_unit hC.z hz.mag hC.K_le
  obtain ⟨-, -, -, -, hcv, hpt⟩ := ap_energy hL hN hq t1 hD
  have hpd := ap_dpdd hL hq
  rw [← propertiesP_dp_dd] at hpd
  obtain ⟨hm, m1, m2⟩ := ap_mm hq hx
  have ht : Ap q.t (toR q.t) (toR q.t) 0 0 10 := Ap.remag At At.mag le_rfl
    (Or.inr ⟨by linarith, hq.t_high.trans (by norm_num)⟩)
  exact ⟨u, by linarith, lt_of_lt_of_le (by norm_num) hD, by linarith, lt_of_lt_of_le (by norm_num) hC.z.low,
    lt_of_lt_of_le (by norm_num) hC.pd.low, lt_of_lt_of_le (by norm_num) hC.pt.low, lt_of_lt_of_le (by norm_num) hC.cv.low,
    Rl.ofAp u (n := 0) ht (by norm_num), Rl.ofAp u (n := 0) Ad (by norm_num), mass_rl u hm rfl m1 m2, cond_rl hz (by norm_num) hC.z,
    cond_rl hpd (by norm_num) hC.pd, cond_rl hpt (by norm_num) hC.pt, cond_rl hcv (by norm_num) hC.cv⟩

/-- The last steps of `properties` on a new object. -/
theorem cond_rls (hL : LibmAccurate) (hN : LnAccurate) {q : Pub Float} (hq : ErrDomain q) (t1 : 50 ≤ toR q.t)
    (hD : 1e-4 ≤ toR q.d) (hx : ∀ i, 0 ≤ toR (aget q.x i)) {K : ℝ}
    (hC : Eos.Conditioned (fracs q) (toR q.d) (toR q.t) K) :
    Rl (1e-10 * K) (propertiesP (freshOf q)).cp (Eos.heatP (fracs q) (toR q.d) (toR q.t))
      (Eos.heatP (fracs q) (toR q.d) (toR q.t)) 27 190 270 ∧
    Rl (1e-10 * K) (propertiesP (freshOf q)).w (Eos.speed (fracs q) (toR q.d) (toR q.t))
      (Eos.speed (fracs q) (toR q.d) (toR q.t)) 25 340 420 ∧
    Rl (1e-10 * K) (propertiesP (freshOf q)).kappa (Eos.exponent (fracs q) (toR q.d) (toR q.t))
      (Eos.exponent (fracs q) (toR q.d) (toR q.t)) 67 900 900 ∧
    Rl (1e-10 * K) (propertiesP (freshOf q)).jt (Eos.jt (fracs q) (toR q.d) (toR q.t))
      (Eos.jtAbs (fracs q) (toR q.d) (toR q.t)) 47 900 900 := by
  have H := condIn hL hN hq t1 hD hx hC
  have hc := close_of_domain hL hq (fill 4 (fill 4 (f% 0.0)))
  have Ad := hc.d
  rw [(refresh_td (freshOf q) (fill 4 (fill 4 (f% 0.0)))).2, fresh_d] at Ad
  obtain ⟨f1, f2, f3, f4⟩ := cond_fields q (eps_lt Ad hD)
  have C := H.cpD hL
  have hcp := H.cp0
  have e1 : (propertiesP (freshOf q)).cv + q.t * Libm.powi ((propertiesP (freshOf q)).dp_dt / q.d) 2
      / (propertiesP (freshOf q)).dp_dd = (propertiesP (freshOf q)).cp := f1.symm
  rw [e1] at C
  have W := H.w hcp C
  rw [← f2] at W
  have Kp := H.kD (by norm_num) W apR
  have J := H.jt hcp C
  rw [← f3] at Kp
  rw [← f4] at J
  exact ⟨C, W, Kp, J⟩

end Aga8.Detail
