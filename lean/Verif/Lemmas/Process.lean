import Mathlib.Analysis.Calculus.Deriv.Comp
import Mathlib.Analysis.Calculus.Deriv.Prod
import Mathlib.Analysis.Calculus.Deriv.Inv
import Mathlib.Analysis.Calculus.Deriv.Mul
import Mathlib.Analysis.Calculus.Deriv.Add
import Mathlib.Tactic.FieldSimp
import Mathlib.Tactic.Ring
import Mathlib.Tactic.Linarith
import Mathlib.Tactic.LinearCombination

/-! # Thermodynamic functions of temperature and density along a path

Pure calculus: what follows for a path in the temperature-density plane from the partial derivatives of pressure,
internal energy and entropy. -/

namespace Aga8.Process

/-- `F` is differentiable as a function of both variables at `(T, D)`. -/
def Joint (F : ℝ → ℝ → ℝ) (T D : ℝ) : Prop := DifferentiableAt ℝ (fun p : ℝ × ℝ => F p.1 p.2) (T, D)

variable {F G : ℝ → ℝ → ℝ} {T D : ℝ}

theorem joint_fst {f : ℝ → ℝ} (h : DifferentiableAt ℝ f T) : Joint (fun T _ => f T) T D :=
  DifferentiableAt.comp (g := f) (f := Prod.fst) (T, D) h differentiableAt_fst
theorem joint_snd {f : ℝ → ℝ} (h : DifferentiableAt ℝ f D) : Joint (fun _ D => f D) T D :=
  DifferentiableAt.comp (g := f) (f := Prod.snd) (T, D) h differentiableAt_snd
theorem joint_const (c : ℝ) : Joint (fun _ _ => c) T D := differentiableAt_const c
theorem Joint.add (hF : Joint F T D) (hG : Joint G T D) : Joint (fun T D => F T D + G T D) T D :=
  DifferentiableAt.add hF hG
theorem Joint.sub (hF : Joint F T D) (hG : Joint G T D) : Joint (fun T D => F T D - G T D) T D :=
  DifferentiableAt.sub hF hG
theorem Joint.mul (hF : Joint F T D) (hG : Joint G T D) : Joint (fun T D => F T D * G T D) T D :=
  DifferentiableAt.mul hF hG
theorem Joint.sum {ι : Type} {s : Finset ι} {F : ι → ℝ → ℝ → ℝ} (h : ∀ i ∈ s, Joint (F i) T D) :
    Joint (fun T D => ∑ i ∈ s, F i T D) T D :=
  DifferentiableAt.fun_sum h
/-- Only the values near the point count. -/
theorem Joint.congr {t d : ℝ} (hF : Joint F T D) (hT : t < T) (hD : d < D)
    (e : ∀ T D, t < T → d < D → G T D = F T D) : Joint G T D := by
  refine DifferentiableAt.congr_of_eventuallyEq hF ?_
  filter_upwards [prod_mem_nhds (Ioi_mem_nhds hT) (Ioi_mem_nhds hD)] with p hp
  exact e p.1 p.2 hp.1 hp.2

/-- The chain rule, with the partial derivatives. -/
theorem Joint.chain {T D : ℝ → ℝ} {a ft fd T' D' : ℝ} (hF : Joint F (T a) (D a))
    (hT : HasDerivAt (fun t => F t (D a)) ft (T a)) (hD : HasDerivAt (F (T a)) fd (D a))
    (dT : HasDerivAt T T' a) (dD : HasDerivAt D D' a) :
    HasDerivAt (fun t => F (T t) (D t)) (ft * T' + fd * D') a := by
  have h := hF.hasFDerivAt
  set L := fderiv ℝ (fun p : ℝ × ℝ => F p.1 p.2) (T a, D a) with hL
  have c : ∀ {f g : ℝ → ℝ} {f' g' b : ℝ}, f b = T a → g b = D a → HasDerivAt f f' b → HasDerivAt g g' b →
      HasDerivAt (fun t => F (f t) (g t)) (L (f', g')) b := by
    intro f g f' g' b e1 e2 df dg
    have := HasFDerivAt.comp_hasDerivAt (l := fun p : ℝ × ℝ => F p.1 p.2) (f := fun t => (f t, g t)) (l' := L) b
      (by rw [e1, e2]; exact h) (df.prodMk dg)
    exact this
  have e1 : L (1, 0) = ft :=
    HasDerivAt.unique (c (f := fun t => t) (g := fun _ => D a) rfl rfl (hasDerivAt_id _) (hasDerivAt_const _ _)) hT
  have e2 : L (0, 1) = fd :=
    HasDerivAt.unique (c (f := fun _ => T a) (g := fun t => t) rfl rfl (hasDerivAt_const _ _) (hasDerivAt_id _)) hD
  refine (c rfl rfl dT dD).congr_deriv ?_
  have : ((T', D') : ℝ × ℝ) = T' • ((1, 0) : ℝ × ℝ) + D' • ((0, 1) : ℝ × ℝ) := by simp
  rw [this, map_add, map_smul, map_smul, e1, e2, smul_eq_mul, smul_eq_mul]
  ring

/-- Pressure, internal energy and entropy as functions of temperature and density, with their partial derivatives at
a point: `pt`, `pd` those of the pressure `p`, `cv` the heat capacity. -/
structure Partials (P U S : ℝ → ℝ → ℝ) (T D p pt pd cv s : ℝ) : Prop where
  hp : P T D = p
  hs : S T D = s
  jP : Joint P T D
  jU : Joint U T D
  jS : Joint S T D
  P_T : HasDerivAt (fun T => P T D) pt T
  P_D : HasDerivAt (P T) pd D
  U_T : HasDerivAt (fun T => U T D) cv T
  S_T : HasDerivAt (fun T => S T D) (cv / T) T
  S_D : HasDerivAt (S T) (-pt / D ^ 2) D
  A_D : HasDerivAt (fun D => U T D - T * S T D) (p / D ^ 2) D

theorem Partials.path {P U S : ℝ → ℝ → ℝ} {T D : ℝ → ℝ} {a p pt pd cv s T' D' : ℝ}
    (h : Partials P U S (T a) (D a) p pt pd cv s)
    (dT : HasDerivAt T T' a) (dD : HasDerivAt D D' a) :
    HasDerivAt (fun t => P (T t) (D t)) (pt * T' + pd * D') a ∧
    HasDerivAt (fun t => S (T t) (D t)) (cv / T a * T' - pt / D a ^ 2 * D') a ∧
    HasDerivAt (fun t => U (T t) (D t)) (cv * T' + (p - T a * pt) / D a ^ 2 * D') a := by
  refine ⟨h.jP.chain h.P_T h.P_D dT dD, (h.jS.chain h.S_T h.S_D dT dD).congr_deriv (by ring), ?_⟩
  have hU : HasDerivAt (U (T a)) (p / D a ^ 2 + T a * (-pt / D a ^ 2)) (D a) := by
    have := h.A_D.add (h.S_D.const_mul (T a))
    refine this.congr_of_eventuallyEq (Filter.Eventually.of_forall fun D => ?_)
    simp
  refine (h.jU.chain h.U_T hU dT dD).congr_deriv (by ring)

/-- Values along a path, with everything `properties` derives from them. -/
structure Results (T D P U H G S : ℝ → ℝ) (a T' D' p pt pd cv s : ℝ) : Prop where
  dP : HasDerivAt P (pt * T' + pd * D') a
  dS : HasDerivAt S (cv / T a * T' - pt / D a ^ 2 * D') a
  dU : HasDerivAt U (cv * T' + (p - T a * pt) / D a ^ 2 * D') a
  dH : HasDerivAt H (cv * T' + (p - T a * pt) / D a ^ 2 * D'
    + ((pt * T' + pd * D') * D a - p * D') / D a ^ 2) a
  dG : HasDerivAt G (cv * T' + (p - T a * pt) / D a ^ 2 * D'
    + ((pt * T' + pd * D') * D a - p * D') / D a ^ 2
    - (T' * s + T a * (cv / T a * T' - pt / D a ^ 2 * D'))) a

theorem Partials.results {P U S H G : ℝ → ℝ → ℝ} {T D : ℝ → ℝ} {a p pt pd cv s T' D' : ℝ}
    (h : Partials P U S (T a) (D a) p pt pd cv s) {d : ℝ} (hd : 0 ≤ d) (hD : d < D a)
    (hH : ∀ T D, d < D → H T D = U T D + P T D / D) (hG : ∀ T D, G T D = H T D - T * S T D)
    (dT : HasDerivAt T T' a) (dD : HasDerivAt D D' a) :
    Results T D (fun t => P (T t) (D t)) (fun t => U (T t) (D t)) (fun t => H (T t) (D t)) (fun t => G (T t) (D t))
      (fun t => S (T t) (D t)) a T' D' p pt pd cv s := by
  obtain ⟨dP, dS, dU⟩ := h.path dT dD
  have hD0 : D a ≠ 0 := (lt_of_le_of_lt hd hD).ne'
  have dH : HasDerivAt (fun t => H (T t) (D t)) (cv * T' + (p - T a * pt) / D a ^ 2 * D'
      + ((pt * T' + pd * D') * D a - p * D') / D a ^ 2) a := by
    have h1 := dU.add (dP.div dD hD0)
    rw [h.hp] at h1
    refine h1.congr_of_eventuallyEq ?_
    filter_upwards [dD.continuousAt.preimage_mem_nhds (Ioi_mem_nhds hD)] with t ht
    exact hH _ _ ht
  refine ⟨dP, dS, dU, dH, ?_⟩
  have h2 := dH.sub (dT.mul dS)
  rw [h.hs] at h2
  exact h2.congr_of_eventuallyEq (Filter.Eventually.of_forall fun t => hG _ _)

variable {T D P U H G S : ℝ → ℝ} {a T' D' p pt pd cv s cp jt w k mm : ℝ}

/-- `dU = T dS - p dV`, `dH = T dS + V dp`, `dG = -S dT + V dp`. -/
theorem Results.laws (h : Results T D P U H G S a T' D' p pt pd cv s) (hT : T a ≠ 0) (hD : D a ≠ 0) :
    ∃ P' S' , HasDerivAt P P' a ∧ HasDerivAt S S' a ∧ P' = pt * T' + pd * D' ∧
      S' = cv / T a * T' - pt / D a ^ 2 * D' ∧
      HasDerivAt U (T a * S' + p / D a ^ 2 * D') a ∧ HasDerivAt H (T a * S' + P' / D a) a ∧
      HasDerivAt G (-s * T' + P' / D a) a := by
  refine ⟨_, _, h.dP, h.dS, rfl, rfl, h.dU.congr_deriv ?_, h.dH.congr_deriv ?_, h.dG.congr_deriv ?_⟩
  · field_simp; ring
  · field_simp; ring
  · field_simp; ring

/-- Enthalpy in terms of temperature and pressure. -/
theorem Results.enthalpy (h : Results T D P U H G S a T' D' p pt pd cv s) (hD : D a ≠ 0) (hpd : pd ≠ 0) (hcp0 : cp ≠ 0)
    (hcp : cp - cv = T a * (pt / D a) ^ 2 / pd)
    (hjt : jt = (T a * pt / (D a * pd) - 1) / (D a * cp)) :
    HasDerivAt H (cp * T' - cp * jt * (pt * T' + pd * D')) a := by
  refine h.dH.congr_deriv ?_
  have e : cp * jt = (T a * pt / (D a * pd) - 1) / D a := by rw [hjt]; field_simp
  have e2 : cp = cv + T a * (pt / D a) ^ 2 / pd := by rw [← hcp]; ring
  rw [e, e2]
  field_simp
  ring

theorem Results.isobaric (h : Results T D P U H G S a T' D' p pt pd cv s) (hD : D a ≠ 0) (hpd : pd ≠ 0)
    (hcp : cp - cv = T a * (pt / D a) ^ 2 / pd) (h0 : HasDerivAt P 0 a) : HasDerivAt H (cp * T') a := by
  have e0 : pt * T' + pd * D' = 0 := h.dP.unique h0
  have e1 : D' = -pt * T' / pd := by field_simp; linarith
  refine h.dH.congr_deriv ?_
  have e2 : cp = cv + T a * (pt / D a) ^ 2 / pd := by rw [← hcp]; ring
  rw [e0, e2, e1]
  field_simp
  ring

theorem Results.isenthalpic (h : Results T D P U H G S a T' D' p pt pd cv s) (hD : D a ≠ 0) (hpd : pd ≠ 0)
    (hcp0 : cp ≠ 0) (hcp : cp - cv = T a * (pt / D a) ^ 2 / pd)
    (hjt : jt = (T a * pt / (D a * pd) - 1) / (D a * cp)) {P' : ℝ} (h0 : HasDerivAt H 0 a) (hP : HasDerivAt P P' a) :
    T' = jt * P' := by
  have e0 := (h.enthalpy hD hpd hcp0 hcp hjt).unique h0
  rw [h.dP.unique hP] at e0
  have : cp * (T' - jt * P') = 0 := by linear_combination e0
  rcases mul_eq_zero.1 this with h | h
  · exact absurd h hcp0
  · linarith

theorem Results.isentropic (h : Results T D P U H G S a T' D' p pt pd cv s) (hT : T a ≠ 0) (hD : D a ≠ 0)
    (hpd : pd ≠ 0) (hcv : cv ≠ 0) (hmm : mm ≠ 0) (hcp : cp - cv = T a * (pt / D a) ^ 2 / pd)
    (hw : w ^ 2 = 1000 * (cp / cv) * pd / mm) {P' : ℝ} (h0 : HasDerivAt S 0 a) (hP : HasDerivAt P P' a) :
    1000 * P' = w ^ 2 * (mm * D') := by
  have e0 := h.dS.unique h0
  have e1 : T' = T a * pt / (D a ^ 2 * cv) * D' := by
    field_simp at e0 ⊢
    linear_combination e0
  rw [← h.dP.unique hP, hw, e1]
  have e2 : cp = cv + T a * (pt / D a) ^ 2 / pd := by rw [← hcp]; ring
  rw [e2]
  field_simp
  ring

end Aga8.Process
