import Verif.Lemmas.DetailProcess
import Verif.Lemmas.GergProcess
import Verif.Props.HeatCapacity

/-! # Processes: what the reported properties say about neighbouring states (C50)

A process is a differentiable path `t ↦ (T t, D t)` of temperatures and densities at fixed composition. `P`, `U`, `H`,
`G`, `S` are the pressure, internal energy, enthalpy, Gibbs energy and entropy that `properties` reports along it. The
theorems say that along every process the results obey the laws of thermodynamics, and that `cp`, `jt`, `w` and `kappa`
are the derivatives they are named after: along an isobar, an isenthalp and an isentrope. Units are those of the API:
kPa, mol/l, J/mol, K, m/s, g/mol. -/

namespace Aga8

/-- What `properties` reports along the path, each state on a new object with the other inputs from `q`. -/
def Detail.Along (new0 : Detail ℝ) (q : Detail.Pub ℝ) (T D P U H G S : ℝ → ℝ) : Prop :=
  ∀ t, ∃ s1, (Detail.setPub new0 { q with t := T t, d := D t }).properties = .ok s1 ∧
    s1.p = P t ∧ s1.u = U t ∧ s1.h = H t ∧ s1.g = G t ∧ s1.s = S t

/-- What `properties` reports along the path; the pressure is the one it returns. -/
def Gerg.Along (new0 : Gerg ℝ) (q : Gerg.Pub ℝ) (T D P U H G S : ℝ → ℝ) : Prop :=
  ∀ t, ∃ s1, (Gerg.setPub new0 { q with t := T t, d := D t }).properties = .ok (s1, P t) ∧
    s1.u = U t ∧ s1.h = H t ∧ s1.g = G t ∧ s1.s = S t

namespace Detail
open Process

variable {new0 : Detail ℝ} {q : Pub ℝ} {T D P U H G S : ℝ → ℝ}

theorem along_results (hnew : Detail.new = .ok new0) (hx : XFar q.x (fill 21 (f% 0.0)))
    (hsum : ∑ i : Fin 21, max (aget q.x i) 0 = 1) (h : Along new0 q T D P U H G S)
    {a T' D' : ℝ} (hT : 1e-7 < T a) (hD : 1e-15 < D a) (dT : HasDerivAt T T' a) (dD : HasDerivAt D D' a) :
    ∃ s', (setPub new0 { q with t := T a, d := D a }).properties = .ok s' ∧
      s'.p = P a ∧ s'.s = S a ∧
      Results T D P U H G S a T' D' (P a) s'.dp_dt s'.dp_dd s'.cv (S a) ∧
      s'.cp - s'.cv = T a * (s'.dp_dt / D a) ^ 2 / s'.dp_dd ∧
      s'.jt = (T a * s'.dp_dt / (D a * s'.dp_dd) - 1) / (D a * s'.cp) ∧
      (0 ≤ 1000 * (s'.cp / s'.cv) * s'.dp_dd / s'.mm → s'.w ^ 2 = 1000 * (s'.cp / s'.cv) * s'.dp_dd / s'.mm) ∧
      s'.kappa = s'.w ^ 2 * s'.mm / (1000 * 8.31451 * T a * s'.z) ∧ P a = D a * 8.31451 * T a * s'.z := by
  have e := new_eq hnew
  subst e
  have eq : ∀ t s1, (setPub (newP : Detail ℝ) { q with t := T t, d := D t }).properties = .ok s1 →
      s1 = res q (T t) (D t) := by
    intro t s1 h1
    have := h1.symm.trans (res_ok q (T t) (D t)); injection this
  have eP : P = fun t => (res q (T t) (D t)).p := by
    funext t; obtain ⟨s1, h1, h2, -⟩ := h t; rw [← h2, eq t s1 h1]
  have eU : U = fun t => (res q (T t) (D t)).u := by
    funext t; obtain ⟨s1, h1, -, h2, -⟩ := h t; rw [← h2, eq t s1 h1]
  have eH : H = fun t => (res q (T t) (D t)).h := by
    funext t; obtain ⟨s1, h1, -, -, h2, -⟩ := h t; rw [← h2, eq t s1 h1]
  have eG : G = fun t => (res q (T t) (D t)).g := by
    funext t; obtain ⟨s1, h1, -, -, -, h2, -⟩ := h t; rw [← h2, eq t s1 h1]
  have eS : S = fun t => (res q (T t) (D t)).s := by
    funext t; obtain ⟨s1, h1, -, -, -, -, h2⟩ := h t; rw [← h2, eq t s1 h1]
  subst eP eU eH eG eS
  have ids : ∀ T D, (res q T D).h = (res q T D).u + (if 1e-15 < D then (res q T D).p / D else 8.31451 * T) ∧
      (res q T D).g = (res q T D).h - T * (res q T D).s := by
    intro T D
    obtain ⟨s1, h1, h2, h3⟩ := C27_detail_energy_identities (freshOf (atTD q T D))
    have := (res_ok q T D).symm.trans h1
    injection this with this
    rw [this]
    exact ⟨h2, h3⟩
  obtain ⟨s2, m, g1, g2, g3, g4, g5, g6, g7⟩ := C28_detail_derived_properties (freshOf (atTD q (T a) (D a))) hD
  have e2 := (res_ok q (T a) (D a)).symm.trans g1
  injection e2 with e2
  rw [← e2, ← g3, ← e2] at g6 g7
  rw [← e2] at g4 g5
  refine ⟨_, res_ok q (T a) (D a), rfl, rfl, ?_, g4, g5, g6, g7, ?_⟩
  · exact (partials hx hsum hT hD).results (d := 1e-15) (by norm_num) hD
      (H := fun T D => (res q T D).h) (G := fun T D => (res q T D).g)
      (fun T D hd => by rw [(ids T D).1, if_pos hd]) (fun T D => (ids T D).2) dT dD
  · show (propertiesP (freshOf (atTD q (T a) (D a)))).p = _
    rw [propertiesP_p, R_real]
    show D a * (8.31451 * T a) * (res q (T a) (D a)).z = _
    ring

end Detail

namespace Gerg
open Process

attribute [local irreducible] newP pressureP propertiesP

variable {new0 : Gerg ℝ} {q : Pub ℝ} {T D P U H G S : ℝ → ℝ}

theorem along_results (hnew : Gerg.new = .ok new0) (hx : XFar q.x (fill 22 (f% 0.0)))
    (hsum : ∑ i : Fin 22 with 1 ≤ i.1, (if 1e-15 < aget q.x i then aget q.x i else 0) = 1)
    (h : Along new0 q T D P U H G S)
    {a T' D' : ℝ} (hT : 1e-7 < T a) (hD : 1e-15 < D a) (dT : HasDerivAt T T' a) (dD : HasDerivAt D D' a) :
    ∃ s', (setPub new0 { q with t := T a, d := D a }).properties = .ok (s', P a) ∧ s'.s = S a ∧
      Results T D P U H G S a T' D' (P a) s'.dp_dt s'.dp_dd s'.cv (S a) ∧
      s'.cp - s'.cv = T a * (s'.dp_dt / D a) ^ 2 / s'.dp_dd ∧
      s'.jt = (T a * s'.dp_dt / (D a * s'.dp_dd) - 1) / (D a * s'.cp) ∧
      (0 ≤ 1000 * (s'.cp / s'.cv) * s'.dp_dd / s'.mm → s'.w ^ 2 = 1000 * (s'.cp / s'.cv) * s'.dp_dd / s'.mm) ∧
      s'.kappa = s'.w ^ 2 * s'.mm / (1000 * 8.314472 * T a * s'.z) ∧ P a = D a * 8.314472 * T a * s'.z := by
  have e := new_eq hnew
  subst e
  have eq : ∀ t s1 p, (setPub (newP : Gerg ℝ) { q with t := T t, d := D t }).properties = .ok (s1, p) →
      s1 = (res q (T t) (D t)).1 ∧ p = (res q (T t) (D t)).2 := by
    intro t s1 p h1
    have := h1.symm.trans (res_ok q (T t) (D t)); injection this with this
    rw [← this]; exact ⟨rfl, rfl⟩
  have eP : P = fun t => (res q (T t) (D t)).2 := by
    funext t; obtain ⟨s1, h1, -⟩ := h t; exact (eq t s1 _ h1).2
  have eU : U = fun t => (res q (T t) (D t)).1.u := by
    funext t; obtain ⟨s1, h1, h2, -⟩ := h t; rw [← h2, (eq t s1 _ h1).1]
  have eH : H = fun t => (res q (T t) (D t)).1.h := by
    funext t; obtain ⟨s1, h1, -, h2, -⟩ := h t; rw [← h2, (eq t s1 _ h1).1]
  have eG : G = fun t => (res q (T t) (D t)).1.g := by
    funext t; obtain ⟨s1, h1, -, -, h2, -⟩ := h t; rw [← h2, (eq t s1 _ h1).1]
  have eS : S = fun t => (res q (T t) (D t)).1.s := by
    funext t; obtain ⟨s1, h1, -, -, -, h2⟩ := h t; rw [← h2, (eq t s1 _ h1).1]
  subst eP eU eH eG eS
  have ids : ∀ T D, (D ≠ 0 → (res q T D).1.h = (res q T D).1.u + (res q T D).2 / D) ∧
      (res q T D).1.g = (res q T D).1.h - T * (res q T D).1.s := by
    intro T D
    obtain ⟨s1, p, h1, h2, h3, -⟩ := C31_gerg_energy_identities (freshOf (atTD q T D)) (reachable_fresh _)
    have := (res_ok q T D).symm.trans h1
    injection this with this
    rw [this]
    exact ⟨h2, h3⟩
  obtain ⟨s2, p2, g1, -, g4, g5, g6, g7⟩ := C32_gerg_derived_properties (freshOf (atTD q (T a) (D a)))
    (reachable_fresh _) hD
  have e2 := (res_ok q (T a) (D a)).symm.trans g1
  injection e2 with e2
  have e3 : s2 = (res q (T a) (D a)).1 := by rw [e2]
  rw [e3] at g4 g5 g6 g7
  refine ⟨_, res_ok q (T a) (D a), rfl, ?_, g4, g5, g6, g7, ?_⟩
  · exact (partials hx hsum hT hD).results (d := 1e-15) (by norm_num) hD
      (H := fun T D => (res q T D).1.h) (G := fun T D => (res q T D).1.g)
      (fun T D hd => (ids T D).1 (by intro h; rw [h] at hd; norm_num at hd)) (fun T D => (ids T D).2) dT dD
  · show (propertiesP (freshOf (atTD q (T a) (D a)))).2 = _
    rw [propertiesP_snd, R_real]
    have hz : (propertiesP (freshOf (atTD q (T a) (D a)))).1.z = (res q (T a) (D a)).1.z := rfl
    rw [hz]
    show D a * (8.314472 * T a) * (res q (T a) (D a)).1.z = _
    ring

end Gerg

/-! ## DETAIL -/

/-- C50: the laws of thermodynamics along every process. If the temperature changes at rate `T'` and the density at
rate `D'`, then the pressure changes at rate `P' = dp_dt T' + dp_dd D'` and the entropy at rate
`S' = cv/T T' - dp_dt/D^2 D'`; the internal energy at rate `T S' - P V'` (heat minus work, with `V = 1/D`), the enthalpy
at rate `T S' + V P'` and the Gibbs energy at rate `-S T' + V P'`. -/
theorem C50_detail_process (new0 : Detail ℝ) (hnew : Detail.new = .ok new0) (q : Detail.Pub ℝ)
    (hx : Detail.XFar q.x (fill 21 (f% 0.0))) (hsum : ∑ i : Fin 21, max (aget q.x i) 0 = 1)
    (T D P U H G S : ℝ → ℝ) (h : Detail.Along new0 q T D P U H G S) (a T' D' : ℝ) (hT : 1e-7 < T a) (hD : 1e-15 < D a)
    (dT : HasDerivAt T T' a) (dD : HasDerivAt D D' a) :
    ∃ s' P' S', (Detail.setPub new0 { q with t := T a, d := D a }).properties = .ok s' ∧
      HasDerivAt P P' a ∧ P' = s'.dp_dt * T' + s'.dp_dd * D' ∧
      HasDerivAt S S' a ∧ S' = s'.cv / T a * T' - s'.dp_dt / D a ^ 2 * D' ∧
      HasDerivAt U (T a * S' - P a * (-D' / D a ^ 2)) a ∧
      HasDerivAt H (T a * S' + 1 / D a * P') a ∧
      HasDerivAt G (-S a * T' + 1 / D a * P') a := by
  obtain ⟨s', h1, h2, h3, r, -, -, -, -, -⟩ := Detail.along_results hnew hx hsum h hT hD dT dD
  have hT0 : T a ≠ 0 := (lt_trans (by norm_num) hT).ne'
  have hD0 : D a ≠ 0 := (lt_trans (by norm_num) hD).ne'
  obtain ⟨P', S', b1, b2, b3, b4, b5, b6, b7⟩ := r.laws hT0 hD0
  exact ⟨s', P', S', h1, b1, b3, b2, b4, b5.congr_deriv (by ring), b6.congr_deriv (by ring), b7.congr_deriv (by ring)⟩

/-- C50: `cp` is the heat taken up per kelvin at constant pressure: along every process that keeps the pressure, the
enthalpy changes at rate `cp T'`. -/
theorem C50_detail_isobaric (new0 : Detail ℝ) (hnew : Detail.new = .ok new0) (q : Detail.Pub ℝ)
    (hx : Detail.XFar q.x (fill 21 (f% 0.0))) (hsum : ∑ i : Fin 21, max (aget q.x i) 0 = 1)
    (T D P U H G S : ℝ → ℝ) (h : Detail.Along new0 q T D P U H G S) (a T' D' : ℝ) (hT : 1e-7 < T a) (hD : 1e-15 < D a)
    (dT : HasDerivAt T T' a) (dD : HasDerivAt D D' a) (hP : HasDerivAt P 0 a) :
    ∃ s', (Detail.setPub new0 { q with t := T a, d := D a }).properties = .ok s' ∧
      (s'.dp_dd ≠ 0 → HasDerivAt H (s'.cp * T') a) := by
  obtain ⟨s', h1, -, -, r, c1, c2, c3, c4, c5⟩ := Detail.along_results hnew hx hsum h hT hD dT dD
  have hD0 : D a ≠ 0 := (lt_trans (by norm_num) hD).ne'
  exact ⟨s', h1, fun hpd => r.isobaric hD0 hpd c1 hP⟩

/-- C50: `jt` is the Joule-Thomson coefficient: along every process that keeps the enthalpy, the temperature changes
by `jt` kelvin per kPa. -/
theorem C50_detail_isenthalpic (new0 : Detail ℝ) (hnew : Detail.new = .ok new0) (q : Detail.Pub ℝ)
    (hx : Detail.XFar q.x (fill 21 (f% 0.0))) (hsum : ∑ i : Fin 21, max (aget q.x i) 0 = 1)
    (T D P U H G S : ℝ → ℝ) (h : Detail.Along new0 q T D P U H G S) (a T' D' : ℝ) (hT : 1e-7 < T a) (hD : 1e-15 < D a)
    (dT : HasDerivAt T T' a) (dD : HasDerivAt D D' a) (hH : HasDerivAt H 0 a) :
    ∃ s' P', (Detail.setPub new0 { q with t := T a, d := D a }).properties = .ok s' ∧
      HasDerivAt P P' a ∧ (s'.dp_dd ≠ 0 → s'.cp ≠ 0 → T' = s'.jt * P') := by
  obtain ⟨s', h1, -, -, r, c1, c2, c3, c4, c5⟩ := Detail.along_results hnew hx hsum h hT hD dT dD
  have hD0 : D a ≠ 0 := (lt_trans (by norm_num) hD).ne'
  exact ⟨s', _, h1, r.dP, fun hpd hcp => r.isenthalpic hD0 hpd hcp c1 c2 hH r.dP⟩

/-- C50: `w` is the speed of sound and `kappa` the isentropic exponent: along every process that keeps the entropy, the
pressure (1000 P in Pa) changes with the mass density (`mm D` in kg/m3) at rate `w^2`, and the logarithm of the pressure
with the logarithm of the density at rate `kappa`. -/
theorem C50_detail_isentropic (new0 : Detail ℝ) (hnew : Detail.new = .ok new0) (q : Detail.Pub ℝ)
    (hx : Detail.XFar q.x (fill 21 (f% 0.0))) (hsum : ∑ i : Fin 21, max (aget q.x i) 0 = 1)
    (T D P U H G S : ℝ → ℝ) (h : Detail.Along new0 q T D P U H G S) (a T' D' : ℝ) (hT : 1e-7 < T a) (hD : 1e-15 < D a)
    (dT : HasDerivAt T T' a) (dD : HasDerivAt D D' a) (hS : HasDerivAt S 0 a) :
    ∃ s' P', (Detail.setPub new0 { q with t := T a, d := D a }).properties = .ok s' ∧
      HasDerivAt P P' a ∧ (0 < s'.dp_dd → 0 < s'.cv → 0 < s'.mm →
        1000 * P' = s'.w ^ 2 * (s'.mm * D') ∧ (P a ≠ 0 → P' / P a = s'.kappa * (D' / D a))) := by
  obtain ⟨s', h1, -, -, r, c1, c2, c3, c4, c5⟩ := Detail.along_results hnew hx hsum h hT hD dT dD
  have hT1 : 0 < T a := lt_trans (by norm_num) hT
  have hD1 : 0 < D a := lt_trans (by norm_num) hD
  refine ⟨s', _, h1, r.dP, fun hpd hcv hmm => ?_⟩
  have hcp : 0 < s'.cp := by
    have : 0 ≤ T a * (s'.dp_dt / D a) ^ 2 / s'.dp_dd := by positivity
    linarith
  have hw := c3 (by positivity)
  have e := r.isentropic hT1.ne' hD1.ne' hpd.ne' hcv.ne' hmm.ne' c1 hw hS r.dP
  refine ⟨e, fun hP0 => ?_⟩
  have hz : s'.z ≠ 0 := by
    intro hz; rw [hz, mul_zero] at c5; exact hP0 c5
  have hD0 := hD1.ne'
  have hT0 := hT1.ne'
  rw [c4, c5]
  field_simp
  linear_combination e

/-! ## GERG-2008 -/

/-- C50: the laws of thermodynamics along every process. If the temperature changes at rate `T'` and the density at
rate `D'`, then the pressure changes at rate `P' = dp_dt T' + dp_dd D'` and the entropy at rate
`S' = cv/T T' - dp_dt/D^2 D'`; the internal energy at rate `T S' - P V'` (heat minus work, with `V = 1/D`), the enthalpy
at rate `T S' + V P'` and the Gibbs energy at rate `-S T' + V P'`. -/
theorem C50_gerg_process (new0 : Gerg ℝ) (hnew : Gerg.new = .ok new0) (q : Gerg.Pub ℝ)
    (hx : Gerg.XFar q.x (fill 22 (f% 0.0))) (hsum : ∑ i : Fin 22 with 1 ≤ i.1, (if 1e-15 < aget q.x i then aget q.x i else 0) = 1)
    (T D P U H G S : ℝ → ℝ) (h : Gerg.Along new0 q T D P U H G S) (a T' D' : ℝ) (hT : 1e-7 < T a) (hD : 1e-15 < D a)
    (dT : HasDerivAt T T' a) (dD : HasDerivAt D D' a) :
    ∃ s' P' S', (Gerg.setPub new0 { q with t := T a, d := D a }).properties = .ok (s', P a) ∧
      HasDerivAt P P' a ∧ P' = s'.dp_dt * T' + s'.dp_dd * D' ∧
      HasDerivAt S S' a ∧ S' = s'.cv / T a * T' - s'.dp_dt / D a ^ 2 * D' ∧
      HasDerivAt U (T a * S' - P a * (-D' / D a ^ 2)) a ∧
      HasDerivAt H (T a * S' + 1 / D a * P') a ∧
      HasDerivAt G (-S a * T' + 1 / D a * P') a := by
  obtain ⟨s', h1, h3, r, -, -, -, -, -⟩ := Gerg.along_results hnew hx hsum h hT hD dT dD
  have hT0 : T a ≠ 0 := (lt_trans (by norm_num) hT).ne'
  have hD0 : D a ≠ 0 := (lt_trans (by norm_num) hD).ne'
  obtain ⟨P', S', b1, b2, b3, b4, b5, b6, b7⟩ := r.laws hT0 hD0
  exact ⟨s', P', S', h1, b1, b3, b2, b4, b5.congr_deriv (by ring), b6.congr_deriv (by ring), b7.congr_deriv (by ring)⟩

/-- C50: `cp` is the heat taken up per kelvin at constant pressure: along every process that keeps the pressure, the
enthalpy changes at rate `cp T'`. -/
theorem C50_gerg_isobaric (new0 : Gerg ℝ) (hnew : Gerg.new = .ok new0) (q : Gerg.Pub ℝ)
    (hx : Gerg.XFar q.x (fill 22 (f% 0.0))) (hsum : ∑ i : Fin 22 with 1 ≤ i.1, (if 1e-15 < aget q.x i then aget q.x i else 0) = 1)
    (T D P U H G S : ℝ → ℝ) (h : Gerg.Along new0 q T D P U H G S) (a T' D' : ℝ) (hT : 1e-7 < T a) (hD : 1e-15 < D a)
    (dT : HasDerivAt T T' a) (dD : HasDerivAt D D' a) (hP : HasDerivAt P 0 a) :
    ∃ s', (Gerg.setPub new0 { q with t := T a, d := D a }).properties = .ok (s', P a) ∧
      (s'.dp_dd ≠ 0 → HasDerivAt H (s'.cp * T') a) := by
  obtain ⟨s', h1, -, r, c1, c2, c3, c4, c5⟩ := Gerg.along_results hnew hx hsum h hT hD dT dD
  have hD0 : D a ≠ 0 := (lt_trans (by norm_num) hD).ne'
  exact ⟨s', h1, fun hpd => r.isobaric hD0 hpd c1 hP⟩

/-- C50: `jt` is the Joule-Thomson coefficient: along every process that keeps the enthalpy, the temperature changes
by `jt` kelvin per kPa. -/
theorem C50_gerg_isenthalpic (new0 : Gerg ℝ) (hnew : Gerg.new = .ok new0) (q : Gerg.Pub ℝ)
    (hx : Gerg.XFar q.x (fill 22 (f% 0.0))) (hsum : ∑ i : Fin 22 with 1 ≤ i.1, (if 1e-15 < aget q.x i then aget q.x i else 0) = 1)
    (T D P U H G S : ℝ → ℝ) (h : Gerg.Along new0 q T D P U H G S) (a T' D' : ℝ) (hT : 1e-7 < T a) (hD : 1e-15 < D a)
    (dT : HasDerivAt T T' a) (dD : HasDerivAt D D' a) (hH : HasDerivAt H 0 a) :
    ∃ s' P', (Gerg.setPub new0 { q with t := T a, d := D a }).properties = .ok (s', P a) ∧
      HasDerivAt P P' a ∧ (s'.dp_dd ≠ 0 → s'.cp ≠ 0 → T' = s'.jt * P') := by
  obtain ⟨s', h1, -, r, c1, c2, c3, c4, c5⟩ := Gerg.along_results hnew hx hsum h hT hD dT dD
  have hD0 : D a ≠ 0 := (lt_trans (by norm_num) hD).ne'
  exact ⟨s', _, h1, r.dP, fun hpd hcp => r.isenthalpic hD0 hpd hcp c1 c2 hH r.dP⟩

/-- C50: `w` is the speed of sound and `kappa` the isentropic exponent: along every process that keeps the entropy, the
pressure (1000 P in Pa) changes with the mass density (`mm D` in kg/m3) at rate `w^2`, and the logarithm of the pressure
with the logarithm of the density at rate `kappa`. -/
theorem C50_gerg_isentropic (new0 : Gerg ℝ) (hnew : Gerg.new = .ok new0) (q : Gerg.Pub ℝ)
    (hx : Gerg.XFar q.x (fill 22 (f% 0.0))) (hsum : ∑ i : Fin 22 with 1 ≤ i.1, (if 1e-15 < aget q.x i then aget q.x i else 0) = 1)
    (T D P U H G S : ℝ → ℝ) (h : Gerg.Along new0 q T D P U H G S) (a T' D' : ℝ) (hT : 1e-7 < T a) (hD : 1e-15 < D a)
    (dT : HasDerivAt T T' a) (dD : HasDerivAt D D' a) (hS : HasDerivAt S 0 a) :
    ∃ s' P', (Gerg.setPub new0 { q with t := T a, d := D a }).properties = .ok (s', P a) ∧
      HasDerivAt P P' a ∧ (0 < s'.dp_dd → 0 < s'.cv → 0 < s'.mm →
        1000 * P' = s'.w ^ 2 * (s'.mm * D') ∧ (P a ≠ 0 → P' / P a = s'.kappa * (D' / D a))) := by
  obtain ⟨s', h1, -, r, c1, c2, c3, c4, c5⟩ := Gerg.along_results hnew hx hsum h hT hD dT dD
  have hT1 : 0 < T a := lt_trans (by norm_num) hT
  have hD1 : 0 < D a := lt_trans (by norm_num) hD
  refine ⟨s', _, h1, r.dP, fun hpd hcv hmm => ?_⟩
  have hcp : 0 < s'.cp := by
    have : 0 ≤ T a * (s'.dp_dt / D a) ^ 2 / s'.dp_dd := by positivity
    linarith
  have hw := c3 (by positivity)
  have e := r.isentropic hT1.ne' hD1.ne' hpd.ne' hcv.ne' hmm.ne' c1 hw hS r.dP
  refine ⟨e, fun hP0 => ?_⟩
  have hz : s'.z ≠ 0 := by
    intro hz; rw [hz, mul_zero] at c5; exact hP0 c5
  have hD0 := hD1.ne'
  have hT0 := hT1.ne'
  rw [c4, c5]
  field_simp
  linear_combination e

/-! ## Worked cases

Through every state there are processes that keep the pressure, the enthalpy or the entropy; and there are states at
which the conditions on `dp_dd`, `cv` and `mm` hold. -/

/-- A line through the state `(T0, D0)` and what `properties` reports along it. -/
theorem Detail.along_line (q : Detail.Pub ℝ) (T0 D0 T' D' : ℝ) : ∃ T D P U H G S : ℝ → ℝ,
    Detail.Along (Detail.newP : Detail ℝ) q T D P U H G S ∧ T 0 = T0 ∧ D 0 = D0 ∧ HasDerivAt T T' 0 ∧
      HasDerivAt D D' 0 := by
  refine ⟨fun t => T0 + T' * t, fun t => D0 + D' * t, _, _, _, _, _,
    fun t => ⟨_, Detail.res_ok q _ _, rfl, rfl, rfl, rfl, rfl⟩, by ring, by ring, ?_, ?_⟩
  · exact (((hasDerivAt_id (0 : ℝ)).const_mul T').const_add T0).congr_deriv (by ring)
  · exact (((hasDerivAt_id (0 : ℝ)).const_mul D').const_add D0).congr_deriv (by ring)

theorem Detail.rate {q : Detail.Pub ℝ}
    (hx : Detail.XFar q.x (fill 21 (f% 0.0))) (hsum : ∑ i : Fin 21, max (aget q.x i) 0 = 1)
    {T0 D0 : ℝ} (hT : 1e-7 < T0) (hD : 1e-15 < D0) (T' D' : ℝ) : ∃ (T D P U H G S : ℝ → ℝ) (s' : Detail ℝ),
      Detail.Along (Detail.newP : Detail ℝ) q T D P U H G S ∧ T 0 = T0 ∧ D 0 = D0 ∧ HasDerivAt T T' 0 ∧
      HasDerivAt D D' 0 ∧ (Detail.setPub (Detail.newP : Detail ℝ) { q with t := T0, d := D0 }).properties = .ok s' ∧
      HasDerivAt P (s'.dp_dt * T' + s'.dp_dd * D') 0 ∧ HasDerivAt S (s'.cv / T0 * T' - s'.dp_dt / D0 ^ 2 * D') 0 ∧
      HasDerivAt H ((s'.cv + s'.dp_dt / D0) * T' + (s'.dp_dd / D0 - T0 * s'.dp_dt / D0 ^ 2) * D') 0 := by
  obtain ⟨T, D, P, U, H, G, S, h, e1, e2, h3, h4⟩ := Detail.along_line q T0 D0 T' D'
  subst e1 e2
  obtain ⟨s', P', S', g1, g2, g3, g4, g5, -, g6, -⟩ := C50_detail_process _ Detail.new_ok q hx hsum T D P U H G S h 0 T' D'
    hT hD h3 h4
  have hT0 : T 0 ≠ 0 := (lt_trans (by norm_num) hT).ne'
  have hD0 : D 0 ≠ 0 := (lt_trans (by norm_num) hD).ne'
  refine ⟨T, D, P, U, H, G, S, s', h, rfl, rfl, h3, h4, g1, g3 ▸ g2, g5 ▸ g4, g6.congr_deriv ?_⟩
  rw [g3, g5]
  field_simp
  ring

/-- Two coefficients always have a common non-trivial zero. -/
theorem exists_direction (a b : ℝ) : ∃ x y : ℝ, (x ≠ 0 ∨ y ≠ 0) ∧ a * x + b * y = 0 := by
  by_cases h : a = 0
  · exact ⟨1, 0, Or.inl one_ne_zero, by rw [h]; ring⟩
  · exact ⟨-b, a, Or.inr h, by ring⟩

/-- Through every state of every gas there are a process at constant pressure, one at constant enthalpy and one at
constant entropy. -/
theorem Detail.exists_processes {q : Detail.Pub ℝ}
    (hx : Detail.XFar q.x (fill 21 (f% 0.0))) (hsum : ∑ i : Fin 21, max (aget q.x i) 0 = 1)
    {T0 D0 : ℝ} (hT : 1e-7 < T0) (hD : 1e-15 < D0) :
    (∃ (T D P U H G S : ℝ → ℝ) (T' D' : ℝ), Detail.Along (Detail.newP : Detail ℝ) q T D P U H G S ∧ T 0 = T0 ∧ D 0 = D0 ∧
      HasDerivAt T T' 0 ∧ HasDerivAt D D' 0 ∧ (T' ≠ 0 ∨ D' ≠ 0) ∧ HasDerivAt P 0 0) ∧
    (∃ (T D P U H G S : ℝ → ℝ) (T' D' : ℝ), Detail.Along (Detail.newP : Detail ℝ) q T D P U H G S ∧ T 0 = T0 ∧ D 0 = D0 ∧
      HasDerivAt T T' 0 ∧ HasDerivAt D D' 0 ∧ (T' ≠ 0 ∨ D' ≠ 0) ∧ HasDerivAt H 0 0) ∧
    (∃ (T D P U H G S : ℝ → ℝ) (T' D' : ℝ), Detail.Along (Detail.newP : Detail ℝ) q T D P U H G S ∧ T 0 = T0 ∧ D 0 = D0 ∧
      HasDerivAt T T' 0 ∧ HasDerivAt D D' 0 ∧ (T' ≠ 0 ∨ D' ≠ 0) ∧ HasDerivAt S 0 0) := by
  have hs := Detail.res_ok q T0 D0
  have un : ∀ {s'}, (Detail.setPub (Detail.newP : Detail ℝ) { q with t := T0, d := D0 }).properties = .ok s' →
      s' = Detail.res q T0 D0 := by
    intro s' h; have := h.symm.trans hs; injection this
  generalize Detail.res q T0 D0 = r at un
  refine ⟨?_, ?_, ?_⟩
  · obtain ⟨T', D', n, e⟩ := exists_direction r.dp_dt r.dp_dd
    obtain ⟨T, D, P, U, H, G, S, s', h, e1, e2, h3, h4, g1, g2, g3, g4⟩ := Detail.rate hx hsum hT hD T' D'
    rw [un g1, e] at g2
    exact ⟨T, D, P, U, H, G, S, T', D', h, e1, e2, h3, h4, n, g2⟩
  · obtain ⟨T', D', n, e⟩ := exists_direction (r.cv + r.dp_dt / D0) (r.dp_dd / D0 - T0 * r.dp_dt / D0 ^ 2)
    obtain ⟨T, D, P, U, H, G, S, s', h, e1, e2, h3, h4, g1, g2, g3, g4⟩ := Detail.rate hx hsum hT hD T' D'
    rw [un g1, e] at g4
    exact ⟨T, D, P, U, H, G, S, T', D', h, e1, e2, h3, h4, n, g4⟩
  · obtain ⟨T', D', n, e⟩ := exists_direction (r.cv / T0) (-(r.dp_dt / D0 ^ 2))
    obtain ⟨T, D, P, U, H, G, S, s', h, e1, e2, h3, h4, g1, g2, g3, g4⟩ := Detail.rate hx hsum hT hD T' D'
    rw [un g1, show r.cv / T0 * T' - r.dp_dt / D0 ^ 2 * D' = r.cv / T0 * T' + -(r.dp_dt / D0 ^ 2) * D' by ring, e] at g3
    exact ⟨T, D, P, U, H, G, S, T', D', h, e1, e2, h3, h4, n, g3⟩

/-- Methane at 605 K and 1e-6 mol/l meets all the conditions. -/
example : ∃ (q : Detail.Pub ℝ) (s' : Detail ℝ), Detail.XFar q.x (fill 21 (f% 0.0)) ∧
    ∑ i : Fin 21, max (aget q.x i) 0 = 1 ∧ 600 < q.t ∧ q.d = 1e-6 ∧
    (Detail.setPub (Detail.newP : Detail ℝ) q).properties = .ok s' ∧ 0 < s'.dp_dd ∧ 0 < s'.cv ∧ 0 < s'.cp ∧ 0 < s'.mm ∧
    0 < s'.w := by
  have hg : ∀ i, aget Detail.mx i = if i = 0 then 1 else 0 := fun i => by unfold Detail.mx; rw [aget_ofFn]
  have h0 : ∀ i, 0 ≤ aget Detail.mx i := by
    intro i; rw [hg]; split <;> norm_num
  have h1 : ∑ i, aget Detail.mx i = 1 := by
    simp only [hg, Finset.sum_ite_eq', Finset.mem_univ, if_true]
  have hm : Detail.mK ^ 3 ≤ 0.1 := by unfold Detail.mK; norm_num
  have hm0 : 0 < Detail.mK ^ 3 := pow_pos Detail.mK_pos 3
  have hs : Detail.size (Detail.view (Detail.freshOf (Detail.methane 1 1 1e-6))) ≤ 20 := by
    have h1 := Detail.size_methane 1 1 1e-6
    have h2 : ((∑ n, Detail.rs 1 n : ℚ) : ℝ) ≤ 200 := by
      have := (Rat.cast_lt (K := ℝ)).2 Detail.num_rs
      push_cast at this ⊢
      linarith
    generalize ((∑ n, Detail.rs 1 n : ℚ) : ℝ) = r at *
    nlinarith
  have hd : (Detail.methane 1 1 1e-6).d = 1e-6 := rfl
  have hk := (Detail.view_methane 1 1 1e-6).1
  obtain ⟨s', a1, a2, a3, a4, a5, a6, a7⟩ := Detail.low_stable (q := Detail.methane 1 1 1e-6) h0 h1
    (Detail.methane_t 1 1 1e-6) (by
      rw [hk, hd, abs_of_pos (by positivity)]; nlinarith) (by
      rw [hd, abs_of_pos (by norm_num)]; nlinarith)
  have hcv : 0 < s'.cv := lt_of_lt_of_le (by norm_num) a2
  exact ⟨_, s', Detail.methane_x 1 1 1e-6, (Detail.max_sum h0).trans h1, by
    show (600 : ℝ) < 4 ^ 1 * Detail.mE
    unfold Detail.mE; norm_num, rfl, a1, a4, hcv, lt_of_lt_of_le hcv a3, a6, a7⟩

attribute [local irreducible] Gerg.newP Gerg.pressureP Gerg.propertiesP

/-- A line through the state `(T0, D0)` and what `properties` reports along it. -/
theorem Gerg.along_line (q : Gerg.Pub ℝ) (T0 D0 T' D' : ℝ) : ∃ T D P U H G S : ℝ → ℝ,
    Gerg.Along (Gerg.newP : Gerg ℝ) q T D P U H G S ∧ T 0 = T0 ∧ D 0 = D0 ∧ HasDerivAt T T' 0 ∧
      HasDerivAt D D' 0 := by
  refine ⟨fun t => T0 + T' * t, fun t => D0 + D' * t, _, _, _, _, _,
    fun t => ⟨_, Gerg.res_ok q _ _, rfl, rfl, rfl, rfl⟩, by ring, by ring, ?_, ?_⟩
  · exact (((hasDerivAt_id (0 : ℝ)).const_mul T').const_add T0).congr_deriv (by ring)
  · exact (((hasDerivAt_id (0 : ℝ)).const_mul D').const_add D0).congr_deriv (by ring)

theorem Gerg.rate {q : Gerg.Pub ℝ}
    (hx : Gerg.XFar q.x (fill 22 (f% 0.0))) (hsum : ∑ i : Fin 22 with 1 ≤ i.1, (if 1e-15 < aget q.x i then aget q.x i else 0) = 1)
    {T0 D0 : ℝ} (hT : 1e-7 < T0) (hD : 1e-15 < D0) (T' D' : ℝ) : ∃ (T D P U H G S : ℝ → ℝ) (s' : Gerg ℝ),
      Gerg.Along (Gerg.newP : Gerg ℝ) q T D P U H G S ∧ T 0 = T0 ∧ D 0 = D0 ∧ HasDerivAt T T' 0 ∧
      HasDerivAt D D' 0 ∧ (Gerg.setPub (Gerg.newP : Gerg ℝ) { q with t := T0, d := D0 }).properties = .ok (s', P 0) ∧
      HasDerivAt P (s'.dp_dt * T' + s'.dp_dd * D') 0 ∧ HasDerivAt S (s'.cv / T0 * T' - s'.dp_dt / D0 ^ 2 * D') 0 ∧
      HasDerivAt H ((s'.cv + s'.dp_dt / D0) * T' + (s'.dp_dd / D0 - T0 * s'.dp_dt / D0 ^ 2) * D') 0 := by
  obtain ⟨T, D, P, U, H, G, S, h, e1, e2, h3, h4⟩ := Gerg.along_line q T0 D0 T' D'
  subst e1 e2
  obtain ⟨s', P', S', g1, g2, g3, g4, g5, -, g6, -⟩ := C50_gerg_process _ Gerg.new_ok q hx hsum T D P U H G S h 0 T' D'
    hT hD h3 h4
  have hT0 : T 0 ≠ 0 := (lt_trans (by norm_num) hT).ne'
  have hD0 : D 0 ≠ 0 := (lt_trans (by norm_num) hD).ne'
  refine ⟨T, D, P, U, H, G, S, s', h, rfl, rfl, h3, h4, g1, g3 ▸ g2, g5 ▸ g4, g6.congr_deriv ?_⟩
  rw [g3, g5]
  field_simp
  ring

/-- Through every state of every gas there are a process at constant pressure, one at constant enthalpy and one at
constant entropy. -/
theorem Gerg.exists_processes {q : Gerg.Pub ℝ}
    (hx : Gerg.XFar q.x (fill 22 (f% 0.0))) (hsum : ∑ i : Fin 22 with 1 ≤ i.1, (if 1e-15 < aget q.x i then aget q.x i else 0) = 1)
    {T0 D0 : ℝ} (hT : 1e-7 < T0) (hD : 1e-15 < D0) :
    (∃ (T D P U H G S : ℝ → ℝ) (T' D' : ℝ), Gerg.Along (Gerg.newP : Gerg ℝ) q T D P U H G S ∧ T 0 = T0 ∧ D 0 = D0 ∧
      HasDerivAt T T' 0 ∧ HasDerivAt D D' 0 ∧ (T' ≠ 0 ∨ D' ≠ 0) ∧ HasDerivAt P 0 0) ∧
    (∃ (T D P U H G S : ℝ → ℝ) (T' D' : ℝ), Gerg.Along (Gerg.newP : Gerg ℝ) q T D P U H G S ∧ T 0 = T0 ∧ D 0 = D0 ∧
      HasDerivAt T T' 0 ∧ HasDerivAt D D' 0 ∧ (T' ≠ 0 ∨ D' ≠ 0) ∧ HasDerivAt H 0 0) ∧
    (∃ (T D P U H G S : ℝ → ℝ) (T' D' : ℝ), Gerg.Along (Gerg.newP : Gerg ℝ) q T D P U H G S ∧ T 0 = T0 ∧ D 0 = D0 ∧
      HasDerivAt T T' 0 ∧ HasDerivAt D D' 0 ∧ (T' ≠ 0 ∨ D' ≠ 0) ∧ HasDerivAt S 0 0) := by
  have hs := Gerg.res_ok q T0 D0
  have un : ∀ {s' p}, (Gerg.setPub (Gerg.newP : Gerg ℝ) { q with t := T0, d := D0 }).properties = .ok (s', p) →
      s' = (Gerg.res q T0 D0).1 := by
    intro s' p h; have := Except.ok.inj (h.symm.trans hs); rw [← this]
  generalize (Gerg.res q T0 D0).1 = r at un
  refine ⟨?_, ?_, ?_⟩
  · obtain ⟨T', D', n, e⟩ := exists_direction r.dp_dt r.dp_dd
    obtain ⟨T, D, P, U, H, G, S, s', h, e1, e2, h3, h4, g1, g2, g3, g4⟩ := Gerg.rate hx hsum hT hD T' D'
    rw [un g1, e] at g2
    exact ⟨T, D, P, U, H, G, S, T', D', h, e1, e2, h3, h4, n, g2⟩
  · obtain ⟨T', D', n, e⟩ := exists_direction (r.cv + r.dp_dt / D0) (r.dp_dd / D0 - T0 * r.dp_dt / D0 ^ 2)
    obtain ⟨T, D, P, U, H, G, S, s', h, e1, e2, h3, h4, g1, g2, g3, g4⟩ := Gerg.rate hx hsum hT hD T' D'
    rw [un g1, e] at g4
    exact ⟨T, D, P, U, H, G, S, T', D', h, e1, e2, h3, h4, n, g4⟩
  · obtain ⟨T', D', n, e⟩ := exists_direction (r.cv / T0) (-(r.dp_dt / D0 ^ 2))
    obtain ⟨T, D, P, U, H, G, S, s', h, e1, e2, h3, h4, g1, g2, g3, g4⟩ := Gerg.rate hx hsum hT hD T' D'
    rw [un g1, show r.cv / T0 * T' - r.dp_dt / D0 ^ 2 * D' = r.cv / T0 * T' + -(r.dp_dt / D0 ^ 2) * D' by ring, e] at g3
    exact ⟨T, D, P, U, H, G, S, T', D', h, e1, e2, h3, h4, n, g3⟩

/-- Hot methane at 1 mol/l meets all the conditions. -/
example : ∃ (q : Gerg.Pub ℝ) (s' : Gerg ℝ) (p : ℝ), Gerg.XFar q.x (fill 22 (f% 0.0)) ∧
    ∑ i : Fin 22 with 1 ≤ i.1, (if 1e-15 < aget q.x i then aget q.x i else 0) = 1 ∧ 1 ≤ q.t ∧ q.d = 1 ∧
    (Gerg.setPub (Gerg.newP : Gerg ℝ) q).properties = .ok (s', p) ∧ 0 < s'.dp_dd ∧ 0 < s'.cv ∧ 0 < s'.cp ∧ 0 < s'.mm ∧
    0 < s'.w := by
  have h0 : ∀ i : Fin 22, 1 ≤ i.1 → 0 ≤ aget (Gerg.px 1) i := by
    intro i _; rw [Gerg.aget_px]; split <;> norm_num
  have h1 : ∑ i : Fin 22 with 1 ≤ i.1, aget (Gerg.px 1) i = 1 := by
    simp only [Gerg.aget_px, Finset.sum_ite_eq']
    rw [if_pos (by decide)]
  have h2 : ∑ i : Fin 22 with 1 ≤ i.1, (if 1e-15 < aget (Gerg.px 1) i then aget (Gerg.px 1) i else 0) = 1 := by
    rw [← h1]
    refine Finset.sum_congr rfl fun i _ => ?_
    rw [Gerg.aget_px]
    split <;> norm_num
  obtain ⟨T, t1, ta, tb, tc⟩ := ((Filter.eventually_ge_atTop 1).and
    ((Gerg.RT_methane_uniform Gerg.Shape.f1 (fun σ => σ.continuous_f1) (ε := 0.01) (by norm_num)).and
    ((Gerg.RT_methane_uniform Gerg.Shape.f2 (fun σ => σ.continuous_f2) (ε := 0.01) (by norm_num)).and
    (Gerg.RT_methane_uniform (fun σ _ => σ.t * (σ.t - 1)) (fun σ => continuous_const) (ε := 0.01)
      (by norm_num))))).exists
  have hm : (1 : ℝ) ∈ Set.Icc (0 : ℝ) 3 := by norm_num
  obtain ⟨s', p, a1, a2, a3, a4, a5, a6, a7⟩ := Gerg.low_stable (q := Gerg.pureAt 1 T 1 0) h0 h1
    (lt_of_lt_of_le (by norm_num) t1) (ta 1 hm) (tb 1 hm) (tc 1 hm)
  have hcv : 0 < s'.cv := lt_of_lt_of_le (by norm_num) a2
  exact ⟨Gerg.pureAt 1 T 1 0, s', p, Gerg.XFar_px (by decide), h2, t1, by unfold Gerg.pureAt; dsimp only, a1, a4, hcv,
    lt_of_lt_of_le hcv a3, a6, a7⟩

end Aga8
