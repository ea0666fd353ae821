import Verif.Lemmas.GergTablesReal
import Verif.Props.GergThermo

/-! # GERG computes the GERG-2008 equation of state

C44 and C39. -/

namespace Aga8

open Gerg (Pub pub setPub)

attribute [local irreducible] Gerg.newP Gerg.pressureP Gerg.propertiesP Gerg.densityP

/-- C44: on a new object with some fraction at least 1e-6, `pressure` returns `D R T (1 + δ ∂α_r/∂δ)`, where `α_r` is the
residual Helmholtz energy of GERG-2008 (`GergEos.alphaR`) at the reduced density `δ = D / ρ_r` and inverse reduced
temperature `τ = T_r / T` of the composition (a fraction not above 1e-15 counts as zero). -/
theorem C44_gerg_pressure_is_gerg2008 (new0 : Gerg ℝ) (hnew : Gerg.new = .ok new0) (q : Pub ℝ)
    (hx : ∃ i : Fin 22, 1 ≤ i.1 ∧ 1e-6 ≤ aget q.x i) (ht : 1e-7 < q.t)
    (y : Fin 22 → ℝ) (hy : ∀ i, y i = if 1e-15 < aget q.x i then aget q.x i else 0)
    (δ τ : ℝ) (hδ : δ = q.d * GergEos.invRhoR y) (hτ : τ = GergEos.Tr y / q.t) :
    DifferentiableAt ℝ (fun δ => GergEos.alphaR y δ τ) δ ∧
    ∃ s', (setPub new0 q).pressure = .ok (s', q.d * 8.314472 * q.t *
      (1 + δ * deriv (fun δ => GergEos.alphaR y δ τ) δ)) := by
  have e := Gerg.new_eq hnew
  subst e
  have hP : Gerg.Present q.x := hx
  have ey : y = Gerg.yOf q.x := funext hy
  have ht0 : 0 < q.t := lt_trans (by norm_num) ht
  have hτ0 : 0 < τ := by rw [hτ, ey, ← Gerg.trX_eq]; exact div_pos hP.tr_pos ht0
  have hfun : (fun δ => GergEos.alphaR y δ τ) = fun δ => Gerg.RS q.x (fun _ _ => 1) δ τ := by
    funext δ; rw [ey, Gerg.RS_eq q.x δ hτ0]
  rw [hfun]
  obtain ⟨hd, hR⟩ := Gerg.RS_deriv q.x δ τ
  refine ⟨hd, (Gerg.pressureP (Gerg.freshOf q)).1, ?_⟩
  have h := Gerg.press_fresh q
  have h2 : (Gerg.pressureP (Gerg.freshOf q)).2 = _ := Gerg.pressure_RT hP.xfar ht
  rw [Gerg.RT_eq, hP.drX_eq, Gerg.trX_eq, ← ey, ← hδ, ← hτ, hR, Gerg.R_real] at h2
  refine h.trans (congrArg Except.ok (Prod.ext rfl (h2.trans ?_)))
  ring

/-- C44: on a new object with some fraction at least 1e-6, the internal energy and entropy that `properties` computes
combine to the Helmholtz energy of GERG-2008: `u - T s = R T (α_0 + α_r)`. -/
theorem C44_gerg_helmholtz_is_gerg2008 (new0 : Gerg ℝ) (hnew : Gerg.new = .ok new0) (q : Pub ℝ)
    (hx : ∃ i : Fin 22, 1 ≤ i.1 ∧ 1e-6 ≤ aget q.x i) (ht : 1e-7 < q.t) (hd : 1e-15 < q.d)
    (y : Fin 22 → ℝ) (hy : ∀ i, y i = if 1e-15 < aget q.x i then aget q.x i else 0)
    (δ τ : ℝ) (hδ : δ = q.d * GergEos.invRhoR y) (hτ : τ = GergEos.Tr y / q.t) :
    ∃ s' p, (setPub new0 q).properties = .ok (s', p) ∧
      s'.u - q.t * s'.s = 8.314472 * q.t * (GergEos.alpha0 y q.d q.t + GergEos.alphaR y δ τ) := by
  have e := Gerg.new_eq hnew
  subst e
  have hP : Gerg.Present q.x := hx
  have ey : y = Gerg.yOf q.x := funext hy
  have ht0 : 0 < q.t := lt_trans (by norm_num) ht
  have hτ0 : 0 < τ := by rw [hτ, ey, ← Gerg.trX_eq]; exact div_pos hP.tr_pos ht0
  refine ⟨_, _, Gerg.props_fresh q, ?_⟩
  have hu : (Gerg.propertiesP (Gerg.freshOf q)).1.u = _ := Gerg.u_RT hP.xfar ht
  have hs : (Gerg.propertiesP (Gerg.freshOf q)).1.s = _ := Gerg.s_RT hP.xfar ht
  have h1 : Gerg.RT q.x (fun _ _ => 1) q.d q.t = GergEos.alphaR y δ τ := by
    rw [Gerg.RT_eq, hP.drX_eq, Gerg.trX_eq, ← ey, ← hδ, ← hτ, Gerg.RS_eq q.x δ hτ0, ey]
  rw [hu, hs, h1, Gerg.I0_eq q.x hd, ← ey, Gerg.R_real]
  ring

/-- The hypotheses hold for a mixture of 90 % methane and 10 % ethane at 300 K and 2 mol/l, which has a departure term. -/
example : ∃ q : Pub ℝ, (∃ i : Fin 22, 1 ≤ i.1 ∧ 1e-6 ≤ aget q.x i) ∧ 1e-7 < q.t ∧ 1e-15 < q.d ∧
    GergEos.departure 1 4 = (1, GergEos.depCH4C2H6) ∧ aget q.x 1 = 0.9 ∧ aget q.x 4 = 0.1 := by
  refine ⟨{ Gerg.pureAt 1 300 2 0 with x := aset (aset (Gerg.px 1) 1 0.9) 4 0.1 }, ⟨1, by decide, ?_⟩, ?_, ?_, rfl, ?_, ?_⟩
  · rw [aget_aset_ne _ _ (by decide), aget_aset_self]; norm_num
  · show (1e-7 : ℝ) < 300; norm_num
  · show (1e-15 : ℝ) < 2; norm_num
  · rw [aget_aset_ne _ _ (by decide), aget_aset_self]
  · rw [aget_aset_self]

/-- C39: a pure fluid `k`. On a new object, `pressure` returns the pressure of the GERG-2008 pure-fluid equation with
that fluid's own coefficients and exponents (the crate's numbers), at inverse reduced temperature `T_c / T` and a reduced density that is
`D / ρ_c` up to a relative error of 1e-14. -/
theorem C39_gerg_pure_fluid (new0 : Gerg ℝ) (hnew : Gerg.new = .ok new0) (q : Pub ℝ) (k : Fin 22) (hk : 1 ≤ k.1)
    (hx : ∀ i, aget q.x i = if i = k then 1 else 0) (ht : 1e-7 < q.t) (ρc Tc : ℚ)
    (hc : GergEos.critical[k.1 - 1]? = some (ρc, Tc)) :
    ∃ ρr : ℝ, |ρr - ρc| ≤ 2e-14 * ρc ∧ ∃ s', (setPub new0 q).pressure = .ok (s', q.d * 8.314472 * q.t *
      (1 + q.d / ρr * deriv (fun δ => GergEos.alphaPure k.1 δ (Tc / q.t)) (q.d / ρr))) := by
  let y : Fin 22 → ℝ := fun i => if i = k then 1 else 0
  have hy : ∀ i, y i = if 1e-15 < aget q.x i then aget q.x i else 0 := by
    intro i
    simp only [hx, y]
    split <;> norm_num
  have hP : ∃ i : Fin 22, 1 ≤ i.1 ∧ 1e-6 ≤ aget q.x i := ⟨k, hk, by rw [hx, if_pos rfl]; norm_num⟩
  obtain ⟨-, s', h⟩ := C44_gerg_pressure_is_gerg2008 new0 hnew q hP ht y hy _ _ rfl rfl
  have hcr : Gerg.crit k.1 = (ρc, Tc) := by
    unfold Gerg.crit; rw [List.getD_eq_getElem?_getD, hc]; rfl
  obtain ⟨d1, d2, d3⟩ := Gerg.diag_table k hk
  obtain ⟨-, -, hρ, -⟩ := Gerg.crit_table k hk
  rw [hcr] at d1 d2 d3 hρ
  have hred : ∀ Y B, GergEos.reducing Y B y = Y k k := by
    intro Y B
    unfold GergEos.reducing
    rw [Finset.sum_eq_single k]
    · simp only [y, if_true]
      rw [Finset.sum_eq_zero]
      · ring
      · intro j hj
        have : j ≠ k := by
          intro h; rw [h] at hj; simp at hj
        rw [if_neg this]; ring
    · intro i _ hi
      simp only [y, if_neg hi]
      rw [Finset.sum_eq_zero]
      · ring
      · intro j _; ring
    · intro h; simp [hk] at h
  have hv : GergEos.invRhoR y = (Gerg.decQ (aget2 Gerg.Tab.GVIJ k k) : ℝ) := by
    unfold GergEos.invRhoR; rw [hred, Gerg.val_eq, Gerg.ofDec_decQ]; rfl
  have htr : GergEos.Tr y = (Tc : ℝ) := by
    unfold GergEos.Tr; rw [hred, Gerg.val_eq, Gerg.ofDec_decQ]
    show (Gerg.decQ (aget2 Gerg.Tab.GTIJ k k) : ℝ) = Tc
    rw [d3]
  have ha : ∀ τ, (fun δ => GergEos.alphaR y δ τ) = fun δ => GergEos.alphaPure k.1 δ τ := by
    intro τ
    funext δ
    unfold GergEos.alphaR
    rw [Finset.sum_eq_single k, Finset.sum_eq_zero]
    · simp only [y, if_true]; ring
    · intro i _
      refine Finset.sum_eq_zero fun j hj => ?_
      have hij : i < j := by simpa using hj
      have : y i * y j = 0 := by
        simp only [y]
        by_cases h1 : i = k
        · have : j ≠ k := by intro h2; rw [h1, h2] at hij; exact lt_irrefl _ hij
          rw [if_neg this, mul_zero]
        · rw [if_neg h1, zero_mul]
      rw [this]; ring
    · intro i _ hi
      simp only [y, if_neg hi, zero_mul]
    · intro h; simp [hk] at h
  rw [hv, htr, ha] at h
  generalize Gerg.decQ (aget2 Gerg.Tab.GVIJ k k) = v at *
  have hρ : (0 : ℝ) < (ρc : ℝ) := by exact_mod_cast hρ
  have d1 := Gerg.qle d1
  have d2 := Gerg.qle d2
  push_cast at d1 d2
  have hv0 : (0 : ℝ) < (v : ℝ) := by
    by_contra hn
    have : (v : ℝ) * ρc ≤ 0 := mul_nonpos_of_nonpos_of_nonneg (not_lt.1 hn) hρ.le
    linarith
  refine ⟨(v : ℝ)⁻¹, ?_, s', ?_⟩
  · rw [abs_le, sub_le_iff_le_add, le_sub_iff_add_le, ← one_div, div_le_iff₀ hv0, le_div_iff₀ hv0]
    constructor <;> nlinarith
  · rw [div_inv_eq_mul]; exact h

/-- The hypotheses hold for pure n-butane, a short-form fluid, at 400 K. -/
example : ∃ q : Pub ℝ, (∀ i, aget q.x i = if i = (7 : Fin 22) then 1 else 0) ∧ 1e-7 < q.t ∧
    GergEos.critical[(7 : Fin 22).1 - 1]? = some (3.920016792, 425.125) := by
  refine ⟨Gerg.pureAt 7 400 1 0, fun i => Gerg.aget_px 7 i, ?_, by decide +kernel⟩
  show (1e-7 : ℝ) < 400; norm_num

/-- C39: the constants of the reducing functions. For every pair of components the precomputed literals of the crate equal
the GERG-2008 combinations of the critical constants and binary parameters that the crate also holds, `β_v γ_v (ρ_i^(-1/3) + ρ_j^(-1/3))^3 / 8`, `β_T γ_T √(T_i T_j)` and
`β_T²`, up to a relative error of 1e-14. -/
theorem C39_gerg_reducing_constants (i j : Fin 22) (hi : 1 ≤ i.1) (hij : i < j) (ρi Ti ρj Tj : ℚ)
    (hci : GergEos.critical[i.1 - 1]? = some (ρi, Ti)) (hcj : GergEos.critical[j.1 - 1]? = some (ρj, Tj))
    (βv γv βT γT : ℚ) (hb : (i.1, j.1, βv, γv, βT, γT) ∈ GergEos.binary) :
    |GergEos.val Gerg.Tab.GVIJ[i.1][j.1] - βv * γv * ((ρi : ℝ) ^ (-1 / 3 : ℝ) + (ρj : ℝ) ^ (-1 / 3 : ℝ)) ^ 3 / 8|
      ≤ 1e-14 * (βv * γv * ((ρi : ℝ) ^ (-1 / 3 : ℝ) + (ρj : ℝ) ^ (-1 / 3 : ℝ)) ^ 3 / 8) ∧
    |GergEos.val Gerg.Tab.GTIJ[i.1][j.1] - βT * γT * √(Ti * Tj)| ≤ 1e-14 * (βT * γT * √(Ti * Tj)) ∧
    |GergEos.val Gerg.Tab.BTIJ[i.1][j.1] - (βT : ℝ) ^ 2| ≤ 1e-14 * (βT : ℝ) ^ 2 := by
  have ei : Gerg.crit i.1 = (ρi, Ti) := by
    unfold Gerg.crit; rw [List.getD_eq_getElem?_getD, hci]; rfl
  have ej : Gerg.crit j.1 = (ρj, Tj) := by
    unfold Gerg.crit; rw [List.getD_eq_getElem?_getD, hcj]; rfl
  have hp : GergEos.params i.1 j.1 = (βv, γv, βT, γT) := Gerg.binary_lookup _ hb
  have a := Gerg.gv_rel i j hi hij
  have b := Gerg.gt_rel i j hi hij
  have c := Gerg.bt_rel i j hi hij
  rw [hp, ei, ej] at a b
  rw [hp] at c
  exact ⟨a, b, c⟩

/-- The hypotheses hold for methane and n-butane. -/
example : (1, 7, 0.979105972, 1.045375122, 0.99417491, 1.171607691) ∈ GergEos.binary ∧
    GergEos.critical[0]? = some ((10.139342719 : ℚ), (190.564 : ℚ)) := by decide +kernel

/-- C39: every pair of components has its row of binary parameters, and it has a departure function in the program
(a model number) exactly when it has a non-zero departure weight, which is also when `GergEos.departures`, a frozen
copy of the crate's assignments, lists one. -/
theorem C39_gerg_departure_pairs (i j : Fin 22) (hi : 1 ≤ i.1) (hij : i < j) :
    (∃ p, (i.1, j.1, p) ∈ GergEos.binary) ∧
    (Gerg.Tab.MNUMB[i.1][j.1] ≠ 0 ↔ Gerg.Tab.FIJ[i.1][j.1].m ≠ 0) ∧
    (Gerg.Tab.MNUMB[i.1][j.1] ≠ 0 ↔ ∃ F terms, (i.1, j.1, F, terms) ∈ GergEos.departures ∧ F ≠ 0 ∧ terms ≠ []) := by
  obtain ⟨h1, h2, h3, h4⟩ := Gerg.pairs_table i j hi hij
  refine ⟨?_, h2, h3.trans ?_⟩
  · obtain ⟨r, hr, e⟩ := List.any_eq_true.1 h1
    simp only [Bool.and_eq_true, beq_iff_eq] at e
    obtain ⟨a, b, p⟩ := r
    exact ⟨p, by simpa [← e.1, ← e.2] using hr⟩
  · constructor
    · intro h
      obtain ⟨r, hr, e⟩ := List.any_eq_true.1 h
      simp only [Bool.and_eq_true, beq_iff_eq] at e
      obtain ⟨a, b, F, l⟩ := r
      obtain ⟨g1, g2⟩ := h4 _ hr
      exact ⟨F, l, by simpa [← e.1, ← e.2] using hr, g1, g2⟩
    · rintro ⟨F, l, h, -⟩
      exact List.any_eq_true.2 ⟨_, h, by simp⟩

end Aga8
