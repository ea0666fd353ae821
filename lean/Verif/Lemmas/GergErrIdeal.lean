import Verif.Lemmas.F64ApHyp
import Verif.Lemmas.DetailErrAr2
import Verif.Lemmas.GergErrFresh
import Verif.Lemmas.GergErrDens
import Verif.Spec.GergEnergyError

/-! # Rounding errors of the ideal-gas part of GERG -/

set_option linter.unusedSectionVars false

namespace Aga8.Gerg

open FOps Tab F64
open Detail (ap0 ap1 ap2)

attribute [local irreducible] newP

variable [Libm]

/-! ## The constants -/

theorem chkTHg : ∀ (i : Fin 22) (j : Fin 8), 1 ≤ i.1 → 4 ≤ j.1 → decChk false 0 12 (aget2 TH0I i j) = true ∧
    ((aget2 TH0I i j).m = 0 ∨ 156 * 10 ^ (aget2 TH0I i j).e ≤ (aget2 TH0I i j).m
      ∧ (aget2 TH0I i j).m ≤ 2600 * 10 ^ (aget2 TH0I i j).e) := by decide +kernel

theorem chkNg : ∀ (i : Fin 22) (j : Fin 8), 1 ≤ i.1 → 4 ≤ j.1 → decChk false 8 6 (aget2 n0iD i j) = true := by decide +kernel

theorem chkN1g : ∀ i : Fin 22, 1 ≤ i.1 → decChk false 0 7 (aget2 n0iD i 1) = true ∧ decChk false 0 17 (aget2 n0iD i 2) = true ∧
    decChk false 0 3 (aget2 n0iD i 3) = true := by decide +kernel

theorem chkD0g : decChk false 0 9 ⟨29815, 2⟩ = true ∧ decChk false 0 7 ⟨101325, 3⟩ = true ∧
    decChk false 0 4 ⟨831451, 5⟩ = true := by decide +kernel

/-- The ratio of the gas constants. -/
noncomputable def rs : ℝ := 8.31451 / 8.314472

theorem rs_pos : 0 < rs := by unfold rs; norm_num

theorem rs_real : (RSR : ℝ) = rs := by unfold RSR rs; rw [R_real, r_ofDec]; norm_num

theorem apRSR : Ap (RSR : Float) rs rs 4 5 5 := by
  have h1 := Ap.litPos chkD0g.2.2 (by norm_num)
  have e1 : decR ⟨831451, 5⟩ = 8.31451 := by simp [decR]; norm_num
  rw [e1] at h1
  have := h1.div apRG (by norm_num)
  exact this.weak (by norm_num) (by norm_num) (by norm_num)

/-- The value of an ideal-gas coefficient of the table. -/
noncomputable def gn (i : Fin 22) (j : Fin 8) : ℝ := decR (aget2 n0iD i j)
/-- A characteristic temperature. -/
noncomputable def gth (i : Fin 22) (j : Fin 8) : ℝ := (tab2 TH0I i j : ℝ)

theorem decR_ofDec (d : Dec) : decR d = (FOps.ofDec d : ℝ) := by rw [r_ofDec]; unfold decR; rfl

theorem gth_decR (i : Fin 22) (j : Fin 8) : gth i j = decR (aget2 TH0I i j) := by
  rw [decR_ofDec]; rfl

theorem gn_decQ (i : Fin 22) (j : Fin 8) : gn i j = (decQ (aget2 n0iD i j) : ℝ) := by
  unfold gn; rw [decR_ofDec, ofDec_decQ]

theorem gth_cases {i : Fin 22} {j : Fin 8} (hi : 1 ≤ i.1) (hj : 4 ≤ j.1) : gth i j = 0 ∨ 156 ≤ gth i j ∧ gth i j ≤ 2600 := by
  rw [gth_decR]
  unfold decR
  rcases (chkTHg i j hi hj).2 with h | ⟨h1, h2⟩
  · left; rw [h]; simp
  · right
    have p : (0 : ℝ) < 10 ^ (aget2 TH0I i j).e := by positivity
    rw [le_div_iff₀ p, div_le_iff₀ p]
    exact ⟨by exact_mod_cast h1, by exact_mod_cast h2⟩

theorem apTHg {i : Fin 22} {j : Fin 8} (hi : 1 ≤ i.1) (hj : 4 ≤ j.1) :
    Ap (tab2 TH0I i j : Float) (gth i j) (gth i j) 1 0 12 := by
  have h := Ap.lit (chkTHg i j hi hj).1
  have h0 : 0 ≤ gth i j := by rcases gth_cases hi hj with e | e <;> linarith [e]
  rw [← gth_decR, abs_of_nonneg h0] at h
  exact h

/-- Whether a hyperbolic term is present does not depend on rounding. -/
theorem gth_present {i : Fin 22} {j : Fin 8} (hi : 1 ≤ i.1) (hj : 4 ≤ j.1) :
    (FOps.lt (EPSILON : Float) (tab2 TH0I i j) = true ↔ 1e-15 < gth i j) := by
  have A := apTHg hi hj
  have C := Ap.litPos chkEps (by norm_num)
  have e : decR ⟨1, 15⟩ = 1 / 10 ^ 15 := by simp [decR]
  have h3 := (abs_le.1 C.err).2
  have h4 := (abs_le.1 C.err).1
  rw [e, uu_eq] at h3 h4
  have e2 : (EPSILON : Float) = litF ⟨1, 15⟩ := rfl
  rw [e2, flt, lt_toR C.fin A.fin]
  rcases gth_cases hi hj with h | h
  · rw [(A.zero h).1, h]
    norm_num at h3 h4 ⊢
    linarith
  · have b := (A.rel_bounds (by linarith) (by norm_num)).1
    rw [uu_eq] at b
    norm_num at h3 h4 b ⊢
    constructor <;> intro <;> linarith

variable {s : Gerg Float}

/-- The coefficients of a new object over the reals. -/
theorem m0_hyp {i : Fin 22} {j : Fin 8} (hi : 1 ≤ i.1) (hj : 4 ≤ j.1) : aget2 m0.n0i i j = gn i j * rs := by
  rw [m0_n0i i j hi hj, gn_decQ]; rfl

theorem n0i_new {F : Type} [Add F] [Sub F] [Mul F] [Div F] [Neg F] [FOps F] : (params (newP : Gerg F)).n0i = n0i0 := by
  unfold newP
  rfl

theorem apNh {i : Fin 22} {j : Fin 8} (hi : 1 ≤ i.1) (hj : 4 ≤ j.1) :
    Ap (aget2 (n0i0 : Vector (Vector Float 8) 22) i j) (aget2 m0.n0i i j) (|gn i j| * rs) 7 13 11 := by
  rw [m0_hyp hi hj, n0i0_get i j hi (by omega), if_neg (by omega), if_neg (by omega), if_neg (by omega)]
  exact ((Ap.lit (chkNg i j hi hj)).mul apRSR).weak (by norm_num) (by norm_num) (by norm_num)

/-! ## The hyperbolic terms -/

/-- The terms of `sumhyp0`, `sumhyp1` and `sumhyp2`. -/
noncomputable def gv0 (i : Fin 22) (T : ℝ) (j : Fin 8) : ℝ :=
  if 1e-15 < gth i j then (if j.1 = 4 ∨ j.1 = 6 then aget2 m0.n0i i j * Real.log (Real.sinh (gth i j / T))
    else -aget2 m0.n0i i j * Real.log (Real.cosh (gth i j / T))) else 0
noncomputable def gv1 (i : Fin 22) (T : ℝ) (j : Fin 8) : ℝ :=
  if 1e-15 < gth i j then (if j.1 = 4 ∨ j.1 = 6 then aget2 m0.n0i i j
      * (gth i j / T * Real.cosh (gth i j / T) / Real.sinh (gth i j / T))
    else -aget2 m0.n0i i j * (gth i j / T * Real.sinh (gth i j / T) / Real.cosh (gth i j / T))) else 0
noncomputable def gv2 (i : Fin 22) (T : ℝ) (j : Fin 8) : ℝ :=
  if 1e-15 < gth i j then (if j.1 = 4 ∨ j.1 = 6 then aget2 m0.n0i i j * (gth i j / T / Real.sinh (gth i j / T)) ^ 2
    else aget2 m0.n0i i j * (gth i j / T / Real.cosh (gth i j / T)) ^ 2) else 0

/-- Their sizes. -/
noncomputable def gs0 (i : Fin 22) (T : ℝ) (j : Fin 8) : ℝ :=
  if 1e-15 < gth i j then (if j.1 = 4 ∨ j.1 = 6 then |gn i j| * rs * GergEos.lnSize (Real.sinh (gth i j / T))
    else |gn i j| * rs * GergEos.lnSize (Real.cosh (gth i j / T))) else 0
noncomputable def gs1 (i : Fin 22) (T : ℝ) (j : Fin 8) : ℝ :=
  if 1e-15 < gth i j then (if j.1 = 4 ∨ j.1 = 6 then |gn i j| * rs
      * (gth i j / T * Real.cosh (gth i j / T) / Real.sinh (gth i j / T))
    else |gn i j| * rs * (gth i j / T * Real.sinh (gth i j / T) / Real.cosh (gth i j / T))) else 0
noncomputable def gs2 (i : Fin 22) (T : ℝ) (j : Fin 8) : ℝ :=
  if 1e-15 < gth i j then (if j.1 = 4 ∨ j.1 = 6 then |gn i j| * rs * (gth i j / T / Real.sinh (gth i j / T)) ^ 2
    else |gn i j| * rs * (gth i j / T / Real.cosh (gth i j / T)) ^ 2) else 0

variable (hL : LibmAccurate) (hN : LnAccurate)
include hL hN

/-- The quantities in a hyperbolic term. -/
theorem ap_term {n a : Float} {ν μ x : ℝ} (N : Ap n ν μ 7 13 11) (A : Ap a x x 3 10 12) (h1 : 0.15 ≤ x) (h2 : x ≤ 52) :
    let ep := FOps.exp a
    let em := f% 1.0 / ep
    let hsn := (ep - em) / f% 2.0
    let hcn := (ep + em) / f% 2.0
    (Ap (n * FOps.ln (FOps.abs hsn)) (ν * Real.log (Real.sinh x)) (μ * GergEos.lnSize (Real.sinh x)) 2340 210 110 ∧
    Ap (n * a * hcn / hsn) (ν * (x * Real.cosh x / Real.sinh x)) (μ * (x * Real.cosh x / Real.sinh x)) 2340 210 110 ∧
    Ap (n * (a / hsn) * (a / hsn)) (ν * (x / Real.sinh x) ^ 2) (μ * (x / Real.sinh x) ^ 2) 2340 210 110) ∧
    (Ap (n * FOps.ln (FOps.abs hcn)) (ν * Real.log (Real.cosh x)) (μ * GergEos.lnSize (Real.cosh x)) 2340 210 110 ∧
    Ap (n * a * hsn / hcn) (ν * (x * Real.sinh x / Real.cosh x)) (μ * (x * Real.sinh x / Real.cosh x)) 2340 210 110 ∧
    Ap (n * (a / hcn) * (a / hcn)) (ν * (x / Real.cosh x) ^ 2) (μ * (x / Real.cosh x) ^ 2) 2340 210 110) := by
  obtain ⟨S, C⟩ := ap_hyp hL A h1 h2
  have x0 : 0 < x := by norm_num at h1; linarith
  have s0 : 0 < Real.sinh x := Real.sinh_pos_iff.2 x0
  have c0 := Real.cosh_pos x
  intro ep em hsn hcn
  have e1 : ∀ a b c d : ℝ, a * b * c / d = a * (b * c / d) := fun a b c d => by ring
  have e2 : ∀ a b : ℝ, a * b * b = a * b ^ 2 := fun a b => by ring
  refine ⟨⟨?_, ?_, ?_⟩, ?_, ?_, ?_⟩
  · exact (N.mul (Ap.ln hN S.abs s0)).weak (by norm_num) (by norm_num) (by norm_num)
  · have := ((N.mul A).mul C).div S s0
    rw [e1, e1] at this
    exact this.weak (by norm_num) (by norm_num) (by norm_num)
  · have := (N.mul (A.div S s0)).mul (A.div S s0)
    rw [e2, e2] at this
    exact this.weak (by norm_num) (by norm_num) (by norm_num)
  · exact (N.mul (Ap.ln hN C.abs c0)).weak (by norm_num) (by norm_num) (by norm_num)
  · have := ((N.mul A).mul S).div C c0
    rw [e1, e1] at this
    exact this.weak (by norm_num) (by norm_num) (by norm_num)
  · have := (N.mul (A.div C c0)).mul (A.div C c0)
    rw [e2, e2] at this
    exact this.weak (by norm_num) (by norm_num) (by norm_num)

/-- One hyperbolic term adds its value to each sum. -/
theorem ghyp_adds (hn : s.n0i = n0i0) {T : ℝ} (At : Ap s.t T T 0 0 14)
    (t1 : 50 ≤ T) (t2 : T ≤ 1000) {i : Fin 22} (hi : 1 ≤ i.1) (j : Fin 8) (hj : 4 ≤ j.1) :
    (F64.Adds (fun h : Float × Float × Float => h.1) (a0Hyp s i j) (gv0 i T j) (gs0 i T j) 2 2340 210 112 ∧
    F64.Adds (fun h : Float × Float × Float => h.2.1) (a0Hyp s i j) (gv1 i T j) (gs1 i T j) 2 2340 210 112 ∧
    F64.Adds (fun h : Float × Float × Float => h.2.2) (a0Hyp s i j) (gv2 i T j) (gs2 i T j) 2 2340 210 112) ∧
    gs0 i T j ≤ 2 ^ 110 ∧ gs1 i T j ≤ 2 ^ 110 ∧ gs2 i T j ≤ 2 ^ 110 := by
  have T0 : 0 < T := by linarith
  by_cases h0 : 1e-15 < gth i j
  · have hc := (gth_present hi hj).2 h0
    have r := (gth_cases hi hj).resolve_left (lt_trans (by norm_num) h0).ne'
    have At' := Detail.Ap.rerange (l' := 0) (h' := 10) At ⟨by norm_num; linarith, t2.trans (by norm_num)⟩
    have A := ((apTHg hi hj).div At' T0).weak (k' := 3) (l' := 10) (h' := 12) (by norm_num) (by norm_num) (by norm_num)
    have x1 : 0.15 ≤ gth i j / T := by
      rw [le_div_iff₀ T0]; norm_num; linarith [r.1]
    have x2 : gth i j / T ≤ 52 := by
      rw [div_le_iff₀ T0]; linarith [r.2]
    have N := apNh hi hj
    rw [← hn] at N
    obtain ⟨⟨a, b, c⟩, a', b', c'⟩ := ap_term hL hN N A x1 x2
    unfold gv0 gv1 gv2 gs0 gs1 gs2
    simp only [h0, if_true]
    by_cases hj2 : j.1 = 4 ∨ j.1 = 6
    · simp only [hj2, if_true]
      have hb : (j.1 == 4 || j.1 == 6) = true := by simpa using hj2
      refine ⟨⟨F64.Adds.one (fun h => ?_) (a.weak le_rfl le_rfl (by norm_num)) (by norm_num),
        F64.Adds.one (fun h => ?_) (b.weak le_rfl le_rfl (by norm_num)) (by norm_num),
        F64.Adds.one (fun h => ?_) (c.weak le_rfl le_rfl (by norm_num)) (by norm_num)⟩, Detail.Ap.le_pow a, Detail.Ap.le_pow b, Detail.Ap.le_pow c⟩
      all_goals unfold a0Hyp; simp only [hc, hb, if_true]
    · simp only [hj2, if_false]
      have hb : (j.1 == 4 || j.1 == 6) = false := by simpa using hj2
      rw [neg_mul, neg_mul]
      refine ⟨⟨F64.Adds.oneSub (fun h => ?_) (a'.weak le_rfl le_rfl (by norm_num)) (by norm_num),
        F64.Adds.oneSub (fun h => ?_) (b'.weak le_rfl le_rfl (by norm_num)) (by norm_num),
        F64.Adds.one (fun h => ?_) (c'.weak le_rfl le_rfl (by norm_num)) (by norm_num)⟩, Detail.Ap.le_pow a', Detail.Ap.le_pow b', Detail.Ap.le_pow c'⟩
      all_goals unfold a0Hyp; simp only [hc, hb, if_true, Bool.false_eq_true, if_false]
  · have hc : ¬ FOps.lt (EPSILON : Float) (tab2 TH0I i j) = true := fun h => h0 ((gth_present hi hj).1 h)
    unfold gv0 gv1 gv2 gs0 gs1 gs2
    simp only [h0, if_false]
    refine ⟨⟨F64.Adds.skip _ _ _ _ (fun h => ?_) rfl rfl, F64.Adds.skip _ _ _ _ (fun h => ?_) rfl rfl,
      F64.Adds.skip _ _ _ _ (fun h => ?_) rfl rfl⟩, by positivity, by positivity, by positivity⟩
    all_goals unfold a0Hyp; simp only [hc, if_false, Bool.false_eq_true]

omit hL hN in
theorem ghyp_sum_le {m : Fin 8 → ℝ} {h : ℕ} (H : ∀ j, 4 ≤ j.1 → m j ≤ 2 ^ h) : ∑ j with 4 ≤ j.1, m j ≤ 2 ^ (h + 2) := by
  calc ∑ j with 4 ≤ j.1, m j ≤ ∑ _j : Fin 8 with 4 ≤ _j.1, (2 : ℝ) ^ h :=
        Finset.sum_le_sum fun j hj => H j (Finset.mem_filter.1 hj).2
    _ = 4 * 2 ^ h := by
      rw [Finset.sum_const, show (Finset.univ.filter fun j : Fin 8 => 4 ≤ j.1).card = 4 by decide]; simp
    _ = 2 ^ (h + 2) := by rw [pow_add]; ring

/-- The three sums. -/
theorem ap_ghyp (hn : s.n0i = n0i0) {T : ℝ} (At : Ap s.t T T 0 0 14)
    (t1 : 50 ≤ T) (t2 : T ≤ 1000) {i : Fin 22} (hi : 1 ≤ i.1) :
    let r := loop 4 8 ((f% 0.0 : Float), (f% 0.0 : Float), (f% 0.0 : Float)) (a0Hyp s i)
    Ap r.1 (H0 m0 i T) (∑ j with 4 ≤ j.1, gs0 i T j) 2348 210 112 ∧
    Ap r.2.1 (H1 m0 i T) (∑ j with 4 ≤ j.1, gs1 i T j) 2348 210 112 ∧
    Ap r.2.2 (H2 m0 i T) (∑ j with 4 ≤ j.1, gs2 i T j) 2348 210 112 := by
  have H := fun j hj => ghyp_adds hL hN hn At t1 t2 hi j hj
  have z := ap0 2340 210 112
  have e0 := (F64.Adds.loop 4 fun j hj => (H j hj).1.1).2 (f% 0.0, f% 0.0, f% 0.0) 0 0 2340 le_rfl (by norm_num)
    (by rw [zero_add]; exact ghyp_sum_le fun j hj => (H j hj).2.1) z
  have e1 := (F64.Adds.loop 4 fun j hj => (H j hj).1.2.1).2 (f% 0.0, f% 0.0, f% 0.0) 0 0 2340 le_rfl (by norm_num)
    (by rw [zero_add]; exact ghyp_sum_le fun j hj => (H j hj).2.2.1) z
  have e2 := (F64.Adds.loop 4 fun j hj => (H j hj).1.2.2).2 (f% 0.0, f% 0.0, f% 0.0) 0 0 2340 le_rfl (by norm_num)
    (by rw [zero_add]; exact ghyp_sum_le fun j hj => (H j hj).2.2.2) z
  simp only [zero_add] at e0 e1 e2
  exact ⟨e0, e1, e2⟩

end Aga8.Gerg
