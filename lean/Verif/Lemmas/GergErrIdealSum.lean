import Verif.Lemmas.GergErrIdeal

/-! # Rounding errors of the ideal-gas part of GERG: the sum over the components -/

set_option linter.unusedSectionVars false

namespace Aga8.Gerg

open FOps Tab F64
open Detail (ap0 ap1 ap2)

attribute [local irreducible] newP

section
variable {F : Type} [Add F] [Sub F] [Mul F] [Div F] [Neg F] [FOps F]

theorem a0_logd {s : Gerg F} (he : FOps.lt (EPSILON : F) s.d = true) : (alpha0 s).a0 = #v[
    (loop 1 22 ((f% 0.0 : F), (f% 0.0 : F), (f% 0.0 : F)) (a0Comp s (ln s.d) (ln s.t))).1,
    (loop 1 22 ((f% 0.0 : F), (f% 0.0 : F), (f% 0.0 : F)) (a0Comp s (ln s.d) (ln s.t))).2.1,
    (loop 1 22 ((f% 0.0 : F), (f% 0.0 : F), (f% 0.0 : F)) (a0Comp s (ln s.d) (ln s.t))).2.2] := by
  unfold alpha0
  dsimp only
  rw [if_pos he]

end

variable [Libm]

/-! ## The coefficients without a hyperbolic function -/

/-- The density of the standard state. -/
noncomputable def grho0 : ℝ := 101.325 / (8.314472 * 298.15)

theorem m0_n1 {i : Fin 22} (hi : 1 ≤ i.1) : aget2 m0.n0i i 1 = gn i 1 * rs - Real.log grho0 ∧
    aget2 m0.n0i i 2 = (gn i 2 + 298.15) * rs - 298.15 ∧ aget2 m0.n0i i 3 = (gn i 3 - 1) * rs := by
  have hlit : (f% 298.15 : ℝ) = 298.15 := by rw [r_ofDec]; norm_num
  have hlit2 : (f% 101.325 : ℝ) = 101.325 := by rw [r_ofDec]; norm_num
  rw [m0_fields.2.2.2.2.2.2.2.2.2, n0i0_get i 1 hi (by decide), n0i0_get i 2 hi (by decide), n0i0_get i 3 hi (by decide),
    if_pos rfl, if_neg (by decide), if_pos rfl, if_neg (by decide), if_neg (by decide), if_pos rfl, rs_real, hlit, hlit2,
    R_real, l1, r_ln]
  unfold gn grho0
  rw [decR_ofDec, decR_ofDec, decR_ofDec, div_div]
  exact ⟨rfl, rfl, rfl⟩

theorem apN1g (hN : LnAccurate) {i : Fin 22} (hi : 1 ≤ i.1) : Ap (aget2 (n0i0 : Vector (Vector Float 8) 22) i 1)
    (aget2 m0.n0i i 1) (|gn i 1| * rs + GergEos.lnSize grho0) 15 5 13 := by
  rw [(m0_n1 hi).1, n0i0_get i 1 hi (by decide), if_pos rfl]
  have h1 := Ap.litPos chkD0g.1 (by norm_num)
  have h2 := Ap.litPos chkD0g.2.1 (by norm_num)
  have e1 : decR ⟨29815, 2⟩ = 298.15 := by simp [decR]; norm_num
  have e2 : decR ⟨101325, 3⟩ = 101.325 := by simp [decR]; norm_num
  rw [e1] at h1
  rw [e2] at h2
  have D := (h2.div apRG (by norm_num)).div h1 (by norm_num)
  rw [div_div] at D
  have := ((Ap.lit (chkN1g i hi).1).mul apRSR).sub (Ap.ln hN D (by norm_num))
  exact this.weak (by norm_num) (by norm_num) (by norm_num)

theorem apN2g {i : Fin 22} (hi : 1 ≤ i.1) : Ap (aget2 (n0i0 : Vector (Vector Float 8) 22) i 2)
    (aget2 m0.n0i i 2) ((|gn i 2| + 298.15) * rs + 298.15) 11 5 25 := by
  rw [(m0_n1 hi).2.1, n0i0_get i 2 hi (by decide), if_neg (by decide), if_pos rfl]
  have h1 := Ap.litPos chkD0g.1 (by norm_num)
  have e1 : decR ⟨29815, 2⟩ = 298.15 := by simp [decR]; norm_num
  rw [e1] at h1
  have := (((Ap.lit (chkN1g i hi).2.1).add h1).mul apRSR).sub h1
  exact this.weak (by norm_num) (by norm_num) (by norm_num)

theorem apN3g {i : Fin 22} (hi : 1 ≤ i.1) : Ap (aget2 (n0i0 : Vector (Vector Float 8) 22) i 3)
    (aget2 m0.n0i i 3) ((|gn i 3| + 1) * rs) 9 5 10 := by
  rw [(m0_n1 hi).2.2, n0i0_get i 3 hi (by decide), if_neg (by decide), if_neg (by decide), if_pos rfl]
  have := ((Ap.lit (chkN1g i hi).2.2).sub ap1).mul apRSR
  exact this.weak (by norm_num) (by norm_num) (by norm_num)

/-! ## One component -/

/-- The terms of `I0`, `I1` and `I2`. -/
noncomputable def jv0 (D T x : ℝ) (i : Fin 22) : ℝ :=
  x * (Real.log D + Real.log x + aget2 m0.n0i i 1 + aget2 m0.n0i i 2 / T - aget2 m0.n0i i 3 * Real.log T + H0 m0 i T)
noncomputable def jv1 (T x : ℝ) (i : Fin 22) : ℝ := x * (aget2 m0.n0i i 3 + aget2 m0.n0i i 2 / T + H1 m0 i T)
noncomputable def jv2 (T x : ℝ) (i : Fin 22) : ℝ := -x * (aget2 m0.n0i i 3 + H2 m0 i T)

/-- Their sizes. -/
noncomputable def js0 (D T x : ℝ) (i : Fin 22) : ℝ :=
  x * (GergEos.lnSize D + GergEos.lnSize x + (|gn i 1| * rs + GergEos.lnSize grho0) + ((|gn i 2| + 298.15) * rs + 298.15) / T
    + (|gn i 3| + 1) * rs * GergEos.lnSize T + ∑ j with 4 ≤ j.1, gs0 i T j)
noncomputable def js1 (T x : ℝ) (i : Fin 22) : ℝ :=
  x * ((|gn i 3| + 1) * rs + ((|gn i 2| + 298.15) * rs + 298.15) / T + ∑ j with 4 ≤ j.1, gs1 i T j)
noncomputable def js2 (T x : ℝ) (i : Fin 22) : ℝ := x * ((|gn i 3| + 1) * rs + ∑ j with 4 ≤ j.1, gs2 i T j)

theorem jz {D T : ℝ} (i : Fin 22) : jv0 D T 0 i = 0 ∧ jv1 T 0 i = 0 ∧ jv2 T 0 i = 0 ∧ js0 D T 0 i = 0 ∧ js1 T 0 i = 0
    ∧ js2 T 0 i = 0 := by
  unfold jv0 jv1 jv2 js0 js1 js2
  simp

variable {s : Gerg Float} (hL : LibmAccurate) (hN : LnAccurate)
include hL hN

/-- What one component adds. -/
theorem gcomp_terms (hn : s.n0i = n0i0) {D T : ℝ} (At : Ap s.t T T 0 0 14)
    (t1 : 50 ≤ T) (t2 : T ≤ 1000) (Ad : Ap s.d D D 0 14 10) (hD : 0 < D) (hx : OkX s.x) {i : Fin 22} (hi : 1 ≤ i.1)
    (h : FOps.lt (EPSILON : ℝ) (aget (xr s.x) i) = true) :
    let x := aget s.x i
    let r := loop 4 8 ((f% 0.0 : Float), (f% 0.0 : Float), (f% 0.0 : Float)) (a0Hyp s i)
    Ap (x * (ln s.d + ln x + aget2 s.n0i i 1 + aget2 s.n0i i 2 / s.t - aget2 s.n0i i 3 * ln s.t + r.1))
      (jv0 D T (yOf (xr s.x) i) i) (js0 D T (yOf (xr s.x) i) i) 2360 244 120 ∧
    Ap (x * (aget2 s.n0i i 3 + aget2 s.n0i i 2 / s.t + r.2.1))
      (jv1 T (yOf (xr s.x) i) i) (js1 T (yOf (xr s.x) i) i) 2360 244 120 ∧
    Ap (-x * (aget2 s.n0i i 3 + r.2.2)) (jv2 T (yOf (xr s.x) i) i) (js2 T (yOf (xr s.x) i) i) 2360 244 120 := by
  have T0 : 0 < T := by linarith
  obtain ⟨X, X0⟩ := apX hx hi h
  have ey : yOf (xr s.x) i = aget (xr s.x) i := by unfold yOf; rw [if_pos ((lt_eps _).1 h)]
  rw [ey]
  intro x r
  obtain ⟨r0, r1, r2⟩ := ap_ghyp hL hN hn At t1 t2 hi
  have LD := Ap.ln hN Ad hD
  have LX := Ap.ln hN X X0
  have LT := Ap.ln hN At T0
  have n1 := apN1g hN hi
  have n2 := apN2g hi
  have n3 := apN3g hi
  rw [← hn] at n1 n2 n3
  refine ⟨?_, ?_, ?_⟩
  · have := X.mul (((((LD.add LX).add n1).add (n2.div At T0)).sub (n3.mul LT)).add r0)
    exact this.weak (by norm_num) (by norm_num) (by norm_num)
  · have := X.mul ((n3.add (n2.div At T0)).add r1)
    exact this.weak (by norm_num) (by norm_num) (by norm_num)
  · have := X.neg.mul (n3.add r2)
    exact this.weak (by norm_num) (by norm_num) (by norm_num)

omit hL hN in
theorem gsum22_le (m : Fin 22 → ℝ) {h : ℕ} (H : ∀ i, 1 ≤ i.1 → m i ≤ 2 ^ h) : ∑ i with 1 ≤ i.1, m i ≤ 2 ^ (h + 5) := by
  calc ∑ i with 1 ≤ i.1, m i ≤ ∑ _i : Fin 22 with 1 ≤ _i.1, (2 : ℝ) ^ h :=
        Finset.sum_le_sum fun j hj => H j (Finset.mem_filter.1 hj).2
    _ = 21 * 2 ^ h := by
      rw [Finset.sum_const, show (Finset.univ.filter fun j : Fin 22 => 1 ≤ j.1).card = 21 by decide]; simp
    _ ≤ 2 ^ (h + 5) := by
      rw [pow_add]
      have : (0 : ℝ) < 2 ^ h := by positivity
      linarith

omit hL hN in
theorem I_jv {x : Vector ℝ 22} {D T : ℝ} (hD : 1e-15 < D) :
    I0 m0 x D T = ∑ i with 1 ≤ i.1, jv0 D T (yOf x i) i ∧ I1 m0 x T = ∑ i with 1 ≤ i.1, jv1 T (yOf x i) i ∧
    I2 m0 x T = ∑ i with 1 ≤ i.1, jv2 T (yOf x i) i := by
  unfold I0 I1 I2
  refine ⟨?_, ?_, ?_⟩
  all_goals
    refine Finset.sum_congr rfl fun i _ => ?_
    unfold yOf
    split
    · first
        | (unfold logD jv0; rw [if_pos hD])
        | (unfold jv1; rfl)
        | (unfold jv2; rfl)
    · first
        | rw [(jz i).1]
        | rw [(jz (D := D) i).2.1]
        | rw [(jz (D := D) i).2.2.1]

/-- The ideal-gas part. -/
theorem ap_ga0 (hn : s.n0i = n0i0) {D T : ℝ} (At : Ap s.t T T 0 0 14)
    (t1 : 50 ≤ T) (t2 : T ≤ 1000) (Ad : Ap s.d D D 0 14 10) (hD : 1e-4 ≤ D) (hx : OkX s.x) :
    Ap (aget (alpha0 s).a0 0) (I0 m0 (xr s.x) D T) (∑ i with 1 ≤ i.1, js0 D T (yOf (xr s.x) i) i) 2402 244 125 ∧
    Ap (aget (alpha0 s).a0 1) (I1 m0 (xr s.x) T) (∑ i with 1 ≤ i.1, js1 T (yOf (xr s.x) i) i) 2402 244 125 ∧
    Ap (aget (alpha0 s).a0 2) (I2 m0 (xr s.x) T) (∑ i with 1 ≤ i.1, js2 T (yOf (xr s.x) i) i) 2402 244 125 := by
  have T0 : 0 < T := by linarith
  have D0 : 0 < D := lt_of_lt_of_le (by norm_num) hD
  have C := fun i hi h => gcomp_terms hL hN hn At t1 t2 Ad D0 hx (i := i) hi h
  have he : FOps.lt (EPSILON : Float) s.d = true := by
    have E := Ap.litPos chkEps (by norm_num)
    have e : decR ⟨1, 15⟩ = 1 / 10 ^ 15 := by simp [decR]
    rw [e] at E
    have e2 : (EPSILON : Float) = litF ⟨1, 15⟩ := rfl
    rw [e2, flt, lt_toR E.fin Ad.fin]
    have h1 := (E.rel_bounds (by norm_num) (by norm_num)).2.1
    have h2 := (Ad.rel_bounds D0 (by norm_num)).1
    rw [uu_eq] at h1 h2
    norm_num at h1 h2 hD
    linarith
  have A : ∀ i : Fin 22, 1 ≤ i.1 →
      (F64.Adds (fun a : Float × Float × Float => a.1) (a0Comp s (ln s.d) (ln s.t) i) (jv0 D T (yOf (xr s.x) i) i) (js0 D T (yOf (xr s.x) i) i) 2 2360 244 125 ∧
      F64.Adds (fun a : Float × Float × Float => a.2.1) (a0Comp s (ln s.d) (ln s.t) i) (jv1 T (yOf (xr s.x) i) i) (js1 T (yOf (xr s.x) i) i) 2 2360 244 125 ∧
      F64.Adds (fun a : Float × Float × Float => a.2.2) (a0Comp s (ln s.d) (ln s.t) i) (jv2 T (yOf (xr s.x) i) i) (js2 T (yOf (xr s.x) i) i) 2 2360 244 125) ∧
      js0 D T (yOf (xr s.x) i) i ≤ 2 ^ 120 ∧ js1 T (yOf (xr s.x) i) i ≤ 2 ^ 120 ∧ js2 T (yOf (xr s.x) i) i ≤ 2 ^ 120 := by
    intro i hi
    have hp := present_iff hx hi
    by_cases h : FOps.lt (EPSILON : ℝ) (aget (xr s.x) i) = true
    · obtain ⟨c0, c1, c2⟩ := C i hi h
      rw [h] at hp
      refine ⟨⟨F64.Adds.one (fun a => ?_) (c0.weak le_rfl le_rfl (by norm_num)) (by norm_num),
        F64.Adds.one (fun a => ?_) (c1.weak le_rfl le_rfl (by norm_num)) (by norm_num),
        F64.Adds.one (fun a => ?_) (c2.weak le_rfl le_rfl (by norm_num)) (by norm_num)⟩,
        Detail.Ap.le_pow c0, Detail.Ap.le_pow c1, Detail.Ap.le_pow c2⟩
      all_goals unfold a0Comp; simp only [hp, if_true]
    · have ey : yOf (xr s.x) i = 0 := by unfold yOf; rw [if_neg (fun h' => h ((lt_eps _).2 h'))]
      rw [ey]
      have hp' : ¬ FOps.lt (EPSILON : Float) (aget s.x i) = true := by rw [hp]; exact h
      obtain ⟨h1, h2, h3, h4, h5, h6⟩ := jz (D := D) (T := T) i
      refine ⟨⟨F64.Adds.skip _ _ _ _ (fun a => ?_) h1 h4, F64.Adds.skip _ _ _ _ (fun a => ?_) h2 h5,
        F64.Adds.skip _ _ _ _ (fun a => ?_) h3 h6⟩, by rw [h4]; positivity, by rw [h5]; positivity, by rw [h6]; positivity⟩
      all_goals unfold a0Comp; simp only [hp', if_false, Bool.false_eq_true]
  have z := ap0 2360 244 125
  have s0 := (F64.Adds.loop 1 fun i hi => (A i hi).1.1).2 (f% 0.0, f% 0.0, f% 0.0) 0 0 2360 le_rfl (by norm_num)
    (by rw [zero_add]; exact gsum22_le _ fun i hi => (A i hi).2.1) z
  have s1 := (F64.Adds.loop 1 fun i hi => (A i hi).1.2.1).2 (f% 0.0, f% 0.0, f% 0.0) 0 0 2360 le_rfl (by norm_num)
    (by rw [zero_add]; exact gsum22_le _ fun i hi => (A i hi).2.2.1) z
  have s2 := (F64.Adds.loop 1 fun i hi => (A i hi).1.2.2).2 (f% 0.0, f% 0.0, f% 0.0) 0 0 2360 le_rfl (by norm_num)
    (by rw [zero_add]; exact gsum22_le _ fun i hi => (A i hi).2.2.2) z
  simp only [zero_add] at s0 s1 s2
  obtain ⟨i0, i1, i2⟩ := I_jv (x := xr s.x) (D := D) (T := T) (lt_of_lt_of_le (by norm_num) hD)
  rw [a0_logd he, i0, i1, i2]
  exact ⟨s0.weak (by norm_num) (by norm_num) (by norm_num), s1.weak (by norm_num) (by norm_num) (by norm_num),
    s2.weak (by norm_num) (by norm_num) (by norm_num)⟩

end Aga8.Gerg
