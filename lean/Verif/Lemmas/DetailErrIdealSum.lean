import Verif.Lemmas.DetailErrIdeal

/-! # Rounding errors of the ideal-gas part of DETAIL: the sum over the components -/

set_option linter.unusedSectionVars false

namespace Aga8.Detail

open FOps Tab F64

section
variable {F : Type} [Add F] [Sub F] [Mul F] [Div F] [Neg F] [FOps F]

theorem a0_logd {s : Detail F} (he : FOps.lt (EPSILON : F) s.d = true) : (alpha0_detail s).a0 = #v[
    (loop 0 21 ((f% 0.0 : F), (f% 0.0 : F), (f% 0.0 : F)) (a0Comp s (ln s.d) (ln s.t))).1 * RDETAIL * s.t,
    (loop 0 21 ((f% 0.0 : F), (f% 0.0 : F), (f% 0.0 : F)) (a0Comp s (ln s.d) (ln s.t))).2.1 * RDETAIL,
    (loop 0 21 ((f% 0.0 : F), (f% 0.0 : F), (f% 0.0 : F)) (a0Comp s (ln s.d) (ln s.t))).2.2 * RDETAIL] := by
  unfold alpha0_detail
  dsimp only
  rw [if_pos he]

end

variable [Libm]

/-- The density of the standard state. -/
noncomputable def rho0 : ℝ := 101.325 / (8.31451 * 298.15)

theorem apN0 (hN : LnAccurate) (i : Fin 21) : Ap (aget2 (newP : Detail Float).n0i i 0) (nv i 0 - Real.log rho0)
    (|nv i 0| + Eos.lnSize rho0) 13 0 10 := by
  rw [newP_n0i, if_pos rfl]
  have := (Ap.lit (chkN00 i).1).sub (Ap.ln hN apD0 (by norm_num))
  exact this.weak (by norm_num) (by norm_num) (by norm_num)

theorem apN1 (i : Fin 21) : Ap (aget2 (newP : Detail Float).n0i i 1) (nv i 1) |nv i 1| 1 0 17 := by
  rw [newP_n0i, if_neg (by decide), if_neg (by decide)]
  exact Ap.lit (chkN00 i).2.1

theorem apN2 (i : Fin 21) : Ap (aget2 (newP : Detail Float).n0i i 2) (nv i 2 - 1) (|nv i 2| + 1) 3 0 4 := by
  rw [newP_n0i, if_neg (by decide), if_pos rfl]
  have := (Ap.lit (chkN00 i).2.2).sub ap1
  exact this.weak (by norm_num) (by norm_num) (by norm_num)

/-- The terms of `a0`. -/
noncomputable def iv0 (D T x : ℝ) (i : Fin 21) : ℝ :=
  x * (Real.log D + Real.log x + (nv i 0 - Real.log rho0) + nv i 1 / T - (nv i 2 - 1) * Real.log T + ∑ j with 3 ≤ j.1, hv0 i T j)
noncomputable def iv1 (D T x : ℝ) (i : Fin 21) : ℝ :=
  x * (Real.log D + Real.log x + (nv i 0 - Real.log rho0) - (nv i 2 - 1) * (1 + Real.log T) + ∑ j with 3 ≤ j.1, hv1 i T j)
noncomputable def iv2 (T x : ℝ) (i : Fin 21) : ℝ := -x * (nv i 2 - 1 + ∑ j with 3 ≤ j.1, hv2 i T j)

/-- Their sizes. -/
noncomputable def is0 (D T x : ℝ) (i : Fin 21) : ℝ :=
  x * (Eos.lnSize D + Eos.lnSize x + (|nv i 0| + Eos.lnSize rho0) + |nv i 1| / T + (|nv i 2| + 1) * Eos.lnSize T
    + ∑ j with 3 ≤ j.1, hs0 i T j)
noncomputable def is1 (D T x : ℝ) (i : Fin 21) : ℝ :=
  x * (Eos.lnSize D + Eos.lnSize x + (|nv i 0| + Eos.lnSize rho0) + (|nv i 2| + 1) * (1 + Eos.lnSize T)
    + ∑ j with 3 ≤ j.1, hs1 i T j)
noncomputable def is2 (T x : ℝ) (i : Fin 21) : ℝ := x * (|nv i 2| + 1 + ∑ j with 3 ≤ j.1, hs2 i T j)

variable (hL : LibmAccurate) (hN : LnAccurate)
include hL hN

/-- What one component adds. -/
theorem comp_terms {s : Detail Float} (hn : s.n0i = (newP : Detail Float).n0i) {D T : ℝ} (At : Ap s.t T T 0 0 10)
    (t1 : 50 ≤ T) (t2 : T ≤ 1000) (Ad : Ap s.d D D 0 14 10) (hD : 0 < D) (hx : OkX s.x) {i : Fin 21}
    (h : FOps.lt (f% 0.0) (aget s.x i) = true) :
    let x := aget s.x i
    let r := loop 3 7 ((f% 0.0 : Float), (f% 0.0 : Float), (f% 0.0 : Float)) (a0Hyp s i)
    Ap (x * (ln s.d + ln x + aget2 s.n0i i 0 + aget2 s.n0i i 1 / s.t - aget2 s.n0i i 2 * ln s.t + r.1))
      (iv0 D T (xr s.x i) i) (is0 D T (xr s.x i) i) 2354 234 114 ∧
    Ap (x * (ln s.d + ln x + aget2 s.n0i i 0 - aget2 s.n0i i 2 * (f% 1.0 + ln s.t) + r.2.1))
      (iv1 D T (xr s.x i) i) (is1 D T (xr s.x i) i) 2354 234 114 ∧
    Ap (-x * (aget2 s.n0i i 2 + r.2.2)) (iv2 T (xr s.x i) i) (is2 T (xr s.x i) i) 2354 234 114 := by
  have T0 : 0 < T := by linarith
  have X := apX hx h
  have X0 : 0 < xr s.x i := by
    have := (pos_iff hx i).1 h
    exact lt_of_lt_of_le this (le_max_left _ _)
  intro x r
  obtain ⟨r0, r1, r2⟩ := ap_hypsums hL hN hn At t1 t2 i
  have LD := Ap.ln hN Ad hD
  have LX := Ap.ln hN X X0
  have LT := Ap.ln hN At T0
  have n0 := apN0 hN i
  have n1 := apN1 i
  have n2 := apN2 i
  rw [← hn] at n0 n1 n2
  refine ⟨?_, ?_, ?_⟩
  · have := X.mul (((((LD.add LX).add n0).add (n1.div At T0)).sub (n2.mul LT)).add r0)
    exact this.weak (by norm_num) (by norm_num) (by norm_num)
  · have := X.mul ((((LD.add LX).add n0).sub (n2.mul (ap1.add LT))).add r1)
    exact this.weak (by norm_num) (by norm_num) (by norm_num)
  · have := X.neg.mul (n2.add r2)
    exact this.weak (by norm_num) (by norm_num) (by norm_num)

omit hL hN in
theorem isz {D T : ℝ} (i : Fin 21) : iv0 D T 0 i = 0 ∧ iv1 D T 0 i = 0 ∧ iv2 T 0 i = 0 ∧ is0 D T 0 i = 0 ∧ is1 D T 0 i = 0
    ∧ is2 T 0 i = 0 := by
  unfold iv0 iv1 iv2 is0 is1 is2
  simp

/-- The ideal-gas part. -/
theorem ap_a0 {s : Detail Float} (hn : s.n0i = (newP : Detail Float).n0i) {D T : ℝ} (At : Ap s.t T T 0 0 10)
    (t1 : 50 ≤ T) (t2 : T ≤ 1000) (Ad : Ap s.d D D 0 14 10) (hD : 1e-4 ≤ D) (hx : OkX s.x) :
    Ap (aget (alpha0_detail s).a0 0) ((∑ i, iv0 D T (xr s.x i) i) * 8.31451 * T)
      ((∑ i, is0 D T (xr s.x i) i) * 8.31451 * T) 2402 234 134 ∧
    Ap (aget (alpha0_detail s).a0 1) ((∑ i, iv1 D T (xr s.x i) i) * 8.31451)
      ((∑ i, is1 D T (xr s.x i) i) * 8.31451) 2402 234 134 ∧
    Ap (aget (alpha0_detail s).a0 2) ((∑ i, iv2 T (xr s.x i) i) * 8.31451)
      ((∑ i, is2 T (xr s.x i) i) * 8.31451) 2402 234 134 := by
  have T0 : 0 < T := by linarith
  have D0 : 0 < D := lt_of_lt_of_le (by norm_num) hD
  have C := fun i h => comp_terms hL hN hn At t1 t2 Ad D0 hx (i := i) h
  have he : FOps.lt (EPSILON : Float) s.d = true := by
    have E : Ap (EPSILON : Float) (decR ⟨1, 15⟩) (decR ⟨1, 15⟩) 1 50 0 :=
      Ap.litPos (d := ⟨1, 15⟩) (by decide +kernel) (by norm_num)
    have e : decR ⟨1, 15⟩ = 1 / 10 ^ 15 := by simp [decR]
    rw [e] at E
    rw [flt, lt_toR E.fin Ad.fin]
    have h1 := (E.rel_bounds (by norm_num) (by norm_num)).2.1
    have h2 := (Ad.rel_bounds D0 (by norm_num)).1
    rw [uu_eq] at h1 h2
    norm_num at h1 h2 hD
    linarith
  have b : ∀ i : Fin 21, is0 D T (xr s.x i) i ≤ 2 ^ 114 ∧ is1 D T (xr s.x i) i ≤ 2 ^ 114 ∧ is2 T (xr s.x i) i ≤ 2 ^ 114 := by
    intro i
    by_cases h : FOps.lt (f% 0.0) (aget s.x i) = true
    · obtain ⟨c0, c1, c2⟩ := C i h
      exact ⟨Ap.le_pow c0, Ap.le_pow c1, Ap.le_pow c2⟩
    · rw [xr_zero hx h]
      obtain ⟨-, -, -, h4, h5, h6⟩ := isz (D := D) (T := T) i
      rw [h4, h5, h6]
      norm_num
  have p : ∀ i : Fin 21, 0 ≤ is0 D T (xr s.x i) i ∧ 0 ≤ is1 D T (xr s.x i) i ∧ 0 ≤ is2 T (xr s.x i) i := by
    intro i
    by_cases h : FOps.lt (f% 0.0) (aget s.x i) = true
    · obtain ⟨c0, c1, c2⟩ := C i h
      exact ⟨c0.nonneg, c1.nonneg, c2.nonneg⟩
    · rw [xr_zero hx h]
      obtain ⟨-, -, -, h4, h5, h6⟩ := isz (D := D) (T := T) i
      rw [h4, h5, h6]
      norm_num
  have A : ∀ i : Fin 21,
      Adds (fun a : Float × Float × Float => a.1) (a0Comp s (ln s.d) (ln s.t) i) (iv0 D T (xr s.x i) i) (is0 D T (xr s.x i) i) 2 2354 234 119 ∧
      Adds (fun a : Float × Float × Float => a.2.1) (a0Comp s (ln s.d) (ln s.t) i) (iv1 D T (xr s.x i) i) (is1 D T (xr s.x i) i) 2 2354 234 119 ∧
      Adds (fun a : Float × Float × Float => a.2.2) (a0Comp s (ln s.d) (ln s.t) i) (iv2 T (xr s.x i) i) (is2 T (xr s.x i) i) 2 2354 234 119 := by
    intro i
    by_cases h : FOps.lt (f% 0.0) (aget s.x i) = true
    · obtain ⟨c0, c1, c2⟩ := C i h
      refine ⟨Adds.one (fun a => ?_) (c0.weak le_rfl le_rfl (by norm_num)) (by norm_num),
        Adds.one (fun a => ?_) (c1.weak le_rfl le_rfl (by norm_num)) (by norm_num),
        Adds.one (fun a => ?_) (c2.weak le_rfl le_rfl (by norm_num)) (by norm_num)⟩
      all_goals unfold a0Comp; simp only [h, if_true]
    · rw [xr_zero hx h]
      obtain ⟨h1, h2, h3, h4, h5, h6⟩ := isz (D := D) (T := T) i
      refine ⟨Adds.skip _ _ _ _ (fun a => ?_) h1 h4, Adds.skip _ _ _ _ (fun a => ?_) h2 h5, Adds.skip _ _ _ _ (fun a => ?_) h3 h6⟩
      all_goals unfold a0Comp; simp only [h, if_false, Bool.false_eq_true]
  have z := ap0 2354 234 119
  have s0 := (Adds.loop 0 fun i _ => (A i).1).2 (f% 0.0, f% 0.0, f% 0.0) 0 0 2354 le_rfl (by norm_num)
    (by rw [zero_add]; exact sum21_le _ (fun i => (p i).1) fun i => (b i).1) z
  have s1 := (Adds.loop 0 fun i _ => (A i).2.1).2 (f% 0.0, f% 0.0, f% 0.0) 0 0 2354 le_rfl (by norm_num)
    (by rw [zero_add]; exact sum21_le _ (fun i => (p i).2.1) fun i => (b i).2.1) z
  have s2 := (Adds.loop 0 fun i _ => (A i).2.2).2 (f% 0.0, f% 0.0, f% 0.0) 0 0 2354 le_rfl (by norm_num)
    (by rw [zero_add]; exact sum21_le _ (fun i => (p i).2.2) fun i => (b i).2.2) z
  simp only [zero_add, Nat.zero_le, Finset.filter_true] at s0 s1 s2
  rw [a0_logd he]
  exact ⟨((s0.mul apR).mul At).weak (by norm_num) (by norm_num) (by norm_num),
    (s1.mul apR).weak (by norm_num) (by norm_num) (by norm_num),
    (s2.mul apR).weak (by norm_num) (by norm_num) (by norm_num)⟩

end Aga8.Detail
