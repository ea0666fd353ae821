import Verif.Lemmas.F64ApLn
import Verif.Lemmas.DetailErrSetup
import Mathlib.Analysis.SpecialFunctions.Trigonometric.DerivHyp

/-! # Rounding-error rules: the hyperbolic terms of the ideal gas -/

set_option linter.unusedSectionVars false

namespace Aga8.F64

variable [Libm] {a b : Float} {α β m m' : ℝ} {k k' l l' h h' : ℕ}

theorem Ap.abs (A : Ap a α α k l h) : Ap (FOps.abs a) α α k l h := by
  have h0 := A.nonneg
  refine ⟨fin_abs A.fin, A.mag, ?_, A.rng⟩
  rw [show (FOps.abs a : Float) = a.abs from rfl, toR_abs]
  have h1 := abs_abs_sub_abs_le (toR a) α
  rw [abs_of_nonneg h0] at h1
  exact h1.trans A.err

theorem cosh_le_sinh {x : ℝ} (h : 0.15 ≤ x) : Real.cosh x ≤ 7 * Real.sinh x := by
  have h1 : (4 / 3 : ℝ) ≤ Real.exp (2 * x) := by
    have := Real.quadratic_le_exp_of_nonneg (x := 2 * x) (by norm_num at h; linarith)
    norm_num at h
    nlinarith
  have e : Real.exp (2 * x) * Real.exp (-x) = Real.exp x := by rw [← Real.exp_add]; congr 1; ring
  have p := Real.exp_pos (-x)
  rw [Real.cosh_eq, Real.sinh_eq]
  nlinarith

theorem exp79 {x : ℝ} (h2 : x ≤ 52) : Real.exp x ≤ 2 ^ 79 := by
  have h3 := Real.exp_one_lt_d9
  calc Real.exp x ≤ Real.exp ((52 : ℕ) * 1) := Real.exp_le_exp.2 (by push_cast; linarith)
    _ = Real.exp 1 ^ 52 := Real.exp_nat_mul 1 52
    _ ≤ 2.7182818286 ^ 52 := pow_le_pow_left₀ (Real.exp_pos 1).le h3.le 52
    _ ≤ 2 ^ 79 := by norm_num

/-- `(e^x - e^-x) / 2` and `(e^x + e^-x) / 2` as the programs compute them. -/
theorem ap_hyp (hL : LibmAccurate) {x : ℝ} (A : Ap a x x 3 10 12) (h1 : 0.15 ≤ x) (h2 : x ≤ 52) :
    Ap ((FOps.exp a - f% 1.0 / FOps.exp a) / f% 2.0) (Real.sinh x) (Real.sinh x) 1155 3 80 ∧
    Ap ((FOps.exp a + f% 1.0 / FOps.exp a) / f% 2.0) (Real.cosh x) (Real.cosh x) 165 0 80 := by
  have x0 : 0 ≤ x := by norm_num at h1; linarith
  have E := (Ap.exp hL A 52 (by exact_mod_cast h2))
  have Em := Detail.ap1.div E (Real.exp_pos x)
  have S := (E.sub Em).div Detail.ap2 (by norm_num)
  have C := (E.add Em).div Detail.ap2 (by norm_num)
  rw [one_div, ← Real.exp_neg] at S C
  rw [← Real.sinh_eq, ← Real.cosh_eq] at S
  rw [← Real.cosh_eq] at C
  have e79 := exp79 h2
  have c80 : Real.cosh x ≤ 2 ^ 80 := by
    have : Real.exp (-x) ≤ Real.exp x := Real.exp_le_exp.2 (by linarith)
    rw [Real.cosh_eq]
    norm_num at e79 ⊢
    linarith
  have s1 : x ≤ Real.sinh x := Real.self_le_sinh_iff.2 x0
  have s0 : 0 ≤ Real.sinh x := x0.trans s1
  refine ⟨S.remag (by rw [abs_of_nonneg s0]) ?_ (Or.inr ⟨?_, ?_⟩), C.remag C.mag ?_ (Or.inr ⟨?_, c80⟩)⟩
  · have := cosh_le_sinh h1
    norm_num
    linarith
  · norm_num at h1 ⊢; linarith
  · exact (Real.sinh_lt_cosh x).le.trans c80
  · norm_num
  · norm_num

variable (hL : LibmAccurate) (hN : LnAccurate)
include hL hN

/-- The three quantities the terms with `sinh` are made of. -/
theorem ap_sinh {x : ℝ} (A : Ap a x x 3 10 12) (h1 : 0.15 ≤ x) (h2 : x ≤ 52) :
    let ep := FOps.exp a
    let em := f% 1.0 / ep
    let hsn := (ep - em) / f% 2.0
    let hcn := (ep + em) / f% 2.0
    Ap (FOps.ln (FOps.abs hsn)) (Real.log (Real.sinh x)) (1 + |Real.log (Real.sinh x)|) 1159 0 9 ∧
    Ap (FOps.ln (FOps.abs hsn) - a * hcn / hsn) (Real.log (Real.sinh x) - x * Real.cosh x / Real.sinh x)
      (1 + |Real.log (Real.sinh x)| + x * Real.cosh x / Real.sinh x) 1329 90 96 ∧
    Ap (FOps.powi (a / hsn) 2) ((x / Real.sinh x) ^ 2) ((x / Real.sinh x) ^ 2) 2333 180 30 := by
  obtain ⟨S, C⟩ := ap_hyp hL A h1 h2
  have x0 : 0 < x := by norm_num at h1; linarith
  have s0 : 0 < Real.sinh x := Real.sinh_pos_iff.2 x0
  intro ep em hsn hcn
  have L := Ap.ln hN S.abs s0
  refine ⟨L, ?_, ?_⟩
  · have := L.sub ((A.mul C).div S s0)
    exact this.weak (by norm_num) (by norm_num) (by norm_num)
  · have := Ap.powi hL (A.div S s0) 2
    exact this.weak (by norm_num) (by norm_num) (by norm_num)

/-- The three quantities the terms with `cosh` are made of. -/
theorem ap_cosh {x : ℝ} (A : Ap a x x 3 10 12) (h1 : 0.15 ≤ x) (h2 : x ≤ 52) :
    let ep := FOps.exp a
    let em := f% 1.0 / ep
    let hsn := (ep - em) / f% 2.0
    let hcn := (ep + em) / f% 2.0
    Ap (FOps.ln (FOps.abs hcn)) (Real.log (Real.cosh x)) (1 + |Real.log (Real.cosh x)|) 1159 0 9 ∧
    Ap (FOps.ln (FOps.abs hcn) - a * hsn / hcn) (Real.log (Real.cosh x) - x * Real.sinh x / Real.cosh x)
      (1 + |Real.log (Real.cosh x)| + x * Real.sinh x / Real.cosh x) 1329 93 96 ∧
    Ap (FOps.powi (a / hcn) 2) ((x / Real.cosh x) ^ 2) ((x / Real.cosh x) ^ 2) 2333 180 30 := by
  obtain ⟨S, C⟩ := ap_hyp hL A h1 h2
  have c0 := Real.cosh_pos x
  intro ep em hsn hcn
  have L := Ap.ln hN C.abs c0
  refine ⟨L.weak (by norm_num) (by norm_num) (by norm_num), ?_, ?_⟩
  · have := L.sub ((A.mul S).div C c0)
    exact this.weak (by norm_num) (by norm_num) (by norm_num)
  · have := Ap.powi hL (A.div C c0) 2
    exact this.weak (by norm_num) (by norm_num) (by norm_num)

end Aga8.F64
