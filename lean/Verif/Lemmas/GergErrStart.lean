import Verif.Lemmas.GergErrConv

/-! # The start of the GERG-2008 density search in f64 -/

set_option linter.unusedSectionVars false

namespace Aga8.Gerg

open Tab F64 GergEos Newton

attribute [local irreducible] newP pressureP propertiesP

section
variable [Libm] {q : Pub Float} {D0 K m ρ : ℝ}

/-- The density from which the search starts, as a real number. -/
def Starts (q : Pub Float) (D0 : ℝ) : Prop :=
  IsFinite q.d ∧ ((0 ≤ toR q.d ∧ D0 = toR q.p / (8.314472 * toR q.t)) ∨ toR q.d = -D0)

theorem ap_startD (C : F64Curve q D0 K m ρ) (hs : Starts q D0) {iflag : Int} (hf : iflag ≤ 0) :
    Ap (startD iflag (freshOf q)) D0 D0 5 20 20 := by
  have D1 := C.d1
  have D2 := C.d2
  have Dp := C.pos
  have rng : (1 : ℝ) ≤ 2 ^ 20 * D0 ∧ D0 ≤ 2 ^ 20 := by
    norm_num at D1 ⊢
    constructor <;> linarith
  have E := Ap.litPos chkEps (by norm_num)
  have e : decR ⟨1, 15⟩ = 1 / 10 ^ 15 := by simp [decR]
  have h3 := (abs_le.1 E.err)
  rw [e, uu_eq] at h3
  have eE : (EPSILON : Float) = litF ⟨1, 15⟩ := rfl
  have hd : (freshOf q).d = q.d := rfl
  have hp : (freshOf q).p = q.p := rfl
  have ht : (freshOf q).t = q.t := rfl
  obtain ⟨fd, ⟨d0, rfl⟩ | d0⟩ := hs
  · have hlt : FOps.lt (-(EPSILON : Float)) (freshOf q).d = true := by
      rw [hd, flt, lt_toR (fin_neg (by rw [eE]; exact E.fin)) fd, toR_neg, eE]
      have := h3.1
      norm_num at this
      linarith
    have h2 : ¬ ((iflag == 2) = true) := by
      intro h; have := eq_of_beq h; omega
    unfold startD
    rw [if_pos hlt, if_neg h2, hp, ht]
    have P0 : 0 < toR q.p := lt_of_lt_of_le (by norm_num) C.dom.p_low
    have T0 : 0 < toR q.t := by linarith [C.dom.t_low]
    have AP := Ap.exact (a := q.p) (l := 30) (h := 30) C.dom.p_fin (Or.inr (by
      rw [abs_of_pos P0]
      have h1 := C.dom.p_low
      have h2 := C.dom.p_high
      norm_num at h1 h2 ⊢
      constructor <;> linarith))
    have AT := Ap.exact (a := q.t) (l := 0) (h := 14) C.dom.t_fin (Or.inr (by
      rw [abs_of_pos T0]
      have h1 := C.dom.t_low
      have h2 := C.dom.t_high
      norm_num
      constructor <;> linarith))
    rw [abs_of_pos P0] at AP
    rw [abs_of_pos T0] at AT
    have A := (AP.div apRG (by norm_num)).div AT T0
    rw [div_div] at A
    exact Detail.Ap.rerange (A.weak (k' := 5) (by norm_num) (le_refl _) (le_refl _)) rng
  · have hlt : ¬ (FOps.lt (-(EPSILON : Float)) (freshOf q).d = true) := by
      rw [hd, flt, lt_toR (fin_neg (by rw [eE]; exact E.fin)) fd, toR_neg, eE, d0]
      have := h3.2
      norm_num at this D1
      linarith
    unfold startD
    rw [if_neg hlt, hd, fabs]
    have e1 : toR q.d.abs = D0 := by rw [toR_abs, d0, abs_neg, abs_of_pos Dp]
    have A := Ap.exact (a := q.d.abs) (l := 20) (h := 20) (fin_abs fd) (Or.inr (by rw [e1, abs_of_pos Dp]; exact rng))
    rw [e1, abs_of_pos Dp] at A
    exact A.weak (by norm_num) (le_refl _) (le_refl _)

variable (hL : LibmAccurate) (hN : LnAccurate)
include hL hN

/-- The f64 search from the ideal-gas density, or from a density given as a negative number, converges. -/
theorem density_conv (C : F64Curve q D0 K m ρ) (hs : Starts q D0) {iflag : Int} (hf : iflag ≤ 0) :
    ∃ s' d, densityP (freshOf q) iflag = (s', .ok ()) ∧ IsFinite s'.d ∧ 0 < toR s'.d ∧ PT q d = toR q.p ∧
      |Real.log (toR s'.d) - Real.log d| ≤ 5.6e-8 + 2.1e-9 * (K * (1 + 1 / m)) ∧
      D0 * Real.exp (-ρ) ≤ d ∧ d ≤ D0 * Real.exp ρ ∧
      ∀ d', D0 * Real.exp (-ρ) ≤ d' → d' ≤ D0 * Real.exp ρ → PT q d' = toR q.p → d' = d := by
  have hpos := C.pos
  have hT := C.tame hL
  obtain ⟨z, hz, hg⟩ := hT.root
  have A := (ap_startD C hs hf).ln hN hpos
  set st := startD iflag (freshOf q) with hst
  have lD := log_D0 C
  have ρ1 := C.r1
  have er := A.err
  rw [uu_eq] at er
  have er' : |toR (Libm.ln st) - Real.log D0| ≤ 1e-13 := by
    refine er.trans ?_
    have : ((5 + 4 : ℕ) : ℝ) * (1 / 2 ^ 53) * (1 + |Real.log D0|) ≤ ((5 + 4 : ℕ) : ℝ) * (1 / 2 ^ 53) * (1 + 9) := by gcongr
    refine this.trans (by norm_num)
  have fv : IsFinite (-(Libm.ln st)) := fin_neg A.fin
  have hv : |toR (-(Libm.ln st))| ≤ 150 := by
    rw [toR_neg, abs_neg]
    rw [abs_le] at *
    norm_num at *
    constructor <;> linarith [er'.1, er'.2, lD.1, lD.2]
  have hyv := (exp_neg hL fv (by linarith)).2.2
  have hy : |yOfV (-(Libm.ln st)) - z| ≤ 0.4 * ρ + 1e-7 := by
    unfold yOfV
    rw [toR_neg] at hyv
    rw [abs_le] at *
    norm_num at *
    constructor <;> linarith [er'.1, er'.2, hyv.1, hyv.2, hz.1, hz.2]
  obtain ⟨s', e1, e2, e3, e4⟩ := converges_f64 hL hN C hz hg hf (pseudocriticalpoint (freshOf q)).1 18 31 1 (by norm_num)
    (-(Libm.ln st)) fv hv (hy.trans (by norm_num at ρ1 ⊢; linarith)) (by
      have K2 := C.K2
      have K0 : 0 ≤ K * (1 + 1 / m) := by have := C.m_pos; have := C.K1; positivity
      have ρ2 := C.r2
      generalize K * (1 + 1 / m) = κ at *
      norm_num at hy ρ1 ⊢
      linarith) (withD (freshOf q) st) (eos_withD (freshOf q) st)
  have hz1 : |z - -Real.log D0| ≤ ρ := by norm_num at hz ⊢; linarith [C.rpos]
  obtain ⟨r1, r2⟩ := exp_range hpos hz1
  have P0 : 0 < toR q.p := lt_of_lt_of_le (by norm_num) C.dom.p_low
  refine ⟨s', Real.exp (-z), ?_, e2, e3, ?_, ?_, r1, r2, ?_⟩
  · rw [densityP]; exact e1
  · exact Real.log_injOn_pos (C.slope' _ r1 r2).1 P0 (by linarith)
  · rw [Real.log_exp]
    rw [← abs_neg]
    refine le_trans (le_of_eq ?_) e4
    congr 1
    ring
  · intro d' a b h
    have hd' : 0 < d' := lt_of_lt_of_le (by positivity) a
    have ed : Real.exp (- -Real.log d') = d' := by rw [neg_neg, Real.exp_log hd']
    have hin : |-Real.log d' - -Real.log D0| ≤ ρ := by
      have x := Real.log_le_log (by positivity) a
      have y := Real.log_le_log hd' b
      rw [Real.log_mul hpos.ne' (Real.exp_pos _).ne', Real.log_exp] at x y
      rw [abs_le]; constructor <;> linarith
    have := hT.unique hin hz1 (by simp only [ed]; rw [h, sub_self]) hg
    rw [← this, ed]

end

end Aga8.Gerg
