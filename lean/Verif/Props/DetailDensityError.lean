import Verif.Lemmas.DetailErrLow
import Verif.Props.DetailError

/-! # C63, C64: the DETAIL density search in f64

These theorems are about IEEE-754 arithmetic, with any `exp`, `powf`, `powi` and `ln` that are accurate in the sense of
`Spec/F64Accuracy`. The pressure that belongs to a density is `D R T Z` with `R = 8.31451` and `Z` the AGA 8 equation of
`Spec/Aga8Eos`, on real numbers. A bound `ε` on the difference of the logarithms of two densities means that they differ by the
factor `exp ε` at most. -/

set_option linter.unusedSectionVars false

namespace Aga8

open F64
open Detail (Pub setPub DensDomain fracs)

attribute [local irreducible] Detail.pressureP Detail.propertiesP Detail.densityP

variable [Libm]

/-- C63: with an accurate math library, when `density` on a new object reports success with a density of 2e-4 to 900 mol/l and at
most 2.99 times the reducing density, and if around this density the logarithmic slope `d ln p / d ln D` of the AGA 8 DETAIL
equation stays between `m > 0` and `M` and the terms of the equation are at most `K` times their sum, then the equation has a
density `D` with exactly the requested pressure, the computed density is within the factor
`exp (1e-7 (M/m - 1) + ρ M/m)` of it, where `ρ = 2 (1e-9 K + 1e-12) (1 + 1/m)` comes from rounding, and there is no other such
density within the factor `exp (1e-7 (1 + M/m))` of the computed one. -/
theorem C63_detail_density_error (hL : LibmAccurate) (hN : LnAccurate) (new0 : Detail Float) (hnew : Detail.new = .ok new0)
    (q : Pub Float) (h : DensDomain q) (s' : Detail Float)
    (hd : (setPub new0 q).density = .ok (s', .ok ()))
    (K m M ρ : ℝ) (hK1 : 1 ≤ K) (hK : K ≤ 1e6) (hm : 0 < m) (hmM : m ≤ M) (hρ : ρ = 2 * (1e-9 * K + 1e-12) * (1 + 1 / m))
    (d1 : 2e-4 ≤ toR s'.d) (d2 : toR s'.d ≤ 900) (d3 : Eos.Kcubed (fracs q) * toR s'.d ≤ 2.99)
    (hs : ∀ D, 0 < D → |Real.log D - Real.log (toR s'.d)| ≤ (1e-7 + 2 * ρ) * (1 + M / m) →
      0 < Eos.Z (fracs q) D (toR q.t) ∧ Eos.Zabs (fracs q) D (toR q.t) ≤ K * Eos.Z (fracs q) D (toR q.t) ∧
      Eos.dPdDabs (fracs q) D (toR q.t) ≤ K * Eos.dPdD (fracs q) D (toR q.t) ∧
      m ≤ Eos.dPdD (fracs q) D (toR q.t) / Eos.Z (fracs q) D (toR q.t) ∧
      Eos.dPdD (fracs q) D (toR q.t) / Eos.Z (fracs q) D (toR q.t) ≤ M) :
    IsFinite s'.d ∧ ∃ D, 0 < D ∧ D * 8.31451 * toR q.t * Eos.Z (fracs q) D (toR q.t) = toR q.p ∧
      |Real.log (toR s'.d) - Real.log D| ≤ 1e-7 * (M / m - 1) + ρ * (M / m) ∧
      ∀ D', 0 < D' → |Real.log D' - Real.log (toR s'.d)| ≤ 1e-7 * (1 + M / m) →
        D' * 8.31451 * toR q.t * Eos.Z (fracs q) D' (toR q.t) = toR q.p → D' = D := by
  have e := Except.ok.inj (hnew.symm.trans Detail.new_ok)
  subst e
  have hd' : Detail.densityP (Detail.freshOf q) = (s', .ok ()) := by
    have := (Detail.density_ok (Detail.freshOf q)).symm.trans hd
    injection this
  exact Detail.density_err hL hN h hd' hK1 hK hm hmM hρ d1 d2 d3 hs

/-- C64: with an accurate math library, `density` on a new object reports success, when the
search starts from `D0`, which is the ideal-gas density or a density given as a negative number; the pressure of the equation at
`D0` is within the factor `exp (0.4 m ρ)` of the requested one, and within the factor `exp ρ` of `D0`, where `0.01 ≤ ρ ≤ 1`, the
logarithmic slope stays between `m` and `1.4 m` and the terms of the equation are at most `K` times their sum, with
`K (1 + 1/m) ≤ 22 - 3 ρ`. The density found is within the factor `exp (5.6e-8 + 2.1e-9 K (1 + 1/m))` of the only density within
the factor `exp ρ` of `D0` that has exactly the requested pressure. -/
theorem C64_detail_density_converges (hL : LibmAccurate) (hN : LnAccurate) (new0 : Detail Float) (hnew : Detail.new = .ok new0)
    (q : Pub Float) (h : DensDomain q) (D0 K m ρ : ℝ) (fd : IsFinite q.d)
    (hstart : (0 ≤ toR q.d ∧ D0 = toR q.p / (8.31451 * toR q.t)) ∨ toR q.d = -D0)
    (hm : 0 < m) (hK1 : 1 ≤ K) (hρ1 : 0.01 ≤ ρ) (hρ2 : ρ ≤ 1) (hK : K * (1 + 1 / m) ≤ 22 - 3 * ρ)
    (d1 : 3e-4 ≤ D0) (d2 : D0 ≤ 300)
    (d3 : Eos.Kcubed (fracs q) * D0 ≤ 1)
    (hslope : ∀ D, D0 * Real.exp (-ρ) ≤ D → D ≤ D0 * Real.exp ρ →
      0 < Eos.Z (fracs q) D (toR q.t) ∧ Eos.Zabs (fracs q) D (toR q.t) ≤ K * Eos.Z (fracs q) D (toR q.t) ∧
      Eos.dPdDabs (fracs q) D (toR q.t) ≤ K * Eos.dPdD (fracs q) D (toR q.t) ∧
      m ≤ Eos.dPdD (fracs q) D (toR q.t) / Eos.Z (fracs q) D (toR q.t) ∧
      Eos.dPdD (fracs q) D (toR q.t) / Eos.Z (fracs q) D (toR q.t) ≤ 1.4 * m)
    (h0 : |Real.log (D0 * 8.31451 * toR q.t * Eos.Z (fracs q) D0 (toR q.t)) - Real.log (toR q.p)| ≤ 0.4 * m * ρ) :
    ∃ s' d, (setPub new0 q).density = .ok (s', .ok ()) ∧ IsFinite s'.d ∧ 0 < toR s'.d ∧
      d * 8.31451 * toR q.t * Eos.Z (fracs q) d (toR q.t) = toR q.p ∧
      |Real.log (toR s'.d) - Real.log d| ≤ 5.6e-8 + 2.1e-9 * (K * (1 + 1 / m)) ∧
      D0 * Real.exp (-ρ) ≤ d ∧ d ≤ D0 * Real.exp ρ ∧
      ∀ d', D0 * Real.exp (-ρ) ≤ d' → d' ≤ D0 * Real.exp ρ →
        d' * 8.31451 * toR q.t * Eos.Z (fracs q) d' (toR q.t) = toR q.p → d' = d := by
  have e := Except.ok.inj (hnew.symm.trans Detail.new_ok)
  subst e
  obtain ⟨s', d, e1, e2⟩ := Detail.density_conv hL hN ⟨h, hm, hρ1, hρ2, hK1, hK, d1, d2, d3, hslope, h0⟩ ⟨fd, hstart⟩
  refine ⟨s', d, ?_, e2⟩
  have := Detail.density_ok (Detail.freshOf q)
  rw [e1] at this
  exact this

/-- C64 for methane: at 184 K to 600 K and an ideal-gas density `p / (R T)` of 3e-4 to 0.037 mol/l, which is 0.75 kPa to 92 kPa
at 300 K, `density` started with a density that is not negative reports success, and the density found is within the factor
`exp 6.2e-8` of the only density within a factor e of the ideal-gas density that has exactly the requested pressure. -/
theorem C64_detail_methane_low_pressure (hL : LibmAccurate) (hN : LnAccurate) (new0 : Detail Float)
    (hnew : Detail.new = .ok new0) (q : Pub Float)
    (hx : ∀ i, IsFinite (aget q.x i) ∧ toR (aget q.x i) = if i = 0 then 1 else 0)
    (ht : IsFinite q.t) (ht1 : 184 ≤ toR q.t) (ht2 : toR q.t ≤ 600) (hp : IsFinite q.p)
    (d1 : 3e-4 ≤ toR q.p / (8.31451 * toR q.t)) (d2 : toR q.p / (8.31451 * toR q.t) ≤ 0.037)
    (fd : IsFinite q.d) (d0 : 0 ≤ toR q.d) :
    ∃ s' d, (setPub new0 q).density = .ok (s', .ok ()) ∧ IsFinite s'.d ∧ 0 < toR s'.d ∧
      d * 8.31451 * toR q.t * Eos.Z (fun i => if i = 0 then 1 else 0) d (toR q.t) = toR q.p ∧
      |Real.log (toR s'.d) - Real.log d| ≤ 6.2e-8 ∧
      toR q.p / (8.31451 * toR q.t) * Real.exp (-1) ≤ d ∧ d ≤ toR q.p / (8.31451 * toR q.t) * Real.exp 1 ∧
      ∀ d', toR q.p / (8.31451 * toR q.t) * Real.exp (-1) ≤ d' → d' ≤ toR q.p / (8.31451 * toR q.t) * Real.exp 1 →
        d' * 8.31451 * toR q.t * Eos.Z (fun i => if i = 0 then 1 else 0) d' (toR q.t) = toR q.p → d' = d := by
  have hf : fracs q = Detail.posPart Detail.mx := Detail.fracs_methane hx
  have hf2 : (fun i => if i = 0 then 1 else 0) = fracs q := by
    funext i
    rw [hf, Detail.posPart_mx]
  have h := Detail.dens_methane hx ht ht1 ht2 hp d1 d2
  have C := Detail.low_curve h hf ht1 ht2 d1 d2
  obtain ⟨s', d, e1, e2, e3, e4, e5, e6⟩ := C64_detail_density_converges hL hN new0 hnew q h _ _ _ _ fd
    (Or.inl ⟨d0, rfl⟩) C.m_pos C.K1 C.r1 C.r2 C.K2 C.d1 C.d2 C.d3 C.slope C.start
  rw [hf2]
  exact ⟨s', d, e1, e2, e3, e4, e5.trans (by norm_num), e6⟩

/-! ## The hypotheses can be met -/

namespace Detail

theorem chk50 : decChk true 0 10 ⟨50, 0⟩ = true := by decide +kernel

/-- Methane at 300 K and 50 kPa. -/
def errLow : Pub Float :=
  ⟨f% 300.0, f% 50.0, f% 0.0, f% 0.0, f% 0.0, f% 0.0, f% 0.0, f% 0.0, f% 0.0, f% 0.0, f% 0.0, f% 0.0, f% 0.0, f% 0.0,
    f% 0.0, f% 0.0, f% 0.0, f% 0.0, aset (fill 21 (f% 0.0)) 0 (f% 1.0)⟩

theorem errLow_ok : (∀ i, IsFinite (aget errLow.x i) ∧ toR (aget errLow.x i) = if i = 0 then 1 else 0) ∧
    IsFinite errLow.t ∧ toR errLow.t = 300 ∧ IsFinite errLow.p ∧ toR errLow.p = 50 ∧ IsFinite errLow.d ∧ toR errLow.d = 0 := by
  have h1 := (decChk_val chk300).2.1 rfl
  have h2 := (decChk_val chk50).2.1 rfl
  refine ⟨errMethane_ok.1, decChk_fin chk300, ?_, decChk_fin chk50, ?_, fin0, toR0⟩
  · show toR (litF ⟨300, 0⟩) = 300
    rw [h1]; simp [decR]
  · show toR (litF ⟨50, 0⟩) = 50
    rw [h2]; simp [decR]

end Detail

/-- Methane at 300 K and 50 kPa meets the hypotheses of the methane theorem, and then those of the general one. -/
example (hL : LibmAccurate) (hN : LnAccurate) (new0 : Detail Float) (hnew : Detail.new = .ok new0) :
    ∃ s' d, (setPub new0 Detail.errLow).density = .ok (s', .ok ()) ∧ |Real.log (toR s'.d) - Real.log d| ≤ 6.2e-8 := by
  obtain ⟨hx, ft, ht, fp, hp, fd, hd⟩ := Detail.errLow_ok
  obtain ⟨s', d, e1, -, -, -, e2, -⟩ := C64_detail_methane_low_pressure hL hN new0 hnew Detail.errLow hx ft (by rw [ht]; norm_num)
    (by rw [ht]; norm_num) fp (by rw [ht, hp]; norm_num) (by rw [ht, hp]; norm_num) fd (by rw [hd])
  exact ⟨s', d, e1, e2⟩

/-- The same gas meets the hypotheses of C63 with `K = 1.3`, `m = 0.84` and `M = 1.176`. -/
example (hL : LibmAccurate) (hN : LnAccurate) (new0 : Detail Float) (hnew : Detail.new = .ok new0) :
    ∃ s' D, (setPub new0 Detail.errLow).density = .ok (s', .ok ()) ∧
      D * 8.31451 * 300 * Eos.Z (fracs Detail.errLow) D 300 = 50 ∧ |Real.log (toR s'.d) - Real.log D| ≤ 4.9e-8 := by
  obtain ⟨hx, ft, ht, fp, hp, fd, hd⟩ := Detail.errLow_ok
  have hf := Detail.fracs_methane hx
  have dom := Detail.dens_methane hx ft (by rw [ht]; norm_num) (by rw [ht]; norm_num) fp (by rw [ht, hp]; norm_num)
    (by rw [ht, hp]; norm_num)
  obtain ⟨s', d, e1, e2, e3, e4, e5, e6, e7, -⟩ := C64_detail_methane_low_pressure hL hN new0 hnew Detail.errLow hx ft
    (by rw [ht]; norm_num) (by rw [ht]; norm_num) fp (by rw [ht, hp]; norm_num) (by rw [ht, hp]; norm_num) fd (by rw [hd])
  rw [hp, ht] at e6 e7
  have b1 := Real.exp_neg_one_gt_d9
  have b2 := Real.exp_one_lt_d9
  have d1 : 7.3e-3 ≤ d := by
    refine le_trans ?_ e6
    refine le_trans ?_ (mul_le_mul_of_nonneg_left b1.le (by norm_num))
    norm_num
  have d2 : d ≤ 5.5e-2 := by
    refine e7.trans ((mul_le_mul_of_nonneg_left b2.le (by norm_num)).trans ?_)
    norm_num
  have d0 : 0 < d := lt_of_lt_of_le (by norm_num) d1
  -- densities near the computed one
  have near : ∀ D, 0 < D → |Real.log D - Real.log (toR s'.d)| ≤ 0.1 → 2e-4 ≤ D ∧ D ≤ 0.07 := by
    intro D hD h
    have h1 : |Real.log D - Real.log d| ≤ 0.2 := by
      have : Real.log D - Real.log d = (Real.log D - Real.log (toR s'.d)) + (Real.log (toR s'.d) - Real.log d) := by ring
      rw [this]
      refine (abs_add_le _ _).trans ((add_le_add h e5).trans ?_)
      norm_num
    obtain ⟨a, b⟩ := abs_le.1 h1
    have u2 := Real.log_le_sub_one_of_pos (div_pos hD d0)
    have u3 := Real.log_le_sub_one_of_pos (div_pos d0 hD)
    rw [Real.log_div hD.ne' d0.ne'] at u2
    rw [Real.log_div d0.ne' hD.ne'] at u3
    constructor
    · have : 0.8 ≤ D / d := by norm_num at a u2 ⊢; linarith
      rw [le_div_iff₀ d0] at this
      norm_num at this d1 ⊢; linarith
    · have : 0.8 ≤ d / D := by norm_num at b u3 ⊢; linarith
      rw [le_div_iff₀ hD] at this
      norm_num at this d2 ⊢; linarith
  have n0 := near _ e3 (by rw [sub_self, abs_zero]; norm_num)
  have lim : ∀ D, D ≤ 0.07 → Detail.mK ^ 3 * D ≤ 0.01 := fun D h => by
    unfold Detail.mK; norm_num at h ⊢; linarith
  obtain ⟨-, D, g1, g2, g3, -⟩ := C63_detail_density_error hL hN new0 hnew Detail.errLow dom s' e1 1.3 0.84 1.176 _ (by norm_num)
    (by norm_num) (by norm_num) (by norm_num) rfl n0.1 (n0.2.trans (by norm_num))
    (by rw [hf, Detail.Kcubed_mx]; exact (lim _ n0.2).trans (by norm_num))
    (by
      intro D hD h
      have hn := near D hD (h.trans (by norm_num))
      obtain ⟨c1, c2, c3, c4⟩ := Detail.mx_low (T := toR Detail.errLow.t) (by rw [ht]; unfold Detail.mE; norm_num)
        (by rw [ht]; unfold Detail.mE; norm_num) hD.le (lim D hn.2)
      rw [hf]
      generalize Eos.Z (Detail.posPart Detail.mx) D (toR Detail.errLow.t) = Z at *
      generalize Eos.dPdD (Detail.posPart Detail.mx) D (toR Detail.errLow.t) = Y at *
      rw [abs_le] at c1 c2
      have z0 : 0 < Z := by norm_num at c1; linarith [c1.1]
      norm_num at c1 c2 c3 c4 ⊢
      refine ⟨z0, by linarith, by linarith, ?_, ?_⟩
      · rw [le_div_iff₀ z0]; linarith
      · rw [div_le_iff₀ z0]; linarith)
  rw [ht, hp] at g2
  exact ⟨s', D, e1, g2, g3.trans (by norm_num)⟩

end Aga8
