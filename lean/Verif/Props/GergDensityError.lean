import Verif.Lemmas.GergErrLow
import Verif.Props.GergError

/-! # C61, C62: the GERG-2008 density search in f64

These theorems are about IEEE-754 arithmetic, with any `exp`, `powf`, `powi` and `ln` that are accurate in the sense of
`Spec/F64Accuracy`. The pressure that belongs to a density is `D R T Z` with `R = 8.314472` and `Z` the GERG-2008 equation of
`Spec/GergEos`, on real numbers. A bound `ε` on the difference of the logarithms of two densities means that they differ by the
factor `exp ε` at most. -/

set_option linter.unusedSectionVars false

namespace Aga8

open F64
open Gerg (Pub setPub DensDomain fracs)

attribute [local irreducible] Gerg.newP Gerg.pressureP Gerg.propertiesP Gerg.densityP

variable [Libm]

/-- C61: with an accurate math library, when `density` on a new object reports success with a density of 2e-4 to 900 mol/l and at
most 2.79 times the reducing density, and if around this density the logarithmic slope `d ln p / d ln D` of the GERG-2008
equation stays between `m > 0` and `M` and the terms of the equation are at most `K` times their sum, then the equation has a
density `D` with exactly the requested pressure, the computed density is within the factor
`exp (1e-7 (M/m - 1) + ρ M/m)` of it, where `ρ = 2 (1e-9 K + 1e-12) (1 + 1/m)` comes from rounding, and there is no other such
density within the factor `exp (1e-7 (1 + M/m))` of the computed one. -/
theorem C61_gerg_density_error (hL : LibmAccurate) (hN : LnAccurate) (new0 : Gerg Float) (hnew : Gerg.new = .ok new0)
    (q : Pub Float) (h : DensDomain q) (iflag : Int) (s' : Gerg Float)
    (hd : (setPub new0 q).density iflag = .ok (s', .ok ()))
    (K m M ρ : ℝ) (hK1 : 1 ≤ K) (hK : K ≤ 1e6) (hm : 0 < m) (hmM : m ≤ M) (hρ : ρ = 2 * (1e-9 * K + 1e-12) * (1 + 1 / m))
    (d1 : 2e-4 ≤ toR s'.d) (d2 : toR s'.d ≤ 900) (d3 : toR s'.d * GergEos.invRhoR (fracs q) ≤ 2.79)
    (hs : ∀ D, 0 < D → |Real.log D - Real.log (toR s'.d)| ≤ (1e-7 + 2 * ρ) * (1 + M / m) →
      0 < GergEos.Z (fracs q) D (toR q.t) ∧ GergEos.Zabs (fracs q) D (toR q.t) ≤ K * GergEos.Z (fracs q) D (toR q.t) ∧
      GergEos.dPdDabs (fracs q) D (toR q.t) ≤ K * GergEos.dPdD (fracs q) D (toR q.t) ∧
      m ≤ GergEos.dPdD (fracs q) D (toR q.t) / GergEos.Z (fracs q) D (toR q.t) ∧
      GergEos.dPdD (fracs q) D (toR q.t) / GergEos.Z (fracs q) D (toR q.t) ≤ M) :
    IsFinite s'.d ∧ ∃ D, 0 < D ∧ D * 8.314472 * toR q.t * GergEos.Z (fracs q) D (toR q.t) = toR q.p ∧
      |Real.log (toR s'.d) - Real.log D| ≤ 1e-7 * (M / m - 1) + ρ * (M / m) ∧
      ∀ D', 0 < D' → |Real.log D' - Real.log (toR s'.d)| ≤ 1e-7 * (1 + M / m) →
        D' * 8.314472 * toR q.t * GergEos.Z (fracs q) D' (toR q.t) = toR q.p → D' = D := by
  have e := Gerg.new_inj hnew
  subst e
  have hd' : Gerg.densityP (Gerg.freshOf q) iflag = (s', .ok ()) := by
    have := (Gerg.density_ok (s := Gerg.freshOf q) (Gerg.reachable_fresh q).idx iflag).symm.trans hd
    injection this
  exact Gerg.density_err hL hN h hd' hK1 hK hm hmM hρ d1 d2 d3 hs

/-- C62: with an accurate math library, `density` on a new object with a flag that is not positive reports success, when the
search starts from `D0`, which is the ideal-gas density or a density given as a negative number; the pressure of the equation at
`D0` is within the factor `exp (0.4 m ρ)` of the requested one, and within the factor `exp ρ` of `D0`, where `0.01 ≤ ρ ≤ 1`, the
logarithmic slope stays between `m` and `1.4 m` and the terms of the equation are at most `K` times their sum, with
`K (1 + 1/m) ≤ 22 - 9 ρ`. The density found is within the factor `exp (5.6e-8 + 2.1e-9 K (1 + 1/m))` of the only density within
the factor `exp ρ` of `D0` that has exactly the requested pressure. -/
theorem C62_gerg_density_converges (hL : LibmAccurate) (hN : LnAccurate) (new0 : Gerg Float) (hnew : Gerg.new = .ok new0)
    (q : Pub Float) (h : DensDomain q) (iflag : Int) (hf : iflag ≤ 0) (D0 K m ρ : ℝ) (fd : IsFinite q.d)
    (hstart : (0 ≤ toR q.d ∧ D0 = toR q.p / (8.314472 * toR q.t)) ∨ toR q.d = -D0)
    (hm : 0 < m) (hK1 : 1 ≤ K) (hρ1 : 0.01 ≤ ρ) (hρ2 : ρ ≤ 1) (hK : K * (1 + 1 / m) ≤ 22 - 9 * ρ)
    (d1 : 3e-4 ≤ D0) (d2 : D0 ≤ 300)
    (d3 : D0 * GergEos.invRhoR (fracs q) ≤ 1)
    (hslope : ∀ D, D0 * Real.exp (-ρ) ≤ D → D ≤ D0 * Real.exp ρ →
      0 < GergEos.Z (fracs q) D (toR q.t) ∧ GergEos.Zabs (fracs q) D (toR q.t) ≤ K * GergEos.Z (fracs q) D (toR q.t) ∧
      GergEos.dPdDabs (fracs q) D (toR q.t) ≤ K * GergEos.dPdD (fracs q) D (toR q.t) ∧
      m ≤ GergEos.dPdD (fracs q) D (toR q.t) / GergEos.Z (fracs q) D (toR q.t) ∧
      GergEos.dPdD (fracs q) D (toR q.t) / GergEos.Z (fracs q) D (toR q.t) ≤ 1.4 * m)
    (h0 : |Real.log (D0 * 8.314472 * toR q.t * GergEos.Z (fracs q) D0 (toR q.t)) - Real.log (toR q.p)| ≤ 0.4 * m * ρ) :
    ∃ s' d, (setPub new0 q).density iflag = .ok (s', .ok ()) ∧ IsFinite s'.d ∧ 0 < toR s'.d ∧
      d * 8.314472 * toR q.t * GergEos.Z (fracs q) d (toR q.t) = toR q.p ∧
      |Real.log (toR s'.d) - Real.log d| ≤ 5.6e-8 + 2.1e-9 * (K * (1 + 1 / m)) ∧
      D0 * Real.exp (-ρ) ≤ d ∧ d ≤ D0 * Real.exp ρ ∧
      ∀ d', D0 * Real.exp (-ρ) ≤ d' → d' ≤ D0 * Real.exp ρ →
        d' * 8.314472 * toR q.t * GergEos.Z (fracs q) d' (toR q.t) = toR q.p → d' = d := by
  have e := Gerg.new_inj hnew
  subst e
  obtain ⟨s', d, e1, e2⟩ := Gerg.density_conv hL hN ⟨h, hm, hρ1, hρ2, hK1, hK, d1, d2, d3, hslope, h0⟩ ⟨fd, hstart⟩ hf
  refine ⟨s', d, ?_, e2⟩
  have := Gerg.density_ok (s := Gerg.freshOf q) (Gerg.reachable_fresh q).idx iflag
  rw [e1] at this
  exact this

/-- C62 at low pressure, for every mixture: fractions that add up to 1.01 at most, a temperature between the reducing temperature
and a hundred times it, a pressure of 1000 kPa at most, an ideal-gas density `p / (R T)` of at least 3e-4 mol/l and at most
3.6e-4 times the reducing density. Then `density` started with a density that is not negative and a flag that is not positive
reports success, and the density found is within the factor `exp 6.2e-8` of the only density within a factor e of the ideal-gas
density that has exactly the requested pressure. -/
theorem C62_gerg_low_pressure (hL : LibmAccurate) (hN : LnAccurate) (new0 : Gerg Float) (hnew : Gerg.new = .ok new0)
    (q : Pub Float) (h : DensDomain q) (hsum : ∑ i : Fin 22 with 1 ≤ i.1, fracs q i ≤ 1.01)
    (ht : GergEos.Tr (fracs q) ≤ toR q.t) (hp : toR q.p ≤ 1000) (d1 : 3e-4 ≤ toR q.p / (8.314472 * toR q.t))
    (d2 : toR q.p / (8.314472 * toR q.t) * GergEos.invRhoR (fracs q) ≤ 3.6e-4)
    (fd : IsFinite q.d) (d0 : 0 ≤ toR q.d) (iflag : Int) (hf : iflag ≤ 0) :
    ∃ s' d, (setPub new0 q).density iflag = .ok (s', .ok ()) ∧ IsFinite s'.d ∧ 0 < toR s'.d ∧
      d * 8.314472 * toR q.t * GergEos.Z (fracs q) d (toR q.t) = toR q.p ∧
      |Real.log (toR s'.d) - Real.log d| ≤ 6.2e-8 ∧
      toR q.p / (8.314472 * toR q.t) * Real.exp (-1) ≤ d ∧ d ≤ toR q.p / (8.314472 * toR q.t) * Real.exp 1 ∧
      ∀ d', toR q.p / (8.314472 * toR q.t) * Real.exp (-1) ≤ d' → d' ≤ toR q.p / (8.314472 * toR q.t) * Real.exp 1 →
        d' * 8.314472 * toR q.t * GergEos.Z (fracs q) d' (toR q.t) = toR q.p → d' = d := by
  have C := Gerg.low_curve hL (q := q) ⟨h, hsum, ht, hp, d1, d2⟩
  obtain ⟨s', d, e1, e2, e3, e4, e5, e6⟩ := C62_gerg_density_converges hL hN new0 hnew q h iflag hf _ _ _ _ fd
    (Or.inl ⟨d0, rfl⟩) C.m_pos C.K1 C.r1 C.r2 C.K2 C.d1 C.d2 C.d3 C.slope C.start
  exact ⟨s', d, e1, e2, e3, e4, e5.trans (by norm_num), e6⟩

/-! ## The hypotheses can be met -/

namespace Gerg

theorem chkHalf : decChk true 10 10 ⟨5, 1⟩ = true := by decide +kernel
theorem chkTwo : decChk true 0 10 ⟨2, 0⟩ = true := by decide +kernel

/-- Equal parts of methane and nitrogen at 300 K and 2 kPa. -/
def errMix : Pub Float :=
  ⟨f% 300.0, f% 2.0, f% 0.0, f% 0.0, f% 0.0, f% 0.0, f% 0.0, f% 0.0, f% 0.0, f% 0.0, f% 0.0, f% 0.0, f% 0.0, f% 0.0,
    f% 0.0, f% 0.0, f% 0.0, f% 0.0, aset (aset (fill 22 (f% 0.0)) 1 (f% 0.5)) 2 (f% 0.5)⟩

theorem errMix_ok : (∀ i, IsFinite (aget errMix.x i) ∧ toR (aget errMix.x i) = if i = 1 then 0.5 else if i = 2 then 0.5 else 0) ∧
    IsFinite errMix.t ∧ toR errMix.t = 300 ∧ IsFinite errMix.p ∧ toR errMix.p = 2 ∧ IsFinite errMix.d ∧ toR errMix.d = 0 := by
  have h1 := (decChk_val chk300).2.1 rfl
  have h2 := (decChk_val chkTwo).2.1 rfl
  have h3 := (decChk_val chkHalf).2.1 rfl
  have h3' : toR (litF ⟨5, 1⟩) = 0.5 := by rw [h3]; norm_num [decR]
  refine ⟨fun i => ?_, decChk_fin chk300, ?_, decChk_fin chkTwo, ?_, fin0, toR0⟩
  · have e : aget errMix.x i = if 2 = i then litF ⟨5, 1⟩ else if 1 = i then litF ⟨5, 1⟩ else f% 0.0 := by
      show aget (aset (aset (fill 22 (f% 0.0)) 1 (f% 0.5)) 2 (f% 0.5)) i = _
      rw [aget_aset, aget_aset, aget_fill]
      rfl
    rw [e]
    by_cases h : i = 2
    · have h' : ¬ i = 1 := by rw [h]; decide
      rw [if_pos h.symm, if_neg h', if_pos h]; exact ⟨decChk_fin chkHalf, h3'⟩
    · by_cases h' : i = 1
      · rw [if_neg (Ne.symm h), if_pos h'.symm, if_pos h']; exact ⟨decChk_fin chkHalf, h3'⟩
      · rw [if_neg (Ne.symm h), if_neg (Ne.symm h'), if_neg h', if_neg h]; exact ⟨fin0, toR0⟩
  · show toR (litF ⟨300, 0⟩) = 300
    rw [h1]; simp [decR]
  · show toR (litF ⟨2, 0⟩) = 2
    rw [h2]; simp [decR]

end Gerg

open Finset in
theorem GergEos.reducing_pair (Y B : Fin 22 → Fin 22 → ℝ) (x : Fin 22 → ℝ) (hx : ∀ i, i ≠ 1 → i ≠ 2 → x i = 0) :
    GergEos.reducing Y B x = x 1 ^ 2 * Y 1 1 + 2 * x 1 * x 2 * Y 1 2 * ((x 1 + x 2) / (B 1 2 * x 1 + x 2)) + x 2 ^ 2 * Y 2 2 := by
  unfold GergEos.reducing
  rw [Finset.sum_eq_add (1 : Fin 22) 2 (by decide)]
  · rw [Finset.sum_eq_single (2 : Fin 22), Finset.sum_eq_zero]
    · ring
    · intro j hj
      have h := (Finset.mem_filter.1 hj).2
      rw [hx j (by rintro rfl; exact absurd h (by decide)) (by rintro rfl; exact absurd h (by decide))]
      ring
    · intro j hj h2
      have h := (Finset.mem_filter.1 hj).2
      rw [hx j (by rintro rfl; exact absurd h (by decide)) h2]
      ring
    · intro h; exact absurd (by decide) h
  · intro i _ h
    rw [hx i h.1 h.2]
    simp
  · intro h; exact absurd (by decide) h
  · intro h; exact absurd (by decide) h

namespace Gerg

theorem errMix_fracs : fracs errMix = fun i => if i = 1 then 0.5 else if i = 2 then 0.5 else 0 := by
  funext i
  unfold fracs
  rw [(errMix_ok.1 i).2]
  split
  · norm_num
  · split <;> norm_num

theorem errMix_Tr : 100 ≤ GergEos.Tr (fracs errMix) ∧ GergEos.Tr (fracs errMix) ≤ 250 := by
  unfold GergEos.Tr
  rw [GergEos.reducing_pair _ _ _ (fun i h1 h2 => by rw [errMix_fracs]; simp [h1, h2]), errMix_fracs]
  unfold GergEos.val
  simp [Tab.GTIJ, Tab.BTIJ]
  norm_num

theorem errMix_V : 0 ≤ GergEos.invRhoR (fracs errMix) ∧ GergEos.invRhoR (fracs errMix) ≤ 0.1 := by
  unfold GergEos.invRhoR
  rw [GergEos.reducing_pair _ _ _ (fun i h1 h2 => by rw [errMix_fracs]; simp [h1, h2]), errMix_fracs]
  have e : (GergEos.params 1 2).1 = 0.998721377 := by decide +kernel
  unfold GergEos.val
  simp [Tab.GVIJ, e]
  norm_num

end Gerg

theorem Gerg.errMix_dom : DensDomain Gerg.errMix := by
  obtain ⟨hx, ft, ht, fp, hp, fd, hd⟩ := Gerg.errMix_ok
  obtain ⟨T1, T2⟩ := Gerg.errMix_Tr
  refine ⟨ft, by rw [ht]; norm_num, by rw [ht]; norm_num, by rw [ht]; linarith, by rw [ht]; linarith, fp,
    by rw [hp]; norm_num, by rw [hp]; norm_num, fun i _ => (hx i).1, fun i _ => ?_, 1, by decide, ?_⟩
  · rw [(hx i).2]
    split
    · exact Or.inr ⟨by norm_num, by norm_num⟩
    · split
      · exact Or.inr ⟨by norm_num, by norm_num⟩
      · exact Or.inl rfl
  · rw [(hx 1).2, if_pos rfl]; norm_num

theorem Gerg.errMix_sum : ∑ i : Fin 22 with 1 ≤ i.1, fracs Gerg.errMix i ≤ 1.01 := by
  rw [Gerg.errMix_fracs, Finset.sum_eq_add (1 : Fin 22) 2 (by decide)]
  · rw [if_pos rfl, if_neg (by decide), if_pos rfl]; norm_num
  · intro i _ h
    rw [if_neg h.1, if_neg h.2]
  · intro h; exact absurd (by decide) h
  · intro h; exact absurd (by decide) h

theorem Gerg.errMix_d0 : toR Gerg.errMix.p / (8.314472 * toR Gerg.errMix.t) = 2 / (8.314472 * 300) := by
  rw [Gerg.errMix_ok.2.2.2.2.1, Gerg.errMix_ok.2.2.1]

theorem Gerg.errMix_low : Gerg.LowP Gerg.errMix := by
  obtain ⟨hx, ft, ht, fp, hp, fd, hd⟩ := Gerg.errMix_ok
  obtain ⟨T1, T2⟩ := Gerg.errMix_Tr
  obtain ⟨V1, V2⟩ := Gerg.errMix_V
  exact ⟨Gerg.errMix_dom, Gerg.errMix_sum, by rw [ht]; linarith, by rw [hp]; norm_num, by rw [hp, ht]; norm_num,
    by rw [hp, ht]; refine (mul_le_mul_of_nonneg_left V2 (by norm_num)).trans (by norm_num)⟩

/-- The mixture meets the hypotheses of the low-pressure theorem, and then those of the general one. -/
example (hL : LibmAccurate) (hN : LnAccurate) (new0 : Gerg Float) (hnew : Gerg.new = .ok new0) :
    ∃ s' d, (setPub new0 Gerg.errMix).density 0 = .ok (s', .ok ()) ∧ |Real.log (toR s'.d) - Real.log d| ≤ 6.2e-8 := by
  have L := Gerg.errMix_low
  obtain ⟨s', d, e1, -, -, -, e2, -⟩ := C62_gerg_low_pressure hL hN new0 hnew Gerg.errMix L.dom L.sum L.t1 L.p1 L.d1 L.d2
    Gerg.errMix_ok.2.2.2.2.2.1 (by rw [Gerg.errMix_ok.2.2.2.2.2.2]) 0 (by norm_num)
  exact ⟨s', d, e1, e2⟩

/-- The mixture meets the hypotheses of C61 with `K = 1.3`, `m = 0.85` and `M = 1.19`. -/
example (hL : LibmAccurate) (hN : LnAccurate) (new0 : Gerg Float) (hnew : Gerg.new = .ok new0) :
    ∃ s' D, (setPub new0 Gerg.errMix).density 0 = .ok (s', .ok ()) ∧
      D * 8.314472 * 300 * GergEos.Z (fracs Gerg.errMix) D 300 = 2 ∧ |Real.log (toR s'.d) - Real.log D| ≤ 4.9e-8 := by
  have L := Gerg.errMix_low
  obtain ⟨s', d, e1, e2, e3, e4, e5, e6, e7, -⟩ := C62_gerg_low_pressure hL hN new0 hnew Gerg.errMix L.dom L.sum L.t1 L.p1 L.d1
    L.d2 Gerg.errMix_ok.2.2.2.2.2.1 (by rw [Gerg.errMix_ok.2.2.2.2.2.2]) 0 (by norm_num)
  rw [Gerg.errMix_d0] at e6 e7
  obtain ⟨V1, V2⟩ := Gerg.errMix_V
  have b1 := Real.exp_neg_one_gt_d9
  have b2 := Real.exp_one_lt_d9
  have d1 : 2.9e-4 ≤ d := by
    refine le_trans ?_ e6
    refine le_trans ?_ (mul_le_mul_of_nonneg_left b1.le (by norm_num))
    norm_num
  have d2 : d ≤ 2.2e-3 := by
    refine e7.trans ((mul_le_mul_of_nonneg_left b2.le (by norm_num)).trans ?_)
    norm_num
  have d0 : 0 < d := lt_of_lt_of_le (by norm_num) d1
  -- densities near the computed one
  have near : ∀ D, 0 < D → |Real.log D - Real.log (toR s'.d)| ≤ 0.1 → 2e-4 ≤ D ∧ D ≤ 6e-3 := by
    intro D hD h
    have h1 : |Real.log D - Real.log d| ≤ 0.2 := by
      have : Real.log D - Real.log d = (Real.log D - Real.log (toR s'.d)) + (Real.log (toR s'.d) - Real.log d) := by ring
      rw [this]
      refine (abs_add_le _ _).trans ((add_le_add h e5).trans ?_)
      norm_num
    have e : D = d * Real.exp (Real.log D - Real.log d) := by
      rw [Real.exp_sub, Real.exp_log hD, Real.exp_log d0]; field_simp
    obtain ⟨a, b⟩ := abs_le.1 h1
    have u1 := Real.exp_le_exp.2 (b.trans (by norm_num : (0.2 : ℝ) ≤ 1))
    have u2 := Real.add_one_le_exp (Real.log D - Real.log d)
    constructor
    · have a8 : (0.8 : ℝ) ≤ Real.exp (Real.log D - Real.log d) := by norm_num at a u2 ⊢; linarith
      have := mul_le_mul d1 a8 (by norm_num) d0.le
      rw [← e] at this
      norm_num at this ⊢; linarith
    · have := mul_le_mul d2 (u1.trans b2.le) (Real.exp_pos _).le (by norm_num)
      rw [← e] at this
      norm_num at this ⊢; linarith
  have n0 := near _ e3 (by rw [sub_self, abs_zero]; norm_num)
  have lim : ∀ D, D ≤ 6e-3 → D * GergEos.invRhoR (fracs Gerg.errMix) ≤ 1 / 1000 := fun D h =>
    (mul_le_mul h V2 V1 (by norm_num)).trans (by norm_num)
  obtain ⟨-, D, g1, g2, g3, -⟩ := C61_gerg_density_error hL hN new0 hnew Gerg.errMix L.dom 0 s' e1 1.3 0.85 1.19 _ (by norm_num)
    (by norm_num) (by norm_num) (by norm_num) rfl n0.1 (n0.2.trans (by norm_num)) ((lim _ n0.2).trans (by norm_num))
    (by
      intro D hD h
      have hn := near D hD (h.trans (by norm_num))
      obtain ⟨c1, c2, c3, c4⟩ := Gerg.low_bounds hL L hD.le (lim D hn.2)
      generalize GergEos.Z (fracs Gerg.errMix) D (toR Gerg.errMix.t) = Z at *
      generalize GergEos.dPdD (fracs Gerg.errMix) D (toR Gerg.errMix.t) = Y at *
      rw [abs_le] at c1 c2
      have z0 : 0 < Z := by norm_num at c1; linarith [c1.1]
      norm_num at c1 c2 c3 c4 ⊢
      refine ⟨z0, by linarith, by linarith, ?_, ?_⟩
      · rw [le_div_iff₀ z0]; linarith
      · rw [div_le_iff₀ z0]; linarith)
  rw [Gerg.errMix_ok.2.2.1, Gerg.errMix_ok.2.2.2.2.1] at g2
  exact ⟨s', D, e1, g2, g3.trans (by norm_num)⟩

end Aga8
