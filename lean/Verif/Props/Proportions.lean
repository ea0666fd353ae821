import Verif.Props.MolarMass

/-! # Accepted compositions are not normalised (C55), exact arithmetic -/

namespace Aga8

open Finset

/-- C55, DETAIL: the molar mass of an accepted composition is that of its normalised form times the sum of its fractions. -/
theorem C55_detail_molar_mass_scales (s s1 s2 : Detail ℝ) (c : Composition ℝ) (h1 : s.set_composition c = (s1, .ok ()))
    (h2 : s.set_composition c.normalize.1 = (s2, .ok ())) (hn : c.normalize.2 = .ok ()) :
    s1.molar_mass.2 = (∑ i, c.frac i) * s2.molar_mass.2 := by
  have hs : 0 < ∑ i, c.frac i := by
    by_contra hc
    have := (C04_normalize_atomic_real c).1.2 (not_lt.1 hc)
    rw [this] at hn; cases hn
  rw [Detail.molar_mass_sum, Detail.molar_mass_sum]
  simp only [Detail.frac_x s s1 c h1, Detail.frac_x s s2 _ h2, (C03_normalize_real c hs).2.1]
  rw [Finset.mul_sum]
  refine Finset.sum_congr rfl fun i _ => ?_
  field_simp

/-- C55, GERG-2008. -/
theorem C55_gerg_molar_mass_scales (s s1 s2 : Gerg ℝ) (c : Composition ℝ) (h1 : s.set_composition c = (s1, .ok ()))
    (h2 : s.set_composition c.normalize.1 = (s2, .ok ())) (hn : c.normalize.2 = .ok ()) :
    s1.molar_mass.mm = (∑ i, c.frac i) * s2.molar_mass.mm := by
  have hs : 0 < ∑ i, c.frac i := by
    by_contra hc
    have := (C04_normalize_atomic_real c).1.2 (not_lt.1 hc)
    rw [this] at hn; cases hn
  rw [Gerg.molar_mass_sum, Gerg.molar_mass_sum]
  simp only [Gerg.frac_x s s1 c h1, Gerg.frac_x s s2 _ h2, (C03_normalize_real c hs).2.1]
  rw [Finset.mul_sum]
  refine Finset.sum_congr rfl fun i _ => ?_
  field_simp

/-- An accepted composition can be normalised, and the result is accepted. -/
theorem accepted_normalize {c : Composition ℝ} (h : c.check = .ok ()) : c.normalize.2 = .ok () ∧ c.normalize.1.check = .ok () ∧
    |∑ i, c.frac i - 1| ≤ 0.01 := by
  have hs := (C02_accepted_iff_sum_within_one_percent c).1 h
  have h1 := abs_le.1 hs
  have hpos : 0 < ∑ i, c.frac i := by norm_num at h1 ⊢; linarith [h1.1]
  obtain ⟨a, -, -, -⟩ := C03_normalize_real c hpos
  exact ⟨a, (C05_normalize_idempotent c a).1, hs⟩

/-- What `set_composition` accepts is what `check` accepts. -/
theorem Detail.set_ok_iff (s : Detail ℝ) (c : Composition ℝ) : (∃ s1, s.set_composition c = (s1, .ok ())) ↔ c.check = .ok () := by
  unfold Detail.set_composition
  constructor
  · rintro ⟨s1, h⟩
    cases hc : c.check with
    | error e => rw [hc] at h; simp at h
    | ok u => rfl
  · intro hc
    rw [hc]; exact ⟨_, rfl⟩

theorem Gerg.set_ok_iff (s : Gerg ℝ) (c : Composition ℝ) : (∃ s1, s.set_composition c = (s1, .ok ())) ↔ c.check = .ok () := by
  unfold Gerg.set_composition
  constructor
  · rintro ⟨s1, h⟩
    cases hc : c.check with
    | error e => rw [hc] at h; simp at h
    | ok u => rfl
  · intro hc
    rw [hc]; exact ⟨_, rfl⟩

/-- C55, what holds: for an accepted composition with non-negative fractions the molar mass of either model is within 1 % of
the molar mass after `normalize`, which is accepted too. -/
theorem C55_molar_mass_within_one_percent (sd : Detail ℝ) (sg : Gerg ℝ) (c : Composition ℝ) (hc : c.check = .ok ())
    (h0 : ∀ i, 0 ≤ c.frac i) :
    ∃ d1 d2 g1 g2, sd.set_composition c = (d1, .ok ()) ∧ sd.set_composition c.normalize.1 = (d2, .ok ()) ∧
      sg.set_composition c = (g1, .ok ()) ∧ sg.set_composition c.normalize.1 = (g2, .ok ()) ∧
      |d1.molar_mass.2 - d2.molar_mass.2| ≤ 0.01 * d2.molar_mass.2 ∧
      |g1.molar_mass.mm - g2.molar_mass.mm| ≤ 0.01 * g2.molar_mass.mm := by
  obtain ⟨hn, hc2, hs⟩ := accepted_normalize hc
  obtain ⟨d1, e1⟩ := (Detail.set_ok_iff sd c).2 hc
  obtain ⟨d2, e2⟩ := (Detail.set_ok_iff sd _).2 hc2
  obtain ⟨g1, e3⟩ := (Gerg.set_ok_iff sg c).2 hc
  obtain ⟨g2, e4⟩ := (Gerg.set_ok_iff sg _).2 hc2
  have hpos : 0 < ∑ i, c.frac i := by
    have h1 := abs_le.1 hs
    norm_num at h1 ⊢; linarith [h1.1]
  have hf : ∀ i, 0 ≤ c.normalize.1.frac i := fun i => by
    rw [(C03_normalize_real c hpos).2.1]; exact div_nonneg (h0 i) hpos.le
  have key : ∀ S m : ℝ, |S - 1| ≤ 0.01 → 0 ≤ m → |S * m - m| ≤ 0.01 * m := fun S m hS hm => by
    have : S * m - m = (S - 1) * m := by ring
    rw [this, abs_mul, abs_of_nonneg hm]
    exact mul_le_mul_of_nonneg_right hS hm
  refine ⟨d1, d2, g1, g2, e1, e2, e3, e4, ?_, ?_⟩
  · rw [C55_detail_molar_mass_scales sd d1 d2 c e1 e2 hn]
    refine key _ _ hs ?_
    rw [Detail.molar_mass_sum]
    show 0 ≤ ∑ i, aget d2.x i * (Detail.massQ i : ℝ)
    refine Finset.sum_nonneg fun i _ => ?_
    rw [Detail.frac_x sd d2 _ e2]
    exact mul_nonneg (hf i) (by exact_mod_cast (by decide +kernel : ∀ i, 0 ≤ Detail.massQ i) i)
  · rw [C55_gerg_molar_mass_scales sg g1 g2 c e3 e4 hn]
    refine key _ _ hs ?_
    rw [Gerg.molar_mass_sum]
    show 0 ≤ ∑ i : Fin 21, aget g2.x i.succ * (Gerg.massQ i : ℝ)
    refine Finset.sum_nonneg fun i _ => ?_
    rw [Gerg.frac_x sg g2 _ e4]
    exact mul_nonneg (hf i) (by exact_mod_cast (by decide +kernel : ∀ i, 0 ≤ Gerg.massQ i) i)

theorem Composition.ext_frac {c c' : Composition ℝ} (h : ∀ i, c.frac i = c'.frac i) : c = c' := by
  have h0 := h 0; have h1 := h 1; have h2 := h 2; have h3 := h 3; have h4 := h 4; have h5 := h 5; have h6 := h 6
  have h7 := h 7; have h8 := h 8; have h9 := h 9; have h10 := h 10; have h11 := h 11; have h12 := h 12; have h13 := h 13
  have h14 := h 14; have h15 := h 15; have h16 := h 16; have h17 := h 17; have h18 := h 18; have h19 := h 19
  have h20 := h 20
  cases c
  cases c'
  congr 1

/-- The composition of `a` parts methane. -/
noncomputable def methaneParts (a : ℝ) : Composition ℝ := { (Composition.default : Composition ℝ) with methane := a }

/-- C55 refuted: two accepted compositions with the same proportions, both pure methane, have different molar masses in both
models: 16.043 and 15.88257 g/mol (DETAIL), 16.04246 and 15.8820354 g/mol (GERG-2008). -/
theorem C55_accepted_not_normalised (sd : Detail ℝ) (sg : Gerg ℝ) :
    ∃ c c' : Composition ℝ, c.check = .ok () ∧ c'.check = .ok () ∧ (∀ i, c'.frac i = 0.99 * c.frac i) ∧
      c'.normalize.1 = c ∧
      ∃ d1 d2 g1 g2, sd.set_composition c = (d1, .ok ()) ∧ sd.set_composition c' = (d2, .ok ()) ∧
        sg.set_composition c = (g1, .ok ()) ∧ sg.set_composition c' = (g2, .ok ()) ∧
        d1.molar_mass.2 = 16.043 ∧ d2.molar_mass.2 = 15.88257 ∧
        g1.molar_mass.mm = 16.04246 ∧ g2.molar_mass.mm = 15.8820354 := by
  have hf : ∀ a i, (methaneParts a).frac i = if i = 0 then a else 0 := fun a i => by
    fin_cases i <;> simp [methaneParts, Composition.default, Composition.frac]
  have hsum : ∀ a, ∑ i, (methaneParts a).frac i = a := fun a => by
    simp only [hf]
    rw [Finset.sum_ite_eq' Finset.univ (0 : Fin 21) (fun _ => a), if_pos (Finset.mem_univ _)]
  have hc : ∀ a, |a - 1| ≤ 0.01 → (methaneParts a).check = .ok () := fun a ha => by
    rw [C02_accepted_iff_sum_within_one_percent, hsum]; exact ha
  have c1 := hc 1 (by norm_num)
  have c2 := hc 0.99 (by norm_num [abs_le])
  obtain ⟨d1, e1⟩ := (Detail.set_ok_iff sd _).2 c1
  obtain ⟨d2, e2⟩ := (Detail.set_ok_iff sd _).2 c2
  obtain ⟨g1, e3⟩ := (Gerg.set_ok_iff sg _).2 c1
  obtain ⟨g2, e4⟩ := (Gerg.set_ok_iff sg _).2 c2
  have mD : Detail.massQ 0 = 16043 / 1000 := by decide +kernel
  have mG : Gerg.massQ 0 = 1604246 / 100000 := by decide +kernel
  have vD : ∀ a s1, sd.set_composition (methaneParts a) = (s1, .ok ()) → s1.molar_mass.2 = a * 16.043 := by
    intro a s1 h
    rw [Detail.molar_mass_sum]
    simp only [Detail.frac_x sd s1 _ h, hf, ite_mul, zero_mul]
    rw [Finset.sum_ite_eq' Finset.univ (0 : Fin 21), if_pos (Finset.mem_univ _), mD]
    norm_num
  have vG : ∀ a s1, sg.set_composition (methaneParts a) = (s1, .ok ()) → s1.molar_mass.mm = a * 16.04246 := by
    intro a s1 h
    rw [Gerg.molar_mass_sum]
    simp only [Gerg.frac_x sg s1 _ h, hf, ite_mul, zero_mul]
    rw [Finset.sum_ite_eq' Finset.univ (0 : Fin 21), if_pos (Finset.mem_univ _), mG]
    norm_num
  refine ⟨methaneParts 1, methaneParts 0.99, c1, c2, ?_, ?_, d1, d2, g1, g2, e1, e2, e3, e4, ?_, ?_, ?_, ?_⟩
  · intro i
    rw [hf, hf]
    split <;> norm_num
  · have hn := C03_normalize_real (methaneParts 0.99) (by rw [hsum]; norm_num)
    have hq : ∀ i, (methaneParts 0.99).normalize.1.frac i = (methaneParts 1).frac i := fun i => by
      rw [hn.2.1, hsum, hf, hf]
      split
      · norm_num
      · norm_num
    exact Composition.ext_frac hq
  · rw [vD _ _ e1]; norm_num
  · rw [vD _ _ e2]; norm_num
  · rw [vG _ _ e3]; norm_num
  · rw [vG _ _ e4]; norm_num

end Aga8
