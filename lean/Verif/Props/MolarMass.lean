import Mathlib.Data.Rat.Cast.Order
import Mathlib.Algebra.Order.BigOperators.Group.Finset
import Verif.Lemmas.RealSum
import Verif.Spec.MolarMass
import Verif.Spec.Composition
import Verif.Props.Composition
import Verif.Detail
import Verif.Gerg

/-! # Molar mass (C08), both models, exact arithmetic -/

namespace Aga8

open Finset

/-- The molar masses DETAIL uses, by component. -/
def Detail.massQ (i : Fin 21) : ℚ := ((aget Detail.Tab.MMI i).m : ℚ) / 10 ^ (aget Detail.Tab.MMI i).e
/-- The molar masses GERG uses, by component. -/
def Gerg.massQ (i : Fin 21) : ℚ :=
  ((aget Gerg.Tab.MMI_GERG i.succ).m : ℚ) / 10 ^ (aget Gerg.Tab.MMI_GERG i.succ).e

theorem Detail.mass_near : ∀ i, |Detail.massQ i - Chem.mass i| ≤ 1 / 100 := by decide +kernel
theorem Gerg.mass_near : ∀ i, |Gerg.massQ i - Chem.mass i| ≤ 1 / 100 := by decide +kernel
theorem mass_near : ∀ i, |Detail.massQ i - Gerg.massQ i| ≤ 5 / 1000 := by decide +kernel

/-- A weighted mean is close to the weighted mean of close values. -/
theorem mean_near (x a b : Fin 21 → ℝ) (hx : ∀ i, 0 ≤ x i) (hs : ∑ i, x i = 1) (ε : ℝ)
    (h : ∀ i, |a i - b i| ≤ ε) : |∑ i, x i * a i - ∑ i, x i * b i| ≤ ε := by
  rw [← Finset.sum_sub_distrib]
  refine (Finset.abs_sum_le_sum_abs _ _).trans ?_
  calc ∑ i, |x i * a i - x i * b i| ≤ ∑ i, x i * ε := by
        refine Finset.sum_le_sum fun i _ => ?_
        rw [← mul_sub, abs_mul, abs_of_nonneg (hx i)]
        exact mul_le_mul_of_nonneg_left (h i) (hx i)
    _ = ε := by rw [← Finset.sum_mul, hs, one_mul]

/-- A weighted mean lies between bounds on the values that have weight. -/
theorem mean_between (x a : Fin 21 → ℝ) (hx : ∀ i, 0 ≤ x i) (hs : ∑ i, x i = 1) (lo hi : ℝ)
    (h : ∀ i, 0 < x i → lo ≤ a i ∧ a i ≤ hi) : lo ≤ ∑ i, x i * a i ∧ ∑ i, x i * a i ≤ hi := by
  constructor
  · calc lo = ∑ i, x i * lo := by rw [← Finset.sum_mul, hs, one_mul]
      _ ≤ _ := by
        refine Finset.sum_le_sum fun i _ => ?_
        rcases (hx i).eq_or_lt with h0 | h0
        · rw [← h0]; simp
        · exact mul_le_mul_of_nonneg_left (h i h0).1 h0.le
  · calc ∑ i, x i * a i ≤ ∑ i, x i * hi := by
          refine Finset.sum_le_sum fun i _ => ?_
          rcases (hx i).eq_or_lt with h0 | h0
          · rw [← h0]; simp
          · exact mul_le_mul_of_nonneg_left (h i h0).2 h0.le
      _ = hi := by rw [← Finset.sum_mul, hs, one_mul]

theorem Detail.frac_x {F : Type} [Add F] [Sub F] [Mul F] [Div F] [Neg F] [FOps F] (s s' : Detail F) (c : Composition F) (h : s.set_composition c = (s', .ok ())) (i : Fin 21) :
    aget s'.x i = c.frac i := by
  unfold Detail.set_composition at h
  cases hc : c.check with
  | error e => rw [hc] at h; simp at h
  | ok u =>
    rw [hc] at h
    injection h with h
    rw [← h]
    fin_cases i <;> simp (decide := true) [aset, aget, Composition.frac]

theorem Gerg.frac_x {F : Type} [Add F] [Sub F] [Mul F] [Div F] [Neg F] [FOps F] (s s' : Gerg F) (c : Composition F) (h : s.set_composition c = (s', .ok ())) (i : Fin 21) :
    aget s'.x i.succ = c.frac i := by
  unfold Gerg.set_composition at h
  cases hc : c.check with
  | error e => rw [hc] at h; simp at h
  | ok u =>
    rw [hc] at h
    injection h with h
    rw [← h]
    fin_cases i <;> simp (decide := true) [aset, aget, Composition.frac]

theorem Detail.molar_mass_sum (s : Detail ℝ) :
    s.molar_mass = ({ s with mm := ∑ i, aget s.x i * Detail.massQ i }, ∑ i, aget s.x i * Detail.massQ i) := by
  have h : loop 0 21 (f% 0.0 : ℝ) (fun i mm => mm + aget s.x i * Detail.tab Detail.Tab.MMI i)
      = ∑ i, aget s.x i * ((Detail.massQ i : ℚ) : ℝ) := by
    have := loop_proj_add0 id (fun i => aget s.x i * ((Detail.massQ i : ℚ) : ℝ))
      (fun i mm => mm + aget s.x i * Detail.tab Detail.Tab.MMI i) (f% 0.0 : ℝ) (by
        intro i a
        simp only [id, Detail.massQ]
        push_cast
        rfl)
    simp only [id] at this
    rw [this, l0, zero_add]
  unfold Detail.molar_mass
  rw [h]

theorem Gerg.molar_mass_sum (s : Gerg ℝ) :
    s.molar_mass = { s with mm := ∑ i : Fin 21, aget s.x i.succ * Gerg.massQ i } := by
  have h : loop 1 22 (f% 0.0 : ℝ) (fun i mm => mm + aget s.x i * Gerg.tab Gerg.Tab.MMI_GERG i)
      = ∑ i : Fin 21, aget s.x i.succ * ((Gerg.massQ i : ℚ) : ℝ) := by
    have := loop_proj_add id (fun i => aget s.x i * Gerg.tab Gerg.Tab.MMI_GERG i)
      (fun (i : Fin 22) mm => mm + aget s.x i * Gerg.tab Gerg.Tab.MMI_GERG i) (f% 0.0 : ℝ) (lo := 1) (by
        intro i a _; rfl)
    simp only [id] at this
    rw [this, l0, zero_add, Finset.sum_filter, Fin.sum_univ_succ]
    simp only [Fin.val_zero, Fin.val_succ, Nat.le_add_left, if_true]
    rw [if_neg (by norm_num), zero_add]
    refine Finset.sum_congr rfl fun i _ => ?_
    simp only [Gerg.massQ]
    push_cast
    rfl
  unfold Gerg.molar_mass
  rw [h]

/-- C08, DETAIL: after an accepted `set_composition`, `molar_mass` returns and stores in `mm` the mole-fraction weighted
mean of the component masses, and changes no other field. For non-negative fractions summing to one it lies between the
masses of the components present, and within 0.01 g/mol of the mean of the masses given by the chemical formulas. -/
theorem C08_detail_molar_mass (s s1 : Detail ℝ) (c : Composition ℝ) (h : s.set_composition c = (s1, .ok ())) :
    ∃ m, s1.molar_mass = ({ s1 with mm := m }, m) ∧ m = ∑ i, c.frac i * Detail.massQ i ∧
      ((∀ i, 0 ≤ c.frac i) → ∑ i, c.frac i = 1 →
        |m - ∑ i, c.frac i * Chem.mass i| ≤ 0.01 ∧
        ∀ lo hi : ℝ, (∀ i, 0 < c.frac i → lo ≤ Detail.massQ i ∧ Detail.massQ i ≤ hi) → lo ≤ m ∧ m ≤ hi) := by
  refine ⟨_, Detail.molar_mass_sum s1, ?_⟩
  simp only [Detail.frac_x s s1 c h]
  refine ⟨trivial, fun h0 h1 => ⟨?_, fun lo hi h2 => mean_between c.frac _ h0 h1 lo hi h2⟩⟩
  refine mean_near c.frac _ _ h0 h1 _ fun i => ?_
  have := Detail.mass_near i
  have : |((Detail.massQ i : ℚ) : ℝ) - Chem.mass i| ≤ 1 / 100 := by
    have := (Rat.cast_le (K := ℝ)).2 this; push_cast at this; exact this
  linarith

/-- C08, GERG: the same for `Gerg2008`, whose `molar_mass` returns nothing. -/
theorem C08_gerg_molar_mass (s s1 : Gerg ℝ) (c : Composition ℝ) (h : s.set_composition c = (s1, .ok ())) :
    ∃ m, s1.molar_mass = { s1 with mm := m } ∧ m = ∑ i, c.frac i * Gerg.massQ i ∧
      ((∀ i, 0 ≤ c.frac i) → ∑ i, c.frac i = 1 →
        |m - ∑ i, c.frac i * Chem.mass i| ≤ 0.01 ∧
        ∀ lo hi : ℝ, (∀ i, 0 < c.frac i → lo ≤ Gerg.massQ i ∧ Gerg.massQ i ≤ hi) → lo ≤ m ∧ m ≤ hi) := by
  refine ⟨_, Gerg.molar_mass_sum s1, ?_⟩
  simp only [Gerg.frac_x s s1 c h]
  refine ⟨trivial, fun h0 h1 => ⟨?_, fun lo hi h2 => mean_between c.frac _ h0 h1 lo hi h2⟩⟩
  refine mean_near c.frac _ _ h0 h1 _ fun i => ?_
  have := Gerg.mass_near i
  have : |((Gerg.massQ i : ℚ) : ℝ) - Chem.mass i| ≤ 1 / 100 := by
    have := (Rat.cast_le (K := ℝ)).2 this; push_cast at this; exact this
  linarith

/-- C08: for the same composition the two models' molar masses differ by at most 0.005 g/mol. -/
theorem C08_models_agree (sd sd' : Detail ℝ) (sg sg' : Gerg ℝ) (c : Composition ℝ)
    (hd : sd.set_composition c = (sd', .ok ())) (hg : sg.set_composition c = (sg', .ok ()))
    (h0 : ∀ i, 0 ≤ c.frac i) (h1 : ∑ i, c.frac i = 1) :
    |sd'.molar_mass.1.mm - sg'.molar_mass.mm| ≤ 0.005 := by
  rw [Detail.molar_mass_sum, Gerg.molar_mass_sum]
  simp only [Detail.frac_x sd sd' c hd, Gerg.frac_x sg sg' c hg]
  refine mean_near c.frac _ _ h0 h1 _ fun i => ?_
  have := mass_near i
  have : |((Detail.massQ i : ℚ) : ℝ) - Gerg.massQ i| ≤ 5 / 1000 := by
    have := (Rat.cast_le (K := ℝ)).2 this; push_cast at this; exact this
  linarith

/-- Worked case: 4/5 methane, 1/5 water. -/
noncomputable def exWet : Composition ℝ := { Composition.default with methane := 4 / 5, water := 1 / 5 }

theorem exWet_sum : ∑ i, exWet.frac i = 1 := by
  simp [Fin.sum_univ_succ, Composition.frac, exWet, Composition.default]
  norm_num

theorem exWet_check : exWet.check = .ok () := by
  rw [(C01_check_decision_real _).2.2, exWet_sum]; norm_num

example : ∀ i, 0 ≤ exWet.frac i := by
  intro i
  fin_cases i <;> simp [Composition.frac, exWet, Composition.default] <;> norm_num
example (s : Detail ℝ) : ∃ s1, s.set_composition exWet = (s1, .ok ()) := by
  unfold Detail.set_composition; rw [exWet_check]; exact ⟨_, rfl⟩
example (s : Gerg ℝ) : ∃ s1, s.set_composition exWet = (s1, .ok ()) := by
  unfold Gerg.set_composition; rw [exWet_check]; exact ⟨_, rfl⟩

end Aga8
