import Verif.Lemmas.GergErrSmall
import Verif.Lemmas.GergErrStart

/-! # The sizes of the GERG-2008 terms at low density -/

set_option linter.unusedSectionVars false

namespace Aga8.GergEos

/-- The bound on the reduced density. -/
def lowEps : ℚ := 1 / 1000

def PureTerm.b0 (a : PureTerm) : ℚ := |a.n| * lowEps ^ (a.d - 1)
def PureTerm.b1 (a : PureTerm) : ℚ := a.d + a.c * lowEps
def PureTerm.b2 (a : PureTerm) : ℚ := a.b1 * (a.b1 + 1) + a.c ^ 2 * lowEps

def DepTerm.b0 (a : DepTerm) : ℚ :=
  |a.n| * lowEps ^ (a.d - 1) * (if a.t < 0 then 100 else 1) * (if a.β = 0 then 1 else 9 / 2)
def DepTerm.b1 (a : DepTerm) : ℚ := a.d + 2 * a.η * lowEps * (lowEps + a.ε) + a.β * lowEps
def DepTerm.b2 (a : DepTerm) : ℚ := a.b1 * (a.b1 + 1) + 2 * a.η * lowEps * (2 * lowEps + a.ε) + a.β * lowEps

theorem pow_low {δ : ℝ} (h0 : 0 ≤ δ) (h1 : δ ≤ (lowEps : ℝ)) {d : ℕ} (hd : 1 ≤ d) : δ ^ d ≤ δ * (lowEps : ℝ) ^ (d - 1) := by
  obtain ⟨k, rfl⟩ : ∃ k, d = k + 1 := ⟨d - 1, by omega⟩
  rw [Nat.add_sub_cancel, pow_succ, mul_comm]
  exact mul_le_mul_of_nonneg_left (pow_le_pow_left₀ h0 h1 k) h0

theorem low_one : (lowEps : ℝ) ≤ 1 := by norm_num [lowEps]
theorem low_pos : (0 : ℝ) ≤ lowEps := by norm_num [lowEps]

theorem cpow_low {δ : ℝ} (h0 : 0 ≤ δ) (h1 : δ ≤ (lowEps : ℝ)) (c : ℕ) (e : ℕ) (he : 1 ≤ e) :
    (c : ℝ) ^ e * δ ^ c ≤ (c : ℝ) ^ e * lowEps := by
  rcases Nat.eq_zero_or_pos c with rfl | hc
  · simp [Nat.one_le_iff_ne_zero.1 he]
  · refine mul_le_mul_of_nonneg_left ?_ (by positivity)
    have := pow_le_pow_of_le_one h0 (h1.trans low_one) hc
    rw [pow_one] at this
    exact this.trans h1

theorem PureTerm.low (a : PureTerm) (hd : 1 ≤ a.d) (ht : 0 ≤ a.t) {δ τ : ℝ} (h0 : 0 ≤ δ) (h1 : δ ≤ (lowEps : ℝ)) (t0 : 0 < τ)
    (t1 : τ ≤ 1) : (0 ≤ a.size δ τ ∧ a.size δ τ ≤ δ * (a.b0 : ℝ)) ∧ (0 ≤ a.grow1 δ ∧ a.grow1 δ ≤ (a.b1 : ℝ)) ∧
      0 ≤ a.grow2 δ ∧ a.grow2 δ ≤ (a.b2 : ℝ) := by
  have g0 : 0 ≤ a.grow1 δ := by unfold PureTerm.grow1; positivity
  have g1 : a.grow1 δ ≤ (a.b1 : ℝ) := by
    unfold PureTerm.grow1 PureTerm.b1
    have := cpow_low h0 h1 a.c 1 (le_refl _)
    push_cast
    rw [pow_one] at this
    linarith
  refine ⟨⟨?_, ?_⟩, ⟨g0, g1⟩, ?_, ?_⟩
  · unfold PureTerm.size
    split <;> positivity
  · have e2 : τ ^ (a.t : ℝ) ≤ 1 := Real.rpow_le_one t0.le t1 (by exact_mod_cast ht)
    have e3 : (if a.c = 0 then (1 : ℝ) else Real.exp (-δ ^ a.c)) ≤ 1 := by
      split
      · exact le_refl _
      · rw [Real.exp_le_one_iff]
        have := pow_nonneg h0 a.c
        linarith
    have e3' : 0 ≤ (if a.c = 0 then (1 : ℝ) else Real.exp (-δ ^ a.c)) := by
      split
      · norm_num
      · exact (Real.exp_pos _).le
    have e4 := pow_low h0 h1 hd
    have e5 := low_pos
    have e6 := Real.rpow_nonneg t0.le (a.t : ℝ)
    unfold PureTerm.size PureTerm.b0
    push_cast
    calc |(a.n : ℝ)| * δ ^ a.d * τ ^ (a.t : ℝ) * (if a.c = 0 then 1 else Real.exp (-δ ^ a.c))
        ≤ |(a.n : ℝ)| * (δ * (lowEps : ℝ) ^ (a.d - 1)) * 1 * 1 := by gcongr
      _ = _ := by ring
  · unfold PureTerm.grow2; positivity
  · unfold PureTerm.grow2 PureTerm.b2
    push_cast
    exact add_le_add (mul_le_mul g1 (by linarith) (by linarith) (g0.trans g1)) (cpow_low h0 h1 a.c 2 (by norm_num))

theorem exp_three_half : Real.exp (3 / 2) ≤ 9 / 2 := by
  have h := Real.exp_one_lt_d9
  have e : Real.exp (3 / 2) ^ 2 = Real.exp 1 ^ 3 := by
    rw [← Real.exp_nat_mul, ← Real.exp_nat_mul]; norm_num
  have h3 : Real.exp 1 ^ 3 ≤ 2.7182818286 ^ 3 := pow_le_pow_left₀ (Real.exp_pos _).le h.le 3
  refine (le_abs_self _).trans (abs_le_of_sq_le_sq (b := 9 / 2) ?_ (by norm_num))
  rw [e]
  exact h3.trans (by norm_num)

/-- What the table of departure terms satisfies. -/
def DepTerm.ok (a : DepTerm) : Bool :=
  decide (1 ≤ a.d ∧ -1 ≤ a.t ∧ a.β * a.γ ≤ 3 / 2 ∧ 0 ≤ a.η ∧ 0 ≤ a.β ∧ 0 ≤ a.ε)

theorem DepTerm.low (a : DepTerm) (h : a.ok = true) {δ τ : ℝ} (h0 : 0 ≤ δ) (h1 : δ ≤ (lowEps : ℝ)) (t0 : 1 / 100 ≤ τ)
    (t1 : τ ≤ 1) : (0 ≤ a.size δ τ ∧ a.size δ τ ≤ δ * (a.b0 : ℝ)) ∧ (0 ≤ a.grow1 δ ∧ a.grow1 δ ≤ (a.b1 : ℝ)) ∧
      0 ≤ a.grow2 δ ∧ a.grow2 δ ≤ (a.b2 : ℝ) := by
  obtain ⟨hd, ht, hβγ, hη, hβ, hε⟩ := of_decide_eq_true h
  have rη : (0 : ℝ) ≤ a.η := by exact_mod_cast hη
  have rβ : (0 : ℝ) ≤ a.β := by exact_mod_cast hβ
  have rε : (0 : ℝ) ≤ a.ε := by exact_mod_cast hε
  have rγ : (a.β : ℝ) * a.γ ≤ 3 / 2 := by
    have : ((a.β * a.γ : ℚ) : ℝ) ≤ ((3 / 2 : ℚ) : ℝ) := Rat.cast_le.2 hβγ
    push_cast at this
    exact this
  have τ0 : 0 < τ := by linarith
  have e5 := low_pos
  have m1 : 2 * (a.η : ℝ) * δ * (δ + a.ε) ≤ 2 * a.η * lowEps * (lowEps + a.ε) := by gcongr
  have m2 : (a.β : ℝ) * δ ≤ a.β * lowEps := by gcongr
  have m3 : 2 * (a.η : ℝ) * δ * (2 * δ + a.ε) ≤ 2 * a.η * lowEps * (2 * lowEps + a.ε) := by gcongr
  have g0 : 0 ≤ a.grow1 δ := by unfold DepTerm.grow1; positivity
  have g1 : a.grow1 δ ≤ (a.b1 : ℝ) := by
    unfold DepTerm.grow1 DepTerm.b1
    push_cast
    linarith
  refine ⟨⟨?_, ?_⟩, ⟨g0, g1⟩, ?_, ?_⟩
  · unfold DepTerm.size; positivity
  · have e2 : τ ^ (a.t : ℝ) ≤ if a.t < 0 then 100 else 1 := by
      split
      · have : τ ^ (a.t : ℝ) ≤ τ ^ (-1 : ℝ) :=
          Real.rpow_le_rpow_of_exponent_ge τ0 t1 (by exact_mod_cast ht)
        refine this.trans ?_
        rw [Real.rpow_neg_one, inv_le_comm₀ τ0 (by norm_num)]
        linarith
      · rename_i hn
        exact Real.rpow_le_one τ0.le t1 (by exact_mod_cast not_lt.1 hn)
    have sq : 0 ≤ (a.η : ℝ) * (δ - a.ε) ^ 2 := by positivity
    have bd : 0 ≤ (a.β : ℝ) * δ := by positivity
    have e3 : Real.exp (-a.η * (δ - a.ε) ^ 2 - a.β * (δ - a.γ)) ≤ if a.β = 0 then 1 else 9 / 2 := by
      split
      · rename_i hb
        rw [hb, Rat.cast_zero, zero_mul, sub_zero, Real.exp_le_one_iff]
        linarith
      · refine le_trans (Real.exp_le_exp.2 ?_) exp_three_half
        have : (a.β : ℝ) * (δ - a.γ) = a.β * δ - a.β * a.γ := by ring
        rw [this]
        linarith
    have e4 := pow_low h0 h1 hd
    have e6 := Real.rpow_nonneg τ0.le (a.t : ℝ)
    have i1 : (0 : ℝ) ≤ if a.t < 0 then 100 else 1 := by split <;> norm_num
    have i2 : (0 : ℝ) ≤ if a.β = 0 then 1 else 9 / 2 := by split <;> norm_num
    have c1 : ((if a.t < 0 then 100 else 1 : ℚ) : ℝ) = if a.t < 0 then 100 else 1 := by split <;> norm_num
    have c2 : ((if a.β = 0 then 1 else 9 / 2 : ℚ) : ℝ) = if a.β = 0 then 1 else 9 / 2 := by split <;> norm_num
    unfold DepTerm.size DepTerm.b0
    rw [Rat.cast_mul, Rat.cast_mul, Rat.cast_mul, c1, c2, Rat.cast_pow, Rat.cast_abs]
    generalize (if a.t < 0 then (100 : ℝ) else 1) = u at *
    generalize (if a.β = 0 then (1 : ℝ) else 9 / 2) = v at *
    calc |(a.n : ℝ)| * δ ^ a.d * τ ^ (a.t : ℝ) * Real.exp (-a.η * (δ - a.ε) ^ 2 - a.β * (δ - a.γ))
        ≤ |(a.n : ℝ)| * (δ * (lowEps : ℝ) ^ (a.d - 1)) * u * v := by gcongr
      _ = _ := by ring
  · unfold DepTerm.grow2; positivity
  · unfold DepTerm.grow2 DepTerm.b2
    push_cast
    exact add_le_add (add_le_add (mul_le_mul g1 (by linarith) (by linarith) (g0.trans g1)) m3) m2

theorem pure_low_ok : ∀ k : Fin 22, (pureTerms.getD k.1 []).all (fun a => decide (1 ≤ a.d ∧ 0 ≤ a.t)) = true := by
  decide +kernel
theorem dep_low_ok : ∀ i j : Fin 22, (departure i.1 j.1).2.all DepTerm.ok = true := by decide +kernel
theorem pure_low_sum : ∀ k : Fin 22, ((pureTerms.getD k.1 []).map fun a => a.b0 * a.b1).sum ≤ 13 ∧
    ((pureTerms.getD k.1 []).map fun a => a.b0 * a.b2).sum ≤ 26 := by decide +kernel
theorem dep_low_sum : ∀ i j : Fin 22, |(departure i.1 j.1).1| * ((departure i.1 j.1).2.map fun a => a.b0 * a.b1).sum ≤ 16 ∧
    |(departure i.1 j.1).1| * ((departure i.1 j.1).2.map fun a => a.b0 * a.b2).sum ≤ 32 := by decide +kernel

theorem sum_le_cast' {α : Type} {l : List α} {f : α → ℝ} {g : α → ℚ} {δ : ℝ} (h : ∀ a ∈ l, f a ≤ δ * (g a : ℝ)) :
    (l.map f).sum ≤ δ * (((l.map g).sum : ℚ) : ℝ) := by
  induction l with
  | nil => simp
  | cons a l ih =>
    simp only [List.map_cons, List.sum_cons, Rat.cast_add, mul_add]
    exact add_le_add (h a (by simp)) (ih fun b hb => h b (by simp [hb]))

theorem low_mul {s g δ : ℝ} {b c : ℚ} (hs : 0 ≤ s ∧ s ≤ δ * (b : ℝ)) (hg : 0 ≤ g ∧ g ≤ (c : ℝ)) :
    s * g ≤ δ * ((b * c : ℚ) : ℝ) := by
  have := mul_le_mul hs.2 hg.2 hg.1 (hs.1.trans hs.2)
  push_cast
  linarith

section
variable {x : Fin 22 → ℝ} {δ τ : ℝ}

/-- At low density the sizes of all terms are at most a multiple of the reduced density. -/
theorem sizes_low_gen (hx : ∀ i : Fin 22, 1 ≤ i.1 → 0 ≤ x i) (hs : ∑ i : Fin 22 with 1 ≤ i.1, x i ≤ 1.01)
    (h0 : 0 ≤ δ) (g : PureTerm → ℝ → ℝ) (h : DepTerm → ℝ → ℝ) (A B : ℚ) (hA : 0 ≤ A) (hB : 0 ≤ B)
    (hg : ∀ k : Fin 22, ((pureTerms.getD k.1 []).map fun a => a.size δ τ * g a δ).sum ≤ δ * (A : ℝ))
    (hh : ∀ i j : Fin 22, |((departure i.1 j.1).1 : ℝ)| * ((departure i.1 j.1).2.map fun a => a.size δ τ * h a δ).sum
      ≤ δ * (B : ℝ)) :
    sizes g h x δ τ ≤ (1.01 * A + 1.0201 * B) * δ := by
  have A0 : (0 : ℝ) ≤ A := by exact_mod_cast hA
  have B0 : (0 : ℝ) ≤ B := by exact_mod_cast hB
  have S0 : 0 ≤ ∑ i : Fin 22 with 1 ≤ i.1, x i := Finset.sum_nonneg fun i hi => hx i (Finset.mem_filter.1 hi).2
  unfold sizes
  have p1 : ∑ i : Fin 22 with 1 ≤ i.1, x i * ((pureTerms.getD i.1 []).map fun a => a.size δ τ * g a δ).sum
      ≤ (∑ i : Fin 22 with 1 ≤ i.1, x i) * (δ * A) := by
    rw [Finset.sum_mul]
    exact Finset.sum_le_sum fun i hi => mul_le_mul_of_nonneg_left (hg i) (hx i (Finset.mem_filter.1 hi).2)
  have p2 : ∑ i : Fin 22 with 1 ≤ i.1, ∑ j : Fin 22 with i < j, x i * x j * |((departure i.1 j.1).1 : ℝ)|
      * ((departure i.1 j.1).2.map fun a => a.size δ τ * h a δ).sum
      ≤ (∑ i : Fin 22 with 1 ≤ i.1, x i) * (∑ i : Fin 22 with 1 ≤ i.1, x i) * (δ * B) := by
    rw [Finset.sum_mul, Finset.sum_mul]
    refine Finset.sum_le_sum fun i hi => ?_
    have i1 := (Finset.mem_filter.1 hi).2
    have xi := hx i i1
    have r : ∑ j : Fin 22 with i < j, x i * x j * |((departure i.1 j.1).1 : ℝ)|
        * ((departure i.1 j.1).2.map fun a => a.size δ τ * h a δ).sum ≤ ∑ j : Fin 22 with i < j, x i * x j * (δ * B) := by
      refine Finset.sum_le_sum fun j hj => ?_
      have ij : i.1 < j.1 := (Finset.mem_filter.1 hj).2
      rw [mul_assoc]
      exact mul_le_mul_of_nonneg_left (hh i j) (mul_nonneg xi (hx j (by omega)))
    refine r.trans ?_
    have : ∑ j : Fin 22 with i < j, x i * x j * (δ * B) ≤ ∑ j : Fin 22 with 1 ≤ j.1, x i * x j * (δ * B) := by
      refine Finset.sum_le_sum_of_subset_of_nonneg ?_ ?_
      · intro j hj
        have ij : i.1 < j.1 := (Finset.mem_filter.1 hj).2
        exact Finset.mem_filter.2 ⟨Finset.mem_univ _, by omega⟩
      · intro j hj _
        exact mul_nonneg (mul_nonneg xi (hx j (Finset.mem_filter.1 hj).2)) (mul_nonneg h0 B0)
    refine this.trans (le_of_eq ?_)
    rw [← Finset.sum_mul, ← Finset.mul_sum]
  have q1 := mul_le_mul_of_nonneg_right hs (mul_nonneg h0 A0)
  have q2 := mul_le_mul_of_nonneg_right (mul_le_mul hs hs S0 (by norm_num)) (mul_nonneg h0 B0)
  norm_num at *
  linarith

theorem sizes_low (hx : ∀ i : Fin 22, 1 ≤ i.1 → 0 ≤ x i) (hs : ∑ i : Fin 22 with 1 ≤ i.1, x i ≤ 1.01)
    (h0 : 0 ≤ δ) (h1 : δ ≤ 1 / 1000) (t0 : 1 / 100 ≤ τ) (t1 : τ ≤ 1) :
    sizes PureTerm.grow1 DepTerm.grow1 x δ τ ≤ 29.5 * δ ∧ sizes PureTerm.grow2 DepTerm.grow2 x δ τ ≤ 59 * δ := by
  have h1' : δ ≤ (lowEps : ℝ) := by rw [lowEps]; push_cast; linarith
  have pk : ∀ k : Fin 22, ∀ a ∈ pureTerms.getD k.1 [], _ := fun k a ha =>
    a.low (δ := δ) (τ := τ) (of_decide_eq_true (List.all_eq_true.1 (pure_low_ok k) a ha)).1
      (of_decide_eq_true (List.all_eq_true.1 (pure_low_ok k) a ha)).2 h0 h1' (by linarith) t1
  have dk : ∀ i j : Fin 22, ∀ a ∈ (departure i.1 j.1).2, _ := fun i j a ha =>
    a.low (δ := δ) (τ := τ) (List.all_eq_true.1 (dep_low_ok i j) a ha) h0 h1' t0 t1
  have fin : ∀ {w S : ℝ} {v C : ℚ} {W : ℚ}, S ≤ δ * (C : ℝ) → w = ((|W| : ℚ) : ℝ) → |W| * C ≤ v → w * S ≤ δ * (v : ℝ) := by
    intro w S v C W hS hw hv
    have w0 : 0 ≤ w := by rw [hw]; exact_mod_cast abs_nonneg W
    have v1 : w * (C : ℝ) ≤ (v : ℝ) := by rw [hw]; exact_mod_cast hv
    have := mul_le_mul_of_nonneg_left hS w0
    have := mul_le_mul_of_nonneg_left v1 h0
    linarith
  constructor
  · have := sizes_low_gen (τ := τ) hx hs h0 PureTerm.grow1 DepTerm.grow1 13 16 (by norm_num) (by norm_num)
      (fun k => (sum_le_cast' fun a ha => low_mul (pk k a ha).1 (pk k a ha).2.1).trans
        (mul_le_mul_of_nonneg_left (Rat.cast_le.2 (pure_low_sum k).1) h0))
      (fun i j => fin (sum_le_cast' fun a ha => low_mul (dk i j a ha).1 (dk i j a ha).2.1) (Rat.cast_abs _).symm
        (dep_low_sum i j).1)
    refine this.trans (mul_le_mul_of_nonneg_right (by norm_num) h0)
  · have := sizes_low_gen (τ := τ) hx hs h0 PureTerm.grow2 DepTerm.grow2 26 32 (by norm_num) (by norm_num)
      (fun k => (sum_le_cast' fun a ha => low_mul (pk k a ha).1 (pk k a ha).2.2).trans
        (mul_le_mul_of_nonneg_left (Rat.cast_le.2 (pure_low_sum k).2) h0))
      (fun i j => fin (sum_le_cast' fun a ha => low_mul (dk i j a ha).1 (dk i j a ha).2.2) (Rat.cast_abs _).symm
        (dep_low_sum i j).2)
    refine this.trans (mul_le_mul_of_nonneg_right (by norm_num) h0)

end

end Aga8.GergEos

namespace Aga8.Gerg

open Tab F64 GergEos Newton

attribute [local irreducible] newP pressureP propertiesP

variable [Libm] {q : Pub Float}

/-- The conditions of the low-pressure theorem. -/
structure LowP (q : Pub Float) : Prop where
  dom : DensDomain q
  sum : ∑ i : Fin 22 with 1 ≤ i.1, fracs q i ≤ 1.01
  t1 : Tr (fracs q) ≤ toR q.t
  p1 : toR q.p ≤ 1000
  d1 : 3e-4 ≤ toR q.p / (8.314472 * toR q.t)
  d2 : toR q.p / (8.314472 * toR q.t) * invRhoR (fracs q) ≤ 3.6e-4

theorem low_bounds (hL : LibmAccurate) (h : LowP q) {D : ℝ} (hD : 0 ≤ D) (hδ : D * invRhoR (fracs q) ≤ 1 / 1000) :
    |GergEos.Z (fracs q) D (toR q.t) - 1| ≤ 0.0295 ∧ |dPdD (fracs q) D (toR q.t) - 1| ≤ 0.118 ∧
      GergEos.Zabs (fracs q) D (toR q.t) ≤ 1.0295 ∧ dPdDabs (fracs q) D (toR q.t) ≤ 1.118 := by
  have hτ : 0 < Tr (yOf (xr q.x)) / toR q.t := tau_pos (q := atD q (f% 0.0)) hL h.dom.zero
  have e := fracs_eq (okX_of h.dom.zero)
  have e' : ∀ i : Fin 22, 1 ≤ i.1 → fracs q i = yOf (xr q.x) i := e
  have eV : invRhoR (fracs q) = invRhoR (yOf (xr q.x)) := reducing_congr' e' _ _
  have v0 := invRho_nonneg h.dom
  have δ0 := mul_nonneg hD v0
  have T0 : 0 < toR q.t := by linarith [h.dom.t_low]
  obtain ⟨c1, c2⟩ := Z_close (xr q.x) (D := D) (T := toR q.t) hτ (by rw [← eV]; exact δ0)
  rw [← Z_congr' e', ← Zabs_congr' e'] at c1
  rw [← dPdD_congr' e', ← dPdDabs_congr' e'] at c2
  obtain ⟨s1, s2⟩ := sizes_low (x := fracs q) (τ := Tr (fracs q) / toR q.t) (fun i _ => le_max_right _ _) h.sum δ0 hδ
    (by rw [le_div_iff₀ T0]; linarith [h.dom.t_red1]) ((div_le_one T0).2 h.t1)
  have z : GergEos.Zabs (fracs q) D (toR q.t) ≤ 1.0295 := by
    unfold GergEos.Zabs
    norm_num at *
    linarith
  have d : dPdDabs (fracs q) D (toR q.t) ≤ 1.118 := by
    unfold dPdDabs
    norm_num at *
    linarith
  refine ⟨?_, ?_, z, d⟩
  · norm_num at *; linarith
  · norm_num at *; linarith

theorem low_curve (hL : LibmAccurate) (h : LowP q) : F64Curve q (toR q.p / (8.314472 * toR q.t)) 1.3 0.85 1 := by
  have v0 := invRho_nonneg h.dom
  have T0 : 0 < toR q.t := by linarith [h.dom.t_low]
  have P0 : 0 < toR q.p := lt_of_lt_of_le (by norm_num) h.dom.p_low
  have hd1 := h.d1
  have hd2 := h.d2
  have D300 : toR q.p / (8.314472 * toR q.t) ≤ 300 := by
    rw [div_le_iff₀ (by positivity)]
    have := h.p1
    have := h.dom.t_low
    norm_num
    linarith
  have PT0 : PT q (toR q.p / (8.314472 * toR q.t)) = toR q.p * GergEos.Z (fracs q) (toR q.p / (8.314472 * toR q.t)) (toR q.t) := by
    unfold PT; field_simp
  have D0p : 0 < toR q.p / (8.314472 * toR q.t) := by positivity
  generalize toR q.p / (8.314472 * toR q.t) = D0 at *
  have b2 := Real.exp_one_lt_d9
  have rng : ∀ D, D ≤ D0 * Real.exp 1 → D * invRhoR (fracs q) ≤ 1 / 1000 := by
    intro D b
    have h1 := mul_le_mul_of_nonneg_right b v0
    have h2 := mul_le_mul hd2 b2.le (Real.exp_pos _).le (by norm_num)
    have h3 : D0 * Real.exp 1 * invRhoR (fracs q) = D0 * invRhoR (fracs q) * Real.exp 1 := by ring
    norm_num at *
    linarith
  refine ⟨h.dom, by norm_num, by norm_num, by norm_num, by norm_num, by norm_num, hd1, D300, hd2.trans (by norm_num), ?_, ?_⟩
  · intro D a b
    have hD : 0 ≤ D := le_trans (by positivity) a
    obtain ⟨c1, c2, c3, c4⟩ := low_bounds hL h hD (rng D b)
    generalize GergEos.Z (fracs q) D (toR q.t) = Z at *
    generalize dPdD (fracs q) D (toR q.t) = Y at *
    rw [abs_le] at c1 c2
    have z0 : 0 < Z := by norm_num at c1; linarith [c1.1]
    norm_num at c1 c2 c3 c4 ⊢
    refine ⟨z0, by linarith, by linarith, ?_, ?_⟩
    · rw [le_div_iff₀ z0]; linarith
    · rw [div_le_iff₀ z0]; linarith
  · obtain ⟨c1, -⟩ := low_bounds hL h D0p.le (rng D0 (by
      have : (1 : ℝ) ≤ Real.exp 1 := Real.one_le_exp (by norm_num)
      nlinarith))
    have z0 : 0 < GergEos.Z (fracs q) D0 (toR q.t) := by
      rw [abs_le] at c1; norm_num at c1; linarith [c1.1]
    rw [PT0, Real.log_mul P0.ne' z0.ne', add_sub_cancel_left]
    have := log_small (c1.trans (by norm_num))
    rw [add_sub_cancel] at this
    exact this.trans (by norm_num)

end Aga8.Gerg
