import Verif.Lemmas.DetailBox

/-! # Bounds on intervals of temperature and density

The bounds are integers, in units of 1e-6. They are compared with exact rational expressions. -/

set_option linter.unusedSectionVars false

namespace Aga8.Detail

open FOps Tab

/-! ## Products and sums of intervals -/

/-- `x` lies in the interval `p`, in units of 1e-6. -/
def In (x : ℝ) (p : ℤ × ℤ) : Prop := (p.1 : ℝ) ≤ x * 10 ^ 6 ∧ x * 10 ^ 6 ≤ p.2

/-- A lower bound of the product of two intervals. -/
def lowMul (a b : ℤ × ℤ) : ℤ :=
  if 0 ≤ b.1 then (if 0 ≤ a.1 then a.1 * b.1 else a.1 * b.2)
  else min (min (a.1 * b.1) (a.1 * b.2)) (min (a.2 * b.1) (a.2 * b.2))

/-- An upper bound of the product of two intervals. -/
def highMul (a b : ℤ × ℤ) : ℤ :=
  if 0 ≤ b.1 then (if 0 ≤ a.2 then a.2 * b.2 else a.2 * b.1)
  else max (max (a.1 * b.1) (a.1 * b.2)) (max (a.2 * b.1) (a.2 * b.2))

theorem corner_low {a b c d x y : ℝ} (h1 : a ≤ x) (h2 : x ≤ b) (h3 : c ≤ y) (h4 : y ≤ d) :
    min (min (a * c) (a * d)) (min (b * c) (b * d)) ≤ x * y := by
  simp only [min_le_iff]
  rcases le_total 0 y with hy | hy
  · rcases le_total 0 a with ha | ha
    · exact Or.inl (Or.inl (by nlinarith))
    · exact Or.inl (Or.inr (by nlinarith))
  · rcases le_total 0 b with hb | hb
    · exact Or.inr (Or.inl (by nlinarith))
    · exact Or.inr (Or.inr (by nlinarith))

theorem corner_high {a b c d x y : ℝ} (h1 : a ≤ x) (h2 : x ≤ b) (h3 : c ≤ y) (h4 : y ≤ d) :
    x * y ≤ max (max (a * c) (a * d)) (max (b * c) (b * d)) := by
  simp only [le_max_iff]
  rcases le_total 0 y with hy | hy
  · rcases le_total 0 b with ha | ha
    · exact Or.inr (Or.inr (by nlinarith))
    · exact Or.inr (Or.inl (by nlinarith))
  · rcases le_total 0 a with hb | hb
    · exact Or.inl (Or.inr (by nlinarith))
    · exact Or.inl (Or.inl (by nlinarith))

theorem lowMul_le {x y : ℝ} {a b : ℤ × ℤ} (hx : In x a) (hy : In y b) : (lowMul a b : ℝ) ≤ x * y * 10 ^ 12 := by
  obtain ⟨x1, x2⟩ := hx
  obtain ⟨y1, y2⟩ := hy
  have e : x * y * 10 ^ 12 = (x * 10 ^ 6) * (y * 10 ^ 6) := by ring
  rw [e]
  generalize x * 10 ^ 6 = u at *
  generalize y * 10 ^ 6 = v at *
  unfold lowMul
  split
  · next hb =>
    have hb' : (0 : ℝ) ≤ b.1 := by exact_mod_cast hb
    split
    · next ha =>
      have ha' : (0 : ℝ) ≤ a.1 := by exact_mod_cast ha
      push_cast
      exact mul_le_mul x1 y1 hb' (ha'.trans x1)
    · next ha =>
      have ha' : (a.1 : ℝ) ≤ 0 := by exact_mod_cast (not_le.1 ha).le
      push_cast
      have := mul_le_mul_of_nonneg_right x1 (hb'.trans y1)
      have := mul_le_mul_of_nonpos_left y2 ha'
      linarith
  · push_cast
    exact corner_low x1 x2 y1 y2

theorem le_highMul {x y : ℝ} {a b : ℤ × ℤ} (hx : In x a) (hy : In y b) : x * y * 10 ^ 12 ≤ (highMul a b : ℝ) := by
  obtain ⟨x1, x2⟩ := hx
  obtain ⟨y1, y2⟩ := hy
  have e : x * y * 10 ^ 12 = (x * 10 ^ 6) * (y * 10 ^ 6) := by ring
  rw [e]
  generalize x * 10 ^ 6 = u at *
  generalize y * 10 ^ 6 = v at *
  unfold highMul
  split
  · next hb =>
    have hb' : (0 : ℝ) ≤ b.1 := by exact_mod_cast hb
    have v0 := hb'.trans y1
    split
    · next ha =>
      have ha' : (0 : ℝ) ≤ a.2 := by exact_mod_cast ha
      push_cast
      exact mul_le_mul x2 y2 v0 ha'
    · next ha =>
      have ha' : (a.2 : ℝ) ≤ 0 := by exact_mod_cast (not_le.1 ha).le
      push_cast
      have := mul_le_mul_of_nonneg_right x2 v0
      have := mul_le_mul_of_nonpos_left y1 ha'
      linarith
  · push_cast
    exact corner_high x1 x2 y1 y2

def lowS : List (ℤ × ℤ) → List (ℤ × ℤ) → ℤ
  | a :: as, b :: bs => lowMul a b + lowS as bs
  | _, _ => 0
def highS : List (ℤ × ℤ) → List (ℤ × ℤ) → ℤ
  | a :: as, b :: bs => highMul a b + highS as bs
  | _, _ => 0
def absS : List ℤ → List ℤ → ℤ
  | a :: as, b :: bs => a * b + absS as bs
  | _, _ => 0

/-- The numbers `c` lie in the intervals `l`. -/
def InL {n : ℕ} (c : Fin n → ℝ) (l : List (ℤ × ℤ)) : Prop := l.length = n ∧ ∀ j : Fin n, In (c j) (l.getD j.1 (0, 0))
/-- The numbers `c` are not negative and at most those of `l`. -/
def LeL {n : ℕ} (c : Fin n → ℝ) (l : List ℤ) : Prop :=
  l.length = n ∧ ∀ j : Fin n, 0 ≤ c j ∧ c j * 10 ^ 6 ≤ (l.getD j.1 0 : ℤ)

theorem sum_in {n : ℕ} {c φ : Fin n → ℝ} {C Q : List (ℤ × ℤ)} (hc : InL c C) (hφ : InL φ Q) :
    (lowS C Q : ℝ) ≤ (∑ j, c j * φ j) * 10 ^ 12 ∧ (∑ j, c j * φ j) * 10 ^ 12 ≤ highS C Q := by
  induction n generalizing C Q with
  | zero =>
    have e : C = [] := List.length_eq_zero_iff.1 hc.1
    subst e
    simp [lowS, highS]
  | succ n ih =>
    obtain ⟨l1, c1⟩ := hc
    obtain ⟨l2, c2⟩ := hφ
    cases C with
    | nil => simp at l1
    | cons a as =>
      cases Q with
      | nil => simp at l2
      | cons b bs =>
        simp only [List.length_cons, Nat.add_right_cancel_iff] at l1 l2
        obtain ⟨i1, i2⟩ := ih (c := fun j => c j.succ) (φ := fun j => φ j.succ) (C := as) (Q := bs)
          ⟨l1, fun j => c1 j.succ⟩ ⟨l2, fun j => c2 j.succ⟩
        have j1 := lowMul_le (c1 0) (c2 0)
        have j2 := le_highMul (c1 0) (c2 0)
        rw [Fin.sum_univ_succ, lowS, highS]
        push_cast
        simp only [Fin.val_zero, List.getD_cons_zero] at j1 j2
        constructor <;> linarith

theorem sum_abs {n : ℕ} {c φ : Fin n → ℝ} {C Q : List ℤ} (hc : LeL c C) (hφ : LeL φ Q) :
    (∑ j, c j * φ j) * 10 ^ 12 ≤ absS C Q := by
  induction n generalizing C Q with
  | zero =>
    have e : C = [] := List.length_eq_zero_iff.1 hc.1
    subst e
    simp [absS]
  | succ n ih =>
    obtain ⟨l1, c1⟩ := hc
    obtain ⟨l2, c2⟩ := hφ
    cases C with
    | nil => simp at l1
    | cons a as =>
      cases Q with
      | nil => simp at l2
      | cons b bs =>
        simp only [List.length_cons, Nat.add_right_cancel_iff] at l1 l2
        have i1 := ih (c := fun j => c j.succ) (φ := fun j => φ j.succ) (C := as) (Q := bs)
          ⟨l1, fun j => c1 j.succ⟩ ⟨l2, fun j => c2 j.succ⟩
        obtain ⟨a0, a1⟩ := c1 0
        obtain ⟨b0, b1⟩ := c2 0
        simp only [Fin.val_zero, List.getD_cons_zero] at a1 b1
        rw [Fin.sum_univ_succ, absS]
        push_cast
        have := mul_le_mul a1 b1 (by positivity) (le_trans (by positivity) a1)
        linarith

/-! ## Density factors on an interval -/

theorem exp4 {y : ℝ} (h0 : 0 ≤ y) (h1 : y ≤ 1) :
    1 - y + y ^ 2 / 2 - y ^ 3 / 6 - 5 / 96 * y ^ 4 ≤ Real.exp (-y) ∧
      Real.exp (-y) ≤ 1 - y + y ^ 2 / 2 - y ^ 3 / 6 + 5 / 96 * y ^ 4 := by
  have h := Real.exp_bound (x := -y) (by rw [abs_neg, abs_of_nonneg h0]; exact h1) (n := 4) (by norm_num)
  rw [abs_neg, abs_of_nonneg h0, abs_le] at h
  simp only [Finset.sum_range_succ, Finset.sum_range_zero, Nat.factorial] at h
  norm_num at h
  constructor
  · linarith [h.1]
  · linarith [h.2]

def elQ (k : ℕ) (r : ℚ) : ℚ := if k = 0 then 1 else 1 - r ^ k + (r ^ k) ^ 2 / 2 - (r ^ k) ^ 3 / 6 - 5 / 96 * (r ^ k) ^ 4
def ehQ (k : ℕ) (r : ℚ) : ℚ := if k = 0 then 1 else 1 - r ^ k + (r ^ k) ^ 2 / 2 - (r ^ k) ^ 3 / 6 + 5 / 96 * (r ^ k) ^ 4

theorem expK_in {k : ℕ} {r0 r1 : ℚ} {r : ℝ} (h0 : 0 ≤ r0) (h1 : (r0 : ℝ) ≤ r) (h2 : r ≤ r1) (h3 : r1 ≤ 1) :
    (elQ k r1 : ℝ) ≤ expK k r ∧ expK k r ≤ ehQ k r0 := by
  have h0' : (0 : ℝ) ≤ r0 := by exact_mod_cast h0
  have h3' : (r1 : ℝ) ≤ 1 := by exact_mod_cast h3
  unfold elQ ehQ expK
  by_cases hk : k = 0
  · simp [hk]
  · rw [if_neg hk, if_neg hk, if_neg hk]
    push_cast
    have p1 : (r0 : ℝ) ^ k ≤ r ^ k := pow_le_pow_left₀ h0' h1 k
    have p2 : r ^ k ≤ (r1 : ℝ) ^ k := pow_le_pow_left₀ (h0'.trans h1) h2 k
    have p3 : (r1 : ℝ) ^ k ≤ 1 := pow_le_one₀ ((h0'.trans h1).trans h2) h3'
    have p0 : (0 : ℝ) ≤ (r0 : ℝ) ^ k := pow_nonneg h0' k
    constructor
    · exact (exp4 (by linarith) p3).1.trans (Real.exp_le_exp.2 (by linarith))
    · exact (Real.exp_le_exp.2 (by linarith)).trans (exp4 p0 (by linarith)).2

def hZq (b k : ℕ) (y : ℚ) : ℚ := b - k * y
def hPq (b k : ℕ) (y : ℚ) : ℚ := (b - k * y) * (b - k * y + 1) - k * k * y
def hZaq (b k : ℕ) (y : ℚ) : ℚ := b + k * y
def hPaq (b k : ℕ) (y : ℚ) : ℚ := (b + k * y) * (b + k * y + 3) + k * k * y

theorem hZq_real (b k : ℕ) (y : ℚ) : ((hZq b k y : ℚ) : ℝ) = hZ b k y := by unfold hZq hZ; push_cast; rfl
theorem hPq_real (b k : ℕ) (y : ℚ) : ((hPq b k y : ℚ) : ℝ) = hP b k y := by unfold hPq hP; push_cast; rfl
theorem hZaq_real (b k : ℕ) (y : ℚ) : ((hZaq b k y : ℚ) : ℝ) = hZa b k y := by unfold hZaq hZa; push_cast; rfl
theorem hPaq_real (b k : ℕ) (y : ℚ) : ((hPaq b k y : ℚ) : ℝ) = hPa b k y := by unfold hPaq hPa; push_cast; rfl

/-- A function of the density that decreases while `k y ≤ b`. -/
def Anti (h : ℕ → ℕ → ℝ → ℝ) : Prop := ∀ (b k : ℕ) (y z : ℝ), y ≤ z → (k : ℝ) * z ≤ b → h b k z ≤ h b k y
/-- A function of the density that is not negative and increases. -/
def MonoPos (h : ℕ → ℕ → ℝ → ℝ) : Prop := ∀ (b k : ℕ) (y z : ℝ), 0 ≤ y → y ≤ z → 0 ≤ h b k y ∧ h b k y ≤ h b k z

theorem hZ_anti : Anti hZ := by
  intro b k y z h1 _
  unfold hZ
  have := mul_le_mul_of_nonneg_left h1 (Nat.cast_nonneg k : (0 : ℝ) ≤ k)
  linarith

theorem hP_anti : Anti hP := by
  intro b k y z h1 h2
  unfold hP
  have k0 : (0 : ℝ) ≤ k := Nat.cast_nonneg k
  have h3 := mul_le_mul_of_nonneg_left h1 k0
  have h4 := mul_le_mul_of_nonneg_left h3 k0
  have h5 : (b - k * z : ℝ) * (b - k * z + 1) ≤ (b - k * y) * (b - k * y + 1) :=
    mul_le_mul (by linarith) (by linarith) (by linarith) (by linarith)
  linarith

theorem hZa_mono : MonoPos hZa := by
  intro b k y z h0 h1
  unfold hZa
  have k0 : (0 : ℝ) ≤ k := Nat.cast_nonneg k
  have h3 := mul_le_mul_of_nonneg_left h1 k0
  exact ⟨by positivity, by linarith⟩

theorem hPa_mono : MonoPos hPa := by
  intro b k y z h0 h1
  unfold hPa
  have k0 : (0 : ℝ) ≤ k := Nat.cast_nonneg k
  have b0 : (0 : ℝ) ≤ b := Nat.cast_nonneg b
  have h3 := mul_le_mul_of_nonneg_left h1 k0
  have h4 := mul_le_mul_of_nonneg_left h3 k0
  have h5 : (b + k * y : ℝ) * (b + k * y + 3) ≤ (b + k * z) * (b + k * z + 3) :=
    mul_le_mul (by linarith) (by linarith) (by positivity) (by linarith [mul_nonneg k0 (h0.trans h1)])
  exact ⟨by positivity, by linarith⟩

/-- The interval `[r0, r1]` can be treated. -/
def rowOk (r0 r1 : ℚ) : Bool :=
  decide (0 ≤ r0 ∧ r0 ≤ r1 ∧ r1 ≤ 1) && (List.finRange 17).all fun j => decide ((bk j).2 * r1 ^ (bk j).2 ≤ (bk j).1 ∧
    0 ≤ elQ (bk j).2 r1)

def phiChk (hq : ℕ → ℕ → ℚ → ℚ) (r0 r1 : ℚ) (b k : ℕ) (p : ℤ × ℤ) : Bool :=
  let P0 := r0 ^ b * elQ k r1
  let P1 := r1 ^ b * ehQ k r0
  let H1 := hq b k (r1 ^ k)
  let H0 := hq b k (r0 ^ k)
  decide ((p.1 : ℚ) ≤ P0 * H1 * 10 ^ 6) && decide ((p.1 : ℚ) ≤ P1 * H1 * 10 ^ 6) &&
    decide (P0 * H0 * 10 ^ 6 ≤ p.2) && decide (P1 * H0 * 10 ^ 6 ≤ p.2)

def rowChk (hq : ℕ → ℕ → ℚ → ℚ) (l r0 r1 : ℚ) (p : List (ℤ × ℤ)) : Bool :=
  decide (p.length = 18) && decide (((p.getD 0 (0, 0)).1 : ℚ) ≤ l * r0 * 10 ^ 6) &&
    decide (l * r1 * 10 ^ 6 ≤ ((p.getD 0 (0, 0)).2 : ℚ)) &&
    (List.finRange 17).all fun j => phiChk hq r0 r1 (bk j).1 (bk j).2 (p.getD (j.1 + 1) (0, 0))

def rowAbsChk (hq : ℕ → ℕ → ℚ → ℚ) (l r0 r1 : ℚ) (p : List ℤ) : Bool :=
  decide (p.length = 18) && decide (l * r1 * 10 ^ 6 ≤ ((p.getD 0 0 : ℤ) : ℚ)) &&
    (List.finRange 17).all fun j => decide (r1 ^ (bk j).1 * ehQ (bk j).2 r0 * hq (bk j).1 (bk j).2 (r1 ^ (bk j).2) * 10 ^ 6
      ≤ ((p.getD (j.1 + 1) 0 : ℤ) : ℚ))

theorem rowOk_spec {r0 r1 : ℚ} (h : rowOk r0 r1 = true) : 0 ≤ r0 ∧ r0 ≤ r1 ∧ r1 ≤ 1 ∧
    ∀ j, ((bk j).2 : ℚ) * r1 ^ (bk j).2 ≤ (bk j).1 ∧ 0 ≤ elQ (bk j).2 r1 := by
  unfold rowOk at h
  simp only [Bool.and_eq_true, decide_eq_true_eq, List.all_eq_true, List.mem_finRange, forall_const] at h
  exact ⟨h.1.1, h.1.2.1, h.1.2.2, h.2⟩

section
variable {r0 r1 : ℚ} {r : ℝ} (h1 : (r0 : ℝ) ≤ r) (h2 : r ≤ r1)
include h1 h2

theorem pow_exp_in (ok : rowOk r0 r1 = true) (j : Fin 17) :
    (0 : ℝ) ≤ (r0 : ℝ) ^ (bk j).1 * elQ (bk j).2 r1 ∧
    (r0 : ℝ) ^ (bk j).1 * elQ (bk j).2 r1 ≤ r ^ (bk j).1 * expK (bk j).2 r ∧
      r ^ (bk j).1 * expK (bk j).2 r ≤ (r1 : ℝ) ^ (bk j).1 * ehQ (bk j).2 r0 := by
  obtain ⟨o1, o2, o3, o4⟩ := rowOk_spec ok
  obtain ⟨-, o5⟩ := o4 j
  obtain ⟨e1, e2⟩ := expK_in (k := (bk j).2) o1 h1 h2 o3
  have o1' : (0 : ℝ) ≤ r0 := by exact_mod_cast o1
  have o5' : (0 : ℝ) ≤ elQ (bk j).2 r1 := by exact_mod_cast o5
  have r0' := o1'.trans h1
  refine ⟨mul_nonneg (pow_nonneg o1' _) o5', ?_, ?_⟩
  · exact mul_le_mul (pow_le_pow_left₀ o1' h1 _) e1 o5' (pow_nonneg r0' _)
  · exact mul_le_mul (pow_le_pow_left₀ r0' h2 _) e2 (Real.exp_pos _).le (pow_nonneg (r0'.trans h2) _)

theorem row_in {h : ℕ → ℕ → ℝ → ℝ} {hq : ℕ → ℕ → ℚ → ℚ} (hr : ∀ b k y, ((hq b k y : ℚ) : ℝ) = h b k y) (ha : Anti h)
    (ok : rowOk r0 r1 = true) {l : ℚ} (hl : 0 ≤ l) {p : List (ℤ × ℤ)} (c : rowChk hq l r0 r1 p = true) :
    InL (dens l h r) p := by
  obtain ⟨o1, o2, o3, o4⟩ := rowOk_spec ok
  have o1' : (0 : ℝ) ≤ r0 := by exact_mod_cast o1
  have hl' : (0 : ℝ) ≤ l := by exact_mod_cast hl
  unfold rowChk at c
  simp only [Bool.and_eq_true, decide_eq_true_eq, List.all_eq_true, List.mem_finRange, forall_const] at c
  obtain ⟨⟨⟨c0, c1⟩, c2⟩, c3⟩ := c
  refine ⟨c0, Fin.cases ?_ fun j => ?_⟩
  · have c1' : (((p.getD 0 (0, 0)).1 : ℤ) : ℝ) ≤ l * r0 * 10 ^ 6 := by exact_mod_cast c1
    have c2' : (l : ℝ) * r1 * 10 ^ 6 ≤ ((p.getD 0 (0, 0)).2 : ℤ) := by exact_mod_cast c2
    have a1 := mul_le_mul_of_nonneg_left h1 hl'
    have a2 := mul_le_mul_of_nonneg_left h2 hl'
    simp only [dens, Fin.cases_zero]
    exact ⟨by simp only [Fin.val_zero]; linarith, by simp only [Fin.val_zero]; linarith⟩
  · have c := c3 j
    unfold phiChk at c
    simp only [Bool.and_eq_true, decide_eq_true_eq] at c
    obtain ⟨⟨⟨d1, d2⟩, d3⟩, d4⟩ := c
    obtain ⟨p0, p1, p2⟩ := pow_exp_in h1 h2 ok j
    have q1 : (r0 : ℝ) ^ (bk j).2 ≤ r ^ (bk j).2 := pow_le_pow_left₀ o1' h1 _
    have q2 : r ^ (bk j).2 ≤ (r1 : ℝ) ^ (bk j).2 := pow_le_pow_left₀ (o1'.trans h1) h2 _
    have g : ((bk j).2 : ℝ) * (r1 : ℝ) ^ (bk j).2 ≤ (bk j).1 := by exact_mod_cast (o4 j).1
    have k0 : (0 : ℝ) ≤ (bk j).2 := Nat.cast_nonneg _
    have t1 := ha (bk j).1 (bk j).2 _ _ q2 g
    have t2 := ha (bk j).1 (bk j).2 _ _ q1 (le_trans (mul_le_mul_of_nonneg_left q2 k0) g)
    have u1 := hr (bk j).1 (bk j).2 (r1 ^ (bk j).2)
    have u0 := hr (bk j).1 (bk j).2 (r0 ^ (bk j).2)
    push_cast at u0 u1
    rw [← u1] at t1
    rw [← u0] at t2
    have d1' : (((p.getD (j.1 + 1) (0, 0)).1 : ℤ) : ℝ) ≤
        (r0 : ℝ) ^ (bk j).1 * elQ (bk j).2 r1 * hq (bk j).1 (bk j).2 (r1 ^ (bk j).2) * 10 ^ 6 := by exact_mod_cast d1
    have d2' : (((p.getD (j.1 + 1) (0, 0)).1 : ℤ) : ℝ) ≤
        (r1 : ℝ) ^ (bk j).1 * ehQ (bk j).2 r0 * hq (bk j).1 (bk j).2 (r1 ^ (bk j).2) * 10 ^ 6 := by exact_mod_cast d2
    have d3' : (r0 : ℝ) ^ (bk j).1 * elQ (bk j).2 r1 * hq (bk j).1 (bk j).2 (r0 ^ (bk j).2) * 10 ^ 6 ≤
        ((p.getD (j.1 + 1) (0, 0)).2 : ℤ) := by exact_mod_cast d3
    have d4' : (r1 : ℝ) ^ (bk j).1 * ehQ (bk j).2 r0 * hq (bk j).1 (bk j).2 (r0 ^ (bk j).2) * 10 ^ 6 ≤
        ((p.getD (j.1 + 1) (0, 0)).2 : ℤ) := by exact_mod_cast d4
    simp only [dens, Fin.cases_succ, Fin.val_succ]
    have e : p.getD (j.1 + 1) (0, 0) = ((p.getD (j.1 + 1) (0, 0)).1, (p.getD (j.1 + 1) (0, 0)).2) := rfl
    generalize (p.getD (j.1 + 1) (0, 0)) = pp at *
    generalize h (bk j).1 (bk j).2 (r ^ (bk j).2) = H at *
    generalize ((hq (bk j).1 (bk j).2 (r1 ^ (bk j).2) : ℚ) : ℝ) = H1 at *
    generalize ((hq (bk j).1 (bk j).2 (r0 ^ (bk j).2) : ℚ) : ℝ) = H0 at *
    generalize r ^ (bk j).1 * expK (bk j).2 r = P at *
    generalize (r0 : ℝ) ^ (bk j).1 * elQ (bk j).2 r1 = P0 at *
    generalize (r1 : ℝ) ^ (bk j).1 * ehQ (bk j).2 r0 = P1 at *
    have Pn := p0.trans p1
    constructor
    · rcases le_total 0 H1 with s | s
      · have : P0 * H1 ≤ P * H := (mul_le_mul_of_nonneg_right p1 s).trans (mul_le_mul_of_nonneg_left t1 Pn)
        linarith
      · have : P1 * H1 ≤ P * H := (mul_le_mul_of_nonpos_right p2 s).trans (mul_le_mul_of_nonneg_left t1 Pn)
        linarith
    · rcases le_total 0 H0 with s | s
      · have : P * H ≤ P1 * H0 := (mul_le_mul_of_nonneg_left t2 Pn).trans (mul_le_mul_of_nonneg_right p2 s)
        linarith
      · have : P * H ≤ P0 * H0 := (mul_le_mul_of_nonneg_left t2 Pn).trans (mul_le_mul_of_nonpos_right p1 s)
        linarith

theorem row_abs {h : ℕ → ℕ → ℝ → ℝ} {hq : ℕ → ℕ → ℚ → ℚ} (hr : ∀ b k y, ((hq b k y : ℚ) : ℝ) = h b k y) (ha : MonoPos h)
    (ok : rowOk r0 r1 = true) {l : ℚ} (hl : 0 ≤ l) {p : List ℤ} (c : rowAbsChk hq l r0 r1 p = true) :
    LeL (dens l h r) p := by
  obtain ⟨o1, o2, o3, o4⟩ := rowOk_spec ok
  have o1' : (0 : ℝ) ≤ r0 := by exact_mod_cast o1
  have hl' : (0 : ℝ) ≤ l := by exact_mod_cast hl
  have rn := o1'.trans h1
  unfold rowAbsChk at c
  simp only [Bool.and_eq_true, decide_eq_true_eq, List.all_eq_true, List.mem_finRange, forall_const] at c
  obtain ⟨⟨c0, c2⟩, c3⟩ := c
  refine ⟨c0, Fin.cases ?_ fun j => ?_⟩
  · have c2' : (l : ℝ) * r1 * 10 ^ 6 ≤ (p.getD 0 0 : ℤ) := by exact_mod_cast c2
    have a2 := mul_le_mul_of_nonneg_left h2 hl'
    simp only [dens, Fin.cases_zero]
    exact ⟨mul_nonneg hl' rn, by simp only [Fin.val_zero]; linarith⟩
  · obtain ⟨p0, p1, p2⟩ := pow_exp_in h1 h2 ok j
    have q2 : r ^ (bk j).2 ≤ (r1 : ℝ) ^ (bk j).2 := pow_le_pow_left₀ rn h2 _
    obtain ⟨t0, t1⟩ := ha (bk j).1 (bk j).2 _ _ (pow_nonneg rn _) q2
    have u1 := hr (bk j).1 (bk j).2 (r1 ^ (bk j).2)
    push_cast at u1
    rw [← u1] at t1
    have d : (r1 : ℝ) ^ (bk j).1 * ehQ (bk j).2 r0 * hq (bk j).1 (bk j).2 (r1 ^ (bk j).2) * 10 ^ 6 ≤
        (p.getD (j.1 + 1) 0 : ℤ) := by exact_mod_cast c3 j
    simp only [dens, Fin.cases_succ, Fin.val_succ]
    have Pn := p0.trans p1
    refine ⟨mul_nonneg Pn t0, ?_⟩
    have := mul_le_mul p2 t1 t0 (Pn.trans p2)
    linarith

end

/-! ## Temperature factors on an interval -/

def tlo (s0 s1 : ℚ) (n : Fin 58) : ℚ := if 0 ≤ u2 n then s0 ^ u2 n else s1 ^ u2 n
def thi (s0 s1 : ℚ) (n : Fin 58) : ℚ := if 0 ≤ u2 n then s1 ^ u2 n else s0 ^ u2 n

theorem rpow_sq_le {a b x : ℝ} (ha : 0 < a) (h1 : a ^ 2 ≤ x) (h2 : x ≤ b ^ 2) (hb : 0 < b) (k : ℤ) :
    (0 ≤ k → a ^ k ≤ x ^ ((k : ℝ) / 2) ∧ x ^ ((k : ℝ) / 2) ≤ b ^ k) ∧
      (k < 0 → b ^ k ≤ x ^ ((k : ℝ) / 2) ∧ x ^ ((k : ℝ) / 2) ≤ a ^ k) := by
  have a2 : 0 < a ^ 2 := by positivity
  have x0 : 0 < x := lt_of_lt_of_le a2 h1
  rw [← rpow_half ha, ← rpow_half hb]
  constructor
  · intro hk
    have hk' : (0 : ℝ) ≤ (k : ℝ) / 2 := by have : (0 : ℝ) ≤ k := by exact_mod_cast hk
                                           positivity
    exact ⟨Real.rpow_le_rpow a2.le h1 hk', Real.rpow_le_rpow x0.le h2 hk'⟩
  · intro hk
    have hk' : (k : ℝ) / 2 ≤ 0 := by have : (k : ℝ) ≤ 0 := by exact_mod_cast hk.le
                                     linarith
    exact ⟨Real.rpow_le_rpow_of_nonpos x0 h2 hk', Real.rpow_le_rpow_of_nonpos a2 h1 hk'⟩

theorem theta_in {s0 s1 : ℚ} {T : ℝ} (hT : 0 < T) (h0 : 0 < s0) (h01 : s0 ≤ s1) (h1 : (s0 : ℝ) ^ 2 ≤ mE / T)
    (h2 : mE / T ≤ (s1 : ℝ) ^ 2) (n : Fin 58) :
    (tlo s0 s1 n : ℝ) ≤ theta T n ∧ theta T n ≤ thi s0 s1 n ∧ 0 ≤ theta T n := by
  have hE := mE_pos
  have e : theta T n = (mE / T) ^ ((u2 n : ℝ) / 2) := by
    unfold theta
    rw [← c_UN, Real.div_rpow hE.le hT.le, Real.rpow_neg hT.le, div_eq_mul_inv]
  have p0 : (0 : ℝ) < s0 := by exact_mod_cast h0
  have p1 : (0 : ℝ) < s1 := by exact_mod_cast h0.trans_le h01
  obtain ⟨q1, q2⟩ := rpow_sq_le p0 h1 h2 p1 (u2 n)
  rw [e]
  unfold tlo thi
  have nn : (0 : ℝ) ≤ (mE / T) ^ ((u2 n : ℝ) / 2) := by positivity
  by_cases h : 0 ≤ u2 n
  · rw [if_pos h, if_pos h]; push_cast; exact ⟨(q1 h).1, (q1 h).2, nn⟩
  · rw [if_neg h, if_neg h]; push_cast; exact ⟨(q2 (not_le.1 h)).1, (q2 (not_le.1 h)).2, nn⟩

/-- Coefficient `n`, exactly. -/
def anq (n : Fin 58) : ℚ := ((aget AN n).m : ℚ) / 10 ^ (aget AN n).e

theorem anq_real (n : Fin 58) : ((anq n : ℚ) : ℝ) = Eos.c AN n := by
  unfold anq Eos.c aget
  push_cast
  rfl

/-- The terms that contribute to the temperature factor `j`. -/
def nsTab : List (List (Fin 58)) :=
  [[0, 1, 2, 3, 13, 14, 16, 17], [13, 14], [16, 17], [18, 19], [20, 21, 22], [23],
    [30], [35], [37, 38], [39, 40], [42, 43], [44],
    [45], [47], [49], [52], [54], [56]]
def ns (j : Fin 18) : List (Fin 58) := nsTab.getD j.1 []

theorem ns_all : ∀ j : Fin 18, (ns j).Nodup ∧ ∀ n : Fin 58, n ∉ ns j → mult (-1) j n = 0 ∧ mult 1 j n = 0 := by decide +kernel

theorem ns_sum (j : Fin 18) (f : Fin 58 → ℚ) (hf : ∀ n, mult (-1) j n = 0 → mult 1 j n = 0 → f n = 0) :
    ((ns j).map f).sum = ∑ n, f n := by
  rw [← List.sum_toFinset f (ns_all j).1]
  refine Finset.sum_subset (Finset.subset_univ _) fun n _ h => ?_
  obtain ⟨a, b⟩ := (ns_all j).2 n (fun hh => h (List.mem_toFinset.2 hh))
  exact hf n a b

def cLow (s0 s1 : ℚ) (j : Fin 18) (n : Fin 58) : ℚ :=
  let v := mult (-1) j n * anq n
  min (v * tlo s0 s1 n) (v * thi s0 s1 n)
def cHigh (s0 s1 : ℚ) (j : Fin 18) (n : Fin 58) : ℚ :=
  let v := mult (-1) j n * anq n
  max (v * tlo s0 s1 n) (v * thi s0 s1 n)
def cAbs (s0 s1 : ℚ) (j : Fin 18) (n : Fin 58) : ℚ := mult 1 j n * (aabs n * thi s0 s1 n)

def stripChk (s0 s1 : ℚ) (p : List (ℤ × ℤ)) (a : List ℤ) : Bool :=
  decide (0 < s0 ∧ s0 ≤ s1) && decide (p.length = 18) && decide (a.length = 18) && (List.finRange 18).all fun j =>
    decide (((p.getD j.1 (0, 0)).1 : ℚ) ≤ ((ns j).map (cLow s0 s1 j)).sum * 10 ^ 6) &&
    decide (((ns j).map (cHigh s0 s1 j)).sum * 10 ^ 6 ≤ (p.getD j.1 (0, 0)).2) &&
    decide (((ns j).map (cAbs s0 s1 j)).sum * 10 ^ 6 ≤ ((a.getD j.1 0 : ℤ) : ℚ))

theorem mult1_nonneg : ∀ (j : Fin 18) (n : Fin 58), 0 ≤ mult 1 j n := by decide +kernel

theorem strip_in {s0 s1 : ℚ} {T : ℝ} (hT : 0 < T) {p : List (ℤ × ℤ)} {a : List ℤ} (c : stripChk s0 s1 p a = true)
    (h1 : (s0 : ℝ) ^ 2 ≤ mE / T) (h2 : mE / T ≤ (s1 : ℝ) ^ 2) :
    InL (coef (fun n => Eos.c AN n) (-1) T) p ∧ LeL (coef (fun n => |Eos.c AN n|) 1 T) a := by
  unfold stripChk at c
  simp only [Bool.and_eq_true, decide_eq_true_eq, List.all_eq_true, List.mem_finRange, forall_const] at c
  obtain ⟨⟨⟨⟨c0, c1⟩, c2⟩, c3⟩, c4⟩ := c
  refine ⟨⟨c2, fun j => ?_⟩, ⟨c3, fun j => ?_⟩⟩
  · obtain ⟨⟨d1, d2⟩, -⟩ := c4 j
    rw [ns_sum j _ (fun n h _ => by unfold cLow; simp [h])] at d1
    rw [ns_sum j _ (fun n h _ => by unfold cHigh; simp [h])] at d2
    have d1' : (((p.getD j.1 (0, 0)).1 : ℤ) : ℝ) ≤ (∑ n, (cLow s0 s1 j n : ℝ)) * 10 ^ 6 := by exact_mod_cast d1
    have d2' : (∑ n, (cHigh s0 s1 j n : ℝ)) * 10 ^ 6 ≤ ((p.getD j.1 (0, 0)).2 : ℤ) := by exact_mod_cast d2
    have key : ∀ n, (cLow s0 s1 j n : ℝ) ≤ mult (-1) j n * (Eos.c AN n * theta T n) ∧
        mult (-1) j n * (Eos.c AN n * theta T n) ≤ (cHigh s0 s1 j n : ℝ) := by
      intro n
      obtain ⟨t1, t2, t3⟩ := theta_in hT c0 c1 h1 h2 n
      unfold cLow cHigh
      push_cast
      rw [← anq_real, ← mul_assoc]
      generalize ((mult (-1) j n : ℤ) : ℝ) * (anq n : ℝ) = v
      rcases le_total 0 v with h | h
      · exact ⟨(min_le_left _ _).trans (mul_le_mul_of_nonneg_left t1 h),
          (mul_le_mul_of_nonneg_left t2 h).trans (le_max_right _ _)⟩
      · exact ⟨(min_le_right _ _).trans (mul_le_mul_of_nonpos_left t2 h),
          (mul_le_mul_of_nonpos_left t1 h).trans (le_max_left _ _)⟩
    unfold coef
    refine ⟨d1'.trans ?_, le_trans ?_ d2'⟩
    · exact mul_le_mul_of_nonneg_right (Finset.sum_le_sum fun n _ => (key n).1) (by norm_num)
    · exact mul_le_mul_of_nonneg_right (Finset.sum_le_sum fun n _ => (key n).2) (by norm_num)
  · obtain ⟨-, d⟩ := c4 j
    rw [ns_sum j _ (fun n _ h => by unfold cAbs; simp [h])] at d
    have d' : (∑ n, (cAbs s0 s1 j n : ℝ)) * 10 ^ 6 ≤ ((a.getD j.1 0 : ℤ) : ℝ) := by exact_mod_cast d
    have m0 : ∀ n, (0 : ℝ) ≤ mult 1 j n := fun n => by exact_mod_cast mult1_nonneg j n
    unfold coef
    refine ⟨Finset.sum_nonneg fun n _ => mul_nonneg (m0 n) (mul_nonneg (abs_nonneg _) (theta_in hT c0 c1 h1 h2 n).2.2), ?_⟩
    refine le_trans (mul_le_mul_of_nonneg_right (Finset.sum_le_sum fun n _ => ?_) (by norm_num)) d'
    unfold cAbs
    push_cast
    rw [aabs_real]
    exact mul_le_mul_of_nonneg_left (mul_le_mul_of_nonneg_left (theta_in hT c0 c1 h1 h2 n).2.1 (abs_nonneg _)) (m0 n)

end Aga8.Detail
