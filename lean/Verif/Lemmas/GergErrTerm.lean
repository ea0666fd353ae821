import Verif.Lemmas.GergErrRed

/-! # Rounding errors in one residual term of GERG -/

set_option linter.unusedSectionVars false
set_option linter.unusedSimpArgs false

namespace Aga8.Gerg

open Tab F64 Finset
open Detail (ap0 ap1 ap2 apNat)

namespace Shape

/-- `f1` with the absolute values of its summands, for a shape with nonnegative coefficients. -/
def f1A (σ : Shape) (δ : ℝ) : ℝ := σ.n + σ.k * δ ^ σ.k + 2 * (σ.c * δ ^ 2) + σ.e * δ
/-- `l2` with the absolute values of its summands. -/
def l2A (σ : Shape) (δ : ℝ) : ℝ := σ.k ^ 2 * δ ^ σ.k + 4 * (σ.c * δ ^ 2) + σ.e * δ
/-- `f2` with the absolute values of its summands. -/
def f2A (σ : Shape) (δ : ℝ) : ℝ := σ.f1A δ * (σ.f1A δ + 1) + σ.l2A δ
/-- `l3` with the absolute values of its summands. -/
def l3A (σ : Shape) (δ : ℝ) : ℝ := σ.k ^ 3 * δ ^ σ.k + 8 * (σ.c * δ ^ 2) + σ.e * δ
/-- `f3` with the absolute values of its summands. -/
def f3A (σ : Shape) (δ : ℝ) : ℝ :=
  σ.f1A δ * (σ.f1A δ + 1) * (σ.f1A δ + 2) + 3 * (σ.f1A δ + 1) * σ.l2A δ + σ.l3A δ

end Shape

section
variable [Libm]

/-- The three kinds of term add a number close to `ndt * fac` to entry `(a, b)`; `facA` is the size of `fac`. -/
structure EAdds (itau : Int) (a b : Fin 4) (fac facA : Fac) : Prop where
  pol : ∀ {ndt tk : Float} {ν m δ t : ℝ} {k l h dk : ℕ}, 0 ≤ δ → 1 ≤ dk → dk < 8 → Ap ndt ν m k l h → Ap tk t |t| 1 5 5 →
    k ≤ 9000000 → l ≤ 990 → h ≤ 800 → ∃ u : Float, (∀ ar : Ar Float, aget2 (arPol itau ndt dk tk ar) a b = aget2 ar a b + u) ∧
      Ap u (ν * fac ⟨dk, 0, 0, 0, t⟩ δ) (m * facA ⟨dk, 0, 0, 0, |t|⟩ δ) (k + 20500) (l + 5) (h + 47)
  exp : ∀ {ndt tk delc : Float} {ν m δ t : ℝ} {k l h dk ck : ℕ}, 0 ≤ δ → 1 ≤ dk → dk < 8 → 1 ≤ ck → ck < 7 →
    Ap ndt ν m k l h → Ap tk t |t| 1 5 5 → Ap delc (δ ^ ck) (δ ^ ck) 6734 700 12 →
    k ≤ 9000000 → l ≤ 990 → h ≤ 800 → ∃ u : Float, (∀ ar : Ar Float, aget2 (arExp itau ndt dk ck delc tk ar) a b = aget2 ar a b + u) ∧
      Ap u (ν * fac ⟨dk, ck, 0, 0, t⟩ δ) (m * facA ⟨dk, ck, 0, 0, |t|⟩ δ) (k + 20500) (l + 5) (h + 47)
  mix : ∀ {ndt tk c e : Float} {ν m δ t γ γA ε εA : ℝ} {k l h dk : ℕ}, 0 ≤ δ → 1 ≤ dk → dk < 8 →
    Ap ndt ν m k l h → Ap tk t |t| 1 5 5 → Ap c (γ * δ ^ 2) (γA * δ ^ 2) 1930 700 4 → Ap e (ε * δ) (εA * δ) 970 700 5 →
    k ≤ 9000000 → l ≤ 990 → h ≤ 800 → ∃ u : Float, (∀ ar : Ar Float, aget2 (arMix itau ndt dk c e tk ar) a b = aget2 ar a b + u) ∧
      Ap u (ν * fac ⟨dk, 0, γ, ε, t⟩ δ) (m * facA ⟨dk, 0, γA, εA, |t|⟩ δ) (k + 20500) (l + 5) (h + 47)

section factors
variable {δ : ℝ} {dk ck : ℕ}

theorem apDk (h1 : 1 ≤ dk) (h8 : dk < 8) : Ap (FOps.ofNat dk : Float) dk dk 0 0 4 ∧ (1 : ℝ) ≤ dk :=
  ⟨apNat (by omega), by exact_mod_cast h1⟩

theorem apF2pol (h1 : 1 ≤ dk) (h8 : dk < 8) : Ap ((FOps.ofNat dk : Float) - f% 1.0) (dk - 1) (dk + 1) 2 0 5 :=
  (apDk h1 h8).1.sub ap1

/-- `ex` and `ex2` of an exponential term. -/
theorem apEx2 (hδ : 0 ≤ δ) (h1 : 1 ≤ dk) (h8 : dk < 8) (c1 : 1 ≤ ck) (c7 : ck < 7) {delc : Float}
    (D : Ap delc (δ ^ ck) (δ ^ ck) 6734 700 12) :
    Ap ((FOps.ofNat ck : Float) * delc) (ck * δ ^ ck) (ck * δ ^ ck) 6736 700 16 ∧
    Ap ((FOps.ofNat dk : Float) - FOps.ofNat ck * delc) (dk - ck * δ ^ ck) (dk + ck * δ ^ ck) 6738 0 17 := by
  have E := (apNat (show ck < 10 by omega)).mul D
  have E' : Ap ((FOps.ofNat ck : Float) * delc) (ck * δ ^ ck) (ck * δ ^ ck) 6736 700 16 :=
    E.weak (by norm_num) (by norm_num) (by norm_num)
  obtain ⟨N, n1⟩ := apDk h1 h8
  have S := N.sub E'
  refine ⟨E', Detail.Ap.rerange (S.weak (k' := 6738) (l' := 700) (h' := 17) (by norm_num) (by norm_num) (by norm_num))
    ⟨?_, Detail.Ap.le_pow S⟩⟩
  have : 0 ≤ (ck : ℝ) * δ ^ ck := by positivity
  rw [pow_zero]; linarith

theorem apF2exp (hδ : 0 ≤ δ) (h1 : 1 ≤ dk) (h8 : dk < 8) (c1 : 1 ≤ ck) (c7 : ck < 7) {delc : Float}
    (D : Ap delc (δ ^ ck) (δ ^ ck) 6734 700 12) :
    Ap (((FOps.ofNat dk : Float) - FOps.ofNat ck * delc) * ((FOps.ofNat dk : Float) - FOps.ofNat ck * delc - f% 1.0)
        - FOps.ofNat ck * (FOps.ofNat ck * delc))
      ((dk - ck * δ ^ ck) * (dk - ck * δ ^ ck - 1) - ck * (ck * δ ^ ck))
      ((dk + ck * δ ^ ck) * (dk + ck * δ ^ ck + 1) + ck * (ck * δ ^ ck)) 13483 0 36 := by
  obtain ⟨E, S⟩ := apEx2 hδ h1 h8 c1 c7 D
  have n1 := (apDk h1 h8).2
  have A := (S.mul (S.sub ap1)).sub ((apNat (show ck < 10 by omega)).mul E)
  refine Detail.Ap.rerange (A.weak (k' := 13483) (l' := 700) (h' := 36) (by norm_num) (by norm_num) (by norm_num)) ⟨?_, ?_⟩
  · have : 0 ≤ (ck : ℝ) * δ ^ ck := by positivity
    have : 0 ≤ (ck : ℝ) * (ck * δ ^ ck) := by positivity
    rw [pow_zero]; nlinarith
  · exact Detail.Ap.le_pow (A.weak (k' := 13483) (l' := 700) (h' := 36) (by norm_num) (by norm_num) (by norm_num))

variable {c e : Float} {γ γA ε εA : ℝ}

theorem apExM (h1 : 1 ≤ dk) (h8 : dk < 8) (C : Ap c (γ * δ ^ 2) (γA * δ ^ 2) 1930 700 4)
    (E : Ap e (ε * δ) (εA * δ) 970 700 5) :
    Ap ((FOps.ofNat dk : Float) + f% 2.0 * c + e) (dk + 2 * (γ * δ ^ 2) + ε * δ) (dk + 2 * (γA * δ ^ 2) + εA * δ) 1936 0 7 := by
  obtain ⟨N, n1⟩ := apDk h1 h8
  have A := (N.add (ap2.mul C)).add E
  have A' := A.weak (k' := 1936) (l' := 700) (h' := 7) (by norm_num) (by norm_num) (by norm_num)
  refine Detail.Ap.rerange A' ⟨?_, Detail.Ap.le_pow A'⟩
  have := C.nonneg
  have := E.nonneg
  rw [pow_zero]; linarith

theorem apF2M (h1 : 1 ≤ dk) (h8 : dk < 8) (C : Ap c (γ * δ ^ 2) (γA * δ ^ 2) 1930 700 4)
    (E : Ap e (ε * δ) (εA * δ) 970 700 5) :
    Ap (((FOps.ofNat dk : Float) + f% 2.0 * c + e) * ((FOps.ofNat dk : Float) + f% 2.0 * c + e) - FOps.ofNat dk + f% 2.0 * c)
      ((dk + 2 * (γ * δ ^ 2) + ε * δ) * (dk + 2 * (γ * δ ^ 2) + ε * δ) - dk + 2 * (γ * δ ^ 2))
      ((⟨dk, 0, γA, εA, 0⟩ : Shape).f2A δ) 3900 0 18 := by
  obtain ⟨N, n1⟩ := apDk h1 h8
  have S := apExM h1 h8 C E
  have A := ((S.mul S).sub N).add (ap2.mul C)
  have A' := A.weak (k' := 3900) (l' := 700) (h' := 16) (by norm_num) (by norm_num) (by norm_num)
  have c0 := C.nonneg
  have e0 := E.nonneg
  have sp := Detail.Ap.le_pow S
  have hle : (dk + 2 * (γA * δ ^ 2) + εA * δ) * (dk + 2 * (γA * δ ^ 2) + εA * δ) + dk + 2 * (γA * δ ^ 2)
      ≤ (⟨dk, 0, γA, εA, 0⟩ : Shape).f2A δ := by
    simp only [Shape.f2A, Shape.f1A, Shape.l2A, Nat.cast_zero, zero_mul]
    nlinarith
  refine A'.remag (A'.mag.trans hle) (mul_le_mul_of_nonneg_left hle (by positivity)) (Or.inr ⟨?_, ?_⟩)
  · rw [pow_zero]
    have : 0 ≤ (dk + 2 * (γA * δ ^ 2) + εA * δ) * (dk + 2 * (γA * δ ^ 2) + εA * δ) := mul_self_nonneg _
    linarith
  · simp only [Shape.f2A, Shape.f1A, Shape.l2A, Nat.cast_zero, zero_mul]
    have hs : (dk : ℝ) + 0 * δ ^ 0 + 2 * (γA * δ ^ 2) + εA * δ ≤ 2 ^ 7 := by linarith
    have h0 : 0 ≤ (dk : ℝ) + 0 * δ ^ 0 + 2 * (γA * δ ^ 2) + εA * δ := by linarith
    have : (0 : ℝ) ^ 2 * δ ^ 0 + 4 * (γA * δ ^ 2) + εA * δ ≤ 2 * 2 ^ 7 := by norm_num at hs ⊢; linarith
    norm_num at hs h0 this ⊢
    nlinarith

theorem apF3pol (h1 : 1 ≤ dk) (h8 : dk < 8) : Ap ((FOps.ofNat dk : Float) - f% 2.0) (dk - 2) (dk + 2) 2 0 5 :=
  (apDk h1 h8).1.sub ap2

theorem chkThree : decChk true 0 2 ⟨3, 0⟩ = true := by decide +kernel

theorem apThree : Ap (f% 3.0 : Float) 3 3 0 0 2 := by
  have h : decR ⟨3, 0⟩ = 3 := by simp [decR]
  have := Ap.litExPos chkThree (by norm_num)
  rwa [h] at this

theorem apF3exp (hδ : 0 ≤ δ) (h1 : 1 ≤ dk) (h8 : dk < 8) (c1 : 1 ≤ ck) (c7 : ck < 7) {delc : Float}
    (D : Ap delc (δ ^ ck) (δ ^ ck) 6734 700 12) :
    Ap (((FOps.ofNat dk : Float) - FOps.ofNat ck * delc) * ((FOps.ofNat dk : Float) - FOps.ofNat ck * delc - f% 1.0)
          * ((FOps.ofNat dk : Float) - FOps.ofNat ck * delc - f% 2.0)
        - FOps.ofNat ck * delc * (f% 3.0 * ((FOps.ofNat dk : Float) - FOps.ofNat ck * delc) - f% 3.0 + FOps.ofNat ck)
          * FOps.ofNat ck)
      ((dk - ck * δ ^ ck) * (dk - ck * δ ^ ck - 1) * (dk - ck * δ ^ ck - 2)
        - ck * δ ^ ck * (3 * (dk - ck * δ ^ ck) - 3 + ck) * ck)
      ((dk + ck * δ ^ ck) * (dk + ck * δ ^ ck + 1) * (dk + ck * δ ^ ck + 2)
        + ck * δ ^ ck * (3 * (dk + ck * δ ^ ck) + 3 + ck) * ck) 20300 0 46 := by
  obtain ⟨E, S⟩ := apEx2 hδ h1 h8 c1 c7 D
  have n1 := (apDk h1 h8).2
  have K := apNat (show ck < 10 by omega)
  have A := ((S.mul (S.sub ap1)).mul (S.sub ap2)).sub ((E.mul (((apThree.mul S).sub apThree).add K)).mul K)
  have A' := A.weak (k' := 20300) (l' := 720) (h' := 56) (by norm_num) (by norm_num) (by norm_num)
  refine Detail.Ap.rerange A' ⟨?_, ?_⟩
  · have e0 : 0 ≤ (ck : ℝ) * δ ^ ck := by positivity
    have k0 : (0 : ℝ) ≤ ck := Nat.cast_nonneg _
    have : 0 ≤ (ck : ℝ) * δ ^ ck * (3 * (dk + ck * δ ^ ck) + 3 + ck) * ck :=
      mul_nonneg (mul_nonneg e0 (by linarith)) k0
    have s1 : 1 ≤ (dk : ℝ) + ck * δ ^ ck := by linarith
    have s2 : 1 ≤ ((dk : ℝ) + ck * δ ^ ck) * (dk + ck * δ ^ ck + 1) := by nlinarith
    have s3 : 1 ≤ ((dk : ℝ) + ck * δ ^ ck) * (dk + ck * δ ^ ck + 1) * (dk + ck * δ ^ ck + 2) := by nlinarith
    rw [pow_zero]; linarith
  · have d0 := Detail.Ap.le_pow D
    have d1 : 0 ≤ δ ^ ck := pow_nonneg hδ _
    have k6 : (ck : ℝ) ≤ 6 := by exact_mod_cast Nat.le_of_lt_succ c7
    have n7 : (dk : ℝ) ≤ 7 := by exact_mod_cast Nat.le_of_lt_succ h8
    have k0 : (0 : ℝ) ≤ ck := Nat.cast_nonneg _
    have e0 : 0 ≤ (ck : ℝ) * δ ^ ck := by positivity
    have e1 : (ck : ℝ) * δ ^ ck ≤ 6 * 2 ^ 12 := mul_le_mul k6 d0 d1 (by norm_num)
    obtain ⟨w, hw⟩ : ∃ w, w = (ck : ℝ) * δ ^ ck := ⟨_, rfl⟩
    rw [← hw] at e0 e1 ⊢
    have b1 : (dk + w) * (dk + w + 1) ≤ 25000 * 25000 :=
      mul_le_mul (by norm_num at e1; linarith) (by norm_num at e1; linarith) (by linarith) (by norm_num)
    have b2 : (dk + w) * (dk + w + 1) * (dk + w + 2) ≤ 25000 * 25000 * 25000 :=
      mul_le_mul b1 (by norm_num at e1; linarith) (by linarith) (by norm_num)
    have b3 : w * (3 * (dk + w) + 3 + ck) ≤ 25000 * 75000 :=
      mul_le_mul (by norm_num at e1; linarith) (by norm_num at e1; linarith) (by linarith) (by norm_num)
    have b4 : w * (3 * (dk + w) + 3 + ck) * ck ≤ 25000 * 75000 * 6 := mul_le_mul b3 k6 k0 (by norm_num)
    norm_num at b2 b4 ⊢
    linarith

theorem apF3M (h1 : 1 ≤ dk) (h8 : dk < 8) (C : Ap c (γ * δ ^ 2) (γA * δ ^ 2) 1930 700 4)
    (E : Ap e (ε * δ) (εA * δ) 970 700 5) :
    Ap (((FOps.ofNat dk : Float) + f% 2.0 * c + e) * (((FOps.ofNat dk : Float) + f% 2.0 * c + e)
          * ((FOps.ofNat dk : Float) + f% 2.0 * c + e) - FOps.ofNat dk + f% 2.0 * c
          - f% 2.0 * ((FOps.ofNat dk : Float) - f% 2.0 * c)) + f% 2.0 * FOps.ofNat dk)
      ((dk + 2 * (γ * δ ^ 2) + ε * δ) * ((dk + 2 * (γ * δ ^ 2) + ε * δ) * (dk + 2 * (γ * δ ^ 2) + ε * δ) - dk
        + 2 * (γ * δ ^ 2) - 2 * (dk - 2 * (γ * δ ^ 2))) + 2 * dk)
      ((⟨dk, 0, γA, εA, 0⟩ : Shape).f3A δ) 6000 0 30 := by
  obtain ⟨N, n1⟩ := apDk h1 h8
  have S := apExM h1 h8 C E
  have c0 := C.nonneg
  have e0 := E.nonneg
  have sp := Detail.Ap.le_pow S
  have A := (S.mul ((((S.mul S).sub N).add (ap2.mul C)).sub (ap2.mul (N.sub (ap2.mul C))))).add (ap2.mul N)
  have A' := A.weak (k' := 6000) (l' := 720) (h' := 29) (by norm_num) (by norm_num) (by norm_num)
  obtain ⟨f, hf⟩ : ∃ f, f = (dk : ℝ) + 2 * (γA * δ ^ 2) + εA * δ := ⟨_, rfl⟩
  have hF : (⟨dk, 0, γA, εA, 0⟩ : Shape).f3A δ = f * (f + 1) * (f + 2) + 3 * (f + 1) * (4 * (γA * δ ^ 2) + εA * δ)
      + (8 * (γA * δ ^ 2) + εA * δ) := by
    rw [hf]; simp only [Shape.f3A, Shape.f1A, Shape.l2A, Shape.l3A, Nat.cast_zero]; ring
  rw [← hf] at sp A'
  have f1 : 1 ≤ f := by linarith
  rw [hF]
  obtain ⟨u, hu⟩ : ∃ u, u = γA * δ ^ 2 := ⟨_, rfl⟩
  obtain ⟨v, hv⟩ : ∃ v, v = εA * δ := ⟨_, rfl⟩
  rw [← hu] at A' c0 hf ⊢
  rw [← hv] at e0 hf ⊢
  have hle : f * (f * f + dk + 2 * u + 2 * (dk + 2 * u)) + 2 * dk ≤ f * (f + 1) * (f + 2) + 3 * (f + 1) * (4 * u + v)
      + (8 * u + v) := by
    have q1 : 0 ≤ 3 * (f + 1) * (4 * u + v) := by have : 0 ≤ f + 1 := by linarith
                                                  positivity
    have q2 : f * (dk + 2 * u) ≤ f * f := mul_le_mul_of_nonneg_left (by linarith) (by linarith)
    nlinarith
  refine A'.remag (A'.mag.trans hle) (mul_le_mul_of_nonneg_left hle (by positivity)) (Or.inr ⟨?_, ?_⟩)
  · rw [pow_zero, one_mul]
    refine le_trans ?_ hle
    have : 0 ≤ f * (f * f + dk + 2 * u + 2 * (dk + 2 * u)) := by
      have : 0 ≤ f := by linarith
      positivity
    linarith
  · have w1 : 4 * u + v ≤ 2 * f := by linarith
    have w2 : 8 * u + v ≤ 4 * f := by linarith
    have w0 : 0 ≤ 4 * u + v := by linarith
    have b1 : f * (f + 1) ≤ 2 ^ 7 * (2 ^ 7 + 1) := mul_le_mul sp (by linarith) (by linarith) (by norm_num)
    have b2 : f * (f + 1) * (f + 2) ≤ 2 ^ 7 * (2 ^ 7 + 1) * (2 ^ 7 + 2) :=
      mul_le_mul b1 (by linarith) (by linarith) (by norm_num)
    have b3 : 3 * (f + 1) * (4 * u + v) ≤ 3 * (2 ^ 7 + 1) * (2 * 2 ^ 7) :=
      mul_le_mul (by linarith) (by linarith) w0 (by norm_num)
    norm_num at sp b2 b3 ⊢
    linarith

end factors

/-! ## The entries -/

/-- Closes the goal that a step adds a given number to an entry. -/
syntax "entry_tac" : tactic
macro_rules
  | `(tactic| entry_tac) => `(tactic|
    (intro ar
     simp only [arPol, arExp, arMix]
     split <;>
       simp +decide only [aget2_aset2, and_true, true_and, if_true, if_false, and_false, false_and, and_self]))

/-- The same where the entry is only computed for positive `itau`. -/
syntax "entry_tac1" term : tactic
macro_rules
  | `(tactic| entry_tac1 $h) => `(tactic|
    (intro ar
     simp only [arPol, arExp, arMix, if_pos $h]
     simp +decide only [aget2_aset2, and_true, true_and, if_true, if_false, and_false, false_and, and_self]))

section entries
open Shape

theorem eadds01 (itau : Int) : EAdds itau 0 1 f1 f1A where
  pol := by
    intro ndt tk ν m δ t k l h dk hδ h1 h8 N T hk hl hh
    refine ⟨ndt * FOps.ofNat dk, by entry_tac, ?_⟩
    have A := N.mul (apDk h1 h8).1 (hk.trans (by norm_num)) (by norm_num) (by omega) (by omega)
    simp only [f1, f1A, Nat.cast_zero, zero_mul, mul_zero, add_zero, sub_zero]
    exact A.weak (by omega) (by omega) (by omega)
  exp := by
    intro ndt tk delc ν m δ t k l h dk ck hδ h1 h8 c1 c7 N T D hk hl hh
    refine ⟨ndt * (FOps.ofNat dk - FOps.ofNat ck * delc), by entry_tac, ?_⟩
    have A := N.mul (apEx2 hδ h1 h8 c1 c7 D).2 (hk.trans (by norm_num)) (by norm_num) (by omega) (by omega)
    simp only [f1, f1A, zero_mul, mul_zero, add_zero]
    exact A.weak (by omega) (by omega) (by omega)
  mix := by
    intro ndt tk c e ν m δ t γ γA ε εA k l h dk hδ h1 h8 N T C E hk hl hh
    refine ⟨ndt * (FOps.ofNat dk + f% 2.0 * c + e), by entry_tac, ?_⟩
    have A := N.mul (apExM h1 h8 C E) (hk.trans (by norm_num)) (by norm_num) (by omega) (by omega)
    simp only [f1, f1A, Nat.cast_zero, zero_mul, sub_zero, add_zero]
    exact A.weak (by omega) (by omega) (by omega)

theorem eadds02 (itau : Int) : EAdds itau 0 2 f2 f2A where
  pol := by
    intro ndt tk ν m δ t k l h dk hδ h1 h8 N T hk hl hh
    refine ⟨ndt * FOps.ofNat dk * (FOps.ofNat dk - f% 1.0), by entry_tac, ?_⟩
    have A := (N.mul (apDk h1 h8).1 (hk.trans (by norm_num)) (by norm_num) (by omega) (by omega)).mul (apF2pol h1 h8)
      (by show _ ≤ 33554432; omega) (by norm_num) (by omega) (by omega)
    have e1 : ν * (⟨dk, 0, 0, 0, t⟩ : Shape).f2 δ = ν * dk * (dk - 1) := by
      simp only [f2, f1, Shape.l2, Nat.cast_zero]; ring
    have e2 : m * (⟨dk, 0, 0, 0, |t|⟩ : Shape).f2A δ = m * dk * (dk + 1) := by
      simp only [f2A, f1A, Shape.l2A, Nat.cast_zero]; ring
    rw [e1, e2]
    exact A.weak (by omega) (by omega) (by omega)
  exp := by
    intro ndt tk delc ν m δ t k l h dk ck hδ h1 h8 c1 c7 N T D hk hl hh
    refine ⟨ndt * (((FOps.ofNat dk : Float) - FOps.ofNat ck * delc) * ((FOps.ofNat dk : Float) - FOps.ofNat ck * delc - f% 1.0)
        - FOps.ofNat ck * (FOps.ofNat ck * delc)), by entry_tac, ?_⟩
    have A := N.mul (apF2exp hδ h1 h8 c1 c7 D) (hk.trans (by norm_num)) (by norm_num) (by omega) (by omega)
    have e1 : (⟨dk, ck, 0, 0, t⟩ : Shape).f2 δ = (dk - ck * δ ^ ck) * (dk - ck * δ ^ ck - 1) - ck * (ck * δ ^ ck) := by
      simp only [f2, f1, Shape.l2]; ring
    have e2 : (⟨dk, ck, 0, 0, |t|⟩ : Shape).f2A δ = (dk + ck * δ ^ ck) * (dk + ck * δ ^ ck + 1) + ck * (ck * δ ^ ck) := by
      simp only [f2A, f1A, Shape.l2A]; ring
    rw [e1, e2]
    exact A.weak (by omega) (by omega) (by omega)
  mix := by
    intro ndt tk c e ν m δ t γ γA ε εA k l h dk hδ h1 h8 N T C E hk hl hh
    refine ⟨ndt * (((FOps.ofNat dk : Float) + f% 2.0 * c + e) * ((FOps.ofNat dk : Float) + f% 2.0 * c + e) - FOps.ofNat dk
      + f% 2.0 * c), by entry_tac, ?_⟩
    have A := N.mul (apF2M h1 h8 C E) (hk.trans (by norm_num)) (by norm_num) (by omega) (by omega)
    have e1 : (⟨dk, 0, γ, ε, t⟩ : Shape).f2 δ = (dk + 2 * (γ * δ ^ 2) + ε * δ) * (dk + 2 * (γ * δ ^ 2) + ε * δ) - dk
        + 2 * (γ * δ ^ 2) := by
      simp only [f2, f1, Shape.l2, Nat.cast_zero]; ring
    have e2 : (⟨dk, 0, γA, εA, |t|⟩ : Shape).f2A δ = (⟨dk, 0, γA, εA, 0⟩ : Shape).f2A δ := rfl
    rw [e1, e2]
    exact A.weak (by omega) (by omega) (by omega)

variable {itau : Int} (hi : itau > 0)
include hi

theorem eadds00 : EAdds itau 0 0 (fun _ _ => 1) (fun _ _ => 1) where
  pol := by
    intro ndt tk ν m δ t k l h dk hδ h1 h8 N T hk hl hh
    exact ⟨ndt, by entry_tac1 hi, by rw [mul_one, mul_one]; exact N.weak (by omega) (by omega) (by omega)⟩
  exp := by
    intro ndt tk delc ν m δ t k l h dk ck hδ h1 h8 c1 c7 N T D hk hl hh
    exact ⟨ndt, by entry_tac1 hi, by rw [mul_one, mul_one]; exact N.weak (by omega) (by omega) (by omega)⟩
  mix := by
    intro ndt tk c e ν m δ t γ γA ε εA k l h dk hδ h1 h8 N T C E hk hl hh
    exact ⟨ndt, by entry_tac1 hi, by rw [mul_one, mul_one]; exact N.weak (by omega) (by omega) (by omega)⟩

theorem eadds10 : EAdds itau 1 0 (fun σ _ => σ.t) (fun σ _ => σ.t) where
  pol := by
    intro ndt tk ν m δ t k l h dk hδ h1 h8 N T hk hl hh
    exact ⟨ndt * tk, by entry_tac1 hi, (N.mul T (hk.trans (by norm_num)) (by norm_num) (by omega) (by omega)).weak
      (by omega) (by omega) (by omega)⟩
  exp := by
    intro ndt tk delc ν m δ t k l h dk ck hδ h1 h8 c1 c7 N T D hk hl hh
    exact ⟨ndt * tk, by entry_tac1 hi, (N.mul T (hk.trans (by norm_num)) (by norm_num) (by omega) (by omega)).weak
      (by omega) (by omega) (by omega)⟩
  mix := by
    intro ndt tk c e ν m δ t γ γA ε εA k l h dk hδ h1 h8 N T C E hk hl hh
    exact ⟨ndt * tk, by entry_tac1 hi, (N.mul T (hk.trans (by norm_num)) (by norm_num) (by omega) (by omega)).weak
      (by omega) (by omega) (by omega)⟩

omit hi in
theorem apT1 {ndt tk : Float} {ν m t : ℝ} {k l h : ℕ} (N : Ap ndt ν m k l h) (T : Ap tk t |t| 1 5 5) (hk : k ≤ 9000000)
    (hl : l ≤ 990) (hh : h ≤ 800) :
    Ap (ndt * tk * (tk - f% 1.0)) (ν * (t * (t - 1))) (m * (|t| * (|t| + 1))) (k + 20500) (l + 5) (h + 47) := by
  have B := T.sub ap1
  have B' := Detail.Ap.rerange (l' := 0) (h' := 6) B ⟨by rw [pow_zero]; linarith [abs_nonneg t], Detail.Ap.le_pow B⟩
  have A := (N.mul T (hk.trans (by norm_num)) (by norm_num) (by omega) (by omega)).mul B'
    (by show _ ≤ 33554432; omega) (by norm_num) (by omega) (by omega)
  rw [mul_assoc, mul_assoc m] at A
  exact A.weak (by omega) (by omega) (by omega)

theorem eadds20 : EAdds itau 2 0 (fun σ _ => σ.t * (σ.t - 1)) (fun σ _ => σ.t * (σ.t + 1)) where
  pol := by
    intro ndt tk ν m δ t k l h dk hδ h1 h8 N T hk hl hh
    exact ⟨ndt * tk * (tk - f% 1.0), by entry_tac1 hi, apT1 N T hk hl hh⟩
  exp := by
    intro ndt tk delc ν m δ t k l h dk ck hδ h1 h8 c1 c7 N T D hk hl hh
    exact ⟨ndt * tk * (tk - f% 1.0), by entry_tac1 hi, apT1 N T hk hl hh⟩
  mix := by
    intro ndt tk c e ν m δ t γ γA ε εA k l h dk hδ h1 h8 N T C E hk hl hh
    exact ⟨ndt * tk * (tk - f% 1.0), by entry_tac1 hi, apT1 N T hk hl hh⟩

theorem eadds11 : EAdds itau 1 1 (fun σ δ => σ.t * σ.f1 δ) (fun σ δ => σ.t * σ.f1A δ) where
  pol := by
    intro ndt tk ν m δ t k l h dk hδ h1 h8 N T hk hl hh
    refine ⟨ndt * tk * FOps.ofNat dk, by entry_tac1 hi, ?_⟩
    have A := (N.mul T (hk.trans (by norm_num)) (by norm_num) (by omega) (by omega)).mul (apDk h1 h8).1
      (by show _ ≤ 33554432; omega) (by norm_num) (by omega) (by omega)
    rw [mul_assoc, mul_assoc m] at A
    simp only [f1, f1A, Nat.cast_zero, zero_mul, mul_zero, add_zero, sub_zero]
    exact A.weak (by omega) (by omega) (by omega)
  exp := by
    intro ndt tk delc ν m δ t k l h dk ck hδ h1 h8 c1 c7 N T D hk hl hh
    refine ⟨ndt * tk * (FOps.ofNat dk - FOps.ofNat ck * delc), by entry_tac1 hi, ?_⟩
    have A := (N.mul T (hk.trans (by norm_num)) (by norm_num) (by omega) (by omega)).mul (apEx2 hδ h1 h8 c1 c7 D).2
      (by show _ ≤ 33554432; omega) (by norm_num) (by omega) (by omega)
    rw [mul_assoc, mul_assoc m] at A
    simp only [f1, f1A, zero_mul, mul_zero, add_zero]
    exact A.weak (by omega) (by omega) (by omega)
  mix := by
    intro ndt tk c e ν m δ t γ γA ε εA k l h dk hδ h1 h8 N T C E hk hl hh
    refine ⟨ndt * tk * (FOps.ofNat dk + f% 2.0 * c + e), by entry_tac1 hi, ?_⟩
    have A := (N.mul T (hk.trans (by norm_num)) (by norm_num) (by omega) (by omega)).mul (apExM h1 h8 C E)
      (by show _ ≤ 33554432; omega) (by norm_num) (by omega) (by omega)
    rw [mul_assoc, mul_assoc m] at A
    simp only [f1, f1A, Nat.cast_zero, zero_mul, sub_zero, add_zero]
    exact A.weak (by omega) (by omega) (by omega)

theorem eadds12 : EAdds itau 1 2 (fun σ δ => σ.t * σ.f2 δ) (fun σ δ => σ.t * σ.f2A δ) where
  pol := by
    intro ndt tk ν m δ t k l h dk hδ h1 h8 N T hk hl hh
    refine ⟨ndt * tk * FOps.ofNat dk * (FOps.ofNat dk - f% 1.0), by entry_tac1 hi, ?_⟩
    have A := ((N.mul T (hk.trans (by norm_num)) (by norm_num) (by omega) (by omega)).mul (apDk h1 h8).1
      (by show _ ≤ 33554432; omega) (by norm_num) (by omega) (by omega)).mul (apF2pol h1 h8)
      (by show _ ≤ 33554432; omega) (by norm_num) (by omega) (by omega)
    have e1 : ν * (t * (⟨dk, 0, 0, 0, t⟩ : Shape).f2 δ) = ν * t * dk * (dk - 1) := by
      simp only [f2, f1, Shape.l2, Nat.cast_zero]; ring
    have e2 : m * (|t| * (⟨dk, 0, 0, 0, |t|⟩ : Shape).f2A δ) = m * |t| * dk * (dk + 1) := by
      simp only [f2A, f1A, Shape.l2A, Nat.cast_zero]; ring
    rw [e1, e2]
    exact A.weak (by omega) (by omega) (by omega)
  exp := by
    intro ndt tk delc ν m δ t k l h dk ck hδ h1 h8 c1 c7 N T D hk hl hh
    refine ⟨ndt * tk * (((FOps.ofNat dk : Float) - FOps.ofNat ck * delc) * ((FOps.ofNat dk : Float) - FOps.ofNat ck * delc - f% 1.0)
        - FOps.ofNat ck * (FOps.ofNat ck * delc)), by entry_tac1 hi, ?_⟩
    have A := (N.mul T (hk.trans (by norm_num)) (by norm_num) (by omega) (by omega)).mul (apF2exp hδ h1 h8 c1 c7 D)
      (by show _ ≤ 33554432; omega) (by norm_num) (by omega) (by omega)
    have e1 : (⟨dk, ck, 0, 0, t⟩ : Shape).f2 δ = (dk - ck * δ ^ ck) * (dk - ck * δ ^ ck - 1) - ck * (ck * δ ^ ck) := by
      simp only [f2, f1, Shape.l2]; ring
    have e2 : (⟨dk, ck, 0, 0, |t|⟩ : Shape).f2A δ = (dk + ck * δ ^ ck) * (dk + ck * δ ^ ck + 1) + ck * (ck * δ ^ ck) := by
      simp only [f2A, f1A, Shape.l2A]; ring
    rw [mul_assoc, mul_assoc m] at A
    rw [e1, e2]
    exact A.weak (by omega) (by omega) (by omega)
  mix := by
    intro ndt tk c e ν m δ t γ γA ε εA k l h dk hδ h1 h8 N T C E hk hl hh
    refine ⟨ndt * tk * (((FOps.ofNat dk : Float) + f% 2.0 * c + e) * ((FOps.ofNat dk : Float) + f% 2.0 * c + e) - FOps.ofNat dk
      + f% 2.0 * c), by entry_tac1 hi, ?_⟩
    have A := (N.mul T (hk.trans (by norm_num)) (by norm_num) (by omega) (by omega)).mul (apF2M h1 h8 C E)
      (by show _ ≤ 33554432; omega) (by norm_num) (by omega) (by omega)
    have e1 : (⟨dk, 0, γ, ε, t⟩ : Shape).f2 δ = (dk + 2 * (γ * δ ^ 2) + ε * δ) * (dk + 2 * (γ * δ ^ 2) + ε * δ) - dk
        + 2 * (γ * δ ^ 2) := by
      simp only [f2, f1, Shape.l2, Nat.cast_zero]; ring
    have e2 : (⟨dk, 0, γA, εA, |t|⟩ : Shape).f2A δ = (⟨dk, 0, γA, εA, 0⟩ : Shape).f2A δ := rfl
    rw [mul_assoc, mul_assoc m] at A
    rw [e1, e2]
    exact A.weak (by omega) (by omega) (by omega)

theorem eadds03 : EAdds itau 0 3 f3 f3A where
  pol := by
    intro ndt tk ν m δ t k l h dk hδ h1 h8 N T hk hl hh
    refine ⟨ndt * FOps.ofNat dk * (FOps.ofNat dk - f% 1.0) * (FOps.ofNat dk - f% 2.0), by entry_tac1 hi, ?_⟩
    have A := ((N.mul (apDk h1 h8).1 (hk.trans (by norm_num)) (by norm_num) (by omega) (by omega)).mul (apF2pol h1 h8)
      (by show _ ≤ 33554432; omega) (by norm_num) (by omega) (by omega)).mul (apF3pol h1 h8)
      (by show _ ≤ 33554432; omega) (by norm_num) (by omega) (by omega)
    have e1 : ν * (⟨dk, 0, 0, 0, t⟩ : Shape).f3 δ = ν * dk * (dk - 1) * (dk - 2) := by
      simp only [f3, f1, Shape.l2, Shape.l3, Nat.cast_zero]; ring
    have e2 : m * (⟨dk, 0, 0, 0, |t|⟩ : Shape).f3A δ = m * dk * (dk + 1) * (dk + 2) := by
      simp only [f3A, f1A, Shape.l2A, Shape.l3A, Nat.cast_zero]; ring
    rw [e1, e2]
    exact A.weak (by omega) (by omega) (by omega)
  exp := by
    intro ndt tk delc ν m δ t k l h dk ck hδ h1 h8 c1 c7 N T D hk hl hh
    refine ⟨ndt * (((FOps.ofNat dk : Float) - FOps.ofNat ck * delc) * ((FOps.ofNat dk : Float) - FOps.ofNat ck * delc - f% 1.0)
          * ((FOps.ofNat dk : Float) - FOps.ofNat ck * delc - f% 2.0)
        - FOps.ofNat ck * delc * (f% 3.0 * ((FOps.ofNat dk : Float) - FOps.ofNat ck * delc) - f% 3.0 + FOps.ofNat ck)
          * FOps.ofNat ck), by entry_tac1 hi, ?_⟩
    have A := N.mul (apF3exp hδ h1 h8 c1 c7 D) (hk.trans (by norm_num)) (by norm_num) (by omega) (by omega)
    have e1 : (⟨dk, ck, 0, 0, t⟩ : Shape).f3 δ = (dk - ck * δ ^ ck) * (dk - ck * δ ^ ck - 1) * (dk - ck * δ ^ ck - 2)
        - ck * δ ^ ck * (3 * (dk - ck * δ ^ ck) - 3 + ck) * ck := by
      simp only [f3, f1, Shape.l2, Shape.l3]; ring
    have e2 : (⟨dk, ck, 0, 0, |t|⟩ : Shape).f3A δ = (dk + ck * δ ^ ck) * (dk + ck * δ ^ ck + 1) * (dk + ck * δ ^ ck + 2)
        + ck * δ ^ ck * (3 * (dk + ck * δ ^ ck) + 3 + ck) * ck := by
      simp only [f3A, f1A, Shape.l2A, Shape.l3A]; ring
    rw [e1, e2]
    exact A.weak (by omega) (by omega) (by omega)
  mix := by
    intro ndt tk c e ν m δ t γ γA ε εA k l h dk hδ h1 h8 N T C E hk hl hh
    refine ⟨ndt * (((FOps.ofNat dk : Float) + f% 2.0 * c + e) * (((FOps.ofNat dk : Float) + f% 2.0 * c + e)
          * ((FOps.ofNat dk : Float) + f% 2.0 * c + e) - FOps.ofNat dk + f% 2.0 * c
          - f% 2.0 * ((FOps.ofNat dk : Float) - f% 2.0 * c)) + f% 2.0 * FOps.ofNat dk), by entry_tac1 hi, ?_⟩
    have A := N.mul (apF3M h1 h8 C E) (hk.trans (by norm_num)) (by norm_num) (by omega) (by omega)
    have e1 : (⟨dk, 0, γ, ε, t⟩ : Shape).f3 δ = (dk + 2 * (γ * δ ^ 2) + ε * δ) * ((dk + 2 * (γ * δ ^ 2) + ε * δ)
        * (dk + 2 * (γ * δ ^ 2) + ε * δ) - dk + 2 * (γ * δ ^ 2) - 2 * (dk - 2 * (γ * δ ^ 2))) + 2 * dk := by
      simp only [f3, f1, Shape.l2, Shape.l3, Nat.cast_zero]; ring
    have e2 : (⟨dk, 0, γA, εA, |t|⟩ : Shape).f3A δ = (⟨dk, 0, γA, εA, 0⟩ : Shape).f3A δ := rfl
    rw [e1, e2]
    exact A.weak (by omega) (by omega) (by omega)

end entries

end

end Aga8.Gerg
