import Mathlib.Analysis.SpecialFunctions.ExpDeriv
import Mathlib.Tactic.Ring
import Mathlib.Tactic.LinearCombination
import Mathlib.Tactic.FinCases
import Verif.Lemmas.RealSum
import Verif.Lemmas.GergView

/-! # The residual GERG terms over the reals

Every residual term is `amp * δ ^ n * exp (-δ ^ k + c δ² + e δ)` with the reduced density `δ`; the array `ar` is a
sum over all such terms with weights that are polynomials in `n`, `δ ^ k`, `c δ²` and `e δ`. -/

set_option linter.unusedSectionVars false
set_option linter.unusedSimpArgs false
set_option linter.unusedTactic false
set_option linter.unreachableTactic false

namespace Aga8.Gerg

open FOps Tab Finset

/-- The density and temperature dependence of a residual term. -/
structure Shape where
  n : ℕ
  /-- exponent inside the exponential of a pure-fluid term, 0 if there is none -/
  k : ℕ
  c : ℝ
  e : ℝ
  /-- temperature exponent -/
  t : ℝ

namespace Shape

/-- The exponent of the exponential. -/
noncomputable def q (σ : Shape) (δ : ℝ) : ℝ := -(if σ.k = 0 then 0 else δ ^ σ.k) + σ.c * δ ^ 2 + σ.e * δ

/-- The density dependence of the term. -/
noncomputable def phi (σ : Shape) (δ : ℝ) : ℝ := δ ^ σ.n * Real.exp (σ.q δ)

/-- `δ φ' / φ`. -/
def f1 (σ : Shape) (δ : ℝ) : ℝ := σ.n - σ.k * δ ^ σ.k + 2 * (σ.c * δ ^ 2) + σ.e * δ
/-- `δ f1'`. -/
def l2 (σ : Shape) (δ : ℝ) : ℝ := -(σ.k ^ 2 * δ ^ σ.k) + 4 * (σ.c * δ ^ 2) + σ.e * δ
/-- `δ l2'`. -/
def l3 (σ : Shape) (δ : ℝ) : ℝ := -(σ.k ^ 3 * δ ^ σ.k) + 8 * (σ.c * δ ^ 2) + σ.e * δ
/-- `δ² φ'' / φ`. -/
def f2 (σ : Shape) (δ : ℝ) : ℝ := σ.f1 δ ^ 2 - σ.f1 δ + σ.l2 δ
/-- `δ³ φ''' / φ`. -/
def f3 (σ : Shape) (δ : ℝ) : ℝ :=
  σ.f1 δ ^ 3 - 3 * σ.f1 δ ^ 2 + 2 * σ.f1 δ + 3 * (σ.f1 δ - 1) * σ.l2 δ + σ.l3 δ

end Shape

/-- Weight of a term in one entry of `ar`. -/
abbrev Fac := Shape → ℝ → ℝ

/-- The three kinds of term add `ndt * fac` to entry `(a, b)`. -/
structure Adds (itau : Int) (a b : Fin 4) (fac : Fac) : Prop where
  pol : ∀ (δ ndt : ℝ) (dk : ℕ) (tk : ℝ) (ar : Ar ℝ),
    aget2 (arPol itau ndt dk tk ar) a b = aget2 ar a b + ndt * fac ⟨dk, 0, 0, 0, tk⟩ δ
  exp : ∀ (δ ndt : ℝ) (dk ck : ℕ) (tk : ℝ) (ar : Ar ℝ),
    aget2 (arExp itau ndt dk ck (δ ^ ck) tk ar) a b = aget2 ar a b + ndt * fac ⟨dk, ck, 0, 0, tk⟩ δ
  mix : ∀ (δ ndt : ℝ) (dk : ℕ) (c e tk : ℝ) (ar : Ar ℝ),
    aget2 (arMix itau ndt dk (c * δ ^ 2) (e * δ) tk ar) a b = aget2 ar a b + ndt * fac ⟨dk, 0, c, e, tk⟩ δ

section entries
open Shape

theorem adds01 (itau : Int) : Adds itau 0 1 f1 := by
  constructor <;> intros <;> simp only [arPol, arExp, arMix] <;> split <;>
    simp (config := { decide := true }) only [aget2_aset2, f1, l1, Aga8.l2, Aga8.l3, r_ofNat, and_true,
      true_and, if_true, if_false, and_false, false_and, and_self, Nat.cast_zero] <;> ring

theorem adds02 (itau : Int) : Adds itau 0 2 f2 := by
  constructor <;> intros <;> simp only [arPol, arExp, arMix] <;> split <;>
    simp (config := { decide := true }) only [aget2_aset2, f1, f2, Shape.l2, l1, Aga8.l2, Aga8.l3, r_ofNat,
      and_true, true_and, if_true, if_false, and_false, false_and, and_self, Nat.cast_zero] <;> ring

variable {itau : Int} (h : itau > 0)
include h

theorem adds03 : Adds itau 0 3 f3 := by
  constructor <;> intros <;> simp only [arPol, arExp, arMix, if_pos h] <;>
    simp (config := { decide := true }) only [aget2_aset2, f1, f2, f3, Shape.l2, Shape.l3, l1, Aga8.l2,
      Aga8.l3, r_ofNat, and_true, true_and, if_true, if_false, and_false, false_and, and_self,
      Nat.cast_zero] <;> ring

theorem adds00 : Adds itau 0 0 (fun _ _ => 1) := by
  constructor <;> intros <;> simp only [arPol, arExp, arMix, if_pos h] <;>
    simp (config := { decide := true }) only [aget2_aset2, f1, f2, f3, Shape.l2, Shape.l3, l1, Aga8.l2,
      Aga8.l3, r_ofNat, and_true, true_and, if_true, if_false, and_false, false_and, and_self,
      Nat.cast_zero] <;> ring

theorem adds10 : Adds itau 1 0 (fun σ _ => σ.t) := by
  constructor <;> intros <;> simp only [arPol, arExp, arMix, if_pos h] <;>
    simp (config := { decide := true }) only [aget2_aset2, f1, f2, f3, Shape.l2, Shape.l3, l1, Aga8.l2,
      Aga8.l3, r_ofNat, and_true, true_and, if_true, if_false, and_false, false_and, and_self,
      Nat.cast_zero] <;> ring

theorem adds20 : Adds itau 2 0 (fun σ _ => σ.t * (σ.t - 1)) := by
  constructor <;> intros <;> simp only [arPol, arExp, arMix, if_pos h] <;>
    simp (config := { decide := true }) only [aget2_aset2, f1, f2, f3, Shape.l2, Shape.l3, l1, Aga8.l2,
      Aga8.l3, r_ofNat, and_true, true_and, if_true, if_false, and_false, false_and, and_self,
      Nat.cast_zero] <;> ring

theorem adds11 : Adds itau 1 1 (fun σ δ => σ.t * σ.f1 δ) := by
  constructor <;> intros <;> simp only [arPol, arExp, arMix, if_pos h] <;>
    simp (config := { decide := true }) only [aget2_aset2, f1, f2, f3, Shape.l2, Shape.l3, l1, Aga8.l2,
      Aga8.l3, r_ofNat, and_true, true_and, if_true, if_false, and_false, false_and, and_self,
      Nat.cast_zero] <;> ring

theorem adds12 : Adds itau 1 2 (fun σ δ => σ.t * σ.f2 δ) := by
  constructor <;> intros <;> simp only [arPol, arExp, arMix, if_pos h] <;>
    simp (config := { decide := true }) only [aget2_aset2, f1, f2, f3, Shape.l2, Shape.l3, l1, Aga8.l2,
      Aga8.l3, r_ofNat, and_true, true_and, if_true, if_false, and_false, false_and, and_self,
      Nat.cast_zero] <;> ring

end entries

/-! ## Powers of the reduced density -/

theorem arDelp_get (δ : ℝ) : ∀ n : Fin 8, 1 ≤ n.1 →
    aget (arDelp δ).1 n = δ ^ n.1 ∧ aget (arDelp δ).2 n = Real.exp (-δ ^ n.1) := by
  unfold arDelp
  dsimp only
  rw [loop_step _ _ (by norm_num), loop_step _ _ (by norm_num), loop_step _ _ (by norm_num),
    loop_step _ _ (by norm_num), loop_step _ _ (by norm_num), loop_step _ _ (by norm_num),
    loop_done _ _ (by norm_num)]
  intro n hn
  fin_cases n
  · exact absurd hn (by decide)
  all_goals
    simp (config := { decide := true }) only [aget_aset, r_exp, Fin.mk.injEq, if_true, if_false]
    constructor
    · ring
    · congr 1; ring

theorem gd_delp (δ : ℝ) {n : ℕ} (h1 : 1 ≤ n) (h8 : n < 8) (a : ℝ) : gd (arDelp δ).1 n a = δ ^ n := by
  rw [gd, dif_pos h8]; exact (arDelp_get δ ⟨n, h8⟩ h1).1

theorem gd_expd (δ : ℝ) {n : ℕ} (h1 : 1 ≤ n) (h8 : n < 8) (a : ℝ) :
    gd (arDelp δ).2 n a = Real.exp (-δ ^ n) := by
  rw [gd, dif_pos h8]; exact (arDelp_get δ ⟨n, h8⟩ h1).2

/-! ## The terms -/

/-- All places of a residual term: pure-fluid terms and departure terms. -/
abbrev Ix := (Fin 22 × Fin 25) ⊕ (Fin 22 × Fin 22 × Fin 13)

/-- The departure terms that enter the sum. -/
def actM (x : Vector ℝ 22) (i j : Fin 22) (k : ℕ) : Prop :=
  1 ≤ i.1 ∧ i.1 < j.1 ∧ FOps.lt EPSILON (aget x i) = true ∧ FOps.lt EPSILON (aget x j) = true ∧
    0 < aget2 MNUMB i j ∧ 1 ≤ k ∧ k ≤ kpolij (aget2 MNUMB i j) + kexpij (aget2 MNUMB i j)

noncomputable instance (x : Vector ℝ 22) (i j : Fin 22) (k : ℕ) : Decidable (actM x i j k) := by
  unfold actM; infer_instance

/-- Amplitude of a departure term, without its density dependence. -/
noncomputable def valM (w : Vector (Vector ℝ 13) 22) (m : Params ℝ) (lt : ℝ) (mn k : ℕ) : ℝ :=
  if k ≤ kpolij mn then gd2 w mn k 0
  else gd2 m.nijk mn k 0 * Real.exp (gd2 m.gijk mn k 0 + gd2 m.tijk mn k 0 * lt)

/-- Amplitude of a term, without its density dependence. -/
noncomputable def amp (x : Vector ℝ 22) (v : Vector (Vector ℝ 25) 22) (w : Vector (Vector ℝ 13) 22)
    (m : Params ℝ) (lt : ℝ) : Ix → ℝ
  | .inl (i, k) => if readP x i k then aget x i * aget2 v i k else 0
  | .inr (i, j, k) =>
    if actM x i j k.1 then aget x i * aget x j * tab2 FIJ i j * valM w m lt (aget2 MNUMB i j) k.1 else 0

/-- Shape of a departure term. -/
noncomputable def shapeM (m : Params ℝ) (mn k : ℕ) : Shape :=
  if k ≤ kpolij mn then ⟨gd2 m.dijk mn k 0, 0, 0, 0, gd2 m.tijk mn k 0⟩
  else ⟨gd2 m.dijk mn k 0, 0, gd2 m.cijk mn k 0, gd2 m.eijk mn k 0, gd2 m.tijk mn k 0⟩

/-- Shape of a term. -/
noncomputable def shape (m : Params ℝ) : Ix → Shape
  | .inl (i, k) => ⟨aget2 m.doik i k, if k.1 ≤ aget KPOL i then 0 else aget2 m.coik i k, 0, 0, aget2 m.toik i k⟩
  | .inr (i, j, k) => shapeM m (aget2 MNUMB i j) k.1

/-- The density exponents that are used are positive and below 8. -/
structure PosE (m : Params ℝ) : Prop where
  doik : ∀ i k, 1 ≤ i.1 → 1 ≤ k.1 → k.1 ≤ aget KPOL i + aget KEXP i → 1 ≤ aget2 m.doik i k ∧ aget2 m.doik i k < 8
  coik : ∀ i k, 1 ≤ i.1 → aget KPOL i < k.1 → k.1 ≤ aget KPOL i + aget KEXP i →
    1 ≤ aget2 m.coik i k ∧ aget2 m.coik i k < 8
  dijk : ∀ (i j : Fin 22) (k : ℕ), 0 < aget2 MNUMB i j → 1 ≤ k →
    k ≤ kpolij (aget2 MNUMB i j) + kexpij (aget2 MNUMB i j) →
    1 ≤ gd2 m.dijk (aget2 MNUMB i j) k 0 ∧ gd2 m.dijk (aget2 MNUMB i j) k 0 < 8

theorem sum_Ico_fin {n a b : ℕ} (hb : b ≤ n) (f : ℕ → ℝ) :
    ∑ k ∈ Finset.Ico a b, f k = ∑ k : Fin n, if a ≤ k.1 ∧ k.1 < b then f k.1 else 0 := by
  have h := Finset.sum_map (Finset.univ.filter fun k : Fin n => a ≤ k.1 ∧ k.1 < b) Fin.valEmbedding f
  simp only [Fin.valEmbedding_apply] at h
  rw [← Finset.sum_filter, ← h]
  apply Finset.sum_congr _ (fun _ _ => rfl)
  ext k
  simp only [Finset.mem_Ico, Finset.mem_map, Finset.mem_filter, Finset.mem_univ, true_and, Fin.valEmbedding_apply]
  constructor
  · intro h; exact ⟨⟨k, by omega⟩, h, rfl⟩
  · rintro ⟨j, h, rfl⟩; exact h

section arOf
variable {s : Gerg ℝ} {itau : Int} {a b : Fin 4} {fac : Fac}

/-- One component's contribution. -/
theorem arPureP_entry (hp : PosE (params s)) (h : Adds itau a b fac) (δ : ℝ) (i : Fin 22) (hi : 1 ≤ i.1)
    (w : Vector (Vector ℝ 13) 22) (lt : ℝ) (ar : Ar ℝ) :
    aget2 (arPureP s itau (arDelp δ).1 (arDelp δ).2 i ar) a b = aget2 ar a b
      + ∑ k : Fin 25, amp s.x s.taup w (params s) lt (.inl (i, k))
        * ((shape (params s) (.inl (i, k))).phi δ * fac (shape (params s) (.inl (i, k))) δ) := by
  have h25 := KPOL_KEXP_lt i
  unfold arPureP
  split
  case isFalse hx =>
    rw [Finset.sum_eq_zero, add_zero]
    intro k _
    simp only [amp]
    rw [if_neg (fun hr => hx hr.2.1), zero_mul]
  case isTrue hx =>
    let g : ℕ → ℝ := fun k => if hk : k < 25 then amp s.x s.taup w (params s) lt (.inl (i, ⟨k, hk⟩))
        * ((shape (params s) (.inl (i, ⟨k, hk⟩))).phi δ * fac (shape (params s) (.inl (i, ⟨k, hk⟩))) δ) else 0
    rw [foldl_range'_proj_add _ _ (fun ar => aget2 ar a b) g,
      foldl_range'_proj_add _ _ (fun ar => aget2 ar a b) g, add_assoc, Nat.add_comm 1,
      Finset.sum_Ico_consecutive _ (by omega) (by omega), sum_Ico_fin h25]
    · congr 1
      apply Finset.sum_congr rfl
      intro k _
      split
      case isTrue hk => exact dif_pos k.2
      case isFalse hk =>
        simp only [amp]
        rw [if_neg (fun hr => hk ⟨hr.2.2.1, by have := hr.2.2.2; omega⟩), zero_mul]
    · intro k ar h1 h2
      have hk : k < 25 := by omega
      have hr : readP s.x i ⟨k, hk⟩ := ⟨hi, hx, h1, by show k ≤ _; omega⟩
      obtain ⟨d1, d8⟩ := hp.doik i ⟨k, hk⟩ hi h1 (by show k ≤ _; omega)
      unfold arPolAt
      dsimp only
      rw [h.pol δ, show g k = _ from dif_pos hk]
      have e : gd (aget s.doik i) k 0 = aget2 (params s).doik i ⟨k, hk⟩ := dif_pos hk
      have e2 : gd (aget s.taup i) k (f% 0.0) = aget2 s.taup i ⟨k, hk⟩ := dif_pos hk
      have e3 : gd (aget s.toik i) k (f% 0.0) = aget2 (params s).toik i ⟨k, hk⟩ := dif_pos hk
      rw [e, e2, e3, gd_delp δ d1 d8]
      simp only [amp, shape]
      rw [if_pos hr, if_pos (show k ≤ aget KPOL i by omega)]
      simp only [Shape.phi, Shape.q, if_true, neg_zero, zero_mul, add_zero, Real.exp_zero, mul_one]
      ring
    · intro k ar h1 h2
      have hk : k < 25 := by omega
      have hr : readP s.x i ⟨k, hk⟩ := ⟨hi, hx, by show 1 ≤ k; omega, by show k ≤ _; omega⟩
      obtain ⟨d1, d8⟩ := hp.doik i ⟨k, hk⟩ hi (by show 1 ≤ k; omega) (by show k ≤ _; omega)
      obtain ⟨c1, c8⟩ := hp.coik i ⟨k, hk⟩ hi (by show _ < k; omega) (by show k ≤ _; omega)
      unfold arExpAt
      dsimp only
      have e : gd (aget s.doik i) k 0 = aget2 (params s).doik i ⟨k, hk⟩ := dif_pos hk
      have e1 : gd (aget s.coik i) k 0 = aget2 (params s).coik i ⟨k, hk⟩ := dif_pos hk
      have e2 : gd (aget s.taup i) k (f% 0.0) = aget2 s.taup i ⟨k, hk⟩ := dif_pos hk
      have e3 : gd (aget s.toik i) k (f% 0.0) = aget2 (params s).toik i ⟨k, hk⟩ := dif_pos hk
      rw [e, e1, e2, e3, gd_delp δ d1 d8, gd_delp δ c1 c8, gd_expd δ c1 c8, h.exp δ, show g k = _ from dif_pos hk]
      simp only [amp, shape]
      rw [if_pos hr, if_neg (show ¬ k ≤ aget KPOL i by omega)]
      have hc : aget2 (params s).coik i ⟨k, hk⟩ ≠ 0 := by omega
      simp only [Shape.phi, Shape.q, if_neg hc, zero_mul, add_zero]
      ring

/-- One pair's contribution. -/
theorem arPairP_entry (hp : PosE (params s)) (h : Adds itau a b fac) (δ lt : ℝ) (i j : Fin 22) (hi : 1 ≤ i.1)
    (hij : i.1 < j.1) (hx : FOps.lt EPSILON (aget s.x i) = true)
    (v : Vector (Vector ℝ 25) 22) (ar : Ar ℝ) :
    aget2 (arPairP s itau δ lt (arDelp δ).1 i j ar) a b = aget2 ar a b
      + ∑ k : Fin 13, amp s.x v s.taupijk (params s) lt (.inr (i, j, k))
        * ((shape (params s) (.inr (i, j, k))).phi δ * fac (shape (params s) (.inr (i, j, k))) δ) := by
  have hmn := MNUMB_lt i j
  have h13 := kpolij_lt hmn
  unfold arPairP
  split
  case isFalse hy =>
    rw [Finset.sum_eq_zero, add_zero]
    intro k _
    simp only [amp]
    rw [if_neg (fun hr => hy hr.2.2.2.1), zero_mul]
  case isTrue hy =>
  split
  case isFalse hm =>
    rw [Finset.sum_eq_zero, add_zero]
    intro k _
    simp only [amp]
    rw [if_neg (fun hr => hm hr.2.2.2.2.1), zero_mul]
  case isTrue hm =>
    let g : ℕ → ℝ := fun k => if hk : k < 13 then amp s.x v s.taupijk (params s) lt (.inr (i, j, ⟨k, hk⟩))
        * ((shape (params s) (.inr (i, j, ⟨k, hk⟩))).phi δ * fac (shape (params s) (.inr (i, j, ⟨k, hk⟩))) δ) else 0
    have hact : ∀ k, 1 ≤ k → k ≤ kpolij (aget2 MNUMB i j) + kexpij (aget2 MNUMB i j) → actM s.x i j k :=
      fun k h1 h2 => ⟨hi, hij, hx, hy, hm, h1, h2⟩
    rw [foldl_range'_proj_add _ _ (fun ar => aget2 ar a b) g,
      foldl_range'_proj_add _ _ (fun ar => aget2 ar a b) g, add_assoc, Nat.add_comm 1,
      Finset.sum_Ico_consecutive _ (by omega) (by omega), sum_Ico_fin h13]
    · congr 1
      apply Finset.sum_congr rfl
      intro k _
      split
      case isTrue hk => exact dif_pos k.2
      case isFalse hk =>
        simp only [amp]
        rw [if_neg (fun hr => hk ⟨hr.2.2.2.2.2.1, by have := hr.2.2.2.2.2.2; omega⟩), zero_mul]
    · intro k ar h1 h2
      have hk : k < 13 := by omega
      obtain ⟨d1, d8⟩ := hp.dijk i j k hm h1 (by omega)
      unfold arPolMixAt
      dsimp only
      rw [h.pol δ, show g k = _ from dif_pos hk]
      simp only [amp, shape, valM, shapeM]
      rw [if_pos (hact k h1 (by omega)), if_pos (show k ≤ kpolij (aget2 MNUMB i j) by omega),
        if_pos (show k ≤ kpolij (aget2 MNUMB i j) by omega)]
      have e1 : s.dijk = (params s).dijk := rfl
      have e2 : s.tijk = (params s).tijk := rfl
      rw [e1, e2, gd_delp δ d1 d8, l0]
      simp only [Shape.phi, Shape.q, if_true, neg_zero, zero_mul, add_zero, Real.exp_zero, mul_one]
      ring
    · intro k ar h1 h2
      have hk : k < 13 := by omega
      obtain ⟨d1, d8⟩ := hp.dijk i j k hm (by omega) (by omega)
      unfold arMixAt
      dsimp only
      have e0 : aget (arDelp δ).1 2 = δ ^ 2 := (arDelp_get δ 2 (by decide)).1
      rw [e0, h.mix δ, show g k = _ from dif_pos hk]
      simp only [amp, shape, valM, shapeM]
      rw [if_pos (hact k (by omega) (by omega)), if_neg (show ¬ k ≤ kpolij (aget2 MNUMB i j) by omega),
        if_neg (show ¬ k ≤ kpolij (aget2 MNUMB i j) by omega)]
      have e1 : s.dijk = (params s).dijk := rfl
      have e2 : s.tijk = (params s).tijk := rfl
      have e3 : s.cijk = (params s).cijk := rfl
      have e4 : s.eijk = (params s).eijk := rfl
      have e5 : s.gijk = (params s).gijk := rfl
      have e6 : s.nijk = (params s).nijk := rfl
      rw [e1, e2, e3, e4, e5, e6, gd_delp δ d1 d8, l0]
      simp only [Shape.phi, Shape.q, if_true, neg_zero, zero_add, r_exp]
      rw [show gd2 (params s).cijk (aget2 MNUMB i j) k 0 * δ ^ 2 + gd2 (params s).eijk (aget2 MNUMB i j) k 0 * δ
          + gd2 (params s).gijk (aget2 MNUMB i j) k 0 + gd2 (params s).tijk (aget2 MNUMB i j) k 0 * lt
        = (gd2 (params s).cijk (aget2 MNUMB i j) k 0 * δ ^ 2 + gd2 (params s).eijk (aget2 MNUMB i j) k 0 * δ)
          + (gd2 (params s).gijk (aget2 MNUMB i j) k 0 + gd2 (params s).tijk (aget2 MNUMB i j) k 0 * lt) by ring,
        Real.exp_add]
      ring

end arOf

/-- The weighted sum over all residual terms. -/
noncomputable def resSum (A : Ix → ℝ) (m : Params ℝ) (fac : Fac) (δ : ℝ) : ℝ :=
  ∑ ι : Ix, A ι * ((shape m ι).phi δ * fac (shape m ι) δ)

theorem sum_dropLast (g : Fin 22 → ℝ) :
    ((rangeFin 1 22).dropLast.map g).sum = ∑ i : Fin 22, if 1 ≤ i.1 ∧ i.1 ≤ 20 then g i else 0 := by
  rw [← Finset.sum_filter, ← List.sum_toFinset g (by decide)]
  apply Finset.sum_congr _ (fun _ _ => rfl)
  decide

theorem mem_dropLast : ∀ i ∈ (rangeFin 1 22).dropLast, 1 ≤ i.1 ∧ i.1 ≤ 20 := by decide

/-- The entries of `ar` are weighted sums over all terms. -/
theorem arOf_entry {s : Gerg ℝ} {itau : Int} {a b : Fin 4} {fac : Fac} (hp : PosE (params s))
    (h : Adds itau a b fac) (δ lt : ℝ) :
    aget2 (arOf s itau δ lt) a b
      = resSum (amp s.x s.taup s.taupijk (params s) lt) (params s) fac δ := by
  let G : Ix → ℝ := fun ι => amp s.x s.taup s.taupijk (params s) lt ι
    * ((shape (params s) ι).phi δ * fac (shape (params s) ι) δ)
  have hG : resSum (amp s.x s.taup s.taupijk (params s) lt) (params s) fac δ = ∑ ι : Ix, G ι := rfl
  rw [hG, Fintype.sum_sum_type, Fintype.sum_prod_type, Fintype.sum_prod_type]
  unfold arOf
  rw [foldl_proj_add (fun ar : Ar ℝ => aget2 ar a b)
    (fun i => ∑ j : Fin 22, ∑ k : Fin 13, G (.inr (i, j, k))), sum_dropLast,
    loop_proj_add (fun ar : Ar ℝ => aget2 ar a b) (fun i => ∑ k : Fin 25, G (.inl (i, k))), aget2_fill, l0, zero_add]
  · congr 1
    · rw [Finset.sum_filter]
      apply Finset.sum_congr rfl
      intro i _
      split
      · rfl
      · rename_i hi
        rw [Finset.sum_eq_zero]
        intro k _
        show amp _ _ _ _ _ _ * _ = 0
        simp only [amp]
        rw [if_neg (fun hr => hi hr.1), zero_mul]
    · apply Finset.sum_congr rfl
      intro i _
      rw [Fintype.sum_prod_type]
      split
      · rfl
      · rename_i hi
        rw [Finset.sum_eq_zero]
        intro j _
        rw [Finset.sum_eq_zero]
        intro k _
        show amp _ _ _ _ _ _ * _ = 0
        simp only [amp]
        rw [if_neg (fun hr => hi ⟨hr.1, by have := hr.2.1; omega⟩), zero_mul]
  · intro i ar hi
    exact arPureP_entry hp h δ i hi _ _ ar
  · intro ar i hi
    obtain ⟨h1, h2⟩ := mem_dropLast i hi
    split
    case isTrue hx =>
      rw [loop_proj_add (fun ar : Ar ℝ => aget2 ar a b) (fun j => ∑ k : Fin 13, G (.inr (i, j, k)))]
      · congr 1
        rw [Finset.sum_filter]
        apply Finset.sum_congr rfl
        intro j _
        split
        · rfl
        · rename_i hj
          rw [Finset.sum_eq_zero]
          intro k _
          show amp _ _ _ _ _ _ * _ = 0
          simp only [amp]
          rw [if_neg (fun hr => hj (by have := hr.2.1; omega)), zero_mul]
      · intro j ar hj
        exact arPairP_entry hp h δ lt i j h1 (by omega) hx _ ar
    case isFalse hx =>
      rw [Finset.sum_eq_zero, add_zero]
      intro j _
      rw [Finset.sum_eq_zero]
      intro k _
      show amp _ _ _ _ _ _ * _ = 0
      simp only [amp]
      rw [if_neg (fun hr => hx hr.2.2.1), zero_mul]

/-! ## Reading the terms through the view -/

theorem gd2_pos {α : Type} {n m : Nat} (v : Vector (Vector α m) n) {i j : Nat} (a : α) (hi : i < n) (hj : j < m) :
    gd2 v i j a = aget2 v ⟨i, hi⟩ ⟨j, hj⟩ := dif_pos ⟨hi, hj⟩

theorem amp_mask (x : Vector ℝ 22) (v : Vector (Vector ℝ 25) 22) (w : Vector (Vector ℝ 13) 22)
    (m : Params ℝ) (lt : ℝ) : amp x (maskP x v) (maskIJ x w) m lt = amp x v w m lt := by
  funext ι
  rcases ι with ⟨i, k⟩ | ⟨i, j, k⟩ <;> simp only [amp]
  · split
    case isTrue h => rw [maskP_get h]
    case isFalse h => rfl
  · split
    case isFalse h => rfl
    case isTrue h =>
      have hv : valM (maskIJ x w) m lt (aget2 MNUMB i j) k.1 = valM w m lt (aget2 MNUMB i j) k.1 := ?_
      · rw [hv]
      unfold valM
      split
      case isFalse h => rfl
      case isTrue hk =>
        have h11 := MNUMB_lt i j
        have hm : aget2 MNUMB i j < 22 := by omega
        have hr : readIJ x ⟨aget2 MNUMB i j, hm⟩ k := ⟨h.2.2.2.2.2.1, hk, i, j, h.1, h.2.1, h.2.2.1, h.2.2.2.1,
          h.2.2.2.2.1, rfl⟩
        rw [gd2_pos _ _ hm k.2, gd2_pos _ _ hm k.2]
        exact maskIJ_get hr w

/-- Amplitudes of the terms used by the next evaluation of `s`. -/
noncomputable def ampOf (s : Gerg ℝ) : Ix → ℝ :=
  amp s.x (view s).taup (view s).taupijk (params s) (Real.log ((view s).tr / s.t))

/-- The reduced density used by the next evaluation of `s`. -/
noncomputable def redD (s : Gerg ℝ) : ℝ := s.d / (view s).dr

theorem alpharP_entry {s : Gerg ℝ} {itau : Int} {a b : Fin 4} {fac : Fac} (hp : PosE (params s))
    (h : Adds itau a b fac) :
    aget2 (alpharP s itau).ar a b = resSum (ampOf s) (params s) fac (redD s) := by
  rw [ar_alpharP, arOf_entry (by rw [params_refresh]; exact hp) h, params_refresh]
  have hx : (refresh s).x = s.x := pub_xx (pub_refresh s)
  have hv : (view s).taup = maskP s.x (refresh s).taup := by
    have := cache_refresh s
    unfold view readV; rw [← this]; rfl
  have hw : (view s).taupijk = maskIJ s.x (refresh s).taupijk := by
    have := cache_refresh s
    unfold view readV; rw [← this]; rfl
  unfold ampOf
  rw [hv, hw, amp_mask, hx]
  rfl

end Aga8.Gerg
