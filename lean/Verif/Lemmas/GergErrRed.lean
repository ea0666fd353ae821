import Verif.Lemmas.GergErrTab

/-! # Rounding errors in the reducing functions of GERG -/

set_option linter.unusedSectionVars false

namespace Aga8.F64

theorem Adds.comp {σ : Type} {π : σ → Float} {f g : σ → σ} {α m β n : ℝ} {c c' kt l h : ℕ}
    (A : Adds π f α m c kt l h) (B : Adds π g β n c' kt l h) :
    Adds π (fun s => g (f s)) (α + β) (m + n) (c + c') kt l h := by
  have a0 := A.1
  have b0 := B.1
  refine ⟨add_nonneg a0 b0, fun s α' m' k' h1 h2 h3 X => ?_⟩
  have Y := A.2 s α' m' k' h1 (by omega) (by linarith) X
  have Z := B.2 (f s) _ _ (k' + c) (by omega) (by omega) (by linarith) Y
  rw [← add_assoc, ← add_assoc, ← Nat.add_assoc]
  exact Z

theorem Adds.congr {σ : Type} {π : σ → Float} {f g : σ → σ} {α m : ℝ} {c kt l h : ℕ}
    (A : Adds π f α m c kt l h) (hfg : ∀ s, π (g s) = π (f s)) : Adds π g α m c kt l h :=
  ⟨A.1, fun s α' m' k' h1 h2 h3 X => by rw [hfg]; exact A.2 s α' m' k' h1 h2 h3 X⟩

end Aga8.F64

namespace Aga8.Gerg

open Tab F64 Finset
open Detail (ap0 ap1 ap2 apNat)

/-- The composition as real numbers. -/
noncomputable def xr (x : Vector Float 22) : Vector ℝ 22 := Vector.ofFn fun i => toR (aget x i)

theorem xr_get (x : Vector Float 22) (i : Fin 22) : aget (xr x) i = toR (aget x i) := by
  unfold xr; rw [aget_ofFn]

/-- Every fraction is a finite number that is not positive or between `10^-10` and 2. -/
structure OkX (x : Vector Float 22) : Prop where
  fin : ∀ i : Fin 22, 1 ≤ i.1 → IsFinite (aget x i)
  rng : ∀ i : Fin 22, 1 ≤ i.1 → toR (aget x i) ≤ 0 ∨ (1 / 10 ^ 10 ≤ toR (aget x i) ∧ toR (aget x i) ≤ 2)

section
variable [Libm]

theorem chkEps : decChk false 50 0 ⟨1, 15⟩ = true := by decide +kernel

/-- A fraction counts as present in the program exactly if it does for the real numbers. -/
theorem present_iff {x : Vector Float 22} (hx : OkX x) {i : Fin 22} (hi : 1 ≤ i.1) :
    FOps.lt (EPSILON : Float) (aget x i) = FOps.lt (EPSILON : ℝ) (aget (xr x) i) := by
  have C := Ap.litPos chkEps (by norm_num)
  have e : decR ⟨1, 15⟩ = 1 / 10 ^ 15 := by simp [decR]
  have h3 := (abs_le.1 C.err).2
  have h4 := (abs_le.1 C.err).1
  rw [e, uu_eq] at h3 h4
  rw [Bool.eq_iff_iff, lt_eps, xr_get]
  have e2 : (EPSILON : Float) = litF ⟨1, 15⟩ := rfl
  rw [e2, flt, lt_toR C.fin (hx.fin i hi)]
  rcases hx.rng i hi with h | h
  · constructor
    · intro h5; norm_num at h4 ⊢; linarith
    · intro h5; norm_num at h5; linarith
  · constructor
    · intro _; norm_num; linarith [h.1]
    · intro _; norm_num at h3; linarith [h.1]

theorem apX {x : Vector Float 22} (hx : OkX x) {i : Fin 22} (hi : 1 ≤ i.1)
    (hp : FOps.lt (EPSILON : ℝ) (aget (xr x) i) = true) :
    Ap (aget x i) (aget (xr x) i) (aget (xr x) i) 0 34 1 ∧ 0 < aget (xr x) i := by
  have h0 := lt_eps_pos hp
  refine ⟨?_, h0⟩
  rw [xr_get] at h0 ⊢
  have := Ap.exact (l := 34) (h := 1) (hx.fin i hi) (Or.inr (by
    rw [abs_of_pos h0]
    rcases hx.rng i hi with h | h
    · linarith
    · exact ⟨by linarith [h.1], by linarith [h.2]⟩))
  rwa [abs_of_pos h0] at this

/-- One pair's part of a reducing function. -/
theorem ap_red {x y : Float} {ξ υ : ℝ} (X : Ap x ξ ξ 0 34 1) (Y : Ap y υ υ 0 34 1) (hξ : 0 < ξ) (hυ : 0 < υ)
    {f g b : Float} {φ G B : ℝ} (Fa : Ap f φ φ 0 0 1) (Ga : Ap g G G 1 5 10) (Ba : Ap b B B 15 2 2) (hB : 0 < B) :
    Ap (f * (x * y) * (x + y) * g / (b * x + y)) (φ * (ξ * υ * (ξ + υ) * G / (B * ξ + υ)))
      (φ * (ξ * υ * (ξ + υ) * G / (B * ξ + υ))) 32 120 51 := by
  have h1 := (((Fa.mul (X.mul Y)).mul (X.add Y)).mul Ga)
  have h2 := (Ba.mul X).add Y
  have h3 := h1.div h2 (by positivity)
  have e : φ * (ξ * υ) * (ξ + υ) * G / (B * ξ + υ) = φ * (ξ * υ * (ξ + υ) * G / (B * ξ + υ)) := by ring
  rw [e] at h3
  exact h3.weak (by norm_num) (by norm_num) (by norm_num)

/-- The parts of one row of the reducing functions, with the factor fixed. -/
def rpB (s : Gerg Float) (i : Fin 22) (f : Float) (j : Fin 22) (a : Float × Float) : Float × Float :=
  if FOps.lt EPSILON (aget s.x j) = true then
    (a.1 + f * (aget s.x i * aget s.x j) * (aget s.x i + aget s.x j) * tab2 GVIJ i j
        / (aget2 s.bvij i j * aget s.x i + aget s.x j),
      a.2 + f * (aget s.x i * aget s.x j) * (aget s.x i + aget s.x j) * tab2 GTIJ i j
        / (tab2 BTIJ i j * aget s.x i + aget s.x j))
  else a

theorem rpRow_eq (s : Gerg Float) (i : Fin 22) (a : Float × Float) (hx : FOps.lt EPSILON (aget s.x i) = true) :
    rpRow s i a = loop (i.1 + 1) 22 (rpB s i (f% 1.0) i a) (fun j => rpB s i (f% 2.0) j) := by
  unfold rpRow
  rw [if_pos hx, loop_step _ _ i.2]
  have := loop_rel (lo := i.1 + 1) (n := 22) (s := rpPair s i ⟨i.1, i.2⟩ (a.1, a.2, f% 1.0))
    (t := rpB s i (f% 1.0) i a) (body := rpPair s i) (body' := fun j => rpB s i (f% 2.0) j)
    (fun u v => (u.1 = v.1 ∧ u.2.1 = v.2) ∧ u.2.2 = f% 2.0) ?_ ?_
  · exact Prod.ext this.1.1 this.1.2
  · unfold rpPair rpB
    rw [Fin.eta, if_pos hx, if_pos hx]
    exact ⟨⟨rfl, rfl⟩, rfl⟩
  · rintro j ⟨u1, u2, u3⟩ ⟨v1, v2⟩ _ ⟨⟨h1, h2⟩, h3⟩
    have h1 : u1 = v1 := h1
    have h2 : u2 = v2 := h2
    have h3 : u3 = f% 2.0 := h3
    subst h1 h2 h3
    unfold rpPair rpB
    split
    · exact ⟨⟨rfl, rfl⟩, rfl⟩
    · exact ⟨⟨rfl, rfl⟩, rfl⟩

variable (hL : LibmAccurate)
include hL

theorem apBv {i j : Fin 22} (hi : 1 ≤ i.1) (hij : i.1 ≤ j.1) :
    Ap (aget2 (bin0 : BinPar Float).bvij i j) (aget2 (bin0 : BinPar ℝ).bvij i j) (aget2 (bin0 : BinPar ℝ).bvij i j) 15 2 2 := by
  rw [bvij0_get i j hi hij, bvij0_get i j hi hij]
  split
  · have := ap1.weak (k' := 15) (l' := 2) (h' := 2) (by norm_num) (by norm_num) (by norm_num)
    rw [l1]; exact this
  · rename_i h
    obtain ⟨c, p⟩ := chkBV i j hi (lt_of_le_of_ne hij fun e => h (Fin.ext e))
    have A := (Ap.litPos c p.le).powi hL 2
    rw [r_powi, ofDec_decR]
    exact A

variable {x : Vector Float 22} (hx : OkX x)
include hx

/-- One row of a reducing function, as a real number. -/
noncomputable def rowR (x : Vector ℝ 22) (G B : Fin 22 → Fin 22 → ℝ) (i : Fin 22) : ℝ :=
  if FOps.lt EPSILON (aget x i) = true then
    redTerm x (G i i) (B i i) i i
      + ∑ j : Fin 22 with i.1 + 1 ≤ j.1, if FOps.lt EPSILON (aget x j) = true then 2 * redTerm x (G i j) (B i j) i j else 0
  else 0

omit hL in
theorem adds_row (s : Gerg Float) (hs : s.x = x) (π : Float × Float → Float)
    (g : Fin 22 → Fin 22 → Float) (b : Fin 22 → Fin 22 → Float) (G B : Fin 22 → Fin 22 → ℝ)
    (hπ : ∀ (i j : Fin 22) (f : Float) a, FOps.lt EPSILON (aget x j) = true → π (rpB s i f j a)
      = π a + f * (aget x i * aget x j) * (aget x i + aget x j) * g i j / (b i j * aget x i + aget x j))
    (hG : ∀ i j : Fin 22, 1 ≤ i.1 → i.1 ≤ j.1 → Ap (g i j) (G i j) (G i j) 1 5 10)
    (hB : ∀ i j : Fin 22, 1 ≤ i.1 → i.1 ≤ j.1 → Ap (b i j) (B i j) (B i j) 15 2 2 ∧ 0 < B i j)
    (i : Fin 22) (hi : 1 ≤ i.1) :
    F64.Adds π (rpRow s i) (rowR (xr x) G B i) (rowR (xr x) G B i) 44 32 120 61 ∧
      rowR (xr x) G B i ≤ 2 ^ 56 := by
  unfold rowR
  by_cases hp : FOps.lt (EPSILON : ℝ) (aget (xr x) i) = true
  swap
  · refine ⟨F64.Adds.skip _ _ _ _ (fun a => ?_) (if_neg hp) (if_neg hp), by rw [if_neg hp]; positivity⟩
    unfold rpRow
    rw [if_neg (by rw [hs, present_iff hx hi]; exact hp)]
  have hpF : FOps.lt (EPSILON : Float) (aget s.x i) = true := by rw [hs, present_iff hx hi]; exact hp
  rw [if_pos hp]
  obtain ⟨X, x0⟩ := apX hx hi hp
  have one : ∀ (j : Fin 22) (f : Float) (φ : ℝ), i.1 ≤ j.1 → Ap f φ φ 0 0 1 →
      F64.Adds π (rpB s i f j) (if FOps.lt EPSILON (aget (xr x) j) = true then φ * redTerm (xr x) (G i j) (B i j) i j else 0)
        (if FOps.lt EPSILON (aget (xr x) j) = true then φ * redTerm (xr x) (G i j) (B i j) i j else 0) 2 32 120 61 ∧
      (if FOps.lt EPSILON (aget (xr x) j) = true then φ * redTerm (xr x) (G i j) (B i j) i j else 0) ≤ 2 ^ 51 := by
    intro j f φ hij hf
    have hj : 1 ≤ j.1 := by omega
    by_cases hq : FOps.lt (EPSILON : ℝ) (aget (xr x) j) = true
    swap
    · refine ⟨F64.Adds.skip _ _ _ _ (fun a => ?_) (if_neg hq) (if_neg hq), by rw [if_neg hq]; positivity⟩
      unfold rpB
      rw [if_neg (by rw [hs, present_iff hx hj]; exact hq)]
    have hqF : FOps.lt (EPSILON : Float) (aget x j) = true := by rw [present_iff hx hj]; exact hq
    rw [if_pos hq]
    obtain ⟨Y, y0⟩ := apX hx hj hq
    obtain ⟨hb, b0⟩ := hB i j hi hij
    have T := ap_red X Y x0 y0 hf (hG i j hi hij) hb b0
    refine ⟨F64.Adds.one (t := f * (aget x i * aget x j) * (aget x i + aget x j) * g i j / (b i j * aget x i + aget x j))
      (fun a => hπ i j f a hqF) (T.weak le_rfl le_rfl (by norm_num)) (by norm_num), Detail.Ap.le_pow T⟩
  obtain ⟨h1, b1⟩ := one i (f% 1.0) 1 le_rfl (ap1.weak le_rfl le_rfl (by norm_num))
  have h2 := F64.Adds.loop (i.1 + 1) (F := fun j => rpB s i (f% 2.0) j)
    (α := fun j => if FOps.lt EPSILON (aget (xr x) j) = true then 2 * redTerm (xr x) (G i j) (B i j) i j else 0)
    (m := fun j => if FOps.lt EPSILON (aget (xr x) j) = true then 2 * redTerm (xr x) (G i j) (B i j) i j else 0)
    (fun j hj => (one j (f% 2.0) 2 (by omega) ap2).1)
  have b2 : ∀ j ∈ (Finset.univ.filter fun j : Fin 22 => i.1 + 1 ≤ j.1),
      (if FOps.lt EPSILON (aget (xr x) j) = true then 2 * redTerm (xr x) (G i j) (B i j) i j else 0) ≤ (2 : ℝ) ^ 51 := by
    intro j hj
    exact (one j (f% 2.0) 2 (by have := (Finset.mem_filter.1 hj).2; omega) ap2).2
  have b3 := Finset.sum_le_card_nsmul _ _ _ b2
  have b4 : (Finset.univ.filter fun j : Fin 22 => i.1 + 1 ≤ j.1).card ≤ 22 := (Finset.card_filter_le _ _).trans (by simp)
  have b5 : ((Finset.univ.filter fun j : Fin 22 => i.1 + 1 ≤ j.1).card : ℝ) ≤ 22 := by exact_mod_cast b4
  rw [if_pos hp, one_mul] at h1 b1
  refine ⟨((h1.comp h2).weak (c' := 44) (kt' := 32) (by omega) le_rfl).congr fun a => by rw [rpRow_eq s i a hpF], ?_⟩
  rw [nsmul_eq_mul] at b3
  have b6 := b3.trans (mul_le_mul_of_nonneg_right b5 (by positivity))
  have b7 : (2 : ℝ) ^ 51 + 22 * 2 ^ 51 ≤ 2 ^ 56 := by norm_num
  linarith

omit hL hx in
theorem redSum_row (x : Vector ℝ 22) (G B : Fin 22 → Fin 22 → ℝ) :
    redSum x G B = ∑ i : Fin 22 with 1 ≤ i.1, rowR x G B i := rfl

omit hL in
theorem ap_sum (s : Gerg Float) (hs : s.x = x) (π : Float × Float → Float) (hπ0 : π (f% 0.0, f% 0.0) = f% 0.0)
    (g : Fin 22 → Fin 22 → Float) (b : Fin 22 → Fin 22 → Float) (G B : Fin 22 → Fin 22 → ℝ)
    (hπ : ∀ (i j : Fin 22) (f : Float) a, FOps.lt EPSILON (aget x j) = true → π (rpB s i f j a)
      = π a + f * (aget x i * aget x j) * (aget x i + aget x j) * g i j / (b i j * aget x i + aget x j))
    (hG : ∀ i j : Fin 22, 1 ≤ i.1 → i.1 ≤ j.1 → Ap (g i j) (G i j) (G i j) 1 5 10)
    (hB : ∀ i j : Fin 22, 1 ≤ i.1 → i.1 ≤ j.1 → Ap (b i j) (B i j) (B i j) 15 2 2 ∧ 0 < B i j) :
    Ap (π (loop 1 22 (f% 0.0, f% 0.0) (rpRow s))) (redSum (xr x) G B) (redSum (xr x) G B) 956 120 61 := by
  have H := F64.Adds.loop 1 (fun i hi => (adds_row hx s hs π g b G B hπ hG hB i hi).1)
  have b2 : ∀ i ∈ (Finset.univ.filter fun i : Fin 22 => 1 ≤ i.1), rowR (xr x) G B i ≤ (2 : ℝ) ^ 56 := fun i hi =>
    (adds_row hx s hs π g b G B hπ hG hB i (Finset.mem_filter.1 hi).2).2
  have b3 := Finset.sum_le_card_nsmul _ _ _ b2
  rw [nsmul_eq_mul, show (Finset.univ.filter fun i : Fin 22 => 1 ≤ i.1).card = 21 by decide] at b3
  have b7 : ((21 : ℕ) : ℝ) * 2 ^ 56 ≤ 2 ^ 61 := by norm_num
  have Z := H.2 (f% 0.0, f% 0.0) 0 0 32 le_rfl (by show 32 + 44 * (22 - 1) ≤ 33554432; norm_num)
    (by rw [zero_add]; exact b3.trans b7) (by rw [hπ0]; exact ap0 32 120 61)
  rw [zero_add, ← redSum_row] at Z
  exact Z

/-- The inverse of the reducing density. -/
theorem ap_vr : Ap (redX x (bin0 : BinPar Float).bvij).1 (redX (xr x) (bin0 : BinPar ℝ).bvij).1
    (redX (xr x) (bin0 : BinPar ℝ).bvij).1 956 120 61 := by
  rw [(redX_real (xr x) _).1]
  refine ap_sum hx (bareXB x bin0.bvij) rfl (fun a => a.1) rfl (fun i j => tab2 GVIJ i j)
    (fun i j => aget2 (bin0 : BinPar Float).bvij i j) _ _ (fun i j f a h => ?_) (fun i j hi hj => ?_) (fun i j hi hj => ?_)
  · unfold rpB
    rw [if_pos (show FOps.lt EPSILON (aget (bareXB x (bin0 : BinPar Float).bvij).x j) = true from h)]
    rfl
  · obtain ⟨c, p⟩ := chkGV i j hi hj
    have A := Ap.litPos c p.le
    rw [← ofDec_decR] at A
    exact A.weak le_rfl le_rfl (by norm_num)
  · exact ⟨apBv hL hi hj, bvij0_pos i j hi hj⟩

/-- The reducing temperature. -/
theorem ap_tr : Ap (redX x (bin0 : BinPar Float).bvij).2 (redX (xr x) (bin0 : BinPar ℝ).bvij).2
    (redX (xr x) (bin0 : BinPar ℝ).bvij).2 956 120 61 := by
  rw [(redX_real (xr x) _).2]
  refine ap_sum hx (bareXB x bin0.bvij) rfl (fun a => a.2) rfl (fun i j => tab2 GTIJ i j)
    (fun i j => tab2 BTIJ i j) _ _ (fun i j f a h => ?_) (fun i j hi hj => ?_) (fun i j hi hj => ?_)
  · unfold rpB
    rw [if_pos (show FOps.lt EPSILON (aget (bareXB x (bin0 : BinPar Float).bvij).x j) = true from h)]
    rfl
  · obtain ⟨c, p⟩ := chkGT i j hi hj
    have A := Ap.litPos c p.le
    rw [← ofDec_decR] at A
    exact A.weak le_rfl (by norm_num) le_rfl
  · obtain ⟨c, p⟩ := chkBT i j hi hj
    have A := Ap.litPos c p.le
    rw [← ofDec_decR] at A
    exact ⟨A.weak (by norm_num) le_rfl (by norm_num), ofDec_pos p⟩

end

end Aga8.Gerg
