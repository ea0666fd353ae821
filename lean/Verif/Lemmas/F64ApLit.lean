import Verif.Lemmas.F64ApFun
import Verif.Lemmas.RealSum

/-! # Rounding-error rules: literals and loops -/

namespace Aga8.F64

open Float.Model Float.Model.UnpackedFloat

/-- The `f64` a decimal literal is read as. -/
def litF (d : Dec) : Float :=
  if d.m < 0 then -(Float.ofScientific d.m.natAbs true d.e) else Float.ofScientific d.m.natAbs true d.e

theorem litF_eq [Libm] (d : Dec) : (FOps.ofDec d : Float) = litF d := rfl

/-- The real number a decimal literal stands for. -/
noncomputable def decR (d : Dec) : ℝ := (d.m : ℝ) / 10 ^ d.e

/-- Integer check that a literal is read with error at most half a unit in the last place (none if `ex`), and is zero or between `2^-l` and `2^h`. -/
def decChk (ex : Bool) (l h : ℕ) (d : Dec) : Bool :=
  match up (litF d) with
  | .zero _ => d.m == 0
  | .finite s m e _ =>
    let A := m * 2 ^ e.toNat * 10 ^ d.e
    let B := d.m.natAbs * 2 ^ (-e).toNat
    (match s with | .positive => decide (0 < d.m) | .negative => decide (d.m < 0))
      && decide ((A - B) * 2 ^ 53 ≤ B) && decide ((B - A) * 2 ^ 53 ≤ B) && (!ex || A == B)
      && decide (10 ^ d.e ≤ d.m.natAbs * 2 ^ l) && decide (d.m.natAbs ≤ 10 ^ d.e * 2 ^ h)
  | _ => false

theorem decChk_fin {ex : Bool} {l h : ℕ} {d : Dec} (H : decChk ex l h d = true) : IsFinite (litF d) := by
  unfold IsFinite
  unfold decChk at H
  cases hu : up (litF d) <;> rw [hu] at H
  · exact absurd H (by simp)
  · exact absurd H (by simp)
  · trivial
  · trivial

theorem decChk_val {ex : Bool} {l h : ℕ} {d : Dec} (H : decChk ex l h d = true) :
    |toR (litF d) - decR d| ≤ uu * |decR d| ∧ (ex = true → toR (litF d) = decR d) ∧
    (decR d = 0 ∨ (1 ≤ 2 ^ l * |decR d| ∧ |decR d| ≤ 2 ^ h)) := by
  unfold decChk at H
  unfold toR
  cases hu : up (litF d) with
  | infinity s => rw [hu] at H; exact absurd H (by simp)
  | notANumber => rw [hu] at H; exact absurd H (by simp)
  | zero s =>
    rw [hu] at H
    have : d.m = 0 := by simpa using H
    simp [val, decR, this]
  | finite s m e hm =>
    rw [hu] at H
    simp only [Bool.and_eq_true, decide_eq_true_eq] at H
    obtain ⟨⟨⟨⟨⟨H1, H2⟩, H3⟩, H4⟩, H5⟩, H6⟩ := H
    have hT : (0 : ℝ) < 10 ^ d.e := by positivity
    have hP : (0 : ℝ) < 2 ^ (-e).toNat := by positivity
    have hz : (2 : ℝ) ^ e * 2 ^ (-e).toNat = 2 ^ e.toNat := by
      rw [← zpow_natCast, ← zpow_natCast, ← zpow_add₀ (by norm_num : (2 : ℝ) ≠ 0)]
      congr 1; omega
    have hsg : (d.m : ℝ) = sg s * (d.m.natAbs : ℝ) := by
      cases s with
      | positive =>
        have : 0 < d.m := by simpa using H1
        simp only [sg, one_mul]
        have h2 : ((d.m.natAbs : ℤ) : ℝ) = (d.m : ℝ) := by
          rw [Int.natAbs_of_nonneg this.le]
        rw [← h2, Int.cast_natCast]
      | negative =>
        have : d.m < 0 := by simpa using H1
        simp only [sg]
        have h2 : ((d.m.natAbs : ℤ) : ℝ) = ((-d.m : ℤ) : ℝ) := by
          rw [Int.ofNat_natAbs_of_nonpos this.le]
        have h2' : ((d.m.natAbs : ℤ) : ℝ) = -(d.m : ℝ) := by rw [h2, Int.cast_neg]
        have h3 : (d.m.natAbs : ℝ) = -(d.m : ℝ) := by rw [← h2', Int.cast_natCast]
        rw [h3]; ring
    have habs : |decR d| = (d.m.natAbs : ℝ) / 10 ^ d.e := by
      unfold decR
      rw [hsg, abs_div, abs_mul, sg_abs, one_mul, abs_of_pos hT, abs_of_nonneg (Nat.cast_nonneg _)]
    set N := d.m.natAbs with hN
    have hdiff : val (.finite s m e hm) - decR d
        = sg s * (((m * 2 ^ e.toNat * 10 ^ d.e : ℕ) : ℝ) - ((N * 2 ^ (-e).toNat : ℕ) : ℝ))
          / (10 ^ d.e * 2 ^ (-e).toNat) := by
      simp only [val, decR]
      rw [hsg]
      push_cast
      rw [← hz]
      field_simp
    have hBr : (((N * 2 ^ (-e).toNat : ℕ) : ℝ)) = |decR d| * (10 ^ d.e * 2 ^ (-e).toNat) := by
      rw [habs]; push_cast; field_simp
    have hkey : |((m * 2 ^ e.toNat * 10 ^ d.e : ℕ) : ℝ) - ((N * 2 ^ (-e).toNat : ℕ) : ℝ)| * 2 ^ 53
        ≤ ((N * 2 ^ (-e).toNat : ℕ) : ℝ) := by
      generalize m * 2 ^ e.toNat * 10 ^ d.e = A at *
      generalize N * 2 ^ (-e).toNat = B at *
      rcases le_total B A with h1 | h1
      · have h4 : (((A - B : ℕ) : ℝ)) * 2 ^ 53 ≤ B := by exact_mod_cast H2
        rw [Nat.cast_sub h1] at h4
        rw [abs_of_nonneg (by
          have : (B : ℝ) ≤ A := by exact_mod_cast h1
          linarith)]
        exact h4
      · have h4 : (((B - A : ℕ) : ℝ)) * 2 ^ 53 ≤ B := by exact_mod_cast H3
        rw [Nat.cast_sub h1] at h4
        rw [abs_sub_comm, abs_of_nonneg (by
          have : (A : ℝ) ≤ B := by exact_mod_cast h1
          linarith)]
        exact h4
    refine ⟨?_, ?_, Or.inr ⟨?_, ?_⟩⟩
    · rw [hdiff, abs_div, abs_mul, sg_abs, one_mul, abs_of_pos (by positivity : (0 : ℝ) < 10 ^ d.e * 2 ^ (-e).toNat),
        div_le_iff₀ (by positivity), mul_assoc uu, ← hBr, uu_eq]
      rw [one_div, inv_mul_eq_div, le_div_iff₀ (by positivity)]
      exact hkey
    · intro hex
      rw [hex] at H4
      have h4 : m * 2 ^ e.toNat * 10 ^ d.e = N * 2 ^ (-e).toNat := by simpa using H4
      rw [h4, sub_self, mul_zero, zero_div] at hdiff
      linarith
    · rw [habs, mul_div_assoc', le_div_iff₀ hT, one_mul, mul_comm]
      exact_mod_cast H5
    · rw [habs, div_le_iff₀ hT, mul_comm]
      exact_mod_cast H6

namespace Ap

theorem lit {l h : ℕ} {d : Dec} (H : decChk false l h d = true) : Ap (litF d) (decR d) |decR d| 1 l h := by
  obtain ⟨h1, _, h3⟩ := decChk_val H
  refine ⟨decChk_fin H, le_refl _, by simpa using h1, h3.imp (fun e => by rw [e, abs_zero]) id⟩

theorem litPos {l h : ℕ} {d : Dec} (H : decChk false l h d = true) (h0 : 0 ≤ d.m) :
    Ap (litF d) (decR d) (decR d) 1 l h := by
  have := lit H
  rwa [abs_of_nonneg (by unfold decR; have : (0 : ℝ) ≤ d.m := by exact_mod_cast h0
                         positivity)] at this

theorem litEx {l h : ℕ} {d : Dec} (H : decChk true l h d = true) : Ap (litF d) (decR d) |decR d| 0 l h := by
  obtain ⟨_, h2, h3⟩ := decChk_val H
  refine ⟨decChk_fin H, le_refl _, by rw [h2 rfl]; simp, h3.imp (fun e => by rw [e, abs_zero]) id⟩

theorem litExPos {l h : ℕ} {d : Dec} (H : decChk true l h d = true) (h0 : 0 ≤ d.m) :
    Ap (litF d) (decR d) (decR d) 0 l h := by
  have := litEx H
  rwa [abs_of_nonneg (by unfold decR; have : (0 : ℝ) ≤ d.m := by exact_mod_cast h0
                         positivity)] at this

end Ap

/-! ## Loops -/

/-- The step `f` adds to the component `π` a number approximating `α` with magnitude `m`, and costs `c` more units of roundoff. -/
def Adds {σ : Type} (π : σ → Float) (f : σ → σ) (α m : ℝ) (c kt l h : ℕ) : Prop :=
  0 ≤ m ∧ ∀ (s : σ) (α' m' : ℝ) (k' : ℕ), kt ≤ k' → k' + c ≤ KMax → m' + m ≤ 2 ^ h → Ap (π s) α' m' k' l h →
    Ap (π (f s)) (α' + α) (m' + m) (k' + c) l h

namespace Adds

variable {σ : Type} {π : σ → Float} {f : σ → σ} {α m : ℝ} {c kt l h : ℕ}

theorem skip (c kt l h : ℕ) (hf : ∀ s, π (f s) = π s) (hα : α = 0) (hm : m = 0) : Adds π f α m c kt l h := by
  refine ⟨hm.ge, fun s α' m' k' _ _ _ A => ?_⟩
  rw [hα, hm, add_zero, add_zero, hf]
  exact A.weak (by omega) le_rfl le_rfl

theorem one {t : Float} (hf : ∀ s, π (f s) = π s + t) (T : Ap t α m kt l h) (hh : h ≤ 1000) : Adds π f α m 2 kt l h := by
  refine ⟨T.nonneg, fun s α' m' k' hk hK hm A => ?_⟩
  rw [hf]
  exact A.add' (T.weak hk le_rfl le_rfl) (by omega) hm hh

theorem foldl {ι : Type} (ls : List ι) {F : ι → σ → σ} {α m : ι → ℝ} (H : ∀ i ∈ ls, Adds π (F i) (α i) (m i) c kt l h) :
    Adds π (fun s => ls.foldl (fun s i => F i s) s) (ls.map α).sum (ls.map m).sum (c * ls.length) kt l h := by
  induction ls with
  | nil => exact Adds.skip _ _ _ _ (fun _ => rfl) rfl rfl
  | cons i ls ih =>
    have hi := H i (List.mem_cons_self ..)
    have hr := ih fun j hj => H j (List.mem_cons_of_mem _ hj)
    refine ⟨by simp only [List.map_cons, List.sum_cons]; exact add_nonneg hi.1 hr.1, fun s α' m' k' hk hK hm A => ?_⟩
    simp only [List.map_cons, List.sum_cons, List.length_cons, List.foldl_cons] at hm hK ⊢
    have h0 := hr.1
    have h1 : c * (ls.length + 1) = c * ls.length + c := by ring
    rw [h1] at hK ⊢
    have h2 := hi.2 s α' m' k' hk (by omega) (by linarith) A
    have h3 := hr.2 (F i s) _ _ (k' + c) (by omega) (by omega) (by linarith) h2
    rw [← add_assoc, ← add_assoc, show k' + (c * ls.length + c) = k' + c + c * ls.length by ring]
    exact h3

/-- A loop of the program. -/
theorem loop {n : ℕ} (lo : ℕ) {F : Fin n → σ → σ} {α m : Fin n → ℝ} (H : ∀ i, lo ≤ i.1 → Adds π (F i) (α i) (m i) c kt l h) :
    Adds π (fun s => Aga8.loop lo n s F) (∑ i with lo ≤ i.1, α i) (∑ i with lo ≤ i.1, m i) (c * (n - lo)) kt l h := by
  have := foldl (rangeFin lo n) (F := F) (α := α) (m := m) fun i hi => H i ((mem_rangeFin ..).1 hi)
  rw [sum_rangeFin, sum_rangeFin] at this
  have hl : (rangeFin lo n).length = n - lo := by simp [rangeFin]
  rw [hl] at this
  exact this

theorem weak {c' kt' : ℕ} (H : Adds π f α m c kt l h) (hc : c ≤ c') (hk : kt ≤ kt') : Adds π f α m c' kt' l h :=
  ⟨H.1, fun s α' m' k' h1 h2 h3 A => (H.2 s α' m' k' (by omega) (by omega) h3 A).weak (by omega) le_rfl le_rfl⟩

end Adds

end Aga8.F64
