import Verif.Props.MolarMass
import Verif.Props.F64
import Verif.Lemmas.DetailErrSetup

/-! # Molar mass in IEEE-754 arithmetic (C08) -/

set_option linter.unusedSectionVars false

namespace Aga8

open F64

variable [Libm]

theorem chkMMI : ∀ i : Fin 21, decChk false 0 8 (aget Detail.Tab.MMI i) = true ∧ 0 < (aget Detail.Tab.MMI i).m := by
  decide +kernel
theorem chkMMG : ∀ i : Fin 22, 1 ≤ i.1 →
    decChk false 0 8 (aget Gerg.Tab.MMI_GERG i) = true ∧ 0 < (aget Gerg.Tab.MMI_GERG i).m := by
  decide +kernel

/-- A sum of 21 or 22 products of a number and a positive table entry. -/
theorem wsum_ap {n : ℕ} (hn : n ≤ 22) (lo : ℕ) (x t : Fin n → Float) (M : Fin n → ℝ)
    (hx : ∀ i, IsFinite (x i) ∧ (toR (x i) = 0 ∨ 1 / 2 ^ 900 ≤ |toR (x i)| ∧ |toR (x i)| ≤ 2 ^ 900))
    (ht : ∀ i, lo ≤ i.1 → Ap (t i) (M i) (M i) 1 0 8) :
    Ap (loop lo n (f% 0.0) fun i a => a + x i * t i) (∑ i with lo ≤ i.1, toR (x i) * M i)
      (∑ i with lo ≤ i.1, |toR (x i)| * M i) 47 900 913 := by
  have T : ∀ i, lo ≤ i.1 → Ap (x i * t i) (toR (x i) * M i) (|toR (x i)| * M i) 3 900 908 := by
    intro i hi
    have A : Ap (x i) (toR (x i)) |toR (x i)| 0 900 900 := Ap.exact (hx i).1 ((hx i).2.imp id fun ⟨h1, h2⟩ => ⟨by
      rwa [div_le_iff₀ (by positivity), mul_comm] at h1, h2⟩)
    exact (A.mul (ht i hi)).weak (by norm_num) (by norm_num) (by norm_num)
  have H : ∀ i : Fin n, lo ≤ i.1 → Adds (id : Float → Float) (fun a => a + x i * t i) (toR (x i) * M i) (|toR (x i)| * M i)
      2 3 900 913 := fun i hi => Adds.one (fun _ => rfl) ((T i hi).weak le_rfl le_rfl (by norm_num)) (by norm_num)
  have hsum : ∑ i with lo ≤ i.1, |toR (x i)| * M i ≤ 2 ^ 913 := by
    have hb : ∀ i, lo ≤ i.1 → |toR (x i)| * M i ≤ 2 ^ 908 := by
      intro i hi
      rcases (T i hi).rng with e | e
      · rw [e]; positivity
      · exact e.2
    calc ∑ i with lo ≤ i.1, |toR (x i)| * M i ≤ ∑ i : Fin n with lo ≤ i.1, (2 : ℝ) ^ 908 :=
          Finset.sum_le_sum fun i hi => hb i (Finset.mem_filter.1 hi).2
      _ = (Finset.univ.filter fun i : Fin n => lo ≤ i.1).card * (2 : ℝ) ^ 908 := by rw [Finset.sum_const, nsmul_eq_mul]
      _ ≤ 32 * 2 ^ 908 := by
        refine mul_le_mul_of_nonneg_right ?_ (by positivity)
        have h1 := (Finset.card_filter_le (Finset.univ : Finset (Fin n)) fun i => lo ≤ i.1)
        rw [Finset.card_univ, Fintype.card_fin] at h1
        have : (Finset.univ.filter fun i : Fin n => lo ≤ i.1).card ≤ 32 := by omega
        exact_mod_cast this
      _ = 2 ^ 913 := by rw [show (32 : ℝ) = 2 ^ 5 by norm_num, ← pow_add]
  have := (Adds.loop lo H).2 (f% 0.0) 0 0 3 le_rfl (show 3 + 2 * (n - lo) ≤ 33554432 by omega) (by rw [zero_add]; exact hsum) (Detail.ap0 _ _ _)
  simp only [zero_add, id] at this
  exact this.weak (by omega) le_rfl le_rfl

theorem ap_1e14 {a : Float} {α m : ℝ} {l h : ℕ} (A : Ap a α m 47 l h) : |toR a - α| ≤ 1e-14 * m := by
  refine A.err.trans (mul_le_mul_of_nonneg_right ?_ A.nonneg)
  rw [uu_eq]; norm_num

theorem Detail.massMax : ∀ i, 0 ≤ Detail.massQ i ∧ Detail.massQ i ≤ 200 := by decide +kernel
theorem Gerg.massMax : ∀ i, 0 ≤ Gerg.massQ i ∧ Gerg.massQ i ≤ 200 := by decide +kernel

theorem Detail.accepted {F : Type} [Add F] [Sub F] [Mul F] [Div F] [Neg F] [FOps F] {s s1 : Detail F} {c : Composition F}
    (h : s.set_composition c = (s1, .ok ())) : c.check = .ok () := by
  unfold Detail.set_composition at h
  cases hc : c.check with
  | error e => rw [hc] at h; simp at h
  | ok u => rfl
theorem Gerg.accepted {F : Type} [Add F] [Sub F] [Mul F] [Div F] [Neg F] [FOps F] {s s1 : Gerg F} {c : Composition F}
    (h : s.set_composition c = (s1, .ok ())) : c.check = .ok () := by
  unfold Gerg.set_composition at h
  cases hc : c.check with
  | error e => rw [hc] at h; simp at h
  | ok u => rfl

/-- A number close to the weighted sum of one table is close to that of another table close to it. -/
theorem near_chem (c : Composition Float) (hf : ∀ i, IsFinite (c.frac i))
    (hb : ∀ i, toR (c.frac i) = 0 ∨ 1 / 2 ^ 900 ≤ |toR (c.frac i)| ∧ |toR (c.frac i)| ≤ 2 ^ 900) (hk : c.check = .ok ()) {M : Fin 21 → ℚ}
    (hM : ∀ i, |M i - Chem.mass i| ≤ 1 / 100) (hM2 : ∀ i, 0 ≤ M i ∧ M i ≤ 200) {m : ℝ}
    (h : |m - ∑ i, toR (c.frac i) * M i| ≤ 1e-14 * ∑ i, |toR (c.frac i)| * M i) (h0 : ∀ i, 0 ≤ toR (c.frac i)) :
    |m - ∑ i, toR (c.frac i) * Chem.mass i| ≤ 0.011 := by
  have hs : ∑ i, toR (c.frac i) ≤ 1.02 := by
    have hT : ∑ i, toR (c.frac i) ≤ 2 ^ 1022 := by
      calc ∑ i, toR (c.frac i) ≤ ∑ _i : Fin 21, (2 : ℝ) ^ 900 := Finset.sum_le_sum fun i _ => by
            rcases hb i with e | e
            · rw [e]; positivity
            · exact (le_abs_self _).trans e.2
        _ = 21 * 2 ^ 900 := by rw [Finset.sum_const, Finset.card_univ, Fintype.card_fin, nsmul_eq_mul]; rfl
        _ ≤ 2 ^ 5 * 2 ^ 900 := mul_le_mul_of_nonneg_right (by norm_num) (by positivity)
        _ ≤ 2 ^ 1022 := by rw [← pow_add]; exact pow_le_pow_right₀ (by norm_num) (by norm_num)
    have := (C02_f64_sound c hf h0 hT).1 hk
    have := (abs_le.1 this).2
    clear hT
    norm_num at this ⊢
    linarith
  have h1 : |∑ i, toR (c.frac i) * (M i : ℝ) - ∑ i, toR (c.frac i) * Chem.mass i| ≤ 0.01 * ∑ i, toR (c.frac i) := by
    rw [← Finset.sum_sub_distrib, Finset.mul_sum]
    refine (Finset.abs_sum_le_sum_abs _ _).trans (Finset.sum_le_sum fun i _ => ?_)
    rw [← mul_sub, abs_mul, abs_of_nonneg (h0 i), mul_comm]
    refine mul_le_mul_of_nonneg_right ?_ (h0 i)
    have := (Rat.cast_le (K := ℝ)).2 (hM i)
    push_cast at this
    norm_num at this ⊢
    exact this
  have h2 : ∑ i, |toR (c.frac i)| * (M i : ℝ) ≤ 200 * ∑ i, toR (c.frac i) := by
    rw [Finset.mul_sum]
    refine Finset.sum_le_sum fun i _ => ?_
    rw [abs_of_nonneg (h0 i), mul_comm]
    refine mul_le_mul_of_nonneg_right ?_ (h0 i)
    exact_mod_cast (hM2 i).2
  have h3 := abs_sub_le m (∑ i, toR (c.frac i) * (M i : ℝ)) (∑ i, toR (c.frac i) * Chem.mass i)
  norm_num at h h1 hs ⊢
  linarith

/-- C08 in f64, DETAIL: after an accepted `set_composition` with fractions that are zero or of magnitude between `2^-900` and
`2^900`, `molar_mass` returns and stores a finite number within 1e-14 relative of the mole-fraction weighted sum of the component
masses (relative to the sum of absolute values), and changes no other field. For non-negative fractions it is within 0.011 g/mol of the
weighted sum of the masses given by the chemical formulas. -/
theorem C08_detail_molar_mass_f64 (s s1 : Detail Float) (c : Composition Float) (h : s.set_composition c = (s1, .ok ()))
    (hc : ∀ i, IsFinite (c.frac i) ∧
      (toR (c.frac i) = 0 ∨ 1 / 2 ^ 900 ≤ |toR (c.frac i)| ∧ |toR (c.frac i)| ≤ 2 ^ 900)) :
    ∃ m, s1.molar_mass = ({ s1 with mm := m }, m) ∧ IsFinite m ∧
      |toR m - ∑ i, toR (c.frac i) * Detail.massQ i| ≤ 1e-14 * ∑ i, |toR (c.frac i)| * Detail.massQ i ∧
      ((∀ i, 0 ≤ toR (c.frac i)) → |toR m - ∑ i, toR (c.frac i) * Chem.mass i| ≤ 0.011) := by
  refine ⟨_, rfl, ?_⟩
  have hx : ∀ i, aget s1.x i = c.frac i := Detail.frac_x s s1 c h
  have := wsum_ap (by norm_num) 0 (fun i => aget s1.x i) (fun i => Detail.tab Detail.Tab.MMI i)
    (fun i => ((Detail.massQ i : ℚ) : ℝ)) (fun i => by rw [hx]; exact hc i) (fun i _ => by
      have := Ap.litPos (chkMMI i).1 (chkMMI i).2.le
      have e : decR (aget Detail.Tab.MMI i) = ((Detail.massQ i : ℚ) : ℝ) := by
        unfold decR Detail.massQ
        push_cast
        rfl
      rw [e] at this
      exact this)
  simp only [Nat.zero_le, Finset.filter_true, hx] at this
  have h2 : (loop 0 21 (f% 0.0) fun i mm => mm + aget s1.x i * Detail.tab Detail.Tab.MMI i)
      = loop 0 21 (f% 0.0) fun i mm => mm + c.frac i * Detail.tab Detail.Tab.MMI i := by simp only [hx]
  rw [h2]
  exact ⟨this.fin, ap_1e14 this, near_chem c (fun i => (hc i).1) (fun i => (hc i).2) (Detail.accepted h) Detail.mass_near Detail.massMax (ap_1e14 this)⟩

/-- C08 in f64, GERG. -/
theorem C08_gerg_molar_mass_f64 (s s1 : Gerg Float) (c : Composition Float) (h : s.set_composition c = (s1, .ok ()))
    (hc : ∀ i, IsFinite (c.frac i) ∧
      (toR (c.frac i) = 0 ∨ 1 / 2 ^ 900 ≤ |toR (c.frac i)| ∧ |toR (c.frac i)| ≤ 2 ^ 900)) :
    ∃ m, s1.molar_mass = { s1 with mm := m } ∧ IsFinite m ∧
      |toR m - ∑ i, toR (c.frac i) * Gerg.massQ i| ≤ 1e-14 * ∑ i, |toR (c.frac i)| * Gerg.massQ i ∧
      ((∀ i, 0 ≤ toR (c.frac i)) → |toR m - ∑ i, toR (c.frac i) * Chem.mass i| ≤ 0.011) := by
  refine ⟨_, rfl, ?_⟩
  have hx : ∀ i : Fin 21, aget s1.x i.succ = c.frac i := Gerg.frac_x s s1 c h
  have hl : (loop 1 22 (f% 0.0) fun i mm => mm + aget s1.x i * Gerg.tab Gerg.Tab.MMI_GERG i)
      = loop 1 22 (f% 0.0) fun i mm => mm + (if i = 0 then f% 0.0 else aget s1.x i) * Gerg.tab Gerg.Tab.MMI_GERG i := by
    refine loop_congr fun i a hi => ?_
    rw [if_neg (by rintro rfl; simp at hi)]
  rw [hl]
  have := wsum_ap (by norm_num) 1 (fun i : Fin 22 => if i = 0 then f% 0.0 else aget s1.x i)
    (fun i => Gerg.tab Gerg.Tab.MMI_GERG i) (fun i => decR (aget Gerg.Tab.MMI_GERG i)) (fun i => by
      refine Fin.cases ?_ (fun j => ?_) i
      · simp only [if_true]; exact ⟨fin0, Or.inl toR0⟩
      · rw [if_neg (Fin.succ_ne_zero j), hx]; exact hc j) (fun i hi => Ap.litPos (chkMMG i hi).1 (chkMMG i hi).2.le)
  have es : ∀ (f : Float → ℝ), ∑ i : Fin 22 with 1 ≤ i.1, f (if i = 0 then f% 0.0 else aget s1.x i) * decR (aget Gerg.Tab.MMI_GERG i)
      = ∑ i, f (c.frac i) * Gerg.massQ i := by
    intro f
    rw [Finset.sum_filter, Fin.sum_univ_succ]
    simp only [Fin.val_zero, Fin.val_succ, Nat.le_add_left, if_true, Fin.succ_ne_zero, if_false, hx]
    rw [if_neg (by norm_num), zero_add]
    refine Finset.sum_congr rfl fun i _ => ?_
    unfold decR Gerg.massQ
    push_cast
    rfl
  rw [es toR, es fun a => |toR a|] at this
  exact ⟨this.fin, ap_1e14 this, near_chem c (fun i => (hc i).1) (fun i => (hc i).2) (Gerg.accepted h) Gerg.mass_near Gerg.massMax (ap_1e14 this)⟩

/-! ## The hypotheses can be met -/

/-- Equal parts of methane and nitrogen. -/
def halves : Composition Float := { Composition.default with methane := f% 0.5, nitrogen := f% 0.5 }

theorem chkHalf : decChk true 1 0 ⟨5, 1⟩ = true := by decide +kernel

theorem halves_val (i : Fin 21) : IsFinite (halves.frac i) ∧ toR (halves.frac i) = if i = 0 ∨ i = 1 then 1 / 2 else 0 := by
  have h1 : IsFinite (f% 0.5 : Float) := decChk_fin chkHalf
  have h2 : toR (f% 0.5 : Float) = 1 / 2 := by
    have h := (decChk_val chkHalf).2.1 rfl
    show toR (litF ⟨5, 1⟩) = _
    rw [h]; simp [decR]; norm_num
  have e : halves.frac i = if i = 0 ∨ i = 1 then f% 0.5 else f% 0.0 := by fin_cases i <;> rfl
  rw [e]
  split
  · exact ⟨h1, h2⟩
  · exact ⟨fin0, toR0⟩

example (s : Detail Float) (t : Gerg Float) : (∃ s1, s.set_composition halves = (s1, .ok ())) ∧
    (∃ t1, t.set_composition halves = (t1, .ok ())) ∧
    ∀ i, IsFinite (halves.frac i) ∧ 0 ≤ toR (halves.frac i) ∧
      (toR (halves.frac i) = 0 ∨ 1 / 2 ^ 900 ≤ |toR (halves.frac i)| ∧ |toR (halves.frac i)| ≤ 2 ^ 900) := by
  have hs : ∑ i, toR (halves.frac i) = 1 := by
    simp only [fun i => (halves_val i).2]
    simp [Fin.sum_univ_succ]
    norm_num
  have hc : halves.check = .ok () := (C02_f64_sound halves (fun i => (halves_val i).1)
    (fun i => by rw [(halves_val i).2]; split <;> norm_num) (by rw [hs]; exact one_le_pow₀ (by norm_num))).2 (by
      rw [hs]; norm_num)
  refine ⟨?_, ?_, fun i => ⟨(halves_val i).1, ?_, ?_⟩⟩
  · unfold Detail.set_composition; rw [hc]; exact ⟨_, rfl⟩
  · unfold Gerg.set_composition; rw [hc]; exact ⟨_, rfl⟩
  · rw [(halves_val i).2]; split <;> norm_num
  · rw [(halves_val i).2]
    split
    · right
      rw [abs_of_pos (by norm_num)]
      refine ⟨?_, ?_⟩
      · exact one_div_le_one_div_of_le (by norm_num) (by
          calc (2 : ℝ) = 2 ^ 1 := by norm_num
            _ ≤ 2 ^ 900 := by gcongr <;> norm_num)
      · exact le_trans (by norm_num) (one_le_pow₀ (by norm_num : (1 : ℝ) ≤ 2))
    · left; rfl

end Aga8
