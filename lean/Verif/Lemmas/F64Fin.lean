import Verif.Lemmas.F64Zero
import Verif.Props.F64

/-! # Infinities and NaN propagate

What is not finite stays so through products, differences and as a dividend. -/

namespace Aga8.F64

open Float.Model Float.Model.UnpackedFloat

theorem isFin_iff (f : UnpackedFloat) : IsFin f ↔ f ≠ .notANumber ∧ ∀ s, f ≠ .infinity s := by
  cases f <;> simp [IsFin]

theorem not_fin {a : Float} (h : ¬ IsFinite a) : up a = .notANumber ∨ ∃ s, up a = .infinity s := by
  unfold IsFinite at h
  cases h' : up a with
  | notANumber => exact Or.inl rfl
  | infinity s => exact Or.inr ⟨s, rfl⟩
  | zero s => rw [h'] at h; exact absurd trivial h
  | finite s m e hm => rw [h'] at h; exact absurd trivial h

theorem nf_nan {f : UnpackedFloat} (h : f = .notANumber) : ¬ IsFin (recode f) := by
  rw [h, recode_nan]; exact id
theorem nf_inf (s : Sign) {f : UnpackedFloat} (h : f = .infinity s) : ¬ IsFin (recode f) := by
  rw [h, recode_inf]; exact id

theorem fin_mul_left {a b : Float} (h : IsFinite (a * b)) : IsFinite a := by
  by_contra hn
  refine absurd h ?_
  unfold IsFinite
  rw [up_mul]
  rcases not_fin hn with h | ⟨s, h⟩ <;> rw [h] <;> cases up b <;> first | exact nf_nan rfl | exact nf_inf _ rfl

theorem fin_mul_right {a b : Float} (h : IsFinite (a * b)) : IsFinite b := by
  by_contra hn
  refine absurd h ?_
  unfold IsFinite
  rw [up_mul]
  rcases not_fin hn with h | ⟨s, h⟩ <;> rw [h] <;> cases up a <;> first | exact nf_nan rfl | exact nf_inf _ rfl

theorem fin_div_left {a b : Float} (h : IsFinite (a / b)) : IsFinite a := by
  by_contra hn
  refine absurd h ?_
  unfold IsFinite
  rw [up_div]
  rcases not_fin hn with h | ⟨s, h⟩ <;> rw [h] <;> cases up b <;> first | exact nf_nan rfl | exact nf_inf _ rfl

theorem fin_sub_left {a b : Float} (h : IsFinite (a - b)) : IsFinite a := by
  by_contra hn
  refine absurd h ?_
  unfold IsFinite
  rw [up_sub]
  rcases not_fin hn with h | ⟨s, h⟩ <;> rw [h] <;> cases up b <;>
    first | exact nf_nan rfl | exact nf_inf _ rfl | skip
  rename_i s'
  cases s <;> cases s' <;> first | exact nf_nan rfl | exact nf_inf _ rfl

theorem fin_sub_right {a b : Float} (h : IsFinite (a - b)) : IsFinite b := by
  by_contra hn
  refine absurd h ?_
  unfold IsFinite
  rw [up_sub]
  rcases not_fin hn with h | ⟨s, h⟩ <;> rw [h] <;> cases up a <;>
    first | exact nf_nan rfl | exact nf_inf _ rfl | skip
  rename_i s'
  cases s <;> cases s' <;> first | exact nf_nan rfl | exact nf_inf _ rfl

/-- Only a finite number has a magnitude below a finite number. -/
theorem fin_of_abs_lt {a b : Float} (hb : IsFinite b) (h : a.abs < b) : IsFinite a := by
  by_contra hn
  rw [lt_iff, up_abs] at h
  unfold IsFinite at hb
  rcases not_fin hn with h' | ⟨s, h'⟩ <;> rw [h'] at h
  · exact absurd h (by simp [UnpackedFloat.abs, UnpackedFloat.lt, UnpackedFloat.compare])
  · cases hu : up b with
    | notANumber => rw [hu] at hb; exact hb
    | infinity s' => rw [hu] at hb; exact hb
    | zero s' => rw [hu] at h; exact absurd h (by simp [UnpackedFloat.abs, UnpackedFloat.lt, UnpackedFloat.compare])
    | finite s' m e hm =>
      rw [hu] at h; exact absurd h (by simp [UnpackedFloat.abs, UnpackedFloat.lt, UnpackedFloat.compare])

theorem isZ_of_toR {b : Float} (hb : IsFinite b) (h : toR b = 0) : IsZ b := by
  unfold IsFinite at hb
  unfold toR at h
  unfold IsZ
  cases hu : up b with
  | notANumber => rw [hu] at hb; exact hb.elim
  | infinity s => rw [hu] at hb; exact hb.elim
  | zero s => exact ⟨s, rfl⟩
  | finite s m e hm =>
    rw [hu] at h
    have : (m : ℝ) * (2 : ℝ) ^ e ≠ 0 := by positivity
    cases s <;> simp only [val, sg] at h
    · exact absurd (by linarith) this
    · exact absurd (by linarith) this

theorem toR_zero_of_zn {a : Float} (h : ZN a) : toR a = 0 := by
  rw [zn_up] at h
  unfold toR
  rcases h with ⟨s, h⟩ | h <;> rw [h] <;> rfl

/-- A product with a zero is zero or NaN. -/
theorem toR_mul_zero_right (a : Float) {b : Float} (hb : IsFinite b) (h : toR b = 0) : toR (a * b) = 0 :=
  toR_zero_of_zn (zn_mul_right a (Or.inl (isZ_of_toR hb h)))

theorem toR_neg (a : Float) : toR (-a) = -toR a := by
  unfold toR
  rw [up_neg]
  cases up a with
  | finite s m e h =>
    cases s
    · show sg .positive * _ = -(sg .negative * _); simp only [sg]; ring
    · show sg .negative * _ = -(sg .positive * _); simp only [sg]; ring
  | _ => simp [UnpackedFloat.neg, val]

theorem fin_neg {a : Float} (h : IsFinite a) : IsFinite (-a) := by
  unfold IsFinite at *
  rw [up_neg]
  cases hx : up a with
  | infinity s => rw [hx] at h; exact h.elim
  | notANumber => rw [hx] at h; exact h.elim
  | zero s => trivial
  | finite s m e hm => trivial

theorem cmp_swap (f g : UnpackedFloat) : f.compare g = (g.compare f).map Ordering.swap := by
  have hn : ∀ (m n : ℕ), (compare m n).swap = compare n m := fun m n => (Std.OrientedCmp.eq_swap (cmp := compare)).symm
  have hi : ∀ (m n : ℤ), (compare m n).swap = compare n m := fun m n => (Std.OrientedCmp.eq_swap (cmp := compare)).symm
  cases f with
  | notANumber => cases g with | infinity s => cases s <;> rfl | finite s => cases s <;> rfl | _ => rfl
  | infinity s =>
    cases g with
    | infinity s' => cases s <;> cases s' <;> rfl
    | finite s' => cases s <;> cases s' <;> rfl
    | zero s' => cases s <;> rfl
    | notANumber => cases s <;> rfl
  | zero s =>
    cases g with
    | infinity s' => cases s' <;> rfl
    | finite s' => cases s' <;> rfl
    | _ => rfl
  | finite s m e hm =>
    cases g with
    | infinity s' => cases s <;> cases s' <;> rfl
    | zero s' => cases s <;> rfl
    | notANumber => cases s <;> rfl
    | finite s' m' e' hm' =>
      cases s <;> cases s' <;>
        simp [UnpackedFloat.compare, Ordering.swap_then, hn, hi]

theorem not_lt_of_le {a b : Float} (h : a ≤ b) : ¬ b < a := by
  rw [le_iff] at h
  rw [lt_iff]
  unfold UnpackedFloat.le at h
  unfold UnpackedFloat.lt
  rw [cmp_swap]
  cases hc : (up a).compare (up b) with
  | none => rw [hc] at h; cases h
  | some o => rw [hc] at h; cases o <;> first | cases h; done | decide

theorem le_of_lt {a b : Float} (h : a < b) : a ≤ b := by
  rw [lt_iff] at h
  rw [le_iff]
  unfold UnpackedFloat.lt at h
  unfold UnpackedFloat.le
  rw [eq_of_beq h]; rfl

/-- Between two finite numbers there are only finite numbers. -/
theorem fin_between {a b v : Float} (ha : IsFinite a) (hb : IsFinite b) (h1 : a ≤ v) (h2 : v ≤ b) :
    IsFinite v ∧ toR a ≤ toR v ∧ toR v ≤ toR b := by
  have hv : IsFinite v := by
    by_contra hn
    rw [le_iff] at h1 h2
    unfold IsFinite at ha hb
    rcases not_fin hn with h | ⟨s, h⟩ <;> rw [h] at h1 h2
    · cases hu : up b <;> rw [hu] at h2 <;> exact absurd h2 (by simp [UnpackedFloat.le, UnpackedFloat.compare])
    · cases s
      · cases hu : up a <;> rw [hu] at h1 ha <;> first | exact ha.elim | skip
        all_goals exact absurd h1 (by simp [UnpackedFloat.le, UnpackedFloat.compare])
      · cases hu : up b <;> rw [hu] at h2 hb <;> first | exact hb.elim | skip
        all_goals exact absurd h2 (by simp [UnpackedFloat.le, UnpackedFloat.compare])
  refine ⟨hv, ?_, ?_⟩
  · have := not_lt_of_le h1
    rw [lt_toR hv ha] at this
    exact not_lt.1 this
  · have := not_lt_of_le h2
    rw [lt_toR hb hv] at this
    exact not_lt.1 this

end Aga8.F64
