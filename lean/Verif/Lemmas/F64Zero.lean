import Verif.Lemmas.F64Sum
import Verif.Lemmas.DetailDrift
import Verif.Lemmas.DetailEval

/-! # Numbers that are zero or NaN -/

namespace Aga8.F64

open Float.Model Float.Model.UnpackedFloat

/-- `±0` or NaN. -/
def ZN (a : Float) : Prop := IsZ a ∨ a.isNaN = true

theorem zn_up (a : Float) : ZN a ↔ (∃ s, up a = .zero s) ∨ up a = .notANumber := by
  unfold ZN IsZ
  rw [isNaN_iff]

theorem zn_rz (s : Sign) {f : UnpackedFloat} (h : f = .zero s) : (∃ s, recode f = .zero s) ∨ recode f = .notANumber :=
  Or.inl ⟨s, by rw [h]; exact recode_zero s⟩
theorem zn_rn {f : UnpackedFloat} (h : f = .notANumber) : (∃ s, recode f = .zero s) ∨ recode f = .notANumber :=
  Or.inr (by rw [h]; exact recode_nan)

theorem zn_mul_left {a : Float} (h : ZN a) (b : Float) : ZN (a * b) := by
  rw [zn_up] at *
  rw [up_mul]
  rcases h with ⟨s, h⟩ | h <;> rw [h] <;> cases up b <;> first | exact zn_rn rfl | exact zn_rz _ rfl

theorem zn_mul_right (a : Float) {b : Float} (h : ZN b) : ZN (a * b) := by
  rw [zn_up] at *
  rw [up_mul]
  rcases h with ⟨s, h⟩ | h <;> rw [h] <;> cases up a <;> first | exact zn_rn rfl | exact zn_rz _ rfl

theorem zn_add {a b : Float} (h : ZN a) (h' : ZN b) : ZN (a + b) := by
  rw [zn_up] at *
  rw [up_add]
  rcases h with ⟨s, h⟩ | h <;> rw [h] <;> rcases h' with ⟨s', h'⟩ | h' <;> rw [h'] <;>
    first | exact zn_rn rfl | (cases s <;> cases s' <;> exact zn_rz _ rfl)

theorem zn_sub {a b : Float} (h : ZN a) (h' : ZN b) : ZN (a - b) := by
  rw [zn_up] at *
  rw [up_sub]
  rcases h with ⟨s, h⟩ | h <;> rw [h] <;> rcases h' with ⟨s', h'⟩ | h' <;> rw [h'] <;>
    first | exact zn_rn rfl | (cases s <;> cases s' <;> exact zn_rz _ rfl)

theorem zn_neg {a : Float} (h : ZN a) : ZN (-a) := by
  rw [zn_up] at *
  rw [up_neg]
  rcases h with ⟨s, h⟩ | h <;> rw [h]
  · exact Or.inl ⟨_, rfl⟩
  · exact Or.inr rfl

theorem zn_abs {a : Float} (h : ZN a) : ZN a.abs := by
  rw [zn_up] at *
  rw [up_abs]
  rcases h with ⟨s, h⟩ | h <;> rw [h]
  · exact Or.inl ⟨_, rfl⟩
  · exact Or.inr rfl

theorem zn_div {a : Float} (h : ZN a) (b : Float) : ZN (a / b) := by
  rw [zn_up] at *
  rw [up_div]
  rcases h with ⟨s, h⟩ | h <;> rw [h] <;> cases up b <;> first | exact zn_rn rfl | exact zn_rz _ rfl

variable [Libm]

/-- `1.0` plus a zero is 1, plus NaN is NaN. -/
theorem one_add_zn {a : Float} (h : ZN a) :
    (IsFinite (f% 1.0 + a) ∧ toR (f% 1.0 + a) = 1) ∨ (f% 1.0 + a).isNaN = true := by
  rcases h with ⟨s, h⟩ | h
  · left
    have e : up (f% 1.0 + a) = up (f% 1.0 : Float) := by
      rw [up_add, h, lit1]
      show recode (.finite _ _ _ _) = _
      rw [recode_canon]
      exact lit1 ▸ up_canon (f% 1.0 : Float)
    constructor
    · unfold IsFinite; rw [e]; exact fin1
    · unfold toR; rw [e]; exact toR1
  · exact Or.inr (nan_add_right _ h)

theorem zn0 : ZN (f% 0.0 : Float) := Or.inl ⟨_, lit0⟩

theorem lit7' : up (Float.ofScientific 1 true 7) =
    .finite .positive 7555786372591432 (-76) (by decide) := by decide +kernel

/-- A zero or NaN is not above the change threshold. -/
theorem zn_not_far {a : Float} (h : ZN a) : FOps.lt (f% 0.0000001 : Float) (FOps.abs a) = false := by
  rw [flt_false, fabs]
  rcases zn_abs h with ⟨s, h⟩ | h
  · rw [lt_iff, h, show up (f% 0.0000001 : Float) = _ from lit7']
    simp [UnpackedFloat.lt, UnpackedFloat.compare]
  · exact nan_lt_right _ h

/-- In IEEE arithmetic a value is never far from itself. -/
theorem selfDiff : Detail.SelfDiff Float := fun a => zn_not_far (sub_self_cases a)

theorem nan_far_left {a : Float} (h : a.isNaN = true) (b : Float) :
    FOps.lt (f% 0.0000001 : Float) (FOps.abs (a - b)) = false :=
  zn_not_far (Or.inr (nan_sub_left h b))
theorem nan_far_right (a : Float) {b : Float} (h : b.isNaN = true) :
    FOps.lt (f% 0.0000001 : Float) (FOps.abs (a - b)) = false :=
  zn_not_far (Or.inr (nan_sub_right a h))

end Aga8.F64

namespace Aga8.Detail

open FOps Tab Aga8.F64

variable [Libm]

/-- The cached terms contribute nothing: either the temperature terms or the composition terms are zero. -/
def ZView (v : View Float) : Prop :=
  (∀ n, ZN (aget v.tun n)) ∨ ((∀ n, ZN (aget v.bs n)) ∧ ∀ n, ZN (aget v.csn n))

theorem zn_term {s : Detail Float} (h : ZView (stored s)) (dred : Float) (dknn : Vector Float 10)
    (expn : Vector Float 5) (n : Fin 58) :
    ZN (arTermP s dred dknn expn n).sum0 ∧ ZN (arTermP s dred dknn expn n).sumb := by
  have hc : (∀ n, ZN (aget s.tun n)) ∨
      ((∀ n, ZN (aget s.bs n)) ∧ ∀ n : Fin 58, 12 ≤ n.1 → ZN (aget s.csn n)) := by
    rcases h with h | ⟨h1, h2⟩
    · exact Or.inl h
    · refine Or.inr ⟨h1, fun n hn => ?_⟩
      have := h2 n
      simpa [stored, csnRead, hn] using this
  unfold arTermP
  dsimp only
  by_cases hn : 12 ≤ n.1
  · simp only [ge_iff_le, hn, if_true]
    rcases hc with h | ⟨h1, h2⟩
    · refine ⟨zn_mul_left (zn_mul_right _ (h n)) _, ?_⟩
      split
      · exact zn_mul_right _ (h n)
      · exact zn0
    · refine ⟨zn_mul_left (zn_mul_left (zn_mul_left (h2 n hn) _) _) _, ?_⟩
      split
      · exact zn_mul_left (zn_add (zn_mul_left (h1 _) _) (zn_mul_left (zn_neg (h2 n hn)) _)) _
      · exact zn0
  · simp only [ge_iff_le, hn, if_false]
    refine ⟨zn0, ?_⟩
    rcases hc with h | ⟨h1, h2⟩
    · split
      · exact zn_mul_right _ (h n)
      · exact zn0
    · split
      · exact zn_mul_left (zn_mul_left (h1 _) _) _
      · exact zn0

theorem arAcc_01 (rt : Float) (c : ArTerm Float) (ar : Vector (Vector Float 4) 4) :
    aget2 (arAcc 0 rt c ar) 0 1 = aget2 ar 0 1 + rt * (c.sum0 * c.coefd1 + c.sumb) := by
  unfold arAcc
  simp (config := { decide := true }) only [aget2_aset2, if_true, if_false]

theorem zn_arOf {s : Detail Float} (h : ZView (stored s)) : ZN (aget2 (arOf s 0) 0 1) := by
  unfold arOf
  apply loop_inv (fun ar => ZN (aget2 ar 0 1))
  · rw [aget2, aget_fill, aget_fill]; exact zn0
  · intro n ar _ ih
    rw [arAcc_01]
    obtain ⟨a, b⟩ := zn_term h (s.k3 * s.d) (arDknn (s.k3 * s.d)) (arExpn (arDknn (s.k3 * s.d))) n
    exact zn_add ih (zn_mul_right _ (zn_add (zn_mul_left a _) b))

theorem zn_ar {s : Detail Float} (h : ZView (view s)) :
    ZN (aget2 (alpharP (x_terms s) 0).ar 0 1) := by
  rw [ar_alpharP]
  exact zn_arOf (by rw [stored_refresh]; exact h)

/-- With vanishing terms the object reports the compressibility of an ideal gas, or NaN. -/
theorem z_pressure {s : Detail Float} (h : ZView (view s)) :
    (IsFinite (pressureP s).1.z ∧ toR (pressureP s).1.z = 1) ∨ (pressureP s).1.z.isNaN = true := by
  rw [pressureP_z]
  exact one_add_zn (zn_div (zn_div (zn_ar h) _) _)

theorem z_properties {s : Detail Float} (h : ZView (view s)) :
    (IsFinite (propertiesP s).z ∧ toR (propertiesP s).z = 1) ∨ (propertiesP s).z.isNaN = true := by
  rw [propertiesP_z]
  exact one_add_zn (zn_div (zn_ar h) _)

end Aga8.Detail
