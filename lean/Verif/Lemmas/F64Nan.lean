import Verif.Spec.F64

/-! # Encoding, NaN and zero in the IEEE-754 model

`up a` is the decoded form of an `f64`. The operations of `Float` are "decode, compute and round,
encode"; here: decoding undoes encoding, and what the operations do to NaNs, zeros and infinities. -/

namespace Aga8.F64

open Float.Model Float.Model.UnpackedFloat

/-- The binary64 format. -/
abbrev B64 : Format := Format.binary64

/-- Encode and decode. -/
def recode (f : UnpackedFloat) : UnpackedFloat := UnpackedFloat.unpack B64 (UnpackedFloat.pack B64 f)

theorem model_recode (f : UnpackedFloat) : (Float.Model.pack f).unpack = recode f := rfl

/-- Decoded numbers: a 53-bit mantissa, or fewer bits at the smallest exponent. -/
def Canon : UnpackedFloat → Prop
  | .finite _ m e _ => m < 2 ^ 53 ∧ -1074 ≤ e ∧ e ≤ 971 ∧ (2 ^ 52 ≤ m ∨ e = -1074)
  | _ => True

theorem unpackSign_packComponents {sign : Sign} {exponent : BitVec 11} {mantissa : BitVec 52} :
    unpackSign (packComponents B64 sign exponent mantissa) = sign.toBitVec := by
  ext i hi
  have : i = 0 := by omega
  subst this
  simp [unpackSign, packComponents]
  rw [BitVec.getLsbD_append, BitVec.getLsbD_append]
  simp

theorem ofBitVec_toBitVec (s : Sign) : Sign.ofBitVec s.toBitVec = s := by cases s <;> rfl

theorem mant_eq (m : BitVec 52) : (1#1 ++ m).toNat = 2 ^ 52 + m.toNat := by
  rw [BitVec.toNat_append]
  show (1 : Nat) <<< 52 ||| _ = _
  rw [Nat.shiftLeft_eq, Nat.mul_comm, ← Nat.two_pow_add_eq_or_of_lt m.isLt 1, Nat.mul_one]

theorem mant_pos (m : BitVec 52) : 0 < (1#1 ++ m).toNat := by rw [mant_eq]; omega

theorem unpack_components (s : Sign) (e : BitVec 11) (m : BitVec 52) :
    UnpackedFloat.unpack B64 (packComponents B64 s e m) =
      if e = -1#11 then (if m = 0#52 then .infinity s else .notANumber)
      else if e = 0#11 then
        if h : m = 0#52 then .zero s
        else .finite s m.toNat (-1074) (by simpa [BitVec.toNat_pos, BitVec.pos_iff_ne_zero] using h)
      else .finite s (1#1 ++ m).toNat ((e.toNat : Int) - 1075) (mant_pos m) := by
  unfold UnpackedFloat.unpack
  simp only [unpackMantissa_packComponents, unpackExponent_packComponents,
    unpackSign_packComponents, ofBitVec_toBitVec]
  have hb : ((B64.exponentBias + B64.mantissaBitsWithoutImplicit : Nat) : Int) = 1075 := by decide
  by_cases h1 : e = -1#11
  · simp [h1]
  · rw [if_neg h1, if_neg h1]
    by_cases h2 : e = 0#11
    · subst h2
      simp only [if_true]
      split
      · rfl
      · congr 1
    · rw [if_neg h2, if_neg h2]
      congr 1

theorem recode_nan : recode .notANumber = .notANumber := by
  unfold recode UnpackedFloat.pack packedNaN
  rw [unpack_components, if_pos rfl, if_neg (by decide)]

theorem recode_zero (s : Sign) : recode (.zero s) = .zero s := by
  unfold recode UnpackedFloat.pack packedZero
  exact (unpack_components s 0#11 0#52).trans (by rw [if_neg (by decide), if_pos rfl, dif_pos rfl])

theorem recode_inf (s : Sign) : recode (.infinity s) = .infinity s := by
  unfold recode UnpackedFloat.pack packedInfinity
  exact (unpack_components s (-1#11) 0#52).trans (by rw [if_pos rfl, if_pos rfl])

theorem finite_congr {s s' : Sign} {m m' : Nat} {e e' : Int} {h : 0 < m} {h' : 0 < m'}
    (hs : s = s') (hm : m = m') (he : e = e') :
    UnpackedFloat.finite s m e h = .finite s' m' e' h' := by
  subst hs hm he; rfl

theorem log2_eq {m : Nat} (h1 : 2 ^ 52 ≤ m) (h2 : m < 2 ^ 53) : m.log2 = 52 := by
  rw [Nat.log2_eq_iff (by omega)]
  exact ⟨h1, h2⟩

theorem recode_finite {s : Sign} {m : Nat} {e : Int} {h : 0 < m} (hc : Canon (.finite s m e h)) :
    recode (.finite s m e h) = .finite s m e h := by
  obtain ⟨hm, h1, h2, h3⟩ := hc
  unfold recode UnpackedFloat.pack
  have hb : (e + (B64.exponentBias : Nat) + (B64.mantissaBitsWithoutImplicit : Nat)) = e + 1075 := by
    have : (B64.exponentBias : Int) = 1023 := by decide
    rw [this]; show e + 1023 + 52 = _; omega
  simp only [hb]
  rw [if_neg (by show ¬ 2 ^ 11 ≤ (e + 1075).toNat + 1; omega)]
  by_cases hn : 2 ^ 52 ≤ m
  · rw [if_pos (by show m.log2 + 1 = 53; rw [log2_eq hn hm]), unpack_components]
    have hx : (BitVec.ofNat 11 (e + 1075).toNat).toNat = (e + 1075).toNat := by
      rw [BitVec.toNat_ofNat, Nat.mod_eq_of_lt (by omega)]
    rw [if_neg, if_neg]
    · refine finite_congr rfl ?_ ?_
      · have := mant_eq (BitVec.ofNat 52 m)
        rw [BitVec.toNat_ofNat] at this
        exact this.trans (by omega)
      · rw [hx]; omega
    · intro hh
      have := congrArg BitVec.toNat hh
      rw [hx] at this
      simp at this
      omega
    · intro hh
      have := congrArg BitVec.toNat hh
      rw [hx] at this
      have h' : (-1#11).toNat = 2047 := by decide
      omega
  · have he : e = -1074 := h3.resolve_left hn
    rw [if_neg, unpack_components, if_neg (by decide), if_pos rfl, dif_neg]
    · refine finite_congr rfl ?_ he.symm
      rw [BitVec.toNat_ofNat, Nat.mod_eq_of_lt (by omega)]
    · intro hh
      have := congrArg BitVec.toNat hh
      rw [BitVec.toNat_ofNat, Nat.mod_eq_of_lt (by omega)] at this
      simp at this
      omega
    · show ¬ m.log2 + 1 = 53
      intro hh
      have : m.log2 = 52 := by omega
      rw [Nat.log2_eq_iff (by omega)] at this
      omega

/-- Encoding a rounded number that is too large gives an infinity. -/
theorem recode_big {s : Sign} {m : Nat} {e : Int} {h : 0 < m} (he : 971 < e) :
    recode (.finite s m e h) = .infinity s := by
  unfold recode UnpackedFloat.pack
  have hb : (e + (B64.exponentBias : Nat) + (B64.mantissaBitsWithoutImplicit : Nat)) = e + 1075 := by
    have : (B64.exponentBias : Int) = 1023 := by decide
    rw [this]; show e + 1023 + 52 = _; omega
  simp only [hb]
  rw [if_pos (by show 2 ^ 11 ≤ (e + 1075).toNat + 1; omega)]
  exact recode_inf s

theorem recode_canon {f : UnpackedFloat} (h : Canon f) : recode f = f := by
  cases f with
  | infinity s => exact recode_inf s
  | notANumber => exact recode_nan
  | zero s => exact recode_zero s
  | finite s m e hm => exact recode_finite h

theorem unpack_canon (b : BitVec 64) : Canon (UnpackedFloat.unpack B64 b) := by
  unfold UnpackedFloat.unpack
  have hb : ((B64.exponentBias : Int) + (B64.mantissaBitsWithoutImplicit : Nat)) = 1075 := by decide
  simp only [hb]
  split
  · split <;> trivial
  · rename_i h1
    split
    · split
      · trivial
      · rename_i h2 h3
        have := (unpackMantissa (spec := B64) b).isLt
        refine ⟨?_, ?_, ?_, Or.inr ?_⟩
        · show BitVec.toNat _ < _
          have h' : BitVec.toNat (unpackMantissa (spec := B64) b) < 2 ^ 52 := this
          omega
        · rw [h2]; decide
        · rw [h2]; decide
        · rw [h2]; decide
    · rename_i h2
      have hm : BitVec.toNat (unpackMantissa (spec := B64) b) < 2 ^ 52 :=
        (unpackMantissa (spec := B64) b).isLt
      have he : BitVec.toNat (unpackExponent (spec := B64) b) < 2 ^ 11 :=
        (unpackExponent (spec := B64) b).isLt
      have hv : (1#1 ++ unpackMantissa (spec := B64) b).toNat
          = 2 ^ 52 + BitVec.toNat (unpackMantissa (spec := B64) b) := mant_eq _
      have h1' : BitVec.toNat (unpackExponent (spec := B64) b) ≠ 2047 := by
        intro hh
        apply h1
        apply BitVec.eq_of_toNat_eq
        rw [hh]; rfl
      have h2' : BitVec.toNat (unpackExponent (spec := B64) b) ≠ 0 := by
        intro hh
        apply h2
        apply BitVec.eq_of_toNat_eq
        rw [hh]; rfl
      refine ⟨?_, ?_, ?_, Or.inl ?_⟩
      · rw [hv]; omega
      · omega
      · omega
      · rw [hv]; omega

theorem up_canon (a : Float) : Canon (up a) := unpack_canon _

/-! ## The operations of `Float` -/

theorem isNaN_iff (a : Float) : a.isNaN = true ↔ up a = .notANumber := by
  show (a.toModel.unpack).isNaN = true ↔ _
  unfold up
  cases a.toModel.unpack <;> simp [UnpackedFloat.isNaN]

theorem up_add (a b : Float) : up (a + b) = recode (UnpackedFloat.add B64 (up a) (up b)) := rfl
theorem up_sub (a b : Float) : up (a - b) = recode (UnpackedFloat.sub B64 (up a) (up b)) := rfl
theorem up_mul (a b : Float) : up (a * b) = recode (UnpackedFloat.mul B64 (up a) (up b)) := rfl
theorem up_div (a b : Float) : up (a / b) = recode (UnpackedFloat.div B64 (up a) (up b)) := rfl
theorem up_neg' (a : Float) : up (-a) = recode (up a).neg := rfl
theorem up_abs' (a : Float) : up a.abs = recode (up a).abs := rfl
theorem up_sqrt (a : Float) : up a.sqrt = recode (UnpackedFloat.sqrt B64 (up a)) := rfl

theorem Canon.neg {f : UnpackedFloat} (h : Canon f) : Canon f.neg := by cases f <;> exact h
theorem Canon.abs {f : UnpackedFloat} (h : Canon f) : Canon f.abs := by cases f <;> exact h

theorem up_neg (a : Float) : up (-a) = (up a).neg := by rw [up_neg', recode_canon (up_canon a).neg]
theorem up_abs (a : Float) : up a.abs = (up a).abs := by rw [up_abs', recode_canon (up_canon a).abs]

theorem lt_iff (a b : Float) : a < b ↔ (up a).lt (up b) = true := by
  show (decide (a.toModel < b.toModel)) = true ↔ _
  rw [decide_eq_true_iff]; exact Iff.rfl
theorem le_iff (a b : Float) : a ≤ b ↔ (up a).le (up b) = true := by
  show (decide (a.toModel ≤ b.toModel)) = true ↔ _
  rw [decide_eq_true_iff]; exact Iff.rfl

/-! ## NaN -/

theorem nan_add_left {a : Float} (h : a.isNaN = true) (b : Float) : (a + b).isNaN = true := by
  rw [isNaN_iff] at *
  rw [up_add, h, UnpackedFloat.add]; exact recode_nan

theorem nan_add_right (a : Float) {b : Float} (h : b.isNaN = true) : (a + b).isNaN = true := by
  rw [isNaN_iff] at *
  rw [up_add, h]
  cases up a <;> exact recode_nan

theorem nan_sub_left {a : Float} (h : a.isNaN = true) (b : Float) : (a - b).isNaN = true := by
  rw [isNaN_iff] at *
  rw [up_sub, h, UnpackedFloat.sub]; exact recode_nan

theorem nan_sub_right (a : Float) {b : Float} (h : b.isNaN = true) : (a - b).isNaN = true := by
  rw [isNaN_iff] at *
  rw [up_sub, h]
  cases up a <;> exact recode_nan

theorem nan_abs {a : Float} (h : a.isNaN = true) : a.abs.isNaN = true := by
  rw [isNaN_iff] at *
  rw [up_abs, h]; rfl

theorem nan_mul_left {a : Float} (h : a.isNaN = true) (b : Float) : (a * b).isNaN = true := by
  rw [isNaN_iff] at *
  rw [up_mul, h, UnpackedFloat.mul]; exact recode_nan

theorem nan_mul_right (a : Float) {b : Float} (h : b.isNaN = true) : (a * b).isNaN = true := by
  rw [isNaN_iff] at *
  rw [up_mul, h]
  cases up a <;> exact recode_nan

/-- No comparison with a NaN holds. -/
theorem nan_lt_left {a : Float} (h : a.isNaN = true) (b : Float) : ¬ a < b := by
  rw [isNaN_iff] at h
  rw [lt_iff, h]
  simp [UnpackedFloat.lt, UnpackedFloat.compare]

theorem nan_lt_right (a : Float) {b : Float} (h : b.isNaN = true) : ¬ a < b := by
  rw [isNaN_iff] at h
  rw [lt_iff, h]
  cases up a <;> simp [UnpackedFloat.lt, UnpackedFloat.compare]

/-! ## Zero -/

/-- A number minus itself is `0` or NaN. -/
theorem sub_self_cases (a : Float) : IsZ (a - a) ∨ (a - a).isNaN = true := by
  unfold IsZ
  rw [isNaN_iff, up_sub]
  cases h : up a with
  | infinity s => right; cases s <;> exact recode_nan
  | notANumber => right; exact recode_nan
  | zero s => left; cases s <;> exact ⟨_, recode_zero _⟩
  | finite s m e hm =>
    left
    refine ⟨.positive, ?_⟩
    simp only [UnpackedFloat.sub, UnpackedFloat.normalize]
    rw [Int.sub_self]
    exact recode_zero _

end Aga8.F64
