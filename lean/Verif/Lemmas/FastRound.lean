import Verif.Lemmas.F64Round

/-! # Rounding and encoding in natural-number arithmetic

The IEEE-754 model of `Float` shifts mantissas bit by bit and encodes through bit vectors, which is slow to evaluate. Here:
what the operations compute, as arithmetic on the 64-bit patterns read as natural numbers. -/

namespace Aga8.Fast

open Float.Model Float.Model.UnpackedFloat Aga8.F64

/-- Round `p / 2^n` to the nearest integer, ties to even. -/
def rne (p n : Nat) : Nat := p / 2 ^ n + if 2 ^ n < 2 * (p % 2 ^ n) + p / 2 ^ n % 2 then 1 else 0

/-- Where the exact value lies, in quarters of a unit. -/
def code : Accuracy → Nat
  | .exact => 0
  | .inexact .lt => 1
  | .inexact .eq => 2
  | .inexact .gt => 3

/-- The right shift of an extended mantissa, at once. -/
def shr (em : ExtendedMantissa) : Nat → ExtendedMantissa
  | 0 => em
  | n + 1 => ⟨em.mantissa / 2 ^ (n + 1), em.mantissa / 2 ^ n % 2 != 0,
      em.mantissa % 2 ^ n != 0 || (em.roundBit || em.stickyBit)⟩

theorem shr_eq (em : ExtendedMantissa) (n : Nat) : em >>> n = shr em n := by
  show n.repeat ExtendedMantissa.shiftRightOne em = _
  induction n with
  | zero => rfl
  | succ n ih =>
    rw [Nat.repeat, ih]
    cases n with
    | zero => simp [shr, ExtendedMantissa.shiftRightOne, Nat.mod_one]
    | succ n =>
      simp only [shr, ExtendedMantissa.shiftRightOne, ExtendedMantissa.mk.injEq]
      refine ⟨?_, trivial, ?_⟩
      · rw [Nat.div_div_eq_div_mul, ← Nat.pow_succ]
      · rw [← Bool.or_assoc]
        congr 1
        rw [Nat.mod_pow_succ]
        have h1 : em.mantissa / 2 ^ n % 2 = 0 ∨ em.mantissa / 2 ^ n % 2 = 1 := by omega
        rcases h1 with h | h <;> simp [h]

theorem ofMA_mantissa (m : Nat) (acc : Accuracy) : (ExtendedMantissa.ofMantissaAndAccuracy m acc).mantissa = m := by
  cases acc with
  | exact => rfl
  | inexact o => cases o <;> rfl

theorem quarter_div (m c n : Nat) (hc : c < 4) : (4 * m + c) / 2 ^ (n + 2) = m / 2 ^ n := by
  have h : (4 * m + c) / 2 ^ 2 = m := by omega
  rw [Nat.pow_add, Nat.mul_comm (2 ^ n), ← Nat.div_div_eq_div_mul, h]

theorem rounded_eq (m : Nat) (r s : Bool) : (ExtendedMantissa.mk m r s).roundedMantissa =
    m + if (r && (s || m % 2 == 1)) = true then 1 else 0 := by
  cases r <;> cases s <;> simp [ExtendedMantissa.roundedMantissa, ExtendedMantissa.accuracy, Accuracy.roundToNearestEven]
  split <;> omega

theorem shr_rounded (m : Nat) (acc : Accuracy) (n : Nat) :
    (shr (ExtendedMantissa.ofMantissaAndAccuracy m acc) n).roundedMantissa = rne (4 * m + code acc) (n + 2) := by
  have hc : code acc < 4 := by
    cases acc with
    | exact => decide
    | inexact o => cases o <;> decide
  have hq := quarter_div m (code acc) n hc
  have hr : (4 * m + code acc) % 2 ^ (n + 2) = 4 * (m % 2 ^ n) + code acc := by
    have h1 := Nat.div_add_mod (4 * m + code acc) (2 ^ (n + 2))
    have h2 := Nat.div_add_mod m (2 ^ n)
    rw [hq] at h1
    have h3 : 2 ^ (n + 2) = 4 * 2 ^ n := by rw [Nat.pow_add]; omega
    rw [h3] at h1 ⊢
    rw [Nat.mul_assoc] at h1
    omega
  unfold rne
  rw [hq, hr]
  have h3 : 2 ^ (n + 2) = 4 * 2 ^ n := by rw [Nat.pow_add]; omega
  rw [h3]
  cases n with
  | zero =>
    rw [shr]
    cases acc with
    | exact => simp [ExtendedMantissa.ofMantissaAndAccuracy, ExtendedMantissa.roundedMantissa, ExtendedMantissa.accuracy,
        Accuracy.roundToNearestEven, code, Nat.mod_one]; omega
    | inexact o =>
      cases o <;> simp [ExtendedMantissa.ofMantissaAndAccuracy, ExtendedMantissa.roundedMantissa,
        ExtendedMantissa.accuracy, Accuracy.roundToNearestEven, code, Nat.mod_one]
      all_goals (first | omega | (split <;> omega))
  | succ n =>
    have hm : m % 2 ^ (n + 1) = m % 2 ^ n + 2 ^ n * (m / 2 ^ n % 2) := Nat.mod_pow_succ
    have hp : 2 ^ (n + 1) = 2 * 2 ^ n := by rw [Nat.pow_succ]; omega
    have hlt : m % 2 ^ n < 2 ^ n := Nat.mod_lt _ (Nat.two_pow_pos n)
    have hpos := Nat.two_pow_pos n
    have hs : ((ExtendedMantissa.ofMantissaAndAccuracy m acc).roundBit ||
        (ExtendedMantissa.ofMantissaAndAccuracy m acc).stickyBit) = (code acc != 0) := by
      cases acc with
      | exact => rfl
      | inexact o => cases o <;> rfl
    rw [shr, hs, ofMA_mantissa]
    rw [hm]
    generalize m / 2 ^ (n + 1) = q
    rw [rounded_eq, hp]
    generalize code acc = c at *
    generalize 2 ^ n = D at *
    generalize m % D = t at *
    have h1 : m / D % 2 = 0 ∨ m / D % 2 = 1 := by omega
    congr 1
    rcases h1 with h | h <;> rw [h]
    · simp only [bne_self_eq_false, Bool.false_and, Bool.false_eq_true, if_false]
      rw [if_neg (by omega)]
    · by_cases hu : 0 < t ∨ 0 < c ∨ q % 2 = 1
      · rw [if_pos, if_pos (by omega)]
        rcases hu with hu | hu | hu
        · simp [Nat.pos_iff_ne_zero.1 hu]
        · simp [Nat.pos_iff_ne_zero.1 hu]
        · simp [hu]
      · have e1 : t = 0 := by omega
        have e2 : c = 0 := by omega
        have e3 : q % 2 = 0 := by omega
        rw [if_neg, if_neg (by omega)]
        simp [e1, e2, e3]

theorem rne_scale (p n j : Nat) : rne (p * 2 ^ j) (n + j) = rne p n := by
  unfold rne
  have hj := Nat.two_pow_pos j
  rw [Nat.pow_add, Nat.mul_div_mul_right _ _ hj, Nat.mul_mod_mul_right]
  congr 1
  have ho : p / 2 ^ n % 2 < 2 := Nat.mod_lt _ (by omega)
  have hr : p % 2 ^ n < 2 ^ n := Nat.mod_lt _ (Nat.two_pow_pos n)
  have hn : 2 ^ n = 1 ∨ 2 ^ n % 2 = 0 := by
    cases n with
    | zero => exact Or.inl rfl
    | succ n => right; rw [Nat.pow_succ]; omega
  generalize p / 2 ^ n % 2 = o at *
  generalize p % 2 ^ n = r at *
  generalize 2 ^ n = D at *
  generalize 2 ^ j = J at *
  have e1 : 2 * (r * J) = 2 * r * J := by rw [Nat.mul_assoc]
  rw [e1]
  by_cases h : D < 2 * r + o
  · rw [if_pos h, if_pos]
    have h2 : D ≤ 2 * r := by omega
    have h3 := Nat.mul_le_mul_right J h2
    by_cases h4 : D = 2 * r
    · rw [h4]; omega
    · have h5 : D + 1 ≤ 2 * r := by omega
      have h6 := Nat.mul_le_mul_right J h5
      rw [Nat.add_mul] at h6
      omega
  · rw [if_neg h, if_neg]
    by_cases h4 : D = 2 * r
    · rw [h4]; omega
    · have h5 : 2 * r + 1 ≤ D := by omega
      have h6 := Nat.mul_le_mul_right J h5
      rw [Nat.add_mul] at h6
      omega

theorem rne_bounds (m c n : Nat) (hc : c < 4) (hm : 0 < m) (hn : m.log2 = n + 52) :
    2 ^ 52 ≤ rne (4 * m + c) (n + 2) ∧ rne (4 * m + c) (n + 2) ≤ 2 ^ 53 := by
  have h1 := log2_le hm
  have h2 := lt_log2 m
  rw [hn] at h1 h2
  have hp := Nat.two_pow_pos n
  have e1 : 2 ^ (n + 52) = 2 ^ n * 2 ^ 52 := Nat.pow_add ..
  have e2 : 2 ^ (n + 52 + 1) = 2 ^ n * 2 ^ 53 := by rw [Nat.add_assoc, Nat.pow_add]
  have hq := quarter_div m c n hc
  have h3 : 2 ^ 52 ≤ m / 2 ^ n := (Nat.le_div_iff_mul_le hp).2 (by rw [Nat.mul_comm]; omega)
  have h4 : m / 2 ^ n < 2 ^ 53 := Nat.div_lt_of_lt_mul (by omega)
  unfold rne
  rw [hq]
  split <;> omega

/-! ## Encoding -/

/-- The sign bit. -/
def sb : Sign → Nat
  | .negative => 1
  | .positive => 0

/-- The sign with this bit. -/
def sgn (n : Nat) : Sign := if n = 0 then .positive else .negative

theorem components_toNat (s : Sign) (e : BitVec 11) (m : BitVec 52) :
    (packComponents B64 s e m).toNat = sb s * 2 ^ 63 + e.toNat * 2 ^ 52 + m.toNat := by
  show (s.toBitVec ++ e ++ m).toNat = _
  rw [BitVec.toNat_append, BitVec.toNat_append, Nat.shiftLeft_eq, Nat.shiftLeft_eq]
  have h1 : s.toBitVec.toNat = sb s := by cases s <;> rfl
  rw [h1, Nat.mul_comm (sb s), ← Nat.two_pow_add_eq_or_of_lt e.isLt, Nat.mul_comm _ (2 ^ 52),
    ← Nat.two_pow_add_eq_or_of_lt m.isLt]
  omega

theorem pack_normal (s : Sign) (m : Nat) (e : Int) (h : 0 < m) (h1 : 2 ^ 52 ≤ m) (h2 : m < 2 ^ 53) (E : Nat)
    (he : e = (E : Int) - 1075) (hE : 1 ≤ E) (hE2 : E ≤ 2046) :
    (UnpackedFloat.pack B64 (.finite s m e h)).toNat = sb s * 2 ^ 63 + (E - 1) * 2 ^ 52 + m := by
  have hb : (e + (B64.exponentBias : Int) + (B64.mantissaBitsWithoutImplicit : Nat)).toNat = E := by
    have h1 : (B64.exponentBias : Int) = 1023 := by decide
    rw [h1]
    show (e + 1023 + 52).toNat = E
    omega
  unfold UnpackedFloat.pack
  simp only [hb, log2_eq h1 h2]
  rw [if_neg (by show ¬ 2 ^ 11 ≤ E + 1; omega), if_pos (by decide)]
  rw [components_toNat]
  show _ + E % 2 ^ 11 * 2 ^ 52 + m % 2 ^ 52 = _
  omega

theorem pack_zero (s : Sign) : (UnpackedFloat.pack B64 (.zero s)).toNat = sb s * 2 ^ 63 := by
  show (packComponents B64 s 0#11 0#52).toNat = _
  rw [components_toNat]
  simp

theorem rwa_bits (s : Sign) (m : Nat) (e : Int) (acc : Accuracy) (n : Nat) (hm : 0 < m) (hn : m.log2 = n + 52) (E : Nat)
    (hE : (E : Int) = e + n + 1075) (h1 : 1 ≤ E) (h2 : E ≤ 2045) :
    (UnpackedFloat.pack B64 (roundWithAccuracy B64 s m e acc)).toNat =
      sb s * 2 ^ 63 + (E - 1) * 2 ^ 52 + rne (4 * m + code acc) (n + 2) := by
  have hc : code acc < 4 := by
    cases acc with
    | exact => decide
    | inexact o => cases o <;> decide
  have ht : (tgt m e - e).toNat = n := by unfold tgt; omega
  obtain ⟨b1, b2⟩ := rne_bounds m (code acc) n hc hm hn
  have hM : (ExtendedMantissa.ofMantissaAndAccuracy m acc >>> n).roundedMantissa = rne (4 * m + code acc) (n + 2) := by
    rw [shr_eq, shr_rounded]
  rw [rwa_eq s m e acc n _ _ ht hM rfl]
  generalize rne (4 * m + code acc) (n + 2) = M at *
  by_cases hlt : M < 2 ^ 53
  · have hk : (tgt M (e + n) - (e + n)).toNat = 0 := by
      unfold tgt; rw [log2_eq b1 hlt]; omega
    rw [hk]
    have e0 : (ExtendedMantissa.ofMantissaAndAccuracy M Accuracy.exact >>> 0).mantissa = M := rfl
    rw [e0, mkF, dif_neg (by omega)]
    exact pack_normal _ _ _ _ b1 hlt E (by push_cast; omega) h1 (by omega)
  · have hM : M = 2 ^ 53 := by omega
    have hl : M.log2 = 53 := by rw [hM]; decide
    have hk : (tgt M (e + n) - (e + n)).toNat = 1 := by
      unfold tgt; rw [hl]; omega
    rw [hk]
    have e0 : (ExtendedMantissa.ofMantissaAndAccuracy M Accuracy.exact >>> 1).mantissa = 2 ^ 52 := by
      rw [hM]; rfl
    rw [e0, mkF, dif_neg (by decide)]
    rw [pack_normal _ _ _ _ (Nat.le_refl _) (by decide) (E + 1) (by push_cast; omega) (by omega) (by omega)]
    omega

theorem rwa_exact (s : Sign) (m : Nat) (e : Int) (n : Nat) (hm : 0 < m) (hn : m.log2 = n + 52) (E : Nat)
    (hE : (E : Int) = e + n + 1075) (h1 : 1 ≤ E) (h2 : E ≤ 2045) :
    (UnpackedFloat.pack B64 (roundWithAccuracy B64 s m e .exact)).toNat =
      sb s * 2 ^ 63 + (E - 1) * 2 ^ 52 + rne m n := by
  rw [rwa_bits s m e .exact n hm hn E hE h1 h2]
  congr 1
  rw [← rne_scale m n 2]
  show rne (4 * m) (n + 2) = rne (m * 4) (n + 2)
  rw [Nat.mul_comm]

theorem round_bits (s : Sign) (m : Nat) (e : Int) (hm : 0 < m) (E : Nat)
    (hE : (E : Int) = e + m.log2 + 1023) (h1 : 1 ≤ E) (h2 : E ≤ 2045) :
    (UnpackedFloat.pack B64 (UnpackedFloat.round B64 s m e)).toNat =
      sb s * 2 ^ 63 + (E - 1) * 2 ^ 52 + rne (m * 2 ^ 52) m.log2 := by
  have hk : (e - tgt m e).toNat = 52 - m.log2 := by unfold tgt; omega
  rw [round_eq s m e _ hk]
  have hl := log2_shift hm (52 - m.log2)
  by_cases h : m.log2 ≤ 52
  · rw [rwa_exact s _ _ 0 (by rw [Nat.shiftLeft_eq]; positivity) (by rw [hl]; omega) E (by omega) h1 h2]
    congr 1
    rw [Nat.shiftLeft_eq]
    have h3 := rne_scale (m * 2 ^ (52 - m.log2)) 0 m.log2
    rw [Nat.mul_assoc, ← Nat.pow_add, Nat.zero_add, Nat.sub_add_cancel h] at h3
    exact h3.symm
  · rw [rwa_exact s _ _ (m.log2 - 52) (by rw [Nat.shiftLeft_eq]; positivity) (by rw [hl]; omega) E (by omega) h1 h2]
    congr 1
    have h0 : 52 - m.log2 = 0 := by omega
    rw [h0, Nat.shiftLeft_zero]
    have h3 := rne_scale m (m.log2 - 52) 52
    rw [Nat.sub_add_cancel (by omega)] at h3
    exact h3.symm

/-! ## Decoding -/

/-- The 64-bit pattern. -/
def bits (a : Float) : Nat := a.toModel.toBits.toBitVec.toFin.val

theorem bits_lt (a : Float) : bits a < 2 ^ 64 := a.toModel.toBits.toBitVec.toFin.isLt

theorem bits_inj {a b : Float} (h : bits a = bits b) : a = b := by
  obtain ⟨⟨⟨⟨⟨x, hx⟩⟩⟩, va⟩⟩ := a
  obtain ⟨⟨⟨⟨⟨y, hy⟩⟩⟩, vb⟩⟩ := b
  have h' : x = y := h
  subst h'
  rfl

theorem fields (b : BitVec 64) :
    (unpackMantissa (spec := B64) b).toNat = b.toNat % 2 ^ 52 ∧
    (unpackExponent (spec := B64) b).toNat = b.toNat / 2 ^ 52 % 2 ^ 11 ∧
    (unpackSign (spec := B64) b).toNat = b.toNat / 2 ^ 63 := by
  have hb := b.isLt
  refine ⟨?_, ?_, ?_⟩
  · show (b.toNat >>> 0) % 2 ^ 52 = _
    rfl
  · show (b.toNat >>> 52) % 2 ^ 11 = _
    rw [Nat.shiftRight_eq_div_pow]
  · show (b.toNat >>> 63) % 2 ^ 1 = _
    rw [Nat.shiftRight_eq_div_pow]
    omega

theorem unpack_normal (b : BitVec 64) (h1 : 1 ≤ b.toNat / 2 ^ 52 % 2 ^ 11) (h2 : b.toNat / 2 ^ 52 % 2 ^ 11 ≤ 2046) :
    UnpackedFloat.unpack B64 b = .finite (sgn (b.toNat / 2 ^ 63)) (2 ^ 52 + b.toNat % 2 ^ 52)
      ((b.toNat / 2 ^ 52 % 2 ^ 11 : Nat) - 1075) (by omega) := by
  obtain ⟨f1, f2, f3⟩ := fields b
  have hs : Sign.ofBitVec (unpackSign (spec := B64) b) = sgn (b.toNat / 2 ^ 63) := by
    unfold Sign.ofBitVec sgn
    rw [← f3]
    by_cases h : unpackSign (spec := B64) b = 0#1
    · rw [if_pos h, if_pos (by rw [h]; rfl)]
    · rw [if_neg h, if_neg]
      intro h'
      exact h (BitVec.eq_of_toNat_eq h')
  have hb : ((B64.exponentBias : Int) + (B64.mantissaBitsWithoutImplicit : Nat)) = 1075 := by decide
  have g1 : ¬ unpackExponent (spec := B64) b = -1#11 := by
    intro h
    rw [h] at f2
    have : (-1#11).toNat = 2047 := by decide
    omega
  have g2 : ¬ unpackExponent (spec := B64) b = 0#11 := by
    intro h
    rw [h] at f2
    have : (0#11).toNat = 0 := by decide
    omega
  unfold UnpackedFloat.unpack
  simp only [hb, hs]
  rw [if_neg g1, if_neg g2]
  refine finite_congr rfl ?_ ?_
  · rw [← f1]
    exact mant_eq _
  · rw [f2]

theorem unpack_zero (b : BitVec 64) (h1 : b.toNat % 2 ^ 63 = 0) :
    UnpackedFloat.unpack B64 b = .zero (sgn (b.toNat / 2 ^ 63)) := by
  obtain ⟨f1, f2, f3⟩ := fields b
  have hs : Sign.ofBitVec (unpackSign (spec := B64) b) = sgn (b.toNat / 2 ^ 63) := by
    unfold Sign.ofBitVec sgn
    rw [← f3]
    by_cases h : unpackSign (spec := B64) b = 0#1
    · rw [if_pos h, if_pos (by rw [h]; rfl)]
    · rw [if_neg h, if_neg]
      intro h'
      exact h (BitVec.eq_of_toNat_eq h')
  have z1 : b.toNat % 2 ^ 52 = 0 := by omega
  have z2 : b.toNat / 2 ^ 52 % 2 ^ 11 = 0 := by omega
  have g1 : ¬ unpackExponent (spec := B64) b = -1#11 := by
    intro h
    rw [h, z2] at f2
    exact absurd f2 (by decide)
  have g2 : unpackExponent (spec := B64) b = 0#11 := by
    apply BitVec.eq_of_toNat_eq
    rw [f2, z2]; rfl
  have g3 : unpackMantissa (spec := B64) b = 0#52 := by
    apply BitVec.eq_of_toNat_eq
    rw [f1, z1]; rfl
  unfold UnpackedFloat.unpack
  simp only [hs]
  rw [if_neg g1, if_pos g2, dif_pos g3]

theorem up_normal (a : Float) (h1 : 1 ≤ bits a / 2 ^ 52 % 2 ^ 11) (h2 : bits a / 2 ^ 52 % 2 ^ 11 ≤ 2046) :
    up a = .finite (sgn (bits a / 2 ^ 63)) (2 ^ 52 + bits a % 2 ^ 52) ((bits a / 2 ^ 52 % 2 ^ 11 : Nat) - 1075)
      (by omega) := unpack_normal a.toModel.toBits.toBitVec h1 h2

theorem up_zero (a : Float) (h1 : bits a % 2 ^ 63 = 0) : up a = .zero (sgn (bits a / 2 ^ 63)) :=
  unpack_zero a.toModel.toBits.toBitVec h1

end Aga8.Fast
