import Mathlib.Analysis.SpecialFunctions.Pow.Real
import Mathlib.Tactic.Linarith
import Mathlib.Tactic.Positivity
import Verif.Lemmas.F64Nan

/-! # Rounding in the IEEE-754 model

The value of an `f64` and the standard model of rounding: every operation returns the exact result up to a
relative error `2^-53` (plus `2^-1075` where the result may be subnormal). -/

namespace Aga8.F64

open Float.Model Float.Model.UnpackedFloat

theorem sg_abs (s : Sign) : |sg s| = 1 := by cases s <;> simp [sg]
theorem sg_mul (s t : Sign) : sg (s * t) = sg s * sg t := by
  cases s <;> cases t
  · show (1 : ℝ) = -1 * -1; norm_num
  · show (-1 : ℝ) = -1 * 1; norm_num
  · show (-1 : ℝ) = 1 * -1; norm_num
  · show (1 : ℝ) = 1 * 1; norm_num
theorem sg_div (s t : Sign) : sg (s / t) = sg s / sg t := by
  cases s <;> cases t
  · show (1 : ℝ) = -1 / -1; norm_num
  · show (-1 : ℝ) = -1 / 1; norm_num
  · show (-1 : ℝ) = 1 / -1; norm_num
  · show (1 : ℝ) = 1 / 1; norm_num

/-! ## Residual bits -/

/-- `x` lies where the residual bits of `em` say. -/
def Rep (em : ExtendedMantissa) (x : ℝ) : Prop :=
  match em.roundBit, em.stickyBit with
  | false, false => x = em.mantissa
  | false, true => (em.mantissa : ℝ) < x ∧ x < em.mantissa + 1 / 2
  | true, false => x = em.mantissa + 1 / 2
  | true, true => (em.mantissa : ℝ) + 1 / 2 < x ∧ x < em.mantissa + 1

theorem Rep.bounds {em : ExtendedMantissa} {x : ℝ} (h : Rep em x) :
    (em.mantissa : ℝ) ≤ x ∧ x < em.mantissa + 1 := by
  obtain ⟨m, r, s⟩ := em
  cases r <;> cases s <;> simp only [Rep] at h <;> constructor <;> linarith [h]

theorem Rep.shift1 {em : ExtendedMantissa} {x : ℝ} (h : Rep em x) : Rep em.shiftRightOne (x / 2) := by
  obtain ⟨m, r, s⟩ := em
  have hm : (m : ℝ) = 2 * (m / 2 : ℕ) + (m % 2 : ℕ) := by
    exact_mod_cast (Nat.div_add_mod m 2).symm
  have b1 : (1 != 0) = true := by decide
  have b0 : (0 != 0) = false := by decide
  rcases Nat.mod_two_eq_zero_or_one m with h2 | h2 <;>
  cases r <;> cases s <;>
    simp only [Rep, ExtendedMantissa.shiftRightOne, h2, Bool.or_false, Bool.or_true, b0, b1] at h ⊢ <;>
    rw [h2] at hm <;> push_cast at hm <;> simp only [hm] at h <;>
    first
      | linarith
      | (constructor <;> linarith [h])

theorem Rep.shift {em : ExtendedMantissa} {x : ℝ} (h : Rep em x) (n : ℕ) :
    Rep (em >>> n) (x / 2 ^ n) := by
  show Rep (n.repeat ExtendedMantissa.shiftRightOne em) _
  induction n with
  | zero => simpa [Nat.repeat] using h
  | succ n ih =>
    have := ih.shift1
    rw [Nat.repeat, pow_succ, ← div_div]
    exact this

theorem Rep.rounded {em : ExtendedMantissa} {x : ℝ} (h : Rep em x) :
    |(em.roundedMantissa : ℝ) - x| ≤ 1 / 2 ∧
      em.mantissa ≤ em.roundedMantissa ∧ em.roundedMantissa ≤ em.mantissa + 1 := by
  obtain ⟨m, r, s⟩ := em
  have h2 := Nat.mod_lt m (y := 2) (by decide)
  have hr : ((m % 2 : ℕ) : ℝ) ≤ 1 := by exact_mod_cast Nat.lt_succ_iff.1 h2
  have hr0 : (0 : ℝ) ≤ ((m % 2 : ℕ) : ℝ) := Nat.cast_nonneg _
  cases r <;> cases s <;>
    simp only [Rep, ExtendedMantissa.roundedMantissa, ExtendedMantissa.accuracy,
      Accuracy.roundToNearestEven] at h ⊢
  · refine ⟨by rw [h]; norm_num, le_refl _, by omega⟩
  · refine ⟨by rw [abs_le]; constructor <;> linarith [h.1, h.2], le_refl _, by omega⟩
  · refine ⟨?_, by omega, by omega⟩
    push_cast
    rw [h, abs_le]
    rcases Nat.mod_two_eq_zero_or_one m with h3 | h3 <;> rw [h3] <;> push_cast <;>
      constructor <;> linarith
  · refine ⟨by push_cast; rw [abs_le]; constructor <;> linarith [h.1, h.2], by omega, le_refl _⟩

theorem rep_exact (m : ℕ) : Rep (ExtendedMantissa.ofMantissaAndAccuracy m .exact) m := rfl

/-! ## Rounding to the format -/

/-- The exponent of the rounded number. -/
def tgt (m : ℕ) (e : Int) : Int := max ((m.log2 : Int) + 1 + e - 53) (-1074)

theorem tgt_eq (m : ℕ) (e : Int) : B64.targetExponent (totalExponent m e) = tgt m e := rfl

/-- Rounded, and fitting the format unless too large. -/
def Pre : UnpackedFloat → Prop
  | .finite _ m e _ => m < 2 ^ 53 ∧ -1074 ≤ e ∧ (2 ^ 52 ≤ m ∨ e = -1074)
  | .zero _ => True
  | _ => False

theorem lt_log2 (m : ℕ) : m < 2 ^ (m.log2 + 1) := Nat.lt_log2_self

theorem log2_le {m : ℕ} (h : 0 < m) : 2 ^ m.log2 ≤ m := Nat.log2_self_le (by omega)

/-- A signed magnitude, zero if the mantissa is. -/
def mkF (s : Sign) (m : ℕ) (e : Int) : UnpackedFloat :=
  if h : m = 0 then .zero s else .finite s m e (Nat.pos_of_ne_zero h)

theorem rwa_eq (s : Sign) (m : ℕ) (e : Int) (acc : Accuracy) (n : ℕ) (M : ℕ) (k : ℕ)
    (hn : (tgt m e - e).toNat = n)
    (hM : (ExtendedMantissa.ofMantissaAndAccuracy m acc >>> n).roundedMantissa = M)
    (hk : (tgt M (e + n) - (e + n)).toNat = k) :
    roundWithAccuracy B64 s m e acc =
      mkF s (ExtendedMantissa.ofMantissaAndAccuracy M Accuracy.exact >>> k).mantissa (e + n + k) := by
  subst hn
  subst hM
  subst hk
  rfl

/-- The core of every rounded operation: `x` is the exact magnitude in units of `2^e`. -/
theorem round_core (s : Sign) (m : ℕ) (e : Int) (acc : Accuracy) {x : ℝ}
    (hx : Rep (ExtendedMantissa.ofMantissaAndAccuracy m acc) x) (he : e ≤ tgt m e) :
    Pre (roundWithAccuracy B64 s m e acc) ∧
    |val (roundWithAccuracy B64 s m e acc) - sg s * (x * (2 : ℝ) ^ e)| ≤ (2 : ℝ) ^ (tgt m e - 1) ∧
    (e = tgt m e → x = m → val (roundWithAccuracy B64 s m e acc) = sg s * (x * (2 : ℝ) ^ e)) := by
  obtain ⟨n, hn⟩ : ∃ n : ℕ, tgt m e = e + n := ⟨(tgt m e - e).toNat, by omega⟩
  have hn' : (tgt m e - e).toNat = n := by omega
  set em := ExtendedMantissa.ofMantissaAndAccuracy m acc with hem
  have hmant : em.mantissa = m := by
    rw [hem]
    cases acc with
    | exact => rfl
    | inexact o => cases o <;> rfl
  have h1 := hx.shift n
  set em1 := em >>> n with hem1
  obtain ⟨hr, hr1, hr2⟩ := h1.rounded
  have hb := hx.bounds
  have hb1 := h1.bounds
  set M := em1.roundedMantissa with hM
  have hp : (0 : ℝ) < 2 ^ n := by positivity
  -- sizes
  have hn53 : m.log2 + 1 ≤ n + 53 := by unfold tgt at hn; omega
  have hxlt : x < 2 ^ (m.log2 + 1) := by
    have : (m : ℝ) + 1 ≤ 2 ^ (m.log2 + 1) := by exact_mod_cast lt_log2 m
    rw [hmant] at hb
    linarith [hb.2]
  have hx53 : x / 2 ^ n < 2 ^ 53 := by
    rw [div_lt_iff₀ hp, ← pow_add]
    refine lt_of_lt_of_le hxlt (pow_le_pow_right₀ (by norm_num) (by omega))
  have hm53 : em1.mantissa < 2 ^ 53 := by
    have : (em1.mantissa : ℝ) < 2 ^ 53 := lt_of_le_of_lt hb1.1 hx53
    exact_mod_cast this
  have hM53 : M ≤ 2 ^ 53 := by omega
  have hlow : tgt m e = -1074 ∨ 2 ^ 52 ≤ M := by
    by_cases ht : tgt m e = -1074
    · exact Or.inl ht
    · right
      have hn52 : m.log2 = n + 52 := by unfold tgt at hn ht; omega
      have hm0 : 0 < m := by
        rcases Nat.eq_zero_or_pos m with h | h
        · subst h; simp at hn52
        · exact h
      have h52 : (2 : ℝ) ^ 52 ≤ x / 2 ^ n := by
        rw [le_div_iff₀ hp, ← pow_add]
        rw [hmant] at hb
        refine le_trans ?_ hb.1
        have := log2_le hm0
        rw [hn52, Nat.add_comm] at this
        exact_mod_cast this
      have : (2 : ℝ) ^ 52 < em1.mantissa + 1 := lt_of_le_of_lt h52 hb1.2
      have : 2 ^ 52 < em1.mantissa + 1 := by exact_mod_cast this
      omega
  -- the second shift
  have hval : ∀ f : UnpackedFloat, roundWithAccuracy B64 s m e acc = f →
      Pre f ∧ val f = sg s * (M * (2 : ℝ) ^ (tgt m e)) := by
    intro f hf
    rw [rwa_eq s m e acc n M _ hn' rfl rfl, ← hn] at hf
    by_cases hlt : M < 2 ^ 53
    · have ht2 : (tgt M (tgt m e) - tgt m e).toNat = 0 := by
        have : M.log2 < 53 := by
          rcases Nat.eq_zero_or_pos M with h | h
          · rw [h]; decide
          · exact (Nat.log2_lt (by omega)).2 hlt
        have h3 : -1074 ≤ tgt m e := le_max_right _ _
        unfold tgt at h3 ⊢
        omega
      rw [ht2] at hf
      have e0 : (ExtendedMantissa.ofMantissaAndAccuracy M Accuracy.exact >>> 0).mantissa = M := rfl
      rw [e0] at hf
      by_cases h0 : M = 0
      · rw [mkF, dif_pos h0] at hf
        subst hf
        refine ⟨trivial, ?_⟩
        rw [h0]; simp [val]
      · rw [mkF, dif_neg h0] at hf
        subst hf
        refine ⟨⟨hlt, ?_, ?_⟩, ?_⟩
        · have h3 : -1074 ≤ tgt m e := le_max_right _ _
          push_cast; omega
        · rcases hlow with h | h
          · right; simpa using h
          · left; exact h
        · simp [val]
    · have hMe : M = 2 ^ 53 := by omega
      have ht2 : (tgt M (tgt m e) - tgt m e).toNat = 1 := by
        have : M.log2 = 53 := by rw [hMe]; decide
        have h3 : -1074 ≤ tgt m e := le_max_right _ _
        unfold tgt at h3 ⊢
        omega
      rw [ht2] at hf
      have e0 : (ExtendedMantissa.ofMantissaAndAccuracy M Accuracy.exact >>> 1).mantissa = 2 ^ 52 := by
        rw [hMe]; rfl
      rw [e0, mkF, dif_neg (by decide)] at hf
      subst hf
      have h3 : -1074 ≤ tgt m e := le_max_right _ _
      refine ⟨⟨by norm_num, ?_, Or.inl (le_refl _)⟩, ?_⟩
      · push_cast; omega
      · rw [hMe]
        simp only [val]
        rw [zpow_add₀ (by norm_num : (2 : ℝ) ≠ 0)]
        push_cast
        rw [zpow_one]
        ring
  obtain ⟨hpre, hv⟩ := hval _ rfl
  have hz : (2 : ℝ) ^ (tgt m e) = 2 ^ n * 2 ^ e := by
    rw [hn, zpow_add₀ (by norm_num : (2 : ℝ) ≠ 0), zpow_natCast, mul_comm]
  have hze : (0 : ℝ) < 2 ^ e := by positivity
  have hxe : x * (2 : ℝ) ^ e = (x / 2 ^ n) * 2 ^ tgt m e := by
    rw [hz]; field_simp
  refine ⟨hpre, ?_, ?_⟩
  · rw [hv, hxe, ← mul_sub, ← sub_mul, abs_mul, abs_mul, sg_abs, one_mul,
      abs_of_pos (by positivity : (0 : ℝ) < 2 ^ tgt m e),
      zpow_sub₀ (by norm_num : (2 : ℝ) ≠ 0), zpow_one]
    calc _ ≤ 1 / 2 * (2 : ℝ) ^ tgt m e := by gcongr
      _ = _ := by ring
  · intro h2 h3
    have hn0 : n = 0 := by omega
    subst hn0
    rw [hv, ← h2, h3]
    have : |(M : ℝ) - m| ≤ 1 / 2 := by
      rw [h3] at hr; simpa using hr
    have hi : |((M : ℤ) - (m : ℤ) : ℤ)| < 1 := by
      have : |((M : ℤ) - (m : ℤ) : ℝ)| < 1 := by push_cast; linarith
      exact_mod_cast this
    have : (M : ℤ) = m := by
      have := Int.abs_lt_one_iff.1 hi
      omega
    have : M = m := by exact_mod_cast this
    rw [this]

/-- Unit roundoff. -/
noncomputable def uu : ℝ := (2 : ℝ) ^ (-53 : Int)
/-- Half the smallest subnormal. -/
noncomputable def eta : ℝ := (2 : ℝ) ^ (-1075 : Int)

theorem uu_pos : 0 < uu := by unfold uu; positivity
theorem eta_pos : 0 < eta := by unfold eta; positivity

theorem rwa_err (s : Sign) (m : ℕ) (e : Int) (acc : Accuracy) {x : ℝ}
    (hx : Rep (ExtendedMantissa.ofMantissaAndAccuracy m acc) x) (he : e ≤ tgt m e) :
    Pre (roundWithAccuracy B64 s m e acc) ∧
    |val (roundWithAccuracy B64 s m e acc) - sg s * (x * (2 : ℝ) ^ e)| ≤
      uu * (x * (2 : ℝ) ^ e) + eta := by
  obtain ⟨h1, h2, _⟩ := round_core s m e acc hx he
  refine ⟨h1, h2.trans ?_⟩
  have hb := hx.bounds
  have hmant : (ExtendedMantissa.ofMantissaAndAccuracy m acc).mantissa = m := by
    cases acc with
    | exact => rfl
    | inexact o => cases o <;> rfl
  rw [hmant] at hb
  have hx0 : 0 ≤ x := le_trans (Nat.cast_nonneg _) hb.1
  have hu := uu_pos
  have het := eta_pos
  have hze : (0 : ℝ) < 2 ^ e := by positivity
  by_cases ht : tgt m e = -1074
  · rw [ht]
    have : (2 : ℝ) ^ ((-1074 : Int) - 1) = eta := by rw [eta]; norm_num
    rw [this]
    have : 0 ≤ uu * (x * (2 : ℝ) ^ e) := by positivity
    linarith
  · have ht' : tgt m e = (m.log2 : Int) + 1 + e - 53 := by unfold tgt at ht ⊢; omega
    by_cases hm0 : m = 0
    · subst hm0
      simp at ht'
      exfalso; omega
    · have h3 : (2 : ℝ) ^ m.log2 ≤ x := by
        refine le_trans ?_ hb.1
        exact_mod_cast log2_le (Nat.pos_of_ne_zero hm0)
      have h4 : (2 : ℝ) ^ (tgt m e - 1) = uu * (2 ^ m.log2 * 2 ^ e) := by
        rw [ht', uu, ← zpow_natCast, ← zpow_add₀ (by norm_num : (2 : ℝ) ≠ 0),
          ← zpow_add₀ (by norm_num : (2 : ℝ) ≠ 0)]
        congr 1; ring
      rw [h4]
      have : uu * ((2 : ℝ) ^ m.log2 * 2 ^ e) ≤ uu * (x * (2 : ℝ) ^ e) := by gcongr
      linarith

theorem log2_shift {m : ℕ} (hm : 0 < m) (k : ℕ) : (m <<< k).log2 = m.log2 + k := by
  rw [Nat.shiftLeft_eq]
  have h0 : m * 2 ^ k ≠ 0 := by positivity
  rw [Nat.log2_eq_iff h0]
  have h1 := log2_le hm
  have h2 := lt_log2 m
  constructor
  · rw [pow_add]; exact Nat.mul_le_mul_right _ h1
  · rw [show m.log2 + k + 1 = (m.log2 + 1) + k by ring, pow_add]
    exact Nat.mul_lt_mul_of_pos_right h2 (by positivity)

theorem round_eq (s : Sign) (m : ℕ) (e : Int) (k : ℕ) (hk : (e - tgt m e).toNat = k) :
    UnpackedFloat.round B64 s m e = roundWithAccuracy B64 s (m <<< k) (e - k) .exact := by
  subst hk; rfl

theorem round_err (s : Sign) {m : ℕ} (hm : 0 < m) {e : Int} (he : -1074 ≤ e) :
    Pre (UnpackedFloat.round B64 s m e) ∧
    |val (UnpackedFloat.round B64 s m e) - sg s * (m * (2 : ℝ) ^ e)| ≤ uu * (m * (2 : ℝ) ^ e) := by
  set k := (e - tgt m e).toNat with hk
  rw [round_eq s m e k hk.symm]
  have hl := log2_shift hm k
  have htt : tgt (m <<< k) (e - k) = tgt m e := by unfold tgt; rw [hl]; push_cast; ring_nf
  have hle : e - k ≤ tgt (m <<< k) (e - k) := by rw [htt]; omega
  have hx := rep_exact (m <<< k)
  have hv : ((m <<< k : ℕ) : ℝ) * (2 : ℝ) ^ (e - k) = m * (2 : ℝ) ^ e := by
    rw [Nat.shiftLeft_eq, zpow_sub₀ (by norm_num : (2 : ℝ) ≠ 0), zpow_natCast]
    push_cast
    field_simp
  obtain ⟨h1, h2, h3⟩ := round_core s (m <<< k) (e - k) .exact hx hle
  rw [hv] at h2 h3
  refine ⟨h1, ?_⟩
  rw [htt] at h2 h3
  have hu := uu_pos
  by_cases ht : tgt m e = -1074
  · have : e - k = tgt m e := by omega
    rw [h3 this rfl, sub_self, abs_zero]
    positivity
  · have ht' : tgt m e = (m.log2 : Int) + 1 + e - 53 := by unfold tgt at ht ⊢; omega
    refine h2.trans ?_
    have h3 : (2 : ℝ) ^ m.log2 ≤ m := by exact_mod_cast log2_le hm
    have h4 : (2 : ℝ) ^ (tgt m e - 1) = uu * (2 ^ m.log2 * 2 ^ e) := by
      rw [ht', uu, ← zpow_natCast, ← zpow_add₀ (by norm_num : (2 : ℝ) ≠ 0),
        ← zpow_add₀ (by norm_num : (2 : ℝ) ≠ 0)]
      congr 1; ring
    rw [h4]
    gcongr

theorem normalize_err (n : Int) {e : Int} (he : -1074 ≤ e) (z : Sign) :
    Pre (UnpackedFloat.normalize B64 n e z) ∧
    |val (UnpackedFloat.normalize B64 n e z) - n * (2 : ℝ) ^ e| ≤ uu * |n * (2 : ℝ) ^ e| := by
  have hz : (0 : ℝ) < 2 ^ e := by positivity
  unfold UnpackedFloat.normalize
  rcases lt_trichotomy n 0 with h | h | h
  · have hc : compare n 0 = .lt := compare_lt_iff_lt.2 h
    simp only [hc]
    have h1 := round_err .negative (m := (-n).toNat) (by omega) he
    have hn : (((-n).toNat : ℕ) : ℝ) = -n := by
      have : (((-n).toNat : ℕ) : Int) = -n := by omega
      exact_mod_cast this
    have h0 : (n : ℝ) < 0 := by exact_mod_cast h
    rw [hn] at h1
    refine ⟨h1.1, ?_⟩
    have h2 := h1.2
    rw [abs_mul, abs_of_neg h0, abs_of_pos hz]
    simp only [sg] at h2
    convert h2 using 3
    ring
  · subst h
    have hc : compare (0 : Int) 0 = .eq := rfl
    simp only [hc]
    refine ⟨trivial, ?_⟩
    simp [val]
  · have hc : compare n 0 = .gt := compare_gt_iff_gt.2 h
    simp only [hc]
    have h1 := round_err .positive (m := n.toNat) (by omega) he
    have hn : ((n.toNat : ℕ) : ℝ) = n := by
      have : ((n.toNat : ℕ) : Int) = n := by omega
      exact_mod_cast this
    have h0 : (0 : ℝ) < n := by exact_mod_cast h
    rw [hn] at h1
    refine ⟨h1.1, ?_⟩
    have h2 := h1.2
    rw [abs_mul, abs_of_pos h0, abs_of_pos hz]
    simp only [sg, one_mul] at h2
    exact h2

/-! ## Overflow -/

set_option exponentiation.threshold 1100 in
theorem canon_of_pre {f : UnpackedFloat} (h : Pre f) (hv : |val f| < (2 : ℝ) ^ 1024) : Canon f := by
  cases f with
  | infinity s => trivial
  | notANumber => trivial
  | zero s => trivial
  | finite s m e hm =>
    obtain ⟨h1, h2, h3⟩ := h
    refine ⟨h1, h2, ?_, h3⟩
    by_contra hc
    have hm52 : 2 ^ 52 ≤ m := by omega
    have hz : (0 : ℝ) < 2 ^ e := by positivity
    simp only [val] at hv
    rw [abs_mul, sg_abs, one_mul, abs_of_pos (by positivity)] at hv
    have : (2 : ℝ) ^ (1024 : ℕ) ≤ m * (2 : ℝ) ^ e := by
      have h4 : ((2 : ℝ) ^ (52 : ℕ)) ≤ m := by exact_mod_cast hm52
      have h5 : (2 : ℝ) ^ (972 : Int) ≤ 2 ^ e := zpow_le_zpow_right₀ (by norm_num) (by omega)
      calc (2 : ℝ) ^ (1024 : ℕ) = 2 ^ (52 : ℕ) * 2 ^ (972 : Int) := by
            rw [← zpow_natCast, ← zpow_natCast, ← zpow_add₀ (by norm_num : (2 : ℝ) ≠ 0)]; norm_num
        _ ≤ _ := by gcongr
    linarith

theorem isFin_of_pre {f : UnpackedFloat} (h : Pre f) : IsFin f := by
  cases f <;> trivial

theorem recode_pre {f : UnpackedFloat} (h : Pre f) (hv : |val f| < (2 : ℝ) ^ 1024) :
    IsFin (recode f) ∧ val (recode f) = val f := by
  rw [recode_canon (canon_of_pre h hv)]
  exact ⟨isFin_of_pre h, rfl⟩

/-- A rounded number too large for the format becomes infinite. -/
theorem recode_pre_big {f : UnpackedFloat} (h : Pre f) (hv : (2 : ℝ) ^ 1024 ≤ |val f|) :
    ∃ s, recode f = .infinity s := by
  cases f with
  | infinity s => exact h.elim
  | notANumber => exact h.elim
  | zero s =>
    exfalso
    simp only [val, abs_zero] at hv
    have : (0 : ℝ) < 2 ^ 1024 := by positivity
    exact absurd hv (not_le.2 this)
  | finite s m e hm =>
    refine ⟨s, recode_big ?_⟩
    by_contra hc
    have h1 : (m : ℝ) < 2 ^ (53 : ℕ) := by exact_mod_cast h.1
    have hz : (0 : ℝ) < 2 ^ e := by positivity
    simp only [val] at hv
    rw [abs_mul, sg_abs, one_mul, abs_of_pos (by positivity)] at hv
    have : (m : ℝ) * (2 : ℝ) ^ e < (2 : ℝ) ^ (1024 : ℕ) := by
      have h5 : (2 : ℝ) ^ e ≤ 2 ^ (971 : Int) := zpow_le_zpow_right₀ (by norm_num) (by omega)
      calc (m : ℝ) * (2 : ℝ) ^ e < 2 ^ (53 : ℕ) * 2 ^ e := by gcongr
        _ ≤ 2 ^ (53 : ℕ) * 2 ^ (971 : Int) := by gcongr
        _ = (2 : ℝ) ^ (1024 : ℕ) := by
            rw [← zpow_natCast, ← zpow_natCast, ← zpow_add₀ (by norm_num : (2 : ℝ) ≠ 0)]; norm_num
    exact absurd hv (not_le.2 this)

theorem no_overflow {r v : ℝ} (h : |r - v| ≤ uu * |v| + eta) (hv : |v| ≤ (2 : ℝ) ^ 1023) :
    |r| < (2 : ℝ) ^ 1024 := by
  have h1 : |r| ≤ |r - v| + |v| := by
    have := abs_add_le (r - v) v
    simpa using this
  have hu : uu ≤ 1 / 4 := by
    rw [uu, show (-53 : Int) = -(53 : ℕ) by rfl, zpow_neg, zpow_natCast]
    norm_num
  have he : eta ≤ 1 / 4 := by
    rw [eta, show (-1075 : Int) = -(1075 : ℕ) by rfl, zpow_neg, zpow_natCast, ← one_div]
    apply one_div_le_one_div_of_le (by norm_num)
    exact le_trans (by norm_num : (4 : ℝ) ≤ 2 ^ 2) (pow_le_pow_right₀ (by norm_num) (by norm_num))
  have h2 : (1 : ℝ) ≤ 2 ^ 1023 := one_le_pow₀ (by norm_num)
  have h3 : (2 : ℝ) ^ 1024 = 2 * 2 ^ 1023 := by rw [← pow_succ']
  rw [h3]
  clear h3
  have h4 : uu * |v| ≤ 1 / 4 * 2 ^ 1023 := by gcongr
  generalize (2 : ℝ) ^ 1023 = T at *
  linarith

theorem canon_lower {s m e h} (hc : Canon (.finite s m e h)) : -1074 ≤ e := hc.2.1

theorem val_dec (s : Sign) (m : ℕ) (e t : Int) (h : t ≤ e) :
    ((s.apply (decreaseExponent m e t).1 : Int) : ℝ) * (2 : ℝ) ^ t = sg s * (m * (2 : ℝ) ^ e) := by
  have h1 : (decreaseExponent m e t).1 = m * 2 ^ (e - t).toNat := by
    show m <<< (e - t).toNat = _
    rw [Nat.shiftLeft_eq]
  rw [h1]
  have h2 : (2 : ℝ) ^ (e - t).toNat * (2 : ℝ) ^ t = 2 ^ e := by
    rw [← zpow_natCast, ← zpow_add₀ (by norm_num : (2 : ℝ) ≠ 0)]
    congr 1; omega
  cases s
  · show (((-((m * 2 ^ (e - t).toNat : ℕ) : Int)) : Int) : ℝ) * _ = _
    push_cast
    rw [← h2]; simp only [sg]; ring
  · show ((((m * 2 ^ (e - t).toNat : ℕ) : Int) : Int) : ℝ) * _ = _
    push_cast
    rw [← h2]; simp only [sg]; ring

theorem add_core {a b : Float} (ha : IsFinite a) (hb : IsFinite b) :
    ∀ f, f = UnpackedFloat.add B64 (up a) (up b) → Pre f ∧
      |val f - (val (up a) + val (up b))| ≤ uu * |val (up a) + val (up b)| := by
  have ca := up_canon a
  have cb := up_canon b
  have hu := uu_pos
  unfold IsFinite at *
  intro f hf
  generalize up a = x at *
  generalize up b = y at *
  cases x with
  | infinity s => exact ha.elim
  | notANumber => exact ha.elim
  | zero s =>
    cases y with
    | infinity s => exact hb.elim
    | notANumber => exact hb.elim
    | zero s' =>
      cases s <;> cases s' <;> subst hf <;> refine ⟨trivial, ?_⟩ <;>
        (show |(0 : ℝ) - (0 + 0)| ≤ uu * |0 + 0|) <;> simp
    | finite s' m e h =>
      subst hf
      refine ⟨⟨cb.1, cb.2.1, cb.2.2.2⟩, ?_⟩
      simp only [UnpackedFloat.add, val, zero_add, sub_self, abs_zero]
      positivity
  | finite s m e h =>
    cases y with
    | infinity s => exact hb.elim
    | notANumber => exact hb.elim
    | zero s' =>
      subst hf
      refine ⟨⟨ca.1, ca.2.1, ca.2.2.2⟩, ?_⟩
      simp only [UnpackedFloat.add, val, add_zero, sub_self, abs_zero]
      positivity
    | finite s' m' e' h' =>
      subst hf
      have := normalize_err (s.apply (decreaseExponent m e (min e e')).1 +
        s'.apply (decreaseExponent m' e' (min e e')).1) (e := min e e')
        (le_min ca.2.1 cb.2.1) .positive
      push_cast at this
      rw [add_mul, val_dec _ _ _ _ (min_le_left _ _), val_dec _ _ _ _ (min_le_right _ _)] at this
      exact this

/-- Addition: relative error at most `2^-53`, unless it overflows. -/
theorem add_ok {a b : Float} (ha : IsFinite a) (hb : IsFinite b) 
    (hv : |toR a + toR b| ≤ (2 : ℝ) ^ 1023) :
    IsFinite (a + b) ∧ |toR (a + b) - (toR a + toR b)| ≤ uu * |toR a + toR b| := by
  obtain ⟨h1, h2⟩ := add_core ha hb _ rfl
  have het := eta_pos
  obtain ⟨h3, h4⟩ := recode_pre h1 (no_overflow (v := toR a + toR b) (h2.trans (by unfold toR; linarith)) hv)
  unfold IsFinite toR
  rw [up_add, h4]
  exact ⟨h3, h2⟩

/-- Without the bound on the result: it is accurate or has overflowed to an infinity. -/
theorem add_cases {a b : Float} (ha : IsFinite a) (hb : IsFinite b) :
    (IsFinite (a + b) ∧ |toR (a + b) - (toR a + toR b)| ≤ uu * |toR a + toR b|) ∨
    ((∃ s, up (a + b) = .infinity s) ∧ (2 : ℝ) ^ 1023 < |toR a + toR b|) := by
  by_cases hv : |toR a + toR b| ≤ (2 : ℝ) ^ 1023
  · exact Or.inl (add_ok ha hb hv)
  · obtain ⟨h1, h2⟩ := add_core ha hb _ rfl
    rcases lt_or_ge |val (UnpackedFloat.add B64 (up a) (up b))| (2 ^ 1024) with h3 | h3
    · obtain ⟨h4, h5⟩ := recode_pre h1 h3
      left
      unfold IsFinite toR
      rw [up_add, h5]
      exact ⟨h4, h2⟩
    · right
      refine ⟨?_, not_le.1 hv⟩
      rw [up_add]
      exact recode_pre_big h1 h3

theorem sub_core {a b : Float} (ha : IsFinite a) (hb : IsFinite b) :
    ∀ f, f = UnpackedFloat.sub B64 (up a) (up b) → Pre f ∧
      |val f - (val (up a) - val (up b))| ≤ uu * |val (up a) - val (up b)| := by
  have ca := up_canon a
  have cb := up_canon b
  have hu := uu_pos
  unfold IsFinite at *
  intro f hf
  generalize up a = x at *
  generalize up b = y at *
  cases x with
  | infinity s => exact ha.elim
  | notANumber => exact ha.elim
  | zero s =>
    cases y with
    | infinity s => exact hb.elim
    | notANumber => exact hb.elim
    | zero s' =>
      cases s <;> cases s' <;> subst hf <;> refine ⟨trivial, ?_⟩ <;>
        (show |(0 : ℝ) - (0 - 0)| ≤ uu * |0 - 0|) <;> simp
    | finite s' m e h =>
      subst hf
      refine ⟨⟨cb.1, cb.2.1, cb.2.2.2⟩, ?_⟩
      have : sg (-s') = - sg s' := by
        cases s'
        · show (1 : ℝ) = - -1; norm_num
        · rfl
      simp only [UnpackedFloat.sub, val, zero_sub, this]
      rw [neg_mul, sub_self, abs_zero]
      positivity
  | finite s m e h =>
    cases y with
    | infinity s => exact hb.elim
    | notANumber => exact hb.elim
    | zero s' =>
      subst hf
      refine ⟨⟨ca.1, ca.2.1, ca.2.2.2⟩, ?_⟩
      simp only [UnpackedFloat.sub, val, sub_zero, sub_self, abs_zero]
      positivity
    | finite s' m' e' h' =>
      subst hf
      have := normalize_err (s.apply (decreaseExponent m e (min e e')).1 -
        s'.apply (decreaseExponent m' e' (min e e')).1) (e := min e e')
        (le_min ca.2.1 cb.2.1) .positive
      push_cast at this
      rw [sub_mul, val_dec _ _ _ _ (min_le_left _ _), val_dec _ _ _ _ (min_le_right _ _)] at this
      exact this

/-- Subtraction: relative error at most `2^-53`, unless it overflows. -/
theorem sub_ok {a b : Float} (ha : IsFinite a) (hb : IsFinite b) 
    (hv : |toR a - toR b| ≤ (2 : ℝ) ^ 1023) :
    IsFinite (a - b) ∧ |toR (a - b) - (toR a - toR b)| ≤ uu * |toR a - toR b| := by
  obtain ⟨h1, h2⟩ := sub_core ha hb _ rfl
  have het := eta_pos
  obtain ⟨h3, h4⟩ := recode_pre h1 (no_overflow (v := toR a - toR b) (h2.trans (by unfold toR; linarith)) hv)
  unfold IsFinite toR
  rw [up_sub, h4]
  exact ⟨h3, h2⟩

/-- Without the bound on the result: it is accurate or has overflowed to an infinity. -/
theorem sub_cases {a b : Float} (ha : IsFinite a) (hb : IsFinite b) :
    (IsFinite (a - b) ∧ |toR (a - b) - (toR a - toR b)| ≤ uu * |toR a - toR b|) ∨
    ((∃ s, up (a - b) = .infinity s) ∧ (2 : ℝ) ^ 1023 < |toR a - toR b|) := by
  by_cases hv : |toR a - toR b| ≤ (2 : ℝ) ^ 1023
  · exact Or.inl (sub_ok ha hb hv)
  · obtain ⟨h1, h2⟩ := sub_core ha hb _ rfl
    rcases lt_or_ge |val (UnpackedFloat.sub B64 (up a) (up b))| (2 ^ 1024) with h3 | h3
    · obtain ⟨h4, h5⟩ := recode_pre h1 h3
      left
      unfold IsFinite toR
      rw [up_sub, h5]
      exact ⟨h4, h2⟩
    · right
      refine ⟨?_, not_le.1 hv⟩
      rw [up_sub]
      exact recode_pre_big h1 h3

theorem val_mul (s s' : Sign) (m m' : ℕ) (e e' : Int) :
    sg (s * s') * (((m * m' : ℕ) : ℝ) * (2 : ℝ) ^ (e + e')) =
      sg s * (m * (2 : ℝ) ^ e) * (sg s' * (m' * (2 : ℝ) ^ e')) := by
  rw [sg_mul, zpow_add₀ (by norm_num : (2 : ℝ) ≠ 0)]
  push_cast
  ring

theorem mag (s : Sign) {x : ℝ} (h : 0 ≤ x) : |sg s * x| = x := by
  rw [abs_mul, sg_abs, one_mul, abs_of_nonneg h]

theorem mul_core {a b : Float} (ha : IsFinite a) (hb : IsFinite b) :
    ∀ f, f = UnpackedFloat.mul B64 (up a) (up b) → Pre f ∧
      |val f - val (up a) * val (up b)| ≤ uu * |val (up a) * val (up b)| + eta := by
  have ca := up_canon a
  have cb := up_canon b
  have hu := uu_pos
  have het := eta_pos
  unfold IsFinite at *
  intro f hf
  generalize up a = x at *
  generalize up b = y at *
  cases x with
  | infinity s => exact ha.elim
  | notANumber => exact ha.elim
  | zero s =>
    cases y with
    | infinity s => exact hb.elim
    | notANumber => exact hb.elim
    | zero s' => subst hf; refine ⟨trivial, ?_⟩; simp [val, UnpackedFloat.mul]; positivity
    | finite s' m e h => subst hf; refine ⟨trivial, ?_⟩; simp [val, UnpackedFloat.mul]; positivity
  | finite s m e h =>
    cases y with
    | infinity s => exact hb.elim
    | notANumber => exact hb.elim
    | zero s' => subst hf; refine ⟨trivial, ?_⟩; simp [val, UnpackedFloat.mul]; positivity
    | finite s' m' e' h' =>
      subst hf
      have hle : e + e' ≤ tgt (m * m') (e + e') := by
        have hmm : m * m' ≠ 0 := by positivity
        by_cases h52 : 2 ^ 52 ≤ m * m'
        · have := (Nat.le_log2 hmm).2 h52
          unfold tgt; omega
        · have h1 : ¬ 2 ^ 52 ≤ m := fun hh => h52 (le_trans hh (Nat.le_mul_of_pos_right _ h'))
          have h2 : ¬ 2 ^ 52 ≤ m' := fun hh => h52 (le_trans hh (Nat.le_mul_of_pos_left _ h))
          have h3 := ca.2.2.2.resolve_left h1
          have h4 := cb.2.2.2.resolve_left h2
          unfold tgt; omega
      have := rwa_err (s * s') (m * m') (e + e') .exact (rep_exact _) hle
      rw [val_mul] at this
      refine ⟨this.1, this.2.trans (le_of_eq ?_)⟩
      simp only [val]
      rw [← val_mul, mag _ (by positivity)]

/-- Multiplication: relative error `2^-53` plus half the smallest subnormal, unless it overflows. -/
theorem mul_ok {a b : Float} (ha : IsFinite a) (hb : IsFinite b) 
    (hv : |toR a * toR b| ≤ (2 : ℝ) ^ 1023) :
    IsFinite (a * b) ∧ |toR (a * b) - toR a * toR b| ≤ uu * |toR a * toR b| + eta := by
  obtain ⟨h1, h2⟩ := mul_core ha hb _ rfl
  have het := eta_pos
  obtain ⟨h3, h4⟩ := recode_pre h1 (no_overflow (v := toR a * toR b) (h2.trans (by unfold toR; linarith)) hv)
  unfold IsFinite toR
  rw [up_mul, h4]
  exact ⟨h3, h2⟩

/-- Without the bound on the result: it is accurate or has overflowed to an infinity. -/
theorem mul_cases {a b : Float} (ha : IsFinite a) (hb : IsFinite b) :
    (IsFinite (a * b) ∧ |toR (a * b) - toR a * toR b| ≤ uu * |toR a * toR b| + eta) ∨
    ((∃ s, up (a * b) = .infinity s) ∧ (2 : ℝ) ^ 1023 < |toR a * toR b|) := by
  by_cases hv : |toR a * toR b| ≤ (2 : ℝ) ^ 1023
  · exact Or.inl (mul_ok ha hb hv)
  · obtain ⟨h1, h2⟩ := mul_core ha hb _ rfl
    rcases lt_or_ge |val (UnpackedFloat.mul B64 (up a) (up b))| (2 ^ 1024) with h3 | h3
    · obtain ⟨h4, h5⟩ := recode_pre h1 h3
      left
      unfold IsFinite toR
      rw [up_mul, h5]
      exact ⟨h4, h2⟩
    · right
      refine ⟨?_, not_le.1 hv⟩
      rw [up_mul]
      exact recode_pre_big h1 h3

theorem rep_div (m d : ℕ) (hd : 0 < d) :
    Rep (ExtendedMantissa.ofMantissaAndAccuracy (m / d) (accuracyOfFraction (m % d) d))
      ((m : ℝ) / d) := by
  have hd' : (0 : ℝ) < d := by exact_mod_cast hd
  have hm : (m : ℝ) / d = (m / d : ℕ) + ((m % d : ℕ) : ℝ) / d := by
    rw [eq_comm, ← eq_sub_iff_add_eq', eq_comm, ← sub_eq_zero]
    have : (m : ℝ) = d * (m / d : ℕ) + (m % d : ℕ) := by exact_mod_cast (Nat.div_add_mod m d).symm
    rw [this]
    field_simp
    have e1 : ((d * (m / d) + m % d : ℕ) : ℝ) = d * (m / d : ℕ) + (m % d : ℕ) := by push_cast; ring
    ring_nf
  have hlt : ((m % d : ℕ) : ℝ) < d := by exact_mod_cast Nat.mod_lt m hd
  rw [hm]
  unfold accuracyOfFraction
  by_cases h0 : m % d = 0
  · rw [if_pos h0, h0]
    simp [Rep, ExtendedMantissa.ofMantissaAndAccuracy]
  · rw [if_neg h0]
    have hpos : (0 : ℝ) < (m % d : ℕ) := by exact_mod_cast Nat.pos_of_ne_zero h0
    rcases lt_trichotomy (2 * (m % d)) d with h | h | h
    · rw [compare_lt_iff_lt.2 h]
      have h' : 2 * ((m % d : ℕ) : ℝ) < d := by exact_mod_cast h
      refine ⟨by simp only [ExtendedMantissa.ofMantissaAndAccuracy]; linarith [div_pos hpos hd'], ?_⟩
      simp only [ExtendedMantissa.ofMantissaAndAccuracy]
      have : ((m % d : ℕ) : ℝ) / d < 1 / 2 := by rw [div_lt_iff₀ hd']; linarith
      linarith
    · rw [compare_eq_iff_eq.2 h]
      have h' : 2 * ((m % d : ℕ) : ℝ) = d := by exact_mod_cast h
      show _ = ((m / d : ℕ) : ℝ) + 1 / 2
      congr 1
      rw [← h']; field_simp
    · rw [compare_gt_iff_gt.2 h]
      have h' : (d : ℝ) < 2 * ((m % d : ℕ) : ℝ) := by exact_mod_cast h
      constructor
      · simp only [ExtendedMantissa.ofMantissaAndAccuracy]
        have : 1 / 2 < ((m % d : ℕ) : ℝ) / d := by rw [lt_div_iff₀ hd']; linarith
        linarith
      · simp only [ExtendedMantissa.ofMantissaAndAccuracy]
        have : ((m % d : ℕ) : ℝ) / d < 1 := by rw [div_lt_one hd']; exact hlt
        linarith

theorem div_eq (s s' : Sign) (m m' : ℕ) (e e' : Int) (h : 0 < m) (h' : 0 < m') (T : Int) (k : ℕ)
    (hT : min (e - e') (max ((m.log2 : Int) + 1 + e - ((m'.log2 : Int) + 1 + e') - 53) (-1074)) = T)
    (hk : (e - e' - T).toNat = k) :
    UnpackedFloat.div B64 (.finite s m e h) (.finite s' m' e' h') =
      roundWithAccuracy B64 (s / s') ((m <<< k) / m') T (accuracyOfFraction ((m <<< k) % m') m') := by
  subst hk
  subst hT
  rfl

theorem div_core {a b : Float} (ha : IsFinite a) (hb : IsFinite b) (hb0 : toR b ≠ 0) :
    ∀ f, f = UnpackedFloat.div B64 (up a) (up b) → Pre f ∧
      |val f - val (up a) / val (up b)| ≤ uu * |val (up a) / val (up b)| + eta := by
  have ca := up_canon a
  have cb := up_canon b
  have hu := uu_pos
  have het := eta_pos
  unfold IsFinite toR at *
  intro f hf
  generalize up a = x at *
  generalize up b = y at *
  cases x with
  | infinity s => exact ha.elim
  | notANumber => exact ha.elim
  | zero s =>
    cases y with
    | infinity s => exact hb.elim
    | notANumber => exact hb.elim
    | zero s' => exact absurd rfl hb0
    | finite s' m e h => subst hf; refine ⟨trivial, ?_⟩; simp [val, UnpackedFloat.div]; positivity
  | finite s m e h =>
    cases y with
    | infinity s => exact hb.elim
    | notANumber => exact hb.elim
    | zero s' => exact absurd rfl hb0
    | finite s' m' e' h' =>
      obtain ⟨T, hT⟩ : ∃ T, min (e - e') (max ((m.log2 : Int) + 1 + e -
        ((m'.log2 : Int) + 1 + e') - 53) (-1074)) = T := ⟨_, rfl⟩
      obtain ⟨k, hk⟩ : ∃ k, (e - e' - T).toNat = k := ⟨_, rfl⟩
      rw [div_eq s s' m m' e e' h h' T k hT hk] at hf
      have hTe : T ≤ e - e' := by rw [← hT]; exact min_le_left _ _
      have hle : T ≤ tgt ((m <<< k) / m') T := by
        by_cases h1 : T ≤ -1074
        · exact le_trans h1 (le_max_right _ _)
        · have h2 : T + 53 ≤ (m.log2 : Int) + 1 + e - ((m'.log2 : Int) + 1 + e') := by omega
          have h3 : m'.log2 + 53 ≤ m.log2 + k := by omega
          have h4 : 2 ^ 52 ≤ (m <<< k) / m' := by
            rw [Nat.le_div_iff_mul_le h', Nat.shiftLeft_eq]
            calc 2 ^ 52 * m' ≤ 2 ^ 52 * 2 ^ (m'.log2 + 1) :=
                  Nat.mul_le_mul_left _ (lt_log2 m').le
              _ = 2 ^ (m'.log2 + 53) := by rw [← pow_add]; congr 1; ring
              _ ≤ 2 ^ (m.log2 + k) := Nat.pow_le_pow_right (by norm_num) h3
              _ = 2 ^ m.log2 * 2 ^ k := pow_add _ _ _
              _ ≤ m * 2 ^ k := Nat.mul_le_mul_right _ (log2_le h)
          have h5 : 52 ≤ ((m <<< k) / m').log2 := (Nat.le_log2 (by positivity)).2 h4
          unfold tgt; omega
      have := rwa_err (s / s') ((m <<< k) / m') T _ (rep_div (m <<< k) m' h') hle
      rw [← hf] at this
      have hm' : (m' : ℝ) ≠ 0 := by exact_mod_cast h'.ne'
      have hv2 : (((m <<< k : ℕ) : ℝ) / m') * (2 : ℝ) ^ T = (m * (2 : ℝ) ^ e) / (m' * (2 : ℝ) ^ e') := by
        have hz : (2 : ℝ) ^ e = 2 ^ k * (2 ^ T * 2 ^ e') := by
          rw [← zpow_natCast, ← zpow_add₀ (by norm_num : (2 : ℝ) ≠ 0),
            ← zpow_add₀ (by norm_num : (2 : ℝ) ≠ 0)]
          congr 1; omega
        rw [Nat.shiftLeft_eq, hz]
        push_cast
        field_simp
      rw [hv2] at this
      have hd : sg s * (m * (2 : ℝ) ^ e) / (sg s' * (m' * (2 : ℝ) ^ e')) =
          sg (s / s') * ((m * (2 : ℝ) ^ e) / (m' * (2 : ℝ) ^ e')) := by
        rw [sg_div, mul_div_mul_comm]
      simp only [val]
      rw [hd, mag _ (by positivity)]
      exact this

/-- Division: relative error `2^-53` plus half the smallest subnormal, unless it overflows. -/
theorem div_ok {a b : Float} (ha : IsFinite a) (hb : IsFinite b) (hb0 : toR b ≠ 0) 
    (hv : |toR a / toR b| ≤ (2 : ℝ) ^ 1023) :
    IsFinite (a / b) ∧ |toR (a / b) - toR a / toR b| ≤ uu * |toR a / toR b| + eta := by
  obtain ⟨h1, h2⟩ := div_core ha hb hb0 _ rfl
  have het := eta_pos
  obtain ⟨h3, h4⟩ := recode_pre h1 (no_overflow (v := toR a / toR b) (h2.trans (by unfold toR; linarith)) hv)
  unfold IsFinite toR
  rw [up_div, h4]
  exact ⟨h3, h2⟩

/-- Without the bound on the result: it is accurate or has overflowed to an infinity. -/
theorem div_cases {a b : Float} (ha : IsFinite a) (hb : IsFinite b) (hb0 : toR b ≠ 0) :
    (IsFinite (a / b) ∧ |toR (a / b) - toR a / toR b| ≤ uu * |toR a / toR b| + eta) ∨
    ((∃ s, up (a / b) = .infinity s) ∧ (2 : ℝ) ^ 1023 < |toR a / toR b|) := by
  by_cases hv : |toR a / toR b| ≤ (2 : ℝ) ^ 1023
  · exact Or.inl (div_ok ha hb hb0 hv)
  · obtain ⟨h1, h2⟩ := div_core ha hb hb0 _ rfl
    rcases lt_or_ge |val (UnpackedFloat.div B64 (up a) (up b))| (2 ^ 1024) with h3 | h3
    · obtain ⟨h4, h5⟩ := recode_pre h1 h3
      left
      unfold IsFinite toR
      rw [up_div, h5]
      exact ⟨h4, h2⟩
    · right
      refine ⟨?_, not_le.1 hv⟩
      rw [up_div]
      exact recode_pre_big h1 h3

/-! ## Comparisons -/

theorem val_nonneg_pos (m : ℕ) (e : Int) (h : 0 < m) : 0 < (m : ℝ) * (2 : ℝ) ^ e := by positivity

theorem mag_lt {m m' : ℕ} {e e' : Int} {s s' : Sign} {h : 0 < m} {h' : 0 < m'}
    (c : Canon (.finite s m e h)) (c' : Canon (.finite s' m' e' h')) (he : e < e') :
    (m : ℝ) * (2 : ℝ) ^ e < m' * (2 : ℝ) ^ e' := by
  have h1 : (m : ℝ) < 2 ^ 53 := by exact_mod_cast c.1
  have h2 : (2 : ℝ) ^ 52 ≤ m' := by
    rcases c'.2.2.2 with h | h
    · exact_mod_cast h
    · have := c.2.1; omega
  have h3 : (2 : ℝ) ^ (e + 1) ≤ 2 ^ e' := zpow_le_zpow_right₀ (by norm_num) (by omega)
  have hz : (0 : ℝ) < 2 ^ e := by positivity
  calc (m : ℝ) * (2 : ℝ) ^ e < 2 ^ 53 * 2 ^ e := by gcongr
    _ = 2 ^ 52 * 2 ^ (e + 1) := by rw [zpow_add₀ (by norm_num : (2 : ℝ) ≠ 0), zpow_one]; ring
    _ ≤ _ := by gcongr

theorem mag_cmp {m m' : ℕ} {e e' : Int} {s s' : Sign} {h : 0 < m} {h' : 0 < m'}
    (c : Canon (.finite s m e h)) (c' : Canon (.finite s' m' e' h')) :
    (((compare e e').then (compare m m')) = .lt ↔ (m : ℝ) * (2 : ℝ) ^ e < m' * (2 : ℝ) ^ e') ∧
    (((compare e e').then (compare m m')) = .gt ↔ (m' : ℝ) * (2 : ℝ) ^ e' < m * (2 : ℝ) ^ e) := by
  rcases lt_trichotomy e e' with he | he | he
  · have h1 := mag_lt c c' he
    rw [compare_lt_iff_lt.2 he]
    refine ⟨⟨fun _ => h1, fun _ => rfl⟩, ⟨fun hh => by simp [Ordering.then] at hh, fun hh => ?_⟩⟩
    exact absurd hh (not_lt.2 h1.le)
  · subst he
    have hz : (0 : ℝ) < 2 ^ e := by positivity
    rw [compare_eq_iff_eq.2 rfl]
    show (compare m m' = .lt ↔ _) ∧ (compare m m' = .gt ↔ _)
    rw [compare_lt_iff_lt, compare_gt_iff_gt, mul_lt_mul_iff_left₀ hz, mul_lt_mul_iff_left₀ hz,
      Nat.cast_lt, Nat.cast_lt]
    exact ⟨Iff.rfl, Iff.rfl⟩
  · have h1 := mag_lt c' c he
    rw [compare_gt_iff_gt.2 he]
    refine ⟨⟨fun hh => by simp [Ordering.then] at hh, fun hh => ?_⟩, ⟨fun _ => h1, fun _ => rfl⟩⟩
    exact absurd hh (not_lt.2 h1.le)

/-- `<` on finite numbers is `<` of their values. -/
theorem lt_toR {a b : Float} (ha : IsFinite a) (hb : IsFinite b) : a < b ↔ toR a < toR b := by
  have ca := up_canon a
  have cb := up_canon b
  rw [lt_iff]
  unfold IsFinite toR at *
  generalize up a = x at *
  generalize up b = y at *
  unfold UnpackedFloat.lt
  cases x with
  | infinity s => exact ha.elim
  | notANumber => exact ha.elim
  | zero s =>
    cases y with
    | infinity s => exact hb.elim
    | notANumber => exact hb.elim
    | zero s' => simp [val, UnpackedFloat.compare]
    | finite s' m e h =>
      have := val_nonneg_pos m e h
      cases s'
      · simp [val, UnpackedFloat.compare, sg, this.le]
      · simp [val, UnpackedFloat.compare, sg, this]
  | finite s m e h =>
    have hp := val_nonneg_pos m e h
    cases y with
    | infinity s => exact hb.elim
    | notANumber => exact hb.elim
    | zero s' =>
      cases s
      · simp [val, UnpackedFloat.compare, sg, hp]
      · simp [val, UnpackedFloat.compare, sg, hp.le]
    | finite s' m' e' h' =>
      have hp' := val_nonneg_pos m' e' h'
      have hc := mag_cmp ca cb
      cases s <;> cases s' <;> simp only [val, UnpackedFloat.compare, sg, beq_iff_eq, Option.some.injEq]
      · rw [Ordering.swap_eq_lt, hc.2, neg_one_mul, neg_one_mul, neg_lt_neg_iff]
      · simp only [true_iff]; linarith
      · constructor
        · intro hh; cases hh
        · intro hh; linarith
      · rw [hc.1, one_mul, one_mul]

theorem toR_abs (a : Float) : toR a.abs = |toR a| := by
  unfold toR
  rw [up_abs]
  cases up a with
  | infinity s => simp [val, UnpackedFloat.abs]
  | notANumber => simp [val, UnpackedFloat.abs]
  | zero s => simp [val, UnpackedFloat.abs]
  | finite s m e h =>
    simp only [val, UnpackedFloat.abs]
    rw [mag _ (by positivity)]; simp [sg]

theorem fin_abs {a : Float} (h : IsFinite a) : IsFinite a.abs := by
  unfold IsFinite at *
  rw [up_abs]
  cases hx : up a with
  | infinity s => rw [hx] at h; exact h.elim
  | notANumber => rw [hx] at h; exact h.elim
  | zero s => trivial
  | finite s m e h => trivial

end Aga8.F64
