import Verif.Lemmas.FastRound

/-! # The operations of `f64` in natural-number arithmetic

`addF`, `mulF`, … equal the operations of `Float`, and evaluate fast in Lean's kernel when operands and result are normal
numbers or zero; in the other cases they defer to the originals. -/

namespace Aga8.Fast

open Float.Model Float.Model.UnpackedFloat Aga8.F64

/-! ## Definitions

With the primitives the kernel evaluates on binary numbers. `2^64` stands for "defer". -/

local macro "X11" : term => `(nat_lit 2048)
local macro "X52" : term => `(nat_lit 4503599627370496)
local macro "X63" : term => `(nat_lit 9223372036854775808)
local macro "X64" : term => `(nat_lit 18446744073709551616)

def rneK (p n : Nat) : Nat :=
  Nat.add (Nat.div p (Nat.pow (nat_lit 2) n))
    (cond (Nat.ble (Nat.add (Nat.mul (nat_lit 2) (Nat.mod p (Nat.pow (nat_lit 2) n)))
      (Nat.mod (Nat.div p (Nat.pow (nat_lit 2) n)) (nat_lit 2))) (Nat.pow (nat_lit 2) n)) (nat_lit 0) (nat_lit 1))

/-- The biased exponent. -/
def ex (n : Nat) : Nat := Nat.mod (Nat.div n X52) X11
/-- The mantissa with its leading bit. -/
def mt (n : Nat) : Nat := Nat.add X52 (Nat.mod n X52)
/-- The sign bit. -/
def sn (n : Nat) : Nat := Nat.div n X63
def isNorm (n : Nat) : Bool := cond (Nat.ble (nat_lit 1) (ex n)) (Nat.ble (ex n) (nat_lit 2046)) false
def isZero (n : Nat) : Bool := Nat.beq (Nat.mod n X63) (nat_lit 0)

/-- Sign bit `s`, biased exponent `E - k`, mantissa `M` with its leading bit. -/
def enc (s E k M : Nat) : Nat :=
  cond (Nat.ble (Nat.add k (nat_lit 1)) E)
    (cond (Nat.ble E (Nat.add k (nat_lit 2045)))
      (Nat.add (Nat.add (Nat.mul s X63) (Nat.mul (Nat.sub (Nat.sub E k) (nat_lit 1)) X52)) M) X64) X64

/-- The sign of a product. -/
def sx (a b : Nat) : Nat := Nat.mod (Nat.add (sn a) (sn b)) (nat_lit 2)

def mulP (a b p : Nat) : Nat :=
  enc (sx a b) (Nat.add (Nat.add (ex a) (ex b)) (Nat.log2 p)) (nat_lit 1127) (rneK p (Nat.sub (Nat.log2 p) (nat_lit 52)))

def mulN (a b : Nat) : Nat :=
  cond (isNorm a) (cond (isNorm b) (mulP a b (Nat.mul (mt a) (mt b))) (cond (isZero b) (Nat.mul (sx a b) X63) X64))
    (cond (isZero a) (cond (isNorm b) (Nat.mul (sx a b) X63) (cond (isZero b) (Nat.mul (sx a b) X63) X64)) X64)

def divP (a b q r : Nat) : Nat :=
  cond (Nat.ble (ex b) (Nat.add (ex a) (nat_lit 1021)))
    (enc (sx a b) (Nat.add (Nat.add (ex a) (Nat.log2 q)) (nat_lit 970)) (ex b)
      (rneK (Nat.add (Nat.mul (nat_lit 4) q) (cond (Nat.beq r (nat_lit 0)) (nat_lit 0)
        (cond (Nat.ble (mt b) (Nat.mul (nat_lit 2) r)) (cond (Nat.beq (Nat.mul (nat_lit 2) r) (mt b)) (nat_lit 2) (nat_lit 3))
          (nat_lit 1)))) (Nat.sub (Nat.log2 q) (nat_lit 50)))) X64

def divN (a b : Nat) : Nat :=
  cond (isNorm b) (cond (isNorm a)
      (divP a b (Nat.div (Nat.shiftLeft (mt a) (nat_lit 53)) (mt b)) (Nat.mod (Nat.shiftLeft (mt a) (nat_lit 53)) (mt b)))
      (cond (isZero a) (Nat.mul (sx a b) X63) X64)) X64

/-- `p` units of the exponent `E`. -/
def fin (s E p : Nat) : Nat :=
  enc s (Nat.add E (Nat.log2 p)) (nat_lit 52) (rneK (Nat.mul p X52) (Nat.log2 p))

/-- The sum of two magnitudes of opposite sign. -/
def subP (s t E x y : Nat) : Nat :=
  cond (Nat.beq x y) (nat_lit 0) (cond (Nat.ble y x) (fin s E (Nat.sub x y)) (fin t E (Nat.sub y x)))

def addP (s t E x y : Nat) : Nat := cond (Nat.beq s t) (fin s E (Nat.add x y)) (subP s t E x y)

def addN (a b : Nat) : Nat :=
  cond (isNorm a)
    (cond (isNorm b) (addP (sn a) (sn b) (Nat.sub (ex a) (Nat.sub (ex a) (ex b)))
        (Nat.shiftLeft (mt a) (Nat.sub (ex a) (ex b))) (Nat.shiftLeft (mt b) (Nat.sub (ex b) (ex a))))
      (cond (isZero b) a X64))
    (cond (isZero a) (cond (isNorm b) b (cond (isZero b) (cond (Nat.beq (sn a) (sn b)) a (nat_lit 0)) X64)) X64)

def negN (a : Nat) : Nat := cond (cond (isNorm a) true (isZero a)) (Nat.mod (Nat.add a X63) X64) X64
def absN (a : Nat) : Nat := cond (cond (isNorm a) true (isZero a)) (Nat.mod a X63) X64

/-- Zero or normal. -/
def good (n : Nat) : Bool := cond (isNorm n) true (isZero n)

def ltN (a b : Nat) : Bool :=
  cond (Nat.beq (sn a) (nat_lit 1))
    (cond (Nat.beq (sn b) (nat_lit 1)) (Nat.ble (Nat.add (Nat.mod b X63) (nat_lit 1)) (Nat.mod a X63))
      (Nat.ble (nat_lit 1) (Nat.add (Nat.mod a X63) (Nat.mod b X63))))
    (cond (Nat.beq (sn b) (nat_lit 1)) false (Nat.ble (Nat.add (Nat.mod a X63) (nat_lit 1)) (Nat.mod b X63)))

/-- The number with bits `n`, which must be those of `c`; `c` itself if `n` says to defer. -/
def mkOr (n : Nat) (c : Float) (h : Nat.ble X64 n = false → bits c = n) : Float :=
  match hb : Nat.ble X64 n with
  | true => c
  | false => .ofModel ⟨⟨⟨⟨n, by rw [← h hb]; exact bits_lt c⟩⟩⟩, by
      have h' := h hb
      subst h'
      exact c.toModel.valid⟩

theorem mkOr_eq (n : Nat) (c : Float) (h : Nat.ble X64 n = false → bits c = n) : mkOr n c h = c := by
  unfold mkOr
  split
  · rfl
  · rename_i hb
    apply bits_inj
    exact (h hb).symm

/-! ## What the primitives are -/

theorem rneK_eq (p n : Nat) : rneK p n = rne p n := by
  show p / 2 ^ n + cond (Nat.ble (2 * (p % 2 ^ n) + p / 2 ^ n % 2) (2 ^ n)) 0 1 = _
  unfold rne
  congr 1
  by_cases h : 2 ^ n < 2 * (p % 2 ^ n) + p / 2 ^ n % 2
  · have : Nat.ble (2 * (p % 2 ^ n) + p / 2 ^ n % 2) (2 ^ n) = false := by
      rw [Bool.eq_false_iff]
      intro h'
      have := Nat.le_of_ble_eq_true h'
      omega
    rw [this, if_pos h]; rfl
  · have : Nat.ble (2 * (p % 2 ^ n) + p / 2 ^ n % 2) (2 ^ n) = true := Nat.ble_eq_true_of_le (by omega)
    rw [this, if_neg h]; rfl

theorem defer : ¬ Nat.ble X64 X64 = false := by decide

theorem ex_eq (n : Nat) : ex n = n / 2 ^ 52 % 2 ^ 11 := rfl
theorem mt_eq (n : Nat) : mt n = 2 ^ 52 + n % 2 ^ 52 := rfl
theorem sn_eq (n : Nat) : sn n = n / 2 ^ 63 := rfl

theorem mt_bounds (n : Nat) : 2 ^ 52 ≤ mt n ∧ mt n < 2 ^ 53 := by rw [mt_eq]; omega
theorem mt_pos (n : Nat) : 0 < mt n := by have := (mt_bounds n).1; omega
theorem sn_bound (a : Float) : sn (bits a) ≤ 1 := by have := bits_lt a; rw [sn_eq]; omega

theorem isNorm_bounds {n : Nat} (h : isNorm n = true) : 1 ≤ ex n ∧ ex n ≤ 2046 := by
  unfold isNorm at h
  cases h1 : Nat.ble 1 (ex n) with
  | true =>
    have h2 : Nat.ble (ex n) 2046 = true := by
      change cond (Nat.ble 1 (ex n)) _ _ = true at h
      rw [h1] at h
      exact h
    exact ⟨Nat.le_of_ble_eq_true h1, Nat.le_of_ble_eq_true h2⟩
  | false =>
    change cond (Nat.ble 1 (ex n)) _ _ = true at h
    rw [h1] at h
    exact absurd h Bool.false_ne_true

theorem up_norm {a : Float} (h : isNorm (bits a) = true) :
    up a = .finite (sgn (sn (bits a))) (mt (bits a)) ((ex (bits a) : Nat) - 1075) (mt_pos _) :=
  up_normal a (isNorm_bounds h).1 (isNorm_bounds h).2

theorem up_zer {a : Float} (h : isZero (bits a) = true) : up a = .zero (sgn (sn (bits a))) :=
  up_zero a (Nat.eq_of_beq_eq_true h)

theorem sb_sgn {n : Nat} (h : n ≤ 1) : sb (sgn n) = n := by
  have : n = 0 ∨ n = 1 := by omega
  rcases this with rfl | rfl <;> rfl

theorem sgn_mul {m n : Nat} (h : m ≤ 1) (h' : n ≤ 1) : sb (sgn m * sgn n) = (m + n) % 2 := by
  have h1 : m = 0 ∨ m = 1 := by omega
  have h2 : n = 0 ∨ n = 1 := by omega
  rcases h1 with rfl | rfl <;> rcases h2 with rfl | rfl <;> rfl

theorem sgn_div {m n : Nat} (h : m ≤ 1) (h' : n ≤ 1) : sb (sgn m / sgn n) = (m + n) % 2 := by
  have h1 : m = 0 ∨ m = 1 := by omega
  have h2 : n = 0 ∨ n = 1 := by omega
  rcases h1 with rfl | rfl <;> rcases h2 with rfl | rfl <;> rfl

theorem enc_spec {s E k M : Nat} (h : Nat.ble X64 (enc s E k M) = false) :
    k + 1 ≤ E ∧ E ≤ k + 2045 ∧ enc s E k M = s * 2 ^ 63 + (E - k - 1) * 2 ^ 52 + M := by
  unfold enc at h ⊢
  cases h1 : Nat.ble (Nat.add k (nat_lit 1)) E with
  | false => rw [h1] at h; exact absurd h defer
  | true =>
    cases h2 : Nat.ble E (Nat.add k (nat_lit 2045)) with
    | false => rw [h1, h2] at h; exact absurd h defer
    | true => exact ⟨Nat.le_of_ble_eq_true h1, Nat.le_of_ble_eq_true h2, rfl⟩

theorem bits_mul (a b : Float) : bits (a * b) = (UnpackedFloat.pack B64 (UnpackedFloat.mul B64 (up a) (up b))).toNat := rfl
theorem bits_div (a b : Float) : bits (a / b) = (UnpackedFloat.pack B64 (UnpackedFloat.div B64 (up a) (up b))).toNat := rfl
theorem bits_add (a b : Float) : bits (a + b) = (UnpackedFloat.pack B64 (UnpackedFloat.add B64 (up a) (up b))).toNat := rfl
theorem bits_sub (a b : Float) : bits (a - b) = (UnpackedFloat.pack B64 (UnpackedFloat.sub B64 (up a) (up b))).toNat := rfl
theorem bits_neg (a : Float) : bits (-a) = (UnpackedFloat.pack B64 (up a).neg).toNat := rfl
theorem bits_abs (a : Float) : bits a.abs = (UnpackedFloat.pack B64 (up a).abs).toNat := rfl

/-! ## Multiplication -/

theorem log2_prod {m n : Nat} (h1 : 2 ^ 52 ≤ m) (h2 : 2 ^ 52 ≤ n) : 52 ≤ (m * n).log2 := by
  have : 2 ^ 52 * 2 ^ 52 ≤ m * n := Nat.mul_le_mul h1 h2
  rw [Nat.le_log2 (by omega)]
  omega

theorem mulN_spec (a b : Float) (h : Nat.ble X64 (mulN (bits a) (bits b)) = false) :
    bits (a * b) = mulN (bits a) (bits b) := by
  have sa := sn_bound a
  have sb' := sn_bound b
  rw [bits_mul]
  unfold mulN at h ⊢
  cases ha : isNorm (bits a) with
  | true =>
    rw [up_norm ha]
    rw [ha] at h
    simp only [cond_true] at h ⊢
    obtain ⟨a1, a2⟩ := isNorm_bounds ha
    cases hb : isNorm (bits b) with
    | true =>
      rw [up_norm hb]
      rw [hb] at h
      simp only [cond_true] at h ⊢
      obtain ⟨b1, b2⟩ := isNorm_bounds hb
      obtain ⟨h1, h2, h3⟩ := enc_spec h
      unfold mulP
      rw [h3, rneK_eq]
      show (UnpackedFloat.pack B64 (roundWithAccuracy B64 _ (mt (bits a) * mt (bits b)) _ .exact)).toNat = _
      have hl := log2_prod (mt_bounds (bits a)).1 (mt_bounds (bits b)).1
      have h1' : 1127 + 1 ≤ ex (bits a) + ex (bits b) + (mt (bits a) * mt (bits b)).log2 := h1
      have h2' : ex (bits a) + ex (bits b) + (mt (bits a) * mt (bits b)).log2 ≤ 1127 + 2045 := h2
      rw [rwa_exact _ _ _ ((mt (bits a) * mt (bits b)).log2 - 52) (Nat.mul_pos (mt_pos _) (mt_pos _)) (by omega)
        (ex (bits a) + ex (bits b) + (mt (bits a) * mt (bits b)).log2 - 1127) (by omega) (by omega) (by omega),
        sgn_mul sa sb']
      rfl
    | false =>
      rw [hb] at h
      simp only [cond_false] at h ⊢
      cases hz : isZero (bits b) with
      | false => rw [hz] at h; exact absurd h defer
      | true =>
        rw [up_zer hz]
        show (UnpackedFloat.pack B64 (.zero (sgn (sn (bits a)) * sgn (sn (bits b))))).toNat = _
        rw [pack_zero, sgn_mul sa sb']
        rfl
  | false =>
    rw [ha] at h
    simp only [cond_false] at h ⊢
    cases hza : isZero (bits a) with
    | false => rw [hza] at h; exact absurd h defer
    | true =>
      rw [up_zer hza]
      rw [hza] at h
      simp only [cond_true] at h ⊢
      cases hb : isNorm (bits b) with
      | true =>
        rw [up_norm hb]
        show (UnpackedFloat.pack B64 (.zero (sgn (sn (bits a)) * sgn (sn (bits b))))).toNat = _
        rw [pack_zero, sgn_mul sa sb']
        rfl
      | false =>
        rw [hb] at h
        simp only [cond_false] at h ⊢
        cases hz : isZero (bits b) with
        | false => rw [hz] at h; exact absurd h defer
        | true =>
          rw [up_zer hz]
          show (UnpackedFloat.pack B64 (.zero (sgn (sn (bits a)) * sgn (sn (bits b))))).toNat = _
          rw [pack_zero, sgn_mul sa sb']
          rfl

/-- `a * b`. -/
def mulF (a b : Float) : Float := mkOr (mulN (bits a) (bits b)) (a * b) (mulN_spec a b)

theorem mulF_eq (a b : Float) : mulF a b = a * b := mkOr_eq _ _ _

/-! ## Division -/

theorem quot_bounds {m d : Nat} (h1 : 2 ^ 52 ≤ m) (h2 : m < 2 ^ 53) (h3 : 2 ^ 52 ≤ d) (h4 : d < 2 ^ 53) :
    52 ≤ ((m <<< 53) / d).log2 ∧ 0 < (m <<< 53) / d := by
  rw [Nat.shiftLeft_eq]
  have h5 : 2 ^ 52 ≤ m * 2 ^ 53 / d := by
    rw [Nat.le_div_iff_mul_le (by omega)]
    omega
  refine ⟨?_, by omega⟩
  rw [Nat.le_log2 (by omega)]
  exact h5

theorem code_fraction (r d : Nat) : code (accuracyOfFraction r d) =
    cond (Nat.beq r (nat_lit 0)) (nat_lit 0)
        (cond (Nat.ble d (Nat.mul (nat_lit 2) r)) (cond (Nat.beq (Nat.mul (nat_lit 2) r) d) (nat_lit 2) (nat_lit 3))
          (nat_lit 1)) := by
  unfold accuracyOfFraction
  by_cases hr : r = 0
  · rw [if_pos hr, hr]; rfl
  · rw [if_neg hr]
    have e1 : Nat.beq r (nat_lit 0) = false := by
      rw [Bool.eq_false_iff]
      intro h
      exact hr (Nat.eq_of_beq_eq_true h)
    rw [e1]
    show _ = cond (Nat.ble d (2 * r)) (cond (Nat.beq (2 * r) d) 2 3) 1
    rcases Nat.lt_trichotomy (2 * r) d with h | h | h
    · have e2 : Nat.ble d (2 * r) = false := by
        rw [Bool.eq_false_iff]
        intro h'
        have := Nat.le_of_ble_eq_true h'
        omega
      rw [e2, Nat.compare_eq_lt.2 h]; rfl
    · have e2 : Nat.ble d (2 * r) = true := Nat.ble_eq_true_of_le (by omega)
      have e3 : Nat.beq (2 * r) d = true := by rw [h]; exact Nat.beq_refl d
      rw [e2, e3, Nat.compare_eq_eq.2 h]; rfl
    · have e2 : Nat.ble d (2 * r) = true := Nat.ble_eq_true_of_le (by omega)
      have e3 : Nat.beq (2 * r) d = false := by
        rw [Bool.eq_false_iff]
        intro h'
        have := Nat.eq_of_beq_eq_true h'
        omega
      rw [e2, e3, Nat.compare_eq_gt.2 h]; rfl

theorem divN_spec (a b : Float) (h : Nat.ble X64 (divN (bits a) (bits b)) = false) :
    bits (a / b) = divN (bits a) (bits b) := by
  have sa := sn_bound a
  have sb' := sn_bound b
  rw [bits_div]
  unfold divN at h ⊢
  cases hb : isNorm (bits b) with
  | false => rw [hb] at h; exact absurd h defer
  | true =>
    rw [up_norm hb]
    rw [hb] at h
    simp only [cond_true] at h ⊢
    obtain ⟨b1, b2⟩ := isNorm_bounds hb
    cases ha : isNorm (bits a) with
    | true =>
      rw [up_norm ha]
      rw [ha] at h
      simp only [cond_true] at h ⊢
      obtain ⟨a1, a2⟩ := isNorm_bounds ha
      unfold divP at h ⊢
      cases hc : Nat.ble (ex (bits b)) (Nat.add (ex (bits a)) (nat_lit 1021)) with
      | false => rw [hc] at h; exact absurd h defer
      | true =>
        rw [hc] at h
        simp only [cond_true] at h ⊢
        have hc' : ex (bits b) ≤ ex (bits a) + 1021 := Nat.le_of_ble_eq_true hc
        obtain ⟨h1, h2, h3⟩ := enc_spec h
        obtain ⟨ma1, ma2⟩ := mt_bounds (bits a)
        obtain ⟨mb1, mb2⟩ := mt_bounds (bits b)
        rw [div_eq _ _ _ _ _ _ _ _ (((ex (bits a) : Nat) : Int) - (ex (bits b) : Nat) - 53) 53
          (by rw [log2_eq ma1 ma2, log2_eq mb1 mb2]; omega) (by omega)]
        obtain ⟨q1, q2⟩ := quot_bounds ma1 ma2 mb1 mb2
        rw [h3, rneK_eq]
        change _ ≤ ex (bits a) + (mt (bits a) <<< 53 / mt (bits b)).log2 + 970 at h1
        change ex (bits a) + (mt (bits a) <<< 53 / mt (bits b)).log2 + 970 ≤ _ at h2
        rw [rwa_bits _ _ _ _ ((mt (bits a) <<< 53 / mt (bits b)).log2 - 52) q2 (by omega)
          (ex (bits a) + (mt (bits a) <<< 53 / mt (bits b)).log2 + 970 - ex (bits b)) (by omega) (by omega) (by omega),
          sgn_div sa sb', code_fraction]
        have e1 : (mt (bits a) <<< 53 / mt (bits b)).log2 - 52 + 2 = (mt (bits a) <<< 53 / mt (bits b)).log2 - 50 := by omega
        rw [e1]
        rfl
    | false =>
      rw [ha] at h
      simp only [cond_false] at h ⊢
      cases hz : isZero (bits a) with
      | false => rw [hz] at h; exact absurd h defer
      | true =>
        rw [up_zer hz]
        show (UnpackedFloat.pack B64 (.zero (sgn (sn (bits a)) / sgn (sn (bits b))))).toNat = _
        rw [pack_zero, sgn_div sa sb']
        rfl

/-- `a / b`. -/
def divF (a b : Float) : Float := mkOr (divN (bits a) (bits b)) (a / b) (divN_spec a b)

theorem divF_eq (a b : Float) : divF a b = a / b := mkOr_eq _ _ _

/-! ## Addition -/

theorem pack_norm {n : Nat} (h : isNorm n = true) (s : Sign) :
    (UnpackedFloat.pack B64 (.finite s (mt n) ((ex n : Nat) - 1075) (mt_pos _))).toNat = sb s * 2 ^ 63 + n % 2 ^ 63 := by
  obtain ⟨h1, h2⟩ := isNorm_bounds h
  rw [pack_normal _ _ _ _ (mt_bounds n).1 (mt_bounds n).2 (ex n) rfl h1 h2]
  rw [mt_eq]
  rw [ex_eq] at h1 h2 ⊢
  omega

theorem pack_up_norm {a : Float} (h : isNorm (bits a) = true) : (UnpackedFloat.pack B64 (up a)).toNat = bits a := by
  rw [up_norm h, pack_norm h, sb_sgn (sn_bound a), sn_eq]
  have := bits_lt a
  omega

theorem pack_up_zer {a : Float} (h : isZero (bits a) = true) : (UnpackedFloat.pack B64 (up a)).toNat = bits a := by
  rw [up_zer h, pack_zero, sb_sgn (sn_bound a), sn_eq]
  have h1 : bits a % 2 ^ 63 = 0 := Nat.eq_of_beq_eq_true h
  have := bits_lt a
  omega

theorem fin_spec (s : Nat) (hs : s ≤ 1) (E p : Nat) (hp : 0 < p) (h : Nat.ble X64 (fin s E p) = false) :
    (UnpackedFloat.pack B64 (UnpackedFloat.round B64 (sgn s) p ((E : Int) - 1075))).toNat = fin s E p := by
  obtain ⟨h1, h2, h3⟩ := enc_spec h
  change 52 + 1 ≤ E + p.log2 at h1
  change E + p.log2 ≤ 52 + 2045 at h2
  unfold fin
  rw [h3, rneK_eq, round_bits (sgn s) p _ hp (E + p.log2 - 52) (by omega) (by omega) (by omega), sb_sgn hs]
  rfl

theorem norm_pos (p : Nat) (e : Int) (hp : 0 < p) :
    UnpackedFloat.normalize B64 (p : Int) e .positive = UnpackedFloat.round B64 (sgn 0) p e := by
  unfold UnpackedFloat.normalize
  have : compare (p : Int) 0 = .gt := by rw [compare_gt_iff_gt]; omega
  rw [this]
  rfl

theorem norm_neg (p : Nat) (e : Int) (hp : 0 < p) :
    UnpackedFloat.normalize B64 (-(p : Int)) e .positive = UnpackedFloat.round B64 (sgn 1) p e := by
  unfold UnpackedFloat.normalize
  have : compare (-(p : Int)) 0 = .lt := by rw [compare_lt_iff_lt]; omega
  rw [this]
  show UnpackedFloat.round B64 .negative (- -(p : Int)).toNat e = UnpackedFloat.round B64 .negative p e
  rw [Int.neg_neg, Int.toNat_natCast]

theorem norm_zero (e : Int) : UnpackedFloat.normalize B64 0 e .positive = .zero .positive := by
  unfold UnpackedFloat.normalize
  have : compare (0 : Int) 0 = .eq := by decide
  rw [this]

theorem pack_pos : (UnpackedFloat.pack B64 (.zero .positive)).toNat = 0 := by
  rw [pack_zero]
  exact Nat.zero_mul _

theorem apply0 (n : Int) : (sgn 0).apply n = n := rfl
theorem apply1 (n : Int) : (sgn 1).apply n = -n := rfl

theorem norm_congr {m n e : Int} (h : m = n) :
    (UnpackedFloat.pack B64 (UnpackedFloat.normalize B64 m e .positive)).toNat =
      (UnpackedFloat.pack B64 (UnpackedFloat.normalize B64 n e .positive)).toNat := by rw [h]

theorem add_fin (s t : Sign) (m n : Nat) (e f : Int) (h : 0 < m) (h' : 0 < n) (d : Int) (j k : Nat) (hd : min e f = d)
    (hj : (e - d).toNat = j) (hk : (f - d).toNat = k) :
    UnpackedFloat.add B64 (.finite s m e h) (.finite t n f h') =
      UnpackedFloat.normalize B64 (s.apply (m <<< j : Nat) + t.apply (n <<< k : Nat)) d .positive := by
  subst hd
  subst hj
  subst hk
  rfl

theorem subP_spec (u v E x y : Nat) (hu : u ≤ 1) (hv : v ≤ 1) (huv : u ≠ v) (h : Nat.ble X64 (subP u v E x y) = false) :
    (UnpackedFloat.pack B64 (UnpackedFloat.normalize B64 ((sgn u).apply x + (sgn v).apply y) ((E : Int) - 1075)
      .positive)).toNat = subP u v E x y := by
  unfold subP at h ⊢
  have hu' : u = 0 ∨ u = 1 := by omega
  cases hb : Nat.beq x y with
  | true =>
    have hxy : x = y := Nat.eq_of_beq_eq_true hb
    have hn : (sgn u).apply x + (sgn v).apply y = 0 := by
      rw [hxy]
      rcases hu' with rfl | rfl
      · have : v = 1 := by omega
        subst this
        rw [apply0, apply1]
        omega
      · have : v = 0 := by omega
        subst this
        rw [apply0, apply1]
        omega
    rw [hn, norm_zero, pack_pos]
    rfl
  | false =>
    rw [hb] at h
    simp only [cond_false] at h ⊢
    have hxy : x ≠ y := by
      intro h'
      rw [h', Nat.beq_refl] at hb
      exact absurd hb (by decide)
    cases hc : Nat.ble y x with
    | true =>
      rw [hc] at h
      simp only [cond_true] at h ⊢
      have hle : y ≤ x := Nat.le_of_ble_eq_true hc
      change Nat.ble X64 (fin u E (x - y)) = false at h
      show _ = fin u E (x - y)
      rw [← fin_spec u hu E (x - y) (by omega) h]
      rcases hu' with rfl | rfl
      · have : v = 1 := by omega
        subst this
        rw [← norm_pos _ _ (by omega)]
        simp only [apply0, apply1]
        exact norm_congr (by omega)
      · have : v = 0 := by omega
        subst this
        rw [← norm_neg _ _ (by omega)]
        simp only [apply0, apply1]
        exact norm_congr (by omega)
    | false =>
      rw [hc] at h
      simp only [cond_false] at h ⊢
      have hle : ¬ y ≤ x := fun h' => by
        rw [Nat.ble_eq_true_of_le h'] at hc
        exact absurd hc (by decide)
      change Nat.ble X64 (fin v E (y - x)) = false at h
      show _ = fin v E (y - x)
      rw [← fin_spec v hv E (y - x) (by omega) h]
      rcases hu' with rfl | rfl
      · have : v = 1 := by omega
        subst this
        rw [← norm_neg _ _ (by omega)]
        simp only [apply0, apply1]
        exact norm_congr (by omega)
      · have : v = 0 := by omega
        subst this
        rw [← norm_pos _ _ (by omega)]
        simp only [apply0, apply1]
        exact norm_congr (by omega)

theorem addP_spec (s t : Nat) (hs : s ≤ 1) (ht : t ≤ 1) (E x y : Nat) (hx : 0 < x)
    (h : Nat.ble X64 (addP s t E x y) = false) :
    (UnpackedFloat.pack B64 (UnpackedFloat.normalize B64 ((sgn s).apply x + (sgn t).apply y) ((E : Int) - 1075)
      .positive)).toNat = addP s t E x y := by
  unfold addP at h ⊢
  cases hb : Nat.beq s t with
  | true =>
    rw [hb, cond_true] at h
    rw [cond_true]
    have hst := Nat.eq_of_beq_eq_true hb
    subst hst
    change Nat.ble X64 (fin s E (x + y)) = false at h
    show _ = fin s E (x + y)
    rw [← fin_spec s hs E (x + y) (by omega) h]
    have h1 : s = 0 ∨ s = 1 := by omega
    rcases h1 with rfl | rfl
    · rw [← norm_pos _ _ (by omega)]
      rw [apply0, apply0]
      exact norm_congr (by omega)
    · rw [← norm_neg _ _ (by omega)]
      rw [apply1, apply1]
      exact norm_congr (by omega)
  | false =>
    rw [hb, cond_false] at h
    rw [cond_false]
    refine subP_spec s t E x y hs ht ?_ h
    intro h'
    rw [h', Nat.beq_refl] at hb
    exact absurd hb (by decide)

theorem addN_spec (a b : Float) (h : Nat.ble X64 (addN (bits a) (bits b)) = false) :
    bits (a + b) = addN (bits a) (bits b) := by
  have sa := sn_bound a
  have sb' := sn_bound b
  rw [bits_add]
  unfold addN at h ⊢
  cases ha : isNorm (bits a) with
  | true =>
    rw [ha] at h
    simp only [cond_true] at h ⊢
    obtain ⟨a1, a2⟩ := isNorm_bounds ha
    cases hb : isNorm (bits b) with
    | true =>
      rw [up_norm ha, up_norm hb]
      rw [hb] at h
      simp only [cond_true] at h ⊢
      rw [← addP_spec _ _ sa sb' _ _ _ _ h]
      · rw [add_fin _ _ _ _ _ _ _ _ (((ex (bits a) - (ex (bits a) - ex (bits b)) : Nat) : Int) - 1075)
          (ex (bits a) - ex (bits b)) (ex (bits b) - ex (bits a)) (by omega) (by omega) (by omega)]
        exact norm_congr rfl
      · show 0 < mt (bits a) <<< _
        rw [Nat.shiftLeft_eq]
        exact Nat.mul_pos (mt_pos _) (Nat.two_pow_pos _)
    | false =>
      rw [hb] at h
      simp only [cond_false] at h ⊢
      cases hz : isZero (bits b) with
      | false => rw [hz] at h; exact absurd h defer
      | true =>
        rw [cond_true, ← pack_up_norm ha, up_zer hz, up_norm ha]
        rfl
  | false =>
    rw [ha] at h
    simp only [cond_false] at h ⊢
    cases hza : isZero (bits a) with
    | false => rw [hza] at h; exact absurd h defer
    | true =>
      rw [hza] at h
      simp only [cond_true] at h ⊢
      cases hb : isNorm (bits b) with
      | true =>
        rw [cond_true, ← pack_up_norm hb, up_zer hza, up_norm hb]
        rfl
      | false =>
        rw [hb] at h
        simp only [cond_false] at h ⊢
        cases hz : isZero (bits b) with
        | false => rw [hz] at h; exact absurd h defer
        | true =>
          rw [up_zer hz, up_zer hza, cond_true]
          cases hs : Nat.beq (sn (bits a)) (sn (bits b)) with
          | true =>
            rw [cond_true, ← Nat.eq_of_beq_eq_true hs]
            refine Eq.trans ?_ (pack_up_zer hza)
            rw [up_zer hza]
            show (UnpackedFloat.pack B64 (if _ then _ else _)).toNat = _
            have : (sgn (sn (bits a)) == sgn (sn (bits a))) = true := by cases sgn (sn (bits a)) <;> rfl
            rw [if_pos this]
          | false =>
            rw [cond_false]
            show (UnpackedFloat.pack B64 (if _ then _ else _)).toNat = _
            have hne : sn (bits a) ≠ sn (bits b) := by
              intro h'
              rw [h', Nat.beq_refl] at hs
              exact absurd hs (by decide)
            have : ¬ (sgn (sn (bits a)) == sgn (sn (bits b))) = true := by
              have h1 : sn (bits a) = 0 ∨ sn (bits a) = 1 := by omega
              rcases h1 with h1 | h1
              · have h2 : sn (bits b) = 1 := by omega
                rw [h1, h2]; decide
              · have h2 : sn (bits b) = 0 := by omega
                rw [h1, h2]; decide
            rw [if_neg this, pack_pos]

/-- `a + b`. -/
def addF (a b : Float) : Float := mkOr (addN (bits a) (bits b)) (a + b) (addN_spec a b)

theorem addF_eq (a b : Float) : addF a b = a + b := mkOr_eq _ _ _

/-! ## Sign -/

theorem sb_neg {n : Nat} (h : n ≤ 1) : sb (-sgn n) = 1 - n := by
  have : n = 0 ∨ n = 1 := by omega
  rcases this with rfl | rfl <;> rfl

theorem negN_spec (a : Float) (h : Nat.ble X64 (negN (bits a)) = false) : bits (-a) = negN (bits a) := by
  have sa := sn_bound a
  have hl := bits_lt a
  rw [bits_neg]
  unfold negN at h ⊢
  have e0 : Nat.mod (Nat.add (bits a) X63) X64 = (1 - sn (bits a)) * 2 ^ 63 + bits a % 2 ^ 63 := by
    have e1 : Nat.mod (Nat.add (bits a) X63) X64 = (bits a + 9223372036854775808) % 18446744073709551616 := rfl
    rw [e1]
    rw [sn_eq] at sa ⊢
    omega
  cases ha : isNorm (bits a) with
  | true =>
    rw [up_norm ha, cond_true, cond_true, e0, ← sb_neg sa]
    exact pack_norm ha _
  | false =>
    rw [ha] at h
    simp only [cond_false] at h ⊢
    cases hz : isZero (bits a) with
    | false => rw [hz] at h; exact absurd h defer
    | true =>
      have hz' : bits a % 2 ^ 63 = 0 := Nat.eq_of_beq_eq_true hz
      rw [up_zer hz, cond_true, e0]
      show (UnpackedFloat.pack B64 (.zero _)).toNat = _
      rw [pack_zero, sb_neg sa, hz', Nat.add_zero]

/-- `-a`. -/
def negF (a : Float) : Float := mkOr (negN (bits a)) (-a) (negN_spec a)

theorem negF_eq (a : Float) : negF a = -a := mkOr_eq _ _ _

theorem absN_spec (a : Float) (h : Nat.ble X64 (absN (bits a)) = false) : bits a.abs = absN (bits a) := by
  rw [bits_abs]
  unfold absN at h ⊢
  have e0 : Nat.mod (bits a) X63 = sb .positive * 2 ^ 63 + bits a % 2 ^ 63 := by
    show bits a % 2 ^ 63 = 0 * 2 ^ 63 + _
    omega
  cases ha : isNorm (bits a) with
  | true =>
    rw [up_norm ha, cond_true, cond_true, e0]
    show (UnpackedFloat.pack B64 (.finite _ _ _ _)).toNat = _
    rw [pack_norm ha]
  | false =>
    rw [ha] at h
    simp only [cond_false] at h ⊢
    cases hz : isZero (bits a) with
    | false => rw [hz] at h; exact absurd h defer
    | true =>
      have hz' : bits a % 2 ^ 63 = 0 := Nat.eq_of_beq_eq_true hz
      rw [up_zer hz, cond_true, e0]
      show (UnpackedFloat.pack B64 (.zero _)).toNat = _
      rw [pack_zero, hz', Nat.add_zero]

/-- `a.abs()`. -/
def absF (a : Float) : Float := mkOr (absN (bits a)) a.abs (absN_spec a)

theorem absF_eq (a : Float) : absF a = a.abs := mkOr_eq _ _ _

/-! ## Subtraction -/

theorem sub_eq_add (f g : UnpackedFloat) : UnpackedFloat.sub B64 f g = UnpackedFloat.add B64 f g.neg := by
  cases f <;> cases g <;> try rfl
  rename_i s m e h t n d h'
  show UnpackedFloat.normalize B64 (s.apply _ - t.apply _) _ .positive =
    UnpackedFloat.normalize B64 (s.apply _ + (-t).apply _) _ .positive
  congr 1
  have key : ∀ x : Int, (-t).apply x = -t.apply x := by
    intro x
    cases t
    · exact (Int.neg_neg x).symm
    · rfl
  rw [key, Int.sub_eq_add_neg]

theorem sub_neg (a b : Float) : a - b = a + -b := by
  apply bits_inj
  rw [bits_sub, bits_add, up_neg, sub_eq_add]

/-- `a - b`. -/
def subF (a b : Float) : Float := addF a (negF b)

theorem subF_eq (a b : Float) : subF a b = a - b := by rw [subF, addF_eq, negF_eq, sub_neg]

/-! ## Comparison -/

theorem norm_mag {n : Nat} (_ : isNorm n = true) : n % 2 ^ 63 = ex n * 2 ^ 52 + (mt n - 2 ^ 52) := by
  rw [ex_eq, mt_eq]; omega

theorem cmp_mag {e f : Nat} {m n : Nat} (hm : 2 ^ 52 ≤ m) (hm' : m < 2 ^ 53) (hn : 2 ^ 52 ≤ n) (hn' : n < 2 ^ 53) :
    (compare ((e : Int) - 1075) ((f : Int) - 1075)).then (compare m n) =
      compare (e * 2 ^ 52 + (m - 2 ^ 52)) (f * 2 ^ 52 + (n - 2 ^ 52)) := by
  rcases Nat.lt_trichotomy e f with h | h | h
  · have e1 : compare ((e : Int) - 1075) ((f : Int) - 1075) = .lt := by rw [compare_lt_iff_lt]; omega
    have e2 : compare (e * 2 ^ 52 + (m - 2 ^ 52)) (f * 2 ^ 52 + (n - 2 ^ 52)) = .lt := by
      rw [compare_lt_iff_lt]; omega
    rw [e1, e2]; rfl
  · subst h
    have e1 : compare ((e : Int) - 1075) ((e : Int) - 1075) = .eq := by rw [compare_eq_iff_eq]
    rw [e1]
    show compare m n = _
    rcases Nat.lt_trichotomy m n with h | h | h
    · have e2 : compare (e * 2 ^ 52 + (m - 2 ^ 52)) (e * 2 ^ 52 + (n - 2 ^ 52)) = .lt := by
        rw [compare_lt_iff_lt]; omega
      rw [e2, compare_lt_iff_lt]; exact h
    · subst h
      rw [compare_eq_iff_eq.2 rfl, compare_eq_iff_eq.2 rfl]
    · have e2 : compare (e * 2 ^ 52 + (m - 2 ^ 52)) (e * 2 ^ 52 + (n - 2 ^ 52)) = .gt := by
        rw [compare_gt_iff_gt]; omega
      rw [e2, compare_gt_iff_gt]; exact h
  · have e1 : compare ((e : Int) - 1075) ((f : Int) - 1075) = .gt := by rw [compare_gt_iff_gt]; omega
    have e2 : compare (e * 2 ^ 52 + (m - 2 ^ 52)) (f * 2 ^ 52 + (n - 2 ^ 52)) = .gt := by
      rw [compare_gt_iff_gt]; omega
    rw [e1, e2]; rfl

/-- The comparison of numbers that are zero or normal, from sign bits and magnitudes. -/
def cmpN (s t x y : Nat) : Ordering :=
  if s = 0 then if t = 0 then compare x y else if x = 0 ∧ y = 0 then .eq else .gt
  else if t = 0 then if x = 0 ∧ y = 0 then .eq else .lt else compare y x

theorem cmp01 (x y : Nat) : cmpN 0 1 x y = if x = 0 ∧ y = 0 then .eq else .gt := rfl
theorem cmp10 (x y : Nat) : cmpN 1 0 x y = if x = 0 ∧ y = 0 then .eq else .lt := rfl

theorem compare_good {a b : Float} (ha : good (bits a) = true) (hb : good (bits b) = true) :
    (up a).compare (up b) = some (cmpN (sn (bits a)) (sn (bits b)) (bits a % 2 ^ 63) (bits b % 2 ^ 63)) := by
  have sa := sn_bound a
  have sb' := sn_bound b
  have h1 : sn (bits a) = 0 ∨ sn (bits a) = 1 := by omega
  have h2 : sn (bits b) = 0 ∨ sn (bits b) = 1 := by omega
  unfold good at ha hb
  have swap : ∀ x y : Nat, (compare x y).swap = compare y x := fun x y => by rw [← Nat.compare_swap]; simp
  cases na : isNorm (bits a) with
  | true =>
    obtain ⟨a1, a2⟩ := isNorm_bounds na
    obtain ⟨ma1, ma2⟩ := mt_bounds (bits a)
    have ma := norm_mag na
    cases nb : isNorm (bits b) with
    | true =>
      obtain ⟨b1, b2⟩ := isNorm_bounds nb
      obtain ⟨mb1, mb2⟩ := mt_bounds (bits b)
      have mb := norm_mag nb
      rw [up_norm na, up_norm nb]
      rcases h1 with h1 | h1 <;> rcases h2 with h2 | h2 <;> rw [h1, h2]
      · show some _ = some (compare _ _)
        rw [cmp_mag ma1 ma2 mb1 mb2, ← ma, ← mb]
      · rw [cmp01, if_neg (by omega)]
        rfl
      · rw [cmp10, if_neg (by omega)]
        rfl
      · show some (Ordering.swap _) = some (compare _ _)
        rw [cmp_mag ma1 ma2 mb1 mb2, ← ma, ← mb, swap]
    | false =>
      rw [nb, cond_false] at hb
      have zb : bits b % 2 ^ 63 = 0 := Nat.eq_of_beq_eq_true hb
      rw [up_norm na, up_zer hb]
      rcases h1 with h1 | h1 <;> rcases h2 with h2 | h2 <;> rw [h1, h2]
      · show some _ = some (compare _ _)
        rw [compare_gt_iff_gt.2 (by omega)]
      · rw [cmp01, if_neg (by omega)]
        rfl
      · rw [cmp10, if_neg (by omega)]
        rfl
      · show some _ = some (compare _ _)
        rw [compare_lt_iff_lt.2 (by omega)]
  | false =>
    rw [na, cond_false] at ha
    have za : bits a % 2 ^ 63 = 0 := Nat.eq_of_beq_eq_true ha
    rw [up_zer ha]
    cases nb : isNorm (bits b) with
    | true =>
      obtain ⟨b1, b2⟩ := isNorm_bounds nb
      have mb := norm_mag nb
      rw [up_norm nb]
      rcases h1 with h1 | h1 <;> rcases h2 with h2 | h2 <;> rw [h1, h2]
      · show some _ = some (compare _ _)
        rw [compare_lt_iff_lt.2 (by omega)]
      · rw [cmp01, if_neg (by omega)]
        rfl
      · rw [cmp10, if_neg (by omega)]
        rfl
      · show some _ = some (compare _ _)
        rw [compare_gt_iff_gt.2 (by omega)]
    | false =>
      rw [nb, cond_false] at hb
      have zb : bits b % 2 ^ 63 = 0 := Nat.eq_of_beq_eq_true hb
      rw [up_zer hb, za, zb]
      rcases h1 with h1 | h1 <;> rcases h2 with h2 | h2 <;> rw [h1, h2] <;> rfl

theorem ltN_eq (a b : Nat) (ha : sn a ≤ 1) (hb : sn b ≤ 1) :
    ltN a b = (cmpN (sn a) (sn b) (a % 2 ^ 63) (b % 2 ^ 63) == .lt) := by
  have h1 : sn a = 0 ∨ sn a = 1 := by omega
  have h2 : sn b = 0 ∨ sn b = 1 := by omega
  have key : ∀ x y : Nat, Nat.ble (x + 1) y = (compare x y == .lt) := by
    intro x y
    by_cases h : x < y
    · rw [compare_lt_iff_lt.2 h, Nat.ble_eq_true_of_le h]; rfl
    · have h3 : compare x y ≠ .lt := fun h' => h (compare_lt_iff_lt.1 h')
      have h4 : Nat.ble (x + 1) y = false := by
        rw [Bool.eq_false_iff]; intro h'; exact h (Nat.le_of_ble_eq_true h')
      rw [h4]
      cases hc : compare x y <;> first | rfl | exact absurd hc h3
  unfold ltN cmpN
  rcases h1 with h1 | h1 <;> rcases h2 with h2 | h2 <;> rw [h1, h2]
  · exact key _ _
  · show false = ((if _ then Ordering.eq else Ordering.gt) == Ordering.lt)
    split <;> rfl
  · show Nat.ble 1 (a % 2 ^ 63 + b % 2 ^ 63) = ((if _ then Ordering.eq else Ordering.lt) == Ordering.lt)
    split
    · rename_i h
      rw [h.1, h.2]; rfl
    · rw [Nat.ble_eq_true_of_le (by omega)]; rfl
  · exact key _ _

/-- `a < b`. -/
def ltF (a b : Float) : Bool :=
  cond (good (bits a)) (cond (good (bits b)) (ltN (bits a) (bits b)) (decide (a < b))) (decide (a < b))

theorem ltF_eq (a b : Float) : ltF a b = decide (a < b) := by
  unfold ltF
  cases ha : good (bits a) with
  | false => rfl
  | true =>
    cases hb : good (bits b) with
    | false => rfl
    | true =>
      rw [cond_true, cond_true, ltN_eq _ _ (sn_bound a) (sn_bound b)]
      have h := lt_iff a b
      unfold UnpackedFloat.lt at h
      rw [compare_good ha hb] at h
      generalize cmpN _ _ _ _ = o at *
      rw [Bool.eq_iff_iff, decide_eq_true_iff, h]
      cases o <;> decide

/-! ## Literals -/

theorem bits_nat (m : Nat) (hm : m < 2 ^ 64) :
    bits m.toUInt64.toFloat = (UnpackedFloat.pack B64 (UnpackedFloat.normalize B64 (m : Int) 0 .positive)).toNat := by
  have h : (m.toUInt64).toNat = m := by
    rw [Nat.toUInt64, UInt64.toNat_ofNat']
    exact Nat.mod_eq_of_lt hm
  show (UnpackedFloat.pack B64 (UnpackedFloat.normalize B64 ((m.toUInt64).toNat : Int) 0 .positive)).toNat = _
  rw [h]

/-- `m as f64` for `m < 2^53`. -/
def natN (m : Nat) : Nat :=
  cond (Nat.beq m (nat_lit 0)) (nat_lit 0)
    (cond (Nat.ble (nat_lit 9007199254740992) m) X64 (fin (nat_lit 0) (nat_lit 1075) m))

theorem natN_spec (m : Nat) (h : Nat.ble X64 (natN m) = false) : bits m.toUInt64.toFloat = natN m := by
  unfold natN at h ⊢
  cases hz : Nat.beq m (nat_lit 0) with
  | true =>
    have : m = 0 := Nat.eq_of_beq_eq_true hz
    subst this
    rw [bits_nat 0 (by decide)]
    show (UnpackedFloat.pack B64 (UnpackedFloat.normalize B64 0 0 .positive)).toNat = _
    rw [norm_zero, pack_pos]
    rfl
  | false =>
    rw [hz] at h
    simp only [cond_false] at h ⊢
    have hm : m ≠ 0 := by
      intro h'
      rw [h'] at hz
      exact absurd hz (by decide)
    cases hb : Nat.ble (nat_lit 9007199254740992) m with
    | true => rw [hb] at h; exact absurd h defer
    | false =>
      rw [hb] at h
      simp only [cond_false] at h ⊢
      have hlt : ¬ 9007199254740992 ≤ m := fun h' => by
        have : Nat.ble (nat_lit 9007199254740992) m = true := Nat.ble_eq_true_of_le h'
        rw [this] at hb
        exact absurd hb (by decide)
      rw [bits_nat m (by omega), norm_pos m 0 (by omega)]
      exact fin_spec 0 (by decide) 1075 m (by omega) h

def natF (m : Nat) : Float := mkOr (natN m) m.toUInt64.toFloat (natN_spec m)

theorem natF_eq (m : Nat) : natF m = m.toUInt64.toFloat := mkOr_eq _ _ _

theorem ten_spec : ∀ e : Fin 23, bits (Float.exactlyRepresentablePowersOfTen[e.1]'(by
    simp [Float.exactlyRepresentablePowersOfTen])) = fin 0 1075 (10 ^ e.1) := by
  decide +kernel

/-- `m * 10^-e`. -/
def litF (m e : Nat) : Float :=
  if h : Nat.ble e (nat_lit 22) = true then
    cond (Nat.ble (nat_lit 9007199254740992) m) (Float.ofScientific m true e)
      (divF (natF m) (mkOr (fin (nat_lit 0) (nat_lit 1075) (Nat.pow (nat_lit 10) e))
        (Float.exactlyRepresentablePowersOfTen[e]'(by
          have : e ≤ 22 := Nat.le_of_ble_eq_true h
          simp [Float.exactlyRepresentablePowersOfTen]; omega))
        (fun _ => ten_spec ⟨e, by have : e ≤ 22 := Nat.le_of_ble_eq_true h; omega⟩)))
  else Float.ofScientific m true e

theorem litF_eq (m e : Nat) : litF m e = Float.ofScientific m true e := by
  unfold litF
  split
  · rename_i h
    have he : e ≤ 22 := Nat.le_of_ble_eq_true h
    cases hb : Nat.ble (nat_lit 9007199254740992) m with
    | true => rfl
    | false =>
      have hlt : ¬ 9007199254740992 ≤ m := fun h' => by
        have : Nat.ble (nat_lit 9007199254740992) m = true := Nat.ble_eq_true_of_le h'
        rw [this] at hb
        exact absurd hb (by decide)
      rw [cond_false, divF_eq, natF_eq, mkOr_eq]
      unfold Float.ofScientific
      rw [dif_pos ⟨by omega, he⟩]
      rfl
  · rfl

end Aga8.Fast
