import Verif.Lemmas.GergMixGroup

/-! # Bounds for every mixture on rectangles of reduced temperature and density -/

set_option linter.unusedSectionVars false

namespace Aga8.GergEos

open Mix
open Detail (cover)

/-! ## The temperature and the density factors -/

/-- A power of `(Tr/T)^(1/40)`. -/
theorem pow40 {τ : ℝ} (hτ : 0 < τ) (i : ℕ) : τ ^ ((tOf i - t0 : ℚ) : ℝ) = (τ ^ ((1 : ℝ) / 40)) ^ (expo.getD i 0 - 50) := by
  rw [← Real.rpow_intCast, ← Real.rpow_mul hτ.le]
  congr 1
  unfold tOf t0
  push_cast
  ring

def PW : ℕ := 2 ^ 64
def pDig (x i : ℕ) : ℕ := x / PW ^ i % PW

/-- Bounds of the power number `i` for `(Tr/T)^(1/40)` between `a` and `b`, in units of 1e-5. -/
def powChk (a b PL PH i : ℕ) : Bool :=
  match expo.getD i 0 - 50 with
  | Int.ofNat e => Nat.ble (pDig PL i * 100000 ^ e) (1000000 * a ^ e) && Nat.ble (1000000 * b ^ e) (pDig PH i * 100000 ^ e)
  | Int.negSucc e => Nat.ble (pDig PL i * b ^ (e + 1)) (1000000 * 100000 ^ (e + 1)) &&
      Nat.ble (1000000 * 100000 ^ (e + 1)) (pDig PH i * a ^ (e + 1))

theorem pow_in {a b PL PH i : ℕ} (h : powChk a b PL PH i = true) (ha : 0 < a) {u : ℝ} (h1 : (a : ℝ) / 100000 ≤ u)
    (h2 : u ≤ (b : ℝ) / 100000) :
    ((pDig PL i : ℕ) : ℝ) ≤ u ^ (expo.getD i 0 - 50) * 10 ^ 6 ∧ u ^ (expo.getD i 0 - 50) * 10 ^ 6 ≤ (pDig PH i : ℕ) := by
  have a0 : (0 : ℝ) < a := by exact_mod_cast ha
  have u0 : 0 < u := lt_of_lt_of_le (by positivity) h1
  unfold powChk at h
  generalize expo.getD i 0 - 50 = z at *
  cases z with
  | ofNat e =>
    rw [Bool.and_eq_true] at h
    have c1 : ((pDig PL i : ℕ) : ℝ) * 100000 ^ e ≤ 1000000 * (a : ℝ) ^ e := by exact_mod_cast Nat.le_of_ble_eq_true h.1
    have c2 : 1000000 * (b : ℝ) ^ e ≤ ((pDig PH i : ℕ) : ℝ) * 100000 ^ e := by exact_mod_cast Nat.le_of_ble_eq_true h.2
    have hp : (0 : ℝ) < 100000 ^ e := by positivity
    have m1 : ((a : ℝ) / 100000) ^ e ≤ u ^ e := pow_le_pow_left₀ (by positivity) h1 e
    have m2 : u ^ e ≤ ((b : ℝ) / 100000) ^ e := pow_le_pow_left₀ u0.le h2 e
    rw [div_pow, div_le_iff₀ hp] at m1
    rw [div_pow, le_div_iff₀ hp] at m2
    simp only [Int.ofNat_eq_natCast, zpow_natCast]
    constructor
    · refine le_of_mul_le_mul_right ?_ hp
      nlinarith
    · refine le_of_mul_le_mul_right ?_ hp
      nlinarith
  | negSucc e =>
    rw [Bool.and_eq_true] at h
    have c1 : ((pDig PL i : ℕ) : ℝ) * (b : ℝ) ^ (e + 1) ≤ 1000000 * 100000 ^ (e + 1) := by
      exact_mod_cast Nat.le_of_ble_eq_true h.1
    have c2 : 1000000 * 100000 ^ (e + 1) ≤ ((pDig PH i : ℕ) : ℝ) * (a : ℝ) ^ (e + 1) := by
      exact_mod_cast Nat.le_of_ble_eq_true h.2
    have hp : (0 : ℝ) < 100000 ^ (e + 1) := by positivity
    have m1 : ((a : ℝ) / 100000) ^ (e + 1) ≤ u ^ (e + 1) := pow_le_pow_left₀ (by positivity) h1 _
    have m2 : u ^ (e + 1) ≤ ((b : ℝ) / 100000) ^ (e + 1) := pow_le_pow_left₀ u0.le h2 _
    rw [div_pow, div_le_iff₀ hp] at m1
    rw [div_pow, le_div_iff₀ hp] at m2
    have up : 0 < u ^ (e + 1) := by positivity
    have d1 : (0 : ℝ) ≤ ((pDig PL i : ℕ) : ℝ) := Nat.cast_nonneg _
    have d2 : (0 : ℝ) ≤ ((pDig PH i : ℕ) : ℝ) := Nat.cast_nonneg _
    rw [zpow_negSucc, inv_mul_eq_div]
    generalize u ^ (e + 1) = U at *
    generalize ((100000 : ℝ) ^ (e + 1)) = H at *
    constructor
    · rw [le_div_iff₀ up]
      refine le_of_mul_le_mul_right ?_ hp
      have := mul_le_mul_of_nonneg_left m2 d1
      nlinarith
    · rw [div_le_iff₀ up]
      refine le_of_mul_le_mul_right ?_ hp
      have := mul_le_mul_of_nonneg_left m1 d2
      nlinarith

/-- Bounds of the density factors on an interval of densities, one digit for each. -/
structure Row where
  b0 : ℕ
  b1 : ℕ
  z0 : ℕ
  z1 : ℕ
  p0 : ℕ
  p1 : ℕ
  n0 : ℕ
  n1 : ℕ
  za : ℕ
  pa : ℕ

/-- The numbers of a row are right for the factor number `k`. -/
def rowKey (R : Row) (r0 r1 : ℚ) (k : ℕ) : Bool :=
  let K := kOf k
  let l := K.bLow r0 r1
  let h := K.bHigh r0 r1
  decide (K.Fit r0 r1) &&
    decide ((dig R.b0 k : ℚ) ≤ l * 10 ^ 6 ∧ h * 10 ^ 6 ≤ dig R.b1 k) &&
    decide ((dig R.z0 k : ℚ) ≤ l * K.hZq r1 * 10 ^ 6 ∧ h * K.hZq r0 * 10 ^ 6 ≤ dig R.z1 k) &&
    decide ((dig R.p0 k : ℚ) ≤ l * max (K.hPq r1) 0 * 10 ^ 6 ∧ h * max (K.hPq r0) 0 * 10 ^ 6 ≤ dig R.p1 k) &&
    decide ((dig R.n0 k : ℚ) ≤ l * max (-K.hPq r0) 0 * 10 ^ 6 ∧ h * max (-K.hPq r1) 0 * 10 ^ 6 ≤ dig R.n1 k) &&
    decide (h * K.hZaq r1 * 10 ^ 6 ≤ dig R.za k ∧ h * K.hPaq r1 * 10 ^ 6 ≤ dig R.pa k)

def MR : ℕ := 2 ^ 40
def rowChk (R : Row) (r0 r1 : ℚ) : Bool :=
  ((List.range 36).all fun k => rowKey R r0 r1 k) && smallChk R.b0 MR && smallChk R.b1 MR && smallChk R.z0 MR && smallChk R.z1 MR &&
    smallChk R.p0 MR && smallChk R.p1 MR && smallChk R.n0 MR && smallChk R.n1 MR && smallChk R.za MR && smallChk R.pa MR

/-- The meaning of a row. -/
structure RowOk (R : Row) (δ : ℝ) : Prop where
  b : RowIn R.b0 R.b1 0 0 fun k => (kOf k).base δ * 1
  z : RowIn R.z0 R.z1 0 0 fun k => (kOf k).base δ * (kOf k).hZ δ
  p : RowIn R.p0 R.p1 R.n1 R.n0 fun k => (kOf k).base δ * (kOf k).hP δ
  ba : ∀ k < 36, 0 ≤ (kOf k).base δ * 1 ∧ (kOf k).base δ * 1 * 10 ^ 6 ≤ (dig R.b1 k : ℕ)
  za : ∀ k < 36, 0 ≤ (kOf k).base δ * (kOf k).hZa δ ∧ (kOf k).base δ * (kOf k).hZa δ * 10 ^ 6 ≤ (dig R.za k : ℕ)
  pa : ∀ k < 36, 0 ≤ (kOf k).base δ * (kOf k).hPa δ ∧ (kOf k).base δ * (kOf k).hPa δ * 10 ^ 6 ≤ (dig R.pa k : ℕ)
  sb0 : Small R.b0 MR
  sb1 : Small R.b1 MR
  sz0 : Small R.z0 MR
  sz1 : Small R.z1 MR
  sp0 : Small R.p0 MR
  sp1 : Small R.p1 MR
  sn0 : Small R.n0 MR
  sn1 : Small R.n1 MR
  sza : Small R.za MR
  spa : Small R.pa MR

theorem dig_zero (k : ℕ) : dig 0 k = 0 := by simp [dig]

theorem nonneg_row {lo hi k : ℕ} {x : ℝ} (h0 : 0 ≤ x) (h1 : ((dig lo k : ℕ) : ℝ) ≤ x * 10 ^ 6) (h2 : x * 10 ^ 6 ≤ (dig hi k : ℕ)) :
    ((dig lo k : ℕ) : ℝ) ≤ max x 0 * 10 ^ 6 ∧ max x 0 * 10 ^ 6 ≤ (dig hi k : ℕ) ∧
    ((dig 0 k : ℕ) : ℝ) ≤ max (-x) 0 * 10 ^ 6 ∧ max (-x) 0 * 10 ^ 6 ≤ (dig 0 k : ℕ) := by
  rw [max_eq_left h0, max_eq_right (by linarith), dig_zero]
  refine ⟨h1, h2, ?_, ?_⟩ <;> simp

theorem scale_le {n : ℕ} {y : ℚ} {x : ℝ} (h : (n : ℚ) ≤ y * 10 ^ 6) (h' : (y : ℝ) ≤ x) : (n : ℝ) ≤ x * 10 ^ 6 := by
  have : (n : ℝ) ≤ (y : ℝ) * 10 ^ 6 := by exact_mod_cast h
  nlinarith
theorem le_scale {n : ℕ} {y : ℚ} {x : ℝ} (h : y * 10 ^ 6 ≤ (n : ℚ)) (h' : x ≤ (y : ℝ)) : x * 10 ^ 6 ≤ (n : ℝ) := by
  have : (y : ℝ) * 10 ^ 6 ≤ (n : ℝ) := by exact_mod_cast h
  nlinarith

theorem row_ok {R : Row} {r0 r1 : ℚ} (h : rowChk R r0 r1 = true) {δ : ℝ} (h0 : (r0 : ℝ) ≤ δ) (h1 : δ ≤ r1) : RowOk R δ := by
  unfold rowChk at h
  simp only [Bool.and_eq_true] at h
  obtain ⟨⟨⟨⟨⟨⟨⟨⟨⟨⟨hk, s1⟩, s2⟩, s3⟩, s4⟩, s5⟩, s6⟩, s7⟩, s8⟩, s9⟩, s10⟩ := h
  have key : ∀ k < 36, _ := fun k hk' => by
    have := List.all_eq_true.1 hk k (List.mem_range.2 hk')
    unfold rowKey at this
    simp only [Bool.and_eq_true, decide_eq_true_eq] at this
    exact this
  refine ⟨?_, ?_, ?_, ?_, ?_, ?_, small_of s1, small_of s2, small_of s3, small_of s4, small_of s5, small_of s6, small_of s7, small_of s8,
    small_of s9, small_of s10⟩ <;> intro k hk' <;> obtain ⟨⟨⟨⟨⟨F, b⟩, z⟩, p⟩, n⟩, a⟩ := key k hk'
  · obtain ⟨b0, b1, b2⟩ := F.base_in h0 h1
    simp only [mul_one]
    exact nonneg_row (b0.trans b1) (scale_le b.1 b1) (le_scale b.2 b2)
  · obtain ⟨c1, c2, c0⟩ := F.z_in h0 h1
    exact nonneg_row c0 (scale_le z.1 c1) (le_scale z.2 c2)
  · obtain ⟨c1, c2, c3, c4⟩ := F.p_in h0 h1
    exact ⟨scale_le p.1 c1, le_scale p.2 c2, scale_le n.1 c3, le_scale n.2 c4⟩
  · obtain ⟨b0, b1, b2⟩ := F.base_in h0 h1
    rw [mul_one]
    exact ⟨b0.trans b1, le_scale b.2 b2⟩
  · obtain ⟨c0, c1⟩ := F.za_in h0 h1
    exact ⟨c0, le_scale a.1 c1⟩
  · obtain ⟨c0, c1⟩ := F.pa_in h0 h1
    exact ⟨c0, le_scale a.2 c1⟩

/-! ## One fluid or one pair on a rectangle -/

def q0 : ℚ → ℚ := fun _ => 1
def q1 : ℚ → ℚ := fun t => 1 - t
def q2 : ℚ → ℚ := fun t => t * (t - 1)
def a1 : ℚ → ℚ := fun t => 1 + |t|
def a2 : ℚ → ℚ := fun t => |t| * (|t| + 1)

/-- The terms of a fluid or a pair, grouped, and the same with the temperature factors in whole numbers. -/
structure Unit where
  G : List Grp
  S0 : List SGrp
  S1 : List SGrp
  S2 : List SGrp
  A0 : List AGrp
  A1 : List AGrp
  A2 : List AGrp

def Unit.chk (V : Unit) (L : List UTerm) : Bool :=
  decide ((flat V.G).Perm L) && (V.G.all fun g => Nat.blt g.1 36 && g.2.all fun e => Nat.blt e.2 76) &&
    decide (V.S0 = encG q0 V.G) && decide (V.S1 = encG q1 V.G) && decide (V.S2 = encG q2 V.G) &&
    decide (V.A0 = encAG q0 V.G) && decide (V.A1 = encAG a1 V.G) && decide (V.A2 = encAG a2 V.G)

/-- Bounds on a rectangle, in units of 1e-6: the sums for the compression factor, the derivatives of the pressure and the heat
capacity, and the sizes. -/
structure Thr where
  z : ℕ
  p : ℕ
  t : ℕ
  v : ℕ
  za : ℕ
  pa : ℕ
  ta : ℕ
  va : ℕ
  zu : ℕ
  pu : ℕ

def U13 : ℕ := 10 ^ 13
def MS : ℕ := 2 ^ 55

section
variable (PL PH : ℕ → ℕ) (V : Unit)

def kLP (S : List SGrp) : ℕ := packG (S.map (gLP PL PH))
def kLN (S : List SGrp) : ℕ := packG (S.map (gLN PL PH))
def kHP (S : List SGrp) : ℕ := packG (S.map (gHP PL PH))
def kHN (S : List SGrp) : ℕ := packG (S.map (gHN PL PH))
def kA (A : List AGrp) : ℕ := packG (A.map (gA PH))

/-- The coefficients are small enough for `dotp`. -/
def sizeChk : Bool :=
  Nat.ble (sumG (V.S0.map (gLP PL PH))) MS && Nat.ble (sumG (V.S0.map (gLN PL PH))) MS &&
  Nat.ble (sumG (V.S0.map (gHP PL PH))) MS && Nat.ble (sumG (V.S0.map (gHN PL PH))) MS &&
  Nat.ble (sumG (V.S1.map (gLP PL PH))) MS && Nat.ble (sumG (V.S1.map (gLN PL PH))) MS &&
  Nat.ble (sumG (V.S2.map (gHP PL PH))) MS && Nat.ble (sumG (V.S2.map (gHN PL PH))) MS &&
  Nat.ble (sumG (V.A0.map (gA PH))) MS && Nat.ble (sumG (V.A1.map (gA PH))) MS && Nat.ble (sumG (V.A2.map (gA PH))) MS

def boxU (R : Row) (T : Thr) : Bool :=
  Nat.ble (dotp R.z1 (kLN PL PH V.S0)) (dotp R.z0 (kLP PL PH V.S0) + T.z * U13) &&
  Nat.ble (dotp R.p1 (kLN PL PH V.S0) + dotp R.n1 (kHP PL PH V.S0))
    (dotp R.p0 (kLP PL PH V.S0) + dotp R.n0 (kHN PL PH V.S0) + T.p * U13) &&
  Nat.ble (dotp R.z1 (kLN PL PH V.S1)) (dotp R.z0 (kLP PL PH V.S1) + T.t * U13) &&
  Nat.ble (dotp R.b1 (kHP PL PH V.S2)) (dotp R.b0 (kHN PL PH V.S2) + T.v * U13) &&
  Nat.ble (dotp R.za (kA PH V.A0)) (T.za * U13) && Nat.ble (dotp R.pa (kA PH V.A0)) (T.pa * U13) &&
  Nat.ble (dotp R.za (kA PH V.A1)) (T.ta * U13) && Nat.ble (dotp R.b1 (kA PH V.A2)) (T.va * U13) &&
  Nat.ble (dotp R.z1 (kHP PL PH V.S0)) (dotp R.z0 (kHN PL PH V.S0) + T.zu * U13) &&
  Nat.ble (dotp R.p1 (kHP PL PH V.S0) + dotp R.n1 (kLN PL PH V.S0))
    (dotp R.p0 (kHN PL PH V.S0) + dotp R.n0 (kLP PL PH V.S0) + T.pu * U13)
end

/-- The bounds of a fluid or a pair. -/
structure Bounds (T : Thr) (s : (ℚ → ℚ) → (Key → ℝ → ℝ) → ℝ) (a : (ℚ → ℚ) → (Key → ℝ → ℝ) → ℝ) : Prop where
  z : -((T.z : ℝ) / 10 ^ 6) ≤ s q0 Key.hZ
  p : -((T.p : ℝ) / 10 ^ 6) ≤ s q0 Key.hP
  t : -((T.t : ℝ) / 10 ^ 6) ≤ s q1 Key.hZ
  v : s q2 (fun _ _ => 1) ≤ (T.v : ℝ) / 10 ^ 6
  za : a q0 Key.hZa ≤ (T.za : ℝ) / 10 ^ 6
  pa : a q0 Key.hPa ≤ (T.pa : ℝ) / 10 ^ 6
  ta : a a1 Key.hZa ≤ (T.ta : ℝ) / 10 ^ 6
  va : a a2 (fun _ _ => 1) ≤ (T.va : ℝ) / 10 ^ 6
  zu : s q0 Key.hZ ≤ (T.zu : ℝ) / 10 ^ 6
  pu : s q0 Key.hP ≤ (T.pu : ℝ) / 10 ^ 6

theorem dotL_zero (l : List (ℕ × ℕ)) : dotL 0 l = 0 := by
  induction l with
  | nil => rfl
  | cons g l ih => simp [dotL, ih, dig_zero]

theorem low_of {x y m : ℕ} {s : ℝ} (h : Nat.ble y (x + m * U13) = true) (hs : (x : ℝ) - y ≤ s * 10 ^ 19) : -((m : ℝ) / 10 ^ 6) ≤ s := by
  have : (y : ℝ) ≤ x + m * 10 ^ 13 := by
    have := Nat.le_of_ble_eq_true h
    unfold U13 at this
    exact_mod_cast this
  rw [neg_le_iff_add_nonneg]
  have e : s + (m : ℝ) / 10 ^ 6 = (s * 10 ^ 19 + m * 10 ^ 13) / 10 ^ 19 := by ring
  rw [e]
  exact div_nonneg (by linarith) (by norm_num)

theorem high_of {x y m : ℕ} {s : ℝ} (h : Nat.ble x (y + m * U13) = true) (hs : s * 10 ^ 19 ≤ (x : ℝ) - y) : s ≤ (m : ℝ) / 10 ^ 6 := by
  have : (x : ℝ) ≤ y + m * 10 ^ 13 := by
    have := Nat.le_of_ble_eq_true h
    unfold U13 at this
    exact_mod_cast this
  have e : (m : ℝ) / 10 ^ 6 = m * 10 ^ 13 / 10 ^ 19 := by ring
  rw [e, le_div_iff₀ (by norm_num)]
  linarith

theorem mem_fst {α : Type} {f : α → ℕ × ℕ} {k : α → ℕ} (hf : ∀ a, (f a).1 = k a) {S : List α} (h : ∀ a ∈ S, k a < 36) :
    ∀ g ∈ S.map f, g.1 < 36 := by
  intro g hg
  obtain ⟨a, ha, rfl⟩ := List.mem_map.1 hg
  rw [hf]
  exact h a ha

theorem encG_lt {G : List Grp} (h : Good G) (q : ℚ → ℚ) : ∀ g ∈ encG q G, g.1 < 36 := by
  intro g hg
  obtain ⟨a, ha, rfl⟩ := List.mem_map.1 hg
  exact (h a ha).1
theorem encAG_lt {G : List Grp} (h : Good G) (q : ℚ → ℚ) : ∀ g ∈ encAG q G, g.1 < 36 := by
  intro g hg
  obtain ⟨a, ha, rfl⟩ := List.mem_map.1 hg
  exact (h a ha).1

theorem size_ok {l : List (ℕ × ℕ)} (h : Nat.ble (sumG l) MS = true) : MR * sumG l < B - 1 :=
  lt_of_le_of_lt (Nat.mul_le_mul_left _ (Nat.le_of_ble_eq_true h)) (by decide)

theorem a1_nonneg (t : ℚ) : 0 ≤ a1 t := by unfold a1; positivity
theorem a2_nonneg (t : ℚ) : 0 ≤ a2 t := by unfold a2; positivity
theorem q0_nonneg (t : ℚ) : 0 ≤ q0 t := by unfold q0; norm_num

theorem unit_box {V : Unit} {L : List UTerm} (hV : V.chk L = true) {PL PH : ℕ → ℕ} {R : Row} {T : Thr}
    (hs : sizeChk PL PH V = true) (hb : boxU PL PH V R T = true) {δ τ : ℝ}
    (hp : PowIn PL PH fun i => τ ^ ((tOf i - t0 : ℚ) : ℝ)) (hR : RowOk R δ) :
    Bounds T (fun q h => uSum L q h δ τ) (fun q h => uAbs L q h δ τ) := by
  unfold Unit.chk at hV
  simp only [Bool.and_eq_true, decide_eq_true_eq] at hV
  obtain ⟨⟨⟨⟨⟨⟨⟨hP, hG⟩, e0⟩, e1⟩, e2⟩, f0⟩, f1⟩, f2⟩ := hV
  have good : Good V.G := by
    intro g hg
    have := List.all_eq_true.1 hG g hg
    rw [Bool.and_eq_true] at this
    refine ⟨by simpa [Nat.blt_eq] using this.1, fun e he => ?_⟩
    simpa [Nat.blt_eq] using List.all_eq_true.1 this.2 e he
  unfold sizeChk at hs
  simp only [Bool.and_eq_true] at hs
  obtain ⟨⟨⟨⟨⟨⟨⟨⟨⟨⟨s1, s2⟩, s3⟩, s4⟩, s5⟩, s6⟩, s7⟩, s8⟩, s9⟩, s10⟩, s11⟩ := hs
  unfold boxU kLP kLN kHP kHN kA at hb
  simp only [Bool.and_eq_true] at hb
  rw [e0] at s1 s2 s3 s4
  rw [e1] at s5 s6
  rw [e2] at s7 s8
  rw [f0] at s9
  rw [f1] at s10
  rw [f2] at s11
  rw [e0, e1, e2, f0, f1, f2] at hb
  obtain ⟨⟨⟨⟨⟨⟨⟨⟨⟨h1, h2⟩, h3⟩, h4⟩, h5⟩, h6⟩, h7⟩, h8⟩, h9⟩, h10⟩ := hb
  have k0 := encG_lt good q0
  have k1 := encG_lt good q1
  have k2 := encG_lt good q2
  have l0 := encAG_lt good q0
  have l1 := encAG_lt good a1
  have l2 := encAG_lt good a2
  rw [dotp_eq hR.sz1 (mem_fst (fun _ => rfl) k0) (size_ok s2), dotp_eq hR.sz0 (mem_fst (fun _ => rfl) k0) (size_ok s1)] at h1
  rw [dotp_eq hR.sp1 (mem_fst (fun _ => rfl) k0) (size_ok s2), dotp_eq hR.sn1 (mem_fst (fun _ => rfl) k0) (size_ok s3),
    dotp_eq hR.sp0 (mem_fst (fun _ => rfl) k0) (size_ok s1), dotp_eq hR.sn0 (mem_fst (fun _ => rfl) k0) (size_ok s4)] at h2
  rw [dotp_eq hR.sz1 (mem_fst (fun _ => rfl) k1) (size_ok s6), dotp_eq hR.sz0 (mem_fst (fun _ => rfl) k1) (size_ok s5)] at h3
  rw [dotp_eq hR.sb1 (mem_fst (fun _ => rfl) k2) (size_ok s7), dotp_eq hR.sb0 (mem_fst (fun _ => rfl) k2) (size_ok s8)] at h4
  rw [dotp_eq hR.sza (mem_fst (fun _ => rfl) l0) (size_ok s9)] at h5
  rw [dotp_eq hR.spa (mem_fst (fun _ => rfl) l0) (size_ok s9)] at h6
  rw [dotp_eq hR.sza (mem_fst (fun _ => rfl) l1) (size_ok s10)] at h7
  rw [dotp_eq hR.sb1 (mem_fst (fun _ => rfl) l2) (size_ok s11)] at h8
  rw [dotp_eq hR.sz1 (mem_fst (fun _ => rfl) k0) (size_ok s3), dotp_eq hR.sz0 (mem_fst (fun _ => rfl) k0) (size_ok s4)] at h9
  rw [dotp_eq hR.sp1 (mem_fst (fun _ => rfl) k0) (size_ok s3), dotp_eq hR.sn1 (mem_fst (fun _ => rfl) k0) (size_ok s2),
    dotp_eq hR.sp0 (mem_fst (fun _ => rfl) k0) (size_ok s4), dotp_eq hR.sn0 (mem_fst (fun _ => rfl) k0) (size_ok s1)] at h10
  refine ⟨?_, ?_, ?_, ?_, ?_, ?_, ?_, ?_, ?_, ?_⟩
  · rw [uSum_groups hP]
    have := (groups_in hp (q := q0) hR.z V.G good).1
    rw [dotL_zero, dotL_zero] at this
    refine low_of h1 (le_trans (le_of_eq ?_) this)
    push_cast
    ring
  · rw [uSum_groups hP]
    have := (groups_in hp (q := q0) hR.p V.G good).1
    refine low_of (x := dotL R.p0 _ + dotL R.n0 _) (y := dotL R.p1 _ + dotL R.n1 _) h2 (le_trans (le_of_eq ?_) this)
    push_cast
    ring
  · rw [uSum_groups hP]
    have := (groups_in hp (q := q1) hR.z V.G good).1
    rw [dotL_zero, dotL_zero] at this
    refine low_of h3 (le_trans (le_of_eq ?_) this)
    push_cast
    ring
  · rw [uSum_groups hP]
    have := (groups_in hp (q := q2) hR.b V.G good).2
    rw [dotL_zero, dotL_zero] at this
    refine high_of h4 (this.trans (le_of_eq ?_))
    push_cast
    ring
  · rw [uAbs_groups hP]
    have := groupsA_in hp q0_nonneg hR.za V.G good
    refine high_of (y := 0) (by rw [zero_add]; exact h5) (this.trans (le_of_eq (by push_cast; ring)))
  · rw [uAbs_groups hP]
    have := groupsA_in hp q0_nonneg hR.pa V.G good
    refine high_of (y := 0) (by rw [zero_add]; exact h6) (this.trans (le_of_eq (by push_cast; ring)))
  · rw [uAbs_groups hP]
    have := groupsA_in hp a1_nonneg hR.za V.G good
    refine high_of (y := 0) (by rw [zero_add]; exact h7) (this.trans (le_of_eq (by push_cast; ring)))
  · rw [uAbs_groups hP]
    have := groupsA_in hp a2_nonneg hR.ba V.G good
    refine high_of (y := 0) (by rw [zero_add]; exact h8) (this.trans (le_of_eq (by push_cast; ring)))
  · rw [uSum_groups hP]
    have := (groups_in hp (q := q0) hR.z V.G good).2
    rw [dotL_zero, dotL_zero] at this
    refine high_of h9 (this.trans (le_of_eq ?_))
    push_cast
    ring
  · rw [uSum_groups hP]
    have := (groups_in hp (q := q0) hR.p V.G good).2
    refine high_of (x := dotL R.p1 _ + dotL R.n1 _) (y := dotL R.p0 _ + dotL R.n0 _) h10 (this.trans (le_of_eq ?_))
    push_cast
    ring

end Aga8.GergEos
