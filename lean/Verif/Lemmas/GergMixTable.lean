import Verif.Lemmas.GergMixBox

/-! # Tables of bounds for every mixture, and what they mean -/

set_option linter.unusedSectionVars false

namespace Aga8.GergEos

open Mix
open Detail (cover)

/-- The terms of a departure function with the factor of the pair. -/
def depF (i j : ℕ) : List UTerm := (depU i j).map fun u => ⟨(departure i j).1 * u.n, u.t, u.k⟩

theorem uSum_depF (i j : ℕ) (q : ℚ → ℚ) (h : Key → ℝ → ℝ) (δ τ : ℝ) :
    uSum (depF i j) q h δ τ = ((departure i j).1 : ℝ) * uSum (depU i j) q h δ τ := by
  unfold uSum depF
  rw [List.map_map, ← List.sum_map_mul_left]
  congr 1
  refine List.map_congr_left fun u _ => ?_
  simp only [Function.comp]
  push_cast
  ring
theorem uAbs_depF (i j : ℕ) (q : ℚ → ℚ) (h : Key → ℝ → ℝ) (δ τ : ℝ) :
    uAbs (depF i j) q h δ τ = |((departure i j).1 : ℝ)| * uAbs (depU i j) q h δ τ := by
  unfold uAbs depF
  rw [List.map_map, ← List.sum_map_mul_left]
  congr 1
  refine List.map_congr_left fun u _ => ?_
  simp only [Function.comp]
  rw [abs_mul]
  push_cast
  ring

section
variable {x : Fin 22 → ℝ} (hx : ∀ i : Fin 22, 1 ≤ i.1 → 0 ≤ x i) (hs : ∑ i : Fin 22 with 1 ≤ i.1, x i ≤ 1.01)
include hx hs

/-- The sum of the products of different fractions is at most half the square of their sum. -/
theorem pair_sum : ∑ i : Fin 22 with 1 ≤ i.1, ∑ j : Fin 22 with i < j, x i * x j ≤ 0.5101 := by
  have S0 : 0 ≤ ∑ i : Fin 22 with 1 ≤ i.1, x i := Finset.sum_nonneg fun i hi => hx i (Finset.mem_filter.1 hi).2
  have h1 : ∑ i : Fin 22 with 1 ≤ i.1, ∑ j : Fin 22 with i < j, x i * x j
      = ∑ i : Fin 22 with 1 ≤ i.1, ∑ j : Fin 22 with 1 ≤ j.1, if i < j then x i * x j else 0 := by
    refine Finset.sum_congr rfl fun i hi => ?_
    have hi' := (Finset.mem_filter.1 hi).2
    rw [← Finset.sum_filter, Finset.filter_filter]
    refine Finset.sum_congr ?_ fun _ _ => rfl
    ext j
    simp only [Finset.mem_filter, Finset.mem_univ, true_and]
    constructor
    · intro h; exact ⟨by have : i.1 < j.1 := h; omega, h⟩
    · exact fun h => h.2
  have h2 : ∑ i : Fin 22 with 1 ≤ i.1, ∑ j : Fin 22 with 1 ≤ j.1, (if i < j then x i * x j else 0)
      = ∑ i : Fin 22 with 1 ≤ i.1, ∑ j : Fin 22 with 1 ≤ j.1, (if j < i then x i * x j else 0) := by
    rw [Finset.sum_comm]
    refine Finset.sum_congr rfl fun i _ => Finset.sum_congr rfl fun j _ => ?_
    split
    · ring
    · rfl
  have h3 : ∑ i : Fin 22 with 1 ≤ i.1, ∑ j : Fin 22 with 1 ≤ j.1, (if i < j then x i * x j else 0)
      + ∑ i : Fin 22 with 1 ≤ i.1, ∑ j : Fin 22 with 1 ≤ j.1, (if j < i then x i * x j else 0)
      ≤ (∑ i : Fin 22 with 1 ≤ i.1, x i) * ∑ j : Fin 22 with 1 ≤ j.1, x j := by
    rw [Finset.sum_mul_sum, ← Finset.sum_add_distrib]
    refine Finset.sum_le_sum fun i hi => ?_
    rw [← Finset.sum_add_distrib]
    refine Finset.sum_le_sum fun j hj => ?_
    have p := mul_nonneg (hx i (Finset.mem_filter.1 hi).2) (hx j (Finset.mem_filter.1 hj).2)
    rcases lt_trichotomy i j with h | h | h
    · rw [if_pos h, if_neg (not_lt.2 h.le), add_zero]
    · rw [if_neg (by rw [h]; exact lt_irrefl _), if_neg (by rw [h]; exact lt_irrefl _), add_zero]; exact p
    · rw [if_neg (not_lt.2 h.le), if_pos h, zero_add]
  have h4 : (∑ i : Fin 22 with 1 ≤ i.1, x i) * (∑ i : Fin 22 with 1 ≤ i.1, x i) ≤ 1.01 * 1.01 := mul_le_mul hs hs S0 (by norm_num)
  rw [h1]
  rw [← h2] at h3
  norm_num at h4 ⊢
  linarith

theorem pair_nonneg : 0 ≤ ∑ i : Fin 22 with 1 ≤ i.1, ∑ j : Fin 22 with i < j, x i * x j :=
  Finset.sum_nonneg fun i hi => Finset.sum_nonneg fun j hj => mul_nonneg (hx i (Finset.mem_filter.1 hi).2)
    (hx j (by have := (Finset.mem_filter.1 hi).2; have : i.1 < j.1 := (Finset.mem_filter.1 hj).2; omega))

/-- A sum over the fluids and the pairs, from above. -/
theorem mix_le {f : Fin 22 → ℝ} {g : Fin 22 → Fin 22 → ℝ} {a b : ℝ} (ha : 0 ≤ a) (hb : 0 ≤ b) (hf : ∀ i : Fin 22, 1 ≤ i.1 → f i ≤ a)
    (hg : ∀ i j : Fin 22, 1 ≤ i.1 → i < j → g i j ≤ b) :
    ∑ i with 1 ≤ i.1, x i * f i + ∑ i with 1 ≤ i.1, ∑ j with i < j, x i * x j * g i j ≤ 1.01 * a + 0.5101 * b := by
  have p1 : ∑ i with 1 ≤ i.1, x i * f i ≤ (∑ i : Fin 22 with 1 ≤ i.1, x i) * a := by
    rw [Finset.sum_mul]
    exact Finset.sum_le_sum fun i hi => mul_le_mul_of_nonneg_left (hf i (Finset.mem_filter.1 hi).2) (hx i (Finset.mem_filter.1 hi).2)
  have p2 : ∑ i with 1 ≤ i.1, ∑ j with i < j, x i * x j * g i j ≤ (∑ i : Fin 22 with 1 ≤ i.1, ∑ j : Fin 22 with i < j, x i * x j) * b := by
    rw [Finset.sum_mul]
    refine Finset.sum_le_sum fun i hi => ?_
    rw [Finset.sum_mul]
    refine Finset.sum_le_sum fun j hj => ?_
    have i1 := (Finset.mem_filter.1 hi).2
    have ij : i.1 < j.1 := (Finset.mem_filter.1 hj).2
    exact mul_le_mul_of_nonneg_left (hg i j i1 ij) (mul_nonneg (hx i i1) (hx j (by omega)))
  exact add_le_add (p1.trans (mul_le_mul_of_nonneg_right hs ha)) (p2.trans (mul_le_mul_of_nonneg_right (pair_sum hx hs) hb))

/-- A sum over the fluids and the pairs, from below. -/
theorem le_mix {f : Fin 22 → ℝ} {g : Fin 22 → Fin 22 → ℝ} {a b : ℝ} (ha : 0 ≤ a) (hb : 0 ≤ b) (hf : ∀ i : Fin 22, 1 ≤ i.1 → -a ≤ f i)
    (hg : ∀ i j : Fin 22, 1 ≤ i.1 → i < j → -b ≤ g i j) :
    -(1.01 * a + 0.5101 * b) ≤ ∑ i with 1 ≤ i.1, x i * f i + ∑ i with 1 ≤ i.1, ∑ j with i < j, x i * x j * g i j := by
  have := mix_le hx hs (f := fun i => -f i) (g := fun i j => -g i j) ha hb (fun i hi => by have := hf i hi; linarith)
    (fun i j hi hj => by have := hg i j hi hj; linarith)
  simp only [mul_neg, Finset.sum_neg_distrib] at this
  linarith

end

/-- Tables of bounds. `u` are the ends of the temperature intervals, in units of 1e-5 of `(Tr/T)^(1/40)`; `r` are the ends of the
density intervals, in units of 0.001 of the reduced density. `PL` and `PH` bound the powers of the temperature, `rows` the density
factors, `thr` the sums of a fluid and of a pair on each rectangle; the last number of `thr` bounds the loss by cancellation. -/
structure MixTab where
  u : List ℕ
  r : List ℕ
  PL : List ℕ
  PH : List ℕ
  rows : List Row
  pure : List Unit
  dep : List (ℕ × ℕ × Unit)
  thr : List (List (Thr × Thr × ℕ))

namespace MixTab

variable (t : MixTab)

def uN (i : ℕ) : ℕ := t.u.getD i 0
def rQ (j : ℕ) : ℚ := ((t.r.getD j 0 : ℕ) : ℚ) / 1000
def PLf (i : ℕ) : ℕ → ℕ := pDig (t.PL.getD i 0)
def PHf (i : ℕ) : ℕ → ℕ := pDig (t.PH.getD i 0)
def row (j : ℕ) : Row := t.rows.getD j ⟨0, 0, 0, 0, 0, 0, 0, 0, 0, 0⟩
def pureAt (i : ℕ) : Unit := t.pure.getD i ⟨[], [], [], [], [], [], []⟩
def th (i j : ℕ) : Thr × Thr × ℕ := (t.thr.getD i []).getD j (⟨0, 0, 0, 0, 0, 0, 0, 0, 0, 0⟩, ⟨0, 0, 0, 0, 0, 0, 0, 0, 0, 0⟩, 0)
def nS : ℕ := t.thr.length
def nR : ℕ := t.rows.length

/-- The bounds hold for one fluid or pair on every rectangle. -/
def unitChk (V : Unit) (f : Thr × Thr × ℕ → Thr) : Bool := (List.range t.nS).all fun i =>
  sizeChk (t.PLf i) (t.PHf i) V && (List.range t.nR).all fun j => boxU (t.PLf i) (t.PHf i) V (t.row j) (f (t.th i j))

def w1 (i j : ℕ) : ℚ := t.rQ (j + 1) * ((t.uN (i + 1) : ℚ) / 100000) ^ 50
def comb (f : Thr → ℕ) (i j : ℕ) : ℚ := (1.01 * f (t.th i j).1 + 0.5101 * f (t.th i j).2.1) / 10 ^ 6
def kN (i j : ℕ) : ℕ := (t.th i j).2.2

def wN (i j : ℕ) : ℕ := t.r.getD (j + 1) 0 * t.uN (i + 1) ^ 50
def cN (f : Thr → ℕ) (i j : ℕ) : ℕ := 10100 * f (t.th i j).1 + 5101 * f (t.th i j).2.1
/-- The common denominator. -/
def dN : ℕ := 1000 * 100000 ^ 50 * 10 ^ 10

/-- The loss by cancellation is at most the given number. -/
def finChk (i j : ℕ) : Bool :=
  let w := t.wN i j
  let K := t.kN i j
  Nat.ble 5 K && Nat.ble K 10000 && Nat.ble (w * t.cN Thr.va i j) (10000 * dN) && Nat.ble (w * t.cN Thr.pa i j) (10000 * dN) &&
    Nat.ble (w * t.cN Thr.ta i j) (10000 * dN) &&
    Nat.ble (dN + w * t.cN Thr.za i j + K * (w * t.cN Thr.z i j)) (K * dN) &&
    Nat.ble (dN + w * t.cN Thr.pa i j + K * (w * t.cN Thr.p i j)) (K * dN) &&
    Nat.ble (dN + w * t.cN Thr.ta i j + K * (w * t.cN Thr.t i j)) (K * dN) &&
    Nat.ble (648109 * dN + 100000 * (w * t.cN Thr.va i j) + 100000 * (K * (w * t.cN Thr.v i j))) (146300 * K * dN)

/-- What `finChk` means. -/
structure FinOk (i j : ℕ) : Prop where
  k5 : 5 ≤ t.kN i j
  kM : t.kN i j ≤ 10000
  va : (t.w1 i j : ℝ) * t.comb Thr.va i j ≤ 10000
  pa : (t.w1 i j : ℝ) * t.comb Thr.pa i j ≤ 10000
  ta : (t.w1 i j : ℝ) * t.comb Thr.ta i j ≤ 10000
  fz : 1 + (t.w1 i j : ℝ) * t.comb Thr.za i j ≤ t.kN i j * (1 - t.w1 i j * t.comb Thr.z i j)
  fp : 1 + (t.w1 i j : ℝ) * t.comb Thr.pa i j ≤ t.kN i j * (1 - t.w1 i j * t.comb Thr.p i j)
  ft : 1 + (t.w1 i j : ℝ) * t.comb Thr.ta i j ≤ t.kN i j * (1 - t.w1 i j * t.comb Thr.t i j)
  fv : 4.43 * 1.463 + (t.w1 i j : ℝ) * t.comb Thr.va i j ≤ t.kN i j * (1.463 - t.w1 i j * t.comb Thr.v i j)

theorem w1_comb (f : Thr → ℕ) (i j : ℕ) : (t.w1 i j : ℝ) * t.comb f i j = (t.wN i j * t.cN f i j : ℕ) / (dN : ℕ) := by
  have e : ((dN : ℕ) : ℝ) = 1000 * 100000 ^ 50 * 10 ^ 10 := by unfold dN; norm_num
  rw [e]
  unfold w1 comb wN cN rQ
  push_cast
  rw [div_pow]
  generalize (100000 : ℝ) ^ 50 = e
  ring

theorem nat_le {a b K d : ℕ} (hd : 0 < d) (h : d + a + K * b ≤ K * d) : 1 + (a : ℝ) / d ≤ K * (1 - (b : ℝ) / d) := by
  have h' : (d : ℝ) + a + K * b ≤ K * d := by exact_mod_cast h
  have hd' : (0 : ℝ) < d := by exact_mod_cast hd
  rw [← mul_le_mul_iff_of_pos_right hd']
  have e1 : (1 + (a : ℝ) / d) * d = d + a := by field_simp
  have e2 : K * (1 - (b : ℝ) / d) * d = K * d - K * b := by field_simp
  rw [e1, e2]
  linarith

theorem fin_of {i j : ℕ} (h : t.finChk i j = true) : t.FinOk i j := by
  unfold finChk at h
  simp only [Bool.and_eq_true, Nat.ble_eq] at h
  obtain ⟨⟨⟨⟨⟨⟨⟨⟨h1, h2⟩, h3⟩, h4⟩, h5⟩, h6⟩, h7⟩, h8⟩, h9⟩ := h
  have d0 : 0 < dN := by unfold dN; positivity
  generalize hd : dN = d at *
  have d0' : (0 : ℝ) < d := by exact_mod_cast d0
  have q : ∀ {a : ℕ}, a ≤ 10000 * d → (a : ℝ) / d ≤ 10000 := fun {a} ha => (div_le_iff₀ d0').2 (by exact_mod_cast ha)
  refine ⟨h1, h2, ?_, ?_, ?_, ?_, ?_, ?_, ?_⟩ <;> simp only [w1_comb, hd]
  · exact q h3
  · exact q h4
  · exact q h5
  · exact nat_le d0 h6
  · exact nat_le d0 h7
  · exact nat_le d0 h8
  · generalize t.wN i j * t.cN Thr.va i j = a at *
    generalize t.wN i j * t.cN Thr.v i j = b at *
    generalize t.kN i j = K at *
    have h' : 648109 * (d : ℝ) + 100000 * a + 100000 * (K * b) ≤ 146300 * K * d := by exact_mod_cast h9
    rw [← mul_le_mul_iff_of_pos_right d0']
    have e1 : (4.43 * 1.463 + (a : ℝ) / d) * d = 4.43 * 1.463 * d + a := by field_simp
    have e2 : K * (1.463 - (b : ℝ) / d) * d = 1.463 * K * d - K * b := by field_simp
    rw [e1, e2]
    norm_num
    linarith

/-- The tables are right. -/
structure Ok : Prop where
  powers : ((List.range t.nS).all fun i => Nat.blt 0 (t.uN i) && (List.range 76).all fun e =>
    powChk (t.uN i) (t.uN (i + 1)) (t.PL.getD i 0) (t.PH.getD i 0) e) = true
  rows : ((List.range t.nR).all fun j => rowChk (t.row j) (t.rQ j) (t.rQ (j + 1))) = true
  pureT : ∀ i : Fin 22, 1 ≤ i.1 → (t.pureAt i.1).chk (pureU i.1) = true
  pureB : ∀ i : Fin 22, 1 ≤ i.1 → t.unitChk (t.pureAt i.1) (fun x => x.1) = true
  depT : ∀ d ∈ t.dep, d.2.2.chk (depF d.1 d.2.1) = true
  depB : ∀ d ∈ t.dep, t.unitChk d.2.2 (fun x => x.2.1) = true
  depC : ∀ i j : Fin 22, (departure i.1 j.1).1 = 0 ∨ (t.dep.any fun d => d.1 == i.1 && d.2.1 == j.1) = true
  fin : ((List.range t.nS).all fun i => (List.range t.nR).all fun j => t.finChk i j) = true
  head : t.rQ 0 = 0 ∧ 0 < t.nS ∧ 0 < t.nR

/-- The sums for a mixture. -/
structure Sums (i j : ℕ) (x : Fin 22 → ℝ) (δ τ : ℝ) : Prop where
  z : -(t.comb Thr.z i j : ℝ) ≤ mixSum q0 Key.hZ x δ τ
  p : -(t.comb Thr.p i j : ℝ) ≤ mixSum q0 Key.hP x δ τ
  pt : -(t.comb Thr.t i j : ℝ) ≤ mixSum q1 Key.hZ x δ τ
  v : mixSum q2 (fun _ _ => 1) x δ τ ≤ (t.comb Thr.v i j : ℝ)
  za : mixAbs q0 Key.hZa x δ τ ≤ (t.comb Thr.za i j : ℝ)
  pa : mixAbs q0 Key.hPa x δ τ ≤ (t.comb Thr.pa i j : ℝ)
  ta : mixAbs a1 Key.hZa x δ τ ≤ (t.comb Thr.ta i j : ℝ)
  va : mixAbs a2 (fun _ _ => 1) x δ τ ≤ (t.comb Thr.va i j : ℝ)
  zu : mixSum q0 Key.hZ x δ τ ≤ (t.comb Thr.zu i j : ℝ)
  pu : mixSum q0 Key.hP x δ τ ≤ (t.comb Thr.pu i j : ℝ)

theorem comb_real (f : Thr → ℕ) (i j : ℕ) : ((t.comb f i j : ℚ) : ℝ)
    = 1.01 * ((f (t.th i j).1 : ℝ) / 10 ^ 6) + 0.5101 * ((f (t.th i j).2.1 : ℝ) / 10 ^ 6) := by
  unfold comb
  push_cast
  ring

variable {t} (ok : t.Ok)
include ok

theorem Ok.pow_in {i : ℕ} (hi : i < t.nS) {τ : ℝ} (hτ : 0 < τ) (h1 : (t.uN i : ℝ) / 100000 ≤ τ ^ ((1 : ℝ) / 40))
    (h2 : τ ^ ((1 : ℝ) / 40) ≤ (t.uN (i + 1) : ℝ) / 100000) :
    PowIn (t.PLf i) (t.PHf i) fun i => τ ^ ((tOf i - t0 : ℚ) : ℝ) := by
  have h := List.all_eq_true.1 ok.powers i (List.mem_range.2 hi)
  rw [Bool.and_eq_true] at h
  intro e he
  dsimp only
  rw [pow40 hτ]
  exact GergEos.pow_in (List.all_eq_true.1 h.2 e (List.mem_range.2 he)) (by simpa [Nat.blt_eq] using h.1) h1 h2

theorem Ok.box_of {V : Unit} {L : List UTerm} {f : Thr × Thr × ℕ → Thr} (hV : V.chk L = true) (hB : t.unitChk V f = true) {i j : ℕ}
    (hi : i < t.nS) (hj : j < t.nR) {δ τ : ℝ} (hτ : 0 < τ) (h1 : (t.uN i : ℝ) / 100000 ≤ τ ^ ((1 : ℝ) / 40))
    (h2 : τ ^ ((1 : ℝ) / 40) ≤ (t.uN (i + 1) : ℝ) / 100000) (h3 : (t.rQ j : ℝ) ≤ δ) (h4 : δ ≤ t.rQ (j + 1)) :
    Bounds (f (t.th i j)) (fun q h => uSum L q h δ τ) (fun q h => uAbs L q h δ τ) := by
  have hb := List.all_eq_true.1 hB i (List.mem_range.2 hi)
  rw [Bool.and_eq_true] at hb
  exact unit_box hV hb.1 (List.all_eq_true.1 hb.2 j (List.mem_range.2 hj)) (ok.pow_in hi hτ h1 h2)
    (row_ok (List.all_eq_true.1 ok.rows j (List.mem_range.2 hj)) h3 h4)

theorem Ok.sums {i j : ℕ} (hi : i < t.nS) (hj : j < t.nR) {x : Fin 22 → ℝ} (hx : ∀ i : Fin 22, 1 ≤ i.1 → 0 ≤ x i)
    (hs : ∑ i : Fin 22 with 1 ≤ i.1, x i ≤ 1.01) {δ τ : ℝ} (hτ : 0 < τ) (h1 : (t.uN i : ℝ) / 100000 ≤ τ ^ ((1 : ℝ) / 40))
    (h2 : τ ^ ((1 : ℝ) / 40) ≤ (t.uN (i + 1) : ℝ) / 100000) (h3 : (t.rQ j : ℝ) ≤ δ) (h4 : δ ≤ t.rQ (j + 1)) :
    t.Sums i j x δ τ := by
  have P : ∀ k : Fin 22, 1 ≤ k.1 → Bounds (t.th i j).1 (fun q h => uSum (pureU k.1) q h δ τ) (fun q h => uAbs (pureU k.1) q h δ τ) :=
    fun k hk => ok.box_of (ok.pureT k hk) (ok.pureB k hk) hi hj hτ h1 h2 h3 h4
  have D : ∀ k l : Fin 22, Bounds (t.th i j).2.1 (fun q h => ((departure k.1 l.1).1 : ℝ) * uSum (depU k.1 l.1) q h δ τ)
      (fun q h => |((departure k.1 l.1).1 : ℝ)| * uAbs (depU k.1 l.1) q h δ τ) := by
    intro k l
    rcases ok.depC k l with h | h
    · have n0 : ∀ n : ℕ, (0 : ℝ) ≤ (n : ℝ) / 10 ^ 6 := fun n => by positivity
      rw [h]
      simp only [Rat.cast_zero, abs_zero, zero_mul]
      exact ⟨neg_nonpos.2 (n0 _), neg_nonpos.2 (n0 _), neg_nonpos.2 (n0 _), n0 _, n0 _, n0 _, n0 _, n0 _, n0 _, n0 _⟩
    · obtain ⟨d, hd, hkl⟩ := List.any_eq_true.1 h
      simp only [Bool.and_eq_true, beq_iff_eq] at hkl
      have := ok.box_of (ok.depT d hd) (ok.depB d hd) hi hj hτ h1 h2 h3 h4
      rw [hkl.1, hkl.2] at this
      simpa only [uSum_depF, uAbs_depF] using this
  have n0 : ∀ n : ℕ, (0 : ℝ) ≤ (n : ℝ) / 10 ^ 6 := fun n => by positivity
  constructor
  · rw [comb_real]; exact le_mix hx hs (n0 _) (n0 _) (fun k hk => (P k hk).z) fun k l _ _ => (D k l).z
  · rw [comb_real]; exact le_mix hx hs (n0 _) (n0 _) (fun k hk => (P k hk).p) fun k l _ _ => (D k l).p
  · rw [comb_real]; exact le_mix hx hs (n0 _) (n0 _) (fun k hk => (P k hk).t) fun k l _ _ => (D k l).t
  · rw [comb_real]; exact mix_le hx hs (n0 _) (n0 _) (fun k hk => (P k hk).v) fun k l _ _ => (D k l).v
  · rw [comb_real]; exact mix_le hx hs (n0 _) (n0 _) (fun k hk => (P k hk).za) fun k l _ _ => (D k l).za
  · rw [comb_real]; exact mix_le hx hs (n0 _) (n0 _) (fun k hk => (P k hk).pa) fun k l _ _ => (D k l).pa
  · rw [comb_real]; exact mix_le hx hs (n0 _) (n0 _) (fun k hk => (P k hk).ta) fun k l _ _ => (D k l).ta
  · rw [comb_real]; exact mix_le hx hs (n0 _) (n0 _) (fun k hk => (P k hk).va) fun k l _ _ => (D k l).va
  · rw [comb_real]; exact mix_le hx hs (n0 _) (n0 _) (fun k hk => (P k hk).zu) fun k l _ _ => (D k l).zu
  · rw [comb_real]; exact mix_le hx hs (n0 _) (n0 _) (fun k hk => (P k hk).pu) fun k l _ _ => (D k l).pu

end MixTab

end Aga8.GergEos
