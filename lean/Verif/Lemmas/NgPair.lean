import Verif.Lemmas.NgBox
import Verif.Lemmas.NgTab
import Verif.Lemmas.DetailErrMethane

/-! # The second virial coefficient of natural gas -/

namespace Aga8.Detail.Ng

open FOps Tab Finset

/-! ## The constants as rational numbers -/

def cq {n : Nat} (v : Vector Dec n) (i : Fin n) : ℚ := ((aget v i).m : ℚ) / 10 ^ (aget v i).e

theorem c_cq {n : Nat} (v : Vector Dec n) (i : Fin n) : Eos.c v i = (cq v i : ℝ) := by
  unfold Eos.c cq aget; push_cast; rfl

def sq (v : Vector (Vector Dec 21) 21) (i j : Fin 21) : ℚ := if i ≤ j then cq (aget v i) j else cq (aget v j) i

theorem star_sq (v : Vector (Vector Dec 21) 21) (i j : Fin 21) : Eos.star v i j = (sq v i j : ℝ) := by
  unfold Eos.star sq
  split
  · rw [c_cq]; rfl
  · rw [c_cq]; rfl

def flq (b : ℚ) (k : ℕ) : ℚ := (b + 1 - k) ^ k

def bq (n : Fin 58) (i j : Fin 21) : ℚ :=
  flq (sq GIJ i j * (cq GI i + cq GI j) / 2) (aget GN n) * flq (cq QI i * cq QI j) (aget QN n) * flq (cq FI i * cq FI j) (aget FN n)
    * flq (cq SI i * cq SI j) (aget SN n) * flq (cq WI i * cq WI j) (aget WN n)

theorem sqrt_F (i : Fin 21) : √(Eos.c FI i) = Eos.c FI i := by
  have h := FI01 i
  unfold Eos.c
  unfold aget at h
  rcases h with h | h <;> rw [h] <;> norm_num

theorem Bstar_bq (n : Fin 58) (i j : Fin 21) : Eos.Bstar n i j = (bq n i j : ℝ) := by
  unfold Eos.Bstar bq flq Eos.flag Eos.Gij
  rw [sqrt_F, sqrt_F]
  simp only [c_cq, star_sq]
  push_cast
  rfl

theorem table_nonneg : (∀ i j : Fin 21, i ≤ j → 0 ≤ cq (aget GIJ i) j) ∧
    ∀ i : Fin 21, 0 ≤ cq GI i ∧ 0 ≤ cq QI i ∧ 0 ≤ cq FI i ∧ 0 ≤ cq SI i ∧ 0 ≤ cq WI i := by decide +kernel

theorem sq_comm (v : Vector (Vector Dec 21) 21) (i j : Fin 21) : sq v i j = sq v j i := by
  unfold sq
  rcases lt_trichotomy i j with h | h | h
  · rw [if_pos h.le, if_neg (not_le.2 h)]
  · rw [h]
  · rw [if_neg (not_le.2 h), if_pos h.le]

theorem sq_GIJ_nonneg (i j : Fin 21) : 0 ≤ sq GIJ i j := by
  unfold sq
  split
  · rename_i h; exact table_nonneg.1 i j h
  · rename_i h; exact table_nonneg.1 j i (not_le.1 h).le

theorem flq_nonneg {b : ℚ} (hb : 0 ≤ b) {k : ℕ} (hk : k = 0 ∨ k = 1) : 0 ≤ flq b k := by
  unfold flq
  rcases hk with rfl | rfl
  · norm_num
  · simpa using hb

theorem bq_nonneg (n : Fin 58) (i j : Fin 21) : 0 ≤ bq n i j := by
  obtain ⟨a1, a2, a3, a4, a5⟩ := table_nonneg.2 i
  obtain ⟨b1, b2, b3, b4, b5⟩ := table_nonneg.2 j
  obtain ⟨f1, f2, f3, f4, f5⟩ := flags01 n
  have g := sq_GIJ_nonneg i j
  unfold bq
  exact mul_nonneg (mul_nonneg (mul_nonneg (mul_nonneg (flq_nonneg (by positivity) f1) (flq_nonneg (by positivity) f2))
    (flq_nonneg (by positivity) f3)) (flq_nonneg (by positivity) f4)) (flq_nonneg (by positivity) f5)

theorem bq_comm (n : Fin 58) (i j : Fin 21) : bq n i j = bq n j i := by
  unfold bq
  rw [sq_comm GIJ i j, add_comm (cq GI i), mul_comm (cq QI i), mul_comm (cq FI i), mul_comm (cq SI i), mul_comm (cq WI i)]

/-- The terms of the virial coefficient with no flag, and the others. -/
def unL : List (Fin 58) := [0, 1, 2, 3, 13, 14, 16, 17]
def flL : List (Fin 58) := [4, 5, 6, 7, 8, 9, 10, 11, 12, 15]

theorem un_fl : ∀ n ∈ unL, 0 ≤ u2 n ∧ aget GN n = 0 ∧ aget QN n = 0 ∧ aget FN n = 0 ∧ aget SN n = 0 ∧ aget WN n = 0 := by decide +kernel

theorem bq_un {n : Fin 58} (h : n ∈ unL) (i j : Fin 21) : bq n i j = 1 := by
  obtain ⟨-, h1, h2, h3, h4, h5⟩ := un_fl n h
  unfold bq flq
  rw [h1, h2, h3, h4, h5]
  norm_num

/-! ## The virial coefficient as a form in the fractions -/

noncomputable def sg (i j : Fin 21) (T : ℝ) : ℝ := √(Eos.Eij i j / T)

theorem Eij_pos (i j : Fin 21) : 0 < Eos.Eij i j := by
  have h1 : ∀ i j : Fin 21, 0 < sq EIJ i j := by decide +kernel
  have h2 : ∀ i : Fin 21, 0 < cq EI i := by decide +kernel
  unfold Eos.Eij
  rw [star_sq, c_cq, c_cq]
  have a : (0 : ℝ) < sq EIJ i j := by exact_mod_cast h1 i j
  have b : (0 : ℝ) < cq EI i := by exact_mod_cast h2 i
  have c : (0 : ℝ) < cq EI j := by exact_mod_cast h2 j
  positivity

theorem sg_pos {T : ℝ} (hT : 0 < T) (i j : Fin 21) : 0 < sg i j T := Real.sqrt_pos.2 (div_pos (Eij_pos i j) hT)

noncomputable def pairSum (a : Fin 58 → ℝ) (i j : Fin 21) (σ : ℝ) : ℝ := ∑ n : Fin 58 with n.1 < 18, a n * (bq n i j : ℝ) * σ ^ u2 n

theorem form (a : Fin 58 → ℝ) (x : Fin 21 → ℝ) {T : ℝ} (hT : 0 < T) :
    (∑ n : Fin 58 with n.1 < 18, a n * T ^ (-Eos.c UN n)
      * ∑ i, ∑ j, x i * x j * Eos.Bstar n i j * Eos.Eij i j ^ Eos.c UN n * (Eos.c KI i * Eos.c KI j) ^ (3 / 2 : ℝ))
    = ∑ i, ∑ j, x i * x j * (pairSum a i j (sg i j T) * (Eos.c KI i * Eos.c KI j) ^ (3 / 2 : ℝ)) := by
  unfold pairSum
  simp only [mul_sum, sum_mul]
  rw [sum_comm]
  refine sum_congr rfl fun i _ => ?_
  rw [sum_comm]
  refine sum_congr rfl fun j _ => sum_congr rfl fun n _ => ?_
  have e : T ^ (-Eos.c UN n) * Eos.Eij i j ^ Eos.c UN n = sg i j T ^ u2 n := by
    have h := Eij_pos i j
    rw [← rpow_half (sg_pos hT i j), sg, Real.sq_sqrt (div_pos h hT).le, ← c_UN, Real.div_rpow h.le hT.le, Real.rpow_neg hT.le,
      div_eq_mul_inv, mul_comm]
  rw [Bstar_bq, ← e]
  ring

/-! ## The common terms -/

def aq (n : Fin 58) : ℚ := cq AN n

/-- Bounds of the common terms in the cell from `g / 100` to `(g + 1) / 100`. -/
def loC (g : ℕ) : ℚ := (unL.map fun n => aq n * ((if 0 ≤ aq n then (g : ℚ) else g + 1) / 100) ^ u2 n).sum
def hiC (g : ℕ) : ℚ := (unL.map fun n => aq n * ((if 0 ≤ aq n then (g : ℚ) + 1 else g) / 100) ^ u2 n).sum
/-- The size of the common terms up to `s / 100`. -/
def abC (s : ℕ) : ℚ := (unL.map fun n => |aq n| * ((s : ℚ) / 100) ^ u2 n).sum
/-- The size of the other terms between `l / 100` and `s / 100`. -/
def exC (i j : Fin 21) (l s : ℕ) : ℚ := (flL.map fun n => |aq n| * bq n i j * ((if 0 ≤ u2 n then (s : ℚ) else l) / 100) ^ u2 n).sum

theorem unL_nodup : unL.Nodup := by decide
theorem flL_nodup : flL.Nodup := by decide

def mT (g : ℕ) : ℚ := (mTab.getD g 0 : ℚ) / 10000
def uT (g : ℕ) : ℚ := (uTab.getD g 0 : ℚ) / 10000
def aT (g : ℕ) : ℚ := (aTab.getD g 0 : ℚ) / 10000

theorem mT_chk : ∀ g < 150, -mT (g + 1) ≤ loC g ∧ mT g ≤ mT (g + 1) := by decide +kernel
theorem aT_chk : ∀ g < 151, abC g ≤ aT g := by decide +kernel
theorem uT_chk : ∀ g < 112, hiC g ≤ uT g ∧ uT (g + 1) ≤ uT g := by decide +kernel

noncomputable def base (σ : ℝ) : ℝ := ∑ n ∈ unL.toFinset, (aq n : ℝ) * σ ^ u2 n

theorem zpow_up {a b : ℝ} {k : ℤ} (ha : 0 ≤ a) (h : a ≤ b) (hk : 0 ≤ k) : a ^ k ≤ b ^ k := by
  lift k to ℕ using hk
  rw [zpow_natCast, zpow_natCast]
  exact pow_le_pow_left₀ ha h k

theorem zpow_down {a b : ℝ} {k : ℤ} (ha : 0 < a) (h : a ≤ b) (hk : ¬ 0 ≤ k) : b ^ k ≤ a ^ k := by
  obtain ⟨m, rfl⟩ : ∃ m : ℕ, k = -(m : ℤ) := ⟨k.natAbs, by omega⟩
  rw [zpow_neg, zpow_neg, zpow_natCast, zpow_natCast]
  exact inv_anti₀ (pow_pos ha m) (pow_le_pow_left₀ ha.le h m)

theorem mem_un {n : Fin 58} (h : n ∈ unL.toFinset) : 0 ≤ u2 n := (un_fl n (List.mem_toFinset.1 h)).1

theorem base_cell {σ : ℝ} {g : ℕ} (h0 : (g : ℝ) / 100 ≤ σ) (h1 : σ ≤ ((g : ℝ) + 1) / 100) :
    (loC g : ℝ) ≤ base σ ∧ base σ ≤ (hiC g : ℝ) := by
  have s0 : 0 ≤ σ := le_trans (by positivity) h0
  unfold loC hiC base
  rw [← List.sum_toFinset _ unL_nodup, ← List.sum_toFinset _ unL_nodup]
  push_cast
  constructor <;> refine sum_le_sum fun n hn => ?_
  all_goals
    have k := mem_un hn
    by_cases a : 0 ≤ aq n
    · have a' : (0 : ℝ) ≤ aq n := by exact_mod_cast a
      simp only [if_pos a]
      push_cast
      first
        | exact mul_le_mul_of_nonneg_left (zpow_up (by positivity) h0 k) a'
        | exact mul_le_mul_of_nonneg_left (zpow_up s0 h1 k) a'
    · have a' : (aq n : ℝ) ≤ 0 := by exact_mod_cast (not_le.1 a).le
      simp only [if_neg a]
      push_cast
      first
        | exact mul_le_mul_of_nonpos_left (zpow_up (by positivity) h0 k) a'
        | exact mul_le_mul_of_nonpos_left (zpow_up s0 h1 k) a'

theorem base_low : ∀ g : ℕ, g ≤ 150 → ∀ σ : ℝ, 0 < σ → σ ≤ (g : ℝ) / 100 → -((mT g : ℚ) : ℝ) ≤ base σ := by
  intro g
  induction g with
  | zero => intro _ σ h0 h1; norm_num at h1; linarith
  | succ g ih =>
    intro hg σ h0 h1
    obtain ⟨c1, c2⟩ := mT_chk g (by omega)
    have c1' : -(mT (g + 1) : ℝ) ≤ loC g := by exact_mod_cast c1
    have c2' : (mT g : ℝ) ≤ mT (g + 1) := by exact_mod_cast c2
    rcases le_total σ ((g : ℝ) / 100) with h | h
    · linarith [ih (by omega) σ h0 h]
    · push_cast at h1
      linarith [(base_cell h h1).1]

theorem base_high : ∀ k ≤ 112, ∀ σ : ℝ, ((112 - k : ℕ) : ℝ) / 100 ≤ σ → σ < 1.12 → base σ ≤ (uT (112 - k) : ℝ) := by
  intro k
  induction k with
  | zero => intro _ σ h0 h1; norm_num at h0 h1; linarith
  | succ k ih =>
    intro hk σ h0 h1
    obtain ⟨c1, c2⟩ := uT_chk (112 - (k + 1)) (by omega)
    have e : 112 - (k + 1) + 1 = 112 - k := by omega
    rw [e] at c2
    have c1' : (hiC (112 - (k + 1)) : ℝ) ≤ uT (112 - (k + 1)) := by exact_mod_cast c1
    have c2' : (uT (112 - k) : ℝ) ≤ uT (112 - (k + 1)) := by exact_mod_cast c2
    rcases le_total (((112 - k : ℕ) : ℝ) / 100) σ with h | h
    · linarith [ih (by omega) σ h h1]
    · have h' : σ ≤ (((112 - (k + 1) : ℕ) : ℝ) + 1) / 100 := by
        rw [← e, Nat.cast_add, Nat.cast_one] at h
        exact h
      linarith [(base_cell h0 h').2]

theorem base_abs {s : ℕ} {σ : ℝ} (h0 : 0 ≤ σ) (h1 : σ ≤ (s : ℝ) / 100) : base σ ≤ (abC s : ℝ) := by
  unfold base abC
  rw [← List.sum_toFinset _ unL_nodup]
  push_cast
  refine sum_le_sum fun n hn => ?_
  exact (mul_le_mul_of_nonneg_right (le_abs_self _) (zpow_nonneg h0 _)).trans
    (mul_le_mul_of_nonneg_left (zpow_up h0 h1 (mem_un hn)) (abs_nonneg _))

/-! ## A pair -/

theorem split_sum (f : Fin 58 → ℝ) : ∑ n : Fin 58 with n.1 < 18, f n = ∑ n ∈ unL.toFinset, f n + ∑ n ∈ flL.toFinset, f n := by
  have h : ∀ n : Fin 58, (n.1 < 18 ↔ n ∈ unL ∨ n ∈ flL) ∧ ¬ (n ∈ unL ∧ n ∈ flL) := by decide +kernel
  rw [← sum_union]
  · refine sum_congr ?_ fun _ _ => rfl
    ext n
    simp only [mem_filter, mem_univ, true_and, mem_union, List.mem_toFinset]
    exact (h n).1
  · rw [disjoint_left]
    exact fun n a b => (h n).2 ⟨List.mem_toFinset.1 a, List.mem_toFinset.1 b⟩

theorem ext_abs {i j : Fin 21} {l s : ℕ} {σ : ℝ} (hl : 0 < l) (h0 : (l : ℝ) / 100 ≤ σ) (h1 : σ ≤ (s : ℝ) / 100) :
    ∑ n ∈ flL.toFinset, |(aq n : ℝ)| * (bq n i j : ℝ) * σ ^ u2 n ≤ (exC i j l s : ℝ) := by
  have l0 : (0 : ℝ) < (l : ℝ) / 100 := by positivity
  unfold exC
  rw [← List.sum_toFinset _ flL_nodup]
  push_cast
  refine sum_le_sum fun n hn => ?_
  have hb : (0 : ℝ) ≤ bq n i j := by exact_mod_cast bq_nonneg n i j
  refine mul_le_mul_of_nonneg_left ?_ (mul_nonneg (abs_nonneg _) hb)
  split
  · rename_i k
    exact zpow_up (l0.le.trans h0) h1 k
  · rename_i k
    exact zpow_down l0 h0 k

theorem pair_eq (i j : Fin 21) (σ : ℝ) :
    pairSum (fun n => Eos.c AN n) i j σ = base σ + ∑ n ∈ flL.toFinset, (aq n : ℝ) * (bq n i j : ℝ) * σ ^ u2 n := by
  unfold pairSum base
  rw [split_sum]
  congr 1
  · refine sum_congr rfl fun n hn => ?_
    dsimp only
    rw [bq_un (List.mem_toFinset.1 hn) i j, c_cq]
    unfold aq
    simp
  · exact sum_congr rfl fun n _ => by dsimp only; rw [c_cq]; rfl

theorem pair_abs_eq (i j : Fin 21) (σ : ℝ) :
    pairSum (fun n => |Eos.c AN n|) i j σ = ∑ n ∈ unL.toFinset, |(aq n : ℝ)| * σ ^ u2 n + ∑ n ∈ flL.toFinset, |(aq n : ℝ)| * (bq n i j : ℝ) * σ ^ u2 n := by
  unfold pairSum
  rw [split_sum]
  congr 1
  · refine sum_congr rfl fun n hn => ?_
    dsimp only
    rw [bq_un (List.mem_toFinset.1 hn) i j, c_cq]
    unfold aq
    simp
  · exact sum_congr rfl fun n _ => by dsimp only; rw [c_cq]; rfl

theorem ext_two {i j : Fin 21} {l s : ℕ} {σ : ℝ} (hl : 0 < l) (h0 : (l : ℝ) / 100 ≤ σ) (h1 : σ ≤ (s : ℝ) / 100) :
    |∑ n ∈ flL.toFinset, (aq n : ℝ) * (bq n i j : ℝ) * σ ^ u2 n| ≤ (exC i j l s : ℝ) := by
  refine (abs_sum_le_sum_abs _ _).trans (le_trans (le_of_eq ?_) (ext_abs (i := i) (j := j) hl h0 h1))
  refine sum_congr rfl fun n hn => ?_
  have hb : (0 : ℝ) ≤ bq n i j := by exact_mod_cast bq_nonneg n i j
  have hs : 0 ≤ σ := le_trans (by positivity) h0
  rw [abs_mul, abs_mul, abs_of_nonneg hb, abs_of_nonneg (zpow_nonneg hs _)]

def hiG (i j : Fin 21) : ℕ := (gHi.getD i.1 []).getD j.1 0
def loG (i j : Fin 21) : ℕ := (gLo.getD i.1 []).getD j.1 0
def eQ (i j : Fin 21) : ℚ := ((eTab.getD i.1 []).getD j.1 0 : ℚ) / 100000
def k3q (i : Fin 21) : ℚ := (k3v.getD i.1 0 : ℚ) / 1000000

/-- Bounds for the pairs: of the negative and the positive values, and of the size. -/
def wLo (i j : Fin 21) : ℚ := k3q i * k3q j * (mT (hiG i j) + eQ i j)
def wHi (i j : Fin 21) : ℚ :=
  k3q i * k3q j * ((if hiG i j < 112 then uT (loG i j) else aT (hiG i j)) + eQ i j)
def wAb (i j : Fin 21) : ℚ := k3q i * k3q j * (aT (hiG i j) + eQ i j)

theorem pair_chk : ∀ i j : Fin 21, sq EIJ i j ^ 2 * (cq EI i * cq EI j) ≤ ((hiG i j : ℚ) / 100) ^ 4 * 263 ^ 2 ∧
    ((loG i j : ℚ) / 100) ^ 4 * 400 ^ 2 ≤ sq EIJ i j ^ 2 * (cq EI i * cq EI j) ∧ 0 < loG i j ∧ hiG i j ≤ 150 ∧ (hiG i j < 112 → loG i j ≤ 112) := by
  decide +kernel
theorem tab_symm : ∀ i j : Fin 21, loG i j = loG j i ∧ hiG i j = hiG j i ∧ eQ i j = eQ j i := by decide +kernel
theorem ex_chk0 : ∀ i j : Fin 21, i ≤ j → exC i j (loG i j) (hiG i j) ≤ eQ i j := by decide +kernel

theorem ex_chk (i j : Fin 21) : exC i j (loG i j) (hiG i j) ≤ eQ i j := by
  rcases le_total i j with h | h
  · exact ex_chk0 i j h
  · obtain ⟨a, b, c⟩ := tab_symm i j
    rw [a, b, c]
    refine le_trans (le_of_eq ?_) (ex_chk0 j i h)
    unfold exC
    simp only [bq_comm _ i j]

theorem k3_chk : ∀ i : Fin 21, cq KI i ^ 3 ≤ k3q i ^ 2 ∧ 0 < cq KI i ∧ 0 < k3q i := by decide +kernel

theorem k3_le (i : Fin 21) : Eos.c KI i ^ (3 / 2 : ℝ) ≤ (k3q i : ℝ) := by
  obtain ⟨a, b, c⟩ := k3_chk i
  have a' : (cq KI i : ℝ) ^ 3 ≤ (k3q i : ℝ) ^ 2 := by exact_mod_cast a
  have b' : (0 : ℝ) < cq KI i := by exact_mod_cast b
  have c' : (0 : ℝ) < k3q i := by exact_mod_cast c
  rw [c_cq]
  refine le_of_pow_le_pow_left₀ two_ne_zero c'.le ?_
  refine le_trans (le_of_eq ?_) a'
  rw [← Real.rpow_natCast, ← Real.rpow_mul b'.le, ← Real.rpow_natCast]
  norm_num

theorem kk_le (i j : Fin 21) : 0 ≤ (Eos.c KI i * Eos.c KI j) ^ (3 / 2 : ℝ) ∧
    (Eos.c KI i * Eos.c KI j) ^ (3 / 2 : ℝ) ≤ (k3q i : ℝ) * k3q j := by
  have p : ∀ i, 0 ≤ Eos.c KI i := fun i => by rw [c_cq]; exact_mod_cast (k3_chk i).2.1.le
  refine ⟨Real.rpow_nonneg (mul_nonneg (p i) (p j)) _, ?_⟩
  rw [Real.mul_rpow (p i) (p j)]
  exact mul_le_mul (k3_le i) (k3_le j) (Real.rpow_nonneg (p j) _) (by exact_mod_cast (k3_chk i).2.2.le)

theorem sg_range {T : ℝ} (h1 : 263 ≤ T) (h2 : T ≤ 400) (i j : Fin 21) :
    (loG i j : ℝ) / 100 ≤ sg i j T ∧ sg i j T ≤ (hiG i j : ℝ) / 100 := by
  have T0 : 0 < T := by linarith
  obtain ⟨a, b, -⟩ := pair_chk i j
  have a' : (sq EIJ i j : ℝ) ^ 2 * (cq EI i * cq EI j) ≤ ((hiG i j : ℝ) / 100) ^ 4 * 263 ^ 2 := by
    have := (Rat.cast_le (K := ℝ)).2 a; push_cast at this; exact this
  have b' : ((loG i j : ℝ) / 100) ^ 4 * 400 ^ 2 ≤ (sq EIJ i j : ℝ) ^ 2 * (cq EI i * cq EI j) := by
    have := (Rat.cast_le (K := ℝ)).2 b; push_cast at this; exact this
  have p : ∀ i : Fin 21, 0 < cq EI i := by decide +kernel
  have pi : (0 : ℝ) < cq EI i := by exact_mod_cast p i
  have pj : (0 : ℝ) < cq EI j := by exact_mod_cast p j
  have e4 : sg i j T ^ 4 * T ^ 2 = (sq EIJ i j : ℝ) ^ 2 * (cq EI i * cq EI j) := by
    have : sg i j T ^ 2 = Eos.Eij i j / T := Real.sq_sqrt (div_pos (Eij_pos i j) T0).le
    have e : sg i j T ^ 4 = (sg i j T ^ 2) ^ 2 := by ring
    rw [e, this, div_pow, div_mul_cancel₀ _ (by positivity)]
    unfold Eos.Eij
    rw [mul_pow, star_sq, c_cq, c_cq, Real.sq_sqrt (mul_pos pi pj).le]
  have s0 := (sg_pos T0 i j).le
  constructor
  · refine le_of_pow_le_pow_left₀ (n := 4) (by norm_num) s0 ?_
    rw [← e4] at b'
    have m : sg i j T ^ 4 * T ^ 2 ≤ sg i j T ^ 4 * 400 ^ 2 :=
      mul_le_mul_of_nonneg_left (pow_le_pow_left₀ T0.le h2 2) (by positivity)
    exact le_of_mul_le_mul_right (b'.trans m) (by norm_num)
  · refine le_of_pow_le_pow_left₀ (n := 4) (by norm_num) (by positivity) ?_
    rw [← e4] at a'
    have m : sg i j T ^ 4 * 263 ^ 2 ≤ sg i j T ^ 4 * T ^ 2 :=
      mul_le_mul_of_nonneg_left (pow_le_pow_left₀ (by norm_num) h1 2) (by positivity)
    exact le_of_mul_le_mul_right (m.trans a') (by norm_num)

section
variable {T : ℝ} (h1 : 263 ≤ T) (h2 : T ≤ 400) (i j : Fin 21)
include h1 h2

theorem pair_low : -(pairSum (fun n => Eos.c AN n) i j (sg i j T) * (Eos.c KI i * Eos.c KI j) ^ (3 / 2 : ℝ)) ≤ (wLo i j : ℝ) := by
  obtain ⟨-, -, c1, c2, -⟩ := pair_chk i j
  obtain ⟨r1, r2⟩ := sg_range h1 h2 i j
  obtain ⟨k0, k1⟩ := kk_le i j
  have ex : ((exC i j (loG i j) (hiG i j) : ℚ) : ℝ) ≤ eQ i j := by exact_mod_cast ex_chk i j
  have b := base_low _ c2 _ (sg_pos (by linarith) i j) r2
  have e := abs_le.1 (ext_two (i := i) (j := j) c1 r1 r2)
  rw [pair_eq, ← neg_mul, wLo]
  push_cast
  have x0 := (abs_nonneg _).trans (ext_two (i := i) (j := j) c1 r1 r2)
  have y0 : (0 : ℝ) ≤ mT (hiG i j) := by unfold mT; push_cast; positivity
  rw [mul_comm ((k3q i : ℝ) * k3q j)]
  exact mul_le_mul (by linarith [e.1]) k1 k0 (by linarith)

theorem pair_high : pairSum (fun n => Eos.c AN n) i j (sg i j T) * (Eos.c KI i * Eos.c KI j) ^ (3 / 2 : ℝ) ≤ (wHi i j : ℝ) := by
  obtain ⟨-, -, c1, c2, c3⟩ := pair_chk i j
  obtain ⟨r1, r2⟩ := sg_range h1 h2 i j
  obtain ⟨k0, k1⟩ := kk_le i j
  have ex : ((exC i j (loG i j) (hiG i j) : ℚ) : ℝ) ≤ eQ i j := by exact_mod_cast ex_chk i j
  have s0 := sg_pos (show 0 < T by linarith) i j
  have e := abs_le.1 (ext_two (i := i) (j := j) c1 r1 r2)
  have x0 := (abs_nonneg _).trans (ext_two (i := i) (j := j) c1 r1 r2)
  have b : base (sg i j T) ≤ ((if hiG i j < 112 then uT (loG i j) else aT (hiG i j) : ℚ) : ℝ) ∧
      (0 : ℝ) ≤ ((if hiG i j < 112 then uT (loG i j) else aT (hiG i j) : ℚ) : ℝ) := by
    split
    · rename_i h
      have c3 := c3 h
      have k := base_high (112 - loG i j) (by omega) (sg i j T)
      rw [show 112 - (112 - loG i j) = loG i j by omega] at k
      have h' : (hiG i j : ℝ) ≤ 111 := by exact_mod_cast (by omega : hiG i j ≤ 111)
      refine ⟨k r1 ?_, by unfold uT; push_cast; positivity⟩
      norm_num
      linarith
    · exact ⟨(base_abs s0.le r2).trans (by exact_mod_cast aT_chk _ (by omega)), by unfold aT; push_cast; positivity⟩
  rw [pair_eq, wHi]
  push_cast at b ⊢
  rw [mul_comm ((k3q i : ℝ) * k3q j)]
  exact mul_le_mul (by linarith [e.2]) k1 k0 (by linarith)

theorem pair_abs : pairSum (fun n => |Eos.c AN n|) i j (sg i j T) * (Eos.c KI i * Eos.c KI j) ^ (3 / 2 : ℝ) ≤ (wAb i j : ℝ) := by
  obtain ⟨-, -, c1, c2, c3⟩ := pair_chk i j
  obtain ⟨r1, r2⟩ := sg_range h1 h2 i j
  obtain ⟨k0, k1⟩ := kk_le i j
  have ex : ((exC i j (loG i j) (hiG i j) : ℚ) : ℝ) ≤ eQ i j := by exact_mod_cast ex_chk i j
  have s0 := sg_pos (show 0 < T by linarith) i j
  have x := ext_abs (i := i) (j := j) c1 r1 r2
  have x0 := (abs_nonneg _).trans (ext_two (i := i) (j := j) c1 r1 r2)
  have y0 : (0 : ℝ) ≤ aT (hiG i j) := by unfold aT; push_cast; positivity
  have y1 : ((abC (hiG i j) : ℚ) : ℝ) ≤ aT (hiG i j) := by exact_mod_cast aT_chk _ (by omega)
  have b : ∑ n ∈ unL.toFinset, |(aq n : ℝ)| * sg i j T ^ u2 n ≤ (abC (hiG i j) : ℝ) := by
    unfold abC
    rw [← List.sum_toFinset _ unL_nodup]
    push_cast
    exact sum_le_sum fun n hn => mul_le_mul_of_nonneg_left (zpow_up s0.le r2 (mem_un hn)) (abs_nonneg _)
  rw [pair_abs_eq, wAb]
  push_cast
  rw [mul_comm ((k3q i : ℝ) * k3q j)]
  exact mul_le_mul (by linarith) k1 k0 (by linarith)

end

def gq (l : List ℕ) (i : Fin 21) : ℚ := (l.getD i.1 0 : ℚ) / 1000000
theorem gq_nonneg (l : List ℕ) (i : Fin 21) : 0 ≤ gq l i := by unfold gq; positivity

theorem chk_lo : Eos.quad wLo (gq gamLo) ≤ 132 / 1000 := by decide +kernel
theorem chk_hi : Eos.quad wHi (gq gamHi) ≤ 303 / 10000 := by decide +kernel
theorem chk_ab : Eos.quad wAb (gq gamAb) ≤ 442 / 1000 := by decide +kernel

/-- The second virial coefficient of natural gas from 263 K to 400 K, in l/mol. -/
theorem B_range {x : Fin 21 → ℝ} (h : Eos.NormalGas x) {T : ℝ} (h1 : 263 ≤ T) (h2 : T ≤ 400) :
    -0.132 ≤ Eos.B x T ∧ Eos.B x T ≤ 0.0303 ∧ Eos.Babs x T ≤ 0.442 := by
  have T0 : 0 < T := by linarith
  have a := h.quad (pair_low h1 h2) (gq gamLo) (gq_nonneg _)
  have b := h.quad (pair_high h1 h2) (gq gamHi) (gq_nonneg _)
  have c := h.quad (pair_abs h1 h2) (gq gamAb) (gq_nonneg _)
  have a' : (Eos.quad wLo (gq gamLo) : ℝ) ≤ 132 / 1000 := by have := (Rat.cast_le (K := ℝ)).2 chk_lo; push_cast at this; exact this
  have b' : (Eos.quad wHi (gq gamHi) : ℝ) ≤ 303 / 10000 := by have := (Rat.cast_le (K := ℝ)).2 chk_hi; push_cast at this; exact this
  have c' : (Eos.quad wAb (gq gamAb) : ℝ) ≤ 442 / 1000 := by have := (Rat.cast_le (K := ℝ)).2 chk_ab; push_cast at this; exact this
  simp only [mul_neg, sum_neg_distrib] at a
  rw [← form _ x T0] at a b c
  have eB : Eos.B x T = ∑ n : Fin 58 with n.1 < 18, Eos.c AN n * T ^ (-Eos.c UN n)
    * ∑ i, ∑ j, x i * x j * Eos.Bstar n i j * Eos.Eij i j ^ Eos.c UN n * (Eos.c KI i * Eos.c KI j) ^ (3 / 2 : ℝ) := rfl
  have eA : Eos.Babs x T = ∑ n : Fin 58 with n.1 < 18, |Eos.c AN n| * T ^ (-Eos.c UN n)
    * ∑ i, ∑ j, x i * x j * Eos.Bstar n i j * Eos.Eij i j ^ Eos.c UN n * (Eos.c KI i * Eos.c KI j) ^ (3 / 2 : ℝ) := rfl
  rw [← eB] at a b
  rw [← eA] at c
  norm_num at *
  exact ⟨by linarith, by linarith, by linarith⟩

end Aga8.Detail.Ng
