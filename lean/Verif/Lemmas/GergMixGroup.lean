import Verif.Lemmas.GergMixRow
import Verif.Lemmas.MixPack

/-! # Bounds of the sums over terms on a rectangle of reduced temperature and density

The terms of a fluid are grouped by their density factor. Coefficients are whole numbers in units of 1e-7, powers of the inverse
reduced temperature and density factors in units of 1e-6, so that sums of products are in units of 1e-19. -/

set_option linter.unusedSectionVars false

namespace Aga8.GergEos

open Mix

/-- The exponents of the inverse reduced temperature that occur, in units of 1/40. -/
def expo : List ℤ := [10, 45, 60, 55, 35, 25, 70, 145, 580, 480, 5, 15, 105, 110, 85, 80, 180, 190, 200, 160,
  300, 560, 460, 1040, 1120, 1200, 640, 0, 50, 65, 150, 140, 320, 240, 440, 960, 20, 170, 75, 40,
  30, 120, 26, 62, 124, 236, 282, 134, 48, 232, 108, 18, 22, 78, 74, 158, 154, 210, 8, 260,
  314, 216, 112, 178, 104, 318, 56, 128, 100, 2, 146, 196, -40, 68, 54, 28]
/-- The density factors that occur. -/
def keys : List Key := [⟨1, 0, 0, 0, 0, 0⟩, ⟨2, 0, 0, 0, 0, 0⟩, ⟨3, 0, 0, 0, 0, 0⟩, ⟨7, 0, 0, 0, 0, 0⟩, ⟨2, 1, 0, 0, 0, 0⟩,
  ⟨5, 1, 0, 0, 0, 0⟩, ⟨1, 2, 0, 0, 0, 0⟩, ⟨4, 2, 0, 0, 0, 0⟩, ⟨3, 3, 0, 0, 0, 0⟩, ⟨4, 3, 0, 0, 0, 0⟩,
  ⟨4, 0, 0, 0, 0, 0⟩, ⟨1, 1, 0, 0, 0, 0⟩, ⟨3, 1, 0, 0, 0, 0⟩, ⟨6, 1, 0, 0, 0, 0⟩, ⟨2, 2, 0, 0, 0, 0⟩,
  ⟨3, 2, 0, 0, 0, 0⟩, ⟨2, 3, 0, 0, 0, 0⟩, ⟨5, 6, 0, 0, 0, 0⟩, ⟨6, 6, 0, 0, 0, 0⟩, ⟨7, 6, 0, 0, 0, 0⟩,
  ⟨4, 1, 0, 0, 0, 0⟩, ⟨1, 3, 0, 0, 0, 0⟩, ⟨5, 5, 0, 0, 0, 0⟩, ⟨5, 3, 0, 0, 0, 0⟩, ⟨1, 5, 0, 0, 0, 0⟩,
  ⟨1, 0, 1, 1 / 2, 1, 1 / 2⟩, ⟨2, 0, 1, 1 / 2, 1, 1 / 2⟩, ⟨2, 0, 7 / 8, 1 / 2, 5 / 4, 1 / 2⟩, ⟨2, 0, 3 / 4, 1 / 2, 3 / 2, 1 / 2⟩, ⟨2, 0, 1 / 2, 1 / 2, 2, 1 / 2⟩,
  ⟨2, 0, 0, 1 / 2, 3, 1 / 2⟩, ⟨3, 0, 0, 1 / 2, 3, 1 / 2⟩, ⟨1, 0, 1 / 4, 1 / 2, 3 / 4, 1 / 2⟩, ⟨1, 0, 1 / 4, 1 / 2, 1, 1 / 2⟩, ⟨1, 0, 0, 1 / 2, 2, 1 / 2⟩,
  ⟨2, 0, 1 / 4, 1 / 2, 5 / 2, 1 / 2⟩]
def tOf (i : ℕ) : ℚ := (expo.getD i 0 : ℚ) / 40
def kOf (i : ℕ) : Key := keys.getD i ⟨1, 0, 0, 0, 0, 0⟩

/-- Terms with the same density factor: its number, the coefficients and the numbers of the temperature exponents. -/
abbrev Grp := ℕ × List (ℚ × ℕ)
/-- The same in whole numbers, positive and negative coefficients apart. -/
abbrev SGrp := ℕ × List (ℕ × ℕ) × List (ℕ × ℕ)
/-- The sizes. -/
abbrev AGrp := ℕ × List (ℕ × ℕ)

def flat (G : List Grp) : List UTerm := G.flatMap fun g => g.2.map fun e => ⟨e.1, tOf e.2, kOf g.1⟩

/-- The coefficient of a density factor. -/
noncomputable def cOf (q : ℚ → ℚ) (p : ℕ → ℝ) (l : List (ℚ × ℕ)) : ℝ :=
  (l.map fun e => ((e.1 * q (tOf e.2) : ℚ) : ℝ) * p e.2).sum
noncomputable def cAbs (q : ℚ → ℚ) (p : ℕ → ℝ) (l : List (ℚ × ℕ)) : ℝ :=
  (l.map fun e => ((|e.1| * q (tOf e.2) : ℚ) : ℝ) * p e.2).sum

theorem sum_flatMap' {α : Type} (f : α → List ℝ) : ∀ l : List α, (l.flatMap f).sum = (l.map fun a => (f a).sum).sum
  | [] => rfl
  | a :: l => by rw [List.flatMap_cons, List.sum_append, sum_flatMap' f l, List.map_cons, List.sum_cons]

theorem uSum_groups {G : List Grp} {L : List UTerm} (hp : (flat G).Perm L) (q : ℚ → ℚ) (h : Key → ℝ → ℝ) (δ τ : ℝ) :
    uSum L q h δ τ = (G.map fun g => cOf q (fun i => τ ^ ((tOf i - t0 : ℚ) : ℝ)) g.2 * ((kOf g.1).base δ * h (kOf g.1) δ)).sum := by
  unfold uSum
  rw [← (hp.map _).sum_eq]
  unfold flat
  rw [List.map_flatMap, sum_flatMap']
  congr 1
  refine List.map_congr_left fun g _ => ?_
  unfold cOf
  rw [List.map_map, ← List.sum_map_mul_right]
  rfl

theorem uAbs_groups {G : List Grp} {L : List UTerm} (hp : (flat G).Perm L) (q : ℚ → ℚ) (h : Key → ℝ → ℝ) (δ τ : ℝ) :
    uAbs L q h δ τ = (G.map fun g => cAbs q (fun i => τ ^ ((tOf i - t0 : ℚ) : ℝ)) g.2 * ((kOf g.1).base δ * h (kOf g.1) δ)).sum := by
  unfold uAbs
  rw [← (hp.map _).sum_eq]
  unfold flat
  rw [List.map_flatMap, sum_flatMap']
  congr 1
  refine List.map_congr_left fun g _ => ?_
  unfold cAbs
  rw [List.map_map, ← List.sum_map_mul_right]
  rfl

/-! ## Whole numbers -/

def fl (x : ℚ) : ℕ := (x.num / x.den).toNat

theorem fl_in {x : ℚ} (hx : 0 ≤ x) : ((fl x : ℕ) : ℚ) ≤ x ∧ x ≤ fl x + 1 := by
  unfold fl
  have h1 : x.num / (x.den : ℤ) = ⌊x⌋ := (Rat.floor_def x).symm
  rw [h1]
  have h2 : 0 ≤ ⌊x⌋ := Int.floor_nonneg.2 hx
  have e : ((⌊x⌋.toNat : ℕ) : ℚ) = ((⌊x⌋ : ℤ) : ℚ) := by
    rw [← Int.cast_natCast, Int.toNat_of_nonneg h2]
  rw [e]
  exact ⟨Int.floor_le x, (Int.lt_floor_add_one x).le⟩

def encS (q : ℚ → ℚ) : List (ℚ × ℕ) → List (ℕ × ℕ) × List (ℕ × ℕ)
  | [] => ([], [])
  | e :: l => if 0 ≤ e.1 * q (tOf e.2) then ((e.2, fl (e.1 * q (tOf e.2) * 10 ^ 7)) :: (encS q l).1, (encS q l).2)
    else ((encS q l).1, (e.2, fl (-(e.1 * q (tOf e.2)) * 10 ^ 7)) :: (encS q l).2)
def encA (q : ℚ → ℚ) : List (ℚ × ℕ) → List (ℕ × ℕ)
  | [] => []
  | e :: l => (e.2, fl (|e.1| * q (tOf e.2) * 10 ^ 7) + 1) :: encA q l

def sLo (P : ℕ → ℕ) : List (ℕ × ℕ) → ℕ
  | [] => 0
  | e :: l => e.2 * P e.1 + sLo P l
def sHi (P : ℕ → ℕ) : List (ℕ × ℕ) → ℕ
  | [] => 0
  | e :: l => (e.2 + 1) * P e.1 + sHi P l

/-- The whole numbers bound the powers. -/
def PowIn (PL PH : ℕ → ℕ) (p : ℕ → ℝ) : Prop := ∀ i < 76, (PL i : ℝ) ≤ p i * 10 ^ 6 ∧ p i * 10 ^ 6 ≤ PH i

section
variable {PL PH : ℕ → ℕ} {p : ℕ → ℝ} (hp : PowIn PL PH p) {q : ℚ → ℚ}
include hp

theorem encS_in : ∀ l : List (ℚ × ℕ), (∀ e ∈ l, e.2 < 76) →
    (sLo PL (encS q l).1 : ℝ) - sHi PH (encS q l).2 ≤ cOf q p l * 10 ^ 13 ∧
    cOf q p l * 10 ^ 13 ≤ (sHi PH (encS q l).1 : ℝ) - sLo PL (encS q l).2
  | [], _ => by simp [encS, sLo, sHi, cOf]
  | e :: l, h => by
    obtain ⟨i1, i2⟩ := encS_in l fun e' he => h e' (List.mem_cons_of_mem _ he)
    obtain ⟨p1, p2⟩ := hp e.2 (h e List.mem_cons_self)
    have p0 : (0 : ℝ) ≤ PL e.2 := Nat.cast_nonneg _
    have e1 : cOf q p (e :: l) * 10 ^ 13 = (((e.1 * q (tOf e.2) * 10 ^ 7 : ℚ)) : ℝ) * (p e.2 * 10 ^ 6) + cOf q p l * 10 ^ 13 := by
      unfold cOf
      rw [List.map_cons, List.sum_cons]
      push_cast
      ring
    rw [e1]
    unfold encS
    by_cases hw : 0 ≤ e.1 * q (tOf e.2)
    · rw [if_pos hw]
      obtain ⟨f1, f2⟩ := fl_in (x := e.1 * q (tOf e.2) * 10 ^ 7) (mul_nonneg hw (by norm_num))
      have f1' : ((fl (e.1 * q (tOf e.2) * 10 ^ 7) : ℕ) : ℝ) ≤ ((e.1 * q (tOf e.2) * 10 ^ 7 : ℚ) : ℝ) := by exact_mod_cast f1
      have f2' : ((e.1 * q (tOf e.2) * 10 ^ 7 : ℚ) : ℝ) ≤ (fl (e.1 * q (tOf e.2) * 10 ^ 7) : ℕ) + 1 := by exact_mod_cast f2
      have f0 : (0 : ℝ) ≤ ((fl (e.1 * q (tOf e.2) * 10 ^ 7) : ℕ) : ℝ) := Nat.cast_nonneg _
      have m1 := mul_le_mul f1' p1 p0 (f0.trans f1')
      have m2 := mul_le_mul f2' p2 (p0.trans p1) ((f0.trans f1').trans f2')
      simp only [sLo, sHi]
      push_cast at m1 m2 ⊢
      constructor <;> linarith
    · rw [if_neg hw]
      obtain ⟨f1, f2⟩ := fl_in (x := -(e.1 * q (tOf e.2)) * 10 ^ 7) (mul_nonneg (by linarith) (by norm_num))
      have f1' : ((fl (-(e.1 * q (tOf e.2)) * 10 ^ 7) : ℕ) : ℝ) ≤ ((-(e.1 * q (tOf e.2)) * 10 ^ 7 : ℚ) : ℝ) := by exact_mod_cast f1
      have f2' : ((-(e.1 * q (tOf e.2)) * 10 ^ 7 : ℚ) : ℝ) ≤ (fl (-(e.1 * q (tOf e.2)) * 10 ^ 7) : ℕ) + 1 := by exact_mod_cast f2
      have f0 : (0 : ℝ) ≤ ((fl (-(e.1 * q (tOf e.2)) * 10 ^ 7) : ℕ) : ℝ) := Nat.cast_nonneg _
      have m1 := mul_le_mul f1' p1 p0 (f0.trans f1')
      have m2 := mul_le_mul f2' p2 (p0.trans p1) ((f0.trans f1').trans f2')
      simp only [sLo, sHi]
      push_cast at m1 m2 ⊢
      constructor <;> linarith

theorem encA_in (hq : ∀ t, 0 ≤ q t) : ∀ l : List (ℚ × ℕ), (∀ e ∈ l, e.2 < 76) →
    0 ≤ cAbs q p l ∧ cAbs q p l * 10 ^ 13 ≤ (sLo PH (encA q l) : ℝ)
  | [], _ => by simp [encA, sLo, cAbs]
  | e :: l, h => by
    obtain ⟨i1, i2⟩ := encA_in hq l fun e' he => h e' (List.mem_cons_of_mem _ he)
    obtain ⟨p1, p2⟩ := hp e.2 (h e List.mem_cons_self)
    have p0 : (0 : ℝ) ≤ PL e.2 := Nat.cast_nonneg _
    have e1 : cAbs q p (e :: l) = (((|e.1| * q (tOf e.2) : ℚ)) : ℝ) * p e.2 + cAbs q p l := by
      unfold cAbs
      rw [List.map_cons, List.sum_cons]
    have w0 : 0 ≤ |e.1| * q (tOf e.2) := mul_nonneg (abs_nonneg _) (hq _)
    have w1 : (0 : ℝ) ≤ ((|e.1| * q (tOf e.2) : ℚ) : ℝ) := by exact_mod_cast w0
    have pp : 0 ≤ p e.2 := by nlinarith [p0.trans p1]
    obtain ⟨f1, f2⟩ := fl_in (x := |e.1| * q (tOf e.2) * 10 ^ 7) (mul_nonneg w0 (by norm_num))
    have f2' : ((|e.1| * q (tOf e.2) * 10 ^ 7 : ℚ) : ℝ) ≤ (fl (|e.1| * q (tOf e.2) * 10 ^ 7) : ℕ) + 1 := by exact_mod_cast f2
    have m2 := mul_le_mul f2' p2 (p0.trans p1) (by positivity)
    refine ⟨by rw [e1]; positivity, ?_⟩
    rw [e1]
    simp only [encA, sLo]
    push_cast at m2 ⊢
    linarith
end

/-! ## Sums over groups -/

def gLP (PL PH : ℕ → ℕ) (g : SGrp) : ℕ × ℕ := (g.1, sLo PL g.2.1 - sHi PH g.2.2)
def gLN (PL PH : ℕ → ℕ) (g : SGrp) : ℕ × ℕ := (g.1, sHi PH g.2.2 - sLo PL g.2.1)
def gHP (PL PH : ℕ → ℕ) (g : SGrp) : ℕ × ℕ := (g.1, sHi PH g.2.1 - sLo PL g.2.2)
def gHN (PL PH : ℕ → ℕ) (g : SGrp) : ℕ × ℕ := (g.1, sLo PL g.2.2 - sHi PH g.2.1)
def gA (PH : ℕ → ℕ) (g : AGrp) : ℕ × ℕ := (g.1, sLo PH g.2)

def encG (q : ℚ → ℚ) (G : List Grp) : List SGrp := G.map fun g => (g.1, encS q g.2)
def encAG (q : ℚ → ℚ) (G : List Grp) : List AGrp := G.map fun g => (g.1, encA q g.2)

/-- The digits of the four numbers bound the positive and the negative part of the density factors. -/
def RowIn (ap bp an bn : ℕ) (X : ℕ → ℝ) : Prop := ∀ k < 36,
  ((dig ap k : ℕ) : ℝ) ≤ max (X k) 0 * 10 ^ 6 ∧ max (X k) 0 * 10 ^ 6 ≤ (dig bp k : ℕ) ∧
  ((dig bn k : ℕ) : ℝ) ≤ max (-X k) 0 * 10 ^ 6 ∧ max (-X k) 0 * 10 ^ 6 ≤ (dig an k : ℕ)

/-- A product of bounded factors. -/
theorem prod_in {c x : ℝ} {ul vh uh vl ap bp an bn : ℕ} (h1 : (ul : ℝ) - vh ≤ c * 10 ^ 13) (h2 : c * 10 ^ 13 ≤ (uh : ℝ) - vl)
    (x1 : (ap : ℝ) ≤ max x 0 * 10 ^ 6) (x2 : max x 0 * 10 ^ 6 ≤ bp) (x3 : (bn : ℝ) ≤ max (-x) 0 * 10 ^ 6)
    (x4 : max (-x) 0 * 10 ^ 6 ≤ an) :
    ((ul - vh : ℕ) : ℝ) * ap + ((vl - uh : ℕ) : ℝ) * bn - ((vh - ul : ℕ) : ℝ) * bp - ((uh - vl : ℕ) : ℝ) * an ≤ c * x * 10 ^ 19 ∧
    c * x * 10 ^ 19 ≤ ((uh - vl : ℕ) : ℝ) * bp + ((vh - ul : ℕ) : ℝ) * an - ((vl - uh : ℕ) : ℝ) * ap - ((ul - vh : ℕ) : ℝ) * bn := by
  have e1 : (ul : ℝ) - vh = ((ul - vh : ℕ) : ℝ) - ((vh - ul : ℕ) : ℝ) := by
    rcases le_total ul vh with h | h
    · rw [Nat.sub_eq_zero_of_le h, Nat.cast_sub h]; push_cast; ring
    · rw [Nat.sub_eq_zero_of_le h, Nat.cast_sub h]; push_cast; ring
  have e2 : (uh : ℝ) - vl = ((uh - vl : ℕ) : ℝ) - ((vl - uh : ℕ) : ℝ) := by
    rcases le_total uh vl with h | h
    · rw [Nat.sub_eq_zero_of_le h, Nat.cast_sub h]; push_cast; ring
    · rw [Nat.sub_eq_zero_of_le h, Nat.cast_sub h]; push_cast; ring
  rw [e1] at h1
  rw [e2] at h2
  have a0 : (0 : ℝ) ≤ ((ul - vh : ℕ) : ℝ) := Nat.cast_nonneg _
  have a1 : (0 : ℝ) ≤ ((vh - ul : ℕ) : ℝ) := Nat.cast_nonneg _
  have a2 : (0 : ℝ) ≤ ((uh - vl : ℕ) : ℝ) := Nat.cast_nonneg _
  have a3 : (0 : ℝ) ≤ ((vl - uh : ℕ) : ℝ) := Nat.cast_nonneg _
  have b0 : (0 : ℝ) ≤ ap := Nat.cast_nonneg _
  have b1 : (0 : ℝ) ≤ bn := Nat.cast_nonneg _
  generalize ((ul - vh : ℕ) : ℝ) = A at *
  generalize ((vh - ul : ℕ) : ℝ) = A' at *
  generalize ((uh - vl : ℕ) : ℝ) = C at *
  generalize ((vl - uh : ℕ) : ℝ) = C' at *
  have ex : x = max x 0 - max (-x) 0 := by
    rcases le_total 0 x with h | h
    · rw [max_eq_left h, max_eq_right (by linarith)]; ring
    · rw [max_eq_right h, max_eq_left (by linarith)]; ring
  have e3 : c * x * 10 ^ 19 = (c * 10 ^ 13) * (max x 0 * 10 ^ 6) - (c * 10 ^ 13) * (max (-x) 0 * 10 ^ 6) := by
    conv_lhs => rw [ex]
    ring
  rw [e3]
  generalize max x 0 * 10 ^ 6 = X at *
  generalize max (-x) 0 * 10 ^ 6 = Y at *
  generalize c * 10 ^ 13 = c at *
  have X0 := b0.trans x1
  have Y0 := b1.trans x3
  constructor
  · nlinarith [mul_le_mul_of_nonneg_right h1 X0, mul_le_mul_of_nonneg_right h2 Y0, mul_le_mul_of_nonneg_left x1 a0,
      mul_le_mul_of_nonneg_left x2 a1, mul_le_mul_of_nonneg_left x3 a3, mul_le_mul_of_nonneg_left x4 a2]
  · nlinarith [mul_le_mul_of_nonneg_right h2 X0, mul_le_mul_of_nonneg_right h1 Y0, mul_le_mul_of_nonneg_left x2 a2,
      mul_le_mul_of_nonneg_left x1 a3, mul_le_mul_of_nonneg_left x4 a1, mul_le_mul_of_nonneg_left x3 a0]

/-- The numbers in the groups are in range. -/
def Good (G : List Grp) : Prop := ∀ g ∈ G, g.1 < 36 ∧ ∀ e ∈ g.2, e.2 < 76

theorem groups_in {PL PH : ℕ → ℕ} {p : ℕ → ℝ} (hp : PowIn PL PH p) {q : ℚ → ℚ} {ap bp an bn : ℕ} {X : ℕ → ℝ}
    (hX : RowIn ap bp an bn X) : ∀ G : List Grp, Good G →
    (dotL ap ((encG q G).map (gLP PL PH)) : ℝ) + dotL bn ((encG q G).map (gHN PL PH)) - dotL bp ((encG q G).map (gLN PL PH))
      - dotL an ((encG q G).map (gHP PL PH)) ≤ (G.map fun g => cOf q p g.2 * X g.1).sum * 10 ^ 19 ∧
    (G.map fun g => cOf q p g.2 * X g.1).sum * 10 ^ 19 ≤ (dotL bp ((encG q G).map (gHP PL PH)) : ℝ)
      + dotL an ((encG q G).map (gLN PL PH)) - dotL ap ((encG q G).map (gHN PL PH)) - dotL bn ((encG q G).map (gLP PL PH))
  | [], _ => by simp [encG, dotL]
  | g :: G, h => by
    obtain ⟨i1, i2⟩ := groups_in hp hX G fun g' hg => h g' (List.mem_cons_of_mem _ hg)
    obtain ⟨hk, he⟩ := h g List.mem_cons_self
    obtain ⟨c1, c2⟩ := encS_in hp (q := q) g.2 he
    obtain ⟨x1, x2, x3, x4⟩ := hX g.1 hk
    obtain ⟨l, u⟩ := prod_in c1 c2 x1 x2 x3 x4
    simp only [encG, List.map_cons, dotL, gLP, gLN, gHP, gHN, List.sum_cons] at i1 i2 ⊢
    push_cast
    constructor <;> linarith

theorem groupsA_in {PL PH : ℕ → ℕ} {p : ℕ → ℝ} (hp : PowIn PL PH p) {q : ℚ → ℚ} (hq : ∀ t, 0 ≤ q t) {b : ℕ} {X : ℕ → ℝ}
    (hX : ∀ k < 36, 0 ≤ X k ∧ X k * 10 ^ 6 ≤ (dig b k : ℕ)) : ∀ G : List Grp, Good G →
    (G.map fun g => cAbs q p g.2 * X g.1).sum * 10 ^ 19 ≤ (dotL b ((encAG q G).map (gA PH)) : ℝ)
  | [], _ => by simp [encAG, dotL]
  | g :: G, h => by
    have i := groupsA_in hp hq hX G fun g' hg => h g' (List.mem_cons_of_mem _ hg)
    obtain ⟨hk, he⟩ := h g List.mem_cons_self
    obtain ⟨c0, c1⟩ := encA_in hp hq g.2 he
    obtain ⟨x0, x1⟩ := hX g.1 hk
    have := mul_le_mul c1 x1 (by positivity) (Nat.cast_nonneg _)
    simp only [encAG, List.map_cons, dotL, gA, List.sum_cons] at i ⊢
    push_cast
    linarith

end Aga8.GergEos
