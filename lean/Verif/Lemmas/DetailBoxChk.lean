import Verif.Lemmas.DetailBoxTab

/-! # The tables of bounds are right -/

namespace Aga8.Detail

def sQ (i : ℕ) : ℚ := ((sTab.getD i 0 : ℕ) : ℚ) / 1000
def rQ (j : ℕ) : ℚ := ((rTab.getD j 0 : ℕ) : ℚ) / 1000

theorem strip_all : ∀ i : Fin 36, stripChk (sQ i.1) (sQ (i.1 + 1)) (stripTab.getD i.1 []) (stripAbs.getD i.1 []) = true := by
  decide +kernel

theorem rowOk_all : ∀ j : Fin 42, rowOk (rQ j.1) (rQ (j.1 + 1)) = true := by decide +kernel
theorem rowZ_all : ∀ j : Fin 42, rowChk hZq 1 (rQ j.1) (rQ (j.1 + 1)) (rowZ.getD j.1 []) = true := by decide +kernel
theorem rowP_all : ∀ j : Fin 42, rowChk hPq 2 (rQ j.1) (rQ (j.1 + 1)) (rowP.getD j.1 []) = true := by decide +kernel
theorem rowZa_all : ∀ j : Fin 42, rowAbsChk hZaq 1 (rQ j.1) (rQ (j.1 + 1)) (rowZa.getD j.1 []) = true := by decide +kernel
theorem rowPa_all : ∀ j : Fin 42, rowAbsChk hPaq 2 (rQ j.1) (rQ (j.1 + 1)) (rowPa.getD j.1 []) = true := by decide +kernel

/-- The bounds of one rectangle follow from those of its sides. -/
def boxChk (C : List (ℤ × ℤ)) (A : List ℤ) (j : ℕ) (b : ℤ × ℤ × ℤ × ℤ × ℤ) : Bool :=
  decide (0 < b.1) && decide (0 < b.2.2.1) && decide (j < 42) &&
    decide (b.1 * 1000000000 ≤ 1000000000000 + lowS C (rowZ.getD j [])) &&
    decide (1000000000000 + highS C (rowZ.getD j []) ≤ b.2.1 * 1000000000) &&
    decide (b.2.2.1 * 1000000000 ≤ 1000000000000 + lowS C (rowP.getD j [])) &&
    decide (1000000000000 + highS C (rowP.getD j []) ≤ b.2.2.2.1 * 1000000000) &&
    decide (1000000000000 + absS A (rowZa.getD j []) ≤ b.2.2.2.2 * b.1 * 1000000) &&
    decide (1000000000000 + absS A (rowPa.getD j []) ≤ b.2.2.2.2 * b.2.2.1 * 1000000)

def nBox (i : ℕ) : ℕ := (boxTab.getD i []).length
def box (i j : ℕ) : ℤ × ℤ × ℤ × ℤ × ℤ := (boxTab.getD i []).getD j (0, 0, 0, 0, 0)

def boxesChk (i : ℕ) : Bool :=
  (List.range (nBox i)).all fun j => boxChk (stripTab.getD i []) (stripAbs.getD i []) j (box i j)

theorem box_all : ∀ i : Fin 36, boxesChk i.1 = true := by decide +kernel

/-- The conditions of convergence hold when the search starts in the density interval `c`. -/
def cellChk (i c : ℕ) (x : ℕ × ℕ × ℕ × ℕ × ℕ) : Bool :=
  let ρ := x.1
  let m := x.2.1
  let K := x.2.2.1
  let jl := x.2.2.2.1
  let jh := x.2.2.2.2
  let y : ℚ := 4 * m * ρ / 10000000
  decide (10 ≤ ρ ∧ ρ ≤ 1000 ∧ 0 < m ∧ m ≤ 1100 ∧ 1000 ≤ K ∧ K * (m + 1000) + 3 * m * ρ ≤ 22000 * m) &&
    decide (jl ≤ jh ∧ jh < nBox i ∧ c < nBox i) &&
    decide (rQ jl ≤ rQ c * elQ 1 (ρ / 1000)) && decide (rQ (c + 1) ≤ rQ (jh + 1) * elQ 1 (ρ / 1000)) &&
    decide (ehQ 1 y ≤ (box i c).1 / 1000) && decide (((box i c).2.1 : ℚ) / 1000 ≤ 1 + y) &&
    (List.range (jh + 1 - jl)).all fun a =>
      let b := box i (jl + a)
      decide ((m : ℤ) * b.2.1 ≤ 1000 * b.2.2.1) && decide (10000 * b.2.2.2.1 ≤ 14 * (m : ℤ) * b.1) &&
        decide (b.2.2.2.2 ≤ (K : ℤ))

def nCell (i : ℕ) : ℕ := (cellTab.getD i []).length
def cell (i c : ℕ) : ℕ × ℕ × ℕ × ℕ × ℕ := (cellTab.getD i []).getD c (0, 0, 0, 0, 0)

def cellsChk (i : ℕ) : Bool := (List.range (nCell i)).all fun c => cellChk i c (cell i c)

theorem cell_all : ∀ i : Fin 36, cellsChk i.1 = true := by decide +kernel

/-- The largest starting density of the intervals of temperature. -/
theorem cell_end : ∀ i : Fin 36, (4619255 / 10000000) ^ 3 * min 5 (1 + 22 / 1000 * (151.3183 / sQ i.1 ^ 2 - 200)) ≤ rQ (nCell i.1) ∧
    0 < nCell i.1 ∧ 0 < sQ i.1 := by decide +kernel

theorem sQ_ends : sQ 0 ^ 2 * 600 ≤ 151.3183 ∧ 151.3183 ≤ sQ 36 ^ 2 * 200 := by decide +kernel
theorem rQ_zero : rQ 0 = 0 := by decide +kernel

end Aga8.Detail
