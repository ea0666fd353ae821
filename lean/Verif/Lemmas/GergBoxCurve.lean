import Verif.Lemmas.GergBoxIv

/-! # A pure fluid at pipeline pressures: the GERG-2008 density search -/

set_option linter.unusedSectionVars false

namespace Aga8.GergEos

open Detail (expK hZ hP hZa hPa hZq hPq hZaq hPaq hZq_real hPq_real hZaq_real hPaq_real hZ_anti hP_anti hZa_mono hPa_mono
  Anti MonoPos In InL LeL lowS highS absS sum_in sum_abs elQ ehQ cover cover_from exp_el exp_eh)

/-- Tables of bounds for a fluid. `s` are the ends of the temperature intervals, in units of 0.0001 of `(Tc / T)^(1/8)`; `r` are
the ends of the density intervals, in units of 0.001 of the reduced density. `strip` bounds the temperature factors, the `row`
tables bound the density factors, in units of 1e-6. `box` bounds the compression factor, the pressure derivative and the ratio of
the sum of sizes to the sum of the terms on each rectangle, in units of 0.001. `cell` has, for each interval of starting
densities, the window, the smallest slope and the largest ratio, and the first and last density interval of the window. The
temperatures go from `Tlo` to `Thi`, the starting densities to `min Dmax (a + b (T - Tlo))`. -/
structure BoxTab where
  G : List (ℕ × ℕ)
  Tc : ℚ
  V : ℚ
  Tlo : ℚ
  Thi : ℚ
  Dmax : ℚ
  a : ℚ
  b : ℚ
  s : List ℕ
  r : List ℕ
  strip : List (List (ℤ × ℤ))
  stripA : List (List ℤ)
  rowZ : List (List (ℤ × ℤ))
  rowP : List (List (ℤ × ℤ))
  rowZa : List (List ℤ)
  rowPa : List (List ℤ)
  box : List (List (ℤ × ℤ × ℤ × ℤ × ℤ))
  cell : List (List (ℕ × ℕ × ℕ × ℕ × ℕ))

namespace BoxTab

variable (t : BoxTab)

def sQ (i : ℕ) : ℚ := ((t.s.getD i 0 : ℕ) : ℚ) / 10000
def rQ (j : ℕ) : ℚ := ((t.r.getD j 0 : ℕ) : ℚ) / 1000
def bx (i j : ℕ) : ℤ × ℤ × ℤ × ℤ × ℤ := (t.box.getD i []).getD j (0, 0, 0, 0, 0)
def nBox (i : ℕ) : ℕ := (t.box.getD i []).length
def cl (i c : ℕ) : ℕ × ℕ × ℕ × ℕ × ℕ := (t.cell.getD i []).getD c (0, 0, 0, 0, 0)
def nCell (i : ℕ) : ℕ := (t.cell.getD i []).length

/-- The bounds of one rectangle follow from those of its sides. -/
def boxChk (i j : ℕ) : Bool :=
  let C := t.strip.getD i []
  let A := t.stripA.getD i []
  let b := t.bx i j
  decide (0 < b.1) && decide (0 < b.2.2.1) && decide (j < t.rowZ.length) &&
    decide (b.1 * 1000000000 ≤ 1000000000000 + lowS C (t.rowZ.getD j [])) &&
    decide (1000000000000 + highS C (t.rowZ.getD j []) ≤ b.2.1 * 1000000000) &&
    decide (b.2.2.1 * 1000000000 ≤ 1000000000000 + lowS C (t.rowP.getD j [])) &&
    decide (1000000000000 + highS C (t.rowP.getD j []) ≤ b.2.2.2.1 * 1000000000) &&
    decide (1000000000000 + absS A (t.rowZa.getD j []) ≤ b.2.2.2.2 * b.1 * 1000000) &&
    decide (1000000000000 + absS A (t.rowPa.getD j []) ≤ b.2.2.2.2 * b.2.2.1 * 1000000)

/-- The conditions of convergence hold when the search starts in the density interval `c`. -/
def cellChk (i c : ℕ) : Bool :=
  let x := t.cl i c
  let ρ := x.1
  let m := x.2.1
  let K := x.2.2.1
  let jl := x.2.2.2.1
  let jh := x.2.2.2.2
  let y : ℚ := 4 * m * ρ / 10000000
  decide (10 ≤ ρ ∧ ρ ≤ 1000 ∧ 0 < m ∧ m ≤ 1100 ∧ 1000 ≤ K ∧ K * (m + 1000) + 9 * m * ρ ≤ 22000 * m) &&
    decide (jl ≤ jh ∧ jh < t.nBox i ∧ c < t.nBox i) &&
    decide (t.rQ jl ≤ t.rQ c * elQ 1 (ρ / 1000)) && decide (t.rQ (c + 1) ≤ t.rQ (jh + 1) * elQ 1 (ρ / 1000)) &&
    decide (ehQ 1 y ≤ (t.bx i c).1 / 1000) && decide (((t.bx i c).2.1 : ℚ) / 1000 ≤ 1 + y) &&
    (List.range (jh + 1 - jl)).all fun a =>
      let b := t.bx i (jl + a)
      decide ((m : ℤ) * b.2.1 ≤ 1000 * b.2.2.1) && decide (10000 * b.2.2.2.1 ≤ 14 * (m : ℤ) * b.1) &&
        decide (b.2.2.2.2 ≤ (K : ℤ))

def headChk (k : Fin 22) : Bool :=
  decide (1 ≤ k.1) && decide t.G.Nodup &&
    (termsOf k).all (fun a => decide (1 ≤ a.d ∧ (a.u : ℚ) = a.t * 8 ∧ (a.d, a.c) ∈ t.G)) &&
    decide (t.V = (Gerg.Tab.GVIJ[k.1][k.1].m : ℚ) / 10 ^ Gerg.Tab.GVIJ[k.1][k.1].e) &&
    decide (t.Tc = (Gerg.Tab.GTIJ[k.1][k.1].m : ℚ) / 10 ^ Gerg.Tab.GTIJ[k.1][k.1].e) &&
    decide (0 < t.V ∧ 0 < t.Tc ∧ t.V * t.Dmax ≤ 1 ∧ t.Dmax ≤ 300 ∧ 1 ≤ t.Tlo ∧ t.Thi ≤ 1000 ∧ t.Thi ≤ 100 * t.Tc ∧
      t.Tc ≤ 10 * t.Tlo ∧ 0 ≤ t.b) &&
    decide (0 < t.strip.length ∧ t.sQ 0 ^ 8 * t.Thi ≤ t.Tc ∧ t.Tc ≤ t.sQ t.strip.length ^ 8 * t.Tlo ∧ t.rQ 0 = 0)

/-- The tables are right. -/
structure Ok (k : Fin 22) : Prop where
  head : t.headChk k = true
  strips : ((List.range t.strip.length).all fun i =>
    stripChkG (termsOf k) t.G (t.sQ i) (t.sQ (i + 1)) (t.strip.getD i []) (t.stripA.getD i [])) = true
  rowsO : ((List.range t.rowZ.length).all fun j => rowOkG t.G (t.rQ j) (t.rQ (j + 1))) = true
  rowsZ : ((List.range t.rowZ.length).all fun j => rowChkG hZq t.G (t.rQ j) (t.rQ (j + 1)) (t.rowZ.getD j [])) = true
  rowsP : ((List.range t.rowZ.length).all fun j => rowChkG hPq t.G (t.rQ j) (t.rQ (j + 1)) (t.rowP.getD j [])) = true
  rowsZa : ((List.range t.rowZ.length).all fun j => rowAbsChkG hZaq t.G (t.rQ j) (t.rQ (j + 1)) (t.rowZa.getD j [])) = true
  rowsPa : ((List.range t.rowZ.length).all fun j => rowAbsChkG hPaq t.G (t.rQ j) (t.rQ (j + 1)) (t.rowPa.getD j [])) = true
  boxes : ((List.range t.strip.length).all fun i => (List.range (t.nBox i)).all fun j => t.boxChk i j) = true
  cells : ((List.range t.strip.length).all fun i => (List.range (t.nCell i)).all fun c => t.cellChk i c) = true
  ends : ((List.range t.strip.length).all fun i => decide (t.V * min t.Dmax (t.a + t.b * (t.Tc / t.sQ i ^ 8 - t.Tlo))
    ≤ t.rQ (t.nCell i) ∧ 0 < t.nCell i ∧ 0 < t.sQ i)) = true

variable {t} {k : Fin 22} (ok : t.Ok k)
include ok

theorem Ok.head' : 1 ≤ k.1 ∧ t.G.Nodup ∧ (∀ a ∈ termsOf k, 1 ≤ a.d ∧ (a.u : ℚ) = a.t * 8 ∧ (a.d, a.c) ∈ t.G) ∧
    (t.V : ℝ) = invRhoR (pureX k) ∧ (t.Tc : ℝ) = Tr (pureX k) ∧
    (0 < t.V ∧ 0 < t.Tc ∧ t.V * t.Dmax ≤ 1 ∧ t.Dmax ≤ 300 ∧ 1 ≤ t.Tlo ∧ t.Thi ≤ 1000 ∧ t.Thi ≤ 100 * t.Tc ∧
      t.Tc ≤ 10 * t.Tlo ∧ 0 ≤ t.b) ∧
    (0 < t.strip.length ∧ t.sQ 0 ^ 8 * t.Thi ≤ t.Tc ∧ t.Tc ≤ t.sQ t.strip.length ^ 8 * t.Tlo ∧ t.rQ 0 = 0) := by
  have h := ok.head
  unfold headChk at h
  simp only [Bool.and_eq_true, decide_eq_true_eq, List.all_eq_true] at h
  obtain ⟨⟨⟨⟨⟨⟨h1, h2⟩, h3⟩, h4⟩, h5⟩, h6⟩, h7⟩ := h
  refine ⟨h1, h2, h3, ?_, ?_, h6, h7⟩
  · unfold invRhoR
    rw [reducing_pure h1, h4]
    unfold val
    push_cast
    rfl
  · unfold Tr
    rw [reducing_pure h1, h5]
    unfold val
    push_cast
    rfl

/-- What the rectangle `j` of strip `i` says. -/
theorem box_spec [Libm] {T D : ℝ} {i j : ℕ} (hi : i < t.strip.length) (hj : j < t.nBox i)
    (s1 : (t.sQ i : ℝ) ^ 8 ≤ t.Tc / T) (s2 : t.Tc / T ≤ (t.sQ (i + 1) : ℝ) ^ 8)
    (r1 : (t.rQ j : ℝ) ≤ D * t.V) (r2 : D * t.V ≤ t.rQ (j + 1)) :
    0 < (t.bx i j).1 ∧ 0 < (t.bx i j).2.2.1 ∧
    ((t.bx i j).1 : ℝ) ≤ 1000 * Z (pureX k) D T ∧ 1000 * Z (pureX k) D T ≤ ((t.bx i j).2.1 : ℝ) ∧
    ((t.bx i j).2.2.1 : ℝ) ≤ 1000 * dPdD (pureX k) D T ∧ 1000 * dPdD (pureX k) D T ≤ ((t.bx i j).2.2.2.1 : ℝ) ∧
    1000 * Zabs (pureX k) D T ≤ ((t.bx i j).2.2.2.2 : ℝ) * Z (pureX k) D T ∧
    1000 * dPdDabs (pureX k) D T ≤ ((t.bx i j).2.2.2.2 : ℝ) * dPdD (pureX k) D T := by
  obtain ⟨hk, hG, hT, hV, hTc, -, -⟩ := ok.head'
  have a := ok.boxes
  simp only [List.all_eq_true, List.mem_range] at a
  have b := a i hi j hj
  unfold boxChk at b
  simp only [Bool.and_eq_true, decide_eq_true_eq] at b
  obtain ⟨⟨⟨⟨⟨⟨⟨⟨b1, b2⟩, b3⟩, b4⟩, b5⟩, b6⟩, b7⟩, b8⟩, b9⟩ := b
  obtain ⟨c1, c2⟩ := strip_inG (fun a ha => (hT a ha).2.1) (List.all_eq_true.1 ok.strips i (List.mem_range.2 hi)) s1 s2
  have o := List.all_eq_true.1 ok.rowsO j (List.mem_range.2 b3)
  have z1 := sum_in c1 (row_inG r1 r2 o hZq_real hZ_anti (List.all_eq_true.1 ok.rowsZ j (List.mem_range.2 b3)))
  have z2 := sum_in c1 (row_inG r1 r2 o hPq_real hP_anti (List.all_eq_true.1 ok.rowsP j (List.mem_range.2 b3)))
  have ra := row_absG r1 r2 o hZaq_real hZa_mono (List.all_eq_true.1 ok.rowsZa j (List.mem_range.2 b3))
  have z3 := sum_abs c2 ra
  have n3 := Finset.sum_nonneg (s := Finset.univ) fun k _ => mul_nonneg (c2.2 k).1 (ra.2 k).1
  have z4 := sum_abs c2 (row_absG r1 r2 o hPaq_real hPa_mono (List.all_eq_true.1 ok.rowsPa j (List.mem_range.2 b3)))
  have hd : ∀ a ∈ termsOf k, 1 ≤ a.d := fun a ha => (hT a ha).1
  have hm : ∀ a ∈ termsOf k, (a.d, a.c) ∈ t.G := fun a ha => (hT a ha).2.2
  have f1 := Z_pure hk hd D T
  have f2 := dPdD_pure hk hd D T
  have f3 := Zabs_pure hk hd D T
  have f4 := dPdDabs_pure hk hd D T
  unfold termSum at f1 f2 f3 f4
  rw [group_sum (termsOf k) _ (phi _ _) hG hm, ← hV, ← hTc] at f1 f2 f3 f4
  rw [f1, f2, f3, f4]
  clear f1 f2 f3 f4
  generalize (∑ j, coefG (termsOf k) (fun a => (a.n : ℝ) * ((t.Tc : ℝ) / T) ^ (a.t : ℝ)) t.G j * phi hZ (D * t.V) (t.G.get j)) = S1 at *
  generalize (∑ j, coefG (termsOf k) (fun a => (a.n : ℝ) * ((t.Tc : ℝ) / T) ^ (a.t : ℝ)) t.G j * phi hP (D * t.V) (t.G.get j)) = S2 at *
  generalize (∑ j, coefG (termsOf k) (fun a => |(a.n : ℝ)| * ((t.Tc : ℝ) / T) ^ (a.t : ℝ)) t.G j * phi hZa (D * t.V) (t.G.get j)) = S3 at *
  generalize (∑ j, coefG (termsOf k) (fun a => |(a.n : ℝ)| * ((t.Tc : ℝ) / T) ^ (a.t : ℝ)) t.G j * phi hPa (D * t.V) (t.G.get j)) = S4 at *
  clear c1 c2 ra o a
  generalize t.bx i j = B at *
  obtain ⟨zl, zh, pl, ph, K⟩ := B
  dsimp only at *
  have c4 := (Int.cast_le (R := ℝ)).2 b4
  have c5 := (Int.cast_le (R := ℝ)).2 b5
  have c6 := (Int.cast_le (R := ℝ)).2 b6
  have c7 := (Int.cast_le (R := ℝ)).2 b7
  have c8 := (Int.cast_le (R := ℝ)).2 b8
  have c9 := (Int.cast_le (R := ℝ)).2 b9
  push_cast at c4 c5 c6 c7 c8 c9
  have g1 : (zl : ℝ) ≤ 1000 * (1 + S1) := by linarith [z1.1]
  have g2 : (pl : ℝ) ≤ 1000 * (1 + S2) := by linarith [z2.1]
  have k3 : 1000000 * (1 + S3) ≤ K * zl := by linarith
  have k4 : 1000000 * (1 + S4) ≤ K * pl := by linarith
  have pz : (0 : ℝ) < zl := by exact_mod_cast b1
  have pp : (0 : ℝ) < pl := by exact_mod_cast b2
  have Kp : (0 : ℝ) ≤ K := by
    by_contra h
    have := mul_neg_of_neg_of_pos (not_le.1 h) pz
    linarith
  refine ⟨b1, b2, g1, by linarith [z1.2], g2, by linarith [z2.2], ?_, ?_⟩
  · have := mul_le_mul_of_nonneg_left g1 Kp
    linarith
  · have := mul_le_mul_of_nonneg_left g2 Kp
    linarith

/-- The strip and the density interval of a state, and what the tables say there. -/
theorem pipe_cell {T D0 : ℝ} (t1 : (t.Tlo : ℝ) ≤ T) (t2 : T ≤ t.Thi) (hd : 0 ≤ D0) (d2 : D0 ≤ t.Dmax)
    (d3 : D0 ≤ t.a + t.b * (T - t.Tlo)) :
    ∃ i c, i < t.strip.length ∧ (t.sQ i : ℝ) ^ 8 ≤ t.Tc / T ∧ t.Tc / T ≤ (t.sQ (i + 1) : ℝ) ^ 8 ∧ (t.rQ c : ℝ) ≤ D0 * t.V ∧
      D0 * t.V ≤ t.rQ (c + 1) ∧ t.cellChk i c = true := by
  obtain ⟨-, -, -, -, -, ⟨v0, tc0, -, -, tl, -, -, -, hb⟩, n0, u1, u2, rz⟩ := ok.head'
  have tl' : (1 : ℝ) ≤ t.Tlo := by exact_mod_cast tl
  have T0 : 0 < T := by linarith
  have V0 : (0 : ℝ) < t.V := by exact_mod_cast v0
  have b0 : (0 : ℝ) ≤ t.b := by exact_mod_cast hb
  have v1 : (t.sQ 0 : ℝ) ^ 8 * t.Thi ≤ t.Tc := by exact_mod_cast u1
  have v2 : (t.Tc : ℝ) ≤ (t.sQ t.strip.length : ℝ) ^ 8 * t.Tlo := by exact_mod_cast u2
  obtain ⟨n, hn⟩ : ∃ n, t.strip.length = n + 1 := ⟨t.strip.length - 1, by omega⟩
  obtain ⟨i, hi, a, b⟩ := cover (fun i => (t.sQ i : ℝ) ^ 8) (x := t.Tc / T) n (by
    rw [le_div_iff₀ T0]
    exact le_trans (mul_le_mul_of_nonneg_left t2 (by positivity)) v1) (by
    rw [div_le_iff₀ T0, ← hn]
    exact v2.trans (mul_le_mul_of_nonneg_left t1 (by positivity)))
  have hi' : i < t.strip.length := by omega
  have w := ok.ends
  simp only [List.all_eq_true, List.mem_range, decide_eq_true_eq] at w
  obtain ⟨w1, w2, w3⟩ := w i hi'
  have x1 := (Rat.cast_le (K := ℝ)).2 w1
  have s0 : (0 : ℝ) < t.sQ i := by exact_mod_cast w3
  rw [le_div_iff₀ T0] at a
  have hTs : T ≤ t.Tc / (t.sQ i : ℝ) ^ 8 := by
    rw [le_div_iff₀ (by positivity)]
    linarith
  have dmin : D0 ≤ min (t.Dmax : ℝ) (t.a + t.b * (t.Tc / (t.sQ i : ℝ) ^ 8 - t.Tlo)) := le_min d2 (d3.trans (by
    have := mul_le_mul_of_nonneg_left hTs b0
    linarith))
  have r0 : ((t.rQ 0 : ℚ) : ℝ) ≤ D0 * t.V := by
    rw [rz, Rat.cast_zero]
    positivity
  have top : D0 * t.V ≤ t.rQ (t.nCell i) := by
    refine (mul_le_mul_of_nonneg_right dmin V0.le).trans (le_trans (le_of_eq ?_) x1)
    push_cast
    ring
  obtain ⟨m, hm⟩ : ∃ n, t.nCell i = n + 1 := ⟨t.nCell i - 1, by omega⟩
  rw [hm] at top
  obtain ⟨c, hc, c1, c2⟩ := cover (fun c => (t.rQ c : ℝ)) m r0 top
  have all := ok.cells
  simp only [List.all_eq_true, List.mem_range] at all
  exact ⟨i, c, hi', (le_div_iff₀ T0).2 a, b, c1, c2, all i hi' c (by omega)⟩

end BoxTab

end Aga8.GergEos

namespace Aga8.Gerg

open Tab F64 GergEos Newton
open Detail (elQ ehQ cover cover_from exp_el exp_eh)

attribute [local irreducible] newP pressureP propertiesP

variable [Libm] {q : Pub Float}

/-- What the convergence theorem needs, and that the pressure grows with the density up to the end of the window. -/
theorem pipe_curve {t : BoxTab} {k : Fin 22} (ok : t.Ok k) (h : DensDomain q)
    (hx : ∀ i : Fin 22, 1 ≤ i.1 → fracs q i = pureX k i) (t1 : (t.Tlo : ℝ) ≤ toR q.t) (t2 : toR q.t ≤ t.Thi)
    (hd1 : 3e-4 ≤ toR q.p / (8.314472 * toR q.t)) (hd2 : toR q.p / (8.314472 * toR q.t) ≤ t.Dmax)
    (hd3 : toR q.p / (8.314472 * toR q.t) ≤ t.a + t.b * (toR q.t - t.Tlo)) :
    ∃ K m ρ : ℝ, F64Curve q (toR q.p / (8.314472 * toR q.t)) K m ρ ∧ m ≤ 1.1 ∧
      ∀ D, 0 ≤ D → D ≤ toR q.p / (8.314472 * toR q.t) * Real.exp ρ → 0 < GergEos.dPdD (fracs q) D (toR q.t) := by
  obtain ⟨-, -, -, eV, -, ⟨v0, tc0, vd, dm, tl, -, -, -, -⟩, -, -, -, rz⟩ := ok.head'
  have T0 : 0 < toR q.t := by linarith [h.t_low]
  have P0 : 0 < toR q.p := lt_of_lt_of_le (by norm_num) h.p_low
  have V0 : (0 : ℝ) < t.V := by exact_mod_cast v0
  have VD : (t.V : ℝ) * t.Dmax ≤ 1 := by exact_mod_cast vd
  have DM : (t.Dmax : ℝ) ≤ 300 := by exact_mod_cast dm
  have PT0 : PT q (toR q.p / (8.314472 * toR q.t)) = toR q.p * GergEos.Z (fracs q) (toR q.p / (8.314472 * toR q.t)) (toR q.t) := by
    unfold PT; field_simp
  have D0p : 0 < toR q.p / (8.314472 * toR q.t) := by positivity
  generalize toR q.p / (8.314472 * toR q.t) = D0 at *
  have cZ := Z_congr' hx
  have cY := dPdD_congr' hx
  have cZa := Zabs_congr' hx
  have cYa := dPdDabs_congr' hx
  have cV : invRhoR (fracs q) = invRhoR (pureX k) := reducing_congr' hx _ _
  obtain ⟨i, c, hi, s1, s2, c1, c2, chk⟩ := BoxTab.pipe_cell ok t1 t2 D0p.le hd2 hd3
  unfold BoxTab.cellChk at chk
  generalize t.cl i c = X at chk
  obtain ⟨ρ, m, K, jl, jh⟩ := X
  simp only [Bool.and_eq_true, decide_eq_true_eq, List.all_eq_true, List.mem_range] at chk
  obtain ⟨⟨⟨⟨⟨⟨⟨a1, a2, a3, a4, a5, a6⟩, a7, a8, a9⟩, a10⟩, a11⟩, a12⟩, a13⟩, a14⟩ := chk
  have r1 : (10 : ℝ) ≤ ρ := by exact_mod_cast a1
  have r2 : (ρ : ℝ) ≤ 1000 := by exact_mod_cast a2
  have m0 : (0 : ℝ) < m := by exact_mod_cast a3
  have m1 : (m : ℝ) ≤ 1100 := by exact_mod_cast a4
  have K1 : (1000 : ℝ) ≤ K := by exact_mod_cast a5
  have K2 : (K : ℝ) * (m + 1000) + 9 * m * ρ ≤ 22000 * m := by exact_mod_cast a6
  have b10 := (Rat.cast_le (K := ℝ)).2 a10
  have b11 := (Rat.cast_le (K := ℝ)).2 a11
  have b12 := (Rat.cast_le (K := ℝ)).2 a12
  have b13 := (Rat.cast_le (K := ℝ)).2 a13
  have ρ0 : (0 : ℚ) ≤ (ρ : ℚ) / 1000 := by positivity
  have ρ1 : (ρ : ℚ) / 1000 ≤ 1 := by
    rw [div_le_one (by norm_num)]
    exact_mod_cast a2
  have el := exp_el ρ0 ρ1
  have y0 : (0 : ℚ) ≤ 4 * m * ρ / 10000000 := by positivity
  have y1 : (4 * m * ρ / 10000000 : ℚ) ≤ 1 := by
    have g1 : (ρ : ℚ) ≤ 1000 := by exact_mod_cast a2
    have g2 : (m : ℚ) ≤ 1100 := by exact_mod_cast a4
    have := mul_le_mul g2 g1 (by positivity) (by norm_num)
    linarith
  have eh := exp_eh y0 y1
  push_cast at b10 b11 b12 b13 el eh
  have E1 : Real.exp (ρ / 1000 : ℝ) * Real.exp (-(ρ / 1000 : ℝ)) = 1 := by rw [← Real.exp_add]; simp
  have Ep := Real.exp_pos (ρ / 1000 : ℝ)
  have Em := Real.exp_pos (-(ρ / 1000 : ℝ))
  have Rn : ∀ j, (0 : ℝ) ≤ t.rQ j := fun j => by
    have : (0 : ℚ) ≤ t.rQ j := by unfold BoxTab.rQ; positivity
    exact_mod_cast this
  have lowEnd : ∀ D, D0 * Real.exp (-(ρ / 1000 : ℝ)) ≤ D → (t.rQ jl : ℝ) ≤ D * t.V := by
    intro D hD
    have g := mul_le_mul_of_nonneg_right hD V0.le
    have g1 := mul_le_mul_of_nonneg_left el (Rn c)
    have g2 := mul_le_mul_of_nonneg_right c1 Em.le
    linarith
  have highEnd : ∀ D, D ≤ D0 * Real.exp (ρ / 1000 : ℝ) → D * t.V ≤ t.rQ (jh + 1) := by
    intro D hD
    have g := mul_le_mul_of_nonneg_right hD V0.le
    have g1 := mul_le_mul_of_nonneg_left el (Rn (jh + 1))
    have g2 : D0 * t.V ≤ t.rQ (jh + 1) * Real.exp (-(ρ / 1000 : ℝ)) := by linarith
    have g3 := mul_le_mul_of_nonneg_right g2 Ep.le
    have g4 : (t.rQ (jh + 1) : ℝ) * Real.exp (-(ρ / 1000 : ℝ)) * Real.exp (ρ / 1000 : ℝ) = t.rQ (jh + 1) := by
      rw [mul_assoc, mul_comm (Real.exp _), E1, mul_one]
    linarith
  refine ⟨K / 1000, m / 1000, ρ / 1000, ⟨h, by positivity, by norm_num; linarith, by linarith, by linarith, ?_, hd1,
    hd2.trans DM, ?_, ?_, ?_⟩, by norm_num; linarith, ?_⟩
  · have e : (K : ℝ) / 1000 * (1 + 1 / (m / 1000)) = K * (m + 1000) / (1000 * m) := by field_simp
    rw [e, div_le_iff₀ (by positivity)]
    linarith
  · rw [cV, ← eV]
    have := mul_le_mul_of_nonneg_right hd2 V0.le
    linarith
  · intro D g1 g2
    obtain ⟨j, j1, j2, j3, j4⟩ := cover_from (fun j => (t.rQ j : ℝ)) a7 (lowEnd D g1) (highEnd D g2)
    obtain ⟨o1, o2, o3, o4, o5, o6, o7, o8⟩ := BoxTab.box_spec ok hi (lt_of_le_of_lt j2 a8) s1 s2 j3 j4
    obtain ⟨⟨n1, n2⟩, n3⟩ := a14 (j - jl) (by omega)
    rw [Nat.add_sub_cancel' j1] at n1 n2 n3
    rw [cZ, cY, cZa, cYa]
    generalize GergEos.Z (pureX k) D (toR q.t) = Z at *
    generalize GergEos.dPdD (pureX k) D (toR q.t) = Y at *
    generalize GergEos.Zabs (pureX k) D (toR q.t) = Za at *
    generalize GergEos.dPdDabs (pureX k) D (toR q.t) = Ya at *
    generalize t.bx i j = B at *
    obtain ⟨zl, zh, pl, ph, Kj⟩ := B
    dsimp only at *
    have v1 : (0 : ℝ) < zl := by exact_mod_cast o1
    have v2 : (0 : ℝ) < pl := by exact_mod_cast o2
    have w1 : (m : ℝ) * zh ≤ 1000 * pl := by exact_mod_cast n1
    have w2 : (10000 : ℝ) * ph ≤ 14 * m * zl := by exact_mod_cast n2
    have w3 : (Kj : ℝ) ≤ K := by exact_mod_cast n3
    have z0 : 0 < Z := by linarith
    have p0 : 0 < Y := by linarith
    have x1 := mul_le_mul_of_nonneg_right w3 z0.le
    have x2 := mul_le_mul_of_nonneg_right w3 p0.le
    have x3 := mul_le_mul_of_nonneg_left o4 m0.le
    have x4 := mul_le_mul_of_nonneg_left o3 m0.le
    refine ⟨z0, by linarith, by linarith, ?_, ?_⟩
    · rw [le_div_iff₀ z0]; linarith
    · rw [div_le_iff₀ z0]; norm_num; linarith
  · obtain ⟨o1, o2, o3, o4, -⟩ := BoxTab.box_spec ok hi a9 s1 s2 c1 c2
    rw [← cZ] at o3 o4
    have v1 : (0 : ℝ) < (t.bx i c).1 := by exact_mod_cast o1
    have z0 : 0 < GergEos.Z (fracs q) D0 (toR q.t) := by linarith
    rw [PT0, Real.log_mul P0.ne' z0.ne', add_sub_cancel_left]
    have e : (0.4 * (m / 1000) * (ρ / 1000) : ℝ) = 4 * m * ρ / 10000000 := by ring
    rw [e, abs_le]
    constructor
    · rw [Real.le_log_iff_exp_le z0]
      linarith
    · rw [Real.log_le_iff_le_exp z0]
      have := Real.add_one_le_exp (4 * m * ρ / 10000000 : ℝ)
      linarith
  · intro D g0 g2
    have n0 : ((t.rQ 0 : ℚ) : ℝ) ≤ D * t.V := by
      rw [rz, Rat.cast_zero]
      positivity
    obtain ⟨j, j2, j3, j4⟩ := cover (fun j => (t.rQ j : ℝ)) jh n0 (highEnd D g2)
    obtain ⟨o1, o2, o3, o4, o5, -⟩ := BoxTab.box_spec ok hi (lt_of_le_of_lt j2 a8) s1 s2 j3 j4
    rw [cY]
    have v2 : (0 : ℝ) < (t.bx i j).2.2.1 := by exact_mod_cast o2
    linarith

/-- No density below the end of the window has the same pressure. -/
theorem pipe_unique (hL : LibmAccurate) (h : DensDomain q) {E d d' : ℝ}
    (hY : ∀ D, 0 ≤ D → D ≤ E → 0 < GergEos.dPdD (fracs q) D (toR q.t)) (h0 : 0 < d) (h1 : d ≤ E) (h0' : 0 < d') (h1' : d' ≤ E)
    (e : PT q d' = PT q d) : d' = d := by
  have T0 : 0 < toR q.t := by linarith [h.t_low]
  have key : ∀ a b, 0 < a → b ≤ E → a < b → PT q a ≠ PT q b := by
    intro a b ha hb hab hh
    obtain ⟨x, hx, hx2⟩ := exists_hasDerivAt_eq_zero hab
      (fun x _ => (curve_deriv hL h x).continuousAt.continuousWithinAt) hh (fun x _ => curve_deriv hL h x)
    have := hY x (by linarith [hx.1]) (by linarith [hx.2])
    unfold QT at hx2
    have : 0 < 8.314472 * toR q.t * GergEos.dPdD (fracs q) x (toR q.t) := by positivity
    linarith
  rcases lt_trichotomy d' d with g | g | g
  · exact absurd e (key _ _ h0' h1 g)
  · exact g
  · exact absurd e.symm (key _ _ h0 h1' g)

theorem fracs_pure {k : Fin 22} (hx : ∀ i : Fin 22, 1 ≤ i.1 → IsFinite (aget q.x i) ∧ toR (aget q.x i) = if i = k then 1 else 0) :
    ∀ i : Fin 22, 1 ≤ i.1 → fracs q i = pureX k i := by
  intro i hi
  unfold fracs pureX
  rw [(hx i hi).2]
  split <;> simp

/-- A pure fluid is in the domain of the theorems on `density`. -/
theorem dens_pure {t : BoxTab} {k : Fin 22} (ok : t.Ok k)
    (hx : ∀ i : Fin 22, 1 ≤ i.1 → IsFinite (aget q.x i) ∧ toR (aget q.x i) = if i = k then 1 else 0)
    (ht : IsFinite q.t) (t1 : (t.Tlo : ℝ) ≤ toR q.t) (t2 : toR q.t ≤ t.Thi) (hp : IsFinite q.p)
    (d1 : 3e-4 ≤ toR q.p / (8.314472 * toR q.t)) (d2 : toR q.p / (8.314472 * toR q.t) ≤ t.Dmax) : DensDomain q := by
  obtain ⟨hk, -, -, -, eT, ⟨-, -, -, dm, tl, th, th2, tl2, -⟩, -⟩ := ok.head'
  have TL : (1 : ℝ) ≤ t.Tlo := by exact_mod_cast tl
  have TH : (t.Thi : ℝ) ≤ 1000 := by exact_mod_cast th
  have TH2 : (t.Thi : ℝ) ≤ 100 * t.Tc := by exact_mod_cast th2
  have TL2 : (t.Tc : ℝ) ≤ 10 * t.Tlo := by exact_mod_cast tl2
  have DM : (t.Dmax : ℝ) ≤ 300 := by exact_mod_cast dm
  have eTr : Tr (fracs q) = t.Tc := by
    rw [eT]
    exact reducing_congr' (fracs_pure hx) _ _
  have T0 : 0 < 8.314472 * toR q.t := by have : 0 < toR q.t := by linarith
                                         positivity
  rw [le_div_iff₀ T0] at d1
  have d2' := (div_le_iff₀ T0).1 (d2.trans DM)
  norm_num at d1 d2'
  refine ⟨ht, by linarith, by linarith, by rw [eTr]; linarith, by rw [eTr]; linarith, hp, by norm_num; linarith,
    by norm_num; linarith, fun i hi => (hx i hi).1, ?_, k, hk, ?_⟩
  · intro i hi
    rw [(hx i hi).2]
    split <;> norm_num
  · rw [(hx k hk).2, if_pos rfl]; norm_num

end Aga8.Gerg
