import Verif.Lemmas.GergEval

/-! # The parameter arrays of a new GERG object, entry by entry -/

set_option linter.unusedSectionVars false

namespace Aga8.Gerg

open FOps Tab
open Detail (put2P)

/-! ## Literal tables before conversion to the number type -/

/-- Entrywise relation of two matrices. -/
def MapRel {α β : Type} {n m : Nat} (conv : β → α) (v : Vector (Vector α m) n) (w : Vector (Vector β m) n) : Prop :=
  ∀ i j, aget2 v i j = conv (aget2 w i j)

theorem MapRel.put2P {α β : Type} {n m : Nat} {conv : β → α} {v : Vector (Vector α m) n}
    {w : Vector (Vector β m) n} (h : MapRel conv v w) (i j : Nat) (b : β) :
    MapRel conv (put2P v i j (conv b)) (put2P w i j b) := by
  intro i' j'
  unfold Detail.put2P
  split
  · rw [aget2_aset2, aget2_aset2]
    split
    · rfl
    · exact h _ _
  · exact h _ _

theorem MapRel.runAsgP {α β : Type} {n m : Nat} {conv : β → α} {v : Vector (Vector α m) n}
    {w : Vector (Vector β m) n} (h : MapRel conv v w) (l : List (Nat × Nat × β)) :
    MapRel conv (runAsgP conv l v) (runAsgP id l w) :=
  foldl_rel _ l _ _ v w h fun _ _ a h => h.put2P a.1 a.2.1 a.2.2

theorem MapRel.runRowP {α β : Type} {n m : Nat} {conv : β → α} {v : Vector (Vector α m) n}
    {w : Vector (Vector β m) n} (h : MapRel conv v w) (l : List (Nat × β)) (i : Nat) :
    MapRel conv (runRowP conv l i v) (runRowP id l i w) :=
  foldl_rel _ l _ _ v w h fun _ _ a h => h.put2P i a.1 a.2

theorem MapRel.runExpsP {α β : Type} {conv : β → α} {v : Vector (Vector α 25) 22}
    {w : Vector (Vector β 25) 22} (h : MapRel conv v w) (all long : List (Nat × β)) (asg : List (Nat × Nat × β)) :
    MapRel conv (runExpsP conv all long asg v) (runExpsP id all long asg w) := by
  unfold Gerg.runExpsP
  apply MapRel.runAsgP
  apply loopNP_rel
  · exact loopNP_rel _ h fun k a b _ _ h => h.runRowP all k
  · intro k a b _ _ h
    split
    · exact h.runRowP long k
    · exact h

/-- `toik` as decimals. -/
def toikD : Vector (Vector Dec 25) 22 := runExpsP id toikAll toikLong toikAsg (fill 22 (fill 25 ⟨0, 0⟩))
/-- `tijk` as decimals. -/
def tijkD : Vector (Vector Dec 13) 11 := runAsgP id tijkAsg (fill 11 (fill 13 ⟨0, 0⟩))
/-- The literals assigned to `cijk`. -/
def cijkD : Vector (Vector Dec 13) 11 := runAsgP id cijkAsg (fill 11 (fill 13 ⟨0, 0⟩))
/-- The literals assigned to `eijk`. -/
def eijkD : Vector (Vector Dec 13) 11 := runAsgP id eijkAsg (fill 11 (fill 13 ⟨0, 0⟩))
/-- The literals assigned to `bijk`. -/
def bijkD : Vector (Vector Dec 13) 11 := runAsgP id bijkAsg (fill 11 (fill 13 ⟨0, 0⟩))
/-- The literals assigned to `gijk`. -/
def gijkD : Vector (Vector Dec 13) 11 := runAsgP id gijkAsg (fill 11 (fill 13 ⟨0, 0⟩))
/-- `nijk` as decimals. -/
def nijkD : Vector (Vector Dec 13) 11 := runAsgP id nijkAsg (fill 11 (fill 13 ⟨0, 0⟩))
/-- The literals assigned to `n0i`. -/
def n0iD : Vector (Vector Dec 8) 22 := runAsgP id n0iAsg (fill 22 (fill 8 ⟨0, 0⟩))
/-- The literals assigned to `bvij`. -/
def bvijD : Vector (Vector Dec 22) 22 := runAsgP id bvijAsg (fill 22 (fill 22 ⟨0, 0⟩))
/-- The literals assigned to `gvij`. -/
def gvijD : Vector (Vector Dec 22) 22 := runAsgP id gvijAsg (fill 22 (fill 22 ⟨0, 0⟩))
/-- The literals assigned to `btij`. -/
def btijD : Vector (Vector Dec 22) 22 := runAsgP id btijAsg (fill 22 (fill 22 ⟨0, 0⟩))
/-- The literals assigned to `gtij`. -/
def gtijD : Vector (Vector Dec 22) 22 := runAsgP id gtijAsg (fill 22 (fill 22 ⟨0, 0⟩))

variable {F : Type} [Add F] [Sub F] [Mul F] [Div F] [Neg F] [FOps F]

theorem mapRel_fill (n m : Nat) :
    MapRel (ofDec : Dec → F) (fill n (fill m (f% 0.0))) (fill n (fill m ⟨0, 0⟩)) := by
  intro i j
  rw [aget2_fill, aget2_fill]

theorem toik0_get (i : Fin 22) (k : Fin 25) : aget2 (toik0 : Vector (Vector F 25) 22) i k = ofDec (aget2 toikD i k) :=
  (mapRel_fill 22 25).runExpsP toikAll toikLong toikAsg i k
theorem tijk0_get (i : Fin 11) (k : Fin 13) : aget2 (tijk0 : Vector (Vector F 13) 11) i k = ofDec (aget2 tijkD i k) :=
  (mapRel_fill 11 13).runAsgP tijkAsg i k
theorem bijk0_get (i : Fin 11) (k : Fin 13) : aget2 (bijk0 : Vector (Vector F 13) 11) i k = ofDec (aget2 bijkD i k) :=
  (mapRel_fill 11 13).runAsgP bijkAsg i k
theorem nijk0_get (i : Fin 11) (k : Fin 13) : aget2 (nijk0 : Vector (Vector F 13) 11) i k = ofDec (aget2 nijkD i k) :=
  (mapRel_fill 11 13).runAsgP nijkAsg i k

/-! ## Post-processing loops -/

theorem aget_loop_row {α : Type} {m : Nat} {lo : Nat} (f : Fin m → α → α) (r : Vector α m) (j : Fin m) :
    aget (loop lo m r fun j r => aset r j (f j (aget r j))) j = if lo ≤ j.1 then f j (aget r j) else aget r j :=
  aget_loop_aset f r j

theorem loop_row {α : Type} {n m : Nat} (v : Vector (Vector α m) n) (i : Fin n) (lo : Nat) (f : Fin m → α → α) :
    loop lo m v (fun j v => aset2 v i j (f j (aget2 v i j)))
      = aset v i (loop lo m (aget v i) fun j r => aset r j (f j (aget r j))) := by
  apply loop_rel (fun (w : Vector (Vector α m) n) (r : Vector α m) => w = aset v i r)
  · apply arr_ext
    intro k
    rw [aget_aset]
    split
    · rename_i h; rw [h]
    · rfl
  · intro j w r _ h
    subst h
    unfold aset2 aget2
    rw [aget_aset, if_pos rfl]
    apply arr_ext
    intro k
    rw [aget_aset, aget_aset, aget_aset]
    split <;> rfl

/-- A double loop that rewrites each matrix entry once. -/
theorem aget2_loop_rows {α : Type} {n m lo : Nat} (lo' : Fin n → Nat) (f : Fin n → Fin m → α → α)
    (v : Vector (Vector α m) n) (i : Fin n) (j : Fin m) :
    aget2 (loop lo n v fun i v => loop (lo' i) m v fun j v => aset2 v i j (f i j (aget2 v i j))) i j
      = if lo ≤ i.1 ∧ lo' i ≤ j.1 then f i j (aget2 v i j) else aget2 v i j := by
  have e : (fun (i : Fin n) (v : Vector (Vector α m) n) =>
      loop (lo' i) m v fun j v => aset2 v i j (f i j (aget2 v i j)))
      = fun i v => aset v i (loop (lo' i) m (aget v i) fun j r => aset r j (f i j (aget r j))) := by
    funext i v
    exact loop_row v i (lo' i) (f i)
  rw [e]
  unfold aget2
  rw [aget_loop_aset (fun i (r : Vector α m) => loop (lo' i) m r fun j r => aset r j (f i j (aget r j)))]
  by_cases h : lo ≤ i.1
  · rw [if_pos h, aget_loop_row]
    by_cases h' : lo' i ≤ j.1
    · rw [if_pos h', if_pos ⟨h, h'⟩]
    · rw [if_neg h', if_neg (fun hh => h' hh.2)]
  · rw [if_neg h, if_neg (fun hh => h hh.1)]

/-- The departure parameters at one place. -/
def dep3 (b : F) (p : F × F × F) : F × F × F :=
  (-p.1, f% 2.0 * p.1 * p.2.1 - b, -p.1 * powi p.2.1 2 + b * p.2.2)

theorem setupDep_get (b : Vector (Vector F 13) 11) (p : DepPar F) (i : Fin 11) (j : Fin 13) :
    (aget2 (setupDep b p).cijk i j, aget2 (setupDep b p).eijk i j, aget2 (setupDep b p).gijk i j)
      = if 1 ≤ i.1 ∧ 1 ≤ j.1 then
          dep3 (aget2 b i j) (aget2 p.cijk i j, aget2 p.eijk i j, aget2 p.gijk i j)
        else (aget2 p.cijk i j, aget2 p.eijk i j, aget2 p.gijk i j) := by
  let z : Vector (Vector (F × F × F) 13) 11 := Vector.ofFn fun i => Vector.ofFn fun j =>
    (aget2 p.cijk i j, aget2 p.eijk i j, aget2 p.gijk i j)
  have hz : ∀ i j, aget2 z i j = (aget2 p.cijk i j, aget2 p.eijk i j, aget2 p.gijk i j) := aget2_ofFn _
  rw [← hz, ← aget2_loop_rows (lo := 1) (fun _ => 1) (fun i j => dep3 (aget2 b i j)) z i j]
  have key := loop_rel (lo := 1) (n := 11) (s := p) (t := z)
    (body := fun i p => loop 1 13 p fun j p =>
      let p := { p with gijk := aset2 p.gijk i j (-aget2 p.cijk i j * powi (aget2 p.eijk i j) 2 + aget2 b i j * aget2 p.gijk i j) }
      let p := { p with eijk := aset2 p.eijk i j (f% 2.0 * aget2 p.cijk i j * aget2 p.eijk i j - aget2 b i j) }
      { p with cijk := aset2 p.cijk i j (-aget2 p.cijk i j) })
    (body' := fun i v => loop 1 13 v fun j v => aset2 v i j (dep3 (aget2 b i j) (aget2 v i j)))
    (fun (p : DepPar F) z => ∀ i j, (aget2 p.cijk i j, aget2 p.eijk i j, aget2 p.gijk i j) = aget2 z i j)
    (fun i j => (hz i j).symm) ?_
  · exact key i j
  · intro i p z _ h
    refine loop_rel (fun (p : DepPar F) (z : Vector (Vector (F × F × F) 13) 11) =>
      ∀ i j, (aget2 p.cijk i j, aget2 p.eijk i j, aget2 p.gijk i j) = aget2 z i j) h ?_
    intro j p z _ h i' j'
    dsimp only
    rw [aget2_aset2, aget2_aset2, aget2_aset2, aget2_aset2, ← h i j]
    split
    · rfl
    · exact h i' j'

/-- The departure parameters of a new object. -/
theorem dep0_get (i : Fin 11) (j : Fin 13) (hi : 1 ≤ i.1) (hj : 1 ≤ j.1) :
    aget2 (dep0 : DepPar F).cijk i j = -ofDec (aget2 cijkD i j) ∧
    aget2 (dep0 : DepPar F).eijk i j
      = f% 2.0 * ofDec (aget2 cijkD i j) * ofDec (aget2 eijkD i j) - ofDec (aget2 bijkD i j) ∧
    aget2 (dep0 : DepPar F).gijk i j = -ofDec (aget2 cijkD i j) * powi (ofDec (aget2 eijkD i j)) 2
      + ofDec (aget2 bijkD i j) * ofDec (aget2 gijkD i j) := by
  have h := setupDep_get (bijk0 : Vector (Vector F 13) 11)
    ⟨runAsgP ofDec cijkAsg (fill 11 (fill 13 (f% 0.0))), runAsgP ofDec eijkAsg (fill 11 (fill 13 (f% 0.0))),
      runAsgP ofDec gijkAsg (fill 11 (fill 13 (f% 0.0)))⟩ i j
  rw [if_pos ⟨hi, hj⟩] at h
  have hc : aget2 (runAsgP (ofDec : Dec → F) cijkAsg (fill 11 (fill 13 (f% 0.0)))) i j = ofDec (aget2 cijkD i j) :=
    (mapRel_fill 11 13).runAsgP cijkAsg i j
  have he : aget2 (runAsgP (ofDec : Dec → F) eijkAsg (fill 11 (fill 13 (f% 0.0)))) i j = ofDec (aget2 eijkD i j) :=
    (mapRel_fill 11 13).runAsgP eijkAsg i j
  have hg : aget2 (runAsgP (ofDec : Dec → F) gijkAsg (fill 11 (fill 13 (f% 0.0)))) i j = ofDec (aget2 gijkD i j) :=
    (mapRel_fill 11 13).runAsgP gijkAsg i j
  dsimp only at h
  rw [hc, he, hg, bijk0_get] at h
  unfold dep3 at h
  injection h with h1 h2
  injection h2 with h2 h3
  exact ⟨h1, h2, h3⟩

theorem setupBin_bvij (b : BinPar F) (i j : Fin 22) : aget2 (setupBin b).bvij i j
    = if 1 ≤ i.1 ∧ i.1 ≤ j.1 then (if i = j then f% 1.0 else powi (aget2 b.bvij i j) 2) else aget2 b.bvij i j := by
  rw [← aget2_loop_rows (lo := 1) (fun i : Fin 22 => i.1)
    (fun i j a => if i = j then (f% 1.0 : F) else powi a 2) b.bvij i j]
  have key : (setupBin b).bvij = loop 1 22 b.bvij fun i v => loop i.1 22 v fun j v =>
      aset2 v i j (if i = j then (f% 1.0 : F) else powi (aget2 v i j) 2) := by
    unfold setupBin
    apply loop_rel (fun (p : BinPar F) v => p.bvij = v) rfl
    intro i p v _ h
    subst h
    rw [loop_step (lo := i.1) _ _ i.2]
    apply loop_rel (fun (p : BinPar F) v => p.bvij = v)
    · simp only [Fin.eta, if_true]
    · intro j p v hj h
      subst h
      have : i ≠ j := by intro h; rw [h] at hj; omega
      rw [if_neg this]
  rw [key]

/-- The binary parameters β_v² of a new object. -/
theorem bvij0_get (i j : Fin 22) (hi : 1 ≤ i.1) (hj : i.1 ≤ j.1) :
    aget2 (bin0 : BinPar F).bvij i j = if i = j then f% 1.0 else powi (ofDec (aget2 bvijD i j)) 2 := by
  have hb : aget2 (runAsgP (ofDec : Dec → F) bvijAsg (fill 22 (fill 22 (f% 0.0)))) i j = ofDec (aget2 bvijD i j) :=
    (mapRel_fill 22 22).runAsgP bvijAsg i j
  unfold bin0
  rw [setupBin_bvij, if_pos ⟨hi, hj⟩]
  dsimp only
  rw [hb]

/-- The row operation of `setupN0i`. -/
def n0iRow (r : Vector F 8) : Vector F 8 :=
  let t0 : F := f% 298.15
  let r := aset r 3 (aget r 3 - f% 1.0)
  let r := aset r 2 (aget r 2 + t0)
  let r := loop 1 8 r fun j r => aset r j (aget r j * RSR)
  let r := aset r 2 (aget r 2 - t0)
  aset r 1 (aget r 1 - ln (f% 101.325 / RGERG / t0))

theorem setupN0i_get (v : Vector (Vector F 8) 22) (i : Fin 22) (hi : 1 ≤ i.1) :
    aget (setupN0i v) i = n0iRow (aget v i) := by
  unfold setupN0i
  dsimp only
  have e : (fun (i : Fin 22) (n0i : Vector (Vector F 8) 22) =>
      aset2 (aset2 (loop 1 8 (aset2 (aset2 n0i i 3 (aget2 n0i i 3 - f% 1.0)) i 2
        (aget2 (aset2 n0i i 3 (aget2 n0i i 3 - f% 1.0)) i 2 + f% 298.15))
        fun j n0i => aset2 n0i i j (aget2 n0i i j * RSR)) i 2
        (aget2 (loop 1 8 (aset2 (aset2 n0i i 3 (aget2 n0i i 3 - f% 1.0)) i 2
        (aget2 (aset2 n0i i 3 (aget2 n0i i 3 - f% 1.0)) i 2 + f% 298.15))
        fun j n0i => aset2 n0i i j (aget2 n0i i j * RSR)) i 2 - f% 298.15)) i 1
        (aget2 (aset2 (loop 1 8 (aset2 (aset2 n0i i 3 (aget2 n0i i 3 - f% 1.0)) i 2
        (aget2 (aset2 n0i i 3 (aget2 n0i i 3 - f% 1.0)) i 2 + f% 298.15))
        fun j n0i => aset2 n0i i j (aget2 n0i i j * RSR)) i 2
        (aget2 (loop 1 8 (aset2 (aset2 n0i i 3 (aget2 n0i i 3 - f% 1.0)) i 2
        (aget2 (aset2 n0i i 3 (aget2 n0i i 3 - f% 1.0)) i 2 + f% 298.15))
        fun j n0i => aset2 n0i i j (aget2 n0i i j * RSR)) i 2 - f% 298.15)) i 1
          - ln (f% 101.325 / RGERG / f% 298.15)))
      = fun i n0i => aset n0i i (n0iRow (aget n0i i)) := by
    funext i v
    rw [loop_row _ i 1 (fun _ a => a * RSR)]
    unfold n0iRow
    apply arr_ext
    intro k
    unfold aset2 aget2
    by_cases hk : k = i
    · subst hk
      simp only [aget_aset, if_true]
    · have hk' : ¬ i = k := fun h => hk h.symm
      simp only [aget_aset, if_true, if_neg hk']
  rw [e, aget_loop_aset (fun _ r => n0iRow r), if_pos hi]

/-- The ideal-gas coefficients of a new object. -/
theorem n0i0_get (i : Fin 22) (j : Fin 8) (hi : 1 ≤ i.1) (hj : 1 ≤ j.1) :
    aget2 (n0i0 : Vector (Vector F 8) 22) i j =
      if j = 1 then ofDec (aget2 n0iD i 1) * RSR - ln (f% 101.325 / RGERG / f% 298.15)
      else if j = 2 then (ofDec (aget2 n0iD i 2) + f% 298.15) * RSR - f% 298.15
      else if j = 3 then (ofDec (aget2 n0iD i 3) - f% 1.0) * RSR
      else ofDec (aget2 n0iD i j) * RSR := by
  have h : ∀ j, aget (aget (runAsgP (ofDec : Dec → F) n0iAsg (fill 22 (fill 8 (f% 0.0)))) i) j = ofDec (aget2 n0iD i j) :=
    fun j => (mapRel_fill 22 8).runAsgP n0iAsg i j
  unfold n0i0
  show aget (aget _ i) j = _
  rw [setupN0i_get _ i hi]
  unfold n0iRow
  dsimp only
  have l : ∀ (r : Vector F 8) (j : Fin 8), aget (loop 1 8 r fun j r => aset r j (aget r j * RSR)) j
      = if 1 ≤ j.1 then aget r j * RSR else aget r j := fun r j => aget_loop_row (fun _ a => a * RSR) r j
  simp only [aget_aset, l, h]
  match j, hj with
  | 1, _ => rfl
  | 2, _ => rfl
  | 3, _ => rfl
  | 4, _ => rfl
  | 5, _ => rfl
  | 6, _ => rfl
  | 7, _ => rfl

end Aga8.Gerg
