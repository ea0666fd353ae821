import Verif.Lemmas.GergPure

/-! # `Gerg2008::new` succeeds -/

set_option linter.unusedSectionVars false

namespace Aga8.Gerg

open FOps Tab
open Detail (put2P)

variable {F : Type} [Add F] [Sub F] [Mul F] [Div F] [Neg F] [FOps F]

/-- Pure form of `runAsg`. -/
def runAsgP {α β : Type} {n m : Nat} (conv : β → α) (l : List (Nat × Nat × β))
    (v : Vector (Vector α m) n) : Vector (Vector α m) n :=
  l.foldl (fun v a => put2P v a.1 a.2.1 (conv a.2.2)) v

/-- Pure form of `runRow`. -/
def runRowP {α β : Type} {n m : Nat} (conv : β → α) (l : List (Nat × β)) (i : Nat)
    (v : Vector (Vector α m) n) : Vector (Vector α m) n :=
  l.foldl (fun v a => put2P v i a.1 (conv a.2)) v

/-- Pure form of `runExps`. -/
def runExpsP {α β : Type} (conv : β → α) (all long : List (Nat × β)) (asg : List (Nat × Nat × β))
    (v : Vector (Vector α 25) 22) : Vector (Vector α 25) 22 :=
  runAsgP conv asg (loopNP 1 5 (loopNP 1 22 v fun i v => runRowP conv all i v) fun i v =>
    if i != 3 then runRowP conv long i v else v)

theorem runAsg_ok {α β : Type} {n m : Nat} (conv : β → α) (l : List (Nat × Nat × β))
    (h : ∀ a ∈ l, a.1 < n ∧ a.2.1 < m) (v : Vector (Vector α m) n) :
    runAsg conv l v = .ok (runAsgP conv l v) :=
  foldlM_ok l _ _ v fun v a ha => put2_P v (h a ha).1 (h a ha).2 _

theorem runRow_ok {α β : Type} {n m : Nat} (conv : β → α) (l : List (Nat × β))
    (h : ∀ a ∈ l, a.1 < m) {i : Nat} (hi : i < n) (v : Vector (Vector α m) n) :
    runRow conv l i v = .ok (runRowP conv l i v) :=
  foldlM_ok l _ _ v fun v a ha => put2_P v hi (h a ha) _

theorem runExps_ok {α β : Type} (conv : β → α) (all long : List (Nat × β)) (asg : List (Nat × Nat × β))
    (h1 : ∀ a ∈ all, a.1 < 25) (h2 : ∀ a ∈ long, a.1 < 25)
    (h3 : ∀ a ∈ asg, a.1 < 22 ∧ a.2.1 < 25) (v : Vector (Vector α 25) 22) :
    runExps conv all long asg v = .ok (runExpsP conv all long asg v) := by
  unfold runExps runExpsP
  rw [loopN_ok (fun i v => runRowP conv all i v) (fun k v _ hk => runRow_ok conv all h1 hk v)]
  simp only [bind, Except.bind]
  rw [loopN_ok (fun i v => if i != 3 then runRowP conv long i v else v)]
  · simp only []
    rw [runAsg_ok conv asg h3]
  · intro k v _ hk
    split
    · exact runRow_ok conv long h2 (by omega) v
    · rfl

/-- Every entry of a matrix satisfies `P`. -/
theorem put2P_all {α : Type} {n m : Nat} {P : α → Prop} {v : Vector (Vector α m) n}
    (hv : ∀ i j, P (aget2 v i j)) (i j : Nat) {a : α} (ha : P a) :
    ∀ i' j', P (aget2 (put2P v i j a) i' j') := by
  intro i' j'
  unfold put2P
  split
  · rw [aget2_aset2]
    split
    · exact ha
    · exact hv _ _
  · exact hv _ _

theorem foldl_inv {σ τ : Type} (P : σ → Prop) (l : List τ) (f : σ → τ → σ)
    (h : ∀ s, ∀ a ∈ l, P s → P (f s a)) (s : σ) (h0 : P s) : P (l.foldl f s) := by
  induction l generalizing s with
  | nil => exact h0
  | cons a l ih =>
    exact ih (fun s b hb => h s b (List.mem_cons_of_mem _ hb)) _ (h s a List.mem_cons_self h0)

theorem runAsgP_all {α β : Type} {n m : Nat} {P : α → Prop} (conv : β → α)
    (l : List (Nat × Nat × β)) (h : ∀ a ∈ l, P (conv a.2.2)) (v : Vector (Vector α m) n)
    (hv : ∀ i j, P (aget2 v i j)) : ∀ i j, P (aget2 (runAsgP conv l v) i j) :=
  foldl_inv (fun v => ∀ i j, P (aget2 v i j)) l _ (fun _ a ha hv => put2P_all hv _ _ (h a ha)) v hv

theorem runRowP_all {α β : Type} {n m : Nat} {P : α → Prop} (conv : β → α)
    (l : List (Nat × β)) (h : ∀ a ∈ l, P (conv a.2)) (k : Nat) (v : Vector (Vector α m) n)
    (hv : ∀ i j, P (aget2 v i j)) : ∀ i j, P (aget2 (runRowP conv l k v) i j) :=
  foldl_inv (fun v => ∀ i j, P (aget2 v i j)) l _ (fun _ a ha hv => put2P_all hv _ _ (h a ha)) v hv

theorem runExpsP_all {α β : Type} {P : α → Prop} (conv : β → α) (all long : List (Nat × β))
    (asg : List (Nat × Nat × β)) (h1 : ∀ a ∈ all, P (conv a.2)) (h2 : ∀ a ∈ long, P (conv a.2))
    (h3 : ∀ a ∈ asg, P (conv a.2.2)) (v : Vector (Vector α 25) 22) (hv : ∀ i j, P (aget2 v i j)) :
    ∀ i j, P (aget2 (runExpsP conv all long asg v) i j) := by
  unfold runExpsP
  apply runAsgP_all conv asg h3
  apply loopNP_inv (fun v => ∀ i j, P (aget2 v i j))
  · apply loopNP_inv (fun v => ∀ i j, P (aget2 v i j)) hv
    intro k v _ _ hv
    exact runRowP_all conv all h1 k v hv
  · intro k v _ _ hv
    split
    · exact runRowP_all conv long h2 k v hv
    · exact hv

theorem coikAll_lt : ∀ a ∈ coikAll, a.1 < 25 ∧ a.2 < 8 := by decide +kernel
theorem coikLong_lt : ∀ a ∈ coikLong, a.1 < 25 ∧ a.2 < 8 := by decide +kernel
theorem coikAsg_lt : ∀ a ∈ coikAsg, a.1 < 22 ∧ a.2.1 < 25 ∧ a.2.2 < 8 := by decide +kernel
theorem doikAll_lt : ∀ a ∈ doikAll, a.1 < 25 ∧ a.2 < 8 := by decide +kernel
theorem doikLong_lt : ∀ a ∈ doikLong, a.1 < 25 ∧ a.2 < 8 := by decide +kernel
theorem doikAsg_lt : ∀ a ∈ doikAsg, a.1 < 22 ∧ a.2.1 < 25 ∧ a.2.2 < 8 := by decide +kernel
theorem toikAll_lt : ∀ a ∈ toikAll, a.1 < 25 := by decide +kernel
theorem toikLong_lt : ∀ a ∈ toikLong, a.1 < 25 := by decide +kernel
theorem toikAsg_lt : ∀ a ∈ toikAsg, a.1 < 22 ∧ a.2.1 < 25 := by decide +kernel
theorem dijkAsg_lt : ∀ a ∈ dijkAsg, a.1 < 13 ∧ a.2.1 < 13 ∧ a.2.2 < 8 := by decide +kernel
theorem tijkAsg_lt : ∀ a ∈ tijkAsg, a.1 < 11 ∧ a.2.1 < 13 := by decide +kernel
theorem cijkAsg_lt : ∀ a ∈ cijkAsg, a.1 < 11 ∧ a.2.1 < 13 := by decide +kernel
theorem eijkAsg_lt : ∀ a ∈ eijkAsg, a.1 < 11 ∧ a.2.1 < 13 := by decide +kernel
theorem bijkAsg_lt : ∀ a ∈ bijkAsg, a.1 < 11 ∧ a.2.1 < 13 := by decide +kernel
theorem gijkAsg_lt : ∀ a ∈ gijkAsg, a.1 < 11 ∧ a.2.1 < 13 := by decide +kernel
theorem nijkAsg_lt : ∀ a ∈ nijkAsg, a.1 < 11 ∧ a.2.1 < 13 := by decide +kernel
theorem n0iAsg_lt : ∀ a ∈ n0iAsg, a.1 < 22 ∧ a.2.1 < 8 := by decide +kernel
theorem bvijAsg_lt : ∀ a ∈ bvijAsg, a.1 < 22 ∧ a.2.1 < 22 := by decide +kernel
theorem gvijAsg_lt : ∀ a ∈ gvijAsg, a.1 < 22 ∧ a.2.1 < 22 := by decide +kernel
theorem btijAsg_lt : ∀ a ∈ btijAsg, a.1 < 22 ∧ a.2.1 < 22 := by decide +kernel
theorem gtijAsg_lt : ∀ a ∈ gtijAsg, a.1 < 22 ∧ a.2.1 < 22 := by decide +kernel

/-- `coik` after `setup`. -/
def coik0 : Vector (Vector Nat 25) 22 := runExpsP id coikAll coikLong coikAsg (fill 22 (fill 25 0))
/-- `doik` after `setup`. -/
def doik0 : Vector (Vector Nat 25) 22 := runExpsP id doikAll doikLong doikAsg (fill 22 (fill 25 0))
/-- `toik` after `setup`. -/
def toik0 : Vector (Vector F 25) 22 := runExpsP ofDec toikAll toikLong toikAsg (fill 22 (fill 25 (f% 0.0)))
/-- `dijk` after `setup`. -/
def dijk0 : Vector (Vector Nat 13) 13 := runAsgP id dijkAsg (fill 13 (fill 13 0))
/-- `tijk` after `setup`. -/
def tijk0 : Vector (Vector F 13) 11 := runAsgP ofDec tijkAsg (fill 11 (fill 13 (f% 0.0)))
/-- The local array `bijk` of `setup`. -/
def bijk0 : Vector (Vector F 13) 11 := runAsgP ofDec bijkAsg (fill 11 (fill 13 (f% 0.0)))
/-- `nijk` after `setup`. -/
def nijk0 : Vector (Vector F 13) 11 := runAsgP ofDec nijkAsg (fill 11 (fill 13 (f% 0.0)))
/-- The departure parameters after `setup`. -/
def dep0 : DepPar F := setupDep bijk0
  ⟨runAsgP ofDec cijkAsg (fill 11 (fill 13 (f% 0.0))), runAsgP ofDec eijkAsg (fill 11 (fill 13 (f% 0.0))),
    runAsgP ofDec gijkAsg (fill 11 (fill 13 (f% 0.0)))⟩
/-- `n0i` after `setup`. -/
def n0i0 : Vector (Vector F 8) 22 := setupN0i (runAsgP ofDec n0iAsg (fill 22 (fill 8 (f% 0.0))))
/-- The binary parameters after `setup`. -/
def bin0 : BinPar F := setupBin
  ⟨runAsgP ofDec bvijAsg (fill 22 (fill 22 (f% 0.0))), runAsgP ofDec gvijAsg (fill 22 (fill 22 (f% 0.0))),
    runAsgP ofDec btijAsg (fill 22 (fill 22 (f% 0.0))), runAsgP ofDec gtijAsg (fill 22 (fill 22 (f% 0.0)))⟩

/-- Pure form of `new`. -/
def newP : Gerg F := { (default : Gerg F) with
    coik := coik0, doik := doik0, toik := toik0, dijk := dijk0, tijk := tijk0
    cijk := dep0.cijk, eijk := dep0.eijk, gijk := dep0.gijk, nijk := nijk0, n0i := n0i0
    bvij := bin0.bvij, gvij := bin0.gvij, btij := bin0.btij, gtij := bin0.gtij }

attribute [local irreducible] runAsgP runExpsP setupDep setupBin setupN0i

theorem new_ok : (new : Res (Gerg F)) = .ok newP := by
  unfold new setup
  rw [runExps_ok id _ _ _ (fun a h => (coikAll_lt a h).1) (fun a h => (coikLong_lt a h).1)
      (fun a h => ⟨(coikAsg_lt a h).1, (coikAsg_lt a h).2.1⟩),
    runExps_ok id _ _ _ (fun a h => (doikAll_lt a h).1) (fun a h => (doikLong_lt a h).1)
      (fun a h => ⟨(doikAsg_lt a h).1, (doikAsg_lt a h).2.1⟩),
    runExps_ok ofDec _ _ _ toikAll_lt toikLong_lt toikAsg_lt,
    runAsg_ok id _ (fun a h => ⟨(dijkAsg_lt a h).1, (dijkAsg_lt a h).2.1⟩),
    runAsg_ok ofDec _ tijkAsg_lt, runAsg_ok ofDec _ cijkAsg_lt, runAsg_ok ofDec _ eijkAsg_lt,
    runAsg_ok ofDec _ bijkAsg_lt, runAsg_ok ofDec _ gijkAsg_lt, runAsg_ok ofDec _ nijkAsg_lt,
    runAsg_ok ofDec _ n0iAsg_lt, runAsg_ok ofDec _ bvijAsg_lt, runAsg_ok ofDec _ gvijAsg_lt,
    runAsg_ok ofDec _ btijAsg_lt, runAsg_ok ofDec _ gtijAsg_lt]
  rfl

theorem newP_idx : Idx (newP : Gerg F) where
  coik := by
    show ∀ i k, aget2 coik0 i k < 8
    exact runExpsP_all (P := fun x => x < 8) id _ _ _ (fun a h => (coikAll_lt a h).2) (fun a h => (coikLong_lt a h).2)
      (fun a h => (coikAsg_lt a h).2.2) _ (fun i j => by rw [aget2_fill]; decide)
  doik := by
    show ∀ i k, aget2 doik0 i k < 8
    exact runExpsP_all (P := fun x => x < 8) id _ _ _ (fun a h => (doikAll_lt a h).2) (fun a h => (doikLong_lt a h).2)
      (fun a h => (doikAsg_lt a h).2.2) _ (fun i j => by rw [aget2_fill]; decide)
  dijk := by
    show ∀ i k, aget2 dijk0 i k < 8
    exact runAsgP_all (P := fun x => x < 8) id _ (fun a h => (dijkAsg_lt a h).2.2) _ (fun i j => by rw [aget2_fill]; decide)

end Aga8.Gerg
