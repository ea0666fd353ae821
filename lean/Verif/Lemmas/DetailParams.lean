import Verif.Lemmas.DetailHist

/-! # The parameters stored in a new DETAIL object -/

set_option linter.unusedSectionVars false

namespace Aga8

/-- A component of the loop state written in round `k` only. -/
theorem loop_entry {σ α : Type} {n : Nat} (P : σ → Prop) (π : σ → α) (k : Fin n) (v : α)
    (body : Fin n → σ → σ) (s : σ) (hP : P s) (hpres : ∀ i s, P s → P (body i s))
    (hset : ∀ s, P s → π (body k s) = v)
    (hoth : ∀ i s, i ≠ k → P s → π (body i s) = π s) : π (loop 0 n s body) = v := by
  unfold loop
  have key : ∀ (l : List (Fin n)) (s : σ), P s → (k ∈ l ∨ π s = v) →
      π (l.foldl (fun s i => body i s) s) = v := by
    intro l
    induction l with
    | nil => intro s _ h; simpa using h
    | cons a l ih =>
      intro s hs h
      rw [List.foldl_cons]
      apply ih _ (hpres a s hs)
      by_cases ha : a = k
      · subst ha; exact Or.inr (hset s hs)
      · rcases h with h | h
        · exact Or.inl ((List.mem_cons.1 h).resolve_left (fun e => ha e.symm))
        · exact Or.inr ((hoth a s ha hs).trans h)
  exact key _ s hP (Or.inl (mem_rangeFin.2 (Nat.zero_le _)))

end Aga8

namespace Aga8.Detail

open FOps Tab

attribute [local irreducible] loop

variable {F : Type} [Add F] [Sub F] [Mul F] [Div F] [Neg F] [FOps F]

/-- `bsnij2[i][j][n]` as `setup` computes it. -/
def bVal (i j : Fin 21) (n : Fin 18) : F :=
  tab AN ⟨n.1, by omega⟩ * powf (tab2 EIJ i j * sqrt (tab EI i * tab EI j)) (tab UN ⟨n.1, by omega⟩)
    * powf (tab KI i * tab KI j) (f% 1.5) * bsnij i j n

/-- `kij5[i][j]` as `setup` computes it. -/
def kVal (i j : Fin 21) : F :=
  (powi (tab2 KIJ i j) 5 - f% 1.0) * powf (tab KI i) (f% 2.5) * powf (tab KI j) (f% 2.5)
/-- `uij5[i][j]` as `setup` computes it. -/
def uVal (i j : Fin 21) : F :=
  (powi (tab2 UIJ i j) 5 - f% 1.0) * powf (tab EI i) (f% 2.5) * powf (tab EI j) (f% 2.5)
/-- `gij5[i][j]` as `setup` computes it. -/
def gVal (i j : Fin 21) : F := (tab2 GIJ i j - f% 1.0) * (tab GI i + tab GI j) / f% 2.0

/-- The powers are in place. -/
def PowOK (s : Detail F) : Prop :=
  (∀ i, aget s.ki25 i = powf (tab KI i) (f% 2.5)) ∧ (∀ i, aget s.ei25 i = powf (tab EI i) (f% 2.5))

theorem setupPow_powOK (s : Detail F) : PowOK (setupPow s) := by
  unfold setupPow
  refine ⟨fun k => ?_, fun k => ?_⟩
  · refine loop_entry (fun _ => True) (fun s : Detail F => aget s.ki25 k) k _ _ _ trivial (fun _ _ _ => trivial)
      (fun s _ => ?_) (fun i s hi _ => ?_)
    · simp
    · simp only [aget_aset_ne _ _ hi]
  · refine loop_entry (fun _ => True) (fun s : Detail F => aget s.ei25 k) k _ _ _ trivial (fun _ _ _ => trivial)
      (fun s _ => ?_) (fun i s hi _ => ?_)
    · simp
    · simp only [aget_aset_ne _ _ hi]

/-- `setupB i j n` writes one entry. -/
theorem setupB_get (i j : Fin 21) (n : Fin 18) (s : Detail F) (i' j' : Fin 21) (n' : Fin 18) :
    aget (aget2 (setupB i j n s).bsnij2 i' j') n'
      = if i = i' ∧ j = j' ∧ n = n' then bVal i j n else aget (aget2 s.bsnij2 i' j') n' := by
  unfold setupB aget2
  dsimp only
  rw [aget_aset]
  by_cases hi : i = i'
  · subst hi
    rw [if_pos rfl, aget_aset]
    by_cases hj : j = j'
    · subst hj
      rw [if_pos rfl, aget_aset]
      by_cases hn : n = n'
      · subst hn; simp [bVal]
      · simp [hn]
    · simp [hj]
  · simp [hi]

theorem setupB_loop (i j : Fin 21) (s : Detail F) (i' j' : Fin 21) (n' : Fin 18) :
    aget (aget2 (loop 0 18 s (setupB i j)).bsnij2 i' j') n'
      = if i = i' ∧ j = j' then bVal i' j' n' else aget (aget2 s.bsnij2 i' j') n' := by
  by_cases h : i = i' ∧ j = j'
  · obtain ⟨rfl, rfl⟩ := h
    simp only [and_self, if_true]
    refine loop_entry (fun _ => True) (fun s : Detail F => aget (aget2 s.bsnij2 i j) n') n' _ _ _ trivial
      (fun _ _ _ => trivial) (fun s _ => ?_) (fun n s hn _ => ?_)
    · simp [setupB_get]
    · simp [setupB_get, hn]
  · rw [if_neg h]
    refine loop_inv (fun s1 : Detail F => aget (aget2 s1.bsnij2 i' j') n' = aget (aget2 s.bsnij2 i' j') n') rfl
      fun n s1 _ h1 => ?_
    rw [setupB_get, if_neg (fun e => h ⟨e.1, e.2.1⟩), h1]

theorem setupB_loop_rest (i j : Fin 21) (s : Detail F) :
    (loop 0 18 s (setupB i j)).ki25 = s.ki25 ∧ (loop 0 18 s (setupB i j)).ei25 = s.ei25 ∧
    (loop 0 18 s (setupB i j)).kij5 = s.kij5 ∧ (loop 0 18 s (setupB i j)).uij5 = s.uij5 ∧
    (loop 0 18 s (setupB i j)).gij5 = s.gij5 ∧ (loop 0 18 s (setupB i j)).n0i = s.n0i := by
  refine loop_inv (fun s1 : Detail F => s1.ki25 = s.ki25 ∧ s1.ei25 = s.ei25 ∧ s1.kij5 = s.kij5 ∧
    s1.uij5 = s.uij5 ∧ s1.gij5 = s.gij5 ∧ s1.n0i = s.n0i) ⟨rfl, rfl, rfl, rfl, rfl, rfl⟩ ?_
  intro n s1 _ h
  exact h

/-- What `setupIJ` does. -/
theorem setupIJ_get (i j : Fin 21) (s : Detail F) (hp : PowOK s) (i' j' : Fin 21) :
    PowOK (setupIJ i j s) ∧ (setupIJ i j s).n0i = s.n0i ∧
    (∀ n, aget (aget2 (setupIJ i j s).bsnij2 i' j') n
      = if i = i' ∧ j = j' then bVal i' j' n else aget (aget2 s.bsnij2 i' j') n) ∧
    aget2 (setupIJ i j s).kij5 i' j' = (if i = i' ∧ j = j' then kVal i' j' else aget2 s.kij5 i' j') ∧
    aget2 (setupIJ i j s).uij5 i' j' = (if i = i' ∧ j = j' then uVal i' j' else aget2 s.uij5 i' j') ∧
    aget2 (setupIJ i j s).gij5 i' j' = (if i = i' ∧ j = j' then gVal i' j' else aget2 s.gij5 i' j') := by
  have hb := setupB_loop i j s i' j'
  obtain ⟨r1, r2, r3, r4, r5, r6⟩ := setupB_loop_rest i j s
  unfold setupIJ
  generalize loop 0 18 s (setupB i j) = s1 at *
  dsimp only
  refine ⟨?_, r6, hb, ?_, ?_, ?_⟩
  · unfold PowOK
    dsimp only
    rw [r1, r2]; exact hp
  · rw [aget2_aset2, r1, r3, hp.1, hp.1]
    split
    · rename_i h; obtain ⟨rfl, rfl⟩ := h; rfl
    · rfl
  · rw [aget2_aset2, r2, r4, hp.2, hp.2]
    split
    · rename_i h; obtain ⟨rfl, rfl⟩ := h; rfl
    · rfl
  · rw [aget2_aset2, r5]
    split
    · rename_i h; obtain ⟨rfl, rfl⟩ := h; rfl
    · rfl

/-- A component written in round `(i', j')` only of the double loop. -/
theorem setupLoops_entry {α : Type} (π : Detail F → α) (i' j' : Fin 21) (v : α)
    (h : ∀ i j s, PowOK s → π (setupIJ i j s) = if i = i' ∧ j = j' then v else π s) (s : Detail F)
    (hp : PowOK s) : π (loop 0 21 s fun i s => loop 0 21 s fun j s => setupIJ i j s) = v := by
  have hpres : ∀ i (s : Detail F), PowOK s → PowOK (loop 0 21 s fun j s => setupIJ i j s) := by
    intro i s hs
    exact loop_inv PowOK hs (fun j s _ h => (setupIJ_get i j s h i' j').1)
  refine loop_entry PowOK π i' v _ _ hp hpres ?_ ?_
  · intro s hs
    refine loop_entry PowOK π j' v _ _ hs (fun j s h => (setupIJ_get i' j s h i' j').1) ?_ ?_
    · intro s hs; rw [h i' j' s hs]; simp
    · intro j s hj hs; rw [h i' j s hs]; simp [hj]
  · intro i s hi hs
    have := loop_inv (lo := 0) (n := 21) (s := s) (body := fun j s => setupIJ i j s)
      (fun s1 => PowOK s1 ∧ π s1 = π s) ⟨hs, rfl⟩ (fun j s1 _ h1 => ?_)
    · exact this.2
    · refine ⟨(setupIJ_get i j s1 h1.1 i' j').1, ?_⟩
      rw [h i j s1 h1.1, if_neg (fun e => hi e.1)]
      exact h1.2

theorem setupIdeal_rest (s : Detail F) :
    (setupIdeal s).ki25 = s.ki25 ∧ (setupIdeal s).ei25 = s.ei25 ∧ (setupIdeal s).kij5 = s.kij5 ∧
    (setupIdeal s).uij5 = s.uij5 ∧ (setupIdeal s).gij5 = s.gij5 ∧
    (setupIdeal s).bsnij2 = s.bsnij2 := by
  unfold setupIdeal
  refine loop_inv (fun s1 : Detail F => s1.ki25 = s.ki25 ∧ s1.ei25 = s.ei25 ∧ s1.kij5 = s.kij5 ∧
    s1.uij5 = s.uij5 ∧ s1.gij5 = s.gij5 ∧ s1.bsnij2 = s.bsnij2) ⟨rfl, rfl, rfl, rfl, rfl, rfl⟩ ?_
  intro n s1 _ h
  exact h

theorem setupLoops_powOK (s : Detail F) (hp : PowOK s) :
    PowOK (loop 0 21 s fun i s => loop 0 21 s fun j s => setupIJ i j s) :=
  loop_inv PowOK hp fun i _ _ h => loop_inv PowOK h fun j s1 _ h1 => (setupIJ_get i j s1 h1 0 0).1

theorem withN0i_powOK (s : Detail F) (n : Vector (Vector F 7) 21) (hp : PowOK s) :
    PowOK { s with n0i := n } := hp

theorem setN0i_powOK (s : Detail F) (hp : PowOK s) : PowOK (setN0i s) :=
  withN0i_powOK s _ hp

/-- The parameters of a new object. -/
theorem newP_params (i j : Fin 21) :
    aget (newP : Detail F).ki25 i = powf (tab KI i) (f% 2.5) ∧
    aget (newP : Detail F).ei25 i = powf (tab EI i) (f% 2.5) ∧
    (∀ n, aget (aget2 (newP : Detail F).bsnij2 i j) n = bVal i j n) ∧
    aget2 (newP : Detail F).kij5 i j = kVal i j ∧
    aget2 (newP : Detail F).uij5 i j = uVal i j ∧
    aget2 (newP : Detail F).gij5 i j = gVal i j := by
  unfold newP setupP
  have hp : PowOK (setN0i (setupPow (default : Detail F))) := setN0i_powOK _ (setupPow_powOK _)
  generalize setN0i (setupPow (default : Detail F)) = s1 at hp
  have k1 := setupLoops_powOK s1 hp
  have k2 := setupLoops_entry (fun s : Detail F => fun n => aget (aget2 s.bsnij2 i j) n) i j (bVal i j) (by
    intro i1 j1 s h
    funext n
    rw [(setupIJ_get i1 j1 s h i j).2.2.1]
    split <;> rfl) s1 hp
  have k3 := setupLoops_entry (fun s : Detail F => aget2 s.kij5 i j) i j (kVal i j)
    (fun i1 j1 s h => (setupIJ_get i1 j1 s h i j).2.2.2.1) s1 hp
  have k4 := setupLoops_entry (fun s : Detail F => aget2 s.uij5 i j) i j (uVal i j)
    (fun i1 j1 s h => (setupIJ_get i1 j1 s h i j).2.2.2.2.1) s1 hp
  have k5 := setupLoops_entry (fun s : Detail F => aget2 s.gij5 i j) i j (gVal i j)
    (fun i1 j1 s h => (setupIJ_get i1 j1 s h i j).2.2.2.2.2) s1 hp
  generalize (loop 0 21 s1 fun i s => loop 0 21 s fun j s => setupIJ i j s) = s2 at *
  obtain ⟨r1, r2, r3, r4, r5, r6⟩ := setupIdeal_rest s2
  rw [r1, r2, r3, r4, r5, r6]
  exact ⟨k1.1 i, k1.2 i, fun n => congrFun k2 n, k3, k4, k5⟩

end Aga8.Detail
