import Verif.Arith

/-! # Facts about arrays, loops and panics of the modelling layer -/

namespace Aga8

section arrays
variable {α : Type} {n m : Nat}

theorem aget_aset (v : Vector α n) (i j : Fin n) (a : α) :
    aget (aset v i a) j = if i = j then a else aget v j := by
  unfold aget aset
  rw [Vector.getElem_set]
  by_cases h : i = j
  · simp [h]
  · have : i.1 ≠ j.1 := fun h' => h (Fin.ext h')
    simp [h, this]

@[simp] theorem aget_aset_self (v : Vector α n) (i : Fin n) (a : α) : aget (aset v i a) i = a := by
  simp [aget_aset]

theorem aget_aset_ne (v : Vector α n) {i j : Fin n} (a : α) (h : i ≠ j) :
    aget (aset v i a) j = aget v j := by
  simp [aget_aset, h]

@[simp] theorem aget_fill (a : α) (i : Fin n) : aget (fill n a) i = a := by
  simp [aget, fill]

@[simp] theorem aget_ofFn (f : Fin n → α) (i : Fin n) : aget (Vector.ofFn f) i = f i := by
  simp [aget]

theorem arr_ext {v w : Vector α n} (h : ∀ i, aget v i = aget w i) : v = w := by
  apply Vector.ext
  intro i hi
  exact h ⟨i, hi⟩

theorem aget2_aset2 (v : Vector (Vector α m) n) (i i' : Fin n) (j j' : Fin m) (a : α) :
    aget2 (aset2 v i j a) i' j' = if i = i' ∧ j = j' then a else aget2 v i' j' := by
  unfold aget2 aset2
  rw [aget_aset]
  by_cases h : i = i'
  · subst h
    simp only [if_true, true_and]
    rw [aget_aset]
  · simp [h]

@[simp] theorem aget2_fill (a : α) (i : Fin n) (j : Fin m) : aget2 (fill n (fill m a)) i j = a := by
  simp [aget2]

theorem arr2_ext {v w : Vector (Vector α m) n} (h : ∀ i j, aget2 v i j = aget2 w i j) : v = w :=
  arr_ext fun i => arr_ext fun j => h i j

theorem idx_ok (v : Vector α n) {i : Nat} (h : i < n) : idx v i = .ok (aget v ⟨i, h⟩) := by
  simp [idx, h]

theorem put_ok (v : Vector α n) {i : Nat} (h : i < n) (a : α) :
    put v i a = .ok (aset v ⟨i, h⟩ a) := by
  simp [put, h]

theorem idx2_ok (v : Vector (Vector α m) n) {i j : Nat} (hi : i < n) (hj : j < m) :
    idx2 v i j = .ok (aget2 v ⟨i, hi⟩ ⟨j, hj⟩) := by
  simp only [idx2, idx_ok _ hi, bind, Except.bind, idx_ok _ hj, aget2]

theorem put2_ok (v : Vector (Vector α m) n) {i j : Nat} (hi : i < n) (hj : j < m) (a : α) :
    put2 v i j a = .ok (aset2 v ⟨i, hi⟩ ⟨j, hj⟩ a) := by
  simp only [put2, idx_ok _ hi, bind, Except.bind, put_ok _ hj, put_ok _ hi, aset2]

end arrays

section loops
variable {σ τ : Type}

theorem mem_rangeFin {lo n : Nat} {i : Fin n} : i ∈ rangeFin lo n ↔ lo ≤ i.1 := by
  unfold rangeFin
  rw [List.mem_drop_iff_getElem]
  constructor
  · rintro ⟨k, hk, rfl⟩
    simp
  · intro h
    refine ⟨i.1 - lo, ?_, ?_⟩
    · simp only [List.length_finRange]; have := i.2; omega
    · apply Fin.ext; simp; omega

theorem nodup_rangeFin (lo n : Nat) : (rangeFin lo n).Nodup :=
  (List.nodup_finRange n).sublist (List.drop_sublist lo _)

/-- Loop invariants. -/
theorem loop_inv {lo n : Nat} {s : σ} {body : Fin n → σ → σ} (P : σ → Prop) (h0 : P s)
    (hstep : ∀ i s, lo ≤ i.1 → P s → P (body i s)) : P (loop lo n s body) := by
  unfold loop
  have : ∀ (l : List (Fin n)) (s : σ), (∀ i ∈ l, lo ≤ i.1) → P s →
      P (l.foldl (fun s i => body i s) s) := by
    intro l
    induction l with
    | nil => intro s _ h; exact h
    | cons a l ih =>
      intro s hl h
      exact ih _ (fun i hi => hl i (List.mem_cons_of_mem _ hi)) (hstep a s (hl a List.mem_cons_self) h)
  exact this _ s (fun i hi => mem_rangeFin.1 hi) h0

/-- Relational loop invariants. -/
theorem loop_rel {lo n : Nat} {s : σ} {t : τ} {body : Fin n → σ → σ} {body' : Fin n → τ → τ}
    (R : σ → τ → Prop) (h0 : R s t)
    (hstep : ∀ i s t, lo ≤ i.1 → R s t → R (body i s) (body' i t)) :
    R (loop lo n s body) (loop lo n t body') := by
  unfold loop
  have : ∀ (l : List (Fin n)) (s : σ) (t : τ), (∀ i ∈ l, lo ≤ i.1) → R s t →
      R (l.foldl (fun s i => body i s) s) (l.foldl (fun s i => body' i s) t) := by
    intro l
    induction l with
    | nil => intro s t _ h; exact h
    | cons a l ih =>
      intro s t hl h
      exact ih _ _ (fun i hi => hl i (List.mem_cons_of_mem _ hi))
        (hstep a s t (hl a List.mem_cons_self) h)
  exact this _ s t (fun i hi => mem_rangeFin.1 hi) h0

theorem loop_congr {lo n : Nat} {s : σ} {body body' : Fin n → σ → σ}
    (h : ∀ i s, lo ≤ i.1 → body i s = body' i s) : loop lo n s body = loop lo n s body' :=
  loop_rel (fun a b => a = b) rfl (fun i s t hi e => by rw [e, h i t hi])

theorem foldlM_ok (l : List τ) (f : σ → τ → Res σ) (g : σ → τ → σ) (s : σ)
    (h : ∀ s, ∀ a ∈ l, f s a = .ok (g s a)) : l.foldlM f s = .ok (l.foldl g s) := by
  induction l generalizing s with
  | nil => rfl
  | cons a l ih =>
    simp only [List.foldlM_cons, List.foldl_cons]
    rw [h s a List.mem_cons_self]
    exact ih _ (fun s b hb => h s b (List.mem_cons_of_mem _ hb))

theorem loopM_ok {lo n : Nat} {s : σ} {body : Fin n → σ → Res σ} (g : Fin n → σ → σ)
    (h : ∀ i s, lo ≤ i.1 → body i s = .ok (g i s)) :
    loopM lo n s body = .ok (loop lo n s g) :=
  foldlM_ok _ _ (fun s i => g i s) s fun s i hi => h i s (mem_rangeFin.1 hi)

/-- The pure counterpart of `loopN`. -/
def loopNP (lo hi : Nat) (s : σ) (body : Nat → σ → σ) : σ :=
  (List.range' lo (hi - lo)).foldl (fun s k => body k s) s

theorem loopN_ok {lo hi : Nat} {s : σ} {body : Nat → σ → Res σ} (g : Nat → σ → σ)
    (h : ∀ k s, lo ≤ k → k < hi → body k s = .ok (g k s)) :
    loopN lo hi s body = .ok (loopNP lo hi s g) :=
  foldlM_ok _ _ (fun s i => g i s) s fun s k hk => by
    rw [List.mem_range'_1] at hk
    exact h k s hk.1 (by omega)

theorem loopNP_inv {lo hi : Nat} {s : σ} {body : Nat → σ → σ} (P : σ → Prop) (h0 : P s)
    (hstep : ∀ k s, lo ≤ k → k < hi → P s → P (body k s)) : P (loopNP lo hi s body) := by
  unfold loopNP
  have : ∀ (l : List Nat) (s : σ), (∀ i ∈ l, lo ≤ i ∧ i < hi) → P s →
      P (l.foldl (fun s i => body i s) s) := by
    intro l
    induction l with
    | nil => intro s _ h; exact h
    | cons a l ih =>
      intro s hl h
      have := hl a List.mem_cons_self
      exact ih _ (fun i hi => hl i (List.mem_cons_of_mem _ hi)) (hstep a s this.1 this.2 h)
  exact this _ s (fun i hi => by rw [List.mem_range'_1] at hi; omega) h0

theorem loopNP_rel {lo hi : Nat} {s : σ} {t : τ} {body : Nat → σ → σ} {body' : Nat → τ → τ}
    (R : σ → τ → Prop) (h0 : R s t)
    (hstep : ∀ k s t, lo ≤ k → k < hi → R s t → R (body k s) (body' k t)) :
    R (loopNP lo hi s body) (loopNP lo hi t body') := by
  unfold loopNP
  have : ∀ (l : List Nat) (s : σ) (t : τ), (∀ i ∈ l, lo ≤ i ∧ i < hi) → R s t →
      R (l.foldl (fun s i => body i s) s) (l.foldl (fun s i => body' i s) t) := by
    intro l
    induction l with
    | nil => intro s t _ h; exact h
    | cons a l ih =>
      intro s t hl h
      have := hl a List.mem_cons_self
      exact ih _ _ (fun i hi => hl i (List.mem_cons_of_mem _ hi)) (hstep a s t this.1 this.2 h)
  exact this _ s t (fun i hi => by rw [List.mem_range'_1] at hi; omega) h0

theorem loopNP_congr {lo hi : Nat} {s : σ} {body body' : Nat → σ → σ}
    (h : ∀ k s, lo ≤ k → k < hi → body k s = body' k s) :
    loopNP lo hi s body = loopNP lo hi s body' :=
  loopNP_rel (fun a b => a = b) rfl (fun i s t h1 h2 e => by rw [e, h i t h1 h2])

/-- A loop that rewrites each array entry once from its old value. -/
theorem aget_foldl_aset {α : Type} {n : Nat} (l : List (Fin n)) (hl : l.Nodup)
    (f : Fin n → α → α) (v : Vector α n) (j : Fin n) :
    aget (l.foldl (fun v i => aset v i (f i (aget v i))) v) j
      = if j ∈ l then f j (aget v j) else aget v j := by
  induction l generalizing v with
  | nil => simp
  | cons a l ih =>
    rw [List.nodup_cons] at hl
    rw [List.foldl_cons, ih hl.2, aget_aset]
    by_cases hj : j = a
    · subst hj
      simp [hl.1]
    · have : a ≠ j := fun h => hj h.symm
      simp [hj, this]

theorem aget_loop_aset {α : Type} {lo n : Nat} (f : Fin n → α → α) (v : Vector α n) (j : Fin n) :
    aget (loop lo n v fun i v => aset v i (f i (aget v i))) j
      = if lo ≤ j.1 then f j (aget v j) else aget v j := by
  unfold loop
  rw [aget_foldl_aset _ (nodup_rangeFin lo n)]
  simp only [mem_rangeFin]

theorem aget_loop_const {α : Type} {lo n : Nat} (f : Fin n → α) (v : Vector α n) (j : Fin n) :
    aget (loop lo n v fun i v => aset v i (f i)) j = if lo ≤ j.1 then f j else aget v j :=
  aget_loop_aset (fun i _ => f i) v j

theorem loop_const {α : Type} {n : Nat} (f : Fin n → α) (v : Vector α n) :
    loop 0 n v (fun i v => aset v i (f i)) = Vector.ofFn f := by
  apply arr_ext
  intro j
  rw [aget_loop_const]
  simp

/-- Unfolding a loop with a static bound. -/
theorem rangeFin_succ {lo n : Nat} (h : lo < n) :
    rangeFin lo n = ⟨lo, h⟩ :: rangeFin (lo + 1) n := by
  unfold rangeFin
  rw [List.drop_eq_getElem_cons (by simpa using h)]
  simp

theorem rangeFin_self (n : Nat) : rangeFin n n = [] := by
  simp [rangeFin]

theorem rangeFin_of_le {lo n : Nat} (h : n ≤ lo) : rangeFin lo n = [] := by
  simp [rangeFin, h]

theorem loop_step {lo n : Nat} (s : σ) (body : Fin n → σ → σ) (h : lo < n) :
    loop lo n s body = loop (lo + 1) n (body ⟨lo, h⟩ s) body := by
  unfold loop
  rw [rangeFin_succ h, List.foldl_cons]

theorem loop_done {lo n : Nat} (s : σ) (body : Fin n → σ → σ) (h : n ≤ lo) :
    loop lo n s body = s := by
  unfold loop
  rw [rangeFin_of_le h, List.foldl_nil]

end loops

end Aga8
