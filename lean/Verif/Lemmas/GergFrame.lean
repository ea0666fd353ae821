import Verif.Spec.GergApi
import Verif.Lemmas.GergNew

/-! # What the GERG functions change, and their caches -/

set_option linter.unusedSectionVars false

namespace Aga8.Gerg

open FOps Tab
open Detail (put2P)

variable {F : Type} [Add F] [Sub F] [Mul F] [Div F] [Neg F] [FOps F]

/-- The cached terms of the object. -/
structure Cache (F : Type) where
  drold : F
  trold : F
  told : F
  trold2 : F
  xold : Vector F 22
  taup : Vector (Vector F 25) 22
  taupijk : Vector (Vector F 13) 22

def cache (s : Gerg F) : Cache F := ⟨s.drold, s.trold, s.told, s.trold2, s.xold, s.taup, s.taupijk⟩

/-- The scratch fields of the object, always written before they are read. -/
structure Scratch (F : Type) where
  a : F
  a0 : Vector F 3
  ar : Ar F
  dpddsave : F

def scratch (s : Gerg F) : Scratch F := ⟨s.a, s.a0, s.ar, s.dpddsave⟩

/-- An object is its public part, parameters, cache and scratch. -/
def mkG (q : Pub F) (m : Params F) (c : Cache F) (r : Scratch F) : Gerg F where
  t := q.t
  p := q.p
  d := q.d
  z := q.z
  mm := q.mm
  dp_dd := q.dp_dd
  d2p_dd2 := q.d2p_dd2
  d2p_dtd := q.d2p_dtd
  dp_dt := q.dp_dt
  u := q.u
  h := q.h
  s := q.s
  cv := q.cv
  cp := q.cp
  w := q.w
  g := q.g
  jt := q.jt
  kappa := q.kappa
  x := q.x
  drold := c.drold
  trold := c.trold
  told := c.told
  trold2 := c.trold2
  xold := c.xold
  a := r.a
  a0 := r.a0
  ar := r.ar
  dpddsave := r.dpddsave
  taup := c.taup
  taupijk := c.taupijk
  coik := m.coik
  doik := m.doik
  toik := m.toik
  dijk := m.dijk
  tijk := m.tijk
  cijk := m.cijk
  eijk := m.eijk
  gijk := m.gijk
  nijk := m.nijk
  n0i := m.n0i
  bvij := m.bvij
  gvij := m.gvij
  btij := m.btij
  gtij := m.gtij

theorem mkG_eta (s : Gerg F) : mkG (pub s) (params s) (cache s) (scratch s) = s := rfl

theorem ext4 {s s' : Gerg F} (h1 : pub s = pub s') (h2 : params s = params s')
    (h3 : cache s = cache s') (h4 : scratch s = scratch s') : s = s' := by
  rw [← mkG_eta s, ← mkG_eta s', h1, h2, h3, h4]

/-! ## Change detection -/

/-- Some component moved by more than 1e-7. -/
def xDiff (x y : Vector F 22) : Bool :=
  (rangeFin 1 22).any fun i => f% 0.0000001 <. abs (aget x i - aget y i)

theorem xDiff_iff (x y : Vector F 22) : xDiff x y = true ↔ XFar x y := by
  unfold xDiff XFar
  rw [List.any_eq_true]
  simp only [mem_rangeFin]

/-- The remembered composition after the check: slot 0 is not copied. -/
def xSave (x y : Vector F 22) : Vector F 22 :=
  Vector.ofFn fun i => if 1 ≤ i.1 then aget x i else aget y i

theorem rpCheck_eq (s : Gerg F) : rpCheck s = (xDiff s.x s.xold, xSave s.x s.xold) := by
  have key : ∀ (l : List (Fin 22)), l.Nodup → ∀ (st : Bool × Vector F 22),
      (l.foldl (fun (st : Bool × Vector F 22) i =>
        (if f% 0.0000001 <. abs (aget s.x i - aget st.2 i) then true else st.1,
          aset st.2 i (aget s.x i))) st)
      = (st.1 || l.any fun i => f% 0.0000001 <. abs (aget s.x i - aget st.2 i),
          l.foldl (fun v i => aset v i (aget s.x i)) st.2) := by
    intro l
    induction l with
    | nil => intro _ st; simp
    | cons a l ih =>
      intro hl st
      rw [List.nodup_cons] at hl
      rw [List.foldl_cons, ih hl.2]
      simp only [List.any_cons, List.foldl_cons, Prod.mk.injEq, and_true]
      have : (l.any fun i => f% 0.0000001 <. abs (aget s.x i - aget (aset st.2 a (aget s.x a)) i))
          = (l.any fun i => f% 0.0000001 <. abs (aget s.x i - aget st.2 i)) := by
        rw [Bool.eq_iff_iff, List.any_eq_true, List.any_eq_true]
        constructor <;> rintro ⟨i, hi, h⟩ <;> refine ⟨i, hi, ?_⟩
        · rwa [aget_aset_ne _ _ (fun e : a = i => hl.1 (e ▸ hi))] at h
        · rwa [aget_aset_ne _ _ (fun e : a = i => hl.1 (e ▸ hi))]
      rw [this]
      cases (f% 0.0000001 : F) <. abs (aget s.x a - aget st.2 a) <;> simp
  unfold rpCheck loop
  rw [key _ (nodup_rangeFin 1 22)]
  have h2 : (rangeFin 1 22).foldl (fun v i => aset v i (aget s.x i)) s.xold = xSave s.x s.xold := by
    apply arr_ext
    intro j
    have := aget_loop_const (lo := 1) (fun i => aget s.x i) s.xold j
    unfold loop at this
    rw [this, xSave, aget_ofFn]
  rw [h2]
  rfl

theorem xSave_same (x y : Vector F 22) : XSame (xSave x y) x := by
  intro i hi
  rw [xSave, aget_ofFn, if_pos hi]

/-! ## Reducing parameters -/

/-- The object carrying only a composition and the `bvij` parameters. -/
def bareXB (x : Vector F 22) (b : Vector (Vector F 22) 22) : Gerg F := { default with x := x, bvij := b }

/-- The sums of the reducing functions. -/
def redX (x : Vector F 22) (b : Vector (Vector F 22) 22) : F × F :=
  loop 1 22 (f% 0.0, f% 0.0) (rpRow (bareXB x b))

theorem rpRow_bare (s : Gerg F) : rpRow s = rpRow (bareXB s.x s.bvij) := rfl

/-- The reducing density of a composition. -/
def drOf (x : Vector F 22) (b : Vector (Vector F 22) 22) : F :=
  if EPSILON <. (redX x b).1 then f% 1.0 / (redX x b).1 else f% 0.0

/-- The reducing temperature of a composition. -/
def trOf (x : Vector F 22) (b : Vector (Vector F 22) 22) : F := (redX x b).2

theorem XSame.symm {x y : Vector F 22} (h : XSame x y) : XSame y x := fun i hi => (h i hi).symm
theorem XSame.trans {x y z : Vector F 22} (h : XSame x y) (h' : XSame y z) : XSame x z :=
  fun i hi => (h i hi).trans (h' i hi)

theorem redX_congr {x y : Vector F 22} (h : XSame x y) (b : Vector (Vector F 22) 22) :
    redX x b = redX y b := by
  unfold redX
  apply loop_congr
  intro i a hi
  unfold rpRow
  have e1 : aget (bareXB x b).x i = aget (bareXB y b).x i := h i hi
  rw [e1]
  split
  · rw [loop_congr (body := rpPair (bareXB x b) i) (body' := rpPair (bareXB y b) i)]
    intro j a hj
    have e2 : aget (bareXB x b).x j = aget (bareXB y b).x j := h j (Nat.le_trans hi hj)
    have e3 : (bareXB x b).bvij = (bareXB y b).bvij := rfl
    unfold rpPair
    rw [e1, e2, e3]
  · rfl

/-- The object with a new composition key and reducing parameters. -/
def withRed (s : Gerg F) (xold : Vector F 22) (dr tr told trold2 : F) : Gerg F :=
  { s with xold := xold, drold := dr, trold := tr, told := told, trold2 := trold2 }

theorem reducing_eq (s : Gerg F) : reducingparameters s =
    if xDiff s.x s.xold then
      (withRed s (xSave s.x s.xold) (drOf s.x s.bvij) (trOf s.x s.bvij) (f% 0.0) (f% 0.0),
        drOf s.x s.bvij, trOf s.x s.bvij)
    else (withRed s (xSave s.x s.xold) s.drold s.trold s.told s.trold2, s.drold, s.trold) := by
  unfold reducingparameters
  simp only [rpCheck_eq]
  cases xDiff s.x s.xold
  · rfl
  · simp only [Bool.not_true, Bool.false_eq_true, if_false, if_true]
    rfl

/-! ## Temperature terms -/

/-- A loop establishes what one of its rounds establishes and all rounds preserve. -/
theorem loop_hit {σ : Type} {lo n : Nat} {s : σ} {body : Fin n → σ → σ} (Q : σ → Prop) (i0 : Fin n)
    (hi : lo ≤ i0.1) (hpres : ∀ i s, lo ≤ i.1 → Q s → Q (body i s)) (hest : ∀ s, Q (body i0 s)) :
    Q (loop lo n s body) := by
  have : ∀ (l : List (Fin n)) (s : σ), (∀ i ∈ l, lo ≤ i.1) → i0 ∈ l →
      Q (l.foldl (fun s i => body i s) s) := by
    intro l
    induction l with
    | nil => intro s _ h; cases h
    | cons a l ih =>
      intro s hl h
      rw [List.foldl_cons]
      by_cases h' : i0 ∈ l
      · exact ih _ (fun i hi => hl i (List.mem_cons_of_mem _ hi)) h'
      · have ha : i0 = a := by
          rcases List.mem_cons.1 h with h | h
          · exact h
          · exact absurd h h'
        subst ha
        exact foldl_inv Q l _ (fun s b hb hq => hpres b s (hl b (List.mem_cons_of_mem _ hb)) hq) _
          (hest s)
  exact this _ s (fun i hi => mem_rangeFin.1 hi) (mem_rangeFin.2 hi)

theorem foldl_hit {σ τ : Type} (Q : σ → Prop) (l : List τ) (f : σ → τ → σ) (a0 : τ) (h0 : a0 ∈ l)
    (hpres : ∀ s, ∀ a ∈ l, Q s → Q (f s a)) (hest : ∀ s, Q (f s a0)) (s : σ) : Q (l.foldl f s) := by
  induction l generalizing s with
  | nil => cases h0
  | cons a l ih =>
    rw [List.foldl_cons]
    by_cases h' : a0 ∈ l
    · exact ih h' (fun s b hb => hpres s b (List.mem_cons_of_mem _ hb)) _
    · have ha : a0 = a := by
        rcases List.mem_cons.1 h0 with h | h
        · exact h
        · exact absurd h h'
      subst ha
      exact foldl_inv Q l f (fun s b hb => hpres s b (List.mem_cons_of_mem _ hb)) _ (hest s)

theorem aget2_put2P {α : Type} {n m : Nat} (v : Vector (Vector α m) n) (i j : Nat) (a : α)
    (i' : Fin n) (j' : Fin m) :
    aget2 (put2P v i j a) i' j' = if i = i'.1 ∧ j = j'.1 then a else aget2 v i' j' := by
  unfold put2P
  split
  · rename_i h
    rw [aget2_aset2]
    simp only [Fin.ext_iff]
  · rename_i h
    rw [if_neg]
    rintro ⟨rfl, rfl⟩
    exact h ⟨i'.2, j'.2⟩

/-- Pure-fluid temperature terms that an evaluation reads: those of the components present. -/
def readP (x : Vector F 22) (i : Fin 22) (k : Fin 25) : Prop :=
  1 ≤ i.1 ∧ FOps.lt EPSILON (aget x i) = true ∧ 1 ≤ k.1 ∧ k.1 ≤ aget KPOL i + aget KEXP i

instance (x : Vector F 22) (i : Fin 22) (k : Fin 25) : Decidable (readP x i k) := by
  unfold readP; infer_instance

/-- The value of a pure-fluid temperature term. -/
def tpVal (toik : Vector (Vector F 25) 22) (lntau : F) (i : Fin 22) (k : Fin 25) : F :=
  if longForm i then tab2 NOIK i k * exp (aget2 toik i k * lntau)
  else tab2 NOIK i k * exp (aget2 toik 5 k * lntau)

theorem short_terms : ∀ i : Fin 22, longForm i = false → aget KPOL i + aget KEXP i = 12 := by
  decide +kernel

theorem ttPropane_get (s : Gerg F) (lntau : F) (k : Fin 13) (hk : 1 ≤ k.1) :
    aget (ttPropane s lntau) k = exp (aget2 s.toik 5 ⟨k.1, by omega⟩ * lntau) := by
  unfold ttPropane
  rw [aget_loop_const]
  rw [if_pos hk]

theorem ttPureP_get (s : Gerg F) (lntau : F) (i : Fin 22) (v : Vector (Vector F 25) 22)
    (hx : FOps.lt EPSILON (aget s.x i) = true) (k : Fin 25) (h1 : 1 ≤ k.1)
    (h2 : k.1 ≤ aget KPOL i + aget KEXP i) :
    aget2 (ttPureP s lntau (ttPropane s lntau) i v) i k = tpVal s.toik lntau i k := by
  unfold ttPureP
  rw [if_pos hx]
  have hl : longForm i = !(i.1 > 4 && i.1 != 15 && i.1 != 18 && i.1 != 20) := rfl
  unfold tpVal
  cases h : (decide (i.1 > 4) && i.1 != 15 && i.1 != 18 && i.1 != 20)
  · rw [hl, h]
    simp only [Bool.not_false, if_true, Bool.false_eq_true, if_false]
    have hP := KPOL_KEXP_lt i
    unfold loopNP
    apply foldl_hit (fun v => aget2 v i k = tab2 NOIK i k * exp (aget2 s.toik i k * lntau)) _ _ k.1
    · rw [List.mem_range'_1]; omega
    · intro v a _ hv
      rw [aget2_put2P]
      split
      · rename_i e
        have ha : a = k.1 := e.2
        subst ha
        rw [gd, dif_pos k.2, gd, dif_pos k.2]
        rfl
      · exact hv
    · intro v
      rw [aget2_put2P, if_pos ⟨rfl, rfl⟩, gd, dif_pos k.2, gd, dif_pos k.2]
      rfl
  · rw [hl, h]
    have h12 := short_terms i (by rw [hl, h]; rfl)
    simp only [Bool.not_true, Bool.false_eq_true, if_false, if_true]
    have hval : ∀ k' : Fin 13, k'.1 = k.1 → tab2 NOIK i ⟨k'.1, by omega⟩
        * aget (ttPropane s lntau) k' = tab2 NOIK i k * exp (aget2 s.toik 5 k * lntau) := by
      intro k' e
      rw [ttPropane_get s lntau k' (by omega)]
      have : (⟨k'.1, by omega⟩ : Fin 25) = k := Fin.ext e
      rw [this]
    have hk : k.1 < 13 := by omega
    apply loop_hit (fun v => aget2 v i k = tab2 NOIK i k * exp (aget2 s.toik 5 k * lntau))
      (⟨k.1, hk⟩ : Fin 13) h1
    · intro k' v _ hv
      rw [aget2_aset2]
      split
      · rename_i e
        exact hval k' (congrArg Fin.val e.2)
      · exact hv
    · intro v
      rw [aget2_aset2, if_pos ⟨rfl, rfl⟩]
      exact hval _ rfl

theorem ttPureP_other (s : Gerg F) (lntau : F) (t0 : Vector F 13) (i i' : Fin 22) (h : i' ≠ i)
    (v : Vector (Vector F 25) 22) (k : Fin 25) :
    aget2 (ttPureP s lntau t0 i' v) i k = aget2 v i k := by
  have hn : ¬ (i'.1 = i.1) := fun e => h (Fin.ext e)
  unfold ttPureP
  split
  · split
    · apply loop_inv (fun w => aget2 w i k = aget2 v i k) rfl
      intro k' w _ hw
      rw [aget2_aset2, if_neg (fun e => h e.1)]
      exact hw
    · apply loopNP_inv (fun w => aget2 w i k = aget2 v i k) rfl
      intro k' w _ _ hw
      rw [aget2_put2P, if_neg (fun e => hn e.1)]
      exact hw
  · rfl

theorem taupP_get (s : Gerg F) (lntau : F) (i : Fin 22) (k : Fin 25) (h : readP s.x i k) :
    aget2 (taupP s lntau) i k = tpVal s.toik lntau i k := by
  obtain ⟨h1, h2, h3, h4⟩ := h
  unfold taupP
  apply loop_hit (fun v => aget2 v i k = tpVal s.toik lntau i k) i h1
  · intro i' v _ hv
    by_cases e : i' = i
    · subst e; exact ttPureP_get s lntau i' v h2 k h3 h4
    · rw [ttPureP_other s lntau _ i i' e]; exact hv
  · intro v
    exact ttPureP_get s lntau i v h2 k h3 h4

/-- Departure-function temperature terms that an evaluation reads: those of the pairs present. -/
def readIJ (x : Vector F 22) (m : Fin 22) (k : Fin 13) : Prop :=
  1 ≤ k.1 ∧ k.1 ≤ kpolij m.1 ∧ ∃ i j : Fin 22, 1 ≤ i.1 ∧ i.1 < j.1 ∧
    FOps.lt EPSILON (aget x i) = true ∧ FOps.lt EPSILON (aget x j) = true ∧
    0 < aget2 MNUMB i j ∧ aget2 MNUMB i j = m.1

/-- The value of a departure-function temperature term. -/
def tijVal (nijk tijk : Vector (Vector F 13) 11) (lntau : F) (m : Nat) (k : Nat) : F :=
  gd2 nijk m k (f% 0.0) * exp (gd2 tijk m k (f% 0.0) * lntau)

theorem ttPairP_pres (s : Gerg F) (lntau : F) (i j : Fin 22) (v : Vector (Vector F 13) 22)
    (m : Fin 22) (k : Fin 13) (h : aget2 v m k = tijVal s.nijk s.tijk lntau m.1 k.1) :
    aget2 (ttPairP s lntau i j v) m k = tijVal s.nijk s.tijk lntau m.1 k.1 := by
  unfold ttPairP
  dsimp only
  split
  · split
    · apply loopNP_inv (fun w => aget2 w m k = tijVal s.nijk s.tijk lntau m.1 k.1) h
      intro k' w _ _ hw
      rw [aget2_put2P]
      split
      · rename_i e
        rw [← e.1, ← e.2]; rfl
      · exact hw
    · exact h
  · exact h

theorem ttPairP_get (s : Gerg F) (lntau : F) (i j : Fin 22) (v : Vector (Vector F 13) 22)
    (m : Fin 22) (k : Fin 13) (hj : FOps.lt EPSILON (aget s.x j) = true)
    (h0 : 0 < aget2 MNUMB i j) (hm : aget2 MNUMB i j = m.1) (h1 : 1 ≤ k.1) (h2 : k.1 ≤ kpolij m.1) :
    aget2 (ttPairP s lntau i j v) m k = tijVal s.nijk s.tijk lntau m.1 k.1 := by
  unfold ttPairP
  dsimp only
  rw [if_pos hj, if_pos h0, hm]
  unfold loopNP
  apply foldl_hit (fun w => aget2 w m k = tijVal s.nijk s.tijk lntau m.1 k.1) _ _ k.1
  · rw [List.mem_range'_1]; omega
  · intro w a _ hw
    rw [aget2_put2P]
    split
    · rename_i e
      rw [e.2]; rfl
    · exact hw
  · intro w
    rw [aget2_put2P, if_pos ⟨rfl, rfl⟩]
    rfl

theorem taupijkP_get (s : Gerg F) (lntau : F) (m : Fin 22) (k : Fin 13) (h : readIJ s.x m k) :
    aget2 (taupijkP s lntau) m k = tijVal s.nijk s.tijk lntau m.1 k.1 := by
  obtain ⟨h1, h2, i, j, hi, hij, hx, hy, h0, hm⟩ := h
  unfold taupijkP
  apply loop_hit (fun v => aget2 v m k = tijVal s.nijk s.tijk lntau m.1 k.1) i hi
  · intro i' v _ hv
    split
    · exact loop_inv (fun v => aget2 v m k = tijVal s.nijk s.tijk lntau m.1 k.1) hv
        (fun j' w _ hw => ttPairP_pres s lntau i' j' w m k hw)
    · exact hv
  · intro v
    rw [if_pos hx]
    apply loop_hit (fun v => aget2 v m k = tijVal s.nijk s.tijk lntau m.1 k.1) j hij
    · intro j' w _ hw
      exact ttPairP_pres s lntau i j' w m k hw
    · intro w
      exact ttPairP_get s lntau i j w m k hy h0 hm h1 h2

/-! ## The cache refresh as a function -/

/-- The object carrying what `tterms` reads. -/
def bareT (x : Vector F 22) (m : Params F) (a : Vector (Vector F 25) 22)
    (b : Vector (Vector F 13) 22) : Gerg F :=
  { default with x := x, toik := m.toik, nijk := m.nijk, tijk := m.tijk, taup := a, taupijk := b }

theorem taupP_bare (s : Gerg F) (lntau : F) :
    taupP s lntau = taupP (bareT s.x (params s) s.taup s.taupijk) lntau := rfl
theorem taupijkP_bare (s : Gerg F) (lntau : F) :
    taupijkP s lntau = taupijkP (bareT s.x (params s) s.taup s.taupijk) lntau := rfl

/-- The cache after the refresh an evaluation at `(x, t)` starts with. -/
def refreshC (x : Vector F 22) (t : F) (m : Params F) (c : Cache F) : Cache F :=
  let ch := xDiff x c.xold
  let dr := if ch then drOf x m.bvij else c.drold
  let tr := if ch then trOf x m.bvij else c.trold
  let told := if ch then f% 0.0 else c.told
  let trold2 := if ch then f% 0.0 else c.trold2
  let stale := f% 0.0000001 <. abs (t - told) || f% 0.0000001 <. abs (tr - trold2)
  { drold := dr, trold := tr, told := t, trold2 := tr, xold := xSave x c.xold
    taup := if stale then taupP (bareT x m c.taup c.taupijk) (ln (tr / t)) else c.taup
    taupijk := if stale then taupijkP (bareT x m c.taup c.taupijk) (ln (tr / t)) else c.taupijk }

/-- The object with another cache. -/
def withCache (s : Gerg F) (c : Cache F) : Gerg F :=
  { s with drold := c.drold, trold := c.trold, told := c.told, trold2 := c.trold2, xold := c.xold,
           taup := c.taup, taupijk := c.taupijk }

/-- The refresh of the temperature terms when the reducing parameters are `dr`, `tr`. -/
def refreshT (x : Vector F 22) (t : F) (m : Params F) (xold : Vector F 22) (dr tr told trold2 : F)
    (a : Vector (Vector F 25) 22) (b : Vector (Vector F 13) 22) : Cache F :=
  let stale := f% 0.0000001 <. abs (t - told) || f% 0.0000001 <. abs (tr - trold2)
  { drold := dr, trold := tr, told := t, trold2 := tr, xold := xold
    taup := if stale then taupP (bareT x m a b) (ln (tr / t)) else a
    taupijk := if stale then taupijkP (bareT x m a b) (ln (tr / t)) else b }

attribute [local irreducible] taupP taupijkP redX xDiff

theorem refreshC_eq (x : Vector F 22) (t : F) (m : Params F) (c : Cache F) : refreshC x t m c =
    if xDiff x c.xold then refreshT x t m (xSave x c.xold) (drOf x m.bvij) (trOf x m.bvij) (f% 0.0) (f% 0.0)
      c.taup c.taupijk
    else refreshT x t m (xSave x c.xold) c.drold c.trold c.told c.trold2 c.taup c.taupijk := by
  unfold refreshC
  cases xDiff x c.xold <;> rfl

theorem tterms_part (s : Gerg F) (s1 : Gerg F)
    (h : (if tStale s s.trold then ttermsP s (ln (s.trold / s.t)) else s) = s1) :
    withKeys s1 s1.t s.trold = withCache s
      (refreshT s.x s.t (params s) s.xold s.drold s.trold s.told s.trold2 s.taup s.taupijk) := by
  unfold refreshT
  have ht : (FOps.lt (f% 0.0000001) (abs (s.t - s.told)) || FOps.lt (f% 0.0000001) (abs (s.trold - s.trold2)))
    = tStale s s.trold := rfl
  rw [ht, ← taupP_bare, ← taupijkP_bare]
  subst h
  cases tStale s s.trold <;> rfl

theorem refresh_via (s s0 : Gerg F)
    (hr : reducingparameters (clearAr s) = (s0, s0.drold, s0.trold)) :
    refresh s = withCache s0
      (refreshT s0.x s0.t (params s0) s0.xold s0.drold s0.trold s0.told s0.trold2 s0.taup s0.taupijk) := by
  unfold refresh
  rw [hr]
  dsimp only
  rw [tterms_part s0 _ rfl]

theorem withCache_withRed (s : Gerg F) (xold : Vector F 22) (dr tr told trold2 : F) (c : Cache F) :
    withCache (withRed s xold dr tr told trold2) c = withCache s c := rfl

theorem refreshT_withRed (s : Gerg F) (xold : Vector F 22) (dr tr told trold2 : F)
    (f : Vector F 22 → F → Params F → Vector F 22 → F → F → F → F → Vector (Vector F 25) 22 →
      Vector (Vector F 13) 22 → Cache F) (s0 : Gerg F)
    (h : s0 = withRed (clearAr s) xold dr tr told trold2) :
    f s0.x s0.t (params s0) s0.xold s0.drold s0.trold s0.told s0.trold2 s0.taup s0.taupijk
      = f s.x s.t (params s) xold dr tr told trold2 s.taup s.taupijk := by
  subst h; rfl

theorem refresh_eq (s : Gerg F) :
    refresh s = withCache (clearAr s) (refreshC s.x s.t (params s) (cache s)) := by
  have hr := reducing_eq (clearAr s)
  rw [refreshC_eq]
  cases h : xDiff s.x s.xold
  · have h' : xDiff (clearAr s).x (clearAr s).xold = false := h
    have h'' : xDiff s.x (cache s).xold = false := h
    rw [h'] at hr
    rw [h'']
    simp only [Bool.false_eq_true, if_false] at hr ⊢
    rw [refresh_via s _ hr, withCache_withRed, refreshT_withRed s _ _ _ _ _ refreshT _ rfl]
    rfl
  · have h' : xDiff (clearAr s).x (clearAr s).xold = true := h
    have h'' : xDiff s.x (cache s).xold = true := h
    rw [h'] at hr
    rw [h'']
    simp only [if_true] at hr ⊢
    rw [refresh_via s _ hr, withCache_withRed, refreshT_withRed s _ _ _ _ _ refreshT _ rfl]
    rfl

end Aga8.Gerg
