import Verif.Gerg
import Verif.Lemmas.DetailPure

/-! # Panic-free normal forms of the GERG functions

Every function of the model that lives in `Res` is shown to be `ok` of a total function, provided the
density exponents stored in the object are below 8 (they index arrays of length 8). -/

set_option linter.unusedSectionVars false

namespace Aga8.Gerg

open FOps Tab
open Detail (put2P)

variable {F : Type} [Add F] [Sub F] [Mul F] [Div F] [Neg F] [FOps F]

/-- Total read with a default. -/
def gd {α : Type} {n : Nat} (v : Vector α n) (i : Nat) (a : α) : α :=
  if h : i < n then aget v ⟨i, h⟩ else a

/-- Total read with a default. -/
def gd2 {α : Type} {n m : Nat} (v : Vector (Vector α m) n) (i j : Nat) (a : α) : α :=
  if h : i < n ∧ j < m then aget2 v ⟨i, h.1⟩ ⟨j, h.2⟩ else a

theorem idx_gd {α : Type} {n : Nat} (v : Vector α n) {i : Nat} (h : i < n) (a : α) :
    idx v i = .ok (gd v i a) := by
  rw [idx_ok v h, gd, dif_pos h]

theorem idx2_gd {α : Type} {n m : Nat} (v : Vector (Vector α m) n) {i j : Nat} (hi : i < n)
    (hj : j < m) (a : α) : idx2 v i j = .ok (gd2 v i j a) := by
  rw [idx2_ok v hi hj, gd2, dif_pos ⟨hi, hj⟩]

theorem put2_P {α : Type} {n m : Nat} (v : Vector (Vector α m) n) {i j : Nat} (hi : i < n)
    (hj : j < m) (a : α) : put2 v i j a = .ok (put2P v i j a) := by
  rw [put2_ok v hi hj, put2P, dif_pos ⟨hi, hj⟩]

theorem KPOL_KEXP_lt : ∀ i : Fin 22, aget KPOL i + aget KEXP i + 1 ≤ 25 := by decide +kernel
theorem MNUMB_lt : ∀ i j : Fin 22, aget2 MNUMB i j < 11 := by decide +kernel
theorem KPOLIJ_KEXPIJ_lt : ∀ m : Fin 11, aget KPOLIJ m + aget KEXPIJ m + 1 ≤ 13 := by decide +kernel

/-- The number of polynomial terms of departure function `mn`. -/
def kpolij (mn : Nat) : Nat := gd KPOLIJ mn 0
/-- The number of exponential terms of departure function `mn`. -/
def kexpij (mn : Nat) : Nat := gd KEXPIJ mn 0

theorem kpolij_lt {mn : Nat} (h : mn < 11) : kpolij mn + kexpij mn + 1 ≤ 13 := by
  unfold kpolij kexpij gd
  rw [dif_pos h, dif_pos h]
  exact KPOLIJ_KEXPIJ_lt ⟨mn, h⟩

/-- The density exponents index the arrays of powers of length 8. -/
structure Idx (s : Gerg F) : Prop where
  coik : ∀ i k, aget2 s.coik i k < 8
  doik : ∀ i k, aget2 s.doik i k < 8
  dijk : ∀ m k, aget2 s.dijk m k < 8

/-! ## `tterms` -/

/-- A component with its own long-form equation. -/
def longForm (i : Fin 22) : Bool := !(i.1 > 4 && i.1 != 15 && i.1 != 18 && i.1 != 20)

/-- Pure form of `ttPure`. -/
def ttPureP (s : Gerg F) (lntau : F) (taup0 : Vector F 13) (i : Fin 22)
    (taup : Vector (Vector F 25) 22) : Vector (Vector F 25) 22 :=
  if EPSILON <. aget s.x i then
    if i.1 > 4 && i.1 != 15 && i.1 != 18 && i.1 != 20 then
      loop 1 13 taup fun k taup =>
        aset2 taup i ⟨k.1, by omega⟩ (tab2 NOIK i ⟨k.1, by omega⟩ * aget taup0 k)
    else
      loopNP 1 (aget KPOL i + aget KEXP i + 1) taup fun k taup =>
        put2P taup i.1 k
          (ofDec (gd (aget NOIK i) k ⟨0, 0⟩) * exp (gd (aget s.toik i) k (f% 0.0) * lntau))
  else taup

theorem ttPure_ok (s : Gerg F) (lntau : F) (taup0 : Vector F 13) (i : Fin 22)
    (taup : Vector (Vector F 25) 22) :
    ttPure s lntau taup0 i taup = .ok (ttPureP s lntau taup0 i taup) := by
  unfold ttPure ttPureP
  split
  · split
    · rfl
    · rw [loopN_ok (fun k taup => put2P taup i.1 k
          (ofDec (gd (aget NOIK i) k ⟨0, 0⟩) * exp (gd (aget s.toik i) k (f% 0.0) * lntau)))]
      intro k v h1 h2
      have h3 := KPOL_KEXP_lt i
      have hk : k < 25 := by omega
      rw [idx_gd (aget NOIK i) hk ⟨0, 0⟩, idx_gd (aget s.toik i) hk (f% 0.0)]
      simp only [bind, Except.bind]
      rw [put2_P v i.2 hk]
  · rfl

/-- Pure form of `ttPair`. -/
def ttPairP (s : Gerg F) (lntau : F) (i j : Fin 22)
    (taupijk : Vector (Vector F 13) 22) : Vector (Vector F 13) 22 :=
  if EPSILON <. aget s.x j then
    let mn := aget2 MNUMB i j
    if mn > 0 then
      loopNP 1 (kpolij mn + 1) taupijk fun k taupijk =>
        put2P taupijk mn k (gd2 s.nijk mn k (f% 0.0) * exp (gd2 s.tijk mn k (f% 0.0) * lntau))
    else taupijk
  else taupijk

theorem ttPair_ok (s : Gerg F) (lntau : F) (i j : Fin 22) (taupijk : Vector (Vector F 13) 22) :
    ttPair s lntau i j taupijk = .ok (ttPairP s lntau i j taupijk) := by
  unfold ttPair ttPairP
  have hm := MNUMB_lt i j
  dsimp only
  generalize aget2 MNUMB i j = mn at *
  have h3 := kpolij_lt hm
  split
  · split
    · rw [idx_gd KPOLIJ hm 0]
      simp only [bind, Except.bind]
      rw [loopN_ok (fun k taupijk =>
        put2P taupijk mn k (gd2 s.nijk mn k (f% 0.0) * exp (gd2 s.tijk mn k (f% 0.0) * lntau)))]
      · rfl
      · intro k v h1 h2
        have h4 : gd KPOLIJ mn 0 = kpolij mn := rfl
        have hk : k < 13 := by omega
        rw [idx2_gd s.nijk hm hk (f% 0.0), idx2_gd s.tijk hm hk (f% 0.0)]
        simp only []
        rw [put2_P v (by omega) hk]
    · rfl
  · rfl

/-- The pure-fluid temperature terms after `tterms`. -/
def taupP (s : Gerg F) (lntau : F) : Vector (Vector F 25) 22 :=
  loop 1 22 s.taup (ttPureP s lntau (ttPropane s lntau))

/-- The mixture temperature terms after `tterms`. -/
def taupijkP (s : Gerg F) (lntau : F) : Vector (Vector F 13) 22 :=
  loop 1 22 s.taupijk fun i taupijk =>
    if EPSILON <. aget s.x i then loop (i.1 + 1) 22 taupijk (ttPairP s lntau i) else taupijk

/-- The object with other temperature terms. -/
def withTau (s : Gerg F) (a : Vector (Vector F 25) 22) (b : Vector (Vector F 13) 22) : Gerg F :=
  { s with taup := a, taupijk := b }

/-- Pure form of `tterms`. -/
def ttermsP (s : Gerg F) (lntau : F) : Gerg F := withTau s (taupP s lntau) (taupijkP s lntau)

theorem tterms_ok (s : Gerg F) (lntau : F) : tterms s lntau = .ok (ttermsP s lntau) := by
  unfold tterms ttermsP
  dsimp only
  rw [loopM_ok (ttPureP s lntau (ttPropane s lntau)) (fun i v _ => ttPure_ok s lntau _ i v)]
  simp only [bind, Except.bind, pure, Except.pure]
  rw [loopM_ok (fun i taupijk =>
    if EPSILON <. aget s.x i then loop (i.1 + 1) 22 taupijk (ttPairP s lntau i) else taupijk)]
  · rfl
  · intro i v _
    split
    · rw [loopM_ok (ttPairP s lntau i)]
      intro j v _
      rw [ttPair_ok]
      rfl
    · rfl

/-! ## `alphar` -/

theorem arZero_eq (ar : Ar F) : arZero ar = fill 4 (fill 4 (f% 0.0)) := Detail.arZero_eq ar

/-- One polynomial pure-fluid term. -/
def arPolAt (s : Gerg F) (itau : Int) (delp : Vector F 8) (i : Fin 22) (k : Nat) (ar : Ar F) : Ar F :=
  let dk := gd (aget s.doik i) k 0
  let ndt := aget s.x i * gd delp dk (f% 0.0) * gd (aget s.taup i) k (f% 0.0)
  arPol itau ndt dk (gd (aget s.toik i) k (f% 0.0)) ar

/-- One exponential pure-fluid term. -/
def arExpAt (s : Gerg F) (itau : Int) (delp expd : Vector F 8) (i : Fin 22) (k : Nat) (ar : Ar F) :
    Ar F :=
  let dk := gd (aget s.doik i) k 0
  let ck := gd (aget s.coik i) k 0
  let ndt := aget s.x i * gd delp dk (f% 0.0) * gd (aget s.taup i) k (f% 0.0) * gd expd ck (f% 0.0)
  arExp itau ndt dk ck (gd delp ck (f% 0.0)) (gd (aget s.toik i) k (f% 0.0)) ar

/-- Pure form of `arPure`. -/
def arPureP (s : Gerg F) (itau : Int) (delp expd : Vector F 8) (i : Fin 22) (ar : Ar F) : Ar F :=
  if EPSILON <. aget s.x i then
    loopNP (1 + aget KPOL i) (aget KPOL i + aget KEXP i + 1)
      (loopNP 1 (aget KPOL i + 1) ar (arPolAt s itau delp i)) (arExpAt s itau delp expd i)
  else ar

theorem gd_aget_lt {n m c : Nat} {v : Vector (Vector Nat m) n} (h : ∀ i k, aget2 v i k < c)
    (i : Fin n) {k : Nat} (hk : k < m) : gd (aget v i) k 0 < c := by
  rw [gd, dif_pos hk]; exact h i ⟨k, hk⟩

theorem gd2_lt {n m c : Nat} {v : Vector (Vector Nat m) n} (h : ∀ i k, aget2 v i k < c)
    {i k : Nat} (hi : i < n) (hk : k < m) : gd2 v i k 0 < c := by
  rw [gd2, dif_pos ⟨hi, hk⟩]; exact h _ _

theorem arPure_ok {s : Gerg F} (hs : Idx s) (itau : Int) (delp expd : Vector F 8) (i : Fin 22)
    (ar : Ar F) : arPure s itau delp expd i ar = .ok (arPureP s itau delp expd i ar) := by
  unfold arPure arPureP
  have h3 := KPOL_KEXP_lt i
  split
  · rw [loopN_ok (arPolAt s itau delp i)]
    · simp only [bind, Except.bind]
      rw [loopN_ok (arExpAt s itau delp expd i)]
      intro k v h1 h2
      have hk : k < 25 := by omega
      rw [idx_gd (aget s.doik i) hk 0, idx_gd (aget s.coik i) hk 0]
      simp only []
      rw [idx_gd delp (gd_aget_lt hs.doik i hk) (f% 0.0), idx_gd (aget s.taup i) hk (f% 0.0),
        idx_gd expd (gd_aget_lt hs.coik i hk) (f% 0.0), idx_gd delp (gd_aget_lt hs.coik i hk) (f% 0.0),
        idx_gd (aget s.toik i) hk (f% 0.0)]
      rfl
    · intro k v h1 h2
      have hk : k < 25 := by omega
      rw [idx_gd (aget s.doik i) hk 0]
      simp only [bind, Except.bind]
      rw [idx_gd delp (gd_aget_lt hs.doik i hk) (f% 0.0), idx_gd (aget s.taup i) hk (f% 0.0),
        idx_gd (aget s.toik i) hk (f% 0.0)]
      rfl
  · rfl

/-- One polynomial departure term. -/
def arPolMixAt (s : Gerg F) (itau : Int) (delp : Vector F 8) (xijf : F) (mn k : Nat) (ar : Ar F) :
    Ar F :=
  let dk := gd2 s.dijk mn k 0
  let ndt := xijf * gd delp dk (f% 0.0) * gd2 s.taupijk mn k (f% 0.0)
  arPol itau ndt dk (gd2 s.tijk mn k (f% 0.0)) ar

/-- One exponential departure term. -/
def arMixAt (s : Gerg F) (itau : Int) (del lntau : F) (delp : Vector F 8) (xijf : F) (mn k : Nat)
    (ar : Ar F) : Ar F :=
  let cij0 := gd2 s.cijk mn k (f% 0.0) * aget delp 2
  let eij0 := gd2 s.eijk mn k (f% 0.0) * del
  let dk := gd2 s.dijk mn k 0
  let tk := gd2 s.tijk mn k (f% 0.0)
  let ndt := xijf * gd2 s.nijk mn k (f% 0.0) * gd delp dk (f% 0.0)
    * exp (cij0 + eij0 + gd2 s.gijk mn k (f% 0.0) + tk * lntau)
  arMix itau ndt dk cij0 eij0 tk ar

/-- Pure form of `arPair`. -/
def arPairP (s : Gerg F) (itau : Int) (del lntau : F) (delp : Vector F 8) (i j : Fin 22)
    (ar : Ar F) : Ar F :=
  if EPSILON <. aget s.x j then
    if aget2 MNUMB i j > 0 then
      loopNP (1 + kpolij (aget2 MNUMB i j))
        (kpolij (aget2 MNUMB i j) + kexpij (aget2 MNUMB i j) + 1)
        (loopNP 1 (kpolij (aget2 MNUMB i j) + 1) ar
          (arPolMixAt s itau delp (aget s.x i * aget s.x j * tab2 FIJ i j) (aget2 MNUMB i j)))
        (arMixAt s itau del lntau delp (aget s.x i * aget s.x j * tab2 FIJ i j) (aget2 MNUMB i j))
    else ar
  else ar

theorem arPair_ok {s : Gerg F} (hs : Idx s) (itau : Int) (del lntau : F) (delp : Vector F 8)
    (i j : Fin 22) (ar : Ar F) :
    arPair s itau del lntau delp i j ar = .ok (arPairP s itau del lntau delp i j ar) := by
  unfold arPair arPairP
  have hm := MNUMB_lt i j
  dsimp only
  generalize aget2 MNUMB i j = mn at *
  have h3 := kpolij_lt hm
  split
  · split
    · rw [idx_gd KPOLIJ hm 0, idx_gd KEXPIJ hm 0]
      have h4 : gd KPOLIJ mn 0 = kpolij mn := rfl
      have h5 : gd KEXPIJ mn 0 = kexpij mn := rfl
      rw [h4, h5]
      simp only [bind, Except.bind]
      rw [loopN_ok (arPolMixAt s itau delp (aget s.x i * aget s.x j * tab2 FIJ i j) mn)]
      · simp only []
        rw [loopN_ok (arMixAt s itau del lntau delp (aget s.x i * aget s.x j * tab2 FIJ i j) mn)]
        intro k v h1 h2
        have hk : k < 13 := by omega
        rw [idx2_gd s.cijk hm hk (f% 0.0), idx2_gd s.eijk hm hk (f% 0.0),
          idx2_gd s.dijk (by omega) hk 0, idx2_gd s.tijk hm hk (f% 0.0),
          idx2_gd s.nijk hm hk (f% 0.0), idx2_gd s.gijk hm hk (f% 0.0)]
        simp only []
        rw [idx_gd delp (gd2_lt hs.dijk (by omega) hk) (f% 0.0)]
        rfl
      · intro k v h1 h2
        have hk : k < 13 := by omega
        rw [idx2_gd s.dijk (by omega) hk 0]
        simp only []
        rw [idx_gd delp (gd2_lt hs.dijk (by omega) hk) (f% 0.0),
          idx2_gd s.taupijk (by omega) hk (f% 0.0), idx2_gd s.tijk hm hk (f% 0.0)]
        rfl
    · rfl
  · rfl

/-- The array `self.ar` computed by `alphar` from the reducing parameters and temperature terms. -/
def arOf (s : Gerg F) (itau : Int) (del lntau : F) : Ar F :=
  (rangeFin 1 22).dropLast.foldl (fun ar i =>
    if EPSILON <. aget s.x i then
      loop (i.1 + 1) 22 ar (arPairP s itau del lntau (arDelp del).1 i)
    else ar)
    (loop 1 22 (fill 4 (fill 4 (f% 0.0))) (arPureP s itau (arDelp del).1 (arDelp del).2))

/-- Whether `alphar` recomputes the temperature terms. -/
def tStale (s : Gerg F) (tr : F) : Bool :=
  f% 0.0000001 <. abs (s.t - s.told) || f% 0.0000001 <. abs (tr - s.trold2)

/-- The object with cleared derivative array. -/
def clearAr (s : Gerg F) : Gerg F := { s with ar := fill 4 (fill 4 (f% 0.0)) }

/-- The object with the temperature keys of the cache set. -/
def withKeys (s : Gerg F) (told trold2 : F) : Gerg F := { s with told := told, trold2 := trold2 }

/-- The object with another derivative array. -/
def withAr (s : Gerg F) (ar : Ar F) : Gerg F := { s with ar := ar }

/-- The object when `alphar` starts summing: caches refreshed. -/
def refresh (s : Gerg F) : Gerg F :=
  let r := reducingparameters (clearAr s)
  let s1 := if tStale r.1 r.2.2 then ttermsP r.1 (ln (r.2.2 / r.1.t)) else r.1
  withKeys s1 s1.t r.2.2

theorem refresh_of (s : Gerg F) (s1 : Gerg F)
    (h : (if tStale (reducingparameters (clearAr s)).1 (reducingparameters (clearAr s)).2.2 then
      ttermsP (reducingparameters (clearAr s)).1 (ln ((reducingparameters (clearAr s)).2.2
        / (reducingparameters (clearAr s)).1.t)) else (reducingparameters (clearAr s)).1) = s1) :
    refresh s = withKeys s1 s1.t (reducingparameters (clearAr s)).2.2 := by
  subst h; rfl

/-- The reduced density and the logarithm of the reduced inverse temperature used by `alphar`. -/
def delOf (s : Gerg F) : F :=
  (reducingparameters (clearAr s)).1.d / (reducingparameters (clearAr s)).2.1
/-- See `delOf`. -/
def lntauOf (s : Gerg F) : F :=
  ln ((reducingparameters (clearAr s)).2.2 / (reducingparameters (clearAr s)).1.t)

/-- Pure form of `alphar`. -/
def alpharP (s : Gerg F) (itau : Int) : Gerg F :=
  withAr (refresh s) (arOf (refresh s) itau (delOf s) (lntauOf s))

theorem reducing_idx {s : Gerg F} (hs : Idx s) : Idx (reducingparameters s).1 := by
  have h : (reducingparameters s).1.coik = s.coik ∧ (reducingparameters s).1.doik = s.doik
      ∧ (reducingparameters s).1.dijk = s.dijk := by
    unfold reducingparameters
    dsimp only
    split <;> exact ⟨rfl, rfl, rfl⟩
  exact ⟨by rw [h.1]; exact hs.coik, by rw [h.2.1]; exact hs.doik, by rw [h.2.2]; exact hs.dijk⟩

theorem reducing_ar (s : Gerg F) : (reducingparameters s).1.ar = s.ar := by
  unfold reducingparameters
  dsimp only
  split <;> rfl

theorem Idx.congr {s s' : Gerg F} (hs : Idx s) (h1 : s'.coik = s.coik) (h2 : s'.doik = s.doik)
    (h3 : s'.dijk = s.dijk) : Idx s' :=
  ⟨by rw [h1]; exact hs.coik, by rw [h2]; exact hs.doik, by rw [h3]; exact hs.dijk⟩

theorem refresh_idx {s : Gerg F} (hs : Idx s) : Idx (refresh s) := by
  have h := reducing_idx (s := clearAr s) (hs.congr rfl rfl rfl)
  unfold refresh
  generalize reducingparameters (clearAr s) = r at *
  dsimp only
  split <;> exact h.congr rfl rfl rfl

theorem refresh_ar (s : Gerg F) : (refresh s).ar = fill 4 (fill 4 (f% 0.0)) := by
  have h := reducing_ar (clearAr s)
  unfold refresh
  generalize reducingparameters (clearAr s) = r at *
  dsimp only
  split <;> exact h

/-- The part of `alphar` after the refresh of the caches. -/
def alpharTail (s : Gerg F) (itau : Int) (tr del lntau : F) : Res (Gerg F) := do
  let s := withKeys s s.t tr
  let ar ← loopM 1 22 s.ar fun i ar => arPure s itau (arDelp del).1 (arDelp del).2 i ar
  let ar ← (rangeFin 1 22).dropLast.foldlM (fun ar i =>
    if EPSILON <. aget s.x i then
      loopM (i.1 + 1) 22 ar fun j ar => arPair s itau del lntau (arDelp del).1 i j ar
    else pure ar) ar
  pure (withAr s ar)

theorem alpharTail_ok {s : Gerg F} (hs : Idx s) (ha : s.ar = fill 4 (fill 4 (f% 0.0))) (itau : Int)
    (tr del lntau : F) : alpharTail s itau tr del lntau
      = .ok (withAr (withKeys s s.t tr) (arOf (withKeys s s.t tr) itau del lntau)) := by
  unfold alpharTail
  dsimp only
  have hi : Idx (withKeys s s.t tr) := hs.congr rfl rfl rfl
  have ha' : (withKeys s s.t tr).ar = fill 4 (fill 4 (f% 0.0)) := ha
  generalize withKeys s s.t tr = s1 at *
  rw [loopM_ok (arPureP s1 itau (arDelp del).1 (arDelp del).2) (fun i v _ => arPure_ok hi _ _ _ i v)]
  simp only [bind, Except.bind]
  rw [foldlM_ok (rangeFin 1 22).dropLast _ (fun ar i =>
    if EPSILON <. aget s1.x i then
      loop (i.1 + 1) 22 ar (arPairP s1 itau del lntau (arDelp del).1 i)
    else ar)]
  · simp only [ha']
    rfl
  · intro v i _
    split
    · rw [loopM_ok (arPairP s1 itau del lntau (arDelp del).1 i)]
      intro j v _
      exact arPair_ok hi _ _ _ _ _ _ _
    · rfl

theorem alphar_ok {s : Gerg F} (hs : Idx s) (itau : Int) : alphar s itau = .ok (alpharP s itau) := by
  have hi := reducing_idx (s := clearAr s) (hs.congr rfl rfl rfl)
  have ha := reducing_ar (clearAr s)
  have e : alphar s itau = if tStale (reducingparameters (clearAr s)).1 (reducingparameters (clearAr s)).2.2
      then alpharTail (ttermsP (reducingparameters (clearAr s)).1 (lntauOf s)) itau
        (reducingparameters (clearAr s)).2.2 (delOf s) (lntauOf s)
      else alpharTail (reducingparameters (clearAr s)).1 itau
        (reducingparameters (clearAr s)).2.2 (delOf s) (lntauOf s) := by
    unfold alphar tStale
    simp only [arZero_eq, tterms_ok]
    have hc : ({ s with ar := fill 4 (fill 4 (f% 0.0)) } : Gerg F) = clearAr s := rfl
    rw [hc]
    unfold lntauOf delOf alpharTail
    generalize reducingparameters (clearAr s) = r
    split
    · generalize ttermsP r.1 (ln (r.2.2 / r.1.t)) = q
      simp only [bind, Except.bind, pure, Except.pure, withKeys, withAr]
      rfl
    · simp only [bind, Except.bind, pure, Except.pure, withKeys, withAr]
      rfl
  rw [e]
  unfold alpharP
  split
  · rename_i h
    rw [refresh_of s _ (if_pos h), alpharTail_ok
      (s := ttermsP (reducingparameters (clearAr s)).1 (lntauOf s)) (hi.congr rfl rfl rfl) ha]
    rfl
  · rename_i h
    rw [refresh_of s _ (if_neg h), alpharTail_ok hi ha]

/-! ## `pressure`, `properties`, `density` -/

/-- The object with the results of `pressure`. -/
def pressFinish (s : Gerg F) : Gerg F × F :=
  let s := { s with z := f% 1.0 + aget2 s.ar 0 1 }
  let p := s.d * RGERG * s.t * s.z
  ({ s with dpddsave := RGERG * s.t * (f% 1.0 + f% 2.0 * aget2 s.ar 0 1 + aget2 s.ar 0 2) }, p)

/-- Pure form of `pressure`. -/
def pressureP (s : Gerg F) : Gerg F × F := pressFinish (alpharP s 0)

theorem pressure_ok {s : Gerg F} (hs : Idx s) : pressure s = .ok (pressureP s) := by
  unfold pressure
  rw [alphar_ok hs]
  rfl

/-- Pure form of `properties`. -/
def propertiesP (s : Gerg F) : Gerg F × F := propsFinish (alpharP (alpha0 (molar_mass s)) 1)

theorem properties_ok {s : Gerg F} (hs : Idx s) : properties s = .ok (propertiesP s) := by
  unfold properties
  simp only []
  rw [alphar_ok (hs.congr (s' := alpha0 (molar_mass s)) rfl rfl rfl)]
  rfl

theorem propsFinish_idx {s : Gerg F} (hs : Idx s) : Idx (propsFinish s).1 := by
  unfold propsFinish
  dsimp only
  split <;> split <;> exact hs.congr rfl rfl rfl

theorem pressureP_idx {s : Gerg F} (hs : Idx s) : Idx (pressureP s).1 :=
  (refresh_idx hs).congr rfl rfl rfl

theorem propertiesP_idx {s : Gerg F} (hs : Idx s) : Idx (propertiesP s).1 :=
  propsFinish_idx ((refresh_idx (hs.congr (s' := alpha0 (molar_mass s)) rfl rfl rfl)).congr rfl rfl rfl)

/-- The object with another density. -/
def withD (s : Gerg F) (d : F) : Gerg F := { s with d := d }

/-- The failure exit of `density`: ideal-gas density and an error. -/
def giveUp (s : Gerg F) : Gerg F × Except DensityError Unit :=
  (withD s (s.p / RGERG / s.t), .error .IterationFail)

/-- Whether round `it` restarts the search. -/
def restart (it : Nat) (ifail : Int) (vlog : F) : Bool :=
  !inRange vlog || it == 20 || it == 30 || it == 40 || ifail == 1

/-- The two-phase check made by `density` when its flag is positive. -/
def twoPhase (r : Gerg F × F) : Bool :=
  (r.2 <=. f% 0.0 || r.1.dp_dd <=. f% 0.0 || r.1.d2p_dtd <=. f% 0.0)
    || (r.1.cv <=. f% 0.0 || r.1.cp <=. f% 0.0 || r.1.w <=. f% 0.0)

/-- What `density` does once the iteration has converged. -/
def converged (iflag : Int) (s : Gerg F) : Gerg F × Except DensityError Unit :=
  if iflag > 0 then
    if twoPhase (propertiesP s) then giveUp (propertiesP s).1
    else ((propertiesP s).1, .error .IterationFail)
  else (s, .ok ())

/-- The logarithm of the trial volume in round `it`. -/
def vlogAt (dcx : F) (it : Nat) (nfail ifail : Int) (vlog : F) (s : Gerg F) : F :=
  if restart it ifail vlog then -ln (restartD dcx (nfail + 1) s.d) else vlog

/-- The evaluation made in round `it`. -/
def trial (dcx : F) (it : Nat) (nfail ifail : Int) (vlog : F) (s : Gerg F) : Gerg F × F :=
  pressureP (withD s (exp (-vlogAt dcx it nfail ifail vlog s)))

/-- The Newton step from an evaluation. -/
def newton (plog : F) (r : Gerg F × F) : F :=
  (ln r.2 - plog) * r.2 / (-r.1.d * r.1.dpddsave)

/-- Pure form of `densityLoop`. -/
def densityLoopP (iflag : Int) (dcx plog : F) :
    (n it : Nat) → (nfail ifail : Int) → F → Gerg F → Gerg F × Except DensityError Unit
  | 0, _, _, _, _, s => giveUp s
  | n + 1, it, nfail, ifail, vlog, s =>
    if restart it ifail vlog && nfail > 2 then giveUp s
    else
      let r := trial dcx it nfail ifail vlog s
      let ifail' := if restart it ifail vlog then 0 else ifail
      let nfail' := if restart it ifail vlog then nfail + 1 else nfail
      let v := vlogAt dcx it nfail ifail vlog s
      if r.1.dpddsave <. EPSILON || r.2 <. EPSILON then
        densityLoopP iflag dcx plog n (it + 1) nfail' ifail' (v + vincAt dcx r.1.d it) r.1
      else if abs (newton plog r) <. TOLR then
        if r.1.dpddsave <. f% 0.0 then
          densityLoopP iflag dcx plog n (it + 1) nfail' 1 (v + -newton plog r) r.1
        else converged iflag (withD r.1 (exp (-(v + -newton plog r))))
      else
        densityLoopP iflag dcx plog n (it + 1) nfail' ifail' (v + -newton plog r) r.1

theorem trial_idx {s : Gerg F} (hs : Idx s) (dcx : F) (it : Nat) (nfail ifail : Int) (vlog : F) :
    Idx (trial dcx it nfail ifail vlog s).1 :=
  pressureP_idx (hs.congr rfl rfl rfl)

theorem densityLoop_ok (iflag : Int) (dcx plog : F) (n it : Nat) (nfail ifail : Int) (vlog : F)
    {s : Gerg F} (hs : Idx s) :
    densityLoop iflag dcx plog n it nfail ifail vlog s
      = .ok (densityLoopP iflag dcx plog n it nfail ifail vlog s) := by
  induction n generalizing it nfail ifail vlog s with
  | zero => rfl
  | succ n ih =>
    have ht := trial_idx hs dcx it nfail ifail vlog
    have hp : pressure (withD s (exp (-vlogAt dcx it nfail ifail vlog s)))
        = .ok (trial dcx it nfail ifail vlog s) := pressure_ok (hs.congr rfl rfl rfl)
    unfold densityLoop densityLoopP
    have hR : (!inRange vlog || it == 20 || it == 30 || it == 40 || ifail == 1)
      = restart it ifail vlog := rfl
    dsimp only
    rw [hR]
    split
    · rfl
    · have e : ({ (if restart it ifail vlog then
            ({ s with d := restartD dcx (if restart it ifail vlog then nfail + 1 else nfail) s.d } : Gerg F)
            else s) with d := exp (-(if restart it ifail vlog then -ln (if restart it ifail vlog then
            ({ s with d := restartD dcx (if restart it ifail vlog then nfail + 1 else nfail) s.d } : Gerg F)
            else s).d else vlog)) } : Gerg F) = withD s (exp (-vlogAt dcx it nfail ifail vlog s)) := by
        unfold vlogAt
        cases restart it ifail vlog <;> rfl
      have ev : (if restart it ifail vlog then -ln (if restart it ifail vlog then
            ({ s with d := restartD dcx (if restart it ifail vlog then nfail + 1 else nfail) s.d } : Gerg F)
            else s).d else vlog) = vlogAt dcx it nfail ifail vlog s := by
        unfold vlogAt
        cases restart it ifail vlog <;> rfl
      rw [e, hp, ev]
      simp only [bind, Except.bind]
      generalize trial dcx it nfail ifail vlog s = r at *
      split
      · exact ih _ _ _ _ ht
      · have en : (ln r.2 - plog) * r.2 / (-r.1.d * r.1.dpddsave) = newton plog r := rfl
        rw [en]
        split
        · split
          · exact ih _ _ _ _ ht
          · have ew : ({ r.1 with d := exp (-(vlogAt dcx it nfail ifail vlog s + -newton plog r)) } : Gerg F)
              = withD r.1 (exp (-(vlogAt dcx it nfail ifail vlog s + -newton plog r))) := rfl
            rw [ew]
            unfold converged
            split
            · rw [properties_ok (s := withD r.1 (exp (-(vlogAt dcx it nfail ifail vlog s + -newton plog r))))
                (ht.congr rfl rfl rfl)]
              generalize propertiesP (withD r.1 (exp (-(vlogAt dcx it nfail ifail vlog s + -newton plog r)))) = q
              unfold twoPhase
              simp only []
              split <;> rfl
            · rfl
        · exact ih _ _ _ _ ht

/-- The density from which the search starts. -/
def startD (iflag : Int) (s : Gerg F) : F :=
  if -EPSILON <. s.d then
    if iflag == 2 then (pseudocriticalpoint s).1 * f% 3.0 else s.p / RGERG / s.t
  else abs s.d

/-- Pure form of `density`. -/
def densityP (s : Gerg F) (iflag : Int) : Gerg F × Except DensityError Unit :=
  densityLoopP iflag (pseudocriticalpoint s).1 (ln s.p) 50 1 0 0 (-ln (startD iflag s))
    (withD s (startD iflag s))

theorem density_ok {s : Gerg F} (hs : Idx s) (iflag : Int) : density s iflag = .ok (densityP s iflag) := by
  unfold density densityP startD
  dsimp only
  split
  · split
    · exact densityLoop_ok _ _ _ _ _ _ _ _ (hs.congr rfl rfl rfl)
    · exact densityLoop_ok _ _ _ _ _ _ _ _ (hs.congr rfl rfl rfl)
  · exact densityLoop_ok _ _ _ _ _ _ _ _ (hs.congr rfl rfl rfl)

end Aga8.Gerg
