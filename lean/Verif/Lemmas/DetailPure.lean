import Verif.Detail
import Verif.Lemmas.Basic

/-! # Panic-free normal forms of the DETAIL functions

Every function of the model that lives in `Res` is shown to be `ok` of a total function. -/

set_option linter.unusedSectionVars false

namespace Aga8.Detail

open FOps Tab

variable {F : Type} [Add F] [Sub F] [Mul F] [Div F] [Neg F] [FOps F]

theorem BN_lt : ∀ n : Fin 58, aget BN n < 10 := by decide +kernel
theorem KN_lt : ∀ n : Fin 58, aget KN n < 5 := by decide +kernel

/-- `BN[n]` as an index of `dknn`. -/
def bnI (n : Fin 58) : Fin 10 := ⟨aget BN n, BN_lt n⟩
/-- `KN[n]` as an index of `expn`. -/
def knI (n : Fin 58) : Fin 5 := ⟨aget KN n, KN_lt n⟩
/-- `KN[n]` as an index of `dknn`. -/
def knJ (n : Fin 58) : Fin 10 := ⟨aget KN n, Nat.lt_trans (KN_lt n) (by decide)⟩

/-- Pure form of `arTermAt`. -/
def arTermP (s : Detail F) (dred : F) (dknn : Vector F 10) (expn : Vector F 5) (n : Fin 58) :
    ArTerm F :=
  let coeft1 := RDETAIL * (tab UN n - f% 1.0)
  let coeft2 := coeft1 * tab UN n
  let sumb : F :=
    if h : n.1 ≤ 17 then
      let sum := aget s.bs ⟨n.1, by omega⟩ * s.d
      let sum := if n.1 ≥ 12 then sum + -aget s.csn n * dred else sum
      sum * aget s.tun n
    else f% 0.0
  if n.1 ≥ 12 then
    let sum0 := aget s.csn n * aget dknn (bnI n) * aget s.tun n * aget expn (knI n)
    let bkd := ofNat (aget BN n) - ofNat (aget KN n) * aget dknn (knJ n)
    let ckd := ofNat (aget KN n) * ofNat (aget KN n) * aget dknn (knJ n)
    let coefd2 := bkd * (bkd - f% 1.0) - ckd
    let coefd3 := (bkd - f% 2.0) * coefd2 + ckd * (f% 1.0 - ofNat (aget KN n) - f% 2.0 * bkd)
    ⟨sum0, sumb, bkd, coefd2, coefd3, coeft1, coeft2⟩
  else
    ⟨f% 0.0, sumb, f% 0.0, f% 0.0, f% 0.0, coeft1, coeft2⟩

theorem arTermAt_ok (s : Detail F) (dred : F) (dknn : Vector F 10) (expn : Vector F 5)
    (n : Fin 58) : arTermAt s dred dknn expn n = .ok (arTermP s dred dknn expn n) := by
  unfold arTermAt arTermP
  have h1 := idx_ok dknn (BN_lt n)
  have h2 := idx_ok expn (KN_lt n)
  have h3 : idx dknn (aget KN n) = _ := idx_ok dknn (knJ n).2
  simp only [h1, h2, h3, bind, Except.bind, pure, Except.pure]
  by_cases h : n.1 ≥ 12
  · simp only [h, if_true]; rfl
  · simp only [h, if_false]

/-- The array `self.ar` computed by `alphar` from the cached terms. -/
def arOf (s : Detail F) (itau : Int) : Vector (Vector F 4) 4 :=
  let dred := s.k3 * s.d
  let dknn := arDknn dred
  let expn := arExpn dknn
  loop 0 58 (fill 4 (fill 4 (f% 0.0))) fun n ar =>
    arAcc itau (RDETAIL * s.t) (arTermP s dred dknn expn n) ar

theorem arZero_eq (ar : Vector (Vector F 4) 4) : arZero ar = fill 4 (fill 4 (f% 0.0)) := by
  apply arr2_ext
  intro i j
  unfold arZero
  have h : ∀ (i : Fin 4) (ar : Vector (Vector F 4) 4),
      (loop 0 4 ar fun j ar => aset2 ar i j (f% 0.0)) = aset ar i (fill 4 (f% 0.0)) := by
    intro i ar
    apply arr2_ext
    intro i' j'
    simp only [loop, rangeFin, List.finRange_succ, List.drop_zero, List.foldl_cons, List.foldl_nil,
      List.map_cons, List.finRange_zero, List.map_nil]
    simp only [aget2_aset2]
    unfold aget2
    rw [aget_aset]
    by_cases hi : i = i'
    · subst hi
      simp only [true_and, if_true, aget_fill]
      match j' with
      | 0 => simp
      | 1 => simp
      | 2 => simp
      | 3 => simp
    · simp [hi]
  rw [loop_congr (fun i s _ => h i s), loop_const]
  simp [aget2]

/-- Pure form of `alphar`. -/
def alpharP (s : Detail F) (itau : Int) : Detail F :=
  let s1 := arTun { s with ar := fill 4 (fill 4 (f% 0.0)) }
  { s1 with ar := arOf s1 itau }

theorem arTun_ar (s : Detail F) : (arTun s).ar = s.ar := by
  unfold arTun; split <;> rfl

theorem alphar_ok (s : Detail F) (itau : Int) : alphar s itau = .ok (alpharP s itau) := by
  unfold alphar alpharP
  simp only [arZero_eq]
  have h := arTun_ar { s with ar := fill 4 (fill 4 (f% 0.0)) }
  simp only at h
  generalize arTun { s with ar := fill 4 (fill 4 (f% 0.0)) } = s1 at *
  rw [loopM_ok (fun n c => aset c n (arTermP s1 (s1.k3 * s1.d) (arDknn (s1.k3 * s1.d))
    (arExpn (arDknn (s1.k3 * s1.d))) n))]
  · simp only [bind, Except.bind, pure, Except.pure]
    rw [loop_const, h]
    simp only [aget_ofFn]
    rfl
  · intro i s' _
    rw [arTermAt_ok]
    rfl

/-- Pure form of `pressure`. -/
def pressureP (s : Detail F) : Detail F × F :=
  let s := alpharP (x_terms s) 0
  let s := { s with z := f% 1.0 + aget2 s.ar 0 1 / RDETAIL / s.t }
  let p := s.d * RDETAIL * s.t * s.z
  let s := { s with dp_dd_save := RDETAIL * s.t + f% 2.0 * aget2 s.ar 0 1 + aget2 s.ar 0 2 }
  (s, p)

theorem pressure_ok (s : Detail F) : pressure s = .ok (pressureP s) := by
  unfold pressure pressureP
  simp only [alphar_ok, bind, Except.bind, pure, Except.pure]

/-- Pure form of `properties`. -/
def propertiesP (s : Detail F) : Detail F :=
  let m := molar_mass s
  propsFinish (alpharP (alpha0_detail (x_terms m.1)) 2) m.2

theorem properties_ok (s : Detail F) : properties s = .ok (propertiesP s) := by
  unfold properties propertiesP
  simp only [alphar_ok, bind, Except.bind, pure, Except.pure]

/-- Pure form of `densityLoop`. -/
def densityLoopP (plog : F) : Nat → F → Detail F → Detail F × Except DensityError Unit
  | 0, _, s => ({ s with d := s.p / RDETAIL / s.t }, .error .IterationFail)
  | n + 1, vlog, s =>
    if !(-(f% 7.0) <=. vlog && vlog <=. f% 100.0) then
      ({ s with d := s.p / RDETAIL / s.t }, .error .IterationFail)
    else
      let r := pressureP { s with d := exp (-vlog) }
      if r.1.dp_dd_save <. EPSILON || r.2 <. EPSILON then
        densityLoopP plog n (vlog + f% 0.1) r.1
      else
        let vdiff := (ln r.2 - plog) * r.2 / (-r.1.d * r.1.dp_dd_save)
        if abs vdiff <. TOLR then
          ({ r.1 with d := exp (-(vlog - vdiff)) }, .ok ())
        else
          densityLoopP plog n (vlog - vdiff) r.1

theorem densityLoop_ok (plog : F) (n : Nat) (vlog : F) (s : Detail F) :
    densityLoop plog n vlog s = .ok (densityLoopP plog n vlog s) := by
  induction n generalizing vlog s with
  | zero => rfl
  | succ n ih =>
    unfold densityLoop densityLoopP
    simp only [pressure_ok, bind, Except.bind, pure, Except.pure, ih]
    split
    · rfl
    · split
      · rfl
      · split <;> rfl

/-- Pure form of `density`. -/
def densityP (s : Detail F) : Detail F × Except DensityError Unit :=
  if abs s.p <. EPSILON then
    ({ s with d := f% 0.0 }, .error .PressureTooLow)
  else
    let d0 := if -EPSILON <. s.d then s.p / RDETAIL / s.t else abs s.d
    densityLoopP (ln s.p) 20 (-ln d0) { s with d := d0 }

theorem density_ok (s : Detail F) : density s = .ok (densityP s) := by
  unfold density densityP
  simp only [densityLoop_ok]
  split
  · rfl
  · split <;> rfl

/-! ## `new` -/

theorem n0iAsg_lt : ∀ a ∈ n0iAsg, a.1 < 21 ∧ a.2.1 < 7 := by decide +kernel

/-- Pure write: no effect when out of range. -/
def put2P {α : Type} {n m : Nat} (v : Vector (Vector α m) n) (i j : Nat) (a : α) :
    Vector (Vector α m) n :=
  if h : i < n ∧ j < m then aset2 v ⟨i, h.1⟩ ⟨j, h.2⟩ a else v

/-- Pure form of the literal `n0i` assignments. -/
def setN0i (s : Detail F) : Detail F :=
  { s with n0i := n0iAsg.foldl (fun v a => put2P v a.1 a.2.1 (ofDec a.2.2)) s.n0i }

/-- Pure form of `setup`. -/
def setupP (s : Detail F) : Detail F :=
  setupIdeal (loop 0 21 (setN0i (setupPow s)) fun i s => loop 0 21 s fun j s => setupIJ i j s)

/-- Pure form of `new`. -/
def newP : Detail F := setupP default

theorem setupN0i_ok (s : Detail F) : setupN0i s = .ok (setN0i s) := by
  unfold setupN0i setN0i
  rw [foldlM_ok n0iAsg _ (fun v a => put2P v a.1 a.2.1 (ofDec a.2.2))]
  · simp only [bind, Except.bind, pure, Except.pure]
  · intro v a ha
    have h := n0iAsg_lt a ha
    rw [put2_ok v h.1 h.2]
    simp [put2P, h.1, h.2]

theorem new_ok : (new : Res (Detail F)) = .ok newP := by
  unfold new setup newP setupP
  simp only [setupN0i_ok, bind, Except.bind, pure, Except.pure]

attribute [irreducible] newP

end Aga8.Detail
