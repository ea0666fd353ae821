import Verif.Lemmas.GergPure

/-! # A corrupted exponent table makes GERG-2008 panic -/

set_option linter.unusedSectionVars false

namespace Aga8.Gerg

open FOps Tab

variable {F : Type} [Add F] [Sub F] [Mul F] [Div F] [Neg F] [FOps F]

theorem arPure_panics (s : Gerg F) (itau : Int) (delp expd : Vector F 8) (ar : Ar F)
    (hx : (EPSILON <. aget s.x 1) = true) (hd : 8 ≤ aget2 s.doik 1 1) :
    arPure s itau delp expd 1 ar = .error .indexOutOfBounds := by
  have h : ∀ n : Nat, n = aget2 s.doik 1 1 → idx delp n = .error .indexOutOfBounds := by
    intro n hn
    unfold idx
    rw [dif_neg (by omega)]
  have h1 : idx (aget s.doik 1) 1 = .ok (aget2 s.doik 1 1) := by rfl
  have hk : aget KPOL 1 = 6 := by decide +kernel
  unfold arPure
  rw [if_pos hx, hk]
  unfold loopN
  simp [List.range', h1, h _ rfl, bind, Except.bind]

theorem alpharTail_panics (s : Gerg F) (itau : Int) (tr del lntau : F)
    (hx : (EPSILON <. aget s.x 1) = true) (hd : 8 ≤ aget2 s.doik 1 1) :
    alpharTail s itau tr del lntau = .error .indexOutOfBounds := by
  unfold alpharTail
  dsimp only
  have hx' : (EPSILON <. aget (withKeys s s.t tr).x 1) = true := hx
  have hd' : 8 ≤ aget2 (withKeys s s.t tr).doik 1 1 := hd
  generalize withKeys s s.t tr = s1 at *
  have h : rangeFin 1 22 = 1 :: rangeFin 2 22 := by decide
  unfold loopM
  rw [h, List.foldlM_cons]
  simp only [arPure_panics s1 _ _ _ _ hx' hd']
  rfl

theorem alphar_panics (s : Gerg F) (itau : Int) (hx : (EPSILON <. aget s.x 1) = true) (hd : 8 ≤ aget2 s.doik 1 1) :
    alphar s itau = .error .indexOutOfBounds := by
  have hr : (reducingparameters (clearAr s)).1.x = s.x ∧ (reducingparameters (clearAr s)).1.doik = s.doik := by
    unfold reducingparameters
    dsimp only
    split <;> exact ⟨rfl, rfl⟩
  have e : alphar s itau = if tStale (reducingparameters (clearAr s)).1 (reducingparameters (clearAr s)).2.2
      then alpharTail (ttermsP (reducingparameters (clearAr s)).1 (lntauOf s)) itau
        (reducingparameters (clearAr s)).2.2 (delOf s) (lntauOf s)
      else alpharTail (reducingparameters (clearAr s)).1 itau
        (reducingparameters (clearAr s)).2.2 (delOf s) (lntauOf s) := by
    unfold alphar tStale
    simp only [arZero_eq, tterms_ok]
    have hc : ({ s with ar := fill 4 (fill 4 (f% 0.0)) } : Gerg F) = clearAr s := rfl
    rw [hc]
    unfold lntauOf delOf alpharTail
    generalize reducingparameters (clearAr s) = r
    split
    · generalize ttermsP r.1 (ln (r.2.2 / r.1.t)) = q
      simp only [bind, Except.bind, pure, Except.pure, withKeys, withAr]
      rfl
    · simp only [bind, Except.bind, pure, Except.pure, withKeys, withAr]
      rfl
  rw [e]
  split
  · exact alpharTail_panics _ _ _ _ _ (by rw [show (ttermsP (reducingparameters (clearAr s)).1 (lntauOf s)).x = s.x from hr.1]; exact hx)
      (by rw [show (ttermsP (reducingparameters (clearAr s)).1 (lntauOf s)).doik = s.doik from hr.2]; exact hd)
  · exact alpharTail_panics _ _ _ _ _ (by rw [hr.1]; exact hx) (by rw [hr.2]; exact hd)

/-- With a density exponent of 8 or more in the table of methane, the pressure of any gas with methane panics. -/
theorem pressure_panics (s : Gerg F) (hx : (EPSILON <. aget s.x 1) = true) (hd : 8 ≤ aget2 s.doik 1 1) :
    s.pressure = .error .indexOutOfBounds := by
  unfold pressure
  rw [alphar_panics s 0 hx hd]
  rfl

end Aga8.Gerg
