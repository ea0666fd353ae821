import Verif.Lemmas.FastF64
import Verif.Spec.SeriesLibm

/-! # The fast operations as instances

`Add Float`, …, `FOps Float` built from the fast operations are equal to the standard ones, so a program of the model run with
them gives the same result. -/

namespace Aga8.Fast

@[reducible] def addI : Add Float := ⟨addF⟩
@[reducible] def subI : Sub Float := ⟨subF⟩
@[reducible] def mulI : Mul Float := ⟨mulF⟩
@[reducible] def divI : Div Float := ⟨divF⟩
@[reducible] def negI : Neg Float := ⟨negF⟩

theorem addI_eq : (inferInstance : Add Float) = addI := by
  show Add.mk _ = Add.mk _
  congr 1
  funext a b
  exact (addF_eq a b).symm

theorem subI_eq : (inferInstance : Sub Float) = subI := by
  show Sub.mk _ = Sub.mk _
  congr 1
  funext a b
  exact (subF_eq a b).symm

theorem mulI_eq : (inferInstance : Mul Float) = mulI := by
  show Mul.mk _ = Mul.mk _
  congr 1
  funext a b
  exact (mulF_eq a b).symm

theorem divI_eq : (inferInstance : Div Float) = divI := by
  show Div.mk _ = Div.mk _
  congr 1
  funext a b
  exact (divF_eq a b).symm

theorem negI_eq : (inferInstance : Neg Float) = negI := by
  show Neg.mk _ = Neg.mk _
  congr 1
  funext a
  exact (negF_eq a).symm

/-- A literal. -/
def decF (d : Dec) : Float :=
  match d.m with
  | .ofNat n => litF n d.e
  | .negSucc n => negF (litF (n + 1) d.e)

theorem decF_eq (d : Dec) : (if d.m < 0 then -(Float.ofScientific d.m.natAbs true d.e)
    else Float.ofScientific d.m.natAbs true d.e) = decF d := by
  unfold decF
  cases h : d.m with
  | ofNat n =>
    rw [if_neg (by have : (0 : Int) ≤ Int.ofNat n := Int.natCast_nonneg n; omega)]
    exact (litF_eq n d.e).symm
  | negSucc n =>
    rw [if_pos (by exact Int.negSucc_lt_zero n)]
    show _ = negF (litF (n + 1) d.e)
    rw [negF_eq, litF_eq]
    rfl

/-- The operations of `f64` with the math library `l`. -/
@[reducible] def opsI (l : Libm) : FOps Float where
  ofDec := decF
  ofNat n := Float.ofNat n
  abs := absF
  exp := l.exp
  ln := l.ln
  sqrt := Float.sqrt
  powf := l.powf
  powi := l.powi
  lt := ltF
  le a b := decide (a ≤ b)

theorem opsI_eq (l : Libm) : @f64Ops l = opsI l := by
  unfold f64Ops opsI
  have h1 : (fun d : Dec => if d.m < 0 then -(Float.ofScientific d.m.natAbs true d.e)
    else Float.ofScientific d.m.natAbs true d.e) = decF := funext decF_eq
  have h2 : Float.abs = absF := funext fun a => (absF_eq a).symm
  have h3 : (fun a b : Float => decide (a < b)) = ltF := funext fun a => funext fun b => (ltF_eq a b).symm
  rw [h1, h2, h3]

/-- The library `series` computed with the fast operations. -/
@[reducible] def seriesI : Libm :=
  letI := addI; letI := subI; letI := mulI; letI := divI; letI := opsI noLibm
  ⟨Series.exp, Series.ln, Series.powf, Series.powi⟩

theorem seriesI_eq : series = seriesI := by
  unfold series seriesI
  rw [opsI_eq, ← addI_eq, ← subI_eq, ← mulI_eq, ← divI_eq]

/-- A successful result meets a condition. -/
def sat {α β : Type} (c : α → β → Bool) (r : Res (α × β)) : Bool :=
  match r with
  | .ok (a, b) => c a b
  | .error _ => false

theorem sat_ok {α β : Type} {c : α → β → Bool} {r : Res (α × β)} (h : sat c r = true) :
    ∃ a b, r = .ok (a, b) ∧ c a b = true := by
  rcases r with _ | ⟨a, b⟩
  · cases h
  · exact ⟨a, b, rfl, h⟩

end Aga8.Fast
