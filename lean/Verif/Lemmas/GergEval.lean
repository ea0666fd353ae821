import Verif.Lemmas.GergHist

/-! # What GERG `properties` computes, and its agreement with `pressure` -/

set_option linter.unusedSectionVars false

namespace Aga8.Gerg

open FOps Tab

variable {F : Type} [Add F] [Sub F] [Mul F] [Div F] [Neg F] [FOps F]

/-! ## The entries used by `pressure` do not depend on the flag of `alphar` -/

/-- Agreement on the first and second density derivatives. -/
def Row0 (a b : Ar F) : Prop := aget2 a 0 1 = aget2 b 0 1 ∧ aget2 a 0 2 = aget2 b 0 2

theorem row0_arPol (i j : Int) (ndt : F) (dk : Nat) (tk : F) {a b : Ar F} (h : Row0 a b) :
    Row0 (arPol i ndt dk tk a) (arPol j ndt dk tk b) := by
  obtain ⟨h1, h2⟩ := h
  have key : ∀ (i : Int) (a : Ar F), aget2 (arPol i ndt dk tk a) 0 1 = aget2 a 0 1 + ndt * ofNat dk ∧
      aget2 (arPol i ndt dk tk a) 0 2 = aget2 a 0 2 + ndt * ofNat dk * (ofNat dk - f% 1.0) := by
    intro i a
    unfold arPol
    dsimp only
    split <;> simp (decide := true) only [aget2_aset2, if_true, if_false, and_self]
  obtain ⟨k1, k2⟩ := key i a
  obtain ⟨k3, k4⟩ := key j b
  exact ⟨by rw [k1, k3, h1], by rw [k2, k4, h2]⟩

theorem row0_arExp (i j : Int) (ndt : F) (dk ck : Nat) (delc tk : F) {a b : Ar F} (h : Row0 a b) :
    Row0 (arExp i ndt dk ck delc tk a) (arExp j ndt dk ck delc tk b) := by
  obtain ⟨h1, h2⟩ := h
  have key : ∀ (i : Int) (a : Ar F), aget2 (arExp i ndt dk ck delc tk a) 0 1
      = aget2 a 0 1 + ndt * (ofNat dk - ofNat ck * delc) ∧
      aget2 (arExp i ndt dk ck delc tk a) 0 2 = aget2 a 0 2 + ndt * ((ofNat dk - ofNat ck * delc)
        * (ofNat dk - ofNat ck * delc - f% 1.0) - ofNat ck * (ofNat ck * delc)) := by
    intro i a
    unfold arExp
    dsimp only
    split <;> simp (decide := true) only [aget2_aset2, if_true, if_false, and_self]
  obtain ⟨k1, k2⟩ := key i a
  obtain ⟨k3, k4⟩ := key j b
  exact ⟨by rw [k1, k3, h1], by rw [k2, k4, h2]⟩

theorem row0_arMix (i j : Int) (ndt : F) (dk : Nat) (cij0 eij0 tk : F) {a b : Ar F} (h : Row0 a b) :
    Row0 (arMix i ndt dk cij0 eij0 tk a) (arMix j ndt dk cij0 eij0 tk b) := by
  obtain ⟨h1, h2⟩ := h
  have key : ∀ (i : Int) (a : Ar F), aget2 (arMix i ndt dk cij0 eij0 tk a) 0 1
      = aget2 a 0 1 + ndt * (ofNat dk + f% 2.0 * cij0 + eij0) ∧
      aget2 (arMix i ndt dk cij0 eij0 tk a) 0 2 = aget2 a 0 2 + ndt * ((ofNat dk + f% 2.0 * cij0 + eij0)
        * (ofNat dk + f% 2.0 * cij0 + eij0) - ofNat dk + f% 2.0 * cij0) := by
    intro i a
    unfold arMix
    dsimp only
    split <;> simp (decide := true) only [aget2_aset2, if_true, if_false, and_self]
  obtain ⟨k1, k2⟩ := key i a
  obtain ⟨k3, k4⟩ := key j b
  exact ⟨by rw [k1, k3, h1], by rw [k2, k4, h2]⟩

theorem foldl_rel {σ τ α : Type} (R : σ → τ → Prop) (l : List α) (f : σ → α → σ) (g : τ → α → τ)
    (s : σ) (t : τ) (h0 : R s t) (h : ∀ s t a, R s t → R (f s a) (g t a)) :
    R (l.foldl f s) (l.foldl g t) := by
  induction l generalizing s t with
  | nil => exact h0
  | cons a l ih => exact ih _ _ (h _ _ _ h0)

theorem row0_arOf (s : Gerg F) (i j : Int) (del lntau : F) :
    Row0 (arOf s i del lntau) (arOf s j del lntau) := by
  unfold arOf
  apply foldl_rel
  · apply loop_rel
    · exact ⟨rfl, rfl⟩
    · intro k a b _ h
      unfold arPureP
      split
      · apply loopNP_rel
        · exact loopNP_rel _ h fun k a b _ _ h => row0_arPol _ _ _ _ _ h
        · exact fun k a b _ _ h => row0_arExp _ _ _ _ _ _ _ h
      · exact h
  · intro a b k h
    split
    · apply loop_rel _ h
      intro m a b _ h
      unfold arPairP
      split
      · split
        · apply loopNP_rel
          · exact loopNP_rel _ h fun k a b _ _ h => row0_arPol _ _ _ _ _ h
          · exact fun k a b _ _ h => row0_arMix _ _ _ _ _ _ _ h
        · exact h
      · exact h
    · exact h

theorem row0_alpharP (s : Gerg F) (i j : Int) : Row0 (alpharP s i).ar (alpharP s j).ar :=
  row0_arOf (refresh s) i j (delOf s) (lntauOf s)

/-! ## Result fields -/

theorem propsFinish_z (s : Gerg F) : (propsFinish s).1.z = f% 1.0 + aget2 s.ar 0 1 := by
  unfold propsFinish; dsimp only; split <;> dsimp only <;> split <;> rfl
theorem propsFinish_p (s : Gerg F) :
    (propsFinish s).2 = s.d * (RGERG * s.t) * (f% 1.0 + aget2 s.ar 0 1) := by
  unfold propsFinish; dsimp only
theorem propsFinish_dp_dd (s : Gerg F) : (propsFinish s).1.dp_dd =
    RGERG * s.t * (f% 1.0 + f% 2.0 * aget2 s.ar 0 1 + aget2 s.ar 0 2) := by
  unfold propsFinish; dsimp only; split <;> dsimp only <;> split <;> rfl
theorem propsFinish_dp_dt (s : Gerg F) : (propsFinish s).1.dp_dt =
    s.d * RGERG * (f% 1.0 + aget2 s.ar 0 1 - aget2 s.ar 1 1) := by
  unfold propsFinish; dsimp only; split <;> dsimp only <;> split <;> rfl
theorem propsFinish_d2p_dtd (s : Gerg F) : (propsFinish s).1.d2p_dtd =
    RGERG * (f% 1.0 + f% 2.0 * aget2 s.ar 0 1 + aget2 s.ar 0 2 - f% 2.0 * aget2 s.ar 1 1
      - aget2 s.ar 1 2) := by
  unfold propsFinish; dsimp only; split <;> dsimp only <;> split <;> rfl
theorem propsFinish_g (s : Gerg F) : (propsFinish s).1.g =
    RGERG * s.t * (f% 1.0 + aget2 s.ar 0 1 + aget s.a0 0 + aget2 s.ar 0 0) := by
  unfold propsFinish; dsimp only; split <;> dsimp only <;> split <;> rfl
theorem propsFinish_u (s : Gerg F) : (propsFinish s).1.u =
    RGERG * s.t * (aget s.a0 1 + aget2 s.ar 1 0) := by
  unfold propsFinish; dsimp only; split <;> dsimp only <;> split <;> rfl
theorem propsFinish_h (s : Gerg F) : (propsFinish s).1.h =
    RGERG * s.t * (f% 1.0 + aget2 s.ar 0 1 + aget s.a0 1 + aget2 s.ar 1 0) := by
  unfold propsFinish; dsimp only; split <;> dsimp only <;> split <;> rfl
theorem propsFinish_s (s : Gerg F) : (propsFinish s).1.s =
    RGERG * (aget s.a0 1 + aget2 s.ar 1 0 - aget s.a0 0 - aget2 s.ar 0 0) := by
  unfold propsFinish; dsimp only; split <;> dsimp only <;> split <;> rfl
theorem propsFinish_cv (s : Gerg F) : (propsFinish s).1.cv =
    -RGERG * (aget s.a0 2 + aget2 s.ar 2 0) := by
  unfold propsFinish; dsimp only; split <;> dsimp only <;> split <;> rfl
theorem propsFinish_cp (s : Gerg F) : (propsFinish s).1.cp =
    if EPSILON <. s.d then (propsFinish s).1.cv + s.t * ((propsFinish s).1.dp_dt / s.d)
      * ((propsFinish s).1.dp_dt / s.d) / (propsFinish s).1.dp_dd
    else (propsFinish s).1.cv + RGERG := by
  rw [propsFinish_cv, propsFinish_dp_dt, propsFinish_dp_dd]
  unfold propsFinish; dsimp only; split <;> dsimp only <;> split <;> rfl
theorem propsFinish_d2p_dd2 (s : Gerg F) : (propsFinish s).1.d2p_dd2 =
    if EPSILON <. s.d then
      RGERG * s.t * (f% 2.0 * aget2 s.ar 0 1 + f% 4.0 * aget2 s.ar 0 2 + aget2 s.ar 0 3) / s.d
    else f% 0.0 := by
  unfold propsFinish; dsimp only; split <;> dsimp only <;> split <;> rfl
theorem propsFinish_jt (s : Gerg F) : (propsFinish s).1.jt =
    if EPSILON <. s.d then (s.t / s.d * (propsFinish s).1.dp_dt / (propsFinish s).1.dp_dd - f% 1.0)
      / (propsFinish s).1.cp / s.d
    else f% 1E+20 := by
  rw [propsFinish_cp, propsFinish_cv, propsFinish_dp_dt, propsFinish_dp_dd]
  unfold propsFinish; dsimp only; split <;> dsimp only <;> split <;> rfl
theorem propsFinish_w (s : Gerg F) : (propsFinish s).1.w =
    sqrt (if (f% 1000.0 * (propsFinish s).1.cp / (propsFinish s).1.cv * (propsFinish s).1.dp_dd / s.mm)
        <. f% 0.0 then f% 0.0
      else f% 1000.0 * (propsFinish s).1.cp / (propsFinish s).1.cv * (propsFinish s).1.dp_dd / s.mm) := by
  rw [propsFinish_cp, propsFinish_cv, propsFinish_dp_dt, propsFinish_dp_dd]
  unfold propsFinish; dsimp only; split <;> dsimp only <;> split <;> rfl
theorem propsFinish_kappa (s : Gerg F) : (propsFinish s).1.kappa =
    powi (propsFinish s).1.w 2 * s.mm / (RGERG * s.t * f% 1000.0 * (propsFinish s).1.z) := by
  rw [propsFinish_z]
  unfold propsFinish; dsimp only; split <;> dsimp only <;> split <;> rfl

theorem propsMid_t (s : Gerg F) : (propsMid s).t = s.t := congrArg Pub.t (pub_propsMid s)
theorem propsMid_d (s : Gerg F) : (propsMid s).d = s.d := congrArg Pub.d (pub_propsMid s)
theorem propsMid_mm (s : Gerg F) : (propsMid s).mm = (molar_mass s).mm := congrArg Pub.mm (pub_propsMid s)

/-- `properties` and `pressure` produce the same compressibility. -/
theorem propertiesP_z (s : Gerg F) : (propertiesP s).1.z = (pressureP s).1.z := by
  rw [propertiesP_eq, propsFinish_z, pressureP_z, propsMid_ar, (row0_alpharP s 1 0).1]

/-- `properties` reports the derivative used by the density search. -/
theorem propertiesP_dp_dd (s : Gerg F) : (propertiesP s).1.dp_dd = (pressureP s).1.dpddsave := by
  rw [propertiesP_eq, propsFinish_dp_dd, pressureP_save, propsMid_ar, (row0_alpharP s 1 0).1,
    (row0_alpharP s 1 0).2, propsMid_t]

theorem propertiesP_snd (s : Gerg F) : (propertiesP s).2 = s.d * (RGERG * s.t) * (propertiesP s).1.z := by
  rw [propertiesP_eq, propsFinish_p, propsFinish_z, propsMid_t, propsMid_d]

/-! ## Absent components -/

/-- The results that do not involve the molar mass. -/
structure NoMass (F : Type) where
  z : F
  dp_dd : F
  d2p_dd2 : F
  d2p_dtd : F
  dp_dt : F
  u : F
  h : F
  s : F
  cv : F
  cp : F
  g : F
  jt : F

def noMass (s : Gerg F) : NoMass F :=
  ⟨s.z, s.dp_dd, s.d2p_dd2, s.d2p_dtd, s.dp_dt, s.u, s.h, s.s, s.cv, s.cp, s.g, s.jt⟩

theorem noMass_propsFinish {s s' : Gerg F} (ht : s.t = s'.t) (hd : s.d = s'.d)
    (h0 : s.a0 = s'.a0) (hr : s.ar = s'.ar) :
    noMass (propsFinish s).1 = noMass (propsFinish s').1 ∧ (propsFinish s).2 = (propsFinish s').2 := by
  constructor
  · unfold noMass
    simp only [propsFinish_z, propsFinish_dp_dd, propsFinish_d2p_dd2, propsFinish_d2p_dtd,
      propsFinish_dp_dt, propsFinish_u, propsFinish_h, propsFinish_s, propsFinish_cv, propsFinish_cp,
      propsFinish_g, propsFinish_jt, ht, hd, h0, hr]
  · rw [propsFinish_p, propsFinish_p, ht, hd, hr]

theorem noMass_propertiesP {s s' : Gerg F} (ht : s.t = s'.t) (hd : s.d = s'.d)
    (hx : SamePos s.x s'.x) (hm : params s = params s') (hv : view s = view s') :
    noMass (propertiesP s).1 = noMass (propertiesP s').1 ∧ (propertiesP s).2 = (propertiesP s').2 := by
  rw [propertiesP_eq, propertiesP_eq]
  apply noMass_propsFinish
  · rw [propsMid_t, propsMid_t, ht]
  · rw [propsMid_d, propsMid_d, hd]
  · rw [propsMid_a0, propsMid_a0]; exact alpha0_congr hx hm hd ht
  · rw [propsMid_ar, propsMid_ar]; exact ar_eval_congr hx hm hv hd ht 1

end Aga8.Gerg
