import Verif.Spec.DetailApi
import Verif.Lemmas.DetailPure

/-! # What the DETAIL functions change -/

set_option linter.unusedSectionVars false

namespace Aga8.Detail

open FOps Tab

variable {F : Type} [Add F] [Sub F] [Mul F] [Div F] [Neg F] [FOps F]

/-- The cached terms of the object. -/
structure Cache (F : Type) where
  xold : Vector F 21
  told : F
  bs : Vector F 18
  k3 : F
  csn : Vector F 58
  tun : Vector F 58

def cache (s : Detail F) : Cache F := ⟨s.xold, s.told, s.bs, s.k3, s.csn, s.tun⟩

/-- The scratch fields of the object, always written before they are read. -/
structure Scratch (F : Type) where
  dp_dd_save : F
  a0 : Vector F 3
  ar : Vector (Vector F 4) 4

def scratch (s : Detail F) : Scratch F := ⟨s.dp_dd_save, s.a0, s.ar⟩

/-- An object is its public part, parameters, cache and scratch. -/
def mkD (q : Pub F) (m : Params F) (c : Cache F) (r : Scratch F) : Detail F where
  dp_dd_save := r.dp_dd_save
  t := q.t
  p := q.p
  d := q.d
  z := q.z
  mm := q.mm
  dp_dd := q.dp_dd
  d2p_dd2 := q.d2p_dd2
  d2p_dtd := q.d2p_dtd
  dp_dt := q.dp_dt
  u := q.u
  h := q.h
  s := q.s
  cv := q.cv
  cp := q.cp
  w := q.w
  g := q.g
  jt := q.jt
  kappa := q.kappa
  x := q.x
  xold := c.xold
  told := c.told
  ki25 := m.ki25
  ei25 := m.ei25
  bsnij2 := m.bsnij2
  bs := c.bs
  kij5 := m.kij5
  uij5 := m.uij5
  gij5 := m.gij5
  k3 := c.k3
  csn := c.csn
  a0 := r.a0
  ar := r.ar
  tun := c.tun
  n0i := m.n0i

theorem mkD_eta (s : Detail F) : mkD (pub s) (params s) (cache s) (scratch s) = s := rfl

/-! ## Change detection -/

/-- Some component moved by more than 1e-7. -/
def xDiff (x y : Vector F 21) : Bool :=
  (List.finRange 21).any fun i => f% 0.0000001 <. abs (aget x i - aget y i)

theorem xCheck_eq (s : Detail F) : xCheck s = (xDiff s.x s.xold, s.x) := by
  have key : ∀ (l : List (Fin 21)), l.Nodup → ∀ (st : Bool × Vector F 21),
      (l.foldl (fun (st : Bool × Vector F 21) i =>
        (if f% 0.0000001 <. abs (aget s.x i - aget st.2 i) then true else st.1,
          aset st.2 i (aget s.x i))) st)
      = (st.1 || l.any fun i => f% 0.0000001 <. abs (aget s.x i - aget st.2 i),
          l.foldl (fun v i => aset v i (aget s.x i)) st.2) := by
    intro l
    induction l with
    | nil => intro _ st; simp
    | cons a l ih =>
      intro hl st
      rw [List.nodup_cons] at hl
      rw [List.foldl_cons, ih hl.2]
      simp only [List.any_cons, List.foldl_cons, Prod.mk.injEq, and_true]
      have : (l.any fun i => f% 0.0000001 <. abs (aget s.x i - aget (aset st.2 a (aget s.x a)) i))
          = (l.any fun i => f% 0.0000001 <. abs (aget s.x i - aget st.2 i)) := by
        rw [Bool.eq_iff_iff, List.any_eq_true, List.any_eq_true]
        constructor <;> rintro ⟨i, hi, h⟩ <;> refine ⟨i, hi, ?_⟩
        · rwa [aget_aset_ne _ _ (fun e : a = i => hl.1 (e ▸ hi))] at h
        · rwa [aget_aset_ne _ _ (fun e : a = i => hl.1 (e ▸ hi))]
      rw [this]
      cases (f% 0.0000001 : F) <. abs (aget s.x a - aget st.2 a) <;> simp
  unfold xCheck loop
  rw [key _ (nodup_rangeFin 0 21)]
  have h2 : (rangeFin 0 21).foldl (fun v i => aset v i (aget s.x i)) s.xold = s.x := by
    have := loop_const (fun i => aget s.x i) s.xold
    unfold loop at this
    rw [this]
    exact arr_ext fun i => by simp
  rw [h2]
  simp [xDiff, rangeFin]

/-! ## The composition terms -/

/-- The accumulators at the end of `x_terms`. -/
def xAcc (s : Detail F) : XAcc F :=
  let a : XAcc F := ⟨f% 0.0, f% 0.0, f% 0.0, f% 0.0, f% 0.0, fill 18 (f% 0.0)⟩
  let a := loop 0 21 a (xPure s)
  let a := { a with k3 := powi a.k3 2, u := powi a.u 2 }
  let a := loop 0 21 a fun i a =>
    if f% 0.0 <. aget s.x i then loop (i.1 + 1) 21 a (xPair s i) else a
  { a with k3 := powf a.k3 (f% 0.6), u := powf a.u (f% 0.2) }

/-- The coefficient of term `n` computed by `x_terms`. -/
def csnOf (s : Detail F) (n : Fin 58) : F :=
  xCsn (xAcc s).u (xAcc s).g (powi (xAcc s).q 2) (xAcc s).f n

/-- `csn` after `x_terms` recomputed: only the terms from 12 on are written. -/
def csnVec (s : Detail F) : Vector F 58 :=
  Vector.ofFn fun n => if 12 ≤ n.1 then csnOf s n else aget s.csn n

theorem xCompute_eq (s : Detail F) :
    xCompute s = { s with k3 := (xAcc s).k3, bs := (xAcc s).bs, csn := csnVec s } := by
  have hi : xInit s = ⟨f% 0.0, f% 0.0, f% 0.0, f% 0.0, f% 0.0, fill 18 (f% 0.0)⟩ := by
    unfold xInit
    rw [loop_const]
    rfl
  have hc : ∀ f : Fin 58 → F, (loop 12 58 s.csn fun n csn => aset csn n (f n))
      = Vector.ofFn fun n => if 12 ≤ n.1 then f n else aget s.csn n := by
    intro f
    apply arr_ext
    intro n
    rw [aget_loop_const]
    simp
  unfold xCompute
  rw [hi]
  simp only [hc]
  rfl

/-- `xAcc` and `csnOf` depend on the composition and the parameters only. -/
theorem xAcc_congr {s s' : Detail F} (hx : s.x = s'.x) (hm : params s = params s') :
    xAcc s = xAcc s' := by
  have h1 : s.ki25 = s'.ki25 := congrArg Params.ki25 hm
  have h2 : s.ei25 = s'.ei25 := congrArg Params.ei25 hm
  have h3 : s.bsnij2 = s'.bsnij2 := congrArg Params.bsnij2 hm
  have h4 : s.kij5 = s'.kij5 := congrArg Params.kij5 hm
  have h5 : s.uij5 = s'.uij5 := congrArg Params.uij5 hm
  have h6 : s.gij5 = s'.gij5 := congrArg Params.gij5 hm
  have e1 : xPure s = xPure s' := by
    funext i a; unfold xPure; rw [hx, h1, h2, h3]
  have e2 : xPair s = xPair s' := by
    funext i j a; unfold xPair; rw [hx, h3, h4, h5, h6]
  unfold xAcc
  rw [e1, e2, hx]

theorem csnOf_congr {s s' : Detail F} (hx : s.x = s'.x) (hm : params s = params s') :
    csnOf s = csnOf s' := by
  funext n
  unfold csnOf
  rw [xAcc_congr hx hm]

/-- `x_terms` changes only the composition cache. -/
theorem x_terms_eq (s : Detail F) :
    x_terms s = if xDiff s.x s.xold then
        { s with xold := s.x, k3 := (xAcc s).k3, bs := (xAcc s).bs, csn := csnVec s }
      else { s with xold := s.x } := by
  unfold x_terms
  simp only [xCheck_eq]
  by_cases h : xDiff s.x s.xold = true
  · simp only [h, Bool.not_true, Bool.false_eq_true, if_false, if_true]
    rw [xCompute_eq]
    rw [xAcc_congr (s := { s with xold := s.x }) (s' := s) rfl rfl]
    unfold csnVec
    rw [csnOf_congr (s := { s with xold := s.x }) (s' := s) rfl rfl]
  · simp only [h, Bool.not_false, if_true]
    rfl

/-! ## The temperature terms -/

/-- The temperature moved by more than 1e-7. -/
def tDiff (t u : F) : Bool := f% 0.0000001 <. abs (t - u)

/-- The powers of temperature `T^-un`. -/
def tunOf (t : F) : Vector F 58 := Vector.ofFn fun n => powf t (-tab UN n)

theorem arTun_eq (s : Detail F) :
    arTun s = { s with told := s.t, tun := if tDiff s.t s.told then tunOf s.t else s.tun } := by
  unfold arTun tDiff
  cases h : FOps.lt (f% 0.0000001 : F) (abs (s.t - s.told))
  · simp only [Bool.false_eq_true, if_false]
  · simp only [if_true]
    rw [loop_const]
    rfl

/-! ## Frames -/

@[simp] theorem pub_x_terms (s : Detail F) : pub (x_terms s) = pub s := by
  rw [x_terms_eq]; split <;> rfl
@[simp] theorem params_x_terms (s : Detail F) : params (x_terms s) = params s := by
  rw [x_terms_eq]; split <;> rfl
@[simp] theorem scratch_x_terms (s : Detail F) : scratch (x_terms s) = scratch s := by
  rw [x_terms_eq]; split <;> rfl

@[simp] theorem pub_alpharP (s : Detail F) (i : Int) : pub (alpharP s i) = pub s := by
  unfold alpharP; simp only [arTun_eq]; rfl
@[simp] theorem params_alpharP (s : Detail F) (i : Int) : params (alpharP s i) = params s := by
  unfold alpharP; simp only [arTun_eq]; rfl

@[simp] theorem pub_alpha0 (s : Detail F) : pub (alpha0_detail s) = pub s := rfl
@[simp] theorem params_alpha0 (s : Detail F) : params (alpha0_detail s) = params s := rfl
@[simp] theorem cache_alpha0 (s : Detail F) : cache (alpha0_detail s) = cache s := rfl

@[simp] theorem params_molar_mass (s : Detail F) : params (molar_mass s).1 = params s := rfl
@[simp] theorem cache_molar_mass (s : Detail F) : cache (molar_mass s).1 = cache s := rfl

theorem pub_t {s s' : Detail F} (h : pub s = pub s') : s.t = s'.t := congrArg Pub.t h
theorem pub_d {s s' : Detail F} (h : pub s = pub s') : s.d = s'.d := congrArg Pub.d h
theorem pub_p {s s' : Detail F} (h : pub s = pub s') : s.p = s'.p := congrArg Pub.p h
theorem pub_xx {s s' : Detail F} (h : pub s = pub s') : s.x = s'.x := congrArg Pub.x h

/-- `pressure` changes no public field but `z`. -/
theorem pub_pressureP (s : Detail F) :
    pub (pressureP s).1 = { pub s with z := (pressureP s).1.z } := by
  have h : pub (alpharP (x_terms s) 0) = pub s := by simp
  unfold pressureP
  show ({ pub (alpharP (x_terms s) 0) with z := _ } : Pub F) = _
  rw [h]

theorem params_pressureP (s : Detail F) : params (pressureP s).1 = params s := by
  show params (alpharP (x_terms s) 0) = _
  simp

theorem pressureP_snd (s : Detail F) :
    (pressureP s).2 = s.d * RDETAIL * s.t * (pressureP s).1.z := by
  have h : pub (alpharP (x_terms s) 0) = pub s := by simp
  show (alpharP (x_terms s) 0).d * RDETAIL * (alpharP (x_terms s) 0).t
    * (pressureP s).1.z = _
  rw [pub_d h, pub_t h]

/-- `density` changes no public field but `d` and `z`. -/
theorem pub_densityLoopP (plog : F) (n : Nat) (vlog : F) (s : Detail F) :
    pub (densityLoopP plog n vlog s).1
      = { pub s with d := (densityLoopP plog n vlog s).1.d, z := (densityLoopP plog n vlog s).1.z } := by
  induction n generalizing vlog s with
  | zero => rfl
  | succ n ih =>
    unfold densityLoopP
    have h := pub_pressureP { s with d := exp (-vlog) }
    generalize pressureP { s with d := exp (-vlog) } = r at *
    have h' : pub r.1 = { pub s with d := r.1.d, z := r.1.z } := by
      have hd : r.1.d = exp (-vlog) := congrArg Pub.d h
      rw [h, hd]; rfl
    split
    · rfl
    · dsimp only
      split
      · rw [ih, h']
      · split
        · show ({ pub r.1 with d := _ } : Pub F) = _
          rw [h']
        · rw [ih, h']

theorem params_densityLoopP (plog : F) (n : Nat) (vlog : F) (s : Detail F) :
    params (densityLoopP plog n vlog s).1 = params s := by
  induction n generalizing vlog s with
  | zero => rfl
  | succ n ih =>
    unfold densityLoopP
    have h := params_pressureP { s with d := exp (-vlog) }
    generalize pressureP { s with d := exp (-vlog) } = r at *
    split
    · rfl
    · dsimp only
      split
      · rw [ih, h]; rfl
      · split
        · show params r.1 = _
          rw [h]; rfl
        · rw [ih, h]; rfl

theorem pub_densityP (s : Detail F) :
    pub (densityP s).1 = { pub s with d := (densityP s).1.d, z := (densityP s).1.z } := by
  unfold densityP
  split
  · rfl
  · dsimp only
    rw [pub_densityLoopP]
    rfl

theorem params_densityP (s : Detail F) : params (densityP s).1 = params s := by
  unfold densityP
  split
  · rfl
  · dsimp only
    rw [params_densityLoopP]
    rfl

theorem params_propsFinish (s : Detail F) (mm : F) : params (propsFinish s mm) = params s := by
  unfold propsFinish
  dsimp only
  split <;> split <;> rfl

theorem params_propertiesP (s : Detail F) : params (propertiesP s) = params s := by
  unfold propertiesP
  rw [params_propsFinish]
  simp

end Aga8.Detail
