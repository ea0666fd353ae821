import Verif.Lemmas.DetailNan

/-! # After a NaN composition: finite terms, so that the result is exactly that of an ideal gas -/

namespace Aga8.F64

open Float.Model Float.Model.UnpackedFloat

theorem isz_mul_left {a b : Float} (h : IsZ a) (hb : IsFinite b) : IsZ (a * b) := by
  obtain ⟨s, h⟩ := h
  unfold IsFinite at hb
  unfold IsZ
  rw [up_mul, h]
  cases e : up b <;> rw [e] at hb <;> first | exact hb.elim | exact ⟨_, recode_zero _⟩

theorem isz_mul_right {a b : Float} (ha : IsFinite a) (h : IsZ b) : IsZ (a * b) := by
  obtain ⟨s, h⟩ := h
  unfold IsFinite at ha
  unfold IsZ
  rw [up_mul, h]
  cases e : up a <;> rw [e] at ha <;> first | exact ha.elim | exact ⟨_, recode_zero _⟩

theorem isz_add {a b : Float} (h : IsZ a) (h' : IsZ b) : IsZ (a + b) := by
  obtain ⟨s, h⟩ := h
  obtain ⟨s', h'⟩ := h'
  unfold IsZ
  rw [up_add, h, h']
  cases s <;> cases s' <;> exact ⟨_, recode_zero _⟩

theorem isz_neg {a : Float} (h : IsZ a) : IsZ (-a) := by
  obtain ⟨s, h⟩ := h
  unfold IsZ
  rw [up_neg, h]
  exact ⟨_, rfl⟩

theorem isz_div {a b : Float} (h : IsZ a) (hb : IsFinite b) (h0 : toR b ≠ 0) : IsZ (a / b) := by
  obtain ⟨s, h⟩ := h
  unfold IsFinite at hb
  unfold toR at h0
  unfold IsZ
  rw [up_div, h]
  cases e : up b <;> rw [e] at hb h0 <;> first | exact hb.elim | exact absurd rfl h0 | exact ⟨_, recode_zero _⟩

theorem fin_z {a : Float} (h : IsZ a) : IsFinite a := by
  obtain ⟨s, h⟩ := h
  unfold IsFinite; rw [h]; trivial

theorem fin_sub_z {a b : Float} (ha : IsFinite a) (h : IsZ b) : IsFinite (a - b) := by
  obtain ⟨s, h⟩ := h
  have hc := up_canon a
  unfold IsFinite at *
  rw [up_sub, h]
  cases e : up a with
  | notANumber => rw [e] at ha; exact ha.elim
  | infinity s => rw [e] at ha; exact ha.elim
  | zero s' => cases s <;> cases s' <;> (show IsFin (recode (.zero _)); rw [recode_zero]; trivial)
  | finite s' m x hm =>
    rw [e] at hc
    show IsFin (recode (.finite s' m x hm))
    rw [recode_canon hc]; trivial

end Aga8.F64

namespace Aga8.Detail

open FOps Tab Aga8.F64 Float.Model

variable [Libm]

theorem dknn_get {dred : Float} (h : IsZ dred) (k : Fin 10) :
    (k = 0 ∧ aget (arDknn dred) k = f% 1.0) ∨ IsZ (aget (arDknn dred) k) := by
  have key : ∀ v : Vector Float 10, (∀ j, (j = 0 → aget v j = f% 1.0) ∧ IsFinite (aget v j) ∧ (j ≠ 0 → IsZ (aget v j))) →
      ∀ n : Fin 10, n ≠ 0 →
      ∀ j, (j = 0 → aget (aset v n (dred * aget v ⟨n.1 - 1, by omega⟩)) j = f% 1.0) ∧
        IsFinite (aget (aset v n (dred * aget v ⟨n.1 - 1, by omega⟩)) j) ∧
        (j ≠ 0 → IsZ (aget (aset v n (dred * aget v ⟨n.1 - 1, by omega⟩)) j)) := by
    intro v hv n hn j
    rw [aget_aset]
    by_cases e : n = j
    · have hz := isz_mul_left h (hv ⟨n.1 - 1, by omega⟩).2.1
      rw [if_pos e]
      exact ⟨fun h0 => absurd (e.trans h0) hn, fin_z hz, fun _ => hz⟩
    · rw [if_neg e]; exact hv j
  have base : ∀ j, (j = 0 → aget (aset (fill 10 (f% 0.0 : Float)) 0 (f% 1.0)) j = f% 1.0) ∧
      IsFinite (aget (aset (fill 10 (f% 0.0 : Float)) 0 (f% 1.0)) j) ∧
      (j ≠ 0 → IsZ (aget (aset (fill 10 (f% 0.0 : Float)) 0 (f% 1.0)) j)) := by
    intro j
    rw [aget_aset]
    by_cases e : (0 : Fin 10) = j
    · rw [if_pos e]; exact ⟨fun _ => rfl, fin1, fun h => absurd e.symm h⟩
    · rw [if_neg e, aget_fill]; exact ⟨fun h => absurd h.symm e, fin0, fun _ => ⟨_, lit0⟩⟩
  have hk := loop_inv (lo := 1) (n := 10) (fun v : Vector Float 10 =>
      ∀ j, (j = 0 → aget v j = f% 1.0) ∧ IsFinite (aget v j) ∧ (j ≠ 0 → IsZ (aget v j)))
    (body := fun n dknn => aset dknn n (dred * aget dknn ⟨n.1 - 1, by omega⟩)) base
    (fun n v hn hv => key v hv n (by
      rintro rfl
      exact absurd hn (by decide))) k
  by_cases e : k = 0
  · exact Or.inl ⟨e, hk.1 e⟩
  · exact Or.inr (hk.2.2 e)

theorem dknn_fin {dred : Float} (h : IsZ dred) (k : Fin 10) : IsFinite (aget (arDknn dred) k) := by
  rcases dknn_get h k with ⟨-, e⟩ | e
  · rw [e]; exact fin1
  · exact fin_z e

omit [Libm] in
theorem toR_z {a : Float} (h : IsZ a) : toR a = 0 := by
  obtain ⟨s, h⟩ := h
  unfold toR; rw [h]; rfl

theorem expn_fin (he : ExpFinite) {dred : Float} (h : IsZ dred) (k : Fin 5) :
    IsFinite (aget (arExpn (arDknn dred)) k) := by
  have hz : ∀ n : Fin 5, 1 ≤ n.1 → IsZ (aget (arDknn dred) ⟨n.1, by omega⟩) := by
    intro n hn
    rcases dknn_get h ⟨n.1, by omega⟩ with ⟨e, -⟩ | e
    · have := congrArg Fin.val e
      simp at this; omega
    · exact e
  generalize arDknn dred = v at *
  unfold arExpn
  refine loop_inv (fun w : Vector Float 5 => ∀ k, IsFinite (aget w k)) ?_ ?_ k
  · intro k
    rw [aget_aset]
    split
    · exact fin1
    · rw [aget_fill]; exact fin0
  · intro n w hn ih k
    rw [aget_aset]
    split
    · have := isz_neg (hz n hn)
      exact he _ (fin_z this) (toR_z this).le
    · exact ih k

theorem ofNat_fin : ∀ k : Fin 10, IsFinite (FOps.ofNat k.1 : Float) := by
  intro k
  have h : ∀ k : Fin 10, (match up (Float.ofNat k.1) with | .finite .. => true | .zero _ => true | _ => false) = true := by
    decide +kernel
  have := h k
  show IsFin (up (Float.ofNat k.1))
  cases e : up (Float.ofNat k.1) <;> rw [e] at this <;> trivial

theorem ofNat_zero_z : IsZ (FOps.ofNat 0 : Float) := by
  have : up (Float.ofNat 0) = .zero .positive := by decide +kernel
  exact ⟨_, this⟩

theorem bkd_fin {dred : Float} (h : IsZ dred) (n : Fin 58) :
    IsFinite (FOps.ofNat (aget BN n) - FOps.ofNat (aget KN n) * aget (arDknn dred) (knJ n)) := by
  refine fin_sub_z (ofNat_fin (bnI n)) ?_
  rcases dknn_get h (knJ n) with ⟨e, e1⟩ | e
  · have e0 : aget KN n = 0 := congrArg Fin.val e
    rw [e0]
    exact isz_mul_left ofNat_zero_z (dknn_fin h _)
  · exact isz_mul_right (ofNat_fin (knJ n)) e

/-- The composition terms are zero and the temperature terms are numbers. -/
structure ZeroView (v : View Float) : Prop where
  k3 : IsZ v.k3
  bs : ∀ n, IsZ (aget v.bs n)
  csn : ∀ n, IsZ (aget v.csn n)
  tun : ∀ n, IsFinite (aget v.tun n)

theorem z_term (he : ExpFinite) {s : Detail Float} (h : ZeroView (stored s)) (hd : IsFinite s.d) (n : Fin 58) :
    IsZ ((arTermP s (s.k3 * s.d) (arDknn (s.k3 * s.d)) (arExpn (arDknn (s.k3 * s.d))) n).sum0
      * (arTermP s (s.k3 * s.d) (arDknn (s.k3 * s.d)) (arExpn (arDknn (s.k3 * s.d))) n).coefd1) ∧
    IsZ (arTermP s (s.k3 * s.d) (arDknn (s.k3 * s.d)) (arExpn (arDknn (s.k3 * s.d))) n).sumb := by
  have hr : IsZ (s.k3 * s.d) := isz_mul_left h.k3 hd
  have h1 : ∀ n, IsZ (aget s.bs n) := h.bs
  have h2 : ∀ n : Fin 58, 12 ≤ n.1 → IsZ (aget s.csn n) := by
    intro n hn
    have := h.csn n
    simpa [stored, csnRead, hn] using this
  have h3 : ∀ n, IsFinite (aget s.tun n) := h.tun
  have h4 := dknn_fin hr
  have h5 := expn_fin he hr
  have h6 := bkd_fin hr n
  generalize arExpn (arDknn (s.k3 * s.d)) = ex at *
  generalize arDknn (s.k3 * s.d) = dk at *
  unfold arTermP
  dsimp only
  by_cases hn : 12 ≤ n.1
  · simp only [ge_iff_le, hn, if_true]
    refine ⟨isz_mul_left (isz_mul_left (isz_mul_left (isz_mul_left (h2 n hn) (h4 _)) (h3 _)) (h5 _)) h6, ?_⟩
    split
    · exact isz_mul_left (isz_add (isz_mul_left (h1 _) hd) (isz_mul_left (isz_neg (h2 n hn)) (fin_z hr))) (h3 _)
    · exact ⟨_, lit0⟩
  · simp only [ge_iff_le, hn, if_false]
    refine ⟨isz_mul_left ⟨_, lit0⟩ fin0, ?_⟩
    split
    · exact isz_mul_left (isz_mul_left (h1 _) hd) (h3 _)
    · exact ⟨_, lit0⟩

theorem z_arOf (he : ExpFinite) {s : Detail Float} (h : ZeroView (stored s)) (hd : IsFinite s.d)
    (hrt : IsFinite (RDETAIL * s.t)) : IsZ (aget2 (arOf s 0) 0 1) := by
  unfold arOf
  apply loop_inv (fun ar => IsZ (aget2 ar 0 1))
  · rw [aget2, aget_fill, aget_fill]; exact ⟨_, lit0⟩
  · intro n ar _ ih
    rw [arAcc_01]
    obtain ⟨a, b⟩ := z_term he h hd n
    exact isz_add ih (isz_mul_right hrt (isz_add a b))

omit [Libm] in
theorem litR' : up (Float.ofScientific 831451 true 5) = .finite .positive 4680653017221033 (-49) (by decide) := by
  decide +kernel

theorem litR : up (RDETAIL : Float) = .finite .positive 4680653017221033 (-49) (by decide) := litR'

theorem R_val : toR (RDETAIL : Float) = 4680653017221033 / 2 ^ 49 := by
  unfold toR; rw [litR]
  simp [val, sg, zpow_neg]
  norm_num

theorem R_fin : IsFinite (RDETAIL : Float) := by unfold IsFinite; rw [litR]; trivial

theorem rt_ok {t : Float} (h : GoodT t) : IsFinite (RDETAIL * t) ∧ toR (RDETAIL * t) ≠ 0 := by
  obtain ⟨hf, h1, h2⟩ := h
  have e : toR (RDETAIL : Float) * toR t = 4680653017221033 / 2 ^ 49 * toR t := by rw [R_val]
  have hb : |toR (RDETAIL : Float) * toR t| ≤ 100000 := by
    rw [e, abs_of_nonneg (by positivity)]
    norm_num; linarith
  have hbig : (100000 : ℝ) ≤ 2 ^ 1023 := by
    calc (100000 : ℝ) ≤ 2 ^ 17 := by norm_num
      _ ≤ 2 ^ 1023 := pow_le_pow_right₀ (by norm_num) (by norm_num)
  obtain ⟨a, b⟩ := mul_ok R_fin hf (hb.trans hbig)
  refine ⟨a, fun h0 => ?_⟩
  rw [h0, zero_sub, abs_neg] at b
  have hu : uu ≤ 1 / 4 := by rw [uu_eq]; norm_num
  have het : eta ≤ 1 := by
    unfold eta; exact zpow_le_one_of_nonpos₀ (by norm_num) (by norm_num)
  have hlow : 8 ≤ |toR (RDETAIL : Float) * toR t| := by
    rw [e, abs_of_nonneg (by positivity)]
    norm_num; linarith
  nlinarith

/-- With vanishing composition terms the object reports exactly 1. -/
theorem z_exact (he : ExpFinite) {s : Detail Float} (h : ZeroView (view s)) (hd : IsFinite s.d) (ht : GoodT s.t) :
    (IsFinite (pressureP s).1.z ∧ toR (pressureP s).1.z = 1) ∧
    (IsFinite (propertiesP s).z ∧ toR (propertiesP s).z = 1) := by
  have hp : pub (arTun { x_terms s with ar := fill 4 (fill 4 (f% 0.0)) }) = pub s := by
    rw [arTun_eq]; exact pub_x_terms s
  have ha : IsZ (aget2 (alpharP (x_terms s) 0).ar 0 1) := by
    rw [ar_alpharP]
    refine z_arOf he (by rw [stored_refresh]; exact h) ?_ ?_
    · rw [pub_d hp]; exact hd
    · rw [pub_t hp]; exact (rt_ok ht).1
  have ht0 : toR s.t ≠ 0 := by have := ht.2.1; linarith
  have hR0 : toR (RDETAIL : Float) ≠ 0 := by rw [R_val]; norm_num
  have one : ∀ a : Float, IsZ a → IsFinite (f% 1.0 + a) ∧ toR (f% 1.0 + a) = 1 := by
    intro a hz
    rcases one_add_zn (Or.inl hz) with h | h
    · exact h
    · obtain ⟨s, hz⟩ := hz
      rw [isNaN_iff, up_add, hz, lit1] at h
      have : recode (.finite .positive 4503599627370496 (-52) (by decide)) = .notANumber := h
      rw [recode_canon (lit1 ▸ up_canon (f% 1.0 : Float))] at this
      cases this
  rw [pressureP_z, propertiesP_z]
  exact ⟨one _ (isz_div (isz_div ha R_fin hR0) ht.1 ht0), one _ (isz_div ha (rt_ok ht).1 (rt_ok ht).2)⟩

/-! ## Histories -/

/-- A decoded number of magnitude at most 30. -/
def small : UnpackedFloat → Bool
  | .zero _ => true
  | .finite _ m e _ => decide (e ≤ 0) && decide (m ≤ 30 * 2 ^ (-e).toNat)
  | _ => false

/-- An `f64` literal. -/
def litF (d : Dec) : Float :=
  if d.m < 0 then -(Float.ofScientific d.m.natAbs true d.e) else Float.ofScientific d.m.natAbs true d.e

omit [Libm] in
theorem UN_small : ∀ n : Fin 58, small (up (-litF (aget UN n))) = true := by decide +kernel

omit [Libm] in
theorem small_ok {a : Float} (h : small (up a) = true) : IsFinite a ∧ |toR a| ≤ 30 := by
  unfold IsFinite toR
  cases e : up a with
  | notANumber => rw [e] at h; cases h
  | infinity s => rw [e] at h; cases h
  | zero s => exact ⟨trivial, by simp [val]⟩
  | finite s m x hm =>
    rw [e] at h
    simp only [small, Bool.and_eq_true, decide_eq_true_eq] at h
    obtain ⟨h1, h2⟩ := h
    refine ⟨trivial, ?_⟩
    have hx : x = -((-x).toNat : Int) := by omega
    show |sg s * ((m : ℝ) * (2 : ℝ) ^ x)| ≤ 30
    rw [mag s (by positivity), hx, zpow_neg, zpow_natCast, ← div_eq_mul_inv, div_le_iff₀ (by positivity)]
    exact_mod_cast h2

theorem tun_fin (hp : PowfFinite) {t : Float} (h : GoodT t) (n : Fin 58) : IsFinite (aget (tunOf t) n) := by
  have key : ∀ n : Fin 58, IsFinite (-tab UN n : Float) ∧ |toR (-tab UN n : Float)| ≤ 30 :=
    fun n => small_ok (UN_small n)
  unfold tunOf
  rw [aget_ofFn]
  exact hp _ _ h.1 (key n).1 h.2.1 h.2.2 (key n).2

/-- The composition terms are zero, the temperature terms are numbers, and the current and remembered fractions are
indistinguishable. -/
structure InvZ (xs xos : Vector Float 21 → Prop) (s : Detail Float) : Prop where
  k3 : IsZ s.k3
  bs : ∀ n, IsZ (aget s.bs n)
  csn : ∀ n, IsZ (aget (csnRead s.csn) n)
  tun : ∀ n, IsFinite (aget s.tun n)
  x : xs s.x
  xold : xos s.xold
  t : GoodT s.t

theorem invZ_view (hp : PowfFinite) {xs xos : Vector Float 21 → Prop}
    (hn : ∀ a b, xs a → xos b → xDiff a b = false) {s : Detail Float} (h : InvZ xs xos s) : ZeroView (view s) := by
  have e : xDiff s.x s.xold = false := hn _ _ h.x h.xold
  refine ⟨?_, ?_, ?_, ?_⟩
  · show IsZ (if xDiff s.x s.xold then (xAcc s).k3 else s.k3)
    rw [e]; exact h.k3
  · show ∀ n, IsZ (aget (if xDiff s.x s.xold then (xAcc s).bs else s.bs) n)
    rw [e]; exact h.bs
  · show ∀ n, IsZ (aget (if xDiff s.x s.xold then csnRead (csnVec s) else csnRead s.csn) n)
    rw [e]; exact h.csn
  · show ∀ n, IsFinite (aget (if tDiff s.t s.told then tunOf s.t else s.tun) n)
    cases tDiff s.t s.told
    · exact h.tun
    · exact tun_fin hp h.t

theorem step_setx {xs : Vector Float 21 → Prop} {s : Detail Float} (h : xs s.x) (op : Op Float)
    (hop : LeavesX op ∨ ∃ x, xs x ∧ AssignsX x op) : xs (stepP s op).1.x := by
  cases op with
  | write q =>
    rcases hop with h' | ⟨x, hx, h'⟩
    · exact h'.elim
    · show xs q.x
      rw [show q.x = x from h']; exact hx
  | setComposition c =>
    show xs (set_composition s c).1.x
    rw [set_composition_eq]
    rcases hop with h' | ⟨x, hx, h', hf⟩
    · cases hc : c.check with
      | error e => exact h
      | ok u => exact absurd hc h'
    · rw [h']
      show xs (compX s.x c)
      rw [compX_eq _ _ _ hf]; exact hx
  | molarMass => exact h
  | pressure => rw [step_x s _ (fun _ h => by cases h) (fun _ h => by cases h)]; exact h
  | density => rw [step_x s _ (fun _ h => by cases h) (fun _ h => by cases h)]; exact h
  | properties => rw [step_x s _ (fun _ h => by cases h) (fun _ h => by cases h)]; exact h

omit [Libm] in
theorem cache_k3 {s s' : Detail Float} (h : cache s = cache s') : s.k3 = s'.k3 := congrArg Cache.k3 h

theorem invZ_step (hp : PowfFinite) {xs xos : Vector Float 21 → Prop} (hsub : ∀ a, xs a → xos a)
    (hn : ∀ a b, xs a → xos b → xDiff a b = false) {s : Detail Float} (h : InvZ xs xos s) (op : Op Float)
    (hop : LeavesX op ∨ ∃ x, xs x ∧ AssignsX x op) (ho : ∀ q, op = .write q → GoodT q.t) :
    InvZ xs xos (stepP s op).1 := by
  have hx := step_setx h.x op hop
  have ht : GoodT (stepP s op).1.t := by
    by_cases hw : ∃ q, op = .write q
    · obtain ⟨q, rfl⟩ := hw; exact ho q rfl
    · rw [step_t s op (fun q e => hw ⟨q, e⟩)]; exact h.t
  rcases step_cases selfDiff s op with hc | ⟨a, b, -⟩
  · refine ⟨?_, ?_, ?_, ?_, hx, ?_, ht⟩
    · rw [cache_k3 hc]; exact h.k3
    · rw [cache_bs hc]; exact h.bs
    · rw [cache_csn hc]; exact h.csn
    · rw [cache_tun hc]; exact h.tun
    · rw [cache_xold hc]; exact h.xold
  · have v := invZ_view hp hn h
    refine ⟨?_, ?_, ?_, ?_, hx, ?_, ht⟩
    · rw [show (stepP s op).1.k3 = (view s).k3 from congrArg View.k3 a]; exact v.k3
    · rw [stored_bs a]; exact v.bs
    · rw [stored_csn a]; exact v.csn
    · rw [stored_tun a]; exact v.tun
    · rw [b]; exact hsub _ h.x

theorem invZ_run (hp : PowfFinite) {xs xos : Vector Float 21 → Prop} (hsub : ∀ a, xs a → xos a)
    (hn : ∀ a b, xs a → xos b → xDiff a b = false) (ops : List (Op Float)) {s : Detail Float}
    (h : InvZ xs xos s) (hop : ∀ op ∈ ops, LeavesX op ∨ ∃ x, xs x ∧ AssignsX x op)
    (ho : ∀ op ∈ ops, ∀ q, op = .write q → GoodT q.t) : InvZ xs xos (runP s ops).1 := by
  induction ops generalizing s with
  | nil => exact h
  | cons op ops ih =>
    exact ih (invZ_step hp hsub hn h op (hop op (List.mem_cons_self ..)) (ho op (List.mem_cons_self ..)))
      (fun o h => hop o (List.mem_cons_of_mem _ h)) (fun o h => ho o (List.mem_cons_of_mem _ h))

end Aga8.Detail
