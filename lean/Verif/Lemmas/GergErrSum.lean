import Verif.Lemmas.GergErrTerm

/-! # Rounding errors in the residual sums of GERG -/

set_option linter.unusedSectionVars false
set_option linter.unusedSimpArgs false

namespace Aga8.Gerg

open Tab F64 Finset
open Detail (ap0 ap1 ap2 apNat)

attribute [local irreducible] newP pressureP propertiesP

/-- Amplitudes `η` of the departure terms. -/
noncomputable def cA (mn k : ℕ) : ℝ := decR (gd2 cijkD mn k ⟨0, 0⟩)
/-- `2 η ε + β` of the departure terms. -/
noncomputable def eA (mn k : ℕ) : ℝ :=
  2 * decR (gd2 cijkD mn k ⟨0, 0⟩) * decR (gd2 eijkD mn k ⟨0, 0⟩) + decR (gd2 bijkD mn k ⟨0, 0⟩)

/-- The shape of a term with the absolute values of its coefficients. -/
noncomputable def shapeA : Ix → Shape
  | .inl (i, k) => ⟨aget2 doik0 i k, if k.1 ≤ aget KPOL i then 0 else aget2 coik0 i k, 0, 0, |aget2 m0.toik i k|⟩
  | .inr (i, j, k) =>
    if k.1 ≤ kpolij (aget2 MNUMB i j) then
      ⟨gd2 dijk0 (aget2 MNUMB i j) k.1 0, 0, 0, 0, |gd2 m0.tijk (aget2 MNUMB i j) k.1 0|⟩
    else ⟨gd2 dijk0 (aget2 MNUMB i j) k.1 0, 0, cA (aget2 MNUMB i j) k.1, eA (aget2 MNUMB i j) k.1,
      |gd2 m0.tijk (aget2 MNUMB i j) k.1 0|⟩

/-- A residual term with its weight. -/
noncomputable def tV (x : Vector ℝ 22) (fac : Fac) (δ τ : ℝ) (ι : Ix) : ℝ :=
  coef x ι * Real.exp ((shape m0 ι).t * Real.log τ) * ((shape m0 ι).phi δ * fac (shape m0 ι) δ)

/-- The size of a residual term with its weight. -/
noncomputable def tA (x : Vector ℝ 22) (facA : Fac) (δ τ : ℝ) (ι : Ix) : ℝ :=
  |coef x ι| * Real.exp ((shape m0 ι).t * Real.log τ) * ((shape m0 ι).phi δ * facA (shapeA ι) δ)

theorem RS_tV (x : Vector ℝ 22) (fac : Fac) (δ τ : ℝ) : RS x fac δ τ = ∑ ι : Ix, tV x fac δ τ ι := rfl

/-- The size of a residual sum. -/
noncomputable def RA (x : Vector ℝ 22) (facA : Fac) (δ τ : ℝ) : ℝ := ∑ ι : Ix, tA x facA δ τ ι

/-- What is needed of the reduced density. -/
structure DelOk (del : Float) (δ : ℝ) (ld le : ℕ) : Prop where
  ap : Ap del δ δ 960 ld 2
  top : δ ≤ 14 / 5
  ex : ∀ n, 1 ≤ n → n < 7 → 1 ≤ 2 ^ le * Real.exp (-δ ^ n)
  sum : 7 * ld + le ≤ 700

/-- The reduced density is zero, between `2^-32` and 1, or above 1. -/
theorem DelOk.mk' {del : Float} {δ : ℝ} {k : ℕ} (A : Ap del δ δ 960 32 k) (h : δ ≤ 14 / 5) :
    ∃ ld le, DelOk del δ ld le := by
  have h0 := A.nonneg
  by_cases h1 : δ ≤ 1
  · refine ⟨32, 2, ⟨?_, h, fun n _ _ => ?_, by norm_num⟩⟩
    · exact ⟨A.fin, A.mag, A.err, A.rng.imp id fun r => ⟨r.1, by linarith⟩⟩
    · have : δ ^ n ≤ 1 := pow_le_one₀ h0 h1
      have h2 := Real.add_one_le_exp (δ ^ n)
      have h3 : Real.exp (δ ^ n) ≤ 4 := by
        refine (Real.exp_le_exp.2 this).trans ?_
        linarith [Real.exp_one_lt_d9]
      rw [Real.exp_neg, ← div_eq_mul_inv, le_div_iff₀ (Real.exp_pos _)]
      linarith
  · have h1 := not_le.1 h1
    refine ⟨0, 696, ⟨?_, h, fun n _ hn => ?_, by norm_num⟩⟩
    · exact ⟨A.fin, A.mag, A.err, Or.inr ⟨by rw [pow_zero]; linarith, by linarith⟩⟩
    · have h2 : δ ^ n ≤ 482 := by
        refine (pow_le_pow_right₀ h1.le (show n ≤ 6 by omega)).trans ?_
        refine (pow_le_pow_left₀ h0 h 6).trans (by norm_num)
      have h3 : Real.exp (δ ^ n) ≤ 2 ^ 696 := by
        refine (Real.exp_le_exp.2 h2).trans ?_
        have e : Real.exp 482 = Real.exp 1 ^ 482 := by rw [← Real.exp_nat_mul]; norm_num
        have e1 : Real.exp 1 ≤ 2.7182818286 := Real.exp_one_lt_d9.le
        rw [e]
        have e2 : Real.exp 1 ^ 70 ≤ 2 ^ 101 := (pow_le_pow_left₀ (Real.exp_pos _).le e1 _).trans (by norm_num)
        have e3 : Real.exp 1 ^ 62 ≤ 2 ^ 90 := (pow_le_pow_left₀ (Real.exp_pos _).le e1 _).trans (by norm_num)
        rw [show 482 = 70 * 6 + 62 by norm_num, pow_add, pow_mul, show 696 = 101 * 6 + 90 by norm_num, pow_add, pow_mul]
        exact mul_le_mul (pow_le_pow_left₀ (by positivity) e2 6) e3 (by positivity) (by positivity)
      rw [Real.exp_neg, ← div_eq_mul_inv, le_div_iff₀ (Real.exp_pos _), one_mul]
      exact h3

section
variable [Libm]

/-- Powers by repeated multiplication. -/
def pw (del : Float) : ℕ → Float
  | 0 => del
  | n + 1 => pw del n * del

theorem arDelp_pw (del : Float) : ∀ n : Fin 8, 1 ≤ n.1 →
    aget (arDelp del).1 n = pw del (n.1 - 1) ∧ aget (arDelp del).2 n = FOps.exp (-pw del (n.1 - 1)) := by
  unfold arDelp
  dsimp only
  rw [loop_step _ _ (by norm_num), loop_step _ _ (by norm_num), loop_step _ _ (by norm_num),
    loop_step _ _ (by norm_num), loop_step _ _ (by norm_num), loop_step _ _ (by norm_num),
    loop_done _ _ (by norm_num)]
  intro n hn
  fin_cases n
  · exact absurd hn (by decide)
  all_goals
    simp +decide only [aget_aset, Fin.mk.injEq, if_true, if_false]
    exact ⟨rfl, rfl⟩

variable {del : Float} {δ : ℝ} {ld le : ℕ}

theorem ap_pw (D : DelOk del δ ld le) : ∀ n, n < 7 →
    Ap (pw del n) (δ ^ (n + 1)) (δ ^ (n + 1)) (962 * (n + 1)) ((n + 1) * ld) (2 * (n + 1)) := by
  intro n
  have hs := D.sum
  induction n with
  | zero => intro _; simp only [pw, zero_add, pow_one, one_mul, mul_one]; exact D.ap.weak (by norm_num) le_rfl le_rfl
  | succ n ih =>
    intro hn
    have hl : (n + 1) * ld + ld ≤ 1000 := by
      have : n + 1 ≤ 6 := by omega
      nlinarith
    have := (ih (by omega)).mul D.ap (by show _ ≤ 33554432; omega) (by norm_num) hl (by omega)
    rw [← pow_succ] at this
    refine this.weak (by omega) (le_of_eq (by ring)) (by omega)

theorem ap_delp (D : DelOk del δ ld le) {n : ℕ} (h1 : 1 ≤ n) (h8 : n < 8) :
    Ap (gd (arDelp del).1 n (f% 0.0)) (δ ^ n) (δ ^ n) 6734 (7 * ld) (2 * n) := by
  rw [gd, dif_pos h8, (arDelp_pw del ⟨n, h8⟩ h1).1]
  have := ap_pw D (n - 1) (by omega)
  rw [show n - 1 + 1 = n by omega] at this
  exact this.weak (by omega) (Nat.mul_le_mul_right _ (by omega)) le_rfl

theorem ap_expd (hL : LibmAccurate) (D : DelOk del δ ld le) {n : ℕ} (h1 : 1 ≤ n) (h7 : n < 7) :
    Ap (gd (arDelp del).2 n (f% 0.0)) (Real.exp (-δ ^ n)) (Real.exp (-δ ^ n)) 3245791 le 0 := by
  have A := ap_delp D h1 (by omega : n < 8)
  rw [gd, dif_pos (by omega : n < 8), (arDelp_pw del ⟨n, by omega⟩ h1).1] at A
  rw [gd, dif_pos (by omega : n < 8), (arDelp_pw del ⟨n, by omega⟩ h1).2]
  have h0 := D.ap.nonneg
  have hp : δ ^ n ≤ (482 : ℕ) := by
    have h3 : ((14 / 5 : ℝ)) ^ n ≤ (14 / 5) ^ 6 := pow_le_pow_right₀ (by norm_num) (by omega)
    refine ((pow_le_pow_left₀ h0 D.top n).trans h3).trans (by norm_num)
  have := A.neg.expR hL 482 hp (l' := le) (h' := 0) ⟨D.ex n h1 h7, ?_⟩
  · exact this
  · rw [pow_zero]
    exact Real.exp_le_one_iff.2 (neg_nonpos.2 (pow_nonneg h0 n))

/-! ## Powers of the temperature -/

theorem tau_range {τ t : ℝ} (h1 : 1 / 100 ≤ τ) (h2 : τ ≤ 10) (t1 : -1 ≤ t) (t2 : t ≤ 30) :
    1 ≤ 2 ^ 200 * Real.exp (t * Real.log τ) ∧ Real.exp (t * Real.log τ) ≤ 2 ^ 100 := by
  have h0 : 0 < τ := by linarith
  have l1 : -Real.log 100 ≤ Real.log τ := by
    rw [← Real.log_inv]
    exact Real.log_le_log (by norm_num) (by norm_num at h1 ⊢; exact h1)
  have l2 : Real.log τ ≤ Real.log 10 := Real.log_le_log h0 h2
  have l3 : Real.log 100 = 2 * Real.log 10 := by
    rw [show (100 : ℝ) = 10 ^ 2 by norm_num, Real.log_pow]; norm_num
  have l4 : 0 < Real.log 10 := Real.log_pos (by norm_num)
  have lo : -(60 * Real.log 10) ≤ t * Real.log τ := by
    rcases le_total 0 t with h | h <;> rcases le_total 0 (Real.log τ) with g | g <;> nlinarith
  have hi : t * Real.log τ ≤ 30 * Real.log 10 := by
    rcases le_total 0 t with h | h <;> rcases le_total 0 (Real.log τ) with g | g <;> nlinarith
  constructor
  · have e := Real.exp_le_exp.2 lo
    have e2 : Real.exp (-(60 * Real.log 10)) = (10 ^ 60 : ℝ)⁻¹ := by
      rw [Real.exp_neg, mul_comm, Real.exp_mul, Real.exp_log (by norm_num)]; norm_num
    rw [e2] at e
    refine le_trans ?_ (mul_le_mul_of_nonneg_left e (by positivity))
    norm_num
  · refine (Real.exp_le_exp.2 hi).trans ?_
    rw [mul_comm, Real.exp_mul, Real.exp_log (by norm_num)]
    norm_num

theorem logtau_le {τ : ℝ} (h1 : 1 / 100 ≤ τ) (h2 : τ ≤ 10) : 1 + |Real.log τ| ≤ 5.61 := by
  have h0 : 0 < τ := by linarith
  have l1 : -Real.log 100 ≤ Real.log τ := by
    rw [← Real.log_inv]
    exact Real.log_le_log (by norm_num) (by norm_num at h1 ⊢; exact h1)
  have l2 : Real.log τ ≤ Real.log 100 := Real.log_le_log h0 (by linarith)
  have l3 : Real.log 100 ≤ 4.61 := by
    rw [Real.log_le_iff_le_exp (by norm_num)]
    have e : Real.exp 4.61 = Real.exp 1 ^ 4 * Real.exp 0.61 := by
      rw [← Real.exp_nat_mul, ← Real.exp_add]; norm_num
    have e1 : (2.718 : ℝ) ≤ Real.exp 1 := by linarith [Real.exp_one_gt_d9]
    have e2 : (2.718 : ℝ) ^ 4 ≤ Real.exp 1 ^ 4 := pow_le_pow_left₀ (by norm_num) e1 _
    have e3 : (1.835 : ℝ) ≤ Real.exp 0.61 := by
      have := Real.sum_le_exp_of_nonneg (show (0 : ℝ) ≤ 0.61 by norm_num) 5
      refine le_trans ?_ this
      norm_num [Finset.sum_range_succ, Nat.factorial]
    rw [e]
    refine le_trans ?_ (mul_le_mul e2 e3 (by norm_num) (by positivity))
    norm_num
  have := abs_le.2 ⟨l1, l2⟩
  linarith

theorem new_fields {F : Type} [Add F] [Sub F] [Mul F] [Div F] [Neg F] [FOps F] :
    (params (newP : Gerg F)).doik = doik0 ∧ (params (newP : Gerg F)).coik = coik0 ∧ (params (newP : Gerg F)).dijk = dijk0 ∧
    (params (newP : Gerg F)).tijk = tijk0 ∧ (params (newP : Gerg F)).nijk = nijk0 ∧
    (params (newP : Gerg F)).cijk = dep0.cijk ∧ (params (newP : Gerg F)).eijk = dep0.eijk ∧
    (params (newP : Gerg F)).gijk = dep0.gijk ∧ (params (newP : Gerg F)).bvij = bin0.bvij ∧
    (params (newP : Gerg F)).toik = toik0 := by
  unfold newP
  exact ⟨rfl, rfl, rfl, rfl, rfl, rfl, rfl, rfl, rfl, rfl⟩

/-- The program's arrays when it starts summing, and what they stand for. -/
structure Cl (s : Gerg Float) (x : Vector Float 22) (del lntau : Float) (δ τ : ℝ) (ld le : ℕ) : Prop where
  hx : s.x = x
  ok : OkX x
  m : params s = params (newP : Gerg Float)
  taup : ∀ i k, readP x i k → aget2 s.taup i k = tpVal toik0 lntau i k
  taupijk : ∀ m k, readIJ x m k → aget2 s.taupijk m k = tijVal nijk0 tijk0 lntau m.1 k.1
  D : DelOk del δ ld le
  L : Ap lntau (Real.log τ) (1 + |Real.log τ|) 962 0 9
  τ1 : 1 / 100 ≤ τ
  τ2 : τ ≤ 10

/-- Cost of a term before the sum. -/
abbrev KT : ℕ := 3450000

/-- A step that adds a term known up to `KT` units. -/
def TermOk {a b : Fin 4} (f : Ar Float → Ar Float) (α m : ℝ) : Prop :=
  ∃ u : Float, (∀ ar : Ar Float, aget2 (f ar) a b = aget2 ar a b + u) ∧ Ap u α m KT 995 167

theorem TermOk.adds {a b : Fin 4} {f : Ar Float → Ar Float} {α m : ℝ} (h : TermOk (a := a) (b := b) f α m) :
    F64.Adds (fun ar : Ar Float => aget2 ar a b) f α m 2 KT 995 180 := by
  obtain ⟨u, hu, U⟩ := h
  exact F64.Adds.one hu (U.weak le_rfl le_rfl (by norm_num)) (by norm_num)

theorem TermOk.bd {a b : Fin 4} {f : Ar Float → Ar Float} {α m : ℝ} (h : TermOk (a := a) (b := b) f α m) :
    0 ≤ m ∧ m ≤ 2 ^ 167 := by
  obtain ⟨u, -, U⟩ := h
  exact ⟨U.nonneg, Detail.Ap.le_pow U⟩

section sums
variable {s : Gerg Float} {x : Vector Float 22} {lntau : Float} {τ : ℝ}
variable (hL : LibmAccurate) (C : Cl s x del lntau δ τ ld le)
variable {itau : Int} {a b : Fin 4} {fac facA : Fac} (E : EAdds itau a b fac facA)

theorem readP_iff (C : Cl s x del lntau δ τ ld le) (i : Fin 22) (k : Fin 25) : readP x i k ↔ readP (xr x) i k := by
  unfold readP
  constructor
  · rintro ⟨h1, h2, h3⟩; exact ⟨h1, by rw [← present_iff C.ok h1]; exact h2, h3⟩
  · rintro ⟨h1, h2, h3⟩; exact ⟨h1, by rw [present_iff C.ok h1]; exact h2, h3⟩

/-- Exponentials of multiples of the logarithm. -/
theorem ap_tau (hL : LibmAccurate) (C : Cl s x del lntau δ τ ld le) {tk : Float} {t : ℝ} (T : Ap tk t |t| 1 5 5)
    (t1 : -1 ≤ t) (t2 : t ≤ 30) :
    Ap (FOps.exp (tk * lntau)) (Real.exp (t * Real.log τ)) (Real.exp (t * Real.log τ)) 163088 200 100 := by
  have A := T.mul C.L
  have hm : |t| * (1 + |Real.log τ|) ≤ (169 : ℕ) := by
    have h1 := logtau_le C.τ1 C.τ2
    have h2 : |t| ≤ 30 := abs_le.2 ⟨by linarith, t2⟩
    have h3 := abs_nonneg (Real.log τ)
    calc |t| * (1 + |Real.log τ|) ≤ 30 * 5.61 := by gcongr
      _ ≤ _ := by norm_num
  exact A.expR hL 169 hm (tau_range C.τ1 C.τ2 t1 t2)

theorem apToik {i : Fin 22} {k : Fin 25} (h1 : 1 ≤ i.1) (h2 : 1 ≤ k.1) (h3 : k.1 ≤ aget KPOL i + aget KEXP i) :
    Ap (aget2 (toik0 : Vector (Vector Float 25) 22) i k) (aget2 m0.toik i k) |aget2 m0.toik i k| 1 5 5 ∧
      -1 ≤ aget2 m0.toik i k ∧ aget2 m0.toik i k ≤ 30 := by
  obtain ⟨c1, c2, c3⟩ := chkToik i k h1 h2 h3
  rw [m0_toik, toik0_get, ofDec_decR]
  refine ⟨Ap.lit c1, ?_, ?_⟩
  · have : (0 : ℝ) ≤ decR (aget2 toikD i k) := by
      unfold decR
      have : (0 : ℝ) ≤ (aget2 toikD i k).m := by exact_mod_cast c2
      positivity
    linarith
  · rw [decR_decQ]
    exact_mod_cast c3

/-- A pure-fluid temperature term. -/
theorem ap_taup (hL : LibmAccurate) (C : Cl s x del lntau δ τ ld le) {i : Fin 22} {k : Fin 25} (hr : readP x i k) :
    Ap (aget2 s.taup i k) ((tab2 NOIK i k : ℝ) * Real.exp (aget2 m0.toik i k * Real.log τ))
      (|(tab2 NOIK i k : ℝ)| * Real.exp (aget2 m0.toik i k * Real.log τ)) 163091 213 103 := by
  obtain ⟨h1, h2, h3, h4⟩ := id hr
  obtain ⟨T, t1, t2⟩ := apToik h1 h3 h4
  have N := Ap.lit (chkNOIK i k h1 h3 h4).1
  have A := N.mul (ap_tau hL C T t1 t2)
  have e : aget2 s.taup i k = tab2 NOIK i k * FOps.exp (aget2 toik0 i k * lntau) := by
    rw [C.taup i k hr]
    unfold tpVal
    split
    · rfl
    · rename_i h
      rw [toik0_get, toik0_get, short_same i k (by simpa using h) h3 h4]
  have e2 : (tab2 NOIK i k : ℝ) = decR (aget2 NOIK i k) := ofDec_decR _
  rw [e, e2]
  exact A

include hL C E

/-- A polynomial term of a pure fluid. -/
theorem adds_pol {i : Fin 22} {k : ℕ} (hk25 : k < 25) (hr : readP x i ⟨k, hk25⟩) (hp : k ≤ aget KPOL i) :
    TermOk (a := a) (b := b) (arPolAt s itau (arDelp del).1 i k)
      (tV (xr x) fac δ τ (.inl (i, ⟨k, hk25⟩))) (tA (xr x) facA δ τ (.inl (i, ⟨k, hk25⟩))) := by
  obtain ⟨h1, h2, h3, h4⟩ := id hr
  obtain ⟨d1, d8⟩ := chkD i ⟨k, hk25⟩ h1 h3 h4
  have hr' := (readP_iff C i ⟨k, hk25⟩).1 hr
  obtain ⟨X, x0⟩ := apX C.ok h1 hr'.2.1
  obtain ⟨T, -, -⟩ := apToik h1 h3 h4
  have hs := C.D.sum
  have Dp := ap_delp C.D d1 d8
  have N := (X.mul Dp (by norm_num) (by norm_num) (by omega) (by omega)).mul (ap_taup hL C hr) (by norm_num) (by norm_num)
    (by omega) (by omega)
  obtain ⟨u, hu, U⟩ := E.pol C.D.ap.nonneg d1 d8 N T (by norm_num) (by omega) (by omega)
  have e : gd (aget s.doik i) k 0 = aget2 doik0 i ⟨k, hk25⟩ := by
    have : s.doik = doik0 := by
      have h : s.doik = (params s).doik := rfl
      rw [h, C.m, new_fields.1]
    rw [this]; exact dif_pos hk25
  have e2 : gd (aget s.taup i) k (f% 0.0) = aget2 s.taup i ⟨k, hk25⟩ := dif_pos hk25
  have e3 : gd (aget s.toik i) k (f% 0.0) = aget2 toik0 i ⟨k, hk25⟩ := by
    have : s.toik = toik0 := by
      have h : s.toik = (params s).toik := rfl
      rw [h, C.m, new_fields.2.2.2.2.2.2.2.2.2]
    rw [this]; exact dif_pos hk25
  refine ⟨u, fun ar => ?_, ?_⟩
  · unfold arPolAt
    dsimp only
    rw [e, e2, e3, C.hx, hu]
  · have v1 : tV (xr x) fac δ τ (.inl (i, ⟨k, hk25⟩)) = aget (xr x) i * δ ^ aget2 doik0 i ⟨k, hk25⟩
        * (tab2 NOIK i ⟨k, hk25⟩ * Real.exp (aget2 m0.toik i ⟨k, hk25⟩ * Real.log τ))
        * fac ⟨aget2 doik0 i ⟨k, hk25⟩, 0, 0, 0, aget2 m0.toik i ⟨k, hk25⟩⟩ δ := by
      simp only [tV, coef, shape]
      rw [if_pos hr', if_pos (show k ≤ aget KPOL i from hp), m0_fields.1]
      simp only [Shape.phi, Shape.q, if_true, neg_zero, zero_mul, add_zero, Real.exp_zero, mul_one]
      ring
    have v2 : tA (xr x) facA δ τ (.inl (i, ⟨k, hk25⟩)) = aget (xr x) i * δ ^ aget2 doik0 i ⟨k, hk25⟩
        * (|(tab2 NOIK i ⟨k, hk25⟩ : ℝ)| * Real.exp (aget2 m0.toik i ⟨k, hk25⟩ * Real.log τ))
        * facA ⟨aget2 doik0 i ⟨k, hk25⟩, 0, 0, 0, |aget2 m0.toik i ⟨k, hk25⟩|⟩ δ := by
      simp only [tA, coef, shape, shapeA]
      rw [if_pos hr', if_pos (show k ≤ aget KPOL i from hp), if_pos (show k ≤ aget KPOL i from hp), m0_fields.1, abs_mul,
        abs_of_pos x0]
      simp only [Shape.phi, Shape.q, if_true, neg_zero, zero_mul, add_zero, Real.exp_zero, mul_one]
      ring
    rw [v1, v2]
    exact U.weak (by norm_num) (by omega) (by omega)

/-- An exponential term of a pure fluid. -/
theorem adds_exp {i : Fin 22} {k : ℕ} (hk25 : k < 25) (hr : readP x i ⟨k, hk25⟩) (hp : aget KPOL i < k) :
    TermOk (a := a) (b := b) (arExpAt s itau (arDelp del).1 (arDelp del).2 i k)
      (tV (xr x) fac δ τ (.inl (i, ⟨k, hk25⟩))) (tA (xr x) facA δ τ (.inl (i, ⟨k, hk25⟩))) := by
  obtain ⟨h1, h2, h3, h4⟩ := id hr
  obtain ⟨d1, d8⟩ := chkD i ⟨k, hk25⟩ h1 h3 h4
  obtain ⟨c1, c7⟩ := chkC i ⟨k, hk25⟩ h1 hp h4
  have hr' := (readP_iff C i ⟨k, hk25⟩).1 hr
  obtain ⟨X, x0⟩ := apX C.ok h1 hr'.2.1
  obtain ⟨T, -, -⟩ := apToik h1 h3 h4
  have hs := C.D.sum
  have Dp := ap_delp C.D d1 d8
  have Dc := ap_delp C.D c1 (by omega)
  have Ex := ap_expd hL C.D c1 c7
  have N := ((X.mul Dp (by norm_num) (by norm_num) (by omega) (by omega)).mul (ap_taup hL C hr) (by norm_num) (by norm_num)
    (by omega) (by omega)).mul Ex (by norm_num) (by norm_num) (by omega) (by omega)
  obtain ⟨u, hu, U⟩ := E.exp C.D.ap.nonneg d1 d8 c1 c7 N T (Dc.weak le_rfl (by omega) (by omega)) (by norm_num) (by omega)
    (by omega)
  have e : gd (aget s.doik i) k 0 = aget2 doik0 i ⟨k, hk25⟩ := by
    have : s.doik = doik0 := by
      have h : s.doik = (params s).doik := rfl
      rw [h, C.m, new_fields.1]
    rw [this]; exact dif_pos hk25
  have e1 : gd (aget s.coik i) k 0 = aget2 coik0 i ⟨k, hk25⟩ := by
    have : s.coik = coik0 := by
      have h : s.coik = (params s).coik := rfl
      rw [h, C.m, new_fields.2.1]
    rw [this]; exact dif_pos hk25
  have e2 : gd (aget s.taup i) k (f% 0.0) = aget2 s.taup i ⟨k, hk25⟩ := dif_pos hk25
  have e3 : gd (aget s.toik i) k (f% 0.0) = aget2 toik0 i ⟨k, hk25⟩ := by
    have : s.toik = toik0 := by
      have h : s.toik = (params s).toik := rfl
      rw [h, C.m, new_fields.2.2.2.2.2.2.2.2.2]
    rw [this]; exact dif_pos hk25
  refine ⟨u, fun ar => ?_, ?_⟩
  · unfold arExpAt
    dsimp only
    rw [e, e1, e2, e3, C.hx, hu]
  · have hc : aget2 coik0 i ⟨k, hk25⟩ ≠ 0 := by omega
    have v1 : tV (xr x) fac δ τ (.inl (i, ⟨k, hk25⟩)) = aget (xr x) i * δ ^ aget2 doik0 i ⟨k, hk25⟩
        * (tab2 NOIK i ⟨k, hk25⟩ * Real.exp (aget2 m0.toik i ⟨k, hk25⟩ * Real.log τ))
        * Real.exp (-δ ^ aget2 coik0 i ⟨k, hk25⟩)
        * fac ⟨aget2 doik0 i ⟨k, hk25⟩, aget2 coik0 i ⟨k, hk25⟩, 0, 0, aget2 m0.toik i ⟨k, hk25⟩⟩ δ := by
      simp only [tV, coef, shape]
      rw [if_pos hr', if_neg (show ¬ k ≤ aget KPOL i by omega), m0_fields.1, m0_fields.2.1]
      simp only [Shape.phi, Shape.q, if_neg hc, zero_mul, add_zero]
      ring
    have v2 : tA (xr x) facA δ τ (.inl (i, ⟨k, hk25⟩)) = aget (xr x) i * δ ^ aget2 doik0 i ⟨k, hk25⟩
        * (|(tab2 NOIK i ⟨k, hk25⟩ : ℝ)| * Real.exp (aget2 m0.toik i ⟨k, hk25⟩ * Real.log τ))
        * Real.exp (-δ ^ aget2 coik0 i ⟨k, hk25⟩)
        * facA ⟨aget2 doik0 i ⟨k, hk25⟩, aget2 coik0 i ⟨k, hk25⟩, 0, 0, |aget2 m0.toik i ⟨k, hk25⟩|⟩ δ := by
      simp only [tA, coef, shape, shapeA]
      rw [if_pos hr', if_neg (show ¬ k ≤ aget KPOL i by omega), if_neg (show ¬ k ≤ aget KPOL i by omega), m0_fields.1,
        m0_fields.2.1, abs_mul, abs_of_pos x0]
      simp only [Shape.phi, Shape.q, if_neg hc, zero_mul, add_zero]
      ring
    rw [v1, v2]
    exact U.weak (by norm_num) (by omega) (by omega)

omit hL C E in
theorem gdd {α : Type} (v : Vector (Vector α 13) 11) (d : α) {mn k : ℕ} (hm : mn < 11) (hk : k < 13) :
    gd2 v mn k d = aget2 v ⟨mn, hm⟩ ⟨k, hk⟩ := gd2_pos v d hm hk

omit hL C E in
theorem decR_nonneg {d : Dec} (h : 0 ≤ d.m) : 0 ≤ decR d := by
  unfold decR
  have : (0 : ℝ) ≤ d.m := by exact_mod_cast h
  positivity

omit hL C E in
theorem apTijk {mn k : ℕ} (hm : mn < 11) (hk : k < 13) (h0 : 0 < mn) (h1 : 1 ≤ k) (h2 : k ≤ kpolij mn + kexpij mn) :
    Ap (gd2 (tijk0 : Vector (Vector Float 13) 11) mn k (f% 0.0)) (gd2 m0.tijk mn k 0) |gd2 m0.tijk mn k 0| 1 5 5 ∧
      -1 ≤ gd2 m0.tijk mn k 0 ∧ gd2 m0.tijk mn k 0 ≤ 8 := by
  obtain ⟨c1, c2, c3⟩ := chkTijk ⟨mn, hm⟩ ⟨k, hk⟩ h0 h1 h2
  rw [m0_fields.2.2.2.1, gdd _ _ hm hk, gdd _ _ hm hk, tijk0_get, tijk0_get, ofDec_decR]
  refine ⟨Ap.lit c1, ?_, ?_⟩
  · rw [decR_decQ]; exact_mod_cast c2
  · rw [decR_decQ]; exact_mod_cast c3

omit hL C E in
theorem apNijk {mn k : ℕ} (hm : mn < 11) (hk : k < 13) (h0 : 0 < mn) (h1 : 1 ≤ k) (h2 : k ≤ kpolij mn + kexpij mn) :
    Ap (gd2 (nijk0 : Vector (Vector Float 13) 11) mn k (f% 0.0)) (gd2 m0.nijk mn k 0) |gd2 m0.nijk mn k 0| 1 15 3 := by
  have c1 := chkNijk ⟨mn, hm⟩ ⟨k, hk⟩ h0 h1 h2
  rw [m0_fields.2.2.2.2.1, gdd _ _ hm hk, gdd _ _ hm hk, nijk0_get, nijk0_get, ofDec_decR]
  exact Ap.lit c1

omit hL C E in
theorem expo_le {c e g t L δ : ℝ} (h1 : c ≤ 1) (h2 : e ≤ 4) (h3 : g ≤ 2) (h4 : -1 ≤ t) (h5 : t ≤ 8) (h6 : 1 + |L| ≤ 5.61)
    (h7 : 0 ≤ δ) (h8 : δ ≤ 14 / 5) : c * δ ^ 2 + e * δ + g + |t| * (1 + |L|) ≤ (66 : ℕ) := by
  have q2 : |t| ≤ 8 := abs_le.2 ⟨by linarith, h5⟩
  have q3 := abs_nonneg L
  have q4 : |t| * (1 + |L|) ≤ 8 * 5.61 := mul_le_mul q2 h6 (by linarith) (by norm_num)
  have q5 : c * δ ^ 2 ≤ 1 * (14 / 5) ^ 2 :=
    (mul_le_mul_of_nonneg_right h1 (by positivity)).trans
      (mul_le_mul_of_nonneg_left (pow_le_pow_left₀ h7 h8 2) (by norm_num))
  have q6 : e * δ ≤ 4 * (14 / 5) :=
    (mul_le_mul_of_nonneg_right h2 h7).trans (mul_le_mul_of_nonneg_left h8 (by norm_num))
  norm_num at q4 q5 q6 ⊢
  linarith

omit hL C E in
/-- The weight of a pair of components. -/
theorem apXij (C : Cl s x del lntau δ τ ld le) {i j : Fin 22} {k : ℕ} (ha : actM (xr x) i j k) :
    Ap (aget x i * aget x j * tab2 FIJ i j) (aget (xr x) i * aget (xr x) j * tab2 FIJ i j)
      (aget (xr x) i * aget (xr x) j * |(tab2 FIJ i j : ℝ)|) 5 73 2 ∧ 0 < aget (xr x) i ∧ 0 < aget (xr x) j := by
  obtain ⟨h1, h2, h3, h4, h5, -, -⟩ := ha
  obtain ⟨X, x0⟩ := apX C.ok h1 h3
  obtain ⟨Y, y0⟩ := apX C.ok (by omega) h4
  have e2 : (tab2 FIJ i j : ℝ) = decR (aget2 FIJ i j) := ofDec_decR _
  rw [e2]
  exact ⟨(X.mul Y).mul (Ap.lit (chkFIJ i j h1 h2 h5).1), x0, y0⟩

omit hL C E in
theorem abs3 {a b c d : ℝ} (ha : 0 < a) (hb : 0 < b) : |a * b * c * d| = a * b * |c| * |d| := by
  rw [abs_mul, abs_mul, abs_mul, abs_of_pos ha, abs_of_pos hb]

/-- A polynomial departure term. -/
theorem adds_polM {i j : Fin 22} {k : ℕ} (hk : k < 13) (ha : actM (xr x) i j k) (hp : k ≤ kpolij (aget2 MNUMB i j)) :
    TermOk (a := a) (b := b)
      (arPolMixAt s itau (arDelp del).1 (aget x i * aget x j * tab2 FIJ i j) (aget2 MNUMB i j) k)
      (tV (xr x) fac δ τ (.inr (i, j, ⟨k, hk⟩))) (tA (xr x) facA δ τ (.inr (i, j, ⟨k, hk⟩))) := by
  obtain ⟨h1, h2, h3, h4, h5, h6, h7⟩ := id ha
  obtain ⟨X, x0, y0⟩ := apXij C ha
  have hm := MNUMB_lt i j
  obtain ⟨d1, d8⟩ := chkDijk i j k h5 h6 h7
  obtain ⟨T, t1, t2⟩ := apTijk hm hk h5 h6 h7
  have Nn := apNijk hm hk h5 h6 h7
  have hs := C.D.sum
  have Dp := ap_delp C.D d1 d8
  have TT := Nn.mul (ap_tau hL C T t1 (by linarith))
  have N := (X.mul Dp (by norm_num) (by norm_num) (by omega) (by omega)).mul TT (by norm_num) (by norm_num)
    (by omega) (by omega)
  obtain ⟨u, hu, U⟩ := E.pol C.D.ap.nonneg d1 d8 N T (by norm_num) (by omega) (by omega)
  have e : s.dijk = dijk0 := by
    have h : s.dijk = (params s).dijk := rfl
    rw [h, C.m, new_fields.2.2.1]
  have e3 : s.tijk = tijk0 := by
    have h : s.tijk = (params s).tijk := rfl
    rw [h, C.m, new_fields.2.2.2.1]
  have hm22 : aget2 MNUMB i j < 22 := by omega
  have hr : readIJ x ⟨aget2 MNUMB i j, hm22⟩ ⟨k, hk⟩ := by
    refine ⟨h6, hp, i, j, h1, h2, ?_, ?_, h5, rfl⟩
    · rw [present_iff C.ok h1]; exact h3
    · rw [present_iff C.ok (by omega)]; exact h4
  have e2 : gd2 s.taupijk (aget2 MNUMB i j) k (f% 0.0) = gd2 nijk0 (aget2 MNUMB i j) k (f% 0.0)
      * FOps.exp (gd2 tijk0 (aget2 MNUMB i j) k (f% 0.0) * lntau) := by
    rw [gd2_pos _ _ hm22 hk, C.taupijk _ _ hr]
    rfl
  refine ⟨u, fun ar => ?_, ?_⟩
  · unfold arPolMixAt
    dsimp only
    rw [e, e2, e3, hu]
  · have v1 : tV (xr x) fac δ τ (.inr (i, j, ⟨k, hk⟩)) = aget (xr x) i * aget (xr x) j * tab2 FIJ i j
        * δ ^ gd2 dijk0 (aget2 MNUMB i j) k 0
        * (gd2 m0.nijk (aget2 MNUMB i j) k 0 * Real.exp (gd2 m0.tijk (aget2 MNUMB i j) k 0 * Real.log τ))
        * fac ⟨gd2 dijk0 (aget2 MNUMB i j) k 0, 0, 0, 0, gd2 m0.tijk (aget2 MNUMB i j) k 0⟩ δ := by
      simp only [tV, coef, shape, shapeM]
      rw [if_pos ha, if_pos hp, if_pos hp, m0_fields.2.2.1]
      simp only [Shape.phi, Shape.q, if_true, neg_zero, zero_mul, add_zero, Real.exp_zero, mul_one]
      ring
    have v2 : tA (xr x) facA δ τ (.inr (i, j, ⟨k, hk⟩)) = aget (xr x) i * aget (xr x) j * |(tab2 FIJ i j : ℝ)|
        * δ ^ gd2 dijk0 (aget2 MNUMB i j) k 0
        * (|gd2 m0.nijk (aget2 MNUMB i j) k 0| * Real.exp (gd2 m0.tijk (aget2 MNUMB i j) k 0 * Real.log τ))
        * facA ⟨gd2 dijk0 (aget2 MNUMB i j) k 0, 0, 0, 0, |gd2 m0.tijk (aget2 MNUMB i j) k 0|⟩ δ := by
      simp only [tA, coef, shape, shapeM, shapeA]
      rw [if_pos ha, if_pos hp, if_pos hp, if_pos hp, m0_fields.2.2.1, mul_one, abs3 x0 y0]
      simp only [Shape.phi, Shape.q, if_true, neg_zero, zero_mul, add_zero, Real.exp_zero, mul_one]
      ring
    rw [v1, v2]
    exact U.weak (by norm_num) (by omega) (by omega)

omit hL C E in
/-- The coefficients of an exponential departure term. -/
theorem apMixC (hL : LibmAccurate) (C : Cl s x del lntau δ τ ld le) {mn k : ℕ} (hm : mn < 11) (hk : k < 13) (h0 : 0 < mn)
    (h1 : kpolij mn < k) (h2 : k ≤ kpolij mn + kexpij mn) :
    Ap (gd2 (dep0 : DepPar Float).cijk mn k (f% 0.0) * aget (arDelp del).1 2) (gd2 m0.cijk mn k 0 * δ ^ 2) (cA mn k * δ ^ 2)
      1930 700 4 ∧
    Ap (gd2 (dep0 : DepPar Float).eijk mn k (f% 0.0) * del) (gd2 m0.eijk mn k 0 * δ) (eA mn k * δ) 970 700 5 ∧
    ∃ gA : ℝ, Ap (gd2 (dep0 : DepPar Float).gijk mn k (f% 0.0)) (gd2 m0.gijk mn k 0) gA 20 4 3 ∧
      cA mn k ≤ 1 ∧ eA mn k ≤ 4 ∧ gA ≤ 2 := by
  obtain ⟨c1, c2, c3⟩ := chkCijk ⟨mn, hm⟩ ⟨k, hk⟩ h0 h1 h2
  obtain ⟨e1, e2⟩ := chkEijk ⟨mn, hm⟩ ⟨k, hk⟩ h0 h1 h2
  obtain ⟨b1, b2, b3⟩ := chkBijk ⟨mn, hm⟩ ⟨k, hk⟩ h0 h1 h2
  obtain ⟨g1, g2, g3⟩ := chkGijk ⟨mn, hm⟩ ⟨k, hk⟩ h0 h1 h2
  obtain ⟨q1, q2, q3⟩ := dep0_get (F := Float) ⟨mn, hm⟩ ⟨k, hk⟩ h0 (by show 1 ≤ k; omega)
  obtain ⟨r1, r2, r3⟩ := dep0_get (F := ℝ) ⟨mn, hm⟩ ⟨k, hk⟩ h0 (by show 1 ≤ k; omega)
  obtain ⟨-, -, -, -, -, f6, f7, f8, -, -⟩ := m0_fields
  have Cc := Ap.litPos c1 c2
  have Ce := Ap.litPos e1 e2
  have Cb := Ap.litPos b1 b2
  have Cg := Ap.litPos g1 g2
  unfold cA eA
  rw [f6, f7, f8, gdd _ _ hm hk, gdd _ _ hm hk, gdd _ _ hm hk, gdd _ _ hm hk, gdd _ _ hm hk, gdd _ _ hm hk, gdd _ _ hm hk,
    gdd _ _ hm hk, gdd _ _ hm hk, q1, q2, q3, r1, r2, r3]
  simp only [Aga8.l2]
  simp only [r_powi, ofDec_decR]
  have hs := C.D.sum
  have P2 := ap_pw C.D 1 (by norm_num)
  have ep : pw del 1 = aget (arDelp del).1 2 := ((arDelp_pw del 2 (by decide)).1).symm
  rw [ep] at P2
  refine ⟨?_, ?_, decR (aget2 cijkD ⟨mn, hm⟩ ⟨k, hk⟩) * decR (aget2 eijkD ⟨mn, hm⟩ ⟨k, hk⟩) ^ 2
    + decR (aget2 bijkD ⟨mn, hm⟩ ⟨k, hk⟩) * decR (aget2 gijkD ⟨mn, hm⟩ ⟨k, hk⟩), ?_, ?_, ?_, ?_⟩
  · exact (Cc.neg.mul P2 (by norm_num) (by norm_num) (by omega) (by norm_num)).weak (by norm_num) (by omega) (by norm_num)
  · have A := (((ap2.mul Cc).mul Ce).sub Cb).weak (k' := 8) (l' := 3) (h' := 3) (by norm_num) (by norm_num) (by norm_num)
    have B := A.mul C.D.ap (by norm_num) (by norm_num) (by omega) (by norm_num)
    exact B.weak (by norm_num) (by omega) (by norm_num)
  · have A := (Cc.neg.mul (Ce.powi hL 2)).add (Cb.mul Cg)
    exact A.weak (by norm_num) (by norm_num) (by norm_num)
  · show decR _ ≤ 1
    rw [decR_decQ]; exact_mod_cast c3
  · rw [decR_decQ, decR_decQ, decR_decQ]; exact_mod_cast b3
  · rw [decR_decQ, decR_decQ, decR_decQ, decR_decQ]; exact_mod_cast g3

/-- An exponential departure term. -/
theorem adds_mix {i j : Fin 22} {k : ℕ} (hk : k < 13) (ha : actM (xr x) i j k) (hp : kpolij (aget2 MNUMB i j) < k) :
    TermOk (a := a) (b := b)
      (arMixAt s itau del lntau (arDelp del).1 (aget x i * aget x j * tab2 FIJ i j) (aget2 MNUMB i j) k)
      (tV (xr x) fac δ τ (.inr (i, j, ⟨k, hk⟩))) (tA (xr x) facA δ τ (.inr (i, j, ⟨k, hk⟩))) := by
  obtain ⟨h1, h2, h3, h4, h5, h6, h7⟩ := id ha
  obtain ⟨X, x0, y0⟩ := apXij C ha
  have hm := MNUMB_lt i j
  obtain ⟨d1, d8⟩ := chkDijk i j k h5 h6 h7
  obtain ⟨T, t1, t2⟩ := apTijk hm hk h5 h6 h7
  have Nn := apNijk hm hk h5 h6 h7
  obtain ⟨Mc, Me, gA, Mg, cA1, eA4, gA2⟩ := apMixC hL C hm hk h5 hp h7
  have hs := C.D.sum
  have Dp := ap_delp C.D d1 d8
  have S := (((Mc.add Me).add Mg).add (T.mul C.L)).weak (k' := 1940) (l' := 700) (h' := 20) (by norm_num) (by norm_num)
    (by norm_num)
  have δ0 := C.D.ap.nonneg
  have hM : cA (aget2 MNUMB i j) k * δ ^ 2 + eA (aget2 MNUMB i j) k * δ + gA
      + |gd2 m0.tijk (aget2 MNUMB i j) k 0| * (1 + |Real.log τ|) ≤ (66 : ℕ) := by
    exact expo_le cA1 eA4 gA2 t1 t2 (logtau_le C.τ1 C.τ2) δ0 C.D.top
  have Ex := (S.exp hL 66 hM).weak (k' := 130000) (l' := 100) (h' := 100) (by norm_num) (by norm_num) (by norm_num)
  have N := ((X.mul Nn).mul Dp (by norm_num) (by norm_num) (by omega) (by omega)).mul Ex (by norm_num) (by norm_num)
    (by norm_num; omega) (by norm_num; omega)
  obtain ⟨u, hu, U⟩ := E.mix C.D.ap.nonneg d1 d8 N T Mc Me (by norm_num) (by norm_num; omega) (by norm_num; omega)
  have e : s.dijk = dijk0 := by
    have h : s.dijk = (params s).dijk := rfl
    rw [h, C.m, new_fields.2.2.1]
  have e3 : s.tijk = tijk0 := by
    have h : s.tijk = (params s).tijk := rfl
    rw [h, C.m, new_fields.2.2.2.1]
  have e4 : s.nijk = nijk0 := by
    have h : s.nijk = (params s).nijk := rfl
    rw [h, C.m, new_fields.2.2.2.2.1]
  have e5 : s.cijk = dep0.cijk := by
    have h : s.cijk = (params s).cijk := rfl
    rw [h, C.m, new_fields.2.2.2.2.2.1]
  have e6 : s.eijk = dep0.eijk := by
    have h : s.eijk = (params s).eijk := rfl
    rw [h, C.m, new_fields.2.2.2.2.2.2.1]
  have e7 : s.gijk = dep0.gijk := by
    have h : s.gijk = (params s).gijk := rfl
    rw [h, C.m, new_fields.2.2.2.2.2.2.2.1]
  refine ⟨u, fun ar => ?_, ?_⟩
  · unfold arMixAt
    dsimp only
    rw [e, e3, e4, e5, e6, e7]
    exact hu ar
  · have hexp : ∀ A B c g t : ℝ, A * B * c * Real.exp (gd2 m0.cijk (aget2 MNUMB i j) k 0 * δ ^ 2
        + gd2 m0.eijk (aget2 MNUMB i j) k 0 * δ + g + t) = A * (B * Real.exp g) * Real.exp t
        * (c * Real.exp (gd2 m0.cijk (aget2 MNUMB i j) k 0 * δ ^ 2 + gd2 m0.eijk (aget2 MNUMB i j) k 0 * δ)) := by
      intro A B c g t
      rw [Real.exp_add, Real.exp_add _ g]
      ring
    have v1 : tV (xr x) fac δ τ (.inr (i, j, ⟨k, hk⟩)) = aget (xr x) i * aget (xr x) j * tab2 FIJ i j
        * gd2 m0.nijk (aget2 MNUMB i j) k 0 * δ ^ gd2 dijk0 (aget2 MNUMB i j) k 0
        * Real.exp (gd2 m0.cijk (aget2 MNUMB i j) k 0 * δ ^ 2 + gd2 m0.eijk (aget2 MNUMB i j) k 0 * δ
          + gd2 m0.gijk (aget2 MNUMB i j) k 0 + gd2 m0.tijk (aget2 MNUMB i j) k 0 * Real.log τ)
        * fac ⟨gd2 dijk0 (aget2 MNUMB i j) k 0, 0, gd2 m0.cijk (aget2 MNUMB i j) k 0, gd2 m0.eijk (aget2 MNUMB i j) k 0,
          gd2 m0.tijk (aget2 MNUMB i j) k 0⟩ δ := by
      simp only [tV, coef, shape, shapeM]
      rw [if_pos ha, if_neg (not_le.2 hp), if_neg (not_le.2 hp), m0_fields.2.2.1, hexp]
      simp only [Shape.phi, Shape.q, if_true, neg_zero, zero_add]
      ring
    have v2 : tA (xr x) facA δ τ (.inr (i, j, ⟨k, hk⟩)) = aget (xr x) i * aget (xr x) j * |(tab2 FIJ i j : ℝ)|
        * |gd2 m0.nijk (aget2 MNUMB i j) k 0| * δ ^ gd2 dijk0 (aget2 MNUMB i j) k 0
        * Real.exp (gd2 m0.cijk (aget2 MNUMB i j) k 0 * δ ^ 2 + gd2 m0.eijk (aget2 MNUMB i j) k 0 * δ
          + gd2 m0.gijk (aget2 MNUMB i j) k 0 + gd2 m0.tijk (aget2 MNUMB i j) k 0 * Real.log τ)
        * facA ⟨gd2 dijk0 (aget2 MNUMB i j) k 0, 0, cA (aget2 MNUMB i j) k, eA (aget2 MNUMB i j) k,
          |gd2 m0.tijk (aget2 MNUMB i j) k 0|⟩ δ := by
      simp only [tA, coef, shape, shapeM, shapeA]
      rw [if_pos ha, if_neg (not_le.2 hp), if_neg (not_le.2 hp), if_neg (not_le.2 hp), m0_fields.2.2.1, abs3 x0 y0, abs_mul,
        abs_of_pos (Real.exp_pos _), hexp]
      simp only [Shape.phi, Shape.q, if_true, neg_zero, zero_add]
      ring
    rw [v1, v2]
    exact U.weak (by norm_num) (by norm_num; omega) (by norm_num; omega)

/-- The terms of one component. -/
theorem adds_pure (i : Fin 22) (hi : 1 ≤ i.1) :
    F64.Adds (fun ar : Ar Float => aget2 ar a b) (arPureP s itau (arDelp del).1 (arDelp del).2 i)
      (∑ k : Fin 25, tV (xr x) fac δ τ (.inl (i, k))) (∑ k : Fin 25, tA (xr x) facA δ τ (.inl (i, k))) 48 KT 995 180 := by
  have h25 := KPOL_KEXP_lt i
  have hz : ∀ k : Fin 25, ¬ readP (xr x) i k → tV (xr x) fac δ τ (.inl (i, k)) = 0 ∧ tA (xr x) facA δ τ (.inl (i, k)) = 0 := by
    intro k hk
    unfold tV tA
    simp only [coef]
    rw [if_neg hk]
    simp
  by_cases hx : FOps.lt EPSILON (aget x i) = true
  · let g : ℕ → ℝ := fun k => if hk : k < 25 then tV (xr x) fac δ τ (.inl (i, ⟨k, hk⟩)) else 0
    let gA : ℕ → ℝ := fun k => if hk : k < 25 then tA (xr x) facA δ τ (.inl (i, ⟨k, hk⟩)) else 0
    have H1 : ∀ k ∈ List.range' 1 (aget KPOL i + 1 - 1), F64.Adds (fun ar : Ar Float => aget2 ar a b)
        (arPolAt s itau (arDelp del).1 i k) (g k) (gA k) 2 KT 995 180 := by
      intro k hk
      rw [List.mem_range'_1] at hk
      have hk25 : k < 25 := by omega
      rw [show g k = _ from dif_pos hk25, show gA k = _ from dif_pos hk25]
      exact (adds_pol hL C E hk25 ⟨hi, hx, hk.1, by show k ≤ _; omega⟩ (by omega)).adds
    have H2 : ∀ k ∈ List.range' (1 + aget KPOL i) (aget KPOL i + aget KEXP i + 1 - (1 + aget KPOL i)),
        F64.Adds (fun ar : Ar Float => aget2 ar a b)
        (arExpAt s itau (arDelp del).1 (arDelp del).2 i k) (g k) (gA k) 2 KT 995 180 := by
      intro k hk
      rw [List.mem_range'_1] at hk
      have hk25 : k < 25 := by omega
      rw [show g k = _ from dif_pos hk25, show gA k = _ from dif_pos hk25]
      exact (adds_exp hL C E hk25 ⟨hi, hx, by show 1 ≤ k; omega, by show k ≤ _; omega⟩ (by omega)).adds
    have A := F64.Adds.comp (F64.Adds.foldl _ H1) (F64.Adds.foldl _ H2)
    have hsum : ∀ f : ℕ → ℝ, ((List.range' 1 (aget KPOL i + 1 - 1)).map f).sum
        + ((List.range' (1 + aget KPOL i) (aget KPOL i + aget KEXP i + 1 - (1 + aget KPOL i))).map f).sum
        = ∑ k : Fin 25, if 1 ≤ k.1 ∧ k.1 < aget KPOL i + aget KEXP i + 1 then f k.1 else 0 := by
      intro f
      have e1 : ∀ lo hi : ℕ, ((List.range' lo (hi - lo)).map f).sum = ∑ k ∈ Finset.Ico lo hi, f k := fun _ _ => rfl
      rw [e1, e1, Nat.add_comm 1, Finset.sum_Ico_consecutive _ (by omega) (by omega), sum_Ico_fin h25]
    rw [hsum, hsum] at A
    have q : ∀ k : Fin 25, ¬ (1 ≤ k.1 ∧ k.1 < aget KPOL i + aget KEXP i + 1) → ¬ readP (xr x) i k :=
      fun k hk hr => hk ⟨hr.2.2.1, by have := hr.2.2.2; omega⟩
    have s1 : (∑ k : Fin 25, if 1 ≤ k.1 ∧ k.1 < aget KPOL i + aget KEXP i + 1 then g k.1 else 0)
        = ∑ k : Fin 25, tV (xr x) fac δ τ (.inl (i, k)) := by
      apply Finset.sum_congr rfl
      intro k _
      split
      · exact dif_pos k.2
      · rename_i hk; exact ((hz k (q k hk)).1).symm
    have s2 : (∑ k : Fin 25, if 1 ≤ k.1 ∧ k.1 < aget KPOL i + aget KEXP i + 1 then gA k.1 else 0)
        = ∑ k : Fin 25, tA (xr x) facA δ τ (.inl (i, k)) := by
      apply Finset.sum_congr rfl
      intro k _
      split
      · exact dif_pos k.2
      · rename_i hk; exact ((hz k (q k hk)).2).symm
    rw [s1, s2] at A
    refine (A.congr fun ar => ?_).weak (by simp only [List.length_range']; omega) le_rfl
    unfold arPureP
    rw [C.hx, if_pos hx]
    rfl
  · have hn : ∀ k, ¬ readP (xr x) i k := fun k hr => hx (by rw [present_iff C.ok hi]; exact hr.2.1)
    refine F64.Adds.skip _ _ _ _ (fun ar => ?_) (Finset.sum_eq_zero fun k _ => (hz k (hn k)).1)
      (Finset.sum_eq_zero fun k _ => (hz k (hn k)).2)
    unfold arPureP
    rw [C.hx, if_neg hx]

omit hL C E in
theorem mix_zero {x : Vector ℝ 22} {i j : Fin 22} {k : Fin 13} (fac facA : Fac) (h : ¬ actM x i j k.1) :
    tV x fac δ τ (.inr (i, j, k)) = 0 ∧ tA x facA δ τ (.inr (i, j, k)) = 0 := by
  unfold tV tA
  simp only [coef]
  rw [if_neg h]
  simp

/-- The terms of one pair. -/
theorem adds_pair (i j : Fin 22) (hi : 1 ≤ i.1) (hij : i.1 < j.1) (hx : FOps.lt EPSILON (aget x i) = true) :
    F64.Adds (fun ar : Ar Float => aget2 ar a b) (arPairP s itau del lntau (arDelp del).1 i j)
      (∑ k : Fin 13, tV (xr x) fac δ τ (.inr (i, j, k))) (∑ k : Fin 13, tA (xr x) facA δ τ (.inr (i, j, k))) 24 KT 995 180 := by
  have hmn := MNUMB_lt i j
  have h13 := kpolij_lt hmn
  have px : FOps.lt EPSILON (aget (xr x) i) = true := by rw [← present_iff C.ok hi]; exact hx
  by_cases hy : FOps.lt EPSILON (aget x j) = true
  · by_cases hm : aget2 MNUMB i j > 0
    · have py : FOps.lt EPSILON (aget (xr x) j) = true := by rw [← present_iff C.ok (by omega)]; exact hy
      let g : ℕ → ℝ := fun k => if hk : k < 13 then tV (xr x) fac δ τ (.inr (i, j, ⟨k, hk⟩)) else 0
      let gA : ℕ → ℝ := fun k => if hk : k < 13 then tA (xr x) facA δ τ (.inr (i, j, ⟨k, hk⟩)) else 0
      have hact : ∀ k, 1 ≤ k → k ≤ kpolij (aget2 MNUMB i j) + kexpij (aget2 MNUMB i j) → actM (xr x) i j k :=
        fun k h1 h2 => ⟨hi, hij, px, py, hm, h1, h2⟩
      have H1 : ∀ k ∈ List.range' 1 (kpolij (aget2 MNUMB i j) + 1 - 1), F64.Adds (fun ar : Ar Float => aget2 ar a b)
          (arPolMixAt s itau (arDelp del).1 (aget x i * aget x j * tab2 FIJ i j) (aget2 MNUMB i j) k) (g k) (gA k)
          2 KT 995 180 := by
        intro k hk
        rw [List.mem_range'_1] at hk
        have hk13 : k < 13 := by omega
        rw [show g k = _ from dif_pos hk13, show gA k = _ from dif_pos hk13]
        exact (adds_polM hL C E hk13 (hact k hk.1 (by omega)) (by omega)).adds
      have H2 : ∀ k ∈ List.range' (1 + kpolij (aget2 MNUMB i j))
          (kpolij (aget2 MNUMB i j) + kexpij (aget2 MNUMB i j) + 1 - (1 + kpolij (aget2 MNUMB i j))),
          F64.Adds (fun ar : Ar Float => aget2 ar a b)
          (arMixAt s itau del lntau (arDelp del).1 (aget x i * aget x j * tab2 FIJ i j) (aget2 MNUMB i j) k) (g k) (gA k)
          2 KT 995 180 := by
        intro k hk
        rw [List.mem_range'_1] at hk
        have hk13 : k < 13 := by omega
        rw [show g k = _ from dif_pos hk13, show gA k = _ from dif_pos hk13]
        exact (adds_mix hL C E hk13 (hact k (by omega) (by omega)) (by omega)).adds
      have A := F64.Adds.comp (F64.Adds.foldl _ H1) (F64.Adds.foldl _ H2)
      have hsum : ∀ f : ℕ → ℝ, ((List.range' 1 (kpolij (aget2 MNUMB i j) + 1 - 1)).map f).sum
          + ((List.range' (1 + kpolij (aget2 MNUMB i j))
            (kpolij (aget2 MNUMB i j) + kexpij (aget2 MNUMB i j) + 1 - (1 + kpolij (aget2 MNUMB i j)))).map f).sum
          = ∑ k : Fin 13, if 1 ≤ k.1 ∧ k.1 < kpolij (aget2 MNUMB i j) + kexpij (aget2 MNUMB i j) + 1 then f k.1 else 0 := by
        intro f
        have e1 : ∀ lo hi : ℕ, ((List.range' lo (hi - lo)).map f).sum = ∑ k ∈ Finset.Ico lo hi, f k := fun _ _ => rfl
        rw [e1, e1, Nat.add_comm 1, Finset.sum_Ico_consecutive _ (by omega) (by omega), sum_Ico_fin h13]
      rw [hsum, hsum] at A
      have q : ∀ k : Fin 13, ¬ (1 ≤ k.1 ∧ k.1 < kpolij (aget2 MNUMB i j) + kexpij (aget2 MNUMB i j) + 1) →
          ¬ actM (xr x) i j k.1 :=
        fun k hk hr => hk ⟨hr.2.2.2.2.2.1, by have := hr.2.2.2.2.2.2; omega⟩
      have s1 : (∑ k : Fin 13, if 1 ≤ k.1 ∧ k.1 < kpolij (aget2 MNUMB i j) + kexpij (aget2 MNUMB i j) + 1 then g k.1 else 0)
          = ∑ k : Fin 13, tV (xr x) fac δ τ (.inr (i, j, k)) := by
        apply Finset.sum_congr rfl
        intro k _
        split
        · exact dif_pos k.2
        · rename_i hk; exact ((mix_zero fac facA (q k hk)).1).symm
      have s2 : (∑ k : Fin 13, if 1 ≤ k.1 ∧ k.1 < kpolij (aget2 MNUMB i j) + kexpij (aget2 MNUMB i j) + 1 then gA k.1 else 0)
          = ∑ k : Fin 13, tA (xr x) facA δ τ (.inr (i, j, k)) := by
        apply Finset.sum_congr rfl
        intro k _
        split
        · exact dif_pos k.2
        · rename_i hk; exact ((mix_zero fac facA (q k hk)).2).symm
      rw [s1, s2] at A
      refine (A.congr fun ar => ?_).weak (by simp only [List.length_range']; omega) le_rfl
      unfold arPairP
      rw [C.hx, if_pos hy, if_pos hm]
      rfl
    · have hn : ∀ k : Fin 13, ¬ actM (xr x) i j k.1 := fun k hr => hm hr.2.2.2.2.1
      refine F64.Adds.skip _ _ _ _ (fun ar => ?_) (Finset.sum_eq_zero fun k _ => (mix_zero fac facA (hn k)).1)
        (Finset.sum_eq_zero fun k _ => (mix_zero fac facA (hn k)).2)
      unfold arPairP
      rw [C.hx, if_pos hy, if_neg hm]
  · have hn : ∀ k : Fin 13, ¬ actM (xr x) i j k.1 := fun k hr => hy (by rw [present_iff C.ok (by omega)]; exact hr.2.2.2.1)
    refine F64.Adds.skip _ _ _ _ (fun ar => ?_) (Finset.sum_eq_zero fun k _ => (mix_zero fac facA (hn k)).1)
      (Finset.sum_eq_zero fun k _ => (mix_zero fac facA (hn k)).2)
    unfold arPairP
    rw [C.hx, if_neg hy]

/-- Every term is at most `2^167`. -/
theorem tA_le (ι : Ix) : 0 ≤ tA (xr x) facA δ τ ι ∧ tA (xr x) facA δ τ ι ≤ 2 ^ 167 := by
  obtain ⟨i, k⟩ | ⟨i, j, k⟩ := ι
  · by_cases hr : readP x i k
    · by_cases hp : k.1 ≤ aget KPOL i
      · exact (adds_pol hL C E k.2 hr hp).bd
      · exact (adds_exp hL C E k.2 hr (not_le.1 hp)).bd
    · have : tA (xr x) facA δ τ (.inl (i, k)) = 0 := by
        unfold tA
        simp only [coef]
        rw [if_neg (fun h => hr ((readP_iff C i k).2 h))]
        simp
      rw [this]
      exact ⟨le_rfl, by positivity⟩
  · by_cases hr : actM (xr x) i j k.1
    · by_cases hp : k.1 ≤ kpolij (aget2 MNUMB i j)
      · exact (adds_polM hL C E k.2 hr hp).bd
      · exact (adds_mix hL C E k.2 hr (not_le.1 hp)).bd
    · rw [(mix_zero fac facA hr).2]
      exact ⟨le_rfl, by positivity⟩

theorem RA_le : RA (xr x) facA δ τ ≤ 2 ^ 180 := by
  have h : RA (xr x) facA δ τ ≤ ∑ _ι : Ix, (2 : ℝ) ^ 167 := Finset.sum_le_sum fun ι _ => (tA_le hL C E ι).2
  refine h.trans ?_
  rw [Finset.sum_const, nsmul_eq_mul]
  have : (Finset.univ : Finset Ix).card = 22 * 25 + 22 * (22 * 13) := by
    rw [Finset.card_univ]
    simp [Ix]
  rw [this]
  norm_num

/-- The entries of `ar` are accurate relative to the sum of the sizes of all terms. -/
theorem ap_arOf : Ap (aget2 (arOf s itau del lntau) a b) (RS (xr x) fac δ τ) (RA (xr x) facA δ τ) 3480000 995 180 := by
  have hP := F64.Adds.loop (n := 22) 1 fun i hi => adds_pure hL C E i hi
  have hQ : ∀ i ∈ (rangeFin 1 22).dropLast, F64.Adds (fun ar : Ar Float => aget2 ar a b)
      (fun ar => if FOps.lt EPSILON (aget s.x i) then loop (i.1 + 1) 22 ar (arPairP s itau del lntau (arDelp del).1 i) else ar)
      (∑ j : Fin 22, ∑ k : Fin 13, tV (xr x) fac δ τ (.inr (i, j, k)))
      (∑ j : Fin 22, ∑ k : Fin 13, tA (xr x) facA δ τ (.inr (i, j, k))) 528 KT 995 180 := by
    intro i hi
    obtain ⟨h1, h2⟩ := mem_dropLast i hi
    by_cases hx : FOps.lt EPSILON (aget x i) = true
    · have A := F64.Adds.loop (n := 22) (i.1 + 1) fun j hj => adds_pair hL C E i j h1 hj hx
      have hn : ∀ j k, ¬ (i.1 + 1 ≤ j.1) → ¬ actM (xr x) i j k := fun j k hj hr => hj hr.2.1
      have s1 : (∑ j : Fin 22 with i.1 + 1 ≤ j.1, ∑ k : Fin 13, tV (xr x) fac δ τ (.inr (i, j, k)))
          = ∑ j : Fin 22, ∑ k : Fin 13, tV (xr x) fac δ τ (.inr (i, j, k)) := by
        rw [Finset.sum_filter]
        apply Finset.sum_congr rfl
        intro j _
        split
        · rfl
        · rename_i hj
          exact (Finset.sum_eq_zero fun k _ => (mix_zero fac facA (hn j k.1 hj)).1).symm
      have s2 : (∑ j : Fin 22 with i.1 + 1 ≤ j.1, ∑ k : Fin 13, tA (xr x) facA δ τ (.inr (i, j, k)))
          = ∑ j : Fin 22, ∑ k : Fin 13, tA (xr x) facA δ τ (.inr (i, j, k)) := by
        rw [Finset.sum_filter]
        apply Finset.sum_congr rfl
        intro j _
        split
        · rfl
        · rename_i hj
          exact (Finset.sum_eq_zero fun k _ => (mix_zero fac facA (hn j k.1 hj)).2).symm
      rw [s1, s2] at A
      refine (A.congr fun ar => ?_).weak (by omega) le_rfl
      rw [C.hx]
      rw [if_pos hx]
    · have hn : ∀ j (k : Fin 13), ¬ actM (xr x) i j k.1 := fun j k hr => hx (by rw [present_iff C.ok h1]; exact hr.2.2.1)
      refine F64.Adds.skip _ _ _ _ (fun ar => ?_)
        (Finset.sum_eq_zero fun j _ => Finset.sum_eq_zero fun k _ => (mix_zero fac facA (hn j k)).1)
        (Finset.sum_eq_zero fun j _ => Finset.sum_eq_zero fun k _ => (mix_zero fac facA (hn j k)).2)
      rw [C.hx]
      rw [if_neg hx]
  have A := F64.Adds.comp hP (F64.Adds.foldl _ hQ)
  have hl : (rangeFin 1 22).dropLast.length = 20 := by decide
  rw [hl, sum_dropLast, sum_dropLast] at A
  have G : ∀ G : Ix → ℝ, (∀ i k, ¬ 1 ≤ i.1 → G (.inl (i, k)) = 0) → (∀ i j k, ¬ (1 ≤ i.1 ∧ i.1 ≤ 20) → G (.inr (i, j, k)) = 0) →
      (∑ i : Fin 22 with 1 ≤ i.1, ∑ k : Fin 25, G (.inl (i, k)))
        + (∑ i : Fin 22, if 1 ≤ i.1 ∧ i.1 ≤ 20 then ∑ j : Fin 22, ∑ k : Fin 13, G (.inr (i, j, k)) else 0) = ∑ ι : Ix, G ι := by
    intro G g1 g2
    rw [Fintype.sum_sum_type, Fintype.sum_prod_type, Fintype.sum_prod_type, Finset.sum_filter]
    congr 1
    · apply Finset.sum_congr rfl
      intro i _
      split
      · rfl
      · rename_i hi
        exact (Finset.sum_eq_zero fun k _ => g1 i k hi).symm
    · apply Finset.sum_congr rfl
      intro i _
      rw [Fintype.sum_prod_type]
      split
      · rfl
      · rename_i hi
        exact (Finset.sum_eq_zero fun j _ => Finset.sum_eq_zero fun k _ => g2 i j k hi).symm
  have z1 : ∀ (i : Fin 22) (k : Fin 25), ¬ 1 ≤ i.1 → coef (xr x) (.inl (i, k)) = 0 := by
    intro i k hi
    simp only [coef]
    rw [if_neg (fun hr => hi hr.1)]
  have z2 : ∀ (i j : Fin 22) (k : Fin 13), ¬ (1 ≤ i.1 ∧ i.1 ≤ 20) → coef (xr x) (.inr (i, j, k)) = 0 := by
    intro i j k hi
    simp only [coef]
    rw [if_neg (fun hr => hi ⟨hr.1, by have := hr.2.1; omega⟩)]
  rw [G (fun ι => tV (xr x) fac δ τ ι) (fun i k hi => by unfold tV; rw [z1 i k hi]; simp)
      (fun i j k hi => by unfold tV; rw [z2 i j k hi]; simp),
    G (fun ι => tA (xr x) facA δ τ ι) (fun i k hi => by unfold tA; rw [z1 i k hi]; simp)
      (fun i j k hi => by unfold tA; rw [z2 i j k hi]; simp)] at A
  have hz : Ap (aget2 (fill 4 (fill 4 (f% 0.0)) : Ar Float) a b) 0 0 KT 995 180 := by
    rw [aget2_fill]
    exact ap0 _ _ _
  have B := A.2 _ 0 0 KT le_rfl (by show _ ≤ 33554432; norm_num) (by
    rw [zero_add]; exact RA_le hL C E) hz
  rw [zero_add, zero_add] at B
  exact B.weak (by norm_num) le_rfl le_rfl

end sums

end

end Aga8.Gerg
