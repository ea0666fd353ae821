import Verif.Lemmas.DetailErrSetup
import Verif.Spec.DetailError

/-! # Rounding errors of the composition terms -/

set_option linter.unusedSectionVars false

namespace Aga8.Detail

open FOps Tab F64

variable [Libm]

/-- The fraction the code uses. -/
noncomputable def xr (x : Vector Float 21) (i : Fin 21) : ℝ := max (toR (aget x i)) 0

/-- Every fraction is non-positive (and then not used) or between 1e-10 and 2, and one is at least 1/100. -/
structure OkX (x : Vector Float 21) : Prop where
  fin : ∀ i, IsFinite (aget x i)
  rng : ∀ i, toR (aget x i) ≤ 0 ∨ (1e-10 ≤ toR (aget x i) ∧ toR (aget x i) ≤ 2)
  big : ∃ i, 1 / 100 ≤ toR (aget x i)

theorem xr_nonneg (x : Vector Float 21) (i : Fin 21) : 0 ≤ xr x i := le_max_right _ _

theorem pos_iff {x : Vector Float 21} (hx : OkX x) (i : Fin 21) :
    (FOps.lt (f% 0.0) (aget x i) = true) ↔ 0 < toR (aget x i) := by
  rw [flt, lt_toR fin0 (hx.fin i), toR0]

theorem apX {x : Vector Float 21} (hx : OkX x) {i : Fin 21} (h : FOps.lt (f% 0.0) (aget x i) = true) :
    Ap (aget x i) (xr x i) (xr x i) 0 34 1 := by
  have h0 := (pos_iff hx i).1 h
  have e : xr x i = toR (aget x i) := max_eq_left h0.le
  have hr := (hx.rng i).resolve_left (by linarith)
  have := Ap.exact (l := 34) (h := 1) (hx.fin i) (Or.inr ⟨by rw [abs_of_pos h0]; norm_num at hr ⊢; linarith, by
    rw [abs_of_pos h0]; norm_num; exact hr.2⟩)
  rw [abs_of_pos h0] at this
  rw [e]; exact this

theorem xr_zero {x : Vector Float 21} (hx : OkX x) {i : Fin 21} (h : ¬ FOps.lt (f% 0.0) (aget x i) = true) : xr x i = 0 :=
  max_eq_right (not_lt.1 fun h' => h ((pos_iff hx i).2 h'))

theorem Ap.le_pow {a : Float} {α m : ℝ} {k l h : ℕ} (A : Ap a α m k l h) : m ≤ 2 ^ h := by
  rcases A.rng with e | e
  · rw [e]; positivity
  · exact e.2

theorem sum21_le {m : Fin 21 → ℝ} {h : ℕ} (p : Fin 21 → Prop) [DecidablePred p] (h0 : ∀ i, 0 ≤ m i) (H : ∀ i, m i ≤ 2 ^ h) :
    ∑ i with p i, m i ≤ 2 ^ (h + 5) := by
  calc ∑ i with p i, m i ≤ ∑ i, m i := Finset.sum_le_sum_of_subset_of_nonneg (Finset.filter_subset _ _) fun i _ _ => h0 i
    _ ≤ ∑ _i : Fin 21, (2 : ℝ) ^ h := Finset.sum_le_sum fun i _ => H i
    _ = 21 * 2 ^ h := by simp
    _ ≤ 2 ^ (h + 5) := by
      rw [pow_add]
      have : (0 : ℝ) < 2 ^ h := by positivity
      nlinarith

/-- The loop over the pure fluids adds up `t i`. -/
theorem pure_ap (s : Detail Float) (π : XAcc Float → Float) (t : Fin 21 → Float) (v w : Fin 21 → ℝ)
    {k l h : ℕ} (hπ : ∀ i a, FOps.lt (f% 0.0) (aget s.x i) = true → π (xPure s i a) = π a + t i)
    (T : ∀ i, FOps.lt (f% 0.0) (aget s.x i) = true → Ap (t i) (v i) (w i) k l h)
    (hv : ∀ i, ¬ FOps.lt (f% 0.0) (aget s.x i) = true → v i = 0 ∧ w i = 0) (a : XAcc Float) (ha : π a = f% 0.0)
    (hk : k + 42 ≤ KMax := by norm_num) (hh : h + 5 ≤ 1000 := by norm_num) :
    Ap (π (loop 0 21 a (xPure s))) (∑ i, v i) (∑ i, w i) (k + 42) l (h + 5) := by
  have H : ∀ i : Fin 21, 0 ≤ i.1 → Adds π (xPure s i) (v i) (w i) 2 k l (h + 5) := by
    intro i _
    by_cases hp : FOps.lt (f% 0.0) (aget s.x i) = true
    · exact Adds.one (fun a => hπ i a hp) ((T i hp).weak le_rfl le_rfl (by omega)) hh
    · refine Adds.skip _ _ _ _ (fun a => ?_) (hv i hp).1 (hv i hp).2
      unfold xPure
      simp only [hp]
      rfl
  have hb : ∀ i, w i ≤ 2 ^ h := by
    intro i
    by_cases hp : FOps.lt (f% 0.0) (aget s.x i) = true
    · exact Ap.le_pow (T i hp)
    · rw [(hv i hp).2]; positivity
  have h0 : ∀ i, 0 ≤ w i := fun i => (H i (Nat.zero_le _)).1
  have := (Adds.loop 0 H).2 a 0 0 k le_rfl (by omega) (by rw [zero_add]; exact sum21_le _ h0 hb)
    (by rw [ha]; exact ap0 _ _ _)
  simp only [zero_add, Nat.zero_le, Finset.filter_true] at this
  exact this

/-- The loop over the pairs adds up `2 x_i x_j t i j`. -/
theorem pair_ap (s : Detail Float) (hx : OkX s.x) (π : XAcc Float → Float) (t : Fin 21 → Fin 21 → Float)
    (v w : Fin 21 → Fin 21 → ℝ) {k l h : ℕ}
    (hπ : ∀ i j a, FOps.lt (f% 0.0) (aget s.x j) = true → π (xPair s i j a) = π a + f% 2.0 * aget s.x i * aget s.x j * t i j)
    (T : ∀ i j : Fin 21, i < j → Ap (t i j) (v i j) (w i j) k l h) (a : XAcc Float) {α m : ℝ} {k' l' h' : ℕ}
    (A : Ap (π a) α m k' l' h') (hk : k + 6 ≤ k' := by norm_num) (hK : k' + 882 ≤ KMax := by norm_num)
    (hl : l' ≤ l + 68 := by norm_num) (hl' : l + 68 ≤ 1000 := by norm_num) (hh' : h' ≤ h + 13 := by norm_num)
    (hh : h + 14 ≤ 1000 := by norm_num) :
    Ap (π (loop 0 21 a fun i a => if FOps.lt (f% 0.0) (aget s.x i) = true then loop (i.1 + 1) 21 a (xPair s i) else a))
      (α + ∑ i, ∑ j with i < j, 2 * (xr s.x i * xr s.x j * v i j))
      (m + ∑ i, ∑ j with i < j, 2 * (xr s.x i * xr s.x j * w i j)) (k' + 882) (l + 68) (h + 14) := by
  have T2 : ∀ i j : Fin 21, i < j → FOps.lt (f% 0.0) (aget s.x i) = true → FOps.lt (f% 0.0) (aget s.x j) = true →
      Ap (f% 2.0 * aget s.x i * aget s.x j * t i j) (2 * (xr s.x i * xr s.x j * v i j)) (2 * (xr s.x i * xr s.x j * w i j))
        (k + 6) (l + 68) (h + 3) := by
    intro i j hij hi hj
    have := ((ap2.mul (apX hx hi)).mul (apX hx hj)).mul (T i j hij) (by norm_num) (by omega) (by omega) (by omega)
    have e : ∀ y, 2 * (xr s.x i * xr s.x j * y) = 2 * xr s.x i * xr s.x j * y := fun y => by ring
    rw [e, e]
    exact this.weak (by omega) (by omega) (by omega)
  have hw0 : ∀ i j : Fin 21, i < j → 0 ≤ w i j := fun i j hij => (T i j hij).nonneg
  have hw1 : ∀ i j : Fin 21, i < j → 2 * (xr s.x i * xr s.x j * w i j) ≤ 2 ^ (h + 3) := by
    intro i j hij
    by_cases hi : FOps.lt (f% 0.0) (aget s.x i) = true
    · by_cases hj : FOps.lt (f% 0.0) (aget s.x j) = true
      · exact Ap.le_pow (T2 i j hij hi hj)
      · rw [xr_zero hx hj]; simp
    · rw [xr_zero hx hi]; simp
  have hw2 : ∀ i j : Fin 21, i < j → 0 ≤ 2 * (xr s.x i * xr s.x j * w i j) := fun i j hij =>
    mul_nonneg (by norm_num) (mul_nonneg (mul_nonneg (xr_nonneg _ _) (xr_nonneg _ _)) (hw0 i j hij))
  have hrow : ∀ i : Fin 21, (∑ j with i < j, 2 * (xr s.x i * xr s.x j * w i j)) ≤ 2 ^ (h + 8) := by
    intro i
    have := sum21_le (m := fun j => if i < j then 2 * (xr s.x i * xr s.x j * w i j) else 0) (h := h + 3) (fun j => i < j)
      (fun j => by split
                   · exact hw2 i j ‹_›
                   · exact le_rfl)
      (fun j => by split
                   · exact hw1 i j ‹_›
                   · positivity)
    refine le_trans (le_of_eq (Finset.sum_congr rfl fun j hj => ?_)) this
    rw [if_pos (Finset.mem_filter.1 hj).2]
  have hrow0 : ∀ i : Fin 21, 0 ≤ (∑ j with i < j, 2 * (xr s.x i * xr s.x j * w i j)) := fun i =>
    Finset.sum_nonneg fun j hj => hw2 i j (Finset.mem_filter.1 hj).2
  have H : ∀ i : Fin 21, 0 ≤ i.1 → Adds π (fun a => if FOps.lt (f% 0.0) (aget s.x i) = true then loop (i.1 + 1) 21 a (xPair s i) else a)
      (∑ j with i < j, 2 * (xr s.x i * xr s.x j * v i j)) (∑ j with i < j, 2 * (xr s.x i * xr s.x j * w i j)) 42 (k + 6) (l + 68) (h + 14) := by
    intro i _
    by_cases hi : FOps.lt (f% 0.0) (aget s.x i) = true
    · simp only [hi, if_true]
      have hin : ∀ j : Fin 21, i.1 + 1 ≤ j.1 → Adds π (xPair s i j) (2 * (xr s.x i * xr s.x j * v i j))
          (2 * (xr s.x i * xr s.x j * w i j)) 2 (k + 6) (l + 68) (h + 14) := by
        intro j hij
        have hij' : i < j := hij
        by_cases hj : FOps.lt (f% 0.0) (aget s.x j) = true
        · exact Adds.one (fun a => hπ i j a hj) ((T2 i j hij' hi hj).weak le_rfl le_rfl (by omega)) hh
        · refine Adds.skip _ _ _ _ (fun a => ?_) (by rw [xr_zero hx hj]; ring) (by rw [xr_zero hx hj]; ring)
          unfold xPair
          simp only [hj]
          rfl
      exact (Adds.loop (i.1 + 1) hin).weak (by omega) le_rfl
    · refine Adds.skip _ _ _ _ (fun a => ?_) ?_ ?_
      · simp only [hi]; rfl
      · rw [xr_zero hx hi]; simp
      · rw [xr_zero hx hi]; simp
  have htot := sum21_le (fun _ => True) hrow0 hrow
  simp only [Finset.filter_true] at htot
  have hm : m ≤ 2 ^ (h + 13) := (Ap.le_pow A).trans (pow_le_pow_right₀ (by norm_num) hh')
  have hL := Adds.loop 0 H
  simp only [Nat.zero_le, Finset.filter_true] at hL
  exact hL.2 a α m k' hk (by omega) (by
    rw [show h + 14 = (h + 13) + 1 by ring, pow_succ]; linarith) (A.weak le_rfl hl (by omega))

/-- Components the pair loops do not touch. -/
theorem pair_keep (s : Detail Float) (π : XAcc Float → Float) (h : ∀ i j a, π (xPair s i j a) = π a) (a : XAcc Float) :
    π (loop 0 21 a fun i a => if FOps.lt (f% 0.0) (aget s.x i) = true then loop (i.1 + 1) 21 a (xPair s i) else a) = π a := by
  refine loop_inv (fun b => π b = π a) rfl fun i b _ hb => ?_
  split
  · exact loop_inv (fun c => π c = π a) hb fun j c _ hc => (h i j c).trans hc
  · exact hb

/-- The object has the parameters of a new one. -/
structure Par (s : Detail Float) : Prop where
  ki25 : s.ki25 = (newP : Detail Float).ki25
  ei25 : s.ei25 = (newP : Detail Float).ei25
  bsnij2 : s.bsnij2 = (newP : Detail Float).bsnij2
  kij5 : s.kij5 = (newP : Detail Float).kij5
  uij5 : s.uij5 = (newP : Detail Float).uij5
  gij5 : s.gij5 = (newP : Detail Float).gij5

/-- The contribution of one pure fluid that is present. -/
theorem xPure_eqs (s : Detail Float) (i : Fin 21) (a : XAcc Float) (h : FOps.lt (f% 0.0) (aget s.x i) = true) :
    (xPure s i a).k3 = a.k3 + aget s.x i * aget s.ki25 i ∧
    (xPure s i a).u = a.u + aget s.x i * aget s.ei25 i ∧
    (xPure s i a).g = a.g + aget s.x i * tab GI i ∧
    (xPure s i a).q = a.q + aget s.x i * tab QI i ∧
    (xPure s i a).f = a.f + powi (aget s.x i) 2 * tab FI i ∧
    ∀ n, aget (xPure s i a).bs n = aget a.bs n + powi (aget s.x i) 2 * aget (aget2 s.bsnij2 i i) n := by
  unfold xPure
  simp only [h, if_true]
  refine ⟨trivial, trivial, trivial, trivial, trivial, fun n => ?_⟩
  rw [aget_loop_aset (fun n b => b + powi (aget s.x i) 2 * aget (aget2 s.bsnij2 i i) n)]
  simp

theorem xPair_eqs (s : Detail Float) (i j : Fin 21) (a : XAcc Float) (h : FOps.lt (f% 0.0) (aget s.x j) = true) :
    (xPair s i j a).k3 = a.k3 + f% 2.0 * aget s.x i * aget s.x j * aget2 s.kij5 i j ∧
    (xPair s i j a).u = a.u + f% 2.0 * aget s.x i * aget s.x j * aget2 s.uij5 i j ∧
    (xPair s i j a).g = a.g + f% 2.0 * aget s.x i * aget s.x j * aget2 s.gij5 i j ∧
    ∀ n, aget (xPair s i j a).bs n = aget a.bs n + f% 2.0 * aget s.x i * aget s.x j * aget (aget2 s.bsnij2 i j) n := by
  unfold xPair
  simp only [h, if_true]
  refine ⟨trivial, trivial, trivial, fun n => ?_⟩
  rw [aget_loop_aset (fun n b => b + f% 2.0 * aget s.x i * aget s.x j * aget (aget2 s.bsnij2 i j) n)]
  simp

/-- The sums of `x_terms` before the roots are taken. -/
def xSum (s : Detail Float) : XAcc Float :=
  let a : XAcc Float := ⟨f% 0.0, f% 0.0, f% 0.0, f% 0.0, f% 0.0, fill 18 (f% 0.0)⟩
  let a := loop 0 21 a (xPure s)
  let a := { a with k3 := powi a.k3 2, u := powi a.u 2 }
  loop 0 21 a fun i a =>
    if f% 0.0 <. aget s.x i then loop (i.1 + 1) 21 a (xPair s i) else a

theorem xAcc_xSum (s : Detail Float) :
    xAcc s = { xSum s with k3 := powf (xSum s).k3 (f% 0.6), u := powf (xSum s).u (f% 0.2) } := rfl

section
variable (hL : LibmAccurate) {s : Detail Float} (hs : Par s) (hx : OkX s.x)
include hL hs hx

/-- `K^5`, before any cancellation is taken into account. -/
theorem ap_k5 : Ap (xSum s).k3 (Eos.K5 (xr s.x))
    ((∑ i, xr s.x i * Eos.c KI i ^ (2.5 : ℝ)) ^ 2 + ∑ i, ∑ j with i < j, 2 * (xr s.x i * xr s.x j
      * (((tab2 KIJ i j : ℝ) ^ 5 + 1) * Eos.c KI i ^ (2.5 : ℝ) * Eos.c KI j ^ (2.5 : ℝ)))) 1001 85 20 := by
  have p := pure_ap s (fun a => a.k3) (fun i => aget s.x i * powf (tab KI i) (f% 2.5)) (fun i => xr s.x i * Eos.c KI i ^ (2.5 : ℝ))
    (fun i => xr s.x i * Eos.c KI i ^ (2.5 : ℝ))
    (fun i a h => by rw [(xPure_eqs s i a h).1, hs.ki25, (newP_params i i).1]) (fun i h => (apX hx h).mul (apKi25 hL i))
    (fun i h => by rw [xr_zero hx h]; simp) ⟨f% 0.0, f% 0.0, f% 0.0, f% 0.0, f% 0.0, fill 18 (f% 0.0)⟩ rfl
  have p2 := Ap.powi hL p 2
  have r := pair_ap s hx (fun a => a.k3) (fun i j => kVal i j) _ _
    (fun i j a h => by rw [(xPair_eqs s i j a h).1, hs.kij5, (newP_params i j).2.2.2.1]) (fun i j _ => apKval hL i j)
    { loop 0 21 (⟨f% 0.0, f% 0.0, f% 0.0, f% 0.0, f% 0.0, fill 18 (f% 0.0)⟩ : XAcc Float) (xPure s) with
        k3 := powi (loop 0 21 (⟨f% 0.0, f% 0.0, f% 0.0, f% 0.0, f% 0.0, fill 18 (f% 0.0)⟩ : XAcc Float) (xPure s)).k3 2
        u := powi (loop 0 21 (⟨f% 0.0, f% 0.0, f% 0.0, f% 0.0, f% 0.0, fill 18 (f% 0.0)⟩ : XAcc Float) (xPure s)).u 2 } p2
  have e : Eos.K5 (xr s.x) = (∑ i, xr s.x i * Eos.c KI i ^ (2.5 : ℝ)) ^ 2
      + ∑ i, ∑ j with i < j, 2 * (xr s.x i * xr s.x j * kVal i j) := by
    unfold Eos.K5
    rw [Finset.mul_sum, show (5 / 2 : ℝ) = 2.5 by norm_num]
    congr 1
    refine Finset.sum_congr rfl fun i _ => ?_
    rw [Finset.mul_sum]
    refine Finset.sum_congr rfl fun j hj => ?_
    have hij : i < j := (Finset.mem_filter.1 hj).2
    rw [kVal, tab2_star _ hij.le, r_powi, r_powf, r_powf, l1, l25, tab_c, tab_c, Real.mul_rpow (KI_nonneg i) (KI_nonneg j)]
    ring
  rw [e]
  exact r

/-- `U^5`, before any cancellation is taken into account. -/
theorem ap_u5 : Ap (xSum s).u (Eos.U5 (xr s.x))
    ((∑ i, xr s.x i * Eos.c EI i ^ (2.5 : ℝ)) ^ 2 + ∑ i, ∑ j with i < j, 2 * (xr s.x i * xr s.x j
      * (((tab2 UIJ i j : ℝ) ^ 5 + 1) * Eos.c EI i ^ (2.5 : ℝ) * Eos.c EI j ^ (2.5 : ℝ)))) 1001 78 80 := by
  have p := pure_ap s (fun a => a.u) (fun i => aget s.x i * powf (tab EI i) (f% 2.5)) (fun i => xr s.x i * Eos.c EI i ^ (2.5 : ℝ))
    (fun i => xr s.x i * Eos.c EI i ^ (2.5 : ℝ))
    (fun i a h => by rw [(xPure_eqs s i a h).2.1, hs.ei25, (newP_params i i).2.1]) (fun i h => (apX hx h).mul (apEi25 hL i))
    (fun i h => by rw [xr_zero hx h]; simp) ⟨f% 0.0, f% 0.0, f% 0.0, f% 0.0, f% 0.0, fill 18 (f% 0.0)⟩ rfl
  have p2 := Ap.powi hL p 2
  have r := pair_ap s hx (fun a => a.u) (fun i j => uVal i j) _ _
    (fun i j a h => by rw [(xPair_eqs s i j a h).2.1, hs.uij5, (newP_params i j).2.2.2.2.1]) (fun i j _ => apUval hL i j)
    { loop 0 21 (⟨f% 0.0, f% 0.0, f% 0.0, f% 0.0, f% 0.0, fill 18 (f% 0.0)⟩ : XAcc Float) (xPure s) with
        k3 := powi (loop 0 21 (⟨f% 0.0, f% 0.0, f% 0.0, f% 0.0, f% 0.0, fill 18 (f% 0.0)⟩ : XAcc Float) (xPure s)).k3 2
        u := powi (loop 0 21 (⟨f% 0.0, f% 0.0, f% 0.0, f% 0.0, f% 0.0, fill 18 (f% 0.0)⟩ : XAcc Float) (xPure s)).u 2 } p2
  have e : Eos.U5 (xr s.x) = (∑ i, xr s.x i * Eos.c EI i ^ (2.5 : ℝ)) ^ 2
      + ∑ i, ∑ j with i < j, 2 * (xr s.x i * xr s.x j * uVal i j) := by
    unfold Eos.U5
    rw [Finset.mul_sum, show (5 / 2 : ℝ) = 2.5 by norm_num]
    congr 1
    refine Finset.sum_congr rfl fun i _ => ?_
    rw [Finset.mul_sum]
    refine Finset.sum_congr rfl fun j hj => ?_
    have hij : i < j := (Finset.mem_filter.1 hj).2
    rw [uVal, tab2_star _ hij.le, r_powi, r_powf, r_powf, l1, l25, tab_c, tab_c, Real.mul_rpow (EI_nonneg i) (EI_nonneg j)]
    ring
  rw [e]
  exact r

/-- `G`. -/
theorem ap_g : Ap (xSum s).g (Eos.G (xr s.x)) (Eos.Gabs (xr s.x)) 927 77 17 := by
  have p := pure_ap s (fun a => a.g) (fun i => aget s.x i * tab GI i) (fun i => xr s.x i * Eos.c GI i) (fun i => xr s.x i * Eos.c GI i)
    (fun i a h => (xPure_eqs s i a h).2.2.1) (fun i h => (apX hx h).mul (apGI i))
    (fun i h => by rw [xr_zero hx h]; simp) ⟨f% 0.0, f% 0.0, f% 0.0, f% 0.0, f% 0.0, fill 18 (f% 0.0)⟩ rfl
  have r := pair_ap s hx (fun a => a.g) (fun i j => gVal i j) _ _
    (fun i j a h => by rw [(xPair_eqs s i j a h).2.2.1, hs.gij5, (newP_params i j).2.2.2.2.2]) (fun i j _ => apGval i j)
    { loop 0 21 (⟨f% 0.0, f% 0.0, f% 0.0, f% 0.0, f% 0.0, fill 18 (f% 0.0)⟩ : XAcc Float) (xPure s) with
        k3 := powi (loop 0 21 (⟨f% 0.0, f% 0.0, f% 0.0, f% 0.0, f% 0.0, fill 18 (f% 0.0)⟩ : XAcc Float) (xPure s)).k3 2
        u := powi (loop 0 21 (⟨f% 0.0, f% 0.0, f% 0.0, f% 0.0, f% 0.0, fill 18 (f% 0.0)⟩ : XAcc Float) (xPure s)).u 2 } p
  have e : Eos.G (xr s.x) = (∑ i, xr s.x i * Eos.c GI i) + ∑ i, ∑ j with i < j, 2 * (xr s.x i * xr s.x j * gVal i j) := by
    unfold Eos.G
    congr 1
    refine Finset.sum_congr rfl fun i _ => Finset.sum_congr rfl fun j hj => ?_
    have hij : i < j := (Finset.mem_filter.1 hj).2
    rw [gVal, tab2_star _ hij.le, l1, l2, tab_c, tab_c]
    ring
  have e2 : Eos.Gabs (xr s.x) = (∑ i, xr s.x i * Eos.c GI i)
      + ∑ i, ∑ j with i < j, 2 * (xr s.x i * xr s.x j * (((tab2 GIJ i j : ℝ) + 1) * (Eos.c GI i + Eos.c GI j) / 2)) := by
    unfold Eos.Gabs
    congr 1
    refine Finset.sum_congr rfl fun i _ => Finset.sum_congr rfl fun j hj => ?_
    have hij : i < j := (Finset.mem_filter.1 hj).2
    rw [tab2_star _ hij.le]
    ring
  rw [e, e2]
  exact r

omit hs in
/-- `Q`. -/
theorem ap_q : Ap (xSum s).q (Eos.Q (xr s.x)) (Eos.Q (xr s.x)) 45 35 7 := by
  have p := pure_ap s (fun a => a.q) (fun i => aget s.x i * tab QI i) (fun i => xr s.x i * Eos.c QI i) (fun i => xr s.x i * Eos.c QI i)
    (fun i a h => (xPure_eqs s i a h).2.2.2.1) (fun i h => (apX hx h).mul (apQI i))
    (fun i h => by rw [xr_zero hx h]; simp) ⟨f% 0.0, f% 0.0, f% 0.0, f% 0.0, f% 0.0, fill 18 (f% 0.0)⟩ rfl
  have := pair_keep s (fun a => a.q) (fun i j a => by unfold xPair; dsimp only; split <;> rfl)
    { loop 0 21 (⟨f% 0.0, f% 0.0, f% 0.0, f% 0.0, f% 0.0, fill 18 (f% 0.0)⟩ : XAcc Float) (xPure s) with
        k3 := powi (loop 0 21 (⟨f% 0.0, f% 0.0, f% 0.0, f% 0.0, f% 0.0, fill 18 (f% 0.0)⟩ : XAcc Float) (xPure s)).k3 2
        u := powi (loop 0 21 (⟨f% 0.0, f% 0.0, f% 0.0, f% 0.0, f% 0.0, fill 18 (f% 0.0)⟩ : XAcc Float) (xPure s)).u 2 }
  have e : (xSum s).q = _ := this
  rw [e]
  exact p

omit hs in
/-- The square of a fraction. -/
theorem apX2 {i : Fin 21} (h : FOps.lt (f% 0.0) (aget s.x i) = true) :
    Ap (powi (aget s.x i) 2) (xr s.x i ^ 2) (xr s.x i ^ 2) 13 68 2 := Ap.powi hL (apX hx h) 2

omit hs in
/-- `F`. -/
theorem ap_f : Ap (xSum s).f (Eos.Fhigh (xr s.x)) (Eos.Fhigh (xr s.x)) 58 68 7 := by
  have p := pure_ap s (fun a => a.f) (fun i => powi (aget s.x i) 2 * tab FI i) (fun i => xr s.x i ^ 2 * Eos.c FI i)
    (fun i => xr s.x i ^ 2 * Eos.c FI i)
    (fun i a h => (xPure_eqs s i a h).2.2.2.2.1) (fun i h => (apX2 hL hx h).mul (apFI i))
    (fun i h => by rw [xr_zero hx h]; simp) ⟨f% 0.0, f% 0.0, f% 0.0, f% 0.0, f% 0.0, fill 18 (f% 0.0)⟩ rfl
  have := pair_keep s (fun a => a.f) (fun i j a => by unfold xPair; dsimp only; split <;> rfl)
    { loop 0 21 (⟨f% 0.0, f% 0.0, f% 0.0, f% 0.0, f% 0.0, fill 18 (f% 0.0)⟩ : XAcc Float) (xPure s) with
        k3 := powi (loop 0 21 (⟨f% 0.0, f% 0.0, f% 0.0, f% 0.0, f% 0.0, fill 18 (f% 0.0)⟩ : XAcc Float) (xPure s)).k3 2
        u := powi (loop 0 21 (⟨f% 0.0, f% 0.0, f% 0.0, f% 0.0, f% 0.0, fill 18 (f% 0.0)⟩ : XAcc Float) (xPure s)).u 2 }
  have e : (xSum s).f = _ := this
  rw [e]
  exact p

/-- The terms of the second virial coefficient. -/
theorem ap_bs (n : Fin 18) : Ap (aget (xSum s).bs n)
    (Eos.c AN ⟨n.1, by omega⟩ * ∑ i, ∑ j, xr s.x i * xr s.x j * bTerm n i j)
    (|Eos.c AN ⟨n.1, by omega⟩| * ∑ i, ∑ j, xr s.x i * xr s.x j * bTerm n i j) 1224 418 507 := by
  have p := pure_ap s (fun a => aget a.bs n) (fun i => powi (aget s.x i) 2 * bVal i i n) (fun i => xr s.x i ^ 2 * (bVal i i n : ℝ)) _
    (fun i a h => by rw [(xPure_eqs s i a h).2.2.2.2.2 n, hs.bsnij2, (newP_params i i).2.2.1])
    (fun i h => (apX2 hL hx h).mul (apBval hL i i n))
    (fun i h => by rw [xr_zero hx h]; simp) ⟨f% 0.0, f% 0.0, f% 0.0, f% 0.0, f% 0.0, fill 18 (f% 0.0)⟩ (by simp)
  have r := pair_ap s hx (fun a => aget a.bs n) (fun i j => bVal i j n) _ _
    (fun i j a h => by rw [(xPair_eqs s i j a h).2.2.2 n, hs.bsnij2, (newP_params i j).2.2.1]) (fun i j _ => apBval hL i j n)
    { loop 0 21 (⟨f% 0.0, f% 0.0, f% 0.0, f% 0.0, f% 0.0, fill 18 (f% 0.0)⟩ : XAcc Float) (xPure s) with
        k3 := powi (loop 0 21 (⟨f% 0.0, f% 0.0, f% 0.0, f% 0.0, f% 0.0, fill 18 (f% 0.0)⟩ : XAcc Float) (xPure s)).k3 2
        u := powi (loop 0 21 (⟨f% 0.0, f% 0.0, f% 0.0, f% 0.0, f% 0.0, fill 18 (f% 0.0)⟩ : XAcc Float) (xPure s)).u 2 } p
  have hb : ∀ i j : Fin 21, i ≤ j → |Eos.c AN ⟨n.1, by omega⟩| * (tab2 EIJ i j * √(Eos.c EI i * Eos.c EI j)) ^ Eos.c UN ⟨n.1, by omega⟩
      * (Eos.c KI i * Eos.c KI j) ^ (1.5 : ℝ) * bsnij i j n = |Eos.c AN ⟨n.1, by omega⟩| * bTerm n i j := by
    intro i j hij
    unfold bTerm Eos.Eij
    rw [bsnij_real hij, tab2_star _ hij, show (1.5 : ℝ) = 3 / 2 by norm_num]
    ring
  have hc := sum_symm (fun i j => xr s.x i * xr s.x j * bTerm n i j) (fun i j => by rw [bTerm_comm]; ring)
  have hsum : ∀ (y : ℝ) (V : Fin 21 → Fin 21 → ℝ), (∀ i j : Fin 21, i ≤ j → V i j = y * bTerm n i j) →
      ∑ i, xr s.x i ^ 2 * V i i + ∑ i, ∑ j with i < j, 2 * (xr s.x i * xr s.x j * V i j)
        = y * ∑ i, ∑ j, xr s.x i * xr s.x j * bTerm n i j := by
    intro y V hV
    rw [hc, mul_add, Finset.mul_sum, Finset.mul_sum]
    congr 1
    · exact Finset.sum_congr rfl fun i _ => by rw [hV i i le_rfl]; ring
    · refine Finset.sum_congr rfl fun i _ => ?_
      rw [Finset.mul_sum]
      refine Finset.sum_congr rfl fun j hj => ?_
      rw [hV i j (Finset.mem_filter.1 hj).2.le]
      ring
  rw [hsum (Eos.c AN ⟨n.1, by omega⟩) (fun i j => (bVal i j n : ℝ)) (fun i j hij => bVal_real n hij), hsum _ _ hb] at r
  exact r

end

/-! ## The roots -/

/-- The cancellation in `K^5` and `U^5` is bounded. -/
theorem root_mag {x k : Fin 21 → ℝ} {st : Fin 21 → Fin 21 → ℝ} {C : ℝ} (hx : ∀ i, 0 ≤ x i) (hk : ∀ i, 0 ≤ k i) (hC : 1 ≤ C)
    (h : ∀ i j, i < j → st i j + 2 ≤ C * st i j) :
    (∑ i, x i * k i) ^ 2 + ∑ i, ∑ j with i < j, 2 * (x i * x j * ((st i j + 1) * k i * k j))
      ≤ C * ((∑ i, x i * k i) ^ 2 + ∑ i, ∑ j with i < j, 2 * (x i * x j * ((st i j - 1) * k i * k j))) ∧
    ∀ i, (x i * k i) ^ 2 ≤ (∑ i, x i * k i) ^ 2 + ∑ i, ∑ j with i < j, 2 * (x i * x j * ((st i j - 1) * k i * k j)) := by
  have e0 : (∑ i, x i * k i) ^ 2 = ∑ i, (x i * k i) ^ 2 + ∑ i, ∑ j with i < j, 2 * (x i * k i * (x j * k j)) := by
    rw [pow_two, Finset.sum_mul_sum, sum_symm (fun i j => x i * k i * (x j * k j)) (fun i j => by ring)]
    congr 1
    exact Finset.sum_congr rfl fun i _ => by ring
  have e : ∀ y : ℝ, (∑ i, x i * k i) ^ 2 + ∑ i, ∑ j with i < j, 2 * (x i * x j * ((st i j + y) * k i * k j))
      = ∑ i, (x i * k i) ^ 2 + ∑ i, ∑ j with i < j, 2 * (x i * x j * ((st i j + (y + 1)) * (k i * k j))) := by
    intro y
    rw [e0, add_assoc, ← Finset.sum_add_distrib]
    congr 1
    refine Finset.sum_congr rfl fun i _ => ?_
    rw [← Finset.sum_add_distrib]
    exact Finset.sum_congr rfl fun j _ => by ring
  have e1 := e 1
  have e2 := e (-1)
  simp only [← sub_eq_add_neg] at e2
  rw [e1, e2]
  have hst : ∀ i j, i < j → 0 < st i j := fun i j hij => by
    have := h i j hij
    nlinarith
  have hxk : ∀ i j, 0 ≤ x i * x j * (k i * k j) := fun i j => mul_nonneg (mul_nonneg (hx i) (hx j)) (mul_nonneg (hk i) (hk j))
  constructor
  · rw [mul_add, Finset.mul_sum, Finset.mul_sum]
    refine add_le_add (Finset.sum_le_sum fun i _ => ?_) (Finset.sum_le_sum fun i _ => ?_)
    · nlinarith [sq_nonneg (x i * k i)]
    · rw [Finset.mul_sum]
      refine Finset.sum_le_sum fun j hj => ?_
      have hij := (Finset.mem_filter.1 hj).2
      have := mul_le_mul_of_nonneg_left (h i j hij) (hxk i j)
      norm_num
      nlinarith
  · intro i
    have h1 := Finset.single_le_sum (f := fun i => (x i * k i) ^ 2) (fun i _ => sq_nonneg _) (Finset.mem_univ i)
    have h2 : 0 ≤ ∑ i, ∑ j with i < j, 2 * (x i * x j * ((st i j + (-1 + 1)) * (k i * k j))) := by
      refine Finset.sum_nonneg fun i _ => Finset.sum_nonneg fun j hj => ?_
      have hij := (Finset.mem_filter.1 hj).2
      have := mul_nonneg (hst i j hij).le (hxk i j)
      norm_num
      nlinarith
    linarith

theorem chkKlow : ∀ i : Fin 21, 35 * 10 ^ (aget KI i).e ≤ 100 * (aget KI i).m := by decide +kernel
theorem chkElow : ∀ i : Fin 21, 2 * 10 ^ (aget EI i).e ≤ (aget EI i).m := by decide +kernel
theorem chkKIJlow : ∀ i j : Fin 21, 84 * 10 ^ (aget2 KIJ i j).e ≤ 100 * (aget2 KIJ i j).m := by decide +kernel
theorem chkUIJlow : ∀ i j : Fin 21, 4087 * 10 ^ (aget2 UIJ i j).e ≤ 10000 * (aget2 UIJ i j).m := by decide +kernel

theorem KI_low (i : Fin 21) : 0.35 ≤ Eos.c KI i := by
  show 0.35 ≤ ((aget KI i).m : ℝ) / 10 ^ (aget KI i).e
  have : (35 : ℝ) * 10 ^ (aget KI i).e ≤ 100 * (aget KI i).m := by exact_mod_cast chkKlow i
  rw [le_div_iff₀ (by positivity)]; linarith
theorem EI_low (i : Fin 21) : 2 ≤ Eos.c EI i := by
  show 2 ≤ ((aget EI i).m : ℝ) / 10 ^ (aget EI i).e
  have : (2 : ℝ) * 10 ^ (aget EI i).e ≤ (aget EI i).m := by exact_mod_cast chkElow i
  rw [le_div_iff₀ (by positivity)]; linarith
theorem KIJ_low (i j : Fin 21) : 0.84 ≤ (tab2 KIJ i j : ℝ) := by
  show 0.84 ≤ ((aget2 KIJ i j).m : ℝ) / 10 ^ (aget2 KIJ i j).e
  have : (84 : ℝ) * 10 ^ (aget2 KIJ i j).e ≤ 100 * (aget2 KIJ i j).m := by exact_mod_cast chkKIJlow i j
  rw [le_div_iff₀ (by positivity)]; linarith
theorem UIJ_low (i j : Fin 21) : 0.4087 ≤ (tab2 UIJ i j : ℝ) := by
  show 0.4087 ≤ ((aget2 UIJ i j).m : ℝ) / 10 ^ (aget2 UIJ i j).e
  have : (4087 : ℝ) * 10 ^ (aget2 UIJ i j).e ≤ 10000 * (aget2 UIJ i j).m := by exact_mod_cast chkUIJlow i j
  rw [le_div_iff₀ (by positivity)]; linarith

theorem pow25_sq {a : ℝ} (ha : 0 ≤ a) : (a ^ (2.5 : ℝ)) ^ 2 = a ^ 5 := by
  rw [← Real.rpow_natCast, ← Real.rpow_mul ha, ← Real.rpow_natCast]
  norm_num

section
variable (hL : LibmAccurate) {s : Detail Float} (hs : Par s) (hx : OkX s.x)
include hL hs hx

theorem ap_k5' : Ap (xSum s).k3 (Eos.K5 (xr s.x)) (Eos.K5 (xr s.x)) 6006 21 20 ∧ 0 < Eos.K5 (xr s.x) := by
  have A := ap_k5 hL hs hx
  have hstar : ∀ i j : Fin 21, i < j → (tab2 KIJ i j : ℝ) ^ 5 + 2 ≤ 6 * (tab2 KIJ i j : ℝ) ^ 5 := by
    intro i j _
    have : (0.84 : ℝ) ^ 5 ≤ (tab2 KIJ i j : ℝ) ^ 5 := pow_le_pow_left₀ (by norm_num) (KIJ_low i j) 5
    norm_num at this ⊢
    linarith
  obtain ⟨m1, m2⟩ := root_mag (x := xr s.x) (k := fun i => Eos.c KI i ^ (2.5 : ℝ)) (xr_nonneg s.x)
    (fun i => Real.rpow_nonneg (KI_nonneg i) _) (by norm_num) hstar
  have e : Eos.K5 (xr s.x) = (∑ i, xr s.x i * Eos.c KI i ^ (2.5 : ℝ)) ^ 2 + ∑ i, ∑ j with i < j, 2 * (xr s.x i * xr s.x j
      * (((tab2 KIJ i j : ℝ) ^ 5 - 1) * Eos.c KI i ^ (2.5 : ℝ) * Eos.c KI j ^ (2.5 : ℝ))) := by
    unfold Eos.K5
    rw [Finset.mul_sum, show (5 / 2 : ℝ) = 2.5 by norm_num]
    congr 1
    refine Finset.sum_congr rfl fun i _ => ?_
    rw [Finset.mul_sum]
    refine Finset.sum_congr rfl fun j hj => ?_
    rw [tab2_star _ (Finset.mem_filter.1 hj).2.le, Real.mul_rpow (KI_nonneg i) (KI_nonneg j)]
    ring
  rw [← e] at m1 m2
  obtain ⟨i, hi⟩ := hx.big
  have hlow : 1 ≤ 2 ^ 21 * Eos.K5 (xr s.x) := by
    have h1 := m2 i
    rw [mul_pow, pow25_sq (KI_nonneg i)] at h1
    have h2 : (0.35 : ℝ) ^ 5 ≤ Eos.c KI i ^ 5 := pow_le_pow_left₀ (by norm_num) (KI_low i) 5
    have h3 : (1 / 100 : ℝ) ^ 2 ≤ xr s.x i ^ 2 := pow_le_pow_left₀ (by norm_num) (hi.trans (le_max_left _ _)) 2
    have h4 := mul_le_mul h3 h2 (by norm_num) (by positivity)
    norm_num at h4 ⊢
    linarith
  have hpos : 0 < Eos.K5 (xr s.x) := by
    by_contra hn
    have : (2 : ℝ) ^ 21 * Eos.K5 (xr s.x) ≤ 0 := mul_nonpos_of_nonneg_of_nonpos (by positivity) (by linarith)
    linarith
  have hle : Eos.K5 (xr s.x) ≤ 2 ^ 20 := (le_abs_self _).trans (A.mag.trans (Ap.le_pow A))
  exact ⟨A.remag (le_of_eq (abs_of_pos hpos)) (by push_cast; linarith) (Or.inr ⟨hlow, hle⟩), hpos⟩

theorem ap_u5' : Ap (xSum s).u (Eos.U5 (xr s.x)) (Eos.U5 (xr s.x)) 177177 10 80 ∧ 0 < Eos.U5 (xr s.x) := by
  have A := ap_u5 hL hs hx
  have hstar : ∀ i j : Fin 21, i < j → (tab2 UIJ i j : ℝ) ^ 5 + 2 ≤ 177 * (tab2 UIJ i j : ℝ) ^ 5 := by
    intro i j _
    have : (0.4087 : ℝ) ^ 5 ≤ (tab2 UIJ i j : ℝ) ^ 5 := pow_le_pow_left₀ (by norm_num) (UIJ_low i j) 5
    norm_num at this ⊢
    linarith
  obtain ⟨m1, m2⟩ := root_mag (x := xr s.x) (k := fun i => Eos.c EI i ^ (2.5 : ℝ)) (xr_nonneg s.x)
    (fun i => Real.rpow_nonneg (EI_nonneg i) _) (by norm_num) hstar
  have e : Eos.U5 (xr s.x) = (∑ i, xr s.x i * Eos.c EI i ^ (2.5 : ℝ)) ^ 2 + ∑ i, ∑ j with i < j, 2 * (xr s.x i * xr s.x j
      * (((tab2 UIJ i j : ℝ) ^ 5 - 1) * Eos.c EI i ^ (2.5 : ℝ) * Eos.c EI j ^ (2.5 : ℝ))) := by
    unfold Eos.U5
    rw [Finset.mul_sum, show (5 / 2 : ℝ) = 2.5 by norm_num]
    congr 1
    refine Finset.sum_congr rfl fun i _ => ?_
    rw [Finset.mul_sum]
    refine Finset.sum_congr rfl fun j hj => ?_
    rw [tab2_star _ (Finset.mem_filter.1 hj).2.le, Real.mul_rpow (EI_nonneg i) (EI_nonneg j)]
    ring
  rw [← e] at m1 m2
  obtain ⟨i, hi⟩ := hx.big
  have hlow : 1 ≤ 2 ^ 10 * Eos.U5 (xr s.x) := by
    have h1 := m2 i
    rw [mul_pow, pow25_sq (EI_nonneg i)] at h1
    have h2 : (2 : ℝ) ^ 5 ≤ Eos.c EI i ^ 5 := pow_le_pow_left₀ (by norm_num) (EI_low i) 5
    have h3 : (1 / 100 : ℝ) ^ 2 ≤ xr s.x i ^ 2 := pow_le_pow_left₀ (by norm_num) (hi.trans (le_max_left _ _)) 2
    have h4 := mul_le_mul h3 h2 (by norm_num) (by positivity)
    norm_num at h4 ⊢
    linarith
  have hpos : 0 < Eos.U5 (xr s.x) := by
    by_contra hn
    have : (2 : ℝ) ^ 10 * Eos.U5 (xr s.x) ≤ 0 := mul_nonpos_of_nonneg_of_nonpos (by positivity) (by linarith)
    linarith
  have hle : Eos.U5 (xr s.x) ≤ 2 ^ 80 := (le_abs_self _).trans (A.mag.trans (Ap.le_pow A))
  exact ⟨A.remag (le_of_eq (abs_of_pos hpos)) (by push_cast; linarith) (Or.inr ⟨hlow, hle⟩), hpos⟩

omit hL hs hx in
theorem Ap.rerange {a : Float} {α m : ℝ} {k l h l' h' : ℕ} (A : Ap a α m k l h) (hr : 1 ≤ 2 ^ l' * m ∧ m ≤ 2 ^ h') :
    Ap a α m k l' h' := ⟨A.fin, A.mag, A.err, Or.inr hr⟩

/-- `K^3`. -/
theorem ap_k3 : Ap (xAcc s).k3 (Eos.Kcubed (xr s.x)) (Eos.Kcubed (xr s.x)) 6031 13 12 ∧ 0 < Eos.Kcubed (xr s.x) := by
  obtain ⟨A, hp⟩ := ap_k5' hL hs hx
  have B := Ap.litPos chk06 (by norm_num)
  have hv : decR ⟨6, 1⟩ = 3 / 5 := by simp [decR]; norm_num
  rw [hv] at B
  have hu := uu_pos
  have hu2 : uu ≤ 1 / 8 := by rw [uu_eq]; norm_num
  have e2 : |toR (litF ⟨6, 1⟩) - 3 / 5| ≤ (1 : ℕ) * uu := by
    refine B.err.trans ?_
    push_cast
    nlinarith
  have e3 := abs_le.1 e2
  push_cast at e3
  have P := Ap.powf hL A hp (y := litF ⟨6, 1⟩) (η := 3 / 5) 1 1 B.fin (abs_le.2 ⟨by push_cast; linarith, by push_cast; linarith⟩)
    (by rw [abs_of_pos (by norm_num)]; norm_num) e2
  obtain ⟨r1, r2⟩ := A.pos_bounds hp
  refine ⟨Ap.rerange (P.weak (k' := 6031) (by norm_num) le_rfl le_rfl) ⟨?_, ?_⟩, Real.rpow_pos_of_pos hp _⟩
  · have h1 : (1 / 2 ^ 21 : ℝ) ≤ Eos.K5 (xr s.x) := by rw [div_le_iff₀ (by positivity)]; linarith
    have h2 := Real.rpow_le_rpow (by positivity) h1 (by norm_num : (0 : ℝ) ≤ 3 / 5)
    have h3 : (1 / 2 ^ 13 : ℝ) ≤ (1 / 2 ^ 21 : ℝ) ^ (3 / 5 : ℝ) := by
      have e : (1 / 2 ^ 21 : ℝ) = 2 ^ (-21 : ℝ) := by
        rw [Real.rpow_neg (by norm_num), show (21 : ℝ) = (21 : ℕ) by norm_num, Real.rpow_natCast, one_div]
      have e' : (1 / 2 ^ 13 : ℝ) = 2 ^ (-13 : ℝ) := by
        rw [Real.rpow_neg (by norm_num), show (13 : ℝ) = (13 : ℕ) by norm_num, Real.rpow_natCast, one_div]
      rw [e, e', ← Real.rpow_mul (by norm_num)]
      exact Real.rpow_le_rpow_of_exponent_le (by norm_num) (by norm_num)
    have h4 := h3.trans h2
    rw [div_le_iff₀ (by positivity), mul_comm] at h4
    exact h4
  · have h2 := Real.rpow_le_rpow hp.le r2 (by norm_num : (0 : ℝ) ≤ 3 / 5)
    rw [← Real.rpow_natCast, ← Real.rpow_mul (by norm_num)] at h2
    refine h2.trans (le_of_eq ?_)
    rw [← Real.rpow_natCast]
    norm_num

/-- `U`. -/
theorem ap_u : Ap (xAcc s).u (Eos.U (xr s.x)) (Eos.U (xr s.x)) 177261 2 16 ∧ 0 < Eos.U (xr s.x) := by
  obtain ⟨A, hp⟩ := ap_u5' hL hs hx
  have B := Ap.litPos chk02 (by norm_num)
  have hv : decR ⟨2, 1⟩ = 1 / 5 := by simp [decR]; norm_num
  rw [hv] at B
  have hu := uu_pos
  have hu2 : uu ≤ 1 / 8 := by rw [uu_eq]; norm_num
  have e2 : |toR (litF ⟨2, 1⟩) - 1 / 5| ≤ (1 : ℕ) * uu := by
    refine B.err.trans ?_
    push_cast
    nlinarith
  have e3 := abs_le.1 e2
  push_cast at e3
  have P := Ap.powf hL A hp (y := litF ⟨2, 1⟩) (η := 1 / 5) 1 1 B.fin (abs_le.2 ⟨by push_cast; linarith, by push_cast; linarith⟩)
    (by rw [abs_of_pos (by norm_num)]; norm_num) e2
  obtain ⟨r1, r2⟩ := A.pos_bounds hp
  refine ⟨Ap.rerange (P.weak (k' := 177261) (by norm_num) le_rfl le_rfl) ⟨?_, ?_⟩, Real.rpow_pos_of_pos hp _⟩
  · have h1 : (1 / 2 ^ 10 : ℝ) ≤ Eos.U5 (xr s.x) := by rw [div_le_iff₀ (by positivity)]; linarith
    have h2 := Real.rpow_le_rpow (by positivity) h1 (by norm_num : (0 : ℝ) ≤ 1 / 5)
    have h3 : (1 / 2 ^ 2 : ℝ) ≤ (1 / 2 ^ 10 : ℝ) ^ (1 / 5 : ℝ) := by
      have e : (1 / 2 ^ 10 : ℝ) = 2 ^ (-10 : ℝ) := by
        rw [Real.rpow_neg (by norm_num), show (10 : ℝ) = (10 : ℕ) by norm_num, Real.rpow_natCast, one_div]
      have e' : (1 / 2 ^ 2 : ℝ) = 2 ^ (-2 : ℝ) := by
        rw [Real.rpow_neg (by norm_num), show (2 : ℝ) = (2 : ℕ) by norm_num, Real.rpow_natCast, one_div]
      rw [e, e', ← Real.rpow_mul (by norm_num)]
      exact Real.rpow_le_rpow_of_exponent_le (by norm_num) (by norm_num)
    have h4 := h3.trans h2
    rw [div_le_iff₀ (by positivity), mul_comm] at h4
    exact h4
  · have h2 := Real.rpow_le_rpow hp.le r2 (by norm_num : (0 : ℝ) ≤ 1 / 5)
    rw [← Real.rpow_natCast, ← Real.rpow_mul (by norm_num)] at h2
    refine h2.trans (le_of_eq ?_)
    rw [← Real.rpow_natCast]
    norm_num

/-! ## The coefficients -/

omit hL hs hx in
theorem flagSum : ∀ n : Fin 58, aget GN n + aget QN n + aget FN n ≤ 1 := by decide +kernel

/-- `C*_n`. -/
theorem ap_csn (n : Fin 58) : Ap (csnOf s n) (Eos.Cstar (xr s.x) n) (Eos.Cabs (xr s.x) n) 4079000 339 390 := by
  obtain ⟨Au, up⟩ := ap_u hL hs hx
  have P := (apAN n).mul (apPowUN hL Au up n)
  have G := P.mul (ap_g hL hs hx)
  have Q2 := P.mul (Ap.powi hL (ap_q hL hx) 2)
  have Fh := P.mul (ap_f hL hx)
  have h := flagSum n
  have e1 : csnOf s n = xCsn (xAcc s).u (xSum s).g (powi (xSum s).q 2) (xSum s).f n := rfl
  rw [e1]
  unfold xCsn Eos.Cstar Eos.Cabs
  obtain ⟨hg, hq, hf, -, -⟩ := flags01 n
  have ag : GN[n.1] = aget GN n := rfl
  have aq : QN[n.1] = aget QN n := rfl
  have af : FN[n.1] = aget FN n := rfl
  rw [ag, aq, af]
  rcases hg with hg | hg <;> rcases hq with hq | hq <;> rcases hf with hf | hf <;> rw [hg, hq, hf] at h ⊢ <;>
    simp only [flag_zero, flag_one] <;> first | omega | skip
  · simp only [mul_one]
    exact P.weak (by norm_num) (by norm_num) (by norm_num)
  · have e : ∀ a u f : ℝ, a * 1 * 1 * f * u = a * u * f := fun a u f => by ring
    rw [e, e]
    exact Fh.weak (by norm_num) (by norm_num) (by norm_num)
  · have e : ∀ a u f : ℝ, a * 1 * f * 1 * u = a * u * f := fun a u f => by ring
    rw [e, e]
    exact Q2.weak (by norm_num) (by norm_num) (by norm_num)
  · have e : ∀ a u f : ℝ, a * f * 1 * 1 * u = a * u * f := fun a u f => by ring
    rw [e, e]
    exact G.weak (by norm_num) (by norm_num) (by norm_num)

end

end Aga8.Detail
