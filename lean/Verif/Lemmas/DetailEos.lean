import Verif.Lemmas.DetailParams
import Verif.Lemmas.DetailTemp
import Verif.Spec.Aga8Eos

/-! # The composition terms in closed form -/

namespace Aga8.Detail

open Tab Finset

theorem tab_c {n : Nat} (v : Vector Dec n) (i : Fin n) : (tab v i : ℝ) = Eos.c v i := rfl

theorem tab2_star (v : Vector (Vector Dec 21) 21) {i j : Fin 21} (h : i ≤ j) :
    (tab2 v i j : ℝ) = Eos.star v i j := by
  unfold Eos.star
  rw [if_pos h]
  rfl

theorem star_comm (v : Vector (Vector Dec 21) 21) (i j : Fin 21) : Eos.star v i j = Eos.star v j i := by
  unfold Eos.star
  rcases lt_trichotomy i j with h | h | h
  · rw [if_pos h.le, if_neg (not_le.2 h)]
  · rw [h]
  · rw [if_neg (not_le.2 h), if_pos h.le]

theorem flag_one (b : ℝ) : Eos.flag b 1 = b := by simp [Eos.flag]
theorem flag_zero (b : ℝ) : Eos.flag b 0 = 1 := by simp [Eos.flag]

theorem flags01 : ∀ n : Fin 58, (aget GN n = 0 ∨ aget GN n = 1) ∧ (aget QN n = 0 ∨ aget QN n = 1) ∧
    (aget FN n = 0 ∨ aget FN n = 1) ∧ (aget SN n = 0 ∨ aget SN n = 1) ∧ (aget WN n = 0 ∨ aget WN n = 1) := by
  decide +kernel

theorem FI01 : ∀ i : Fin 21, aget FI i = ⟨0, 0⟩ ∨ aget FI i = ⟨1, 0⟩ := by decide +kernel

theorem sqrt_FI (i : Fin 21) : √(Eos.c FI i) = Eos.c FI i := by
  have h := FI01 i
  unfold aget at h
  unfold Eos.c
  rcases h with h | h <;> rw [h] <;> simp

theorem flag_if (b : ℝ) {k : Nat} (h : k = 0 ∨ k = 1) (a : ℝ) :
    (if (k == 1) = true then a * b else a) = a * Eos.flag b k := by
  rcases h with rfl | rfl
  · simp [flag_zero]
  · simp [flag_one]

/-- `bsnij` is the report's `B*`. -/
theorem bsnij_real {i j : Fin 21} (h : i ≤ j) (n : Fin 18) :
    (bsnij i j n : ℝ) = Eos.Bstar ⟨n.1, by omega⟩ i j := by
  unfold bsnij Eos.Bstar
  dsimp only
  obtain ⟨h1, h2, h3, h4, h5⟩ := flags01 ⟨n.1, by omega⟩
  unfold aget at h1 h2 h3 h4 h5
  simp only [mul_assoc]
  unfold aget
  dsimp only at *
  simp only [flag_if _ h2, flag_if _ h3, flag_if _ h4, flag_if _ h5]
  have e1 : (if (GN[n.1] == 1) = true then (tab2 GIJ i j : ℝ) * (tab GI i + tab GI j) / f% 2.0
      else f% 1.0) = Eos.flag (Eos.Gij i j) GN[n.1] := by
    rw [tab2_star _ h, l2, l1]
    unfold Eos.Gij
    rcases h1 with h1 | h1 <;> rw [h1]
    · simp [flag_zero]
    · simp [flag_one, tab_c]
  rw [e1]
  simp only [tab_c, sqrt_FI]
  ring

/-- The fractions the code uses: the positive ones. -/
noncomputable def xp (s : Detail ℝ) (i : Fin 21) : ℝ := max (aget s.x i) 0

theorem xp_pos {s : Detail ℝ} {i : Fin 21} (h : 0 < aget s.x i) : xp s i = aget s.x i :=
  max_eq_left h.le
theorem xp_neg {s : Detail ℝ} {i : Fin 21} (h : ¬ 0 < aget s.x i) : xp s i = 0 :=
  max_eq_right (not_lt.1 h)

/-- The contribution of one pure fluid. -/
theorem xPure_real (s : Detail ℝ) (i : Fin 21) (a : XAcc ℝ) :
    (xPure s i a).k3 = a.k3 + xp s i * aget s.ki25 i ∧
    (xPure s i a).u = a.u + xp s i * aget s.ei25 i ∧
    (xPure s i a).g = a.g + xp s i * tab GI i ∧
    (xPure s i a).q = a.q + xp s i * tab QI i ∧
    (xPure s i a).f = a.f + xp s i ^ 2 * tab FI i ∧
    ∀ n, aget (xPure s i a).bs n = aget a.bs n + xp s i * xp s i * aget (aget2 s.bsnij2 i i) n := by
  unfold xPure
  simp only [r_lt, l0, r_powi]
  by_cases h : 0 < aget s.x i
  · rw [if_pos h, xp_pos h]
    refine ⟨rfl, rfl, rfl, rfl, rfl, fun n => ?_⟩
    dsimp only
    rw [aget_loop_aset (fun n b => b + aget s.x i ^ 2 * aget (aget2 s.bsnij2 i i) n)]
    simp [pow_two]
  · rw [if_neg h, xp_neg h]
    simp

/-- The contribution of one pair. -/
theorem xPair_real (s : Detail ℝ) (i j : Fin 21) (hi : 0 < aget s.x i) (a : XAcc ℝ) :
    (xPair s i j a).k3 = a.k3 + 2 * (xp s i * xp s j * aget2 s.kij5 i j) ∧
    (xPair s i j a).u = a.u + 2 * (xp s i * xp s j * aget2 s.uij5 i j) ∧
    (xPair s i j a).g = a.g + 2 * (xp s i * xp s j * aget2 s.gij5 i j) ∧
    (xPair s i j a).q = a.q ∧
    (xPair s i j a).f = a.f ∧
    ∀ n, aget (xPair s i j a).bs n
      = aget a.bs n + 2 * (xp s i * xp s j * aget (aget2 s.bsnij2 i j) n) := by
  unfold xPair
  simp only [r_lt, l0, l2]
  rw [xp_pos hi]
  by_cases h : 0 < aget s.x j
  · rw [if_pos h, xp_pos h]
    refine ⟨by ring, by ring, by ring, rfl, rfl, fun n => ?_⟩
    dsimp only
    rw [aget_loop_aset (fun n b => b + 2 * aget s.x i * aget s.x j * aget (aget2 s.bsnij2 i j) n)]
    simp
    ring
  · rw [if_neg h, xp_neg h]
    simp

/-- The contribution of one row of pairs to an additive component. -/
theorem xRow_real (s : Detail ℝ) (π : XAcc ℝ → ℝ) (m : Fin 21 → Fin 21 → ℝ)
    (h : ∀ i j a, 0 < aget s.x i → π (xPair s i j a) = π a + 2 * (xp s i * xp s j * m i j))
    (i : Fin 21) (a : XAcc ℝ) :
    π (if FOps.lt (f% 0.0 : ℝ) (aget s.x i) = true then loop (i.1 + 1) 21 a (xPair s i) else a)
      = π a + ∑ j with i < j, 2 * (xp s i * xp s j * m i j) := by
  simp only [r_lt, l0]
  by_cases hi : 0 < aget s.x i
  · rw [if_pos hi, loop_proj_add π (fun j => 2 * (xp s i * xp s j * m i j)) _ _
      (fun j a _ => h i j a hi)]
    congr 1
  · rw [if_neg hi]
    simp [xp_neg hi]

/-- All pairs. -/
theorem xRows_real (s : Detail ℝ) (π : XAcc ℝ → ℝ) (m : Fin 21 → Fin 21 → ℝ)
    (h : ∀ i j a, 0 < aget s.x i → π (xPair s i j a) = π a + 2 * (xp s i * xp s j * m i j))
    (a : XAcc ℝ) :
    π (loop 0 21 a fun i a =>
        if FOps.lt (f% 0.0 : ℝ) (aget s.x i) = true then loop (i.1 + 1) 21 a (xPair s i) else a)
      = π a + ∑ i, ∑ j with i < j, 2 * (xp s i * xp s j * m i j) :=
  loop_proj_add0 π _ _ _ (fun i a => xRow_real s π m h i a)

/-- A component not touched by the pair loops. -/
theorem xRows_keep (s : Detail ℝ) (π : XAcc ℝ → ℝ)
    (h : ∀ i j a, π (xPair s i j a) = π a) (a : XAcc ℝ) :
    π (loop 0 21 a fun i a =>
        if FOps.lt (f% 0.0 : ℝ) (aget s.x i) = true then loop (i.1 + 1) 21 a (xPair s i) else a)
      = π a := by
  refine loop_inv (fun b => π b = π a) rfl fun i b _ hb => ?_
  split
  · exact loop_inv (fun c => π c = π a) hb fun j c _ hc => (h i j c).trans hc
  · exact hb

/-- The accumulators of `x_terms` in closed form. -/
theorem xAcc_real (s : Detail ℝ) :
    (xAcc s).k3 = ((∑ i, xp s i * aget s.ki25 i) ^ 2
      + ∑ i, ∑ j with i < j, 2 * (xp s i * xp s j * aget2 s.kij5 i j)) ^ (0.6 : ℝ) ∧
    (xAcc s).u = ((∑ i, xp s i * aget s.ei25 i) ^ 2
      + ∑ i, ∑ j with i < j, 2 * (xp s i * xp s j * aget2 s.uij5 i j)) ^ (0.2 : ℝ) ∧
    (xAcc s).g = ∑ i, xp s i * tab GI i
      + ∑ i, ∑ j with i < j, 2 * (xp s i * xp s j * aget2 s.gij5 i j) ∧
    (xAcc s).q = ∑ i, xp s i * tab QI i ∧
    (xAcc s).f = ∑ i, xp s i ^ 2 * tab FI i ∧
    ∀ n, aget (xAcc s).bs n = ∑ i, xp s i * xp s i * aget (aget2 s.bsnij2 i i) n
      + ∑ i, ∑ j with i < j, 2 * (xp s i * xp s j * aget (aget2 s.bsnij2 i j) n) := by
  have p1 := loop_proj_add0 (fun a : XAcc ℝ => a.k3) (fun i => xp s i * aget s.ki25 i) (xPure s)
    ⟨f% 0.0, f% 0.0, f% 0.0, f% 0.0, f% 0.0, fill 18 (f% 0.0)⟩ (fun i a => (xPure_real s i a).1)
  have p2 := loop_proj_add0 (fun a : XAcc ℝ => a.u) (fun i => xp s i * aget s.ei25 i) (xPure s)
    ⟨f% 0.0, f% 0.0, f% 0.0, f% 0.0, f% 0.0, fill 18 (f% 0.0)⟩ (fun i a => (xPure_real s i a).2.1)
  have p3 := loop_proj_add0 (fun a : XAcc ℝ => a.g) (fun i => xp s i * tab GI i) (xPure s)
    ⟨f% 0.0, f% 0.0, f% 0.0, f% 0.0, f% 0.0, fill 18 (f% 0.0)⟩ (fun i a => (xPure_real s i a).2.2.1)
  have p4 := loop_proj_add0 (fun a : XAcc ℝ => a.q) (fun i => xp s i * tab QI i) (xPure s)
    ⟨f% 0.0, f% 0.0, f% 0.0, f% 0.0, f% 0.0, fill 18 (f% 0.0)⟩ (fun i a => (xPure_real s i a).2.2.2.1)
  have p5 := loop_proj_add0 (fun a : XAcc ℝ => a.f) (fun i => xp s i ^ 2 * tab FI i) (xPure s)
    ⟨f% 0.0, f% 0.0, f% 0.0, f% 0.0, f% 0.0, fill 18 (f% 0.0)⟩ (fun i a => (xPure_real s i a).2.2.2.2.1)
  have p6 := fun n => loop_proj_add0 (fun a : XAcc ℝ => aget a.bs n)
    (fun i => xp s i * xp s i * aget (aget2 s.bsnij2 i i) n) (xPure s)
    ⟨f% 0.0, f% 0.0, f% 0.0, f% 0.0, f% 0.0, fill 18 (f% 0.0)⟩
    (fun i a => (xPure_real s i a).2.2.2.2.2 n)
  dsimp only at p1 p2 p3 p4 p5 p6
  simp only [aget_fill, l0, zero_add] at p1 p2 p3 p4 p5 p6
  unfold xAcc
  dsimp only
  simp only [l0]
  generalize loop 0 21 (⟨0, 0, 0, 0, 0, fill 18 0⟩ : XAcc ℝ) (xPure s) = a at *
  have q1 := xRows_real s (fun a => a.k3) (fun i j => aget2 s.kij5 i j)
    (fun i j a hi => (xPair_real s i j hi a).1)
  have q2 := xRows_real s (fun a => a.u) (fun i j => aget2 s.uij5 i j)
    (fun i j a hi => (xPair_real s i j hi a).2.1)
  have q3 := xRows_real s (fun a => a.g) (fun i j => aget2 s.gij5 i j)
    (fun i j a hi => (xPair_real s i j hi a).2.2.1)
  have q4 := xRows_keep s (fun a => a.q) (fun i j a => by unfold xPair; dsimp only; split <;> rfl)
  have q5 := xRows_keep s (fun a => a.f) (fun i j a => by unfold xPair; dsimp only; split <;> rfl)
  have q6 := fun n => xRows_real s (fun a => aget a.bs n) (fun i j => aget (aget2 s.bsnij2 i j) n)
    (fun i j a hi => (xPair_real s i j hi a).2.2.2.2.2 n)
  simp only [l0] at q1 q2 q3 q4 q5 q6
  simp only [r_powi, r_powf, l06, l02]
  refine ⟨?_, ?_, ?_, ?_, ?_, fun n => ?_⟩
  · rw [q1]; dsimp only; rw [p1]
  · rw [q2]; dsimp only; rw [p2]
  · rw [q3]; dsimp only; rw [p3]
  · rw [q4]; dsimp only; rw [p4]
  · rw [q5]; dsimp only; rw [p5]
  · rw [q6]; dsimp only; rw [p6]

theorem sum_symm (f : Fin 21 → Fin 21 → ℝ) (hf : ∀ i j, f i j = f j i) :
    ∑ i, ∑ j, f i j = ∑ i, f i i + ∑ i, ∑ j with i < j, 2 * f i j := by
  have h1 : ∀ i j : Fin 21, f i j = (if i = j then f i j else 0) + (if i < j then f i j else 0)
      + (if j < i then f i j else 0) := by
    intro i j
    rcases lt_trichotomy i j with h | h | h
    · simp [h, h.ne, h.le]
    · simp [h]
    · simp [h, h.ne', h.le]
  have h2 : ∑ i, ∑ j, f i j = ∑ i : Fin 21, ∑ j : Fin 21, ((if i = j then f i j else 0)
      + (if i < j then f i j else 0) + (if j < i then f i j else 0)) :=
    Finset.sum_congr rfl fun i _ => Finset.sum_congr rfl fun j _ => h1 i j
  rw [h2]
  simp only [Finset.sum_add_distrib]
  have h3 : ∑ i : Fin 21, ∑ j : Fin 21, (if j < i then f i j else 0)
      = ∑ i : Fin 21, ∑ j : Fin 21, (if i < j then f i j else 0) := by
    rw [Finset.sum_comm]
    exact Finset.sum_congr rfl fun i _ => Finset.sum_congr rfl fun j _ => by rw [hf]
  rw [h3, add_assoc, ← two_mul]
  congr 1
  · exact Finset.sum_congr rfl fun i _ => by simp
  · rw [Finset.mul_sum]
    refine Finset.sum_congr rfl fun i _ => ?_
    rw [Finset.mul_sum, Finset.sum_filter]
    exact Finset.sum_congr rfl fun j _ => by split <;> simp

/-! ## Fresh objects -/

/-- The fractions in use. -/
noncomputable def posPart (x : Vector ℝ 21) (i : Fin 21) : ℝ := max (aget x i) 0

theorem c_nonneg_of {n : Nat} (v : Vector Dec n) (h : ∀ i : Fin n, 0 ≤ (aget v i).m) (i : Fin n) :
    0 ≤ Eos.c v i := by
  unfold Eos.c
  have := h i
  unfold aget at this
  have h2 : (0:ℝ) ≤ (v[i.1].m : ℝ) := by exact_mod_cast this
  positivity

theorem KI_nonneg (i : Fin 21) : 0 ≤ Eos.c KI i := c_nonneg_of KI (by decide +kernel) i
theorem EI_nonneg (i : Fin 21) : 0 ≤ Eos.c EI i := c_nonneg_of EI (by decide +kernel) i

theorem setPub_params (s : Detail ℝ) (q : Pub ℝ) :
    (setPub s q).ki25 = s.ki25 ∧ (setPub s q).ei25 = s.ei25 ∧
    (setPub s q).bsnij2 = s.bsnij2 ∧ (setPub s q).kij5 = s.kij5 ∧
    (setPub s q).uij5 = s.uij5 ∧ (setPub s q).gij5 = s.gij5 := ⟨rfl, rfl, rfl, rfl, rfl, rfl⟩

theorem fresh_params (q : Pub ℝ) :
    (freshOf q).ki25 = (newP : Detail ℝ).ki25 ∧ (freshOf q).ei25 = (newP : Detail ℝ).ei25 ∧
    (freshOf q).bsnij2 = (newP : Detail ℝ).bsnij2 ∧ (freshOf q).kij5 = (newP : Detail ℝ).kij5 ∧
    (freshOf q).uij5 = (newP : Detail ℝ).uij5 ∧ (freshOf q).gij5 = (newP : Detail ℝ).gij5 :=
  setPub_params newP q

theorem xp_fresh (q : Pub ℝ) : xp (freshOf q) = posPart q.x := rfl

theorem k3_fresh (q : Pub ℝ) : (xAcc (freshOf q)).k3 = Eos.Kcubed (posPart q.x) := by
  rw [(xAcc_real _).1, xp_fresh]
  obtain ⟨h1, -, -, h4, -, -⟩ := fresh_params q
  unfold Eos.Kcubed Eos.K5
  rw [h1, h4, Finset.mul_sum]
  have e : (0.6 : ℝ) = 3 / 5 := by norm_num
  rw [e]
  congr 2
  · congr 1
    refine Finset.sum_congr rfl fun i _ => ?_
    rw [(newP_params i i).1, r_powf, l25, tab_c]
    norm_num
  · refine Finset.sum_congr rfl fun i _ => ?_
    rw [Finset.mul_sum]
    refine Finset.sum_congr rfl fun j hj => ?_
    have hij : i < j := (Finset.mem_filter.1 hj).2
    rw [(newP_params i j).2.2.2.1, kVal, tab2_star _ hij.le, r_powi, r_powf, r_powf, l1, l25, tab_c, tab_c,
      Real.mul_rpow (KI_nonneg i) (KI_nonneg j)]
    norm_num
    ring

theorem u_fresh (q : Pub ℝ) : (xAcc (freshOf q)).u = Eos.U (posPart q.x) := by
  rw [(xAcc_real _).2.1, xp_fresh]
  obtain ⟨-, h2, -, -, h5, -⟩ := fresh_params q
  unfold Eos.U Eos.U5
  rw [h2, h5, Finset.mul_sum]
  have e : (0.2 : ℝ) = 1 / 5 := by norm_num
  rw [e]
  congr 2
  · congr 1
    refine Finset.sum_congr rfl fun i _ => ?_
    rw [(newP_params i i).2.1, r_powf, l25, tab_c]
    norm_num
  · refine Finset.sum_congr rfl fun i _ => ?_
    rw [Finset.mul_sum]
    refine Finset.sum_congr rfl fun j hj => ?_
    have hij : i < j := (Finset.mem_filter.1 hj).2
    rw [(newP_params i j).2.2.2.2.1, uVal, tab2_star _ hij.le, r_powi, r_powf, r_powf, l1, l25, tab_c, tab_c,
      Real.mul_rpow (EI_nonneg i) (EI_nonneg j)]
    norm_num
    ring

theorem g_fresh (q : Pub ℝ) : (xAcc (freshOf q)).g = Eos.G (posPart q.x) := by
  rw [(xAcc_real _).2.2.1, xp_fresh]
  obtain ⟨-, -, -, -, -, h6⟩ := fresh_params q
  unfold Eos.G
  rw [h6]
  congr 1
  refine Finset.sum_congr rfl fun i _ => ?_
  refine Finset.sum_congr rfl fun j hj => ?_
  have hij : i < j := (Finset.mem_filter.1 hj).2
  rw [(newP_params i j).2.2.2.2.2, gVal, tab2_star _ hij.le, l1, l2, tab_c, tab_c]
  ring

theorem csn_fresh (q : Pub ℝ) (n : Fin 58) : csnOf (freshOf q) n = Eos.Cstar (posPart q.x) n := by
  unfold csnOf xCsn Eos.Cstar
  rw [u_fresh, g_fresh, (xAcc_real _).2.2.2.1, (xAcc_real _).2.2.2.2.1, xp_fresh]
  obtain ⟨h1, h2, h3, -, -⟩ := flags01 n
  simp only [flag_if _ h1, flag_if _ h2, flag_if _ h3, r_powf, r_powi, tab_c]
  unfold Eos.Q Eos.Fhigh aget
  ring

/-- The summand of the second virial coefficient. -/
noncomputable def bTerm (n : Fin 18) (i j : Fin 21) : ℝ :=
  Eos.Bstar ⟨n.1, by omega⟩ i j * Eos.Eij i j ^ Eos.c UN ⟨n.1, by omega⟩
    * (Eos.c KI i * Eos.c KI j) ^ (3 / 2 : ℝ)

theorem bTerm_comm (n : Fin 18) (i j : Fin 21) : bTerm n i j = bTerm n j i := by
  unfold bTerm Eos.Bstar Eos.Eij Eos.Gij
  rw [star_comm EIJ i j, star_comm GIJ i j, mul_comm (Eos.c EI i), mul_comm (Eos.c KI i),
    add_comm (Eos.c GI i), mul_comm (Eos.c QI i), mul_comm (√(Eos.c FI i)), mul_comm (Eos.c SI i),
    mul_comm (Eos.c WI i)]

theorem bVal_real (n : Fin 18) {i j : Fin 21} (h : i ≤ j) :
    (bVal i j n : ℝ) = Eos.c AN ⟨n.1, by omega⟩ * bTerm n i j := by
  unfold bVal bTerm
  rw [bsnij_real h, tab2_star _ h, r_powf, r_powf, r_sqrt, l15, tab_c, tab_c, tab_c, tab_c, tab_c, tab_c]
  have e : (1.5 : ℝ) = 3 / 2 := by norm_num
  rw [e]
  unfold Eos.Eij
  ring

theorem bs_fresh (q : Pub ℝ) (n : Fin 18) : aget (xAcc (freshOf q)).bs n
    = Eos.c AN ⟨n.1, by omega⟩ * ∑ i, ∑ j, posPart q.x i * posPart q.x j * Eos.Bstar ⟨n.1, by omega⟩ i j
      * Eos.Eij i j ^ Eos.c UN ⟨n.1, by omega⟩ * (Eos.c KI i * Eos.c KI j) ^ (3 / 2 : ℝ) := by
  rw [(xAcc_real _).2.2.2.2.2, xp_fresh]
  obtain ⟨-, -, h3, -, -, -⟩ := fresh_params q
  rw [h3]
  have e : ∀ i j, posPart q.x i * posPart q.x j * Eos.Bstar ⟨n.1, by omega⟩ i j
      * Eos.Eij i j ^ Eos.c UN ⟨n.1, by omega⟩ * (Eos.c KI i * Eos.c KI j) ^ (3 / 2 : ℝ)
      = posPart q.x i * posPart q.x j * bTerm n i j := by
    intro i j; unfold bTerm; ring
  simp only [e]
  rw [sum_symm (fun i j => posPart q.x i * posPart q.x j * bTerm n i j) (fun i j => by
    rw [bTerm_comm]; ring), mul_add, Finset.mul_sum, Finset.mul_sum]
  congr 1
  · refine Finset.sum_congr rfl fun i _ => ?_
    rw [(newP_params i i).2.2.1, bVal_real n le_rfl]
    ring
  · refine Finset.sum_congr rfl fun i _ => ?_
    rw [Finset.mul_sum]
    refine Finset.sum_congr rfl fun j hj => ?_
    have hij : i < j := (Finset.mem_filter.1 hj).2
    rw [(newP_params i j).2.2.1, bVal_real n hij.le]
    ring

theorem csn_viewT (q : Pub ℝ) (T : ℝ) {n : Fin 58} (hn : 12 ≤ n.1) :
    aget (viewT q T).csn n = Eos.Cstar (posPart q.x) n := by
  rw [← csn_fresh]
  unfold viewT computed csnRead csnVec
  simp only [aget_ofFn, hn, if_true]

theorem tun_viewT (q : Pub ℝ) (T : ℝ) (n : Fin 58) : aget (viewT q T).tun n = T ^ (-Eos.c UN n) := by
  unfold viewT tunOf
  simp only [aget_ofFn, r_powf, tab_c]

theorem k3_viewT (q : Pub ℝ) (T : ℝ) : (viewT q T).k3 = Eos.Kcubed (posPart q.x) := k3_fresh q

/-- The compression factor of a fresh object. -/
theorem Z_fresh {q : Pub ℝ} (hx : XFar q.x (fill 21 (f% 0.0))) (ht : 1e-7 < q.t) (D : ℝ) :
    1 + A1 (view (freshOf q)) D = Eos.Z (posPart q.x) D q.t := by
  have hv : view (freshOf q) = viewT q q.t := view_atT hx ht
  rw [hv]
  have w1 := k3_viewT q q.t
  have w2 : ∀ n : Fin 58, 12 ≤ n.1 → aget (viewT q q.t).csn n = Eos.Cstar (posPart q.x) n :=
    fun n hn => csn_viewT q q.t hn
  have w3 : ∀ n : Fin 18, aget (viewT q q.t).bs n = _ := bs_fresh q
  have w4 := tun_viewT q q.t
  generalize viewT q q.t = v at *
  unfold A1 Eos.Z
  dsimp only
  rw [← w1, Finset.sum_add_distrib]
  have t1 : ∑ n, f0 v n D * c1 v n D = ∑ n : Fin 58 with 12 ≤ n.1, Eos.Cstar (posPart q.x) n * q.t ^ (-Eos.c UN n)
      * ((BN[n.1] : ℝ) - Eos.cn n * KN[n.1] * (v.k3 * D) ^ KN[n.1]) * (v.k3 * D) ^ BN[n.1]
      * Real.exp (-Eos.cn n * (v.k3 * D) ^ KN[n.1]) := by
    rw [Finset.sum_filter]
    refine Finset.sum_congr rfl fun n _ => ?_
    unfold f0
    by_cases hn : 12 ≤ n.1
    · rw [if_pos hn, if_pos hn, w2 n hn, w4]
      unfold c1 expK Eos.cn aget
      by_cases hk : KN[n.1] = 0
      · simp [hk]; ring
      · simp only [hk, if_false]
        simp only [one_mul, neg_mul]
        ring
    · rw [if_neg hn, if_neg hn]; ring
  have t2 : ∑ n, linB v n * D = D * Eos.B (posPart q.x) q.t
      - v.k3 * D * ∑ n : Fin 58 with 12 ≤ n.1 ∧ n.1 < 18, Eos.Cstar (posPart q.x) n * q.t ^ (-Eos.c UN n) := by
    unfold Eos.B
    rw [Finset.sum_filter, Finset.sum_filter, Finset.mul_sum, Finset.mul_sum, ← Finset.sum_sub_distrib]
    refine Finset.sum_congr rfl fun n _ => ?_
    unfold linB
    by_cases hn : n.1 ≤ 17
    · have h18 : n.1 < 18 := by omega
      rw [dif_pos hn, if_pos h18, w3, w4]
      by_cases h12 : 12 ≤ n.1
      · rw [if_pos h12, if_pos ⟨h12, h18⟩, w2 n h12]
        ring
      · rw [if_neg h12, if_neg (fun h => h12 h.1)]
        ring
    · rw [dif_neg hn, if_neg (by omega), if_neg (by omega)]
      ring
  rw [t1, t2]
  ring

end Aga8.Detail
