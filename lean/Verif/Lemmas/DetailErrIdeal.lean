import Verif.Lemmas.F64ApHyp
import Verif.Lemmas.DetailErrAr
import Verif.Lemmas.DetailHelmholtz
import Verif.Spec.DetailEnergyError

/-! # Rounding errors of the ideal-gas part of DETAIL -/

set_option linter.unusedSectionVars false

namespace Aga8.Detail

open FOps Tab F64

variable [Libm]

/-! ## The constants -/

theorem chkTH : ∀ (i : Fin 21) (j : Fin 7), 3 ≤ j.1 → decChk false 0 12 (aget2 TH0I i j) = true ∧
    ((aget2 TH0I i j).m = 0 ∨ 156 * 10 ^ (aget2 TH0I i j).e ≤ (aget2 TH0I i j).m
      ∧ (aget2 TH0I i j).m ≤ 2600 * 10 ^ (aget2 TH0I i j).e) := by decide +kernel

theorem chkN0 : ∀ (i : Fin 21) (j : Fin 7), 3 ≤ j.1 → decChk false 8 6 (aget2 n0iD i j) = true := by decide +kernel

theorem chkN00 : ∀ i : Fin 21, decChk false 0 7 (aget2 n0iD i 0) = true ∧ decChk false 0 17 (aget2 n0iD i 1) = true ∧
    decChk false 0 3 (aget2 n0iD i 2) = true := by decide +kernel

theorem chkD0 : decChk false 0 9 ⟨29815, 2⟩ = true ∧ decChk false 0 7 ⟨101325, 3⟩ = true := by decide +kernel

theorem decR_decQ (d : Dec) : decR d = (decQ d : ℝ) := by unfold decR decQ; push_cast; rfl

/-- The value of an ideal-gas coefficient. -/
noncomputable def nv (i : Fin 21) (j : Fin 7) : ℝ := decR (aget2 n0iD i j)
/-- A characteristic temperature. -/
noncomputable def th (i : Fin 21) (j : Fin 7) : ℝ := decR (aget2 TH0I i j)

theorem th_cases (i : Fin 21) (j : Fin 7) (hj : 3 ≤ j.1) : th i j = 0 ∨ 156 ≤ th i j ∧ th i j ≤ 2600 := by
  unfold th decR
  rcases (chkTH i j hj).2 with h | ⟨h1, h2⟩
  · left; rw [h]; simp
  · right
    have p : (0 : ℝ) < 10 ^ (aget2 TH0I i j).e := by positivity
    rw [le_div_iff₀ p, div_le_iff₀ p]
    exact ⟨by exact_mod_cast h1, by exact_mod_cast h2⟩

theorem apTH (i : Fin 21) (j : Fin 7) (hj : 3 ≤ j.1) : Ap (tab2 TH0I i j : Float) (th i j) (th i j) 1 0 12 := by
  have h := Ap.lit (chkTH i j hj).1
  have h0 : 0 ≤ th i j := by rcases th_cases i j hj with e | e <;> linarith [e]
  rw [show decR (aget2 TH0I i j) = th i j from rfl, abs_of_nonneg h0] at h
  exact h

theorem apN (i : Fin 21) (j : Fin 7) (hj : 3 ≤ j.1) : Ap (aget2 (newP : Detail Float).n0i i j) (nv i j) |nv i j| 1 8 6 := by
  rw [newP_n0i, if_neg (by intro h; subst h; simp at hj), if_neg (by intro h; subst h; simp at hj)]
  exact Ap.lit (chkN0 i j hj)

theorem th_pos (i : Fin 21) (j : Fin 7) (hj : 3 ≤ j.1) :
    (FOps.lt (f% 0.0 : Float) (tab2 TH0I i j) = true ↔ 0 < th i j) := by
  have A := apTH i j hj
  rw [flt, lt_toR fin0 A.fin, toR0]
  constructor
  · intro h
    rcases A.nonneg.eq_or_lt with e | e
    · rw [(A.zero e.symm).1] at h; exact absurd h (lt_irrefl 0)
    · exact e
  · intro h
    exact (A.rel_bounds h (by norm_num)).2.2

/-- What the density of the standard state is read as. -/
theorem apD0 : Ap (D0 : Float) (101.325 / (8.31451 * 298.15)) (101.325 / (8.31451 * 298.15)) 7 13 7 := by
  have h1 := Ap.litPos chkD0.1 (by norm_num)
  have h2 := Ap.litPos chkD0.2 (by norm_num)
  have e1 : decR ⟨29815, 2⟩ = 298.15 := by simp [decR]; norm_num
  have e2 : decR ⟨101325, 3⟩ = 101.325 := by simp [decR]; norm_num
  rw [e1] at h1
  rw [e2] at h2
  have := (h2.div apR (by norm_num)).div h1 (by norm_num)
  rw [div_div] at this
  exact this.weak (by norm_num) (by norm_num) (by norm_num)

/-! ## The hyperbolic terms -/

/-- The terms of `sumhyp0`, `sumhyp1` and `sumhyp2`. -/
noncomputable def hv0 (i : Fin 21) (T : ℝ) (j : Fin 7) : ℝ :=
  if 0 < th i j then (if j.1 = 3 ∨ j.1 = 5 then nv i j * Real.log (Real.sinh (th i j / T))
    else -nv i j * Real.log (Real.cosh (th i j / T))) else 0
noncomputable def hv1 (i : Fin 21) (T : ℝ) (j : Fin 7) : ℝ :=
  if 0 < th i j then (if j.1 = 3 ∨ j.1 = 5 then nv i j * (Real.log (Real.sinh (th i j / T))
      - th i j / T * Real.cosh (th i j / T) / Real.sinh (th i j / T))
    else -nv i j * (Real.log (Real.cosh (th i j / T))
      - th i j / T * Real.sinh (th i j / T) / Real.cosh (th i j / T))) else 0
noncomputable def hv2 (i : Fin 21) (T : ℝ) (j : Fin 7) : ℝ :=
  if 0 < th i j then (if j.1 = 3 ∨ j.1 = 5 then nv i j * (th i j / T / Real.sinh (th i j / T)) ^ 2
    else nv i j * (th i j / T / Real.cosh (th i j / T)) ^ 2) else 0

/-- Their sizes. -/
noncomputable def hs0 (i : Fin 21) (T : ℝ) (j : Fin 7) : ℝ :=
  if 0 < th i j then (if j.1 = 3 ∨ j.1 = 5 then |nv i j| * Eos.lnSize (Real.sinh (th i j / T))
    else |nv i j| * Eos.lnSize (Real.cosh (th i j / T))) else 0
noncomputable def hs1 (i : Fin 21) (T : ℝ) (j : Fin 7) : ℝ :=
  if 0 < th i j then (if j.1 = 3 ∨ j.1 = 5 then |nv i j| * (Eos.lnSize (Real.sinh (th i j / T))
      + th i j / T * Real.cosh (th i j / T) / Real.sinh (th i j / T))
    else |nv i j| * (Eos.lnSize (Real.cosh (th i j / T))
      + th i j / T * Real.sinh (th i j / T) / Real.cosh (th i j / T))) else 0
noncomputable def hs2 (i : Fin 21) (T : ℝ) (j : Fin 7) : ℝ :=
  if 0 < th i j then (if j.1 = 3 ∨ j.1 = 5 then |nv i j| * (th i j / T / Real.sinh (th i j / T)) ^ 2
    else |nv i j| * (th i j / T / Real.cosh (th i j / T)) ^ 2) else 0

variable (hL : LibmAccurate) (hN : LnAccurate)
include hL hN

/-- One hyperbolic term adds its value to each sum. -/
theorem hyp_adds {s : Detail Float} (hn : s.n0i = (newP : Detail Float).n0i) {T : ℝ} (At : Ap s.t T T 0 0 10)
    (t1 : 50 ≤ T) (t2 : T ≤ 1000) (i : Fin 21) (j : Fin 7) (hj : 3 ≤ j.1) :
    Adds (fun h : Float × Float × Float => h.1) (a0Hyp s i j) (hv0 i T j) (hs0 i T j) 2 2340 200 112 ∧
    Adds (fun h : Float × Float × Float => h.2.1) (a0Hyp s i j) (hv1 i T j) (hs1 i T j) 2 2340 200 112 ∧
    Adds (fun h : Float × Float × Float => h.2.2) (a0Hyp s i j) (hv2 i T j) (hs2 i T j) 2 2340 200 112 := by
  have T0 : 0 < T := by linarith
  by_cases h0 : 0 < th i j
  · have hc := (th_pos i j hj).2 h0
    have r := (th_cases i j hj).resolve_left h0.ne'
    have A := ((apTH i j hj).div At T0).weak (k' := 3) (l' := 10) (h' := 12) (by norm_num) (by norm_num) (by norm_num)
    have x1 : 0.15 ≤ th i j / T := by
      rw [le_div_iff₀ T0]; norm_num; linarith [r.1]
    have x2 : th i j / T ≤ 52 := by
      rw [div_le_iff₀ T0]; linarith [r.2]
    have N := apN i j hj
    rw [← hn] at N
    unfold hv0 hv1 hv2 hs0 hs1 hs2
    simp only [h0, if_true]
    by_cases hj2 : j.1 = 3 ∨ j.1 = 5
    · obtain ⟨a, b, c⟩ := ap_sinh hL hN A x1 x2
      simp only [hj2, if_true]
      have hb : (j.1 == 3 || j.1 == 5) = true := by simpa using hj2
      refine ⟨Adds.one (t := aget2 s.n0i i j * _) (fun h => ?_) ((N.mul a).weak (by norm_num) (by norm_num) (by norm_num)) (by norm_num),
        Adds.one (t := aget2 s.n0i i j * _) (fun h => ?_) ((N.mul b).weak (by norm_num) (by norm_num) (by norm_num)) (by norm_num),
        Adds.one (t := aget2 s.n0i i j * _) (fun h => ?_) ((N.mul c).weak (by norm_num) (by norm_num) (by norm_num)) (by norm_num)⟩
      all_goals unfold a0Hyp; simp only [hc, hb, if_true]
    · obtain ⟨a, b, c⟩ := ap_cosh hL hN A x1 x2
      simp only [hj2, if_false]
      have hb : (j.1 == 3 || j.1 == 5) = false := by simpa using hj2
      refine ⟨Adds.one (t := -aget2 s.n0i i j * _) (fun h => ?_) ((N.neg.mul a).weak (by norm_num) (by norm_num) (by norm_num)) (by norm_num),
        Adds.one (t := -aget2 s.n0i i j * _) (fun h => ?_) ((N.neg.mul b).weak (by norm_num) (by norm_num) (by norm_num)) (by norm_num),
        Adds.one (t := aget2 s.n0i i j * _) (fun h => ?_) ((N.mul c).weak (by norm_num) (by norm_num) (by norm_num)) (by norm_num)⟩
      all_goals unfold a0Hyp; simp only [hc, hb, if_true, Bool.false_eq_true, if_false]
  · have hc : ¬ FOps.lt (f% 0.0 : Float) (tab2 TH0I i j) = true := fun h => h0 ((th_pos i j hj).1 h)
    unfold hv0 hv1 hv2 hs0 hs1 hs2
    simp only [h0, if_false]
    refine ⟨Adds.skip _ _ _ _ (fun h => ?_) rfl rfl, Adds.skip _ _ _ _ (fun h => ?_) rfl rfl, Adds.skip _ _ _ _ (fun h => ?_) rfl rfl⟩
    all_goals unfold a0Hyp; simp only [hc, if_false, Bool.false_eq_true]

omit hL hN in
/-- A sum of at most four terms, each below a bound. -/
theorem hyp_sum_le {m : Fin 7 → ℝ} {h : ℕ} (H : ∀ j, 3 ≤ j.1 → m j ≤ 2 ^ h) : ∑ j with 3 ≤ j.1, m j ≤ 2 ^ (h + 2) := by
  calc ∑ j with 3 ≤ j.1, m j ≤ ∑ _j : Fin 7 with 3 ≤ _j.1, (2 : ℝ) ^ h :=
        Finset.sum_le_sum fun j hj => H j (Finset.mem_filter.1 hj).2
    _ = 4 * 2 ^ h := by
      rw [Finset.sum_const, show (Finset.univ.filter fun j : Fin 7 => 3 ≤ j.1).card = 4 by decide]; simp
    _ = 2 ^ (h + 2) := by rw [pow_add]; ring

/-- The three sums. -/
theorem ap_hypsums {s : Detail Float} (hn : s.n0i = (newP : Detail Float).n0i) {T : ℝ} (At : Ap s.t T T 0 0 10)
    (t1 : 50 ≤ T) (t2 : T ≤ 1000) (i : Fin 21) :
    let r := loop 3 7 ((f% 0.0 : Float), (f% 0.0 : Float), (f% 0.0 : Float)) (a0Hyp s i)
    Ap r.1 (∑ j with 3 ≤ j.1, hv0 i T j) (∑ j with 3 ≤ j.1, hs0 i T j) 2348 200 112 ∧
    Ap r.2.1 (∑ j with 3 ≤ j.1, hv1 i T j) (∑ j with 3 ≤ j.1, hs1 i T j) 2348 200 112 ∧
    Ap r.2.2 (∑ j with 3 ≤ j.1, hv2 i T j) (∑ j with 3 ≤ j.1, hs2 i T j) 2348 200 112 := by
  have T0 : 0 < T := by linarith
  have H := fun j hj => hyp_adds hL hN hn At t1 t2 i j hj
  have b : ∀ j : Fin 7, 3 ≤ j.1 → hs0 i T j ≤ 2 ^ 110 ∧ hs1 i T j ≤ 2 ^ 110 ∧ hs2 i T j ≤ 2 ^ 110 := by
    intro j hj
    by_cases h0 : 0 < th i j
    · have r := (th_cases i j hj).resolve_left h0.ne'
      have A := ((apTH i j hj).div At T0).weak (k' := 3) (l' := 10) (h' := 12) (by norm_num) (by norm_num) (by norm_num)
      have x1 : 0.15 ≤ th i j / T := by
        rw [le_div_iff₀ T0]; norm_num; linarith [r.1]
      have x2 : th i j / T ≤ 52 := by
        rw [div_le_iff₀ T0]; linarith [r.2]
      have N := apN i j hj
      unfold hs0 hs1 hs2
      simp only [h0, if_true]
      have w : ∀ {a : Float} {α m : ℝ} {k l h : ℕ}, Ap a α m k l h → h ≤ 110 → m ≤ 2 ^ 110 := by
        intro a α m k l h A hh
        exact (Ap.le_pow A).trans (pow_le_pow_right₀ (by norm_num) hh)
      by_cases hj2 : j.1 = 3 ∨ j.1 = 5
      · obtain ⟨a, b, c⟩ := ap_sinh hL hN A x1 x2
        simp only [hj2, if_true]
        exact ⟨w (N.mul a) (by norm_num), w (N.mul b) (by norm_num), w (N.mul c) (by norm_num)⟩
      · obtain ⟨a, b, c⟩ := ap_cosh hL hN A x1 x2
        simp only [hj2, if_false]
        exact ⟨w (N.mul a) (by norm_num), w (N.mul b) (by norm_num), w (N.mul c) (by norm_num)⟩
    · unfold hs0 hs1 hs2
      simp only [h0, if_false]
      norm_num
  intro r
  have z := ap0 2340 200 112
  have e0 := (Adds.loop 3 fun j hj => (H j hj).1).2 (f% 0.0, f% 0.0, f% 0.0) 0 0 2340 le_rfl (by norm_num)
    (by rw [zero_add]; exact hyp_sum_le fun j hj => (b j hj).1) z
  have e1 := (Adds.loop 3 fun j hj => (H j hj).2.1).2 (f% 0.0, f% 0.0, f% 0.0) 0 0 2340 le_rfl (by norm_num)
    (by rw [zero_add]; exact hyp_sum_le fun j hj => (b j hj).2.1) z
  have e2 := (Adds.loop 3 fun j hj => (H j hj).2.2).2 (f% 0.0, f% 0.0, f% 0.0) 0 0 2340 le_rfl (by norm_num)
    (by rw [zero_add]; exact hyp_sum_le fun j hj => (b j hj).2.2) z
  simp only [zero_add] at e0 e1 e2
  exact ⟨e0, e1, e2⟩

end Aga8.Detail
