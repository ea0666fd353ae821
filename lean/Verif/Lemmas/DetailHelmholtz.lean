import Verif.Lemmas.DetailEos
import Verif.Lemmas.DetailIdeal
import Verif.Lemmas.GergSetup

/-! # The Helmholtz energy of DETAIL in terms of the AGA 8 equations -/

namespace Aga8.Detail

open FOps Tab

section any
variable {F : Type} [Add F] [Sub F] [Mul F] [Div F] [Neg F] [FOps F]

/-- The literal ideal-gas coefficients. -/
def n0iD : Vector (Vector Dec 7) 21 := n0iAsg.foldl (fun v a => put2P v a.1 a.2.1 a.2.2) (fill 21 (fill 7 ⟨0, 0⟩))

theorem foldl_put2P (l : List (Nat × Nat × Dec)) (v : Vector (Vector F 7) 21) (w : Vector (Vector Dec 7) 21)
    (h : ∀ i j, aget2 v i j = ofDec (aget2 w i j)) (i : Fin 21) (j : Fin 7) :
    aget2 (l.foldl (fun v a => put2P v a.1 a.2.1 (ofDec a.2.2)) v) i j
      = ofDec (aget2 (l.foldl (fun v a => put2P v a.1 a.2.1 a.2.2) w) i j) := by
  induction l generalizing v w with
  | nil => exact h i j
  | cons a l ih =>
    refine ih _ _ fun i' j' => ?_
    unfold put2P
    dsimp only
    by_cases hc : a.1 < 21 ∧ a.2.1 < 7
    · rw [dif_pos hc, dif_pos hc, aget2_aset2, aget2_aset2]
      split
      · rfl
      · exact h i' j'
    · rw [dif_neg hc, dif_neg hc]; exact h i' j'

theorem setN0i_get (s : Detail F) (hs : s.n0i = fill 21 (fill 7 (f% 0.0))) (i : Fin 21) (j : Fin 7) :
    aget2 (setN0i s).n0i i j = ofDec (aget2 n0iD i j) := by
  refine foldl_put2P _ _ _ (fun i j => ?_) i j
  rw [hs]
  unfold aget2
  rw [aget_fill, aget_fill, aget_fill, aget_fill]

/-- What the last loop of `setup` does to one row. -/
def n0iRow (r : Vector F 7) : Vector F 7 :=
  aset (aset r 2 (aget r 2 - f% 1.0)) 0 (aget (aset r 2 (aget r 2 - f% 1.0)) 0 - ln D0)

theorem setupIdeal_get (s : Detail F) (i : Fin 21) : aget (setupIdeal s).n0i i = n0iRow (aget s.n0i i) := by
  have h1 : (setupIdeal s).n0i = loop 0 21 s.n0i fun i v => aset v i (n0iRow (aget v i)) := by
    unfold setupIdeal
    refine loop_rel (fun (a : Detail F) b => a.n0i = b) rfl fun i a b _ h => ?_
    subst h
    apply arr_ext
    intro k
    unfold n0iRow aset2 aget2
    dsimp only
    by_cases hk : k = i
    · subst hk
      simp only [aget_aset, if_true]
    · have hk' : ¬ i = k := fun h => hk h.symm
      simp only [aget_aset, if_true, if_neg hk']
  rw [h1, aget_loop_aset (fun _ r => n0iRow r), if_pos (Nat.zero_le _)]

theorem newP_n0i (i : Fin 21) (j : Fin 7) : aget2 (newP : Detail F).n0i i j =
    if j = 0 then ofDec (aget2 n0iD i 0) - ln D0 else if j = 2 then ofDec (aget2 n0iD i 2) - f% 1.0
    else ofDec (aget2 n0iD i j) := by
  have h0 : (setupPow (default : Detail F)).n0i = fill 21 (fill 7 (f% 0.0)) := by
    unfold setupPow
    exact loop_inv (fun s : Detail F => s.n0i = fill 21 (fill 7 (f% 0.0))) rfl fun i s _ h => h
  have h1 := setN0i_get _ h0 i
  have hp : PowOK (setN0i (setupPow (default : Detail F))) := setN0i_powOK _ (setupPow_powOK _)
  unfold newP setupP
  generalize setN0i (setupPow (default : Detail F)) = s1 at *
  have h2 : (loop 0 21 s1 fun i s => loop 0 21 s fun j s => setupIJ i j s).n0i = s1.n0i := by
    refine (loop_inv (fun s : Detail F => PowOK s ∧ s.n0i = s1.n0i) ⟨hp, rfl⟩ fun i s _ h => ?_).2
    refine loop_inv (fun s : Detail F => PowOK s ∧ s.n0i = s1.n0i) h fun j s _ h => ?_
    obtain ⟨a, b, -⟩ := setupIJ_get i j s h.1 0 0
    exact ⟨a, b.trans h.2⟩
  show aget (aget _ i) j = _
  rw [setupIdeal_get, h2]
  unfold n0iRow
  have h1' : ∀ j, aget (aget s1.n0i i) j = ofDec (aget2 n0iD i j) := h1
  simp only [aget_aset, h1']
  match j with
  | 0 => rfl
  | 1 => rfl
  | 2 => rfl
  | 3 => rfl
  | 4 => rfl
  | 5 => rfl
  | 6 => rfl

end any

/-- The rational value of a table entry. -/
def decQ (d : Dec) : ℚ := (d.m : ℚ) / 10 ^ d.e

theorem ofDec_decQ (d : Dec) : (FOps.ofDec d : ℝ) = (decQ d : ℝ) := by
  rw [r_ofDec, decQ]; push_cast; rfl

theorem ideal_table : ∀ i : Fin 21,
    (GergEos.ideal.getD i.1 Inhabited.default).n1 = decQ (aget2 n0iD i 0) ∧
    (GergEos.ideal.getD i.1 Inhabited.default).n2 = decQ (aget2 n0iD i 1) ∧
    (GergEos.ideal.getD i.1 Inhabited.default).n3 = decQ (aget2 n0iD i 2) ∧
    (GergEos.ideal.getD i.1 Inhabited.default).n4 = decQ (aget2 n0iD i 3) ∧
    (GergEos.ideal.getD i.1 Inhabited.default).th4 = decQ (aget2 TH0I i 3) ∧
    (GergEos.ideal.getD i.1 Inhabited.default).n5 = decQ (aget2 n0iD i 4) ∧
    (GergEos.ideal.getD i.1 Inhabited.default).th5 = decQ (aget2 TH0I i 4) ∧
    (GergEos.ideal.getD i.1 Inhabited.default).n6 = decQ (aget2 n0iD i 5) ∧
    (GergEos.ideal.getD i.1 Inhabited.default).th6 = decQ (aget2 TH0I i 5) ∧
    (GergEos.ideal.getD i.1 Inhabited.default).n7 = decQ (aget2 n0iD i 6) ∧
    (GergEos.ideal.getD i.1 Inhabited.default).th7 = decQ (aget2 TH0I i 6) := by decide +kernel

theorem th_table : ∀ (i : Fin 21) (j : Fin 7), 3 ≤ j.1 →
    0 < decQ (aget2 TH0I i j) ∨ decQ (aget2 n0iD i j) = 0 := by decide +kernel

theorem tab2_decQ {n m : Nat} (v : Vector (Vector Dec m) n) (i : Fin n) (j : Fin m) :
    (tab2 v i j : ℝ) = (decQ (aget2 v i j) : ℝ) := ofDec_decQ _

theorem newP_n0i_real (i : Fin 21) (j : Fin 7) (hj : 3 ≤ j.1) :
    aget2 (params (newP : Detail ℝ)).n0i i j = (decQ (aget2 n0iD i j) : ℝ) := by
  show aget2 (newP : Detail ℝ).n0i i j = _
  rw [newP_n0i, if_neg (by intro h; subst h; simp at hj), if_neg (by intro h; subst h; simp at hj), ofDec_decQ]

theorem I0_eq (x : Vector ℝ 21) {D : ℝ} (hD : 1e-15 < D) (T : ℝ) :
    I0 (params (newP : Detail ℝ)) x D T = Eos.alpha0 (posPart x) D T := by
  unfold I0 Eos.alpha0
  refine Finset.sum_congr rfl fun i _ => ?_
  unfold posPart
  by_cases hx : 0 < aget x i
  swap
  · rw [if_neg hx, max_eq_right (not_lt.1 hx), zero_mul]
  rw [if_pos hx, max_eq_left hx.le]
  congr 1
  have hH : H0 (params (newP : Detail ℝ)) i T =
      (decQ (aget2 n0iD i 3) : ℝ) * Real.log (Real.sinh ((decQ (aget2 TH0I i 3) : ℝ) / T))
      - (decQ (aget2 n0iD i 4) : ℝ) * Real.log (Real.cosh ((decQ (aget2 TH0I i 4) : ℝ) / T))
      + (decQ (aget2 n0iD i 5) : ℝ) * Real.log (Real.sinh ((decQ (aget2 TH0I i 5) : ℝ) / T))
      - (decQ (aget2 n0iD i 6) : ℝ) * Real.log (Real.cosh ((decQ (aget2 TH0I i 6) : ℝ) / T)) := by
    unfold H0
    have key : ∀ (j : Fin 7) (hj : 3 ≤ j.1) (s : ℝ), (if 0 < (tab2 TH0I i j : ℝ) then
        (decQ (aget2 n0iD i j) : ℝ) * s else 0) = (decQ (aget2 n0iD i j) : ℝ) * s := by
      intro j hj s
      rcases th_table i j hj with h | h
      · rw [if_pos]
        rw [tab2_decQ]
        exact_mod_cast h
      · rw [h]; simp
    have hf : (Finset.univ.filter fun j : Fin 7 => 3 ≤ j.1) = {3, 4, 5, 6} := by decide
    rw [hf, Finset.sum_insert (by decide), Finset.sum_insert (by decide), Finset.sum_insert (by decide),
      Finset.sum_singleton]
    have n3 := newP_n0i_real i 3 (by decide)
    have n4 := newP_n0i_real i 4 (by decide)
    have n5 := newP_n0i_real i 5 (by decide)
    have n6 := newP_n0i_real i 6 (by decide)
    have k3 := key 3 (by decide) (Real.log (Real.sinh (tab2 TH0I i 3 / T)))
    have k4 := key 4 (by decide) (-Real.log (Real.cosh (tab2 TH0I i 4 / T)))
    have k5 := key 5 (by decide) (Real.log (Real.sinh (tab2 TH0I i 5 / T)))
    have k6 := key 6 (by decide) (-Real.log (Real.cosh (tab2 TH0I i 6 / T)))
    rw [if_pos (show (3 : Fin 7).1 = 3 ∨ (3 : Fin 7).1 = 5 by decide),
      if_neg (show ¬ ((4 : Fin 7).1 = 3 ∨ (4 : Fin 7).1 = 5) by decide),
      if_pos (show (5 : Fin 7).1 = 3 ∨ (5 : Fin 7).1 = 5 by decide),
      if_neg (show ¬ ((6 : Fin 7).1 = 3 ∨ (6 : Fin 7).1 = 5) by decide), n3, n4, n5, n6, k3, k5]
    have m5 : ∀ a b : ℝ, -a * b = a * -b := by intros; ring
    rw [m5 _ (Real.log (Real.cosh (tab2 TH0I i 4 / T))), m5 _ (Real.log (Real.cosh (tab2 TH0I i 6 / T))), k4, k6]
    simp only [tab2_decQ]
    ring
  obtain ⟨t1, t2, t3, t4, t5, t6, t7, t8, t9, t10, t11⟩ := ideal_table i
  unfold Eos.alpha0.ideal
  have hD0 : (0 : ℝ) < D := lt_trans (by norm_num) hD
  have n0 : aget2 (params (newP : Detail ℝ)).n0i i 0 = _ := newP_n0i i 0
  have n1 : aget2 (params (newP : Detail ℝ)).n0i i 1 = _ := newP_n0i i 1
  have n2 : aget2 (params (newP : Detail ℝ)).n0i i 2 = _ := newP_n0i i 2
  rw [if_pos rfl] at n0
  rw [if_neg (by decide), if_neg (by decide)] at n1
  rw [if_neg (by decide), if_pos rfl] at n2
  have hlit : (f% 298.15 : ℝ) = 298.15 := by rw [r_ofDec]; norm_num
  have hlit2 : (f% 101.325 : ℝ) = 101.325 := by rw [r_ofDec]; norm_num
  have hd0 : (D0 : ℝ) = 101.325 / (8.31451 * 298.15) := by
    unfold D0; rw [hlit, hlit2, R_real]; norm_num
  rw [hH, n0, n1, n2, t1, t2, t3, t4, t5, t6, t7, t8, t9, t10, t11, hd0, l1, r_ln, ofDec_decQ, ofDec_decQ, ofDec_decQ]
  unfold logD
  rw [if_pos hD, Real.log_div hD0.ne' (by norm_num)]
  ring

/-- The residual Helmholtz energy of a fresh object. -/
theorem alphaR_fresh {q : Pub ℝ} (hx : XFar q.x (fill 21 (f% 0.0))) (ht : 1e-7 < q.t) (D : ℝ) :
    A0 (view (freshOf q)) D = Eos.alphaR (posPart q.x) D q.t := by
  have hv : view (freshOf q) = viewT q q.t := view_atT hx ht
  rw [hv]
  have w1 := k3_viewT q q.t
  have w2 : ∀ n : Fin 58, 12 ≤ n.1 → aget (viewT q q.t).csn n = Eos.Cstar (posPart q.x) n :=
    fun n hn => csn_viewT q q.t hn
  have w3 : ∀ n : Fin 18, aget (viewT q q.t).bs n = _ := bs_fresh q
  have w4 := tun_viewT q q.t
  generalize viewT q q.t = v at *
  unfold A0 Eos.alphaR
  dsimp only
  rw [← w1, Finset.sum_add_distrib]
  have t1 : ∑ n, f0 v n D = ∑ n : Fin 58 with 12 ≤ n.1, Eos.Cstar (posPart q.x) n * q.t ^ (-Eos.c UN n)
      * (v.k3 * D) ^ BN[n.1] * Real.exp (-Eos.cn n * (v.k3 * D) ^ KN[n.1]) := by
    rw [Finset.sum_filter]
    refine Finset.sum_congr rfl fun n _ => ?_
    unfold f0
    by_cases hn : 12 ≤ n.1
    · rw [if_pos hn, if_pos hn, w2 n hn, w4]
      unfold expK Eos.cn aget
      by_cases hk : KN[n.1] = 0
      · simp [hk]
      · simp only [hk, if_false]
        simp only [one_mul, neg_mul]
    · rw [if_neg hn, if_neg hn]
  have t2 : ∑ n, linB v n * D = D * Eos.B (posPart q.x) q.t
      - v.k3 * D * ∑ n : Fin 58 with 12 ≤ n.1 ∧ n.1 < 18, Eos.Cstar (posPart q.x) n * q.t ^ (-Eos.c UN n) := by
    unfold Eos.B
    rw [Finset.sum_filter, Finset.sum_filter, Finset.mul_sum, Finset.mul_sum, ← Finset.sum_sub_distrib]
    refine Finset.sum_congr rfl fun n _ => ?_
    unfold linB
    by_cases hn : n.1 ≤ 17
    · have h18 : n.1 < 18 := by omega
      rw [dif_pos hn, if_pos h18, w3, w4]
      by_cases h12 : 12 ≤ n.1
      · rw [if_pos h12, if_pos ⟨h12, h18⟩, w2 n h12]
        ring
      · rw [if_neg h12, if_neg (fun h => h12 h.1)]
        ring
    · rw [dif_neg hn, if_neg (by omega), if_neg (by omega)]
      ring
  rw [t1, t2]
  ring

end Aga8.Detail
