import Mathlib.Analysis.SpecialFunctions.Log.NegMulLog
import Mathlib.Analysis.SpecialFunctions.Pow.Continuity
import Mathlib.Topology.Algebra.Monoid
import Verif.Lemmas.DetailHelmholtz

/-! # Continuity of the DETAIL equation of state -/

namespace Aga8.Detail

open Tab Finset Real Filter Topology

/-! ## The mixture parameters are continuous functions of the composition -/

theorem EI_pos (i : Fin 21) : 0 < Eos.c EI i := by
  have h : ∀ i : Fin 21, 0 < (aget EI i).m := by decide +kernel
  unfold Eos.c
  have h' := h i
  unfold aget at h'
  have : (0 : ℝ) < (EI[i.1].m : ℝ) := by exact_mod_cast h'
  positivity

theorem star_UIJ_nonneg (i j : Fin 21) : 0 ≤ Eos.star UIJ i j := by
  have h : ∀ i j : Fin 21, 0 ≤ (aget2 UIJ i j).m := by decide +kernel
  have k : ∀ i j : Fin 21, 0 ≤ Eos.c UIJ[i.1] j := by
    intro i j
    unfold Eos.c
    have h' := h i j
    unfold aget2 aget at h'
    have : (0 : ℝ) ≤ (UIJ[i.1][j.1].m : ℝ) := by exact_mod_cast h'
    positivity
  unfold Eos.star
  split <;> exact k _ _

theorem sq_sum_pairs (a : Fin 21 → ℝ) : (∑ i, a i) ^ 2 = ∑ i, a i ^ 2 + 2 * ∑ i, ∑ j with i < j, a i * a j := by
  have h1 : ∀ i, ∑ j, a i * a j = a i ^ 2 + (∑ j with i < j, a i * a j + ∑ j with j < i, a i * a j) := by
    intro i
    rw [Finset.sum_filter, Finset.sum_filter, ← Finset.sum_add_distrib]
    have : a i ^ 2 = ∑ j, if j = i then a i * a j else 0 := by simp [sq]
    rw [this, ← Finset.sum_add_distrib]
    refine Finset.sum_congr rfl fun j _ => ?_
    rcases lt_trichotomy i j with h | h | h
    · simp [h, h.not_gt, h.ne']
    · subst h; simp
    · simp [h, h.not_gt, h.ne]
  have h2 : ∑ i, ∑ j with j < i, a i * a j = ∑ i, ∑ j with i < j, a i * a j := by
    simp only [Finset.sum_filter]
    rw [Finset.sum_comm]
    exact Finset.sum_congr rfl fun i _ => Finset.sum_congr rfl fun j _ => by rw [mul_comm]
  rw [sq, Finset.sum_mul_sum]
  simp only [h1, Finset.sum_add_distrib, h2]
  ring

theorem U5_pos (x : Fin 21 → ℝ) (h0 : ∀ i, 0 ≤ x i) (h1 : ∃ i, 0 < x i) : 0 < Eos.U5 x := by
  have hp : ∀ i, 0 < Eos.c EI i ^ (5 / 2 : ℝ) := fun i => rpow_pos_of_pos (EI_pos i) _
  have key : ∑ i, (x i * Eos.c EI i ^ (5 / 2 : ℝ)) ^ 2 ≤ Eos.U5 x := by
    unfold Eos.U5
    rw [sq_sum_pairs]
    have : 0 ≤ ∑ i, ∑ j with i < j, x i * Eos.c EI i ^ (5 / 2 : ℝ) * (x j * Eos.c EI j ^ (5 / 2 : ℝ))
        + ∑ i, ∑ j with i < j, x i * x j * (Eos.star UIJ i j ^ 5 - 1) * (Eos.c EI i * Eos.c EI j) ^ (5 / 2 : ℝ) := by
      rw [← Finset.sum_add_distrib]
      refine Finset.sum_nonneg fun i _ => ?_
      rw [← Finset.sum_add_distrib]
      refine Finset.sum_nonneg fun j _ => ?_
      rw [mul_rpow (EI_nonneg i) (EI_nonneg j)]
      have := mul_nonneg (mul_nonneg (mul_nonneg (h0 i) (h0 j)) (pow_nonneg (star_UIJ_nonneg i j) 5))
        (mul_nonneg (hp i).le (hp j).le)
      linear_combination this
    linarith
  refine lt_of_lt_of_le ?_ key
  obtain ⟨i, hi⟩ := h1
  refine Finset.sum_pos' (fun i _ => sq_nonneg _) ⟨i, Finset.mem_univ _, ?_⟩
  exact pow_pos (mul_pos hi (hp i)) 2

theorem continuous_K5 : Continuous Eos.K5 := by unfold Eos.K5; fun_prop
theorem continuous_U5 : Continuous Eos.U5 := by unfold Eos.U5; fun_prop
theorem continuous_G : Continuous Eos.G := by unfold Eos.G; fun_prop
theorem continuous_Q : Continuous Eos.Q := by unfold Eos.Q; fun_prop
theorem continuous_Fhigh : Continuous Eos.Fhigh := by unfold Eos.Fhigh; fun_prop

theorem continuous_Kcubed : Continuous Eos.Kcubed := by
  unfold Eos.Kcubed
  exact continuous_K5.rpow_const fun x => Or.inr (by norm_num)

theorem continuousAt_Cstar (x : Fin 21 → ℝ) (h0 : ∀ i, 0 ≤ x i) (h1 : ∃ i, 0 < x i) (n : Fin 58) :
    ContinuousAt (fun x => Eos.Cstar x n) x := by
  have hU : ContinuousAt Eos.U x := by
    unfold Eos.U
    exact (continuous_U5.rpow_const fun x => Or.inr (by norm_num)).continuousAt
  have hUp : 0 < Eos.U x := by
    unfold Eos.U; exact rpow_pos_of_pos (U5_pos x h0 h1) _
  have hUr : ContinuousAt (fun x => Eos.U x ^ Eos.c UN n) x := hU.rpow_const (Or.inl hUp.ne')
  have hG := continuous_G
  have hQ := continuous_Q
  have hF := continuous_Fhigh
  have : Continuous fun x => Eos.c AN n * Eos.flag (Eos.G x) GN[n.1] * Eos.flag (Eos.Q x ^ 2) QN[n.1]
      * Eos.flag (Eos.Fhigh x) FN[n.1] := by
    unfold Eos.flag; fun_prop
  unfold Eos.Cstar
  exact this.continuousAt.mul hUr

/-! ## Limits of the residual part -/

variable {ι : Type*} {l : Filter ι}

/-- What the residual part reads of an evaluation converges. -/
structure ViewTends (l : Filter ι) (v : ι → View ℝ) (v0 : View ℝ) : Prop where
  k3 : Tendsto (fun k => (v k).k3) l (𝓝 v0.k3)
  bs : ∀ n, Tendsto (fun k => aget (v k).bs n) l (𝓝 (aget v0.bs n))
  csn : ∀ n : Fin 58, 12 ≤ n.1 → Tendsto (fun k => aget (v k).csn n) l (𝓝 (aget v0.csn n))
  tun : ∀ n, Tendsto (fun k => aget (v k).tun n) l (𝓝 (aget v0.tun n))

theorem continuous_expK (k : Nat) : Continuous (expK k) := by
  unfold expK; split <;> fun_prop

section
variable {v : ι → View ℝ} {v0 : View ℝ} {d : ι → ℝ} {d0 : ℝ}

theorem ViewTends.linB (h : ViewTends l v v0) (n : Fin 58) :
    Tendsto (fun k => linB (v k) n) l (𝓝 (Detail.linB v0 n)) := by
  unfold Detail.linB
  split
  · rename_i h17
    by_cases h12 : 12 ≤ n.1
    · simp only [h12, if_true]
      exact ((h.bs _).sub ((h.csn n h12).mul h.k3)).mul (h.tun n)
    · simp only [h12, if_false]
      exact ((h.bs _).sub tendsto_const_nhds).mul (h.tun n)
  · exact tendsto_const_nhds

theorem ViewTends.f0 (h : ViewTends l v v0) (hd : Tendsto d l (𝓝 d0)) (n : Fin 58) :
    Tendsto (fun k => f0 (v k) n (d k)) l (𝓝 (Detail.f0 v0 n d0)) := by
  unfold Detail.f0
  split
  · rename_i h12
    exact (((h.csn n h12).mul (h.tun n)).mul ((h.k3.mul hd).pow _)).mul
      (((continuous_expK _).tendsto _).comp (h.k3.mul hd))
  · exact tendsto_const_nhds

theorem ViewTends.c1 (h : ViewTends l v v0) (hd : Tendsto d l (𝓝 d0)) (n : Fin 58) :
    Tendsto (fun k => c1 (v k) n (d k)) l (𝓝 (Detail.c1 v0 n d0)) := by
  unfold Detail.c1
  exact tendsto_const_nhds.sub (tendsto_const_nhds.mul ((h.k3.mul hd).pow _))

theorem ViewTends.ck (h : ViewTends l v v0) (hd : Tendsto d l (𝓝 d0)) (n : Fin 58) :
    Tendsto (fun k => ck (v k) n (d k)) l (𝓝 (Detail.ck v0 n d0)) := by
  unfold Detail.ck
  exact tendsto_const_nhds.mul ((h.k3.mul hd).pow _)

theorem ViewTends.c2 (h : ViewTends l v v0) (hd : Tendsto d l (𝓝 d0)) (n : Fin 58) :
    Tendsto (fun k => c2 (v k) n (d k)) l (𝓝 (Detail.c2 v0 n d0)) := by
  unfold Detail.c2
  exact ((h.c1 hd n).mul ((h.c1 hd n).sub tendsto_const_nhds)).sub (h.ck hd n)

theorem ViewTends.c3 (h : ViewTends l v v0) (hd : Tendsto d l (𝓝 d0)) (n : Fin 58) :
    Tendsto (fun k => c3 (v k) n (d k)) l (𝓝 (Detail.c3 v0 n d0)) := by
  unfold Detail.c3
  exact (((h.c1 hd n).sub tendsto_const_nhds).mul (h.c2 hd n)).add
    ((h.ck hd n).mul (tendsto_const_nhds.sub (tendsto_const_nhds.mul (h.c1 hd n))))

theorem ViewTends.t0 (h : ViewTends l v v0) (hd : Tendsto d l (𝓝 d0)) (n : Fin 58) :
    Tendsto (fun k => Detail.f0 (v k) n (d k) + Detail.linB (v k) n * d k) l
      (𝓝 (Detail.f0 v0 n d0 + Detail.linB v0 n * d0)) := (h.f0 hd n).add ((h.linB n).mul hd)

theorem ViewTends.t1 (h : ViewTends l v v0) (hd : Tendsto d l (𝓝 d0)) (n : Fin 58) :
    Tendsto (fun k => Detail.f0 (v k) n (d k) * Detail.c1 (v k) n (d k) + Detail.linB (v k) n * d k) l
      (𝓝 (Detail.f0 v0 n d0 * Detail.c1 v0 n d0 + Detail.linB v0 n * d0)) :=
  ((h.f0 hd n).mul (h.c1 hd n)).add ((h.linB n).mul hd)

theorem ViewTends.A0 (h : ViewTends l v v0) (hd : Tendsto d l (𝓝 d0)) :
    Tendsto (fun k => A0 (v k) (d k)) l (𝓝 (Detail.A0 v0 d0)) :=
  tendsto_finsetSum _ fun n _ => h.t0 hd n

theorem ViewTends.A1 (h : ViewTends l v v0) (hd : Tendsto d l (𝓝 d0)) :
    Tendsto (fun k => A1 (v k) (d k)) l (𝓝 (Detail.A1 v0 d0)) :=
  tendsto_finsetSum _ fun n _ => h.t1 hd n

theorem ViewTends.A2 (h : ViewTends l v v0) (hd : Tendsto d l (𝓝 d0)) :
    Tendsto (fun k => A2 (v k) (d k)) l (𝓝 (Detail.A2 v0 d0)) :=
  tendsto_finsetSum _ fun n _ => (h.f0 hd n).mul (h.c2 hd n)

theorem ViewTends.A3 (h : ViewTends l v v0) (hd : Tendsto d l (𝓝 d0)) :
    Tendsto (fun k => A3 (v k) (d k)) l (𝓝 (Detail.A3 v0 d0)) :=
  tendsto_finsetSum _ fun n _ => (h.f0 hd n).mul (h.c3 hd n)

end

/-! ## Limits of the ideal-gas part -/

theorem continuousAt_H0 (m : Params ℝ) (i : Fin 21) {T : ℝ} (hT : 0 < T) : ContinuousAt (H0 m i) T := by
  refine tendsto_finsetSum _ fun j _ => ?_
  by_cases h : 0 < (tab2 TH0I i j : ℝ)
  · simp only [h, if_true]
    split
    · exact (hasDerivAt_logsinh h hT).continuousAt.const_mul _
    · exact (hasDerivAt_logcosh hT).continuousAt.const_mul _
  · simp only [h, if_false]; exact tendsto_const_nhds

theorem continuousAt_H1 (m : Params ℝ) (i : Fin 21) {T : ℝ} (hT : 0 < T) : ContinuousAt (H1 m i) T := by
  refine tendsto_finsetSum _ fun j _ => ?_
  by_cases h : 0 < (tab2 TH0I i j : ℝ)
  · simp only [h, if_true]
    split
    · exact ((hasDerivAt_logsinh h hT).continuousAt.sub (hasDerivAt_xcoth h hT).continuousAt).const_mul _
    · exact ((hasDerivAt_logcosh hT).continuousAt.sub (hasDerivAt_xtanh hT).continuousAt).const_mul _
  · simp only [h, if_false]; exact tendsto_const_nhds

theorem continuousAt_H2 (m : Params ℝ) (i : Fin 21) {T : ℝ} (hT : 0 < T) : ContinuousAt (H2 m i) T := by
  refine tendsto_finsetSum _ fun j _ => ?_
  by_cases h : 0 < (tab2 TH0I i j : ℝ)
  · simp only [h, if_true]
    have ht := (hasDerivAt_theta (tab2 TH0I i j : ℝ) hT.ne').continuousAt
    split
    · exact ((ht.div (continuous_sinh.continuousAt.comp ht) (sinh_pos_iff.2 (div_pos h hT)).ne').pow 2).const_mul _
    · exact ((ht.div (continuous_cosh.continuousAt.comp ht) (cosh_pos _).ne').pow 2).const_mul _
  · simp only [h, if_false]; exact tendsto_const_nhds

theorem logD_max (d : ℝ) : logD d = log (max d 1e-15) := by
  unfold logD
  split
  · rename_i h; rw [max_eq_left h.le]
  · rename_i h; rw [max_eq_right (not_lt.1 h)]

section
variable {x : ι → Vector ℝ 21} {x0 : Vector ℝ 21} {d : ι → ℝ} {d0 : ℝ} {t : ι → ℝ} {T : ℝ}

theorem tendsto_logD (hd : Tendsto d l (𝓝 d0)) : Tendsto (fun k => logD (d k)) l (𝓝 (logD d0)) := by
  simp only [logD_max]
  refine (continuousAt_log ?_).tendsto.comp (hd.max tendsto_const_nhds)
  exact (lt_of_lt_of_le (by norm_num) (le_max_right d0 1e-15)).ne'

theorem pos_term (x a : ℝ) : (if 0 < x then x * (a + log x) else 0) = max x 0 * a + max x 0 * log (max x 0) := by
  split
  · rename_i h; rw [max_eq_left h.le]; ring
  · rename_i h; rw [max_eq_right (not_lt.1 h)]; ring

theorem tendsto_pos_term {y a : ι → ℝ} {y0 a0 : ℝ} (hy : Tendsto y l (𝓝 y0)) (ha : Tendsto a l (𝓝 a0)) :
    Tendsto (fun k => if 0 < y k then y k * (a k + log (y k)) else 0) l
      (𝓝 (if 0 < y0 then y0 * (a0 + log y0) else 0)) := by
  simp only [pos_term]
  have hm := hy.max (tendsto_const_nhds (x := (0 : ℝ)))
  exact (hm.mul ha).add ((continuous_mul_log.tendsto _).comp hm)

theorem tendsto_I0 (m : Params ℝ) (hx : ∀ i, Tendsto (fun k => aget (x k) i) l (𝓝 (aget x0 i)))
    (hd : Tendsto d l (𝓝 d0)) (ht : Tendsto t l (𝓝 T)) (hT : 0 < T) :
    Tendsto (fun k => I0 m (x k) (d k) (t k)) l (𝓝 (I0 m x0 d0 T)) := by
  refine tendsto_finsetSum _ fun i _ => ?_
  have ha := ((((tendsto_logD hd).add (tendsto_const_nhds (x := aget2 m.n0i i 0))).add
    ((tendsto_const_nhds (x := aget2 m.n0i i 1)).div ht hT.ne')).sub
    ((tendsto_const_nhds (x := aget2 m.n0i i 2)).mul (ht.log hT.ne'))).add
    ((continuousAt_H0 m i hT).tendsto.comp ht)
  have := tendsto_pos_term (hx i) ha
  simp only [Function.comp_apply, Pi.div_apply] at this
  refine (this.congr fun k => ?_).trans (le_of_eq ?_)
  · split
    · ring
    · rfl
  · congr 1
    split
    · ring
    · rfl

theorem tendsto_I1 (m : Params ℝ) (hx : ∀ i, Tendsto (fun k => aget (x k) i) l (𝓝 (aget x0 i)))
    (hd : Tendsto d l (𝓝 d0)) (ht : Tendsto t l (𝓝 T)) (hT : 0 < T) :
    Tendsto (fun k => I1 m (x k) (d k) (t k)) l (𝓝 (I1 m x0 d0 T)) := by
  refine tendsto_finsetSum _ fun i _ => ?_
  have ha := (((tendsto_logD hd).add (tendsto_const_nhds (x := aget2 m.n0i i 0))).sub
    ((tendsto_const_nhds (x := aget2 m.n0i i 2)).mul ((tendsto_const_nhds (x := (1 : ℝ))).add (ht.log hT.ne')))).add
    ((continuousAt_H1 m i hT).tendsto.comp ht)
  have := tendsto_pos_term (hx i) ha
  simp only [Function.comp_apply] at this
  refine (this.congr fun k => ?_).trans (le_of_eq ?_)
  · split
    · ring
    · rfl
  · congr 1
    split
    · ring
    · rfl

theorem tendsto_I2 (m : Params ℝ) (hx : ∀ i, Tendsto (fun k => aget (x k) i) l (𝓝 (aget x0 i)))
    (ht : Tendsto t l (𝓝 T)) (hT : 0 < T) :
    Tendsto (fun k => I2 m (x k) (t k)) l (𝓝 (I2 m x0 T)) := by
  refine tendsto_finsetSum _ fun i _ => ?_
  have e : ∀ (y a : ℝ), (if 0 < y then -y * a else 0) = -max y 0 * a := by
    intro y a
    split
    · rename_i h; rw [max_eq_left h.le]
    · rename_i h; rw [max_eq_right (not_lt.1 h)]; ring
  simp only [e]
  exact ((hx i).max tendsto_const_nhds).neg.mul
    (tendsto_const_nhds.add ((continuousAt_H2 m i hT).tendsto.comp ht))

end

/-! ## Limits of the results on new objects -/

section
variable {q : ι → Pub ℝ} {q0 : Pub ℝ}

theorem XFar_of_big {x : Vector ℝ 21} (h : ∃ i, 1e-7 < aget x i) : XFar x (fill 21 (f% 0.0)) := by
  obtain ⟨i, hi⟩ := h
  refine ⟨i, ?_⟩
  rw [r_lt, aget_fill, l0, sub_zero, lem7, r_abs]
  exact lt_of_lt_of_le hi (le_abs_self _)

theorem tendsto_viewT (ht : Tendsto (fun k => (q k).t) l (𝓝 q0.t))
    (hx : ∀ i, Tendsto (fun k => aget (q k).x i) l (𝓝 (aget q0.x i))) (hT : 0 < q0.t) (hX : ∃ i, 0 < aget q0.x i) :
    ViewTends l (fun k => viewT (q k) (q k).t) (viewT q0 q0.t) := by
  have hp : Tendsto (fun k => posPart (q k).x) l (𝓝 (posPart q0.x)) :=
    tendsto_pi_nhds.2 fun i => (hx i).max tendsto_const_nhds
  have hp0 : ∀ i, 0 ≤ posPart q0.x i := fun i => le_max_right _ _
  have hp1 : ∃ i, 0 < posPart q0.x i := by
    obtain ⟨i, hi⟩ := hX
    exact ⟨i, lt_of_lt_of_le hi (le_max_left _ _)⟩
  refine ⟨?_, fun n => ?_, fun n hn => ?_, fun n => ?_⟩
  · simp only [k3_viewT]
    exact (continuous_Kcubed.tendsto _).comp hp
  · have e : ∀ q : Pub ℝ, aget (viewT q q.t).bs n = _ := fun q => bs_fresh q n
    simp only [e]
    have hc : Continuous fun y : Fin 21 → ℝ => Eos.c AN ⟨n.1, by omega⟩ * ∑ i, ∑ j, y i * y j * Eos.Bstar ⟨n.1, by omega⟩ i j
      * Eos.Eij i j ^ Eos.c UN ⟨n.1, by omega⟩ * (Eos.c KI i * Eos.c KI j) ^ (3 / 2 : ℝ) := by fun_prop
    exact (hc.tendsto _).comp hp
  · simp only [csn_viewT _ _ hn]
    exact (continuousAt_Cstar _ hp0 hp1 n).tendsto.comp hp
  · simp only [tun_viewT]
    exact ht.rpow_const (Or.inl hT.ne')

/-- The entries of `ar` and `a0` that the results are made of converge. -/
theorem tendsto_entries (ht : Tendsto (fun k => (q k).t) l (𝓝 q0.t)) (hd : Tendsto (fun k => (q k).d) l (𝓝 q0.d))
    (hx : ∀ i, Tendsto (fun k => aget (q k).x i) l (𝓝 (aget q0.x i))) (hT : 1e-7 < q0.t) (hX : ∃ i, 1e-7 < aget q0.x i) :
    let s := fun k => propsMid (freshOf (q k))
    let s0 := propsMid (freshOf q0)
    Tendsto (fun k => aget2 (s k).ar 0 0) l (𝓝 (aget2 s0.ar 0 0)) ∧
    Tendsto (fun k => aget2 (s k).ar 0 1) l (𝓝 (aget2 s0.ar 0 1)) ∧
    Tendsto (fun k => aget2 (s k).ar 0 2) l (𝓝 (aget2 s0.ar 0 2)) ∧
    Tendsto (fun k => aget2 (s k).ar 0 3) l (𝓝 (aget2 s0.ar 0 3)) ∧
    Tendsto (fun k => aget2 (s k).ar 1 0) l (𝓝 (aget2 s0.ar 1 0)) ∧
    Tendsto (fun k => aget2 (s k).ar 1 1) l (𝓝 (aget2 s0.ar 1 1)) ∧
    Tendsto (fun k => aget2 (s k).ar 2 0) l (𝓝 (aget2 s0.ar 2 0)) ∧
    Tendsto (fun k => aget (s k).a0 0) l (𝓝 (aget s0.a0 0)) ∧
    Tendsto (fun k => aget (s k).a0 1) l (𝓝 (aget s0.a0 1)) ∧
    Tendsto (fun k => aget (s k).a0 2) l (𝓝 (aget s0.a0 2)) := by
  dsimp only
  have hT0 : 0 < q0.t := lt_trans (by norm_num) hT
  have hv := tendsto_viewT ht hx hT0 (by obtain ⟨i, hi⟩ := hX; exact ⟨i, lt_trans (by norm_num) hi⟩)
  have near : ∀ᶠ k in l, view (freshOf (q k)) = viewT (q k) (q k).t := by
    obtain ⟨i, hi⟩ := hX
    filter_upwards [ht.eventually (lt_mem_nhds hT), (hx i).eventually (lt_mem_nhds hi)] with k h1 h2
    exact view_freshT (XFar_of_big ⟨i, h2⟩) h1
  have e0 : view (freshOf q0) = viewT q0 q0.t := view_freshT (XFar_of_big hX) hT
  have et : ∀ q : Pub ℝ, (freshOf q).t = q.t := fun _ => rfl
  have ed : ∀ q : Pub ℝ, (freshOf q).d = q.d := fun _ => rfl
  have ex : ∀ q : Pub ℝ, (freshOf q).x = q.x := fun _ => rfl
  have em : ∀ q : Pub ℝ, params (freshOf q) = params (newP : Detail ℝ) := fun q => params_freshT q q.t
  simp only [propsMid_ar, propsMid_a0, (ar_row0 _ 2).1, (ar_row0 _ 2).2.1, (ar_row0 _ 2).2.2.1, (ar_row0 _ 2).2.2.2,
    (ar_rows _ 2 (by norm_num)).1, (ar_rows _ 2 (by norm_num)).2.1, (ar_rows _ 2 (by norm_num)).2.2,
    (a0_real _).1, (a0_real _).2.1, (a0_real _).2.2, et, ed, ex, em, e0]
  have hRt := (tendsto_const_nhds (x := (RDETAIL : ℝ)) (f := l)).mul ht
  refine ⟨?_, ?_, ?_, ?_, ?_, ?_, ?_, ?_, ?_, ?_⟩
  · exact (hRt.mul (hv.A0 hd)).congr' (near.mono fun k h => by simp only [h])
  · exact (hRt.mul (hv.A1 hd)).congr' (near.mono fun k h => by simp only [h])
  · exact (hRt.mul (hv.A2 hd)).congr' (near.mono fun k h => by simp only [h])
  · exact (hRt.mul (hv.A3 hd)).congr' (near.mono fun k h => by simp only [h])
  · exact (tendsto_finsetSum _ fun n _ => tendsto_const_nhds.mul (hv.t0 hd n)).congr' (near.mono fun k h => by simp only [h])
  · exact (tendsto_finsetSum _ fun n _ => tendsto_const_nhds.mul (hv.t1 hd n)).congr' (near.mono fun k h => by simp only [h])
  · exact (tendsto_finsetSum _ fun n _ => tendsto_const_nhds.mul (hv.t0 hd n)).congr' (near.mono fun k h => by simp only [h])
  · exact hRt.mul (tendsto_I0 _ hx hd ht hT0)
  · exact tendsto_const_nhds.mul (tendsto_I1 _ hx hd ht hT0)
  · exact tendsto_const_nhds.mul (tendsto_I2 _ hx ht hT0)

end

/-! ## From the entries to the results -/

theorem propsFinish_mm (s : Detail ℝ) (mm : ℝ) : (propsFinish s mm).mm = s.mm := by
  unfold propsFinish
  dsimp only
  split <;> dsimp only <;> split <;> rfl

theorem propsMid_mm (s : Detail ℝ) : (propsMid s).mm = (molar_mass s).2 := congrArg Pub.mm (propsMid_pub s)

section
variable {s : ι → Detail ℝ} {s0 : Detail ℝ} {mm : ι → ℝ} {mm0 : ℝ}

theorem tendsto_finish (ht : Tendsto (fun k => (s k).t) l (𝓝 s0.t)) (hd : Tendsto (fun k => (s k).d) l (𝓝 s0.d)) (hT : s0.t ≠ 0)
    (h01 : Tendsto (fun k => aget2 (s k).ar 0 1) l (𝓝 (aget2 s0.ar 0 1)))
    (h02 : Tendsto (fun k => aget2 (s k).ar 0 2) l (𝓝 (aget2 s0.ar 0 2)))
    (h11 : Tendsto (fun k => aget2 (s k).ar 1 1) l (𝓝 (aget2 s0.ar 1 1))) :
    Tendsto (fun k => (propsFinish (s k) (mm k)).z) l (𝓝 (propsFinish s0 mm0).z) ∧
    Tendsto (fun k => (propsFinish (s k) (mm k)).p) l (𝓝 (propsFinish s0 mm0).p) ∧
    Tendsto (fun k => (propsFinish (s k) (mm k)).dp_dd) l (𝓝 (propsFinish s0 mm0).dp_dd) ∧
    Tendsto (fun k => (propsFinish (s k) (mm k)).dp_dt) l (𝓝 (propsFinish s0 mm0).dp_dt) := by
  have hRt := (tendsto_const_nhds (x := (RDETAIL : ℝ)) (f := l)).mul ht
  have z : Tendsto (fun k => (propsFinish (s k) (mm k)).z) l (𝓝 (propsFinish s0 mm0).z) := by
    simp only [propsFinish_z]
    exact tendsto_const_nhds.add (h01.div hRt (rt_ne hT))
  refine ⟨z, ?_, ?_, ?_⟩
  · simp only [propsFinish_p]
    exact (hd.mul hRt).mul z
  · simp only [propsFinish_dp_dd]
    exact (hRt.add (tendsto_const_nhds.mul h01)).add h02
  · simp only [propsFinish_dp_dt]
    exact (hd.mul tendsto_const_nhds).add (hd.mul h11)

theorem tendsto_finish_cal (ht : Tendsto (fun k => (s k).t) l (𝓝 s0.t))
    (h00 : Tendsto (fun k => aget2 (s k).ar 0 0) l (𝓝 (aget2 s0.ar 0 0)))
    (h10 : Tendsto (fun k => aget2 (s k).ar 1 0) l (𝓝 (aget2 s0.ar 1 0)))
    (h20 : Tendsto (fun k => aget2 (s k).ar 2 0) l (𝓝 (aget2 s0.ar 2 0)))
    (i0 : Tendsto (fun k => aget (s k).a0 0) l (𝓝 (aget s0.a0 0)))
    (i1 : Tendsto (fun k => aget (s k).a0 1) l (𝓝 (aget s0.a0 1)))
    (i2 : Tendsto (fun k => aget (s k).a0 2) l (𝓝 (aget s0.a0 2))) :
    Tendsto (fun k => (propsFinish (s k) (mm k)).u) l (𝓝 (propsFinish s0 mm0).u) ∧
    Tendsto (fun k => (propsFinish (s k) (mm k)).s) l (𝓝 (propsFinish s0 mm0).s) ∧
    Tendsto (fun k => (propsFinish (s k) (mm k)).cv) l (𝓝 (propsFinish s0 mm0).cv) := by
  have hs : Tendsto (fun k => (propsFinish (s k) (mm k)).s) l (𝓝 (propsFinish s0 mm0).s) := by
    simp only [propsFinish_s]
    exact i1.neg.sub h10
  refine ⟨?_, hs, ?_⟩
  · simp only [propsFinish_u]
    exact (i0.add h00).add (ht.mul hs)
  · simp only [propsFinish_cv]
    exact (i2.add h20).neg

/-- The results that the code computes differently for densities up to 1e-15. -/
theorem tendsto_finish_dense (ht : Tendsto (fun k => (s k).t) l (𝓝 s0.t)) (hd : Tendsto (fun k => (s k).d) l (𝓝 s0.d)) (hT : s0.t ≠ 0)
    (hmm : Tendsto mm l (𝓝 mm0))
    (h00 : Tendsto (fun k => aget2 (s k).ar 0 0) l (𝓝 (aget2 s0.ar 0 0)))
    (h01 : Tendsto (fun k => aget2 (s k).ar 0 1) l (𝓝 (aget2 s0.ar 0 1)))
    (h02 : Tendsto (fun k => aget2 (s k).ar 0 2) l (𝓝 (aget2 s0.ar 0 2)))
    (h03 : Tendsto (fun k => aget2 (s k).ar 0 3) l (𝓝 (aget2 s0.ar 0 3)))
    (i0 : Tendsto (fun k => aget (s k).a0 0) l (𝓝 (aget s0.a0 0)))
    (z : Tendsto (fun k => (propsFinish (s k) (mm k)).z) l (𝓝 (propsFinish s0 mm0).z))
    (p : Tendsto (fun k => (propsFinish (s k) (mm k)).p) l (𝓝 (propsFinish s0 mm0).p))
    (dd : Tendsto (fun k => (propsFinish (s k) (mm k)).dp_dd) l (𝓝 (propsFinish s0 mm0).dp_dd))
    (dt : Tendsto (fun k => (propsFinish (s k) (mm k)).dp_dt) l (𝓝 (propsFinish s0 mm0).dp_dt))
    (u : Tendsto (fun k => (propsFinish (s k) (mm k)).u) l (𝓝 (propsFinish s0 mm0).u))
    (cv : Tendsto (fun k => (propsFinish (s k) (mm k)).cv) l (𝓝 (propsFinish s0 mm0).cv)) (hd0 : 1e-15 < s0.d) :
    (Tendsto (fun k => (propsFinish (s k) (mm k)).d2p_dd2) l (𝓝 (propsFinish s0 mm0).d2p_dd2) ∧
      Tendsto (fun k => (propsFinish (s k) (mm k)).h) l (𝓝 (propsFinish s0 mm0).h) ∧
      Tendsto (fun k => (propsFinish (s k) (mm k)).g) l (𝓝 (propsFinish s0 mm0).g)) ∧
    ((propsFinish s0 mm0).dp_dd ≠ 0 → Tendsto (fun k => (propsFinish (s k) (mm k)).cp) l (𝓝 (propsFinish s0 mm0).cp) ∧
      ((propsFinish s0 mm0).cp ≠ 0 → Tendsto (fun k => (propsFinish (s k) (mm k)).jt) l (𝓝 (propsFinish s0 mm0).jt)) ∧
      ((propsFinish s0 mm0).cv ≠ 0 → mm0 ≠ 0 → Tendsto (fun k => (propsFinish (s k) (mm k)).w) l (𝓝 (propsFinish s0 mm0).w) ∧
        ((propsFinish s0 mm0).z ≠ 0 →
          Tendsto (fun k => (propsFinish (s k) (mm k)).kappa) l (𝓝 (propsFinish s0 mm0).kappa)))) := by
  have hlt : ∀ d : ℝ, FOps.lt (EPSILON : ℝ) d = true ↔ 1e-15 < d := fun d => by rw [r_lt]; unfold EPSILON; rw [lem15]
  have near : ∀ᶠ k in l, FOps.lt (EPSILON : ℝ) (s k).d = true :=
    (hd.eventually (lt_mem_nhds hd0)).mono fun k h => (hlt _).2 h
  have near0 : FOps.lt (EPSILON : ℝ) s0.d = true := (hlt _).2 hd0
  have hdne : s0.d ≠ 0 := (lt_trans (by norm_num) hd0 : (0 : ℝ) < s0.d).ne'
  have hRt := (tendsto_const_nhds (x := (RDETAIL : ℝ)) (f := l)).mul ht
  refine ⟨⟨?_, ?_, ?_⟩, fun hdd => ?_⟩
  · simp only [propsFinish_d2p_dd2, near0, if_true]
    exact ((((tendsto_const_nhds.mul h01).add (tendsto_const_nhds.mul h02)).add h03).div hd hdne).congr'
      (near.mono fun k h => by simp only [h, if_true, Pi.div_apply])
  · rw [propsFinish_h, near0, if_pos rfl]
    exact (u.add (p.div hd hdne)).congr' (near.mono fun k h => by simp only [propsFinish_h, h, if_true, Pi.div_apply])
  · rw [propsFinish_g, near0, if_pos rfl]
    exact ((i0.add h00).add (p.div hd hdne)).congr' (near.mono fun k h => by simp only [propsFinish_g, h, if_true, Pi.div_apply])
  · have cp : Tendsto (fun k => (propsFinish (s k) (mm k)).cp) l (𝓝 (propsFinish s0 mm0).cp) := by
      rw [propsFinish_cp, near0, if_pos rfl]
      refine ((cv.add ((ht.mul ((dt.div hd hdne).pow 2)).div dd hdd)).congr' (near.mono fun k h => ?_)).trans (le_of_eq ?_)
      · simp only [propsFinish_cp, h, if_true, r_powi, Pi.div_apply]
      · simp only [r_powi]
    refine ⟨cp, fun hcp => ?_, fun hcv hmm0 => ?_⟩
    · rw [propsFinish_jt, near0, if_pos rfl]
      exact (((((ht.div hd hdne).mul dt).div dd hdd).sub tendsto_const_nhds).div cp hcp |>.div hd hdne).congr'
        (near.mono fun k h => by simp only [propsFinish_jt, h, if_true, Pi.div_apply])
    · have w : Tendsto (fun k => (propsFinish (s k) (mm k)).w) l (𝓝 (propsFinish s0 mm0).w) := by
        have e : ∀ y : ℝ, FOps.sqrt (if FOps.lt y (f% 0.0 : ℝ) = true then (f% 0.0 : ℝ) else y) = √(max y 0) := by
          intro y
          simp only [r_lt, l0, r_sqrt]
          split
          · rename_i h; rw [max_eq_right h.le]
          · rename_i h; rw [max_eq_left (not_lt.1 h)]
        simp only [propsFinish_w, e]
        exact (((((tendsto_const_nhds.mul cp).div cv hcv).mul dd).div hmm hmm0).max tendsto_const_nhds).sqrt
      refine ⟨w, fun hz => ?_⟩
      have h1000 : (f% 1000.0 : ℝ) ≠ 0 := by rw [r_ofDec]; norm_num
      simp only [propsFinish_kappa]
      exact ((w.mul w).mul hmm).div ((hRt.mul tendsto_const_nhds).mul z) (mul_ne_zero (mul_ne_zero (rt_ne hT) h1000) hz)

end

end Aga8.Detail
