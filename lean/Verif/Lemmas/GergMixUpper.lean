import Verif.Lemmas.GergMixOrder

/-! # The pressure of a gas mixture rises at most so fast with the temperature -/

set_option linter.unusedSectionVars false

namespace Aga8.GergEos

open Mix

theorem pureU_sign : ∀ i : Fin 22, ∀ u ∈ pureU i.1, 0 ≤ u.k.η ∧ 0 ≤ u.k.ε ∧ 0 ≤ u.k.β := by decide +kernel
theorem depU_sign : ∀ i j : Fin 22, ∀ u ∈ depU i.1 j.1, 0 ≤ u.k.η ∧ 0 ≤ u.k.ε ∧ 0 ≤ u.k.β := by decide +kernel

theorem Key.base_nonneg (k : Key) {δ : ℝ} (hδ : 0 ≤ δ) : 0 ≤ k.base δ := by
  unfold Key.base Detail.expK
  positivity

theorem Key.hZ_le {k : Key} (h : 0 ≤ k.η ∧ 0 ≤ k.ε ∧ 0 ≤ k.β) {δ : ℝ} (hδ : 0 ≤ δ) : |k.hZ δ| ≤ k.hZa δ := by
  unfold Key.hZ Key.hZa
  have a1 : (0 : ℝ) ≤ k.η := by exact_mod_cast h.1
  have a2 : (0 : ℝ) ≤ k.ε := by exact_mod_cast h.2.1
  have a3 : (0 : ℝ) ≤ k.β := by exact_mod_cast h.2.2
  have b1 : 0 ≤ (k.d : ℝ) := Nat.cast_nonneg _
  have b2 : 0 ≤ (k.c : ℝ) * δ ^ k.c := by positivity
  have c1 : 0 ≤ δ * (k.η * δ) := by positivity
  have c2 : 0 ≤ δ * (k.η * k.ε) := by positivity
  have c3 : 0 ≤ δ * k.β := by positivity
  rw [abs_le]
  constructor <;> linarith

theorem uSum_le {L : List UTerm} (h : ∀ u ∈ L, 0 ≤ u.k.η ∧ 0 ≤ u.k.ε ∧ 0 ≤ u.k.β) {δ τ : ℝ} (hδ : 0 ≤ δ) (hτ : 0 < τ) :
    |uSum L q1 Key.hZ δ τ| ≤ uAbs L a1 Key.hZa δ τ := by
  unfold uSum uAbs
  induction L with
  | nil => simp
  | cons u L ih =>
    simp only [List.map_cons, List.sum_cons]
    refine (abs_add_le _ _).trans (add_le_add ?_ (ih fun v hv => h v (List.mem_cons_of_mem _ hv)))
    have hz := Key.hZ_le (h u List.mem_cons_self) hδ
    have hb := u.k.base_nonneg hδ
    have hr : 0 ≤ τ ^ ((u.t - t0 : ℚ) : ℝ) := Real.rpow_nonneg hτ.le _
    rw [abs_mul, abs_mul, abs_mul, abs_of_nonneg hr, abs_of_nonneg hb]
    have e : |((u.n * q1 u.t : ℚ) : ℝ)| ≤ ((|u.n| * a1 u.t : ℚ) : ℝ) := by
      rw [← Rat.cast_abs, abs_mul]
      have : |q1 u.t| ≤ a1 u.t := by
        unfold q1 a1
        have := abs_sub (1 : ℚ) u.t
        rwa [abs_one] at this
      exact_mod_cast mul_le_mul_of_nonneg_left this (abs_nonneg _)
    exact mul_le_mul (mul_le_mul_of_nonneg_right e hr) (mul_le_mul_of_nonneg_left hz hb) (mul_nonneg hb (abs_nonneg _))
      (mul_nonneg ((abs_nonneg _).trans e) hr)

theorem mixSum_le {x : Fin 22 → ℝ} (hx : ∀ i : Fin 22, 1 ≤ i.1 → 0 ≤ x i) {δ τ : ℝ} (hδ : 0 ≤ δ) (hτ : 0 < τ) :
    mixSum q1 Key.hZ x δ τ ≤ mixAbs a1 Key.hZa x δ τ := by
  unfold mixSum mixAbs
  refine add_le_add (Finset.sum_le_sum fun i hi => ?_) (Finset.sum_le_sum fun i hi => Finset.sum_le_sum fun j hj => ?_)
  · exact mul_le_mul_of_nonneg_left ((le_abs_self _).trans (uSum_le (pureU_sign i) hδ hτ)) (hx i (Finset.mem_filter.1 hi).2)
  · have hi' := (Finset.mem_filter.1 hi).2
    have hj' : i.1 < j.1 := (Finset.mem_filter.1 hj).2
    refine mul_le_mul_of_nonneg_left ((le_abs_self _).trans ?_) (mul_nonneg (hx i hi') (hx j (by omega)))
    rw [abs_mul]
    exact mul_le_mul_of_nonneg_left (uSum_le (depU_sign i j) hδ hτ) (abs_nonneg _)

namespace MixTab

variable (t : MixTab)

/-- The largest slope of the pressure with the temperature on the rectangle, for densities up to `dm`. -/
def upChk (dm b : ℚ) (i j : ℕ) : Bool :=
  let w := t.wQ dm i j
  decide (1 + w * t.comb Thr.ta i j ≤ b * (1 - w * t.comb Thr.z i j))

end MixTab

theorem MixT.up10 : ((List.range 33).all fun i => (List.range 2).all fun j => tab.upChk 0.1 5.7 i j) = true := by decide +kernel
theorem MixT.up05 : ((List.range 33).all fun i => (List.range 2).all fun j => tab.upChk 0.05 3.2 i j) = true := by decide +kernel

end Aga8.GergEos

namespace Aga8.Gerg

open GergEos GergEos.MixTab

variable {x : Vector ℝ 22} (hP : Present x) (hx0 : ∀ i : Fin 22, 1 ≤ i.1 → 0 ≤ yOf x i)
  (s2 : ∑ i : Fin 22 with 1 ≤ i.1, yOf x i ≤ 1.01)
include hP hx0 s2

/-- The slope along an isochor is at most `b`. -/
theorem isochor_up {dm b : ℚ} (hdm : dm ≤ 0.1) (b0 : 0 ≤ b)
    (hc : ((List.range 33).all fun i => (List.range 2).all fun j => MixT.tab.upChk dm b i j) = true)
    (v0 : 0 ≤ invRhoR (yOf x)) {T D : ℝ} (T0 : 0 < T) (t1 : 1.1 * Tr (yOf x) ≤ T) (t2 : T ≤ 100 * Tr (yOf x))
    (hD : 0 ≤ D) (hd : D * invRhoR (yOf x) ≤ dm) :
    1 + RT x Shape.f1 D T - RT x (fun σ δ => σ.t * σ.f1 δ) D T ≤ b * GergEos.Z (yOf x) D T := by
  have hτ : 0 < Tr (yOf x) / T := div_pos (order_Tr hP hx0 s2) T0
  have hδ : 0 ≤ D * invRhoR (yOf x) := mul_nonneg hD v0
  obtain ⟨i, m, ρ, dm', S, u0, u1⟩ := MixT.exists_strip (τ := Tr (yOf x) / T) (d0 := 0)
    (by rw [le_div_iff₀ T0]; linarith) (by rw [div_mul_eq_mul_div, div_le_one T0]; linarith) (by split_ifs <;> norm_num)
  have hdm' : ((dm : ℚ) : ℝ) ≤ 0.1 := by
    have : ((dm : ℚ) : ℝ) ≤ ((0.1 : ℚ) : ℝ) := by exact_mod_cast hdm
    exact this.trans (by norm_num)
  obtain ⟨j, hj, B⟩ := MixT.exists_row S.hi (by norm_num : 1 < 16) u0 u1 hδ
    (by rw [MixT.rQ_vals.2.1]; have := hd.trans hdm'; norm_num at this ⊢; linarith)
  have c := List.all_eq_true.1 (List.all_eq_true.1 hc i (List.mem_range.2 S.hi)) j (List.mem_range.2 hj)
  unfold upChk at c
  simp only [decide_eq_true_eq] at c
  have c' : 1 + (MixT.tab.wQ dm i j : ℝ) * MixT.tab.comb Thr.ta i j ≤ b * (1 - MixT.tab.wQ dm i j * MixT.tab.comb Thr.z i j) := by
    exact_mod_cast c
  have w0 : 0 ≤ D * invRhoR (yOf x) * (Tr (yOf x) / T) ^ (t0 : ℝ) := mul_nonneg hδ (Real.rpow_nonneg hτ.le _)
  have wl := wQ_le B hδ hτ hd
  have S' := MixT.tab_ok.sums B.hi B.hj hx0 s2 hτ B.u0 B.u1 B.r0 B.r1
  obtain ⟨vz, -, vt, -⟩ := mix_values x D hτ
  rw [RT_RS hP, RT_RS hP, vt, vz]
  have z1 := S'.z
  have z3 := (mixSum_le hx0 hδ hτ).trans S'.ta
  have n1 := MixT.tab.comb_nonneg Thr.z i j
  have n3 := MixT.tab.comb_nonneg Thr.ta i j
  have bR : (0 : ℝ) ≤ b := by exact_mod_cast b0
  generalize D * invRhoR (yOf x) * (Tr (yOf x) / T) ^ (t0 : ℝ) = W at *
  generalize (MixT.tab.wQ dm i j : ℝ) = w at *
  have a1 := mul_le_mul_of_nonneg_left z1 w0
  have a3 := mul_le_mul_of_nonneg_left z3 w0
  have b1 := mul_le_mul_of_nonneg_right wl n1
  have b3 := mul_le_mul_of_nonneg_right wl n3
  refine (show _ ≤ 1 + w * (MixT.tab.comb Thr.ta i j : ℝ) by linarith).trans (c'.trans (mul_le_mul_of_nonneg_left ?_ bR))
  linarith

omit hx0 s2 in
theorem order_key (D : ℝ) {T : ℝ} (hT : 0 < T) : HasDerivAt (fun T => D * 8.314472 * T * GergEos.Z (yOf x) D T)
    (D * 8.314472 * (1 + RT x Shape.f1 D T - RT x (fun σ δ => σ.t * σ.f1 δ) D T)) T := by
  have h2 := (((hasDerivAt_id T).mul ((hasDerivAt_RT x Shape.f1 D hT).const_add 1)).const_mul (D * 8.314472))
  refine (h2.congr_of_eventuallyEq ((eventually_gt_nhds hT).mono fun t ht => ?_)).congr_deriv ?_
  · have hτ : 0 < GergEos.Tr (yOf x) / t := div_pos (by rw [← trX_eq]; exact hP.tr_pos) ht
    simp only [Pi.mul_apply, id]
    rw [Z_RS x D hτ, RT_RS hP]
    ring
  · simp only [id]
    field_simp
    ring

/-- The pressure along an isochor rises at most so fast. -/
theorem order_T_up {dm b : ℚ} (hdm : dm ≤ 0.1) (b0 : 0 ≤ b)
    (hc : ((List.range 33).all fun i => (List.range 2).all fun j => MixT.tab.upChk dm b i j) = true)
    (v0 : 0 ≤ invRhoR (yOf x)) {T T' D : ℝ} (T0 : 0 < T) (t1 : 1.1 * Tr (yOf x) ≤ T) (hT : T ≤ T')
    (t2 : T' ≤ 100 * Tr (yOf x)) (hD : 0 < D) (hd : D * invRhoR (yOf x) ≤ dm) :
    Real.log (D * 8.314472 * T' * GergEos.Z (yOf x) D T') - Real.log (D * 8.314472 * T * GergEos.Z (yOf x) D T)
      ≤ b * (Real.log T' - Real.log T) := by
  have hdm' : ((dm : ℚ) : ℝ) ≤ 0.1 := by
    have : ((dm : ℚ) : ℝ) ≤ ((0.1 : ℚ) : ℝ) := by exact_mod_cast hdm
    exact this.trans (by norm_num)
  have h0 : ∀ t ∈ Set.Icc T T', 0 < GergEos.Z (yOf x) D t := fun t ht =>
    (isochor hP hx0 s2 v0 (T0.trans_le ht.1) (t1.trans ht.1) (ht.2.trans t2) hD.le (hd.trans hdm')).1
  have h1 : ∀ t ∈ Set.Icc T T', 1 + RT x Shape.f1 D t - RT x (fun σ δ => σ.t * σ.f1 δ) D t ≤ b * GergEos.Z (yOf x) D t := fun t ht =>
    isochor_up hP hx0 s2 hdm b0 hc v0 (T0.trans_le ht.1) (t1.trans ht.1) (ht.2.trans t2) hD.le hd
  refine log_slope_high (f := fun t => D * 8.314472 * t * GergEos.Z (yOf x) D t) T0 hT (fun t ht => order_key hP D (T0.trans_le ht.1))
    (fun t ht => ?_) fun t ht => ?_
  · have t0 := T0.trans_le ht.1
    have := h0 t ht
    positivity
  · have t0 := T0.trans_le ht.1
    have c : 0 ≤ D * 8.314472 * t := by positivity
    have b := mul_le_mul_of_nonneg_left (h1 t ht) c
    calc _ = D * 8.314472 * t * (1 + RT x Shape.f1 D t - RT x (fun σ δ => σ.t * σ.f1 δ) D t) := by ring
      _ ≤ _ := b
      _ = _ := by ring

/-- More pressure and less temperature: more density. -/
theorem order_mix (v0 : 0 ≤ invRhoR (yOf x)) {T T' p p' D D' : ℝ} (T0 : 0 < T') (t1 : 1.1 * Tr (yOf x) ≤ T') (hT : T' ≤ T)
    (t2 : T ≤ 100 * Tr (yOf x)) (hp : 0 < p) (hpp : p ≤ p')
    (c : p / (8.314472 * T) * invRhoR (yOf x) ≤ if Tr (yOf x) / T ≤ 8 / 10 then 0.06 else 0.05)
    (c' : p' / (8.314472 * T') * invRhoR (yOf x) ≤ if Tr (yOf x) / T' ≤ 8 / 10 then 0.06 else 0.05)
    (hD : 0 < D) (hd : D * invRhoR (yOf x) ≤ 1 / 2) (hD' : 0 < D') (hd' : D' * invRhoR (yOf x) ≤ 1 / 2)
    (e : D * 8.314472 * T * GergEos.Z (yOf x) D T = p) (e' : D' * 8.314472 * T' * GergEos.Z (yOf x) D' T' = p') :
    (Real.log p' - Real.log p + 0.9 * (Real.log T - Real.log T')) / 1.1816 ≤ Real.log D' - Real.log D ∧
      Real.log D' - Real.log D ≤ (Real.log p' - Real.log p + 5.7 * (Real.log T - Real.log T')) / 0.807 := by
  have r0 := order_Tr hP hx0 s2
  have p0' := hp.trans_le hpp
  have T00 := T0.trans_le hT
  -- a density is below the end of its strip
  have bd : ∀ {T p D : ℝ}, 0 < T → 1.1 * Tr (yOf x) ≤ T → T ≤ 100 * Tr (yOf x) → 0 < p →
      p / (8.314472 * T) * invRhoR (yOf x) ≤ (if Tr (yOf x) / T ≤ 8 / 10 then 0.06 else 0.05) → 0 < D → D * invRhoR (yOf x) ≤ 1 / 2 →
      D * 8.314472 * T * GergEos.Z (yOf x) D T = p → ∃ m D1, 0.807 ≤ m ∧ m ≤ 0.844 ∧ D ≤ D1 ∧ D1 * invRhoR (yOf x) ≤ 0.1 ∧
        ∀ D, 0 ≤ D → D ≤ D1 → 0 < GergEos.Z (yOf x) D T ∧ m * GergEos.Z (yOf x) D T ≤ dPdD (yOf x) D T ∧
          dPdD (yOf x) D T ≤ 1.4 * m * GergEos.Z (yOf x) D T := by
    intro T p D T0 t1 t2 hp c hD hd e
    have d0 : 0 < p / (8.314472 * T) := by positivity
    obtain ⟨ρ, m, ρ0, -, m1, m2, b1, b2, b3⟩ := isotherm hP hx0 s2 v0 T0 t1 t2 d0.le c
    refine ⟨m, _, m1, m2, ?_, b1, b2⟩
    have m0 : 0 < m := lt_of_lt_of_le (by norm_num) m1
    by_contra hc
    have hc := not_le.1 hc
    have hD1 : p / (8.314472 * T) ≤ p / (8.314472 * T) * Real.exp ρ := le_mul_of_one_le_right d0.le (Real.one_le_exp ρ0.le)
    have s := (order_D hP hx0 s2 T0 b2 d0 hD1 le_rfl).1
    have mono := mix_mono hx0 s2 v0 (T := T) (by rw [le_div_iff₀ T0]; linarith) (by rw [div_mul_eq_mul_div, div_le_one T0]; linarith) hd
      ⟨d0.le.trans hD1, hc.le⟩ ⟨hD.le, le_rfl⟩ hc
    dsimp only at mono
    have z1 := (b2 _ (d0.le.trans hD1) le_rfl).1
    have z0 := (b2 _ d0.le hD1).1
    have P0 : p / (8.314472 * T) * 8.314472 * T * GergEos.Z (yOf x) (p / (8.314472 * T)) T
        = p * GergEos.Z (yOf x) (p / (8.314472 * T)) T := by field_simp
    rw [P0, Real.log_mul hp.ne' z0.ne', Real.log_mul d0.ne' (Real.exp_pos ρ).ne', Real.log_exp] at s
    have l := (abs_le.1 b3).1
    have f : Real.log (p / (8.314472 * T) * Real.exp ρ * 8.314472 * T * GergEos.Z (yOf x) (p / (8.314472 * T) * Real.exp ρ) T)
        < Real.log p := by
      refine Real.log_lt_log (by have := d0.trans_le hD1; positivity) ?_
      refine lt_of_lt_of_eq ?_ e
      have := mul_lt_mul_of_pos_right mono (show 0 < 8.314472 * T by positivity)
      calc _ = p / (8.314472 * T) * Real.exp ρ * GergEos.Z (yOf x) (p / (8.314472 * T) * Real.exp ρ) T * (8.314472 * T) := by ring
        _ < _ := this
        _ = _ := by ring
    have : 0 < m * ρ := by positivity
    linarith
  obtain ⟨m, D1, -, -, g1, g2, -⟩ := bd T00 (t1.trans hT) t2 hp c hD hd e
  obtain ⟨m', D1', n1, n2, g1', g2', g3'⟩ := bd T0 t1 (hT.trans t2) p0' c' hD' hd' e'
  have q1 := order_T hP hx0 s2 v0 T0 t1 hT t2 hD ((mul_le_mul_of_nonneg_right g1 v0).trans g2)
  rw [e] at q1
  have lT : Real.log T' ≤ Real.log T := Real.log_le_log T0 hT
  have lp : Real.log p ≤ Real.log p' := Real.log_le_log hp hpp
  have zD : 0 < GergEos.Z (yOf x) D T' := (isochor hP hx0 s2 v0 T0 t1 (hT.trans t2) hD.le ((mul_le_mul_of_nonneg_right g1 v0).trans g2)).1
  have DD : D ≤ D' := by
    by_contra hc
    have hc := not_le.1 hc
    have mono := mix_mono hx0 s2 v0 (T := T') (by rw [le_div_iff₀ T0]; linarith) (by rw [div_mul_eq_mul_div, div_le_one T0]; linarith) hd
      ⟨hD'.le, hc.le⟩ ⟨hD.le, le_rfl⟩ hc
    dsimp only at mono
    have f : Real.log p' < Real.log (D * 8.314472 * T' * GergEos.Z (yOf x) D T') := by
      refine Real.log_lt_log p0' ?_
      rw [← e']
      have := mul_lt_mul_of_pos_right mono (show 0 < 8.314472 * T' by positivity)
      calc _ = D' * GergEos.Z (yOf x) D' T' * (8.314472 * T') := by ring
        _ < _ := this
        _ = _ := by ring
    norm_num at q1
    linarith
  obtain ⟨s1, s2'⟩ := order_D hP hx0 s2 T0 g3' hD DD g1'
  rw [e'] at s1 s2'
  have lD : 0 ≤ Real.log D' - Real.log D := sub_nonneg.2 (Real.log_le_log hD DD)
  have k1 := mul_le_mul_of_nonneg_right n1 lD
  have k2 := mul_le_mul_of_nonneg_right n2 lD
  constructor
  · rw [div_le_iff₀ (by norm_num)]
    norm_num at q1 s2' k2 ⊢
    linarith
  · have q2 := order_T_up hP hx0 s2 (dm := 0.1) (b := 5.7) (by norm_num) (by norm_num) MixT.up10 v0 T0 t1 hT t2 hD (by
      push_cast
      exact ((mul_le_mul_of_nonneg_right g1 v0).trans g2).trans (by norm_num))
    rw [e] at q2
    push_cast at q2
    rw [le_div_iff₀ (by norm_num)]
    norm_num at k1 q2 ⊢
    linarith

end Aga8.Gerg
