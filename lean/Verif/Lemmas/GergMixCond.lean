import Verif.Lemmas.GergMixTable
import Verif.Lemmas.GergErrCondLow

/-! # Cancellation in the sums of a mixture -/

set_option linter.unusedSectionVars false

namespace Aga8.GergEos

open Mix

theorem sizes_lin (a : ℝ) (g g' : PureTerm → ℝ → ℝ) (h h' : DepTerm → ℝ → ℝ) (x : Fin 22 → ℝ) (δ τ : ℝ) :
    sizes (fun u δ => a * g u δ + g' u δ) (fun u δ => a * h u δ + h' u δ) x δ τ = a * sizes g h x δ τ + sizes g' h' x δ τ := by
  have e : ∀ {α : Type} (l : List α) (s f f' : α → ℝ), (l.map fun u => s u * (a * f u + f' u)).sum
      = a * (l.map fun u => s u * f u).sum + (l.map fun u => s u * f' u).sum := by
    intro α l s f f'
    rw [← List.sum_map_mul_left, ← List.sum_map_add]
    congr 1
    exact List.map_congr_left fun u _ => by ring
  unfold sizes
  simp only [e]
  have p : ∑ i : Fin 22 with 1 ≤ i.1, x i * (a * ((pureTerms.getD i.1 []).map fun u => u.size δ τ * g u δ).sum
      + ((pureTerms.getD i.1 []).map fun u => u.size δ τ * g' u δ).sum)
      = a * (∑ i : Fin 22 with 1 ≤ i.1, x i * ((pureTerms.getD i.1 []).map fun u => u.size δ τ * g u δ).sum)
      + ∑ i : Fin 22 with 1 ≤ i.1, x i * ((pureTerms.getD i.1 []).map fun u => u.size δ τ * g' u δ).sum := by
    rw [Finset.mul_sum, ← Finset.sum_add_distrib]
    exact Finset.sum_congr rfl fun i _ => by ring
  rw [p, mul_add, add_add_add_comm]
  congr 1
  rw [Finset.mul_sum, ← Finset.sum_add_distrib]
  refine Finset.sum_congr rfl fun i _ => ?_
  rw [Finset.mul_sum, ← Finset.sum_add_distrib]
  exact Finset.sum_congr rfl fun i _ => by ring

theorem sizes_Z (x : Fin 22 → ℝ) (δ : ℝ) {τ : ℝ} (hτ : 0 < τ) :
    sizes PureTerm.grow1 DepTerm.grow1 x δ τ = δ * τ ^ (t0 : ℝ) * mixAbs q0 Key.hZa x δ τ :=
  sizes_mix (q := q0) (h := Key.hZa)
    (fun a δ => by unfold q0 PureTerm.grow1 Key.hZa PureTerm.uni; push_cast; ring)
    (fun a δ => by unfold q0 DepTerm.grow1 Key.hZa DepTerm.uni; push_cast; ring) x δ hτ

theorem sizes_P (x : Fin 22 → ℝ) (δ : ℝ) {τ : ℝ} (hτ : 0 < τ) :
    2 * sizes PureTerm.grow1 DepTerm.grow1 x δ τ + sizes PureTerm.grow2 DepTerm.grow2 x δ τ
      = δ * τ ^ (t0 : ℝ) * mixAbs q0 Key.hPa x δ τ := by
  rw [← sizes_lin]
  exact sizes_mix (q := q0) (h := Key.hPa)
    (fun a δ => by unfold q0 PureTerm.grow2 PureTerm.grow1 Key.hPa Key.hZa PureTerm.uni; push_cast; ring)
    (fun a δ => by unfold q0 DepTerm.grow2 DepTerm.grow1 Key.hPa Key.hZa DepTerm.uni; push_cast; ring) x δ hτ

theorem sizes_T (x : Fin 22 → ℝ) (δ : ℝ) {τ : ℝ} (hτ : 0 < τ) :
    sizes PureTerm.grow1 DepTerm.grow1 x δ τ + sizes (fun a δ => |(a.t : ℝ)| * a.grow1 δ) (fun a δ => |(a.t : ℝ)| * a.grow1 δ) x δ τ
      = δ * τ ^ (t0 : ℝ) * mixAbs a1 Key.hZa x δ τ := by
  have := sizes_lin 1 PureTerm.grow1 (fun a δ => |(a.t : ℝ)| * a.grow1 δ) DepTerm.grow1 (fun a δ => |(a.t : ℝ)| * a.grow1 δ) x δ τ
  rw [one_mul] at this
  rw [← this]
  exact sizes_mix (q := a1) (h := Key.hZa)
    (fun a δ => by unfold a1 PureTerm.grow1 Key.hZa PureTerm.uni; push_cast; ring)
    (fun a δ => by unfold a1 DepTerm.grow1 Key.hZa DepTerm.uni; push_cast; ring) x δ hτ

theorem sizes_V (x : Fin 22 → ℝ) (δ : ℝ) {τ : ℝ} (hτ : 0 < τ) :
    sizes (fun a _ => |(a.t : ℝ)| * (|(a.t : ℝ)| + 1)) (fun a _ => |(a.t : ℝ)| * (|(a.t : ℝ)| + 1)) x δ τ
      = δ * τ ^ (t0 : ℝ) * mixAbs a2 (fun _ _ => 1) x δ τ :=
  sizes_mix (q := a2) (h := fun _ _ => 1)
    (fun a δ => by unfold a2; push_cast; ring) (fun a δ => by unfold a2; push_cast; ring) x δ hτ

theorem mixSum_congr {x y : Fin 22 → ℝ} (h : ∀ i : Fin 22, 1 ≤ i.1 → x i = y i) (q : ℚ → ℚ) (H : Key → ℝ → ℝ) (δ τ : ℝ) :
    mixSum q H x δ τ = mixSum q H y δ τ := by
  unfold mixSum
  congr 1
  · exact Finset.sum_congr rfl fun i hi => by rw [h i (Finset.mem_filter.1 hi).2]
  · refine Finset.sum_congr rfl fun i hi => Finset.sum_congr rfl fun j hj => ?_
    have hi' := (Finset.mem_filter.1 hi).2
    have hj' : i.1 < j.1 := (Finset.mem_filter.1 hj).2
    rw [h i hi', h j (by omega)]

namespace MixTab

/-- The rectangle of a table that a state lies in. -/
structure InBox (t : MixTab) (i j : ℕ) (δ τ : ℝ) : Prop where
  hi : i < t.nS
  hj : j < t.nR
  u0 : (t.uN i : ℝ) / 100000 ≤ τ ^ ((1 : ℝ) / 40)
  u1 : τ ^ ((1 : ℝ) / 40) ≤ (t.uN (i + 1) : ℝ) / 100000
  r0 : (t.rQ j : ℝ) ≤ δ
  r1 : δ ≤ t.rQ (j + 1)

theorem InBox.w_le {t : MixTab} {i j : ℕ} {δ τ : ℝ} (b : t.InBox i j δ τ) (h0 : 0 ≤ δ) (hτ : 0 < τ) :
    δ * τ ^ (t0 : ℝ) ≤ t.w1 i j := by
  have e : τ ^ (t0 : ℝ) = (τ ^ ((1 : ℝ) / 40)) ^ 50 := by
    rw [← Real.rpow_natCast, ← Real.rpow_mul hτ.le]
    congr 1
    unfold t0
    norm_num
  have u0 : 0 ≤ τ ^ ((1 : ℝ) / 40) := Real.rpow_nonneg hτ.le _
  have p := pow_le_pow_left₀ u0 b.u1 50
  rw [e]
  unfold w1
  push_cast
  exact mul_le_mul b.r1 p (pow_nonneg u0 _) (h0.trans b.r1)

theorem comb_nonneg (t : MixTab) (f : Thr → ℕ) (i j : ℕ) : (0 : ℝ) ≤ t.comb f i j := by
  rw [comb_real]; positivity

end MixTab

end Aga8.GergEos

namespace Aga8.Gerg

open F64 GergEos GergEos.MixTab

/-- The four sums of a mixture over the real numbers. -/
theorem mix_values (x : Vector ℝ 22) (D : ℝ) {T : ℝ} (hτ : 0 < Tr (yOf x) / T) :
    let δ := D * invRhoR (yOf x)
    let τ := Tr (yOf x) / T
    let W := δ * τ ^ (t0 : ℝ)
    GergEos.Z (yOf x) D T = 1 + W * mixSum q0 Key.hZ (yOf x) δ τ ∧
    dPdD (yOf x) D T = 1 + W * mixSum q0 Key.hP (yOf x) δ τ ∧
    1 + RS x Shape.f1 δ τ - RS x (fun σ δ => σ.t * σ.f1 δ) δ τ = 1 + W * mixSum q1 Key.hZ (yOf x) δ τ ∧
    RS x (fun σ _ => σ.t * (σ.t - 1)) δ τ = W * mixSum q2 (fun _ _ => 1) (yOf x) δ τ := by
  intro δ τ W
  refine ⟨?_, ?_, ?_, ?_⟩
  · rw [Z_RS _ _ hτ, RS_mix (q := q0) (H := Key.hZ) facZ _ _ hτ]
  · rw [dPdD_RS _ _ hτ, add_assoc, ← RS_lin, RS_mix (q := q0) (H := Key.hP) facP _ _ hτ]
  · rw [← RS_mix (q := q1) (H := Key.hZ) facT _ _ hτ]
    have := RS_lin x (fun σ δ => σ.t * σ.f1 δ) Shape.f1 (-1) δ τ
    have e : (fun (σ : Shape) δ => -1 * (σ.t * σ.f1 δ) + σ.f1 δ) = fun σ δ => σ.f1 δ - σ.t * σ.f1 δ := by
      funext σ δ; ring
    rw [e] at this
    rw [this]
    ring
  · exact RS_mix (q := q2) (H := fun _ _ => 1) facV _ _ hτ

/-- The last step: reals only. -/
theorem mixcond_finish {D T w W K sz sp st sv cz cp ct cv za pa ta va zA pA tA vA C V : ℝ} (D0 : 0 < D) (hD : 1e-4 ≤ D) (D1 : D ≤ 1000)
    (T1 : 1 ≤ T) (T2 : T ≤ 10000) (W0 : 0 ≤ W) (Ww : W ≤ w) (K5 : 5 ≤ K) (KM : K ≤ 10000)
    (c1 : 0 ≤ cz) (c2 : 0 ≤ cp) (c3 : 0 ≤ ct) (c4 : 0 ≤ cv) (c5 : 0 ≤ za) (c6 : 0 ≤ pa) (c7 : 0 ≤ ta) (c8 : 0 ≤ va)
    (b1 : -cz ≤ sz) (b2 : -cp ≤ sp) (b3 : -ct ≤ st) (b4 : sv ≤ cv) (b5 : zA ≤ za) (b6 : pA ≤ pa) (b7 : tA ≤ ta) (b8 : vA ≤ va)
    (m1 : |W * sz| ≤ W * zA) (m2 : |W * sp| ≤ W * pA) (m3 : |W * st| ≤ W * tA) (m4 : |W * sv| ≤ W * vA)
    (f1 : w * va ≤ 10000) (f2 : w * pa ≤ 10000) (f3 : w * ta ≤ 10000) (f3' : W * zA ≤ W * tA)
    (g1 : 1 + w * za ≤ K * (1 - w * cz)) (g2 : 1 + w * pa ≤ K * (1 - w * cp)) (g3 : 1 + w * ta ≤ K * (1 - w * ct))
    (g4 : 4.43 * 1.463 + w * va ≤ K * (1.463 - w * cv)) (i1 : 1.478 * 0.99 ≤ C) (i3 : C ≤ 130) (hV : V ≤ 4.43 * C + W * vA) :
    WellSized (1 + W * sz) (1 + W * zA) K ∧ WellSized (8.314472 * T * (1 + W * sp)) (8.314472 * T * (1 + W * pA)) K ∧
    WellSized (D * 8.314472 * (1 + W * st)) (D * 8.314472 * (1 + W * tA)) K ∧
    WellSized (8.314472 * (C - W * sv)) (8.314472 * V) K := by
  have low : ∀ {c s : ℝ}, 0 ≤ c → -c ≤ s → -(w * c) ≤ W * s := fun {c s} hc hs => by
    have h1 : W * -c ≤ W * s := mul_le_mul_of_nonneg_left hs W0
    have h2 : W * c ≤ w * c := mul_le_mul_of_nonneg_right Ww hc
    linarith
  have up : ∀ {c s : ℝ}, 0 ≤ c → s ≤ c → W * s ≤ w * c := fun {c s} hc hs => by
    have h1 : W * s ≤ W * c := mul_le_mul_of_nonneg_left hs W0
    have h2 : W * c ≤ w * c := mul_le_mul_of_nonneg_right Ww hc
    linarith
  have w0 : 0 ≤ w := W0.trans Ww
  have l1 := low c1 b1
  have l2 := low c2 b2
  have l3 := low c3 b3
  have l4 := up c4 b4
  have u1 := up c5 b5
  have u2 := up c6 b6
  have u3 := up c7 b7
  have u4 := up c8 b8
  have n1 := mul_nonneg w0 c5
  have n2 := mul_nonneg w0 c6
  have n3 := mul_nonneg w0 c7
  have n4 := mul_nonneg w0 c8
  have m1' := (abs_le.1 m1).2
  have m2' := (abs_le.1 m2).2
  have m3' := (abs_le.1 m3).2
  have m4' := (abs_le.1 m4).1
  have K0 : 0 < K := by linarith
  -- the lower bounds
  have pos : ∀ {v : ℝ}, 1 ≤ K * v → 1 / 10000 ≤ v := fun {v} h => by
    rw [← mul_le_mul_iff_of_pos_left K0]
    linarith
  have z1 : K * (1 - w * cz) ≤ K * (1 + W * sz) := mul_le_mul_of_nonneg_left (by linarith) K0.le
  have p1 : K * (1 - w * cp) ≤ K * (1 + W * sp) := mul_le_mul_of_nonneg_left (by linarith) K0.le
  have t1 : K * (1 - w * ct) ≤ K * (1 + W * st) := mul_le_mul_of_nonneg_left (by linarith) K0.le
  have v1 : K * (1.463 - w * cv) ≤ K * (1.463 - W * sv) := mul_le_mul_of_nonneg_left (by linarith) K0.le
  have v2 : 4.43 * (C - 1.463) ≤ K * (C - 1.463) :=
    mul_le_mul_of_nonneg_right (by norm_num; linarith) (by norm_num at i1 ⊢; linarith)
  have v3 : K * (C - W * sv) = K * (C - 1.463) + K * (1.463 - W * sv) := by ring
  have z2 := pos (v := 1 + W * sz) (by linarith)
  have p2 := pos (v := 1 + W * sp) (by linarith)
  have t2 := pos (v := 1 + W * st) (by linarith)
  norm_num at i1 g4 hV hD v1 v2 v3
  have v4 := pos (v := C - W * sv) (by linarith)
  have T0 : 0 < T := by linarith
  have Tp : 1 * (1 / 10000) ≤ T * (1 + W * sp) := mul_le_mul T1 p2 (by norm_num) T0.le
  have Tp' : T * (1 + W * sp) ≤ 10000 * 20000 := mul_le_mul T2 (by linarith) (by linarith) (by norm_num)
  have Dt : 1 / 10000 * (1 / 10000) ≤ D * (1 + W * st) := mul_le_mul (by linarith) t2 (by norm_num) D0.le
  have Dt' : D * (1 + W * st) ≤ 1000 * 20000 := mul_le_mul D1 (by linarith) (by linarith) (by norm_num)
  refine ⟨⟨by linarith, by norm_num; linarith, by norm_num; linarith⟩, ⟨?_, ?_, ?_⟩, ⟨?_, ?_, ?_⟩, ⟨?_, ?_, ?_⟩⟩
  · have : T * (1 + W * pA) ≤ T * (K * (1 + W * sp)) := mul_le_mul_of_nonneg_left (by linarith) T0.le
    norm_num; linarith
  · norm_num; linarith
  · norm_num; linarith
  · have : D * (1 + W * tA) ≤ D * (K * (1 + W * st)) := mul_le_mul_of_nonneg_left (by linarith) D0.le
    norm_num; linarith
  · norm_num; linarith
  · norm_num; linarith
  · norm_num; linarith
  · norm_num; linarith
  · norm_num; linarith

variable [Libm] {q : Pub Float}

/-- On a rectangle of the tables the loss by cancellation is at most the number in the table. -/
theorem conditioned_box {t : GergEos.MixTab} (ok : t.Ok) {i j : ℕ} (hL : LibmAccurate) (hq : ErrDomain q)
    (s1 : 0.99 ≤ ∑ i : Fin 22 with 1 ≤ i.1, fracs q i) (s2 : ∑ i : Fin 22 with 1 ≤ i.1, fracs q i ≤ 1.01) (hD : 1e-4 ≤ toR q.d)
    (b : t.InBox i j (toR q.d * invRhoR (fracs q)) (Tr (fracs q) / toR q.t)) :
    Conditioned (fracs q) (toR q.d) (toR q.t) (t.kN i j) := by
  have hτ : 0 < Tr (yOf (xr q.x)) / toR q.t := tau_pos (q := q) hL hq
  have e' : ∀ i : Fin 22, 1 ≤ i.1 → fracs q i = yOf (xr q.x) i := fracs_eq (okX_of hq)
  have eV : invRhoR (fracs q) = invRhoR (yOf (xr q.x)) := reducing_congr' e' _ _
  have eT : Tr (fracs q) = Tr (yOf (xr q.x)) := reducing_congr' e' _ _
  have D0 : 0 < toR q.d := lt_of_lt_of_le (by norm_num) hD
  have D1 : toR q.d ≤ 1000 := by
    rcases hq.d_rng with h | h
    · rw [h]; norm_num
    · exact h.2
  have hD' : 1e-15 < toR q.d := lt_of_lt_of_le (by norm_num) hD
  have T1 := hq.t_low
  have T2 := hq.t_high
  have T0 : 0 < toR q.t := by linarith
  have hP : Present (xr q.x) := by
    obtain ⟨k, hk, hx⟩ := hq.x_big
    exact ⟨k, hk, by rw [xr_get]; exact le_trans (by norm_num) hx⟩
  have v0 : 0 ≤ invRhoR (fracs q) := by
    obtain ⟨k, hk, hx⟩ := hq.x_big
    rw [eV]
    have v0 := vr_low (x := xr q.x) hk (by rw [xr_get]; exact hx)
    norm_num at v0
    linarith
  have δ0 := mul_nonneg D0.le v0
  have hx0 : ∀ i : Fin 22, 1 ≤ i.1 → 0 ≤ fracs q i := fun i _ => le_max_right _ _
  have hτ' : 0 < Tr (fracs q) / toR q.t := by rw [eT]; exact hτ
  have S := ok.sums b.hi b.hj hx0 s2 hτ' b.u0 b.u1 b.r0 b.r1
  have F := t.fin_of (List.all_eq_true.1 (List.all_eq_true.1 ok.fin i (List.mem_range.2 b.hi)) j (List.mem_range.2 b.hj))
  have w0 : 0 ≤ toR q.d * invRhoR (fracs q) * (Tr (fracs q) / toR q.t) ^ (t0 : ℝ) := mul_nonneg δ0 (Real.rpow_nonneg hτ'.le _)
  have wl := b.w_le δ0 hτ'
  -- the sums
  obtain ⟨vz, vp, vt, vv⟩ := mix_values (xr q.x) (toR q.d) hτ
  obtain ⟨c1, c2⟩ := Z_close (xr q.x) (D := toR q.d) (T := toR q.t) hτ (by rw [← eV]; exact δ0)
  rw [← Z_congr' e', ← Zabs_congr' e'] at c1
  rw [← dPdD_congr' e', ← dPdDabs_congr' e'] at c2
  have δ0' : 0 ≤ toR q.d * invRhoR (yOf (xr q.x)) := by rw [← eV]; exact δ0
  have r11 : |RS (xr q.x) (fun σ δ => σ.t * σ.f1 δ) (toR q.d * invRhoR (yOf (xr q.x))) (Tr (yOf (xr q.x)) / toR q.t)|
      ≤ res11 (fracs q) (toR q.d) (toR q.t) := by
    refine (abs_RS_le (xr q.x) (facA := fun σ δ => σ.t * σ.f1A δ) δ0' (fun σ σA h => ?_) _).trans (le_of_eq ?_)
    · rw [abs_mul]
      exact mul_le_mul h.t (h.f1 δ0') (abs_nonneg _) ((abs_nonneg _).trans h.t)
    · rw [RA_eq growT11 _ _ hτ, ← eV, ← eT]
      exact (sizes_congr' e' _ _ _ _).symm
  have r20 : |RS (xr q.x) (fun σ _ => σ.t * (σ.t - 1)) (toR q.d * invRhoR (yOf (xr q.x))) (Tr (yOf (xr q.x)) / toR q.t)|
      ≤ res20 (fracs q) (toR q.d) (toR q.t) := by
    refine (abs_RS_le (xr q.x) (facA := fun σ _ => σ.t * (σ.t + 1)) δ0' (fun σ σA h => ?_) _).trans (le_of_eq ?_)
    · rw [abs_mul]
      have h2 : |σ.t - 1| ≤ σA.t + 1 := by
        have := abs_sub σ.t 1
        rw [abs_one] at this
        linarith [h.t]
      exact mul_le_mul h.t h2 (abs_nonneg _) ((abs_nonneg _).trans h.t)
    · rw [RA_eq growT2 _ _ hτ, ← eV, ← eT]
      exact (sizes_congr' e' _ _ _ _).symm
  have pT : pressureT (fracs q) (toR q.d) (toR q.t) = toR q.d * 8.314472 * (GergEos.Z (fracs q) (toR q.d) (toR q.t)
      - RS (xr q.x) (fun σ δ => σ.t * σ.f1 δ) (toR q.d * invRhoR (yOf (xr q.x))) (Tr (yOf (xr q.x)) / toR q.t)) := by
    rw [pressureT_congr' e', pressureT_I hP T0, RT_RS hP, RT_RS hP, Z_congr' e', Z_RS _ _ hτ]
  have hV : heatV (fracs q) (toR q.d) (toR q.t) = 8.314472 * (-I2 m0 (xr q.x) (toR q.t)
      - RS (xr q.x) (fun σ _ => σ.t * (σ.t - 1)) (toR q.d * invRhoR (yOf (xr q.x))) (Tr (yOf (xr q.x)) / toR q.t)) := by
    rw [heatV_congr' e', heatV_I hP hD' T0, RT_RS hP]
    ring
  have i1 : 1.478 * 0.99 ≤ -I2 m0 (xr q.x) (toR q.t) := by
    refine le_trans ?_ (heat_ge (xr q.x) T0)
    refine mul_le_mul_of_nonneg_left (s1.trans (le_of_eq ?_)) (by norm_num)
    exact Finset.sum_congr rfl fun i hi => e' i (Finset.mem_filter.1 hi).2
  have i2 : ideal2 (fracs q) (toR q.t) ≤ 4.43 * -I2 m0 (xr q.x) (toR q.t) := by
    unfold ideal2 I2
    rw [← Finset.sum_neg_distrib, Finset.mul_sum]
    refine Finset.sum_le_sum fun i hi => ?_
    have hi' := (Finset.mem_filter.1 hi).2
    have := mul_le_mul_of_nonneg_left (comp_cond i hi' T0) (hx0 i hi')
    rw [e' i hi'] at this ⊢
    unfold yOf at this ⊢
    split_ifs at this ⊢
    · linarith
    · simp
  have i3 : -I2 m0 (xr q.x) (toR q.t) ≤ 130 := by
    have : -I2 m0 (xr q.x) (toR q.t) ≤ ∑ i : Fin 22 with 1 ≤ i.1, fracs q i * 128.1 := by
      unfold I2
      rw [← Finset.sum_neg_distrib]
      refine Finset.sum_le_sum fun i hi => ?_
      have hi' := (Finset.mem_filter.1 hi).2
      have := mul_le_mul_of_nonneg_left (comp_upper i hi' T0) (hx0 i hi')
      rw [e' i hi'] at this ⊢
      unfold yOf at this ⊢
      split_ifs at this ⊢
      · linarith
      · simp
    rw [← Finset.sum_mul] at this
    norm_num at s2
    linarith
  have zs : GergEos.Zabs (fracs q) (toR q.d) (toR q.t) = 1 + toR q.d * invRhoR (fracs q) * (Tr (fracs q) / toR q.t) ^ (t0 : ℝ)
      * mixAbs q0 Key.hZa (fracs q) (toR q.d * invRhoR (fracs q)) (Tr (fracs q) / toR q.t) := by
    unfold GergEos.Zabs
    rw [sizes_Z _ _ hτ']
  have ps : dPdDabs (fracs q) (toR q.d) (toR q.t) = 1 + toR q.d * invRhoR (fracs q) * (Tr (fracs q) / toR q.t) ^ (t0 : ℝ)
      * mixAbs q0 Key.hPa (fracs q) (toR q.d * invRhoR (fracs q)) (Tr (fracs q) / toR q.t) := by
    unfold dPdDabs
    rw [← sizes_P _ _ hτ']
    ring
  have ts : GergEos.Zabs (fracs q) (toR q.d) (toR q.t) + res11 (fracs q) (toR q.d) (toR q.t)
      = 1 + toR q.d * invRhoR (fracs q) * (Tr (fracs q) / toR q.t) ^ (t0 : ℝ)
      * mixAbs a1 Key.hZa (fracs q) (toR q.d * invRhoR (fracs q)) (Tr (fracs q) / toR q.t) := by
    unfold GergEos.Zabs res11
    rw [← sizes_T _ _ hτ']
    ring
  have vs : res20 (fracs q) (toR q.d) (toR q.t) = toR q.d * invRhoR (fracs q) * (Tr (fracs q) / toR q.t) ^ (t0 : ℝ)
      * mixAbs a2 (fun _ _ => 1) (fracs q) (toR q.d * invRhoR (fracs q)) (Tr (fracs q) / toR q.t) := sizes_V _ _ hτ'
  rw [← Z_congr' e', ← eV, ← eT, ← mixSum_congr e'] at vz
  rw [← dPdD_congr' e', ← eV, ← eT, ← mixSum_congr e'] at vp
  rw [sub_eq_add_neg, add_assoc, ← sub_eq_add_neg, ← eV, ← eT, ← mixSum_congr e'] at vt
  rw [← eV, ← eT, ← mixSum_congr e'] at vv
  have zR : GergEos.Z (fracs q) (toR q.d) (toR q.t)
      = 1 + RS (xr q.x) Shape.f1 (toR q.d * invRhoR (fracs q)) (Tr (fracs q) / toR q.t) := by
    rw [Z_congr' e', Z_RS _ _ hτ, ← eV, ← eT]
  rw [← eV, ← eT] at r11 r20 pT hV
  rw [vz, zs] at c1
  rw [vp, ps] at c2
  rw [vs, vv] at r20
  have c1' := c1
  generalize RS (xr q.x) (fun σ δ => σ.t * σ.f1 δ) (toR q.d * invRhoR (fracs q)) (Tr (fracs q) / toR q.t) = y1 at *
  generalize RS (xr q.x) Shape.f1 (toR q.d * invRhoR (fracs q)) (Tr (fracs q) / toR q.t) = y0 at *
  have hK : (5 : ℝ) ≤ t.kN i j := by exact_mod_cast F.k5
  have hK' : ((t.kN i j : ℕ) : ℝ) ≤ 10000 := by exact_mod_cast F.kM
  have e11 : toR q.d * 8.314472 * (GergEos.Z (fracs q) (toR q.d) (toR q.t) - y1) = toR q.d * 8.314472
      * (1 + toR q.d * invRhoR (fracs q) * (Tr (fracs q) / toR q.t) ^ (t0 : ℝ)
      * mixSum q1 Key.hZ (fracs q) (toR q.d * invRhoR (fracs q)) (Tr (fracs q) / toR q.t)) := by
    rw [← vt, zR]
    ring
  have m3 : |toR q.d * invRhoR (fracs q) * (Tr (fracs q) / toR q.t) ^ (t0 : ℝ)
      * mixSum q1 Key.hZ (fracs q) (toR q.d * invRhoR (fracs q)) (Tr (fracs q) / toR q.t)|
      ≤ toR q.d * invRhoR (fracs q) * (Tr (fracs q) / toR q.t) ^ (t0 : ℝ)
      * mixAbs a1 Key.hZa (fracs q) (toR q.d * invRhoR (fracs q)) (Tr (fracs q) / toR q.t) := by
    have k1 : toR q.d * invRhoR (fracs q) * (Tr (fracs q) / toR q.t) ^ (t0 : ℝ)
        * mixSum q1 Key.hZ (fracs q) (toR q.d * invRhoR (fracs q)) (Tr (fracs q) / toR q.t) = y0 - y1 := by linarith
    have k2 : |y0| ≤ GergEos.Zabs (fracs q) (toR q.d) (toR q.t) - 1 := by
      rw [zs]
      refine le_trans (le_of_eq ?_) c1
      congr 1
      linarith
    rw [k1]
    have := abs_sub y0 y1
    linarith
  have r0 : 0 ≤ res11 (fracs q) (toR q.d) (toR q.t) := (abs_nonneg _).trans r11
  have cb := fun f => t.comb_nonneg f i j
  obtain ⟨F1, F2, F3, F4⟩ := mixcond_finish (V := ideal2 (fracs q) (toR q.t) + res20 (fracs q) (toR q.d) (toR q.t)) D0 hD D1 T1 T2 w0 wl hK hK'
    (cb Thr.z) (cb Thr.p) (cb Thr.t) (cb Thr.v) (cb Thr.za) (cb Thr.pa) (cb Thr.ta) (cb Thr.va)
    S.z S.p S.pt S.v S.za S.pa S.ta S.va (by simpa using c1) (by simpa using c2) m3 r20 F.va F.pa F.ta (by linarith) F.fz F.fp F.ft F.fv
    i1 i3 (by rw [vs]; linarith)
  · refine ⟨hK', ?_, ?_, ?_, ?_⟩
    · rw [vz, zs]; exact F1
    · unfold pressureD; rw [vp, ps]; exact F2
    · unfold pressureTAbs; rw [pT, e11, ts]; exact F3
    · unfold heatVAbs; rw [hV, vv]; exact F4

end Aga8.Gerg
