import Verif.Lemmas.GergErrLow
import Verif.Lemmas.GergErrEnergy
import Verif.Lemmas.GergHeat
import Verif.Lemmas.GergErrPure2
import Verif.Spec.CondError

/-! # GERG-2008 at low density is well conditioned -/

set_option linter.unusedSectionVars false

namespace Aga8.GergEos

theorem pure_low_sumT : ∀ k : Fin 22, ((pureTerms.getD k.1 []).map fun a => a.b0 * (|a.t| * (|a.t| + 1))).sum ≤ 31 ∧
    ((pureTerms.getD k.1 []).map fun a => a.b0 * (|a.t| * a.b1)).sum ≤ 11 := by decide +kernel
theorem dep_low_sumT : ∀ i j : Fin 22,
    |(departure i.1 j.1).1| * ((departure i.1 j.1).2.map fun a => a.b0 * (|a.t| * (|a.t| + 1))).sum ≤ 101 ∧
    |(departure i.1 j.1).1| * ((departure i.1 j.1).2.map fun a => a.b0 * (|a.t| * a.b1)).sum ≤ 26 := by decide +kernel

section
variable {x : Fin 22 → ℝ} {δ τ : ℝ}

theorem sizes_lowT (hx : ∀ i : Fin 22, 1 ≤ i.1 → 0 ≤ x i) (hs : ∑ i : Fin 22 with 1 ≤ i.1, x i ≤ 1.01)
    (h0 : 0 ≤ δ) (h1 : δ ≤ 1 / 1000) (t0 : 1 / 100 ≤ τ) (t1 : τ ≤ 1) :
    sizes (fun a _ => |(a.t : ℝ)| * (|(a.t : ℝ)| + 1)) (fun a _ => |(a.t : ℝ)| * (|(a.t : ℝ)| + 1)) x δ τ ≤ 134.4 * δ ∧
    sizes (fun a δ => |(a.t : ℝ)| * a.grow1 δ) (fun a δ => |(a.t : ℝ)| * a.grow1 δ) x δ τ ≤ 37.7 * δ := by
  have h1' : δ ≤ (lowEps : ℝ) := by rw [lowEps]; push_cast; linarith
  have pk : ∀ k : Fin 22, ∀ a ∈ pureTerms.getD k.1 [], _ := fun k a ha =>
    a.low (δ := δ) (τ := τ) (of_decide_eq_true (List.all_eq_true.1 (pure_low_ok k) a ha)).1
      (of_decide_eq_true (List.all_eq_true.1 (pure_low_ok k) a ha)).2 h0 h1' (by linarith) t1
  have dk : ∀ i j : Fin 22, ∀ a ∈ (departure i.1 j.1).2, _ := fun i j a ha =>
    a.low (δ := δ) (τ := τ) (List.all_eq_true.1 (dep_low_ok i j) a ha) h0 h1' t0 t1
  have fin : ∀ {w S : ℝ} {v C : ℚ} {W : ℚ}, S ≤ δ * (C : ℝ) → w = ((|W| : ℚ) : ℝ) → |W| * C ≤ v → w * S ≤ δ * (v : ℝ) := by
    intro w S v C W hS hw hv
    have w0 : 0 ≤ w := by rw [hw]; exact_mod_cast abs_nonneg W
    have v1 : w * (C : ℝ) ≤ (v : ℝ) := by rw [hw]; exact_mod_cast hv
    have := mul_le_mul_of_nonneg_left hS w0
    have := mul_le_mul_of_nonneg_left v1 h0
    linarith
  have q2 : ∀ t : ℚ, 0 ≤ |(t : ℝ)| * (|(t : ℝ)| + 1) ∧ |(t : ℝ)| * (|(t : ℝ)| + 1) ≤ ((|t| * (|t| + 1) : ℚ) : ℝ) := fun t =>
    ⟨by positivity, by push_cast; exact le_refl _⟩
  have q1 : ∀ (t : ℚ) {g : ℝ} {b : ℚ}, 0 ≤ g ∧ g ≤ (b : ℝ) → 0 ≤ |(t : ℝ)| * g ∧ |(t : ℝ)| * g ≤ ((|t| * b : ℚ) : ℝ) := by
    intro t g b h
    refine ⟨mul_nonneg (abs_nonneg _) h.1, ?_⟩
    push_cast
    exact mul_le_mul_of_nonneg_left h.2 (abs_nonneg _)
  constructor
  · have := sizes_low_gen (τ := τ) hx hs h0 (fun a _ => |(a.t : ℝ)| * (|(a.t : ℝ)| + 1)) (fun a _ => |(a.t : ℝ)| * (|(a.t : ℝ)| + 1))
      31 101 (by norm_num) (by norm_num)
      (fun k => (sum_le_cast' fun a ha => low_mul (pk k a ha).1 (q2 a.t)).trans
        (mul_le_mul_of_nonneg_left (Rat.cast_le.2 (pure_low_sumT k).1) h0))
      (fun i j => fin (sum_le_cast' fun a ha => low_mul (dk i j a ha).1 (q2 a.t)) (Rat.cast_abs _).symm
        (dep_low_sumT i j).1)
    refine this.trans (mul_le_mul_of_nonneg_right (by norm_num) h0)
  · have := sizes_low_gen (τ := τ) hx hs h0 (fun a δ => |(a.t : ℝ)| * a.grow1 δ) (fun a δ => |(a.t : ℝ)| * a.grow1 δ)
      11 26 (by norm_num) (by norm_num)
      (fun k => (sum_le_cast' fun a ha => low_mul (pk k a ha).1 (q1 a.t (pk k a ha).2.1)).trans
        (mul_le_mul_of_nonneg_left (Rat.cast_le.2 (pure_low_sumT k).2) h0))
      (fun i j => fin (sum_le_cast' fun a ha => low_mul (dk i j a ha).1 (q1 a.t (dk i j a ha).2.1)) (Rat.cast_abs _).symm
        (dep_low_sumT i j).2)
    refine this.trans (mul_le_mul_of_nonneg_right (by norm_num) h0)

end

end Aga8.GergEos

namespace Aga8.Gerg

open Tab F64 GergEos HeatCapacity Real

attribute [local irreducible] newP pressureP propertiesP

theorem cond_table : ∀ i : Fin 22, 1 ≤ i.1 → 0 ≤ decQ (aget2 n0iD i 3) ∧
    2 + max (-decQ (aget2 n0iD i 5)) 0 + max (-decQ (aget2 n0iD i 7)) 0
      ≤ 3.43 * (decQ (aget2 n0iD i 3) - 1 + min (decQ (aget2 n0iD i 5)) 0 / 2) := by decide +kernel

theorem abs_half {n y : ℝ} : |n| * (y / cosh y) ^ 2 ≤ n * (y / cosh y) ^ 2 + max (-n) 0 := by
  have h := cosh_term_le y
  have h0 : 0 ≤ (y / cosh y) ^ 2 := sq_nonneg _
  generalize (y / cosh y) ^ 2 = c at *
  rcases le_total 0 n with h1 | h1
  · rw [abs_of_nonneg h1]
    linarith [le_max_right (-n) 0]
  · rw [abs_of_nonpos h1, max_eq_left (by linarith)]
    nlinarith

/-- The terms of the heat capacity of a component are at most 4.43 times their sum. -/
theorem comp_cond (i : Fin 22) (hi : 1 ≤ i.1) {T : ℝ} (hT : 0 < T) :
    8.31451 / 8.314472 * (GergEos.ideal.getD (i.1 - 1) Inhabited.default).size2 T ≤ 4.43 * (aget2 m0.n0i i 3 + H2 m0 i T) := by
  obtain ⟨h4, h6, h7, -⟩ := heat_table i hi
  obtain ⟨c3, c⟩ := cond_table i hi
  have e : aget2 m0.n0i i 3 = 8.31451 / 8.314472 * ((decQ (aget2 n0iD i 3) : ℝ) - 1) := by
    rw [m0_fields.2.2.2.2.2.2.2.2.2, n0i0_get i 3 hi (by decide), if_neg (by decide), if_neg (by decide), if_pos rfl,
      ofDec_decQ, l1, RSR_real]
    ring
  obtain ⟨-, -, t3, t4, t5, t6, t7, t8, t9, t10, t11⟩ := ideal_table i hi
  rw [e, H2_eq i hi, ← mul_add]
  unfold GergEos.IdealTerms.size2
  rw [t3, t4, t5, t6, t7, t8, t9, t10, t11]
  have c' : (2 : ℝ) + max (-(decQ (aget2 n0iD i 5) : ℝ)) 0 + max (-(decQ (aget2 n0iD i 7) : ℝ)) 0
      ≤ 3.43 * ((decQ (aget2 n0iD i 3) : ℝ) - 1 + min (decQ (aget2 n0iD i 5) : ℝ) 0 / 2) := by
    have := (Rat.cast_le (K := ℝ)).2 c
    push_cast at this
    norm_num at this ⊢
    exact this
  have r3 : (0 : ℝ) ≤ decQ (aget2 n0iD i 3) := by exact_mod_cast c3
  have r4 : (0 : ℝ) ≤ decQ (aget2 n0iD i 4) := by exact_mod_cast h4
  have r6 : (0 : ℝ) ≤ decQ (aget2 n0iD i 6) := by exact_mod_cast h6
  have k := terms_ge (n4 := (decQ (aget2 n0iD i 4) : ℝ)) (n5 := (decQ (aget2 n0iD i 5) : ℝ))
    (n6 := (decQ (aget2 n0iD i 6) : ℝ)) (n7 := (decQ (aget2 n0iD i 7) : ℝ))
    (t4 := (decQ (aget2 TH0I i 4) : ℝ)) (t5 := (decQ (aget2 TH0I i 5) : ℝ))
    (t6 := (decQ (aget2 TH0I i 6) : ℝ)) (t7 := (decQ (aget2 TH0I i 7) : ℝ)) (T := T)
    r4 r6 (by exact_mod_cast h7) hT
  have a5 := abs_half (n := (decQ (aget2 n0iD i 5) : ℝ)) (y := (decQ (aget2 TH0I i 5) : ℝ) / T)
  have a7 := abs_half (n := (decQ (aget2 n0iD i 7) : ℝ)) (y := (decQ (aget2 TH0I i 7) : ℝ) / T)
  rw [mul_left_comm]
  refine mul_le_mul_of_nonneg_left ?_ (by norm_num)
  rw [abs_of_nonneg r3, abs_of_nonneg r4, abs_of_nonneg r6]
  generalize (decQ (aget2 n0iD i 4) : ℝ) * _ = A4 at *
  generalize (decQ (aget2 n0iD i 6) : ℝ) * _ = A6 at *
  generalize (decQ (aget2 n0iD i 5) : ℝ) * _ = A5 at *
  generalize (decQ (aget2 n0iD i 7) : ℝ) * _ = A7 at *
  generalize |(decQ (aget2 n0iD i 5) : ℝ)| * _ = B5 at *
  generalize |(decQ (aget2 n0iD i 7) : ℝ)| * _ = B7 at *
  norm_num at *
  linarith

/-- And at least their sum; they are bounded. -/
theorem comp_upper (i : Fin 22) (hi : 1 ≤ i.1) {T : ℝ} (hT : 0 < T) : aget2 m0.n0i i 3 + H2 m0 i T ≤ 128.1 := by
  obtain ⟨i2, -, -, h4, h5, h6, h7⟩ := ideal_bnds i hi
  have s := size2_le _ hT h4 h5 h6 h7
  have i2' : ((IdealTerms.bnd2 (ideal.getD (i.1 - 1) Inhabited.default) : ℚ) : ℝ) ≤ 128 := by exact_mod_cast i2
  replace s := s.trans i2'
  have e : aget2 m0.n0i i 3 = 8.31451 / 8.314472 * ((decQ (aget2 n0iD i 3) : ℝ) - 1) := by
    rw [m0_fields.2.2.2.2.2.2.2.2.2, n0i0_get i 3 hi (by decide), if_neg (by decide), if_neg (by decide), if_pos rfl,
      ofDec_decQ, l1, RSR_real]
    ring
  obtain ⟨-, -, t3, t4, t5, t6, t7, t8, t9, t10, t11⟩ := ideal_table i hi
  rw [e, H2_eq i hi, ← mul_add]
  unfold GergEos.IdealTerms.size2 at s
  rw [t3, t4, t5, t6, t7, t8, t9, t10, t11] at s
  have m : ∀ n y : ℝ, n * y ^ 2 ≤ |n| * y ^ 2 ∧ 0 ≤ |n| * y ^ 2 := fun n y =>
    ⟨mul_le_mul_of_nonneg_right (le_abs_self n) (sq_nonneg _), by positivity⟩
  have m3 := le_abs_self (decQ (aget2 n0iD i 3) : ℝ)
  have p3 := abs_nonneg (decQ (aget2 n0iD i 3) : ℝ)
  have m4 := m (decQ (aget2 n0iD i 4)) ((decQ (aget2 TH0I i 4) : ℝ) / T / sinh ((decQ (aget2 TH0I i 4) : ℝ) / T))
  have m5 := m (decQ (aget2 n0iD i 5)) ((decQ (aget2 TH0I i 5) : ℝ) / T / cosh ((decQ (aget2 TH0I i 5) : ℝ) / T))
  have m6 := m (decQ (aget2 n0iD i 6)) ((decQ (aget2 TH0I i 6) : ℝ) / T / sinh ((decQ (aget2 TH0I i 6) : ℝ) / T))
  have m7 := m (decQ (aget2 n0iD i 7)) ((decQ (aget2 TH0I i 7) : ℝ) / T / cosh ((decQ (aget2 TH0I i 7) : ℝ) / T))
  clear t3 t4 t5 t6 t7 t8 t9 t10 t11 h4 h5 h6 h7 i2 i2' e m
  norm_num at s ⊢
  linarith

/-- The last step: reals only. -/
theorem cond_finish {D T z y1 y2 d C V P : ℝ} (D0 : 0 < D) (hD : 1e-4 ≤ D) (D1 : D ≤ 1000) (T1 : 1 ≤ T) (T2 : T ≤ 10000)
    (hZ : -(1.0295 - 1) ≤ z - 1 ∧ z - 1 ≤ 1.0295 - 1) (hd : -(1.118 - 1) ≤ d - 1 ∧ d - 1 ≤ 1.118 - 1)
    (h1 : -0.0377 ≤ y1 ∧ y1 ≤ 0.0377) (h2 : -0.1344 ≤ y2 ∧ y2 ≤ 0.1344) (i1 : 1.478 * 0.99 ≤ C) (i3 : C ≤ 130)
    (j3 : V ≤ 8.314472 * (4.43 * C + 0.1344)) (j4 : P ≤ D * 8.314472 * (1.0295 + 0.0377)) :
    1.0295 ≤ 5 * z ∧ 1e-8 ≤ z ∧ z ≤ 1e20 ∧ (∀ s, s ≤ 8.314472 * T * 1.118 → s ≤ 5 * (8.314472 * T * d)) ∧
    1e-8 ≤ 8.314472 * T * d ∧ 8.314472 * T * d ≤ 1e20 ∧
    WellSized (D * 8.314472 * (z - y1)) P 5 ∧ WellSized (8.314472 * (C - y2)) V 5 := by
  norm_num at hZ hd h1 h2 i1 j3 j4 hD ⊢
  have a1 : 1 * (4 / 5) ≤ T * d := mul_le_mul T1 (by linarith) (by norm_num) (by linarith)
  have a2 : T * d ≤ 10000 * 2 := mul_le_mul T2 (by linarith) (by linarith) (by norm_num)
  have a3 : D * (9 / 10) ≤ D * (z - y1) := mul_le_mul_of_nonneg_left (by linarith) D0.le
  have a4 : D * (z - y1) ≤ D * 2 := mul_le_mul_of_nonneg_left (by linarith) D0.le
  have a5 : T * (4 / 5) ≤ T * d := mul_le_mul_of_nonneg_left (by linarith) (by linarith)
  refine ⟨by linarith, by linarith, by linarith, fun s hs => by linarith, by linarith, by linarith, ?_, ?_⟩
  · refine ⟨?_, ?_, ?_⟩
    · linarith
    · norm_num; linarith
    · norm_num; linarith
  · refine ⟨?_, ?_, ?_⟩
    · linarith
    · norm_num; linarith
    · norm_num; linarith

variable [Libm] {q : Pub Float}

/-- At low density, above the reducing temperature, nothing loses more than a factor 5 to cancellation. -/
theorem conditioned_low (hL : LibmAccurate) (hq : ErrDomain q) (s1 : 0.99 ≤ ∑ i : Fin 22 with 1 ≤ i.1, fracs q i)
    (s2 : ∑ i : Fin 22 with 1 ≤ i.1, fracs q i ≤ 1.01) (hT : Tr (fracs q) ≤ toR q.t) (hD : 1e-4 ≤ toR q.d)
    (hδ : toR q.d * invRhoR (fracs q) ≤ 1 / 1000) : Conditioned (fracs q) (toR q.d) (toR q.t) 5 := by
  have hτ : 0 < Tr (yOf (xr q.x)) / toR q.t := tau_pos (q := q) hL hq
  have e' : ∀ i : Fin 22, 1 ≤ i.1 → fracs q i = yOf (xr q.x) i := fracs_eq (okX_of hq)
  have eV : invRhoR (fracs q) = invRhoR (yOf (xr q.x)) := reducing_congr' e' _ _
  have eT : Tr (fracs q) = Tr (yOf (xr q.x)) := reducing_congr' e' _ _
  have D0 : 0 < toR q.d := lt_of_lt_of_le (by norm_num) hD
  have D1 : toR q.d ≤ 1000 := by
    rcases hq.d_rng with h | h
    · rw [h]; norm_num
    · exact h.2
  have hD' : 1e-15 < toR q.d := lt_of_lt_of_le (by norm_num) hD
  have T1 := hq.t_low
  have T2 := hq.t_high
  have T0 : 0 < toR q.t := by linarith
  have hP : Present (xr q.x) := by
    obtain ⟨k, hk, hx⟩ := hq.x_big
    exact ⟨k, hk, by rw [xr_get]; exact le_trans (by norm_num) hx⟩
  have v0 : 0 ≤ invRhoR (fracs q) := by
    obtain ⟨k, hk, hx⟩ := hq.x_big
    rw [eV]
    have v0 := vr_low (x := xr q.x) hk (by rw [xr_get]; exact hx)
    norm_num at v0
    linarith
  have δ0 := mul_nonneg D0.le v0
  have hx0 : ∀ i : Fin 22, 1 ≤ i.1 → 0 ≤ fracs q i := fun i _ => le_max_right _ _
  have τ0 : 1 / 100 ≤ Tr (fracs q) / toR q.t := by rw [le_div_iff₀ T0]; linarith [hq.t_red1]
  have τ1 : Tr (fracs q) / toR q.t ≤ 1 := (div_le_one T0).2 hT
  obtain ⟨b1, b2⟩ := sizes_low (x := fracs q) (τ := Tr (fracs q) / toR q.t) hx0 s2 δ0 hδ τ0 τ1
  obtain ⟨b3, b4⟩ := sizes_lowT (x := fracs q) (τ := Tr (fracs q) / toR q.t) hx0 s2 δ0 hδ τ0 τ1
  obtain ⟨c1, c2⟩ := Z_close (xr q.x) (D := toR q.d) (T := toR q.t) hτ (by rw [← eV]; exact δ0)
  rw [← Z_congr' e', ← Zabs_congr' e'] at c1
  rw [← dPdD_congr' e', ← dPdDabs_congr' e'] at c2
  have z : GergEos.Zabs (fracs q) (toR q.d) (toR q.t) ≤ 1.0295 := by
    unfold GergEos.Zabs
    norm_num at *
    linarith
  have d : dPdDabs (fracs q) (toR q.d) (toR q.t) ≤ 1.118 := by
    unfold dPdDabs
    norm_num at *
    linarith
  have δ0' : 0 ≤ toR q.d * invRhoR (yOf (xr q.x)) := by rw [← eV]; exact δ0
  -- the two sums with temperature derivatives
  have r11 : |RS (xr q.x) (fun σ δ => σ.t * σ.f1 δ) (toR q.d * invRhoR (yOf (xr q.x))) (Tr (yOf (xr q.x)) / toR q.t)|
      ≤ res11 (fracs q) (toR q.d) (toR q.t) := by
    refine (abs_RS_le (xr q.x) (facA := fun σ δ => σ.t * σ.f1A δ) δ0' (fun σ σA h => ?_) _).trans (le_of_eq ?_)
    · rw [abs_mul]
      exact mul_le_mul h.t (h.f1 δ0') (abs_nonneg _) ((abs_nonneg _).trans h.t)
    · rw [RA_eq growT11 _ _ hτ, ← eV, ← eT]
      exact (sizes_congr' e' _ _ _ _).symm
  have r20 : |RS (xr q.x) (fun σ _ => σ.t * (σ.t - 1)) (toR q.d * invRhoR (yOf (xr q.x))) (Tr (yOf (xr q.x)) / toR q.t)|
      ≤ res20 (fracs q) (toR q.d) (toR q.t) := by
    refine (abs_RS_le (xr q.x) (facA := fun σ _ => σ.t * (σ.t + 1)) δ0' (fun σ σA h => ?_) _).trans (le_of_eq ?_)
    · rw [abs_mul]
      have h2 : |σ.t - 1| ≤ σA.t + 1 := by
        have := abs_sub σ.t 1
        rw [abs_one] at this
        linarith [h.t]
      exact mul_le_mul h.t h2 (abs_nonneg _) ((abs_nonneg _).trans h.t)
    · rw [RA_eq growT2 _ _ hτ, ← eV, ← eT]
      exact (sizes_congr' e' _ _ _ _).symm
  have u11 : res11 (fracs q) (toR q.d) (toR q.t) ≤ 0.0377 := by
    unfold res11; norm_num at *; linarith
  have u20 : res20 (fracs q) (toR q.d) (toR q.t) ≤ 0.1344 := by
    unfold res20; norm_num at *; linarith
  have pT : pressureT (fracs q) (toR q.d) (toR q.t) = toR q.d * 8.314472 * (GergEos.Z (fracs q) (toR q.d) (toR q.t)
      - RS (xr q.x) (fun σ δ => σ.t * σ.f1 δ) (toR q.d * invRhoR (yOf (xr q.x))) (Tr (yOf (xr q.x)) / toR q.t)) := by
    rw [pressureT_congr' e', pressureT_I hP T0, RT_RS hP, RT_RS hP, Z_congr' e', Z_RS _ _ hτ]
  have hV : heatV (fracs q) (toR q.d) (toR q.t) = 8.314472 * (-I2 m0 (xr q.x) (toR q.t)
      - RS (xr q.x) (fun σ _ => σ.t * (σ.t - 1)) (toR q.d * invRhoR (yOf (xr q.x))) (Tr (yOf (xr q.x)) / toR q.t)) := by
    rw [heatV_congr' e', heatV_I hP hD' T0, RT_RS hP]
    ring
  have i1 : 1.478 * 0.99 ≤ -I2 m0 (xr q.x) (toR q.t) := by
    refine le_trans ?_ (heat_ge (xr q.x) T0)
    refine mul_le_mul_of_nonneg_left (s1.trans (le_of_eq ?_)) (by norm_num)
    exact Finset.sum_congr rfl fun i hi => e' i (Finset.mem_filter.1 hi).2
  have i2 : ideal2 (fracs q) (toR q.t) ≤ 4.43 * -I2 m0 (xr q.x) (toR q.t) := by
    unfold ideal2 I2
    rw [← Finset.sum_neg_distrib, Finset.mul_sum]
    refine Finset.sum_le_sum fun i hi => ?_
    have hi' := (Finset.mem_filter.1 hi).2
    have := mul_le_mul_of_nonneg_left (comp_cond i hi' T0) (hx0 i hi')
    rw [e' i hi'] at this ⊢
    unfold yOf at this ⊢
    split_ifs at this ⊢
    · linarith
    · simp
  have i3 : -I2 m0 (xr q.x) (toR q.t) ≤ 130 := by
    have : -I2 m0 (xr q.x) (toR q.t) ≤ ∑ i : Fin 22 with 1 ≤ i.1, fracs q i * 128.1 := by
      unfold I2
      rw [← Finset.sum_neg_distrib]
      refine Finset.sum_le_sum fun i hi => ?_
      have hi' := (Finset.mem_filter.1 hi).2
      have := mul_le_mul_of_nonneg_left (comp_upper i hi' T0) (hx0 i hi')
      rw [e' i hi'] at this ⊢
      unfold yOf at this ⊢
      split_ifs at this ⊢
      · linarith
      · simp
    rw [← Finset.sum_mul] at this
    norm_num at s2
    linarith
  have hZ := abs_le.1 (c1.trans (sub_le_sub_right z 1))
  have hd := abs_le.1 (c2.trans (sub_le_sub_right d 1))
  have h11 := abs_le.1 (r11.trans u11)
  have h20 := abs_le.1 (r20.trans u20)
  have j3 : heatVAbs (fracs q) (toR q.d) (toR q.t) ≤ 8.314472 * (4.43 * -I2 m0 (xr q.x) (toR q.t) + 0.1344) := by
    unfold heatVAbs
    exact mul_le_mul_of_nonneg_left (add_le_add i2 u20) (by norm_num)
  have j4 : pressureTAbs (fracs q) (toR q.d) (toR q.t) ≤ toR q.d * 8.314472 * (1.0295 + 0.0377) := by
    unfold pressureTAbs
    exact mul_le_mul_of_nonneg_left (add_le_add z u11) (by positivity)
  have w := cond_finish D0 hD D1 T1 T2 hZ hd h11 h20 i1 i3 j3 j4
  rw [← pT, ← hV] at w
  exact ⟨by norm_num, ⟨by linarith [w.1], w.2.1, w.2.2.1⟩,
    ⟨w.2.2.2.1 _ (mul_le_mul_of_nonneg_left d (by positivity)), w.2.2.2.2.1, w.2.2.2.2.2.1⟩, w.2.2.2.2.2.2.1, w.2.2.2.2.2.2.2⟩

end Aga8.Gerg
