import Verif.Lemmas.GergErrEos
import Verif.Lemmas.GergHist

/-! # Rounding errors of a new object's compression factor, pressure and density derivative -/

set_option linter.unusedSectionVars false

namespace Aga8.Gerg

open Tab F64 GergEos
open Detail (ap0 ap1 ap2)

attribute [local irreducible] newP pressureP propertiesP

/-! ## Fractions that agree for the components -/

section congr
variable {x y : Fin 22 → ℝ} (h : ∀ i : Fin 22, 1 ≤ i.1 → x i = y i)
include h

theorem reducing_congr' (Y B : Fin 22 → Fin 22 → ℝ) : reducing Y B x = reducing Y B y := by
  unfold reducing
  refine Finset.sum_congr rfl fun i hi => ?_
  have hi : 1 ≤ i.1 := (Finset.mem_filter.1 hi).2
  rw [h i hi]
  congr 1
  refine Finset.sum_congr rfl fun j hj => ?_
  have hj : i < j := (Finset.mem_filter.1 hj).2
  have hj' : i.1 < j.1 := hj
  rw [h j (by omega)]

theorem alphaR_congr' (δ τ : ℝ) : alphaR x δ τ = alphaR y δ τ := by
  unfold alphaR
  congr 1
  · refine Finset.sum_congr rfl fun i hi => ?_
    rw [h i (Finset.mem_filter.1 hi).2]
  · refine Finset.sum_congr rfl fun i hi => ?_
    have hi : 1 ≤ i.1 := (Finset.mem_filter.1 hi).2
    refine Finset.sum_congr rfl fun j hj => ?_
    have hj : i < j := (Finset.mem_filter.1 hj).2
    have hj' : i.1 < j.1 := hj
    rw [h i hi, h j (by omega)]

theorem sizes_congr' (g : PureTerm → ℝ → ℝ) (g' : DepTerm → ℝ → ℝ) (δ τ : ℝ) : sizes g g' x δ τ = sizes g g' y δ τ := by
  unfold sizes
  congr 1
  · refine Finset.sum_congr rfl fun i hi => ?_
    rw [h i (Finset.mem_filter.1 hi).2]
  · refine Finset.sum_congr rfl fun i hi => ?_
    have hi : 1 ≤ i.1 := (Finset.mem_filter.1 hi).2
    refine Finset.sum_congr rfl fun j hj => ?_
    have hj : i < j := (Finset.mem_filter.1 hj).2
    have hj' : i.1 < j.1 := hj
    rw [h i hi, h j (by omega)]

theorem Z_congr' (D T : ℝ) : GergEos.Z x D T = GergEos.Z y D T := by
  unfold GergEos.Z
  rw [show Tr x = Tr y from reducing_congr' h _ _, show invRhoR x = invRhoR y from reducing_congr' h _ _]
  simp only [alphaR_congr' h]

theorem Zabs_congr' (D T : ℝ) : GergEos.Zabs x D T = GergEos.Zabs y D T := by
  unfold GergEos.Zabs
  rw [show Tr x = Tr y from reducing_congr' h _ _, show invRhoR x = invRhoR y from reducing_congr' h _ _, sizes_congr' h]

theorem dPdD_congr' (D T : ℝ) : dPdD x D T = dPdD y D T := by
  unfold dPdD
  simp only [Z_congr' h]

theorem dPdDabs_congr' (D T : ℝ) : dPdDabs x D T = dPdDabs y D T := by
  unfold dPdDabs
  rw [show Tr x = Tr y from reducing_congr' h _ _, show invRhoR x = invRhoR y from reducing_congr' h _ _, sizes_congr' h,
    sizes_congr' h]

end congr

theorem fracs_eq {q : Pub Float} (hx : OkX q.x) (i : Fin 22) (hi : 1 ≤ i.1) : fracs q i = yOf (xr q.x) i := by
  unfold fracs yOf
  rw [xr_get]
  rcases hx.rng i hi with h | h
  · rw [max_eq_right h, if_neg (by norm_num; linarith)]
  · rw [max_eq_left (by linarith [h.1, show (0 : ℝ) < 1 / 10 ^ 10 by norm_num]), if_pos (by norm_num; linarith [h.1])]

/-! ## The equation as the residual sums -/

theorem Z_RS (x : Vector ℝ 22) {T : ℝ} (D : ℝ) (hτ : 0 < Tr (yOf x) / T) :
    GergEos.Z (yOf x) D T = 1 + RS x Shape.f1 (D * invRhoR (yOf x)) (Tr (yOf x) / T) := by
  unfold GergEos.Z
  rw [(RS_deriv x _ _).2]
  congr 3
  funext δ
  rw [RS_eq x δ hτ]

theorem Zabs_RA (x : Vector ℝ 22) {T : ℝ} (D : ℝ) (hτ : 0 < Tr (yOf x) / T) :
    GergEos.Zabs (yOf x) D T = 1 + RA x Shape.f1A (D * invRhoR (yOf x)) (Tr (yOf x) / T) := by
  unfold GergEos.Zabs
  rw [RA_eq grow1_ok x _ hτ]

theorem dPdDabs_RA (x : Vector ℝ 22) {T : ℝ} (D : ℝ) (hτ : 0 < Tr (yOf x) / T) :
    dPdDabs (yOf x) D T = 1 + 2 * RA x Shape.f1A (D * invRhoR (yOf x)) (Tr (yOf x) / T)
      + RA x Shape.f2A (D * invRhoR (yOf x)) (Tr (yOf x) / T) := by
  unfold dPdDabs
  rw [RA_eq grow1_ok x _ hτ, RA_eq grow2_ok x _ hτ]

theorem Shape.deriv_f1 (σ : Shape) (δ : ℝ) : ∃ f', HasDerivAt σ.f1 f' δ ∧ δ * f' = σ.l2 δ := by
  have h1 := ((hasDerivAt_pow σ.k δ).const_mul (σ.k : ℝ)).const_sub (σ.n : ℝ)
  have h2 := (((hasDerivAt_pow 2 δ).const_mul σ.c).const_mul (2 : ℝ))
  have h3 := (hasDerivAt_id δ).const_mul σ.e
  refine ⟨_, (h1.add h2).add h3, ?_⟩
  unfold Shape.l2
  have hp : δ * (σ.k * δ ^ (σ.k - 1)) = σ.k * δ ^ σ.k := by
    cases σ.k with
    | zero => simp
    | succ n => rw [Nat.add_sub_cancel, pow_succ]; ring
  have e : ((2 : ℕ) : ℝ) * δ ^ (2 - 1) = 2 * δ := by norm_num
  rw [e]
  linear_combination (-(σ.k : ℝ)) * hp

theorem RS_deriv1 (x : Vector ℝ 22) (δ τ : ℝ) : ∃ r', HasDerivAt (fun δ => RS x Shape.f1 δ τ) r' δ ∧
    δ * r' = RS x Shape.f1 δ τ + RS x Shape.f2 δ τ := by
  choose φ' h1 h2 using fun ι : Ix => (shape m0 ι).deriv_phi δ
  choose f' h3 h4 using fun ι : Ix => (shape m0 ι).deriv_f1 δ
  have h : HasDerivAt (fun δ => RS x Shape.f1 δ τ)
      (∑ ι : Ix, coef x ι * Real.exp ((shape m0 ι).t * Real.log τ) * (φ' ι * (shape m0 ι).f1 δ + (shape m0 ι).phi δ * f' ι)) δ :=
    HasDerivAt.fun_sum fun ι _ => ((h1 ι).mul (h3 ι)).const_mul _
  refine ⟨_, h, ?_⟩
  unfold RS
  rw [Finset.mul_sum, ← Finset.sum_add_distrib]
  refine Finset.sum_congr rfl fun ι _ => ?_
  unfold Shape.f2
  linear_combination (coef x ι * Real.exp ((shape m0 ι).t * Real.log τ)) *
    ((shape m0 ι).f1 δ * h2 ι + (shape m0 ι).phi δ * h4 ι)

theorem dPdD_RS (x : Vector ℝ 22) {T : ℝ} (D : ℝ) (hτ : 0 < Tr (yOf x) / T) :
    dPdD (yOf x) D T = 1 + 2 * RS x Shape.f1 (D * invRhoR (yOf x)) (Tr (yOf x) / T)
      + RS x Shape.f2 (D * invRhoR (yOf x)) (Tr (yOf x) / T) := by
  unfold dPdD
  simp only [Z_RS x _ hτ]
  obtain ⟨r', h1, h2⟩ := RS_deriv1 x (D * invRhoR (yOf x)) (Tr (yOf x) / T)
  have h3 : HasDerivAt (fun D => D * invRhoR (yOf x)) (invRhoR (yOf x)) D := by
    simpa using (hasDerivAt_id D).mul_const (invRhoR (yOf x))
  have h4 := (hasDerivAt_id D).mul ((h1.comp D h3).const_add 1)
  have h5 : HasDerivAt (fun D => D * (1 + RS x Shape.f1 (D * invRhoR (yOf x)) (Tr (yOf x) / T))) _ D := h4
  rw [h5.deriv]
  simp only [id, Function.comp]
  linear_combination h2

/-! ## A new object -/

theorem GVIJ_diag_low : ∀ i : Fin 22, 1 ≤ i.1 → 1 / 20 ≤ decQ (aget2 GVIJ i i) := by decide +kernel

/-- The reciprocal reducing density is not small. -/
theorem vr_low {x : Vector ℝ 22} {k : Fin 22} (hk : 1 ≤ k.1) (hx : 1 / 100 ≤ aget x k) :
    5e-6 ≤ GergEos.invRhoR (yOf x) := by
  have hxk : 1e-15 < aget x k := lt_of_lt_of_le (by norm_num) hx
  have hG : ∀ i j : Fin 22, 1 ≤ i.1 → i.1 ≤ j.1 → 0 < (tab2 GVIJ i j : ℝ) := fun i j hi hj => tab2_pos (GVIJ_pos i j hi hj)
  have hg : (1 / 20 : ℝ) ≤ tab2 GVIJ k k := by
    rw [tab2_decQ]
    have := GVIJ_diag_low k hk
    have h' : ((1 / 20 : ℚ) : ℝ) ≤ (decQ (aget2 GVIJ k k) : ℝ) := by exact_mod_cast this
    have e : ((1 / 20 : ℚ) : ℝ) = 1 / 20 := by norm_num
    rwa [e] at h'
  rw [GergEos.invRhoR]
  unfold GergEos.reducing
  have hnn : ∀ i, 0 ≤ yOf x i := by
    intro i
    unfold yOf
    split
    · rename_i h; exact le_of_lt (lt_trans (by norm_num) h)
    · exact le_refl _
  refine le_trans ?_ (Finset.single_le_sum (f := fun i : Fin 22 => yOf x i ^ 2 * GergEos.val GVIJ[i.1][i.1]
    + ∑ j with i < j, 2 * yOf x i * yOf x j * GergEos.val GVIJ[i.1][j.1]
      * ((yOf x i + yOf x j) / (((GergEos.params i.1 j.1).1 : ℝ) ^ 2 * yOf x i + yOf x j))) ?_
    (Finset.mem_filter.2 ⟨Finset.mem_univ k, hk⟩))
  · have hs : 0 ≤ ∑ j with k < j, 2 * yOf x k * yOf x j * GergEos.val GVIJ[k.1][j.1]
      * ((yOf x k + yOf x j) / (((GergEos.params k.1 j.1).1 : ℝ) ^ 2 * yOf x k + yOf x j)) := by
      refine Finset.sum_nonneg fun j hj => ?_
      have hkj : k < j := by simpa using hj
      have h1 : 0 < GergEos.val GVIJ[k.1][j.1] := by rw [val_eq]; exact hG k j hk (le_of_lt hkj)
      have := hnn k
      have := hnn j
      positivity
    have hv : (1 / 20 : ℝ) ≤ GergEos.val GVIJ[k.1][k.1] := by rw [val_eq]; exact hg
    have hy : yOf x k = aget x k := if_pos hxk
    have h2 : (1 / 100 : ℝ) ^ 2 * (1 / 20) ≤ yOf x k ^ 2 * GergEos.val GVIJ[k.1][k.1] := by
      rw [hy]
      exact mul_le_mul (pow_le_pow_left₀ (by norm_num) hx 2) hv (by norm_num) (by positivity)
    norm_num at h2 ⊢
    linarith
  · intro i hi
    simp only [Finset.mem_filter, Finset.mem_univ, true_and] at hi
    have h0 : 0 < GergEos.val GVIJ[i.1][i.1] := by rw [val_eq]; exact hG i i hi (le_refl _)
    have hs : 0 ≤ ∑ j with i < j, 2 * yOf x i * yOf x j * GergEos.val GVIJ[i.1][j.1]
      * ((yOf x i + yOf x j) / (((GergEos.params i.1 j.1).1 : ℝ) ^ 2 * yOf x i + yOf x j)) := by
      refine Finset.sum_nonneg fun j hj => ?_
      have hij : i < j := by simpa using hj
      have h1 : 0 < GergEos.val GVIJ[i.1][j.1] := by rw [val_eq]; exact hG i j hi (le_of_lt hij)
      have := hnn i
      have := hnn j
      positivity
    have := hnn i
    positivity

section fresh
variable [Libm]

theorem chkTiny : decChk false 24 0 ⟨1, 7⟩ = true := by decide +kernel

/-- A number of at least 1/100 differs from zero as far as the caches are concerned. -/
theorem far1 {a : Float} (ha : IsFinite a) (h : 1 / 100 ≤ toR a) (h2 : toR a ≤ 2 ^ 14) :
    FOps.lt (f% 0.0000001 : Float) (FOps.abs (a - f% 0.0)) = true := by
  have A : Ap a (toR a) |toR a| 0 7 14 := Ap.exact ha (Or.inr (by
    rw [abs_of_pos (by linarith)]; exact ⟨by linarith, h2⟩))
  have B := A.sub (ap0 0 0 0)
  have C := Ap.litPos chkTiny (by norm_num)
  have e2 : (FOps.ofDec (Dec.mk 1 7) : Float) = litF ⟨1, 7⟩ := rfl
  rw [flt, fabs, e2, lt_toR C.fin (fin_abs B.fin), toR_abs]
  have e : decR ⟨1, 7⟩ = 1 / 10 ^ 7 := by simp [decR]
  have h3 := (abs_le.1 C.err).2
  have h4 := (abs_le.1 B.err).1
  rw [e, uu_eq] at h3
  rw [uu_eq, abs_of_pos (by linarith : 0 < toR a)] at h4
  have h5 := le_abs_self (toR (a - f% 0.0))
  norm_num at h3 h4
  linarith

/-- The reduced density and the logarithm of the reduced inverse temperature of a new object. -/
def delF (q : Pub Float) : Float := q.d / drOf q.x (bin0 : BinPar Float).bvij
def lntauF (q : Pub Float) : Float := FOps.ln (trOf q.x (bin0 : BinPar Float).bvij / q.t)

variable {q : Pub Float}

theorem okX_of (h : ErrDomain q) : OkX q.x := ⟨h.x_fin, fun i hi => (h.x_rng i hi).imp id fun r => ⟨by
  have := r.1; norm_num at this ⊢; linarith, r.2⟩⟩

theorem view_of (h : ErrDomain q) : view (freshOf q) = computedV q.x q.t (params (newP : Gerg Float)) := by
  apply view_fresh
  · obtain ⟨i, hi, hx⟩ := h.x_big
    refine ⟨i, hi, ?_⟩
    rw [aget_fill]
    refine far1 (h.x_fin i hi) hx ?_
    rcases h.x_rng i hi with h | h
    · linarith
    · exact h.2.trans (by norm_num)
  · exact far1 h.t_fin (by linarith [h.t_low]) (h.t_high.trans (by norm_num))

theorem Ap.one_le {a : Float} {α m : ℝ} {k l h : ℕ} (A : Ap a α m k l h) (h1 : 1 ≤ m) : Ap a α m k 0 h :=
  ⟨A.fin, A.mag, A.err, A.rng.imp id fun r => ⟨by linarith, r.2⟩⟩

theorem ar_errFresh (h : ErrDomain q) (i : Int) :
    (alpharP (freshOf q) i).ar = arOf (refresh (freshOf q)) i (delF q) (lntauF q) := by
  rw [ar_alpharP, view_of h]
  unfold delF lntauF computedV termsV
  rw [new_fields.2.2.2.2.2.2.2.2.1]
  rfl

/-- `δ` and `τ` of the equation. -/
noncomputable def dlt (q : Pub Float) : ℝ := toR q.d * GergEos.invRhoR (yOf (xr q.x))
noncomputable def tauR (q : Pub Float) : ℝ := GergEos.Tr (yOf (xr q.x)) / toR q.t

theorem red_eq (h : ErrDomain q) : GergEos.Tr (fracs q) = GergEos.Tr (yOf (xr q.x)) ∧
    GergEos.invRhoR (fracs q) = GergEos.invRhoR (yOf (xr q.x)) :=
  ⟨reducing_congr' (fracs_eq (okX_of h)) _ _, reducing_congr' (fracs_eq (okX_of h)) _ _⟩

theorem ap_t (h : ErrDomain q) : Ap q.t (toR q.t) (toR q.t) 0 0 14 := by
  have h1 := h.t_low
  have := Ap.exact (l := 0) (h := 14) h.t_fin (Or.inr (by
    rw [abs_of_pos (by linarith)]; exact ⟨by linarith, h.t_high.trans (by norm_num)⟩))
  rwa [abs_of_pos (by linarith)] at this

theorem ap_d (h : ErrDomain q) : Ap q.d (toR q.d) (toR q.d) 0 14 10 := by
  have d0 : 0 ≤ toR q.d := by
    rcases h.d_rng with h | h
    · rw [h]
    · have := h.1; norm_num at this; linarith
  have := Ap.exact (l := 14) (h := 10) h.d_fin (by
    rw [abs_of_nonneg d0]
    exact h.d_rng.imp id fun r => ⟨by have := r.1; norm_num at this ⊢; linarith, r.2.trans (by norm_num)⟩)
  rwa [abs_of_nonneg d0] at this

variable (hL : LibmAccurate) (hN : LnAccurate)
include hL

theorem ap_del (h : ErrDomain q) : Ap (delF q) (dlt q) (dlt q) 960 32 71 := by
  have V := ap_vr hL (okX_of h)
  have hb := m0_fields.2.2.2.2.2.2.2.2.1
  have e := vrX_eq (xr q.x)
  rw [hb] at e
  rw [e] at V
  obtain ⟨k, hk, hx⟩ := h.x_big
  have v0 := vr_low (x := xr q.x) hk (by rw [xr_get]; exact hx)
  norm_num at v0
  have hp : 0 < GergEos.invRhoR (yOf (xr q.x)) := by linarith
  have V' := Detail.Ap.rerange (l' := 18) (h' := 61) V ⟨by norm_num; linarith, (V.pos_bounds hp).2⟩
  have hlt : FOps.lt (EPSILON : Float) (redX q.x (bin0 : BinPar Float).bvij).1 = true := by
    have C := Ap.litPos chkEps (by norm_num)
    have e : decR ⟨1, 15⟩ = 1 / 10 ^ 15 := by simp [decR]
    have h3 := (abs_le.1 C.err).2
    rw [e, uu_eq] at h3
    have e2 : (EPSILON : Float) = litF ⟨1, 15⟩ := rfl
    rw [e2, flt, lt_toR C.fin V.fin]
    obtain ⟨b1, -, -⟩ := V'.rel_bounds hp (by norm_num)
    rw [uu_eq] at b1
    norm_num at h3 b1
    linarith
  unfold delF drOf dlt
  rw [if_pos hlt]
  have R := ap1.div V' hp
  have Dd := (ap_d h).div (R.weak (k' := 958) (l' := 61) (h' := 18) (by norm_num) (by norm_num) (by norm_num))
    (by positivity)
  rw [one_div, div_inv_eq_mul] at Dd
  exact Dd.weak (by norm_num) (by norm_num) (by norm_num)

theorem tr_pos' (h : ErrDomain q) : 0 < GergEos.Tr (yOf (xr q.x)) := by
  rw [← trX_eq]
  obtain ⟨k, hk, hx⟩ := h.x_big
  exact Present.tr_pos ⟨k, hk, by rw [xr_get]; exact le_trans (by norm_num) hx⟩

include hN in
theorem ap_lntau (h : ErrDomain q) :
    Ap (lntauF q) (Real.log (tauR q)) (1 + |Real.log (tauR q)|) 962 0 9 := by
  have V := ap_tr hL (okX_of h)
  have hb := m0_fields.2.2.2.2.2.2.2.2.1
  have e := trX_eq (xr q.x)
  unfold trX trOf at e
  rw [hb] at e
  rw [e] at V
  have ht := h.t_low
  have h0 := tr_pos' hL h
  have A := V.div (ap_t h) (by linarith)
  have B := A.ln hN (by positivity)
  exact B.weak (by norm_num) le_rfl le_rfl

include hN in
theorem cl_fresh (h : ErrDomain q) : ∃ ld le, Cl (refresh (freshOf q)) q.x (delF q) (lntauF q) (dlt q) (tauR q) ld le := by
  obtain ⟨r1, r2⟩ := red_eq h
  have ht := h.t_low
  have t1 := h.t_red1
  have t2 := h.t_red2
  have dr := h.d_red
  rw [r1] at t1 t2
  rw [r2] at dr
  have hd : dlt q ≤ 14 / 5 := by unfold dlt; norm_num at dr ⊢; linarith
  obtain ⟨ld, le, D⟩ := DelOk.mk' (ap_del hL h) hd
  have hv := (readV_refresh (freshOf q)).trans (view_of h)
  have hx : (refresh (freshOf q)).x = q.x := pub_xx (pub_refresh (freshOf q))
  rw [hx] at hv
  unfold readV computedV termsV at hv
  obtain ⟨-, -, -, f4, f5, -, -, -, f9, f10⟩ := new_fields (F := Float)
  rw [f4, f5, f9, f10] at hv
  refine ⟨ld, le, ⟨hx, okX_of h, ?_, ?_, ?_, D, ap_lntau hL hN h, ?_, ?_⟩⟩
  · rw [params_refresh]; exact params_setPub newP q
  · intro i k hr
    have e := congrArg (fun v => aget2 (View.taup v) i k) hv
    dsimp only at e
    rw [maskP_get hr, maskP_get hr, aget2_ofFn] at e
    exact e
  · intro m k hr
    have e := congrArg (fun v => aget2 (View.taupijk v) m k) hv
    dsimp only at e
    rw [maskIJ_get hr, maskIJ_get hr, aget2_ofFn] at e
    exact e
  · unfold tauR
    rw [le_div_iff₀ (by linarith)]
    linarith
  · unfold tauR
    rw [div_le_iff₀ (by linarith)]
    linarith

theorem tau_pos (h : ErrDomain q) : 0 < GergEos.Tr (yOf (xr q.x)) / toR q.t :=
  div_pos (tr_pos' hL h) (by linarith [h.t_low])

include hN in
/-- The compression factor. -/
theorem ap_z (h : ErrDomain q) (i : Int) : Ap (f% 1.0 + aget2 (alpharP (freshOf q) i).ar 0 1)
    (GergEos.Z (fracs q) (toR q.d) (toR q.t)) (GergEos.Zabs (fracs q) (toR q.d) (toR q.t)) 3480002 0 181 := by
  obtain ⟨ld, le, C⟩ := cl_fresh hL hN h
  have A := ap_arOf hL C (eadds01 i)
  rw [Z_congr' (fracs_eq (okX_of h)), Zabs_congr' (fracs_eq (okX_of h)), Z_RS _ _ (tau_pos hL h), Zabs_RA _ _ (tau_pos hL h),
    ar_errFresh h]
  have S := (ap1.add A).weak (k' := 3480002) (l' := 995) (h' := 181) (by norm_num) (by norm_num) (by norm_num)
  have a0 := A.nonneg
  unfold dlt tauR at a0 S
  exact Ap.one_le S (by linarith)

include hN in
/-- The density derivative over `R T`. -/
theorem ap_dp (h : ErrDomain q) (i : Int) : Ap (f% 1.0 + f% 2.0 * aget2 (alpharP (freshOf q) i).ar 0 1
      + aget2 (alpharP (freshOf q) i).ar 0 2)
    (dPdD (fracs q) (toR q.d) (toR q.t)) (dPdDabs (fracs q) (toR q.d) (toR q.t)) 3480010 0 183 := by
  obtain ⟨ld, le, C⟩ := cl_fresh hL hN h
  have A := ap_arOf hL C (eadds01 i)
  have B := ap_arOf hL C (eadds02 i)
  rw [dPdD_congr' (fracs_eq (okX_of h)), dPdDabs_congr' (fracs_eq (okX_of h)), dPdD_RS _ _ (tau_pos hL h),
    dPdDabs_RA _ _ (tau_pos hL h), ar_errFresh h]
  have S := ((ap1.add (ap2.mul A)).add B).weak (k' := 3480010) (l' := 995) (h' := 183) (by norm_num) (by norm_num) (by norm_num)
  have a0 := A.nonneg
  have b0 := B.nonneg
  unfold dlt tauR at a0 b0 S
  exact Ap.one_le S (by linarith)

end fresh

end Aga8.Gerg
