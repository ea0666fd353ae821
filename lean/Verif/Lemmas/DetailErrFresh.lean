import Verif.Lemmas.DetailErrAr
import Verif.Lemmas.DetailHist

/-! # Rounding errors of a new object's compression factor and pressure -/

set_option linter.unusedSectionVars false

namespace Aga8.Detail

open FOps Tab F64

variable [Libm]

theorem setPub_par (s : Detail Float) (q : Pub Float) (h : Par s) : Par (setPub s q) := by
  obtain ⟨h1, h2, h3, h4, h5, h6⟩ := h
  exact ⟨h1, h2, h3, h4, h5, h6⟩

theorem fresh_par (q : Pub Float) : Par (freshOf q) := setPub_par newP q ⟨rfl, rfl, rfl, rfl, rfl, rfl⟩

theorem chkTiny : decChk false 24 0 ⟨1, 7⟩ = true := by decide +kernel

/-- A number of at least 1/100 differs from zero as far as the caches are concerned. -/
theorem far0 {a : Float} (ha : IsFinite a) (h : 1 / 100 ≤ toR a) (h2 : toR a ≤ 2 ^ 10) :
    FOps.lt (f% 0.0000001 : Float) (abs (a - f% 0.0)) = true := by
  have A : Ap a (toR a) |toR a| 0 7 10 := Ap.exact ha (Or.inr (by
    rw [abs_of_pos (by linarith)]; exact ⟨by linarith, h2⟩))
  have B := A.sub (ap0 0 0 0)
  have C := Ap.litPos chkTiny (by norm_num)
  have e2 : (FOps.ofDec (Dec.mk 1 7) : Float) = litF ⟨1, 7⟩ := rfl
  rw [flt, fabs, e2, lt_toR C.fin (fin_abs B.fin), toR_abs]
  have e : decR ⟨1, 7⟩ = 1 / 10 ^ 7 := by simp [decR]
  have h3 := (abs_le.1 C.err).2
  have h4 := (abs_le.1 B.err).1
  rw [e, uu_eq] at h3
  rw [uu_eq, abs_of_pos (by linarith : 0 < toR a)] at h4
  have h5 := le_abs_self (toR (a - f% 0.0))
  norm_num at h3 h4
  linarith

variable (hL : LibmAccurate)
include hL

/-- `T^(-u_n)`. -/
theorem ap_tun {t : Float} {T : ℝ} (A : Ap t T T 0 0 10) (hT : 0 < T) (n : Fin 58) :
    Ap (powf t (-tab UN n)) (T ^ (-Eos.c UN n)) (T ^ (-Eos.c UN n)) 26 230 130 := by
  obtain ⟨h1, h2, h3, h4, h5⟩ := apUN n
  have := Ap.powf2 hL A hT (y := (-tab UN n : Float)) (η := -Eos.c UN n) 23 0 13 23 (fin_neg h1)
    (by rw [toR_neg, h2, abs_neg]; exact_mod_cast h5)
    (by rw [toR_neg, h2]; simp) (by push_cast; linarith) (by push_cast; linarith) (by rw [abs_neg]; exact_mod_cast h5)
    (by norm_num) (by norm_num) (by norm_num)
  exact this.weak (by norm_num) (by norm_num) (by norm_num)

/-- The stored terms of a new object are close to those of the equation. -/
theorem close_fresh {q : Pub Float} (hx : OkX q.x) (ht : IsFinite q.t) (t1 : 1 ≤ toR q.t) (t2 : toR q.t ≤ 2 ^ 10)
    (hd : IsFinite q.d) (d1 : toR q.d = 0 ∨ 1 ≤ 2 ^ 14 * toR q.d ∧ toR q.d ≤ 2 ^ 10)
    (hD : Eos.Kcubed (xr q.x) * toR q.d ≤ 3) (r : Vector (Vector Float 4) 4) :
    Close (arTun { x_terms (freshOf q) with ar := r }) (xr q.x) (toR q.d) (toR q.t) := by
  have hv : stored (arTun { x_terms (freshOf q) with ar := r }) = computed (freshOf q) := by
    rw [stored_refresh]
    apply view_fresh
    · obtain ⟨i, hi⟩ := hx.big
      refine ⟨i, ?_⟩
      rw [aget_fill]
      refine far0 (hx.fin i) hi ?_
      rcases hx.rng i with h | h
      · linarith
      · exact h.2.trans (by norm_num)
    · exact far0 ht (by linarith) t2
  have hp := fresh_par q
  have hx' : OkX (freshOf q).x := hx
  have At : Ap q.t (toR q.t) (toR q.t) 0 0 10 := by
    have := Ap.exact (l := 0) (h := 10) ht (Or.inr (by rw [abs_of_pos (by linarith)]; exact ⟨by linarith, t2⟩))
    rwa [abs_of_pos (by linarith)] at this
  have d0 : 0 ≤ toR q.d := by rcases d1 with h | h <;> linarith [h]
  have Ad : Ap q.d (toR q.d) (toR q.d) 0 14 10 := by
    have := Ap.exact (l := 14) (h := 10) hd (by rw [abs_of_nonneg d0]; exact d1)
    rwa [abs_of_nonneg d0] at this
  have ed : (arTun { x_terms (freshOf q) with ar := r }).d = q.d := by
    rw [arTun_eq, x_terms_eq]; split <;> rfl
  have et : (arTun { x_terms (freshOf q) with ar := r }).t = q.t := by
    rw [arTun_eq, x_terms_eq]; split <;> rfl
  have v1 := congrArg View.k3 hv
  have v2 := congrArg View.bs hv
  have v3 := congrArg View.csn hv
  have v4 := congrArg View.tun hv
  unfold stored computed at v1 v2 v3 v4
  dsimp only at v1 v2 v3 v4
  obtain ⟨k1, k2⟩ := ap_k3 hL hp hx'
  refine ⟨?_, k2, ?_, ?_, ?_, ?_, ?_, t1, hD⟩
  · rw [v1]; exact k1
  · intro n
    rw [v2]
    exact ap_bs hL hp hx' n
  · intro n hn
    have h := congrArg (fun w => aget w n) v3
    unfold csnRead csnVec at h
    simp only [aget_ofFn, hn, if_true] at h
    rw [h]
    exact ap_csn hL hp hx' n
  · intro n
    rw [v4]
    unfold tunOf
    rw [aget_ofFn]
    exact ap_tun hL At (by linarith) n
  · rw [ed]; exact Ad
  · rw [et]; exact At

/-- The compression factor as `properties` computes it. -/
theorem ap_z' {s : Detail Float} {x : Fin 21 → ℝ} {D T : ℝ} (H : Close s x D T) (i : Int) :
    Ap (f% 1.0 + aget2 (arOf s i) 0 1 / (RDETAIL * s.t)) (Eos.Z x D T) (Eos.Zabs x D T) 6112966 948 691 := by
  have hT : 0 < T := by linarith [H.T0]
  have := ap1.add ((ap_ar01 hL H i).div (apR.mul H.t) (by positivity))
  rw [← zsum_Z, ← zsum_Zabs]
  have e : ∀ f : Fin 58 → ℝ, (∑ n, 8.31451 * T * f n) / (8.31451 * T) = ∑ n, f n := by
    intro f
    rw [← Finset.mul_sum]
    field_simp
  rw [e, e] at this
  exact this.weak (by norm_num) (by norm_num) (by norm_num)

theorem ap_p' {s : Detail Float} {x : Fin 21 → ℝ} {D T : ℝ} (H : Close s x D T) (i : Int) :
    Ap (s.d * (RDETAIL * s.t) * (f% 1.0 + aget2 (arOf s i) 0 1 / (RDETAIL * s.t))) (D * 8.31451 * T * Eos.Z x D T)
      (D * 8.31451 * T * Eos.Zabs x D T) 6112973 962 715 := by
  have := ((H.d.mul (apR.mul H.t)).mul (ap_z' hL H i)).weak (k' := 6112973) (l' := 962) (h' := 715) (by norm_num) (by norm_num) (by norm_num)
  rwa [← mul_assoc D] at this

end Aga8.Detail
