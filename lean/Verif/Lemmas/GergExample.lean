import Verif.RealArith
import Verif.Lemmas.GergHist

/-! # Concrete GERG inputs, used as the cases shown beside the theorems -/

namespace Aga8.Gerg

/-- The composition array of a pure component. -/
noncomputable def px (k : Fin 22) : Vector ℝ 22 := Vector.ofFn fun i => if i = k then 1 else 0

/-- A pure component at temperature `t`, density `d`, pressure `p`. -/
noncomputable def pureAt (k : Fin 22) (t d p : ℝ) : Pub ℝ :=
  ⟨t, p, d, 0, 0, 0, 0, 0, 0, 0, 0, 0, 0, 0, 0, 0, 0, 0, px k⟩

theorem aget_px (k i : Fin 22) : aget (px k) i = if i = k then 1 else 0 := by
  unfold px; rw [aget_ofFn]

theorem XFar_px {k : Fin 22} (hk : 1 ≤ k.1) : XFar (px k) (fill 22 (f% 0.0 : ℝ)) := by
  refine ⟨k, hk, ?_⟩
  rw [r_lt, lem7, r_abs, aget_fill, l0, aget_px, if_pos rfl]
  norm_num

theorem TFar_real {t u : ℝ} (h : 1e-7 < |t - u|) : TFar t u := by
  unfold TFar
  rw [r_lt, lem7, r_abs]
  exact h

theorem TFar_zero {t : ℝ} (h : 1e-7 < t) : TFar t (f% 0.0 : ℝ) := by
  apply TFar_real
  rw [l0, sub_zero, abs_of_pos (by linarith)]
  exact h

theorem selfDiff_real : SelfDiff ℝ := by
  intro a
  rw [r_lt_false, sub_self, r_abs, abs_zero, lem7]
  norm_num

end Aga8.Gerg
