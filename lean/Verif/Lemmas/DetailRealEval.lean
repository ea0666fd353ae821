import Mathlib.Analysis.SpecialFunctions.Log.Basic
import Verif.Lemmas.DetailReal

/-! # Pressure and properties of DETAIL objects over the reals, in closed form -/

namespace Aga8.Detail

open Tab Finset

theorem rt_ne {t : ℝ} (ht : t ≠ 0) : (RDETAIL : ℝ) * t ≠ 0 := mul_ne_zero R_pos.ne' ht

theorem pressureP_z_real (s : Detail ℝ) (ht : s.t ≠ 0) : (pressureP s).1.z = 1 + A1 (view s) s.d := by
  rw [pressureP_z, (ar_row0 s 0).2.1, l1]
  have := R_pos.ne'
  field_simp

theorem pressureP_real (s : Detail ℝ) (ht : s.t ≠ 0) :
    (pressureP s).2 = RDETAIL * s.t * (s.d * (1 + A1 (view s) s.d)) := by
  rw [pressureP_snd, pressureP_z_real s ht]
  ring

theorem dp_dd_real (s : Detail ℝ) :
    (propertiesP s).dp_dd = RDETAIL * s.t * (1 + 2 * A1 (view s) s.d + A2 (view s) s.d) := by
  rw [propertiesP_dp_dd, pressureP_save, (ar_row0 s 0).2.1, (ar_row0 s 0).2.2.1, l2]
  ring

theorem d2p_dd2_real (s : Detail ℝ) (hd : 1e-15 < s.d) :
    (propertiesP s).d2p_dd2
      = RDETAIL * s.t * (2 * A1 (view s) s.d + 4 * A2 (view s) s.d + A3 (view s) s.d) / s.d := by
  have h : FOps.lt (EPSILON : ℝ) s.d = true := by rw [r_lt]; unfold EPSILON; rw [lem15]; exact hd
  rw [propertiesP_eq, propsFinish_d2p_dd2, propsMid_d, propsMid_ar, h, if_pos rfl,
    (ar_row0 s 2).2.1, (ar_row0 s 2).2.2.1, (ar_row0 s 2).2.2.2, l2, l4]
  ring

/-! ## Zero density -/

theorem BN_pos : ∀ n : Fin 58, 12 ≤ n.1 → aget BN n ≠ 0 := by decide +kernel

theorem f0_zero (v : View ℝ) (n : Fin 58) : f0 v n 0 = 0 := by
  unfold f0
  split
  · rename_i h
    simp [BN_pos n h]
  · rfl

theorem A1_zero (v : View ℝ) : A1 v 0 = 0 := by simp [A1, f0_zero]
theorem A2_zero (v : View ℝ) : A2 v 0 = 0 := by simp [A2, f0_zero]
theorem A0_zero (v : View ℝ) : A0 v 0 = 0 := by simp [A0, f0_zero]

theorem continuous_f0 (v : View ℝ) (n : Fin 58) : Continuous (f0 v n) := by
  unfold f0
  split
  · have : Continuous fun d : ℝ => expK (aget KN n) (v.k3 * d) := by
      unfold expK; split <;> fun_prop
    fun_prop
  · exact continuous_const

theorem continuous_A1 (v : View ℝ) : Continuous (A1 v) := by
  unfold A1
  refine continuous_finsetSum _ fun n _ => ?_
  have := continuous_f0 v n
  unfold c1
  fun_prop

end Aga8.Detail
