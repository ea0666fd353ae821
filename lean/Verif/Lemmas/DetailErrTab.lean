import Verif.Lemmas.F64ApLit
import Verif.Tables.Detail

/-! # How the DETAIL constants are read as `f64`

Checked for every entry of every table. -/

namespace Aga8.Detail

open Tab F64

theorem chkAN : ∀ n : Fin 58, decChk false 54 4 (aget AN n) = true := by decide +kernel
theorem chkUN : ∀ n : Fin 58, decChk true 1 5 (aget UN n) = true ∧ -13 * 10 ^ (aget UN n).e ≤ (aget UN n).m ∧
    (aget UN n).m ≤ 23 * 10 ^ (aget UN n).e := by decide +kernel
theorem chkEI : ∀ i : Fin 21, decChk false 0 10 (aget EI i) = true ∧ 0 < (aget EI i).m := by decide +kernel
theorem chkKI : ∀ i : Fin 21, decChk false 2 0 (aget KI i) = true ∧ 0 < (aget KI i).m := by decide +kernel
theorem chkGI : ∀ i : Fin 21, decChk false 6 0 (aget GI i) = true ∧ 0 ≤ (aget GI i).m := by decide +kernel
theorem chkQI : ∀ i : Fin 21, decChk false 1 1 (aget QI i) = true ∧ 0 ≤ (aget QI i).m := by decide +kernel
theorem chkFI : ∀ i : Fin 21, decChk false 0 0 (aget FI i) = true ∧ 0 ≤ (aget FI i).m := by decide +kernel
theorem chkSI : ∀ i : Fin 21, decChk false 2 1 (aget SI i) = true ∧ 0 ≤ (aget SI i).m := by decide +kernel
theorem chkWI : ∀ i : Fin 21, decChk false 0 0 (aget WI i) = true ∧ 0 ≤ (aget WI i).m := by decide +kernel
theorem chkEIJ : ∀ i j : Fin 21, decChk false 1 1 (aget2 EIJ i j) = true ∧ 0 < (aget2 EIJ i j).m := by decide +kernel
theorem chkUIJ : ∀ i j : Fin 21, decChk false 2 1 (aget2 UIJ i j) = true ∧ 0 < (aget2 UIJ i j).m := by decide +kernel
theorem chkKIJ : ∀ i j : Fin 21, decChk false 1 1 (aget2 KIJ i j) = true ∧ 0 < (aget2 KIJ i j).m := by decide +kernel
theorem chkGIJ : ∀ i j : Fin 21, decChk false 2 1 (aget2 GIJ i j) = true ∧ 0 < (aget2 GIJ i j).m := by decide +kernel

end Aga8.Detail
