import Verif.Lemmas.F64ApLn
import Verif.Lemmas.DetailErrAr
import Verif.Lemmas.GergEos

/-! # How the GERG constants are read as `f64`

Checked for every entry of every table that is used. -/

namespace Aga8.Gerg

open Tab F64

theorem chkNOIK : ∀ (i : Fin 22) (k : Fin 25), 1 ≤ i.1 → 1 ≤ k.1 → k.1 ≤ aget KPOL i + aget KEXP i →
    decChk false 13 3 (aget2 NOIK i k) = true ∧ (aget2 NOIK i k).m ≠ 0 := by decide +kernel

theorem chkToik : ∀ (i : Fin 22) (k : Fin 25), 1 ≤ i.1 → 1 ≤ k.1 → k.1 ≤ aget KPOL i + aget KEXP i →
    decChk false 5 5 (aget2 toikD i k) = true ∧ 0 ≤ (aget2 toikD i k).m ∧ decQ (aget2 toikD i k) ≤ 30 := by
  decide +kernel

theorem chkD : ∀ (i : Fin 22) (k : Fin 25), 1 ≤ i.1 → 1 ≤ k.1 → k.1 ≤ aget KPOL i + aget KEXP i →
    1 ≤ aget2 doik0 i k ∧ aget2 doik0 i k < 8 := by decide +kernel

theorem chkC : ∀ (i : Fin 22) (k : Fin 25), 1 ≤ i.1 → aget KPOL i < k.1 → k.1 ≤ aget KPOL i + aget KEXP i →
    1 ≤ aget2 coik0 i k ∧ aget2 coik0 i k < 7 := by decide +kernel

theorem chkNijk : ∀ (i : Fin 11) (k : Fin 13), 1 ≤ i.1 → 1 ≤ k.1 → k.1 ≤ kpolij i.1 + kexpij i.1 →
    decChk false 15 3 (aget2 nijkD i k) = true := by decide +kernel

theorem chkTijk : ∀ (i : Fin 11) (k : Fin 13), 1 ≤ i.1 → 1 ≤ k.1 → k.1 ≤ kpolij i.1 + kexpij i.1 →
    decChk false 5 5 (aget2 tijkD i k) = true ∧ -1 ≤ decQ (aget2 tijkD i k) ∧ decQ (aget2 tijkD i k) ≤ 8 := by
  decide +kernel

theorem chkDijk (i j : Fin 22) (k : ℕ) (h0 : 0 < aget2 MNUMB i j) (h1 : 1 ≤ k)
    (h2 : k ≤ kpolij (aget2 MNUMB i j) + kexpij (aget2 MNUMB i j)) :
    1 ≤ gd2 dijk0 (aget2 MNUMB i j) k 0 ∧ gd2 dijk0 (aget2 MNUMB i j) k 0 < 8 := by
  have := posE_m0.dijk i j k h0 h1 h2
  rwa [m0_fields.2.2.1] at this

theorem chkCijk : ∀ (i : Fin 11) (k : Fin 13), 1 ≤ i.1 → kpolij i.1 < k.1 → k.1 ≤ kpolij i.1 + kexpij i.1 →
    decChk false 2 0 (aget2 cijkD i k) = true ∧ 0 ≤ (aget2 cijkD i k).m ∧ decQ (aget2 cijkD i k) ≤ 1 := by decide +kernel

theorem chkEijk : ∀ (i : Fin 11) (k : Fin 13), 1 ≤ i.1 → kpolij i.1 < k.1 → k.1 ≤ kpolij i.1 + kexpij i.1 →
    decChk false 1 0 (aget2 eijkD i k) = true ∧ 0 ≤ (aget2 eijkD i k).m := by decide +kernel

theorem chkBijk : ∀ (i : Fin 11) (k : Fin 13), 1 ≤ i.1 → kpolij i.1 < k.1 → k.1 ≤ kpolij i.1 + kexpij i.1 →
    decChk false 1 2 (aget2 bijkD i k) = true ∧ 0 ≤ (aget2 bijkD i k).m ∧
    2 * decQ (aget2 cijkD i k) * decQ (aget2 eijkD i k) + decQ (aget2 bijkD i k) ≤ 4 := by decide +kernel

theorem chkGijk : ∀ (i : Fin 11) (k : Fin 13), 1 ≤ i.1 → kpolij i.1 < k.1 → k.1 ≤ kpolij i.1 + kexpij i.1 →
    decChk false 1 0 (aget2 gijkD i k) = true ∧ 0 ≤ (aget2 gijkD i k).m ∧
    decQ (aget2 cijkD i k) * decQ (aget2 eijkD i k) ^ 2 + decQ (aget2 bijkD i k) * decQ (aget2 gijkD i k) ≤ 2 := by
  decide +kernel

theorem chkGV : ∀ i j : Fin 22, 1 ≤ i.1 → i.1 ≤ j.1 → decChk false 5 0 (aget2 GVIJ i j) = true ∧
    0 < (aget2 GVIJ i j).m := by decide +kernel
theorem chkGT : ∀ i j : Fin 22, 1 ≤ i.1 → i.1 ≤ j.1 → decChk false 0 10 (aget2 GTIJ i j) = true ∧
    0 < (aget2 GTIJ i j).m := by decide +kernel
theorem chkBT : ∀ i j : Fin 22, 1 ≤ i.1 → i.1 ≤ j.1 → decChk false 2 1 (aget2 BTIJ i j) = true ∧
    0 < (aget2 BTIJ i j).m := by decide +kernel
theorem chkBV : ∀ i j : Fin 22, 1 ≤ i.1 → i.1 < j.1 → decChk false 1 1 (aget2 bvijD i j) = true ∧
    0 < (aget2 bvijD i j).m := by decide +kernel
theorem chkFIJ : ∀ i j : Fin 22, 1 ≤ i.1 → i.1 < j.1 → 0 < aget2 MNUMB i j →
    decChk false 5 0 (aget2 FIJ i j) = true ∧ (aget2 FIJ i j).m ≠ 0 := by decide +kernel

theorem decR_decQ (d : Dec) : decR d = (decQ d : ℝ) := by unfold decR decQ; push_cast; rfl
theorem ofDec_decR (d : Dec) : (FOps.ofDec d : ℝ) = decR d := by rw [ofDec_decQ, decR_decQ]

end Aga8.Gerg
