import Verif.Lemmas.GergMixTab

/-! # The tables of bounds for mixtures are right -/

namespace Aga8.GergEos.MixT

theorem powers : ((List.range tab.nS).all fun i => Nat.blt 0 (tab.uN i) && (List.range 76).all fun e =>
    powChk (tab.uN i) (tab.uN (i + 1)) (tab.PL.getD i 0) (tab.PH.getD i 0) e) = true := by decide +kernel
theorem rows : ((List.range tab.nR).all fun j => rowChk (tab.row j) (tab.rQ j) (tab.rQ (j + 1))) = true := by decide +kernel
theorem fin : ((List.range tab.nS).all fun i => (List.range tab.nR).all fun j => tab.finChk i j) = true := by decide +kernel
theorem head : tab.rQ 0 = 0 ∧ 0 < tab.nS ∧ 0 < tab.nR := by decide +kernel
theorem depC : ∀ i j : Fin 22, (departure i.1 j.1).1 = 0 ∨ (tab.dep.any fun d => d.1 == i.1 && d.2.1 == j.1) = true := by
  decide +kernel
theorem depT : (tab.dep.all fun d => d.2.2.chk (depF d.1 d.2.1)) = true := by decide +kernel
theorem pureT : ((List.range 21).all fun i => (tab.pureAt (i + 1)).chk (pureU (i + 1))) = true := by decide +kernel
theorem pureB1 : tab.unitChk f1 (fun x => x.1) = true := by decide +kernel
theorem pureB2 : tab.unitChk f2 (fun x => x.1) = true := by decide +kernel
theorem pureB3 : tab.unitChk f3 (fun x => x.1) = true := by decide +kernel
theorem pureB4 : tab.unitChk f4 (fun x => x.1) = true := by decide +kernel
theorem pureB5 : tab.unitChk f5 (fun x => x.1) = true := by decide +kernel
theorem pureB6 : tab.unitChk f6 (fun x => x.1) = true := by decide +kernel
theorem pureB7 : tab.unitChk f7 (fun x => x.1) = true := by decide +kernel
theorem pureB8 : tab.unitChk f8 (fun x => x.1) = true := by decide +kernel
theorem pureB9 : tab.unitChk f9 (fun x => x.1) = true := by decide +kernel
theorem pureB10 : tab.unitChk f10 (fun x => x.1) = true := by decide +kernel
theorem pureB11 : tab.unitChk f11 (fun x => x.1) = true := by decide +kernel
theorem pureB12 : tab.unitChk f12 (fun x => x.1) = true := by decide +kernel
theorem pureB13 : tab.unitChk f13 (fun x => x.1) = true := by decide +kernel
theorem pureB14 : tab.unitChk f14 (fun x => x.1) = true := by decide +kernel
theorem pureB15 : tab.unitChk f15 (fun x => x.1) = true := by decide +kernel
theorem pureB16 : tab.unitChk f16 (fun x => x.1) = true := by decide +kernel
theorem pureB17 : tab.unitChk f17 (fun x => x.1) = true := by decide +kernel
theorem pureB18 : tab.unitChk f18 (fun x => x.1) = true := by decide +kernel
theorem pureB19 : tab.unitChk f19 (fun x => x.1) = true := by decide +kernel
theorem pureB20 : tab.unitChk f20 (fun x => x.1) = true := by decide +kernel
theorem pureB21 : tab.unitChk f21 (fun x => x.1) = true := by decide +kernel
theorem depB1 : tab.unitChk d1 (fun x => x.2.1) = true := by decide +kernel
theorem depB2 : tab.unitChk d2 (fun x => x.2.1) = true := by decide +kernel
theorem depB3 : tab.unitChk d3 (fun x => x.2.1) = true := by decide +kernel
theorem depB4 : tab.unitChk d4 (fun x => x.2.1) = true := by decide +kernel
theorem depB5 : tab.unitChk d5 (fun x => x.2.1) = true := by decide +kernel
theorem depB6 : tab.unitChk d6 (fun x => x.2.1) = true := by decide +kernel
theorem depB7 : tab.unitChk d7 (fun x => x.2.1) = true := by decide +kernel
theorem depB8 : tab.unitChk d8 (fun x => x.2.1) = true := by decide +kernel
theorem depB9 : tab.unitChk d9 (fun x => x.2.1) = true := by decide +kernel
theorem depB10 : tab.unitChk d10 (fun x => x.2.1) = true := by decide +kernel
theorem depB11 : tab.unitChk d11 (fun x => x.2.1) = true := by decide +kernel
theorem depB12 : tab.unitChk d12 (fun x => x.2.1) = true := by decide +kernel
theorem depB13 : tab.unitChk d13 (fun x => x.2.1) = true := by decide +kernel
theorem depB14 : tab.unitChk d14 (fun x => x.2.1) = true := by decide +kernel
theorem depB15 : tab.unitChk d15 (fun x => x.2.1) = true := by decide +kernel

theorem pureB : ∀ i : Fin 22, 1 ≤ i.1 → tab.unitChk (tab.pureAt i.1) (fun x => x.1) = true
  | ⟨0, _⟩, h => absurd h (Nat.not_succ_le_zero 0)
  | ⟨1, _⟩, _ => pureB1
  | ⟨2, _⟩, _ => pureB2
  | ⟨3, _⟩, _ => pureB3
  | ⟨4, _⟩, _ => pureB4
  | ⟨5, _⟩, _ => pureB5
  | ⟨6, _⟩, _ => pureB6
  | ⟨7, _⟩, _ => pureB7
  | ⟨8, _⟩, _ => pureB8
  | ⟨9, _⟩, _ => pureB9
  | ⟨10, _⟩, _ => pureB10
  | ⟨11, _⟩, _ => pureB11
  | ⟨12, _⟩, _ => pureB12
  | ⟨13, _⟩, _ => pureB13
  | ⟨14, _⟩, _ => pureB14
  | ⟨15, _⟩, _ => pureB15
  | ⟨16, _⟩, _ => pureB16
  | ⟨17, _⟩, _ => pureB17
  | ⟨18, _⟩, _ => pureB18
  | ⟨19, _⟩, _ => pureB19
  | ⟨20, _⟩, _ => pureB20
  | ⟨21, _⟩, _ => pureB21
  | ⟨k + 22, h⟩, _ => absurd h (by omega)

theorem depB : ∀ d ∈ tab.dep, tab.unitChk d.2.2 (fun x => x.2.1) = true := by
  intro d hd
  rw [show tab.dep = depTab from rfl] at hd
  unfold depTab at hd
  simp only [List.mem_cons, List.not_mem_nil, or_false] at hd
  rcases hd with rfl | rfl | rfl | rfl | rfl | rfl | rfl | rfl | rfl | rfl | rfl | rfl | rfl | rfl | rfl
  · exact depB1
  · exact depB2
  · exact depB3
  · exact depB4
  · exact depB5
  · exact depB6
  · exact depB7
  · exact depB8
  · exact depB9
  · exact depB10
  · exact depB11
  · exact depB12
  · exact depB13
  · exact depB14
  · exact depB15

theorem tab_ok : tab.Ok where
  powers := powers
  rows := rows
  pureT i hi := by
    have := List.all_eq_true.1 pureT (i.1 - 1) (List.mem_range.2 (by omega))
    rwa [Nat.sub_add_cancel hi] at this
  pureB := pureB
  depT d hd := List.all_eq_true.1 depT d hd
  depB := depB
  depC := depC
  fin := fin
  head := head

end Aga8.GergEos.MixT
