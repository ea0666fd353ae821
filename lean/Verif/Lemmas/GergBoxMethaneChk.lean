import Verif.Lemmas.GergBoxMethaneTab

/-! # The tables of bounds for methane are right -/

namespace Aga8.GergEos.Methane

theorem tab_head : tab.headChk 1 = true := by decide +kernel
theorem tab_strips : ((List.range tab.strip.length).all fun i =>
    stripChkG (termsOf 1) tab.G (tab.sQ i) (tab.sQ (i + 1)) (tab.strip.getD i []) (tab.stripA.getD i [])) = true := by
  decide +kernel
theorem tab_rowsO : ((List.range tab.rowZ.length).all fun j => rowOkG tab.G (tab.rQ j) (tab.rQ (j + 1))) = true := by
  decide +kernel
theorem tab_rowsZ : ((List.range tab.rowZ.length).all fun j =>
    rowChkG Detail.hZq tab.G (tab.rQ j) (tab.rQ (j + 1)) (tab.rowZ.getD j [])) = true := by decide +kernel
theorem tab_rowsP : ((List.range tab.rowZ.length).all fun j =>
    rowChkG Detail.hPq tab.G (tab.rQ j) (tab.rQ (j + 1)) (tab.rowP.getD j [])) = true := by decide +kernel
theorem tab_rowsZa : ((List.range tab.rowZ.length).all fun j =>
    rowAbsChkG Detail.hZaq tab.G (tab.rQ j) (tab.rQ (j + 1)) (tab.rowZa.getD j [])) = true := by decide +kernel
theorem tab_rowsPa : ((List.range tab.rowZ.length).all fun j =>
    rowAbsChkG Detail.hPaq tab.G (tab.rQ j) (tab.rQ (j + 1)) (tab.rowPa.getD j [])) = true := by decide +kernel
theorem tab_boxes : ((List.range tab.strip.length).all fun i => (List.range (tab.nBox i)).all fun j => tab.boxChk i j) = true := by
  decide +kernel
theorem tab_cells : ((List.range tab.strip.length).all fun i => (List.range (tab.nCell i)).all fun c => tab.cellChk i c) = true := by
  decide +kernel
theorem tab_ends : ((List.range tab.strip.length).all fun i => decide (tab.V * min tab.Dmax (tab.a + tab.b *
    (tab.Tc / tab.sQ i ^ 8 - tab.Tlo)) ≤ tab.rQ (tab.nCell i) ∧ 0 < tab.nCell i ∧ 0 < tab.sQ i)) = true := by
  decide +kernel

theorem tab_ok : tab.Ok 1 :=
  ⟨tab_head, tab_strips, tab_rowsO, tab_rowsZ, tab_rowsP, tab_rowsZa, tab_rowsPa, tab_boxes, tab_cells, tab_ends⟩

end Aga8.GergEos.Methane
