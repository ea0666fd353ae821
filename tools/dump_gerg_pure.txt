import Verif.Lemmas.GergSetup
open Aga8 Aga8.Gerg Aga8.Gerg.Tab
def sd (d : Dec) : String := s!"{d.m}e-{d.e}"
#eval for i in (List.finRange 22) do
  IO.println s!"{i.1} {aget KPOL i} {aget KEXP i}"
  IO.println s!"  d {((List.finRange 25).map fun k => aget2 doik0 i k)}"
  IO.println s!"  c {((List.finRange 25).map fun k => aget2 coik0 i k)}"
  IO.println s!"  t {((List.finRange 25).map fun k => sd (aget2 toikD i k))}"
  IO.println s!"  n {((List.finRange 25).map fun k => sd (aget2 NOIK i k))}"
  IO.println s!"  z {((List.finRange 8).map fun k => sd (aget2 n0iD i k))}"
  IO.println s!"  h {((List.finRange 8).map fun k => sd (aget2 TH0I i k))}"
  IO.println s!"  cr {sd (aget DC i)} {sd (aget TC i)} {sd (aget MMI_GERG i)}"
