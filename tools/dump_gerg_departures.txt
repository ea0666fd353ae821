import Verif.Lemmas.GergSetup
open Aga8 Aga8.Gerg Aga8.Gerg.Tab
def sd (d : Dec) : String := s!"{d.m}e-{d.e}"
#eval for i in (List.finRange 22) do
  IO.println s!"{i.1} kpol {aget KPOL i} kexp {aget KEXP i} long {longForm i}"
  IO.println s!"  d {((List.finRange 25).map fun k => aget2 doik0 i k)}"
  IO.println s!"  c {((List.finRange 25).map fun k => aget2 coik0 i k)}"
  IO.println s!"  t {((List.finRange 25).map fun k => sd (aget2 toikD i k))}"
#eval for i in (List.finRange 11) do
  IO.println s!"{i.1} {kpolij i.1} {kexpij i.1}"
  IO.println s!"  d {((List.finRange 13).map fun (k : Fin 13) => gd2 dijk0 i.1 k.1 0)}"
  for (n,v) in [("t",tijkD),("eta",cijkD),("eps",eijkD),("beta",bijkD),("gam",gijkD),("n",nijkD)] do
    IO.println s!"  {n} {((List.finRange 13).map fun k => sd (aget2 v i k))}"
#eval for i in (List.finRange 22) do for j in (List.finRange 22) do
  if aget2 MNUMB i j ≠ 0 ∨ (aget2 FIJ i j).m ≠ 0 then IO.println s!"{i.1} {j.1} {aget2 MNUMB i j} {sd (aget2 FIJ i j)}"
