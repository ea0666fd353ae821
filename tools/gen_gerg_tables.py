"""Wrote lean/Verif/Spec/GergTables.lean. The inputs /tmp/n.out and /tmp/deps.lean are printouts of the model's own tables
(scripts dump_gerg_pure.txt and dump_gerg_departures.txt, run with lake env lean), hence the crate's numbers."""
import re
from decimal import Decimal
names="methane nitrogen carbonDioxide ethane propane isobutane nButane isopentane nPentane hexane heptane octane nonane decane hydrogen oxygen carbonMonoxide water hydrogenSulfide helium argon".split()
def dec(s):
    m,e=s.split('e-'); return format(Decimal(int(m)).scaleb(-int(e)),'f')
txt=open('/tmp/n.out').read().split('\n')
out=[]
ideal=[]
crit=[]
for i in range(1,22):
    b=8*i
    hd,kp,ke=map(int,txt[b].split()); assert hd==i
    g=lambda q: re.search(r'\[(.*)\]',txt[b+q])[1].split(', ')
    d,c,t,n,z,h=[g(q) for q in range(1,7)]
    rows=[f"⟨{dec(n[k])}, {d[k]}, {dec(t[k])}, {c[k] if k>kp else 0}⟩" for k in range(1,kp+ke+1)]
    lines=[]
    for q in range(0,len(rows),3): lines.append("  "+", ".join(rows[q:q+3]))
    out.append(f"/-- Residual terms of component {i}. -/\ndef {names[i-1]} : List PureTerm := [\n"+",\n".join(lines)+"]\n")
    ideal.append(f"  ⟨{dec(z[1])}, {dec(z[2])}, {dec(z[3])}, {dec(z[4])}, {dec(h[4])}, {dec(z[5])}, {dec(h[5])}, {dec(z[6])}, {dec(h[6])}, {dec(z[7])}, {dec(h[7])}⟩")
    cr=txt[b+7].split()[1:]
    crit.append(f"({dec(cr[0])}, {dec(cr[1])})")
deps=open('/tmp/deps.lean').read()
head='''import Mathlib.Data.Rat.Defs

/-! # Coefficients of the GERG-2008 equation of state: frozen copy of the crate's numbers

All numbers below were printed from the model's tables, which tools/gen_tables.py copied from /repo/src/gerg2008.rs, and
were regrouped by tools/gen_gerg_tables.py. They are not an independent source: no publication was available. A theorem
that compares the program with this file checks where each number is used, not whether the number is the published one.

Components 1 to 21: methane, nitrogen, carbon dioxide, ethane, propane, isobutane, n-butane, isopentane, n-pentane,
hexane, heptane, octane, nonane, decane, hydrogen, oxygen, carbon monoxide, water, hydrogen sulfide, helium, argon. -/

namespace Aga8.GergEos

/-- A term `n δ^d τ^t exp(-δ^c)` of a pure fluid (no exponential if `c = 0`). -/
structure PureTerm where
  n : ℚ
  d : ℕ
  t : ℚ
  c : ℕ
deriving Inhabited

/-- A term `n δ^d τ^t exp(-η (δ - ε)^2 - β (δ - γ))` of a departure function. -/
structure DepTerm where
  n : ℚ
  d : ℕ
  t : ℚ
  η : ℚ
  ε : ℚ
  β : ℚ
  γ : ℚ
deriving Inhabited

/-- Ideal-gas coefficients of a fluid: `n4 … n7` with their temperatures `th4 … th7` in K. -/
structure IdealTerms where
  n1 : ℚ
  n2 : ℚ
  n3 : ℚ
  n4 : ℚ
  th4 : ℚ
  n5 : ℚ
  th5 : ℚ
  n6 : ℚ
  th6 : ℚ
  n7 : ℚ
  th7 : ℚ
deriving Inhabited

'''
tail='''/-- Residual terms of each component. -/
def pureTerms : List (List PureTerm) := [[], '''+", ".join(names).replace("decane, ","decane,\n  ")+''']

/-- Weight and departure terms of each pair that has a departure function. -/
def departures : List (Nat × Nat × ℚ × List DepTerm) := [
  (1, 2, 1, depCH4N2), (1, 3, 1, depCH4CO2), (1, 4, 1, depCH4C2H6), (1, 5, 1, depCH4C3H8),
  (1, 6, 0.771035405688, depGeneral), (1, 7, 1, depGeneral), (1, 15, 1, depCH4H2), (2, 3, 1, depN2CO2),
  (2, 4, 1, depN2C2H6), (4, 5, 0.13042476515, depGeneral), (4, 6, 0.260632376098, depGeneral),
  (4, 7, 0.281570073085, depGeneral), (5, 6, -0.0551609771024, depGeneral), (5, 7, 0.0312572600489, depGeneral),
  (6, 7, -0.0551240293009, depGeneral)]

/-- Ideal-gas coefficients of components 1 to 21, with the zero of energy and entropy at 298.15 K and 101.325 kPa. -/
def ideal : List IdealTerms := [
'''+",\n".join(ideal)+''']

/-- Critical density in mol/l and critical temperature in K of components 1 to 21. -/
def critical : List (ℚ × ℚ) := [
  '''+",\n  ".join(", ".join(crit[q:q+4]) for q in range(0,21,4))+''']

end Aga8.GergEos
'''
open('/verif/lean/Verif/Spec/GergTables.lean','w').write(head+"\n".join(out)+"\n"+deps+"\n"+tail)
