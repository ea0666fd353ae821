"""Writes lean/Verif/Spec/Aga8Tables.lean: the constants of /repo/src/detail.rs in the layout of the AGA 8 report (one row per term,
one row per component, one row per pair that differs from 1). There is no network here, so the numbers are taken from
/repo/src/detail.rs; the file is a frozen copy, kept under version control, against which the tables are compared."""
import re
from decimal import Decimal
src = open('/repo/src/detail.rs').read()
def table(name):
    m = re.search(r'const ' + name + r'\s*:[^=]*=\s*', src)
    i = m.end(); d = 0; j = i
    while True:
        if src[j] == '[': d += 1
        if src[j] == ']':
            d -= 1
            if d == 0: break
        j += 1
    t = re.sub(r'//[^\n]*', '', src[i:j+1]).replace('_', '')
    return eval(re.sub(r'(-?\d+\.?\d*(?:[eE]-?\d+)?)', r'Decimal("\1")', t))
def fmt(d):
    s = format(d.normalize(), 'f')
    return s
T = {n: table(n) for n in 'AN BN KN UN FN GN QN SN WN MMI EI KI GI QI FI SI WI EIJ UIJ KIJ GIJ'.split()}
out = ['''import Mathlib.Data.Rat.Defs

/-! # Constants of AGA 8 DETAIL: frozen copy of the crate's numbers

Not an independent source: the numbers are those of /repo/src/detail.rs, and the report was not available. Only the layout
is that of the report (AGA Report No. 8; ISO 12213-2, Annex B): one row per term, one row per component, one row per
pair of components with a binary parameter other than 1. Written by tools/gen_aga8_tables.py. -/

namespace Aga8.Eos

/-- A term: `a_n, b_n, k_n, u_n` and the flags `g_n, q_n, f_n, s_n, w_n`. -/
structure Term where
  a : ℚ
  b : ℕ
  k : ℕ
  u : ℚ
  g : ℕ
  q : ℕ
  f : ℕ
  s : ℕ
  w : ℕ
deriving Inhabited

/-- A component: molar mass, energy, size, orientation, quadrupole, high temperature, dipole and association parameters. -/
structure Component where
  M : ℚ
  E : ℚ
  K : ℚ
  G : ℚ
  Q : ℚ
  F : ℚ
  S : ℚ
  W : ℚ
deriving Inhabited

/-- The 58 terms. -/
def terms : List Term := [''']
out.append(',\n'.join('  ⟨' + ', '.join(fmt(T[n][i]) for n in 'AN BN KN UN GN QN FN SN WN'.split()) + '⟩' for i in range(58)) + ']')
out.append('\n/-- The 21 components, methane to argon. -/\ndef components : List Component := [')
out.append(',\n'.join('  ⟨' + ', '.join(fmt(T[n][i]) for n in 'MMI EI KI GI QI FI SI WI'.split()) + '⟩' for i in range(21)) + ']')
out.append('\n/-- The pairs: the two components, numbered from 1, and `E*, U, K, G*`. -/\ndef pairs : List (ℕ × ℕ × ℚ × ℚ × ℚ × ℚ) := [')
rows = []
for i in range(21):
    for j in range(i, 21):
        v = [T[n][i][j] for n in 'EIJ UIJ KIJ GIJ'.split()]
        if any(x != 1 for x in v):
            rows.append('  (%d, %d, ' % (i+1, j+1) + ', '.join(map(fmt, v)) + ')')
out.append(',\n'.join(rows) + ']')
out.append('\nend Aga8.Eos\n')
open('/verif/lean/Verif/Spec/Aga8Tables.lean', 'w').write('\n'.join(out))
print(len(rows))
