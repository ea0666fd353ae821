"""Writes lean/Verif/Spec/GergBinary.lean from the binary parameters assigned in /repo/src/gerg2008.rs."""
import re
src = open('/repo/src/gerg2008.rs').read()
tab, lines = {}, []
for m in re.finditer(r'self\.(bvij|gvij|btij|gtij)\[(\d+)\]\[(\d+)\]\s*=\s*([0-9._eE+-]+);', src):
    tab.setdefault((int(m[2]), int(m[3])), {})[m[1]] = m[4].replace('_', '')
    lines.append(src.count('\n', 0, m.start()) + 1)
rows = []
for i in range(1, 22):
    for j in range(i + 1, 22):
        v = tab.get((i, j), {})
        g = [v.get(k, '1.0') for k in ('bvij', 'gvij', 'btij', 'gtij')]
        rows.append(f"  ({i}, {j}, {', '.join(g)})")
missing = sum(1 for i in range(1, 22) for j in range(i + 1, 22) if len(tab.get((i, j), {})) < 4)
print(len(tab), 'assigned pairs', missing, 'with some default', min(lines), max(lines))
hdr = f'''import Mathlib.Data.Rat.Defs

/-! # Binary parameters of the GERG-2008 reducing functions

One row per pair `i < j` of components: `(i, j, β_v, γ_v, β_T, γ_T)`, in the layout of the table published
with the equation of state. Not an independent source: the numbers are those assigned at src/gerg2008.rs:{min(lines)}-{max(lines)}, with 1 where the
program assigns nothing. Written by tools/gen_binary.py. -/

namespace Aga8.GergEos

/-- The binary parameters, as assigned in the crate. -/
def binary : List (Nat × Nat × ℚ × ℚ × ℚ × ℚ) := [
'''
open('/verif/lean/Verif/Spec/GergBinary.lean', 'w').write(hdr + ',\n'.join(rows) + ']\n\nend Aga8.GergEos\n')
