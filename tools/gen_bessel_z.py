#!/usr/bin/env python3
"""Integer versions of the Bessel tables of /repo/src/bessel.rs (each coefficient times a power of ten), with the lemma that they are the same
polynomials.  Writes lean/Verif/Tables/BesselZ.lean."""
import re
from fractions import Fraction as F
src = open('/repo/src/bessel.rs').read()
T = {}
for m in re.finditer(r'const (\w+): \[f64; \d+\] = \[(.*?)\];', src, re.S):
    T[m[1]] = [F(t.strip().replace('_', '')) for t in m[2].split(',') if t.strip()]
out = ['import Verif.Props.Series', 'import Verif.Proofs.ZPoly', '',
       '/-! Generated by tools/gen_bessel_z.py from the tables of /repo/src/bessel.rs. Do not edit.',
       'Each table times a power of ten, as an integer polynomial. -/', '', 'namespace Verif', 'namespace Bes', 'open ZPoly', '', 'theorem one0 : (1.0 : ℝ) = 1 := by norm_num', '']
for n, c in T.items():
    if n in ('C1', 'C2'): continue
    e = 0
    while any((x * 10**e).denominator != 1 for x in c): e += 1
    z = [int(x * 10**e) for x in c]
    out.append(f'def {n}z : List ℤ := [' + ', '.join(map(str, z)) + ']')
    out.append(f'theorem {n}z_eq (y : ℝ) : polySum y {n} = ev {n}z y / 10 ^ {e} := by')
    out.append(f'  simp only [{n}, {n}z, polySum_cons, polySum_nil, ev, one0]; push_cast; ring')
    out.append('')
out += ['end Bes', 'end Verif', '']
open('/verif/lean/Verif/Tables/BesselZ.lean', 'w').write('\n'.join(out))
