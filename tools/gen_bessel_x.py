#!/usr/bin/env python3
"""The Bessel tables of lean/Verif/Tables/Bessel.lean as lists of expressions for the error analysis of `Verif.Proofs.FlErr`, with the lemma that
they evaluate to the tables.  Writes lean/Verif/Tables/BesselX.lean."""
import re
src = open('/verif/lean/Verif/Tables/Bessel.lean').read()
out = ['import Verif.Tables.Bessel', 'import Verif.Proofs.FlErr', '',
       '/-! Generated by tools/gen_bessel_x.py from Verif/Tables/Bessel.lean. Do not edit.',
       'Each table as a list of expressions. -/', '', 'namespace Verif', 'namespace BesX', 'open FlErr', '']
def lit(t):
    if t.startswith('-'): return f'.neg ({lit(t[1:])})'
    m = re.fullmatch(r'(\d+)(?:\.(\d+))?(?:e(-?\d+))?', t)
    k = len(m[2] or '') - int(m[3] or 0)
    assert k >= 0, t
    return '.lit %d %d' % (int(m[1] + (m[2] or '')), k)
for m in re.finditer(r'def (\w+) : List α :=\s*\[(.*?)\]', src, re.S):
    n = m[1]
    if n in ('C1', 'C2'): continue
    c = [t.strip() for t in m[2].split(',')]
    out.append(f'def {n}x : List Ex := [' + ', '.join(map(lit, c)) + ']')
    out.append(f'theorem {n}x_F (ρ : ℕ → F64) : {n}x.map (evF ρ) = {n} := by')
    out.append(f'  simp [{n}, {n}x, evF]')
    out.append(f'theorem {n}x_R (ρ : ℕ → ℝ) : {n}x.map (evR ρ) = {n} := by')
    out.append(f'  simp only [{n}, {n}x, evR, List.map]; norm_num')
    out.append('')
out += ['end BesX', 'end Verif', '']
open('/verif/lean/Verif/Tables/BesselX.lean', 'w').write('\n'.join(out))
