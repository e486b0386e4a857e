#!/usr/bin/env python3
"""Generate lean/Verif/Model/LtpfTables.lean from /repo/src/ltpf.c and /repo/src/tables.c (read as text)."""
import re
from decimal import Decimal

def body(text, decl, start=0):
    i = text.index(decl, start)
    j = text.index('{', text.index('=', i))
    d, k = 0, j
    while True:
        if text[k] == '{': d += 1
        if text[k] == '}':
            d -= 1
            if d == 0: break
        k += 1
    return text[j:k+1], text.count('\n', 0, i) + 1, text.count('\n', 0, k) + 1

def wrap(items, ind, width=98):
    out, cur = [], ' ' * ind
    for n, it in enumerate(items):
        s = it + (', ' if n + 1 < len(items) else '')
        if len(cur) + len(s.rstrip()) > width:
            out.append(cur.rstrip()); cur = ' ' * ind
        cur += s
    out.append(cur.rstrip())
    return '\n'.join(out)

def dec(s):
    d = Decimal(s)
    t = d.as_tuple()
    m = int(''.join(map(str, t.digits))) * (-1 if t.sign else 1)
    e = -t.exponent
    if m == 0: return '0'
    return 'dec %s %d' % (m if m >= 0 else '(%d)' % m, e)

o = ['''import Verif.Model.Api

/-
Tables of the LTPF: resampling, `src/ltpf.c`, and synthesis, `src/tables.c`; generated by
tools/genltpf.py. Do not edit.
-/

namespace LC3

/-- Decimal constant `m e-k`. -/
def dec (m : Int) (e : Nat) : Rat := mkRat m (10 ^ e)
''']
src = open('/repo/src/ltpf.c').read()
for k in (8, 16, 32, 24, 48, 96):
    b, l0, l1 = body(src, 'static const int16_t h_%dk_12k8_q15' % k)
    n = re.search(r'h_%dk_12k8_q15\[(\d+)\*(\d+)\]' % k, src)
    v = re.findall(r'-?\d+', b)
    assert len(v) == int(n.group(1)) * int(n.group(2)), k
    o.append('/-- `h_%dk_12k8_q15`, src/ltpf.c:%d-%d (%s phases of %s coefficients). -/' % (k, l0, l1, n.group(1), n.group(2)))
    o.append('def h%dk : List Int := [\n%s]\n' % (k, wrap(v, 2)))
tab = open('/repo/src/tables.c').read()
for nm, doc in (('cnum', 'numerators, for each gain'), ('cden', 'denominators, for each phase')):
    b, l0, l1 = body(tab, 'const float *lc3_ltpf_' + nm)
    o.append('/-- `lc3_ltpf_%s`, src/tables.c:%d-%d: %s (no table for the high-resolution rates). -/' % (nm, l0, l1, doc))
    o.append('def ltpf%s : Srate → List (List Rat)' % nm.capitalize())
    for k in (8, 16, 24, 32, 48):
        bb, _, _ = body(b, '[LC3_SRATE_%dK]' % k)
        rows = re.findall(r'\(const float \[\]\)\{(.*?)\}', bb, flags=re.S)
        assert len(rows) == 4
        rs = []
        for r in rows:
            v = re.findall(r'-?\d+\.\d*(?:e-\d+)?', r)
            rs.append('    [\n' + wrap([dec(x) for x in v], 6) + ']')
        o.append('  | .k%d => [\n%s]' % (k, ',\n'.join(rs)))
    o.append('  | _ => []\n')
o.append('end LC3')
open('/verif/lean/Verif/Model/LtpfTables.lean', 'w').write('\n'.join(o) + '\n')
