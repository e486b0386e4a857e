#!/usr/bin/env python3
"""Generate lean/Verif/Model/SnsTables.lean from /repo/src/tables.c and /repo/src/sns.c (read as text)."""
import re
from genmdct import body, wrap, mant, FLT

tab = open('/repo/src/tables.c').read()
sns = open('/repo/src/sns.c').read()

def main():
    o = ['''import Verif.Model.LtpfTables
import Verif.Model.Api

/-
Tables of the spectral noise shaping, `src/tables.c` and `src/sns.c`; generated by tools/gensns.py. Do not edit.

Values are integers, divided by a power of ten.
-/

set_option maxRecDepth 100000

namespace LC3
''']
    def mat(name, doc, text, src, decl, rows, cols):
        b, l0, l1 = body(text, decl)
        v = re.findall(FLT, b); assert len(v) == rows * cols, (name, len(v))
        m, e = mant(v)
        o.append('/-- %s, src/%s:%d-%d, divided by `10^%d`. -/' % (doc, src, l0, l1, e))
        o.append('def %s : List (List Int) := [' % name)
        for r in range(rows):
            s = wrap([str(x) for x in m[r*cols:(r+1)*cols]], 3)
            o.append('  [' + s.strip() + (']' if r + 1 < rows else ']]\n') + (',' if r + 1 < rows else ''))
        return e
    def row(name, doc, text, src, decl, n):
        b, l0, l1 = body(text, decl)
        v = re.findall(FLT, b); assert len(v) == n, (name, len(v))
        m, e = mant(v)
        o.append('/-- %s, src/%s:%d-%d, divided by `10^%d`. -/' % (doc, src, l0, l1, e))
        o.append('def %s : List Int := [\n%s]\n' % (name, wrap([str(x) for x in m], 2)))
        return e
    e = mat('dct16Mant', '`dct16_m`', sns, 'sns.c', 'static const float dct16_m[16][16]', 16, 16)
    o.append('/-- `dct16_m`. -/\ndef dct16M : List (List Rat) := dct16Mant.map fun r => r.map fun m => dec m %d\n' % e)
    e = mat('snsLfcbMant', '`lc3_sns_lfcb`', tab, 'tables.c', 'const float lc3_sns_lfcb[32][8]', 32, 8)
    o.append('/-- `lc3_sns_lfcb`. -/\ndef snsLfcb : List (List Rat) := snsLfcbMant.map fun r => r.map fun m => dec m %d\n' % e)
    e = mat('snsHfcbMant', '`lc3_sns_hfcb`', tab, 'tables.c', 'const float lc3_sns_hfcb[32][8]', 32, 8)
    o.append('/-- `lc3_sns_hfcb`. -/\ndef snsHfcb : List (List Rat) := snsHfcbMant.map fun r => r.map fun m => dec m %d\n' % e)
    ge = {}
    for t in (14, 18, 22, 26, 30, 34):
        ge[t] = row('geMant%d' % t, '`ge_%d`' % t, sns, 'sns.c', 'static const float ge_%d[' % t, 64)
    b, l0, l1 = body(sns, 'static const float *ge_table[LC3_NUM_SRATE]')
    want = [('8K', 14), ('16K', 18), ('24K', 22), ('32K', 26), ('48K', 30), ('48K_HR', 30), ('96K_HR', 34)]
    got = re.findall(r'\[LC3_SRATE_(\w+?) *\] = ge_(\d+)', b); assert got == [(a, str(b)) for a, b in want], got
    o.append('/-- `ge_table`, src/sns.c:%d-%d. -/\ndef geTable : Srate → List Rat' % (l0, l1))
    for n, (_, t) in zip(('k8', 'k16', 'k24', 'k32', 'k48', 'k48hr', 'k96hr'), want):
        o.append('  | .%s => geMant%d.map fun m => dec m %d' % (n, t, ge[t]))
    o.append('')
    b, l0, l1 = body(tab, 'const struct lc3_sns_vq_gains lc3_sns_vq_gains[4]')
    rows = [(int(c), re.findall(r'(\d+)\.f / 4096', r)) for c, r in re.findall(r'\{ (\d), \(const float \[\]\)\{([^}]*)\}', b)]
    assert len(rows) == 4 and all(c == len(r) for c, r in rows)
    o.append('/-- `lc3_sns_vq_gains`, src/tables.c:%d-%d. -/' % (l0, l1))
    o.append('def snsGainValues : List (List Rat) := [\n' + ',\n'.join('  [' + ', '.join('%s / 4096' % v for v in r) + ']' for _, r in rows) + ']\n')
    o.append('end LC3')
    open('/verif/lean/Verif/Model/SnsTables.lean', 'w').write('\n'.join(o) + '\n')

if __name__ == '__main__': main()
