#!/usr/bin/env python3
"""Generate lean/Verif/Model/Tables.lean from the tables of /repo/src/tables.c (read as text)."""
import re, sys
SRC = '/repo/src/tables.c'
text = open(SRC).read()
lines = text.split('\n')

def grab(decl):
    """Body of the initialiser of `decl`, with its line span."""
    i = text.index(decl)
    j = text.index('{', text.index('=', i))
    d, k = 0, j
    while True:
        if text[k] == '{': d += 1
        if text[k] == '}':
            d -= 1
            if d == 0: break
        k += 1
    l0 = text.count('\n', 0, i) + 1
    l1 = text.count('\n', 0, k) + 1
    body = re.sub(r'/\*.*?\*/', '', text[j:k+1], flags=re.S)
    return body, l0, l1

def parse(body):
    """Nested initialiser as nested lists of integers."""
    tok = re.findall(r'[{},]|-?\d+', body)
    pos = 0
    def item():
        nonlocal pos
        if tok[pos] == '{':
            pos += 1
            r = []
            while tok[pos] != '}':
                if tok[pos] == ',': pos += 1; continue
                r.append(item())
            pos += 1
            return r
        v = int(tok[pos]); pos += 1
        return v
    return item()

def wrap(items, ind, width=98):
    out, cur = [], ' ' * ind
    for n, it in enumerate(items):
        s = it + (', ' if n + 1 < len(items) else '')
        if len(cur) + len(s.rstrip()) > width:
            out.append(cur.rstrip()); cur = ' ' * ind
        cur += s
    out.append(cur.rstrip())
    return '\n'.join(out)

def lst(xs): return '[' + ', '.join(map(str, xs)) + ']'

o = []
o.append('''/-
Tables of `src/tables.c`, generated by tools/gentables.py. Do not edit.
-/
import Verif.Model.Bits
import Verif.Model.Api

namespace LC3
''')

def models(name, decl, doc):
    body, l0, l1 = grab(decl)
    t = parse(body)
    # { { {low, range}, ... } } : the outer brace of each model is the structure
    t = [m[0] for m in t]
    assert all(len(m) == 17 and all(len(s) == 2 for s in m) for m in t), name
    o.append('/-- %s, src/tables.c:%d-%d. -/' % (doc, l0, l1))
    o.append('def %s : List AcModel := [' % name)
    for n, m in enumerate(t):
        o.append('  [\n' + wrap(['⟨%d, %d⟩' % tuple(s) for s in m], 4) + ']' + (',' if n + 1 < len(t) else ']'))
    o.append('')
    return t

def table2(name, decl, doc, width=None, ty='Nat'):
    body, l0, l1 = grab(decl)
    t = parse(body)
    if width: assert all(len(r) == width for r in t), (name, [len(r) for r in t])
    o.append('/-- %s, src/tables.c:%d-%d. -/' % (doc, l0, l1))
    o.append('def %s : List (List %s) := [' % (name, ty))
    for n, r in enumerate(t):
        o.append(wrap(['[' + str(r[0])] + [str(x) for x in r[1:-1]] + [str(r[-1]) + ']'], 2) + (',' if n + 1 < len(t) else ']'))
    o.append('')
    return t

models('tnsOrderModels', 'const struct lc3_ac_model lc3_tns_order_models[]', '`lc3_tns_order_models`')
table2('tnsOrderBits', 'const uint16_t lc3_tns_order_bits[][8]', '`lc3_tns_order_bits`', 8)
models('tnsCoeffsModels', 'const struct lc3_ac_model lc3_tns_coeffs_models[]', '`lc3_tns_coeffs_models`')
table2('tnsCoeffsBits', 'const uint16_t lc3_tns_coeffs_bits[][17]', '`lc3_tns_coeffs_bits`', 17)
table2('mpvqOffsets', 'const int32_t lc3_sns_mpvq_offsets[][11]', '`lc3_sns_mpvq_offsets`', 11)

body, l0, l1 = grab('const uint8_t lc3_spectrum_lookup[2][2][256][4]')
t = parse(body)
assert [len(t), len(t[0]), len(t[0][0]), len(t[0][0][0])] == [2, 2, 256, 4]
for r in range(2):
    for h in range(2):
        assert len(t[r][h]) == 256 and all(len(x) == 4 for x in t[r][h])
        o.append('/-- `lc3_spectrum_lookup[%d][%d]`, src/tables.c:%d-%d. -/' % (r, h, l0, l1))
        o.append('def spectrumLookup%d%d : List (List Nat) := [' % (r, h))
        o.append(wrap([lst(x) for x in t[r][h]], 2) + ']')
        o.append('')
models('spectrumModels', 'const struct lc3_ac_model lc3_spectrum_models[]', '`lc3_spectrum_models`')
table2('spectrumBits', 'const uint16_t lc3_spectrum_bits[][17]', '`lc3_spectrum_bits`', 17)

DT = {'2m5': 'm2_5', '5m': 'm5', '7m5': 'm7_5', '10m': 'm10'}
SR = ['8k', '16k', '24k', '32k', '48k', '48k_hr', '96k_hr']
SRL = {'8k': 'k8', '16k': 'k16', '24k': 'k24', '32k': 'k32', '48k': 'k48', '48k_hr': 'k48hr', '96k_hr': 'k96hr'}
rows = []
for d in DT:
    for s in SR:
        decl = 'static const int band_lim_%s_%s[]' % (d, s)
        if decl not in text: continue
        body, l0, l1 = grab(decl)
        xs = parse(body)
        nm = 'bandLim_%s_%s' % (DT[d], SRL[s])
        o.append('/-- `band_lim_%s_%s`, src/tables.c:%d-%d. -/' % (d, s, l0, l1))
        o.append('def %s : List Nat := [\n' % nm + wrap([str(x) for x in xs], 2) + ']')
        o.append('')
        rows.append((DT[d], SRL[s], nm))
i = text.index('const int *lc3_band_lim[')
l0 = text.count('\n', 0, i) + 1
l1 = text.count('\n', 0, text.index('};', i)) + 1
print(text[i:text.index('};', i)], file=sys.stderr)
o.append('/-- `lc3_band_lim`, src/tables.c:%d-%d (`[]` stands for the null pointer). -/' % (l0, l1))
o.append('def bandLim : Dt → Srate → List Nat')
for d, s, n in rows: o.append('  | .%s, .%s => %s' % (d, s, n))
o.append('  | _, _ => []')
o.append('')
i = text.index('const int lc3_num_bands[')
l0 = text.count('\n', 0, i) + 1
l1 = text.count('\n', 0, text.index('};', i)) + 1
print(text[i:text.index('};', i)], file=sys.stderr)
o.append('/-- `lc3_num_bands` and `__LC3_NUM_BANDS` (number of limits minus one), src/tables.c:%d-%d. -/' % (l0, l1))
o.append('def numBands (dt : Dt) (sr : Srate) : Nat := (bandLim dt sr).length - 1')
o.append('')
o.append('end LC3')
open('/verif/lean/Verif/Model/Tables.lean', 'w').write('\n'.join(o) + '\n')
