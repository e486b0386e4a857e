#!/usr/bin/env python3
"""Generate lean/Verif/Model/MdctTables.lean from /repo/src/tables.c (read as text)."""
import re, sys
from decimal import Decimal
sys.path.insert(0, __file__.rsplit('/', 1)[0])

tab = open('/repo/src/tables.c').read()
FLT = r'-?\d+\.\d+e[-+]?\d+'

def body(text, decl):
    i = text.index(decl)
    j = text.index('{', text.index('=', i))
    d, k = 0, j
    while True:
        if text[k] == '{': d += 1
        if text[k] == '}':
            d -= 1
            if d == 0: break
        k += 1
    return text[j:k+1], text.count('\n', 0, i) + 1, text.count('\n', 0, k) + 1

def wrap(items, ind, width=118):
    out, cur = [], ' ' * ind
    for n, it in enumerate(items):
        s = it + (', ' if n + 1 < len(items) else '')
        if len(cur) + len(s.rstrip()) > width:
            out.append(cur.rstrip()); cur = ' ' * ind
        cur += s
    out.append(cur.rstrip())
    return '\n'.join(out)

def mant(vals):
    """Integers and the power of ten they are divided by."""
    ds = [Decimal(v) for v in vals]
    e = max(0, max(-d.normalize().as_tuple().exponent for d in ds))
    return [int(d.scaleb(e)) for d in ds], e

NS2M5 = dict(zip('8k 16k 24k 32k 48k 48k_hr 96k_hr'.split(), (20, 40, 60, 80, 120, 120, 240)))
NS4M = dict(zip('8k 16k 24k 32k 48k 48k_hr 96k_hr'.split(), (32, 64, 96, 128, 192, 192, 384)))
SR = dict(zip('8k 16k 24k 32k 48k 48k_hr 96k_hr'.split(), ('k8', 'k16', 'k24', 'k32', 'k48', 'k48hr', 'k96hr')))
DT = {'2m5': ('m2_5', 1), '5m': ('m5', 2), '7m5': ('m7_5', 3), '10m': ('m10', 4)}

def ns(dt, sr): return NS2M5[sr] * DT[dt][1]
def nd(dt, sr): return (ns(dt, sr) + (NS4M if dt == '7m5' else NS2M5)[sr]) // 2

def tables():
    r = {'bf3': {}, 'bf2': {}, 'rot': {}, 'win': {}}
    for n in (15, 45):
        b, l0, l1 = body(tab, 'static const struct lc3_fft_bf3_twiddles fft_twiddles_%d ' % n)
        v = re.findall(FLT, b); assert len(v) == 4 * n; assert '.n3 = %d/3' % n in b
        r['bf3'][n] = (v, l0, l1)
    for n in (10, 20, 30, 40, 60, 80, 90, 120, 160, 180, 240, 480):
        b, l0, l1 = body(tab, 'static const struct lc3_fft_bf2_twiddles fft_twiddles_%d ' % n)
        v = re.findall(FLT, b); assert len(v) == n, (n, len(v)); assert '.n2 = %d/2' % n in b
        r['bf2'][n] = (v, l0, l1)
    for n in (40, 80, 120, 160, 240, 320, 360, 480, 640, 720, 960, 1920):
        b, l0, l1 = body(tab, 'static const struct lc3_mdct_rot_def mdct_rot_%d ' % n)
        v = re.findall(FLT, b); assert len(v) == n // 2, (n, len(v)); assert '.n4 = %d/4' % n in b
        r['rot'][n] = (v, l0, l1)
    for dt in DT:
        for sr in SR:
            if dt == '7m5' and 'hr' in sr: continue
            b, l0, l1 = body(tab, 'static const float mdct_win_%s_%s[' % (dt, sr))
            v = re.findall(FLT, b); assert len(v) == ns(dt, sr) + nd(dt, sr), (dt, sr, len(v))
            r['win'][(dt, sr)] = (v, l0, l1)
    return r

def main():
    T = tables()
    o = ['''import Verif.Model.Mdct
import Verif.Model.LtpfTables

/-
Tables of the transforms, `src/tables.c`; generated by tools/genmdct.py. Do not edit.

Values are integers, divided by a power of ten.
-/

set_option maxRecDepth 100000

namespace LC3
''']
    def emit(name, doc, v, l0, l1):
        m, e = mant(v)
        o.append('/-- %s, src/tables.c:%d-%d, divided by `10^%d`. -/' % (doc, l0, l1, e))
        o.append('def %s : List Int := [\n%s]\n' % (name, wrap([str(x) for x in m], 2)))
        return e
    ex = {}
    for n, (v, l0, l1) in T['bf3'].items(): ex['bf3', n] = emit('twBf3_%d' % n, '`fft_twiddles_%d`' % n, v, l0, l1)
    for n, (v, l0, l1) in T['bf2'].items(): ex['bf2', n] = emit('twBf2_%d' % n, '`fft_twiddles_%d`' % n, v, l0, l1)
    for n, (v, l0, l1) in T['rot'].items(): ex['rot', n] = emit('twRot_%d' % n, '`mdct_rot_%d`' % n, v, l0, l1)
    for (dt, sr), (v, l0, l1) in T['win'].items(): ex['win', dt, sr] = emit('win_%s_%s' % (dt, sr), '`mdct_win_%s_%s`' % (dt, sr), v, l0, l1)
    b, l0, l1 = body(tab, 'const struct lc3_fft_bf3_twiddles *lc3_fft_twiddles_bf3[]')
    assert re.findall(r'fft_twiddles_(\d+)', b) == ['15', '45']
    o.append('/-- `lc3_fft_twiddles_bf3`, src/tables.c:%d-%d: size, power of ten and values. -/' % (l0, l1))
    o.append('def bf3Table : Nat → Option (Nat × Nat × List Int)')
    for i, n in enumerate((15, 45)): o.append('  | %d => some (%d / 3, %d, twBf3_%d)' % (i, n, ex['bf3', n], n))
    o.append('  | _ => none\n')
    b, l0, l1 = body(tab, 'const struct lc3_fft_bf2_twiddles *lc3_fft_twiddles_bf2[][3]')
    rows = [re.findall(r'fft_twiddles_(\d+)', r) for r in re.findall(r'\{([^{}]*)\}', b)]
    o.append('/-- `lc3_fft_twiddles_bf2`, src/tables.c:%d-%d; a table not given is `NULL`. -/' % (l0, l1))
    o.append('def bf2Table : Nat → Nat → Option (Nat × Nat × List Int)')
    for i, r in enumerate(rows):
        for k, n in enumerate(r): o.append('  | %d, %d => some (%s / 2, %d, twBf2_%s)' % (i, k, n, ex['bf2', int(n)], n))
    o.append('  | _, _ => none\n')
    b, l0, l1 = body(tab, 'const struct lc3_mdct_rot_def * lc3_mdct_rot[')
    o.append('/-- `lc3_mdct_rot`, src/tables.c:%d-%d. -/' % (l0, l1))
    o.append('def rotTable : Dt → Srate → Option (Nat × Nat × List Int)')
    for dt, key in zip(DT, ('2M5', '5M', '7M5', '10M')):
        r = re.findall(r'mdct_rot_(\d+)', re.search(r'LC3_DT_%s *\] = \{([^{}]*)\}' % key, b).group(1))
        for sr, n in zip(SR, r): o.append('  | .%s, .%s => some (%s / 4, %d, twRot_%s)' % (DT[dt][0], SR[sr], n, ex['rot', int(n)], n))
    o.append('  | _, _ => none\n')
    b, l0, l1 = body(tab, 'const float *lc3_mdct_win[')
    o.append('/-- `lc3_mdct_win`, src/tables.c:%d-%d. -/' % (l0, l1))
    o.append('def winTable : Dt → Srate → Option (Nat × List Int)')
    for dt, key in zip(DT, ('2M5', '5M', '7M5', '10M')):
        r = re.findall(r'mdct_win_(%s_\w+)' % dt, re.search(r'LC3_DT_%s *\] = \{([^{}]*)\}' % key, b).group(1))
        for sr, n in zip(SR, r): o.append('  | .%s, .%s => some (%d, win_%s)' % (DT[dt][0], SR[sr], ex[('win',) + tuple(n.split('_', 1))], n))
    o.append('  | _, _ => none\n')
    o.append('''/-- Values of a table in an arithmetic. -/
def scaled {R : Type} (A : Arith R) (e : Nat) (l : List Int) : List R := l.map fun m => A.ofRat (dec m e)

/-- The tables of the transforms in an arithmetic; the constants of `fft_5` are those of src/mdct.c:38-42. -/
def mdctTables {R : Type} (A : Arith R) : MdctTables R where
  cos1 := A.ofRat (dec 3090169944 10)
  cos2 := A.ofRat (dec (-8090169944) 10)
  sin1 := A.ofRat (dec (-9510565163) 10)
  sin2 := A.ofRat (dec (-5877852523) 10)
  bf3 i := (bf3Table i).map fun t => (t.1, scaled A t.2.1 t.2.2)
  bf2 i j := (bf2Table i j).map fun t => (t.1, scaled A t.2.1 t.2.2)
  rot dt sr := (rotTable dt sr).map fun t => (t.1, scaled A t.2.1 t.2.2)
  win dt sr := (winTable dt sr).map fun t => scaled A t.1 t.2
''')
    o.append('end LC3')
    open('/verif/lean/Verif/Model/MdctTables.lean', 'w').write('\n'.join(o) + '\n')

if __name__ == '__main__': main()
