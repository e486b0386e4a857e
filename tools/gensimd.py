#!/usr/bin/env python3
"""Generate lean/Verif/Model/SimdTables.lean from src/ltpf_neon.h and src/ltpf_arm.h."""
import re, textwrap
REPO = '/repo/src/'
OUT = '/verif/lean/Verif/Model/SimdTables.lean'
out = ['import Verif.Model.Api', '', '/-',
       'Tables of the resamplers of `src/ltpf_neon.h` and `src/ltpf_arm.h`; generated by tools/gensimd.py. Do not edit.', '-/', '',
       'namespace LC3']

def ints(s): return [int(t) for t in re.findall(r'-?\d+', s)]

def emit(name, doc, l):
    body = '\n'.join('  ' + t for t in textwrap.wrap(', '.join(map(str, l)), 98))
    out.extend(['', f'/-- {doc} -/', f'def {name} : List Int := [', body + ']'])

for f, pre in (('ltpf_neon.h', 'neon'), ('ltpf_arm.h', 'arm')):
    src = open(REPO + f).read()
    for m in re.finditer(r'%s_resample_(\d+)k_12k8\(\s*struct.*?static const int16_t h\[([^=]*)\] = \{(.*?)\n    \};' % pre, src, re.S):
        rate, dim, body = m.group(1), m.group(2), m.group(3)
        l0 = src[:m.start(3)].count('\n') + 1
        l1 = src[:m.end()].count('\n') + 1
        dims = ints(dim)
        if pre == 'neon':
            rows = [ints(r) for r in re.findall(r'\{(.*?)\}', body, re.S)]
            assert len(rows) == dims[0] and all(len(r) <= dims[1] for r in rows)
            l = sum((r + [0] * (dims[1] - len(r)) for r in rows), [])
            doc = f'`h[{dims[0]}][{dims[1]}]` of `neon_resample_{rate}k_12k8`, src/{f}:{l0}-{l1}, row after row, completed with zeroes.'
        else:
            l = ints(body)
            n = 1
            for d in dims: n *= d
            assert len(l) <= n, (rate, len(l), n)
            l += [0] * (n - len(l))
            doc = f'`h[{dim}]` of `arm_resample_{rate}k_12k8`, src/{f}:{l0}-{l1}.'
        emit(f'{pre}H{rate}k', doc, l)
        print(pre, rate, dims, len(l), l0, l1)
out.extend(['', 'end LC3', ''])
open(OUT, 'w').write('\n'.join(out))
