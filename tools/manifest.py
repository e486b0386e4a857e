#!/usr/bin/env python3
"""Generate MANIFEST.json from the table below, and check that the theorem names exist."""
import json, os, re, glob
root = os.path.join(os.path.dirname(os.path.abspath(__file__)), '..')
exec(open(os.path.join(root, 'tools', 'claims.py')).read())
names = set()
for f in glob.glob(os.path.join(root, 'lean/Verif/**/*.lean'), recursive=True):
    for m in re.finditer(r'^(?:theorem|lemma)\s+(\S+)', open(f).read(), re.M):
        names.add('LC3.' + m.group(1))
props = [json.loads(l)['id'] for l in open(os.path.join(root, 'properties.jsonl'))]
out = []
for p in props:
    if p not in CLAIMS:
        print('missing', p); continue
    st, th, note = CLAIMS[p]
    th = ['LC3.' + t for t in th]
    for t in th:
        if t not in names: print('unknown theorem', t)
    out.append({"property": p, "status": st, "theorems": th, "note": note})
json.dump({"claims": out}, open(os.path.join(root, 'MANIFEST.json'), 'w'), indent=1)
