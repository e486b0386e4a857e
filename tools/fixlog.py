#!/usr/bin/env python3
"""Recompute the field `property_theorems_lost` of seeded/LOG.jsonl from the current dependencies."""
import json, os, subprocess
ROOT = os.path.abspath(os.path.join(os.path.dirname(__file__), '..'))
src = open(ROOT + '/tools/mutate.py').read().replace('\nmain()\n', '\n')
import importlib.util
spec = importlib.util.spec_from_loader('mutate', loader=None)
m = importlib.util.module_from_spec(spec); m.__file__ = ROOT + '/tools/mutate.py'
exec(compile(src, m.__file__, 'exec'), m.__dict__)
g = m.deps(); pr = m.props()
cl = {t: m.closure(g, t) for t in pr}
out = []
for l in open(ROOT + '/seeded/LOG.jsonl'):
    d = json.loads(l)
    fs = set(d.get('failed', []))
    if 'property_theorems_lost' in d:
        d['property_theorems_lost'] = sorted(set(d['property_theorems_lost']) | set(t for t in pr if t in fs or cl[t] & fs))
    out.append(json.dumps(d))
open(ROOT + '/seeded/LOG.jsonl', 'w').write('\n'.join(out) + '\n')
