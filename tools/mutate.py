#!/usr/bin/env python3
"""Seed a bug in a scratch copy of the Lean project and report which theorems no longer prove.

usage: mutate.py CASES.json [--log]
CASES.json: list of {file, definition, old, new, edit, claim}; `file` is relative to lean/Verif,
`old` occurs exactly once in it. With --log, a line is added to seeded/LOG.jsonl for each case
where the build failed. Cases where the build still succeeds are reported as SURVIVED.
"""
import json, os, re, shutil, signal, subprocess, sys, time
ROOT = os.path.abspath(os.path.join(os.path.dirname(__file__), '..'))
SCRATCH = os.environ.get('MUT_DIR', '/tmp/mut/lean')
BASE = os.environ.get('MUT_BASE', ROOT + '/lean')
# seconds: limit of a build, and time left after the first error
LIMIT = int(os.environ.get('MUT_LIMIT', '2400'))
MORE = int(os.environ.get('MUT_MORE', '45'))

def sync():
    os.makedirs(os.path.dirname(SCRATCH), exist_ok=True)
    subprocess.run(['rsync', '-a', '--delete', BASE + '/', SCRATCH + '/'], check=True) \
        if shutil.which('rsync') else (shutil.rmtree(SCRATCH, ignore_errors=True),
                                       shutil.copytree(BASE, SCRATCH, symlinks=True))

def deps():
    out = subprocess.run(["lake", "env", "lean", "--stdin"], stdin=open(ROOT + "/tools/deps.src"),
                         cwd=ROOT + '/lean', capture_output=True, text=True).stdout
    g = {}
    for l in out.splitlines():
        p = l.split()
        if p: g[p[0]] = set(p[1:])
    return g

def props():
    m = json.load(open(ROOT + '/MANIFEST.json'))
    r = {}
    for c in m['claims']:
        for t in c['theorems']: r.setdefault(t, []).append(c['property'])
    return r

def titles():
    return {o['id']: o['title'] for o in map(json.loads, open(ROOT + '/properties.jsonl'))}

def closure(g, t):
    seen, todo = set(), [t]
    while todo:
        x = todo.pop()
        if x in seen: continue
        seen.add(x)
        todo += [y for y in g.get(x, ()) if y not in seen]
    return seen

DECL = re.compile(r'^(?:private\s+|protected\s+|noncomputable\s+|@\[[^\]]*\]\s*)*(theorem|lemma|def|example|instance|abbrev|structure|inductive)\s*(\S*)')

def decl_at(path, line):
    lines = open(path).read().split('\n')
    ns = []
    name = None
    for i, l in enumerate(lines[:line]):
        if l.startswith('namespace '): ns.append(l.split()[1])
        elif l.startswith('end ') and ns and l.split()[1] == ns[-1]: ns.pop()
        m = DECL.match(l)
        if m:
            nm = m.group(2)
            name = ('.'.join(ns + [nm]) if m.group(1) not in ('example',) else 'example:%d' % (i + 1))
    return name

def run(case):
    path = os.path.join(SCRATCH, 'Verif', case['file'])
    src = open(path).read()
    assert src.count(case['old']) == 1, (case['file'], case['old'], src.count(case['old']))
    open(path, 'w').write(src.replace(case['old'], case['new']))
    try:
        log = SCRATCH + '.out'
        p = subprocess.Popen(['lake', 'build'], cwd=SCRATCH, stdout=open(log, 'w'), stderr=subprocess.STDOUT, start_new_session=True)
        out, t0, first = '', time.time(), None
        while p.poll() is None:
            time.sleep(0.5)
            out = open(log).read()
            if first is None and '\nerror: Verif/' in out: first = time.time()
            if time.time() - t0 > LIMIT or (first and time.time() - first > MORE):
                os.killpg(p.pid, signal.SIGKILL)
                p.wait()
        out = open(log).read()
        if first is None and p.returncode != 0 and '\nerror: Verif/' not in out: return False, ['<timeout>'], out
        failed = []
        for m in re.finditer(r'^error: (Verif/\S+?\.lean):(\d+):', out, re.M):
            d = decl_at(os.path.join(SCRATCH, m.group(1)), int(m.group(2)))
            if d and d not in failed: failed.append(d)
        return p.returncode == 0, failed, out
    finally:
        open(path, 'w').write(src)

def main():
    cases = json.load(open(sys.argv[1]))
    log = '--log' in sys.argv
    sync()
    g = deps(); pr = props(); ti = titles()
    cl = {t: closure(g, t) for t in pr}
    for c in cases:
        sync()
        ok, failed, out = run(c)
        if ok:
            print('SURVIVED', c['definition'], '|', c['edit'], '|', c['claim'], flush=True)
            continue
        fs = set(f for f in failed)
        hit = sorted(t for t in pr if t in fs or cl[t] & fs)
        print('killed  ', c['definition'], '|', c['edit'], '|', failed[:6], '->', [h.replace('LC3.', '') for h in hit], flush=True)
        if not failed: print(out[-1500:])
        if any(m in out for m in ('error: Verif/' + c['file'] + ':',)):
            print('  (the model does not build: not logged)', flush=True)
            continue
        if not c['claim'] and hit:
            near = min(hit, key=lambda t: len(cl[t]))
            c['claim'] = ti[pr[near][0]]
        if log and c['claim']:
            with open(ROOT + '/seeded/LOG.jsonl', 'a') as o:
                o.write(json.dumps({
                    'definition': c['definition'], 'file': 'lean/Verif/' + c['file'], 'edit': c['edit'],
                    'claim': c['claim'], 'failed': failed, 'property_theorems_lost': hit,
                    'tightened': c.get('tightened', [])}) + '\n')
main()
