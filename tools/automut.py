#!/usr/bin/env python3
"""Generate cases for mutate.py: one edit of an operator or a constant in each definition of the model that has no line in
seeded/LOG.jsonl. The tables are left out.

usage: automut.py SEED OUT.json [PER_DEFINITION]
The claim of a case is filled by mutate.py, with the title of the first property that is lost.
"""
import collections, glob, json, os, random, re, sys
ROOT = os.path.abspath(os.path.join(os.path.dirname(__file__), '..'))
OPS = [
    (r' ≤ ', [' < ']), (r' < ', [' ≤ ']), (r' ≥ ', [' > ']), (r' > ', [' ≥ ']),
    (r' \+ (?=[\w(])', [' - ']), (r' - (?=[\w(])', [' + ']), (r' \* ', [' + ']),
    (r'A\.add\b', ['A.sub']), (r'A\.sub\b', ['A.add']), (r'A\.mul\b', ['A.add']), (r'A\.lt\b', ['A.le']), (r'A\.le\b', ['A.lt']),
    (r' && ', [' || ']), (r' \|\| ', [' && ']), (r' ∧ ', [' ∨ ']), (r' ∨ ', [' ∧ ']),
    (r'\bmin\b', ['max']), (r'\bmax\b', ['min']), (r'\btrue\b', ['false']), (r'\bfalse\b', ['true']),
    (r' = (?=\w+ (?:then|∧|∨))', [' ≠ ']), (r' ≠ ', [' = ']), (r'>>>', ['<<<']), (r' % ', [' / ']),
    (r'(?<![\w.\]])\d+(?![\w.])', ['INC']),
]

def bodies(f):
    """(definition, begin, end) of the text of the definitions, without the signature."""
    src = open(f).read()
    heads = [m for m in re.finditer(r'^(?:noncomputable |private |protected |@\[[^\]]*\] )*def (\S+)', src, re.M)]
    for m in heads:
        e = re.search(r'\n\n', src[m.end():])
        end = m.end() + e.start() if e else len(src)
        txt = src[m.end():end]
        b = re.search(r':=|\n  \| ', txt)
        if b: yield m.group(1), m.end() + b.start() + (2 if b.group(0) == ':=' else 0), end, src

def main():
    rnd = random.Random(int(sys.argv[1]))
    per = int(sys.argv[3]) if len(sys.argv) > 3 else 1
    done = set()
    for l in open(ROOT + '/seeded/LOG.jsonl'):
        for d in re.split(r'[ ,]+', json.loads(l)['definition']): done |= {d, d.split('.')[-1]}
    cases = []
    for f in sorted(glob.glob(ROOT + '/lean/Verif/Model/*.lean')):
        if 'Tables' in f: continue
        for d, b, e, src in bodies(f):
            if d in done or d.split('.')[-1] in done: continue
            cand = []
            for o, rs in OPS:
                for m in re.finditer(o, src[b:e]):
                    line = src[src.rfind('\n', 0, b + m.start()) + 1:b + m.start()]
                    if '--' in line: continue
                    rest = src[b + m.end():src.find('\n', b + m.end())]
                    if line.lstrip().startswith('|') and '=>' not in line and '=>' in rest: continue
                    for r in rs:
                        new = str(int(m.group(0)) + 1) if r == 'INC' else r
                        cand.append((o, b + m.start(), b + m.end(), new))
            rnd.shuffle(cand)
            for o, i, j, new in cand[:per]:
                # context: grow to a unique text
                x, y = i, j
                while src.count(src[x:y]) > 1:
                    if src[x - 1] != '\n': x -= 1
                    elif src[y] != '\n': y += 1
                    else: x -= 1
                    if i - x > 400: break
                old = src[x:y]
                if src.count(old) != 1: continue
                k = src.rfind('\n', 0, i) + 1
                l = src.find('\n', j)
                cases.append(dict(file='Model/' + os.path.basename(f), definition=d, old=old, new=src[x:i] + new + src[j:y],
                                  edit='`%s` becomes `%s`' % (src[k:l].strip(), (src[k:i] + new + src[j:l]).strip()), claim=''))
    rnd.shuffle(cases)
    json.dump(cases, open(sys.argv[2], 'w'), indent=1, ensure_ascii=False)
    print(len(cases))
main()
