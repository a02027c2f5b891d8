"""Runs the seeded wrong programs of tools/mutations.py against the theorems in a scratch copy of the Lean project.
Usage: mutate.py START END   (indices into MUTS). Appends one JSON line for each to seeded/LOG.jsonl."""
import json, os, re, subprocess, sys, time
sys.path.insert(0, os.path.dirname(__file__))
from mutations import MUTS
ROOT = '/tmp/mut/lean'
LOG = '/verif/seeded/LOG.jsonl'

def decl_at(path, line):
    ls = open(path).read().split('\n')
    ns = []
    name = None
    for i, l in enumerate(ls[:line]):
        m = re.match(r'\s*namespace\s+(\S+)', l)
        if m: ns.append(m.group(1))
        m = re.match(r'\s*end\s+(\S+)', l)
        if m and ns and ns[-1] == m.group(1): ns.pop()
        m = re.match(r'\s*(?:@\[[^\]]*\]\s*)?(?:private |protected |noncomputable )*(theorem|lemma|def|example|instance|structure|inductive)\s+(\S+)?', l)
        if m:
            name = '.'.join(ns + [m.group(2)]) if m.group(1) != 'example' else 'example in ' + os.path.relpath(path, ROOT)
    return name

def run(i):
    f, old, new, claim = MUTS[i][:4]
    p = f'{ROOT}/Verif/Model/{f}.lean'
    src = open(p).read()
    if src.count(old) != 1:
        print(i, 'BAD MATCH', src.count(old), f, repr(old)); return
    line = src[:src.index(old)].count('\n') + 1
    open(p, 'w').write(src.replace(old, new))
    t = time.time()
    try:
        out = subprocess.run('lake build 2>&1', shell=True, cwd=ROOT, capture_output=True, text=True).stdout
    finally:
        open(p, 'w').write(src)
    errs = []
    model_err = False
    for m in re.finditer(r'error: (Verif/\S+?\.lean):(\d+):\d+: (.*)', out):
        if m.group(1).startswith('Verif/Model'): model_err = True
        n = decl_at(f'{ROOT}/{m.group(1)}', int(m.group(2)))
        if n and n not in errs: errs.append(n)
    failmods = re.findall(r'^- (Verif\S*)', out, re.M)
    built_ok = 'Build completed successfully' in out
    rec = {'definition': decl_at(p, line) or f, 'file': f'lean/Verif/Model/{f}.lean', 'edit': f'{old.strip()}  ==>  {new.strip()}',
           'claim': claim, 'failed': errs, 'modules_not_built': [m for m in failmods if m not in ('Verif',)], 'tightened': []}
    print(i, f, 'MODELERR' if model_err else ('SURVIVED' if built_ok else 'caught'), round(time.time() - t), errs[:4], failmods[:6], flush=True)
    if model_err: return
    rec['survived'] = built_ok
    with open(LOG, 'a') as g: g.write(json.dumps(rec, ensure_ascii=False) + '\n')



if sys.argv[1] == 'list':
    for i in map(int, sys.argv[2].split(',')): run(i)
else:
    for i in range(int(sys.argv[1]), min(int(sys.argv[2]), len(MUTS))): run(i)
