"""Automatic wrong programs: for every definition of the model that tools/mutations.py does not touch, up to K syntactic edits (changed comparison,
constant, operator, branch, component) that still compile are tried in a scratch copy; the build is stopped at the first theorem that fails.
Usage: automut.py SEED K [Model file names...]. Results: /tmp/am/results.jsonl; survivors are printed."""
import glob, json, os, random, re, signal, subprocess, sys, time
sys.path.insert(0, os.path.dirname(__file__))
from mutations import MUTS
from mutate_lib import decl_at
PRI, WORK, RES = '/tmp/am/pristine', '/tmp/am/work', '/tmp/am/results.jsonl'

OPS = [(r' < ', ' ≤ '), (r' ≤ ', ' < '), (r' > ', ' ≥ '), (r' ≥ ', ' > '), (r' \+ 1\b', ' + 2'), (r' - 1\b', ' - 2'), (r' \+ ', ' - '), (r' - ', ' + '), (r' \* ', ' + '),
       (r'(if [^\n]*?) = ', r'\1 ≠ '), (r'\btrue\b', 'false'), (r'\bfalse\b', 'true'), (r' && ', ' || '), (r' \|\| ', ' && '), (r' ∧ ', ' ∨ '), (r' ∨ ', ' ∧ '),
       (r'(if )!', r'\1'), (r'\b(\d+)\b', lambda m: str(int(m.group(1)) + 1)), (r'(\w)\.1\b', r'\1.2'), (r'(\w)\.2\b', r'\1.1'),
       (r'then ([^\n]+?) else ([^\n]+)$', r'then \2 else \1'), (r'\bsome \w+', 'none'), (r'\.head\?', '.getLast?'), (r'\+\+', '++ [] ++'),
       (r' == ', ' != '), (r' != ', ' == '), (r' ≠ ', ' = '), (r'\.ub\b', '.exn'), (r'\.take\b', '.drop'), (r'\.drop\b', '.take'), (r'\.map\b', '.reverse.map'),
       (r'\bmin\b', 'max'), (r'\bmax\b', 'min'), (r'\.any\b', '.all'), (r'\.all\b', '.any'), (r"'(\w)'", "'@'"), (r'"(\w+)"', r'"\1@"'), (r'¬ ', ''), (r' / ', ' * '), (r' % ', ' / ')]

def defs_of(name):
    s = open(f'{PRI}/Verif/Model/{name}.lean').read()
    starts = [(m.start(), m.group(2)) for m in re.finditer(r'^(?:noncomputable |private |open Classical in\n)*(def|abbrev|structure|inductive|instance|theorem|end|namespace|/--|/-!|variable|section|open)\s*(\S*)', s, re.M)]
    out = []
    for k, (p, n) in enumerate(starts):
        if re.match(r'(noncomputable |private )*def', s[p:]):
            e = starts[k + 1][0] if k + 1 < len(starts) else len(s)
            out.append((p, e, n))
    return s, out

def touched(name, s, p, e):
    for mu in MUTS:
        if mu[0] == name:
            q = s.find(mu[1])
            if p - 200 <= q < e and q >= 0 and q + len(mu[1]) > p: return True
    return False

def cands(s, p, e):
    body = s[p:e]
    i = body.find(':=')
    j = body.find('\n  |')
    st = min([x for x in (i, j) if x >= 0] or [0])
    res = []
    for rx, rep in OPS:
        for m in re.finditer(rx, body[st:], re.M):
            new = body[:st] + body[st:][:m.start()] + (m.expand(rep) if isinstance(rep, str) else rep(m)) + body[st:][m.end():]
            if new != body: res.append((m.group(0).strip() + ' -> ' + (m.expand(rep) if isinstance(rep, str) else rep(m)).strip(), new, st + m.start()))
    return res

def build(targets):
    p = subprocess.Popen('lake build ' + targets + ' 2>&1', shell=True, cwd=WORK, stdout=subprocess.PIPE, text=True, start_new_session=True)
    out = ''
    first = None
    for l in p.stdout:
        out += l
        if first is None and re.search(r'error: Verif/\S+\.lean:\d+', l):
            first = time.time()
            os.killpg(p.pid, signal.SIGKILL)
            break
    p.wait()
    return out

def main():
    seed, K = int(sys.argv[1]), int(sys.argv[2])
    names = sys.argv[3:] or sorted(os.path.basename(f)[:-5] for f in glob.glob(f'{PRI}/Verif/Model/*.lean') if 'PowTable' not in f)
    done = set()
    if os.path.exists(RES):
        for l in open(RES): r = json.loads(l); done.add((r['file'], r['definition'], r['seed']))
    for name in names:
        s, ds = defs_of(name)
        for p, e, n in ds:
            if (name, n, seed) in done: continue
            if touched(name, s, p, e) and seed < 100: continue
            cs = cands(s, p, e)
            rng = random.Random(f'{seed}{name}{n}')
            rng.shuffle(cs)
            ok = 0
            tries = 0
            for desc, new, off in cs:
                if ok >= K or tries >= 6: break
                tries += 1
                subprocess.run(f'rm -rf {WORK}/.lake/build {WORK}/Verif && cp -a {PRI}/.lake/build {WORK}/.lake/build && cp -a {PRI}/Verif {WORK}/Verif', shell=True)
                open(f'{WORK}/Verif/Model/{name}.lean', 'w').write(s[:p] + new + s[e:])
                o = build(f'Verif.Model.{name}')
                if 'Build completed successfully' not in o: continue
                ok += 1
                t = time.time()
                o = build('')
                surv = 'Build completed successfully' in o
                errs = []
                model = False
                for m in re.finditer(r'error: (Verif/\S+?\.lean):(\d+):\d+', o):
                    d = decl_at(f'{WORK}/{m.group(1)}', int(m.group(2)), WORK)
                    if m.group(1).startswith('Verif/Model'): model = True
                    if d and d not in errs: errs.append(d)
                ln = new[:off].count('\n')
                edit = f"{(s[p:e].split(chr(10))+[''])[ln].strip()}  ==>  {(new.split(chr(10))+[''])[ln].strip()}"
                rec = {'file': name, 'definition': n, 'seed': seed, 'op': desc, 'edit': edit, 'survived': surv, 'failed': errs, 'model': model, 'sec': round(time.time() - t)}
                open(RES, 'a').write(json.dumps(rec, ensure_ascii=False) + '\n')
                print(name, n, '|', desc, '|', 'SURVIVED ' + edit if surv else 'caught', errs[:2], rec['sec'], flush=True)
            if ok == 0: print(name, n, 'no candidate', len(cs), flush=True)
main()
