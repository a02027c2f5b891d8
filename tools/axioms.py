"""Prints the axioms of every theorem named in MANIFEST.json and writes AXIOMS.md. Needs a built project."""
import json, re, subprocess
m = json.load(open('/verif/MANIFEST.json'))
names = []
for c in m['claims']:
    for t in c['theorems']:
        if t not in names: names.append(t)
open('/tmp/ax.lean', 'w').write('import Verif\n' + ''.join(f'#print axioms {n}\n' for n in names))
out = subprocess.run('lake env lean /tmp/ax.lean', shell=True, cwd='/verif/lean', capture_output=True, text=True).stdout
out = re.sub(r'\n\s+', ' ', out)
ax = {}
for l in out.split('\n'):
    g = re.match(r"'(.*)' depends on axioms: \[(.*)\]", l)
    if g: ax[g.group(1)] = tuple(sorted(x.strip() for x in g.group(2).split(',')))
    g = re.match(r"'(.*)' does not depend on any axioms", l)
    if g: ax[g.group(1)] = ()
miss = [n for n in names if n not in ax]
print('missing', miss, 'sets', {v for v in ax.values()})
with open('/verif/AXIOMS.md', 'w') as f:
    f.write('# Axioms of the theorems named in MANIFEST.json\n\nGenerated by tools/axioms.py from `#print axioms`.\n\n')
    for s in sorted({v for v in ax.values()}, key=lambda x: (len(x), x)):
        f.write('## ' + (', '.join(s) if s else 'none') + '\n\n')
        for n in names:
            if ax.get(n) == s: f.write(f'- {n}\n')
        f.write('\n')
