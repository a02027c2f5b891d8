#!/usr/bin/env python3
"""Writes MANIFEST.json from the table below; checks that every theorem name exists in lean/Verif."""
import json, re, glob, os
root = os.path.dirname(os.path.dirname(os.path.abspath(__file__)))
names = set()
for f in glob.glob(root + '/lean/Verif/**/*.lean', recursive=True):
    names |= set(re.findall(r'^(?:@\[[^\]]*\] )?theorem ([^\s:({\[]+)', open(f).read(), re.M))
C = []
def c(p, status, thms, note=''):
    thms = thms.split()
    for t in thms:
        assert t in names or t.split('.', 1)[-1] in names, (p, t)
    C.append({"property": p, "status": status, "theorems": ['CCGL.' + t for t in thms], "note": note})
exec(open(root + '/tools/claims.py').read())
ids = [json.loads(l)['id'] for l in open(root + '/properties.jsonl')]
have = [x['property'] for x in C]
print('missing', [i for i in ids if i not in have])
json.dump({"claims": C}, open(root + '/MANIFEST.json', 'w'), indent=1)
