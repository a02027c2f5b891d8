"""usage: setprop.py ID field text  -- edit one field of a property"""
import json,sys
L=[json.loads(l) for l in open('/verif/properties.jsonl')]
for p in L:
    if p['id']==sys.argv[1]: p[sys.argv[2]]=sys.argv[3]; break
else: raise SystemExit('no such property')
open('/verif/properties.jsonl','w').write(''.join(json.dumps(p,ensure_ascii=False)+'\n' for p in L))
