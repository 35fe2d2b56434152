#!/usr/bin/env python3
"""Generate MANIFEST.json from the theorem names in lean/Verif/Props (Cxx_...)."""
import re, json, glob, os
root=os.path.dirname(os.path.dirname(os.path.abspath(__file__)))
thms={}
for f in sorted(glob.glob(root+'/lean/Verif/Props/*.lean')):
    for m in re.finditer(r'^(?:private )?theorem ((C\d+)_\w+)', open(f).read(), re.M):
        thms.setdefault(m.group(2),[]).append('Pyodrx.Props.'+m.group(1))
notes=json.load(open(root+'/tools/notes.json'))
claims=[]
for l in open(root+'/properties.jsonl'):
    d=json.loads(l); i=d['id']; t=thms.get(i,[])
    n=notes.get(i,{})
    if not t: print('no theorem for',i); continue
    st=n.get('status') or ('partial' if any(x.endswith('_partial') for x in t) else 'proved')
    claims.append({"property":i,"status":st,"theorems":t,"note":n.get('note','')})
json.dump({"claims":claims},open(root+'/MANIFEST.json','w'),indent=1)
print(len(claims),'claims',sum(len(c['theorems']) for c in claims),'theorems')
