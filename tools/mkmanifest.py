#!/usr/bin/env python3
"""Rebuild MANIFEST.json from the theorem names Cnn_* in lean/Verif/Props."""
import re,glob,json,os
root=os.path.dirname(os.path.dirname(os.path.abspath(__file__)))
notes=json.load(open(os.path.join(root,'tools/notes.json')))
th={}
for f in sorted(glob.glob(root+'/lean/Verif/Props/*.lean')):
    for m in re.finditer(r'^theorem (C(\d\d+)_\w+)',open(f).read(),re.M):
        th.setdefault('C'+m.group(2),[]).append('Verif.Props.'+m.group(1))
claims=[]
for l in open(root+'/properties.jsonl'):
    i=json.loads(l)['id']
    n=notes.get(i,{})
    t=th.get(i,[])+n.get('extra',[])
    if not t: continue
    st=n.get('status') or ('partial' if all(x.endswith('_partial') for x in t) else 'proved')
    claims.append({"property":i,"status":st,"theorems":t,"note":n.get('note','')})
json.dump({"claims":claims},open(root+'/MANIFEST.json','w'),indent=1)
print(len(claims),'claims',sum(len(c['theorems']) for c in claims),'theorems')
