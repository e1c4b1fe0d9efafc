import subprocess,json
M=json.load(open('/verif/MANIFEST.json'))
names=[t for c in M['claims'] for t in c['theorems']]
src='import Verif\n'+'\n'.join('#print axioms %s'%n for n in names)
open('/tmp/w/ax_all.lean','w').write(src)
o=subprocess.run(['lake','env','lean','/tmp/w/ax_all.lean'],cwd='/verif/lean',capture_output=True,text=True).stdout
import re
r={}
for m in re.finditer(r"'(\S+)' (does not depend on any axioms|depends on axioms: \[([^\]]*)\])",o):
    r[m.group(1)]=', '.join(x.strip() for x in (m.group(3) or '').split(',')) or 'none'
assert set(names)<=set(r),set(names)-set(r)
out=['# Axioms of each manifest theorem','','Output of `#print axioms`, produced by `tools/axioms.py`.','']
from collections import defaultdict
g=defaultdict(list)
for n in names: g[r[n]].append(n.split('.')[-1])
for k in sorted(g,key=lambda k:len(k)):
    out+=['## '+k,'',', '.join('`%s`'%x for x in g[k]),'']
open('/verif/AXIOMS.md','w').write('\n'.join(out))
print({k:len(v) for k,v in g.items()})
