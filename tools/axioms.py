import json,subprocess
m=json.load(open('/verif/MANIFEST.json'))
ths=[t for c in m['claims'] for t in c['theorems']]
src='import Verif\n'+''.join(f'#print axioms {t}\n' for t in ths)
open('/tmp/ax.lean','w').write(src)
o=subprocess.run(['lake','env','lean','/tmp/ax.lean'],cwd='/verif/lean',capture_output=True,text=True).stdout
import re
o=re.sub(r'\n\s+',' ',o)
from collections import defaultdict
d=defaultdict(list)
for l in o.strip().split('\n'):
    mm=re.match(r"'(\S+)' (.*)",l)
    if not mm: print("??",l); continue
    n,r=mm.groups()
    ax=re.search(r'\[(.*)\]',r)
    d[ax.group(1) if ax else 'none'].append(n.replace('Osu.',''))
out=['# Axioms of the theorems in MANIFEST.json','','Generated with `#print axioms` (names without the prefix `Osu.`).','']
for k in sorted(d):
    out+=[f'## {k}','',', '.join(d[k]),'']
open('/verif/AXIOMS.md','w').write('\n'.join(out))
for k in d: print(k,len(d[k]))
