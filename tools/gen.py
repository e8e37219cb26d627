#!/usr/bin/env python3
"""Regenerates lean/Verif.lean and MANIFEST.json from the sources and tools/status.json."""
import re,json,glob,os
root=os.path.dirname(os.path.dirname(os.path.abspath(__file__)))
files=sorted(glob.glob(root+'/lean/Verif/**/*.lean',recursive=True))
with open(root+'/lean/Verif.lean','w') as f:
    for p in files:
        m=os.path.relpath(p,root+'/lean')[:-5].replace('/','.')
        f.write(f'import {m}\n')
st=json.load(open(root+'/tools/status.json'))
props=[json.loads(l)['id'] for l in open(root+'/properties.jsonl')]
ths={}
for p in files:
    if '/Props/' not in p: continue
    for m in re.finditer(r'^theorem (C\d\d+)_(\S+)',open(p).read(),re.M):
        ths.setdefault(m.group(1),[]).append(m.group(1)+'_'+m.group(2))
claims=[]
for i in props:
    s=st.get(i)
    if not s or i not in ths and s[0]!='not_applicable':
        continue
    claims.append({'property':i,'status':s[0],'theorems':ths.get(i,[]),'note':s[1]})
json.dump({'claims':claims},open(root+'/MANIFEST.json','w'),indent=1)
print(len(claims),'claims',sum(len(c['theorems']) for c in claims),'theorems')
