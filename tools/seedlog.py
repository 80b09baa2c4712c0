#!/usr/bin/env python3
"""Merges the seeded-bug runs (/tmp/seed/muts*.py, /tmp/seed/results*.jsonl) into seeded/LOG.jsonl."""
import json,glob,os
MUT={}
for f in sorted(glob.glob('/tmp/seed/muts*.py')):
    ns={}; exec(open(f).read(),ns)
    for m in ns['MUT']: MUT[m['id']]=m
RES={}
for f in ['/tmp/seed/results.jsonl','/tmp/seed/results2.jsonl']:
    if os.path.exists(f):
        for l in open(f):
            r=json.loads(l); RES[r['id']]=r
notes={}
if os.path.exists('/tmp/seed/tightened.json'): notes=json.load(open('/tmp/seed/tightened.json'))
out=[]
for i,m in MUT.items():
    if i not in RES or RES[i].get('invalid'): continue
    r=RES[i]
    cl=m['breaks'].split(',') if m['breaks'] else []
    rel=[t for t in r['failed']+r['missing'] if any(t.startswith(c.strip()+'_') for c in cl)]
    out.append(dict(id=i,definition=m['defn'],
        edit={'files':[dict(file='lean/'+f,old=o,new=n) for f,o,n in m['edits']],'description':m['desc']},
        claim_broken=m['breaks'],
        theorems_failed=rel if rel else r['direct'],
        property_theorems_failed_total=len(r['failed'])+len(r['missing']),
        proofs_broken_directly=r['direct'],
        theorems_tightened=notes.get(i,{}).get('tightened',[]),
        note=notes.get(i,{}).get('note','')))
with open('/verif/seeded/LOG.jsonl','w') as f:
    for o in out: f.write(json.dumps(o,ensure_ascii=False)+'\n')
print(len(out),'entries; without relevant failure:',[(o['id'],o['claim_broken']) for o in out if not any(t.startswith('C') for t in o['theorems_failed'])])
