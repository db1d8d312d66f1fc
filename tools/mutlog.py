"""Append the results of mutation batches (run outside /verif) to seeded/LOG.jsonl, one line per attempt.
usage: mutlog.py results.jsonl tightened.json ; tightened.json maps "batch:n" to the theorems added or strengthened."""
import json,sys,os
LOG='/verif/seeded/LOG.jsonl'
seen=set()
if os.path.exists(LOG):
    for l in open(LOG):
        r=json.loads(l); seen.add(r['attempt'])
batch=os.path.basename(sys.argv[1]).split('.')[0]
tight=json.load(open(sys.argv[2])) if len(sys.argv)>2 else {}
new=0
with open(LOG,'a') as out:
    for l in open(sys.argv[1]):
        r=json.loads(l); key=f"{batch}:{r['n']}"
        if key in seen or r['status']=='BAD': continue
        m=r['mut']
        out.write(json.dumps(dict(attempt=key,definition=m['def'],file='lean/Verif/'+m['file'],edit=dict(old=m['old'],new=m['new']),claim=m['claim'],result=r['status'].lower(),theorems_failed=sorted(set(r.get('failed') or [])),theorems_tightened=tight.get(key,[])),ensure_ascii=False)+'\n'); new+=1
print(batch,new)
