import json,sys
# usage: addprop.py < jsonl ; appends properties whose id is new, replaces otherwise
P='/verif/properties.jsonl'
ps=[json.loads(l) for l in open(P) if l.strip()]
ids={p['id']:i for i,p in enumerate(ps)}
for l in sys.stdin:
    if not l.strip(): continue
    p=json.loads(l)
    assert set(p)=={'id','title','statement','quantifier','why_tests_cant','anchors'},p
    if p['id'] in ids: ps[ids[p['id']]]=p
    else: ps.append(p)
open(P,'w').write(''.join(json.dumps(p)+'\n' for p in ps))
