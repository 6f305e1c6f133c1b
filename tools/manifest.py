#!/usr/bin/env python3
"""Regenerate MANIFEST.json: collects, per property, every theorem named C<NN>_... under lean/Verif/Props,
with the status and note given in STATUS below."""
import json,re,glob,os
root=os.path.join(os.path.dirname(__file__),'..')
thms={}
for f in sorted(glob.glob(os.path.join(root,'lean/Verif/Props/*.lean'))):
    ns=[]
    for line in open(f):
        m=re.match(r'namespace (\S+)',line)
        if m: ns.append(m.group(1))
        m=re.match(r'end (\S+)',line)
        if m and ns and ns[-1]==m.group(1): ns.pop()
        m=re.match(r'theorem (C\d\d+_\S+)',line)
        if m:
            name=m.group(1)
            pid=name.split('_')[0]
            thms.setdefault(pid,[]).append('.'.join(ns+[name]))
exec(open(os.path.join(root,'tools/status.py')).read())
props=[json.loads(l)['id'] for l in open(os.path.join(root,'properties.jsonl'))]
claims=[]
for pid in props:
    t=thms.get(pid,[])
    st,note=STATUS.get(pid,(None,''))
    if st is None:
        if not t: continue
        st='partial' if all(x.endswith('_partial') for x in t) else 'proved'
    claims.append({'property':pid,'status':st,'theorems':t,'note':note})
for pid in thms:
    assert pid in props,(pid,'not in properties')
json.dump({'claims':claims},open(os.path.join(root,'MANIFEST.json'),'w'),indent=1,ensure_ascii=False)
print(len(claims),'claims',sum(len(c['theorems']) for c in claims),'theorems; missing:',[x for x in props if x not in thms])
