"""Fill the generated part of DESIGN.md (the per-property table) from properties.jsonl, MANIFEST.json and method notes."""
import json, os, re
root = os.path.dirname(os.path.dirname(os.path.abspath(__file__)))
props = {}
for l in open(root + '/properties.jsonl'):
    d = json.loads(l); props[d['id']] = d
claims = {c['property']: c for c in json.load(open(root + '/MANIFEST.json'))['claims']}
meth = {}
for l in open(root + '/tools/methods.txt'):
    l = l.strip()
    if not l: continue
    k, v = l.split(':', 1); meth[k] = v.strip()
rows = ['| id | property | modelled code and proof | status |', '|---|---|---|---|']
for k in sorted(props):
    c = claims[k]
    rows.append(f"| {k} | {props[k]['title']} | {meth.get(k,'')} | {c['status']}, {len(c['theorems'])} theorems. {c['note']} |")
f = root + '/DESIGN.md'
s = open(f).read()
s = re.sub(r'<!-- table -->.*<!-- end table -->', lambda m: '<!-- table -->\n' + '\n'.join(rows) + '\n<!-- end table -->', s, flags=re.S)
open(f, 'w').write(s)
