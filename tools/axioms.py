"""Print the axioms of every theorem named in MANIFEST.json, grouped (scratch file outside the repository)."""
import json, subprocess, re, collections, os
root = os.path.dirname(os.path.dirname(os.path.abspath(__file__)))
names = [t for c in json.load(open(root + '/MANIFEST.json'))['claims'] for t in c['theorems']]
src = 'import Verif\n' + ''.join(f'#print axioms {n}\n' for n in names)
open('/tmp/axioms_scratch.lean', 'w').write(src)
out = subprocess.run(['lake', 'env', 'lean', '/tmp/axioms_scratch.lean'], cwd=root + '/lean',
                     capture_output=True, text=True).stdout
groups = collections.defaultdict(list)
for m in re.finditer(r"'([^']+)' (?:depends on axioms: \[([^\]]*)\]|does not depend on any axioms)", out):
    ax = tuple(sorted(a.strip() for a in (m.group(2) or '').split(',') if a.strip()))
    groups[ax].append(m.group(1).split('.')[-1])
seen = sum(len(v) for v in groups.values())
print(f'{seen} of {len(names)} theorems')
for ax, v in sorted(groups.items(), key=lambda x: -len(x[1])):
    print(f'* `{", ".join(ax) or "none"}`: {len(v)} theorems' + ('' if len(v) > 60 else ' (' + ', '.join(v) + ')'))
