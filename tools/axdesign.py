#!/usr/bin/env python3
"""Put the output of axioms.py into section 2 of DESIGN.md."""
import subprocess, re
o = subprocess.run(['python3', 'tools/axioms.py'], capture_output=True, text=True).stdout.strip().split('\n')
s = open('DESIGN.md').read()
m = re.search(r'  \d+ of \d+ theorems\n.*?\n\n', s, re.S)
s = s[:m.start()] + '\n'.join('  ' + l.strip() for l in o) + '\n\n' + s[m.end():]
open('DESIGN.md', 'w').write(s)
