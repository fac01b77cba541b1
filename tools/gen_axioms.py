#!/usr/bin/env python3
"""Rewrites the last section of DESIGN.md: the axioms of every theorem in MANIFEST.json. Needs a built lean/."""
import json, re, subprocess
th = [t for c in json.load(open('/verif/MANIFEST.json'))['claims'] for t in c['theorems']]
open('/tmp/ax.lean', 'w').write('import Verif\n' + ''.join(f'#print axioms {t}\n' for t in th))
out = subprocess.run(['lake', 'env', 'lean', '/tmp/ax.lean'], cwd='/verif/lean', capture_output=True, text=True).stdout
by = {}
for m in re.finditer(r"'(\S+)' (does not depend on any axioms|depends on axioms:\s*\[([^\]]*)\])", out):
    ax = ', '.join((m.group(3) or '').split()).replace(',,', ',') or 'none'
    by.setdefault(ax, []).append(m.group(1))
assert sum(map(len, by.values())) == len(th), 'missing theorems'
mark = '## Axioms of each theorem\n'
s = open('/verif/DESIGN.md').read()
s = s[:s.index(mark)] + mark + '\nGenerated by `tools/gen_axioms.py` from `#print axioms`.\n'
for ax in sorted(by, key=lambda a: (a.count(','), a)):
    s += f'\n* **{ax}**: ' + ', '.join('`' + t.split('.')[-1] + '`' for t in sorted(by[ax])) + '\n'
open('/verif/DESIGN.md', 'w').write(s)
print({k: len(v) for k, v in by.items()})
