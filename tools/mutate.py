#!/usr/bin/env python3
"""Seeded-bug runs: apply an edit to a scratch copy of the model, rebuild, report what fails.

usage: mutate.py FILE.json   (a list of {"def","file","old","new","edit","claim"[,"tightened"]})
"target" limits the build to the modules listed. Each run appends one line to /verif/seeded/LOG.jsonl.
"""
import json, os, re, subprocess, sys, shutil
SRC, DST = os.environ.get('SRC', '/verif/lean'), '/tmp/mut/lean'
LOG = '/verif/seeded/LOG.jsonl'

def sync():
    os.makedirs('/tmp/mut', exist_ok=True)
    subprocess.run(['rsync', '-a', '--delete', SRC + '/', DST + '/'] if shutil.which('rsync') else
                   ['bash', '-c', f'rm -rf {DST}; cp -a {SRC} {DST}'], check=True)

def enclosing(f, line):
    lines = open(f, encoding='utf8').read().split('\n')
    for i in range(min(line, len(lines)) - 1, -1, -1):
        m = re.match(r'\s*(?:@\[.*?\]\s*)?(?:private |protected |noncomputable )*(theorem|def|example|instance|lemma|inductive|structure|abbrev)\b\s*(\S*)', lines[i])
        if m: return m.group(2) if m.group(1) != 'example' else f'example@{i+1}'
    return '?'

def run(m):
    sync()
    p = os.path.join(DST, m['file'])
    s = open(p, encoding='utf8').read()
    n = s.count(m['old'])
    if n != 1: print('  !! pattern occurs', n, 'times:', m['def']); return
    open(p, 'w', encoding='utf8').write(s.replace(m['old'], m['new']))
    r = subprocess.run(['lake', 'build'] + m.get('target', []), cwd=DST, capture_output=True, text=True, timeout=3600)
    out = r.stdout + r.stderr
    failed = []
    for x in re.finditer(r'^error: (Verif/\S+?\.lean):(\d+):', out, re.M):
        d = enclosing(os.path.join(DST, x.group(1)), int(x.group(2)))
        if d not in failed: failed.append(d)
    mods = re.findall(r'^- (Verif\S*)', out, re.M)
    print(m['def'], '|', m['edit'], '->', failed, mods, flush=True)
    return dict(definition=m['def'], edit=m['edit'], claim=m['claim'], failed=failed,
                failed_modules=mods, tightened=m.get('tightened', []))

if __name__ == '__main__':
    ms = json.load(open(sys.argv[1]))
    for m in ms:
        r = run(m)
        if r and '--dry' not in sys.argv:
            with open(LOG, 'a', encoding='utf8') as f: f.write(json.dumps(r, ensure_ascii=False) + '\n')
