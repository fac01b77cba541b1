#!/usr/bin/env python3
"""Prints the Lean literal of tone.Diacritic from /repo/tone/tone.go (checks that all entries are single runes)."""
import re
src=open('/repo/tone/tone.go',encoding='utf8').read()
body=src[src.index('Diacritic = map'):src.index('toneNameRunes =')]
out=[];cur=None
for line in body.split('\n'):
    m=re.match(r"\s*'(\\\\|.)': \{$",line)
    if m:
        t=m.group(1); cur=[]; out.append((t,cur)); continue
    m=re.match(r'\s*"(.)": \{(.*)\},$',line)
    if m:
        vs=re.findall(r'"([^"]*)"',m.group(2))
        assert all(len(v)==1 for v in vs),vs
        cur.append((m.group(1),vs))
print("def diacritic : List (Char × List (Char × List Char)) := [")
for i,(t,c) in enumerate(out):
    print("  ('%s', ["%t)
    print(",\n".join("    ('%s', [%s])"%(k,", ".join("'%s'"%v for v in vs)) for k,vs in c)+"])"+("," if i<len(out)-1 else "]"))
