#!/usr/bin/env python3
"""Generate lean/Verif/Parse/Wants.lean: the words for what was wanted in the Fail functions of /repo/ast/toaq.go.

Run: python3 tools/gen_wants.py [/repo [out]]
"""
import re
import sys

REPO = sys.argv[1] if len(sys.argv) > 1 else '/repo'
OUT = sys.argv[2] if len(sys.argv) > 2 else __file__.rsplit('/', 2)[0] + '/lean/Verif/Parse/Wants.lean'
src = open(REPO + '/ast/toaq.go').read()
num = {m[1]: int(m[2]) for m in re.finditer(r'^\t_(\S+) +int = (\d+)$', src, re.M)}
wants, named = {}, {}
for m in re.finditer(r'^func _(\S+)Fail\(parser.*?\n}\n', src, re.M | re.S):
    r = num[m[1]]
    assert r not in wants
    wants[r] = [eval(w) for w in re.findall(r'\bWant: (.*),\n', m[0])]
    n = [eval(w) for w in re.findall(r'failure\.Want = (".*")\n', m[0])]
    assert len(n) <= 1 and m[0].count('Want') == len(wants[r]) + len(n)
    if n:
        named[r] = n[0]
assert sorted(wants) == list(range(403))


def lit(s):
    return '[%s]' % ', '.join(map(str, s.encode()))


with open(OUT, 'w') as o:
    o.write('''/-
The words for what was wanted, as the Fail functions write them (`peg.Fail{Pos: …, Want: …}` and
`failure.Want = …`). Generated by tools/gen_wants.py from /repo/ast/toaq.go; do not edit.
-/
import Verif.Peg.Utf8

namespace Verif.Parse
open Verif.Peg

/-- /repo/ast/toaq.go: `Want: …` in every Fail function, in the order of the source; the rules in the order of
toaq.go:10-414. -/
def wantTable : List (List Bytes) := [
''')
    for i in range(403):
        o.write('  -- %s\n  [%s]%s\n' % (' '.join(wants[i]), ',\n   '.join(map(lit, wants[i])), ',' if i < 402 else ']'))
    o.write('''
/-- /repo/ast/toaq.go: `failure.Want = …`, the error names of rules. -/
def errorNames : List (Nat × Bytes) := [
''')
    ks = sorted(named)
    for k in ks:
        o.write('  -- %s\n  (%d, %s)%s\n' % (named[k], k, lit(named[k]), ',' if k != ks[-1] else ']'))
    o.write('''
/-- The error name of a rule. -/
def errorName (r : Nat) : Bytes := (errorNames.lookup r).getD []

end Verif.Parse
''')
