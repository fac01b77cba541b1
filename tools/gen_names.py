#!/usr/bin/env python3
"""Generate lean/Verif/Parse/Names.lean: the names that the Node functions of /repo/ast/toaq.go write.

Run: python3 tools/gen_names.py [/repo]
"""
import re
import sys

REPO = sys.argv[1] if len(sys.argv) > 1 else '/repo'
OUT = __file__.rsplit('/', 2)[0] + '/lean/Verif/Parse/Names.lean'
if len(sys.argv) > 2:
    OUT = sys.argv[2]
src = open(REPO + '/ast/toaq.go').read()
num = {m[1]: int(m[2]) for m in re.finditer(r'^\t_(\S+) +int = (\d+)$', src, re.M)}
names = {}
fails = {}
for m in re.finditer(r'^func _(\S+)Node\(parser.*?\n}\n', src, re.M | re.S):
    ns = re.findall(r'node = &peg\.Node\{Name: "([^"\\]*)"\}', m[0])
    assert len(ns) == 1 and m[1] in num, m[1]
    # the Fail function writes the identifier of the rule
    f = re.search(r'^func _%sFail\(parser.*?Name: "([^"\\]*)"' % re.escape(m[1]), src[m.end():m.end() + 400000], re.M | re.S)
    assert f and f[1] == m[1], (m[1], ns)
    fails[num[m[1]]] = f[1]
    names[num[m[1]]] = ns[0]
assert sorted(names) == list(range(403))
with open(OUT, 'w') as o:
    o.write('''/-
The names of the rules, as the Node and Fail functions write them (`peg.Node{Name: …}`). Generated by
tools/gen_names.py from /repo/ast/toaq.go; do not edit.
-/
import Verif.Peg.Utf8

namespace Verif.Parse
open Verif.Peg

/-- /repo/ast/toaq.go: `node = &peg.Node{Name: …}` in every Node function, in the order of
toaq.go:10-414. -/
def ruleNames : List Bytes := [
''')
    for i in range(403):
        o.write('  -- %s\n  [%s]%s\n' % (names[i], ', '.join(map(str, names[i].encode())), ',' if i < 402 else ']'))
    o.write('''
/-- /repo/ast/toaq.go: `failure = &peg.Fail{ Name: … }` in every Fail function. -/
def failNames : List Bytes := [
''')
    for i in range(403):
        o.write('  -- %s\n  [%s]%s\n' % (fails[i], ', '.join(map(str, fails[i].encode())), ',' if i < 402 else ']'))
    o.write('''
/-- The name of a rule in a tree of failures. -/
def failName (r : Nat) : Bytes := failNames.getD r []

/-- The name of a rule. -/
def ruleName (r : Nat) : Bytes := ruleNames.getD r []

end Verif.Parse
''')
