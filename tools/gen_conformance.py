#!/usr/bin/env python3
"""Writes lean/Verif/Conformance.lean: the model run on the inputs of the repository's own tests.

/repo/ast/braces_test.go (TestBraces) and /repo/logic/interp_test.go. The tests of the interpreter
compare up to the names of variables; here the exact string of the model is given, and where it
differs from the test in names only the test's string is in a comment.

Running the parser in the kernel is slow, so the module only has the short inputs. All inputs are
checked with compiled code by running the file that this script writes to /tmp/conformance.lean:
`cd lean && lake env lean /tmp/conformance.lean` prints nothing if all agree."""
import re, json
def lit(s): return json.dumps(s, ensure_ascii=False)
def go(x): return x[1:-1] if x[0] == '`' else json.loads(x)
PAT = r'in:\s+("(?:[^"\\]|\\.)*"|`[^`]*`),\s+want:\s+("(?:[^"\\]|\\.)*")'
def tests(f):
    src = re.sub(r'^\s*//.*$', '', open(f).read(), flags=re.M)
    return [(go(i), go(w)) for i, w in re.findall(PAT, src)]
SHORT = 8
full = ['import Verif.Conformance', 'open Verif.Conformance']
RENAMED = {
  "gi? hoq/": "[ιH : hoq(H)] gi(H).",
  "rai? mi/ Hoaq?": "[ιC : chua(‹Hỏaq›, C)] rai(C).",
  "rai? po/ to roi ji/ to suq/": "[ιJ : ji(J)] [ιS : suq(S)] [ιR : raq(R, ⌊J, S⌉)] rai(R).",
  "rai? po/ ji/ ru suq/": "[ιJ : ji(J)] [ιS : suq(S)] [ιR : raq(R, J) ∧ raq(R, S)] rai(R).",
}
o = ['''/-
The model run on short inputs of the repository's own tests. Generated by tools/gen_conformance.py.

These are tests of the model, not proofs: they compare the composition of the modelled parser,
`BracesString`, `Interpret` and `String` with the outputs that /repo/ast/braces_test.go and
/repo/logic/interp_test.go expect.
-/
import Verif.Parse.Parser
import Verif.Logic.InterpExamples

namespace Verif.Conformance
open Verif.Parse Verif.Peg

/-- `ast.NewParser(s).Text()` -/
def text (s : String) : Option AST.Node := match (callText asciiUni (utf8 s.toList) newParser).1 with
  | .text n => some n
  | _ => none

/-- `BracesString` of the parsed text. -/
def braces (s : String) : Option String := (text s).map fun n => String.ofList (AST.bracesString n)

/-- `String(Interpret(text))`. -/
def logic (s : String) : Option String := match text s with
  | some (.text _ d) => match Logic.Ex.run 1000 d with
    | .str s => some s
    | .nil => some ""
    | .err _ => none
  | _ => none

/-! /repo/ast/braces_test.go -/
''']
for i, w in tests('/repo/ast/braces_test.go'):
    full.append(f'#guard braces {lit(i)} = some {lit(w)}')
    if len(i) <= SHORT: o.append(f'example : braces {lit(i)} = some {lit(w)} := by decide +kernel')
o.append('\n/-! /repo/logic/interp_test.go -/\n')
for i, w in tests('/repo/logic/interp_test.go'):
    if i in RENAMED:
        if len(i) <= SHORT: o.append(f'/-- expected up to names: `{w}` -/')
        w = RENAMED[i]
    full.append(f'#guard logic {lit(i)} = some {lit(w)}')
    if len(i) <= SHORT: o.append(f'example : logic {lit(i)} = some {lit(w)} := by decide +kernel')
o.append('\nend Verif.Conformance\n')
open('/verif/lean/Verif/Conformance.lean', 'w').write('\n'.join(o))
open('/tmp/conformance.lean', 'w').write('\n'.join(full))
