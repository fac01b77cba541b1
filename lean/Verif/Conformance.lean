/-
The model run on short inputs of the repository's own tests. Generated by tools/gen_conformance.py.

These are tests of the model, not proofs: they compare the composition of the modelled parser,
`BracesString`, `Interpret` and `String` with the outputs that /repo/ast/braces_test.go and
/repo/logic/interp_test.go expect.
-/
import Verif.Parse.Parser
import Verif.Logic.InterpExamples

namespace Verif.Conformance
open Verif.Parse Verif.Peg

/-- `ast.NewParser(s).Text()` -/
def text (s : String) : Option AST.Node := match (callText asciiUni (utf8 s.toList) newParser).1 with
  | .text n => some n
  | _ => none

/-- `BracesString` of the parsed text. -/
def braces (s : String) : Option String := (text s).map fun n => String.ofList (AST.bracesString n)

/-- `String(Interpret(text))`. -/
def logic (s : String) : Option String := match text s with
  | some (.text _ d) => match Logic.Ex.run 1000 d with
    | .str s => some s
    | .nil => some ""
    | .err _ => none
  | _ => none

/-! /repo/ast/braces_test.go -/

example : braces "" = some "" := by decide +kernel
example : braces "hio?" = some "hỉo" := by decide +kernel
example : braces "  hio?  " = some "hỉo" := by decide +kernel
example : braces "po/ ji/" = some "(pó jí)" := by decide +kernel
example : braces " " = some "" := by decide +kernel

/-! /repo/logic/interp_test.go -/

example : logic "" = some "" := by decide +kernel
example : logic "gi?" = some "gi()." := by decide +kernel
/-- expected up to names: `[ιX : hoq(X)] gi(X).` -/
example : logic "gi? hoq/" = some "[ιH : hoq(H)] gi(H)." := by decide +kernel
example : logic "do? ji/" = some "[ιJ : ji(J)] U(J)." := by decide +kernel
example : logic "hoa? ji/" = some "[ιJ : ji(J)] U(J)." := by decide +kernel
example : logic "gu? poq?" = some "gu∘poq()." := by decide +kernel
example : logic "po? ji/" = some "[ιJ : ji(J)] {λX raq(X, J)}()." := by decide +kernel
example : logic "jei? ji/" = some "[ιJ : ji(J)] {λX X=J}()." := by decide +kernel

end Verif.Conformance
