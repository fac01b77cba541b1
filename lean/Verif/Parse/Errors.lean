/-
The errors of the parser: /repo/ast/parser.go:96-107 `parse`, with the Fail functions.
-/
import Verif.Parse.Parser
import Verif.Parse.Check
import Verif.Peg.FailPass

namespace Verif.Parse
open Verif.AST Verif.Peg
open Verif.Tone (Str)

variable (U : Uni) (b : Bytes)

/-- `_Parser` with the table `fail`. -/
structure EP where
  ps : PS
  fs : FS Act

def newEP : EP := ⟨newParser, ⟨.empty, 0⟩⟩

/-- An error: the tree (`Tree()`, `ByteOffset()` is a function of it) and the message. -/
structure SynErr where
  tree : Fail (Want Act)
  report : Report Act

/-- What a call does, with the error it returns: parser.go:96-107. `none` in an error: `parse` panics or
does not return. -/
def callE (c : Call) (s : EP) : Out × Option SynErr × EP :=
  match call U b c s.ps with
  | (.err e, ps) =>
    match failRule U toaq (.ofBytes b) ps.as.tab ps.as.last e (fuel b) rFull 0 s.fs with
    | none => (.err e, none, ⟨ps, s.fs⟩)
    | some (f, fs) => (.err e, (simpleError b f).map fun r => ⟨f, r⟩, ⟨ps, fs⟩)
  | (o, ps) => (o, none, ⟨ps, s.fs⟩)

def callsE : List Call → EP → List (Out × Option SynErr)
  | [], _ => []
  | c :: cs, s => ((callE U b c s).1, (callE U b c s).2.1) :: callsE cs (callE U b c s).2.2

end Verif.Parse
