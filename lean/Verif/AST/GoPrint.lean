/-
/repo/vendor/github.com/eaburns/pretty/pretty.go: `String`, on syntax trees.

`print` walks a value by reflection. It elides pointers and interfaces and does not tell named slices apart, so a value is
modelled as the tree of what `print` sees (`GV`): a nil, a slice, a struct of a named type, or a word. Words have methods
`PrettyPrint` (/repo/ast/ast.go:229, 661, 671, 721), which are called in place of printing their fields. `gv` says which fields the
other structs of ast.go have, in their order. All fields are exported; a struct that embeds an interface or a struct without such a
method has none. Cycles, which `print` prunes, do not occur in syntax trees.
-/
import Verif.AST.Basic

namespace Verif.AST
open Verif.Tone (Str)

/-- The struct types of ast.go without a method `PrettyPrint`. -/
inductive GT
  | Text | StatementSentence
  | CoP | CoPSentence | CoPStatement | CoPPredicate | TermSet | CoPArgument | CoPRelative | CoPAdverb | CoPPreposition
  | CoPContent
  | Prenex | PrenexStatement | Predication | PredicationRelative | PredicationContent
  | PrefixedPredicate | SerialPredicate
  | MIPredicate | POPredicate | MOPredicate
  | LUPhrase | LUPredicate | LURelative | LUContent
  | LinkedTerm | PredicateArgument | PredicateAdverb | PredicationPreposition | Parenthetical | Incidental | Vocative
deriving DecidableEq, Repr

/-- `t.Name()` -/
def GT.name : GT → Str
  | .Text => "Text".toList | .StatementSentence => "StatementSentence".toList
  | .CoP => "CoP".toList | .CoPSentence => "CoPSentence".toList | .CoPStatement => "CoPStatement".toList
  | .CoPPredicate => "CoPPredicate".toList | .TermSet => "TermSet".toList | .CoPArgument => "CoPArgument".toList
  | .CoPRelative => "CoPRelative".toList | .CoPAdverb => "CoPAdverb".toList
  | .CoPPreposition => "CoPPreposition".toList | .CoPContent => "CoPContent".toList
  | .Prenex => "Prenex".toList | .PrenexStatement => "PrenexStatement".toList | .Predication => "Predication".toList
  | .PredicationRelative => "PredicationRelative".toList | .PredicationContent => "PredicationContent".toList
  | .PrefixedPredicate => "PrefixedPredicate".toList | .SerialPredicate => "SerialPredicate".toList
  | .MIPredicate => "MIPredicate".toList | .POPredicate => "POPredicate".toList
  | .MOPredicate => "MOPredicate".toList | .LUPhrase => "LUPhrase".toList | .LUPredicate => "LUPredicate".toList
  | .LURelative => "LURelative".toList | .LUContent => "LUContent".toList | .LinkedTerm => "LinkedTerm".toList
  | .PredicateArgument => "PredicateArgument".toList | .PredicateAdverb => "PredicateAdverb".toList
  | .PredicationPreposition => "PredicationPreposition".toList | .Parenthetical => "Parenthetical".toList
  | .Incidental => "Incidental".toList | .Vocative => "Vocative".toList

/-- The names of the fields, in the order of the declaration; an embedded field has the name of its type. -/
def GT.fields : GT → List Str
  | .Text => ["Leading".toList, "Discourse".toList]                                        -- ast.go:32
  | .StatementSentence => ["JE".toList, "Statement".toList, "DA".toList]                   -- ast.go:73
  | .CoP | .CoPSentence | .CoPStatement | .CoPPredicate | .TermSet | .CoPArgument | .CoPRelative | .CoPAdverb
  | .CoPPreposition | .CoPContent =>
    ["TO0".toList, "TO1".toList, "RU".toList, "Left".toList, "Right".toList]               -- ast.go:684
  | .Prenex => ["Terms".toList, "BI".toList]                                               -- ast.go:112
  | .PrenexStatement => ["Prenex".toList, "Statement".toList]                              -- ast.go:138
  | .Predication => ["Predicate".toList, "Terms".toList, "NA".toList]                      -- ast.go:154
  | .PredicationRelative | .PredicationContent => ["Predication".toList]                   -- ast.go:448, 567
  | .PrefixedPredicate => ["MU".toList, "Predicate".toList]                                -- ast.go:196
  | .SerialPredicate => ["Left".toList, "Right".toList]                                    -- ast.go:212
  | .MIPredicate => ["MI".toList, "GA".toList, "Phrase".toList]                            -- ast.go:244
  | .POPredicate => ["PO".toList, "GA".toList, "Argument".toList]                          -- ast.go:265
  | .MOPredicate => ["MO".toList, "TEO".toList, "Discourse".toList]                        -- ast.go:286
  | .LUPhrase | .LUPredicate | .LURelative | .LUContent => ["LU".toList, "Statement".toList] -- ast.go:700
  | .LinkedTerm => ["GO".toList, "Argument".toList]                                        -- ast.go:327
  | .PredicateArgument => ["Focus".toList, "Quantifier".toList, "Predicate".toList, "Relative".toList] -- ast.go:390
  | .PredicateAdverb => ["Predicate".toList]                                               -- ast.go:489
  | .PredicationPreposition => ["Predicate".toList, "Argument".toList]                     -- ast.go:527
  | .Parenthetical => ["KIO".toList, "KI".toList, "Discourse".toList]                      -- ast.go:611
  | .Incidental => ["JU".toList, "Statement".toList]                                       -- ast.go:627
  | .Vocative => ["HU".toList, "Argument".toList]                                          -- ast.go:643

/-- What `print` sees of a value. -/
inductive GV where
  | nil
  | word (k : WordKind) (t : Str)
  | arr (l : List GV)
  | struct (t : GT) (l : List GV)

def copGT : CopKind → GT
  | .raw => .CoP | .sentence => .CoPSentence | .statement => .CoPStatement | .predicate => .CoPPredicate
  | .termSet => .TermSet | .argument => .CoPArgument | .relative => .CoPRelative | .adverb => .CoPAdverb
  | .preposition => .CoPPreposition | .content => .CoPContent
def luGT : LuKind → GT | .raw => .LUPhrase | .predicate => .LUPredicate | .relative => .LURelative | .content => .LUContent

/-- A `Word` has its own way to be printed: only its text is seen. -/
def gvW (w : Word) : GV := .word .raw w.T

/-- A field of type `*Word` may be nil. -/
def gvWO : Option Word → GV
  | none => .nil
  | some w => gvW w

mutual
/-- A node as `print` sees it. -/
def gv : Node → GV
  | .text l d => .struct .Text [gvO l, .arr (gvL d)]
  | .discourse d => .arr (gvL d)
  | .sentence je st da => .struct .StatementSentence [gvWO je, gv st, gvWO da]
  | .cop k to0 to1 ru l r => .struct (copGT k) [gvWO to0, gvWO to1, gvW ru, gv l, gv r]
  | .prenex ts bi => .struct .Prenex [.arr (gvL ts), gvW bi]
  | .prenexStmt ts bi st => .struct .PrenexStatement [.struct .Prenex [.arr (gvL ts), gvW bi], gv st]
  | .predication k p ts na => match k with
    | .raw => .struct .Predication [gv p, .arr (gvTO ts), gvWO na]
    | .relative => .struct .PredicationRelative [.struct .Predication [gv p, .arr (gvTO ts), gvWO na]]
    | .content => .struct .PredicationContent [.struct .Predication [gv p, .arr (gvTO ts), gvWO na]]
  | .prefixed mu p => .struct .PrefixedPredicate [gvW mu, gv p]
  | .serial l r => .struct .SerialPredicate [gv l, gv r]
  | .word k w => .word k w.T
  | .mi m ga ph => .struct .MIPredicate [gvW m, gvWO ga, gv ph]
  | .po m ga a => .struct .POPredicate [gvW m, gvWO ga, gv a]
  | .mo m teo d => .struct .MOPredicate [gvW m, gvW teo, .arr (gvL d)]
  | .lu k l st => .struct (luGT k) [gvW l, gv st]
  | .linked g a => .struct .LinkedTerm [gvW g, gv a]
  | .terms ts => .arr (gvL ts)
  | .predArg _ focus quant p rel => .struct .PredicateArgument [gvWO focus, gvWO quant, gv p, gvO rel]
  | .predAdverb p => .struct .PredicateAdverb [gv p]
  | .prep p a => .struct .PredicationPreposition [gv p, gv a]
  | .paren kio ki d => .struct .Parenthetical [gvW kio, gvW ki, .arr (gvL d)]
  | .incidental ju st => .struct .Incidental [gvW ju, gv st]
  | .vocative hu a => .struct .Vocative [gvW hu, gv a]
def gvO : Option Node → GV
  | none => .nil
  | some n => gv n
/-- A nil slice is printed like an empty one. -/
def gvTO : Option (List Node) → List GV
  | none => []
  | some l => gvL l
def gvL : List Node → List GV
  | [] => []
  | n :: ns => gv n :: gvL ns
end

/-- The name a word is printed with. -/
def wordName : WordKind → Str
  | .raw => [] | .predicate => "WordPredicate".toList | .interjection => "Interjection".toList | .space => "Space".toList

/-- The methods `PrettyPrint` of ast.go: 721 `Word`, 229 `WordPredicate`, 661 `Interjection` (with a brace that is not opened), 671
`Space`. The text is not quoted. -/
def prettyWord : WordKind → Str → Str
  | .raw, t => '"' :: (t ++ ['"'])
  | .predicate, t => wordName .predicate ++ '(' :: '"' :: (t ++ ['"', ')'])
  | .interjection, t => wordName .interjection ++ '(' :: '"' :: (t ++ ['"', '}', ')'])
  | .space, t => wordName .space ++ '(' :: '"' :: (t ++ ['"', ')'])

/-- pretty.go:21 `Indent` added to an indentation. -/
def indented (ind : Str) : Str := ind ++ ['\t']

mutual
/-- pretty.go:70 `print`, 135 `printArray`, 149 `printStruct`; the argument is the indentation, a newline and tabs. -/
def goPrint (ind : Str) : GV → Str
  | .nil => "nil".toList
  | .word k t => prettyWord k t
  | .arr l => match l with
    | [] => "[]".toList
    | x :: l => '[' :: goItems (indented ind) (x :: l) ++ ind ++ [']']
  | .struct t l => t.name ++ '{' :: goFields (indented ind) t.fields l ++ ind ++ ['}']
def goItems (ind : Str) : List GV → Str
  | [] => []
  | x :: l => ind ++ goPrint ind x ++ goItems ind l
def goFields (ind : Str) : List Str → List GV → Str
  | f :: fs, x :: l => ind ++ f ++ ": ".toList ++ goPrint ind x ++ goFields ind fs l
  | _, _ => []
end

/-- pretty.go:62 `String(n)` -/
def prettyString (n : Node) : Str := goPrint ['\n'] (gv n)

end Verif.AST
