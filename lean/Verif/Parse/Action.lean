/-
The actions of the grammar: /repo/ast/nodes.go and the code in braces of /repo/ast/toaq.peggy.

A value of an Action function is a `Val`. Structs that the actions fill in several steps (`CoP`,
`MOPredicate`, `Parenthetical`) have a constructor for every step, with the fields set so far.
The Go types of the labels are not part of a `Val`; an action applied to values of other types is
the error `stuck`, which is proved not to occur (`Verif.Parse.TypesProps`).

Pointers and memoised values: Go's actions return pointers that the memo table shares. All actions
copy the structs they change (the `mod` methods have value receivers) except `se.JE = je` in
`sentence_2` (toaq.peggy:42), which writes to the memoised sentence; here it makes a copy.
-/
import Verif.AST.Model
import Verif.Peg.Expr

namespace Verif.Parse
open Verif.AST Verif.Peg
open Verif.Tone (Str)

/-- The actions. The comment of each case of `runAct` has the code. -/
inductive Act
  | keep | text | modNode | modWord | copAs (k : CopKind) | luAs (k : LuKind) | je | sentence
  | prenexStmt | endPred (k : PredKind) | predication | prenex | serial | terms1 | prepend | terms2
  | linked | focused | quantified | argRel | predArg | predAdverb | prep
  | copLeft | copRight | foreCoP | foreCoPLeft | foreCoPRight | connector
  | luPhrase | word | wordNode (k : WordKind) | wordMod | miEnd | mi | poEnd | po | moEnd | mo
  | endParen | paren | incidental | vocative
  | addTone | diacritic (t : Char) | empty | dotless
deriving DecidableEq

/-- The values of the Action functions. `nil` is a nil pointer, an absent option, and the value of a
predicate. `node` is any node; Terms are the node `.terms`. -/
inductive Val
  | nil
  | str (s : Str)
  | word (w : Word)
  | node (n : Node)
  /-- a discourse under construction, `[]Node` -/
  | nodes (l : List Node)
  /-- `CoP{RU: w, Right: r}` or `CoP{TO1: &w, Right: r}` (nodes.go:84-86, 99-101) -/
  | bar (w : Word) (r : Node)
  /-- `CoP{TO0: &to0, RU: ru}` (nodes.go:103-105) -/
  | con (to0 ru : Word)
  /-- `CoP{Left: l, TO1: &to1, Right: r}` (nodes.go:94-97) -/
  | cop1 (l : Node) (to1 : Word) (r : Node)
  /-- `MOPredicate{MO: w, Discourse: d}` or `Parenthetical{KIO: w, Discourse: d}` -/
  | part (w : Word) (d : List Node)

/-- Panics of actions: index out of range in `addTone` or in `tone.Diacritic[…][l][0]`; `stuck` is not
a panic of the code, see above. -/
inductive Err
  | index
  | stuck
deriving DecidableEq

namespace Val
def asStr : Val → Option Str | .str s => some s | _ => none
def asWord : Val → Option Word | .word w => some w | _ => none
def asNode : Val → Option Node | .node n => some n | _ => none
/-- A `*Mod` or another pointer to a node that may be nil. -/
def asNode? : Val → Option (Option Node) | .nil => some none | .node n => some (some n) | _ => none
/-- A `*Word` that may be nil. -/
def asWord? : Val → Option (Option Word) | .nil => some none | .word w => some (some w) | _ => none
/-- A `*[]Node` that may be nil. -/
def asNodes? : Val → Option (List Node) | .nil => some [] | .nodes l => some l | _ => none
end Val

/-- nodes.go:132-136 `addTone` and `tone.Diacritic[t][l][0]`: the diacritic form of the first letter.
`none` is the index-out-of-range panic. -/
def addToneTo (t : Char) : Str → Option Str
  | [] => none
  | c :: s => (Verif.Tone.diacritic0 t c).map (· :: s)

/-- Run an action on the values of its labels; `p` and `q` are `start` and `end`. -/
def runAct : Act → Nat → Nat → List Val → Except Err Val
  -- `return Text(t)`, `return Fragment(x1)`, `return Term(x0)`, …: conversions to interface types
  | .keep, _, _, [v] => .ok v
  -- `return Text(text(s, d))`, nodes.go:9-18
  | .text, _, _, [s, d] => match s.asNode?, d.asNodes? with
    | some s, some d => .ok (.node (.text s d))
    | _, _ => .error .stuck
  -- `x0.modSentence(s0)`, `f.modFragment(s)`, `*p.mod(s)`, `p.modPredicate(s)`, `m.mod(ms)`
  | .modNode, _, _, [x, s] => match x.asNode, s.asNode? with
    | some x, some s => .ok (.node (modOpt s x))
    | _, _ => .error .stuck
  -- `*je.mod(s)`, `w.mod(s)`, …
  | .modWord, _, _, [w, s] => match w.asWord, s.asNode? with
    | some w, some s => .ok (.word (modWOpt s w))
    | _, _ => .error .stuck
  -- `(*CoPSentence)(x)`, …
  | .copAs k, _, _, [.node (.cop .raw to0 to1 ru l r)] => .ok (.node (.cop k to0 to1 ru l r))
  -- `(*LUPredicate)(x)`, …
  | .luAs k, _, _, [.node (.lu .raw w st)] => .ok (.node (.lu k w st))
  -- `se.JE = je; return Sentence(se)`
  | .je, _, _, [je, .node (.sentence _ st da)] => match je.asWord? with
    | some je => .ok (.node (.sentence je st da))
    | none => .error .stuck
  -- `&StatementSentence{Statement: st.modStatement(s), DA: da}`
  | .sentence, _, _, [st, s, da] => match st.asNode, s.asNode?, da.asWord? with
    | some st, some s, some da => .ok (.node (.sentence none (modOpt s st) da))
    | _, _, _ => .error .stuck
  -- nodes.go:20-25
  | .prenexStmt, _, _, [p, st] => match p, st.asNode with
    | .nil, some st => .ok (.node st)
    | .node (.prenex ts bi), some st => .ok (.node (.prenexStmt ts bi st))
    | _, _ => .error .stuck
  -- nodes.go:69-73, and `&PredicationRelative{Predication: …}`, `&PredicationContent{Predication: …}`
  | .endPred k, _, _, [p, s, na] => match p.asNode, s.asNode?, na.asWord? with
    | some p, some s, some na => match modOpt s p with
      | .predication _ p ts _ => .ok (.node (.predication k p ts na))
      | _ => .error .stuck
    | _, _, _ => .error .stuck
  -- nodes.go:31-37
  | .predication, _, _, [p, s, ts] => match p.asNode, s.asNode?, ts with
    | some p, some s, .nil => .ok (.node (.predication .raw (modOpt s p) none none))
    | some p, some s, .node (.terms ts) => .ok (.node (.predication .raw (modOpt s p) (some ts) none))
    | _, _, _ => .error .stuck
  -- nodes.go:27-29
  | .prenex, _, _, [.node (.terms ts), s, bi] => match s.asNode?, bi.asWord with
    | some s, some bi => .ok (.node (.prenex (modLastOpt s ts) bi))
    | _, _ => .error .stuck
  -- nodes.go:75-77
  | .serial, _, _, [l, s, r] => match l.asNode, s.asNode?, r.asNode with
    | some l, some s, some r => .ok (.node (.serial (modOpt s l) r))
    | _, _, _ => .error .stuck
  -- `Terms{t}`
  | .terms1, _, _, [t] => match t.asNode with
    | some t => .ok (.node (.terms [t]))
    | _ => .error .stuck
  -- `ts.Prepend(t.modTerm(s))`, ast.go:361-366
  | .prepend, _, _, [t, s, .node (.terms ts)] => match t.asNode, s.asNode? with
    | some t, some s => .ok (.node (.terms (modOpt s t :: ts)))
    | _, _ => .error .stuck
  -- `Terms{l.modTerm(s), r}`
  | .terms2, _, _, [l, s, r] => match l.asNode, s.asNode?, r.asNode with
    | some l, some s, some r => .ok (.node (.terms [modOpt s l, r]))
    | _, _, _ => .error .stuck
  -- nodes.go:39-44
  | .linked, _, _, [g, a] => match g.asWord?, a.asNode with
    | some none, some a => .ok (.node a)
    | some (some g), some a => .ok (.node (.linked g a))
    | _, _ => .error .stuck
  -- nodes.go:46-49
  | .focused, _, _, [ku, .node (.predArg id _ q p rel)] => match ku.asWord? with
    | some ku => .ok (.node (.predArg id ku q p rel))
    | none => .error .stuck
  -- nodes.go:51-54
  | .quantified, _, _, [tu, .node (.predArg id f _ p rel)] => match tu.asWord? with
    | some tu => .ok (.node (.predArg id f tu p rel))
    | none => .error .stuck
  -- nodes.go:56-62
  | .argRel, _, _, [a, s, rc] => match a.asNode, s.asNode?, rc.asNode? with
    | some a, some s, some rc => match modOpt s a with
      | .predArg id f q p rel => .ok (.node (.predArg id f q p (if rc.isSome then rc else rel)))
      | _ => .error .stuck
    | _, _, _ => .error .stuck
  -- `&PredicateArgument{Predicate: p}`; the offset stands for the identity of the new pointer
  | .predArg, st, _, [p] => match p.asNode with
    | some p => .ok (.node (.predArg st none none p none))
    | none => .error .stuck
  -- `&PredicateAdverb{Predicate: p}`
  | .predAdverb, _, _, [p] => match p.asNode with
    | some p => .ok (.node (.predAdverb p))
    | none => .error .stuck
  -- nodes.go:64-66
  | .prep, _, _, [p, s, a] => match p.asNode, s.asNode?, a.asNode with
    | some p, some s, some a => .ok (.node (.prep (modOpt s p) a))
    | _, _, _ => .error .stuck
  -- nodes.go:79-82
  | .copLeft, _, _, [l, s, .bar ru r] => match l.asNode, s.asNode? with
    | some l, some s => .ok (.node (.cop .raw none none ru (modOpt s l) r))
    | _, _ => .error .stuck
  -- nodes.go:84-86
  | .copRight, _, _, [ru, s, r] => match ru.asWord, s.asNode?, r.asNode with
    | some ru, some s, some r => .ok (.bar (modWOpt s ru) r)
    | _, _, _ => .error .stuck
  -- nodes.go:88-92
  | .foreCoP, _, _, [.con to0 ru, s, .cop1 l to1 r] => match s.asNode? with
    | some s => .ok (.node (.cop .raw (some to0) (some to1) (modWOpt s ru) l r))
    | none => .error .stuck
  -- nodes.go:94-97
  | .foreCoPLeft, _, _, [l, s, .bar to1 r] => match l.asNode, s.asNode? with
    | some l, some s => .ok (.cop1 (modOpt s l) to1 r)
    | _, _ => .error .stuck
  -- nodes.go:99-101
  | .foreCoPRight, _, _, [to1, s, r] => match to1.asWord, s.asNode?, r.asNode with
    | some to1, some s, some r => .ok (.bar (modWOpt s to1) r)
    | _, _, _ => .error .stuck
  -- nodes.go:103-105
  | .connector, _, _, [to0, s, ru] => match to0.asWord, s.asNode?, ru.asWord with
    | some to0, some s, some ru => .ok (.con (modWOpt s to0) ru)
    | _, _, _ => .error .stuck
  -- `&LUPhrase{LU: *lu.mod(s), Statement: st}`
  | .luPhrase, _, _, [lu, s, st] => match lu.asWord, s.asNode?, st.asNode with
    | some lu, some s, some st => .ok (.node (.lu .raw (modWOpt s lu) st))
    | _, _, _ => .error .stuck
  -- `Word{S: start, E: end, T: w}`
  | .word, p, q, [w] => match w.asStr with
    | some w => .ok (.word (.mk w p q none))
    | none => .error .stuck
  -- `&WordPredicate{S: start, E: end, T: w}`, `&Interjection{…}`, `&Space{…}`
  | .wordNode k, p, q, [w] => match w.asStr with
    | some w => .ok (.node (.word k (.mk w p q none)))
    | none => .error .stuck
  -- `Word{S: start, E: end, T: w}.mod(s)`
  | .wordMod, p, q, [w, s] => match w.asStr, s.asNode? with
    | some w, some s => .ok (.word (modWOpt s (.mk w p q none)))
    | _, _ => .error .stuck
  -- nodes.go:107-111
  | .miEnd, _, _, [.node (.mi m _ ph), s, ga] => match s.asNode?, ga.asWord? with
    | some s, some ga => .ok (.node (.mi m ga (modOpt s ph)))
    | _, _ => .error .stuck
  -- `MIPredicate{MI: *mi.mod(s), Phrase: p}`
  | .mi, _, _, [m, s, ph] => match m.asWord, s.asNode?, ph.asNode with
    | some m, some s, some ph => .ok (.node (.mi (modWOpt s m) none ph))
    | _, _, _ => .error .stuck
  -- nodes.go:113-117
  | .poEnd, _, _, [.node (.po m _ a), s, ga] => match s.asNode?, ga.asWord? with
    | some s, some ga => .ok (.node (.po m ga (modOpt s a)))
    | _, _ => .error .stuck
  -- `POPredicate{PO: *po.mod(s), Argument: a}`
  | .po, _, _, [m, s, a] => match m.asWord, s.asNode?, a.asNode with
    | some m, some s, some a => .ok (.node (.po (modWOpt s m) none a))
    | _, _, _ => .error .stuck
  -- nodes.go:119-123
  | .moEnd, _, _, [.part m d, s, teo] => match s.asNode?, teo.asWord with
    | some s, some teo => .ok (.node (.mo m teo (modLastOpt s d)))
    | _, _ => .error .stuck
  -- `MOPredicate{MO: *mo.mod(s), Discourse: d}`
  | .mo, _, _, [m, s, .nodes d] => match m.asWord, s.asNode? with
    | some m, some s => .ok (.part (modWOpt s m) d)
    | _, _ => .error .stuck
  -- nodes.go:125-129
  | .endParen, _, _, [.part kio d, s, ki] => match s.asNode?, ki.asWord with
    | some s, some ki => .ok (.node (.paren kio ki (modLastOpt s d)))
    | _, _ => .error .stuck
  -- `Parenthetical{KIO: *kio.mod(s), Discourse: d}`
  | .paren, _, _, [kio, s, .nodes d] => match kio.asWord, s.asNode? with
    | some kio, some s => .ok (.part (modWOpt s kio) d)
    | _, _ => .error .stuck
  -- `&Incidental{JU: *ju.mod(s), Statement: st}`
  | .incidental, _, _, [ju, s, st] => match ju.asWord, s.asNode?, st.asNode with
    | some ju, some s, some st => .ok (.node (.incidental (modWOpt s ju) st))
    | _, _, _ => .error .stuck
  -- `&Vocative{HU: *hu.mod(s), Argument: a}`
  | .vocative, _, _, [hu, s, a] => match hu.asWord, s.asNode?, a.asNode with
    | some hu, some s, some a => .ok (.node (.vocative (modWOpt s hu) a))
    | _, _, _ => .error .stuck
  -- nodes.go:132-136; the tone is the first rune of its text
  | .addTone, _, _, [d, t] => match d.asStr, t.asStr with
    | some d, some (t :: _) => match addToneTo t d with
      | some s => .ok (.str s)
      | none => .error .index
    | _, _ => .error .stuck
  -- `tone.Diacritic['-'][l][0]`, …; `l` is one letter
  | .diacritic t, _, _, [l] => match l.asStr with
    | some [c] => match Verif.Tone.diacritic0 t c with
      | some d => .ok (.str [d])
      | none => .error .index
    | some _ => .error .index
    | _ => .error .stuck
  -- `return ""`
  | .empty, _, _, _ => .ok (.str [])
  -- `if l == "i" { return "ı" }; return string(l)`
  | .dotless, _, _, [l] => match l.asStr with
    | some s => .ok (.str (if s = ['i'] then ['ı'] else s))
    | none => .error .stuck
  | _, _, _, _ => .error .stuck

/-- The value of a sequence without an action: strings are concatenated. -/
def cat : Val → Val → Val
  | .nil, v => v
  | v, .nil => v
  | .str a, .str b => .str (a ++ b)
  | _, _ => .nil

/-- One more value in front of the values of a repetition: strings are concatenated, nodes make a
slice. -/
def cons : Val → Val → Val
  | .str a, .nil => .str a
  | .str a, .str b => .str (a ++ b)
  | .node n, .nil => .nodes [n]
  | .node n, .nodes l => .nodes (n :: l)
  | _, _ => .nil

/-- The Action functions: the value of an expression and the values of the labels in it. A terminal
has the text it matched, which is one rune. -/
def actAlg (I : Input) : Alg Act Err where
  X := Val × List Val
  leaf p _ := (.str [(I.next p).1], [])
  nil := (.nil, [])
  seq x y := (cat x.1 y.1, x.2 ++ y.2)
  rep0 := (.nil, [])
  rep x y := (cons x.1 y.1, [])
  lab x := (x.1, [x.1])
  grp _ _ x := x
  act f p q x := match runAct f p q x.2 with
    | .ok v => .ok (v, [])
    | .error e => .error e
  rule _ _ _ x := (x.1, [])

end Verif.Parse
