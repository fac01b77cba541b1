/-
Types for the values of the Action functions, and a type checker for parsing expressions. The types
refine the Go types that peggy infers (the result types of the Action functions of toaq.go). That the
types say the truth is proved in `Verif.Parse.TypesProps`.
-/
import Verif.Parse.Action
import Verif.Parse.Order
import Verif.Parse.Spec

namespace Verif.Parse
open Verif.AST Verif.Peg

/-- Tables as search trees: `br k l r` has the keys below `k` in `l`. -/
inductive Tr (α : Type)
  | leaf (a : α)
  | br (k : Nat) (l r : Tr α)

def Tr.get {α : Type} : Tr α → Nat → α
  | .leaf a, _ => a
  | .br k l r, n => if n < k then l.get n else r.get n

inductive Ty
  /-- nil, reading nothing -/
  | nul
  /-- any value -/
  | unit
  /-- the text of one rune of the list -/
  | chr (cs : List Char)
  /-- one rune of the list, rendering the text -/
  | one (cs : List Char)
  /-- a string starting with a rune of the list, rendering the text -/
  | sy (cs : List Char)
  /-- the text -/
  | raw
  /-- a string rendering the text -/
  | str
  | word
  /-- a word without modifier -/
  | bare
  | opt (t : Ty)
  | nd (s : Srt)
  | nodes
  | bar (s : Srt)
  | con
  | cop1 (l r : Srt)
  | cop (l r : Srt)
  | lu
  | part
  /-- `mi`, `po`, predication without the final particle -/
  | miOpen | poOpen | predn
  /-- a sentence without JE -/
  | sent3
  /-- a `PredicateArgument` without relative clause (0), quantifier (0, 1) and focus (0, 1, 2) -/
  | pa (k : Nat)
  /-- a word whose end offset includes the space after it (the rule `word`) -/
  | spaced
deriving DecidableEq

def allTags : List Tag :=
  [.text, .discourse, .sentence, .prenex, .prenexStmt, .prefixed, .serial, .mi, .po, .mo, .linked, .terms,
   .predArg, .predAdverb, .prep, .paren, .incidental, .vocative] ++
  [CopKind.raw, .sentence, .statement, .predicate, .termSet, .argument, .relative, .adverb, .preposition,
   .content].map .cop ++
  [PredKind.raw, .relative, .content].map .predication ++
  [WordKind.raw, .predicate, .interjection, .space].map .word ++
  [LuKind.raw, .predicate, .relative, .content].map .lu

/-- Inclusion of kinds. -/
def subS (s s' : Srt) : Bool := allTags.all fun t => !accepts s t || accepts s' t

def allSrts : List Srt :=
  [.sentence, .statement, .prenex, .predicate, .content, .predicateOrContent, .phrase, .terms, .termSet, .term,
   .predArg, .argument, .relative, .adverb, .prep, .space, .mod, .freemod, .fragment, .elem, .leftPred, .rightRel]

def inc (cs ds : List Char) : Bool := cs.all fun c => ds.contains c
def noI (cs : List Char) : Bool := !cs.contains 'i'

def sub0 : Ty → Ty → Bool
  | _, .unit => true
  | .chr cs, .chr ds => inc cs ds
  | .chr cs, .one ds => noI cs && inc cs ds
  | .chr cs, .sy ds => noI cs && inc cs ds
  | .chr cs, .raw => noI cs
  | .chr cs, .str => noI cs
  | .one cs, .one ds => inc cs ds
  | .one cs, .sy ds => inc cs ds
  | .one _, .str => true
  | .sy cs, .sy ds => inc cs ds
  | .sy _, .str => true
  | .raw, .str => true
  | .bare, .word => true
  | .nd s, .nd s' => subS s s'
  | .pa i, .pa j => i ≤ j
  | .pa _, .nd s => accepts s .predArg
  | .sent3, .nd s => accepts s .sentence
  | a, b => a == b

/-- Subtypes. -/
def sub (a b : Ty) : Bool := match b with
  | .opt b => match a with
    | .nul => true
    | .opt a => sub0 a b
    | a => sub0 a b
  | b => sub0 a b

def firstOk (a b : Ty) : List Ty → Ty
  | [] => .unit
  | t :: ts => if sub a t && sub b t then t else firstOk a b ts

/-- The type of a choice. -/
def join (a b : Ty) : Ty :=
  firstOk a b ([a, b] ++ (match a, b with
    | .chr cs, .chr ds => [.chr (cs ++ ds)]
    | _, _ => []) ++
    (match a, b with
    | .nd _, _ => allSrts.map .nd
    | _, .nd _ => allSrts.map .nd
    | _, _ => []) ++
    (match a, b with
    | .chr cs, .sy ds => [.sy (cs ++ ds)]
    | .sy cs, .chr ds => [.sy (cs ++ ds)]
    | .one cs, .sy ds => [.sy (cs ++ ds)]
    | .sy cs, .one ds => [.sy (cs ++ ds)]
    | .sy cs, .sy ds => [.sy (cs ++ ds)]
    | _, _ => []) ++ [.str])

/-- The first runes of a type of strings. -/
def headOf : Ty → Option (List Char)
  | .chr cs => if noI cs then some cs else none
  | .one cs => some cs
  | .sy cs => some cs
  | _ => none

/-- The type of a sequence without action. -/
def seqTy (a b : Ty) : Ty :=
  if a == .nul then b else if b == .nul then a
  else if sub a .raw && sub b .raw then
    match headOf a with
    | some cs => .sy cs
    | none => .raw
  else if sub a .str && sub b .str then
    match headOf a with
    | some cs => .sy cs
    | none => .str
  else .unit

/-- The type of a repetition. -/
def repTy : Ty → Ty
  | .nd s => if subS s .elem then .nodes else .unit
  | t => if sub t .raw then .raw else if sub t .str then .str else .unit

def optTy : Ty → Ty
  | .nul => .nul
  | .opt t => .opt t
  | t => .opt t

def leafTy : Term → Ty
  | .cls cs => .chr cs
  | .lit c => .chr [c]
  | .any => .unit
  | .punct => .raw

/-- The characters that write the tone whose Go name is `t`. -/
def marksOf (t : Char) : List Char := (tones.find? fun x => x.2.contains t).elim [] (·.2)
def toneRunes : List Char := ['-', '1', '/', '2', 'V', '3', '?', '4', '^', '5', '\\', '6', '~', '7']

/-- Argument types and result type of most actions; all parts of the expression have labels. -/
def fixed : Act → Option (List Ty × Ty)
  | .text => some ([.opt (.nd .space), .opt .nodes], .nd .text)
  | .modWord => some ([.word, .opt (.nd .mod)], .word)
  | .luAs .predicate => some ([.lu], .nd .predicate)
  | .luAs .relative => some ([.lu], .nd .relative)
  | .luAs .content => some ([.lu], .nd .content)
  | .je => some ([.opt .word, .sent3], .nd .sentence)
  | .sentence => some ([.nd .statement, .opt (.nd .mod), .opt .word], .sent3)
  | .prenexStmt => some ([.opt (.nd .prenex), .nd .statement], .nd .statement)
  | .endPred .raw => some ([.predn, .opt (.nd .mod), .opt .word], .nd .statement)
  | .endPred .relative => some ([.predn, .opt (.nd .mod), .opt .word], .nd .relative)
  | .endPred .content => some ([.predn, .opt (.nd .mod), .opt .word], .nd .content)
  | .predication => some ([.nd .predicate, .opt (.nd .mod), .opt (.nd .terms)], .predn)
  | .prenex => some ([.nd .terms, .opt (.nd .mod), .word], .nd .prenex)
  | .serial => some ([.nd .predicateOrContent, .opt (.nd .mod), .nd .predicate], .nd .predicate)
  | .terms1 => some ([.nd .term], .nd .terms)
  | .prepend => some ([.nd .term, .opt (.nd .mod), .nd .terms], .nd .terms)
  | .terms2 => some ([.nd .term, .opt (.nd .mod), .nd .term], .nd .terms)
  | .linked => some ([.opt .word, .nd .argument], .nd .term)
  | .focused => some ([.opt .word, .pa 2], .nd .argument)
  | .quantified => some ([.opt .word, .pa 1], .pa 2)
  | .argRel => some ([.pa 0, .opt (.nd .mod), .opt (.nd .relative)], .pa 1)
  | .predArg => some ([.nd .predicateOrContent], .pa 0)
  | .predAdverb => some ([.nd .predicate], .nd .adverb)
  | .prep => some ([.nd .predicate, .opt (.nd .mod), .nd .argument], .nd .prep)
  | .connector => some ([.word, .opt (.nd .mod), .word], .con)
  | .luPhrase => some ([.word, .opt (.nd .mod), .nd .statement], .lu)
  | .word => some ([.str], .bare)
  | .wordNode .predicate => some ([.str], .nd .predicate)
  | .wordNode .interjection => some ([.str], .nd .freemod)
  | .wordNode .space => some ([.raw], .nd .space)
  | .wordMod => some ([.str, .opt (.nd .space)], .spaced)
  | .miEnd => some ([.miOpen, .opt (.nd .mod), .opt .word], .nd .predicate)
  | .mi => some ([.word, .opt (.nd .mod), .nd .phrase], .miOpen)
  | .poEnd => some ([.poOpen, .opt (.nd .mod), .opt .word], .nd .predicate)
  | .po => some ([.word, .opt (.nd .mod), .nd .argument], .poOpen)
  | .moEnd => some ([.part, .opt (.nd .mod), .word], .nd .predicate)
  | .mo => some ([.word, .opt (.nd .mod), .nodes], .part)
  | .endParen => some ([.part, .opt (.nd .mod), .bare], .nd .freemod)
  | .paren => some ([.word, .opt (.nd .mod), .nodes], .part)
  | .incidental => some ([.word, .opt (.nd .mod), .nd .statement], .nd .freemod)
  | .vocative => some ([.word, .opt (.nd .mod), .nd .argument], .nd .freemod)
  | .addTone => some ([.sy plainVowels, .chr toneRunes], .str)
  | .dotless => some ([.chr ['ı', 'i', 'I']], .one ['ı', 'I'])
  | _ => none

/-- A part of the expression of an action: whether it has a label, and its type. -/
abbrev Ent := Bool × Ty

def matches' : List Ent → List Ty → Bool
  | [], [] => true
  | (true, t) :: es, u :: us => sub t u && matches' es us
  | _, _ => false

def asNd : Ty → Option Srt
  | .nd s => some s
  | .pa _ => some .predArg
  | _ => none

/-- The result kind of `copAs`. -/
def resOf : CopKind → Srt
  | .raw => .text | .sentence => .sentence | .statement => .statement | .predicate => .predicate
  | .termSet => .termSet | .argument => .argument | .relative => .relative | .adverb => .adverb
  | .preposition => .prep | .content => .content

def subSO (s : Srt) : Option Srt → Bool
  | none => false
  | some s' => subS s s'

/-- The result type of an action. -/
def sig (f : Act) (es : List Ent) : Option Ty := match fixed f with
  | some (ts, t) => if matches' es ts then some t else none
  | none => match f, es with
    | .keep, [(true, .nd s)] => some (.nd s)
    | .modNode, [(true, .nd s), (true, t)] =>
      if !accepts s .text && sub t (.opt (.nd .mod)) then some (.nd s) else none
    | .copAs k, [(true, .cop l r)] => if subSO l (leftOf k) && subSO r (rightOf k) then some (.nd (resOf k)) else none
    | .copLeft, [(true, a), (true, t), (true, .bar r)] => match asNd a with
      | some l => if !accepts l .text && sub t (.opt (.nd .mod)) then some (.cop l r) else none
      | none => none
    | .copRight, [(true, .word), (true, t), (true, a)] => match asNd a with
      | some r => if sub t (.opt (.nd .mod)) then some (.bar r) else none
      | none => none
    | .foreCoP, [(true, .con), (true, t), (true, .cop1 l r)] =>
      if sub t (.opt (.nd .mod)) then some (.cop l r) else none
    | .foreCoPLeft, [(true, a), (true, t), (true, .bar r)] => match asNd a with
      | some l => if !accepts l .text && sub t (.opt (.nd .mod)) then some (.cop1 l r) else none
      | none => none
    | .foreCoPRight, [(true, .word), (true, t), (true, a)] => match asNd a with
      | some r => if sub t (.opt (.nd .mod)) then some (.bar r) else none
      | none => none
    | .diacritic t, [(true, l), (false, .chr ms)] =>
      if sub l (.one plainVowels) && inc ms (marksOf t) && toneRunes.contains t && !t.isDigit then some .str else none
    | .empty, _ => some .unit
    | _, _ => none

def single (t : Ty) : Ty × List Ent := (t, if t == .nul then [] else [(false, t)])
def unlabelled (es : List Ent) : Bool := es.all fun e => !e.1

/-- The type of an expression and the types of its parts; `rt` are the types of the rules. -/
def infer (rt : Nat → Ty) : Expr Act → Option (Ty × List Ent)
  | .term t => some (single (leafTy t))
  | .ref r => some (single (rt r))
  | .seq a b => match infer rt a, infer rt b with
    | some (t, es), some (u, fs) => some (seqTy t u, es ++ fs)
    | _, _ => none
  | .alt a b => match infer rt a, infer rt b with
    | some (t, es), some (u, fs) => if unlabelled es && unlabelled fs then some (single (join t u)) else none
    | _, _ => none
  | .opt a => match infer rt a with
    | some (t, es) => if unlabelled es then some (single (optTy t)) else none
    | none => none
  | .plus a => match infer rt a with
    | some (t, es) => if unlabelled es then some (single (repTy t)) else none
    | none => none
  | .star _ => none
  | .not a => match infer rt a with
    | some _ => some (single .nul)
    | none => none
  | .and a => match infer rt a with
    | some _ => some (single .nul)
    | none => none
  | .lab a => match infer rt a with
    | some (t, _) => some (t, [(true, t)])
    | none => none
  | .grp a => match infer rt a with
    | some (t, es) => if unlabelled es then some (single t) else none
    | none => none
  | .act f a => match infer rt a with
    | some (_, es) => match sig f es with
      | some t => some (single t)
      | none => none
    | none => none

/-- The type of the rule includes the type of its expression. -/
def checkRule (rt : Nat → Ty) (body : Expr Act) (t : Ty) : Bool := match infer rt body with
  | some (u, _) => sub u t
  | none => false

end Verif.Parse
