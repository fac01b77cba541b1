/-
Specification vocabulary for ASTs: children, words in text order, erasure of offsets,
bracket checker. Nothing here uses the functions of Verif.AST.Model.
-/
import Verif.AST.Basic

namespace Verif.AST.Spec
open Verif.Tone (Str)
open Verif.AST

/-- The node of a word. -/
abbrev wnode (w : Word) : Node := .word .raw w
def optW (o : Option Word) : List Node := o.toList.map wnode
def optN (o : Option Node) : List Node := o.toList

/-- The children of a node in text order: the non-nil fields of the struct. As documented at
visit.go:26-30, a node of a type defined over `Word`, `CoP` or `LUPhrase` (or embedding
`Predication`) has the underlying node as its only child. -/
def children : Node → List Node
  | .text l d => optN l ++ [.discourse d]
  | .discourse d => d
  | .sentence je st da => optW je ++ [st] ++ optW da
  | .cop .raw none _ ru l r => [l, wnode ru, r]
  | .cop .raw (some to0) to1 ru l r => [wnode to0, wnode ru, l] ++ optW to1 ++ [r]
  | .cop _ to0 to1 ru l r => [.cop .raw to0 to1 ru l r]
  | .prenex ts bi => [.terms ts, wnode bi]
  | .prenexStmt ts bi st => [.prenex ts bi, st]
  | .predication .raw p ts na => [p, .terms (ts.getD [])] ++ optW na
  | .predication _ p ts na => [.predication .raw p ts na]
  | .prefixed mu p => [wnode mu, p]
  | .serial l r => [l, r]
  | .word .raw w => optN w.M
  | .word _ w => [wnode w]
  | .mi m ga ph => [wnode m, ph] ++ optW ga
  | .po m ga a => [wnode m, a] ++ optW ga
  | .mo m teo d => [wnode m, .discourse d, wnode teo]
  | .lu .raw l st => [wnode l, st]
  | .lu _ l st => [.lu .raw l st]
  | .linked g a => [wnode g, a]
  | .terms ts => ts
  | .predArg _ focus quant p rel => optW focus ++ optW quant ++ [p] ++ optN rel
  | .predAdverb p => [p]
  | .prep p a => [p, a]
  | .paren kio ki d => [wnode kio, .discourse d, wnode ki]
  | .incidental ju st => [wnode ju, st]
  | .vocative hu a => [wnode hu, a]

/-- `d` is `n` or below it. -/
inductive Below : Node → Node → Prop
  | refl (n) : Below n n
  | step {n c d} : c ∈ children n → Below c d → Below n d

/-- A word token: text and byte offsets. -/
structure Tok where
  t : Str
  s : Nat
  e : Nat
deriving DecidableEq, Repr

mutual
/-- The word tokens of a node in text order; a word's modifier follows the word. -/
def words : Node → List Tok
  | .text l d => wordsO l ++ wordsL d
  | .discourse d => wordsL d
  | .sentence je st da => wordsWO je ++ words st ++ wordsWO da
  | .cop _ to0 to1 ru l r => match to0 with
    | none => words l ++ wordsW ru ++ words r
    | some t => wordsW t ++ wordsW ru ++ words l ++ wordsWO to1 ++ words r
  | .prenex ts bi => wordsL ts ++ wordsW bi
  | .prenexStmt ts bi st => wordsL ts ++ wordsW bi ++ words st
  | .predication _ p ts na => words p ++ wordsTO ts ++ wordsWO na
  | .prefixed mu p => wordsW mu ++ words p
  | .serial l r => words l ++ words r
  | .word _ w => wordsW w
  | .mi m ga ph => wordsW m ++ words ph ++ wordsWO ga
  | .po m ga a => wordsW m ++ words a ++ wordsWO ga
  | .mo m teo d => wordsW m ++ wordsL d ++ wordsW teo
  | .lu _ l st => wordsW l ++ words st
  | .linked g a => wordsW g ++ words a
  | .terms ts => wordsL ts
  | .predArg _ focus quant p rel => wordsWO focus ++ wordsWO quant ++ words p ++ wordsO rel
  | .predAdverb p => words p
  | .prep p a => words p ++ words a
  | .paren kio ki d => wordsW kio ++ wordsL d ++ wordsW ki
  | .incidental ju st => wordsW ju ++ words st
  | .vocative hu a => wordsW hu ++ words a
def wordsW : Word → List Tok
  | .mk t s e m => ⟨t, s, e⟩ :: wordsO m
def wordsO : Option Node → List Tok
  | none => []
  | some n => words n
def wordsWO : Option Word → List Tok
  | none => []
  | some w => wordsW w
def wordsTO : Option (List Node) → List Tok
  | none => []
  | some l => wordsL l
def wordsL : List Node → List Tok
  | [] => []
  | n :: ns => words n ++ wordsL ns
end

mutual
/-- Apply `fw` to the data of every word and `fi` to every argument identity, keeping the structure. -/
def mapWords (fw : Tok → Tok) (fi : Nat → Nat) : Node → Node
  | .text l d => .text (mapWordsO fw fi l) (mapWordsL fw fi d)
  | .discourse d => .discourse (mapWordsL fw fi d)
  | .sentence je st da => .sentence (mapWordsWO fw fi je) (mapWords fw fi st) (mapWordsWO fw fi da)
  | .cop k to0 to1 ru l r => .cop k (mapWordsWO fw fi to0) (mapWordsWO fw fi to1)
      (mapWordsW fw fi ru) (mapWords fw fi l) (mapWords fw fi r)
  | .prenex ts bi => .prenex (mapWordsL fw fi ts) (mapWordsW fw fi bi)
  | .prenexStmt ts bi st =>
    .prenexStmt (mapWordsL fw fi ts) (mapWordsW fw fi bi) (mapWords fw fi st)
  | .predication k p ts na =>
    .predication k (mapWords fw fi p) (mapWordsTO fw fi ts) (mapWordsWO fw fi na)
  | .prefixed mu p => .prefixed (mapWordsW fw fi mu) (mapWords fw fi p)
  | .serial l r => .serial (mapWords fw fi l) (mapWords fw fi r)
  | .word k w => .word k (mapWordsW fw fi w)
  | .mi m ga ph => .mi (mapWordsW fw fi m) (mapWordsWO fw fi ga) (mapWords fw fi ph)
  | .po m ga a => .po (mapWordsW fw fi m) (mapWordsWO fw fi ga) (mapWords fw fi a)
  | .mo m teo d => .mo (mapWordsW fw fi m) (mapWordsW fw fi teo) (mapWordsL fw fi d)
  | .lu k l st => .lu k (mapWordsW fw fi l) (mapWords fw fi st)
  | .linked g a => .linked (mapWordsW fw fi g) (mapWords fw fi a)
  | .terms ts => .terms (mapWordsL fw fi ts)
  | .predArg id focus quant p rel => .predArg (fi id) (mapWordsWO fw fi focus)
      (mapWordsWO fw fi quant) (mapWords fw fi p) (mapWordsO fw fi rel)
  | .predAdverb p => .predAdverb (mapWords fw fi p)
  | .prep p a => .prep (mapWords fw fi p) (mapWords fw fi a)
  | .paren kio ki d => .paren (mapWordsW fw fi kio) (mapWordsW fw fi ki) (mapWordsL fw fi d)
  | .incidental ju st => .incidental (mapWordsW fw fi ju) (mapWords fw fi st)
  | .vocative hu a => .vocative (mapWordsW fw fi hu) (mapWords fw fi a)
def mapWordsW (fw : Tok → Tok) (fi : Nat → Nat) : Word → Word
  | .mk t s e m => .mk (fw ⟨t, s, e⟩).t (fw ⟨t, s, e⟩).s (fw ⟨t, s, e⟩).e (mapWordsO fw fi m)
def mapWordsO (fw : Tok → Tok) (fi : Nat → Nat) : Option Node → Option Node
  | none => none
  | some n => some (mapWords fw fi n)
def mapWordsWO (fw : Tok → Tok) (fi : Nat → Nat) : Option Word → Option Word
  | none => none
  | some w => some (mapWordsW fw fi w)
def mapWordsTO (fw : Tok → Tok) (fi : Nat → Nat) : Option (List Node) → Option (List Node)
  | none => none
  | some l => some (mapWordsL fw fi l)
def mapWordsL (fw : Tok → Tok) (fi : Nat → Nat) : List Node → List Node
  | [] => []
  | n :: ns => mapWords fw fi n :: mapWordsL fw fi ns
end

/-- Forget byte offsets (and pointer identities). -/
def erase (n : Node) : Node := mapWords (fun w => { w with s := 0, e := 0 }) (fun _ => 0) n

mutual
/-- `q` holds of the node and of every node in a field below it (for a node of a type defined over
`Word`, `CoP`, `LUPhrase` or `Predication` the underlying node is not a field). -/
def allN (q : Node → Bool) : Node → Bool
  | .text l d => q (.text l d) && (allNO q l && allNL q d)
  | .discourse d => q (.discourse d) && (allNL q d)
  | .sentence je st da => q (.sentence je st da) && (allNWO q je && allN q st && allNWO q da)
  | .cop k to0 to1 ru l r => q (.cop k to0 to1 ru l r) && (allNWO q to0 && allNWO q to1 && allNW q ru && allN q l && allN q r)
  | .prenex ts bi => q (.prenex ts bi) && (allNL q ts && allNW q bi)
  | .prenexStmt ts bi st => q (.prenexStmt ts bi st) && (allNL q ts && allNW q bi && allN q st)
  | .predication k p ts na => q (.predication k p ts na) && (allN q p && allNTO q ts && allNWO q na)
  | .prefixed mu p => q (.prefixed mu p) && (allNW q mu && allN q p)
  | .serial l r => q (.serial l r) && (allN q l && allN q r)
  | .word k w => q (.word k w) && (allNW q w)
  | .mi m ga ph => q (.mi m ga ph) && (allNW q m && allNWO q ga && allN q ph)
  | .po m ga a => q (.po m ga a) && (allNW q m && allNWO q ga && allN q a)
  | .mo m teo d => q (.mo m teo d) && (allNW q m && allNW q teo && allNL q d)
  | .lu k l st => q (.lu k l st) && (allNW q l && allN q st)
  | .linked g a => q (.linked g a) && (allNW q g && allN q a)
  | .terms ts => q (.terms ts) && (allNL q ts)
  | .predArg id focus quant p rel => q (.predArg id focus quant p rel) && (allNWO q focus && allNWO q quant && allN q p && allNO q rel)
  | .predAdverb p => q (.predAdverb p) && (allN q p)
  | .prep p a => q (.prep p a) && (allN q p && allN q a)
  | .paren kio ki d => q (.paren kio ki d) && (allNW q kio && allNW q ki && allNL q d)
  | .incidental ju st => q (.incidental ju st) && (allNW q ju && allN q st)
  | .vocative hu a => q (.vocative hu a) && (allNW q hu && allN q a)
def allNW (q : Node → Bool) : Word → Bool
  | .mk _ _ _ m => allNO q m
def allNO (q : Node → Bool) : Option Node → Bool
  | none => true
  | some n => allN q n
def allNWO (q : Node → Bool) : Option Word → Bool
  | none => true
  | some w => allNW q w
def allNTO (q : Node → Bool) : Option (List Node) → Bool
  | none => true
  | some l => allNL q l
def allNL (q : Node → Bool) : List Node → Bool
  | [] => true
  | n :: ns => allN q n && allNL q ns
end

mutual
/-- Forget all modifiers (spaces, parentheticals, incidentals, vocatives, interjections), including
the leading space of a text. -/
def core : Node → Node
  | .text _ d => .text none (coreL d)
  | .discourse d => .discourse (coreL d)
  | .sentence je st da => .sentence (coreWO je) (core st) (coreWO da)
  | .cop k to0 to1 ru l r => .cop k (coreWO to0) (coreWO to1) (coreW ru) (core l) (core r)
  | .prenex ts bi => .prenex (coreL ts) (coreW bi)
  | .prenexStmt ts bi st => .prenexStmt (coreL ts) (coreW bi) (core st)
  | .predication k p ts na => .predication k (core p) (coreTO ts) (coreWO na)
  | .prefixed mu p => .prefixed (coreW mu) (core p)
  | .serial l r => .serial (core l) (core r)
  | .word k w => .word k (coreW w)
  | .mi m ga ph => .mi (coreW m) (coreWO ga) (core ph)
  | .po m ga a => .po (coreW m) (coreWO ga) (core a)
  | .mo m teo d => .mo (coreW m) (coreW teo) (coreL d)
  | .lu k l st => .lu k (coreW l) (core st)
  | .linked g a => .linked (coreW g) (core a)
  | .terms ts => .terms (coreL ts)
  | .predArg id focus quant p rel => .predArg id (coreWO focus) (coreWO quant) (core p) (coreO rel)
  | .predAdverb p => .predAdverb (core p)
  | .prep p a => .prep (core p) (core a)
  | .paren kio ki d => .paren (coreW kio) (coreW ki) (coreL d)
  | .incidental ju st => .incidental (coreW ju) (core st)
  | .vocative hu a => .vocative (coreW hu) (core a)
def coreW : Word → Word
  | .mk t s e _ => .mk t s e none
def coreO : Option Node → Option Node
  | none => none
  | some n => some (core n)
def coreWO : Option Word → Option Word
  | none => none
  | some w => some (coreW w)
def coreTO : Option (List Node) → Option (List Node)
  | none => none
  | some l => some (coreL l)
def coreL : List Node → List Node
  | [] => []
  | n :: ns => core n :: coreL ns
end


/-- Not a bare `*CoP` or `*LUPhrase` (the grammar always converts them to one of the types defined
over them; `Equal` has no case for the bare types). -/
def notBare : Node → Bool
  | .cop .raw _ _ _ _ _ => false
  | .lu .raw _ _ => false
  | _ => true
def noBare (n : Node) : Bool := allN notBare n

/-- A list of discourse elements or terms in this node is not empty. -/
def listsFull : Node → Bool
  | .text _ d => !d.isEmpty
  | .discourse d => !d.isEmpty
  | .prenex ts _ => !ts.isEmpty
  | .prenexStmt ts _ _ => !ts.isEmpty
  | .predication _ _ (some ts) _ => !ts.isEmpty
  | .mo _ _ d => !d.isEmpty
  | .terms ts => !ts.isEmpty
  | .paren _ _ d => !d.isEmpty
  | _ => true

/-- A predication has terms or the final particle. -/
def predClosed : Node → Bool
  | .predication _ _ none none => false
  | _ => true

mutual
/-- The closing particles (with their modifiers) of the parentheticals that are still open, in the
sense of the mod methods, at the right end of a node. -/
def closers : Node → List Tok
  | .text _ d => closersL d
  | .discourse d => closersL d
  | .sentence _ st da => match da with | some w => closersW w | none => closers st
  | .cop _ _ _ _ _ r => closers r
  | .prenex _ bi => closersW bi
  | .prenexStmt _ _ st => closers st
  | .predication _ p ts na => match na with
    | some w => closersW w
    | none => match ts with | some l => closersL l | none => closers p
  | .prefixed _ p => closers p
  | .serial _ r => closers r
  | .word _ w => closersW w
  | .mi _ ga ph => match ga with | some w => closersW w | none => closers ph
  | .po _ ga a => match ga with | some w => closersW w | none => closers a
  | .mo _ teo _ => closersW teo
  | .lu _ _ st => closers st
  | .linked _ a => closers a
  | .terms ts => closersL ts
  | .predArg _ _ _ p rel => match rel with | some r => closers r | none => closers p
  | .predAdverb p => closers p
  | .prep _ a => closers a
  | .paren _ ki d => closersL d ++ wordsW ki
  | .incidental _ st => closers st
  | .vocative _ a => closers a
def closersW : Word → List Tok
  | .mk _ _ _ M => closersO M
def closersO : Option Node → List Tok
  | none => []
  | some n => closers n
def closersL : List Node → List Tok
  | [] => []
  | [x] => closers x
  | _ :: y :: l => closersL (y :: l)
end

mutual
/-- The words that are not spaces, in text order. -/
def visible : Node → List Str
  | .text l d => visibleO l ++ visibleL d
  | .discourse d => visibleL d
  | .sentence je st da => visibleWO je ++ visible st ++ visibleWO da
  | .cop _ to0 to1 ru l r => match to0 with
    | none => visible l ++ visibleW ru ++ visible r
    | some t => visibleW t ++ visibleW ru ++ visible l ++ visibleWO to1 ++ visible r
  | .prenex ts bi => visibleL ts ++ visibleW bi
  | .prenexStmt ts bi st => visibleL ts ++ visibleW bi ++ visible st
  | .predication _ p ts na => visible p ++ visibleTO ts ++ visibleWO na
  | .prefixed mu p => visibleW mu ++ visible p
  | .serial l r => visible l ++ visible r
  | .word k w => match k with
    | .space => match w with | .mk _ _ _ m => visibleO m
    | _ => visibleW w
  | .mi m ga ph => visibleW m ++ visible ph ++ visibleWO ga
  | .po m ga a => visibleW m ++ visible a ++ visibleWO ga
  | .mo m teo d => visibleW m ++ visibleL d ++ visibleW teo
  | .lu _ l st => visibleW l ++ visible st
  | .linked g a => visibleW g ++ visible a
  | .terms ts => visibleL ts
  | .predArg _ focus quant p rel => visibleWO focus ++ visibleWO quant ++ visible p ++ visibleO rel
  | .predAdverb p => visible p
  | .prep p a => visible p ++ visible a
  | .paren kio ki d => visibleW kio ++ visibleL d ++ visibleW ki
  | .incidental ju st => visibleW ju ++ visible st
  | .vocative hu a => visibleW hu ++ visible a
def visibleW : Word → List Str
  | .mk t _ _ m => t :: visibleO m
def visibleO : Option Node → List Str
  | none => []
  | some n => visible n
def visibleWO : Option Word → List Str
  | none => []
  | some w => visibleW w
def visibleTO : Option (List Node) → List Str
  | none => []
  | some l => visibleL l
def visibleL : List Node → List Str
  | [] => []
  | n :: ns => visible n ++ visibleL ns
end

/-! ### Bracket checker -/

/-- The index of an opening bracket. -/
def openIdx (c : Char) : Option Nat :=
  if c = '(' then some 0 else if c = '{' then some 1 else if c = '[' then some 2
  else if c = '<' then some 3 else none
def closeIdx (c : Char) : Option Nat :=
  if c = ')' then some 0 else if c = '}' then some 1 else if c = ']' then some 2
  else if c = '>' then some 3 else none

/-- Read a string at nesting depth `d`: an opening bracket at depth `d` must be of kind `d % 4`, a
closing bracket returning to depth `d` too. The result is the final depth. -/
def scan : Nat → Str → Option Nat
  | d, [] => some d
  | d, c :: cs =>
    match openIdx c, closeIdx c with
    | some i, _ => if i = d % 4 then scan (d + 1) cs else none
    | none, some i => match d with
      | 0 => none
      | d' + 1 => if i = d' % 4 then scan d' cs else none
    | none, none => scan d cs

def isBracket (c : Char) : Bool := (openIdx c).isSome || (closeIdx c).isSome

/-- Split a string at spaces and brackets into its non-empty pieces; `acc` is the piece being read. -/
def pieces : Str → Str → List Str
  | acc, [] => if acc = [] then [] else [acc]
  | acc, c :: cs =>
    if c = ' ' ∨ isBracket c then (if acc = [] then [] else [acc]) ++ pieces [] cs
    else pieces (acc ++ [c]) cs

/-- A word that can be told apart in bracketed output: not empty, no spaces, no brackets. -/
def plain (w : Str) : Bool := !w.isEmpty && w.all fun c => c ≠ ' ' && !isBracket c

/-! ### Sample trees -/

def w0 (t : String) (s e : Nat) : Word := .mk t.toList s e none
/-- "gỉ jí bi": a small tree with a modifier, terms and a connective. -/
def sample : Node :=
  .text none [.sentence none
    (.predication .raw (.word .predicate (.mk "gỉ".toList 0 4 (some (.word .space (w0 " " 4 5)))))
      (some [.cop .argument none none (.mk "ru".toList 9 11 (some (.word .space (w0 " " 11 12))))
        (.predArg 5 none none
          (.word .predicate (.mk "jí".toList 5 8 (some (.word .space (w0 " " 8 9))))) none)
        (.predArg 12 none none (.word .predicate (w0 "súq" 12 16)) none)])
      (some (w0 "na" 16 18))) none]

end Verif.AST.Spec
