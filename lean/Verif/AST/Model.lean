/-
Model of the functions over AST nodes: /repo/ast/visit.go, equal.go, braces.go and the `mod`,
`Start`, `End` methods and `ToASCII` of ast.go.
-/
import Verif.AST.Basic

namespace Verif.AST
open Verif.Tone (Str)

/-! ## visit.go -/

/-- A Go `Visitor` (visit.go:9-11). `ν` are the visitors, `σ` the state their `Visit` methods read
and write; `call v n s` is `v.Visit(n)` in state `s`: the new state and the returned visitor (`none`
for nil). The node argument is `none` for the call with nil. -/
abbrev Visitor (σ ν : Type) := ν → Option Node → σ → σ × Option ν

/-- A piece of traversal: run with a visitor in a state. -/
abbrev Walk (σ ν : Type) := ν → σ → σ

/-- Statement sequencing. -/
def Walk.seq {σ ν} (a b : Walk σ ν) : Walk σ ν := fun v s => b v (a v s)
@[inherit_doc] infixl:65 " ⟫ " => Walk.seq
/-- The empty statement. -/
def Walk.skip {σ ν} : Walk σ ν := fun _ s => s

/-- visit.go:32-42: the part of `Visit` around the type switch: call the visitor; if it returns nil
stop; otherwise visit the kids with the returned visitor and finally (deferred) call the returned
visitor with nil. -/
def visitWrap {σ ν} (call : Visitor σ ν) (n : Node) (kids : Walk σ ν) : Walk σ ν := fun v s =>
  match call v (some n) s with
  | (s', none) => s'
  | (s', some v') => (call v' none (kids v' s')).1

mutual
/-- visit.go:32-204 `Visit`. The nil checks of lines 33-38
are the `Option` cases. `Visit(n.Terms, v)` on a nil slice is *not* caught by them (a slice is not
a pointer), so a `Predication` without terms visits an empty `Terms` node. -/
def visit {σ ν} (call : Visitor σ ν) : Node → Walk σ ν
  | .text l d => visitWrap call (.text l d)
      (visitO call l ⟫ visitWrap call (.discourse d) (visitL call d))
  | .discourse d => visitWrap call (.discourse d) (visitL call d)
  | .sentence je st da => visitWrap call (.sentence je st da)
      (visitWO call je ⟫ visit call st ⟫ visitWO call da)
  | .cop k to0 to1 ru l r =>
      let raw := visitWrap call (.cop .raw to0 to1 ru l r)
        (match to0 with
        | none => visit call l ⟫ visitW call ru ⟫ visit call r
        | some t => visitW call t ⟫ visitW call ru ⟫ visit call l ⟫ visitWO call to1 ⟫ visit call r)
      if k = .raw then raw else visitWrap call (.cop k to0 to1 ru l r) raw
  | .prenex ts bi => visitWrap call (.prenex ts bi)
      (visitWrap call (.terms ts) (visitL call ts) ⟫ visitW call bi)
  | .prenexStmt ts bi st => visitWrap call (.prenexStmt ts bi st)
      (visitWrap call (.prenex ts bi)
        (visitWrap call (.terms ts) (visitL call ts) ⟫ visitW call bi) ⟫ visit call st)
  | .predication k p ts na =>
      let raw := visitWrap call (.predication .raw p ts na)
        (visit call p ⟫ visitTO call ts ⟫ visitWO call na)
      if k = .raw then raw else visitWrap call (.predication k p ts na) raw
  | .prefixed mu p => visitWrap call (.prefixed mu p) (visitW call mu ⟫ visit call p)
  | .serial l r => visitWrap call (.serial l r) (visit call l ⟫ visit call r)
  | .word k w =>
      if k = .raw then visitW call w else visitWrap call (.word k w) (visitW call w)
  | .mi m ga ph => visitWrap call (.mi m ga ph) (visitW call m ⟫ visit call ph ⟫ visitWO call ga)
  | .po m ga a => visitWrap call (.po m ga a) (visitW call m ⟫ visit call a ⟫ visitWO call ga)
  | .mo m teo d => visitWrap call (.mo m teo d)
      (visitW call m ⟫ visitWrap call (.discourse d) (visitL call d) ⟫ visitW call teo)
  | .lu k l st =>
      let raw := visitWrap call (.lu .raw l st) (visitW call l ⟫ visit call st)
      if k = .raw then raw else visitWrap call (.lu k l st) raw
  | .linked g a => visitWrap call (.linked g a) (visitW call g ⟫ visit call a)
  | .terms ts => visitWrap call (.terms ts) (visitL call ts)
  | .predArg id focus quant p rel => visitWrap call (.predArg id focus quant p rel)
      (visitWO call focus ⟫ visitWO call quant ⟫ visit call p ⟫ visitO call rel)
  | .predAdverb p => visitWrap call (.predAdverb p) (visit call p)
  | .prep p a => visitWrap call (.prep p a) (visit call p ⟫ visit call a)
  | .paren kio ki d => visitWrap call (.paren kio ki d)
      (visitW call kio ⟫ visitWrap call (.discourse d) (visitL call d) ⟫ visitW call ki)
  | .incidental ju st => visitWrap call (.incidental ju st) (visitW call ju ⟫ visit call st)
  | .vocative hu a => visitWrap call (.vocative hu a) (visitW call hu ⟫ visit call a)
/-- visit.go:198-199, case `*Word`. -/
def visitW {σ ν} (call : Visitor σ ν) : Word → Walk σ ν
  | .mk t s e m => visitWrap call (.word .raw (.mk t s e m)) (visitO call m)
/-- `Visit` of an interface value that may be nil. -/
def visitO {σ ν} (call : Visitor σ ν) : Option Node → Walk σ ν
  | none => .skip
  | some n => visit call n
/-- `Visit` of a `*Word` that may be nil. -/
def visitWO {σ ν} (call : Visitor σ ν) : Option Word → Walk σ ν
  | none => .skip
  | some w => visitW call w
/-- `Visit` of the `Terms` of a `Predication`. -/
def visitTO {σ ν} (call : Visitor σ ν) : Option (List Node) → Walk σ ν
  | none => visitWrap call (.terms []) .skip
  | some l => visitWrap call (.terms l) (visitL call l)
/-- The loops of visit.go:49-52 and 114-117. -/
def visitL {σ ν} (call : Visitor σ ν) : List Node → Walk σ ν
  | [] => .skip
  | n :: ns => visit call n ⟫ visitL call ns
end

/-! ## ast.go: the mod methods -/

mutual
/-- ast.go: `modNode`, `modSentence`, `modStatement`, `modPredicate`, `modTerm`, `modArgument`,
`modRelative`, `modAdverb`, `modPreposition`, `modContent`, `modPhrase`, `modFragment` and `mod` of
each node type; for one node type they all do the same. The argument is a non-nil modifier.
On an empty `Discourse` or `Terms` Go panics (index -1); here the node is returned unchanged, see
`modDefined`. -/
def mod (m : Node) : Node → Node
  | .text l d => .text l (modLast m d)
  | .discourse d => .discourse (modLast m d)
  | .sentence je st da => match da with
    | some w => .sentence je st (some (modW m w))
    | none => .sentence je (mod m st) none
  | .cop k to0 to1 ru l r => .cop k to0 to1 ru l (mod m r)
  | .prenex ts bi => .prenex ts (modW m bi)
  | .prenexStmt ts bi st => .prenexStmt ts bi (mod m st)
  | .predication k p ts na => match na with
    | some w => .predication k p ts (some (modW m w))
    | none => match ts with
      | some l => .predication k p (some (modLast m l)) none
      | none => .predication k (mod m p) none none
  | .prefixed mu p => .prefixed mu (mod m p)
  | .serial l r => .serial l (mod m r)
  | .word k w => .word k (modW m w)
  | .mi x ga ph => match ga with
    | some w => .mi x (some (modW m w)) ph
    | none => .mi x none (mod m ph)
  | .po x ga a => match ga with
    | some w => .po x (some (modW m w)) a
    | none => .po x none (mod m a)
  | .mo x teo d => .mo x (modW m teo) d
  | .lu k l st => .lu k l (mod m st)
  | .linked g a => .linked g (mod m a)
  | .terms ts => .terms (modLast m ts)
  | .predArg id focus quant p rel => match rel with
    | some r => .predArg id focus quant p (some (mod m r))
    | none => .predArg id focus quant (mod m p) none
  | .predAdverb p => .predAdverb (mod m p)
  | .prep p a => .prep p (mod m a)
  -- ast.go:621-624: the modifier goes to the discourse, not to KI
  | .paren kio ki d => .paren kio ki (modLast m d)
  | .incidental ju st => .incidental ju (mod m st)
  | .vocative hu a => .vocative hu (mod m a)
/-- ast.go:727-737 `Word.mod`. -/
def modW (m : Node) : Word → Word
  | .mk t s e M => .mk t s e (some (modO m M))
/-- ast.go:731-735: the new modifier. -/
def modO (m : Node) : Option Node → Node
  | none => m
  | some x => mod m x
/-- ast.go:49-59 `Discourse.mod` and ast.go:349-358 `Terms.mod`: modify the last element. -/
def modLast (m : Node) : List Node → List Node
  | [] => []
  | [x] => [mod m x]
  | x :: y :: l => x :: modLast m (y :: l)
end

/-- The methods take a `*Mod`, nil meaning no modifier; then the node is returned unchanged. -/
def modOpt (m : Option Node) (n : Node) : Node := m.elim n (mod · n)
/-- `Word.mod` with a possibly nil argument. -/
def modWOpt (m : Option Node) (w : Word) : Word := m.elim w (modW · w)
/-- `Discourse.mod`, `Terms.mod` with a possibly nil argument. -/
def modLastOpt (m : Option Node) (l : List Node) : List Node := m.elim l (modLast · l)

mutual
/-- Whether the mod method can run without indexing an empty `Discourse` or `Terms`. -/
def modDefined : Node → Bool
  | .text _ d => lastDefined d
  | .discourse d => lastDefined d
  | .sentence _ st da => match da with | some w => modDefinedW w | none => modDefined st
  | .cop _ _ _ _ _ r => modDefined r
  | .prenex _ bi => modDefinedW bi
  | .prenexStmt _ _ st => modDefined st
  | .predication _ p ts na => match na with
    | some w => modDefinedW w
    | none => match ts with | some l => lastDefined l | none => modDefined p
  | .prefixed _ p => modDefined p
  | .serial _ r => modDefined r
  | .word _ w => modDefinedW w
  | .mi _ ga ph => match ga with | some w => modDefinedW w | none => modDefined ph
  | .po _ ga a => match ga with | some w => modDefinedW w | none => modDefined a
  | .mo _ teo _ => modDefinedW teo
  | .lu _ _ st => modDefined st
  | .linked _ a => modDefined a
  | .terms ts => lastDefined ts
  | .predArg _ _ _ p rel => match rel with | some r => modDefined r | none => modDefined p
  | .predAdverb p => modDefined p
  | .prep _ a => modDefined a
  | .paren _ _ d => lastDefined d
  | .incidental _ st => modDefined st
  | .vocative _ a => modDefined a
def modDefinedW : Word → Bool
  | .mk _ _ _ M => modDefinedO M
def modDefinedO : Option Node → Bool
  | none => true
  | some x => modDefined x
def lastDefined : List Node → Bool
  | [] => false
  | [x] => modDefined x
  | _ :: y :: l => lastDefined (y :: l)
end

/-! ## equal.go -/

mutual
/-- equal.go:9-195 `Equal`. The default case panics on a bare `*CoP` or `*LUPhrase`; here it is
`false`, and the theorems assume their absence (`noRaw`). -/
def equal : Node → Node → Bool
  | .text l d, b => match b with
    | .text l' d' => equalO l l' && equalL d d'
    | _ => false
  | .discourse d, b => match b with
    | .discourse d' => equalL d d'
    | _ => false
  | .sentence je st da, b => match b with
    | .sentence je' st' da' => wordEqualO je je' && wordEqualO da da' && equal st st'
    | _ => false
  | .cop k to0 to1 ru l r, b => match b with
    | .cop k' to0' to1' ru' l' r' =>
      if k = .raw then false else
      decide (k = k') && (wordEqualO to0 to0' && wordEqualO to1 to1' && wordEqual ru ru' &&
        equal l l' && equal r r')
    | _ => false
  | .prenex ts bi, b => match b with
    | .prenex ts' bi' => wordEqual bi bi' && equalL ts ts'
    | _ => false
  | .prenexStmt ts bi st, b => match b with
    | .prenexStmt ts' bi' st' => (wordEqual bi bi' && equalL ts ts') && equal st st'
    | _ => false
  | .predication k p ts na, b => match b with
    | .predication k' p' ts' na' =>
      decide (k = k') && (wordEqualO na na' && equal p p' && equalTO ts ts')
    | _ => false
  | .prefixed mu p, b => match b with
    | .prefixed mu' p' => wordEqual mu mu' && equal p p'
    | _ => false
  | .serial l r, b => match b with
    | .serial l' r' => equal l l' && equal r r'
    | _ => false
  | .word k w, b => match b with
    | .word k' w' => decide (k = k') && wordEqual w w'
    | _ => false
  | .mi m ga ph, b => match b with
    | .mi m' ga' ph' => wordEqual m m' && wordEqualO ga ga' && equal ph ph'
    | _ => false
  | .po m ga a, b => match b with
    | .po m' ga' a' => wordEqual m m' && wordEqualO ga ga' && equal a a'
    | _ => false
  | .mo m teo d, b => match b with
    | .mo m' teo' d' => wordEqual m m' && wordEqual teo teo' && equalL d d'
    | _ => false
  | .lu k l st, b => match b with
    | .lu k' l' st' => if k = .raw then false else
      decide (k = k') && (wordEqual l l' && equal st st')
    | _ => false
  | .linked g a, b => match b with
    | .linked g' a' => wordEqual g g' && equal a a'
    | _ => false
  | .terms ts, b => match b with
    | .terms ts' => equalL ts ts'
    | _ => false
  | .predArg _ focus quant p rel, b => match b with
    | .predArg _ focus' quant' p' rel' =>
      wordEqualO focus focus' && wordEqualO quant quant' && equal p p' && equalO rel rel'
    | _ => false
  | .predAdverb p, b => match b with
    | .predAdverb p' => equal p p'
    | _ => false
  | .prep p a, b => match b with
    | .prep p' a' => equal p p' && equal a a'
    | _ => false
  | .paren kio ki d, b => match b with
    | .paren kio' ki' d' => wordEqual ki ki' && wordEqual kio kio' && equalL d d'
    | _ => false
  | .incidental ju st, b => match b with
    | .incidental ju' st' => wordEqual ju ju' && equal st st'
    | _ => false
  | .vocative hu a, b => match b with
    | .vocative hu' a' => wordEqual hu hu' && equal a a'
    | _ => false
/-- equal.go:205-210 `wordEqual` on non-nil words. -/
def wordEqual : Word → Word → Bool
  | .mk t _ _ m, b => decide (t = b.T) && equalO m b.M
/-- equal.go:205-210 `wordEqual` with nils. -/
def wordEqualO : Option Word → Option Word → Bool
  | none, b => b.isNone
  | some a, b => match b with
    | some b => wordEqual a b
    | none => false
/-- equal.go:10-12 and the nil-safe comparison of `Relative` (equal.go:118-119). -/
def equalO : Option Node → Option Node → Bool
  | none, b => b.isNone
  | some a, b => match b with
    | some b => equal a b
    | none => false
/-- equal.go:59-60: `Terms` of a predication, nil only equal to nil. -/
def equalTO : Option (List Node) → Option (List Node) → Bool
  | none, b => b.isNone
  | some a, b => match b with
    | some b => equalL a b
    | none => false
/-- equal.go:20-29 and 99-108: element-wise comparison of slices of equal length. -/
def equalL : List Node → List Node → Bool
  | [], b => b.isEmpty
  | a :: as, b => match b with
    | [] => false
    | b :: bs => equal a b && equalL as bs
end

/-! ## braces.go -/

/-- What `braceKids` does with one argument: whether it is printed at all (nil and spaces without
modifier are not) and what is printed at a bracket level. -/
structure Item where
  present : Bool
  out : Nat → Str

/-- braces.go:10-13 `openBraces`. -/
def openBraces : List Char := ['(', '{', '[', '<']
/-- braces.go:10-13 `closeBraces`. -/
def closeBraces : List Char := [')', '}', ']', '>']

/-- braces.go:218-234, the loop: elements separated by single spaces. -/
def sepBySpace : List Str → Str
  | [] => []
  | [s] => s
  | s :: t :: l => s ++ ' ' :: sepBySpace (t :: l)

/-- braces.go:175-242 `braceKids` (after the resolution of the items). -/
def braceKids (xs : List Item) (cur : Nat) : Str :=
  let nodes := xs.filter (·.present)
  if nodes.length > 1 then
    [openBraces.getD cur '?'] ++
      sepBySpace (nodes.map fun x => x.out ((cur + 1) % openBraces.length)) ++
      [closeBraces.getD cur '?']
  else sepBySpace (nodes.map fun x => x.out cur)

/-- A node or string that is always printed. -/
def shown (out : Nat → Str) : Item := ⟨true, out⟩
/-- A nil argument. -/
def hidden : Item := ⟨false, fun _ => []⟩

mutual
/-- braces.go:28-167 `braces`, together with the resolution of an argument of `braceKids`
(braces.go:176-210): a `*Space` is replaced by its modifier, a nil is dropped. `(braces n).out cur`
is what `braces(w, cur, n)` writes. -/
def braces : Node → Item
  | .text l d => shown (braceKids [bracesO l, shown (braceKids (bracesL d))])
  | .discourse d => shown (braceKids (bracesL d))
  | .sentence je st da => shown (braceKids [bracesWO je, braces st, bracesWO da])
  | .cop _ to0 to1 ru l r => match to0 with
    | none => shown (braceKids [braces l, bracesW ru, braces r])
    | some t => shown (braceKids [bracesW t, bracesW ru, braces l, bracesWO to1, braces r])
  | .prenex ts bi => shown (braceKids [shown (braceKids (bracesL ts)), bracesW bi])
  | .prenexStmt ts bi st =>
    shown (braceKids [shown (braceKids [shown (braceKids (bracesL ts)), bracesW bi]), braces st])
  | .predication _ p ts na => shown (braceKids [braces p, bracesTO ts, bracesWO na])
  | .prefixed mu p => shown (braceKids [bracesW mu, braces p])
  | .serial l r => shown (braceKids [braces l, braces r])
  | .word k w => match k with
    | .space => match w with
      | .mk _ _ _ m => bracesO m
    | .raw => bracesW w
    | .predicate => bracesW w
    | .interjection => bracesW w
  | .mi m ga ph => shown (braceKids [bracesW m, braces ph, bracesWO ga])
  | .po m ga a => shown (braceKids [bracesW m, braces a, bracesWO ga])
  | .mo m teo d => shown (braceKids [bracesW m, shown (braceKids (bracesL d)), bracesW teo])
  | .lu _ l st => shown (braceKids [bracesW l, braces st])
  | .linked g a => shown (braceKids [bracesW g, braces a])
  | .terms ts => shown (braceKids (bracesL ts))
  | .predArg _ focus quant p rel =>
    shown (braceKids [bracesWO focus, bracesWO quant, braces p, bracesO rel])
  -- braces.go:113-114: no braceKids of its own
  | .predAdverb p => shown (braces p).out
  | .prep p a => shown (braceKids [braces p, braces a])
  | .paren kio ki d => shown (braceKids [bracesW kio, shown (braceKids (bracesL d)), bracesW ki])
  | .incidental ju st => shown (braceKids [bracesW ju, braces st])
  | .vocative hu a => shown (braceKids [bracesW hu, braces a])
/-- braces.go:158-162, case `*Word`. -/
def bracesW : Word → Item
  | .mk t _ _ m => shown (braceKids [shown fun _ => t, bracesO m])
def bracesO : Option Node → Item
  | none => hidden
  | some n => braces n
def bracesWO : Option Word → Item
  | none => hidden
  | some w => bracesW w
def bracesTO : Option (List Node) → Item
  | none => hidden
  | some l => shown (braceKids (bracesL l))
def bracesL : List Node → List Item
  | [] => []
  | n :: ns => braces n :: bracesL ns
end

/-- braces.go:19-26 `BracesString`. -/
def bracesString (n : Node) : Str := (braces n).out 0

/-! ## ast.go: Start and End -/

mutual
/-- The `Start` methods; `none` is the index-out-of-range panic on an empty slice. -/
def startN : Node → Option Nat
  | .text _ d => startHead d
  | .discourse d => startHead d
  | .sentence je st _ => match je with | some w => some w.S | none => startN st
  | .cop _ to0 _ _ l _ => match to0 with | some w => some w.S | none => startN l
  | .prenex ts _ => startHead ts
  | .prenexStmt ts _ _ => startHead ts
  | .predication _ p _ _ => startN p
  | .prefixed mu _ => some mu.S
  | .serial l _ => startN l
  | .word _ w => some w.S
  | .mi m _ _ => some m.S
  | .po m _ _ => some m.S
  | .mo m _ _ => some m.S
  | .lu _ l _ => some l.S
  | .linked g _ => some g.S
  | .terms ts => startHead ts
  | .predArg _ focus quant p _ => match focus with
    | some w => some w.S
    | none => match quant with | some w => some w.S | none => startN p
  | .predAdverb p => startN p
  | .prep p _ => startN p
  | .paren kio _ _ => some kio.S
  | .incidental ju _ => some ju.S
  | .vocative hu _ => some hu.S
/-- `(*n)[0].Start()`. -/
def startHead : List Node → Option Nat
  | [] => none
  | n :: _ => startN n
end

mutual
/-- The `End` methods; `none` is the index-out-of-range panic. -/
def endN : Node → Option Nat
  | .text _ d => endLast d
  | .discourse d => endLast d
  | .sentence _ st da => match da with | some w => some w.E | none => endN st
  | .cop _ _ _ _ _ r => endN r
  | .prenex _ bi => some bi.E
  | .prenexStmt _ _ st => endN st
  -- ast.go:161: `end(n.NA, n.Terms)`, also when there are no terms
  | .predication _ _ ts na => match na with
    | some w => some w.E
    | none => match ts with | some l => endLast l | none => none
  | .prefixed _ p => endN p
  | .serial _ r => endN r
  | .word _ w => some w.E
  | .mi _ ga ph => match ga with | some w => some w.E | none => endN ph
  | .po _ ga a => match ga with | some w => some w.E | none => endN a
  | .mo _ teo _ => some teo.E
  | .lu _ _ st => endN st
  | .linked _ a => endN a
  | .terms ts => endLast ts
  | .predArg _ _ _ p rel => match rel with | some r => endN r | none => endN p
  | .predAdverb p => endN p
  | .prep _ a => endN a
  | .paren _ ki _ => some ki.E
  | .incidental _ st => endN st
  | .vocative _ a => endN a
/-- `(*n)[len(*n)-1].End()`. -/
def endLast : List Node → Option Nat
  | [] => none
  | [n] => endN n
  | _ :: m :: l => endLast (m :: l)
end

/-! ## ast.go: ToASCII -/

mutual
/-- ast.go:755-761 `ToASCII` in place, `f` being `tone.ToASCII`: `Visit` reaches every `*Word`
once and assigns its `T`. (The traversal of visit.go with the assignment fused in.) -/
def mapT (f : Str → Str) : Node → Node
  | .text l d => .text (mapTO f l) (mapTL f d)
  | .discourse d => .discourse (mapTL f d)
  | .sentence je st da => .sentence (mapTWO f je) (mapT f st) (mapTWO f da)
  | .cop k to0 to1 ru l r => match to0 with
    -- visit.go:181-187: without TO0 the traversal does not reach TO1
    | none => .cop k none to1 (mapTW f ru) (mapT f l) (mapT f r)
    | some t => .cop k (some (mapTW f t)) (mapTWO f to1) (mapTW f ru) (mapT f l) (mapT f r)
  | .prenex ts bi => .prenex (mapTL f ts) (mapTW f bi)
  | .prenexStmt ts bi st => .prenexStmt (mapTL f ts) (mapTW f bi) (mapT f st)
  | .predication k p ts na => .predication k (mapT f p) (mapTTO f ts) (mapTWO f na)
  | .prefixed mu p => .prefixed (mapTW f mu) (mapT f p)
  | .serial l r => .serial (mapT f l) (mapT f r)
  | .word k w => .word k (mapTW f w)
  | .mi m ga ph => .mi (mapTW f m) (mapTWO f ga) (mapT f ph)
  | .po m ga a => .po (mapTW f m) (mapTWO f ga) (mapT f a)
  | .mo m teo d => .mo (mapTW f m) (mapTW f teo) (mapTL f d)
  | .lu k l st => .lu k (mapTW f l) (mapT f st)
  | .linked g a => .linked (mapTW f g) (mapT f a)
  | .terms ts => .terms (mapTL f ts)
  | .predArg id focus quant p rel =>
    .predArg id (mapTWO f focus) (mapTWO f quant) (mapT f p) (mapTO f rel)
  | .predAdverb p => .predAdverb (mapT f p)
  | .prep p a => .prep (mapT f p) (mapT f a)
  | .paren kio ki d => .paren (mapTW f kio) (mapTW f ki) (mapTL f d)
  | .incidental ju st => .incidental (mapTW f ju) (mapT f st)
  | .vocative hu a => .vocative (mapTW f hu) (mapT f a)
def mapTW (f : Str → Str) : Word → Word
  | .mk t s e m => .mk (f t) s e (mapTO f m)
def mapTO (f : Str → Str) : Option Node → Option Node
  | none => none
  | some n => some (mapT f n)
def mapTWO (f : Str → Str) : Option Word → Option Word
  | none => none
  | some w => some (mapTW f w)
def mapTTO (f : Str → Str) : Option (List Node) → Option (List Node)
  | none => none
  | some l => some (mapTL f l)
def mapTL (f : Str → Str) : List Node → List Node
  | [] => []
  | n :: ns => mapT f n :: mapTL f ns
end

/-- ast.go:755-761 `ToASCII`. -/
def toASCIINode (n : Node) : Node := mapT Verif.Tone.toASCII n

end Verif.AST
