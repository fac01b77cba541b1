/-
The parser: /repo/ast/parser.go, with the memo tables of /repo/ast/toaq.go:417-439.

Modelled: `NewParser`, `Tree`, `Word`, `Text` and `parse` (parser.go:48-101) up to the error value: an
error is the `perr` that the failed Accepts function returned. The Fail functions that
build the error tree (they change no table but `fail`) are in Parse/Errors. Not modelled: `FilePath`.
-/
import Verif.Parse.Action
import Verif.Parse.Grammar
import Verif.Peg.Memo
import Verif.Peg.Utf8

namespace Verif.Parse
open Verif.AST Verif.Peg
open Verif.Tone (Str)

/-- `peg.Node`. The name is the number of the rule; nodes made by `_sub` and `_leaf` have none. -/
inductive PNode
  | mk (name : Option Nat) (text : Bytes) (kids : List PNode)

def PNode.text : PNode → Bytes | .mk _ t _ => t
def PNode.kids : PNode → List PNode | .mk _ _ k => k
def PNode.name : PNode → Option Nat | .mk n _ _ => n

/-- The Node functions: the kids that an expression appends to the node of its rule. toaq.go:536-547
`_sub`, `_leaf`; `node.Text = parser.text[start:pos]`; truncation `node.Kids[:nkids]` on failures and
predicates. -/
def nodeAlg (b : Bytes) : Alg Act Err where
  X := List PNode
  leaf p q := [.mk none (slice b p q) []]
  nil := []
  seq x y := x ++ y
  rep0 := []
  rep x y := x ++ y
  lab x := x
  grp p q x := [.mk none (slice b p q) x]
  act _ _ _ x := .ok x
  rule r p q x := [.mk (some r) (slice b p q) x]

/-- The rules `full_text` and `word`. -/
def rFull : Nat := 0
def rWord : Nat := 79

/-- A call depth that suffices for every text. -/
def fuel (b : Bytes) : Nat := enough b.length rankBound depthBound

/-- `_Parser` (toaq.go:417-427) without `fail`. -/
structure PS where
  as : AS
  node : Tab (List PNode)
  act : Tab (Val × List Val)

/-- toaq.go:429-438 `_NewParser`. -/
def newParser : PS := ⟨⟨.empty, 0⟩, .empty, .empty⟩

/-- Calls of the API. -/
inductive Call
  | tree
  | text
  | word (offs : Int)

/-- What a call does: return a tree, an AST, a word and the number of bytes, an error; or panic.
`diverge` is a call depth above `fuel`, which is proved not to happen. -/
inductive Out
  | tree (t : PNode)
  | text (n : Node)
  | word (w : Word) (k : Nat)
  | err (perr : Nat)
  | panic
  | diverge

variable (U : Uni) (b : Bytes)

/-- parser.go:53-64 `Tree`. -/
def callTree (s : PS) : Out × PS :=
  match accM U toaq (.ofBytes b) (fuel b) (.ref rFull) 0 0 s.as with
  | none => (.diverge, s)
  | some ((none, e), as) => (.err e, { s with as := as })
  | some ((some _, _), as) =>
    match evM U toaq (.ofBytes b) (nodeAlg b) as.tab (fuel b) (.ref rFull) 0 s.node with
    | some (.ok _ [t], _) => (.tree t, { s with as := as, node := .empty })
    | some (_, nd) => (.panic, { s with as := as, node := nd })
    | none => (.diverge, s)

/-- parser.go:83-94 `Text`. -/
def callText (s : PS) : Out × PS :=
  match accM U toaq (.ofBytes b) (fuel b) (.ref rFull) 0 0 s.as with
  | none => (.diverge, s)
  | some ((none, e), as) => (.err e, { s with as := as })
  | some ((some _, _), as) =>
    match evM U toaq (.ofBytes b) (actAlg (.ofBytes b)) as.tab (fuel b) (.ref rFull) 0 s.act with
    | some (.ok _ (.node n, _), _) => (.text n, { s with as := as, act := .empty })
    | some (_, act) => (.panic, { s with as := as, act := act })
    | none => (.diverge, s)

/-- parser.go:66-81 `Word`. The offset indexes `deltaPos` (toaq.go:465), which has one row more than
the text has bytes. On success the table `node` is reset, not `act`. -/
def callWord (offs : Int) (s : PS) : Out × PS :=
  if 0 ≤ offs ∧ offs ≤ b.length then
    let p := offs.toNat
    match accM U toaq (.ofBytes b) (fuel b) (.ref rWord) p 0 s.as with
    | none => (.diverge, s)
    -- `_memoize` returns `perr - start`
    | some ((none, e), as) => (.err (e - p), { s with as := as })
    | some ((some _, _), as) =>
      match evM U toaq (.ofBytes b) (actAlg (.ofBytes b)) as.tab (fuel b) (.ref rWord) p s.act with
      | some (.ok q (.word w, _), act) => (.word w (q - p), { as := as, node := .empty, act := act })
      | some (_, act) => (.panic, { s with as := as, act := act })
      | none => (.diverge, s)
  else (.panic, s)

def call : Call → PS → Out × PS
  | .tree => callTree U b
  | .text => callText U b
  | .word offs => callWord U b offs

/-- The outcomes of a sequence of calls on one parser. -/
def calls : List Call → PS → List Out
  | [], _ => []
  | c :: cs, s => (call U b c s).1 :: calls cs (call U b c s).2

/-! ### Callers that modify results

A result shares pointers with the entries of the memo table that are there when the call returns. -/

/-- A parser and what its caller holds: the entries of `node` that may be reachable from returned
trees, and the entries of `act` that may be reachable from returned texts and words. -/
structure World where
  ps : PS
  heldNode : Tab (List PNode)
  heldAct : Tab (Val × List Val)

def newWorld : World := ⟨newParser, .empty, .empty⟩

/-- A call, or an assignment of the caller to a value it holds. -/
inductive Event
  | call (c : Call)
  | writeNode (p r : Nat) (x : List PNode)
  | writeAct (p r : Nat) (x : Val × List Val)

def Event.call? : Event → Option Call
  | .call c => some c
  | _ => none

/-- An assignment changes the table if the table still has the entry. -/
def World.step (w : World) : Event → Option (Call × Out) × World
  | .call c =>
    let r := Verif.Parse.call U b c w.ps
    (some (c, r.1), match r.1 with
      | .tree _ => { w with ps := r.2, heldNode := r.2.node }
      | .text _ => { w with ps := r.2, heldAct := r.2.act }
      | .word _ _ => { w with ps := r.2, heldAct := r.2.act }
      | _ => { w with ps := r.2 })
  | .writeNode p r x =>
    if (w.heldNode.get p r).isSome && (w.ps.node.get p r).isSome then
      (none, { w with ps := { w.ps with node := w.ps.node.put p r x } })
    else (none, w)
  | .writeAct p r x =>
    if (w.heldAct.get p r).isSome && (w.ps.act.get p r).isSome then
      (none, { w with ps := { w.ps with act := w.ps.act.put p r x } })
    else (none, w)

/-- The calls of a history with their outcomes. -/
def World.run (w : World) : List Event → List (Call × Out)
  | [] => []
  | e :: es => (w.step U b e).1.toList ++ ((w.step U b e).2).run es

/-! ### Without memo tables -/

/-- What a call does on a parser without memo tables. -/
def fresh : Call → Out
  | .tree => match acc U toaq (.ofBytes b) (fuel b) (.ref rFull) 0 0 with
    | none => .diverge
    | some (none, e) => .err e
    | some (some _, _) => match ev U toaq (.ofBytes b) (nodeAlg b) (fuel b) (.ref rFull) 0 with
      | some (.ok _ [t]) => .tree t
      | some _ => .panic
      | none => .diverge
  | .text => match acc U toaq (.ofBytes b) (fuel b) (.ref rFull) 0 0 with
    | none => .diverge
    | some (none, e) => .err e
    | some (some _, _) => match ev U toaq (.ofBytes b) (actAlg (.ofBytes b)) (fuel b) (.ref rFull) 0 with
      | some (.ok _ (.node n, _)) => .text n
      | some _ => .panic
      | none => .diverge
  | .word offs =>
    if 0 ≤ offs ∧ offs ≤ b.length then
      match acc U toaq (.ofBytes b) (fuel b) (.ref rWord) offs.toNat 0 with
      | none => .diverge
      | some (none, e) => .err (e - offs.toNat)
      | some (some _, _) => match ev U toaq (.ofBytes b) (actAlg (.ofBytes b)) (fuel b) (.ref rWord) offs.toNat with
        | some (.ok q (.word w, _)) => .word w (q - offs.toNat)
        | some _ => .panic
        | none => .diverge
    else .panic

end Verif.Parse
