/-
Parsing expressions and the passes of a parser generated by peggy.

/repo/ast/toaq.go consists of 403 quadruples of functions `_xAccepts`, `_xNode`, `_xFail`,
`_xAction`, one for each rule of /repo/ast/toaq.peggy, all written by the generator following the
same schemes. Here the schemes are modelled once, as interpreters of parsing expressions:
`acc` for the Accepts functions and `ev` for the Node and Action functions, which differ only in
what they compute on success (`Alg`). This file has the schemes without the memo tables
(`Verif.Peg.Memo` has them with the tables).
-/
import Verif.Unicode
import Verif.Peg.Text

namespace Verif.Peg
open Verif.Tone (Str)

/-- A text as the generated parser reads it: the result of `peg.DecodeRuneInString(text[p:])`
(toaq.go:531-534 `_next`) at every byte offset `p`, including offsets inside a rune. -/
structure Input where
  len : Nat
  next : Nat → Char × Nat
  pos : ∀ p, p < len → 0 < (next p).2
  fits : ∀ p, p < len → p + (next p).2 ≤ len

/-- The rune at an offset; `none` at the end of the text, where `_next` returns width 0. -/
def Input.rune (I : Input) (p : Nat) : Option (Char × Nat) := if p < I.len then some (I.next p) else none

/-- U+FFFD, which decoding returns for invalid bytes and at the end of the text. -/
def bad : Char := Char.ofNat 0xFFFD

/-- Terminals: a character class, a literal of one rune, any rune, and the combination
`p:. &{ unicode.IsPunct(p) }` of the rule `punctuation` (the only code predicate). -/
inductive Term
  | cls (cs : List Char)
  | lit (c : Char)
  | any
  | punct
deriving DecidableEq

/-- Parsing expressions with actions from `F`. `star` does not occur in the grammar; it is the loop
of `plus`. Labels are positional: `lab` marks that the value is passed to the enclosing action. -/
inductive Expr (F : Type)
  | term (t : Term)
  | ref (r : Nat)
  | seq (a b : Expr F)
  | alt (a b : Expr F)
  | opt (a : Expr F)
  | plus (a : Expr F)
  | star (a : Expr F)
  | not (a : Expr F)
  | and (a : Expr F)
  | lab (a : Expr F)
  | grp (a : Expr F)
  | act (f : F) (a : Expr F)
deriving DecidableEq

/-- A grammar: rules are numbered as in toaq.go:10-414; `named` are the rules with an error name. -/
structure Gram (F : Type) where
  body : Nat → Expr F
  named : Nat → Bool

variable {F : Type} (U : Uni) (G : Gram F) (I : Input)

/-- Match a terminal: `.inl q` is success ending at `q`, `.inr e` failure reported at `e`.
toaq.go, class: `if r, w := _next(parser, pos); r != … { perr = _max(perr, pos) … }`;
any: `w == 0 || r == '�'`; code predicate: `perr = _max(perr, pos)` after the rune was read. -/
def tm : Term → Nat → Nat ⊕ Nat
  | .cls cs, p => match I.rune p with
    | some (c, w) => if cs.contains c then .inl (p + w) else .inr p
    | none => .inr p
  | .lit d, p => match I.rune p with
    | some (c, w) => if c = d then .inl (p + w) else .inr p
    | none => .inr p
  | .any, p => match I.rune p with
    | some (c, w) => if c ≠ bad then .inl (p + w) else .inr p
    | none => .inr p
  | .punct, p => match I.rune p with
    | some (c, w) => if c ≠ bad then (if U.punct c then .inl (p + w) else .inr (p + w)) else .inr p
    | none => .inr p

/-- One level of the Accepts functions without memo table. `accStep rec e p err` runs `e` at offset `p`; `err` is the
variable `perr` plus one (so 0 is the initial -1). The result is the new offset (`none` for failure)
and the new `perr`; the outer `none` means that the call depth was too small. -/
def accStep (rec : Expr F → Nat → Nat → Option (Option Nat × Nat)) :
    Expr F → Nat → Nat → Option (Option Nat × Nat)
  | e, p, err => match e with
    | .term t => match tm U I t p with
      | .inl q => some (some q, err)
      | .inr x => some (none, max err (x + 1))
    -- `_accept` (toaq.go:499-507) around a call of an Accepts function with `perr := -1`; a named
    -- rule resets `perr` to its start when it succeeds
    | .ref r => match rec (G.body r) p 0 with
      | none => none
      | some (some q, err') => some (some q, max err (if G.named r then p + 1 else err'))
      | some (none, err') => some (none, max err err')
    | .seq a b => match rec a p err with
      | some (some q, err') => rec b q err'
      | r => r
    | .alt a b => match rec a p err with
      | some (none, err') => rec b p err'
      | r => r
    | .opt a => match rec a p err with
      | some (none, err') => some (some p, err')
      | r => r
    | .plus a => match rec a p err with
      | some (some q, err') => rec (.star a) q err'
      | r => r
    | .star a => match rec a p err with
      | some (some q, err') => rec (.star a) q err'
      | some (none, err') => some (some p, err')
      | none => none
    | .not a => match rec a p err with
      | some (some _, _) => some (none, max err (p + 1))
      | some (none, _) => some (some p, err)
      | none => none
    | .and a => match rec a p err with
      | some (some _, _) => some (some p, err)
      | some (none, _) => some (none, max err (p + 1))
      | none => none
    | .lab a => rec a p err
    | .grp a => rec a p err
    | .act _ a => rec a p err

/-- The Accepts functions without memo table, up to call depth `n`. -/
def acc : Nat → Expr F → Nat → Nat → Option (Option Nat × Nat)
  | 0 => fun _ _ _ => none
  | n+1 => accStep U G I (acc n)

/-- What a Node or Action function computes: `X` is the value of a successful expression. -/
structure Alg (F E : Type) where
  X : Type
  /-- a terminal matched from the first to the second offset -/
  leaf : Nat → Nat → X
  /-- a predicate, or an absent option -/
  nil : X
  seq : X → X → X
  /-- the end of a repetition, and one more element in front -/
  rep0 : X
  rep : X → X → X
  lab : X → X
  grp : Nat → Nat → X → X
  act : F → Nat → Nat → X → Except E X
  rule : Nat → Nat → Nat → X → X

/-- Results of the Node and Action functions: new offset and value, failure, or panic. -/
inductive Res (E X : Type)
  | ok (q : Nat) (x : X)
  | fail
  | panic (e : E)

variable {E : Type} (A : Alg F E)

/-- One level of the Node and Action functions without memo tables; `ac` are the Accepts
functions. -/
def evStep (ac : Expr F → Nat → Nat → Option (Option Nat × Nat))
    (rec : Expr F → Nat → Option (Res E A.X)) : Expr F → Nat → Option (Res E A.X)
  | e, p => match e with
    | .term t => match tm U I t p with
      | .inl q => some (.ok q (A.leaf p q))
      | .inr _ => some .fail
    -- `if dp < 0 { return -1, nil }`: the body only runs when the rule was accepted
    | .ref r => match ac (G.body r) p 0 with
      | none => none
      | some (none, _) => some .fail
      | some (some _, _) => match rec (G.body r) p with
        | some (.ok q x) => some (.ok q (A.rule r p q x))
        | r => r
    | .seq a b => match rec a p with
      | some (.ok q x) => match rec b q with
        | some (.ok q' y) => some (.ok q' (A.seq x y))
        | r => r
      | r => r
    | .alt a b => match rec a p with
      | some .fail => rec b p
      | r => r
    | .opt a => match rec a p with
      | some .fail => some (.ok p A.nil)
      | r => r
    | .plus a => match rec a p with
      | some (.ok q x) => match rec (.star a) q with
        | some (.ok q' y) => some (.ok q' (A.rep x y))
        | r => r
      | r => r
    | .star a => match rec a p with
      | some (.ok q x) => match rec (.star a) q with
        | some (.ok q' y) => some (.ok q' (A.rep x y))
        | r => r
      | some .fail => some (.ok p A.rep0)
      | r => r
    | .not a => match rec a p with
      | some (.ok _ _) => some .fail
      | some .fail => some (.ok p A.nil)
      | r => r
    | .and a => match rec a p with
      | some (.ok _ _) => some (.ok p A.nil)
      | r => r
    | .lab a => match rec a p with
      | some (.ok q x) => some (.ok q (A.lab x))
      | r => r
    | .grp a => match rec a p with
      | some (.ok q x) => some (.ok q (A.grp p q x))
      | r => r
    | .act f a => match rec a p with
      | some (.ok q x) => match A.act f p q x with
        | .ok y => some (.ok q y)
        | .error e => some (.panic e)
      | r => r

/-- The Node and Action functions without memo tables, up to call depth `n`. -/
def ev : Nat → Expr F → Nat → Option (Res E A.X)
  | 0 => fun _ _ => none
  | n+1 => evStep U G I A (acc U G I n) (ev n)

end Verif.Peg
