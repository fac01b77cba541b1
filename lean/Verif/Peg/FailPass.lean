/-
The fourth pass of a parser generated by peggy: the Fail functions, which build the tree of failed
attempts after a text was rejected, with their memo table; `SimpleError`, which makes the message.
-/
import Verif.Peg.Memo
import Verif.Peg.Fail
import Verif.Peg.Loc
import Verif.Peg.Utf8

namespace Verif.Peg
open Verif.Tone (Str)

/-- What a failed attempt wanted (peg.go:48-61, the forms of `Want`): a terminal, that a predicate holds,
or a rule with an error name. -/
inductive Want (F : Type)
  | term (t : Term)
  | not (e : Expr F)
  | and (e : Expr F)
  | name (r : Nat)

/-- The table `fail` (toaq.go:423) and a fresh address. -/
structure FS (F : Type) where
  tab : Tab (Fail (Want F))
  next : Nat

variable {F : Type} (U : Uni) (G : Gram F) (I : Input)

/-- `&peg.Fail{}`. -/
def noFail (i : Nat) : Fail (Want F) := .mk i none 0 none []

/-- `kid.Want != "" || len(kid.Kids) > 0` (toaq.go:523). -/
def Fail.counts {W : Type} (f : Fail W) : Bool := f.want.isSome || !f.kids.isEmpty

/-- toaq.go:477-497 `_failMemo`. `d` and `last` are the tables and `lastFail` (plus one) of the Accepts functions, `err` is
`errPos` plus one. The result is `none` if the rule is to be run (`return start, nil`), else the new
offset and the tree. An entry that is missing has `de` 0 and `dp` 0. -/
def failMemo (d : Tab (Option Nat × Nat)) (last err r p : Nat) (s : FS F) :
    Option (Option Nat × Fail (Want F)) :=
  if p + 1 > last then some (none, noFail s.next)
  else match d.get p r with
    | none => if p < err then some (none, noFail s.next) else none
    | some (o, e) => if e < err then some (o, noFail s.next) else (s.tab.get p r).map fun f => (o, f)

/-- The end of a Fail function: the node for the rule; a rule with an error name has no kids and
wants its name if it failed. -/
def ruleFail (r p : Nat) (o : Option Nat) (kids : List (Fail (Want F))) (i : Nat) : Fail (Want F) :=
  if G.named r then .mk i (some r) p (if o.isNone then some (.name r) else none) []
  else .mk i (some r) p none kids

/-- `if pos >= errPos { failure.Kids = append(failure.Kids, &peg.Fail{Pos: pos, Want: …}) }` -/
def addLeaf (err x : Nat) (w : Want F) (ks : List (Fail (Want F))) (s : FS F) : List (Fail (Want F)) × FS F :=
  if err ≤ x + 1 then (ks ++ [.mk s.next none x (some w) []], { s with next := s.next + 1 }) else (ks, s)

/-- Offset (`none` for failure), the kids of the node of the rule, and the table. -/
abbrev FRes (F : Type) := (Option Nat × List (Fail (Want F))) × FS F

/-- One level of the Fail functions. `failStep … rec e p ks s` runs `e` at offset `p`, when the node of
the rule has the kids `ks`. -/
def failStep (d : Tab (Option Nat × Nat)) (last err : Nat)
    (rec : Expr F → Nat → List (Fail (Want F)) → FS F → Option (FRes F)) :
    Expr F → Nat → List (Fail (Want F)) → FS F → Option (FRes F)
  | e, p, ks, s => match e with
    | .term t => match tm U I t p with
      | .inl q => some ((some q, ks), s)
      | .inr x => some ((none, (addLeaf err x (.term t) ks s).1), (addLeaf err x (.term t) ks s).2)
    -- `_fail` (toaq.go:521-531) around a call of a Fail function
    | .ref r => match failMemo d last err r p s with
      | some (o, f) => some ((o, if f.counts then ks ++ [f] else ks), { s with next := s.next + 1 })
      | none => match rec (G.body r) p [] s with
        | none => none
        | some ((o, kids), s) =>
          let f := ruleFail G r p o kids s.next
          some ((o, if f.counts then ks ++ [f] else ks), ⟨s.tab.put p r f, s.next + 1⟩)
    | .seq a b => match rec a p ks s with
      | some ((some q, ks), s) => rec b q ks s
      | r => r
    | .alt a b => match rec a p ks s with
      | some ((none, ks), s) => rec b p ks s
      | r => r
    | .opt a => match rec a p ks s with
      | some ((none, ks), s) => some ((some p, ks), s)
      | r => r
    | .plus a => match rec a p ks s with
      | some ((some q, ks), s) => rec (.star a) q ks s
      | r => r
    | .star a => match rec a p ks s with
      | some ((some q, ks), s) => rec (.star a) q ks s
      | some ((none, ks), s) => some ((some p, ks), s)
      | none => none
    -- `failure.Kids = failure.Kids[:nkids]` after the predicate
    | .not a => match rec a p ks s with
      | some ((some _, _), s) => some ((none, (addLeaf err p (.not a) ks s).1), (addLeaf err p (.not a) ks s).2)
      | some ((none, _), s) => some ((some p, ks), s)
      | none => none
    | .and a => match rec a p ks s with
      | some ((some _, _), s) => some ((some p, ks), s)
      | some ((none, _), s) => some ((none, (addLeaf err p (.and a) ks s).1), (addLeaf err p (.and a) ks s).2)
      | none => none
    | .lab a => rec a p ks s
    | .grp a => rec a p ks s
    | .act _ a => rec a p ks s

/-- The Fail functions with their memo table, up to a call depth. -/
def failM (d : Tab (Option Nat × Nat)) (last err : Nat) :
    Nat → Expr F → Nat → List (Fail (Want F)) → FS F → Option (FRes F)
  | 0 => fun _ _ _ _ => none
  | n+1 => failStep U G I d last err (failM d last err n)

/-- A call of the Fail function of a rule from outside (parser.go:96): the tree that it returns. -/
def failRule (d : Tab (Option Nat × Nat)) (last err n r p : Nat) (s : FS F) : Option (Fail (Want F) × FS F) :=
  match failMemo d last err r p s with
  | some (_, f) => some (f, { s with next := s.next + 1 })
  | none => match failM U G I d last err n (G.body r) p [] s with
    | none => none
    | some ((o, kids), s) =>
      some (ruleFail G r p o kids s.next, ⟨s.tab.put p r (ruleFail G r p o kids s.next), s.next + 1⟩)

/-! ### Messages -/

/-- What `SimpleError` reports (fail.go:19-47): the location, what was wanted there, and the text found
there (`none` is "EOF"). The words of the message are left to the reader. `none`: no answer, a panic or
an endless loop in `Location`. -/
structure Report (F : Type) where
  loc : Loc
  want : List (Option (Want F))
  got : Option Bytes

/-- The runes of a text, as `Location` reads them. -/
def runesF : Nat → Bytes → Text
  | 0, _ => []
  | n+1, b => if h : b = [] then [] else
      ⟨(decode b).1, (decode b).2, (decode_width b h).1⟩ :: runesF n (b.drop (decode b).2)

def runes (b : Bytes) : Text := runesF b.length b

/-- fail.go:19-47 `SimpleError`. `leaves[0]` panics if there is no leaf. -/
def simpleError (b : Bytes) (f : Fail (Want F)) : Option (Report F) :=
  match leafFails f with
  | [] => none
  | x :: l =>
    (location (runes b) x.pos).map fun loc =>
      { loc := loc
        want := (x :: l).map Fail.want
        got := if x.pos < b.length then some (slice b x.pos (min (x.pos + 10) b.length)) else none }

end Verif.Peg
