/-
/repo/logic/simplify.go.

Simplification: nodes other than variables and bindings have no identity, so a node that the
interpreter put in two places of the tree (a `Serial` or `Abstraction` predicate distributed over a
connective) is transformed once per place, where the Go code would transform it in place, twice.
-/
import Verif.Logic.Visit
import Verif.Logic.Lists

namespace Verif.Logic
open Verif.Tone (Str)

/-- logic.go:138 `Equal` -/
def equalName : Str := ['=']
/-- logic.go:140 `Among` -/
def amongName : Str := ['≺']

/-! ## addHoa -/

/-- simplify.go:57: the implicit hoa variable of the binding with address and number `b`. -/
def hoaVar (b : Nat × Nat) : Var := ⟨.hoa b.1, b.2, some b.1, false⟩

mutual
/-- simplify.go:30-83 `addHoa`: the new tree and the returned slice of used variable numbers.
The first argument is the binding (address and number) in whose restriction we are. -/
def addHoa (b : Option (Nat × Nat)) : Node → Node × List Int
  | .bind q id n f r s =>
    let (r', u) := addHoaO id n r
    let (s', u') := addHoa none s
    (.bind q id n f r' s', merge sortInts u u')
  | .conn c l r =>
    let (l', u) := addHoa b l
    let (r', u') := addHoa b r
    (.conn c l' r', merge sortInts u u')
  | .app p as =>
    let (p', u) := addHoa none p
    let (as', u) := addHoaL as u
    match b with
    | none => (.app p' as', u)
    | some b =>
      if as'.length > 0 then (.app p' as', u)
      else if u.contains (b.2 : Int) then (.app p' as', u)
      else (.app p' [some (.var (hoaVar b))], u)
  | .var v => (.var v, [(v.n : Int)])
  | .plural as =>
    let (as', u) := addHoaL as []
    (.plural as', u)
  | .abs s =>
    let (s', u) := addHoa none s
    (.abs s', u)
  | .serial l r =>
    let (l', u) := addHoa none l
    let (r', u') := addHoa none r
    (.serial l' r', merge sortInts u u')
  | .swap p k =>
    let (p', u) := addHoa none p
    (.swap p' k, u)
  | .quote t f => (.quote t f, [])
  | .name s => (.name s, [])
/-- simplify.go:32-34: the restriction, if any. -/
def addHoaO (id n : Nat) : Option Node → Option Node × List Int
  | none => (none, [])
  | some r => let (r', u) := addHoa (some (id, n)) r; (some r', u)
/-- simplify.go:44-48, 65-69: the loop over arguments. -/
def addHoaL : List (Option Node) → List Int → List (Option Node) × List Int
  | [], u => ([], u)
  | none :: as, u => let (as', u') := addHoaL as u; (none :: as', u')
  | some a :: as, u =>
    let (a', v) := addHoa none a
    let (as', u') := addHoaL as (merge sortInts u v)
    (some a' :: as', u')
end

/-! ## sequenceVarNums -/

/-- The numbers stored in bindings and variables, by address, and the counter. -/
structure Seq where
  i : Nat
  bN : Nat → Nat
  vN : VAddr → Nat

def upd {α β : Type} [DecidableEq α] (f : α → β) (a : α) (b : β) : α → β :=
  fun x => if x = a then b else f x

/-- simplify.go:14-27: the callback. -/
def seqStep (s : Seq) : Node → Seq
  | .bind _ id _ _ _ _ => { s with bN := upd s.bN id s.i, i := s.i + 1 }
  | .var v => match v.dfn with
    | some id => { s with vN := upd s.vN v.addr (s.bN id) }
    | none => { s with vN := upd s.vN v.addr s.i, i := s.i + 1 }
  | _ => s

mutual
/-- Read the tree back from memory. -/
def renum (bN : Nat → Nat) (vN : VAddr → Nat) : Node → Node
  | .bind q id _ f r s => .bind q id (bN id) f (renumO bN vN r) (renum bN vN s)
  | .conn c l r => .conn c (renum bN vN l) (renum bN vN r)
  | .app p as => .app (renum bN vN p) (renumL bN vN as)
  | .var v => .var { v with n := vN v.addr }
  | .plural as => .plural (renumL bN vN as)
  | .quote t f => .quote t f
  | .name s => .name s
  | .abs s => .abs (renum bN vN s)
  | .serial l r => .serial (renum bN vN l) (renum bN vN r)
  | .swap p k => .swap (renum bN vN p) k
def renumO (bN : Nat → Nat) (vN : VAddr → Nat) : Option Node → Option Node
  | none => none
  | some n => some (renum bN vN n)
def renumL (bN : Nat → Nat) (vN : VAddr → Nat) : List (Option Node) → List (Option Node)
  | [] => []
  | a :: as => renumO bN vN a :: renumL bN vN as
end

/-- simplify.go:12-28 `sequenceVarNums`: the final memory. `old` are the numbers the bindings had
before. -/
def seqRun (old : Nat → Nat) (n : Node) : Seq :=
  visit seqStep n { i := 0, bN := old, vN := fun _ => 0 }

/-- simplify.go:12-28 `sequenceVarNums`: the tree afterwards. Every variable of the tree is visited,
so the initial `vN` is never read. -/
def sequenceVarNums (old : Nat → Nat) (n : Node) : Node :=
  renum (seqRun old n).bN (seqRun old n).vN n

/-! ## simplifyStatement, simplifyArgument, simplifyPredicate -/

/-- simplify.go:103-106 `state`, plus the restrictions that bindings have at the end, by address:
a variable may still point to a binding that has left the tree. -/
structure SState where
  sub : List (Nat × Option Node)
  predVars : List Nat
  defs : List (Nat × Option Node)

/-- simplify.go:108-125 `newState`: the numbers of variables used as predicates. -/
def predVars (n : Node) : List Nat :=
  visit (fun l m => match m with
    | .app (.var v) _ => v.n :: l
    | _ => l) n []

/-- simplify.go:138-171 `sub`: the number and argument to substitute, or `none` for `false`. -/
def subOf (s : SState) (q : Quant) (restr : Option Node) : Option (Nat × Node) :=
  match restr with
  | some (.app (.name p) [some left, some right]) =>
    if (q ≠ .the ∧ q ≠ .all) ∨ p ≠ equalName then none
    else
      let lr : Option (Var × Node) := match left, right with
        | .var l, r => some (l, r)
        | l, .var r => some (r, l)
        | _, _ => none
      match lr with
      | none => none
      | some (v, other) =>
        if s.predVars.contains v.n then none
        else match other with
          | .quote _ _ => some (v.n, other)
          | .plural _ => some (v.n, other)
          | .abs _ => some (v.n, other)
          | _ => none
  | _ => none

/-- simplify.go:218-223: the number of leading λ-bindings without restriction. -/
def lambdas : Node → Nat
  | .bind .lambda _ _ _ none s => lambdas s + 1
  | _ => 0

/-- simplify.go:228-235: bind the first `k` arguments. -/
def lambdaBind : Nat → Node → List (Option Node) → List (Nat × Option Node) →
    Node × List (Nat × Option Node)
  | 0, st, _, sub => (st, sub)
  | k + 1, .bind _ _ n _ _ s, a :: as, sub => lambdaBind k s as ((n, a) :: sub)
  | _ + 1, st, _, sub => (st, sub)

mutual
/-- simplify.go:127-136, 173-236: `simplifyStatement`. `none`: out of fuel. -/
def simpS : Nat → Node → SState → Option (Node × SState)
  | 0, _, _ => none
  | k + 1, .bind q id n f r s, st =>
    match simpR k r st with
    | none => none
    | some (r', st) =>
      let st := { st with defs := (id, r') :: st.defs }
      match subOf st q r' with
      | some e => simpS k s { st with sub := (e.1, some e.2) :: st.sub }
      | none =>
        match simpS k s st with
        | none => none
        | some (s', st) => some (.bind q id n f r' s', st)
  | k + 1, .conn c l r, st =>
    match simpS k l st with
    | none => none
    | some (l', st) =>
      match simpS k r st with
      | none => none
      | some (r', st) => some (.conn c l' r', st)
  | k + 1, .app p as, st =>
    match simpArgs k as st with
    | none => none
    | some (as, st) =>
      match p with
      | .swap p pos => simpS k (.app p (swapArgs as pos)) st
      | .abs b =>
        let nargs := (as.filter (·.isSome)).length
        if lambdas b = 0 ∨ nargs ≠ lambdas b then
          match simpP k (.abs b) st with
          | none => none
          | some (p', st) => some (.app p' as, st)
        else
          let (b', sub) := lambdaBind (lambdas b) b as st.sub
          simpS k b' { st with sub := sub }
      | p =>
        match simpP k p st with
        | none => none
        | some (p', st) => some (.app p' as, st)
  | _ + 1, n, st => some (n, st)
/-- simplify.go:128-130: the restriction. -/
def simpR : Nat → Option Node → SState → Option (Option Node × SState)
  | 0, _, _ => none
  | _ + 1, none, st => some (none, st)
  | k + 1, some r, st =>
    match simpS k r st with
    | none => none
    | some (r', st) => some (some r', st)
/-- simplify.go:180-184: the loop over the arguments of a predication. -/
def simpArgs : Nat → List (Option Node) → SState → Option (List (Option Node) × SState)
  | 0, _, _ => none
  | _ + 1, [], st => some ([], st)
  | k + 1, none :: as, st =>
    match simpArgs k as st with
    | none => none
    | some (as', st) => some (none :: as', st)
  | k + 1, some a :: as, st =>
    match simpA k a st with
    | none => none
    | some (a', st) =>
      match simpArgs k as st with
      | none => none
      | some (as', st) => some (a' :: as', st)
/-- simplify.go:240-275, 289: `simplifyArgument`; the result may be nil because a nil argument may have
been recorded for a variable. -/
def simpA : Nat → Node → SState → Option (Option Node × SState)
  | 0, _, _ => none
  | _ + 1, .var v, st => match st.sub.lookup v.n with
    | some a => some (a, st)
    | none => some (some (.var v), st)
  | k + 1, .plural as, st =>
    match simpPlural k as st with
    | none => none
    | some (as', st) => some (some (.plural as'), st)
  | k + 1, .abs s, st =>
    match simpS k s st with
    | none => none
    | some (s', st) => some (some (.abs s'), st)
  | _ + 1, n, st => some (some n, st)
/-- simplify.go:247-262: the loop over the arguments of a plurality, which flattens. -/
def simpPlural : Nat → List (Option Node) → SState → Option (List (Option Node) × SState)
  | 0, _, _ => none
  | _ + 1, [], st => some ([], st)
  | k + 1, none :: as, st => simpPlural k as st
  | k + 1, some a :: as, st =>
    match simpA k a st with
    | none => none
    | some (a', st) =>
      match simpPlural k as st with
      | none => none
      | some (as', st) => match a' with
        | some (.plural bs) => some (bs ++ as', st)
        | a' => some (a' :: as', st)
/-- simplify.go:238, 268-288: `simplifyPredicate`. -/
def simpP : Nat → Node → SState → Option (Node × SState)
  | 0, _, _ => none
  | k + 1, .abs s, st =>
    match simpS k s st with
    | none => none
    | some (s', st) => some (.abs s', st)
  | k + 1, .serial l r, st =>
    match simpP k l st with
    | none => none
    | some (l', st) =>
      match simpP k r st with
      | none => none
      | some (r', st) => some (.serial l' r', st)
  | k + 1, .swap p pos, st =>
    match simpP k p st with
    | none => none
    | some (p', st) => some (.swap p' pos, st)
  | _ + 1, n, st => some (n, st)
end

/-- The restrictions of the bindings of a tree, by address. -/
def bindDefs (n : Node) : List (Nat × Option Node) :=
  visit (fun l m => match m with
    | .bind _ id _ _ r _ => (id, r) :: l
    | _ => l) n []

/-- simplify.go:5-10 `simplify`: the tree and the restrictions of all bindings variables may point
to. The numbers that bindings have before are their addresses, as the interpreter makes them. -/
def simplify (fuel : Nat) (n : Node) : Option (Node × List (Nat × Option Node)) :=
  let n := (addHoa none n).1
  match simpS fuel n { sub := [], predVars := predVars n, defs := bindDefs n } with
  | none => none
  | some (n, st) =>
    let run := seqRun id n
    some (renum run.bN run.vN n, st.defs.map fun d => (d.1, renumO run.bN run.vN d.2))

end Verif.Logic
