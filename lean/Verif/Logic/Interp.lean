/-
The interpreter of /repo/logic/interp.go: from syntax trees to logic trees.

How Go's mutable structures are modelled:

* The fields of `interpreter` (interp.go:24-57) are the state `St`. The slices used as stacks have
  their top at the head of the list; `defer`red restorations are `keepVars` and `inHoa`. The map
  `predications` and the AST fields only serve to point back at the source and are dropped.
* A `*Binding` is its number, which `newVar` makes unique. Its quantifier, which is changed after
  variables point to the binding, is in the table `quants`; what is needed to put it into the tree
  is the record `Pending`. `bindScope` (interp.go:989-999) is only ever called with bindings that
  have no scope yet.
* A `*Variable` is a `Var` with a fresh address. The only later mutation, in `clearHiFreeVarDefs`,
  is recorded in the table `cleared`, which is consulted whenever the code reads `Def` and is
  applied to the whole tree at the end.
* `arg0.Def` in `makeLambda` and `poPredicate` is set at once and not after the construction of the
  scope; nothing looks at that variable in between.
* The slice of terms that `prenexStatement` overwrites (`withTerm0`, interp.go:1092-1095) is shared
  with the caller; so the functions that may write it return its final contents.
* A panic with a string is `Err.msg`, a failed type assertion or index error `Err.rt`. Go's type
  switches are on the constructor and kind of `AST.Node`.
* Recursion is by fuel; `Err.fuel` is not a behaviour of the program (C34 shows it does not occur).
-/
import Verif.Logic.Words
import Verif.Logic.Visit

namespace Verif.Logic
open Verif.Tone (Str)

/-- How a run can fail. -/
inductive Err
  /-- a panic whose value is a string -/
  | msg
  /-- a panic whose value is a `runtime.Error` -/
  | rt
  /-- the model ran out of fuel -/
  | fuel
deriving DecidableEq, Repr

/-- A `*Binding` without scope. -/
structure Pending where
  q : Quant
  id : Nat
  focus : Bool
  restr : Option Node

/-- interp.go:24-57 `interpreter`. -/
structure St where
  /-- the next variable number -/
  n : Nat := 0
  /-- `theScope`, in order -/
  the : List Pending := []
  /-- `hiScope`; the head is the top of the stack, each entry is in order -/
  hi : List (List Pending) := []
  /-- `liftedScope`: from arguments to bindings -/
  lifted : List (Nat × Nat) := []
  /-- `hoaScope`; the head is the top -/
  hoa : List Nat := []
  /-- `varScope`; the head is the innermost -/
  vars : List (Str × Nat) := []
  /-- the next address of a variable -/
  nv : Nat := 0
  /-- the quantifiers of all bindings made so far -/
  quants : List (Nat × Quant) := []
  /-- the variables whose `Def` has been cleared and their new numbers -/
  cleared : List (VAddr × Nat) := []

/-- The interpreter's methods: state and panics. -/
def M (α : Type) : Type := St → Except Err (α × St)

namespace M

def pure {α : Type} (a : α) : M α := fun s => .ok (a, s)

def bind {α β : Type} (m : M α) (f : α → M β) : M β := fun s =>
  match m s with
  | .ok (a, s) => f a s
  | .error e => .error e

end M

instance : Monad M where
  pure := M.pure
  bind := M.bind

def fail {α : Type} (e : Err) : M α := fun _ => .error e
def get : M St := fun s => .ok (s, s)
def modify (f : St → St) : M Unit := fun s => .ok ((), f s)

/-- A helper that may panic with a string. -/
def orMsg {α : Type} : Option α → M α
  | some a => pure a
  | none => fail .msg

/-- A helper that may panic with a runtime error. -/
def orRt {α : Type} : Option α → M α
  | some a => pure a
  | none => fail .rt

/-- A type assertion `n.(T)`. -/
def assert (p : AST.Node → Bool) (n : AST.Node) : M Unit := if p n then pure () else fail .rt

/-- `defer func(s []varScope) { interp.varScope = s }(interp.varScope)`. -/
def keepVars {α : Type} (m : M α) : M α := fun s =>
  match m s with
  | .ok (a, s') => .ok (a, { s' with vars := s.vars })
  | .error e => .error e

/-- interp.go:98-104 `pushHoa` and the deferred `popHoa`. -/
def inHoa {α : Type} (b : Option Nat) (m : M α) : M α :=
  match b with
  | none => m
  | some b => do
    modify fun s => { s with hoa := b :: s.hoa }
    let a ← m
    modify fun s => { s with hoa := s.hoa.tail }
    return a

/-! ## Which node types implement which interface

The marker methods are in /repo/ast/ast.go; embedding promotes the methods of `Predication` to
`PredicationRelative` and `PredicationContent`, and those of `Predicate` to `PredicateAdverb`. -/

/-- ast.go:66 `Sentence` -/
def isSentence : AST.Node → Bool
  | .sentence .. => true
  | .cop .sentence .. => true
  | _ => false

/-- ast.go:106 `Fragment` -/
def isFragment : AST.Node → Bool
  | .prenex .. => true
  | .terms _ => true
  | .predication .relative .. => true
  | .lu .relative .. => true
  | .cop .relative .. => true
  | .paren .. => true
  | .incidental .. => true
  | .vocative .. => true
  | .word .interjection _ => true
  | .word .space _ => true
  | _ => false

/-- ast.go:132 `Statement` -/
def isStatement : AST.Node → Bool
  | .prenexStmt .. => true
  | .predication .. => true
  | .cop .statement .. => true
  | _ => false

/-- ast.go:189 `Predicate` -/
def isPredicate : AST.Node → Bool
  | .prefixed .. => true
  | .serial .. => true
  | .word .predicate _ => true
  | .mi .. => true
  | .po .. => true
  | .mo .. => true
  | .lu .predicate .. => true
  | .cop .predicate .. => true
  | .predAdverb _ => true
  | .predication .content .. => true
  | .lu .content .. => true
  | .cop .content .. => true
  | _ => false

/-- ast.go:382 `Argument` -/
def isArgument : AST.Node → Bool
  | .predArg .. => true
  | .cop .argument .. => true
  | _ => false

/-- ast.go:321 `Term` -/
def isTerm : AST.Node → Bool
  | .linked .. => true
  | .cop .termSet .. => true
  | .predArg .. => true
  | .cop .argument .. => true
  | .predAdverb _ => true
  | .cop .adverb .. => true
  | .prep .. => true
  | .cop .preposition .. => true
  | _ => false

/-- ast.go:441 `Relative` -/
def isRelative : AST.Node → Bool
  | .predication .relative .. => true
  | .lu .relative .. => true
  | .cop .relative .. => true
  | _ => false

/-- ast.go:481 `Adverb` -/
def isAdverb : AST.Node → Bool
  | .predAdverb _ => true
  | .cop .adverb .. => true
  | _ => false

/-- ast.go:519 `Preposition` -/
def isPreposition : AST.Node → Bool
  | .prep .. => true
  | .cop .preposition .. => true
  | _ => false

/-! ## Variables and bindings -/

/-- The current quantifier of a binding. -/
def St.quant (s : St) (b : Nat) : Quant := (s.quants.lookup b).getD .all

/-- The current contents of a `*Variable`. -/
def St.read (s : St) (v : Var) : Var :=
  match s.cleared.lookup v.addr with
  | some m => { v with n := m, dfn := none }
  | none => v

/-- interp.go:71-75 `newVar`. -/
def newVar : M Nat := fun s => .ok (s.n, { s with n := s.n + 1 })

/-- `&Binding{N: interp.newVar(), Quantifier: q}`. -/
def newBinding (q : Quant) : M Nat := fun s =>
  .ok (s.n, { s with n := s.n + 1, quants := (s.n, q) :: s.quants })

/-- `b.Quantifier = q`. -/
def setQuant (b : Nat) (q : Quant) : M Unit :=
  modify fun s => { s with quants := (b, q) :: s.quants }

/-- `&Variable{N: n, Def: dfn, Focus: focus}`. -/
def newVariable (n : Nat) (dfn : Option Nat) (focus : Bool) : M Node := fun s =>
  .ok (.var ⟨.mk s.nv, n, dfn, focus⟩, { s with nv := s.nv + 1 })

/-- interp.go:78-82 `pushVar`, with the numbering of the binding (interp.go:862-864). -/
def pushVar (x : Str) (q : Quant) : M Nat := do
  let b ← newBinding q
  modify fun s => { s with vars := (x, b) :: s.vars }
  return b

/-- interp.go:88-96 `lookupVar`. -/
def lookupVar (x : Str) : M (Nat × Option Nat) := fun s =>
  match s.vars.lookup x with
  | some b => .ok ((b, some b), s)
  | none => .ok ((s.n, none), { s with n := s.n + 1 })

/-- interp.go:989-999 `bindScope`. -/
def bindScope : Option Pending → Node → Node
  | none, st => st
  | some b, st => .bind b.q b.id b.id b.focus b.restr st

/-- interp.go:1101-1110: the callback of `hasFreeVars`. -/
def freeStep (s : St) (a : Bool × List Nat) : Node → Bool × List Nat
  | .bind _ id _ _ _ _ => (a.1, id :: a.2)
  | .var v => match (s.read v).dfn with
    | some d => if s.quant d ≠ .the ∧ ¬ a.2.contains d then (true, a.2) else a
    | none => a
  | _ => a

/-- interp.go:1098-1112 `hasFreeVars`, on a statement. -/
def hasFreeVars (s : St) (n : Node) : Bool := (visit (freeStep s) n (false, [])).1

/-- interp.go:1098-1112 `hasFreeVars`, on a binding without scope and with the given restriction. -/
def hasFreeVarsB (s : St) (b : Nat) (restr : Option Node) : Bool :=
  (visitO (freeStep s) restr (false, [b])).1

/-- interp.go:185-198: the callback of `clearHiFreeVarDefs`. -/
def clearStep (scope : List Nat) (s : St) : Node → St
  | .var v =>
    if (s.read v).dfn.any scope.contains then s
    else { s with cleared := (v.addr, s.n) :: s.cleared, n := s.n + 1 }
  | _ => s

/-- interp.go:184-199 `clearHiFreeVarDefs`. -/
def clearHi (scope : List Nat) (hi : Pending) (s : St) : St := visitO (clearStep scope) hi.restr s

/-- interp.go:170-177: the loop of `subordinate`, over the bindings in reverse order. -/
def bindHi : List Pending → List Nat → Node → St → Node × St
  | [], _, st, s => (st, s)
  | hi :: his, scope, st, s =>
    bindHi his (hi.id :: scope) (bindScope (some hi) st) (clearHi (hi.id :: scope) hi s)

/-- interp.go:164-179 `subordinate`. -/
def subordinate (f : M Node) : M Node := fun s =>
  match f { s with hi := [] :: s.hi } with
  | .error e => .error e
  | .ok (st, s') =>
    let r := bindHi (s'.hi.headD []).reverse (s'.vars.map (·.2)) st s'
    .ok (r.1, { r.2 with hi := s.hi })

/-! ## Predicates -/

/-- interp.go:317-322: what `predicate` returns, a `Predicate` or a `*predConnection`. -/
inductive PTree
  | leaf (p : Node)
  | conn (c : Conn) (l r : PTree)

/-- interp.go:242-255 `argument`: an argument with its asserted place, or 0. -/
abbrev Args := List (Node × Nat)

/-- interp.go:261-285 `distributePredication`. -/
def distribute (args : Args) : PTree → M Node
  | .leaf p => do
    let as ← orRt (orderArguments args)
    return .app p as
  | .conn c l r => do
    let l ← distribute args l
    let r ← distribute args r
    return .conn c l r

/-- interp.go:456-470 `serialPredicateRight`. -/
def serialRight (l : Node) : PTree → PTree
  | .leaf r => .leaf (.serial l r)
  | .conn c r1 r2 => .conn c (serialRight l r1) (serialRight l r2)

/-- interp.go:440-454 `serialPredicateLeft`. -/
def serialLeft (r : PTree) : PTree → PTree
  | .leaf l => serialRight l r
  | .conn c l1 l2 => .conn c (serialLeft r l1) (serialLeft r l2)

/-- interp.go:973-987 `makeLambda`. -/
def makeLambda (pred arg1 : Node) : M Node := do
  let x ← newBinding .lambda
  let a ← newVariable x (some x) false
  return .abs (.bind .lambda x x false none (.app pred [some a, some arg1]))

/-- interp.go:409-413 `makeContentPred`. -/
def makeContentPred (st : Node) : M Node := makeLambda (.name equalName) (.abs st)

/-- interp.go:932-938 `isVariablePredicate`. -/
def varPred (U : Uni) : AST.Node → Option Str
  | .word .predicate w => (splitVar U w.T).map (·.2)
  | _ => none

/-- interp.go:927-930 `isHoaPredicate`. -/
def hoaPred (U : Uni) : AST.Node → Bool
  | .word .predicate w => isHoa U w.T
  | _ => false

/-- interp.go:624-628 `statementTail`, and the variable that is the alternative to it. -/
inductive Arg0
  | var (a : Node)
  | tail (args : Args) (bi : Str) (st : AST.Node) (terms : List AST.Node)

/-- The terms that the functions handed an `Arg0` may overwrite. -/
def Arg0.terms : Arg0 → List AST.Node
  | .var _ => []
  | .tail _ _ _ ts => ts

def Arg0.setTerms : Arg0 → List AST.Node → Arg0
  | .var a, _ => .var a
  | .tail as bi st _, ts => .tail as bi st ts

/-- The recursive methods, tied together by fuel. -/
structure Fns where
  statement : Args → AST.Node → M Node
  predicate : AST.Node → M PTree
  poArg : Node → Node → AST.Node → M Node
  prenexS : Args → Str → AST.Node → List AST.Node → M (Node × List AST.Node)
  preposition : AST.Node → Arg0 → M (Node × List AST.Node)
  predPrep : AST.Node → Arg0 → AST.Node → M (Node × List AST.Node)
  adverb : AST.Node → Node → M Node
  roi : AST.Node → AST.Node → M (Pending × Node)
  roiL : Node → AST.Node → AST.Node → M Node
  roiR : Node → Node → AST.Node → M Node
  predArg : AST.Node → M (Option Pending × Node)
  relClause : Option Nat → AST.Node → M Node

section
variable (U : Uni) (f : Fns)

/-- interp.go:156-160 `subordinateStatement`. -/
def subStatement (n : AST.Node) : M Node := subordinate (f.statement [] n)

/-- interp.go:257-259 `predication`. -/
def predication (p : AST.Node) (args : Args) : M Node := do
  let t ← f.predicate p
  distribute args t

/-- interp.go:201-235 `statement`. -/
def statementF (args : Args) (n : AST.Node) : M Node := keepVars <|
  match n with
  | .prenexStmt ts bi st => do
    let r ← f.prenexS args bi.T st ts
    return r.1
  | .predication .raw p none _ => predication f p args
  | .predication .raw p (some ts) na =>
    f.statement args (.prenexStmt ts (.mk ['p', 'a'] 0 0 none) (.predication .raw p none na))
  | .cop .statement _ _ ru l r => do
    let c ← orMsg (connector U ru.T)
    assert isStatement l
    let l ← f.statement args l
    assert isStatement r
    let r ← f.statement args r
    return .conn c l r
  | _ => fail .msg

/-- interp.go:326-407 `predicate` with serialPredicate (434-438) and poPredicate (472-484). -/
def predicateF (n : AST.Node) : M PTree :=
  match n with
  | .word .predicate w =>
    match splitVar U w.T with
    | some (_, x) => do
      let d ← lookupVar x
      let v ← newVariable d.1 d.2 false
      return .leaf v
    | none =>
      if isHoa U w.T then do
        let s ← get
        match s.hoa with
        | [] => do
          let x ← newVar
          let v ← newVariable x none false
          return .leaf v
        | b :: _ => do
          let v ← newVariable b (some b) false
          return .leaf v
      else return .leaf (.name (wordPred U w.T))
  | .serial l r => do
    assert isPredicate l
    let l ← f.predicate l
    assert isPredicate r
    let r ← f.predicate r
    return serialLeft r l
  | .mi m _ ph => do
    let p ← orMsg (miPred U m.T)
    let a ← makeLambda p (.quote (nodeText U ph) false)
    return .leaf a
  | .po m _ a => do
    let name ← orMsg (poPred U m.T)
    let x ← newBinding .lambda
    let arg0 ← newVariable x (some x) false
    let st ← f.poArg (.name name) arg0 a
    return .leaf (.abs (.bind .lambda x x false none st))
  | .mo _ _ d => do
    let a ← makeLambda (.name equalName) (.quote (nodeText U (.discourse d)) true)
    return .leaf a
  | .lu .predicate lu st =>
    if hasText U lu.T ['l', 'u'] then do
      let b ← newBinding .lambda
      let st ← inHoa (some b) (subStatement f st)
      return .leaf (.abs (bindScope (some ⟨.lambda, b, false, none⟩) st))
    else do
      let st ← subStatement f st
      return .leaf (.abs st)
  | .cop .predicate _ _ ru l r => do
    let c ← orMsg (connector U ru.T)
    assert isPredicate l
    let l ← f.predicate l
    assert isPredicate r
    let r ← f.predicate r
    return .conn c l r
  | .cop .content _ _ ru l r => do
    let c ← orMsg (connector U ru.T)
    assert isPredicate l
    let l ← f.predicate l
    assert isPredicate r
    let r ← f.predicate r
    return .conn c l r
  | .lu .content _ st => do
    let st ← subStatement f st
    let p ← makeContentPred st
    return .leaf p
  | .predication .content p ts na => do
    let st ← subStatement f (.predication .raw p ts na)
    let p ← makeContentPred st
    return .leaf p
  | _ => fail .msg

/-- interp.go:486-515 `poArgument`. -/
def poArgF (pred arg0 : Node) (arg1 : AST.Node) : M Node := keepVars <| do
  let done := fun (b : Option Pending) (a : Node) =>
    (bindScope b (.app pred [some arg0, some a]) : Node)
  match arg1 with
  | .predArg .. => do
    let (b, a) ← f.predArg arg1
    return done b a
  | .cop .argument _ _ ru l r =>
    if hasText U ru.T ['r', 'o', 'i'] then do
      let (b, a) ← f.roi l r
      return done (some b) a
    else do
      let c ← orMsg (connector U ru.T)
      assert isArgument l
      let l ← f.poArg pred arg0 l
      assert isArgument r
      let r ← f.poArg pred arg0 r
      return .conn c l r
  | _ => fail .msg

/-- interp.go:519-622 `prenexStatement`: the statement and the final contents of `terms`. -/
def prenexSF (args : Args) (bi : Str) (st : AST.Node) (terms : List AST.Node) :
    M (Node × List AST.Node) := keepVars <|
  match terms with
  | [] => do
    let n ← f.statement (if hasText U bi ['p', 'a'] then args else []) st
    return (n, [])
  | t :: rest =>
    match t with
    | .cop .termSet _ _ ru l r =>
      match l, r with
      | .terms ls, .terms rs => do
        let c ← orMsg (connector U ru.T)
        let l ← f.prenexS args bi st (ls ++ rest)
        let r ← f.prenexS args bi st (rs ++ rest)
        return (.conn c l.1 r.1, terms)
      | _, _ => fail .rt
    | .cop .argument _ _ ru l r =>
      if hasText U ru.T ['r', 'o', 'i'] then do
        let (b, a) ← f.roi l r
        let n ← f.prenexS (args ++ [(a, 0)]) bi st rest
        return (bindScope (some b) n.1, t :: n.2)
      else do
        assert isTerm l
        assert isTerm r
        let c ← orMsg (connector U ru.T)
        let ln ← f.prenexS args bi st (l :: rest)
        let rn ← f.prenexS args bi st (r :: ln.2.tail)
        return (.conn c ln.1 rn.1, rn.2)
    | .predArg _ focus _ _ _ => do
      let (b, a) ← f.predArg t
      let b := b.map fun b =>
        if focus.isSome ∧ ¬ hasText U bi ['p', 'a'] then { b with focus := true } else b
      let n ← f.prenexS (args ++ [(a, 0)]) bi st rest
      return (bindScope b n.1, t :: n.2)
    | .linked go arg =>
      let done := fun (b : Option Pending) (a : Node) => (do
        let pos ← orMsg (goPos U go.T)
        let n ← f.prenexS (args ++ [(a, pos)]) bi st rest
        return (bindScope b n.1, t :: n.2) : M (Node × List AST.Node))
      match arg with
      | .cop .argument _ _ ru l r =>
        if hasText U ru.T ['r', 'o', 'i'] then do
          let (b, a) ← f.roi l r
          done (some b) a
        else do
          assert isArgument l
          assert isArgument r
          let c ← orMsg (connector U ru.T)
          let ln ← f.prenexS args bi st (.linked go l :: rest)
          let rn ← f.prenexS args bi st (.linked go r :: ln.2.tail)
          return (.conn c ln.1 rn.1, rn.2)
      | .predArg .. => do
        let (b, a) ← f.predArg arg
        done b a
      | _ => fail .msg
    | t =>
      if isPreposition t then do
        let sub ← f.prenexS args bi st rest
        let s ← get
        if hasFreeVars s sub.1 then do
          let n ← f.preposition t (.tail args bi st sub.2)
          return (n.1, t :: n.2)
        else do
          let x ← newBinding .the
          let a ← newVariable x (some x) false
          let p ← makeContentPred sub.1
          modify fun s => { s with the := s.the ++ [⟨.the, x, false, some (.app p [some a])⟩] }
          let n ← f.preposition t (.var a)
          return (n.1, t :: sub.2)
      else if isAdverb t then do
        let sub ← f.prenexS args bi st rest
        -- the quantifier is set below; until then it is the zero value, `Quantifier("")`
        let x ← newBinding .all
        let a ← newVariable x (some x) false
        let p ← makeContentPred sub.1
        let s ← get
        if hasFreeVars s sub.1 then do
          let n ← f.adverb t a
          return (bindScope (some ⟨.all, x, false, some (.app p [some a])⟩) n, t :: sub.2)
        else do
          setQuant x .the
          modify fun s => { s with the := s.the ++ [⟨.the, x, false, some (.app p [some a])⟩] }
          let n ← f.adverb t a
          return (n, t :: sub.2)
      else fail .msg

/-- interp.go:646-666 `preposition`. -/
def prepositionF (n : AST.Node) (arg0 : Arg0) : M (Node × List AST.Node) := keepVars <|
  match n with
  | .prep p a => f.predPrep p arg0 a
  | .cop .preposition _ _ ru l r => do
    let c ← orMsg (connector U ru.T)
    assert isPreposition l
    let ln ← f.preposition l arg0
    assert isPreposition r
    let rn ← f.preposition r (arg0.setTerms ln.2)
    return (.conn c ln.1 rn.1, rn.2)
  | _ => fail .msg

/-- interp.go:668-712: what `predicationPreposition` does with the interpreted argument. -/
def predPrepEnd (p : AST.Node) (arg0 : Arg0) (b : Option Pending) (a : Node) :
    M (Node × List AST.Node) :=
  match arg0 with
  | .var a0 => do
    let st ← predication f p [(a0, 0), (a, 0)]
    return (bindScope b st, [])
  | .tail args bi st terms => do
    let sub ← f.prenexS args bi st terms
    let x ← newBinding .all
    let a0 ← newVariable x (some x) false
    let q ← makeContentPred sub.1
    let st ← predication f p [(a0, 0), (a, 0)]
    return (bindScope b (bindScope (some ⟨.all, x, false, some (.app q [some a0])⟩) st), sub.2)

/-- interp.go:668-712 `predicationPreposition`. -/
def predPrepF (p : AST.Node) (arg0 : Arg0) (arg1 : AST.Node) : M (Node × List AST.Node) :=
  keepVars <| match arg1 with
  | .predArg .. => do
    let (b, a) ← f.predArg arg1
    predPrepEnd f p arg0 b a
  | .cop .argument _ _ ru l r =>
    if hasText U ru.T ['r', 'o', 'i'] then do
      let (b, a) ← f.roi l r
      predPrepEnd f p arg0 (some b) a
    else do
      let c ← orMsg (connector U ru.T)
      assert isArgument l
      let ln ← f.predPrep p arg0 l
      let rn ← f.predPrep p (arg0.setTerms ln.2) l
      return (.conn c ln.1 rn.1, rn.2)
  | _ => fail .msg

/-- interp.go:714-734 `adverb`. -/
def adverbF (n : AST.Node) (arg : Node) : M Node := keepVars <|
  match n with
  | .predAdverb p => predication f p [(arg, 0)]
  | .cop .adverb _ _ ru l r => do
    let c ← orMsg (connector U ru.T)
    assert isAdverb l
    let l ← f.adverb l arg
    assert isAdverb r
    let r ← f.adverb r arg
    return .conn c l r
  | _ => fail .msg

/-- interp.go:736-742 `roi`, on the two sides of the connection. -/
def roiF (l r : AST.Node) : M (Pending × Node) := do
  let x ← newBinding .the
  let a ← newVariable x (some x) false
  assert isArgument l
  assert isArgument r
  let st ← f.roiL a l r
  return (⟨.the, x, false, some st⟩, a)

/-- interp.go:744-765 `roiLeft`. -/
def roiLF (x : Node) (l r : AST.Node) : M Node :=
  match l with
  | .cop .argument _ _ ru l1 l2 =>
    if hasText U ru.T ['r', 'o', 'i'] then do
      let (b, a) ← f.roi l1 l2
      let st ← f.roiR x a r
      return bindScope (some b) st
    else do
      let c ← orMsg (connector U ru.T)
      assert isArgument l1
      let ln ← f.roiL x l1 r
      assert isArgument l2
      let rn ← f.roiL x l2 r
      return .conn c ln rn
  | .predArg .. => do
    let (b, a) ← f.predArg l
    let st ← f.roiR x a r
    return bindScope b st
  | _ => fail .msg

/-- interp.go:767-797 `roiRight`. -/
def roiRF (x left : Node) (r : AST.Node) : M Node :=
  let st := fun (a : Node) =>
    (.app (.name equalName) [some x, some (.plural [some left, some a])] : Node)
  match r with
  | .cop .argument _ _ ru r1 r2 =>
    if hasText U ru.T ['r', 'o', 'i'] then do
      let (b, a) ← f.roi r1 r2
      return bindScope (some b) (st a)
    else do
      let c ← orMsg (connector U ru.T)
      assert isArgument r1
      let ln ← f.roiR x left r1
      assert isArgument r2
      let rn ← f.roiR x left r2
      return .conn c ln rn
  | .predArg .. => do
    let (b, a) ← f.predArg r
    return bindScope b (st a)
  | _ => fail .msg

/-- interp.go:816-823: the restriction with the relative clause. -/
def andRel (x : Nat) (st : Node) : Option AST.Node → M Node
  | none => pure st
  | some r => do
    let rc ← f.relClause (some x) r
    return .conn .and st rc

/-- interp.go:866-868: the relative clause as restriction. -/
def relOnly (b : Nat) : Option AST.Node → M (Option Node)
  | none => pure none
  | some r => do
    let rc ← f.relClause (some b) r
    return some rc

/-- interp.go:799-850 `predicateArgument`, after the tests for lifted arguments, variables and
hoa. -/
def plainArg (id : Nat) (focus quant : Option AST.Word) (p : AST.Node) (rel : Option AST.Node) :
    M (Option Pending × Node) := do
  let q ← orMsg (quantifier U (quant.map (·.T)))
  let x ← newBinding q
  let a ← newVariable x (some x) focus.isSome
  let st ← predication f p [(a, 0)]
  let restr ← andRel f x st rel
  if q = .the then do
    let s ← get
    if hasFreeVarsB s x (some restr) then do
      setQuant x .all
      return (some ⟨.all, x, false, some restr⟩, a)
    else do
      modify fun s => { s with
        lifted := (id, x) :: s.lifted, the := s.the ++ [⟨.the, x, false, some restr⟩] }
      return (none, a)
  else if q = .hi then do
    let s ← get
    match s.hi with
    | [] => fail .rt
    | top :: his => do
      modify fun s => { s with
        lifted := (id, x) :: s.lifted, hi := (top ++ [⟨.hi, x, false, some restr⟩]) :: his }
      return (none, a)
  else return (some ⟨q, x, false, some restr⟩, a)

/-- interp.go:852-891 `varArgument`. -/
def varArg (x : Str) (quant : Option AST.Word) (rel : Option AST.Node) :
    M (Option Pending × Node) :=
  match quant with
  | some w => do
    let q ← orMsg (quantifier U (some w.T))
    let b ← pushVar x q
    let a ← newVariable b (some b) false
    let restr ← relOnly f b rel
    return (some ⟨q, b, false, restr⟩, a)
  | none => do
    let d ← lookupVar x
    let ax ← newVariable d.1 d.2 false
    match rel with
    | none => return (none, ax)
    | some r => do
      let y ← newBinding .all
      let ay ← newVariable y (some y) false
      let rc ← f.relClause (some y) r
      return (some ⟨.all, y, false, some
        (.conn .and (.app (.name amongName) [some ay, some ax]) rc)⟩, ay)

/-- interp.go:893-925 `hoaArgument`. -/
def hoaArg (quant : Option AST.Word) (rel : Option AST.Node) : M (Option Pending × Node) := do
  let s ← get
  match s.hoa with
  | [] => do
    let x ← newVar
    let a ← newVariable x none false
    return (none, a)
  | d :: _ => do
    let ax ← newVariable d (some d) false
    match quant, rel with
    | none, none => return (none, ax)
    | _, rel => do
      let y ← newBinding .all
      let ay ← newVariable y (some y) false
      let among : Node := .app (.name amongName) [some ay, some ax]
      match rel with
      | none => return (some ⟨.all, y, false, some among⟩, ay)
      | some r => do
        let rc ← f.relClause (some y) r
        return (some ⟨.all, y, false, some (.conn .and among rc)⟩, ay)

/-- interp.go:799-850 `predicateArgument`. -/
def predArgF (n : AST.Node) : M (Option Pending × Node) :=
  match n with
  | .predArg id focus quant p rel => do
    let s ← get
    match s.lifted.lookup id with
    | some b => do
      let a ← newVariable b (some b) false
      return (none, a)
    | none =>
      match varPred U p with
      | some x => varArg U f x quant rel
      | none =>
        if hoaPred U p then hoaArg f quant rel
        else plainArg U f id focus quant p rel
  | _ => fail .msg

/-- interp.go:940-963 `relativeClause`. -/
def relClauseF (b : Option Nat) (n : AST.Node) : M Node := keepVars <| inHoa b <|
  match n with
  | .predication .relative p ts na => subStatement f (.predication .raw p ts na)
  | .lu .relative _ st => subStatement f st
  | .cop .relative _ _ ru l r => do
    let c ← orMsg (connector U ru.T)
    assert isRelative l
    let l ← f.relClause none l
    assert isRelative r
    let r ← f.relClause none r
    return .conn c l r
  | _ => fail .msg

end

/-- One unfolding of all methods. -/
def step (U : Uni) (f : Fns) : Fns where
  statement := statementF U f
  predicate := predicateF U f
  poArg := poArgF U f
  prenexS := prenexSF U f
  preposition := prepositionF U f
  predPrep := predPrepF U f
  adverb := adverbF U f
  roi := roiF f
  roiL := roiLF U f
  roiR := roiRF U f
  predArg := predArgF U f
  relClause := relClauseF U f

/-- No fuel left. -/
def noFns : Fns where
  statement _ _ := fail .fuel
  predicate _ := fail .fuel
  poArg _ _ _ := fail .fuel
  prenexS _ _ _ _ := fail .fuel
  preposition _ _ := fail .fuel
  predPrep _ _ _ := fail .fuel
  adverb _ _ := fail .fuel
  roi _ _ := fail .fuel
  roiL _ _ _ := fail .fuel
  roiR _ _ _ := fail .fuel
  predArg _ := fail .fuel
  relClause _ _ := fail .fuel

/-- The methods with fuel. -/
def fns (U : Uni) : Nat → Fns
  | 0 => noFns
  | k + 1 => step U (fns U k)

/-! ## Sentences and discourse -/

/-- interp.go:137-154 `sentence`. -/
def sentence (U : Uni) (f : Fns) : AST.Node → M Node
  | .sentence _ st _ => subStatement f st
  | .cop .sentence _ _ ru l r =>
    if hasText U ru.T ['r', 'u'] then do
      assert isSentence l
      let l ← sentence U f l
      assert isSentence r
      let r ← sentence U f r
      return .conn .and l r
    else fail .msg
  | _ => fail .msg

/-- interp.go:110-130: the loop of `discourse`. -/
def discourseLoop (U : Uni) (f : Fns) : List AST.Node → Option Node → M (Option Node)
  | [], st => pure st
  | k :: ks, st =>
    if isFragment k then discourseLoop U f ks st
    else if isSentence k then do
      let n ← sentence U f k
      discourseLoop U f ks (some (match st with
        | none => n
        | some st => .conn .and st n))
    else fail .msg

/-- interp.go:131-133: bind the lifted ι-bindings. -/
def bindThe (the : List Pending) (st : Node) : Node := the.foldr (fun b st => bindScope (some b) st) st

mutual
/-- The final contents of the variables. -/
def readAll (s : St) : Node → Node
  | .bind q id n f r st => .bind q id n f (readO s r) (readAll s st)
  | .conn c l r => .conn c (readAll s l) (readAll s r)
  | .app p as => .app (readAll s p) (readL s as)
  | .var v => .var (s.read v)
  | .plural as => .plural (readL s as)
  | .quote t f => .quote t f
  | .name x => .name x
  | .abs st => .abs (readAll s st)
  | .serial l r => .serial (readAll s l) (readAll s r)
  | .swap p k => .swap (readAll s p) k
def readO (s : St) : Option Node → Option Node
  | none => none
  | some n => some (readAll s n)
def readL (s : St) : List (Option Node) → List (Option Node)
  | [] => []
  | a :: as => readO s a :: readL s as
end

/-- interp.go:110-135 `discourse`. When there is no sentence nothing has been lifted, and the result
is nil. -/
def discourse (U : Uni) (f : Fns) (d : List AST.Node) : Except Err (Option Node) :=
  match discourseLoop U f d none {} with
  | .error e => .error e
  | .ok (none, _) => .ok none
  | .ok (some st, s) => .ok (some (readAll s (bindThe s.the st)))

end Verif.Logic
