/-
The logic trees of /repo/logic/logic.go as one inductive type.

Go has three interfaces `Statement`, `Argument`, `Predicate` (logic.go:34, 96, 125) and ten struct
types; `*Variable` and `*Abstraction` are both arguments and predicates, so the interfaces overlap.
Here all ten structs are constructors of one type, and `sorted` says which node may stand where.

Pointers. A `*Binding` is referred to from variables (`Variable.Def`), so a binding carries an
explicit address `id`; a `*Variable` may be shared between several places of a tree and is mutated
in place by the interpreter and by `sequenceVarNums`, so a variable carries an address `addr`. All
other nodes are plain values. Nil interfaces are `none`. AST fields are dropped.
-/
import Verif.Tone.Model

namespace Verif.Logic
open Verif.Tone (Str)

/-- logic.go:42-57 -/
inductive Quant | the | lambda | each | all | some | none | hi
deriving DecidableEq, Repr

/-- logic.go:72-79 -/
inductive Conn | and | or | ri
deriving DecidableEq, Repr

/-- Addresses of `Variable` structs: those allocated by the interpreter, numbered in order of
allocation, and those allocated by `addHoa` (simplify.go:57) for the binding with the given address.
All variables `addHoa` makes for one binding are equal and are never told apart, so they share an
address. -/
inductive VAddr | mk (k : Nat) | hoa (id : Nat)
deriving DecidableEq, Repr

/-- logic.go:102 `Variable`; `dfn` is the address of `Def`. -/
structure Var where
  addr : VAddr
  n : Nat
  dfn : Option Nat
  focus : Bool
deriving DecidableEq, Repr

inductive Node where
  /-- logic.go:60 `Binding` -/
  | bind (q : Quant) (id n : Nat) (focus : Bool) (restr : Option Node) (scope : Node)
  /-- logic.go:82 `Connection` -/
  | conn (c : Conn) (l r : Node)
  /-- logic.go:89 `Predication` -/
  | app (p : Node) (args : List (Option Node))
  /-- logic.go:102 `Variable` -/
  | var (v : Var)
  /-- logic.go:110 `Plurality` -/
  | plural (args : List (Option Node))
  /-- logic.go:116 `Quote` -/
  | quote (t : Str) (full : Bool)
  /-- logic.go:131 `Pred` -/
  | name (s : Str)
  /-- logic.go:144 `Abstraction` -/
  | abs (st : Node)
  /-- logic.go:150 `Serial` -/
  | serial (l r : Node)
  /-- logic.go:157 `Swap` -/
  | swap (p : Node) (pos : Nat)

/-- The three Go interfaces. -/
inductive Sort3 | stmt | arg | pred
deriving DecidableEq

mutual
/-- Which struct implements which interface: `simplifyStatement`, `simplifyArgument`,
`simplifyPredicate` (simplify.go:127-289). -/
def sorted : Sort3 → Node → Bool
  | .stmt, .bind _ _ _ _ r s => sortedO .stmt r && sorted .stmt s
  | .stmt, .conn _ l r => sorted .stmt l && sorted .stmt r
  | .stmt, .app p as => sorted .pred p && sortedL as
  | .arg, .var _ => true
  | .arg, .plural as => sortedL as
  | .arg, .quote _ _ => true
  | .arg, .abs s => sorted .stmt s
  | .pred, .name _ => true
  | .pred, .var _ => true
  | .pred, .abs s => sorted .stmt s
  | .pred, .serial l r => sorted .pred l && sorted .pred r
  | .pred, .swap p _ => sorted .pred p
  | _, _ => false
def sortedO : Sort3 → Option Node → Bool
  | _, none => true
  | k, some n => sorted k n
def sortedL : List (Option Node) → Bool
  | [] => true
  | a :: as => sortedO .arg a && sortedL as
end

/-- Induction over nodes. -/
theorem Node.induct {P : Node → Prop}
    (bind : ∀ q id n f r s, (∀ x, r = some x → P x) → P s → P (.bind q id n f r s))
    (conn : ∀ c l r, P l → P r → P (.conn c l r))
    (app : ∀ p as, P p → (∀ x, some x ∈ as → P x) → P (.app p as))
    (var : ∀ v, P (.var v))
    (plural : ∀ as, (∀ x, some x ∈ as → P x) → P (.plural as))
    (quote : ∀ t f, P (.quote t f))
    (name : ∀ s, P (.name s))
    (abs : ∀ s, P s → P (.abs s))
    (serial : ∀ l r, P l → P r → P (.serial l r))
    (swap : ∀ p k, P p → P (.swap p k)) : ∀ n, P n := fun n =>
  Node.rec (motive_1 := P) (motive_2 := fun o => ∀ x, o = some x → P x)
    (motive_3 := fun l => ∀ x, some x ∈ l → P x)
    bind conn app var plural quote name abs serial swap
    (by intro x h; cases h) (by intro v hv x h; cases h; exact hv)
    (by intro x h; cases h)
    (by intro a l ha hl x h; rcases List.mem_cons.1 h with h | h
        · exact ha x h.symm
        · exact hl x h) n

end Verif.Logic
