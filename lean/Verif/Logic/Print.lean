/-
/repo/logic/string.go: `String` and `PrettyString`.
-/
import Verif.Logic.Simplify
import Verif.Unicode

namespace Verif.Logic
open Verif.Tone (Str)

/-- logic.go:42-57: the strings of the quantifiers. -/
def Quant.str : Quant → Str
  | .the => ['ι'] | .lambda => ['λ'] | .each => ['∀'] | .all => ['Λ'] | .some => ['∃']
  | .none => ['∄'] | .hi => ['¿']

/-- logic.go:72-79: the strings of the connectors. -/
def Conn.str : Conn → Str
  | .and => ['∧'] | .or => ['∨'] | .ri => ['?']

/-- The digit of `strconv.Itoa`. -/
def digit (n : Nat) : Char := Char.ofNat (48 + n % 10)

/-- `strconv.Itoa` on natural numbers: fuel, number. -/
def itoaF : Nat → Nat → Str
  | 0, _ => []
  | k + 1, n => if n < 10 then [digit n] else itoaF k (n / 10) ++ [digit n]

/-- `strconv.Itoa` on natural numbers. -/
def itoa (n : Nat) : Str := itoaF (n + 1) n

/-! ## Variable names -/

/-- string.go:65-67 `isBinOp` on the name. -/
def isBinOp (s : Str) : Bool := s = equalName || s = amongName

/-- string.go:183-192 `leftPredication`: the predicate of the left-most leaf predication. -/
def leftPredication : Node → Option Node
  | .app p _ => some p
  | .conn _ l _ => leftPredication l
  | _ => none

/-- string.go:194-207 `leftPred` -/
def leftPred : Node → Option Str
  | .name s => some s
  | .serial l r => match leftPred l with
    | some n => if n = ['s', 'h', 'i'] then leftPred r else some n
    | none => none
  | _ => none

/-- string.go:166-180 `varRune`; `defs` gives the restriction of the binding at an address. -/
def varRune (U : Uni) (defs : Nat → Option Node) (v : Var) : Str :=
  match v.dfn with
  | none => ['U']
  | some id => match defs id with
    | none => ['X']
    | some r => match leftPredication r with
      | none => ['X']
      | some p => match leftPred p with
        | none => ['X']
        | some n => if isBinOp n then ['X'] else (n.take 1).map U.upper

/-- Append `v` to the list of key `r` (Go: `runes[r] = append(runes[r], v)`). -/
def addTo (r : Str) (v : Nat) : List (Str × List Nat) → List (Str × List Nat)
  | [] => [(r, [v])]
  | (k, vs) :: m => if k = r then (k, vs ++ [v]) :: m else (k, vs) :: addTo r v m

/-- The state of the first pass of `print`: `runes`, `seen`, `max`. -/
structure Scan where
  runes : List (Str × List Nat)
  seen : List Nat
  max : Int

/-- string.go:114-125: the callback. -/
def scanStep (U : Uni) (defs : Nat → Option Node) (s : Scan) : Node → Scan
  | .var v =>
    if s.seen.contains v.n then s
    else { runes := addTo (varRune U defs v) v.n s.runes
           seen := v.n :: s.seen
           max := if (v.n : Int) > s.max then v.n else s.max }
  | _ => s

/-- string.go:111-125: the first pass. -/
def scan (U : Uni) (defs : Nat → Option Node) (n : Node) : Scan :=
  visit (scanStep U defs) n { runes := [], seen := [], max := -1 }

/-- string.go:146-148: `for i, v := range vs { pr.varNames[v] = r + strconv.Itoa(i) }`. -/
def nameMany (r : Str) : List Nat → Nat → List Str → List Str
  | [], _, names => names
  | v :: vs, i, names => nameMany r vs (i + 1) (names.set v (r ++ itoa i))

/-- string.go:136-149: the body of the loop over `runes`. -/
def nameGroup (names : List Str) (g : Str × List Nat) : List Str :=
  match g with
  | (['X'], [a, b, c]) => ((names.set c ['Z']).set b ['Y']).set a ['X']
  | (['X'], [a, b]) => (names.set b ['Y']).set a ['X']
  | (r, [a]) => names.set a r
  | (r, vs) => nameMany r vs 0 names

/-- string.go:111-150: the table of variable names; `none` is nil. `order` is the order in which Go
happens to iterate over the map `runes`. -/
def varNames (s : Scan) (order : List (Str × List Nat)) : Option (List Str) :=
  if s.max ≥ s.seen.length then none
  else some (order.foldl nameGroup (List.replicate s.seen.length []))

/-- string.go:227-233: the name of a variable. -/
def varName (names : Option (List Str)) (v : Nat) : Str :=
  match names with
  | none => 'X' :: itoa v
  | some l => match l[v]? with
    | none => 'X' :: itoa v
    | some s => s

/-- string.go:270-280 `mathItalicCapitalLetters` on one rune. -/
def italic (r : Char) : Char :=
  if 'A' ≤ r ∧ r ≤ 'Z' then Char.ofNat (r.toNat - 'A'.toNat + 0x1D434) else r

/-! ## Printing -/

/-- string.go:101-105 `printer` -/
structure Printer where
  pretty : Bool
  names : Option (List Str)

/-- string.go:219-223: writing a quantifier. -/
def Printer.quant (pr : Printer) (q : Quant) : Str :=
  if pr.pretty && q = .the then ['℩'] else q.str

/-- string.go:227-238: writing a variable. -/
def Printer.var (pr : Printer) (v : Nat) : Str :=
  if pr.pretty then (varName pr.names v).map italic else varName pr.names v

/-- string.go:46-56 `parens` -/
def needParens (c : Conn) : Node → Bool
  | .app _ _ => false
  | .conn c' _ _ => c' ≠ c
  | _ => true

def paren (b : Bool) (s : Str) : Str := if b then '(' :: s ++ [')'] else s

mutual
/-- string.go:33-98: the `print` methods. -/
def print (pr : Printer) : Node → Str
  | .bind q _ n _ none s => pr.quant q ++ pr.var n ++ [' '] ++ print pr s
  | .bind q _ n _ (some r) s =>
    ['['] ++ pr.quant q ++ pr.var n ++ [' ', ':', ' '] ++ print pr r ++ [']', ' '] ++ print pr s
  | .conn c l r =>
    paren (needParens c l) (print pr l) ++ [' '] ++ c.str ++ [' '] ++
      paren (needParens c r) (print pr r)
  | .app (.name p) [a, b] =>
    if isBinOp p then printO pr a ++ p ++ printO pr b
    else p ++ ['('] ++ printArgs pr [a, b] ++ [')']
  | .app p as => print pr p ++ ['('] ++ printArgs pr as ++ [')']
  | .var v => pr.var v.n
  | .plural as => ['⌊'] ++ printArgs pr as ++ ['⌉']
  | .quote t full => if full then ['«'] ++ t ++ ['»'] else ['‹'] ++ t ++ ['›']
  | .name s => s
  | .abs s => ['{'] ++ print pr s ++ ['}']
  | .serial l r => print pr l ++ ['∘'] ++ print pr r
  | .swap p _ => ['(', 'm', 'u', ' '] ++ print pr p ++ [')']
/-- string.go:215-216, 239: writing a node that may be nil. -/
def printO (pr : Printer) : Option Node → Str
  | none => []
  | some n => print pr n
/-- string.go:251-268 `writeArguments` -/
def printArgs (pr : Printer) : List (Option Node) → Str
  | [] => []
  | [a] => printArg pr a
  | a :: b :: as => printArg pr a ++ [',', ' '] ++ printArgs pr (b :: as)
/-- string.go:258-262 -/
def printArg (pr : Printer) : Option Node → Str
  | none => ['·']
  | some n => print pr n
end

/-- string.go:107-164 `print`, for a given order of map iteration. -/
def printTop (U : Uni) (pretty : Bool) (defs : Nat → Option Node) (order : List (Str × List Nat))
    (n : Node) : Str :=
  let names := varNames (scan U defs n) order
  match names with
  | none => print { pretty, names } n
  | some _ => print { pretty, names } n ++ ['.']

/-- string.go:12-18 `String`: the result for some order of map iteration. -/
def IsString (U : Uni) (defs : Nat → Option Node) (n : Node) (s : Str) : Prop :=
  ∃ order, order.Perm (scan U defs n).runes ∧ s = printTop U false defs order n

/-- string.go:25-31 `PrettyString`: the result for some order of map iteration. -/
def IsPrettyString (U : Uni) (defs : Nat → Option Node) (n : Node) (s : Str) : Prop :=
  ∃ order, order.Perm (scan U defs n).runes ∧ s = printTop U true defs order n

end Verif.Logic
