/-
Concrete runs of the interpreter, and where the code falls short of C36, C37 and C49.

The syntax trees are those that the parser builds for the quoted texts, without positions, spaces and
modifiers. The results are those of /repo/logic/interp_test.go where a test is named.
-/
import Verif.Logic.InterpProps
import Verif.Logic.Print

namespace Verif.Logic.Ex
open Verif.Tone (Str)

def w (s : String) : AST.Word := .mk s.toList 0 0 none
/-- a predicate word -/
def p (s : String) : AST.Node := .word .predicate (w s)
/-- an argument without quantifier; the number is the identity of the node -/
def a (i : Nat) (s : String) : AST.Node := .predArg i none none (p s) none
/-- an argument with quantifier -/
def qa (i : Nat) (q s : String) : AST.Node := .predArg i none (some (w q)) (p s) none
/-- a predication -/
def st (s : AST.Node) (ts : List AST.Node) : AST.Node :=
  .predication .raw s (if ts.isEmpty then none else some ts) none
/-- a sentence -/
def sen (s : AST.Node) : AST.Node := .sentence none s none
/-- connected arguments -/
def arg2 (ru : String) (l r : AST.Node) : AST.Node := .cop .argument none none (w ru) l r

/-- The outcome of interpreting and printing, with the groups of names in order of appearance. -/
inductive Out
  | str (s : String)
  | nil
  | err (e : Err)
deriving DecidableEq

def run (k : Nat) (d : List AST.Node) : Out :=
  match interpret asciiUni k d with
  | .error e => .err e
  | .ok none => .nil
  | .ok (some (n, defs)) =>
    let dfn := fun id => (defs.lookup id).join
    .str (String.ofList (printTop asciiUni false dfn (scan asciiUni dfn n).runes n))

/-- "rel" a relative clause, "con" a content clause -/
def rel (s : AST.Node) (ts : List AST.Node) : AST.Node :=
  .predication .relative s (if ts.isEmpty then none else some ts) none
def con (s : AST.Node) (ts : List AST.Node) : AST.Node :=
  .predication .content s (if ts.isEmpty then none else some ts) none

/-! ## C34, C35, C50 -/

/-- "gi? hoq/" -/
def d1 : List AST.Node := [sen (st (p "gi") [a 0 "hoq"])]

example : run 100 d1 = .str "[ιH : hoq(H)] gi(H)." := by decide +kernel
/-- "mai? ji/ suq/", the test "2-ary predication" -/
example : run 100 [sen (st (p "mai") [a 0 "ji", a 1 "suq"])] =
    .str "[ιJ : ji(J)] [ιS : suq(S)] mai(J, S)." := by decide +kernel
/-- "haq/ ji/ pa noq?gi- ru noq?si-", the test "args distribute over predicate CoP" -/
example : run 100 [sen (.prenexStmt [a 0 "haq", a 1 "ji"] (w "pa")
    (st (.cop .predicate none none (w "ru") (p "noqgi") (p "noqsi")) []))] =
    .str "[ιH : haq(H)] [ιJ : ji(J)] noqgi(H, J) ∧ noqsi(H, J)." := by decide +kernel
/-- "sa do/ bi gi? do/", the test "quantified arg" -/
example : run 100 [sen (.prenexStmt [qa 0 "sa" "dó"] (w "bi") (st (p "gi") [a 1 "dó"]))] =
    .str "∃X gi(X)." := by decide +kernel
/-- "ji/ roi suq/ pa deoq?", the test "arg CoP roi" -/
example : run 100 [sen (.prenexStmt [arg2 "roi" (a 0 "ji") (a 1 "suq")] (w "pa") (st (p "deoq") []))] =
    .str "[ιJ : ji(J)] [ιS : suq(S)] deoq(⌊J, S⌉)." := by decide +kernel
/-- "go ji/ pa choaq?", the test "linked term" -/
example : run 100 [sen (.prenexStmt [.linked (w "go") (a 0 "ji")] (w "pa") (st (p "choaq") []))] =
    .str "[ιJ : ji(J)] choaq(·, J)." := by decide +kernel
/-- "ne\\ pui/poq-chao- bi fa? ji/", the test "preposition" -/
example : run 100 [sen (.prenexStmt [.prep (p "ne") (a 1 "puipoqchao")] (w "bi")
    (st (p "fa") [a 0 "ji"]))] =
    .str "[ιJ : ji(J)] [ιP : puipoqchao(P)] ne({fa(J)}, P)." := by decide +kernel
/-- "ni~chaq- bi fa? ji/", the test "adverb" -/
example : run 100 [sen (.prenexStmt [.predAdverb (p "nichaq")] (w "bi") (st (p "fa") [a 0 "ji"]))] =
    .str "[ιJ : ji(J)] nichaq({fa(J)})." := by decide +kernel
/-- "ji/ pa to ru suq/ pa mai? to de?", the test "nested pa-prenex" -/
example : run 100 [sen (.prenexStmt [a 0 "ji"] (w "pa") (.cop .statement (some (w "to")) (some (w "to"))
    (w "ru") (.prenexStmt [a 1 "suq"] (w "pa") (st (p "mai") [])) (st (p "de") [])))] =
    .str "[ιJ : ji(J)] [ιS : suq(S)] mai(J, S) ∧ de(J)." := by decide +kernel
/-- only fragments -/
example : run 100 [.terms [a 0 "ji"], .vocative (w "hu") (a 1 "suq")] = .nil := by decide +kernel

/-! ## C36: a failed type assertion -/

/-- A content clause whose right side is connected as a statement, as the grammar builds it. -/
def dContent : List AST.Node := [sen (st (p "gi") [.predArg 0 none none
  (.cop .content none none (w "ru") (.predication .content (p "gi") none none) (st (p "mai") [])) none])]

/-- C36 is violated: here the program panics with a runtime error, not a string. -/
theorem C36_refuted : run 100 dContent = .err .rt := by decide +kernel

/-- C36 is violated: sentences connected by anything but ru make the program panic. -/
theorem C36_refuted_sentence :
    run 100 [.cop .sentence none none (w "ra") (sen (st (p "gi") [])) (sen (st (p "gi") []))] =
      .err .msg := by decide +kernel

/-! ## C49: combinations get lost -/

/-- "mai? ji/ ru suq/ poq/ ru rua/" -/
def dTwo : List AST.Node := [sen (st (p "mai")
  [arg2 "ru" (a 0 "ji") (a 1 "suq"), arg2 "ru" (a 2 "poq") (a 3 "rua")])]

/-- C49 is violated: the combination of S and P is missing. -/
theorem C49_refuted : run 100 dTwo =
    .str "[ιJ : ji(J)] [ιP : poq(P)] [ιR : rua(R)] [ιS : suq(S)] mai(J, P) ∧ mai(J, R) ∧ mai(S, R)." := by
  decide +kernel

/-! ## C37: variables out of the scope of their bindings -/

/-- The definitions of variables whose binding is not in the tree at all. -/
def lost (n : Node) : List Nat :=
  (trace n).filterMap fun
    | .var v => match v.dfn with
      | some b => if (bindIds (trace n)).contains b then none else some b
      | none => none
    | _ => none

theorem lost_spec {n : Node} {b : Nat} (h : b ∈ lost n) :
    (∃ v, Node.var v ∈ trace n ∧ v.dfn = some b) ∧ b ∉ bindIds (trace n) := by
  simp only [lost, List.mem_filterMap] at h
  obtain ⟨m, hm, h⟩ := h
  split at h
  · next v =>
    split at h
    · next hv =>
      split at h
      · cases h
      · next hb =>
        cases h
        exact ⟨⟨v, hm, hv⟩, by simpa using hb⟩
    · cases h
  · cases h

/-- "mai? ji/ roi suq/ jai~" -/
def dRoi : List AST.Node := [sen (st (p "mai") [arg2 "roi" (a 0 "ji") (a 1 "suq"), .predAdverb (p "jai")])]

/-- C37 is violated: the argument of mai is a variable without binding, printed under the name of
another. -/
theorem C37_refuted : ∃ r : Node × List (Nat × Option Node), interpret asciiUni 100 dRoi = .ok (some r) ∧
    ∃ v b, Node.var v ∈ trace r.1 ∧ v.dfn = some b ∧ b ∉ bindIds (trace r.1) := by
  have h : (match interpret asciiUni 100 dRoi with
      | .ok (some r) => (lost r.1).contains 0
      | _ => false) = true := by decide +kernel
  split at h
  · next r hr =>
    obtain ⟨⟨v, hv, hd⟩, hb⟩ := lost_spec (List.contains_iff_mem.1 h)
    exact ⟨r, hr, v, _, hv, hd, hb⟩
  · cases h

theorem C37_wrong_reading : run 100 dRoi = .str "[ιJ : ji(J)] [ιS : suq(S)] jai({mai(J)})." := by
  decide +kernel

end Verif.Logic.Ex
