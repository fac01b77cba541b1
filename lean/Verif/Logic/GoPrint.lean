/-
/repo/vendor/github.com/eaburns/pretty/pretty.go: `String`, on statements, as /repo/main.go:59-60 prints them, and C70.

The fields AST are nil: `NillOutAST` (/repo/logic/visit.go:61) goes through all the nodes that `print` goes through. Names have a
method `PrettyPrint` (/repo/logic/logic.go:163, 182, 183) and so have variables and quotes; quantifiers and connectors are strings.
-/
import Verif.AST.GoLib
import Verif.AST.Pretty
import Verif.Logic.Print
import Verif.Logic.PrintProps

namespace Verif.Logic
open Verif.Tone (Str)
open Verif.Pretty (PV leafOk NamesOk string_inj)
open Verif.AST (GoLib quote sprintf asciiLib)

/-- The struct types of logic.go without a method `PrettyPrint`. -/
inductive LT | Binding | Connection | Predication | Plurality | Abstraction | Serial | Swap
deriving DecidableEq, Repr

/-- The names of the types and of their fields, in the order of the declarations (logic.go:60, 82, 89, 110, 144, 150, 157). -/
instance : Pretty.Structs LT where
  name
    | .Binding => "Binding".toList | .Connection => "Connection".toList | .Predication => "Predication".toList
    | .Plurality => "Plurality".toList | .Abstraction => "Abstraction".toList | .Serial => "Serial".toList | .Swap => "Swap".toList
  fields
    | .Binding => ["Quantifier".toList, "N".toList, "Focus".toList, "Restriction".toList, "Scope".toList, "AST".toList]
    | .Connection => ["Connector".toList, "Left".toList, "Right".toList, "AST".toList]
    | .Predication => ["Predicate".toList, "Arguments".toList, "AST".toList]
    | .Plurality => ["Arguments".toList, "AST".toList]
    | .Abstraction => ["Statement".toList, "AST".toList]
    | .Serial => ["Left".toList, "Right".toList, "AST".toList]
    | .Swap => ["Predicate".toList, "Pos".toList, "AST".toList]

/-- pretty.go:70: nil, and `%t`, and a string, which is quoted and then used as a format. -/
def pvNil : PV LT := .leaf ['n', 'i', 'l']
def pvBool : Bool → PV LT
  | true => .leaf "true".toList
  | false => .leaf "false".toList
def pvStr (G : GoLib) (s : Str) : PV LT := .leaf (sprintf G false (quote G s))
/-- `%d` -/
def pvNat (n : Nat) : PV LT := .leaf (itoa n)

/-- logic.go:163 `(*Variable).PrettyPrint` -/
def ppVar (v : Var) : Str := (if v.focus then ['*'] else []) ++ ['V', 'a', 'r', 'i', 'a', 'b', 'l', 'e', '('] ++ itoa v.n ++ [')']
/-- logic.go:182 `(*Quote).PrettyPrint`, 183 `(*Pred).PrettyPrint`: the text is not quoted. -/
def ppQuote (t : Str) : Str := ['Q', 'u', 'o', 't', 'e', '(', '"'] ++ t ++ ['"', ')']
def ppName (s : Str) : Str := '"' :: (s ++ ['"'])

mutual
/-- A node as `print` sees it. -/
def pv (G : GoLib) : Node → PV LT
  | .bind q _ n f r s => .struct .Binding [pvStr G q.str, pvNat n, pvBool f, pvO G r, pv G s, pvNil]
  | .conn c l r => .struct .Connection [pvStr G c.str, pv G l, pv G r, pvNil]
  | .app p as => .struct .Predication [pv G p, .arr (pvL G as), pvNil]
  | .var v => .leaf (ppVar v)
  | .plural as => .struct .Plurality [.arr (pvL G as), pvNil]
  | .quote t _ => .leaf (ppQuote t)
  | .name s => .leaf (ppName s)
  | .abs s => .struct .Abstraction [pv G s, pvNil]
  | .serial l r => .struct .Serial [pv G l, pv G r, pvNil]
  | .swap p k => .struct .Swap [pv G p, pvNat k, pvNil]
def pvO (G : GoLib) : Option Node → PV LT
  | none => pvNil
  | some n => pv G n
def pvL (G : GoLib) : List (Option Node) → List (PV LT)
  | [] => []
  | a :: as => pvO G a :: pvL G as
end

/-- main.go:60 `pretty.String(stmt)`, after `NillOutAST` -/
def stmtString (G : GoLib) (n : Node) : Str := Pretty.string (pv G n)

/-! ### Spec -/

mutual
/-- Spec: the same trees, but for the identity of bindings and of variables, and for the kind of quotes. -/
inductive Alike2 : Node → Node → Prop
  | bind {q id id' n f r r' s s'} : Alike2O r r' → Alike2 s s' → Alike2 (.bind q id n f r s) (.bind q id' n f r' s')
  | conn {c l l' r r'} : Alike2 l l' → Alike2 r r' → Alike2 (.conn c l r) (.conn c l' r')
  | app {p p' as as'} : Alike2 p p' → Alike2L as as' → Alike2 (.app p as) (.app p' as')
  | var {v v' : Var} : v.n = v'.n → v.focus = v'.focus → Alike2 (.var v) (.var v')
  | plural {as as'} : Alike2L as as' → Alike2 (.plural as) (.plural as')
  | quote (t f f') : Alike2 (.quote t f) (.quote t f')
  | name (s) : Alike2 (.name s) (.name s)
  | abs {s s'} : Alike2 s s' → Alike2 (.abs s) (.abs s')
  | serial {l l' r r'} : Alike2 l l' → Alike2 r r' → Alike2 (.serial l r) (.serial l' r')
  | swap {p p' k} : Alike2 p p' → Alike2 (.swap p k) (.swap p' k)
inductive Alike2O : Option Node → Option Node → Prop
  | none : Alike2O none none
  | some {n n'} : Alike2 n n' → Alike2O (some n) (some n')
inductive Alike2L : List (Option Node) → List (Option Node) → Prop
  | nil : Alike2L [] []
  | cons {a a' as as'} : Alike2O a a' → Alike2L as as' → Alike2L (a :: as) (a' :: as')
end

mutual
/-- Spec: no name and no quote has a line break. -/
def oneLine : Node → Prop
  | .bind _ _ _ _ r s => oneLineO r ∧ oneLine s
  | .conn _ l r => oneLine l ∧ oneLine r
  | .app p as => oneLine p ∧ oneLineL as
  | .var _ => True
  | .plural as => oneLineL as
  | .quote t _ => '\n' ∉ t
  | .name s => '\n' ∉ s
  | .abs s => oneLine s
  | .serial l r => oneLine l ∧ oneLine r
  | .swap p _ => oneLine p
def oneLineO : Option Node → Prop
  | none => True
  | some n => oneLine n
def oneLineL : List (Option Node) → Prop
  | [] => True
  | a :: as => oneLineO a ∧ oneLineL as
end

/-! ### Proofs -/

theorem names_ok : NamesOk LT := by
  refine ⟨fun t => ?_, fun t t' => ?_⟩
  · cases t <;> decide +kernel
  · cases t <;> cases t' <;> first | exact fun _ => rfl | (intro h; exact absurd h (by decide +kernel))

theorem leafOk_iff {s : Str} : leafOk s = true ↔ '\n' ∉ s ∧ s.getLast? ≠ some '{' ∧ s.getLast? ≠ some '[' ∧ s ≠ ['[', ']'] := by
  simp [leafOk, and_assoc]

/-- A text that ends in a quote mark, a parenthesis or a digit. -/
theorem leafOk_last {s : Str} {c : Char} (h : '\n' ∉ s) (hc : s.getLast? = some c) (h1 : c ≠ '{' ∧ c ≠ '[' ∧ c ≠ ']') : leafOk s = true := by
  rw [leafOk_iff]
  refine ⟨h, ?_, ?_, ?_⟩
  · rw [hc]; simpa using h1.1
  · rw [hc]; simpa using h1.2.1
  · rintro rfl
    simp at hc
    exact h1.2.2 hc.symm

theorem itoa_nl (n : Nat) : '\n' ∉ itoa n := fun h => by
  have := itoa_digits n _ h
  revert this; simp [isDigit]

theorem itoa_last (n : Nat) : ∃ c, (itoa n).getLast? = some c ∧ isDigit c := by
  cases h : (itoa n).getLast? with
  | none => exact absurd (List.getLast?_eq_none_iff.1 h) (itoa_ne_nil n)
  | some c => exact ⟨c, rfl, itoa_digits n c (List.mem_of_getLast? h)⟩

theorem quote_nl {G : GoLib} (hG : G.isPrint '\n' = false) (s : Str) : '\n' ∉ quote G s := by
  have hh : ∀ k n, '\n' ∉ AST.hexDigits k n := fun k n hm => by
    obtain ⟨a, ha, he⟩ := AST.hex_digits k n _ hm
    revert a; decide
  have hc : ∀ c, '\n' ∉ AST.quoteChar G c := by
    intro c hm
    unfold AST.quoteChar at hm
    repeat' split at hm
    all_goals first
      | (simp only [List.mem_cons, List.not_mem_nil, or_false, Char.reduceEq, false_or] at hm; done)
      | (simp only [List.mem_cons, List.not_mem_nil, or_false, Char.reduceEq, false_or] at hm; grind)
      | (simp only [List.mem_append, List.mem_cons, List.not_mem_nil, or_false, Char.reduceEq, false_or] at hm
         exact absurd hm (hh _ _))
  simp only [quote, List.cons_append, List.mem_cons, List.mem_append, List.mem_flatMap, not_or]
  refine ⟨by decide, ?_, by simp⟩
  rintro ⟨c, _, hc2⟩
  exact hc c hc2

theorem quant_percent (q : Quant) : '%' ∉ q.str := by cases q <;> decide
theorem conn_percent (c : Conn) : '%' ∉ c.str := by cases c <;> decide
theorem quant_inj {q q' : Quant} : q.str = q'.str → q = q' := by cases q <;> cases q' <;> decide
theorem conn_inj {q q' : Conn} : q.str = q'.str → q = q' := by cases q <;> cases q' <;> decide

theorem pvStr_eq {G : GoLib} {s : Str} (h : '%' ∉ s) : pvStr G s = .leaf (quote G s) := by
  rw [pvStr, AST.sprintf_id (AST.quote_percent h)]

theorem pvStr_wf {G : GoLib} (hG : G.isPrint '\n' = false) {s : Str} (h : '%' ∉ s) : (pvStr G s).wf = true := by
  rw [pvStr_eq h, PV.wf]
  refine leafOk_last (c := '"') (quote_nl hG s) ?_ (by decide)
  unfold quote
  rw [List.getLast?_append]
  rfl

theorem pvStr_inj {G : GoLib} {s s' : Str} (h : '%' ∉ s) (h' : '%' ∉ s') (he : pvStr G s = pvStr G s') : s = s' := by
  rw [pvStr_eq h, pvStr_eq h'] at he
  simp only [PV.leaf.injEq, quote, List.cons_append, List.cons.injEq, true_and] at he
  exact (AST.quote_append (r := []) (r' := []) he).1

theorem pvNat_wf (n : Nat) : (pvNat n).wf = true := by
  rw [pvNat, PV.wf]
  obtain ⟨c, h1, h2⟩ := itoa_last n
  refine leafOk_last (itoa_nl n) h1 ⟨?_, ?_, ?_⟩ <;> rintro rfl <;> revert h2 <;> simp [isDigit]

theorem pvNil_wf : pvNil.wf = true := by decide +kernel
theorem pvBool_wf (b : Bool) : (pvBool b).wf = true := by cases b <;> decide +kernel
theorem pvBool_inj {b b' : Bool} : pvBool b = pvBool b' → b = b' := by
  cases b <;> cases b' <;> simp [pvBool]

mutual
theorem pv_wf {G : GoLib} (hG : G.isPrint '\n' = false) : ∀ {n}, oneLine n → (pv G n).wf = true
  | .bind q _ n f r s, h => by
    simp only [pv, PV.wf, PV.wfL, pvStr_wf hG (quant_percent q), pvNat_wf, pvBool_wf, pvNil_wf, pvO_wf hG h.1, pv_wf hG h.2]; rfl
  | .conn c l r, h => by
    simp only [pv, PV.wf, PV.wfL, pvStr_wf hG (conn_percent c), pvNil_wf, pv_wf hG h.1, pv_wf hG h.2]; rfl
  | .app p as, h => by simp only [pv, PV.wf, PV.wfL, pvNil_wf, pv_wf hG h.1, pvL_wf hG h.2]; rfl
  | .var v, _ => by
    simp only [pv, PV.wf]
    refine leafOk_last (c := ')') ?_ ?_ (by decide)
    · have := itoa_nl v.n
      unfold ppVar
      split <;> simp_all
    · rw [ppVar, List.getLast?_append]; rfl
  | .plural as, h => by simp only [pv, PV.wf, PV.wfL, pvNil_wf, pvL_wf hG h]; rfl
  | .quote t _, h => by
    simp only [pv, PV.wf]
    refine leafOk_last (c := ')') ?_ ?_ (by decide)
    · have h1 : '\n' ∉ t := h
      unfold ppQuote
      simp_all
    · rw [ppQuote, List.getLast?_append]; rfl
  | .name s, h => by
    simp only [pv, PV.wf]
    refine leafOk_last (c := '"') ?_ ?_ (by decide)
    · have h1 : '\n' ∉ s := h
      simp [ppName, h1]
    · rw [ppName, ← List.cons_append, List.getLast?_append]; rfl
  | .abs s, h => by
    have h : oneLine s := h
    simp only [pv, PV.wf, PV.wfL, pvNil_wf, pv_wf hG h]; rfl
  | .serial l r, h => by simp only [pv, PV.wf, PV.wfL, pvNil_wf, pv_wf hG h.1, pv_wf hG h.2]; rfl
  | .swap p k, h => by
    have h : oneLine p := h
    simp only [pv, PV.wf, PV.wfL, pvNil_wf, pvNat_wf, pv_wf hG h]; rfl
theorem pvO_wf {G : GoLib} (hG : G.isPrint '\n' = false) : ∀ {n}, oneLineO n → (pvO G n).wf = true
  | none, _ => pvNil_wf
  | some n, h => by
    have h : oneLine n := h
    exact pv_wf hG h
theorem pvL_wf {G : GoLib} (hG : G.isPrint '\n' = false) : ∀ {n}, oneLineL n → PV.wfL (pvL G n) = true
  | [], _ => rfl
  | a :: as, h => by simp only [pvL, PV.wfL, pvO_wf hG h.1, pvL_wf hG h.2]; rfl
end

theorem pv_ne_nil {G : GoLib} : ∀ n, pv G n ≠ pvNil
  | .var v => by
    simp only [pv, pvNil, ne_eq, PV.leaf.injEq]
    unfold ppVar
    split <;> exact fun h => by simp at h
  | .quote t f => by simp only [pv, pvNil, ne_eq, PV.leaf.injEq, ppQuote]; exact fun h => by simp at h
  | .name s => by simp only [pv, pvNil, ne_eq, PV.leaf.injEq, ppName]; exact fun h => by simp at h
  | .bind .. | .conn .. | .app .. | .plural .. | .abs .. | .serial .. | .swap .. => by simp [pv, pvNil]

mutual
theorem pv_inj {G : GoLib} : ∀ {n n'}, pv G n = pv G n' → Alike2 n n'
  | .bind q id n f r s, n', h => by
    cases n' <;> simp only [pv, PV.struct.injEq, List.cons.injEq, reduceCtorEq, false_and, true_and, and_true] at h
    obtain ⟨h1, h2, h3, h4, h5⟩ := h
    obtain rfl := quant_inj (pvStr_inj (quant_percent _) (quant_percent _) h1)
    obtain rfl := itoa_inj (PV.leaf.inj h2)
    obtain rfl := pvBool_inj h3
    exact .bind (pvO_inj h4) (pv_inj h5)
  | .conn c l r, n', h => by
    cases n' <;> simp only [pv, PV.struct.injEq, List.cons.injEq, reduceCtorEq, false_and, true_and, and_true] at h
    obtain ⟨h1, h2, h3⟩ := h
    obtain rfl := conn_inj (pvStr_inj (conn_percent _) (conn_percent _) h1)
    exact .conn (pv_inj h2) (pv_inj h3)
  | .app p as, n', h => by
    cases n' <;> simp only [pv, PV.struct.injEq, List.cons.injEq, reduceCtorEq, false_and, true_and, and_true, PV.arr.injEq] at h
    exact .app (pv_inj h.1) (pvL_inj h.2)
  | .var v, n', h => by
    cases n' <;> simp only [pv, reduceCtorEq, PV.leaf.injEq] at h
    · rename_i v'
      have key : v.focus = v'.focus ∧ v.n = v'.n := by
        unfold ppVar at h
        split at h <;> split at h
        · rename_i h1 h2
          simp at h
          exact ⟨by rw [h1, h2], itoa_inj h⟩
        · simp at h
        · simp at h
        · rename_i h1 h2
          simp at h
          exact ⟨by simp_all, itoa_inj h⟩
      exact .var key.2 key.1
    · unfold ppVar ppQuote at h
      split at h <;> simp at h
    · unfold ppVar ppName at h
      split at h <;> simp at h
  | .plural as, n', h => by
    cases n' <;> simp only [pv, PV.struct.injEq, List.cons.injEq, reduceCtorEq, false_and, true_and, and_true, PV.arr.injEq] at h
    exact .plural (pvL_inj h)
  | .quote t f, n', h => by
    cases n' <;> simp only [pv, reduceCtorEq, PV.leaf.injEq] at h
    · unfold ppVar ppQuote at h
      split at h <;> simp at h
    · simp [ppQuote] at h
      subst h
      exact .quote _ _ _
    · simp [ppQuote, ppName] at h
  | .name s, n', h => by
    cases n' <;> simp only [pv, reduceCtorEq, PV.leaf.injEq] at h
    · unfold ppVar ppName at h
      split at h <;> simp at h
    · simp [ppQuote, ppName] at h
    · simp [ppName] at h
      subst h
      exact .name _
  | .abs s, n', h => by
    cases n' <;> simp only [pv, PV.struct.injEq, List.cons.injEq, reduceCtorEq, false_and, true_and, and_true] at h
    exact .abs (pv_inj h)
  | .serial l r, n', h => by
    cases n' <;> simp only [pv, PV.struct.injEq, List.cons.injEq, reduceCtorEq, false_and, true_and, and_true] at h
    exact .serial (pv_inj h.1) (pv_inj h.2)
  | .swap p k, n', h => by
    cases n' <;> simp only [pv, PV.struct.injEq, List.cons.injEq, reduceCtorEq, false_and, true_and, and_true] at h
    obtain rfl := itoa_inj (PV.leaf.inj h.2)
    exact .swap (pv_inj h.1)
theorem pvO_inj {G : GoLib} : ∀ {n n'}, pvO G n = pvO G n' → Alike2O n n'
  | none, none, _ => .none
  | none, some n, h => absurd h.symm (pv_ne_nil n)
  | some n, none, h => absurd h (pv_ne_nil n)
  | some n, some n', h => .some (pv_inj h)
theorem pvL_inj {G : GoLib} : ∀ {as as'}, pvL G as = pvL G as' → Alike2L as as'
  | [], [], _ => .nil
  | [], _ :: _, h => by simp [pvL] at h
  | _ :: _, [], h => by simp [pvL] at h
  | a :: as, a' :: as', h => by
    simp only [pvL, List.cons.injEq] at h
    exact .cons (pvO_inj h.1) (pvL_inj h.2)
end

mutual
theorem pv_alike {G : GoLib} : ∀ {n n'}, Alike2 n n' → pv G n = pv G n'
  | _, _, .bind h1 h2 => by simp only [pv, pvO_alike h1, pv_alike h2]
  | _, _, .conn h1 h2 => by simp only [pv, pv_alike h1, pv_alike h2]
  | _, _, .app h1 h2 => by simp only [pv, pv_alike h1, pvL_alike h2]
  | _, _, .var h1 h2 => by simp only [pv, ppVar, h1, h2]
  | _, _, .plural h => by simp only [pv, pvL_alike h]
  | _, _, .quote _ _ _ => by simp only [pv]
  | _, _, .name _ => rfl
  | _, _, .abs h => by simp only [pv, pv_alike h]
  | _, _, .serial h1 h2 => by simp only [pv, pv_alike h1, pv_alike h2]
  | _, _, .swap h => by simp only [pv, pv_alike h]
theorem pvO_alike {G : GoLib} : ∀ {n n'}, Alike2O n n' → pvO G n = pvO G n'
  | _, _, .none => rfl
  | _, _, .some h => by simp only [pvO, pv_alike h]
theorem pvL_alike {G : GoLib} : ∀ {n n'}, Alike2L n n' → pvL G n = pvL G n'
  | _, _, .nil => rfl
  | _, _, .cons h1 h2 => by simp only [pvL, pvO_alike h1, pvL_alike h2]
end

/-- C70: two statements without line breaks in names and quotes are printed alike just if they are the same, but for the identities
of bindings and variables and for the kind of quotes.

What is missing: quotes with line breaks (`C70_refuted`), and the kind of quotes, which is not printed. -/
theorem C70_statement_printed_partial (G : GoLib) (hG : G.isPrint '\n' = false) {n n' : Node} (h : oneLine n) (h' : oneLine n') :
    stmtString G n = stmtString G n' ↔ Alike2 n n' :=
  ⟨fun he => pv_inj (string_inj names_ok (pv_wf hG h) (pv_wf hG h') he), fun ha => congrArg Pretty.string (pv_alike ha)⟩

/-- What C70 does not say: a quote with a line break can look like two quotes, and quotes of a word and of a text look alike. -/
theorem C70_refuted : (∃ n n', sorted .stmt n = true ∧ sorted .stmt n' = true ∧ (∀ G, stmtString G n = stmtString G n') ∧ ¬ Alike2 n n') ∧
    ∃ n n', oneLine n ∧ oneLine n' ∧ sorted .stmt n = true ∧ sorted .stmt n' = true ∧ (∀ G, stmtString G n = stmtString G n') ∧
      ∃ t, n = .app (.name ['d', 'e']) [some (.quote t true)] ∧ n' = .app (.name ['d', 'e']) [some (.quote t false)] := by
  refine ⟨⟨.app (.name ['d', 'e']) [some (.quote ['a', '"', ')', '\n', '\t', '\t', 'Q', 'u', 'o', 't', 'e', '(', '"', 'b'] true)],
    .app (.name ['d', 'e']) [some (.quote ['a'] true), some (.quote ['b'] true)], rfl, rfl, fun G => ?_, ?_⟩,
    .app (.name ['d', 'e']) [some (.quote ['a'] true)], .app (.name ['d', 'e']) [some (.quote ['a'] false)], ?_, ?_, rfl, rfl, fun G => ?_,
    ['a'], rfl, rfl⟩
  · simp [stmtString, Pretty.string, pv, pvL, pvO, Pretty.goPrint, Pretty.goItems, Pretty.goFields, Pretty.indented, Pretty.fields, ppQuote]
  · rintro (_ | _ | ⟨_, _ | ⟨_, h⟩⟩)
    cases h
  · simp [oneLine, oneLineL, oneLineO]
  · simp [oneLine, oneLineL, oneLineO]
  · rfl

/-- A statement and what is printed of it. -/
def exPrinted : Node := .bind .some 0 0 true (some (.app (.name ['d', 'e']) [some (.var ⟨.mk 0, 0, some 0, true⟩)]))
  (.conn .and (.app (.name ['f', 'a']) []) (.app (.swap (.name ['d', 'o']) 2) [none, some (.quote ['t', 'o'] false)]))

example : oneLine exPrinted ∧ sorted .stmt exPrinted = true ∧
    String.ofList (stmtString asciiLib exPrinted) =
"Binding{
\tQuantifier: \"∃\"
\tN: 0
\tFocus: true
\tRestriction: Predication{
\t\tPredicate: \"de\"
\t\tArguments: [
\t\t\t*Variable(0)
\t\t]
\t\tAST: nil
\t}
\tScope: Connection{
\t\tConnector: \"∧\"
\t\tLeft: Predication{
\t\t\tPredicate: \"fa\"
\t\t\tArguments: []
\t\t\tAST: nil
\t\t}
\t\tRight: Predication{
\t\t\tPredicate: Swap{
\t\t\t\tPredicate: \"do\"
\t\t\t\tPos: 2
\t\t\t\tAST: nil
\t\t\t}
\t\t\tArguments: [
\t\t\t\tnil
\t\t\t\tQuote(\"to\")
\t\t\t]
\t\t\tAST: nil
\t\t}
\t\tAST: nil
\t}
\tAST: nil
}" := ⟨by simp [exPrinted, oneLine, oneLineL, oneLineO], rfl, by decide +kernel⟩

end Verif.Logic
