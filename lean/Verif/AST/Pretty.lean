/-
/repo/vendor/github.com/eaburns/pretty/pretty.go: `String`.

`print` walks a value by reflection. It elides pointers and interfaces and does not tell named slices apart, so a value is modelled as
the tree of what `print` sees (`PV`): a slice, a struct of a named type, or something that is printed at once, which is a nil, a bool, a
number, a string, or a value with a method `PrettyPrint`. Which values of the packages ast and logic are seen how is said in
`Verif.AST.GoPrint` and `Verif.Logic.GoPrint`. All fields of their structs are exported. Maps, and cycles, which are pruned, do not occur.
-/
import Verif.Tone.Model

namespace Verif.Pretty
open Verif.Tone (Str)

/-- What `print` sees of a value; `α` has the types of structs. -/
inductive PV (α : Type) where
  | leaf (s : Str)
  | arr (l : List (PV α))
  | struct (t : α) (l : List (PV α))

/-- The name of a type of structs and the names of its fields. -/
class Structs (α : Type) where
  name : α → Str
  fields : α → List Str
export Structs (name fields)

/-- pretty.go:21 `Indent` added to an indentation. -/
def indented (ind : Str) : Str := ind ++ ['\t']

variable {α : Type} [Structs α]

mutual
/-- pretty.go:70 `print`, 135 `printArray`, 149 `printStruct`; the argument is the indentation, a newline and tabs. -/
def goPrint (ind : Str) : PV α → Str
  | .leaf s => s
  | .arr l => match l with
    | [] => ['[', ']']
    | x :: l => '[' :: (goItems (indented ind) (x :: l) ++ (ind ++ [']']))
  | .struct t l => name t ++ '{' :: (goFields (indented ind) (fields t) l ++ (ind ++ ['}']))
def goItems (ind : Str) : List (PV α) → Str
  | [] => []
  | x :: l => ind ++ (goPrint ind x ++ goItems ind l)
def goFields (ind : Str) : List Str → List (PV α) → Str
  | f :: fs, x :: l => ind ++ (f ++ (':' :: ' ' :: (goPrint ind x ++ goFields ind fs l)))
  | _, _ => []
end

/-- pretty.go:62 `String` -/
def string (v : PV α) : Str := goPrint ['\n'] v

/-! ### What is printed shows the value -/

/-- A text that is printed at once and that is not taken for a slice or a struct, or for part of what follows. -/
def leafOk (s : Str) : Bool := !s.contains '\n' && s.getLast? != some '{' && s.getLast? != some '[' && s != ['[', ']']

mutual
/-- What is printed at once is fine, and structs have their fields. -/
def PV.wf : PV α → Bool
  | .leaf s => leafOk s
  | .arr l => wfL l
  | .struct t l => l.length == (fields t).length && wfL l
def PV.wfL : List (PV α) → Bool
  | [] => true
  | v :: l => v.wf && wfL l
end

/-- Nothing, or a new line. -/
def NL (r : Str) : Prop := r = [] ∨ ∃ t, r = '\n' :: t

theorem split_nl : ∀ {a a' r r' : Str}, '\n' ∉ a → '\n' ∉ a' → NL r → NL r' → a ++ r = a' ++ r' → a = a' ∧ r = r'
  | [], [], _, _, _, _, _, _, h => ⟨rfl, h⟩
  | [], c :: a', r, _, _, h2, h3, _, h => by
    simp only [List.nil_append, List.cons_append] at h
    rcases h3 with h3 | ⟨t, h3⟩
    · rw [h3] at h; cases h
    · rw [h3] at h
      simp only [List.cons.injEq] at h
      exact absurd (h.1 ▸ List.mem_cons_self) h2
  | c :: a, [], _, r', h1, _, _, h4, h => by
    simp only [List.nil_append, List.cons_append] at h
    rcases h4 with h4 | ⟨t, h4⟩
    · rw [h4] at h; cases h
    · rw [h4] at h
      simp only [List.cons.injEq] at h
      exact absurd (h.1 ▸ List.mem_cons_self) h1
  | c :: a, c' :: a', _, _, h1, h2, h3, h4, h => by
    simp only [List.cons_append, List.cons.injEq] at h
    simp only [List.mem_cons, not_or] at h1 h2
    have := split_nl h1.2 h2.2 h3 h4 h.2
    exact ⟨by rw [h.1, this.1], this.2⟩

theorem nl_ind {ind : Str} (h : ind.head? = some '\n') (r : Str) : NL (ind ++ r) := by
  cases ind with
  | nil => cases h
  | cons c l =>
    simp only [List.head?_cons, Option.some.injEq] at h
    subst h
    exact .inr ⟨_, rfl⟩

theorem ind_head {ind : Str} (h : ind.head? = some '\n') : (indented ind).head? = some '\n' := by
  cases ind with
  | nil => cases h
  | cons c l => exact h

theorem nl_items {ind ind0 : Str} (h : ind.head? = some '\n') (h0 : ind0.head? = some '\n') (l : List (PV α)) (r : Str) :
    NL (goItems ind l ++ (ind0 ++ r)) := by
  cases l with
  | nil => rw [goItems]; exact nl_ind h0 r
  | cons x l => rw [goItems]; simp only [List.append_assoc]; exact nl_ind h _

theorem nl_fields {ind ind0 : Str} (h : ind.head? = some '\n') (h0 : ind0.head? = some '\n') (fs : List Str) (l : List (PV α))
    (r : Str) : NL (goFields ind fs l ++ (ind0 ++ r)) := by
  cases fs with
  | nil => rw [goFields]; · exact nl_ind h0 r
           · simp
  | cons f fs => cases l with
    | nil => rw [goFields]; · exact nl_ind h0 r
             · simp
    | cons x l => rw [goFields]; simp only [List.append_assoc]; exact nl_ind h _

/-- The first line of what is printed. -/
def PV.line : PV α → Str
  | .leaf s => s
  | .arr [] => ['[', ']']
  | .arr _ => ['[']
  | .struct t _ => name t ++ ['{']

/-- The rest of it. -/
def PV.rest (ind : Str) : PV α → Str
  | .leaf _ => []
  | .arr [] => []
  | .arr (x :: l) => goItems (indented ind) (x :: l) ++ (ind ++ [']'])
  | .struct t l => goFields (indented ind) (fields t) l ++ (ind ++ ['}'])

theorem print_eq (ind : Str) (v : PV α) : goPrint ind v = v.line ++ v.rest ind := by
  cases v with
  | leaf s => simp [goPrint, PV.line, PV.rest]
  | arr l => cases l <;> simp [goPrint, PV.line, PV.rest]
  | struct t l => simp [goPrint, PV.line, PV.rest]

theorem nl_rest {ind : Str} (h : ind.head? = some '\n') (v : PV α) (r : Str) (hr : NL r) : NL (v.rest ind ++ r) := by
  cases v with
  | leaf s => exact hr
  | arr l => cases l with
    | nil => exact hr
    | cons x l => simp only [PV.rest, List.append_assoc]; exact nl_items (ind_head h) h _ _
  | struct t l => simp only [PV.rest, List.append_assoc]; exact nl_fields (ind_head h) h _ _ _

/-- The names of types are different and are on one line. -/
def NamesOk (α : Type) [Structs α] : Prop := (∀ t : α, '\n' ∉ name t) ∧ ∀ t t' : α, name t = name t' → t = t'

theorem line_nl (hN : NamesOk α) (v : PV α) (hv : v.wf = true) : '\n' ∉ v.line := by
  cases v with
  | leaf s => simp only [PV.wf, leafOk, Bool.and_eq_true, Bool.not_eq_true', List.contains_eq_mem, decide_eq_false_iff_not] at hv
              exact hv.1.1.1
  | arr l => cases l <;> simp [PV.line]
  | struct t l => simpa [PV.line] using hN.1 t

mutual
theorem goPrint_inj (hN : NamesOk α) : ∀ (v v' : PV α) (ind r r' : Str), ind.head? = some '\n' → v.wf = true → v'.wf = true → NL r → NL r' →
    goPrint ind v ++ r = goPrint ind v' ++ r' → v = v' ∧ r = r'
  | v, v', ind, r, r', hi, hv, hv', hr, hr', h => by
    rw [print_eq, print_eq, List.append_assoc, List.append_assoc] at h
    obtain ⟨h1, h2⟩ := split_nl (line_nl hN v hv) (line_nl hN v' hv') (nl_rest hi v r hr) (nl_rest hi v' r' hr') h
    match v, v', hv, hv', h1, h2 with
    | .leaf s, .leaf s', _, _, h1, h2 => exact ⟨by rw [show s = s' from h1], h2⟩
    | .leaf s, .arr [], hv, _, h1, _ => simp [PV.wf, leafOk, show s = ['[', ']'] from h1] at hv
    | .leaf s, .arr (x :: l), hv, _, h1, _ => simp [PV.wf, leafOk, show s = ['['] from h1] at hv
    | .leaf s, .struct t l, hv, _, h1, _ => simp [PV.wf, leafOk, show s = name t ++ ['{'] from h1] at hv
    | .arr [], .leaf s, _, hv, h1, _ => simp [PV.wf, leafOk, show s = ['[', ']'] from h1.symm] at hv
    | .arr (x :: l), .leaf s, _, hv, h1, _ => simp [PV.wf, leafOk, show s = ['['] from h1.symm] at hv
    | .struct t l, .leaf s, _, hv, h1, _ => simp [PV.wf, leafOk, show s = name t ++ ['{'] from h1.symm] at hv
    | .arr [], .arr [], _, _, _, h2 => exact ⟨rfl, h2⟩
    | .arr [], .arr (x :: l), _, _, h1, _ => simp [PV.line] at h1
    | .arr (x :: l), .arr [], _, _, h1, _ => simp [PV.line] at h1
    | .arr [], .struct t l, _, _, h1, _ =>
      exfalso
      have := congrArg List.getLast? h1
      simp [PV.line] at this
    | .struct t l, .arr [], _, _, h1, _ =>
      exfalso
      have := congrArg List.getLast? h1
      simp [PV.line] at this
    | .arr (x :: l), .struct t l', _, _, h1, _ =>
      exfalso
      have := congrArg List.getLast? h1
      simp [PV.line] at this
    | .struct t l, .arr (x :: l'), _, _, h1, _ =>
      exfalso
      have := congrArg List.getLast? h1
      simp [PV.line] at this
    | .arr (x :: l), .arr (x' :: l'), hv, hv', _, h2 =>
      rw [PV.wf] at hv hv'
      simp only [PV.rest, List.append_assoc, List.cons_append, List.nil_append] at h2
      obtain ⟨h3, h4⟩ := goItems_inj hN (x :: l) (x' :: l') ind r r' hi hv hv' h2
      exact ⟨by rw [h3], h4⟩
    | .struct t l, .struct t' l', hv, hv', h1, h2 =>
      simp only [PV.wf, Bool.and_eq_true, beq_iff_eq] at hv hv'
      obtain rfl := hN.2 t t' (List.append_cancel_right h1)
      simp only [PV.rest, List.append_assoc, List.cons_append, List.nil_append] at h2
      obtain ⟨h3, h4⟩ := goFields_inj hN l l' (fields t) ind r r' hi hv.1 hv'.1 hv.2 hv'.2 h2
      exact ⟨by rw [h3], h4⟩
theorem goItems_inj (hN : NamesOk α) : ∀ (l l' : List (PV α)) (ind r r' : Str), ind.head? = some '\n' → PV.wfL l = true → PV.wfL l' = true →
    goItems (indented ind) l ++ (ind ++ ']' :: r) = goItems (indented ind) l' ++ (ind ++ ']' :: r') → l = l' ∧ r = r'
  | [], [], ind, r, r', _, _, _, h => by
    simp only [goItems, List.nil_append] at h
    have := List.append_cancel_left h
    exact ⟨rfl, by simpa using this⟩
  | [], x :: l', ind, r, r', _, _, _, h => by
    exfalso
    simp only [goItems, List.nil_append, indented, List.append_assoc] at h
    have := List.append_cancel_left h
    simp at this
  | x :: l, [], ind, r, r', _, _, _, h => by
    exfalso
    simp only [goItems, List.nil_append, indented, List.append_assoc] at h
    have := List.append_cancel_left h
    simp at this
  | x :: l, x' :: l', ind, r, r', hi, hv, hv', h => by
    simp only [PV.wfL, Bool.and_eq_true] at hv hv'
    simp only [goItems, List.append_assoc] at h
    have h := List.append_cancel_left h
    have h := goPrint_inj hN x x' (indented ind) _ _ (ind_head hi) hv.1 hv'.1 (nl_items (ind_head hi) hi l _)
      (nl_items (ind_head hi) hi l' _) h
    have h0 := goItems_inj hN l l' ind r r' hi hv.2 hv'.2 h.2
    exact ⟨by rw [h.1, h0.1], h0.2⟩
theorem goFields_inj (hN : NamesOk α) : ∀ (l l' : List (PV α)) (fs : List Str) (ind r r' : Str), ind.head? = some '\n' →
    l.length = fs.length → l'.length = fs.length → PV.wfL l = true → PV.wfL l' = true →
    goFields (indented ind) fs l ++ (ind ++ '}' :: r) = goFields (indented ind) fs l' ++ (ind ++ '}' :: r') → l = l' ∧ r = r'
  | [], [], fs, ind, r, r', _, _, _, _, _, h => by
    have := List.append_cancel_left (List.append_cancel_left h)
    exact ⟨rfl, by simpa using this⟩
  | [], x :: l', fs, ind, r, r', _, h1, h2, _, _, h => by
    rw [← h1] at h2; cases h2
  | x :: l, [], fs, ind, r, r', _, h1, h2, _, _, h => by
    rw [← h1] at h2; cases h2
  | x :: l, x' :: l', [], ind, r, r', _, h1, h2, _, _, h => by cases h1
  | x :: l, x' :: l', f :: fs, ind, r, r', hi, h1, h2, hv, hv', h => by
    simp only [List.length_cons, Nat.add_right_cancel_iff] at h1 h2
    simp only [PV.wfL, Bool.and_eq_true] at hv hv'
    simp only [goFields, List.append_assoc, List.cons_append] at h
    have h := List.append_cancel_left (List.append_cancel_left h)
    simp only [List.cons.injEq, true_and] at h
    have h := goPrint_inj hN x x' (indented ind) _ _ (ind_head hi) hv.1 hv'.1 (nl_fields (ind_head hi) hi fs l _)
      (nl_fields (ind_head hi) hi fs l' _) h
    have h0 := goFields_inj hN l l' fs ind r r' hi h1 h2 hv.2 hv'.2 h.2
    exact ⟨by rw [h.1, h0.1], h0.2⟩
end

theorem string_inj (hN : NamesOk α) {v v' : PV α} (hv : v.wf = true) (hv' : v'.wf = true) (h : string v = string v') : v = v' :=
  (goPrint_inj hN v v' ['\n'] [] [] rfl hv hv' (.inl rfl) (.inl rfl) (by simpa [string] using h)).1

end Verif.Pretty
