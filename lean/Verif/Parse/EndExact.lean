/-
C15: exactly when `End` panics.
-/
import Verif.Parse.StartEnd

namespace Verif.AST
open Spec

/-- Spec: the right edge of a node: the node, its last child, the last child of that, and so on to a word, whose modifier does not
count. -/
inductive Edge : Node → Node → Prop
  | refl (n) : Edge n n
  | step {n c d} : (∀ k w, n ≠ .word k w) → (children n).getLast? = some c → Edge c d → Edge n d

/-- Spec: a list of nothing. -/
def Nothing (n : Node) : Prop := n = .terms [] ∨ n = .discourse []

/-- The claim for a node. -/
def EndP (n : Node) : Prop := endN n = none ↔ ∃ x, Edge n x ∧ Nothing x

theorem EndP.step {n c : Node} (hn : ∀ k w, n ≠ .word k w) (hc : (children n).getLast? = some c) (he : endN n = endN c) (h : EndP c) :
    EndP n := by
  unfold EndP at *
  rw [he, h]
  constructor
  · rintro ⟨x, h1, h2⟩
    exact ⟨x, .step hn hc h1, h2⟩
  · rintro ⟨x, h1, h2⟩
    cases h1 with
    | refl => rcases h2 with rfl | rfl <;> simp [children] at hc
    | step _ h3 h4 =>
      rw [hc, Option.some.injEq] at h3
      subst h3
      exact ⟨x, h4, h2⟩

theorem EndP.word (k : WordKind) (w : Word) : EndP (.word k w) := by
  unfold EndP
  constructor
  · intro h; simp [endN] at h
  · rintro ⟨x, h1, h2⟩
    cases h1 with
    | refl => rcases h2 with h2 | h2 <;> cases h2
    | step h _ _ => exact absurd rfl (h k w)

theorem endLast_eq : ∀ (l : List Node) (c : Node), l.getLast? = some c → endLast l = endN c
  | [], _, h => by simp at h
  | [n], c, h => by simp at h; subst h; simp [endLast]
  | _ :: m :: l, c, h => by
    rw [List.getLast?_cons_cons] at h
    rw [endLast]
    exact endLast_eq (m :: l) c h

theorem EndP.list {n : Node} {l : List Node} (hn : ∀ k w, n ≠ .word k w) (hc : children n = l) (he : endN n = endLast l)
    (h0 : l = [] → Nothing n) (h : ∀ x ∈ l, EndP x) : EndP n := by
  cases hl : l.getLast? with
  | none =>
    have hl := List.getLast?_eq_none_iff.1 hl
    refine ⟨fun _ => ⟨n, .refl n, h0 hl⟩, fun _ => ?_⟩
    rw [he, hl, endLast]
  | some c => exact .step hn (by rw [hc, hl]) (by rw [he, endLast_eq l c hl]) (h c (List.mem_of_getLast? hl))

theorem EndP.terms {l : List Node} (h : ∀ x ∈ l, EndP x) : EndP (.terms l) :=
  .list (l := l) (by simp) rfl (by rw [endN]) (fun h => .inl (by rw [h])) h

theorem EndP.discourse {l : List Node} (h : ∀ x ∈ l, EndP x) : EndP (.discourse l) :=
  .list (l := l) (by simp) rfl (by rw [endN]) (fun h => .inr (by rw [h])) h

/-- C15 exactly: `End` panics if and only if there is a list of nothing at the right edge of the node, as in a predication without terms
and without the final particle. -/
theorem C15_end_exact (n : Node) : endN n = none ↔ ∃ x, Edge n x ∧ (x = .terms [] ∨ x = .discourse []) := by
  show EndP n
  revert n
  apply And.left
  apply Node.induct (P := EndP) (Q := fun _ => True)
  case hword => intros; trivial
  case text => intro l d _ hd; exact .step (by simp) (by cases l <;> rfl) (by simp [endN]) (.discourse hd)
  case discourse => intro d hd; exact .discourse hd
  case sentence =>
    intro je st da _ h _
    cases da with
    | none => exact .step (by simp) (by cases je <;> rfl) (by simp [endN]) h
    | some w => exact .step (c := wnode w) (by simp) (by cases je <;> rfl) (by simp [endN]) (.word _ _)
  case cop =>
    intro k to0 to1 ru l r _ _ _ _ h
    have hr : EndP (.cop .raw to0 to1 ru l r) :=
      .step (c := r) (by simp) (by cases to0 <;> cases to1 <;> simp [children, optW]) (by simp [endN]) h
    cases k
    case raw => exact hr
    all_goals exact .step (c := .cop .raw to0 to1 ru l r) (by simp) rfl (by simp [endN]) hr
  case prenex => intro ts bi _ _; exact .step (c := wnode bi) (by simp) rfl (by simp [endN]) (.word _ _)
  case prenexStmt => intro ts bi st _ _ h; exact .step (by simp) rfl (by simp [endN]) h
  case predication =>
    intro k p ts na _ h _
    have hr : EndP (.predication .raw p ts na) := by
      cases na with
      | some w => exact .step (c := wnode w) (by simp) (by simp [children, optW]) (by simp [endN]) (.word _ _)
      | none =>
        refine .step (c := .terms (ts.getD [])) (by simp) (by simp [children, optW]) ?_ (.terms ?_)
        · cases ts <;> simp [endN, endLast]
        · cases ts with
          | none => simp
          | some l => exact h l rfl
    cases k
    case raw => exact hr
    all_goals exact .step (c := .predication .raw p ts na) (by simp) rfl (by cases na <;> cases ts <;> simp [endN]) hr
  case prefixed => intro mu p _ h; exact .step (by simp) rfl (by simp [endN]) h
  case serial => intro l r _ h; exact .step (by simp) rfl (by simp [endN]) h
  case word => intro k w _; exact .word _ _
  case mi =>
    intro m ga ph _ _ h
    cases ga with
    | none => exact .step (c := ph) (by simp) rfl (by simp [endN]) h
    | some w => exact .step (c := wnode w) (by simp) rfl (by simp [endN]) (.word _ _)
  case po =>
    intro m ga ph _ _ h
    cases ga with
    | none => exact .step (c := ph) (by simp) rfl (by simp [endN]) h
    | some w => exact .step (c := wnode w) (by simp) rfl (by simp [endN]) (.word _ _)
  case mo => intro m teo d _ _ _; exact .step (c := wnode teo) (by simp) rfl (by simp [endN]) (.word _ _)
  case lu =>
    intro k lu st _ h
    have hr : EndP (.lu .raw lu st) := .step (by simp) rfl (by simp [endN]) h
    cases k
    case raw => exact hr
    all_goals exact .step (c := .lu .raw lu st) (by simp) rfl (by simp [endN]) hr
  case linked => intro g a _ h; exact .step (by simp) rfl (by simp [endN]) h
  case terms => intro ts h; exact .terms h
  case predArg =>
    intro id focus quant p rel _ _ h hr
    cases rel with
    | none => exact .step (by simp) (by simp [children, optN]) (by simp [endN]) h
    | some r => exact .step (by simp) (by simp [children, optN]) (by simp [endN]) (hr r rfl)
  case predAdverb => intro p h; exact .step (by simp) rfl (by simp [endN]) h
  case prep => intro p a _ h; exact .step (by simp) rfl (by simp [endN]) h
  case paren => intro kio ki d _ _ _; exact .step (c := wnode ki) (by simp) rfl (by simp [endN]) (.word _ _)
  case incidental => intro ju st _ h; exact .step (by simp) rfl (by simp [endN]) h
  case vocative => intro hu a _ h; exact .step (by simp) rfl (by simp [endN]) h

/-- C15 exactly, for all trees without empty lists: `End` is where the last word ends, modifiers excluded, unless there is a predication
without terms and without the final particle at the right edge; then it panics. -/
theorem C15_end_or_panics (n : Node) (h : allN listsFull n = true) :
    (∃ w, (coreWords n).getLast? = some w ∧ endN n = some w.e) ↔ ¬ ∃ x, Edge n x ∧ (x = .terms [] ∨ x = .discourse []) := by
  rw [← C15_end_exact]
  rcases end_val n h with h1 | ⟨w, h1, h2⟩
  · simp [h1]
  · simp [h1, h2]

/-- Two nodes with lists in them: `End` of the first panics. -/
example (p : Node) (w na : Word) :
    Edge (.sentence (some w) (.predication .raw p none none) none) (.terms []) ∧
    ¬ ∃ x, Edge (.sentence (some w) (.predication .raw p none (some na)) none) x ∧ (x = .terms [] ∨ x = .discourse []) := by
  refine ⟨.step (c := .predication .raw p none none) (by simp) rfl (.step (c := .terms []) (by simp) rfl (.refl _)), ?_⟩
  rw [← C15_end_exact]
  simp [endN]

end Verif.AST

namespace Verif.Parse
open Verif.AST Verif.AST.Spec Verif.Peg

variable {U : Uni} {b : Bytes}

/-- C15 exactly, for parsed texts: `Start` of a node with words is where the first of them begins; `End` panics if and only if there is an
empty list at the right edge, and otherwise is where the last of them ends, after `Start` and within the text. -/
theorem C15_parsed_exact (hU : U.Ok) (cs : List Call) (n : Node) (h : Out.text n ∈ calls U b cs newParser)
    (d : Node) (hb : Below n d) (hd : coreWords d ≠ []) :
    ∃ w, (coreWords d).head? = some w ∧ startN d = some w.s ∧ w.s < b.length ∧
      (((∃ x, Edge d x ∧ (x = .terms [] ∨ x = .discourse [])) ∧ endN d = none) ∨
       ((¬ ∃ x, Edge d x ∧ (x = .terms [] ∨ x = .discourse [])) ∧
         ∃ w', (coreWords d).getLast? = some w' ∧ endN d = some w'.e ∧ w'.e ≤ b.length ∧ w.s < w'.e)) := by
  obtain ⟨w, h1, h2, h3, h4, _⟩ := C15_parsed_partial hU cs n h d hb hd
  refine ⟨w, h1, h2, h3, ?_⟩
  rw [← C15_end_exact]
  cases he : endN d with
  | none => simp
  | some e =>
    obtain ⟨w', h5, rfl, h6⟩ := h4 e he
    exact .inr ⟨by simp, w', h5, rfl, h6⟩

end Verif.Parse
