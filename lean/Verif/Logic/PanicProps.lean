/-
C36: texts on which `Interpret` does not panic. The property as stated is violated (`C36_refuted`);
here is the part that holds: a syntax tree of the shape that the parser builds, in which the
particles are the words that the interpreter knows and no content clause is connected, is
interpreted without a panic, for all syntax trees.
-/
import Verif.Logic.InterpExamples
import Verif.Logic.WordsProps
import Verif.Parse.Sort

namespace Verif.Logic
open Verif.Tone (Str)
open Verif.Parse (ws wsIn wsL wsO wsTO accepts acceptsO leftOf rightOf tag Srt Tag)

/-! ## Specification -/

/-- Spec: ra, ru or ri. -/
def Connective (U : Uni) (w : Str) : Prop := ∃ c, Reads U w (connWord c)

/-- Spec: ke, ja, sa, tu, sia or hi. -/
def Quantifier (U : Uni) (w : Str) : Prop := ∃ q b, quantWord q = some b ∧ Reads U w b

/-- Spec: fi, go, cu or ta. -/
def Place (U : Uni) (w : Str) : Prop := ∃ k b, placeWord k = some b ∧ Reads U w b

/-- Spec: the connections that the interpreter knows. Sentences are connected by ru only, arguments
also by roi. Content clauses are not connected at all, since the grammar has a statement on the right
of the connective; relative clauses are if there is a relative clause on the right; and the left side
of connected predicates is a predicate (in an argument the grammar builds an argument there). -/
def Joined (U : Uni) (k : AST.CopKind) (w : Str) (l r : AST.Node) : Prop :=
  match k with
  | .sentence => Reads U w "ru".toList
  | .argument => Connective U w ∨ Reads U w "roi".toList
  | .content => False
  | .relative => Connective U w ∧ accepts .relative (tag r) = true
  | .predicate => Connective U w ∧ accepts .predicate (tag l) = true
  | _ => Connective U w

mutual
/-- Spec: the words and connections of the parts that the interpreter looks at are those it knows.
Quoted text and modifiers may have any. -/
def Usual (U : Uni) : AST.Node → Prop
  | .text _ d => UsualL U d
  | .discourse d => UsualL U d
  | .sentence _ st _ => Usual U st
  | .cop k _ _ ru l r => Joined U k ru.T l r ∧ Usual U l ∧ Usual U r
  | .prenex ts _ => UsualL U ts
  | .prenexStmt ts _ st => UsualL U ts ∧ Usual U st
  | .predication _ p ts _ => Usual U p ∧ UsualT U ts
  | .prefixed _ p => Usual U p
  | .serial l r => Usual U l ∧ Usual U r
  | .word _ _ => True
  | .mi m _ _ => Reads U m.T "mi".toList ∨ Reads U m.T "shu".toList
  | .po m _ a => (Reads U m.T "po".toList ∨ Reads U m.T "jei".toList) ∧ Usual U a
  | .mo _ _ _ => True
  | .lu _ _ st => Usual U st
  | .linked g a => Place U g.T ∧ Usual U a
  | .terms ts => UsualL U ts
  | .predArg _ _ q p rel => (∀ w, q = some w → Quantifier U w.T) ∧ Usual U p ∧ UsualO U rel
  | .predAdverb p => Usual U p
  | .prep p a => Usual U p ∧ Usual U a
  | .paren _ _ _ => True
  | .incidental _ _ => True
  | .vocative _ _ => True
def UsualO (U : Uni) : Option AST.Node → Prop
  | none => True
  | some n => Usual U n
def UsualT (U : Uni) : Option (List AST.Node) → Prop
  | none => True
  | some l => UsualL U l
def UsualL (U : Uni) : List AST.Node → Prop
  | [] => True
  | n :: ns => Usual U n ∧ UsualL U ns
end

/-! ## Words -/

section
variable {U : Uni} (hU : U.Ok)
include hU

theorem connective_some {w : Str} (h : Connective U w) : connector U w ≠ none := by
  obtain ⟨c, hc⟩ := h
  rw [(C38_connector U hU w c).2 hc]; simp

theorem quantifier_some {w : Str} (h : Quantifier U w) : quantifier U (some w) ≠ none := by
  obtain ⟨q, hq⟩ := h
  rw [(C38_quantifier U hU w q).2 hq]; simp

theorem place_some {w : Str} (h : Place U w) : goPos U w ≠ none := by
  obtain ⟨k, hk⟩ := h
  rw [(C38_place U hU w k).2 hk]; simp

theorem mi_some {w : Str} (h : Reads U w "mi".toList ∨ Reads U w "shu".toList) : miPred U w ≠ none := by
  rcases h with h | h
  · rw [(C38_mi U hU w _).2 (.inl ⟨h, rfl⟩)]; simp
  · rw [(C38_mi U hU w _).2 (.inr ⟨h, rfl⟩)]; simp

theorem po_some {w : Str} (h : Reads U w "po".toList ∨ Reads U w "jei".toList) : poPred U w ≠ none := by
  rcases h with h | h
  · rw [(C38_po U hU w _).2 (.inl ⟨h, rfl⟩)]; simp
  · rw [(C38_po U hU w _).2 (.inr ⟨h, rfl⟩)]; simp

end

/-! ## Well-sorted nodes with usual words -/

/-- A node for a field of the kind. -/
def G (U : Uni) (s : Srt) (n : AST.Node) : Prop := ws s n = true ∧ Usual U n

/-- Terms. -/
def GL (U : Uni) (l : List AST.Node) : Prop := ∀ n ∈ l, G U .term n

section
variable {U : Uni}

theorem GL_iff (l : List AST.Node) : GL U l ↔ wsL .term l = true ∧ UsualL U l := by
  induction l with
  | nil => simp [GL, wsL, UsualL]
  | cons n l ih =>
    rw [GL, List.forall_mem_cons]
    change _ ∧ GL U l ↔ _
    rw [ih]
    simp only [G, ws, wsL, UsualL, Bool.and_eq_true]
    exact ⟨fun ⟨⟨a, b⟩, c, d⟩ => ⟨⟨a, c⟩, b, d⟩, fun ⟨⟨a, c⟩, b, d⟩ => ⟨⟨a, b⟩, c, d⟩⟩

theorem GL.app {l l' : List AST.Node} (h : GL U l) (h' : GL U l') : GL U (l ++ l') := by
  intro n hn
  rcases List.mem_append.1 hn with hn | hn
  · exact h n hn
  · exact h' n hn

theorem GL.cons {n : AST.Node} {l : List AST.Node} (h : G U .term n) (h' : GL U l) : GL U (n :: l) := by
  intro m hm
  rcases List.mem_cons.1 hm with rfl | hm
  · exact h
  · exact h' m hm

theorem GL.tail {l : List AST.Node} (h : GL U l) : GL U l.tail := fun n hn => h n (List.mem_of_mem_tail hn)

theorem GL.nil : GL U [] := by simp [GL]

theorem G.sub {s s' : Srt} {n : AST.Node} (h : G U s n) (hs : ∀ t, accepts s t = true → accepts s' t = true) :
    G U s' n := by
  obtain ⟨h1, h2⟩ := h
  simp only [ws, Bool.and_eq_true] at h1
  exact ⟨by simp [ws, hs _ h1.1, h1.2], h2⟩

theorem G.cop {s : Srt} {k : AST.CopKind} {t0 t1 : Option AST.Word} {ru : AST.Word} {l r : AST.Node}
    (h : G U s (.cop k t0 t1 ru l r)) : ∃ sl sr, leftOf k = some sl ∧ rightOf k = some sr ∧
      G U sl l ∧ G U sr r ∧ Joined U k ru.T l r := by
  obtain ⟨h1, h2⟩ := h
  simp only [ws, wsIn, Bool.and_eq_true, Usual] at h1 h2
  cases hl : leftOf k with
  | none => simp [hl, acceptsO] at h1
  | some sl =>
    cases hr : rightOf k with
    | none => simp [hr, acceptsO] at h1
    | some sr =>
      rw [hl, hr] at h1
      exact ⟨sl, sr, rfl, rfl, ⟨by simp only [ws, Bool.and_eq_true]; exact h1.2.1.2, h2.2.1⟩,
        ⟨by simp only [ws, Bool.and_eq_true]; exact h1.2.2, h2.2.2⟩, h2.1⟩

theorem isStatement_of (n : AST.Node) : accepts .statement (tag n) = true → isStatement n = true := by
  cases n <;> simp [tag, accepts, Tag.isStatement, isStatement]
  case cop k _ _ _ _ _ => cases k <;> simp
  
theorem isPredicate_of (n : AST.Node) : accepts .predicateOrContent (tag n) = true → isPredicate n = true := by
  cases n <;> simp [tag, accepts, Tag.isPredicate, Tag.isContent, isPredicate]
  case cop k _ _ _ _ _ => cases k <;> simp
  case predication k _ _ _ => cases k <;> simp
  case word k _ => cases k <;> simp
  case lu k _ _ => cases k <;> simp

theorem isArgument_of (n : AST.Node) : accepts .argument (tag n) = true → isArgument n = true := by
  cases n <;> simp [tag, accepts, Tag.isArgument, isArgument]
  case cop k _ _ _ _ _ => cases k <;> simp

theorem isTerm_of (n : AST.Node) : accepts .term (tag n) = true → isTerm n = true := by
  cases n <;> simp [tag, accepts, Tag.isArgument, Tag.isAdverb, Tag.isPrep, isTerm]
  case cop k _ _ _ _ _ => cases k <;> simp

theorem isRelative_of (n : AST.Node) : accepts .relative (tag n) = true → isRelative n = true := by
  cases n <;> simp [tag, accepts, Tag.isRelative, isRelative]
  case cop k _ _ _ _ _ => cases k <;> simp
  case predication k _ _ _ => cases k <;> simp
  case lu k _ _ => cases k <;> simp

theorem isAdverb_of (n : AST.Node) : accepts .adverb (tag n) = true → isAdverb n = true := by
  cases n <;> simp [tag, accepts, Tag.isAdverb, isAdverb]
  case cop k _ _ _ _ _ => cases k <;> simp

theorem isPreposition_of (n : AST.Node) : accepts .prep (tag n) = true → isPreposition n = true := by
  cases n <;> simp [tag, accepts, Tag.isPrep, isPreposition]
  case cop k _ _ _ _ _ => cases k <;> simp

theorem isSentence_of (n : AST.Node) : accepts .sentence (tag n) = true → isSentence n = true := by
  cases n <;> simp [tag, accepts, Tag.isSentence, isSentence]
  case cop k _ _ _ _ _ => cases k <;> simp

theorem G.acc {s : Srt} {n : AST.Node} (h : G U s n) : accepts s (tag n) = true := by
  have h1 := h.1
  simp only [ws, Bool.and_eq_true] at h1
  exact h1.1

end

/-! ## No panics -/

/-- Only the model's fuel can run out. -/
def Calm (e : Err) : Prop := e = .fuel

def Arg0.G (U : Uni) : Arg0 → Prop
  | .var _ => True
  | .tail _ _ st ts => Verif.Logic.G U .statement st ∧ GL U ts

structure FCalm (U : Uni) (f : Fns) : Prop where
  statement : ∀ as n s, G U .statement n → s.hi ≠ [] →
    Post (f.statement as n) s Calm fun _ s' => s'.hi ≠ []
  predicate : ∀ n s, G U .predicateOrContent n → s.hi ≠ [] →
    Post (f.predicate n) s Calm fun _ s' => s'.hi ≠ []
  poArg : ∀ p a n s, G U .argument n → s.hi ≠ [] →
    Post (f.poArg p a n) s Calm fun _ s' => s'.hi ≠ []
  prenexS : ∀ as bi st ts s, G U .statement st → GL U ts → s.hi ≠ [] →
    Post (f.prenexS as bi st ts) s Calm fun r s' => GL U r.2 ∧ s'.hi ≠ []
  preposition : ∀ n a s, G U .prep n → a.G U → s.hi ≠ [] →
    Post (f.preposition n a) s Calm fun r s' => GL U r.2 ∧ s'.hi ≠ []
  predPrep : ∀ p a n s, G U .predicate p → a.G U → G U .argument n → s.hi ≠ [] →
    Post (f.predPrep p a n) s Calm fun r s' => GL U r.2 ∧ s'.hi ≠ []
  adverb : ∀ n a s, G U .adverb n → s.hi ≠ [] →
    Post (f.adverb n a) s Calm fun _ s' => s'.hi ≠ []
  roi : ∀ l r s, G U .argument l → G U .argument r → s.hi ≠ [] →
    Post (f.roi l r) s Calm fun _ s' => s'.hi ≠ []
  roiL : ∀ x l r s, G U .argument l → G U .argument r → s.hi ≠ [] →
    Post (f.roiL x l r) s Calm fun _ s' => s'.hi ≠ []
  roiR : ∀ x l r s, G U .argument r → s.hi ≠ [] →
    Post (f.roiR x l r) s Calm fun _ s' => s'.hi ≠ []
  predArg : ∀ n s, G U .predArg n → s.hi ≠ [] →
    Post (f.predArg n) s Calm fun _ s' => s'.hi ≠ []
  relClause : ∀ b n s, G U .relative n → s.hi ≠ [] →
    Post (f.relClause b n) s Calm fun _ s' => s'.hi ≠ []

theorem fcalm_zero {U : Uni} : FCalm U noFns := by
  constructor <;> intros <;> rfl

macro "postc" : tactic => `(tactic| try simp only [post_bind, post_pure, post_fail, post_get,
  post_modify, post_orMsg, post_orRt, post_assert, post_keepVars, post_inHoa, post_newVar,
  post_newBinding, post_setQuant, post_newVariable, post_makeLambda, post_makeContentPred,
  post_pushVar, post_lookupVar, post_subordinate, post_ite, implies_true, true_and,
  and_true])

theorem calm_distribute (as : Args) (t : PTree) (s : St) (hs : s.hi ≠ []) :
    Post (distribute as t) s Calm fun _ s' => s'.hi ≠ [] := by
  induction t generalizing s with
  | leaf p =>
    unfold distribute
    postc
    obtain ⟨r, hr, _⟩ := C26_order as
    exact ⟨fun h => (by rw [hr] at h; cases h), fun _ _ => hs⟩
  | conn c l r ihl ihr =>
    unfold distribute
    postc
    exact (ihl s hs).mono fun _ s h1 => (ihr s h1).mono fun _ s h2 => h2

/-- A helper that is known not to panic. -/
theorem calm_some {α : Type} {o : Option α} {E : Err → Prop} {e : Err} (h : o ≠ none) : o = none → E e :=
  fun h' => absurd h' h

theorem calm_true {b : Bool} {E : Err → Prop} {e : Err} (h : b = true) : b = false → E e :=
  fun h' => by rw [h] at h'; cases h'

section
variable {U : Uni} {f : Fns} (hU : U.Ok) (H : FCalm U f)

section
include H

theorem calm_predication (p : AST.Node) (as : Args) (s : St) (hp : G U .predicateOrContent p)
    (hs : s.hi ≠ []) : Post (predication f p as) s Calm fun _ s' => s'.hi ≠ [] := by
  unfold predication
  postc
  exact (H.predicate _ _ hp hs).mono fun t s ht => calm_distribute as t s ht

/-- A subordinate statement needs no scope for hi and leaves that of its context. -/
theorem calm_subStatement (n : AST.Node) (s : St) (hn : G U .statement n) :
    Post (subStatement f n) s Calm fun _ s' => s'.hi = s.hi := by
  unfold subStatement
  postc
  exact (H.statement [] n { s with hi := [] :: s.hi } hn (by simp)).mono fun r s' _ => trivial

end

theorem sub_pred (t : Tag) : accepts .predicate t = true → accepts .predicateOrContent t = true := by
  simp only [accepts, Bool.or_eq_true]; exact Or.inl

theorem sub_arg (t : Tag) : accepts .argument t = true → accepts .term t = true := by
  simp only [accepts, Bool.or_eq_true]; intro h; simp [h]

include hU H

theorem calm_statement (as : Args) (n : AST.Node) (s : St) (hn : G U .statement n) (hs : s.hi ≠ []) :
    Post (statementF U f as n) s Calm fun _ s' => s'.hi ≠ [] := by
  unfold statementF
  postc
  split <;> postc
  · next ts bi st =>
    have h := hn
    simp only [G, ws, wsIn, Usual, Bool.and_eq_true] at h
    refine (H.prenexS _ _ _ _ _ ⟨?_, h.2.2⟩ ((GL_iff _).2 ⟨h.1.2.1.1.2, h.2.1⟩) hs).mono fun _ _ h => h.2
    simp only [ws, Bool.and_eq_true]; exact h.1.2.2
  · next p na =>
    have h := hn
    simp only [G, ws, wsIn, Usual, Bool.and_eq_true] at h
    refine (calm_predication H p as s (G.sub (s := .predicate) ⟨?_, h.2.1⟩ sub_pred) hs).mono fun _ _ h => h
    simp only [ws, Bool.and_eq_true]; exact h.1.2.1.1
  · next p ts na =>
    have h := hn
    simp only [G, ws, wsIn, wsTO, Usual, UsualT, Bool.and_eq_true] at h
    refine (H.statement _ _ _ ⟨?_, ?_⟩ hs).mono fun _ _ h => h
    · simp only [ws, wsIn, wsTO, tag, Bool.and_eq_true]
      exact ⟨rfl, ⟨h.1.2.1.2, rfl⟩, rfl, ⟨h.1.2.1.1, trivial⟩, h.1.2.2⟩
    · exact ⟨h.2.2, h.2.1, trivial⟩
  · next ru l r =>
    obtain ⟨sl, sr, e1, e2, gl, gr, j⟩ := hn.cop
    cases e1; cases e2
    refine ⟨calm_some (connective_some hU j), fun _ _ => ⟨calm_true (isStatement_of _ gl.acc), fun _ => ?_⟩⟩
    refine (H.statement _ _ _ gl hs).mono fun _ _ h1 => ⟨calm_true (isStatement_of _ gr.acc), fun _ => ?_⟩
    exact (H.statement _ _ _ gr h1).mono fun _ _ h2 => h2
  · next h1 h2 h3 h4 =>
    exfalso
    have ha := hn.acc
    have hw := hn.1
    cases n <;> simp [tag, accepts, Tag.isStatement] at ha
    case cop k _ _ _ _ _ => cases k <;> first | exact h4 _ _ _ _ _ rfl | simp at ha
    case prenexStmt => exact h1 _ _ _ rfl
    case predication k p ts na =>
      cases k <;> simp at ha
      cases ts with
      | none => exact h2 _ _ rfl
      | some ts => exact h3 _ _ _ rfl

theorem calm_predicate (n : AST.Node) (s : St) (hn : G U .predicateOrContent n) (hs : s.hi ≠ []) :
    Post (predicateF U f n) s Calm fun _ s' => s'.hi ≠ [] := by
  unfold predicateF
  split <;> postc
  · split
    · postc
      exact ⟨fun _ _ => hs, fun _ => hs⟩
    · postc
      refine ⟨fun _ => ?_, fun _ => hs⟩
      split <;> postc <;> exact hs
  · next l r =>
    have h := hn
    simp only [G, ws, wsIn, Usual, Bool.and_eq_true] at h
    have gl : G U .predicateOrContent l := ⟨by simp only [ws, Bool.and_eq_true]; exact h.1.2.1, h.2.1⟩
    have gr : G U .predicateOrContent r :=
      G.sub (s := .predicate) ⟨by simp only [ws, Bool.and_eq_true]; exact h.1.2.2, h.2.2⟩ sub_pred
    refine ⟨calm_true (isPredicate_of _ gl.acc), fun _ => ?_⟩
    refine (H.predicate _ _ gl hs).mono fun _ _ h1 => ⟨calm_true (isPredicate_of _ gr.acc), fun _ => ?_⟩
    exact (H.predicate _ _ gr h1).mono fun _ _ h2 => h2
  · have h := hn.2
    simp only [Usual] at h
    exact ⟨calm_some (mi_some hU h), fun _ _ => hs⟩
  · next m _ a =>
    have h := hn
    simp only [G, ws, wsIn, Usual, Bool.and_eq_true] at h
    refine ⟨calm_some (po_some hU h.2.1), fun _ _ => ?_⟩
    exact Post.mono (H.poArg _ _ _ _ ⟨by simp only [ws, Bool.and_eq_true]; exact h.1.2.2, h.2.2⟩ hs) fun _ _ h => h
  · exact hs
  · next lu st =>
    have h := hn
    simp only [G, ws, wsIn, Usual, Bool.and_eq_true] at h
    have gs : G U .statement st := ⟨by simp only [ws, Bool.and_eq_true]; exact h.1.2.2, h.2⟩
    constructor <;> intro _
    · exact Post.mono (calm_subStatement H st _ gs) fun _ _ h => by rw [h]; exact hs
    · exact Post.mono (calm_subStatement H st _ gs) fun _ _ h => by rw [h]; exact hs
  · next ru l r =>
    obtain ⟨sl, sr, e1, e2, gl, gr, j⟩ := hn.cop
    cases e1; cases e2
    have gl : G U .predicateOrContent l := ⟨by
      have := gl.1
      simp only [ws, Bool.and_eq_true] at this ⊢
      exact ⟨sub_pred _ j.2, this.2⟩, gl.2⟩
    have gr := gr.sub sub_pred
    refine ⟨calm_some (connective_some hU j.1), fun _ _ => ⟨calm_true (isPredicate_of _ gl.acc), fun _ => ?_⟩⟩
    refine (H.predicate _ _ gl hs).mono fun _ _ h1 => ⟨calm_true (isPredicate_of _ gr.acc), fun _ => ?_⟩
    exact (H.predicate _ _ gr h1).mono fun _ _ h2 => h2
  · obtain ⟨sl, sr, e1, e2, gl, gr, j⟩ := hn.cop
    exact j.elim
  · next lu st =>
    have h := hn
    simp only [G, ws, wsIn, Usual, Bool.and_eq_true] at h
    have gs : G U .statement st := ⟨by simp only [ws, Bool.and_eq_true]; exact h.1.2.2, h.2⟩
    exact Post.mono (calm_subStatement H st _ gs) fun _ _ h => by rw [h]; exact hs
  · next p ts na =>
    have h := hn
    simp only [G, ws, wsIn, Usual, Bool.and_eq_true] at h
    have gs : G U .statement (.predication .raw p ts na) := ⟨by
      simp only [ws, wsIn, tag, Bool.and_eq_true]; exact ⟨rfl, h.1.2⟩, h.2⟩
    exact Post.mono (calm_subStatement H _ _ gs) fun _ _ h => by rw [h]; exact hs
  · next h1 h2 h3 h4 h5 h6 h7 h8 h9 h10 =>
    exfalso
    have ha := hn.acc
    cases n <;> simp [tag, accepts, Tag.isPredicate, Tag.isContent] at ha
    case cop k _ _ _ _ _ => cases k <;> first | exact h7 _ _ _ _ _ rfl | exact h8 _ _ _ _ _ rfl | simp at ha
    case predication k _ _ _ => cases k <;> first | exact h10 _ _ _ rfl | simp at ha
    case serial => exact h2 _ _ rfl
    case word k _ => cases k <;> first | exact h1 _ rfl | simp at ha
    case mi => exact h3 _ _ _ rfl
    case po => exact h4 _ _ _ rfl
    case mo => exact h5 _ _ _ rfl
    case lu k _ _ => cases k <;> first | exact h6 _ _ rfl | exact h9 _ _ rfl | simp at ha

omit hU H in
/-- The two sorts of arguments. -/
theorem G.arg_cases {n : AST.Node} (hn : G U .argument n) (h1 : ∀ i f q p r, n ≠ .predArg i f q p r)
    (h2 : ∀ t0 t1 ru l r, n ≠ .cop .argument t0 t1 ru l r) : False := by
  have ha := hn.acc
  cases n <;> simp [tag, accepts, Tag.isArgument] at ha
  case cop k _ _ _ _ _ => cases k <;> first | exact h2 _ _ _ _ _ rfl | simp at ha
  case predArg => exact h1 _ _ _ _ _ rfl

omit hU H in
theorem G.predArg {s : Srt} {i : Nat} {fo q : Option AST.Word} {p : AST.Node} {r : Option AST.Node}
    (h : G U s (.predArg i fo q p r)) : G U .predArg (.predArg i fo q p r) := by
  have := h.1
  simp only [ws, Bool.and_eq_true] at this
  exact ⟨by simp [ws, tag, accepts, this.2], h.2⟩

omit H in
theorem Joined.plain {ru : AST.Word} {l r : AST.Node} (j : Joined U .argument ru.T l r)
    (h : ¬ hasText U ru.T ['r', 'o', 'i'] = true) : connector U ru.T ≠ none := by
  rcases j with j | j
  · exact connective_some hU j
  · exact absurd ((C38_hasText U _ _).2 j) h

theorem calm_poArg (p a : Node) (n : AST.Node) (s : St) (hn : G U .argument n) (hs : s.hi ≠ []) :
    Post (poArgF U f p a n) s Calm fun _ s' => s'.hi ≠ [] := by
  unfold poArgF
  postc
  split <;> postc
  · exact Post.mono (H.predArg _ _ hn.predArg hs) fun x _ h => h
  · obtain ⟨sl, sr, e1, e2, gl, gr, j⟩ := hn.cop
    cases e1; cases e2
    constructor <;> intro hr
    · exact Post.mono (H.roi _ _ _ gl gr hs) fun x _ h => h
    · refine ⟨calm_some (j.plain hU hr), fun _ _ => ⟨calm_true (isArgument_of _ gl.acc), fun _ => ?_⟩⟩
      refine Post.mono (H.poArg _ _ _ _ gl hs) fun _ _ h1 => ⟨calm_true (isArgument_of _ gr.acc), fun _ => ?_⟩
      exact Post.mono (H.poArg _ _ _ _ gr h1) fun _ _ h2 => h2
  · next h1 h2 => exact (hn.arg_cases h1 h2).elim

omit hU H in
theorem G.term_cases {n : AST.Node} (hn : G U .term n)
    (h1 : ∀ t0 t1 ru l r, n ≠ .cop .termSet t0 t1 ru l r)
    (h2 : ∀ t0 t1 ru l r, n ≠ .cop .argument t0 t1 ru l r)
    (h3 : ∀ i f q p r, n ≠ .predArg i f q p r) (h4 : ∀ g a, n ≠ .linked g a) :
    (isPreposition n = true ∧ G U .prep n) ∨ (isPreposition n = false ∧ isAdverb n = true ∧ G U .adverb n) := by
  have ha := hn.acc
  have h := hn.1
  have hu := hn.2
  simp only [ws, Bool.and_eq_true] at h
  cases n <;> simp [tag, accepts, Tag.isArgument, Tag.isAdverb, Tag.isPrep] at ha
  case cop k _ _ _ _ _ =>
    cases k <;> simp at ha
    case termSet => exact absurd rfl (h1 _ _ _ _ _)
    case argument => exact absurd rfl (h2 _ _ _ _ _)
    case adverb => exact .inr ⟨rfl, rfl, by simp only [ws, Bool.and_eq_true]; exact ⟨rfl, h.2⟩, hu⟩
    case preposition => exact .inl ⟨rfl, by simp only [ws, Bool.and_eq_true]; exact ⟨rfl, h.2⟩, hu⟩
  case linked => exact absurd rfl (h4 _ _)
  case predArg => exact absurd rfl (h3 _ _ _ _ _)
  case predAdverb => exact .inr ⟨rfl, rfl, by simp only [ws, Bool.and_eq_true]; exact ⟨rfl, h.2⟩, hu⟩
  case prep => exact .inl ⟨rfl, by simp only [ws, Bool.and_eq_true]; exact ⟨rfl, h.2⟩, hu⟩

omit hU H in
theorem G.terms {s : Srt} {l : List AST.Node} (h : G U s (.terms l)) : GL U l := by
  have h1 := h.1
  have h2 := h.2
  simp only [ws, wsIn, Bool.and_eq_true] at h1
  exact (GL_iff _).2 ⟨h1.2.2, h2⟩

omit hU H in
theorem G.linked {s : Srt} {g : AST.Word} {a : AST.Node} (h : G U s (.linked g a)) :
    Place U g.T ∧ G U .argument a ∧ ∀ b, G U .argument b → G U .term (.linked g b) := by
  have h1 := h.1
  have h2 := h.2
  simp only [ws, wsIn, Bool.and_eq_true] at h1
  refine ⟨h2.1, ⟨by simp only [ws, Bool.and_eq_true]; exact h1.2.2, h2.2⟩, fun b hb => ⟨?_, h2.1, hb.2⟩⟩
  have hb1 := hb.1
  simp only [ws, wsIn, tag, accepts, Bool.and_eq_true] at hb1 ⊢
  exact ⟨rfl, h1.2.1, hb1⟩

theorem calm_prenexS (as : Args) (bi : Str) (st : AST.Node) (ts : List AST.Node) (s : St)
    (hst : G U .statement st) (hts : GL U ts) (hs : s.hi ≠ []) :
    Post (prenexSF U f as bi st ts) s Calm fun r s' => GL U r.2 ∧ s'.hi ≠ [] := by
  unfold prenexSF
  postc
  split
  · postc
    exact Post.mono (H.statement _ _ _ hst hs) fun _ _ h => ⟨GL.nil, h⟩
  · next t rest =>
    have ht : G U .term t := hts t (by simp)
    have hrest : GL U rest := fun n hn => hts n (by simp [hn])
    split
    · next ru l r =>
      obtain ⟨sl, sr, e1, e2, gl, gr, j⟩ := ht.cop
      cases e1; cases e2
      split
      · postc
        refine ⟨calm_some (connective_some hU j), fun _ _ => ?_⟩
        refine Post.mono (H.prenexS _ _ _ _ _ hst (gl.terms.app hrest) hs) fun _ _ h1 => ?_
        exact Post.mono (H.prenexS _ _ _ _ _ hst (gr.terms.app hrest) h1.2) fun _ _ h2 => ⟨hts, h2.2⟩
      · next hne =>
        have h1 := gl.acc
        have h2 := gr.acc
        exfalso
        cases l <;> simp [tag, accepts] at h1
        cases r <;> simp [tag, accepts] at h2
        exact hne _ _ rfl rfl
    · next ru l r =>
      obtain ⟨sl, sr, e1, e2, gl, gr, j⟩ := ht.cop
      cases e1; cases e2
      postc
      constructor <;> intro hr
      · refine Post.mono (H.roi _ _ _ gl gr hs) fun _ _ h1 => ?_
        exact Post.mono (H.prenexS _ _ _ _ _ hst hrest h1) fun _ _ h2 => ⟨GL.cons ht h2.1, h2.2⟩
      · refine ⟨calm_true (isTerm_of _ (sub_arg _ gl.acc)), fun _ => ⟨calm_true (isTerm_of _ (sub_arg _ gr.acc)),
          fun _ => ⟨calm_some (j.plain hU hr), fun _ _ => ?_⟩⟩⟩
        refine Post.mono (H.prenexS _ _ _ _ _ hst (GL.cons (gl.sub sub_arg) hrest) hs) fun _ _ h1 => ?_
        exact Post.mono (H.prenexS _ _ _ _ _ hst (GL.cons (gr.sub sub_arg) h1.1.tail) h1.2) fun _ _ h2 => h2
    · postc
      refine Post.mono (H.predArg _ _ ht.predArg hs) fun x _ h1 => ?_
      exact Post.mono (H.prenexS _ _ _ _ _ hst hrest h1) fun _ _ h2 => ⟨GL.cons ht h2.1, h2.2⟩
    · next go arg =>
      obtain ⟨hp, ga, hl⟩ := ht.linked
      split
      · next ru l r =>
        obtain ⟨sl, sr, e1, e2, gl, gr, j⟩ := ga.cop
        cases e1; cases e2
        postc
        constructor <;> intro hr
        · refine Post.mono (H.roi _ _ _ gl gr hs) fun _ _ h1 => ⟨calm_some (place_some hU hp), fun _ _ => ?_⟩
          exact Post.mono (H.prenexS _ _ _ _ _ hst hrest h1) fun _ _ h2 => ⟨GL.cons ht h2.1, h2.2⟩
        · refine ⟨calm_true (isArgument_of _ gl.acc), fun _ => ⟨calm_true (isArgument_of _ gr.acc),
            fun _ => ⟨calm_some (j.plain hU hr), fun _ _ => ?_⟩⟩⟩
          refine Post.mono (H.prenexS _ _ _ _ _ hst (GL.cons (hl _ gl) hrest) hs) fun _ _ h1 => ?_
          exact Post.mono (H.prenexS _ _ _ _ _ hst (GL.cons (hl _ gr) h1.1.tail) h1.2) fun _ _ h2 => h2
      · postc
        refine Post.mono (H.predArg _ _ ga.predArg hs) fun x _ h1 => ⟨calm_some (place_some hU hp), fun _ _ => ?_⟩
        exact Post.mono (H.prenexS _ _ _ _ _ hst hrest h1) fun _ _ h2 => ⟨GL.cons ht h2.1, h2.2⟩
      · next h1 h2 => exact (ga.arg_cases h2 h1).elim
    · next h1 h2 h3 h4 =>
      postc
      rcases ht.term_cases h1 h2 h3 h4 with ⟨hp, gp⟩ | ⟨hp, ha, gp⟩
      · refine ⟨fun _ => ?_, fun h => absurd hp h⟩
        refine Post.mono (H.prenexS _ _ _ _ _ hst hrest hs) fun r s h => ?_
        constructor <;> intro _
        · exact Post.mono (H.preposition _ _ _ gp ⟨hst, h.1⟩ h.2) fun _ _ h => ⟨GL.cons ht h.1, h.2⟩
        · exact Post.mono (H.preposition t (.var _) _ gp trivial h.2) fun _ _ h' => ⟨GL.cons ht h.1, h'.2⟩
      · refine ⟨fun h => (by rw [hp] at h; cases h), fun _ => ⟨fun _ => ?_, fun h => absurd ha h⟩⟩
        refine Post.mono (H.prenexS _ _ _ _ _ hst hrest hs) fun r s h => ?_
        constructor <;> intro _
        · exact Post.mono (H.adverb _ _ _ gp h.2) fun _ _ h' => ⟨GL.cons ht h.1, h'⟩
        · exact Post.mono (H.adverb _ _ _ gp h.2) fun _ _ h' => ⟨GL.cons ht h.1, h'⟩

omit hU H in
theorem Arg0.G.set {a : Arg0} {ts : List AST.Node} (h : a.G U) (ht : GL U ts) : (a.setTerms ts).G U := by
  cases a with
  | var => trivial
  | tail => exact ⟨h.1, ht⟩

omit hU H in
theorem G.prep {s : Srt} {p a : AST.Node} (h : G U s (.prep p a)) : G U .predicate p ∧ G U .argument a := by
  have h1 := h.1
  simp only [ws, wsIn, Bool.and_eq_true] at h1
  exact ⟨⟨by simp only [ws, Bool.and_eq_true]; exact h1.2.1, h.2.1⟩,
    ⟨by simp only [ws, Bool.and_eq_true]; exact h1.2.2, h.2.2⟩⟩

theorem calm_preposition (n : AST.Node) (a : Arg0) (s : St) (hn : G U .prep n) (ha : a.G U) (hs : s.hi ≠ []) :
    Post (prepositionF U f n a) s Calm fun r s' => GL U r.2 ∧ s'.hi ≠ [] := by
  unfold prepositionF
  postc
  split <;> postc
  · exact Post.mono (H.predPrep _ _ _ _ hn.prep.1 ha hn.prep.2 hs) fun _ _ h => h
  · obtain ⟨sl, sr, e1, e2, gl, gr, j⟩ := hn.cop
    cases e1; cases e2
    refine ⟨calm_some (connective_some hU j), fun _ _ => ⟨calm_true (isPreposition_of _ gl.acc), fun _ => ?_⟩⟩
    refine Post.mono (H.preposition _ _ _ gl ha hs) fun _ _ h1 => ⟨calm_true (isPreposition_of _ gr.acc), fun _ => ?_⟩
    exact Post.mono (H.preposition _ _ _ gr (ha.set h1.1) h1.2) fun _ _ h2 => h2
  · next h1 h2 =>
    exfalso
    have ha := hn.acc
    cases n <;> simp [tag, accepts, Tag.isPrep] at ha
    case cop k _ _ _ _ _ => cases k <;> first | exact h2 _ _ _ _ _ rfl | simp at ha
    case prep => exact h1 _ _ rfl

omit hU in
theorem calm_predPrepEnd (p : AST.Node) (a : Arg0) (b : Option Pending) (x : Node) (s : St)
    (hp : G U .predicate p) (ha : a.G U) (hs : s.hi ≠ []) :
    Post (predPrepEnd f p a b x) s Calm fun r s' => GL U r.2 ∧ s'.hi ≠ [] := by
  unfold predPrepEnd
  split <;> postc
  · exact Post.mono (calm_predication H _ _ _ (hp.sub sub_pred) hs) fun _ _ h => ⟨GL.nil, h⟩
  · refine Post.mono (H.prenexS _ _ _ _ _ ha.1 ha.2 hs) fun r _ h => ?_
    exact Post.mono (calm_predication H _ _ _ (hp.sub sub_pred) h.2) fun _ _ h' => ⟨h.1, h'⟩

theorem calm_predPrep (p : AST.Node) (a : Arg0) (n : AST.Node) (s : St) (hp : G U .predicate p) (ha : a.G U)
    (hn : G U .argument n) (hs : s.hi ≠ []) :
    Post (predPrepF U f p a n) s Calm fun r s' => GL U r.2 ∧ s'.hi ≠ [] := by
  unfold predPrepF
  postc
  split <;> postc
  · refine Post.mono (H.predArg _ _ hn.predArg hs) fun _ _ h1 => ?_
    exact Post.mono (calm_predPrepEnd H _ _ _ _ _ hp ha h1) fun _ _ h => h
  · obtain ⟨sl, sr, e1, e2, gl, gr, j⟩ := hn.cop
    cases e1; cases e2
    constructor <;> intro hr
    · refine Post.mono (H.roi _ _ _ gl gr hs) fun _ _ h1 => ?_
      exact Post.mono (calm_predPrepEnd H _ _ _ _ _ hp ha h1) fun _ _ h => h
    · refine ⟨calm_some (j.plain hU hr), fun _ _ => ⟨calm_true (isArgument_of _ gl.acc), fun _ => ?_⟩⟩
      refine Post.mono (H.predPrep _ _ _ _ hp ha gl hs) fun _ _ h1 => ?_
      exact Post.mono (H.predPrep _ _ _ _ hp (ha.set h1.1) gl h1.2) fun _ _ h2 => h2
  · next h1 h2 => exact (hn.arg_cases h1 h2).elim

theorem calm_adverb (n : AST.Node) (a : Node) (s : St) (hn : G U .adverb n) (hs : s.hi ≠ []) :
    Post (adverbF U f n a) s Calm fun _ s' => s'.hi ≠ [] := by
  unfold adverbF
  postc
  split <;> postc
  · next p =>
    have h := hn
    simp only [G, ws, wsIn, Usual, Bool.and_eq_true] at h
    exact Post.mono (calm_predication H p _ _
      (G.sub (s := .predicate) ⟨by simp only [ws, Bool.and_eq_true]; exact h.1.2, h.2⟩ sub_pred) hs) fun _ _ h => h
  · obtain ⟨sl, sr, e1, e2, gl, gr, j⟩ := hn.cop
    cases e1; cases e2
    refine ⟨calm_some (connective_some hU j), fun _ _ => ⟨calm_true (isAdverb_of _ gl.acc), fun _ => ?_⟩⟩
    refine Post.mono (H.adverb _ _ _ gl hs) fun _ _ h1 => ⟨calm_true (isAdverb_of _ gr.acc), fun _ => ?_⟩
    exact Post.mono (H.adverb _ _ _ gr h1) fun _ _ h2 => h2
  · next h1 h2 =>
    exfalso
    have ha := hn.acc
    cases n <;> simp [tag, accepts, Tag.isAdverb] at ha
    case cop k _ _ _ _ _ => cases k <;> first | exact h2 _ _ _ _ _ rfl | simp at ha
    case predAdverb => exact h1 _ rfl

omit hU in
theorem calm_roi (l r : AST.Node) (s : St) (hl : G U .argument l) (hr : G U .argument r) (hs : s.hi ≠ []) :
    Post (roiF f l r) s Calm fun _ s' => s'.hi ≠ [] := by
  unfold roiF
  postc
  refine ⟨calm_true (isArgument_of _ hl.acc), fun _ => ⟨calm_true (isArgument_of _ hr.acc), fun _ => ?_⟩⟩
  exact Post.mono (H.roiL _ _ _ _ hl hr hs) fun _ _ h => h

theorem calm_roiL (x : Node) (l r : AST.Node) (s : St) (hl : G U .argument l) (hr : G U .argument r)
    (hs : s.hi ≠ []) : Post (roiLF U f x l r) s Calm fun _ s' => s'.hi ≠ [] := by
  unfold roiLF
  split <;> postc
  · obtain ⟨sl, sr, e1, e2, gl, gr, j⟩ := hl.cop
    cases e1; cases e2
    constructor <;> intro ht
    · refine Post.mono (H.roi _ _ _ gl gr hs) fun _ _ h1 => ?_
      exact Post.mono (H.roiR _ _ _ _ hr h1) fun _ _ h2 => h2
    · refine ⟨calm_some (j.plain hU ht), fun _ _ => ⟨calm_true (isArgument_of _ gl.acc), fun _ => ?_⟩⟩
      refine Post.mono (H.roiL _ _ _ _ gl hr hs) fun _ _ h1 => ⟨calm_true (isArgument_of _ gr.acc), fun _ => ?_⟩
      exact Post.mono (H.roiL _ _ _ _ gr hr h1) fun _ _ h2 => h2
  · refine Post.mono (H.predArg _ _ hl.predArg hs) fun _ _ h1 => ?_
    exact Post.mono (H.roiR _ _ _ _ hr h1) fun _ _ h2 => h2
  · next h1 h2 => exact (hl.arg_cases h2 h1).elim

theorem calm_roiR (x l : Node) (r : AST.Node) (s : St) (hr : G U .argument r) (hs : s.hi ≠ []) :
    Post (roiRF U f x l r) s Calm fun _ s' => s'.hi ≠ [] := by
  unfold roiRF
  split <;> postc
  · obtain ⟨sl, sr, e1, e2, gl, gr, j⟩ := hr.cop
    cases e1; cases e2
    constructor <;> intro ht
    · exact Post.mono (H.roi _ _ _ gl gr hs) fun _ _ h1 => h1
    · refine ⟨calm_some (j.plain hU ht), fun _ _ => ⟨calm_true (isArgument_of _ gl.acc), fun _ => ?_⟩⟩
      refine Post.mono (H.roiR _ _ _ _ gl hs) fun _ _ h1 => ⟨calm_true (isArgument_of _ gr.acc), fun _ => ?_⟩
      exact Post.mono (H.roiR _ _ _ _ gr h1) fun _ _ h2 => h2
  · exact Post.mono (H.predArg _ _ hr.predArg hs) fun _ _ h1 => h1
  · next h1 h2 => exact (hr.arg_cases h2 h1).elim

omit hU H in
/-- A relative clause that may be missing. -/
def GO (U : Uni) (r : Option AST.Node) : Prop := ∀ n, r = some n → G U .relative n

omit hU in
theorem calm_andRel (x : Nat) (st : Node) (r : Option AST.Node) (s : St) (hr : GO U r) (hs : s.hi ≠ []) :
    Post (andRel f x st r) s Calm fun _ s' => s'.hi ≠ [] := by
  unfold andRel
  cases r with
  | none => exact hs
  | some r =>
    postc
    exact Post.mono (H.relClause _ _ _ (hr r rfl) hs) fun _ _ h => h

omit hU in
theorem calm_relOnly (x : Nat) (r : Option AST.Node) (s : St) (hr : GO U r) (hs : s.hi ≠ []) :
    Post (relOnly f x r) s Calm fun _ s' => s'.hi ≠ [] := by
  unfold relOnly
  cases r with
  | none => exact hs
  | some r =>
    postc
    exact Post.mono (H.relClause _ _ _ (hr r rfl) hs) fun _ _ h => h

theorem calm_predArg (n : AST.Node) (s : St) (hn : G U .predArg n) (hs : s.hi ≠ []) :
    Post (predArgF U f n) s Calm fun _ s' => s'.hi ≠ [] := by
  unfold predArgF
  split <;> postc
  · next id focus quant p rel =>
    have h := hn
    simp only [G, ws, wsIn, Usual, Bool.and_eq_true] at h
    have hp : G U .predicateOrContent p := ⟨by simp only [ws, Bool.and_eq_true]; exact h.1.2.1.2, h.2.2.1⟩
    have hq : quantifier U (quant.map (·.T)) ≠ none := by
      cases quant with
      | none => simp [C38_no_quantifier]
      | some w => exact quantifier_some hU (h.2.1 w rfl)
    have hr : GO U rel := by
      intro r hr
      subst hr
      have h1 := h.1.2.2
      simp only [wsO] at h1
      exact ⟨h1, h.2.2.2⟩
    split
    · postc
      exact hs
    · split
      · unfold varArg
        split <;> postc
        · refine ⟨calm_some hq, fun _ _ => ?_⟩
          exact Post.mono (calm_relOnly H _ _ _ hr (by exact hs)) fun _ _ h => h
        · cases rel with
          | none =>
            postc
            exact ⟨fun _ _ => hs, fun _ => hs⟩
          | some r =>
            postc
            exact ⟨fun _ _ => Post.mono (H.relClause _ _ _ (hr r rfl) hs) fun _ _ h => h,
              fun _ => Post.mono (H.relClause _ _ _ (hr r rfl) hs) fun _ _ h => h⟩
      · split
        · unfold hoaArg
          postc
          split <;> postc
          · exact hs
          · split <;> postc
            · exact hs
            · split <;> postc
              · exact hs
              · exact Post.mono (H.relClause _ _ _ (hr _ rfl) hs) fun _ _ h => h
        · unfold plainArg
          postc
          refine ⟨calm_some hq, fun q _ => ?_⟩
          refine Post.mono (calm_predication H p _ _ hp hs) fun _ _ h1 => ?_
          refine Post.mono (calm_andRel H _ _ _ _ hr h1) fun restr s' h2 => ?_
          refine ⟨fun _ => ⟨fun _ => h2, fun _ => h2⟩, fun _ => ⟨fun _ => ?_, fun _ => h2⟩⟩
          split
          · next hnil => exact absurd hnil h2
          · postc
            simp
  · next h1 =>
    exfalso
    have ha := hn.acc
    cases n <;> simp [tag, accepts] at ha
    exact h1 _ _ _ _ _ rfl

theorem calm_relClause (b : Option Nat) (n : AST.Node) (s : St) (hn : G U .relative n) (hs : s.hi ≠ []) :
    Post (relClauseF U f b n) s Calm fun _ s' => s'.hi ≠ [] := by
  have hb : ∀ (s : St), s.hi ≠ [] → Post (match n with
    | .predication .relative p ts na => subStatement f (.predication .raw p ts na)
    | .lu .relative _ st => subStatement f st
    | .cop .relative _ _ ru l r => do
      let c ← orMsg (connector U ru.T)
      assert isRelative l
      let l ← f.relClause none l
      assert isRelative r
      let r ← f.relClause none r
      return .conn c l r
    | _ => fail .msg) s Calm fun _ s' => s'.hi ≠ [] := by
    intro s hs
    split <;> postc
    · next p ts na =>
      have h := hn
      simp only [G, ws, wsIn, Usual, Bool.and_eq_true] at h
      have gs : G U .statement (.predication .raw p ts na) := ⟨by
        simp only [ws, wsIn, tag, Bool.and_eq_true]; exact ⟨rfl, h.1.2⟩, h.2⟩
      exact Post.mono (calm_subStatement H _ _ gs) fun _ _ h => by rw [h]; exact hs
    · next lu st =>
      have h := hn
      simp only [G, ws, wsIn, Usual, Bool.and_eq_true] at h
      have gs : G U .statement st := ⟨by simp only [ws, Bool.and_eq_true]; exact h.1.2.2, h.2⟩
      exact Post.mono (calm_subStatement H st _ gs) fun _ _ h => by rw [h]; exact hs
    · next ru l r =>
      obtain ⟨sl, sr, e1, e2, gl, gr, j⟩ := hn.cop
      cases e1; cases e2
      have gr : G U .relative r := ⟨by
        have := gr.1
        simp only [ws, Bool.and_eq_true] at this ⊢
        exact ⟨j.2, this.2⟩, gr.2⟩
      refine ⟨calm_some (connective_some hU j.1), fun _ _ => ⟨calm_true (isRelative_of _ gl.acc), fun _ => ?_⟩⟩
      refine Post.mono (H.relClause _ _ _ gl hs) fun _ _ h1 => ⟨calm_true (isRelative_of _ gr.acc), fun _ => ?_⟩
      exact Post.mono (H.relClause _ _ _ gr h1) fun _ _ h2 => h2
    · next h1 h2 h3 =>
      exfalso
      have ha := hn.acc
      cases n <;> simp [tag, accepts, Tag.isRelative] at ha
      case cop k _ _ _ _ _ => cases k <;> first | exact h3 _ _ _ _ _ rfl | simp at ha
      case predication k _ _ _ => cases k <;> first | exact h1 _ _ _ rfl | simp at ha
      case lu k _ _ => cases k <;> first | exact h2 _ _ rfl | simp at ha
  unfold relClauseF
  postc
  cases b with
  | none => exact (hb _ hs).mono fun _ _ h => h
  | some b => exact Post.mono (hb _ (by exact hs)) fun _ _ h => h

theorem fcalm_step : FCalm U (step U f) where
  statement := calm_statement hU H
  predicate := calm_predicate hU H
  poArg := calm_poArg hU H
  prenexS := calm_prenexS hU H
  preposition := calm_preposition hU H
  predPrep := calm_predPrep hU H
  adverb := calm_adverb hU H
  roi := calm_roi H
  roiL := calm_roiL hU H
  roiR := calm_roiR hU H
  predArg := calm_predArg hU H
  relClause := calm_relClause hU H

end

theorem fcalm_fns {U : Uni} (hU : U.Ok) (k : Nat) : FCalm U (fns U k) := by
  induction k with
  | zero => exact fcalm_zero
  | succ k ih => exact fcalm_step hU ih

section
variable {U : Uni} {f : Fns}

theorem calm_sentence (H : FCalm U f) : ∀ (n : AST.Node) (s : St), G U .sentence n →
    Post (sentence U f n) s Calm fun _ _ => True
  | n, s, hn => by
    unfold sentence
    split
    · next st _ =>
      have h := hn
      simp only [G, ws, wsIn, Usual, Bool.and_eq_true] at h
      exact (calm_subStatement H st s ⟨by simp only [ws, Bool.and_eq_true]; exact h.1.2.1.2, h.2⟩).mono
        fun _ _ _ => trivial
    · obtain ⟨sl, sr, e1, e2, gl, gr, j⟩ := hn.cop
      cases e1; cases e2
      postc
      refine ⟨fun _ => ?_, fun h => absurd ((C38_hasText U _ _).2 j) h⟩
      refine ⟨calm_true (isSentence_of _ gl.acc), fun _ => ?_⟩
      refine Post.mono (calm_sentence H _ _ gl) fun _ _ h1 => ⟨calm_true (isSentence_of _ gr.acc), fun _ => ?_⟩
      exact Post.mono (calm_sentence H _ _ gr) fun _ _ _ => trivial
    · next h1 h2 =>
      exfalso
      have ha := hn.acc
      cases n <;> simp [tag, accepts, Tag.isSentence] at ha
      case cop k _ _ _ _ _ => cases k <;> first | exact h2 _ _ _ _ _ rfl | simp at ha
      case sentence => exact h1 _ _ _ rfl
  termination_by n => sizeOf n

theorem elem_cases {n : AST.Node} (h : accepts .elem (tag n) = true) :
    isFragment n = true ∨ (isFragment n = false ∧ accepts .sentence (tag n) = true) := by
  cases n <;> simp [tag, accepts, Tag.isSentence, Tag.isRelative, Tag.isFreemod, isFragment] at h ⊢
  case cop k _ _ _ _ _ => cases k <;> simp at h ⊢
  case predication k _ _ _ => cases k <;> simp at h ⊢
  case word k _ => cases k <;> simp at h ⊢
  case lu k _ _ => cases k <;> simp at h ⊢

theorem calm_discourseLoop (H : FCalm U f) : ∀ (d : List AST.Node) (st : Option Node) (s : St),
    (∀ n ∈ d, ws .elem n = true ∧ (accepts .sentence (tag n) = true → Usual U n)) →
    Post (discourseLoop U f d st) s Calm fun _ _ => True
  | [], st, s, _ => trivial
  | k :: ks, st, s, h => by
    have hk := h k (by simp)
    have hks : ∀ n ∈ ks, _ := fun n hn => h n (by simp [hn])
    have hw := hk.1
    simp only [ws, Bool.and_eq_true] at hw
    unfold discourseLoop
    postc
    rcases elem_cases hw.1 with hf | ⟨hf, ha⟩
    · exact ⟨fun _ => calm_discourseLoop H ks _ _ hks, fun h => absurd hf h⟩
    · refine ⟨fun h => absurd hf (by simp [h]), fun _ => ⟨fun _ => ?_, fun h => absurd (isSentence_of _ ha) h⟩⟩
      refine Post.mono (calm_sentence H k _ ⟨?_, hk.2 ha⟩) fun _ _ _ => calm_discourseLoop H ks _ _ hks
      simp only [ws, Bool.and_eq_true]; exact ⟨ha, hw.2⟩

end

/-- C36 (partial): a discourse of the shape that the parser builds, the sentences of which have no
unusual words or connections, is interpreted without a panic. Missing: connected content clauses, a
statement connected to a relative clause, forethought connection of predicates in an argument, and
connectives other than ra, ru, ri (roi between arguments), on all of which the interpreter panics
(`C36_refuted`, `C36_refuted_sentence`). -/
theorem C36_no_panic_partial (U : Uni) (hU : U.Ok) (d : List AST.Node) (hd : wsL .elem d = true)
    (hu : ∀ n ∈ d, accepts .sentence (tag n) = true → Usual U n) (k : Nat) (e : Err)
    (h : interpret U k d = .error e) : e = .fuel := by
  have hd' : ∀ n ∈ d, ws .elem n = true ∧ (accepts .sentence (tag n) = true → Usual U n) := by
    intro n hn
    refine ⟨?_, hu n hn⟩
    clear hu h
    induction d with
    | nil => cases hn
    | cons a d ih =>
      simp only [wsL, Bool.and_eq_true] at hd
      rcases List.mem_cons.1 hn with rfl | hn
      · simp only [ws, Bool.and_eq_true]; exact hd.1
      · exact ih hd.2 hn
  have hp := calm_discourseLoop (fcalm_fns hU k) d none {} hd'
  unfold interpret discourse at h
  unfold Post at hp
  split at h
  · next e' he =>
    split at he
    · next e'' hl =>
      rw [hl] at hp
      cases he; cases h
      exact hp
    · cases he
    · cases he
  · cases h
  · split at h
    · cases h; rfl
    · cases h

/-- C36 (partial): with enough fuel there is a result. -/
theorem C36_interprets_partial (U : Uni) (hU : U.Ok) (d : List AST.Node) (hd : wsL .elem d = true)
    (hu : ∀ n ∈ d, accepts .sentence (tag n) = true → Usual U n) :
    ∃ r k0, ∀ k, k0 ≤ k → interpret U k d = .ok r := by
  obtain ⟨r, hr, k0, hk⟩ := C34_terminates U d
  cases r with
  | ok r => exact ⟨r, k0, hk⟩
  | error e =>
    have := C36_no_panic_partial U hU d hd hu k0 e (hk k0 (Nat.le_refl _))
    rw [this] at hr
    exact absurd rfl hr

/-- "mai? sa poq/ ru ji/ go suq/" and a fragment with a place word that the interpreter does not know:
the hypotheses hold. -/
def dUsual : List AST.Node :=
  [Ex.sen (Ex.st (Ex.p "mai") [Ex.arg2 "ru" (Ex.qa 0 "sa" "póq") (Ex.a 1 "jí"), .linked (Ex.w "go") (Ex.a 2 "súq")]),
   .terms [.linked (Ex.w "xx") (Ex.a 3 "súq")]]

theorem dUsual_usual : wsL .elem dUsual = true ∧
    ∀ n ∈ dUsual, accepts .sentence (tag n) = true → Usual asciiUni n := by
  refine ⟨by decide +kernel, ?_⟩
  intro n hn hs
  have r : ∀ {w b}, hasText asciiUni w b = true → Reads asciiUni w b := fun h => (C38_hasText _ _ _).1 h
  simp only [dUsual, List.mem_cons, List.not_mem_nil, or_false] at hn
  rcases hn with rfl | rfl
  · simp only [Ex.sen, Ex.st, Ex.p, Ex.arg2, Ex.qa, Ex.a, Ex.w, Usual, UsualT, UsualL, UsualO, Joined, List.isEmpty,
      Bool.false_eq_true, if_false, and_true, true_and, reduceCtorEq, false_imp_iff, implies_true, Option.some.injEq]
    refine ⟨⟨.inl ⟨.and, r (by decide +kernel)⟩, ?_⟩, ⟨2, _, rfl, r (by decide +kernel)⟩⟩
    rintro w rfl
    exact ⟨.some, _, rfl, r (by decide +kernel)⟩
  · exact absurd hs (by decide)

example : ∃ r k0, ∀ k, k0 ≤ k → interpret asciiUni k dUsual = .ok r :=
  C36_interprets_partial _ asciiUni_ok _ dUsual_usual.1 dUsual_usual.2

end Verif.Logic
