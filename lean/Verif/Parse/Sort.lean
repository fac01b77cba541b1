/-
Which nodes may be in which field of an AST: a specification of the interfaces of /repo/ast/ast.go
(Sentence, Statement, Predicate, Term, Argument, Relative, Adverb, Preposition, Content, Phrase,
Mod, Fragment), sharper where the documentation or the grammar is sharper than the Go types: a `CoP` has plain `Node`
fields. Nothing here uses the parser.
-/
import Verif.AST.Spec
import Verif.AST.Model
import Verif.AST.ModProps

namespace Verif.Parse
open Verif.AST Verif.AST.Spec

/-- The dynamic type of a node. -/
inductive Tag
  | text | discourse | sentence | cop (k : CopKind) | prenex | prenexStmt | predication (k : PredKind)
  | prefixed | serial | word (k : WordKind) | mi | po | mo | lu (k : LuKind) | linked | terms
  | predArg | predAdverb | prep | paren | incidental | vocative
deriving DecidableEq

def tag : Node → Tag
  | .text _ _ => .text
  | .discourse _ => .discourse
  | .sentence _ _ _ => .sentence
  | .cop k _ _ _ _ _ => .cop k
  | .prenex _ _ => .prenex
  | .prenexStmt _ _ _ => .prenexStmt
  | .predication k _ _ _ => .predication k
  | .prefixed _ _ => .prefixed
  | .serial _ _ => .serial
  | .word k _ => .word k
  | .mi _ _ _ => .mi
  | .po _ _ _ => .po
  | .mo _ _ _ => .mo
  | .lu k _ _ => .lu k
  | .linked _ _ => .linked
  | .terms _ => .terms
  | .predArg _ _ _ _ _ => .predArg
  | .predAdverb _ => .predAdverb
  | .prep _ _ => .prep
  | .paren _ _ _ => .paren
  | .incidental _ _ => .incidental
  | .vocative _ _ => .vocative

/-- Kinds of fields. -/
inductive Srt
  | text | sentence | statement | prenex | predicate | content | predicateOrContent
  | terms | termSet | term | predArg | argument | relative | adverb | prep | phrase | space | mod | freemod | fragment
  | elem
  /-- the left side of connected predicates: in an argument it may itself be an argument -/
  | leftPred
  /-- the right side of connected relative clauses may be a statement -/
  | rightRel
deriving DecidableEq

namespace Tag
def isSentence : Tag → Bool | .sentence | .cop .sentence => true | _ => false
def isStatement : Tag → Bool | .predication .raw | .prenexStmt | .cop .statement => true | _ => false
def isPredicate : Tag → Bool
  | .serial | .word .predicate | .mi | .po | .mo | .lu .predicate | .cop .predicate => true
  | _ => false
def isContent : Tag → Bool | .predication .content | .lu .content | .cop .content => true | _ => false
def isArgument : Tag → Bool | .predArg | .cop .argument => true | _ => false
def isRelative : Tag → Bool | .predication .relative | .lu .relative | .cop .relative => true | _ => false
def isAdverb : Tag → Bool | .predAdverb | .cop .adverb => true | _ => false
def isPrep : Tag → Bool | .prep | .cop .preposition => true | _ => false
def isMod : Tag → Bool | .word .interjection | .word .space | .paren | .incidental | .vocative => true | _ => false
def isFreemod : Tag → Bool | .word .interjection | .paren | .incidental | .vocative => true | _ => false
end Tag
open Tag

/-- The types of nodes that may be in a field of the kind. -/
def accepts : Srt → Tag → Bool
  | .text, t => t == .text
  | .sentence, t => t.isSentence
  | .statement, t => t.isStatement
  | .prenex, t => t == .prenex
  | .predicate, t => t.isPredicate
  | .content, t => t.isContent
  | .predicateOrContent, t => t.isPredicate || t.isContent
  | .terms, t => t == .terms
  | .termSet, t => t == .cop .termSet
  | .term, t => t == .linked || t == .cop .termSet || t.isArgument || t.isAdverb || t.isPrep
  | .predArg, t => t == .predArg
  | .argument, t => t.isArgument
  | .relative, t => t.isRelative
  | .adverb, t => t.isAdverb
  | .prep, t => t.isPrep
  | .phrase, t => t.isPredicate || t.isArgument || t.isAdverb || t.isPrep
  | .space, t => t == .word .space
  | .mod, t => t.isMod
  | .freemod, t => t.isFreemod
  | .fragment, t => t.isRelative || t == .prenex || t == .terms || t.isFreemod
  | .elem, t => t.isSentence || t.isRelative || t == .prenex || t == .terms || t.isFreemod
  | .leftPred, t => t.isPredicate || t == .predArg
  | .rightRel, t => t.isRelative || t.isStatement

/-- The sides of a connective phrase; `none` for a bare `CoP`. -/
def leftOf : CopKind → Option Srt
  | .raw => none | .sentence => some .sentence | .statement => some .statement
  | .predicate => some .leftPred | .termSet => some .terms | .argument => some .argument
  | .relative => some .relative | .adverb => some .adverb | .preposition => some .prep
  | .content => some .content
def rightOf : CopKind → Option Srt
  | .raw => none | .sentence => some .sentence | .statement => some .statement
  | .predicate => some .predicate | .termSet => some .terms | .argument => some .argument
  | .relative => some .rightRel | .adverb => some .adverb | .preposition => some .prep
  | .content => some .statement
def acceptsO : Option Srt → Tag → Bool
  | none, _ => false
  | some s, t => accepts s t

mutual
/-- Every field below the node has a node of the kind for the field, lists of terms and discourses
(except that of a Text) are not empty, a connective phrase has both or none of the forethought
markers, and there are no bare `CoP`, `LUPhrase`, `Word`, or discourse nodes and no prefixed
predicates. -/
def wsIn : Node → Bool
  | .text l d => wsO .space l && wsL .elem d
  | .discourse _ => false
  | .sentence je st da => wsWO je && (accepts .statement (tag st) && wsIn st) && wsWO da
  | .cop k to0 to1 ru l r => (to0.isSome == to1.isSome) && wsWO to0 && wsWO to1 && wsW ru &&
      (acceptsO (leftOf k) (tag l) && wsIn l) && (acceptsO (rightOf k) (tag r) && wsIn r)
  | .prenex ts bi => !ts.isEmpty && wsL .term ts && wsW bi
  | .prenexStmt ts bi st => !ts.isEmpty && wsL .term ts && wsW bi && (accepts .statement (tag st) && wsIn st)
  | .predication _ p ts na => (accepts .predicate (tag p) && wsIn p) && wsTO ts && wsWO na
  | .prefixed _ _ => false
  | .serial l r => (accepts .predicateOrContent (tag l) && wsIn l) && (accepts .predicate (tag r) && wsIn r)
  | .word k w => k != .raw && wsW w
  | .mi m ga ph => wsW m && wsWO ga && (accepts .phrase (tag ph) && wsIn ph)
  | .po m ga a => wsW m && wsWO ga && (accepts .argument (tag a) && wsIn a)
  | .mo m teo d => wsW m && wsW teo && (!d.isEmpty && wsL .elem d)
  | .lu k l st => k != .raw && wsW l && (accepts .statement (tag st) && wsIn st)
  | .linked g a => wsW g && (accepts .argument (tag a) && wsIn a)
  | .terms ts => !ts.isEmpty && wsL .term ts
  | .predArg _ focus quant p rel => wsWO focus && wsWO quant &&
      (accepts .predicateOrContent (tag p) && wsIn p) && wsO .relative rel
  | .predAdverb p => accepts .predicate (tag p) && wsIn p
  | .prep p a => (accepts .predicate (tag p) && wsIn p) && (accepts .argument (tag a) && wsIn a)
  | .paren kio ki d => wsW kio && wsW ki && (!d.isEmpty && wsL .elem d)
  | .incidental ju st => wsW ju && (accepts .statement (tag st) && wsIn st)
  | .vocative hu a => wsW hu && (accepts .argument (tag a) && wsIn a)
def wsW : Word → Bool
  | .mk _ _ _ m => wsO .mod m
def wsO (s : Srt) : Option Node → Bool
  | none => true
  | some n => accepts s (tag n) && wsIn n
def wsWO : Option Word → Bool
  | none => true
  | some w => wsW w
def wsTO : Option (List Node) → Bool
  | none => true
  | some l => !l.isEmpty && wsL .term l
def wsL (s : Srt) : List Node → Bool
  | [] => true
  | n :: ns => (accepts s (tag n) && wsIn n) && wsL s ns
end

/-- A well-sorted node for a field of kind `s`. -/
def ws (s : Srt) (n : Node) : Bool := accepts s (tag n) && wsIn n

/-! ### `mod` keeps nodes well sorted -/

theorem tag_mod (m n : Node) : tag (mod m n) = tag n := by
  cases n with
  | sentence je st da => cases da <;> rfl
  | predication k p ts na => cases na <;> cases ts <;> rfl
  | mi x ga ph => cases ga <;> rfl
  | po x ga a => cases ga <;> rfl
  | predArg id f q p rel => cases rel <;> rfl
  | _ => rfl

theorem wsL_nonempty_modLast (m : Node) (l : List Node) : (modLast m l).isEmpty = l.isEmpty := by
  cases l with
  | nil => rfl
  | cons a l => cases l <;> rfl

theorem ws_mod_aux (m : Node) (hm : ws .mod m = true) :
    (∀ n, wsIn n = true → wsIn (mod m n) = true) ∧ (∀ w, wsW w = true → wsW (modW m w) = true) := by
  have hL : ∀ (s : Srt) (l : List Node), (∀ x ∈ l, wsIn x = true → wsIn (mod m x) = true) → wsL s l = true →
      wsL s (modLast m l) = true := by
    intro s l
    induction l with
    | nil => intro _ _; rfl
    | cons a l ih =>
      intro h hl
      simp only [wsL, Bool.and_eq_true] at hl
      cases l with
      | nil => simp [modLast, wsL, tag_mod, hl.1.1, h a (by simp) hl.1.2]
      | cons b l =>
        have := ih (fun x hx => h x (by simp [hx])) hl.2
        simp [modLast, wsL, hl.1.1, hl.1.2] at this ⊢
        exact this
  have hE := wsL_nonempty_modLast m
  apply Node.induct
    (P := fun n => wsIn n = true → wsIn (mod m n) = true)
    (Q := fun w => wsW w = true → wsW (modW m w) = true)
  · intro t s e M hM h
    cases M with
    | none => simpa [modW, modO, wsW, wsO, ws] using hm
    | some x =>
      simp only [wsW, wsO, Bool.and_eq_true] at h
      simp [modW, modO, wsW, wsO, tag_mod, h.1, hM x rfl h.2]
  all_goals intros
  case discourse => simp [wsIn] at *
  case prefixed => simp [wsIn] at *
  case sentence je st da h1 h2 h3 h =>
    cases da <;> simp_all [mod, wsIn, wsWO, tag_mod]
  case predication k p ts na h1 h2 h3 h =>
    cases na with
    | some w => simp_all [mod, wsIn, wsWO]
    | none =>
      cases ts with
      | none => simp_all [mod, wsIn, wsWO, wsTO, tag_mod]
      | some l =>
        simp only [mod, wsIn, wsTO, Bool.and_eq_true] at h ⊢
        exact ⟨⟨h.1.1, by rw [hE]; exact h.1.2.1, hL _ l (h2 l rfl) h.1.2.2⟩, h.2⟩
  case mi x ga ph h1 h2 h3 h => cases ga <;> simp_all [mod, wsIn, wsWO, tag_mod]
  case po x ga ph h1 h2 h3 h => cases ga <;> simp_all [mod, wsIn, wsWO, tag_mod]
  case predArg id f q p rel h1 h2 h3 h4 h => cases rel <;> simp_all [mod, wsIn, wsO, tag_mod]
  all_goals simp_all [mod, wsIn, tag_mod]

theorem ws_mod {s : Srt} {m n : Node} (hm : ws .mod m = true) (h : ws s n = true) : ws s (mod m n) = true := by
  simp only [ws, Bool.and_eq_true, tag_mod] at h ⊢
  exact ⟨h.1, (ws_mod_aux m hm).1 n h.2⟩

theorem wsW_mod {m : Node} {w : Word} (hm : ws .mod m = true) (h : wsW w = true) : wsW (modW m w) = true :=
  (ws_mod_aux m hm).2 w h

theorem modDefined_aux :
    (∀ n, wsIn n = true → tag n ≠ .text → modDefined n = true) ∧ (∀ w, wsW w = true → modDefinedW w = true) := by
  have hacc : ∀ s n, s ≠ .text → accepts s (tag n) = true → tag n ≠ .text := by
    intro s n hs h h'
    rw [h'] at h
    cases s <;> first | exact hs rfl | exact absurd h (by decide)
  have hacc' : ∀ k t, acceptsO (rightOf k) t = true → t ≠ .text := by
    intro k t h h'
    rw [h'] at h
    cases k <;> exact absurd h (by decide)
  have hL : ∀ (s : Srt) (l : List Node), s ≠ .text → (∀ x ∈ l, wsIn x = true → tag x ≠ .text → modDefined x = true) →
      wsL s l = true → l.isEmpty = false → lastDefined l = true := by
    intro s l hs
    induction l with
    | nil => intro _ _ h; simp at h
    | cons a l ih =>
      intro h hl _
      simp only [wsL, Bool.and_eq_true] at hl
      cases l with
      | nil => simpa [lastDefined] using h a (by simp) hl.1.2 (hacc s a hs hl.1.1)
      | cons b l =>
        simp only [lastDefined]
        exact ih (fun x hx => h x (by simp [hx])) hl.2 rfl
  apply Node.induct
    (P := fun n => wsIn n = true → tag n ≠ .text → modDefined n = true)
    (Q := fun w => wsW w = true → modDefinedW w = true)
  · intro t s e M hM h
    cases M with
    | none => rfl
    | some x =>
      simp only [wsW, wsO, Bool.and_eq_true] at h
      simpa [modDefinedW, modDefinedO] using hM x rfl h.2 (hacc _ _ (by decide) h.1)
  case text => intro l d _ _ _ h; exact absurd rfl h
  case discourse => intro d _ h; simp [wsIn] at h
  case prefixed => intro m p _ _ h; simp [wsIn] at h
  case sentence =>
    intro je st da h1 h2 h3 h _
    simp only [wsIn, Bool.and_eq_true] at h
    cases da with
    | none => simpa [modDefined] using h2 h.1.2.2 (hacc _ _ (by decide) h.1.2.1)
    | some w => simpa [modDefined] using h3 w rfl (by simpa [wsWO] using h.2)
  case cop =>
    intro k to0 to1 ru l r _ _ _ _ h5 h _
    simp only [wsIn, Bool.and_eq_true] at h
    simpa [modDefined] using h5 h.2.2 (hacc' _ _ h.2.1)
  case prenex =>
    intro ts bi _ h2 h _
    simp only [wsIn, Bool.and_eq_true] at h
    simpa [modDefined] using h2 h.2
  case prenexStmt =>
    intro ts bi st _ _ h3 h _
    simp only [wsIn, Bool.and_eq_true] at h
    simpa [modDefined] using h3 h.2.2 (hacc _ _ (by decide) h.2.1)
  case predication =>
    intro k p ts na h1 h2 h3 h _
    simp only [wsIn, Bool.and_eq_true] at h
    cases na with
    | some w => simpa [modDefined] using h3 w rfl (by simpa [wsWO] using h.2)
    | none =>
      cases ts with
      | none => simpa [modDefined] using h1 h.1.1.2 (hacc _ _ (by decide) h.1.1.1)
      | some l =>
        have h' := h.1.2
        simp only [wsTO, Bool.and_eq_true] at h'
        simpa [modDefined] using hL .term l (by decide) (h2 l rfl) h'.2 (by simpa using h'.1)
  case serial =>
    intro l r _ h2 h _
    simp only [wsIn, Bool.and_eq_true] at h
    simpa [modDefined] using h2 h.2.2 (hacc _ _ (by decide) h.2.1)
  case word =>
    intro k w h1 h _
    simp only [wsIn, Bool.and_eq_true] at h
    simpa [modDefined] using h1 h.2
  case mi =>
    intro m ga ph _ h2 h3 h _
    simp only [wsIn, Bool.and_eq_true] at h
    cases ga with
    | some w => simpa [modDefined] using h2 w rfl (by simpa [wsWO] using h.1.2)
    | none => simpa [modDefined] using h3 h.2.2 (hacc _ _ (by decide) h.2.1)
  case po =>
    intro m ga ph _ h2 h3 h _
    simp only [wsIn, Bool.and_eq_true] at h
    cases ga with
    | some w => simpa [modDefined] using h2 w rfl (by simpa [wsWO] using h.1.2)
    | none => simpa [modDefined] using h3 h.2.2 (hacc _ _ (by decide) h.2.1)
  case mo =>
    intro m teo d _ h2 _ h _
    simp only [wsIn, Bool.and_eq_true] at h
    simpa [modDefined] using h2 h.1.2
  case lu =>
    intro k l st _ h2 h _
    simp only [wsIn, Bool.and_eq_true] at h
    simpa [modDefined] using h2 h.2.2 (hacc _ _ (by decide) h.2.1)
  case linked =>
    intro g a _ h2 h _
    simp only [wsIn, Bool.and_eq_true] at h
    simpa [modDefined] using h2 h.2.2 (hacc _ _ (by decide) h.2.1)
  case terms =>
    intro ts h1 h _
    simp only [wsIn, Bool.and_eq_true] at h
    simpa [modDefined] using hL .term ts (by decide) h1 h.2 (by simpa using h.1)
  case predArg =>
    intro id f q p rel _ _ h3 h4 h _
    simp only [wsIn, Bool.and_eq_true] at h
    cases rel with
    | none => simpa [modDefined] using h3 h.1.2.2 (by
        intro h'
        have := h.1.2.1
        rw [h'] at this
        exact absurd this (by decide))
    | some r =>
      have h' := h.2
      simp only [wsO, Bool.and_eq_true] at h'
      simpa [modDefined] using h4 r rfl h'.2 (hacc _ _ (by decide) h'.1)
  case predAdverb =>
    intro p h1 h _
    simp only [wsIn, Bool.and_eq_true] at h
    simpa [modDefined] using h1 h.2 (hacc _ _ (by decide) h.1)
  case prep =>
    intro p a _ h2 h _
    simp only [wsIn, Bool.and_eq_true] at h
    simpa [modDefined] using h2 h.2.2 (hacc _ _ (by decide) h.2.1)
  case paren =>
    intro kio ki d _ _ h3 h _
    simp only [wsIn, Bool.and_eq_true] at h
    simpa [modDefined] using hL .elem d (by decide) h3 h.2.2 (by simpa using h.2.1)
  case incidental =>
    intro ju st _ h2 h _
    simp only [wsIn, Bool.and_eq_true] at h
    simpa [modDefined] using h2 h.2.2 (hacc _ _ (by decide) h.2.1)
  case vocative =>
    intro hu a _ h2 h _
    simp only [wsIn, Bool.and_eq_true] at h
    simpa [modDefined] using h2 h.2.2 (hacc _ _ (by decide) h.2.1)

theorem ws_modDefined {s : Srt} {n : Node} (hs : accepts s .text = false) (h : ws s n = true) :
    modDefined n = true := by
  simp only [ws, Bool.and_eq_true] at h
  refine modDefined_aux.1 n h.2 fun h' => ?_
  rw [h', hs] at h
  exact absurd h.1 (by decide)

theorem wsW_modDefined {w : Word} (h : wsW w = true) : modDefinedW w = true := modDefined_aux.2 w h

theorem ws_lastDefined {s : Srt} {l : List Node} (hs : s ≠ .text) (h : wsL s l = true) (hl : l.isEmpty = false) :
    lastDefined l = true := by
  induction l with
  | nil => simp at hl
  | cons a l ih =>
    simp only [wsL, Bool.and_eq_true] at h
    cases l with
    | nil =>
      refine ws_modDefined (s := s) ?_ (by simp [ws, h.1.1, h.1.2])
      cases s <;> first | rfl | exact absurd rfl hs
    | cons b l => exact ih h.2 rfl

theorem ws_modLast {s : Srt} {m : Node} {l : List Node} (hm : ws .mod m = true) (h : wsL s l = true) :
    wsL s (modLast m l) = true := by
  induction l with
  | nil => rfl
  | cons a l ih =>
    simp only [wsL, Bool.and_eq_true] at h
    cases l with
    | nil =>
      have := ws_mod hm (s := s) (n := a) (by simp [ws, h.1.1, h.1.2])
      simp only [ws, Bool.and_eq_true] at this
      simp [modLast, wsL, this.1, this.2]
    | cons b l =>
      have := ih h.2
      simp only [modLast, wsL, Bool.and_eq_true] at this ⊢
      exact ⟨h.1, this⟩

theorem wordsL_modLast_perm (m : Node) (l : List Node) (h : lastDefined l = true) :
    (wordsL (modLast m l)).Perm (wordsL l ++ words m) := by
  have := C11_mod_perm m (.terms l) (by simpa [modDefined] using h)
  simpa [mod, words] using this

end Verif.Parse
