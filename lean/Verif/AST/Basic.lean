/-
The AST of /repo/ast/ast.go as one inductive type.

Go's `Node` interface (ast.go:18-25) is implemented by 41 struct types. Types that are defined types
over the same struct (`CoPSentence`, `CoPStatement`, … over `CoP`; `LUPredicate`, … over `LUPhrase`;
`WordPredicate`, `Interjection`, `Space` over `Word`; `PredicationRelative`, `PredicationContent`
embedding `Predication`) are one constructor with a kind tag. Pointers and interfaces that may be
nil, and the slice `Predication.Terms` whose nil-ness is observable, are `Option`s.

Simplifications: a nil and an empty slice are identified except for `Predication.Terms`; pointers
of required fields are never nil; identity of `*PredicateArgument` pointers, which the interpreter
uses as a map key, is the explicit field `id`.
-/
import Verif.Tone.Model

namespace Verif.AST
open Verif.Tone (Str)

/-- ast.go: the defined types over `CoP` (ast.go:93, 177, 307, 369, 427, 468, 501, 544, 590) and
`CoP` itself (ast.go:684). -/
inductive CopKind
  | raw | sentence | statement | predicate | termSet | argument | relative | adverb
  | preposition | content
deriving DecidableEq, Repr

/-- The defined types over `LUPhrase` (ast.go:298, 459, 580) and `LUPhrase` (ast.go:700). -/
inductive LuKind | raw | predicate | relative | content
deriving DecidableEq, Repr

/-- `Word` (ast.go:715), `WordPredicate` (227), `Interjection` (659), `Space` (669). -/
inductive WordKind | raw | predicate | interjection | space
deriving DecidableEq, Repr

/-- `Predication` (ast.go:154), `PredicationRelative` (448), `PredicationContent` (567). -/
inductive PredKind | raw | relative | content
deriving DecidableEq, Repr

mutual
/-- ast.go: all node types. -/
inductive Node where
  /-- ast.go:32 `Text` -/
  | text (leading : Option Node) (d : List Node)
  /-- ast.go:42 `Discourse` -/
  | discourse (d : List Node)
  /-- ast.go:73 `StatementSentence` -/
  | sentence (je : Option Word) (st : Node) (da : Option Word)
  /-- ast.go:684 `CoP` and the types defined over it -/
  | cop (k : CopKind) (to0 to1 : Option Word) (ru : Word) (l r : Node)
  /-- ast.go:112 `Prenex` -/
  | prenex (ts : List Node) (bi : Word)
  /-- ast.go:138 `PrenexStatement` -/
  | prenexStmt (ts : List Node) (bi : Word) (st : Node)
  /-- ast.go:154 `Predication` and the types embedding it -/
  | predication (k : PredKind) (p : Node) (ts : Option (List Node)) (na : Option Word)
  /-- ast.go:196 `PrefixedPredicate` -/
  | prefixed (mu : Word) (p : Node)
  /-- ast.go:212 `SerialPredicate` -/
  | serial (l r : Node)
  /-- ast.go:715 `Word` and the types defined over it -/
  | word (k : WordKind) (w : Word)
  /-- ast.go:244 `MIPredicate` -/
  | mi (mi : Word) (ga : Option Word) (ph : Node)
  /-- ast.go:265 `POPredicate` -/
  | po (po : Word) (ga : Option Word) (a : Node)
  /-- ast.go:286 `MOPredicate` -/
  | mo (mo teo : Word) (d : List Node)
  /-- ast.go:700 `LUPhrase` and the types defined over it -/
  | lu (k : LuKind) (lu : Word) (st : Node)
  /-- ast.go:327 `LinkedTerm` -/
  | linked (go : Word) (a : Node)
  /-- ast.go:342 `Terms` -/
  | terms (ts : List Node)
  /-- ast.go:390 `PredicateArgument`; `id` is the pointer identity. -/
  | predArg (id : Nat) (focus quant : Option Word) (p : Node) (rel : Option Node)
  /-- ast.go:489 `PredicateAdverb` -/
  | predAdverb (p : Node)
  /-- ast.go:527 `PredicationPreposition` -/
  | prep (p a : Node)
  /-- ast.go:611 `Parenthetical` -/
  | paren (kio ki : Word) (d : List Node)
  /-- ast.go:627 `Incidental` -/
  | incidental (ju : Word) (st : Node)
  /-- ast.go:643 `Vocative` -/
  | vocative (hu : Word) (a : Node)
/-- ast.go:715 `Word`: text, byte offsets and modifier. -/
inductive Word where
  | mk (T : Str) (S E : Nat) (M : Option Node)
end

def Word.T : Word → Str | .mk t _ _ _ => t
def Word.S : Word → Nat | .mk _ s _ _ => s
def Word.E : Word → Nat | .mk _ _ e _ => e
def Word.M : Word → Option Node | .mk _ _ _ m => m

@[simp] theorem Word.T_mk (t s e m) : (Word.mk t s e m).T = t := rfl
@[simp] theorem Word.S_mk (t s e m) : (Word.mk t s e m).S = s := rfl
@[simp] theorem Word.E_mk (t s e m) : (Word.mk t s e m).E = e := rfl
@[simp] theorem Word.M_mk (t s e m) : (Word.mk t s e m).M = m := rfl

/-- Induction over nodes and words together. -/
theorem Node.induct {P : Node → Prop} {Q : Word → Prop}
    (hword : ∀ t s e m, (∀ x, m = some x → P x) → Q (.mk t s e m))
    (text : ∀ l d, (∀ x, l = some x → P x) → (∀ x ∈ d, P x) → P (.text l d))
    (discourse : ∀ d, (∀ x ∈ d, P x) → P (.discourse d))
    (sentence : ∀ je st da, (∀ x, je = some x → Q x) → P st → (∀ x, da = some x → Q x) →
      P (.sentence je st da))
    (cop : ∀ k to0 to1 ru l r, (∀ x, to0 = some x → Q x) → (∀ x, to1 = some x → Q x) → Q ru → P l →
      P r → P (.cop k to0 to1 ru l r))
    (prenex : ∀ ts bi, (∀ x ∈ ts, P x) → Q bi → P (.prenex ts bi))
    (prenexStmt : ∀ ts bi st, (∀ x ∈ ts, P x) → Q bi → P st → P (.prenexStmt ts bi st))
    (predication : ∀ k p ts na, P p → (∀ l, ts = some l → ∀ x ∈ l, P x) →
      (∀ x, na = some x → Q x) → P (.predication k p ts na))
    (prefixed : ∀ mu p, Q mu → P p → P (.prefixed mu p))
    (serial : ∀ l r, P l → P r → P (.serial l r))
    (word : ∀ k w, Q w → P (.word k w))
    (mi : ∀ m ga ph, Q m → (∀ x, ga = some x → Q x) → P ph → P (.mi m ga ph))
    (po : ∀ m ga a, Q m → (∀ x, ga = some x → Q x) → P a → P (.po m ga a))
    (mo : ∀ m teo d, Q m → Q teo → (∀ x ∈ d, P x) → P (.mo m teo d))
    (lu : ∀ k l st, Q l → P st → P (.lu k l st))
    (linked : ∀ g a, Q g → P a → P (.linked g a))
    (terms : ∀ ts, (∀ x ∈ ts, P x) → P (.terms ts))
    (predArg : ∀ id focus quant p rel, (∀ x, focus = some x → Q x) → (∀ x, quant = some x → Q x) →
      P p → (∀ x, rel = some x → P x) → P (.predArg id focus quant p rel))
    (predAdverb : ∀ p, P p → P (.predAdverb p))
    (prep : ∀ p a, P p → P a → P (.prep p a))
    (paren : ∀ kio ki d, Q kio → Q ki → (∀ x ∈ d, P x) → P (.paren kio ki d))
    (incidental : ∀ ju st, Q ju → P st → P (.incidental ju st))
    (vocative : ∀ hu a, Q hu → P a → P (.vocative hu a)) :
    (∀ n, P n) ∧ (∀ w, Q w) := by
  have key : ∀ n, P n := fun n =>
    Node.rec (motive_1 := P) (motive_2 := Q) (motive_3 := fun o => ∀ x, o = some x → P x)
      (motive_4 := fun l => ∀ x ∈ l, P x) (motive_5 := fun o => ∀ x, o = some x → Q x)
      (motive_6 := fun o => ∀ l, o = some l → ∀ x ∈ l, P x)
      text discourse sentence
      cop prenex prenexStmt predication prefixed
      serial word mi po mo lu linked terms predArg predAdverb prep paren incidental vocative
      hword
      (by intro x h; cases h) (by intro v hv x h; cases h; exact hv)
      (by intro x h; cases h)
      (by intro a l ha hl x h; rcases List.mem_cons.1 h with rfl | h
          · exact ha
          · exact hl x h)
      (by intro x h; cases h) (by intro v hv x h; cases h; exact hv)
      (by intro x h; cases h) (by intro v hv x h; cases h; exact hv) n
  exact ⟨key, fun w => by cases w with | mk t s e m => exact hword t s e m fun x _ => key x⟩

end Verif.AST
