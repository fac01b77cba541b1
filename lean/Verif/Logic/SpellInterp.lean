/-
The interpreter on syntax trees that differ in the spelling of words and in the offsets that identify
arguments: it does the same on both.
-/
import Verif.Logic.Interp
import Verif.Logic.SpellWords
import Verif.AST.Spec
import Verif.Logic.WordsProps

namespace Verif.Logic
open Verif.Tone (Str)
open Verif.AST (Word)
open Verif.AST.Spec
open Verif.Parse

/-! ### Respelled syntax trees -/

mutual
/-- Rewrite the text of every word outside quotes with `g`, and all offsets with `φ`. -/
def reQ (g : Str → Str) (φ : Nat → Nat) : AST.Node → AST.Node
  | .text l d => .text (reO g φ l) (reL g φ d)
  | .discourse d => .discourse (reL g φ d)
  | .sentence je st da => .sentence (reWO g φ je) (reQ g φ st) (reWO g φ da)
  | .cop k to0 to1 ru l r => .cop k (reWO g φ to0) (reWO g φ to1) (reW g φ ru) (reQ g φ l) (reQ g φ r)
  | .prenex ts bi => .prenex (reL g φ ts) (reW g φ bi)
  | .prenexStmt ts bi st => .prenexStmt (reL g φ ts) (reW g φ bi) (reQ g φ st)
  | .predication k p ts na => .predication k (reQ g φ p) (reTO g φ ts) (reWO g φ na)
  | .prefixed mu p => .prefixed (reW g φ mu) (reQ g φ p)
  | .serial l r => .serial (reQ g φ l) (reQ g φ r)
  | .word k w => .word k (reW g φ w)
  | .mi m ga ph => .mi (reW g φ m) (reWO g φ ga) (respell id φ ph)
  | .po m ga a => .po (reW g φ m) (reWO g φ ga) (reQ g φ a)
  | .mo m teo d => .mo (reW g φ m) (reW g φ teo) (respellL id φ d)
  | .lu k l st => .lu k (reW g φ l) (reQ g φ st)
  | .linked go a => .linked (reW g φ go) (reQ g φ a)
  | .terms ts => .terms (reL g φ ts)
  | .predArg id focus quant p rel => .predArg (φ id) (reWO g φ focus) (reWO g φ quant) (reQ g φ p) (reO g φ rel)
  | .predAdverb p => .predAdverb (reQ g φ p)
  | .prep p a => .prep (reQ g φ p) (reQ g φ a)
  | .paren kio ki d => .paren (reW g φ kio) (reW g φ ki) (reL g φ d)
  | .incidental ju st => .incidental (reW g φ ju) (reQ g φ st)
  | .vocative hu a => .vocative (reW g φ hu) (reQ g φ a)
def reW (g : Str → Str) (φ : Nat → Nat) : Word → Word
  | .mk t s e m => .mk (g t) (φ s) (φ e) (reO g φ m)
def reO (g : Str → Str) (φ : Nat → Nat) : Option AST.Node → Option AST.Node
  | none => none
  | some n => some (reQ g φ n)
def reWO (g : Str → Str) (φ : Nat → Nat) : Option Word → Option Word
  | none => none
  | some w => some (reW g φ w)
def reTO (g : Str → Str) (φ : Nat → Nat) : Option (List AST.Node) → Option (List AST.Node)
  | none => none
  | some l => some (reL g φ l)
def reL (g : Str → Str) (φ : Nat → Nat) : List AST.Node → List AST.Node
  | [] => []
  | n :: l => reQ g φ n :: reL g φ l
end

/-! ### The words of respelled trees -/

mutual
theorem respell_words (f : Str → Str) (φ : Nat → Nat) : ∀ n : AST.Node,
    words (respell f φ n) = (words n).map fun t => ⟨f t.t, φ t.s, φ t.e⟩
  | .text l d => by simp [respell, words, respellO_words f φ l, respellL_words f φ d]
  | .discourse d => by simp [respell, words, respellL_words f φ d]
  | .sentence je st da => by simp [respell, words, respellWO_words f φ je, respell_words f φ st, respellWO_words f φ da]
  | .cop k to0 to1 ru l r => by
    have h0 := respellWO_words f φ to0
    have h1 := respellWO_words f φ to1
    have h2 := respellW_words f φ ru
    have h3 := respell_words f φ l
    have h4 := respell_words f φ r
    cases to0 with
    | none => simp [respell, words, respellWO, h2, h3, h4]
    | some t =>
      simp only [respellWO, wordsWO] at h0
      simp [respell, words, respellWO, h0, h1, h2, h3, h4]
  | .prenex ts bi => by simp [respell, words, respellL_words f φ ts, respellW_words f φ bi]
  | .prenexStmt ts bi st => by simp [respell, words, respellL_words f φ ts, respellW_words f φ bi, respell_words f φ st]
  | .predication k p ts na => by simp [respell, words, respell_words f φ p, respellTO_words f φ ts, respellWO_words f φ na]
  | .prefixed mu p => by simp [respell, words, respellW_words f φ mu, respell_words f φ p]
  | .serial l r => by simp [respell, words, respell_words f φ l, respell_words f φ r]
  | .word k w => by simp [respell, words, respellW_words f φ w]
  | .mi m ga ph => by simp [respell, words, respellW_words f φ m, respell_words f φ ph, respellWO_words f φ ga]
  | .po m ga a => by simp [respell, words, respellW_words f φ m, respell_words f φ a, respellWO_words f φ ga]
  | .mo m teo d => by simp [respell, words, respellW_words f φ m, respellL_words f φ d, respellW_words f φ teo]
  | .lu k l st => by simp [respell, words, respellW_words f φ l, respell_words f φ st]
  | .linked g a => by simp [respell, words, respellW_words f φ g, respell_words f φ a]
  | .terms ts => by simp [respell, words, respellL_words f φ ts]
  | .predArg id focus quant p rel => by
    simp [respell, words, respellWO_words f φ focus, respellWO_words f φ quant, respell_words f φ p, respellO_words f φ rel]
  | .predAdverb p => by simp [respell, words, respell_words f φ p]
  | .prep p a => by simp [respell, words, respell_words f φ p, respell_words f φ a]
  | .paren kio ki d => by simp [respell, words, respellW_words f φ kio, respellL_words f φ d, respellW_words f φ ki]
  | .incidental ju st => by simp [respell, words, respellW_words f φ ju, respell_words f φ st]
  | .vocative hu a => by simp [respell, words, respellW_words f φ hu, respell_words f φ a]
theorem respellW_words (f : Str → Str) (φ : Nat → Nat) : ∀ w : Word,
    wordsW (respellW f φ w) = (wordsW w).map fun t => ⟨f t.t, φ t.s, φ t.e⟩
  | .mk t s e m => by simp [respellW, wordsW, respellO_words f φ m]
theorem respellO_words (f : Str → Str) (φ : Nat → Nat) : ∀ o : Option AST.Node,
    wordsO (respellO f φ o) = (wordsO o).map fun t => ⟨f t.t, φ t.s, φ t.e⟩
  | none => rfl
  | some n => by simp [respellO, wordsO, respell_words f φ n]
theorem respellWO_words (f : Str → Str) (φ : Nat → Nat) : ∀ o : Option Word,
    wordsWO (respellWO f φ o) = (wordsWO o).map fun t => ⟨f t.t, φ t.s, φ t.e⟩
  | none => rfl
  | some w => by simp [respellWO, wordsWO, respellW_words f φ w]
theorem respellTO_words (f : Str → Str) (φ : Nat → Nat) : ∀ o : Option (List AST.Node),
    wordsTO (respellTO f φ o) = (wordsTO o).map fun t => ⟨f t.t, φ t.s, φ t.e⟩
  | none => rfl
  | some l => by simp [respellTO, wordsTO, respellL_words f φ l]
theorem respellL_words (f : Str → Str) (φ : Nat → Nat) : ∀ l : List AST.Node,
    wordsL (respellL f φ l) = (wordsL l).map fun t => ⟨f t.t, φ t.s, φ t.e⟩
  | [] => rfl
  | n :: l => by simp [respellL, wordsL, respell_words f φ n, respellL_words f φ l]
end

/-- The text of a quote does not depend on offsets. -/
theorem quote_re (U : Uni) (φ : Nat → Nat) (n : AST.Node) : nodeText U (respell id φ n) = nodeText U n := by
  unfold nodeText
  rw [visit_text, visit_text, respell_words, List.flatMap_map]
  rfl

section
variable (g : Str → Str) (φ : Nat → Nat)

theorem reL_map (l : List AST.Node) : reL g φ l = l.map (reQ g φ) := by
  induction l with
  | nil => rfl
  | cons n l ih => simp [reL, ih]

theorem reW_T (w : Word) : (reW g φ w).T = g w.T := by cases w; rfl
theorem reWO_isSome (o : Option Word) : (reWO g φ o).isSome = o.isSome := by cases o <;> rfl
theorem reWO_T (o : Option Word) : (reWO g φ o).map (·.T) = (o.map (·.T)).map g := by
  cases o with
  | none => rfl
  | some w => simp [reWO, reW_T]

/-- The state with the other identities of arguments. -/
def reSt (s : St) : St := { s with lifted := s.lifted.map fun p => (φ p.1, p.2) }

/-- `m'` does what `m` does, and returns the counterpart of its result. -/
def Hom {α β : Type} (h : α → β) (m : M α) (m' : M β) : Prop :=
  ∀ s, m' (reSt φ s) = (m s).map fun p => (h p.1, reSt φ p.2)

variable {φ} {α β γ δ : Type}

theorem Hom.pure {h : α → β} (a : α) {b : β} (e : b = h a) : Hom φ h (Pure.pure a) (Pure.pure b) := by
  subst e; intro s; rfl

theorem Hom.bind {h : α → β} {h' : γ → δ} {m : M α} {m' : M β} {k : α → M γ} {k' : β → M δ} (H : Hom φ h m m')
    (H' : ∀ a, Hom φ h' (k a) (k' (h a))) : Hom φ h' (m >>= k) (m' >>= k') := by
  intro s
  show M.bind m' k' (reSt φ s) = (M.bind m k s).map _
  unfold M.bind
  rw [H s]
  cases e : m s with
  | error x => simp only [Except.map]
  | ok p => simp only [Except.map]; exact H' p.1 p.2

theorem Hom.fail {h : α → β} (e : Err) : Hom φ h (fail e) (fail e) := fun _ => rfl

theorem Hom.get : Hom φ (reSt φ) get get := fun _ => rfl

theorem Hom.modify {f f' : St → St} (H : ∀ s, f' (reSt φ s) = reSt φ (f s)) : Hom φ id (modify f) (modify f') := by
  intro s; simp only [Logic.modify, H, Except.map, id]

theorem Hom.orMsg (o : Option α) : Hom φ id (orMsg o) (orMsg o) := by
  cases o with
  | none => exact Hom.fail _
  | some a => exact Hom.pure a rfl

theorem Hom.orRt (o : Option α) : Hom φ id (orRt o) (orRt o) := by
  cases o with
  | none => exact Hom.fail _
  | some a => exact Hom.pure a rfl

theorem Hom.assert {p : AST.Node → Bool} {n n' : AST.Node} (e : p n' = p n) : Hom φ id (assert p n) (assert p n') := by
  unfold Logic.assert
  rw [e]
  split
  · exact Hom.pure _ rfl
  · exact Hom.fail _

theorem Hom.keepVars {h : α → β} {m : M α} {m' : M β} (H : Hom φ h m m') : Hom φ h (keepVars m) (keepVars m') := by
  intro s
  unfold Logic.keepVars
  rw [H s]
  cases m s with
  | error x => rfl
  | ok p => rfl

theorem Hom.inHoa {h : α → β} {m : M α} {m' : M β} (b : Option Nat) (H : Hom φ h m m') : Hom φ h (inHoa b m) (inHoa b m') := by
  cases b with
  | none => exact H
  | some b =>
    refine Hom.bind (Hom.modify fun _ => rfl) fun _ => Hom.bind H fun a => Hom.bind (Hom.modify fun _ => rfl) fun _ => Hom.pure _ rfl

theorem Hom.newVar : Hom φ id newVar newVar := fun _ => rfl
theorem Hom.newBinding (q : Quant) : Hom φ id (newBinding q) (newBinding q) := fun _ => rfl
theorem Hom.setQuant (b : Nat) (q : Quant) : Hom φ id (setQuant b q) (setQuant b q) := fun _ => rfl
theorem Hom.newVariable (n : Nat) (d : Option Nat) (f : Bool) : Hom φ id (newVariable n d f) (newVariable n d f) := fun _ => rfl
theorem Hom.pushVar (x : Str) (q : Quant) : Hom φ id (pushVar x q) (pushVar x q) := fun _ => rfl
theorem Hom.lookupVar (x : Str) : Hom φ id (lookupVar x) (lookupVar x) := by
  intro s
  show (match s.vars.lookup x with
    | some b => _
    | none => _) = _
  unfold Logic.lookupVar
  cases s.vars.lookup x <;> rfl

theorem hasFreeVars_re (s : St) (n : Node) : hasFreeVars (reSt φ s) n = hasFreeVars s n := rfl
theorem hasFreeVarsB_re (s : St) (b : Nat) (r : Option Node) : hasFreeVarsB (reSt φ s) b r = hasFreeVarsB s b r := rfl

theorem clearStep_re (scope : List Nat) (s : St) (n : Node) : clearStep scope (reSt φ s) n = reSt φ (clearStep scope s n) := by
  cases n with
  | var v =>
    simp only [clearStep]
    have : (reSt φ s).read v = s.read v := rfl
    rw [this]
    split <;> rfl
  | _ => rfl

theorem clearHi_re (scope : List Nat) (p : Pending) (s : St) : clearHi scope p (reSt φ s) = reSt φ (clearHi scope p s) := by
  unfold clearHi
  rw [visitO_eq, visitO_eq]
  generalize preO p.restr = l
  induction l generalizing s with
  | nil => rfl
  | cons n l ih => simp only [List.foldl_cons, clearStep_re, ih]

theorem bindHi_re (l : List Pending) (scope : List Nat) (st : Node) (s : St) :
    bindHi l scope st (reSt φ s) = ((bindHi l scope st s).1, reSt φ (bindHi l scope st s).2) := by
  induction l generalizing scope st s with
  | nil => rfl
  | cons p l ih => simp only [bindHi, clearHi_re, ih]

theorem Hom.subordinate {m m' : M Node} (H : Hom φ id m m') : Hom φ id (subordinate m) (subordinate m') := by
  intro s
  unfold Logic.subordinate
  have := H { s with hi := [] :: s.hi }
  have e : reSt φ { s with hi := [] :: s.hi } = { reSt φ s with hi := [] :: (reSt φ s).hi } := rfl
  rw [e] at this
  rw [this]
  cases m { s with hi := [] :: s.hi } with
  | error x => rfl
  | ok p =>
    obtain ⟨st, s'⟩ := p
    simp only [Except.map, id]
    have e2 : (reSt φ s').hi = s'.hi ∧ (reSt φ s').vars = s'.vars := ⟨rfl, rfl⟩
    rw [e2.1, e2.2, bindHi_re]
    rfl

theorem Hom.distribute (args : Args) (t : PTree) : Hom φ id (distribute args t) (distribute args t) := by
  induction t with
  | leaf p => exact Hom.bind (Hom.orRt _) fun _ => Hom.pure _ rfl
  | conn c l r ihl ihr => exact Hom.bind ihl fun _ => Hom.bind ihr fun _ => Hom.pure _ rfl

theorem Hom.makeLambda (p a : Node) : Hom φ id (makeLambda p a) (makeLambda p a) :=
  Hom.bind (Hom.newBinding _) fun _ => Hom.bind (Hom.newVariable _ _ _) fun _ => Hom.pure _ rfl

theorem Hom.makeContentPred (st : Node) : Hom φ id (makeContentPred st) (makeContentPred st) := Hom.makeLambda _ _

/-- The kinds of nodes. -/
theorem kinds_re (n : AST.Node) : isSentence (reQ g φ n) = isSentence n ∧ isFragment (reQ g φ n) = isFragment n ∧
    isStatement (reQ g φ n) = isStatement n ∧ isPredicate (reQ g φ n) = isPredicate n ∧ isArgument (reQ g φ n) = isArgument n ∧
    isTerm (reQ g φ n) = isTerm n ∧ isRelative (reQ g φ n) = isRelative n ∧ isAdverb (reQ g φ n) = isAdverb n ∧
    isPreposition (reQ g φ n) = isPreposition n := by
  cases n with
  | cop k => cases k <;> simp [reQ, isSentence, isFragment, isStatement, isPredicate, isArgument, isTerm, isRelative, isAdverb, isPreposition]
  | predication k => cases k <;> simp [reQ, isSentence, isFragment, isStatement, isPredicate, isArgument, isTerm, isRelative, isAdverb, isPreposition]
  | word k => cases k <;> simp [reQ, isSentence, isFragment, isStatement, isPredicate, isArgument, isTerm, isRelative, isAdverb, isPreposition]
  | lu k => cases k <;> simp [reQ, isSentence, isFragment, isStatement, isPredicate, isArgument, isTerm, isRelative, isAdverb, isPreposition]
  | _ => simp [reQ, isSentence, isFragment, isStatement, isPredicate, isArgument, isTerm, isRelative, isAdverb, isPreposition]

/-! ### Words -/

variable {U : Uni}

structure Re (U : Uni) (g : Str → Str) (φ : Nat → Nat) : Prop where
  word : ∀ t, SameWord U t (g t)
  pa : g ['p', 'a'] = ['p', 'a']
  inj : ∀ p q, φ p = φ q → p = q
  zero : φ 0 = 0

variable {g}

theorem Re.switch (H : Re U g φ) {α : Type} (t : Str) (l : List (Str × α)) : switchText U (g t) l = switchText U t l := by
  induction l with
  | nil => rfl
  | cons p l ih => simp only [switchText, (H.word t).text, ih]

theorem Re.conn (H : Re U g φ) (w : Word) : connector U (reW g φ w).T = connector U w.T := by rw [reW_T]; exact H.switch _ _
theorem Re.goPos (H : Re U g φ) (w : Word) : goPos U (reW g φ w).T = goPos U w.T := by rw [reW_T]; exact H.switch _ _
theorem Re.poPred (H : Re U g φ) (w : Word) : poPred U (reW g φ w).T = poPred U w.T := by rw [reW_T]; exact H.switch _ _
theorem Re.miPred (H : Re U g φ) (w : Word) : miPred U (reW g φ w).T = miPred U w.T := by rw [reW_T]; exact H.switch _ _
theorem Re.text (H : Re U g φ) (w : Word) (b : Str) : hasText U (reW g φ w).T b = hasText U w.T b := by
  rw [reW_T]; exact (H.word _).text b
theorem Re.quant (H : Re U g φ) (w : Option Word) : quantifier U ((reWO g φ w).map (·.T)) = quantifier U (w.map (·.T)) := by
  cases w with
  | none => rfl
  | some w => simp only [reWO, Option.map_some, reW_T]; exact H.switch _ _

theorem Re.lookup (H : Re U g φ) (l : List (Nat × Nat)) (id : Nat) :
    (l.map fun p => (φ p.1, p.2)).lookup (φ id) = l.lookup id := by
  induction l with
  | nil => rfl
  | cons p l ih =>
    obtain ⟨a, b⟩ := p
    simp only [List.map_cons, List.lookup]
    by_cases h : id = a
    · subst h; simp
    · have : φ id ≠ φ a := fun e => h (H.inj _ _ e)
      rw [beq_false_of_ne this, beq_false_of_ne h]; exact ih

theorem Re.varPred (H : Re U g φ) (n : AST.Node) : varPred U (reQ g φ n) = varPred U n := by
  cases n with
  | word k w => cases k <;> simp [reQ, Logic.varPred, reW_T, (H.word _).var]
  | _ => rfl

theorem Re.hoaPred (H : Re U g φ) (n : AST.Node) : hoaPred U (reQ g φ n) = hoaPred U n := by
  cases n with
  | word k w => cases k <;> simp [reQ, Logic.hoaPred, reW_T, (H.word _).hoa]
  | _ => rfl

end

/-! ### The recursive functions -/

section
variable {U : Uni} {g : Str → Str} {φ : Nat → Nat}

/-- The argument of prepositions. -/
def Arg0.re (g : Str → Str) (φ : Nat → Nat) : Arg0 → Arg0
  | .var a => .var a
  | .tail args bi st ts => .tail args (g bi) (reQ g φ st) (reL g φ ts)

theorem Arg0.re_set (a : Arg0) (ts : List AST.Node) : (a.re g φ).setTerms (reL g φ ts) = (a.setTerms ts).re g φ := by
  cases a <;> rfl

/-- The terms that are returned. -/
def reP (g : Str → Str) (φ : Nat → Nat) (p : Node × List AST.Node) : Node × List AST.Node := (p.1, reL g φ p.2)

structure FHom (g : Str → Str) (φ : Nat → Nat) (f : Fns) : Prop where
  statement : ∀ args n, Hom φ id (f.statement args n) (f.statement args (reQ g φ n))
  predicate : ∀ n, Hom φ id (f.predicate n) (f.predicate (reQ g φ n))
  poArg : ∀ p a n, Hom φ id (f.poArg p a n) (f.poArg p a (reQ g φ n))
  prenexS : ∀ args bi st ts, Hom φ (reP g φ) (f.prenexS args bi st ts) (f.prenexS args (g bi) (reQ g φ st) (reL g φ ts))
  preposition : ∀ n a, Hom φ (reP g φ) (f.preposition n a) (f.preposition (reQ g φ n) (a.re g φ))
  predPrep : ∀ p a n, Hom φ (reP g φ) (f.predPrep p a n) (f.predPrep (reQ g φ p) (a.re g φ) (reQ g φ n))
  adverb : ∀ n a, Hom φ id (f.adverb n a) (f.adverb (reQ g φ n) a)
  roi : ∀ l r, Hom φ id (f.roi l r) (f.roi (reQ g φ l) (reQ g φ r))
  roiL : ∀ x l r, Hom φ id (f.roiL x l r) (f.roiL x (reQ g φ l) (reQ g φ r))
  roiR : ∀ x a r, Hom φ id (f.roiR x a r) (f.roiR x a (reQ g φ r))
  predArg : ∀ n, Hom φ id (f.predArg n) (f.predArg (reQ g φ n))
  relClause : ∀ b n, Hom φ id (f.relClause b n) (f.relClause b (reQ g φ n))

variable {f : Fns} (H : Re U g φ) (F : FHom g φ f)
include F

theorem sub_re (n : AST.Node) : Hom φ id (subStatement f n) (subStatement f (reQ g φ n)) :=
  Hom.subordinate (F.statement _ _)

theorem predication_re (p : AST.Node) (args : Args) : Hom φ id (predication f p args) (predication f (reQ g φ p) args) :=
  Hom.bind (F.predicate _) fun _ => Hom.distribute _ _

include H

theorem statement_re (args : Args) (n : AST.Node) : Hom φ id (statementF U f args n) (statementF U f args (reQ g φ n)) := by
  refine Hom.keepVars ?_
  cases n with
  | prenexStmt ts bi st =>
    simp only [reQ, reW_T]
    exact Hom.bind (F.prenexS _ _ _ _) fun _ => Hom.pure _ rfl
  | predication k p ts na =>
    cases k with
    | raw =>
      cases ts with
      | none => exact predication_re F p args
      | some ts =>
        have := F.statement args (.prenexStmt ts (.mk ['p', 'a'] 0 0 none) (.predication .raw p none na))
        simp only [reQ, reTO, reW, reO, H.pa, H.zero] at this
        exact this
    | _ => exact Hom.fail _
  | cop k a b ru l r =>
    cases k with
    | statement =>
      simp only [reQ, H.conn]
      exact Hom.bind (Hom.orMsg _) fun _ => Hom.bind (Hom.assert (kinds_re g l).2.2.1) fun _ => Hom.bind (F.statement _ _) fun _ =>
        Hom.bind (Hom.assert (kinds_re g r).2.2.1) fun _ => Hom.bind (F.statement _ _) fun _ => Hom.pure _ rfl
    | _ => exact Hom.fail _
  | _ => exact Hom.fail _

theorem predicate_re (n : AST.Node) : Hom φ id (predicateF U f n) (predicateF U f (reQ g φ n)) := by
  cases n with
  | word k w =>
    cases k with
    | predicate =>
      simp only [reQ, predicateF, reW_T]
      have hv := (H.word w.T).var
      have hh := (H.word w.T).hoa
      have hp := (H.word w.T).pred
      rw [hh, hp]
      revert hv
      rcases splitVar U (g w.T) with _ | ⟨t', x'⟩ <;> rcases splitVar U w.T with _ | ⟨t, x⟩ <;> intro hv <;>
        simp only [Option.map_none, Option.map_some, reduceCtorEq, Option.some.injEq] at hv
      · simp only
        split
        · refine Hom.bind Hom.get fun s => ?_
          show Hom φ id _ (match s.hoa with
            | [] => _
            | b :: _ => _)
          cases s.hoa with
          | nil => exact Hom.bind Hom.newVar fun _ => Hom.bind (Hom.newVariable _ _ _) fun _ => Hom.pure _ rfl
          | cons b l => exact Hom.bind (Hom.newVariable _ _ _) fun _ => Hom.pure _ rfl
        · exact Hom.pure _ rfl
      · subst hv
        exact Hom.bind (Hom.lookupVar _) fun _ => Hom.bind (Hom.newVariable _ _ _) fun _ => Hom.pure _ rfl
    | _ => exact Hom.fail _
  | serial l r =>
    exact Hom.bind (Hom.assert (kinds_re g l).2.2.2.1) fun _ => Hom.bind (F.predicate _) fun _ =>
      Hom.bind (Hom.assert (kinds_re g r).2.2.2.1) fun _ => Hom.bind (F.predicate _) fun _ => Hom.pure _ rfl
  | mi m ga ph =>
    simp only [reQ, predicateF, H.miPred, quote_re]
    exact Hom.bind (Hom.orMsg _) fun _ => Hom.bind (Hom.makeLambda _ _) fun _ => Hom.pure _ rfl
  | po m ga a =>
    simp only [reQ, predicateF, H.poPred]
    exact Hom.bind (Hom.orMsg _) fun _ => Hom.bind (Hom.newBinding _) fun _ => Hom.bind (Hom.newVariable _ _ _) fun _ =>
      Hom.bind (F.poArg _ _ _) fun _ => Hom.pure _ rfl
  | mo m teo d =>
    simp only [reQ, predicateF]
    rw [← respell, quote_re]
    exact Hom.bind (Hom.makeLambda _ _) fun _ => Hom.pure _ rfl
  | lu k lu st =>
    cases k with
    | predicate =>
      simp only [reQ, predicateF, H.text]
      split
      · exact Hom.bind (Hom.newBinding _) fun _ => Hom.bind (Hom.inHoa _ (sub_re F st)) fun _ => Hom.pure _ rfl
      · exact Hom.bind (sub_re F st) fun _ => Hom.pure _ rfl
    | content => exact Hom.bind (sub_re F st) fun _ => Hom.bind (Hom.makeContentPred _) fun _ => Hom.pure _ rfl
    | _ => exact Hom.fail _
  | cop k a b ru l r =>
    cases k with
    | predicate =>
      simp only [reQ, predicateF, H.conn]
      exact Hom.bind (Hom.orMsg _) fun _ => Hom.bind (Hom.assert (kinds_re g l).2.2.2.1) fun _ => Hom.bind (F.predicate _) fun _ =>
        Hom.bind (Hom.assert (kinds_re g r).2.2.2.1) fun _ => Hom.bind (F.predicate _) fun _ => Hom.pure _ rfl
    | content =>
      simp only [reQ, predicateF, H.conn]
      exact Hom.bind (Hom.orMsg _) fun _ => Hom.bind (Hom.assert (kinds_re g l).2.2.2.1) fun _ => Hom.bind (F.predicate _) fun _ =>
        Hom.bind (Hom.assert (kinds_re g r).2.2.2.1) fun _ => Hom.bind (F.predicate _) fun _ => Hom.pure _ rfl
    | _ => exact Hom.fail _
  | predication k p ts na =>
    cases k with
    | content =>
      exact Hom.bind (sub_re F (.predication .raw p ts na)) fun _ => Hom.bind (Hom.makeContentPred _) fun _ => Hom.pure _ rfl
    | _ => exact Hom.fail _
  | _ => exact Hom.fail _

theorem poArg_re (p a : Node) (n : AST.Node) : Hom φ id (poArgF U f p a n) (poArgF U f p a (reQ g φ n)) := by
  refine Hom.keepVars ?_
  cases n with
  | predArg id focus quant q rel =>
    exact Hom.bind (F.predArg (.predArg id focus quant q rel)) fun _ => Hom.pure _ rfl
  | cop k _ _ ru l r =>
    cases k with
    | argument =>
      simp only [reQ, H.conn, H.text]
      split
      · exact Hom.bind (F.roi _ _) fun _ => Hom.pure _ rfl
      · exact Hom.bind (Hom.orMsg _) fun _ => Hom.bind (Hom.assert (kinds_re g l).2.2.2.2.1) fun _ => Hom.bind (F.poArg _ _ _) fun _ =>
          Hom.bind (Hom.assert (kinds_re g r).2.2.2.2.1) fun _ => Hom.bind (F.poArg _ _ _) fun _ => Hom.pure _ rfl
    | _ => exact Hom.fail _
  | _ => exact Hom.fail _

theorem preposition_re (n : AST.Node) (a : Arg0) :
    Hom φ (reP g φ) (prepositionF U f n a) (prepositionF U f (reQ g φ n) (a.re g φ)) := by
  refine Hom.keepVars ?_
  cases n with
  | prep p b => exact F.predPrep _ _ _
  | cop k _ _ ru l r =>
    cases k with
    | preposition =>
      simp only [reQ, H.conn]
      refine Hom.bind (Hom.orMsg _) fun _ => Hom.bind (Hom.assert (kinds_re g l).2.2.2.2.2.2.2.2) fun _ =>
        Hom.bind (F.preposition _ _) fun x => Hom.bind (Hom.assert (kinds_re g r).2.2.2.2.2.2.2.2) fun _ => ?_
      show Hom φ (reP g φ) _ (f.preposition (reQ g φ r) ((a.re g φ).setTerms (reL g φ x.2)) >>= _)
      rw [Arg0.re_set]
      exact Hom.bind (F.preposition _ _) fun _ => Hom.pure _ rfl
    | _ => exact Hom.fail _
  | _ => exact Hom.fail _

omit H in
theorem predPrepEnd_re (p : AST.Node) (a : Arg0) (b : Option Pending) (x : Node) :
    Hom φ (reP g φ) (predPrepEnd f p a b x) (predPrepEnd f (reQ g φ p) (a.re g φ) b x) := by
  cases a with
  | var a0 => exact Hom.bind (predication_re F p _) fun _ => Hom.pure _ rfl
  | tail args bi st ts =>
    exact Hom.bind (F.prenexS _ _ _ _) fun _ => Hom.bind (Hom.newBinding _) fun _ => Hom.bind (Hom.newVariable _ _ _) fun _ =>
      Hom.bind (Hom.makeContentPred _) fun _ => Hom.bind (predication_re F p _) fun _ => Hom.pure _ rfl

theorem predPrep_re (p : AST.Node) (a : Arg0) (n : AST.Node) :
    Hom φ (reP g φ) (predPrepF U f p a n) (predPrepF U f (reQ g φ p) (a.re g φ) (reQ g φ n)) := by
  refine Hom.keepVars ?_
  cases n with
  | predArg id focus quant q rel =>
    exact Hom.bind (F.predArg (.predArg id focus quant q rel)) fun _ => predPrepEnd_re F _ _ _ _
  | cop k _ _ ru l r =>
    cases k with
    | argument =>
      simp only [reQ, H.conn, H.text]
      split
      · exact Hom.bind (F.roi _ _) fun _ => predPrepEnd_re F _ _ _ _
      · refine Hom.bind (Hom.orMsg _) fun _ => Hom.bind (Hom.assert (kinds_re g l).2.2.2.2.1) fun _ => Hom.bind (F.predPrep _ _ _) fun x => ?_
        show Hom φ (reP g φ) _ (f.predPrep (reQ g φ p) ((a.re g φ).setTerms (reL g φ x.2)) (reQ g φ l) >>= _)
        rw [Arg0.re_set]
        exact Hom.bind (F.predPrep _ _ _) fun _ => Hom.pure _ rfl
    | _ => exact Hom.fail _
  | _ => exact Hom.fail _

theorem adverb_re (n : AST.Node) (a : Node) : Hom φ id (adverbF U f n a) (adverbF U f (reQ g φ n) a) := by
  refine Hom.keepVars ?_
  cases n with
  | predAdverb p => exact predication_re F p _
  | cop k _ _ ru l r =>
    cases k with
    | adverb =>
      simp only [reQ, H.conn]
      exact Hom.bind (Hom.orMsg _) fun _ => Hom.bind (Hom.assert (kinds_re g l).2.2.2.2.2.2.2.1) fun _ => Hom.bind (F.adverb _ _) fun _ =>
        Hom.bind (Hom.assert (kinds_re g r).2.2.2.2.2.2.2.1) fun _ => Hom.bind (F.adverb _ _) fun _ => Hom.pure _ rfl
    | _ => exact Hom.fail _
  | _ => exact Hom.fail _

omit H in
theorem roi_re (l r : AST.Node) : Hom φ id (roiF f l r) (roiF f (reQ g φ l) (reQ g φ r)) :=
  Hom.bind (Hom.newBinding _) fun _ => Hom.bind (Hom.newVariable _ _ _) fun _ => Hom.bind (Hom.assert (kinds_re g l).2.2.2.2.1) fun _ =>
    Hom.bind (Hom.assert (kinds_re g r).2.2.2.2.1) fun _ => Hom.bind (F.roiL _ _ _) fun _ => Hom.pure _ rfl

theorem roiL_re (x : Node) (l r : AST.Node) : Hom φ id (roiLF U f x l r) (roiLF U f x (reQ g φ l) (reQ g φ r)) := by
  unfold roiLF
  cases l with
  | predArg id focus quant q rel =>
    exact Hom.bind (F.predArg (.predArg id focus quant q rel)) fun _ => Hom.bind (F.roiR _ _ _) fun _ => Hom.pure _ rfl
  | cop k _ _ ru l1 l2 =>
    cases k with
    | argument =>
      simp only [reQ, H.conn, H.text]
      split
      · exact Hom.bind (F.roi _ _) fun _ => Hom.bind (F.roiR _ _ _) fun _ => Hom.pure _ rfl
      · exact Hom.bind (Hom.orMsg _) fun _ => Hom.bind (Hom.assert (kinds_re g l1).2.2.2.2.1) fun _ => Hom.bind (F.roiL _ _ _) fun _ =>
          Hom.bind (Hom.assert (kinds_re g l2).2.2.2.2.1) fun _ => Hom.bind (F.roiL _ _ _) fun _ => Hom.pure _ rfl
    | _ => exact Hom.fail _
  | _ => exact Hom.fail _

theorem roiR_re (x a : Node) (r : AST.Node) : Hom φ id (roiRF U f x a r) (roiRF U f x a (reQ g φ r)) := by
  unfold roiRF
  cases r with
  | predArg id focus quant q rel =>
    exact Hom.bind (F.predArg (.predArg id focus quant q rel)) fun _ => Hom.pure _ rfl
  | cop k _ _ ru l1 l2 =>
    cases k with
    | argument =>
      simp only [reQ, H.conn, H.text]
      split
      · exact Hom.bind (F.roi _ _) fun _ => Hom.pure _ rfl
      · exact Hom.bind (Hom.orMsg _) fun _ => Hom.bind (Hom.assert (kinds_re g l1).2.2.2.2.1) fun _ => Hom.bind (F.roiR _ _ _) fun _ =>
          Hom.bind (Hom.assert (kinds_re g l2).2.2.2.2.1) fun _ => Hom.bind (F.roiR _ _ _) fun _ => Hom.pure _ rfl
    | _ => exact Hom.fail _
  | _ => exact Hom.fail _

theorem relClause_re (b : Option Nat) (n : AST.Node) : Hom φ id (relClauseF U f b n) (relClauseF U f b (reQ g φ n)) := by
  refine Hom.keepVars (Hom.inHoa b ?_)
  cases n with
  | predication k p ts na =>
    cases k with
    | relative => exact sub_re F (.predication .raw p ts na)
    | _ => exact Hom.fail _
  | lu k _ st =>
    cases k with
    | relative => exact sub_re F st
    | _ => exact Hom.fail _
  | cop k _ _ ru l r =>
    cases k with
    | relative =>
      simp only [reQ, H.conn]
      exact Hom.bind (Hom.orMsg _) fun _ => Hom.bind (Hom.assert (kinds_re g l).2.2.2.2.2.2.1) fun _ => Hom.bind (F.relClause _ _) fun _ =>
        Hom.bind (Hom.assert (kinds_re g r).2.2.2.2.2.2.1) fun _ => Hom.bind (F.relClause _ _) fun _ => Hom.pure _ rfl
    | _ => exact Hom.fail _
  | _ => exact Hom.fail _

omit H in
theorem andRel_re (x : Nat) (st : Node) (o : Option AST.Node) : Hom φ id (andRel f x st o) (andRel f x st (reO g φ o)) := by
  cases o with
  | none => exact Hom.pure _ rfl
  | some r => exact Hom.bind (F.relClause _ _) fun _ => Hom.pure _ rfl

omit H in
theorem relOnly_re (x : Nat) (o : Option AST.Node) : Hom φ id (relOnly f x o) (relOnly f x (reO g φ o)) := by
  cases o with
  | none => exact Hom.pure _ rfl
  | some r => exact Hom.bind (F.relClause _ _) fun _ => Hom.pure _ rfl

theorem plainArg_re (id' : Nat) (focus quant : Option Word) (p : AST.Node) (rel : Option AST.Node) :
    Hom φ id (plainArg U f id' focus quant p rel) (plainArg U f (φ id') (reWO g φ focus) (reWO g φ quant) (reQ g φ p) (reO g φ rel)) := by
  unfold plainArg
  rw [H.quant, reWO_isSome]
  refine Hom.bind (Hom.orMsg _) fun q => Hom.bind (Hom.newBinding _) fun x => Hom.bind (Hom.newVariable _ _ _) fun a =>
    Hom.bind (predication_re F p _) fun st => Hom.bind (andRel_re F _ _ _) fun restr => ?_
  simp only [id]
  split
  · refine Hom.bind Hom.get fun s => ?_
    rw [hasFreeVarsB_re]
    split
    · exact Hom.bind (Hom.setQuant _ _) fun _ => Hom.pure _ rfl
    · exact Hom.bind (Hom.modify fun _ => rfl) fun _ => Hom.pure _ rfl
  · split
    · refine Hom.bind Hom.get fun s => ?_
      show Hom φ id _ (match s.hi with
        | [] => _
        | top :: his => _)
      cases s.hi with
      | nil => exact Hom.fail _
      | cons top his => exact Hom.bind (Hom.modify fun _ => rfl) fun _ => Hom.pure _ rfl
    · exact Hom.pure _ rfl

theorem varArg_re (x : Str) (quant : Option Word) (rel : Option AST.Node) :
    Hom φ id (varArg U f x quant rel) (varArg U f x (reWO g φ quant) (reO g φ rel)) := by
  cases quant with
  | some w =>
    have := H.quant (some w)
    simp only [reWO, Option.map_some] at this
    simp only [varArg, reWO, this]
    exact Hom.bind (Hom.orMsg _) fun _ => Hom.bind (Hom.pushVar _ _) fun _ => Hom.bind (Hom.newVariable _ _ _) fun _ =>
      Hom.bind (relOnly_re F _ _) fun _ => Hom.pure _ rfl
  | none =>
    cases rel with
    | none => exact Hom.bind (Hom.lookupVar _) fun _ => Hom.bind (Hom.newVariable _ _ _) fun _ => Hom.pure _ rfl
    | some r =>
      exact Hom.bind (Hom.lookupVar _) fun _ => Hom.bind (Hom.newVariable _ _ _) fun _ => Hom.bind (Hom.newBinding _) fun _ =>
        Hom.bind (Hom.newVariable _ _ _) fun _ => Hom.bind (F.relClause _ _) fun _ => Hom.pure _ rfl

omit H in
theorem hoaArg_re (quant : Option Word) (rel : Option AST.Node) :
    Hom φ id (hoaArg f quant rel) (hoaArg f (reWO g φ quant) (reO g φ rel)) := by
  refine Hom.bind Hom.get fun s => ?_
  show Hom φ id _ (match s.hoa with
    | [] => _
    | d :: _ => _)
  cases s.hoa with
  | nil => exact Hom.bind Hom.newVar fun _ => Hom.bind (Hom.newVariable _ _ _) fun _ => Hom.pure _ rfl
  | cons d l =>
    refine Hom.bind (Hom.newVariable _ _ _) fun _ => ?_
    cases quant with
    | none => cases rel with
      | none => exact Hom.pure _ rfl
      | some r => exact Hom.bind (Hom.newBinding _) fun _ => Hom.bind (Hom.newVariable _ _ _) fun _ => Hom.bind (F.relClause _ _) fun _ => Hom.pure _ rfl
    | some q => cases rel with
      | none => exact Hom.bind (Hom.newBinding _) fun _ => Hom.bind (Hom.newVariable _ _ _) fun _ => Hom.pure _ rfl
      | some r => exact Hom.bind (Hom.newBinding _) fun _ => Hom.bind (Hom.newVariable _ _ _) fun _ => Hom.bind (F.relClause _ _) fun _ => Hom.pure _ rfl

theorem predArg_re (n : AST.Node) : Hom φ id (predArgF U f n) (predArgF U f (reQ g φ n)) := by
  cases n with
  | predArg id' focus quant p rel =>
    simp only [reQ, predArgF]
    refine Hom.bind Hom.get fun s => ?_
    have : (reSt φ s).lifted.lookup (φ id') = s.lifted.lookup id' := H.lookup _ _
    rw [this, H.varPred, H.hoaPred]
    cases s.lifted.lookup id' with
    | some b => exact Hom.bind (Hom.newVariable _ _ _) fun _ => Hom.pure _ rfl
    | none =>
      simp only
      cases varPred U p with
      | some x => exact varArg_re H F _ _ _
      | none =>
        simp only
        split
        · exact hoaArg_re F _ _
        · exact plainArg_re H F _ _ _ _ _
  | _ => exact Hom.fail _

theorem prenexS_re (args : Args) (bi : Str) (st : AST.Node) (ts : List AST.Node) :
    Hom φ (reP g φ) (prenexSF U f args bi st ts) (prenexSF U f args (g bi) (reQ g φ st) (reL g φ ts)) := by
  refine Hom.keepVars ?_
  have hbi : ∀ b, hasText U (g bi) b = hasText U bi b := (H.word bi).text
  have happ : ∀ a b : List AST.Node, reL g φ a ++ reL g φ b = reL g φ (a ++ b) := by
    intro a b; simp only [reL_map, List.map_append]
  have htail : ∀ a : List AST.Node, (reL g φ a).tail = reL g φ a.tail := by
    intro a; cases a <;> rfl
  cases ts with
  | nil =>
    simp only [reL, hbi]
    exact Hom.bind (F.statement _ _) fun _ => Hom.pure _ rfl
  | cons t rest =>
    -- adverbs and prepositions
    have mods : ∀ t : AST.Node, Hom φ (reP g φ)
        (if isPreposition t then do
          let sub ← f.prenexS args bi st rest
          let s ← get
          if hasFreeVars s sub.1 then do
            let n ← f.preposition t (.tail args bi st sub.2)
            return (n.1, t :: n.2)
          else do
            let x ← newBinding .the
            let a ← newVariable x (some x) false
            let p ← makeContentPred sub.1
            modify fun s => { s with the := s.the ++ [⟨.the, x, false, some (.app p [some a])⟩] }
            let n ← f.preposition t (.var a)
            return (n.1, t :: sub.2)
        else if isAdverb t then do
          let sub ← f.prenexS args bi st rest
          let x ← newBinding .all
          let a ← newVariable x (some x) false
          let p ← makeContentPred sub.1
          let s ← get
          if hasFreeVars s sub.1 then do
            let n ← f.adverb t a
            return (bindScope (some ⟨.all, x, false, some (.app p [some a])⟩) n, t :: sub.2)
          else do
            setQuant x .the
            modify fun s => { s with the := s.the ++ [⟨.the, x, false, some (.app p [some a])⟩] }
            let n ← f.adverb t a
            return (n, t :: sub.2)
        else fail .msg)
        (if isPreposition (reQ g φ t) then do
          let sub ← f.prenexS args (g bi) (reQ g φ st) (reL g φ rest)
          let s ← get
          if hasFreeVars s sub.1 then do
            let n ← f.preposition (reQ g φ t) (.tail args (g bi) (reQ g φ st) sub.2)
            return (n.1, reQ g φ t :: n.2)
          else do
            let x ← newBinding .the
            let a ← newVariable x (some x) false
            let p ← makeContentPred sub.1
            modify fun s => { s with the := s.the ++ [⟨.the, x, false, some (.app p [some a])⟩] }
            let n ← f.preposition (reQ g φ t) (.var a)
            return (n.1, reQ g φ t :: sub.2)
        else if isAdverb (reQ g φ t) then do
          let sub ← f.prenexS args (g bi) (reQ g φ st) (reL g φ rest)
          let x ← newBinding .all
          let a ← newVariable x (some x) false
          let p ← makeContentPred sub.1
          let s ← get
          if hasFreeVars s sub.1 then do
            let n ← f.adverb (reQ g φ t) a
            return (bindScope (some ⟨.all, x, false, some (.app p [some a])⟩) n, reQ g φ t :: sub.2)
          else do
            setQuant x .the
            modify fun s => { s with the := s.the ++ [⟨.the, x, false, some (.app p [some a])⟩] }
            let n ← f.adverb (reQ g φ t) a
            return (n, reQ g φ t :: sub.2)
        else fail .msg) := by
      intro t
      rw [(kinds_re g t).2.2.2.2.2.2.2.2, (kinds_re g t).2.2.2.2.2.2.2.1]
      split
      · refine Hom.bind (F.prenexS _ _ _ _) fun sub => Hom.bind Hom.get fun s => ?_
        rw [hasFreeVars_re]
        show Hom φ _ _ (if hasFreeVars s sub.1 = true then _ else _)
        split
        · exact Hom.bind (F.preposition _ (.tail args bi st sub.2)) fun _ => Hom.pure _ rfl
        · exact Hom.bind (Hom.newBinding _) fun _ => Hom.bind (Hom.newVariable _ _ _) fun _ => Hom.bind (Hom.makeContentPred _) fun _ =>
            Hom.bind (Hom.modify fun _ => rfl) fun _ => Hom.bind (F.preposition _ (.var _)) fun _ => Hom.pure _ rfl
      · split
        · refine Hom.bind (F.prenexS _ _ _ _) fun sub => Hom.bind (Hom.newBinding _) fun _ => Hom.bind (Hom.newVariable _ _ _) fun _ =>
            Hom.bind (Hom.makeContentPred _) fun _ => Hom.bind Hom.get fun s => ?_
          rw [hasFreeVars_re]
          show Hom φ _ _ (if hasFreeVars s sub.1 = true then _ else _)
          split
          · exact Hom.bind (F.adverb _ _) fun _ => Hom.pure _ rfl
          · exact Hom.bind (Hom.setQuant _ _) fun _ => Hom.bind (Hom.modify fun _ => rfl) fun _ => Hom.bind (F.adverb _ _) fun _ => Hom.pure _ rfl
        · exact Hom.fail _
    cases t with
    | cop k a b ru l r =>
      cases k with
      | termSet =>
        cases l <;> cases r <;> try exact Hom.fail _
        rename_i ls rs
        simp only [reL, reQ, H.conn, happ]
        exact Hom.bind (Hom.orMsg _) fun _ => Hom.bind (F.prenexS _ _ _ _) fun _ => Hom.bind (F.prenexS _ _ _ _) fun _ => Hom.pure _ rfl
      | argument =>
        simp only [reL, reQ, H.conn, H.text]
        split
        · exact Hom.bind (F.roi _ _) fun _ => Hom.bind (F.prenexS _ _ _ _) fun _ => Hom.pure _ rfl
        · refine Hom.bind (Hom.assert (kinds_re g l).2.2.2.2.2.1) fun _ => Hom.bind (Hom.assert (kinds_re g r).2.2.2.2.2.1) fun _ =>
            Hom.bind (Hom.orMsg _) fun _ => Hom.bind (F.prenexS _ _ _ (l :: rest)) fun x => ?_
          show Hom φ _ _ (f.prenexS _ _ _ (reQ g φ r :: (reL g φ x.2).tail) >>= _)
          rw [htail]
          exact Hom.bind (F.prenexS _ _ _ (r :: _)) fun _ => Hom.pure _ rfl
      | _ => exact mods (.cop _ a b ru l r)
    | predArg id' focus quant p rel =>
      simp only [reL, reQ, hbi, reWO_isSome]
      exact Hom.bind (F.predArg (.predArg id' focus quant p rel)) fun _ => Hom.bind (F.prenexS _ _ _ _) fun _ => Hom.pure _ rfl
    | linked go arg =>
      simp only [reL, reQ]
      cases arg with
      | cop k a b ru l r =>
        cases k with
        | argument =>
          simp only [reQ, H.conn, H.text, H.goPos]
          split
          · exact Hom.bind (F.roi _ _) fun _ => Hom.bind (Hom.orMsg _) fun _ => Hom.bind (F.prenexS _ _ _ _) fun _ => Hom.pure _ rfl
          · refine Hom.bind (Hom.assert (kinds_re g l).2.2.2.2.1) fun _ => Hom.bind (Hom.assert (kinds_re g r).2.2.2.2.1) fun _ =>
              Hom.bind (Hom.orMsg _) fun _ => Hom.bind (F.prenexS _ _ _ (.linked go l :: rest)) fun x => ?_
            show Hom φ _ _ (f.prenexS _ _ _ (.linked (reW g φ go) (reQ g φ r) :: (reL g φ x.2).tail) >>= _)
            rw [htail]
            exact Hom.bind (F.prenexS _ _ _ (.linked go r :: _)) fun _ => Hom.pure _ rfl
        | _ => exact Hom.fail _
      | predArg id' focus quant p rel =>
        simp only [reQ, H.goPos]
        exact Hom.bind (F.predArg (.predArg id' focus quant p rel)) fun _ => Hom.bind (Hom.orMsg _) fun _ =>
          Hom.bind (F.prenexS _ _ _ _) fun _ => Hom.pure _ rfl
      | _ => exact Hom.fail _
    | predAdverb p => exact mods (.predAdverb p)
    | prep p a => exact mods (.prep p a)
    | _ => exact Hom.fail _

omit F H in
theorem noFns_re : FHom g φ noFns := by
  constructor <;> intros <;> exact Hom.fail _

theorem step_re : FHom g φ (step U f) where
  statement := statement_re H F
  predicate := predicate_re H F
  poArg := poArg_re H F
  prenexS := prenexS_re H F
  preposition := preposition_re H F
  predPrep := predPrep_re H F
  adverb := adverb_re H F
  roi := roi_re F
  roiL := roiL_re H F
  roiR := roiR_re H F
  predArg := predArg_re H F
  relClause := relClause_re H F

omit F in
theorem fns_re (k : Nat) : FHom g φ (fns U k) := by
  induction k with
  | zero => exact noFns_re
  | succ k ih => exact step_re H ih

/-! ### Texts -/

theorem sentence_re : ∀ n : AST.Node, Hom φ id (sentence U f n) (sentence U f (reQ g φ n))
  | .sentence _ st _ => by simp only [reQ, sentence]; exact sub_re F st
  | .cop .sentence _ _ ru l r => by
    simp only [reQ, sentence, H.text]
    split
    · exact Hom.bind (Hom.assert (kinds_re g l).1) fun _ => Hom.bind (sentence_re l) fun _ =>
        Hom.bind (Hom.assert (kinds_re g r).1) fun _ => Hom.bind (sentence_re r) fun _ => Hom.pure _ rfl
    · exact Hom.fail _
  | .cop .raw .. => Hom.fail _
  | .cop .statement .. => Hom.fail _
  | .cop .predicate .. => Hom.fail _
  | .cop .termSet .. => Hom.fail _
  | .cop .argument .. => Hom.fail _
  | .cop .relative .. => Hom.fail _
  | .cop .adverb .. => Hom.fail _
  | .cop .preposition .. => Hom.fail _
  | .cop .content .. => Hom.fail _
  | .text .. => Hom.fail _
  | .discourse .. => Hom.fail _
  | .prenex .. => Hom.fail _
  | .prenexStmt .. => Hom.fail _
  | .predication .. => Hom.fail _
  | .prefixed .. => Hom.fail _
  | .serial .. => Hom.fail _
  | .word .. => Hom.fail _
  | .mi .. => Hom.fail _
  | .po .. => Hom.fail _
  | .mo .. => Hom.fail _
  | .lu .. => Hom.fail _
  | .linked .. => Hom.fail _
  | .terms .. => Hom.fail _
  | .predArg .. => Hom.fail _
  | .predAdverb .. => Hom.fail _
  | .prep .. => Hom.fail _
  | .paren .. => Hom.fail _
  | .incidental .. => Hom.fail _
  | .vocative .. => Hom.fail _

theorem loop_re (d : List AST.Node) : ∀ o : Option Node, Hom φ id (discourseLoop U f d o) (discourseLoop U f (reL g φ d) o) := by
  induction d with
  | nil => intro o; exact Hom.pure _ rfl
  | cons n d ih =>
    intro o
    simp only [reL, discourseLoop, (kinds_re g n).1, (kinds_re g n).2.1]
    split
    · exact ih o
    · split
      · exact Hom.bind (sentence_re H F n) fun _ => ih _
      · exact Hom.fail _

omit F H in
mutual
theorem readAll_re (s : St) : ∀ n : Node, readAll (reSt φ s) n = readAll s n
  | .bind q id n f r st => by rw [readAll, readO_re s r, readAll_re s st]; rfl
  | .conn c l r => by rw [readAll, readAll_re s l, readAll_re s r]; rfl
  | .app p as => by rw [readAll, readAll_re s p, readL_re s as]; rfl
  | .var v => by rfl
  | .plural as => by rw [readAll, readL_re s as]; rfl
  | .quote t f => rfl
  | .name x => rfl
  | .abs st => by rw [readAll, readAll_re s st]; rfl
  | .serial l r => by rw [readAll, readAll_re s l, readAll_re s r]; rfl
  | .swap p k => by rw [readAll, readAll_re s p]; rfl
theorem readO_re (s : St) : ∀ o : Option Node, readO (reSt φ s) o = readO s o
  | none => rfl
  | some n => by rw [readO, readAll_re s n]; rfl
theorem readL_re (s : St) : ∀ l : List (Option Node), readL (reSt φ s) l = readL s l
  | [] => rfl
  | a :: as => by rw [readL, readO_re s a, readL_re s as]; rfl
end

theorem discourse_re (d : List AST.Node) : discourse U f (reL g φ d) = discourse U f d := by
  unfold discourse
  have h := loop_re H F d none {}
  have e : reSt φ {} = {} := rfl
  rw [e] at h
  rw [h]
  cases discourseLoop U f d none {} with
  | error x => rfl
  | ok p =>
    obtain ⟨o, s⟩ := p
    cases o with
    | none => rfl
    | some st =>
      simp only [Except.map, id]
      rw [readAll_re]
      rfl

end
end Verif.Logic
