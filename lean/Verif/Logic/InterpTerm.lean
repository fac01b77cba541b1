/-
C34: the interpreter terminates on every syntax tree.
-/
import Verif.Logic.Interp

namespace Verif.Logic
open Verif.Tone (Str)

/-! ## Reasoning about runs -/

/-- Run `m` in state `s`: a result satisfies `P`, a failure satisfies `E`. -/
def Post {α : Type} (m : M α) (s : St) (E : Err → Prop) (P : α → St → Prop) : Prop :=
  match m s with
  | .ok (a, s') => P a s'
  | .error e => E e

section
variable {α β : Type} {s : St} {E : Err → Prop}

theorem Post.mono {m : M α} {P Q : α → St → Prop} (h : Post m s E P)
    (hpq : ∀ a s', P a s' → Q a s') : Post m s E Q := by
  unfold Post at *
  split
  · next a s' heq => rw [heq] at h; exact hpq _ _ h
  · next e heq => rw [heq] at h; exact h

theorem Post.imp {m : M α} {P Q : α → St → Prop} {E' : Err → Prop} (h : Post m s E P)
    (hE : ∀ e, E e → E' e) (hpq : ∀ a s', P a s' → Q a s') : Post m s E' Q := by
  unfold Post at *
  split
  · next a s' heq => rw [heq] at h; exact hpq _ _ h
  · next e heq => rw [heq] at h; exact hE _ h

@[simp] theorem post_pure (a : α) (P : α → St → Prop) : Post (pure a : M α) s E P ↔ P a s := Iff.rfl

@[simp] theorem post_bind (m : M α) (g : α → M β) (P : β → St → Prop) :
    Post (m >>= g) s E P ↔ Post m s E (fun a s' => Post (g a) s' E P) := by
  show Post (M.bind m g) s E P ↔ _
  unfold Post M.bind
  cases m s with
  | error e => rfl
  | ok r => rfl

@[simp] theorem post_fail (e : Err) (P : α → St → Prop) : Post (fail e : M α) s E P ↔ E e := Iff.rfl
@[simp] theorem post_get (P : St → St → Prop) : Post get s E P ↔ P s s := Iff.rfl
@[simp] theorem post_modify (g : St → St) (P : Unit → St → Prop) :
    Post (modify g) s E P ↔ P () (g s) := Iff.rfl

@[simp] theorem post_orMsg (o : Option α) (P : α → St → Prop) :
    Post (orMsg o) s E P ↔ (o = none → E .msg) ∧ ∀ a, o = some a → P a s := by
  cases o <;> simp [orMsg]

@[simp] theorem post_orRt (o : Option α) (P : α → St → Prop) :
    Post (orRt o) s E P ↔ (o = none → E .rt) ∧ ∀ a, o = some a → P a s := by
  cases o <;> simp [orRt]

@[simp] theorem post_assert (p : AST.Node → Bool) (n : AST.Node) (P : Unit → St → Prop) :
    Post (assert p n) s E P ↔ (p n = false → E .rt) ∧ (p n = true → P () s) := by
  unfold assert
  cases p n <;> simp

@[simp] theorem post_keepVars (m : M α) (P : α → St → Prop) :
    Post (keepVars m) s E P ↔ Post m s E (fun a s' => P a { s' with vars := s.vars }) := by
  unfold Post keepVars
  cases m s with
  | error e => rfl
  | ok r => rfl

theorem post_ite (c : Prop) [Decidable c] (a b : M α) (P : α → St → Prop) :
    Post (if c then a else b) s E P ↔ (c → Post a s E P) ∧ (¬ c → Post b s E P) := by
  by_cases h : c <;> simp [h]

@[simp] theorem post_inHoa (b : Option Nat) (m : M α) (P : α → St → Prop) :
    Post (inHoa b m) s E P ↔
      match b with
      | none => Post m s E P
      | some b => Post m { s with hoa := b :: s.hoa } E
        (fun a s' => P a { s' with hoa := s'.hoa.tail }) := by
  cases b with
  | none => rfl
  | some b => unfold inHoa; simp

@[simp] theorem post_newVar (P : Nat → St → Prop) :
    Post newVar s E P ↔ P s.n { s with n := s.n + 1 } := Iff.rfl
@[simp] theorem post_newBinding (q : Quant) (P : Nat → St → Prop) :
    Post (newBinding q) s E P ↔
      P s.n { s with n := s.n + 1, quants := (s.n, q) :: s.quants } := Iff.rfl
@[simp] theorem post_setQuant (b : Nat) (q : Quant) (P : Unit → St → Prop) :
    Post (setQuant b q) s E P ↔ P () { s with quants := (b, q) :: s.quants } := Iff.rfl
@[simp] theorem post_newVariable (n : Nat) (d : Option Nat) (fc : Bool) (P : Node → St → Prop) :
    Post (newVariable n d fc) s E P ↔ P (.var ⟨.mk s.nv, n, d, fc⟩) { s with nv := s.nv + 1 } :=
  Iff.rfl

@[simp] theorem post_makeLambda (p a : Node) (P : Node → St → Prop) :
    Post (makeLambda p a) s E P ↔ P (.abs (.bind .lambda s.n s.n false none
        (.app p [some (.var ⟨.mk s.nv, s.n, some s.n, false⟩), some a])))
      { s with n := s.n + 1, quants := (s.n, .lambda) :: s.quants, nv := s.nv + 1 } := by
  unfold makeLambda
  simp
@[simp] theorem post_makeContentPred (st : Node) (P : Node → St → Prop) :
    Post (makeContentPred st) s E P ↔ P (.abs (.bind .lambda s.n s.n false none
        (.app (.name equalName) [some (.var ⟨.mk s.nv, s.n, some s.n, false⟩), some (.abs st)])))
      { s with n := s.n + 1, quants := (s.n, .lambda) :: s.quants, nv := s.nv + 1 } := by
  unfold makeContentPred
  simp
@[simp] theorem post_pushVar (x : Str) (q : Quant) (P : Nat → St → Prop) :
    Post (pushVar x q) s E P ↔ P s.n { s with
      n := s.n + 1, quants := (s.n, q) :: s.quants, vars := (x, s.n) :: s.vars } := by
  unfold pushVar
  simp
theorem post_lookupVar (x : Str) (P : Nat × Option Nat → St → Prop) :
    Post (lookupVar x) s E P ↔ (∀ b, s.vars.lookup x = some b → P (b, some b) s) ∧
      (s.vars.lookup x = none → P (s.n, none) { s with n := s.n + 1 }) := by
  unfold Post lookupVar
  cases h : s.vars.lookup x <;> simp

/-- Running the wrapped function in a subordinate clause. -/
theorem post_subordinate (g : M Node) (P : Node → St → Prop) :
    Post (subordinate g) s E P ↔ Post g { s with hi := [] :: s.hi } E (fun st s' =>
      let r := bindHi (s'.hi.headD []).reverse (s'.vars.map (·.2)) st s'
      P r.1 { r.2 with hi := s.hi }) := by
  unfold Post subordinate
  cases g { s with hi := [] :: s.hi } with
  | error e => rfl
  | ok r => rfl

end

/-! ## The measure -/

mutual
/-- The weight of a syntax tree: how deep the interpreter may recurse on it. -/
def W : AST.Node → Nat
  | .text _ d => 10 + WL d
  | .discourse d => 10 + WL d
  | .sentence _ st _ => 10 + W st
  | .cop _ _ _ _ l r => 10 + W l + W r
  | .prenex ts _ => 10 + WL ts
  | .prenexStmt ts _ st => 10 + WL ts + W st
  | .predication _ p ts _ => 10 + W p + WOL ts
  | .prefixed _ p => 10 + W p
  | .serial l r => 10 + W l + W r
  | .word _ _ => 10
  | .mi _ _ _ => 10
  | .po _ _ a => 10 + W a
  | .mo _ _ _ => 10
  | .lu _ _ st => 10 + W st
  | .linked _ a => 10 + W a
  | .terms ts => 10 + WL ts
  | .predArg _ _ _ p rel => 10 + W p + WO rel
  | .predAdverb p => 10 + W p
  | .prep p a => 10 + W p + W a
  | .paren _ _ _ => 10
  | .incidental _ _ => 10
  | .vocative _ _ => 10
def WO : Option AST.Node → Nat
  | none => 0
  | some n => W n
def WL : List AST.Node → Nat
  | [] => 0
  | n :: ns => W n + WL ns
/-- The terms of a predication, which is rewritten to a prenex statement. -/
def WOL : Option (List AST.Node) → Nat
  | none => 0
  | some ts => 20 + WL ts
end

theorem W_ge (n : AST.Node) : 10 ≤ W n := by cases n <;> simp [W] <;> omega

theorem WL_append (l r : List AST.Node) : WL (l ++ r) = WL l + WL r := by
  induction l with
  | nil => simp [WL]
  | cons a l ih => simp [WL, ih]; omega

theorem WL_tail_le (l : List AST.Node) : WL l.tail ≤ WL l := by
  cases l <;> simp [WL]

/-- The weight of what is left to do after a preposition. -/
def WA : Arg0 → Nat
  | .var _ => 0
  | .tail _ _ st ts => WL ts + W st

/-- Not out of fuel. -/
def NF (e : Err) : Prop := e ≠ .fuel

/-- With `f`, calls of weight below `k` do not run out of fuel, and the terms left behind by those
that overwrite them are not heavier than before. -/
structure Good (k : Nat) (f : Fns) : Prop where
  statement : ∀ as n s, W n + 2 < k → Post (f.statement as n) s NF fun _ _ => True
  predicate : ∀ n s, W n + 3 < k → Post (f.predicate n) s NF fun _ _ => True
  poArg : ∀ p a n s, W n + 1 < k → Post (f.poArg p a n) s NF fun _ _ => True
  prenexS : ∀ as bi st ts s, WL ts + W st + 8 < k → Post (f.prenexS as bi st ts) s NF
    fun r _ => WL r.2 ≤ WL ts ∧ WL r.2.tail ≤ WL ts.tail
  preposition : ∀ n a s, W n + WA a + 1 < k → Post (f.preposition n a) s NF
    fun r _ => WL r.2 ≤ WL a.terms
  predPrep : ∀ p a n s, W p + W n + WA a < k → Post (f.predPrep p a n) s NF
    fun r _ => WL r.2 ≤ WL a.terms
  adverb : ∀ n a s, W n + 1 < k → Post (f.adverb n a) s NF fun _ _ => True
  roi : ∀ l r s, W l + W r + 2 < k → Post (f.roi l r) s NF fun _ _ => True
  roiL : ∀ x l r s, W l + W r + 1 < k → Post (f.roiL x l r) s NF fun _ _ => True
  roiR : ∀ x l r s, W r + 1 < k → Post (f.roiR x l r) s NF fun _ _ => True
  predArg : ∀ n s, W n < k → Post (f.predArg n) s NF fun _ _ => True
  relClause : ∀ b n s, W n + 3 < k → Post (f.relClause b n) s NF fun _ _ => True

theorem good_zero : Good 0 noFns := by
  constructor <;> intros <;> omega

@[simp] theorem NF_msg : NF .msg := by simp [NF]
@[simp] theorem NF_rt : NF .rt := by simp [NF]

theorem post_distribute {E : Err → Prop} (hE : E .rt) (args : Args) (t : PTree) (s : St) :
    Post (distribute args t) s E fun _ _ => True := by
  induction t generalizing s with
  | leaf p => simp [distribute, hE]
  | conn c l r ihl ihr =>
    simp only [distribute, post_bind]
    refine (ihl s).mono fun _ s' _ => (ihr s').mono fun _ _ _ => ?_
    simp

/-- The rules for runs. -/
macro "posts" : tactic => `(tactic| try simp only [post_bind, post_pure, post_fail, post_get,
  post_modify, post_orMsg, post_orRt, post_assert, post_keepVars, post_inHoa, post_newVar,
  post_newBinding, post_setQuant, post_newVariable, post_makeLambda, post_makeContentPred,
  post_pushVar, post_lookupVar, post_subordinate, post_ite, NF_msg, NF_rt,
  implies_true, true_and, and_true])

/-- Solve the side condition of a call. -/
macro "wt" : tactic => `(tactic| (
  try simp only [W, WL, WO, WOL, WA, Arg0.setTerms, WL_append] at *
  omega))

section
variable {U : Uni} {f : Fns} {k : Nat} (H : Good k f)
include H

theorem post_predication (p : AST.Node) (args : Args) (s : St) (hk : W p + 3 < k) :
    Post (predication f p args) s NF fun _ _ => True := by
  unfold predication
  posts
  refine (H.predicate _ _ hk).mono fun _ _ _ => post_distribute NF_rt _ _ _

theorem good_statement (as : Args) (n : AST.Node) (s : St) (hk : W n + 2 < k + 1) :
    Post (statementF U f as n) s NF fun _ _ => True := by
  unfold statementF
  posts
  split <;> posts
  · refine (H.prenexS _ _ _ _ _ (by wt)).mono fun _ _ _ => trivial
  · exact post_predication H _ _ _ (by wt)
  · exact H.statement _ _ _ (by wt)
  · intro _ _ _
    refine (H.statement _ _ _ (by wt)).mono fun _ _ _ _ => ?_
    exact (H.statement _ _ _ (by wt)).mono fun _ _ _ => trivial

theorem post_subStatement (n : AST.Node) (s : St) (hk : W n + 2 < k) :
    Post (subStatement f n) s NF fun _ _ => True := by
  unfold subStatement
  posts
  exact (H.statement _ _ _ hk).mono fun _ _ _ => trivial

theorem good_predicate (n : AST.Node) (s : St) (hk : W n + 3 < k + 1) :
    Post (predicateF U f n) s NF fun _ _ => True := by
  unfold predicateF
  split <;> posts
  · split
    · posts
    · posts
      intro _
      split <;> posts
  · intro _
    refine (H.predicate _ _ (by wt)).mono fun _ _ _ _ => ?_
    exact (H.predicate _ _ (by wt)).mono fun _ _ _ => trivial
  · intro _ _
    exact (H.poArg _ _ _ _ (by wt)).mono fun _ _ _ => trivial
  · constructor <;> intro _
    · exact (post_subStatement H _ _ (by wt)).mono fun _ _ _ => trivial
    · exact (post_subStatement H _ _ (by wt)).mono fun _ _ _ => trivial
  · intro _ _ _
    refine (H.predicate _ _ (by wt)).mono fun _ _ _ _ => ?_
    exact (H.predicate _ _ (by wt)).mono fun _ _ _ => trivial
  · intro _ _ _
    refine (H.predicate _ _ (by wt)).mono fun _ _ _ _ => ?_
    exact (H.predicate _ _ (by wt)).mono fun _ _ _ => trivial
  · exact (post_subStatement H _ _ (by wt)).mono fun _ _ _ => trivial
  · exact (post_subStatement H _ _ (by wt)).mono fun _ _ _ => trivial

theorem good_poArg (p a : Node) (n : AST.Node) (s : St) (hk : W n + 1 < k + 1) :
    Post (poArgF U f p a n) s NF fun _ _ => True := by
  unfold poArgF
  posts
  split <;> posts
  · exact (H.predArg _ _ (by wt)).mono fun _ _ _ => trivial
  · constructor <;> intro _
    · exact (H.roi _ _ _ (by wt)).mono fun _ _ _ => trivial
    · intro _ _ _
      refine (H.poArg _ _ _ _ (by wt)).mono fun _ _ _ _ => ?_
      exact (H.poArg _ _ _ _ (by wt)).mono fun _ _ _ => trivial

theorem good_prenexS (as : Args) (bi : Str) (st : AST.Node) (ts : List AST.Node) (s : St)
    (hk : WL ts + W st + 8 < k + 1) :
    Post (prenexSF U f as bi st ts) s NF
      fun r _ => WL r.2 ≤ WL ts ∧ WL r.2.tail ≤ WL ts.tail := by
  unfold prenexSF
  posts
  split
  · posts
    exact (H.statement _ _ _ (by wt)).mono fun _ _ _ => by simp
  · next t rest =>
    have hst := W_ge st
    have ht := W_ge t
    split
    · split
      · posts
        intro _ _
        refine (H.prenexS _ _ _ _ _ (by wt)).mono fun _ _ _ => ?_
        exact (H.prenexS _ _ _ _ _ (by wt)).mono fun _ _ _ => by simp
      · posts
    · next l r =>
      posts
      constructor <;> intro _
      · refine (H.roi _ _ _ (by wt)).mono fun _ _ _ => ?_
        refine (H.prenexS _ _ _ _ _ (by wt)).mono fun r _ h => ?_
        simp only [WL, List.tail_cons]
        omega
      · intro _ _ _ _
        have hl := W_ge l
        refine (H.prenexS _ _ _ _ _ (by wt)).mono fun ln _ h => ?_
        simp only [List.tail_cons] at h
        refine (H.prenexS _ _ _ _ _ (by wt)).mono fun rn _ h' => ?_
        simp only [WL, List.tail_cons, W] at *
        omega
    · posts
      refine (H.predArg _ _ (by wt)).mono fun _ _ _ => ?_
      refine (H.prenexS _ _ _ _ _ (by wt)).mono fun r _ h => ?_
      simp only [WL, List.tail_cons]
      omega
    · split
      · next l r =>
        posts
        constructor <;> intro _
        · refine (H.roi _ _ _ (by wt)).mono fun _ _ _ => ?_
          posts
          intro _ _
          refine (H.prenexS _ _ _ _ _ (by wt)).mono fun r _ h => ?_
          simp only [WL, List.tail_cons]
          omega
        · intro _ _ _ _
          have hl := W_ge l
          refine (H.prenexS _ _ _ _ _ (by wt)).mono fun ln _ h => ?_
          simp only [List.tail_cons] at h
          refine (H.prenexS _ _ _ _ _ (by wt)).mono fun rn _ h' => ?_
          simp only [WL, List.tail_cons, W] at *
          omega
      · posts
        refine (H.predArg _ _ (by wt)).mono fun _ _ _ => ?_
        posts
        intro _ _
        refine (H.prenexS _ _ _ _ _ (by wt)).mono fun r _ h => ?_
        simp only [WL, List.tail_cons]
        omega
      · posts
    · posts
      constructor <;> intro _
      · refine (H.prenexS _ _ _ _ _ (by wt)).mono fun r _ h => ?_
        constructor <;> intro _
        · refine (H.preposition _ _ _ (by wt)).mono fun r _ h => ?_
          simp only [WL, List.tail_cons, Arg0.terms] at *
          omega
        · refine (H.preposition _ _ _ (by wt)).mono fun _ _ _ => ?_
          simp only [WL, List.tail_cons]
          omega
      · intro _
        refine (H.prenexS _ _ _ _ _ (by wt)).mono fun r _ h => ?_
        constructor <;> intro _ <;>
        · refine (H.adverb _ _ _ (by wt)).mono fun _ _ _ => ?_
          simp only [WL, List.tail_cons]
          omega

theorem good_preposition (n : AST.Node) (a : Arg0) (s : St) (hk : W n + WA a + 1 < k + 1) :
    Post (prepositionF U f n a) s NF fun r _ => WL r.2 ≤ WL a.terms := by
  unfold prepositionF
  posts
  split <;> posts
  · exact H.predPrep _ _ _ _ (by wt)
  · next l r =>
    intro _ _ _
    have hl := W_ge l
    refine (H.preposition _ _ _ (by wt)).mono fun ln _ h _ => ?_
    have : WA (a.setTerms ln.2) ≤ WA a ∧ WL (a.setTerms ln.2).terms ≤ WL a.terms := by
      cases a <;> simp [Arg0.setTerms, WA, Arg0.terms] at * <;> omega
    exact (H.preposition _ _ _ (by wt)).mono fun _ _ h' => by omega

theorem good_predPrepEnd (p : AST.Node) (a : Arg0) (b : Option Pending) (x : Node) (s : St)
    (hk : W p + WA a + 9 < k) :
    Post (predPrepEnd f p a b x) s NF fun r _ => WL r.2 ≤ WL a.terms := by
  unfold predPrepEnd
  have hp := W_ge p
  split <;> posts
  · exact (post_predication H _ _ _ (by wt)).mono fun _ _ _ => by simp [WL]
  · refine (H.prenexS _ _ _ _ _ (by wt)).mono fun r _ h => ?_
    posts
    exact (post_predication H _ _ _ (by wt)).mono fun _ _ _ => h.1

theorem good_predPrep (p : AST.Node) (a : Arg0) (n : AST.Node) (s : St)
    (hk : W p + W n + WA a < k + 1) :
    Post (predPrepF U f p a n) s NF fun r _ => WL r.2 ≤ WL a.terms := by
  unfold predPrepF
  have hp := W_ge p
  posts
  split <;> posts
  · next q _ =>
    have hq := W_ge q
    refine (H.predArg _ _ (by wt)).mono fun _ _ _ => ?_
    exact (good_predPrepEnd H _ _ _ _ _ (by wt))
  · next l r =>
    have hl := W_ge l
    have hr := W_ge r
    constructor <;> intro _
    · refine (H.roi _ _ _ (by wt)).mono fun _ _ _ => ?_
      exact (good_predPrepEnd H _ _ _ _ _ (by wt))
    · intro _ _ _
      refine (H.predPrep _ _ _ _ (by wt)).mono fun ln _ h => ?_
      have : WA (a.setTerms ln.2) ≤ WA a ∧ WL (a.setTerms ln.2).terms ≤ WL a.terms := by
        cases a <;> simp [Arg0.setTerms, WA, Arg0.terms] at * <;> omega
      exact (H.predPrep _ _ _ _ (by wt)).mono fun _ _ h' => by omega

theorem good_adverb (n : AST.Node) (a : Node) (s : St) (hk : W n + 1 < k + 1) :
    Post (adverbF U f n a) s NF fun _ _ => True := by
  unfold adverbF
  posts
  split <;> posts
  · exact post_predication H _ _ _ (by wt)
  · intro _ _ _
    refine (H.adverb _ _ _ (by wt)).mono fun _ _ _ _ => ?_
    exact (H.adverb _ _ _ (by wt)).mono fun _ _ _ => trivial

theorem good_roi (l r : AST.Node) (s : St) (hk : W l + W r + 2 < k + 1) :
    Post (roiF f l r) s NF fun _ _ => True := by
  unfold roiF
  posts
  intro _ _
  exact (H.roiL _ _ _ _ (by wt)).mono fun _ _ _ => trivial

theorem good_roiL (x : Node) (l r : AST.Node) (s : St) (hk : W l + W r + 1 < k + 1) :
    Post (roiLF U f x l r) s NF fun _ _ => True := by
  unfold roiLF
  have hr := W_ge r
  split <;> posts
  · constructor <;> intro _
    · refine (H.roi _ _ _ (by wt)).mono fun _ _ _ => ?_
      exact (H.roiR _ _ _ _ (by wt)).mono fun _ _ _ => trivial
    · intro _ _ _
      refine (H.roiL _ _ _ _ (by wt)).mono fun _ _ _ _ => ?_
      exact (H.roiL _ _ _ _ (by wt)).mono fun _ _ _ => trivial
  · refine (H.predArg _ _ (by wt)).mono fun _ _ _ => ?_
    exact (H.roiR _ _ _ _ (by wt)).mono fun _ _ _ => trivial

theorem good_roiR (x l : Node) (r : AST.Node) (s : St) (hk : W r + 1 < k + 1) :
    Post (roiRF U f x l r) s NF fun _ _ => True := by
  unfold roiRF
  split <;> posts
  · constructor <;> intro _
    · exact (H.roi _ _ _ (by wt)).mono fun _ _ _ => trivial
    · intro _ _ _
      refine (H.roiR _ _ _ _ (by wt)).mono fun _ _ _ _ => ?_
      exact (H.roiR _ _ _ _ (by wt)).mono fun _ _ _ => trivial
  · exact (H.predArg _ _ (by wt)).mono fun _ _ _ => trivial

theorem good_predArg (n : AST.Node) (s : St) (hk : W n < k + 1) :
    Post (predArgF U f n) s NF fun _ _ => True := by
  unfold predArgF
  split <;> posts
  next p rel =>
  have hp := W_ge p
  split
  · posts
  · split
    · unfold varArg
      split <;> posts
      · intro _ _
        cases rel with
        | none => simp [relOnly]
        | some r =>
          unfold relOnly
          posts
          exact (H.relClause _ _ _ (by wt)).mono fun _ _ _ => trivial
      · cases rel with
        | none => simp
        | some r =>
          posts
          refine ⟨fun _ _ => ?_, fun _ => ?_⟩ <;>
          exact (H.relClause _ _ _ (by wt)).mono fun _ _ _ => trivial
    · split
      · unfold hoaArg
        posts
        split <;> posts
        split <;> posts
        cases rel with
        | none => simp
        | some r =>
          posts
          exact (H.relClause _ _ _ (by wt)).mono fun _ _ _ => trivial
      · unfold plainArg
        posts
        intro q _
        refine (post_predication H _ _ _ (by wt)).mono fun _ _ _ => ?_
        cases rel with
        | none =>
          simp only [andRel, post_pure]
          posts
          intro _ _
          split <;> posts
        | some r =>
          simp only [andRel, post_bind, post_pure]
          refine (H.relClause _ _ _ (by wt)).mono fun _ _ _ => ?_
          posts
          intro _ _
          split <;> posts

theorem good_relClause (b : Option Nat) (n : AST.Node) (s : St) (hk : W n + 3 < k + 1) :
    Post (relClauseF U f b n) s NF fun _ _ => True := by
  unfold relClauseF
  have hb : ∀ (s : St), Post (match n with
    | .predication .relative p ts na => subStatement f (.predication .raw p ts na)
    | .lu .relative _ st => subStatement f st
    | .cop .relative _ _ ru l r => do
      let c ← orMsg (connector U ru.T)
      assert isRelative l
      let l ← f.relClause none l
      assert isRelative r
      let r ← f.relClause none r
      return .conn c l r
    | _ => fail .msg) s NF fun _ _ => True := by
    intro s
    split <;> posts
    · exact post_subStatement H _ _ (by wt)
    · exact post_subStatement H _ _ (by wt)
    · intro _ _ _
      refine (H.relClause _ _ _ (by wt)).mono fun _ _ _ _ => ?_
      exact (H.relClause _ _ _ (by wt)).mono fun _ _ _ => trivial
  posts
  cases b with
  | none => exact hb _
  | some b => exact (hb _).mono fun _ _ _ => trivial

theorem good_step : Good (k + 1) (step U f) where
  statement := good_statement H
  predicate := good_predicate H
  poArg := good_poArg H
  prenexS := good_prenexS H
  preposition := good_preposition H
  predPrep := good_predPrep H
  adverb := good_adverb H
  roi := good_roi H
  roiL := good_roiL H
  roiR := good_roiR H
  predArg := good_predArg H
  relClause := good_relClause H

end

theorem good_fns (U : Uni) (k : Nat) : Good k (fns U k) := by
  induction k with
  | zero => exact good_zero
  | succ k ih => exact good_step ih

/-! ## More fuel does not change the result -/

/-- `m'` behaves like `m`, unless `m` runs out of fuel. -/
def MLe {α : Type} (m m' : M α) : Prop := ∀ s, m s = .error .fuel ∨ m s = m' s

namespace MLe
variable {α β : Type}

theorem refl (m : M α) : MLe m m := fun _ => .inr rfl

theorem bind {m m' : M α} {g g' : α → M β} (h : MLe m m') (hg : ∀ a, MLe (g a) (g' a)) :
    MLe (m >>= g) (m' >>= g') := by
  intro s
  show M.bind m g s = _ ∨ M.bind m g s = M.bind m' g' s
  unfold M.bind
  rcases h s with h | h
  · left; rw [h]
  · rw [← h]
    cases m s with
    | error e => right; rfl
    | ok r => exact hg r.1 r.2

theorem keepVars {m m' : M α} (h : MLe m m') : MLe (keepVars m) (keepVars m') := by
  intro s
  unfold Logic.keepVars
  rcases h s with h | h
  · left; rw [h]
  · right; rw [h]

theorem subordinate {m m' : M Node} (h : MLe m m') : MLe (subordinate m) (subordinate m') := by
  intro s
  unfold Logic.subordinate
  rcases h { s with hi := [] :: s.hi } with h | h
  · left; rw [h]
  · right; rw [h]

theorem inHoa {m m' : M α} (b : Option Nat) (h : MLe m m') :
    MLe (inHoa b m) (inHoa b m') := by
  cases b with
  | none => exact h
  | some b =>
    unfold Logic.inHoa
    exact bind (refl _) fun _ => bind h fun _ => refl _

theorem trans {m m' m'' : M α} (h : MLe m m') (h' : MLe m' m'') : MLe m m'' := by
  intro s
  rcases h s with h | h
  · exact .inl h
  · rw [h]; exact h' s

end MLe

structure FLe (f g : Fns) : Prop where
  statement : ∀ as n, MLe (f.statement as n) (g.statement as n)
  predicate : ∀ n, MLe (f.predicate n) (g.predicate n)
  poArg : ∀ p a n, MLe (f.poArg p a n) (g.poArg p a n)
  prenexS : ∀ as bi st ts, MLe (f.prenexS as bi st ts) (g.prenexS as bi st ts)
  preposition : ∀ n a, MLe (f.preposition n a) (g.preposition n a)
  predPrep : ∀ p a n, MLe (f.predPrep p a n) (g.predPrep p a n)
  adverb : ∀ n a, MLe (f.adverb n a) (g.adverb n a)
  roi : ∀ l r, MLe (f.roi l r) (g.roi l r)
  roiL : ∀ x l r, MLe (f.roiL x l r) (g.roiL x l r)
  roiR : ∀ x l r, MLe (f.roiR x l r) (g.roiR x l r)
  predArg : ∀ n, MLe (f.predArg n) (g.predArg n)
  relClause : ∀ b n, MLe (f.relClause b n) (g.relClause b n)

section
variable {U : Uni} {f g : Fns} (H : FLe f g)

/-- Go through a definition and apply the rules above. -/
macro "mle" H:ident : tactic => `(tactic| repeat' first
  | exact MLe.refl _
  | exact FLe.statement $H _ _
  | exact FLe.predicate $H _
  | exact FLe.poArg $H _ _ _
  | exact FLe.prenexS $H _ _ _ _
  | exact FLe.preposition $H _ _
  | exact FLe.predPrep $H _ _ _
  | exact FLe.adverb $H _ _
  | exact FLe.roi $H _ _
  | exact FLe.roiL $H _ _ _
  | exact FLe.roiR $H _ _ _
  | exact FLe.predArg $H _
  | exact FLe.relClause $H _ _
  | refine MLe.bind ?_ (fun _ => ?_)
  | refine MLe.keepVars ?_
  | refine MLe.subordinate ?_
  | refine MLe.inHoa _ ?_
  | split)

include H

theorem mle_predication (p : AST.Node) (as : Args) :
    MLe (predication f p as) (predication g p as) := by
  unfold predication
  mle H

theorem mle_subStatement (n : AST.Node) : MLe (subStatement f n) (subStatement g n) := by
  unfold subStatement
  mle H

theorem mle_andRel (x : Nat) (st : Node) (r : Option AST.Node) :
    MLe (andRel f x st r) (andRel g x st r) := by
  cases r <;> unfold andRel <;> mle H

theorem mle_relOnly (x : Nat) (r : Option AST.Node) :
    MLe (relOnly f x r) (relOnly g x r) := by
  cases r <;> unfold relOnly <;> mle H

theorem mle_varArg (x : Str) (q : Option AST.Word) (r : Option AST.Node) :
    MLe (varArg U f x q r) (varArg U g x q r) := by
  unfold varArg
  have := mle_relOnly H
  mle H
  exact this _ _

theorem mle_predPrepEnd (p : AST.Node) (a : Arg0) (b : Option Pending) (x : Node) :
    MLe (predPrepEnd f p a b x) (predPrepEnd g p a b x) := by
  unfold predPrepEnd
  mle H

theorem fle_step : FLe (step U f) (step U g) where
  statement as n := by
    show MLe (statementF U f as n) (statementF U g as n)
    unfold statementF
    mle H
  predicate n := by
    show MLe (predicateF U f n) (predicateF U g n)
    unfold predicateF
    have := mle_subStatement H
    mle H <;> exact this _
  poArg p a n := by
    show MLe (poArgF U f p a n) (poArgF U g p a n)
    unfold poArgF
    mle H
  prenexS as bi st ts := by
    show MLe (prenexSF U f as bi st ts) (prenexSF U g as bi st ts)
    unfold prenexSF
    mle H
  preposition n a := by
    show MLe (prepositionF U f n a) (prepositionF U g n a)
    unfold prepositionF
    mle H
  predPrep p a n := by
    show MLe (predPrepF U f p a n) (predPrepF U g p a n)
    unfold predPrepF
    have := mle_predPrepEnd H
    mle H <;> exact this _ _ _ _
  adverb n a := by
    show MLe (adverbF U f n a) (adverbF U g n a)
    unfold adverbF
    mle H
  roi l r := by
    show MLe (roiF f l r) (roiF g l r)
    unfold roiF
    mle H
  roiL x l r := by
    show MLe (roiLF U f x l r) (roiLF U g x l r)
    unfold roiLF
    mle H
  roiR x l r := by
    show MLe (roiRF U f x l r) (roiRF U g x l r)
    unfold roiRF
    mle H
  predArg n := by
    show MLe (predArgF U f n) (predArgF U g n)
    unfold predArgF
    mle H
    all_goals first
      | exact mle_andRel H _ _ _
      | exact mle_relOnly H _ _
      | exact mle_predication H _ _
      | exact mle_varArg H _ _ _
  relClause b n := by
    show MLe (relClauseF U f b n) (relClauseF U g b n)
    unfold relClauseF
    have := mle_subStatement H
    mle H <;> exact this _

end

theorem fle_zero (f : Fns) : FLe noFns f := by
  constructor <;> intros <;> intro _ <;> left <;> rfl

theorem fle_succ (U : Uni) (k : Nat) : FLe (fns U k) (fns U (k + 1)) := by
  induction k with
  | zero => exact fle_zero _
  | succ k ih => exact fle_step ih

end Verif.Logic
