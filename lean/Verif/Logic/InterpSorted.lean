/-
C50: the interpretation of any syntax tree is well-sorted: statements, arguments and predicates
stand where the Go types say. (Go's type system gives this for the Go program; in the model it is a
theorem.) It is what the termination of `simplify` needs.
-/
import Verif.Logic.InterpTerm

namespace Verif.Logic
open Verif.Tone (Str)

/-- Well-sorted pending bindings. -/
def PSorted (b : Pending) : Prop := sortedO .stmt b.restr = true

/-- The bindings waiting in the state are well-sorted. -/
def SSorted (s : St) : Prop := (∀ b ∈ s.the, PSorted b) ∧ ∀ l ∈ s.hi, ∀ b ∈ l, PSorted b

def ASorted (as : Args) : Prop := ∀ a ∈ as, sorted .arg a.1 = true

/-- The predicates of a connection are well-sorted. -/
def TSorted : PTree → Prop
  | .leaf p => sorted .pred p = true
  | .conn _ l r => TSorted l ∧ TSorted r

def Arg0.Sorted : Arg0 → Prop
  | .var a => sorted .arg a = true
  | .tail as _ _ _ => ASorted as

/-- Any failure. -/
def Any (_ : Err) : Prop := True

structure FSorted (f : Fns) : Prop where
  statement : ∀ as n s, ASorted as → SSorted s →
    Post (f.statement as n) s Any fun r s' => sorted .stmt r = true ∧ SSorted s'
  predicate : ∀ n s, SSorted s → Post (f.predicate n) s Any fun r s' => TSorted r ∧ SSorted s'
  poArg : ∀ p a n s, sorted .pred p = true → sorted .arg a = true → SSorted s →
    Post (f.poArg p a n) s Any fun r s' => sorted .stmt r = true ∧ SSorted s'
  prenexS : ∀ as bi st ts s, ASorted as → SSorted s →
    Post (f.prenexS as bi st ts) s Any fun r s' => sorted .stmt r.1 = true ∧ SSorted s'
  preposition : ∀ n a s, a.Sorted → SSorted s →
    Post (f.preposition n a) s Any fun r s' => sorted .stmt r.1 = true ∧ SSorted s'
  predPrep : ∀ p a n s, a.Sorted → SSorted s →
    Post (f.predPrep p a n) s Any fun r s' => sorted .stmt r.1 = true ∧ SSorted s'
  adverb : ∀ n a s, sorted .arg a = true → SSorted s →
    Post (f.adverb n a) s Any fun r s' => sorted .stmt r = true ∧ SSorted s'
  roi : ∀ l r s, SSorted s →
    Post (f.roi l r) s Any fun x s' => PSorted x.1 ∧ sorted .arg x.2 = true ∧ SSorted s'
  roiL : ∀ x l r s, sorted .arg x = true → SSorted s →
    Post (f.roiL x l r) s Any fun r s' => sorted .stmt r = true ∧ SSorted s'
  roiR : ∀ x l r s, sorted .arg x = true → sorted .arg l = true → SSorted s →
    Post (f.roiR x l r) s Any fun r s' => sorted .stmt r = true ∧ SSorted s'
  predArg : ∀ n s, SSorted s → Post (f.predArg n) s Any fun x s' =>
    (∀ b, x.1 = some b → PSorted b) ∧ sorted .arg x.2 = true ∧ SSorted s'
  relClause : ∀ b n s, SSorted s →
    Post (f.relClause b n) s Any fun r s' => sorted .stmt r = true ∧ SSorted s'

theorem fsorted_zero : FSorted noFns := by
  constructor <;> intros <;> trivial

theorem SSorted.congr {s s' : St} (h : SSorted s) (h1 : s'.the = s.the) (h2 : s'.hi = s.hi) :
    SSorted s' := by
  unfold SSorted at *
  rw [h1, h2]; exact h

theorem sorted_bindScope {b : Option Pending} {st : Node} (hb : ∀ x, b = some x → PSorted x)
    (h : sorted .stmt st = true) : sorted .stmt (bindScope b st) = true := by
  cases b with
  | none => exact h
  | some b => simp [bindScope, sorted, h]; exact hb b rfl

theorem clearHi_keeps (scope : List Nat) (b : Pending) (s : St) :
    (clearHi scope b s).the = s.the ∧ (clearHi scope b s).hi = s.hi ∧
    (clearHi scope b s).vars = s.vars ∧ (clearHi scope b s).hoa = s.hoa ∧
    (clearHi scope b s).quants = s.quants ∧ (clearHi scope b s).lifted = s.lifted ∧
    (clearHi scope b s).nv = s.nv := by
  unfold clearHi
  rw [visitO_eq]
  generalize preO b.restr = l
  induction l generalizing s with
  | nil => simp
  | cons x l ih =>
    rw [List.foldl_cons]
    obtain ⟨h1, h2, h3, h4, h5, h6, h7⟩ := ih (clearStep scope s x)
    rw [h1, h2, h3, h4, h5, h6, h7]
    unfold clearStep
    split
    · split <;> simp
    · simp

theorem bindHi_keeps (l : List Pending) (scope : List Nat) (st : Node) (s : St) :
    (bindHi l scope st s).2.the = s.the ∧ (bindHi l scope st s).2.hi = s.hi ∧
    (bindHi l scope st s).2.vars = s.vars ∧ (bindHi l scope st s).2.hoa = s.hoa ∧
    (bindHi l scope st s).2.quants = s.quants ∧ (bindHi l scope st s).2.lifted = s.lifted ∧
    (bindHi l scope st s).2.nv = s.nv := by
  induction l generalizing scope st s with
  | nil => simp [bindHi]
  | cons b l ih =>
    rw [bindHi]
    obtain ⟨h1, h2, h3, h4, h5, h6, h7⟩ :=
      ih (b.id :: scope) (bindScope (some b) st) (clearHi (b.id :: scope) b s)
    obtain ⟨g1, g2, g3, g4, g5, g6, g7⟩ := clearHi_keeps (b.id :: scope) b s
    rw [h1, h2, h3, h4, h5, h6, h7]
    exact ⟨g1, g2, g3, g4, g5, g6, g7⟩

theorem sorted_bindHi (l : List Pending) (scope : List Nat) (st : Node) (s : St)
    (hl : ∀ b ∈ l, PSorted b) (h : sorted .stmt st = true) :
    sorted .stmt (bindHi l scope st s).1 = true := by
  induction l generalizing scope st s with
  | nil => exact h
  | cons b l ih =>
    rw [bindHi]
    refine ih _ _ _ (fun b hb => hl b (by simp [hb])) ?_
    exact sorted_bindScope (fun x hx => by cases hx; exact hl b (by simp)) h

@[simp] theorem any_true (e : Err) : Any e = True := rfl

/-- The rules for runs whose failures do not matter. -/
macro "postz" : tactic => `(tactic| try simp only [post_bind, post_pure, post_fail, post_get,
  post_modify, post_orMsg, post_orRt, post_assert, post_keepVars, post_inHoa, post_newVar,
  post_newBinding, post_setQuant, post_newVariable, post_makeLambda, post_makeContentPred,
  post_pushVar, post_lookupVar, post_subordinate, post_ite, any_true, implies_true, true_and,
  and_true])

theorem ASorted.add {as : Args} (h : ASorted as) {a : Node} (ha : sorted .arg a = true) (p : Nat) :
    ASorted (as ++ [(a, p)]) := by
  intro x hx
  rcases List.mem_append.1 hx with hx | hx
  · exact h x hx
  · rw [List.mem_singleton] at hx; rw [hx]; exact ha

theorem orderPlace_mem : ∀ (as : Args) (l r : List (Option Node)), orderPlace as l = some r →
    ∀ x, some x ∈ r → some x ∈ l ∨ ∃ p, (x, p) ∈ as
  | [], l, r, h, x, hx => by cases h; exact .inl hx
  | (a, p) :: as, l, r, h, x, hx => by
    unfold orderPlace at h
    split at h
    · split at h
      · rcases orderPlace_mem as _ r h x hx with h' | ⟨q, h'⟩
        · rcases List.mem_or_eq_of_mem_set h' with h' | h'
          · exact .inl h'
          · cases h'; exact .inr ⟨p, by simp⟩
        · exact .inr ⟨q, by simp [h']⟩
      · cases h
    · rcases orderPlace_mem as _ r h x hx with h' | ⟨q, h'⟩
      · exact .inl h'
      · exact .inr ⟨q, by simp [h']⟩

theorem orderFill_mem : ∀ (as : Args) (i : Nat) (l r : List (Option Node)),
    orderFill as i l = some r → ∀ x, some x ∈ r → some x ∈ l ∨ ∃ p, (x, p) ∈ as
  | [], i, l, r, h, x, hx => by cases h; exact .inl hx
  | (a, p) :: as, i, l, r, h, x, hx => by
    unfold orderFill at h
    split at h
    · rcases orderFill_mem as _ _ r h x hx with h' | ⟨q, h'⟩
      · exact .inl h'
      · exact .inr ⟨q, by simp [h']⟩
    · split at h
      · cases h
      · rcases orderFill_mem as _ _ r h x hx with h' | ⟨q, h'⟩
        · rcases List.mem_or_eq_of_mem_set h' with h' | h'
          · exact .inl h'
          · cases h'; exact .inr ⟨p, by simp⟩
        · exact .inr ⟨q, by simp [h']⟩

/-- The arguments of a predication are among the given ones. -/
theorem order_mem {as : Args} {r : List (Option Node)} (h : orderArguments as = some r) :
    ∀ x, some x ∈ r → ∃ p, (x, p) ∈ as := by
  intro x hx
  unfold orderArguments at h
  split at h
  · cases h
  · next l hl =>
    rcases orderFill_mem _ _ _ _ h x hx with h' | h'
    · rcases orderPlace_mem _ _ _ hl x h' with h' | h'
      · have := List.eq_of_mem_replicate h'
        cases this
      · exact h'
    · exact h'

theorem sortedL_iff (as : List (Option Node)) :
    sortedL as = true ↔ ∀ x, some x ∈ as → sorted .arg x = true := by
  induction as with
  | nil => simp [sortedL]
  | cons a as ih => cases a <;> simp [sortedL, sortedO, ih]

theorem sorted_distribute {as : Args} (h : ASorted as) (t : PTree) (ht : TSorted t) (s : St)
    (hs : SSorted s) :
    Post (distribute as t) s Any fun r s' => sorted .stmt r = true ∧ SSorted s' := by
  induction t generalizing s with
  | leaf p =>
    unfold distribute
    postz
    intro r hr
    refine ⟨?_, hs⟩
    simp only [sorted, Bool.and_eq_true]
    refine ⟨ht, (sortedL_iff _).2 fun x hx => ?_⟩
    obtain ⟨q, hq⟩ := order_mem hr x hx
    exact h _ hq
  | conn c l r ihl ihr =>
    unfold distribute
    postz
    refine (ihl ht.1 s hs).mono fun l s h1 => ?_
    refine (ihr ht.2 s h1.2).mono fun r s h2 => ?_
    exact ⟨by simp [sorted, h1.1, h2.1], h2.2⟩

theorem sorted_serialRight {l : Node} (hl : sorted .pred l = true) (r : PTree) (hr : TSorted r) :
    TSorted (serialRight l r) := by
  induction r with
  | leaf r => simpa [serialRight, TSorted, sorted, hl] using hr
  | conn c a b iha ihb => exact ⟨iha hr.1, ihb hr.2⟩

theorem sorted_serialLeft {r : PTree} (hr : TSorted r) (l : PTree) (hl : TSorted l) :
    TSorted (serialLeft r l) := by
  induction l with
  | leaf l => exact sorted_serialRight hl r hr
  | conn c a b iha ihb => exact ⟨iha hl.1, ihb hl.2⟩

section
variable {U : Uni} {f : Fns} (H : FSorted f)
include H

theorem sorted_predication (p : AST.Node) {as : Args} (ha : ASorted as) (s : St) (hs : SSorted s) :
    Post (predication f p as) s Any fun r s' => sorted .stmt r = true ∧ SSorted s' := by
  unfold predication
  postz
  exact (H.predicate _ _ hs).mono fun t s ht => sorted_distribute ha t ht.1 s ht.2

theorem sorted_subStatement (n : AST.Node) (s : St) (hs : SSorted s) :
    Post (subStatement f n) s Any fun r s' => sorted .stmt r = true ∧ SSorted s' := by
  unfold subStatement
  postz
  refine (H.statement [] n { s with hi := [] :: s.hi } (by simp [ASorted]) ⟨hs.1, ?_⟩).mono
    fun r s' h => ?_
  · intro l hl
    rcases List.mem_cons.1 hl with rfl | hl
    · simp
    · exact hs.2 l hl
  · obtain ⟨h1, h2, _⟩ := bindHi_keeps (s'.hi.headD []).reverse (s'.vars.map (·.2)) r s'
    refine ⟨sorted_bindHi _ _ _ _ ?_ h.1, ?_, hs.2⟩
    · intro b hb
      rw [List.mem_reverse] at hb
      cases hh : s'.hi with
      | nil => simp [hh] at hb
      | cons l ls => exact h.2.2 l (by simp [hh]) b (by simpa [hh] using hb)
    · show ∀ b ∈ (bindHi _ _ _ _).2.the, _
      rw [h1]; exact h.2.1

theorem sorted_statement (as : Args) (n : AST.Node) (s : St) (ha : ASorted as) (hs : SSorted s) :
    Post (statementF U f as n) s Any fun r s' => sorted .stmt r = true ∧ SSorted s' := by
  unfold statementF
  postz
  split <;> postz
  · exact (H.prenexS _ _ _ _ _ ha hs).mono fun r s h => ⟨h.1, h.2.congr rfl rfl⟩
  · exact (sorted_predication H _ ha _ hs).mono fun r s h => ⟨h.1, h.2.congr rfl rfl⟩
  · exact (H.statement _ _ _ ha hs).mono fun r s h => ⟨h.1, h.2.congr rfl rfl⟩
  · intro _ _ _
    refine (H.statement _ _ _ ha hs).mono fun _ _ h1 _ => ?_
    refine (H.statement _ _ _ ha h1.2).mono fun _ _ h2 => ⟨?_, h2.2.congr rfl rfl⟩
    simp [sorted, h1.1, h2.1]

theorem sorted_predicate (n : AST.Node) (s : St) (hs : SSorted s) :
    Post (predicateF U f n) s Any fun r s' => TSorted r ∧ SSorted s' := by
  unfold predicateF
  split <;> postz
  · split
    · postz
      exact ⟨fun _ _ => ⟨rfl, hs.congr rfl rfl⟩, fun _ => ⟨rfl, hs.congr rfl rfl⟩⟩
    · postz
      refine ⟨fun _ => ?_, fun _ => ⟨rfl, hs⟩⟩
      split <;> postz <;> exact ⟨rfl, hs.congr rfl rfl⟩
  · intro _
    refine Post.mono (H.predicate _ _ hs) fun _ _ h1 _ => ?_
    refine Post.mono (H.predicate _ _ h1.2) fun _ _ h2 => ?_
    exact ⟨sorted_serialLeft h2.1 _ h1.1, h2.2⟩
  · intro p hp
    refine ⟨?_, hs.congr rfl rfl⟩
    have : sorted .pred p = true := by
      unfold miPred at hp
      simp only [switchText] at hp
      split at hp
      · cases hp; rfl
      · split at hp
        · cases hp; rfl
        · cases hp
    simp [TSorted, sorted, sortedO, sortedL, this]
  · intro _ _
    refine Post.mono (H.poArg _ _ _ _ (by rfl) (by rfl) (hs.congr (by rfl) (by rfl))) fun _ _ h => ?_
    exact ⟨by simp [TSorted, sorted, sortedO, h.1], h.2⟩
  · exact ⟨rfl, hs.congr rfl rfl⟩
  · constructor <;> intro _
    · refine Post.mono (sorted_subStatement H _ _ (SSorted.congr hs (by rfl) (by rfl))) fun _ _ h => ?_
      exact ⟨by simp [TSorted, sorted, sortedO, bindScope, h.1], h.2.congr rfl rfl⟩
    · exact Post.mono (sorted_subStatement H _ _ (hs.congr (by rfl) (by rfl))) fun _ _ h =>
        ⟨by simp [TSorted, sorted, h.1], h.2⟩
  · intro _ _ _
    refine Post.mono (H.predicate _ _ hs) fun _ _ h1 _ => ?_
    exact Post.mono (H.predicate _ _ h1.2) fun _ _ h2 => ⟨⟨h1.1, h2.1⟩, h2.2⟩
  · intro _ _ _
    refine Post.mono (H.predicate _ _ hs) fun _ _ h1 _ => ?_
    exact Post.mono (H.predicate _ _ h1.2) fun _ _ h2 => ⟨⟨h1.1, h2.1⟩, h2.2⟩
  · exact Post.mono (sorted_subStatement H _ _ hs) fun _ _ h =>
      ⟨by simp [TSorted, sorted, sortedO, sortedL, h.1], h.2.congr rfl rfl⟩
  · exact Post.mono (sorted_subStatement H _ _ hs) fun _ _ h =>
      ⟨by simp [TSorted, sorted, sortedO, sortedL, h.1], h.2.congr rfl rfl⟩

theorem sorted_poArg (p a : Node) (n : AST.Node) (s : St) (hp : sorted .pred p = true)
    (ha : sorted .arg a = true) (hs : SSorted s) :
    Post (poArgF U f p a n) s Any fun r s' => sorted .stmt r = true ∧ SSorted s' := by
  unfold poArgF
  postz
  split <;> postz
  · refine Post.mono (H.predArg _ _ hs) fun x _ h => ⟨sorted_bindScope h.1 ?_, h.2.2.congr rfl rfl⟩
    simp [sorted, sortedL, sortedO, hp, ha, h.2.1]
  · constructor <;> intro _
    · refine Post.mono (H.roi _ _ _ hs) fun x _ h => ⟨sorted_bindScope ?_ ?_, h.2.2.congr rfl rfl⟩
      · intro b hb; cases hb; exact h.1
      · simp [sorted, sortedL, sortedO, hp, ha, h.2.1]
    · intro _ _ _
      refine Post.mono (H.poArg _ _ _ _ hp ha hs) fun _ _ h1 _ => ?_
      refine Post.mono (H.poArg _ _ _ _ hp ha h1.2) fun _ _ h2 => ⟨?_, h2.2.congr rfl rfl⟩
      simp [sorted, h1.1, h2.1]

omit H in
theorem SSorted.addThe {s : St} (hs : SSorted s) {b : Pending} (hb : PSorted b) {s' : St}
    (h1 : s'.the = s.the ++ [b]) (h2 : s'.hi = s.hi) : SSorted s' := by
  refine ⟨?_, by rw [h2]; exact hs.2⟩
  rw [h1]
  intro x hx
  rcases List.mem_append.1 hx with hx | hx
  · exact hs.1 x hx
  · rw [List.mem_singleton] at hx; rw [hx]; exact hb

theorem sorted_prenexS (as : Args) (bi : Str) (st : AST.Node) (ts : List AST.Node) (s : St)
    (ha : ASorted as) (hs : SSorted s) :
    Post (prenexSF U f as bi st ts) s Any fun r s' => sorted .stmt r.1 = true ∧ SSorted s' := by
  unfold prenexSF
  postz
  split
  · postz
    refine Post.mono (H.statement _ _ _ ?_ hs) fun _ _ h => ⟨h.1, h.2.congr rfl rfl⟩
    split
    · exact ha
    · simp [ASorted]
  · next t rest =>
    split
    · split
      · postz
        intro _ _
        refine Post.mono (H.prenexS _ _ _ _ _ ha hs) fun _ _ h1 => ?_
        refine Post.mono (H.prenexS _ _ _ _ _ ha h1.2) fun _ _ h2 => ⟨?_, h2.2.congr rfl rfl⟩
        simp [sorted, h1.1, h2.1]
      · postz
    · postz
      constructor <;> intro _
      · refine Post.mono (H.roi _ _ _ hs) fun _ _ h1 => ?_
        refine Post.mono (H.prenexS _ _ _ _ _ (ha.add h1.2.1 _) h1.2.2) fun _ _ h2 => ?_
        refine ⟨sorted_bindScope ?_ h2.1, h2.2.congr rfl rfl⟩
        intro b hb; cases hb; exact h1.1
      · intro _ _ _ _
        refine Post.mono (H.prenexS _ _ _ _ _ ha hs) fun _ _ h1 => ?_
        refine Post.mono (H.prenexS _ _ _ _ _ ha h1.2) fun _ _ h2 => ⟨?_, h2.2.congr rfl rfl⟩
        simp [sorted, h1.1, h2.1]
    · postz
      refine Post.mono (H.predArg _ _ hs) fun x _ h1 => ?_
      refine Post.mono (H.prenexS _ _ _ _ _ (ha.add h1.2.1 _) h1.2.2) fun _ _ h2 => ?_
      refine ⟨sorted_bindScope ?_ h2.1, h2.2.congr rfl rfl⟩
      intro b hb
      simp only [Option.map_eq_some_iff] at hb
      obtain ⟨b', hb', rfl⟩ := hb
      have := h1.1 b' hb'
      split <;> exact this
    · split
      · postz
        constructor <;> intro _
        · refine Post.mono (H.roi _ _ _ hs) fun _ _ h1 => ?_
          intro _ _
          refine Post.mono (H.prenexS _ _ _ _ _ (ha.add h1.2.1 _) h1.2.2) fun _ _ h2 => ?_
          refine ⟨sorted_bindScope ?_ h2.1, h2.2.congr rfl rfl⟩
          intro b hb; cases hb; exact h1.1
        · intro _ _ _ _
          refine Post.mono (H.prenexS _ _ _ _ _ ha hs) fun _ _ h1 => ?_
          refine Post.mono (H.prenexS _ _ _ _ _ ha h1.2) fun _ _ h2 => ⟨?_, h2.2.congr rfl rfl⟩
          simp [sorted, h1.1, h2.1]
      · postz
        refine Post.mono (H.predArg _ _ hs) fun x _ h1 => ?_
        intro _ _
        refine Post.mono (H.prenexS _ _ _ _ _ (ha.add h1.2.1 _) h1.2.2) fun _ _ h2 => ?_
        exact ⟨sorted_bindScope h1.1 h2.1, h2.2.congr rfl rfl⟩
      · postz
    · postz
      constructor <;> intro _
      · refine Post.mono (H.prenexS _ _ _ _ _ ha hs) fun r s h => ?_
        constructor <;> intro _
        · exact Post.mono (H.preposition _ _ _ ha h.2) fun _ _ h => ⟨h.1, h.2.congr rfl rfl⟩
        · refine Post.mono (H.preposition _ _ _ (by rfl) (h.2.addThe ?_ (by rfl) (by rfl))) fun _ _ h => ⟨h.1, h.2.congr rfl rfl⟩
          simp [PSorted, sortedO, sorted, sortedL, h.1]
      · intro _
        refine Post.mono (H.prenexS _ _ _ _ _ ha hs) fun r s h => ?_
        constructor <;> intro _
        · refine Post.mono (H.adverb _ _ _ (by rfl) (h.2.congr rfl rfl)) fun _ _ h' => ?_
          refine ⟨sorted_bindScope ?_ h'.1, h'.2.congr rfl rfl⟩
          intro b hb; cases hb
          simp [PSorted, sortedO, sorted, sortedL, h.1]
        · refine Post.mono (H.adverb _ _ _ (by rfl) (h.2.addThe ?_ (by rfl) (by rfl))) fun _ _ h => ⟨h.1, h.2.congr rfl rfl⟩
          simp [PSorted, sortedO, sorted, sortedL, h.1]

omit H in
theorem setTerms_sorted {a : Arg0} {ts : List AST.Node} (h : a.Sorted) : (a.setTerms ts).Sorted := by
  cases a <;> exact h

theorem sorted_preposition (n : AST.Node) (a : Arg0) (s : St) (ha : a.Sorted) (hs : SSorted s) :
    Post (prepositionF U f n a) s Any fun r s' => sorted .stmt r.1 = true ∧ SSorted s' := by
  unfold prepositionF
  postz
  split <;> postz
  · exact Post.mono (H.predPrep _ _ _ _ ha hs) fun _ _ h => ⟨h.1, h.2.congr rfl rfl⟩
  · intro _ _ _
    refine Post.mono (H.preposition _ _ _ ha hs) fun _ _ h1 _ => ?_
    refine Post.mono (H.preposition _ _ _ (setTerms_sorted ha) h1.2) fun _ _ h2 => ⟨?_, h2.2.congr rfl rfl⟩
    simp [sorted, h1.1, h2.1]

theorem sorted_predPrepEnd (p : AST.Node) (a : Arg0) (b : Option Pending) (x : Node) (s : St)
    (ha : a.Sorted) (hb : ∀ y, b = some y → PSorted y) (hx : sorted .arg x = true) (hs : SSorted s) :
    Post (predPrepEnd f p a b x) s Any fun r s' => sorted .stmt r.1 = true ∧ SSorted s' := by
  have two : ∀ y, sorted .arg y = true → ASorted [(y, 0), (x, 0)] := by
    intro y hy z hz
    rcases List.mem_cons.1 hz with rfl | hz
    · exact hy
    · rw [List.mem_singleton] at hz; rw [hz]; exact hx
  unfold predPrepEnd
  split <;> postz
  · exact Post.mono (sorted_predication H _ (two _ ha) _ hs) fun _ _ h =>
      ⟨sorted_bindScope hb h.1, h.2⟩
  · refine Post.mono (H.prenexS _ _ _ _ _ ha hs) fun r _ h => ?_
    refine Post.mono (sorted_predication H _ (two _ (by rfl)) _ (h.2.congr rfl rfl)) fun _ _ h' => ?_
    refine ⟨sorted_bindScope hb (sorted_bindScope ?_ h'.1), h'.2⟩
    intro b hb; cases hb
    simp [PSorted, sortedO, sorted, sortedL, h.1]

theorem sorted_predPrep (p : AST.Node) (a : Arg0) (n : AST.Node) (s : St) (ha : a.Sorted)
    (hs : SSorted s) :
    Post (predPrepF U f p a n) s Any fun r s' => sorted .stmt r.1 = true ∧ SSorted s' := by
  unfold predPrepF
  postz
  split <;> postz
  · refine Post.mono (H.predArg _ _ hs) fun _ _ h1 => ?_
    exact Post.mono (sorted_predPrepEnd H _ _ _ _ _ ha h1.1 h1.2.1 h1.2.2) fun _ _ h =>
      ⟨h.1, h.2.congr rfl rfl⟩
  · constructor <;> intro _
    · refine Post.mono (H.roi _ _ _ hs) fun _ _ h1 => ?_
      refine Post.mono (sorted_predPrepEnd H _ _ _ _ _ ha ?_ h1.2.1 h1.2.2) fun _ _ h =>
        ⟨h.1, h.2.congr rfl rfl⟩
      intro b hb; cases hb; exact h1.1
    · intro _ _ _
      refine Post.mono (H.predPrep _ _ _ _ ha hs) fun _ _ h1 => ?_
      refine Post.mono (H.predPrep _ _ _ _ (setTerms_sorted ha) h1.2) fun _ _ h2 =>
        ⟨?_, h2.2.congr rfl rfl⟩
      simp [sorted, h1.1, h2.1]

theorem sorted_adverb (n : AST.Node) (a : Node) (s : St) (ha : sorted .arg a = true)
    (hs : SSorted s) :
    Post (adverbF U f n a) s Any fun r s' => sorted .stmt r = true ∧ SSorted s' := by
  unfold adverbF
  postz
  split <;> postz
  · exact Post.mono (sorted_predication H _ (by simpa [ASorted] using ha) _ hs) fun _ _ h =>
      ⟨h.1, h.2.congr rfl rfl⟩
  · intro _ _ _
    refine Post.mono (H.adverb _ _ _ ha hs) fun _ _ h1 _ => ?_
    refine Post.mono (H.adverb _ _ _ ha h1.2) fun _ _ h2 => ⟨?_, h2.2.congr rfl rfl⟩
    simp [sorted, h1.1, h2.1]

theorem sorted_roi (l r : AST.Node) (s : St) (hs : SSorted s) :
    Post (roiF f l r) s Any fun x s' => PSorted x.1 ∧ sorted .arg x.2 = true ∧ SSorted s' := by
  unfold roiF
  postz
  intro _ _
  exact Post.mono (H.roiL _ _ _ _ (by rfl) (hs.congr (by rfl) (by rfl))) fun _ _ h => ⟨h.1, rfl, h.2⟩

theorem sorted_roiL (x : Node) (l r : AST.Node) (s : St) (hx : sorted .arg x = true)
    (hs : SSorted s) :
    Post (roiLF U f x l r) s Any fun r s' => sorted .stmt r = true ∧ SSorted s' := by
  unfold roiLF
  split <;> postz
  · constructor <;> intro _
    · refine Post.mono (H.roi _ _ _ hs) fun _ _ h1 => ?_
      refine Post.mono (H.roiR _ _ _ _ hx h1.2.1 h1.2.2) fun _ _ h2 => ⟨sorted_bindScope ?_ h2.1, h2.2⟩
      intro b hb; cases hb; exact h1.1
    · intro _ _ _
      refine Post.mono (H.roiL _ _ _ _ hx hs) fun _ _ h1 _ => ?_
      refine Post.mono (H.roiL _ _ _ _ hx h1.2) fun _ _ h2 => ⟨?_, h2.2⟩
      simp [sorted, h1.1, h2.1]
  · refine Post.mono (H.predArg _ _ hs) fun _ _ h1 => ?_
    exact Post.mono (H.roiR _ _ _ _ hx h1.2.1 h1.2.2) fun _ _ h2 => ⟨sorted_bindScope h1.1 h2.1, h2.2⟩

theorem sorted_roiR (x l : Node) (r : AST.Node) (s : St) (hx : sorted .arg x = true)
    (hl : sorted .arg l = true) (hs : SSorted s) :
    Post (roiRF U f x l r) s Any fun r s' => sorted .stmt r = true ∧ SSorted s' := by
  unfold roiRF
  have key : ∀ a, sorted .arg a = true → sorted .stmt
      (.app (.name equalName) [some x, some (.plural [some l, some a])]) = true := by
    intro a ha; simp [sorted, sortedL, sortedO, hx, hl, ha]
  split <;> postz
  · constructor <;> intro _
    · refine Post.mono (H.roi _ _ _ hs) fun _ _ h1 => ⟨sorted_bindScope ?_ (key _ h1.2.1), h1.2.2⟩
      intro b hb; cases hb; exact h1.1
    · intro _ _ _
      refine Post.mono (H.roiR _ _ _ _ hx hl hs) fun _ _ h1 _ => ?_
      refine Post.mono (H.roiR _ _ _ _ hx hl h1.2) fun _ _ h2 => ⟨?_, h2.2⟩
      simp [sorted, h1.1, h2.1]
  · exact Post.mono (H.predArg _ _ hs) fun _ _ h1 => ⟨sorted_bindScope h1.1 (key _ h1.2.1), h1.2.2⟩

theorem sorted_andRel (x : Nat) (st : Node) (r : Option AST.Node) (s : St)
    (hst : sorted .stmt st = true) (hs : SSorted s) :
    Post (andRel f x st r) s Any fun r s' => sorted .stmt r = true ∧ SSorted s' := by
  unfold andRel
  cases r with
  | none => exact ⟨hst, hs⟩
  | some r =>
    postz
    exact Post.mono (H.relClause _ _ _ hs) fun _ _ h => ⟨by simp [sorted, hst, h.1], h.2⟩

theorem sorted_relOnly (x : Nat) (r : Option AST.Node) (s : St) (hs : SSorted s) :
    Post (relOnly f x r) s Any fun r s' => sortedO .stmt r = true ∧ SSorted s' := by
  unfold relOnly
  cases r with
  | none => exact ⟨rfl, hs⟩
  | some r =>
    postz
    exact Post.mono (H.relClause _ _ _ hs) fun _ _ h => h

theorem sorted_predArg (n : AST.Node) (s : St) (hs : SSorted s) :
    Post (predArgF U f n) s Any fun x s' =>
      (∀ b, x.1 = some b → PSorted b) ∧ sorted .arg x.2 = true ∧ SSorted s' := by
  unfold predArgF
  split <;> postz
  split
  · postz
    exact ⟨by simp, rfl, hs.congr rfl rfl⟩
  · split
    · unfold varArg
      split <;> postz
      · intro q _
        refine Post.mono (sorted_relOnly H _ _ _ (hs.congr (by rfl) (by rfl))) fun _ _ h => ⟨?_, rfl, h.2⟩
        intro b hb; cases hb; exact h.1
      · rename_i rel _ _ _ _ _ _ 
        cases rel with
        | none =>
          postz
          exact ⟨fun _ _ => ⟨by simp, rfl, hs.congr rfl rfl⟩, fun _ => ⟨by simp, rfl, hs.congr rfl rfl⟩⟩
        | some r =>
          postz
          refine ⟨fun _ _ => ?_, fun _ => ?_⟩ <;>
          · refine Post.mono (H.relClause _ _ _ (hs.congr (by rfl) (by rfl))) fun _ _ h => ⟨?_, rfl, h.2⟩
            intro b hb; cases hb
            simp [PSorted, sortedO, sorted, sortedL, h.1]
    · split
      · unfold hoaArg
        postz
        split <;> postz
        · exact ⟨by simp, rfl, hs.congr rfl rfl⟩
        · split <;> postz
          · exact ⟨by simp, rfl, hs.congr rfl rfl⟩
          · split <;> postz
            · refine ⟨?_, rfl, hs.congr rfl rfl⟩
              intro b hb; cases hb; rfl
            · refine Post.mono (H.relClause _ _ _ (hs.congr (by rfl) (by rfl))) fun _ _ h => ⟨?_, rfl, h.2⟩
              intro b hb; cases hb
              simp [PSorted, sortedO, sorted, sortedL, h.1]
      · unfold plainArg
        postz
        intro q _
        refine Post.mono (sorted_predication H _ (by simp [ASorted, sorted]) _ (hs.congr (by rfl) (by rfl))) fun _ _ h1 => ?_
        refine Post.mono (sorted_andRel H _ _ _ _ h1.1 h1.2) fun restr s' h2 => ?_
        refine ⟨fun _ => ⟨fun _ => ?_, fun _ => ?_⟩, fun _ => ⟨fun _ => ?_, fun _ => ?_⟩⟩
        · refine ⟨?_, rfl, h2.2.congr rfl rfl⟩
          intro b hb; cases hb; exact h2.1
        · exact ⟨by simp, rfl, h2.2.addThe (b := ⟨.the, _, false, some restr⟩) h2.1 rfl rfl⟩
        · split <;> postz
          next top his heq =>
          refine ⟨by simp, rfl, h2.2.1, ?_⟩
          intro l hl
          rcases List.mem_cons.1 hl with rfl | hl
          · intro b hb
            rcases List.mem_append.1 hb with hb | hb
            · exact h2.2.2 top (by simp [heq]) b hb
            · rw [List.mem_singleton] at hb; rw [hb]; exact h2.1
          · exact h2.2.2 l (by simp [heq, hl])
        · refine ⟨?_, rfl, h2.2⟩
          intro b hb; cases hb; exact h2.1

theorem sorted_relClause (b : Option Nat) (n : AST.Node) (s : St) (hs : SSorted s) :
    Post (relClauseF U f b n) s Any fun r s' => sorted .stmt r = true ∧ SSorted s' := by
  have hb : ∀ (s : St), SSorted s → Post (match n with
    | .predication .relative p ts na => subStatement f (.predication .raw p ts na)
    | .lu .relative _ st => subStatement f st
    | .cop .relative _ _ ru l r => do
      let c ← orMsg (connector U ru.T)
      assert isRelative l
      let l ← f.relClause none l
      assert isRelative r
      let r ← f.relClause none r
      return .conn c l r
    | _ => fail .msg) s Any fun r s' => sorted .stmt r = true ∧ SSorted s' := by
    intro s hs
    split <;> postz
    · exact sorted_subStatement H _ _ hs
    · exact sorted_subStatement H _ _ hs
    · intro _ _ _
      refine Post.mono (H.relClause _ _ _ hs) fun _ _ h1 _ => ?_
      refine Post.mono (H.relClause _ _ _ h1.2) fun _ _ h2 => ⟨?_, h2.2⟩
      simp [sorted, h1.1, h2.1]
  unfold relClauseF
  postz
  cases b with
  | none => exact (hb _ hs).mono fun _ _ h => ⟨h.1, h.2.congr rfl rfl⟩
  | some b => exact Post.mono (hb _ (hs.congr (by rfl) (by rfl))) fun _ _ h => ⟨h.1, h.2.congr rfl rfl⟩

theorem fsorted_step : FSorted (step U f) where
  statement := sorted_statement H
  predicate := sorted_predicate H
  poArg := sorted_poArg H
  prenexS := sorted_prenexS H
  preposition := sorted_preposition H
  predPrep := sorted_predPrep H
  adverb := sorted_adverb H
  roi := sorted_roi H
  roiL := sorted_roiL H
  roiR := sorted_roiR H
  predArg := sorted_predArg H
  relClause := sorted_relClause H

end

theorem fsorted_fns (U : Uni) (k : Nat) : FSorted (fns U k) := by
  induction k with
  | zero => exact fsorted_zero
  | succ k ih => exact fsorted_step ih

end Verif.Logic
