/- Property theorems about ast.Visit: C08, C09. -/
import Verif.AST.Model
import Verif.AST.Spec

namespace Verif.AST
open Spec

/-- Induction along `children`. -/
theorem children_induct {P : Node → Prop} (h : ∀ n, (∀ c ∈ children n, P c) → P n) : ∀ n, P n := by
  have hterms : ∀ ts, (∀ x ∈ ts, P x) → P (.terms ts) := fun ts hts => h _ (by simpa [children])
  have hdisc : ∀ d, (∀ x ∈ d, P x) → P (.discourse d) := fun d hd => h _ (by simpa [children])
  have hprenex : ∀ ts bi, (∀ x ∈ ts, P x) → P (wnode bi) → P (.prenex ts bi) := fun ts bi hts hbi =>
    h _ (by simp [children, hterms ts hts, hbi])
  refine (Node.induct (P := P) (Q := fun w => P (wnode w)) ?_ ?_ ?_ ?_ ?_ ?_ ?_ ?_ ?_ ?_ ?_ ?_ ?_ ?_ ?_
    ?_ ?_ ?_ ?_ ?_ ?_ ?_ ?_).1
  · intro t s e m hm; refine h _ ?_; clear h hterms hdisc hprenex; cases m <;> simp_all [children, optN]
  · intro l d hl hd; have hd' := hdisc d hd; refine h _ ?_; clear h hterms hdisc hprenex
    cases l <;> simp_all [children, optN]
  · intro d hd; exact hdisc d hd
  · intro je st da h1 h2 h3; refine h _ ?_; clear h hterms hdisc hprenex; cases je <;> cases da <;> simp_all [children, optW]
  · intro k to0 to1 ru l r h1 h2 h3 h4 h5
    have hraw : P (.cop .raw to0 to1 ru l r) := by
      refine h _ ?_
      clear h hterms hdisc hprenex
      cases to0 <;> cases to1 <;> simp_all [children, optW]
    cases k <;> first | exact hraw | exact h _ (by simpa [children] using hraw)
  · intro ts bi hts hbi; exact hprenex ts bi hts hbi
  · intro ts bi st hts hbi hst; exact h _ (by simp [children, hprenex ts bi hts hbi, hst])
  · intro k p ts na h1 h2 h3
    have hraw : P (.predication .raw p ts na) := by
      have : P (.terms (ts.getD [])) :=
        hterms _ (by clear h hterms hdisc hprenex; cases ts <;> simp_all)
      refine h _ ?_
      clear h hterms hdisc hprenex
      cases na <;> simp_all [children, optW]
    cases k <;> first | exact hraw | exact h _ (by simpa [children] using hraw)
  · intro mu p h1 h2; exact h _ (by simp [children, h1, h2])
  · intro l r h1 h2; exact h _ (by simp [children, h1, h2])
  · intro k w hw; cases k <;> first | exact hw | exact h _ (by simpa [children] using hw)
  · intro m ga ph h1 h2 h3; refine h _ ?_; clear h hterms hdisc hprenex; cases ga <;> simp_all [children, optW]
  · intro m ga ph h1 h2 h3; refine h _ ?_; clear h hterms hdisc hprenex; cases ga <;> simp_all [children, optW]
  · intro m teo d h1 h2 h3; exact h _ (by simp [children, h1, h2, hdisc d h3])
  · intro k l st h1 h2
    have hraw : P (.lu .raw l st) := h _ (by simp [children, h1, h2])
    cases k <;> first | exact hraw | exact h _ (by simpa [children] using hraw)
  · intro g a h1 h2; exact h _ (by simp [children, h1, h2])
  · intro ts hts; exact hterms ts hts
  · intro id focus quant p rel h1 h2 h3 h4
    refine h _ ?_
    clear h hterms hdisc hprenex
    cases focus <;> cases quant <;> cases rel <;> simp_all [children, optW, optN]
  · intro p hp; exact h _ (by simp [children, hp])
  · intro p a h1 h2; exact h _ (by simp [children, h1, h2])
  · intro kio ki d h1 h2 h3; exact h _ (by simp [children, h1, h2, hdisc d h3])
  · intro ju st h1 h2; exact h _ (by simp [children, h1, h2])
  · intro hu a h1 h2; exact h _ (by simp [children, h1, h2])

/-- Visit a list of nodes one after the other. -/
def visitAll {σ ν} (call : Visitor σ ν) : List Node → Walk σ ν
  | [] => .skip
  | n :: ns => visit call n ⟫ visitAll call ns

theorem seq_skip {σ ν} (a : Walk σ ν) : a ⟫ Walk.skip = a := rfl
theorem skip_seq {σ ν} (a : Walk σ ν) : Walk.skip ⟫ a = a := rfl
theorem seq_assoc {σ ν} (a b c : Walk σ ν) : a ⟫ b ⟫ c = a ⟫ (b ⟫ c) := rfl

theorem visitAll_append {σ ν} (call : Visitor σ ν) (l m : List Node) :
    visitAll call (l ++ m) = visitAll call l ⟫ visitAll call m := by
  induction l with
  | nil => rfl
  | cons a l ih => simp [visitAll, ih, seq_assoc]

theorem visitL_eq {σ ν} (call : Visitor σ ν) (l : List Node) : visitL call l = visitAll call l := by
  induction l with
  | nil => simp [visitL, visitAll]
  | cons a l ih => simp [visitL, visitAll, ih]

/-- `Visit` in terms of the children. -/
theorem visit_eq {σ ν} (call : Visitor σ ν) (n : Node) :
    visit call n = visitWrap call n (visitAll call (children n)) := by
  have hw : ∀ w : Word, visitW call w = visitWrap call (wnode w) (visitAll call (optN w.M)) := by
    rintro ⟨t, s, e, m⟩
    cases m <;> simp [visitW, visitO, visitAll, optN, seq_skip]
  have hwn : ∀ w : Word, visit call (wnode w) = visitW call w := fun w => by simp [visit]
  have hO : ∀ o, visitO call o = visitAll call (optN o) := by
    intro o; cases o <;> simp [visitO, optN, visitAll, seq_skip]
  have hWO : ∀ o, visitWO call o = visitAll call (optW o) := by
    intro o; cases o <;> simp [visitWO, optW, visitAll, seq_skip, hwn]
  have hT : ∀ ts, visitWrap call (.terms ts) (visitL call ts) = visit call (.terms ts) := by
    intro ts; simp [visit]
  have hD : ∀ ts, visitWrap call (.discourse ts) (visitL call ts) = visit call (.discourse ts) := by
    intro ts; simp [visit]
  have hTO : ∀ o, visitTO call o = visit call (.terms (o.getD [])) := by
    intro o; cases o <;> simp [visitTO, visit, visitL]
  cases n with
  | cop k to0 to1 ru l r =>
    have raw : visit call (.cop .raw to0 to1 ru l r) =
        visitWrap call (.cop .raw to0 to1 ru l r) (visitAll call (children (.cop .raw to0 to1 ru l r))) := by
      cases to0 <;>
        simp [visit, children, visitAll_append, visitAll, hWO, seq_skip, seq_assoc]
    by_cases hk : k = .raw
    · subst hk; exact raw
    · have : children (.cop k to0 to1 ru l r) = [.cop .raw to0 to1 ru l r] := by
        cases k <;> first | exact absurd rfl hk | (cases to0 <;> rfl)
      rw [this]
      simp only [visitAll, seq_skip]
      cases to0 <;> simp [visit, hk]
  | predication k p ts na =>
    cases k <;> simp [visit, children, visitAll, hWO, hTO, seq_skip, seq_assoc]
  | lu k l st =>
    cases k <;> simp [visit, children, visitAll, seq_skip]
  | word k w =>
    cases k <;> simp [visit, children, hw, visitAll, seq_skip]
  | _ =>
    simp [visit, children, visitAll_append, visitAll, hO, hWO, visitL_eq, seq_skip, seq_assoc]

theorem visitAll_foldl {σ ν} (call : Visitor σ ν) (l : List Node) (v : ν) (s : σ) :
    visitAll call l v s = l.foldl (fun s c => visit call c v s) s := by
  induction l generalizing s with
  | nil => rfl
  | cons c l ih => simp [visitAll, Walk.seq, ih]

/-- C08: the defining equation of depth-first traversal, for every visitor: `Visit(n, v)` calls `v`
on `n`; unless that returns nil it visits the children in order with the *returned* visitor and
finally calls that one with nil. -/
theorem C08_visit {σ ν} (call : Visitor σ ν) (n : Node) (v : ν) (s : σ) :
    visit call n v s =
      match (call v (some n) s).2 with
      | none => (call v (some n) s).1
      | some v' =>
        (call v' none ((children n).foldl (fun s c => visit call c v' s) (call v (some n) s).1)).1 := by
  rw [visit_eq, visitWrap]
  rcases call v (some n) s with ⟨s', _ | v'⟩
  · rfl
  · simp [visitAll_foldl]

/-! ### Traces -/

/-- A call of the visitor: with a node, or with nil. -/
inductive Ev
  | enter (n : Node)
  | leave

/-- A visitor that records its calls and returns itself for the nodes in `keep` and nil otherwise. -/
def recorder (keep : Node → Bool) : Visitor (List Ev) Unit
  | _, some n, s => (s ++ [.enter n], if keep n then some () else none)
  | _, none, s => (s ++ [.leave], some ())

/-- The calls made by `Visit` to that visitor. -/
def trace (keep : Node → Bool) (n : Node) : List Ev := visit (recorder keep) n () []

theorem visit_recorder (keep : Node → Bool) : ∀ n s,
    visit (recorder keep) n () s =
      s ++ (.enter n :: if keep n then (children n).flatMap (trace keep) ++ [.leave] else []) := by
  apply children_induct
  intro n ih s
  have key : ∀ l : List Node, (∀ c ∈ l, c ∈ children n) → ∀ s,
      visitAll (recorder keep) l () s = s ++ l.flatMap (trace keep) := by
    intro l
    induction l with
    | nil => intro _ s; simp [visitAll, Walk.skip]
    | cons c l ihl =>
      intro hl s
      have hc := ih c (hl c (by simp))
      simp only [visitAll, Walk.seq]
      rw [ihl (fun c hc => hl c (by simp [hc]))]
      rw [hc, List.flatMap_cons]
      simp only [trace, hc]; simp
  rw [visit_eq, visitWrap]
  by_cases hk : keep n
  · simp [recorder, hk, key (children n) (fun _ h => h)]
  · simp [recorder, hk]

/-- The trace, as nested brackets around the traces of the children. -/
theorem C08_trace_eq (keep : Node → Bool) (n : Node) :
    trace keep n = .enter n ::
      (if keep n then (children n).flatMap (trace keep) ++ [.leave] else []) := by
  rw [trace, visit_recorder]; rfl

/-- Bracket depth after a sequence of calls; `none` if a nil call has no matching open call. Calls
for which the visitor returned nil open nothing. -/
def depth (keep : Node → Bool) : Nat → List Ev → Option Nat
  | d, [] => some d
  | d, .enter n :: es => depth keep (if keep n then d + 1 else d) es
  | 0, .leave :: _ => none
  | d + 1, .leave :: es => depth keep d es

theorem depth_append (keep : Node → Bool) (d : Nat) (a b : List Ev) :
    depth keep d (a ++ b) = (depth keep d a).bind fun d' => depth keep d' b := by
  induction a generalizing d with
  | nil => rfl
  | cons e a ih =>
    cases e with
    | enter n => simp [depth, ih]
    | leave => cases d <;> simp [depth, ih]

/-- C08: the calls are properly nested: for every visitor, every nil call closes an open call, and
all are closed at the end. -/
theorem C08_balanced (keep : Node → Bool) : ∀ n d, depth keep d (trace keep n) = some d := by
  apply children_induct
  intro n ih d
  have key : ∀ l : List Node, (∀ c ∈ l, c ∈ children n) → ∀ d, depth keep d (l.flatMap (trace keep)) = some d := by
    intro l
    induction l with
    | nil => intro _ d; rfl
    | cons c l ihl =>
      intro hl d
      simp [depth_append, ih c (hl c (by simp)), ihl (fun c hc => hl c (by simp [hc]))]
  rw [C08_trace_eq]
  by_cases hk : keep n
  · simp [depth, hk, depth_append, key (children n) (fun _ h => h)]
  · simp [depth, hk]

def keepAll : Node → Bool := fun _ => true

/-- The nodes a trace enters. -/
def entered : List Ev → List Node
  | [] => []
  | .enter n :: es => n :: entered es
  | .leave :: es => entered es

theorem entered_append (a b : List Ev) : entered (a ++ b) = entered a ++ entered b := by
  induction a with
  | nil => rfl
  | cons e a ih => cases e <;> simp [entered, ih]

theorem entered_flatMap {α} (f : α → List Ev) (l : List α) :
    entered (l.flatMap f) = l.flatMap fun x => entered (f x) := by
  induction l with
  | nil => rfl
  | cons a l ih => simp [entered_append, ih]

/-- C08: pre-order: a node is entered before its children, and those from left to right. -/
theorem C08_preorder (n : Node) : entered (trace keepAll n) =
    n :: (children n).flatMap fun c => entered (trace keepAll c) := by
  rw [C08_trace_eq]
  simp [keepAll, entered, entered_append, entered_flatMap]

/-- C08: exactly the nodes of the tree are entered. -/
theorem C08_entered_iff (n d : Node) : d ∈ entered (trace keepAll n) ↔ Below n d := by
  revert d
  induction n using children_induct with
  | h n ih =>
    intro d
    rw [C08_preorder]
    simp only [List.mem_cons, List.mem_flatMap]
    constructor
    · rintro (rfl | ⟨c, hc, hd⟩)
      · exact .refl _
      · exact .step hc ((ih c hc d).1 hd)
    · intro h
      cases h with
      | refl => left; rfl
      | step hc h => right; exact ⟨_, hc, (ih _ hc d).2 h⟩

/-- The number of node occurrences in a tree satisfies the obvious recurrence, so no occurrence is
visited twice. -/
theorem C08_count (n : Node) : (entered (trace keepAll n)).length =
    1 + ((children n).map fun c => (entered (trace keepAll c)).length).sum := by
  rw [C08_preorder]
  simp [List.length_flatMap]; omega

/-- The `*Word` nodes among the entered ones. -/
def enteredWords : List Node → List Tok
  | [] => []
  | .word .raw w :: ns => ⟨w.T, w.S, w.E⟩ :: enteredWords ns
  | _ :: ns => enteredWords ns

theorem enteredWords_append (a b : List Node) :
    enteredWords (a ++ b) = enteredWords a ++ enteredWords b := by
  induction a with
  | nil => rfl
  | cons n a ih =>
    cases n with
    | word k w => cases k <;> simp [enteredWords, ih]
    | _ => simp [enteredWords, ih]

theorem wordsL_eq (l : List Node) : wordsL l = l.flatMap words := by
  induction l with
  | nil => simp [wordsL]
  | cons a l ih => simp [wordsL, ih]

theorem wordsO_eq (o : Option Node) : wordsO o = (optN o).flatMap words := by
  cases o <;> simp [wordsO, optN]

theorem wordsWO_eq (o : Option Word) : wordsWO o = (optW o).flatMap words := by
  cases o <;> simp [wordsWO, optW, words]

theorem words_children (n : Node) : words n =
    (enteredWords [n]) ++ (children n).flatMap words := by
  have hTO : ∀ o, wordsTO o = words (.terms (o.getD [])) := by
    intro o; cases o <;> simp [wordsTO, words, wordsL]
  cases n with
  | cop k to0 to1 ru l r =>
    cases k <;> cases to0 <;>
      simp [words, children, enteredWords, wordsWO_eq]
  | word k w =>
    obtain ⟨t, s, e, m⟩ := w
    cases k <;> simp [words, wordsW, children, enteredWords, wordsO_eq]
  | predication k p ts na =>
    cases k <;> simp [words, children, enteredWords, wordsWO_eq, hTO]
  | lu k l st => cases k <;> simp [words, children, enteredWords]
  | _ => simp [words, children, enteredWords, wordsO_eq, wordsWO_eq, wordsL_eq]

/-- C08: the words are visited in text order, modifiers right after their word. This is what
`toString` in server.go and interp.go and `ToASCII` rely on. -/
theorem C08_words_in_order : ∀ n, enteredWords (entered (trace keepAll n)) = words n := by
  apply children_induct
  intro n ih
  rw [C08_preorder, words_children]
  have : ∀ l : List Node, (∀ c ∈ l, c ∈ children n) →
      enteredWords (l.flatMap fun c => entered (trace keepAll c)) = l.flatMap words := by
    intro l
    induction l with
    | nil => intro _; rfl
    | cons c l ihl =>
      intro hl
      simp [enteredWords_append, ih c (hl c (by simp)), ihl (fun c hc => hl c (by simp [hc]))]
  rw [← List.singleton_append, enteredWords_append, this _ fun _ h => h]

example : (entered (trace keepAll sample)).length = 23 ∧
    (words sample).map (fun w => String.ofList w.t) = ["gỉ", " ", "jí", " ", "ru", " ", "súq", "na"] := by
  decide +kernel

/-! ### C09 -/

/-- Delete from a full trace the calls below the nodes not in `keep`, and their closing call.
`skip` counts the open calls inside the part being deleted. -/
def prune (keep : Node → Bool) : Nat → List Ev → List Ev
  | _, [] => []
  | 0, .enter n :: es => if keep n then .enter n :: prune keep 0 es else .enter n :: prune keep 1 es
  | 0, .leave :: es => .leave :: prune keep 0 es
  | k + 1, .enter _ :: es => prune keep (k + 2) es
  | k + 1, .leave :: es => prune keep k es

theorem prune_skip (keep : Node → Bool) : ∀ n k rest,
    prune keep (k + 1) (trace keepAll n ++ rest) = prune keep (k + 1) rest := by
  apply children_induct (P := fun n => ∀ k rest,
    prune keep (k + 1) (trace keepAll n ++ rest) = prune keep (k + 1) rest)
  intro n ih k rest
  have key : ∀ l : List Node, (∀ c ∈ l, c ∈ children n) → ∀ k rest,
      prune keep (k + 1) (l.flatMap (trace keepAll) ++ rest) = prune keep (k + 1) rest := by
    intro l
    induction l with
    | nil => intro _ k rest; rfl
    | cons c l ihl =>
      intro hl k rest
      simp only [List.flatMap_cons, List.append_assoc]
      rw [ih c (hl c (by simp)), ihl (fun c hc => hl c (by simp [hc]))]
  rw [C08_trace_eq]
  simp only [keepAll, if_true, List.cons_append, prune, List.append_assoc]
  exact (key (children n) (fun _ h => h) (k + 1) ([Ev.leave] ++ rest)).trans (by simp [prune])

/-- C09: a visitor returning nil for some nodes gets exactly the calls of the full traversal minus
everything below those nodes and their closing calls. -/
theorem C09_prune (keep : Node → Bool) : ∀ n rest,
    prune keep 0 (trace keepAll n ++ rest) = trace keep n ++ prune keep 0 rest := by
  apply children_induct (P := fun n => ∀ rest,
    prune keep 0 (trace keepAll n ++ rest) = trace keep n ++ prune keep 0 rest)
  intro n ih rest
  have key : ∀ l : List Node, (∀ c ∈ l, c ∈ children n) → ∀ rest,
      prune keep 0 (l.flatMap (trace keepAll) ++ rest) = l.flatMap (trace keep) ++ prune keep 0 rest := by
    intro l
    induction l with
    | nil => intro _ rest; rfl
    | cons c l ihl =>
      intro hl rest
      simp only [List.flatMap_cons, List.append_assoc]
      rw [ih c (hl c (by simp)), ihl (fun c hc => hl c (by simp [hc]))]
  have skip : ∀ (l : List Node) rest, prune keep 1 (l.flatMap (trace keepAll) ++ rest) = prune keep 1 rest := by
    intro l
    induction l with
    | nil => intro rest; rfl
    | cons c l ihl => intro rest; simp [prune_skip, ihl]
  rw [C08_trace_eq keepAll, C08_trace_eq keep]
  by_cases hk : keep n
  · simp only [keepAll, if_true, hk, List.cons_append, List.append_assoc, prune]
    refine congrArg _ ((key (children n) (fun _ h => h) ([Ev.leave] ++ rest)).trans (by simp [prune]))
  · simp only [keepAll, if_true, hk, List.cons_append, List.append_assoc, prune]
    exact congrArg (Ev.enter n :: ·) ((skip (children n) ([Ev.leave] ++ rest)).trans (by simp [prune]))

/-- C09, for the whole traversal. -/
theorem C09_prune_trace (keep : Node → Bool) (n : Node) :
    trace keep n = prune keep 0 (trace keepAll n) := by
  have := C09_prune keep n []
  simpa [prune] using this.symm

example : (trace (fun n => match n with | .cop .. => false | _ => true) sample).length = 21 := by
  decide +kernel

end Verif.AST
