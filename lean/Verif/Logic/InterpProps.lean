/-
C34, C35, C50: `Interpret` as a whole.
-/
import Verif.Logic.SimplifySorted

namespace Verif.Logic
open Verif.Tone (Str)

/-- interp.go:15-24 `Interpret` with `k` units of fuel: the tree, and the restrictions of all bindings
that a variable of the tree may point to. -/
def interpret (U : Uni) (k : Nat) (d : List AST.Node) :
    Except Err (Option (Node × List (Nat × Option Node))) :=
  match discourse U (fns U k) d with
  | .error e => .error e
  | .ok none => .ok none
  | .ok (some t) =>
    match simplify k t with
    | none => .error .fuel
    | some r => .ok (some r)

/-! ## Sorts -/

section
variable {U : Uni} {f : Fns}

theorem sorted_sentence (H : FSorted f) : ∀ (n : AST.Node) (s : St), SSorted s →
    Post (sentence U f n) s Any fun r s' => sorted .stmt r = true ∧ SSorted s'
  | n, s, hs => by
    unfold sentence
    split
    · exact sorted_subStatement H _ _ hs
    · postz
      intro _ _
      refine Post.mono (sorted_sentence H _ _ hs) fun _ _ h1 _ => ?_
      refine Post.mono (sorted_sentence H _ _ h1.2) fun _ _ h2 => ⟨?_, h2.2⟩
      simp [sorted, h1.1, h2.1]
    · postz
  termination_by n => sizeOf n

theorem sorted_discourseLoop (H : FSorted f) : ∀ (d : List AST.Node) (st : Option Node) (s : St),
    sortedO .stmt st = true → SSorted s →
    Post (discourseLoop U f d st) s Any fun r s' => sortedO .stmt r = true ∧ SSorted s'
  | [], st, s, h, hs => by simp [discourseLoop, h, hs]
  | k :: ks, st, s, h, hs => by
    unfold discourseLoop
    postz
    refine ⟨fun _ => sorted_discourseLoop H ks _ _ h hs, fun _ _ => ?_⟩
    refine Post.mono (sorted_sentence H _ _ hs) fun n _ h1 => ?_
    refine sorted_discourseLoop H ks _ _ ?_ h1.2
    cases st with
    | none => exact h1.1
    | some st =>
      simp only [sortedO] at h
      simp [sortedO, sorted, h, h1.1]

theorem sorted_bindThe (the : List Pending) (st : Node) (h : ∀ b ∈ the, PSorted b)
    (hst : sorted .stmt st = true) : sorted .stmt (bindThe the st) = true := by
  induction the with
  | nil => exact hst
  | cons b the ih =>
    show sorted .stmt (bindScope (some b) (bindThe the st)) = true
    refine sorted_bindScope ?_ (ih fun b hb => h b (by simp [hb]))
    intro x hx; cases hx; exact h b (by simp)

theorem sorted_discourse (H : FSorted f) (d : List AST.Node) (r : Node)
    (h : discourse U f d = .ok (some r)) : sorted .stmt r = true := by
  unfold discourse at h
  have hd := sorted_discourseLoop (U := U) H d none {} rfl (by simp [SSorted])
  unfold Post at hd
  split at h
  · cases h
  · cases h
  · next st s heq =>
    rw [heq] at hd
    cases h
    rw [sorted_readAll]
    exact sorted_bindThe _ _ hd.2.1 hd.1

end

/-- C50: whatever the text, the interpretation is a statement made of statements, predicates and
arguments, each in its place. -/
theorem C50_sorted (U : Uni) (k : Nat) (d : List AST.Node) (r : Node × List (Nat × Option Node))
    (h : interpret U k d = .ok (some r)) : sorted .stmt r.1 = true := by
  unfold interpret at h
  split at h
  · cases h
  · cases h
  · next t ht =>
    split at h
    · cases h
    · next hs =>
      cases h
      exact sorted_simplify hs (sorted_discourse (fsorted_fns U k) d t ht)

/-! ## Termination -/

section
variable {U : Uni} {f g : Fns} {k : Nat}

theorem fle_subStatement (H : FLe f g) (n : AST.Node) :
    MLe (subStatement f n) (subStatement g n) :=
  MLe.subordinate (H.statement _ _)

theorem fle_sentence (H : FLe f g) : ∀ n : AST.Node, MLe (sentence U f n) (sentence U g n)
  | n => by
    unfold sentence
    split
    · exact fle_subStatement H _
    · split
      · refine MLe.bind (MLe.refl _) fun _ => ?_
        refine MLe.bind (fle_sentence H _) fun _ => ?_
        refine MLe.bind (MLe.refl _) fun _ => ?_
        exact MLe.bind (fle_sentence H _) fun _ => MLe.refl _
      · exact MLe.refl _
    · exact MLe.refl _
  termination_by n => sizeOf n

theorem fle_discourseLoop (H : FLe f g) : ∀ (d : List AST.Node) (st : Option Node),
    MLe (discourseLoop U f d st) (discourseLoop U g d st)
  | [], st => MLe.refl _
  | k :: ks, st => by
    unfold discourseLoop
    split
    · exact fle_discourseLoop H ks _
    · split
      · exact MLe.bind (fle_sentence H _) fun _ => fle_discourseLoop H ks _
      · exact MLe.refl _

theorem fle_discourse (H : FLe f g) (d : List AST.Node) :
    discourse U f d = .error .fuel ∨ discourse U f d = discourse U g d := by
  unfold discourse
  rcases fle_discourseLoop (U := U) H d none {} with h | h
  · rw [h]; exact .inl rfl
  · rw [h]; exact .inr rfl

theorem FLe.refl (f : Fns) : FLe f f := by constructor <;> intros <;> exact MLe.refl _

theorem FLe.trans {f g h : Fns} (H : FLe f g) (H' : FLe g h) : FLe f h where
  statement _ _ := (H.statement _ _).trans (H'.statement _ _)
  predicate _ := (H.predicate _).trans (H'.predicate _)
  poArg _ _ _ := (H.poArg _ _ _).trans (H'.poArg _ _ _)
  prenexS _ _ _ _ := (H.prenexS _ _ _ _).trans (H'.prenexS _ _ _ _)
  preposition _ _ := (H.preposition _ _).trans (H'.preposition _ _)
  predPrep _ _ _ := (H.predPrep _ _ _).trans (H'.predPrep _ _ _)
  adverb _ _ := (H.adverb _ _).trans (H'.adverb _ _)
  roi _ _ := (H.roi _ _).trans (H'.roi _ _)
  roiL _ _ _ := (H.roiL _ _ _).trans (H'.roiL _ _ _)
  roiR _ _ _ := (H.roiR _ _ _).trans (H'.roiR _ _ _)
  predArg _ := (H.predArg _).trans (H'.predArg _)
  relClause _ _ := (H.relClause _ _).trans (H'.relClause _ _)

theorem fle_fns (U : Uni) {k k' : Nat} (h : k ≤ k') : FLe (fns U k) (fns U k') := by
  induction h with
  | refl => exact FLe.refl _
  | step _ ih => exact ih.trans (fle_succ U _)

theorem good_subStatement (H : Good k f) (n : AST.Node) (s : St) (h : W n + 2 < k) :
    Post (subStatement f n) s NF fun _ _ => True := by
  unfold subStatement
  rw [post_subordinate]
  exact (H.statement _ _ _ h).mono fun _ _ _ => trivial

theorem good_sentence (H : Good k f) : ∀ (n : AST.Node) (s : St), W n + 2 < k →
    Post (sentence U f n) s NF fun _ _ => True
  | n, s, h => by
    unfold sentence
    split
    · refine good_subStatement H _ _ ?_
      simp only [W] at h; omega
    · simp only [W] at h
      rw [post_ite]
      refine ⟨fun _ => ?_, fun _ => by simp⟩
      simp only [post_bind, post_assert, post_pure]
      refine ⟨fun _ => NF_rt, fun _ => ?_⟩
      refine (good_sentence H _ _ (by omega)).mono fun _ _ _ => ?_
      refine ⟨fun _ => NF_rt, fun _ => ?_⟩
      exact (good_sentence H _ _ (by omega)).mono fun _ _ _ => trivial
    · simp
  termination_by n => sizeOf n

theorem good_discourseLoop (H : Good k f) : ∀ (d : List AST.Node) (st : Option Node) (s : St),
    WL d + 2 < k → Post (discourseLoop U f d st) s NF fun _ _ => True
  | [], st, s, h => by simp [discourseLoop]
  | n :: ns, st, s, h => by
    simp only [WL] at h
    unfold discourseLoop
    rw [post_ite, post_ite]
    refine ⟨fun _ => good_discourseLoop H _ _ _ (by omega), fun _ => ⟨fun _ => ?_, fun _ => by simp⟩⟩
    rw [post_bind]
    exact (good_sentence H _ _ (by omega)).mono fun _ _ _ => good_discourseLoop H _ _ _ (by omega)

theorem good_discourse (H : Good k f) (d : List AST.Node) (h : WL d + 2 < k) :
    discourse U f d ≠ .error .fuel := by
  have hd := good_discourseLoop (U := U) H d none {} h
  unfold Post at hd
  unfold discourse
  split
  · next e heq =>
    rw [heq] at hd
    intro h'; cases h'; exact hd rfl
  · intro h'; cases h'
  · intro h'; cases h'

end

/-- C34: `Interpret` ends for every syntax tree: beyond some depth of recursion, which only depends on
the tree, the result is the same however much deeper the program may go, and it is a result (or a
panic of the program's own), not the exhaustion of the bound. -/
theorem C34_terminates (U : Uni) (d : List AST.Node) :
    ∃ r, r ≠ .error .fuel ∧ ∃ k0, ∀ k, k0 ≤ k → interpret U k d = r := by
  have hgood : ∀ k, WL d + 3 ≤ k → discourse U (fns U k) d ≠ .error .fuel :=
    fun k hk => good_discourse (good_fns U k) d (by omega)
  have heq : ∀ k, WL d + 3 ≤ k → discourse U (fns U k) d = discourse U (fns U (WL d + 3)) d := by
    intro k hk
    rcases fle_discourse (U := U) (fle_fns U hk) d with h | h
    · exact absurd h (hgood _ (Nat.le_refl _))
    · exact h.symm
  cases hd : discourse U (fns U (WL d + 3)) d with
  | error e =>
    refine ⟨.error e, ?_, WL d + 3, fun k hk => ?_⟩
    · intro h; cases h; exact hgood _ (Nat.le_refl _) hd
    · simp only [interpret, heq k hk, hd]
  | ok t =>
    cases t with
    | none =>
      refine ⟨.ok none, by simp, WL d + 3, fun k hk => ?_⟩
      simp only [interpret, heq k hk, hd]
    | some t =>
      obtain ⟨k0, r, h⟩ := simplify_total t (sorted_discourse (fsorted_fns U _) d t hd)
      refine ⟨.ok (some r), by simp, max (WL d + 3) k0, fun k hk => ?_⟩
      simp only [interpret, heq k (by omega), hd, h k (by omega)]

/-- A panic does not depend on the depth of recursion. -/
theorem interpret_error_mono {U : Uni} {k k' : Nat} {d : List AST.Node} {e : Err}
    (h : interpret U k d = .error e) (he : e ≠ .fuel) (hk : k ≤ k') : interpret U k' d = .error e := by
  unfold interpret at h ⊢
  rcases fle_discourse (U := U) (fle_fns U hk) d with h1 | h1
  · rw [h1] at h; cases h; exact absurd rfl he
  · rw [← h1]
    split at h
    · cases h; rfl
    · cases h
    · split at h
      · cases h; exact absurd rfl he
      · cases h

/-! ## Fragments -/

section
variable {U : Uni} {f : Fns}

theorem discourseLoop_some : ∀ (d : List AST.Node) (st : Node) (s : St),
    Post (discourseLoop U f d (some st)) s Any fun r _ => r ≠ none
  | [], st, s => by simp [discourseLoop]
  | k :: ks, st, s => by
    unfold discourseLoop
    postz
    refine ⟨fun _ => discourseLoop_some ks _ _, fun _ _ => ?_⟩
    have : Post (sentence U f k) s Any fun _ _ => True := by
      unfold Post; split <;> trivial
    exact Post.mono this fun _ _ _ => discourseLoop_some ks _ _

theorem discourseLoop_none : ∀ (d : List AST.Node) (s : St),
    Post (discourseLoop U f d none) s Any fun r _ =>
      (r = none ↔ ∀ n ∈ d, isFragment n = true)
  | [], s => by simp [discourseLoop]
  | k :: ks, s => by
    unfold discourseLoop
    postz
    refine ⟨fun h => ?_, fun h _ => ?_⟩
    · refine Post.mono (discourseLoop_none ks s) fun r _ hr => ?_
      rw [hr]; simp [h]
    · have : Post (sentence U f k) s Any fun _ _ => True := by
        unfold Post; split <;> trivial
      refine Post.mono this fun _ _ _ => ?_
      refine Post.mono (discourseLoop_some ks _ _) fun r _ hr => ?_
      simp [hr, h]

end

/-- C35: when `Interpret` returns, it returns nil exactly if every item of the discourse is a
fragment. -/
theorem C35_nil_iff_fragments (U : Uni) (k : Nat) (d : List AST.Node) (r)
    (h : interpret U k d = .ok r) : r = none ↔ ∀ n ∈ d, isFragment n = true := by
  have hd := discourseLoop_none (U := U) (f := fns U k) d {}
  unfold interpret discourse at h
  unfold Post at hd
  split at h
  · cases h
  · next h' =>
    cases h
    split at h'
    · cases h'
    · next heq => rw [heq] at hd; simpa using hd
    · cases h'
  · next h' =>
    split at h'
    · cases h'
    · cases h'
    · next heq =>
      rw [heq] at hd
      split at h
      · cases h
      · cases h
        simpa using hd

theorem discourseLoop_filter (U : Uni) (f : Fns) : ∀ (d : List AST.Node) (st : Option Node),
    discourseLoop U f d st = discourseLoop U f (d.filter fun n => !isFragment n) st
  | [], st => rfl
  | k :: ks, st => by
    by_cases h : isFragment k = true
    · rw [List.filter_cons_of_neg (by simp [h])]
      rw [discourseLoop, if_pos h]
      exact discourseLoop_filter U f ks st
    · rw [List.filter_cons_of_pos (by simp [h])]
      rw [discourseLoop, discourseLoop, if_neg h, if_neg h]
      split
      · congr 1
        funext n
        exact discourseLoop_filter U f ks _
      · rfl

/-- C35: fragments make no difference to what the sentences of a text mean. -/
theorem C35_fragments_ignored (U : Uni) (k : Nat) (d : List AST.Node) :
    interpret U k d = interpret U k (d.filter fun n => !isFragment n) := by
  unfold interpret discourse
  rw [discourseLoop_filter]

end Verif.Logic
