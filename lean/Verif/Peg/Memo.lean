/-
The passes of the generated parser with their memo tables, and the proof that the tables do not
change results (C20).
-/
import Verif.Peg.ExprProps
import Verif.Peg.Table

namespace Verif.Peg

variable {F E : Type} (U : Uni) (G : Gram F) (I : Input) (A : Alg F E)

/-- The tables `deltaPos` and `deltaErr` (toaq.go:420-421) and `lastFail` (425). The entry of a rule at
an offset is the result: new offset or failure, and `perr` plus one. The code stores offsets relative
to the start in 32-bit integers; here they are absolute and unbounded. -/
structure AS where
  tab : Tab (Option Nat × Nat)
  last : Nat

/-- toaq.go:452-463 `_memoize`. -/
def AS.memoize (s : AS) (p r : Nat) (v : Option Nat × Nat) : AS := ⟨s.tab.put p r v, v.2⟩

/-- One level of the Accepts functions, with `_memo` (toaq.go:465-475) and `_memoize`. -/
def accStepM (rec : Expr F → Nat → Nat → AS → Option ((Option Nat × Nat) × AS)) :
    Expr F → Nat → Nat → AS → Option ((Option Nat × Nat) × AS)
  | e, p, err, s => match e with
    | .term t => match tm U I t p with
      | .inl q => some ((some q, err), s)
      | .inr x => some ((none, max err (x + 1)), s)
    | .ref r => match s.tab.get p r with
      | some (o, err') => some ((o, max err err'), s)
      | none => match rec (G.body r) p 0 s with
        | none => none
        | some ((some q, err'), s) =>
          let err' := if G.named r then p + 1 else err'
          some ((some q, max err err'), s.memoize p r (some q, err'))
        | some ((none, err'), s) => some ((none, max err err'), s.memoize p r (none, err'))
    | .seq a b => match rec a p err s with
      | some ((some q, err'), s) => rec b q err' s
      | r => r
    | .alt a b => match rec a p err s with
      | some ((none, err'), s) => rec b p err' s
      | r => r
    | .opt a => match rec a p err s with
      | some ((none, err'), s) => some ((some p, err'), s)
      | r => r
    | .plus a => match rec a p err s with
      | some ((some q, err'), s) => rec (.star a) q err' s
      | r => r
    | .star a => match rec a p err s with
      | some ((some q, err'), s) => rec (.star a) q err' s
      | some ((none, err'), s) => some ((some p, err'), s)
      | none => none
    | .not a => match rec a p err s with
      | some ((some _, _), s) => some ((none, max err (p + 1)), s)
      | some ((none, _), s) => some ((some p, err), s)
      | none => none
    | .and a => match rec a p err s with
      | some ((some _, _), s) => some ((some p, err), s)
      | some ((none, _), s) => some ((none, max err (p + 1)), s)
      | none => none
    | .lab a => rec a p err s
    | .grp a => rec a p err s
    | .act _ a => rec a p err s

/-- The Accepts functions with memo table. -/
def accM : Nat → Expr F → Nat → Nat → AS → Option ((Option Nat × Nat) × AS)
  | 0 => fun _ _ _ _ => none
  | n+1 => accStepM U G I (accM n)

/-- One level of the Node and Action functions with their memo tables (`node`, `act`,
toaq.go:422-424): `d` is the table of the Accepts functions. The table also survives a panic. -/
def evStepM (d : Tab (Option Nat × Nat)) (rec : Expr F → Nat → Tab A.X → Option (Res E A.X × Tab A.X)) :
    Expr F → Nat → Tab A.X → Option (Res E A.X × Tab A.X)
  | e, p, s => match e with
    | .term t => match tm U I t p with
      | .inl q => some (.ok q (A.leaf p q), s)
      | .inr _ => some (.fail, s)
    | .ref r => match d.get p r with
      | some (none, _) => some (.fail, s)
      | dp => match s.get p r with
        -- `return start + int(dp-1), &n`; `dp` is 0 when the Accepts function was never called
        | some x => some (.ok (match dp with | some (some q, _) => q | _ => p - 1) x, s)
        | none => match rec (G.body r) p s with
          | some (.ok q x, s) => some (.ok q (A.rule r p q x), s.put p r (A.rule r p q x))
          | r => r
    | .seq a b => match rec a p s with
      | some (.ok q x, s) => match rec b q s with
        | some (.ok q' y, s) => some (.ok q' (A.seq x y), s)
        | r => r
      | r => r
    | .alt a b => match rec a p s with
      | some (.fail, s) => rec b p s
      | r => r
    | .opt a => match rec a p s with
      | some (.fail, s) => some (.ok p A.nil, s)
      | r => r
    | .plus a => match rec a p s with
      | some (.ok q x, s) => match rec (.star a) q s with
        | some (.ok q' y, s) => some (.ok q' (A.rep x y), s)
        | r => r
      | r => r
    | .star a => match rec a p s with
      | some (.ok q x, s) => match rec (.star a) q s with
        | some (.ok q' y, s) => some (.ok q' (A.rep x y), s)
        | r => r
      | some (.fail, s) => some (.ok p A.rep0, s)
      | r => r
    | .not a => match rec a p s with
      | some (.ok _ _, s) => some (.fail, s)
      | some (.fail, s) => some (.ok p A.nil, s)
      | r => r
    | .and a => match rec a p s with
      | some (.ok _ _, s) => some (.ok p A.nil, s)
      | r => r
    | .lab a => match rec a p s with
      | some (.ok q x, s) => some (.ok q (A.lab x), s)
      | r => r
    | .grp a => match rec a p s with
      | some (.ok q x, s) => some (.ok q (A.grp p q x), s)
      | r => r
    | .act f a => match rec a p s with
      | some (.ok q x, s) => match A.act f p q x with
        | .ok y => some (.ok q y, s)
        | .error e => some (.panic e, s)
      | r => r

/-- The Node and Action functions with memo tables. -/
def evM (d : Tab (Option Nat × Nat)) : Nat → Expr F → Nat → Tab A.X → Option (Res E A.X × Tab A.X)
  | 0 => fun _ _ _ => none
  | n+1 => evStepM U G I A d (evM d n)

/-! ### Correctness of the tables -/

/-- Running `e` at `p` calls rule `r` at `q` (not counting the calls made by called rules). -/
inductive Vis : Expr F → Nat → Nat → Nat → Prop
  | ref (r p) : Vis (.ref r) p r p
  | seqL {a b p r q} : Vis a p r q → Vis (.seq a b) p r q
  | seqR {a b p m r q} : Recog U G I a p (some m) → Vis b m r q → Vis (.seq a b) p r q
  | altL {a b p r q} : Vis a p r q → Vis (.alt a b) p r q
  | altR {a b p r q} : Recog U G I a p none → Vis b p r q → Vis (.alt a b) p r q
  | opt {a p r q} : Vis a p r q → Vis (.opt a) p r q
  | plusL {a p r q} : Vis a p r q → Vis (.plus a) p r q
  | plusR {a p m r q} : Recog U G I a p (some m) → Vis (.star a) m r q → Vis (.plus a) p r q
  | starL {a p r q} : Vis a p r q → Vis (.star a) p r q
  | starR {a p m r q} : Recog U G I a p (some m) → Vis (.star a) m r q → Vis (.star a) p r q
  | not {a p r q} : Vis a p r q → Vis (.not a) p r q
  | and {a p r q} : Vis a p r q → Vis (.and a) p r q
  | lab {a p r q} : Vis a p r q → Vis (.lab a) p r q
  | grp {a p r q} : Vis a p r q → Vis (.grp a) p r q
  | act {f a p r q} : Vis a p r q → Vis (.act f a) p r q

/-- The entries are the results of the rules, and the calls made by a rule with an entry have
entries. -/
def AccInv (t : Tab (Option Nat × Nat)) : Prop := ∀ p r v, t.get p r = some v →
  (∃ n, acc U G I n (.ref r) p 0 = some v) ∧ ∀ r' p', Vis U G I (G.body r) p r' p' → t.get p' r' ≠ none

/-- Entries of `t` are entries of `t'`. -/
def Tab.le {α : Type} (t t' : Tab α) : Prop := ∀ p r v, t.get p r = some v → t'.get p r = some v

theorem Tab.le_refl {α} (t : Tab α) : t.le t := fun _ _ _ h => h
theorem Tab.le_trans {α} {a b c : Tab α} (h : a.le b) (h' : b.le c) : a.le c := fun p r v hv => h' _ _ _ (h p r v hv)
theorem Tab.le_put {α} (t : Tab α) {p r} (v : α) (h : t.get p r = none) : t.le (t.put p r v) := by
  intro p' r' v' h'
  rw [Tab.get_put]
  split
  · rename_i hh; rw [hh.1, hh.2] at h'; rw [h] at h'; cases h'
  · exact h'
theorem Tab.le_some {α} {t t' : Tab α} (h : t.le t') {p r} (hs : t.get p r ≠ none) : t'.get p r ≠ none := by
  cases hv : t.get p r with
  | none => exact absurd hv hs
  | some v => rw [h _ _ _ hv]; exact Option.some_ne_none _

theorem inv_empty : AccInv U G I .empty := fun _ _ _ h => by rw [Tab.get_empty] at h; cases h

/-- What a run of `accM` from a correct table guarantees. -/
structure AccOk (e : Expr F) (p err : Nat) (s : AS) (res : Option Nat × Nat) (s' : AS) : Prop where
  res : ∃ m, acc U G I m e p err = some res
  inv : AccInv U G I s'.tab
  le : s.tab.le s'.tab
  vis : ∀ r q, Vis U G I e p r q → s'.tab.get q r ≠ none

theorem accM_ok : ∀ n e p err s res s', accM U G I n e p err s = some (res, s') → AccInv U G I s.tab →
    AccOk U G I e p err s res s' := by
  intro n
  induction n with
  | zero => intro e p err s res s' h; cases h
  | succ n ih =>
    intro e p err s res s' h hi
    change accStepM U G I (accM U G I n) e p err s = _ at h
    have rec1 : ∀ {a b : Expr F} {o er s1} (h1 : accM U G I n a p err s = some ((o, er), s1)),
        Recog U G I a p o := fun h1 => by
      obtain ⟨m, hm⟩ := (ih _ _ _ _ _ _ h1 hi).res
      exact ⟨_, _, _, hm⟩
    cases e with
    | term t =>
      simp only [accStepM] at h
      cases ht : tm U I t p with
      | inl q =>
        rw [ht] at h; injection h with h; injection h with h1 h2; subst h1; subst h2
        exact ⟨⟨1, by rw [acc_s]; simp only [accStep, ht]⟩, hi, Tab.le_refl _, fun r q hv => by cases hv⟩
      | inr x =>
        rw [ht] at h; injection h with h; injection h with h1 h2; subst h1; subst h2
        exact ⟨⟨1, by rw [acc_s]; simp only [accStep, ht]⟩, hi, Tab.le_refl _, fun r q hv => by cases hv⟩
    | ref k =>
      simp only [accStepM] at h
      cases hg : s.tab.get p k with
      | some v =>
        rw [hg] at h
        obtain ⟨o, er⟩ := v
        injection h with h; injection h with h1 h2; subst h1; subst h2
        obtain ⟨⟨m, hm⟩, -⟩ := hi _ _ _ hg
        refine ⟨?_, hi, Tab.le_refl _, ?_⟩
        · cases m with
          | zero => cases hm
          | succ m =>
            refine ⟨m + 1, ?_⟩
            rw [acc_s] at hm ⊢
            simp only [accStep] at hm ⊢
            cases h3 : acc U G I m (G.body k) p 0 with
            | none => rw [h3] at hm; cases hm
            | some w =>
              rw [h3] at hm
              rcases w with ⟨_ | q, e'⟩
              · injection hm with hm; injection hm with h4 h5; subst h4; subst h5; simp
              · injection hm with hm; injection hm with h4 h5; subst h4; subst h5; simp
        · intro r q hv; cases hv; rw [hg]; exact Option.some_ne_none _
      | none =>
        rw [hg] at h
        simp only at h
        cases h1 : accM U G I n (G.body k) p 0 s with
        | none => rw [h1] at h; cases h
        | some w =>
          rw [h1] at h
          obtain ⟨⟨o, er⟩, s1⟩ := w
          have H := ih _ _ _ _ _ _ h1 hi
          obtain ⟨m, hm⟩ := H.res
          -- the entry that is added
          have add : ∀ v : Option Nat × Nat, acc U G I (m+1) (.ref k) p 0 = some v →
              AccInv U G I (s1.memoize p k v).tab ∧ s.tab.le (s1.memoize p k v).tab ∧
              (s1.memoize p k v).tab.get p k ≠ none := by
            intro v hv
            have hle : s1.tab.le (s1.tab.put p k v) ∨ s1.tab.get p k ≠ none := by
              cases hx : s1.tab.get p k with
              | none => exact Or.inl (Tab.le_put _ _ hx)
              | some _ => exact Or.inr (Option.some_ne_none _)
            have hle' : s1.tab.le (s1.tab.put p k v) := by
              rcases hle with hle | hle
              · exact hle
              · intro p' r' v' h'
                rw [Tab.get_put]
                split
                · rename_i hh
                  rw [hh.1, hh.2] at h'
                  obtain ⟨⟨m', hm'⟩, -⟩ := H.inv _ _ _ h'
                  rw [acc_det U G I hm' hv]
                · exact h'
            refine ⟨?_, Tab.le_trans H.le hle', ?_⟩
            · intro p' r' v' h'
              simp only [AS.memoize, Tab.get_put] at h'
              split at h'
              · rename_i hh
                obtain ⟨rfl, rfl⟩ := hh
                injection h' with h'; subst h'
                exact ⟨⟨_, hv⟩, fun r2 p2 h2 => Tab.le_some hle' (H.vis _ _ h2)⟩
              · obtain ⟨h3, h4⟩ := H.inv _ _ _ h'
                exact ⟨h3, fun r2 p2 h2 => Tab.le_some hle' (h4 _ _ h2)⟩
            · simp [AS.memoize, Tab.get_put]
          have body : ∀ err, acc U G I (m+1) (.ref k) p err = some (match o with
              | some q => (some q, max err (if G.named k then p + 1 else er))
              | none => (none, max err er)) := by
            intro err; rw [acc_s]; simp only [accStep, hm]; cases o <;> rfl
          cases o with
          | some q =>
            injection h with h; injection h with h1 h2; subst h1; subst h2
            obtain ⟨a1, a2, a3⟩ := add (some q, if G.named k then p + 1 else er) (by rw [body]; simp)
            exact ⟨⟨_, body err⟩, a1, a2, fun r q' hv => by cases hv; exact a3⟩
          | none =>
            injection h with h; injection h with h1 h2; subst h1; subst h2
            obtain ⟨a1, a2, a3⟩ := add (none, er) (by rw [body]; simp)
            exact ⟨⟨_, body err⟩, a1, a2, fun r q' hv => by cases hv; exact a3⟩
    | seq a b =>
      simp only [accStepM] at h
      cases h1 : accM U G I n a p err s with
      | none => rw [h1] at h; cases h
      | some w =>
        rw [h1] at h
        obtain ⟨⟨o, er⟩, s1⟩ := w
        have H := ih _ _ _ _ _ _ h1 hi
        obtain ⟨m, hm⟩ := H.res
        cases o with
        | none =>
          injection h with h; injection h with h1 h2; subst h1; subst h2
          refine ⟨⟨m+1, by rw [acc_s]; simp only [accStep, hm]⟩, H.inv, H.le, ?_⟩
          intro r q hv
          cases hv with
          | seqL h => exact H.vis _ _ h
          | seqR h _ => cases Recog.det U G I h ⟨_, _, _, hm⟩
        | some q =>
          have H2 := ih _ _ _ _ _ _ h H.inv
          obtain ⟨m2, hm2⟩ := H2.res
          refine ⟨⟨max m m2 + 1, ?_⟩, H2.inv, Tab.le_trans H.le H2.le, ?_⟩
          · rw [acc_s]
            simp only [accStep, acc_mono U G I (Nat.le_max_left m m2) hm, acc_mono U G I (Nat.le_max_right m m2) hm2]
          · intro r q' hv
            cases hv with
            | seqL h => exact Tab.le_some H2.le (H.vis _ _ h)
            | seqR h1 h2 =>
              have := Recog.det U G I h1 ⟨_, _, _, hm⟩
              injection this with this; subst this
              exact H2.vis _ _ h2
    | alt a b =>
      simp only [accStepM] at h
      cases h1 : accM U G I n a p err s with
      | none => rw [h1] at h; cases h
      | some w =>
        rw [h1] at h
        obtain ⟨⟨o, er⟩, s1⟩ := w
        have H := ih _ _ _ _ _ _ h1 hi
        obtain ⟨m, hm⟩ := H.res
        cases o with
        | some q =>
          injection h with h; injection h with h1 h2; subst h1; subst h2
          refine ⟨⟨m+1, by rw [acc_s]; simp only [accStep, hm]⟩, H.inv, H.le, ?_⟩
          intro r q hv
          cases hv with
          | altL h => exact H.vis _ _ h
          | altR h _ => cases Recog.det U G I h ⟨_, _, _, hm⟩
        | none =>
          have H2 := ih _ _ _ _ _ _ h H.inv
          obtain ⟨m2, hm2⟩ := H2.res
          refine ⟨⟨max m m2 + 1, ?_⟩, H2.inv, Tab.le_trans H.le H2.le, ?_⟩
          · rw [acc_s]
            simp only [accStep, acc_mono U G I (Nat.le_max_left m m2) hm, acc_mono U G I (Nat.le_max_right m m2) hm2]
          · intro r q' hv
            cases hv with
            | altL h => exact Tab.le_some H2.le (H.vis _ _ h)
            | altR h1 h2 => exact H2.vis _ _ h2
    | plus a =>
      simp only [accStepM] at h
      cases h1 : accM U G I n a p err s with
      | none => rw [h1] at h; cases h
      | some w =>
        rw [h1] at h
        obtain ⟨⟨o, er⟩, s1⟩ := w
        have H := ih _ _ _ _ _ _ h1 hi
        obtain ⟨m, hm⟩ := H.res
        cases o with
        | none =>
          injection h with h; injection h with h1 h2; subst h1; subst h2
          refine ⟨⟨m+1, by rw [acc_s]; simp only [accStep, hm]⟩, H.inv, H.le, ?_⟩
          intro r q hv
          cases hv with
          | plusL h => exact H.vis _ _ h
          | plusR h _ => cases Recog.det U G I h ⟨_, _, _, hm⟩
        | some q =>
          have H2 := ih _ _ _ _ _ _ h H.inv
          obtain ⟨m2, hm2⟩ := H2.res
          refine ⟨⟨max m m2 + 1, ?_⟩, H2.inv, Tab.le_trans H.le H2.le, ?_⟩
          · rw [acc_s]
            simp only [accStep, acc_mono U G I (Nat.le_max_left m m2) hm, acc_mono U G I (Nat.le_max_right m m2) hm2]
          · intro r q' hv
            cases hv with
            | plusL h => exact Tab.le_some H2.le (H.vis _ _ h)
            | plusR h1 h2 =>
              have := Recog.det U G I h1 ⟨_, _, _, hm⟩
              injection this with this; subst this
              exact H2.vis _ _ h2
    | star a =>
      simp only [accStepM] at h
      cases h1 : accM U G I n a p err s with
      | none => rw [h1] at h; cases h
      | some w =>
        rw [h1] at h
        obtain ⟨⟨o, er⟩, s1⟩ := w
        have H := ih _ _ _ _ _ _ h1 hi
        obtain ⟨m, hm⟩ := H.res
        cases o with
        | none =>
          injection h with h; injection h with h1 h2; subst h1; subst h2
          refine ⟨⟨m+1, by rw [acc_s]; simp only [accStep, hm]⟩, H.inv, H.le, ?_⟩
          intro r q hv
          cases hv with
          | starL h => exact H.vis _ _ h
          | starR h _ => cases Recog.det U G I h ⟨_, _, _, hm⟩
        | some q =>
          have H2 := ih _ _ _ _ _ _ h H.inv
          obtain ⟨m2, hm2⟩ := H2.res
          refine ⟨⟨max m m2 + 1, ?_⟩, H2.inv, Tab.le_trans H.le H2.le, ?_⟩
          · rw [acc_s]
            simp only [accStep, acc_mono U G I (Nat.le_max_left m m2) hm, acc_mono U G I (Nat.le_max_right m m2) hm2]
          · intro r q' hv
            cases hv with
            | starL h => exact Tab.le_some H2.le (H.vis _ _ h)
            | starR h1 h2 =>
              have := Recog.det U G I h1 ⟨_, _, _, hm⟩
              injection this with this; subst this
              exact H2.vis _ _ h2
    | opt a | not a | and a =>
      simp only [accStepM] at h
      cases h1 : accM U G I n a p err s with
      | none => rw [h1] at h; cases h
      | some w =>
        rw [h1] at h
        obtain ⟨⟨o, er⟩, s1⟩ := w
        have H := ih _ _ _ _ _ _ h1 hi
        obtain ⟨m, hm⟩ := H.res
        cases o with
        | none =>
          injection h with h; injection h with h1 h2; subst h1; subst h2
          exact ⟨⟨m+1, by rw [acc_s]; simp only [accStep, hm]⟩, H.inv, H.le, fun r q hv => by
            cases hv; exact H.vis _ _ (by assumption)⟩
        | some q =>
          injection h with h; injection h with h1 h2; subst h1; subst h2
          exact ⟨⟨m+1, by rw [acc_s]; simp only [accStep, hm]⟩, H.inv, H.le, fun r q hv => by
            cases hv; exact H.vis _ _ (by assumption)⟩
    | lab a | grp a | act f a =>
      simp only [accStepM] at h
      have H := ih _ _ _ _ _ _ h hi
      obtain ⟨m, hm⟩ := H.res
      exact ⟨⟨m+1, by rw [acc_s]; simp only [accStep, hm]⟩, H.inv, H.le, fun r q hv => by
            cases hv; exact H.vis _ _ (by assumption)⟩

/-- `accM` returns whenever `acc` does. -/
theorem accM_total : ∀ n e p err s, AccInv U G I s.tab → acc U G I n e p err ≠ none →
    accM U G I n e p err s ≠ none := by
  intro n
  induction n with
  | zero => intro e p err s _ h; exact absurd rfl h
  | succ n ih =>
    intro e p err s hi h
    change accStepM U G I (accM U G I n) e p err s ≠ none
    rw [acc_s] at h
    -- results of the two agree
    have same : ∀ {a : Expr F} {p err s v w}, AccInv U G I s.tab → acc U G I n a p err = some v →
        accM U G I n a p err s = some w → w.1 = v ∧ AccInv U G I w.2.tab := by
      intro a p err s v w hs h1 h2
      have H := accM_ok U G I n a p err s w.1 w.2 h2 hs
      obtain ⟨m, hm⟩ := H.res
      exact ⟨acc_det U G I hm h1, H.inv⟩
    have two : ∀ {a b : Expr F}, (∀ v, acc U G I n a p err = some v → v.1 = none → True) →
        acc U G I n a p err ≠ none → ∃ v s1, acc U G I n a p err = some v ∧
          accM U G I n a p err s = some (v, s1) ∧ AccInv U G I s1.tab := by
      intro a b _ h1
      cases hv : acc U G I n a p err with
      | none => exact absurd hv h1
      | some v =>
        cases hw : accM U G I n a p err s with
        | none => exact absurd hw (ih _ _ _ _ hi h1)
        | some w =>
          obtain ⟨h2, h3⟩ := same hi hv hw
          exact ⟨v, w.2, rfl, by rw [← h2], h3⟩
    have one : ∀ a : Expr F, acc U G I n a p err ≠ none → ∃ v s1, acc U G I n a p err = some v ∧
          accM U G I n a p err s = some (v, s1) ∧ AccInv U G I s1.tab :=
      fun a h => @two a a (fun _ _ _ => trivial) h
    cases e with
    | term t =>
      simp only [accStepM]
      cases tm U I t p <;> exact Option.some_ne_none _
    | ref k =>
      simp only [accStepM]
      cases hg : s.tab.get p k with
      | some v => exact Option.some_ne_none _
      | none =>
        simp only
        have h1 : acc U G I n (G.body k) p 0 ≠ none := by
          intro h0; simp only [accStep, h0] at h; exact h rfl
        cases hw : accM U G I n (G.body k) p 0 s with
        | none => exact absurd hw (ih _ _ _ _ hi h1)
        | some w => obtain ⟨⟨_ | q, er⟩, s1⟩ := w <;> exact Option.some_ne_none _
    | seq a b =>
      obtain ⟨v, s1, h1, h2, h3⟩ := one a (by intro h0; simp only [accStep, h0] at h; exact h rfl)
      simp only [accStepM, h2]
      simp only [accStep, h1] at h
      obtain ⟨_ | q, er⟩ := v
      · exact Option.some_ne_none _
      · exact ih _ _ _ _ h3 h
    | alt a b =>
      obtain ⟨v, s1, h1, h2, h3⟩ := one a (by intro h0; simp only [accStep, h0] at h; exact h rfl)
      simp only [accStepM, h2]
      simp only [accStep, h1] at h
      obtain ⟨_ | q, er⟩ := v
      · exact ih _ _ _ _ h3 h
      · exact Option.some_ne_none _
    | plus a =>
      obtain ⟨v, s1, h1, h2, h3⟩ := one a (by intro h0; simp only [accStep, h0] at h; exact h rfl)
      simp only [accStepM, h2]
      simp only [accStep, h1] at h
      obtain ⟨_ | q, er⟩ := v
      · exact Option.some_ne_none _
      · exact ih _ _ _ _ h3 h
    | star a =>
      obtain ⟨v, s1, h1, h2, h3⟩ := one a (by intro h0; simp only [accStep, h0] at h; exact h rfl)
      simp only [accStepM, h2]
      simp only [accStep, h1] at h
      obtain ⟨_ | q, er⟩ := v
      · exact Option.some_ne_none _
      · exact ih _ _ _ _ h3 h
    | opt a | not a | and a =>
      obtain ⟨v, s1, h1, h2, h3⟩ := one a (by intro h0; simp only [accStep, h0] at h; exact h rfl)
      simp only [accStepM, h2]
      obtain ⟨_ | q, er⟩ := v <;> exact Option.some_ne_none _
    | lab a | grp a | act f a => exact ih _ _ _ _ hi h

/-- The entries of the table of a Node or Action pass are the values of the rules, and only rules
known to the Accepts functions have entries. -/
def InvX (d : Tab (Option Nat × Nat)) (t : Tab A.X) : Prop := ∀ p r x, t.get p r = some x →
  (∃ n q, ev U G I A n (.ref r) p = some (.ok q x)) ∧ d.get p r ≠ none

theorem invX_empty (d) : InvX U G I A d .empty := fun _ _ _ h => by rw [Tab.get_empty] at h; cases h

theorem ev_recog_ok {n e p q x} (h : ev U G I A n e p = some (.ok q x)) : Recog U G I e p (some q) := by
  have := ev_acc U G I A n e p 0
  rw [h] at this
  obtain ⟨e, h⟩ := this
  exact ⟨_, _, _, h⟩

theorem ev_recog_fail {n e p} (h : ev U G I A n e p = some .fail) : Recog U G I e p none := by
  have := ev_acc U G I A n e p 0
  rw [h] at this
  obtain ⟨e, h⟩ := this
  exact ⟨_, _, _, h⟩

/-- The rule of `evM` when the rule was accepted. -/
theorem ev_ref_ok {m k p q er v} (ha : acc U G I m (G.body k) p 0 = some (some q, er))
    (h : ev U G I A m (G.body k) p = some v) : ev U G I A (m+1) (.ref k) p = some (match v with
      | .ok q x => .ok q (A.rule k p q x)
      | .fail => .fail
      | .panic e => .panic e) := by
  rw [ev_s]; simp only [evStep, ha, h]; cases v <;> rfl

theorem acc_ref_inv {m k p v} (h : acc U G I m (.ref k) p 0 = some v) :
    ∃ m' er, acc U G I m' (G.body k) p 0 = some (v.1, er) := by
  cases m with
  | zero => cases h
  | succ m =>
    rw [acc_s] at h
    simp only [accStep] at h
    cases h3 : acc U G I m (G.body k) p 0 with
    | none => rw [h3] at h; cases h
    | some w =>
      rw [h3] at h
      rcases w with ⟨_ | q, e'⟩
      · injection h with h; subst h; exact ⟨m, _, h3⟩
      · injection h with h; subst h; exact ⟨m, _, h3⟩

theorem evM_ok (d : Tab (Option Nat × Nat)) (hd : AccInv U G I d) : ∀ n e p s res s',
    evM U G I A d n e p s = some (res, s') → InvX U G I A d s →
    (∀ r q, Vis U G I e p r q → d.get q r ≠ none) →
    (∃ m, ev U G I A m e p = some res) ∧ InvX U G I A d s' := by
  intro n
  induction n with
  | zero => intro e p s res s' h; cases h
  | succ n ih =>
    intro e p s res s' h hi hv
    change evStepM U G I A d (evM U G I A d n) e p s = _ at h
    cases e with
    | term t =>
      simp only [evStepM] at h
      cases ht : tm U I t p with
      | inl q =>
        rw [ht] at h; injection h with h; injection h with h1 h2; subst h1; subst h2
        exact ⟨⟨1, by rw [ev_s]; simp only [evStep, ht]⟩, hi⟩
      | inr x =>
        rw [ht] at h; injection h with h; injection h with h1 h2; subst h1; subst h2
        exact ⟨⟨1, by rw [ev_s]; simp only [evStep, ht]⟩, hi⟩
    | ref k =>
      simp only [evStepM] at h
      have hd0 := hv _ _ (Vis.ref k p)
      cases hg : d.get p k with
      | none => exact absurd hg hd0
      | some v =>
        obtain ⟨⟨m, hm⟩, hcl⟩ := hd _ _ _ hg
        obtain ⟨m', er, hm'⟩ := acc_ref_inv U G I hm
        rw [hg] at h
        obtain ⟨_ | q, er0⟩ := v
        · injection h with h; injection h with h1 h2; subst h1; subst h2
          exact ⟨⟨m'+1, by rw [ev_s]; simp only [evStep, hm']⟩, hi⟩
        · simp only at h
          cases hx : s.get p k with
          | some x =>
            rw [hx] at h
            injection h with h; injection h with h1 h2; subst h1; subst h2
            obtain ⟨⟨m2, q2, h2⟩, -⟩ := hi _ _ _ hx
            have hr := ev_recog_ok U G I A h2
            have : some q2 = some q := Recog.det U G I hr ⟨_, _, _, hm⟩
            injection this with this; subst this
            exact ⟨⟨m2, h2⟩, hi⟩
          | none =>
            rw [hx] at h
            simp only at h
            cases hb : evM U G I A d n (G.body k) p s with
            | none => rw [hb] at h; cases h
            | some w =>
              obtain ⟨w, s1⟩ := w
              obtain ⟨⟨m2, h2⟩, hi2⟩ := ih _ _ _ _ _ hb hi hcl
              have a1 := acc_mono U G I (Nat.le_max_left m' m2) hm'
              have e1 := ev_mono U G I A (Nat.le_max_right m' m2) h2
              have e2 := ev_ref_ok U G I A a1 e1
              rw [hb] at h
              cases w with
              | ok q' x =>
                injection h with h; injection h with h1 h2; subst h1; subst h2
                refine ⟨⟨_, e2⟩, ?_⟩
                intro p2 r2 x2 hx2
                rw [Tab.get_put] at hx2
                split at hx2
                · rename_i hh
                  obtain ⟨rfl, rfl⟩ := hh
                  injection hx2 with hx2; subst hx2
                  exact ⟨⟨_, _, e2⟩, by rw [hg]; exact Option.some_ne_none _⟩
                · exact hi2 _ _ _ hx2
              | fail =>
                injection h with h; injection h with h1 h2; subst h1; subst h2
                exact ⟨⟨_, e2⟩, hi2⟩
              | panic _ =>
                injection h with h; injection h with h1 h2; subst h1; subst h2
                exact ⟨⟨_, e2⟩, hi2⟩
    | seq a b =>
      simp only [evStepM] at h
      cases h1 : evM U G I A d n a p s with
      | none => rw [h1] at h; cases h
      | some w =>
        obtain ⟨w, s1⟩ := w
        obtain ⟨⟨m, hm⟩, hi1⟩ := ih _ _ _ _ _ h1 hi (fun r q h => hv _ _ (.seqL h))
        rw [h1] at h
        cases w with
        | ok q x =>
          have hr := ev_recog_ok U G I A hm
          simp only at h
          cases h2 : evM U G I A d n b q s1 with
          | none => rw [h2] at h; cases h
          | some w2 =>
            obtain ⟨w2, s2⟩ := w2
            obtain ⟨⟨m2, hm2⟩, hi2⟩ := ih _ _ _ _ _ h2 hi1 (fun r q h => hv _ _ (.seqR hr h))
            rw [h2] at h
            have e1 := ev_mono U G I A (Nat.le_max_left m m2) hm
            have e2 := ev_mono U G I A (Nat.le_max_right m m2) hm2
            cases w2 <;>
            · injection h with h; injection h with h1 h2; subst h1; subst h2
              exact ⟨⟨max m m2 + 1, by rw [ev_s]; simp only [evStep, e1, e2]⟩, hi2⟩
        | fail =>
          injection h with h; injection h with h1 h2; subst h1; subst h2
          exact ⟨⟨m + 1, by rw [ev_s]; simp only [evStep, hm]⟩, hi1⟩
        | panic _ =>
          injection h with h; injection h with h1 h2; subst h1; subst h2
          exact ⟨⟨m + 1, by rw [ev_s]; simp only [evStep, hm]⟩, hi1⟩
    | alt a b =>
      simp only [evStepM] at h
      cases h1 : evM U G I A d n a p s with
      | none => rw [h1] at h; cases h
      | some w =>
        obtain ⟨w, s1⟩ := w
        obtain ⟨⟨m, hm⟩, hi1⟩ := ih _ _ _ _ _ h1 hi (fun r q h => hv _ _ (.altL h))
        rw [h1] at h
        cases w with
        | fail =>
          have hr := ev_recog_fail U G I A hm
          obtain ⟨⟨m2, hm2⟩, hi2⟩ := ih _ _ _ _ _ h hi1 (fun r q h => hv _ _ (.altR hr h))
          have e1 := ev_mono U G I A (Nat.le_max_left m m2) hm
          have e2 := ev_mono U G I A (Nat.le_max_right m m2) hm2
          exact ⟨⟨max m m2 + 1, by rw [ev_s]; simp only [evStep, e1, e2]⟩, hi2⟩
        | ok _ _ =>
          injection h with h; injection h with h1 h2; subst h1; subst h2
          exact ⟨⟨m + 1, by rw [ev_s]; simp only [evStep, hm]⟩, hi1⟩
        | panic _ =>
          injection h with h; injection h with h1 h2; subst h1; subst h2
          exact ⟨⟨m + 1, by rw [ev_s]; simp only [evStep, hm]⟩, hi1⟩
    | plus a =>
      simp only [evStepM] at h
      cases h1 : evM U G I A d n a p s with
      | none => rw [h1] at h; cases h
      | some w =>
        obtain ⟨w, s1⟩ := w
        obtain ⟨⟨m, hm⟩, hi1⟩ := ih _ _ _ _ _ h1 hi (fun r q h => hv _ _ (.plusL h))
        rw [h1] at h
        cases w with
        | ok q x =>
          have hr := ev_recog_ok U G I A hm
          simp only at h
          cases h2 : evM U G I A d n (.star a) q s1 with
          | none => rw [h2] at h; cases h
          | some w2 =>
            obtain ⟨w2, s2⟩ := w2
            obtain ⟨⟨m2, hm2⟩, hi2⟩ := ih _ _ _ _ _ h2 hi1 (fun r q h => hv _ _ (.plusR hr h))
            rw [h2] at h
            have e1 := ev_mono U G I A (Nat.le_max_left m m2) hm
            have e2 := ev_mono U G I A (Nat.le_max_right m m2) hm2
            cases w2 <;>
            · injection h with h; injection h with h1 h2; subst h1; subst h2
              exact ⟨⟨max m m2 + 1, by rw [ev_s]; simp only [evStep, e1, e2]⟩, hi2⟩
        | fail =>
          injection h with h; injection h with h1 h2; subst h1; subst h2
          exact ⟨⟨m + 1, by rw [ev_s]; simp only [evStep, hm]⟩, hi1⟩
        | panic _ =>
          injection h with h; injection h with h1 h2; subst h1; subst h2
          exact ⟨⟨m + 1, by rw [ev_s]; simp only [evStep, hm]⟩, hi1⟩
    | star a =>
      simp only [evStepM] at h
      cases h1 : evM U G I A d n a p s with
      | none => rw [h1] at h; cases h
      | some w =>
        obtain ⟨w, s1⟩ := w
        obtain ⟨⟨m, hm⟩, hi1⟩ := ih _ _ _ _ _ h1 hi (fun r q h => hv _ _ (.starL h))
        rw [h1] at h
        cases w with
        | ok q x =>
          have hr := ev_recog_ok U G I A hm
          simp only at h
          cases h2 : evM U G I A d n (.star a) q s1 with
          | none => rw [h2] at h; cases h
          | some w2 =>
            obtain ⟨w2, s2⟩ := w2
            obtain ⟨⟨m2, hm2⟩, hi2⟩ := ih _ _ _ _ _ h2 hi1 (fun r q h => hv _ _ (.starR hr h))
            rw [h2] at h
            have e1 := ev_mono U G I A (Nat.le_max_left m m2) hm
            have e2 := ev_mono U G I A (Nat.le_max_right m m2) hm2
            cases w2 <;>
            · injection h with h; injection h with h1 h2; subst h1; subst h2
              exact ⟨⟨max m m2 + 1, by rw [ev_s]; simp only [evStep, e1, e2]⟩, hi2⟩
        | fail =>
          injection h with h; injection h with h1 h2; subst h1; subst h2
          exact ⟨⟨m + 1, by rw [ev_s]; simp only [evStep, hm]⟩, hi1⟩
        | panic _ =>
          injection h with h; injection h with h1 h2; subst h1; subst h2
          exact ⟨⟨m + 1, by rw [ev_s]; simp only [evStep, hm]⟩, hi1⟩
    | opt a | not a | and a | lab a | grp a =>
      simp only [evStepM] at h
      cases h1 : evM U G I A d n a p s with
      | none => rw [h1] at h; cases h
      | some w =>
        obtain ⟨w, s1⟩ := w
        obtain ⟨⟨m, hm⟩, hi1⟩ := ih _ _ _ _ _ h1 hi (fun r q h => hv _ _ (by constructor; exact h))
        rw [h1] at h
        cases w <;>
        · injection h with h; injection h with h1 h2; subst h1; subst h2
          exact ⟨⟨m + 1, by rw [ev_s]; simp only [evStep, hm]⟩, hi1⟩
    | act f a =>
      simp only [evStepM] at h
      cases h1 : evM U G I A d n a p s with
      | none => rw [h1] at h; cases h
      | some w =>
        obtain ⟨w, s1⟩ := w
        obtain ⟨⟨m, hm⟩, hi1⟩ := ih _ _ _ _ _ h1 hi (fun r q h => hv _ _ (.act h))
        rw [h1] at h
        cases w with
        | ok q x =>
          simp only at h
          cases ha : A.act f p q x with
          | ok y =>
            rw [ha] at h
            injection h with h; injection h with h1 h2; subst h1; subst h2
            exact ⟨⟨m + 1, by rw [ev_s]; simp only [evStep, hm, ha]⟩, hi1⟩
          | error e =>
            rw [ha] at h
            injection h with h; injection h with h1 h2; subst h1; subst h2
            exact ⟨⟨m + 1, by rw [ev_s]; simp only [evStep, hm, ha]⟩, hi1⟩
        | fail =>
          injection h with h; injection h with h1 h2; subst h1; subst h2
          exact ⟨⟨m + 1, by rw [ev_s]; simp only [evStep, hm]⟩, hi1⟩
        | panic _ =>
          injection h with h; injection h with h1 h2; subst h1; subst h2
          exact ⟨⟨m + 1, by rw [ev_s]; simp only [evStep, hm]⟩, hi1⟩

/-- `evM` returns whenever `ev` does. -/
theorem evM_total (d : Tab (Option Nat × Nat)) (hd : AccInv U G I d) : ∀ n e p s,
    InvX U G I A d s → (∀ r q, Vis U G I e p r q → d.get q r ≠ none) →
    ev U G I A n e p ≠ none → evM U G I A d n e p s ≠ none := by
  intro n
  induction n with
  | zero => intro e p s _ _ h; exact absurd rfl h
  | succ n ih =>
    intro e p s hi hv h
    change evStepM U G I A d (evM U G I A d n) e p s ≠ none
    rw [ev_s] at h
    have one : ∀ (a : Expr F) (p : Nat) (s : Tab A.X), InvX U G I A d s →
        (∀ r q, Vis U G I a p r q → d.get q r ≠ none) → ev U G I A n a p ≠ none →
        ∃ v s1, ev U G I A n a p = some v ∧ evM U G I A d n a p s = some (v, s1) ∧ InvX U G I A d s1 := by
      intro a p s hi hv h
      cases hw : evM U G I A d n a p s with
      | none => exact absurd hw (ih _ _ _ hi hv h)
      | some w =>
        cases hx : ev U G I A n a p with
        | none => exact absurd hx h
        | some x =>
          obtain ⟨w, s1⟩ := w
          obtain ⟨⟨m, hm⟩, hi1⟩ := evM_ok U G I A d hd n a p s w s1 hw hi hv
          have := ev_det U G I A hm hx
          subst this
          exact ⟨_, _, rfl, rfl, hi1⟩
    cases e with
    | term t =>
      simp only [evStepM]
      cases tm U I t p <;> exact Option.some_ne_none _
    | ref k =>
      simp only [evStepM]
      have hd0 := hv _ _ (Vis.ref k p)
      cases hg : d.get p k with
      | none => exact absurd hg hd0
      | some v =>
        obtain ⟨⟨m, hm⟩, hcl⟩ := hd _ _ _ hg
        obtain ⟨_ | q, er0⟩ := v
        · exact Option.some_ne_none _
        · simp only
          cases hx : s.get p k with
          | some x => exact Option.some_ne_none _
          | none =>
            simp only
            simp only [evStep] at h
            cases ha : acc U G I n (G.body k) p 0 with
            | none => rw [ha] at h; exact absurd rfl h
            | some v =>
              rw [ha] at h
              obtain ⟨_ | q', er'⟩ := v
              · obtain ⟨m', er2, hm'⟩ := acc_ref_inv U G I hm
                have := acc_det U G I hm' ha
                cases this
              · simp only at h
                obtain ⟨v, s1, h1, h2, -⟩ := one (G.body k) p s hi hcl (by intro h0; rw [h0] at h; exact h rfl)
                rw [h2]
                cases v <;> exact Option.some_ne_none _
    | seq a b =>
      obtain ⟨v, s1, h1, h2, h3⟩ := one a p s hi (fun r q h => hv _ _ (.seqL h)) (by intro h0; simp only [evStep, h0] at h; exact h rfl)
      simp only [evStepM, h2]
      simp only [evStep, h1] at h
      cases v with
      | ok q x =>
        simp only at h ⊢
        obtain ⟨v', s2, h1', h2', -⟩ := one b q s1 h3 (fun r q' h => hv _ _ (.seqR (ev_recog_ok U G I A h1) h)) (by intro h0; rw [h0] at h; exact h rfl)
        rw [h2']
        cases v' <;> exact Option.some_ne_none _
      | fail => exact Option.some_ne_none _
      | panic _ => exact Option.some_ne_none _
    | alt a b =>
      obtain ⟨v, s1, h1, h2, h3⟩ := one a p s hi (fun r q h => hv _ _ (.altL h)) (by intro h0; simp only [evStep, h0] at h; exact h rfl)
      simp only [evStepM, h2]
      simp only [evStep, h1] at h
      cases v with
      | fail => exact ih _ _ _ h3 (fun r q' h => hv _ _ (.altR (ev_recog_fail U G I A h1) h)) h
      | ok _ _ => exact Option.some_ne_none _
      | panic _ => exact Option.some_ne_none _
    | plus a =>
      obtain ⟨v, s1, h1, h2, h3⟩ := one a p s hi (fun r q h => hv _ _ (.plusL h)) (by intro h0; simp only [evStep, h0] at h; exact h rfl)
      simp only [evStepM, h2]
      simp only [evStep, h1] at h
      cases v with
      | ok q x =>
        simp only at h ⊢
        obtain ⟨v', s2, h1', h2', -⟩ := one (.star a) q s1 h3 (fun r q' h => hv _ _ (.plusR (ev_recog_ok U G I A h1) h)) (by intro h0; rw [h0] at h; exact h rfl)
        rw [h2']
        cases v' <;> exact Option.some_ne_none _
      | fail => exact Option.some_ne_none _
      | panic _ => exact Option.some_ne_none _
    | star a =>
      obtain ⟨v, s1, h1, h2, h3⟩ := one a p s hi (fun r q h => hv _ _ (.starL h)) (by intro h0; simp only [evStep, h0] at h; exact h rfl)
      simp only [evStepM, h2]
      simp only [evStep, h1] at h
      cases v with
      | ok q x =>
        simp only at h ⊢
        obtain ⟨v', s2, h1', h2', -⟩ := one (.star a) q s1 h3 (fun r q' h => hv _ _ (.starR (ev_recog_ok U G I A h1) h)) (by intro h0; rw [h0] at h; exact h rfl)
        rw [h2']
        cases v' <;> exact Option.some_ne_none _
      | fail => exact Option.some_ne_none _
      | panic _ => exact Option.some_ne_none _
    | opt a | not a | and a | lab a | grp a =>
      obtain ⟨v, s1, h1, h2, h3⟩ := one a p s hi (fun r q h => hv _ _ (by constructor; exact h)) (by intro h0; simp only [evStep, h0] at h; exact h rfl)
      simp only [evStepM, h2]
      cases v <;> exact Option.some_ne_none _
    | act f a =>
      obtain ⟨v, s1, h1, h2, h3⟩ := one a p s hi (fun r q h => hv _ _ (.act h)) (by intro h0; simp only [evStep, h0] at h; exact h rfl)
      simp only [evStepM, h2]
      cases v with
      | ok q x =>
        simp only
        cases A.act f p q x <;> exact Option.some_ne_none _
      | fail => exact Option.some_ne_none _
      | panic _ => exact Option.some_ne_none _

end Verif.Peg
