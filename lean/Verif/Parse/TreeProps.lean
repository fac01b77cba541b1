/-
C17, C22: what a successful parse reads, and the tree it returns.
-/
import Verif.Parse.ParserProps
import Verif.Parse.Spec

namespace Verif.Parse
open Verif.AST Verif.Peg

variable (U : Uni) (b : Bytes)

/-! ### Inversion of recognition -/

section
variable {F : Type} {U : Uni} {G : Gram F} {I : Input} {p : Nat}

theorem Recog.act {f : F} {a o} (h : Recog U G I (.act f a) p o) : Recog U G I a p o := by
  obtain ⟨n, e, e', h⟩ := h
  cases n with
  | zero => cases h
  | succ n => exact ⟨n, e, e', h⟩

theorem Recog.lab {a : Expr F} {o} (h : Recog U G I (.lab a) p o) : Recog U G I a p o := by
  obtain ⟨n, e, e', h⟩ := h
  cases n with
  | zero => cases h
  | succ n => exact ⟨n, e, e', h⟩

theorem Recog.ref {r q} (h : Recog U G I (.ref r) p (some q)) : Recog U G I (G.body r) p (some q) := by
  obtain ⟨n, e, e', h⟩ := h
  cases n with
  | zero => cases h
  | succ n =>
    rw [acc_s] at h
    simp only [accStep] at h
    split at h
    · cases h
    · rename_i hb
      injection h with h
      injection h with h _
      injection h with h
      subst h
      exact ⟨n, 0, _, hb⟩
    · injection h with h; injection h with h _; cases h

theorem Recog.seq {a b : Expr F} {q} (h : Recog U G I (.seq a b) p (some q)) :
    ∃ m, Recog U G I a p (some m) ∧ Recog U G I b m (some q) := by
  obtain ⟨n, e, e', h⟩ := h
  cases n with
  | zero => cases h
  | succ n =>
    rw [acc_s] at h
    simp only [accStep] at h
    split at h
    · rename_i m e1 ha
      exact ⟨m, ⟨n, _, _, ha⟩, ⟨n, _, _, h⟩⟩
    · rename_i hne
      exact absurd h (hne _ _)

theorem Recog.notAny {q} (h : Recog U G I (.not (.term .any)) p (some q)) :
    q = p ∧ (I.len ≤ p ∨ (I.next p).1 = bad) := by
  obtain ⟨n, e, e', h⟩ := h
  cases n with
  | zero => cases h
  | succ n =>
    rw [acc_s] at h
    simp only [accStep] at h
    cases n with
    | zero => simp [acc_0] at h
    | succ n =>
      rw [acc_s] at h
      simp only [accStep, tm, Input.rune] at h
      by_cases hp : p < I.len
      · simp only [hp, if_true] at h
        by_cases hc : (I.next p).1 = bad
        · simp [hc] at h
          exact ⟨h.1.symm, .inr hc⟩
        · simp [hc] at h
      · simp [hp] at h
        exact ⟨h.1.symm, .inl (by omega)⟩

theorem Recog.of_ev {E : Type} {A : Alg F E} {n e q x} (h : ev U G I A n e p = some (.ok q x)) : Recog U G I e p (some q) :=
  ev_recog_ok U G I A h
end

/-! ### What is read -/

/-- No class of the expression has U+FFFD. -/
def noBad : Expr Act → Bool
  | .term (.cls cs) => !cs.contains bad
  | .term (.lit c) => c != bad
  | .term _ => true
  | .ref _ => true
  | .seq a b => noBad a && noBad b
  | .alt a b => noBad a && noBad b
  | .opt a | .plus a | .star a | .not a | .and a | .lab a | .grp a | .act _ a => noBad a

theorem noBad_table : (List.range 403).all (fun r => noBad (bodies.get r)) = true := by decide +kernel

theorem noBad_rule (r : Nat) : noBad (toaq.body r) = true :=
  bodies.all (fun e => noBad e = true) bounds.1
    (fun n hn => List.all_eq_true.1 noBad_table n (List.mem_range.2 hn)) r

theorem tm_span {I : Input} {t : Term} {p q} (h : tm U I t p = .inl q) (hb : noBad (.term t) = true) :
    ∃ c w, c ≠ bad ∧ p < I.len ∧ I.next p = (c, w) ∧ q = p + w := by
  have key : ∀ c w, I.rune p = some (c, w) → p < I.len ∧ I.next p = (c, w) := by
    intro c w hr
    unfold Input.rune at hr
    split at hr
    · rename_i hp; injection hr with hr; exact ⟨hp, hr⟩
    · cases hr
  unfold tm at h
  cases t with
  | cls cs =>
    simp only at h
    split at h
    · rename_i c w hr
      split at h
      · rename_i hc
        injection h with h
        refine ⟨c, w, ?_, (key c w hr).1, (key c w hr).2, h.symm⟩
        intro hcb
        subst hcb
        rw [noBad, hc] at hb
        cases hb
      · cases h
    · cases h
  | lit d =>
    simp only at h
    split at h
    · rename_i c w hr
      split at h
      · rename_i hc
        injection h with h
        refine ⟨c, w, ?_, (key c w hr).1, (key c w hr).2, h.symm⟩
        subst hc
        simpa [noBad] using hb
      · cases h
    · cases h
  | any =>
    simp only at h
    split at h
    · rename_i c w hr
      split at h
      · rename_i hc
        injection h with h
        exact ⟨c, w, hc, (key c w hr).1, (key c w hr).2, h.symm⟩
      · cases h
    · cases h
  | punct =>
    simp only at h
    split at h
    · rename_i c w hr
      split at h
      · rename_i hc
        split at h
        · injection h with h
          exact ⟨c, w, hc, (key c w hr).1, (key c w hr).2, h.symm⟩
        · cases h
      · cases h
    · cases h

/-- A successful expression reads runes other than U+FFFD. -/
theorem reads {I : Input} : ∀ n (e : Expr Act) p err q err', noBad e = true →
    acc U toaq I n e p err = some (some q, err') → ∃ cs, Spans I p q cs ∧ bad ∉ cs := by
  intro n
  induction n with
  | zero => intro e p err q err' _ h; cases h
  | succ n ih =>
    intro e p err q err' hb h
    rw [acc_s] at h
    cases e with
    | term t =>
      simp only [accStep] at h
      cases ht : tm U I t p with
      | inl q' =>
        rw [ht] at h
        injection h with h; injection h with h _; injection h with h; subst h
        obtain ⟨c, w, h1, h2, h3, h4⟩ := tm_span U ht hb
        subst h4
        exact ⟨[c], .cons h2 h3 (.nil _), by simpa using fun hc => h1 hc.symm⟩
      | inr x => rw [ht] at h; injection h with h; injection h with h _; cases h
    | ref r =>
      simp only [accStep] at h
      split at h
      · cases h
      · rename_i hr
        injection h with h; injection h with h _; injection h with h; subst h
        exact ih _ _ _ _ _ (noBad_rule r) hr
      · injection h with h; injection h with h _; cases h
    | seq a b =>
      simp only [accStep] at h
      simp only [noBad, Bool.and_eq_true] at hb
      split at h
      · rename_i m e1 ha
        obtain ⟨cs, h1, h2⟩ := ih _ _ _ _ _ hb.1 ha
        obtain ⟨ds, h3, h4⟩ := ih _ _ _ _ _ hb.2 h
        exact ⟨cs ++ ds, h1.append h3, by simp [h2, h4]⟩
      · rename_i hne; exact absurd h (hne _ _)
    | alt a b =>
      simp only [accStep] at h
      simp only [noBad, Bool.and_eq_true] at hb
      split at h
      · exact ih _ _ _ _ _ hb.2 h
      · exact ih _ _ _ _ _ hb.1 h
    | opt a =>
      simp only [accStep] at h
      split at h
      · injection h with h; injection h with h _; injection h with h; subst h
        exact ⟨[], .nil _, by simp⟩
      · exact ih _ _ _ _ _ (by simpa [noBad] using hb) h
    | plus a =>
      simp only [accStep] at h
      split at h
      · rename_i m e1 ha
        obtain ⟨cs, h1, h2⟩ := ih _ _ _ _ _ (by simpa [noBad] using hb) ha
        obtain ⟨ds, h3, h4⟩ := ih (.star a) _ _ _ _ (by simpa [noBad] using hb) h
        exact ⟨cs ++ ds, h1.append h3, by simp [h2, h4]⟩
      · rename_i hne; exact absurd h (hne _ _)
    | star a =>
      simp only [accStep] at h
      split at h
      · rename_i m e1 ha
        obtain ⟨cs, h1, h2⟩ := ih _ _ _ _ _ (by simpa [noBad] using hb) ha
        obtain ⟨ds, h3, h4⟩ := ih (.star a) _ _ _ _ hb h
        exact ⟨cs ++ ds, h1.append h3, by simp [h2, h4]⟩
      · injection h with h; injection h with h _; injection h with h; subst h
        exact ⟨[], .nil _, by simp⟩
      · cases h
    | not a =>
      simp only [accStep] at h
      split at h
      · injection h with h; injection h with h _; cases h
      · injection h with h; injection h with h _; injection h with h; subst h
        exact ⟨[], .nil _, by simp⟩
      · cases h
    | and a =>
      simp only [accStep] at h
      split at h
      · injection h with h; injection h with h _; injection h with h; subst h
        exact ⟨[], .nil _, by simp⟩
      · injection h with h; injection h with h _; cases h
      · cases h
    | lab a => exact ih _ _ _ _ _ (by simpa [noBad] using hb) h
    | grp a => exact ih _ _ _ _ _ (by simpa [noBad] using hb) h
    | act f a => exact ih _ _ _ _ _ (by simpa [noBad] using hb) h

/-- The part of the text that a successful parse has to read: the runes before the end of the text or
the first U+FFFD. -/
def Consumed (b : Bytes) (q : Nat) : Prop :=
  ∃ cs, Spans (.ofBytes b) 0 q cs ∧ bad ∉ cs ∧ (q = b.length ∨ (decode (b.drop q)).1 = bad)

theorem full_consumed {q} (h : Recog U toaq (.ofBytes b) (.ref rFull) 0 (some q)) : Consumed b q := by
  obtain ⟨n, e, e', hn⟩ := h
  obtain ⟨cs, h1, h2⟩ := reads U n _ _ _ _ _ (by rfl) hn
  have hle := ((acc_bounds U toaq (.ofBytes b) n _ 0 e _ (Nat.zero_le _) hn).1 q rfl).2
  refine ⟨cs, h1, h2, ?_⟩
  have h3 : Recog U toaq (.ofBytes b) (toaq.body 0) 0 (some q) := Recog.ref ⟨n, e, e', hn⟩
  have hb0 : toaq.body 0 = .act .keep (.seq (.lab (.ref 1)) (.ref 224)) := by rfl
  rw [hb0] at h3
  obtain ⟨m, _, h4⟩ := Recog.seq (Recog.act h3)
  have h5 := Recog.ref h4
  have hb1 : toaq.body 224 = .not (.term .any) := by rfl
  rw [hb1] at h5
  obtain ⟨rfl, h6 | h6⟩ := Recog.notAny h5
  · left
    have h7 : b.length ≤ q := h6
    have h8 : q ≤ b.length := hle
    omega
  · exact .inr h6

/-- The consumed part is unique. -/
theorem Consumed.unique {q q'} (h : Consumed b q) (h' : Consumed b q') : q = q' := by
  obtain ⟨cs, h1, h2, h3⟩ := h
  obtain ⟨ds, h4, h5, h6⟩ := h'
  have key : ∀ {p q q' cs ds}, Spans (.ofBytes b) p q cs → Spans (.ofBytes b) p q' ds → bad ∉ cs → bad ∉ ds →
      (q = b.length ∨ (decode (b.drop q)).1 = bad) → (q' = b.length ∨ (decode (b.drop q')).1 = bad) → q = q' := by
    intro p q q' cs ds h1
    induction h1 generalizing ds with
    | nil p =>
      intro h4 _ h5 h3 h6
      cases h4 with
      | nil => rfl
      | @cons _ _ c w cs hp hc hr =>
        exfalso
        rcases h3 with h3 | h3
        · have hp' : p < b.length := hp
          omega
        · have : (decode (b.drop p)).1 = c := by
            have : decode (b.drop p) = (c, w) := hc
            rw [this]
          rw [h3] at this
          exact h5 (by rw [this]; exact List.mem_cons_self)
    | @cons p q c w cs hp hc hr ih =>
      intro h4 h2 h5 h3 h6
      cases h4 with
      | nil =>
        exfalso
        rcases h6 with h6 | h6
        · have hp' : _ < b.length := hp
          omega
        · have : (decode (b.drop q')).1 = c := by
            have : decode (b.drop q') = (c, w) := hc
            rw [this]
          rw [h6] at this
          exact h2 (by rw [this]; exact List.mem_cons_self)
      | @cons _ _ c' w' cs' hp' hc' hr' =>
        rw [hc] at hc'
        injection hc' with e1 e2
        subst e1 e2
        exact ih hr' (fun h => h2 (List.mem_cons_of_mem _ h)) (fun h => h5 (List.mem_cons_of_mem _ h)) h3 h6
  exact key h1 h4 h2 h5 h3 h6

/-! ### The tree -/

/-- The text of a node that is the node of a rule or has kids is the concatenation of the texts of the
kids; likewise for the kids. -/
inductive Faithful : PNode → Prop
  | mk {name text kids} : (name ≠ none ∨ kids ≠ [] → text = (kids.map PNode.text).flatten) →
      (∀ k ∈ kids, Faithful k) → Faithful (.mk name text kids)

def Cover (p q : Nat) (x : List PNode) : Prop :=
  p ≤ q ∧ (x.map PNode.text).flatten = slice b p q ∧ ∀ t ∈ x, Faithful t

theorem Cover.nil (p : Nat) : Cover b p p [] := ⟨Nat.le_refl _, by simp [slice_self], by simp⟩

theorem Cover.append {p m q x y} (h : Cover b p m x) (h' : Cover b m q y) : Cover b p q (x ++ y) := by
  refine ⟨Nat.le_trans h.1 h'.1, ?_, ?_⟩
  · rw [List.map_append, List.flatten_append, h.2.1, h'.2.1, slice_append b h.1 h'.1]
  · intro t ht
    rcases List.mem_append.1 ht with ht | ht
    · exact h.2.2 t ht
    · exact h'.2.2 t ht

theorem Cover.up {p q x} (name : Option Nat) (h : Cover b p q x) : Cover b p q [.mk name (slice b p q) x] := by
  refine ⟨h.1, by simp [PNode.text], ?_⟩
  intro t ht
  rw [List.mem_singleton] at ht
  subst ht
  exact .mk (fun _ => h.2.1.symm) h.2.2

theorem Cover.leaf {p q} (h : p ≤ q) : Cover b p q [.mk none (slice b p q) []] := by
  refine ⟨h, by simp [PNode.text], ?_⟩
  intro t ht
  rw [List.mem_singleton] at ht
  subst ht
  exact .mk (by simp) (by simp)

theorem node_cover : ∀ n (e : Expr Act) p, match ev U toaq (.ofBytes b) (nodeAlg b) n e p with
    | some (.ok q x) => Cover b p q x
    | some (.panic _) => False
    | _ => True := by
  intro n
  induction n with
  | zero => intro e p; simp [ev_0]
  | succ n ih =>
    intro e p
    rw [ev_s]
    cases e with
    | term t =>
      simp only [evStep]
      cases ht : tm U (.ofBytes b) t p with
      | inl q => exact Cover.leaf b (Nat.le_of_lt (tm_lt U _ ht).1)
      | inr x => trivial
    | ref r =>
      simp only [evStep]
      cases hac : acc U toaq (.ofBytes b) n (toaq.body r) p 0 with
      | none => trivial
      | some v =>
        rcases v with ⟨_ | q, e'⟩
        · trivial
        · have := ih (toaq.body r) p
          simp only
          cases hx : ev U toaq (.ofBytes b) (nodeAlg b) n (toaq.body r) p with
          | none => trivial
          | some v =>
            rw [hx] at this
            cases v with
            | ok q x => exact Cover.up b (some r) this
            | fail => trivial
            | panic e => exact this
    | seq x y =>
      simp only [evStep]
      have h1 := ih x p
      cases hx : ev U toaq (.ofBytes b) (nodeAlg b) n x p with
      | none => trivial
      | some v =>
        rw [hx] at h1
        cases v with
        | fail => trivial
        | panic e => exact h1
        | ok q u =>
          simp only
          have h2 := ih y q
          cases hy : ev U toaq (.ofBytes b) (nodeAlg b) n y q with
          | none => trivial
          | some v =>
            rw [hy] at h2
            cases v with
            | fail => trivial
            | panic e => exact h2
            | ok q' u' => exact Cover.append b h1 h2
    | alt x y =>
      simp only [evStep]
      have h1 := ih x p
      cases hx : ev U toaq (.ofBytes b) (nodeAlg b) n x p with
      | none => trivial
      | some v =>
        rw [hx] at h1
        cases v with
        | fail => exact ih y p
        | panic e => exact h1
        | ok q u => exact h1
    | opt x =>
      simp only [evStep]
      have h1 := ih x p
      cases hx : ev U toaq (.ofBytes b) (nodeAlg b) n x p with
      | none => trivial
      | some v =>
        rw [hx] at h1
        cases v with
        | fail => exact Cover.nil b p
        | panic e => exact h1
        | ok q u => exact h1
    | plus x =>
      simp only [evStep]
      have h1 := ih x p
      cases hx : ev U toaq (.ofBytes b) (nodeAlg b) n x p with
      | none => trivial
      | some v =>
        rw [hx] at h1
        cases v with
        | fail => trivial
        | panic e => exact h1
        | ok q u =>
          simp only
          have h2 := ih (.star x) q
          cases hy : ev U toaq (.ofBytes b) (nodeAlg b) n (.star x) q with
          | none => trivial
          | some v =>
            rw [hy] at h2
            cases v with
            | fail => trivial
            | panic e => exact h2
            | ok q' u' => exact Cover.append b h1 h2
    | star x =>
      simp only [evStep]
      have h1 := ih x p
      cases hx : ev U toaq (.ofBytes b) (nodeAlg b) n x p with
      | none => trivial
      | some v =>
        rw [hx] at h1
        cases v with
        | fail => exact Cover.nil b p
        | panic e => exact h1
        | ok q u =>
          simp only
          have h2 := ih (.star x) q
          cases hy : ev U toaq (.ofBytes b) (nodeAlg b) n (.star x) q with
          | none => trivial
          | some v =>
            rw [hy] at h2
            cases v with
            | fail => trivial
            | panic e => exact h2
            | ok q' u' => exact Cover.append b h1 h2
    | not x =>
      simp only [evStep]
      have h1 := ih x p
      cases hx : ev U toaq (.ofBytes b) (nodeAlg b) n x p with
      | none => trivial
      | some v =>
        rw [hx] at h1
        cases v with
        | fail => exact Cover.nil b p
        | panic e => exact h1
        | ok q u => trivial
    | and x =>
      simp only [evStep]
      have h1 := ih x p
      cases hx : ev U toaq (.ofBytes b) (nodeAlg b) n x p with
      | none => trivial
      | some v =>
        rw [hx] at h1
        cases v with
        | fail => trivial
        | panic e => exact h1
        | ok q u => exact Cover.nil b p
    | lab x =>
      simp only [evStep]
      have h1 := ih x p
      cases hx : ev U toaq (.ofBytes b) (nodeAlg b) n x p with
      | none => trivial
      | some v =>
        rw [hx] at h1
        cases v with
        | fail => trivial
        | panic e => exact h1
        | ok q u => exact h1
    | grp x =>
      simp only [evStep]
      have h1 := ih x p
      cases hx : ev U toaq (.ofBytes b) (nodeAlg b) n x p with
      | none => trivial
      | some v =>
        rw [hx] at h1
        cases v with
        | fail => trivial
        | panic e => exact h1
        | ok q u => exact Cover.up b none h1
    | act f x =>
      simp only [evStep]
      have h1 := ih x p
      cases hx : ev U toaq (.ofBytes b) (nodeAlg b) n x p with
      | none => trivial
      | some v =>
        rw [hx] at h1
        cases v with
        | fail => trivial
        | panic e => exact h1
        | ok q u => exact h1

/-- `Tree` on an accepted text. -/
theorem tree_ok {n q x} (h : ev U toaq (.ofBytes b) (nodeAlg b) n (.ref rFull) 0 = some (.ok q x)) :
    ∃ kids, x = [.mk (some rFull) (slice b 0 q) kids] := by
  cases n with
  | zero => cases h
  | succ n =>
    rw [ev_s] at h
    simp only [evStep] at h
    split at h
    · cases h
    · cases h
    · split at h
      · rename_i q' y _
        injection h with h
        injection h with h1 h2
        subst h1
        exact ⟨y, h2.symm⟩
      · rename_i hne
        exact absurd h (hne _ _)

/-- C22. In the tree that `Tree` returns, the text of every node of a rule and of every node with kids is the
concatenation of the texts of its kids. The text of the root is what the parse consumed: all runes
before the end of the text or the first U+FFFD (C17). -/
theorem C22_tree_text (cs : List Call) (t : PNode) (h : Out.tree t ∈ calls U b cs newParser) :
    Faithful t ∧ ∃ q, Consumed b q ∧ t.text = b.take q := by
  rw [C20_memo_transparent] at h
  obtain ⟨c, _, h⟩ := List.mem_map.1 h
  cases c with
  | tree =>
    simp only [fresh] at h
    split at h
    · cases h
    · cases h
    · have h1 := node_cover U b (fuel b) (.ref rFull) 0
      split at h
      · rename_i hx
        injection h with h
        subst h
        rw [hx] at h1
        obtain ⟨kids, hk⟩ := tree_ok U b hx
        injection hk with hk _
        refine ⟨h1.2.2 _ (by simp), _, full_consumed U b (Recog.of_ev hx), ?_⟩
        rw [hk]
        simp [PNode.text, slice]
      · cases h
      · cases h
  | text =>
    simp only [fresh] at h
    repeat' split at h
    all_goals cases h
  | word o =>
    simp only [fresh] at h
    repeat' split at h
    all_goals cases h

/-- `Tree` does not panic: it returns a tree or an error. -/
theorem C22_tree_total (cs : List Call) (i : Nat) (hi : cs[i]? = some .tree) :
    (∃ t, (calls U b cs newParser)[i]? = some (.tree t)) ∨ ∃ e, (calls U b cs newParser)[i]? = some (.err e) := by
  rw [C20_memo_transparent, List.getElem?_map, hi]
  simp only [Option.map_some, Option.some.injEq, fresh]
  have h0 := acc_total_ref U toaq (.ofBytes b) ranked rFull 0 0 (Nat.zero_le _)
  have h1 := ev_total U toaq (.ofBytes b) (nodeAlg b) h0
  have ha := ev_acc U toaq (.ofBytes b) (nodeAlg b) (fuel b) (.ref rFull) 0 0
  cases hac : acc U toaq (.ofBytes b) (fuel b) (.ref rFull) 0 0 with
  | none => exact absurd hac h0
  | some v =>
    rcases v with ⟨_ | q, e⟩
    · exact .inr ⟨e, rfl⟩
    · left
      have h2 := node_cover U b (fuel b) (.ref rFull) 0
      cases hev : ev U toaq (.ofBytes b) (nodeAlg b) (fuel b) (.ref rFull) 0 with
      | none => exact absurd hev h1
      | some v =>
        rw [hev] at h2
        cases v with
        | ok q' x =>
          obtain ⟨kids, rfl⟩ := tree_ok U b hev
          exact ⟨_, rfl⟩
        | fail =>
          rw [hev, hac] at ha
          obtain ⟨e, he⟩ := ha
          injection he with he
          injection he with he _
          cases he
        | panic e => exact h2.elim

end Verif.Parse
