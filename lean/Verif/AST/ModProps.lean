/- Property theorems about attaching modifiers: C11, and Start/End: C15. -/
import Verif.AST.Model
import Verif.AST.Spec

namespace Verif.AST
open Spec
open Verif.Tone (Str)

/-! ### C11 -/

/-- The words of `x` are `pre` followed by `post`; those of `y` have `m` between the two. -/
def Inserted (m x y post : List Tok) : Prop := ∃ pre, x = pre ++ post ∧ y = pre ++ m ++ post

theorem Inserted.prepend {m x y post : List Tok} (a : List Tok) (h : Inserted m x y post) :
    Inserted m (a ++ x) (a ++ y) post := by
  obtain ⟨pre, rfl, rfl⟩ := h
  exact ⟨a ++ pre, by simp, by simp⟩

theorem Inserted.append {m x y post : List Tok} (a : List Tok) (h : Inserted m x y post) :
    Inserted m (x ++ a) (y ++ a) (post ++ a) := by
  obtain ⟨pre, rfl, rfl⟩ := h
  exact ⟨pre, by simp, by simp⟩

theorem mod_words_aux (m : Node) :
    (∀ n, modDefined n = true → Inserted (words m) (words n) (words (mod m n)) (closers n)) ∧
    (∀ w, modDefinedW w = true → Inserted (words m) (wordsW w) (wordsW (modW m w)) (closersW w)) := by
  have hL : ∀ l : List Node, (∀ x ∈ l, modDefined x = true →
      Inserted (words m) (words x) (words (mod m x)) (closers x)) → lastDefined l = true →
      Inserted (words m) (wordsL l) (wordsL (modLast m l)) (closersL l) := by
    intro l
    induction l with
    | nil => intro _ h; simp [lastDefined] at h
    | cons a l ih =>
      intro h hl
      cases l with
      | nil =>
        simp only [lastDefined] at hl
        simpa [wordsL, modLast, closersL] using h a (by simp) hl
      | cons b l =>
        simp only [lastDefined] at hl
        have := (ih (fun x hx => h x (by simp [hx])) hl).prepend (words a)
        simpa [wordsL, modLast, closersL] using this
  apply Node.induct
    (P := fun n => modDefined n = true → Inserted (words m) (words n) (words (mod m n)) (closers n))
    (Q := fun w => modDefinedW w = true → Inserted (words m) (wordsW w) (wordsW (modW m w)) (closersW w))
  · intro t s e M hM h
    cases M with
    | none => exact ⟨[⟨t, s, e⟩], by simp [wordsW, wordsO, closersW, closersO],
        by simp [modW, modO, wordsW, wordsO, closersW, closersO]⟩
    | some x =>
      have := (hM x rfl (by simpa [modDefinedW, modDefinedO] using h)).prepend [⟨t, s, e⟩]
      simpa [modW, modO, wordsW, wordsO, closersW, closersO] using this
  · intro l d _ hd h
    simp only [modDefined] at h
    simpa [words, mod, closers] using (hL d hd h).prepend (wordsO l)
  · intro d hd h
    simp only [modDefined] at h
    simpa [words, mod, closers] using hL d hd h
  · intro je st da _ h2 h3 h
    cases da with
    | none =>
      simp only [modDefined] at h
      simpa [words, mod, closers, wordsWO] using (h2 h).prepend (wordsWO je)
    | some w =>
      simp only [modDefined] at h
      simpa [words, mod, closers, wordsWO] using (h3 w rfl h).prepend (wordsWO je ++ words st)
  · intro k to0 to1 ru l r _ _ _ _ h5 h
    simp only [modDefined] at h
    cases to0 with
    | none => simpa [words, mod, closers] using (h5 h).prepend (words l ++ wordsW ru)
    | some t =>
      simpa [words, mod, closers] using (h5 h).prepend (wordsW t ++ wordsW ru ++ words l ++ wordsWO to1)
  · intro ts bi _ h2 h
    simp only [modDefined] at h
    simpa [words, mod, closers] using (h2 h).prepend (wordsL ts)
  · intro ts bi st _ _ h3 h
    simp only [modDefined] at h
    simpa [words, mod, closers] using (h3 h).prepend (wordsL ts ++ wordsW bi)
  · intro k p ts na h1 h2 h3 h
    cases na with
    | some w =>
      simp only [modDefined] at h
      simpa [words, mod, closers, wordsWO] using (h3 w rfl h).prepend (words p ++ wordsTO ts)
    | none =>
      cases ts with
      | some l =>
        simp only [modDefined] at h
        simpa [words, mod, closers, wordsWO, wordsTO] using (hL l (h2 l rfl) h).prepend (words p)
      | none =>
        simp only [modDefined] at h
        simpa [words, mod, closers, wordsWO, wordsTO] using h1 h
  · intro mu p _ h2 h
    simp only [modDefined] at h
    simpa [words, mod, closers] using (h2 h).prepend (wordsW mu)
  · intro l r _ h2 h
    simp only [modDefined] at h
    simpa [words, mod, closers] using (h2 h).prepend (words l)
  · intro k w h1 h
    simp only [modDefined] at h
    simpa [words, mod, closers] using h1 h
  · intro x ga ph _ h2 h3 h
    cases ga with
    | none =>
      simp only [modDefined] at h
      simpa [words, mod, closers, wordsWO] using (h3 h).prepend (wordsW x)
    | some w =>
      simp only [modDefined] at h
      simpa [words, mod, closers, wordsWO] using (h2 w rfl h).prepend (wordsW x ++ words ph)
  · intro x ga ph _ h2 h3 h
    cases ga with
    | none =>
      simp only [modDefined] at h
      simpa [words, mod, closers, wordsWO] using (h3 h).prepend (wordsW x)
    | some w =>
      simp only [modDefined] at h
      simpa [words, mod, closers, wordsWO] using (h2 w rfl h).prepend (wordsW x ++ words ph)
  · intro x teo d _ h2 _ h
    simp only [modDefined] at h
    simpa [words, mod, closers] using (h2 h).prepend (wordsW x ++ wordsL d)
  · intro k l st _ h2 h
    simp only [modDefined] at h
    simpa [words, mod, closers] using (h2 h).prepend (wordsW l)
  · intro g a _ h2 h
    simp only [modDefined] at h
    simpa [words, mod, closers] using (h2 h).prepend (wordsW g)
  · intro ts h1 h
    simp only [modDefined] at h
    simpa [words, mod, closers] using hL ts h1 h
  · intro id focus quant p rel _ _ h3 h4 h
    cases rel with
    | none =>
      simp only [modDefined] at h
      simpa [words, mod, closers, wordsO] using (h3 h).prepend (wordsWO focus ++ wordsWO quant)
    | some r =>
      simp only [modDefined] at h
      simpa [words, mod, closers, wordsO] using
        (h4 r rfl h).prepend (wordsWO focus ++ wordsWO quant ++ words p)
  · intro p h1 h
    simp only [modDefined] at h
    simpa [words, mod, closers] using h1 h
  · intro p a _ h2 h
    simp only [modDefined] at h
    simpa [words, mod, closers] using (h2 h).prepend (words p)
  · intro kio ki d _ _ h3 h
    simp only [modDefined] at h
    simpa [words, mod, closers] using ((hL d h3 h).prepend (wordsW kio)).append (wordsW ki)
  · intro ju st _ h2 h
    simp only [modDefined] at h
    simpa [words, mod, closers] using (h2 h).prepend (wordsW ju)
  · intro hu a _ h2 h
    simp only [modDefined] at h
    simpa [words, mod, closers] using (h2 h).prepend (wordsW hu)

/-- C11, what the code does in every case: the modifier's words are inserted, as one block, at the
end of the node's words except for the closing particles of the parentheticals at its right edge. -/
theorem C11_mod_words (m n : Node) (h : modDefined n = true) :
    ∃ pre, words n = pre ++ closers n ∧ words (mod m n) = pre ++ words m ++ closers n :=
  (mod_words_aux m).1 n h

/-- C11 for nodes whose right edge is not a parenthetical: the modifier's words come last.
Missing: nodes ending in a parenthetical, where this is false (`C11_mod_paren_false`). -/
theorem C11_mod_appends_partial (m n : Node) (h : modDefined n = true) (hp : closers n = []) :
    words (mod m n) = words n ++ words m := by
  obtain ⟨pre, h1, h2⟩ := C11_mod_words m n h
  simp_all

/-- C11: in every case no word is lost, added or changed. -/
theorem C11_mod_perm (m n : Node) (h : modDefined n = true) :
    (words (mod m n)).Perm (words n ++ words m) := by
  obtain ⟨pre, h1, h2⟩ := C11_mod_words m n h
  rw [h1, h2, List.append_assoc, List.append_assoc]
  exact List.Perm.append_left pre List.perm_append_comm

/-- "kio hio? ki" -/
def parenTree : Node :=
  .paren (.mk "kio".toList 0 3 (some (.word .space (w0 " " 3 4))))
    (w0 "ki" 9 11)
    [.predication .raw (.word .predicate (.mk "hio?".toList 4 8 (some (.word .space (w0 " " 8 9)))))
      none none]

/-- The stated property fails for parentheticals: a space after the closing particle of a
parenthetical is put before that particle. -/
theorem C11_mod_paren_false : modDefined parenTree = true ∧
    (words (mod (.word .space (w0 " " 11 12)) parenTree)).map (fun w => (w.s, w.e)) =
      [(0, 3), (3, 4), (4, 8), (8, 9), (11, 12), (9, 11)] ∧
    ¬ ∀ m n : Node, modDefined n = true → words (mod m n) = words n ++ words m := by
  refine ⟨by decide +kernel, by decide +kernel, fun h => ?_⟩
  have := h (.word .space (w0 " " 11 12)) parenTree (by decide +kernel)
  revert this
  decide +kernel

theorem mod_core_aux (m : Node) :
    (∀ n, core (mod m n) = core n) ∧ (∀ w, coreW (modW m w) = coreW w) := by
  have hL : ∀ l : List Node, (∀ x ∈ l, core (mod m x) = core x) → coreL (modLast m l) = coreL l := by
    intro l
    induction l with
    | nil => intro _; simp [modLast]
    | cons a l ih =>
      intro h
      cases l with
      | nil => simp [modLast, coreL, h a (by simp)]
      | cons b l => simp only [modLast, coreL]; rw [ih (fun x hx => h x (by simp [hx]))]; simp [coreL]
  apply Node.induct (P := fun n => core (mod m n) = core n) (Q := fun w => coreW (modW m w) = coreW w)
  · intro t s e M hM; simp [modW, coreW]
  case predication =>
    intro k p ts na h1 h2 h3
    cases na with
    | some w => simp [mod, core, coreWO, h3 w rfl]
    | none => cases ts with
      | some l => simp [mod, core, coreTO, hL l (h2 l rfl)]
      | none => simp [mod, core, h1]
  case sentence => intro je st da _ h2 h3; cases da <;> simp_all [mod, core, coreWO]
  case mi => intro x ga ph _ h2 h3; cases ga <;> simp_all [mod, core, coreWO]
  case po => intro x ga ph _ h2 h3; cases ga <;> simp_all [mod, core, coreWO]
  case predArg => intro id focus quant p rel _ _ h3 h4; cases rel <;> simp_all [mod, core, coreO]
  all_goals intros; simp_all [mod, core]

/-- C11: apart from modifiers the node is unchanged. -/
theorem C11_mod_core (m n : Node) : core (mod m n) = core n := (mod_core_aux m).1 n

/-- C11: a nil modifier changes nothing. -/
theorem C11_mod_nil (n : Node) : modOpt none n = n := rfl

example : modDefined sample = true ∧ closers sample = [] ∧
    (words (mod (.word .space (w0 " " 18 19)) sample)).getLast? = some ⟨" ".toList, 18, 19⟩ := by
  decide +kernel

/-! ### C15 -/

/-- The words of a node without modifiers. -/
def coreWords (n : Node) : List Tok := words (core n)

/-- The first word of a list starts at `s`. -/
def StartsAt (l : List Tok) (s : Option Nat) : Prop := ∃ w, l.head? = some w ∧ s = some w.s
def EndsAt (l : List Tok) (e : Option Nat) : Prop := ∃ w, l.getLast? = some w ∧ e = some w.e

theorem StartsAt.append {l s} (m : List Tok) (h : StartsAt l s) : StartsAt (l ++ m) s := by
  obtain ⟨w, h1, h2⟩ := h
  exact ⟨w, by simp [List.head?_append, h1], h2⟩

theorem EndsAt.prepend {l s} (m : List Tok) (h : EndsAt l s) : EndsAt (m ++ l) s := by
  obtain ⟨w, h1, h2⟩ := h
  exact ⟨w, by simp [List.getLast?_append, h1], h2⟩

theorem startsAt_word (w : Word) (l : List Tok) : StartsAt (wordsW (coreW w) ++ l) (some w.S) := by
  obtain ⟨t, s, e, m⟩ := w
  exact ⟨⟨t, s, e⟩, by simp [coreW, wordsW, wordsO], rfl⟩

theorem endsAt_word (w : Word) (l : List Tok) : EndsAt (l ++ wordsW (coreW w)) (some w.E) := by
  obtain ⟨t, s, e, m⟩ := w
  exact ⟨⟨t, s, e⟩, by simp [coreW, wordsW, wordsO], rfl⟩

theorem start_aux (n : Node) : allN listsFull n = true → StartsAt (coreWords n) (startN n) := by
  have hL : ∀ l : List Node, (∀ x ∈ l, allN listsFull x = true → StartsAt (coreWords x) (startN x)) →
      l.isEmpty = false → allNL listsFull l = true → StartsAt (wordsL (coreL l)) (startHead l) := by
    intro l h h1 h2
    cases l with
    | nil => simp at h1
    | cons a l =>
      simp only [allNL, Bool.and_eq_true] at h2
      simpa [coreL, wordsL, startHead, coreWords] using (h a (by simp) h2.1).append (wordsL (coreL l))
  revert n
  refine (Node.induct (P := fun n => allN listsFull n = true → StartsAt (coreWords n) (startN n))
    (Q := fun _ => True) ?_ ?_ ?_ ?_ ?_ ?_ ?_ ?_ ?_ ?_ ?_ ?_ ?_ ?_ ?_ ?_ ?_ ?_ ?_ ?_ ?_ ?_ ?_).1
  · intros; trivial
  · intro l d _ hd h
    simp only [allN, listsFull, Bool.and_eq_true, Bool.not_eq_true'] at h
    simpa [coreWords, core, words, wordsO, startN] using hL d hd h.1 h.2.2
  · intro d hd h
    simp only [allN, listsFull, Bool.and_eq_true, Bool.not_eq_true'] at h
    simpa [coreWords, core, words, startN] using hL d hd h.1 h.2
  · intro je st da _ h2 _ h
    simp only [allN, Bool.and_eq_true] at h
    cases je with
    | none =>
      simpa [coreWords, core, words, startN, wordsWO, coreWO] using
        (h2 h.2.1.2).append (wordsWO (coreWO da))
    | some w => simpa [coreWords, core, words, startN, wordsWO, coreWO] using startsAt_word w _
  · intro k to0 to1 ru l r _ _ _ h4 _ h
    simp only [allN, Bool.and_eq_true] at h
    cases to0 with
    | none =>
      simpa [coreWords, core, words, startN, wordsWO, coreWO] using (h4 h.2.1.2).append _
    | some w => simpa [coreWords, core, words, startN, wordsWO, coreWO] using startsAt_word w _
  · intro ts bi h1 _ h
    simp only [allN, listsFull, Bool.and_eq_true, Bool.not_eq_true'] at h
    simpa [coreWords, core, words, startN] using (hL ts h1 h.1 h.2.1).append _
  · intro ts bi st h1 _ _ h
    simp only [allN, listsFull, Bool.and_eq_true, Bool.not_eq_true'] at h
    simpa [coreWords, core, words, startN] using (hL ts h1 h.1 h.2.1.1).append _
  · intro k p ts na h1 _ _ h
    simp only [allN, Bool.and_eq_true] at h
    simpa [coreWords, core, words, startN] using (h1 h.2.1.1).append _
  · intro mu p _ _ h
    simpa [coreWords, core, words, startN] using startsAt_word mu _
  · intro l r h1 _ h
    simp only [allN, Bool.and_eq_true] at h
    simpa [coreWords, core, words, startN] using (h1 h.2.1).append _
  · intro k w _ h
    simpa [coreWords, core, words, startN] using startsAt_word w []
  · intro x ga ph _ _ _ h
    simpa [coreWords, core, words, startN] using startsAt_word x _
  · intro x ga ph _ _ _ h
    simpa [coreWords, core, words, startN] using startsAt_word x _
  · intro x teo d _ _ _ h
    simpa [coreWords, core, words, startN] using startsAt_word x _
  · intro k l st _ _ h
    simpa [coreWords, core, words, startN] using startsAt_word l _
  · intro g a _ _ h
    simpa [coreWords, core, words, startN] using startsAt_word g _
  · intro ts h1 h
    simp only [allN, listsFull, Bool.and_eq_true, Bool.not_eq_true'] at h
    simpa [coreWords, core, words, startN] using hL ts h1 h.1 h.2
  · intro id focus quant p rel _ _ h3 _ h
    simp only [allN, Bool.and_eq_true] at h
    cases focus with
    | some w => simpa [coreWords, core, words, startN, wordsWO, coreWO] using startsAt_word w _
    | none => cases quant with
      | some w => simpa [coreWords, core, words, startN, wordsWO, coreWO] using startsAt_word w _
      | none =>
        simpa [coreWords, core, words, startN, wordsWO, coreWO] using (h3 h.2.1.2).append _
  · intro p h1 h
    simp only [allN, Bool.and_eq_true] at h
    simpa [coreWords, core, words, startN] using h1 h.2
  · intro p a h1 _ h
    simp only [allN, Bool.and_eq_true] at h
    simpa [coreWords, core, words, startN] using (h1 h.2.1).append _
  · intro kio ki d _ _ _ h
    simpa [coreWords, core, words, startN] using startsAt_word kio _
  · intro ju st _ _ h
    simpa [coreWords, core, words, startN] using startsAt_word ju _
  · intro hu a _ _ h
    simpa [coreWords, core, words, startN] using startsAt_word hu _

/-- What `End` needs: no empty lists, and every predication closed. -/
def endOk (n : Node) : Bool := listsFull n && predClosed n

theorem end_aux (n : Node) : allN endOk n = true → EndsAt (coreWords n) (endN n) := by
  have hL : ∀ l : List Node, (∀ x ∈ l, allN endOk x = true → EndsAt (coreWords x) (endN x)) →
      l.isEmpty = false → allNL endOk l = true → EndsAt (wordsL (coreL l)) (endLast l) := by
    intro l
    induction l with
    | nil => intro _ h1; simp at h1
    | cons a l ih =>
      intro h _ h2
      simp only [allNL, Bool.and_eq_true] at h2
      cases l with
      | nil => simpa [coreL, wordsL, endLast, coreWords] using h a (by simp) h2.1
      | cons b l =>
        have := (ih (fun x hx => h x (by simp [hx])) rfl h2.2).prepend (words (core a))
        simpa [coreL, wordsL, endLast] using this
  revert n
  refine (Node.induct (P := fun n => allN endOk n = true → EndsAt (coreWords n) (endN n))
    (Q := fun _ => True) ?_ ?_ ?_ ?_ ?_ ?_ ?_ ?_ ?_ ?_ ?_ ?_ ?_ ?_ ?_ ?_ ?_ ?_ ?_ ?_ ?_ ?_ ?_).1
  · intros; trivial
  · intro l d _ hd h
    simp only [allN, endOk, listsFull, Bool.and_eq_true, Bool.not_eq_true'] at h
    simpa [coreWords, core, words, wordsO, endN] using hL d hd h.1.1 h.2.2
  · intro d hd h
    simp only [allN, endOk, listsFull, Bool.and_eq_true, Bool.not_eq_true'] at h
    simpa [coreWords, core, words, endN] using hL d hd h.1.1 h.2
  · intro je st da _ h2 _ h
    simp only [allN, Bool.and_eq_true] at h
    cases da with
    | none => simpa [coreWords, core, words, endN, wordsWO, coreWO] using (h2 h.2.1.2).prepend _
    | some w =>
      simpa [coreWords, core, words, endN, wordsWO, coreWO] using
        endsAt_word w (wordsWO (coreWO je) ++ words (core st))
  · intro k to0 to1 ru l r _ _ _ _ h5 h
    simp only [allN, Bool.and_eq_true] at h
    cases to0 with
    | none =>
      simpa [coreWords, core, words, endN, wordsWO, coreWO] using
        (h5 h.2.2).prepend (words (core l) ++ wordsW (coreW ru))
    | some w =>
      simpa [coreWords, core, words, endN, wordsWO, coreWO] using
        (h5 h.2.2).prepend (wordsW (coreW w) ++ wordsW (coreW ru) ++ words (core l) ++
          wordsWO (coreWO to1))
  · intro ts bi h1 _ h
    simpa [coreWords, core, words, endN] using endsAt_word bi _
  · intro ts bi st _ _ h3 h
    simp only [allN, Bool.and_eq_true] at h
    simpa [coreWords, core, words, endN] using
      (h3 h.2.2).prepend (wordsL (coreL ts) ++ wordsW (coreW bi))
  · intro k p ts na h1 h2 _ h
    cases na with
    | some w =>
      simpa [coreWords, core, words, endN, wordsWO, coreWO] using
        endsAt_word w (words (core p) ++ wordsTO (coreTO ts))
    | none =>
      cases ts with
      | none => simp [allN, endOk, predClosed] at h
      | some l =>
        simp only [allN, endOk, listsFull, allNTO, Bool.and_eq_true, Bool.not_eq_true'] at h
        simpa [coreWords, core, words, endN, wordsWO, coreWO, wordsTO, coreTO] using
          (hL l (h2 l rfl) h.1.1 h.2.1.2).prepend (words (core p))
  · intro mu p _ h2 h
    simp only [allN, Bool.and_eq_true] at h
    simpa [coreWords, core, words, endN] using (h2 h.2.2).prepend _
  · intro l r _ h2 h
    simp only [allN, Bool.and_eq_true] at h
    simpa [coreWords, core, words, endN] using (h2 h.2.2).prepend _
  · intro k w _ h
    simpa [coreWords, core, words, endN] using endsAt_word w []
  · intro x ga ph _ _ h3 h
    simp only [allN, Bool.and_eq_true] at h
    cases ga with
    | none => simpa [coreWords, core, words, endN, wordsWO, coreWO] using (h3 h.2.2).prepend _
    | some w =>
      simpa [coreWords, core, words, endN, wordsWO, coreWO] using
        endsAt_word w (wordsW (coreW x) ++ words (core ph))
  · intro x ga ph _ _ h3 h
    simp only [allN, Bool.and_eq_true] at h
    cases ga with
    | none => simpa [coreWords, core, words, endN, wordsWO, coreWO] using (h3 h.2.2).prepend _
    | some w =>
      simpa [coreWords, core, words, endN, wordsWO, coreWO] using
        endsAt_word w (wordsW (coreW x) ++ words (core ph))
  · intro x teo d _ _ _ h
    simpa [coreWords, core, words, endN] using endsAt_word teo (wordsW (coreW x) ++ wordsL (coreL d))
  · intro k l st _ h2 h
    simp only [allN, Bool.and_eq_true] at h
    simpa [coreWords, core, words, endN] using (h2 h.2.2).prepend _
  · intro g a _ h2 h
    simp only [allN, Bool.and_eq_true] at h
    simpa [coreWords, core, words, endN] using (h2 h.2.2).prepend _
  · intro ts h1 h
    simp only [allN, endOk, listsFull, Bool.and_eq_true, Bool.not_eq_true'] at h
    simpa [coreWords, core, words, endN] using hL ts h1 h.1.1 h.2
  · intro id focus quant p rel _ _ h3 h4 h
    simp only [allN, Bool.and_eq_true] at h
    cases rel with
    | none =>
      simpa [coreWords, core, words, endN, wordsO, coreO] using
        (h3 h.2.1.2).prepend (wordsWO (coreWO focus) ++ wordsWO (coreWO quant))
    | some r =>
      simp only [allNO] at h
      simpa [coreWords, core, words, endN, wordsO, coreO] using
        (h4 r rfl h.2.2).prepend (wordsWO (coreWO focus) ++ wordsWO (coreWO quant) ++ words (core p))
  · intro p h1 h
    simp only [allN, Bool.and_eq_true] at h
    simpa [coreWords, core, words, endN] using h1 h.2
  · intro p a _ h2 h
    simp only [allN, Bool.and_eq_true] at h
    simpa [coreWords, core, words, endN] using (h2 h.2.2).prepend _
  · intro kio ki d _ _ _ h
    simpa [coreWords, core, words, endN] using endsAt_word ki (wordsW (coreW kio) ++ wordsL (coreL d))
  · intro ju st _ h2 h
    simp only [allN, Bool.and_eq_true] at h
    simpa [coreWords, core, words, endN] using (h2 h.2.2).prepend _
  · intro hu a _ h2 h
    simp only [allN, Bool.and_eq_true] at h
    simpa [coreWords, core, words, endN] using (h2 h.2.2).prepend _

/-- C15: `Start` does not panic and is the start offset of the first word of the node (modifiers
excluded), if no list in the tree is empty. -/
theorem C15_start (n : Node) (h : allN listsFull n = true) :
    ∃ w, (coreWords n).head? = some w ∧ startN n = some w.s := start_aux n h

/-- C15: `End` is the end offset of the last word (modifiers excluded), if moreover every predication
has terms or the final particle. Missing: predications with neither, where `End` panics
(`C15_end_panics`). -/
theorem C15_end_partial (n : Node) (h : allN endOk n = true) :
    ∃ w, (coreWords n).getLast? = some w ∧ endN n = some w.e := end_aux n h

/-- `End` panics on every predication that is only a predicate. -/
theorem C15_end_panics (k : PredKind) (p : Node) : endN (.predication k p none none) = none := rfl

/-- Both panic on the empty text. -/
theorem C15_empty_text_panics (l : Option Node) : startN (.text l []) = none ∧ endN (.text l []) = none :=
  ⟨rfl, rfl⟩

example : allN endOk sample = true ∧ allN listsFull sample = true ∧ startN sample = some 0 ∧
    endN sample = some 18 := by decide +kernel

end Verif.AST
