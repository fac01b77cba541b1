/-
C15 for parsed texts: `Start` and `End` of their nodes.
-/
import Verif.AST.ModProps
import Verif.AST.VisitProps
import Verif.Parse.Examples

namespace Verif.AST
open Spec

/-- `End` panics, or the last word ends there. -/
def EndsAt? (l : List Tok) (e : Option Nat) : Prop := e = none ∨ EndsAt l e

theorem EndsAt?.prepend {l s} (m : List Tok) (h : EndsAt? l s) : EndsAt? (m ++ l) s := h.imp_right (·.prepend m)

theorem endsAt?_word (w : Word) (l : List Tok) : EndsAt? (l ++ wordsW (coreW w)) (some w.E) := .inr (endsAt_word w l)

theorem end_val (n : Node) : allN listsFull n = true → EndsAt? (coreWords n) (endN n) := by
  have hL : ∀ l : List Node, (∀ x ∈ l, allN listsFull x = true → EndsAt? (coreWords x) (endN x)) →
      l.isEmpty = false → allNL listsFull l = true → EndsAt? (wordsL (coreL l)) (endLast l) := by
    intro l
    induction l with
    | nil => intro _ h1; simp at h1
    | cons a l ih =>
      intro h _ h2
      simp only [allNL, Bool.and_eq_true] at h2
      cases l with
      | nil => simpa [coreL, wordsL, endLast, coreWords] using h a (by simp) h2.1
      | cons b l =>
        have := (ih (fun x hx => h x (by simp [hx])) rfl h2.2).prepend (words (core a))
        simpa [coreL, wordsL, endLast] using this
  revert n
  refine (Node.induct (P := fun n => allN listsFull n = true → EndsAt? (coreWords n) (endN n))
    (Q := fun _ => True) ?_ ?_ ?_ ?_ ?_ ?_ ?_ ?_ ?_ ?_ ?_ ?_ ?_ ?_ ?_ ?_ ?_ ?_ ?_ ?_ ?_ ?_ ?_).1
  · intros; trivial
  · intro l d _ hd h
    simp only [allN, listsFull, Bool.and_eq_true, Bool.not_eq_true'] at h
    simpa [coreWords, core, words, wordsO, endN] using hL d hd h.1 h.2.2
  · intro d hd h
    simp only [allN, listsFull, Bool.and_eq_true, Bool.not_eq_true'] at h
    simpa [coreWords, core, words, endN] using hL d hd h.1 h.2
  · intro je st da _ h2 _ h
    simp only [allN, Bool.and_eq_true] at h
    cases da with
    | none => simpa [coreWords, core, words, endN, wordsWO, coreWO] using (h2 h.2.1.2).prepend _
    | some w =>
      simpa [coreWords, core, words, endN, wordsWO, coreWO] using
        endsAt?_word w (wordsWO (coreWO je) ++ words (core st))
  · intro k to0 to1 ru l r _ _ _ _ h5 h
    simp only [allN, Bool.and_eq_true] at h
    cases to0 with
    | none =>
      simpa [coreWords, core, words, endN, wordsWO, coreWO] using
        (h5 h.2.2).prepend (words (core l) ++ wordsW (coreW ru))
    | some w =>
      simpa [coreWords, core, words, endN, wordsWO, coreWO] using
        (h5 h.2.2).prepend (wordsW (coreW w) ++ wordsW (coreW ru) ++ words (core l) ++
          wordsWO (coreWO to1))
  · intro ts bi h1 _ h
    simpa [coreWords, core, words, endN] using endsAt?_word bi _
  · intro ts bi st _ _ h3 h
    simp only [allN, Bool.and_eq_true] at h
    simpa [coreWords, core, words, endN] using
      (h3 h.2.2).prepend (wordsL (coreL ts) ++ wordsW (coreW bi))
  · intro k p ts na h1 h2 _ h
    cases na with
    | some w =>
      simpa [coreWords, core, words, endN, wordsWO, coreWO] using
        endsAt?_word w (words (core p) ++ wordsTO (coreTO ts))
    | none =>
      cases ts with
      | none => exact .inl rfl
      | some l =>
        simp only [allN, listsFull, allNTO, Bool.and_eq_true, Bool.not_eq_true'] at h
        simpa [coreWords, core, words, endN, wordsWO, coreWO, wordsTO, coreTO] using
          (hL l (h2 l rfl) h.1 h.2.1.2).prepend (words (core p))
  · intro mu p _ h2 h
    simp only [allN, Bool.and_eq_true] at h
    simpa [coreWords, core, words, endN] using (h2 h.2.2).prepend _
  · intro l r _ h2 h
    simp only [allN, Bool.and_eq_true] at h
    simpa [coreWords, core, words, endN] using (h2 h.2.2).prepend _
  · intro k w _ h
    simpa [coreWords, core, words, endN] using endsAt?_word w []
  · intro x ga ph _ _ h3 h
    simp only [allN, Bool.and_eq_true] at h
    cases ga with
    | none => simpa [coreWords, core, words, endN, wordsWO, coreWO] using (h3 h.2.2).prepend _
    | some w =>
      simpa [coreWords, core, words, endN, wordsWO, coreWO] using
        endsAt?_word w (wordsW (coreW x) ++ words (core ph))
  · intro x ga ph _ _ h3 h
    simp only [allN, Bool.and_eq_true] at h
    cases ga with
    | none => simpa [coreWords, core, words, endN, wordsWO, coreWO] using (h3 h.2.2).prepend _
    | some w =>
      simpa [coreWords, core, words, endN, wordsWO, coreWO] using
        endsAt?_word w (wordsW (coreW x) ++ words (core ph))
  · intro x teo d _ _ _ h
    simpa [coreWords, core, words, endN] using endsAt?_word teo (wordsW (coreW x) ++ wordsL (coreL d))
  · intro k l st _ h2 h
    simp only [allN, Bool.and_eq_true] at h
    simpa [coreWords, core, words, endN] using (h2 h.2.2).prepend _
  · intro g a _ h2 h
    simp only [allN, Bool.and_eq_true] at h
    simpa [coreWords, core, words, endN] using (h2 h.2.2).prepend _
  · intro ts h1 h
    simp only [allN, listsFull, Bool.and_eq_true, Bool.not_eq_true'] at h
    simpa [coreWords, core, words, endN] using hL ts h1 h.1 h.2
  · intro id focus quant p rel _ _ h3 h4 h
    simp only [allN, Bool.and_eq_true] at h
    cases rel with
    | none =>
      simpa [coreWords, core, words, endN, wordsO, coreO] using
        (h3 h.2.1.2).prepend (wordsWO (coreWO focus) ++ wordsWO (coreWO quant))
    | some r =>
      simp only [allNO] at h
      simpa [coreWords, core, words, endN, wordsO, coreO] using
        (h4 r rfl h.2.2).prepend (wordsWO (coreWO focus) ++ wordsWO (coreWO quant) ++ words (core p))
  · intro p h1 h
    simp only [allN, Bool.and_eq_true] at h
    simpa [coreWords, core, words, endN] using h1 h.2
  · intro p a _ h2 h
    simp only [allN, Bool.and_eq_true] at h
    simpa [coreWords, core, words, endN] using (h2 h.2.2).prepend _
  · intro kio ki d _ _ _ h
    simpa [coreWords, core, words, endN] using endsAt?_word ki (wordsW (coreW kio) ++ wordsL (coreL d))
  · intro ju st _ h2 h
    simp only [allN, Bool.and_eq_true] at h
    simpa [coreWords, core, words, endN] using (h2 h.2.2).prepend _
  · intro hu a _ h2 h
    simp only [allN, Bool.and_eq_true] at h
    simpa [coreWords, core, words, endN] using (h2 h.2.2).prepend _


mutual
/-- The words without modifiers are words. -/
theorem core_sub : ∀ n : Node, (words (core n)).Sublist (words n)
  | .text l d => by
    simp only [core, words, wordsO, List.nil_append]
    exact (coreL_sub d).trans (List.sublist_append_right _ _)
  | .discourse d => by simpa [core, words] using coreL_sub d
  | .sentence je st da => by simpa [core, words] using (coreWO_sub je).append ((core_sub st).append (coreWO_sub da))
  | .cop k to0 to1 ru l r => by
    cases to0 with
    | none => simpa [core, words, coreWO, wordsWO] using (core_sub l).append ((coreW_sub ru).append (core_sub r))
    | some w => simpa [core, words, coreWO, wordsWO] using
        (coreW_sub w).append ((coreW_sub ru).append ((core_sub l).append ((coreWO_sub to1).append (core_sub r))))
  | .prenex ts bi => by simpa [core, words] using (coreL_sub ts).append (coreW_sub bi)
  | .prenexStmt ts bi st => by simpa [core, words] using (coreL_sub ts).append ((coreW_sub bi).append (core_sub st))
  | .predication k p ts na => by simpa [core, words] using (core_sub p).append ((coreTO_sub ts).append (coreWO_sub na))
  | .prefixed mu p => by simpa [core, words] using (coreW_sub mu).append (core_sub p)
  | .serial l r => by simpa [core, words] using (core_sub l).append (core_sub r)
  | .word k w => by simpa [core, words] using coreW_sub w
  | .mi x ga ph => by simpa [core, words] using (coreW_sub x).append ((core_sub ph).append (coreWO_sub ga))
  | .po x ga a => by simpa [core, words] using (coreW_sub x).append ((core_sub a).append (coreWO_sub ga))
  | .mo x teo d => by simpa [core, words] using (coreW_sub x).append ((coreL_sub d).append (coreW_sub teo))
  | .lu k l st => by simpa [core, words] using (coreW_sub l).append (core_sub st)
  | .linked g a => by simpa [core, words] using (coreW_sub g).append (core_sub a)
  | .terms ts => by simpa [core, words] using coreL_sub ts
  | .predArg id f q p rel => by
    simpa [core, words] using (coreWO_sub f).append ((coreWO_sub q).append ((core_sub p).append (coreO_sub rel)))
  | .predAdverb p => by simpa [core, words] using core_sub p
  | .prep p a => by simpa [core, words] using (core_sub p).append (core_sub a)
  | .paren kio ki d => by simpa [core, words] using (coreW_sub kio).append ((coreL_sub d).append (coreW_sub ki))
  | .incidental ju st => by simpa [core, words] using (coreW_sub ju).append (core_sub st)
  | .vocative hu a => by simpa [core, words] using (coreW_sub hu).append (core_sub a)
theorem coreW_sub : ∀ w : Word, (wordsW (coreW w)).Sublist (wordsW w)
  | .mk t s e m => by simp [coreW, wordsW, wordsO]
theorem coreO_sub : ∀ o : Option Node, (wordsO (coreO o)).Sublist (wordsO o)
  | none => by simp [coreO, wordsO]
  | some n => by simpa [coreO, wordsO] using core_sub n
theorem coreWO_sub : ∀ o : Option Word, (wordsWO (coreWO o)).Sublist (wordsWO o)
  | none => by simp [coreWO, wordsWO]
  | some n => by simpa [coreWO, wordsWO] using coreW_sub n
theorem coreTO_sub : ∀ o : Option (List Node), (wordsTO (coreTO o)).Sublist (wordsTO o)
  | none => by simp [coreTO, wordsTO]
  | some n => by simpa [coreTO, wordsTO] using coreL_sub n
theorem coreL_sub : ∀ l : List Node, (wordsL (coreL l)).Sublist (wordsL l)
  | [] => by simp [coreL, wordsL]
  | n :: ns => by simpa [coreL, wordsL] using (core_sub n).append (coreL_sub ns)
end

end Verif.AST

namespace Verif.Parse
open Verif.AST Verif.AST.Spec Verif.Peg

variable {U : Uni} {b : Bytes}

theorem not_text {s : Srt} {t : Tag} (hs : s ≠ .text) (h : accepts s t = true) : t ≠ .text := by
  rintro rfl
  cases s <;> simp_all [accepts, Tag.isSentence, Tag.isStatement, Tag.isPredicate, Tag.isContent, Tag.isArgument, Tag.isAdverb,
    Tag.isPrep, Tag.isRelative, Tag.isMod, Tag.isFreemod]

theorem not_textO {o : Option Srt} {t : Tag} (hs : o ≠ some .text) (h : acceptsO o t = true) : t ≠ .text := by
  cases o with
  | none => cases h
  | some s => exact not_text (fun e => hs (by rw [e])) h

mutual
/-- No list in a well-sorted node is empty, except that of a text. -/
theorem full : ∀ n : Node, wsIn n = true → tag n ≠ .text → allN listsFull n = true
  | .text l d, _, h' => absurd rfl h'
  | .discourse d, h, _ => by simp [wsIn] at h
  | .sentence je st da, h, _ => by
    simp only [wsIn, Bool.and_eq_true] at h
    simp [allN, listsFull, fullWO je h.1.1, full st h.1.2.2 (not_text (by simp) h.1.2.1), fullWO da h.2]
  | .cop k to0 to1 ru l r, h, _ => by
    simp only [wsIn, Bool.and_eq_true] at h
    have h1 := full l h.1.2.2 (not_textO (by cases k <;> simp [leftOf]) h.1.2.1)
    have h2 := full r h.2.2 (not_textO (by cases k <;> simp [rightOf]) h.2.1)
    simp [allN, listsFull, h1, h2, fullWO to0 h.1.1.1.1.2, fullWO to1 h.1.1.1.2, fullW ru h.1.1.2]
  | .prenex ts bi, h, _ => by
    simp only [wsIn, Bool.and_eq_true] at h
    simp [allN, listsFull, fullL _ ts (by simp) h.1.2, fullW bi h.2, by simpa using h.1.1]
  | .prenexStmt ts bi st, h, _ => by
    simp only [wsIn, Bool.and_eq_true] at h
    simp [allN, listsFull, fullL _ ts (by simp) h.1.1.2, fullW bi h.1.2, full st h.2.2 (not_text (by simp) h.2.1),
      by simpa using h.1.1.1]
  | .predication k p ts na, h, _ => by
    simp only [wsIn, Bool.and_eq_true] at h
    have h1 := full p h.1.1.2 (not_text (by simp) h.1.1.1)
    cases ts with
    | none => simp [allN, listsFull, h1, fullTO none h.1.2, fullWO na h.2]
    | some l =>
      have h2 := h.1.2
      simp only [wsTO, Bool.and_eq_true] at h2
      simp [allN, listsFull, h1, allNTO, fullL _ l (by simp) h2.2, fullWO na h.2, by simpa using h2.1]
  | .prefixed mu p, h, _ => by simp [wsIn] at h
  | .serial l r, h, _ => by
    simp only [wsIn, Bool.and_eq_true] at h
    simp [allN, listsFull, full l h.1.2 (not_text (by simp) h.1.1), full r h.2.2 (not_text (by simp) h.2.1)]
  | .word k w, h, _ => by
    simp only [wsIn, Bool.and_eq_true] at h
    simp [allN, listsFull, fullW w h.2]
  | .mi x ga ph, h, _ => by
    simp only [wsIn, Bool.and_eq_true] at h
    simp [allN, listsFull, fullW x h.1.1, fullWO ga h.1.2, full ph h.2.2 (not_text (by simp) h.2.1)]
  | .po x ga a, h, _ => by
    simp only [wsIn, Bool.and_eq_true] at h
    simp [allN, listsFull, fullW x h.1.1, fullWO ga h.1.2, full a h.2.2 (not_text (by simp) h.2.1)]
  | .mo x teo d, h, _ => by
    simp only [wsIn, Bool.and_eq_true] at h
    simp [allN, listsFull, fullW x h.1.1, fullW teo h.1.2, fullL _ d (by simp) h.2.2, by simpa using h.2.1]
  | .lu k l st, h, _ => by
    simp only [wsIn, Bool.and_eq_true] at h
    simp [allN, listsFull, fullW l h.1.2, full st h.2.2 (not_text (by simp) h.2.1)]
  | .linked g a, h, _ => by
    simp only [wsIn, Bool.and_eq_true] at h
    simp [allN, listsFull, fullW g h.1, full a h.2.2 (not_text (by simp) h.2.1)]
  | .terms ts, h, _ => by
    simp only [wsIn, Bool.and_eq_true] at h
    simp [allN, listsFull, fullL _ ts (by simp) h.2, by simpa using h.1]
  | .predArg id f q p rel, h, _ => by
    simp only [wsIn, Bool.and_eq_true] at h
    simp [allN, listsFull, fullWO f h.1.1.1, fullWO q h.1.1.2, full p h.1.2.2 (not_text (by simp) h.1.2.1),
      fullO _ rel (by simp) h.2]
  | .predAdverb p, h, _ => by
    simp only [wsIn, Bool.and_eq_true] at h
    simp [allN, listsFull, full p h.2 (not_text (by simp) h.1)]
  | .prep p a, h, _ => by
    simp only [wsIn, Bool.and_eq_true] at h
    simp [allN, listsFull, full p h.1.2 (not_text (by simp) h.1.1), full a h.2.2 (not_text (by simp) h.2.1)]
  | .paren kio ki d, h, _ => by
    simp only [wsIn, Bool.and_eq_true] at h
    simp [allN, listsFull, fullW kio h.1.1, fullW ki h.1.2, fullL _ d (by simp) h.2.2, by simpa using h.2.1]
  | .incidental ju st, h, _ => by
    simp only [wsIn, Bool.and_eq_true] at h
    simp [allN, listsFull, fullW ju h.1, full st h.2.2 (not_text (by simp) h.2.1)]
  | .vocative hu a, h, _ => by
    simp only [wsIn, Bool.and_eq_true] at h
    simp [allN, listsFull, fullW hu h.1, full a h.2.2 (not_text (by simp) h.2.1)]
theorem fullW : ∀ w : Word, wsW w = true → allNW listsFull w = true
  | .mk t s e m, h => by simpa [allNW] using fullO .mod m (by simp) h
theorem fullO (s : Srt) : ∀ o : Option Node, s ≠ .text → wsO s o = true → allNO listsFull o = true
  | none, _, _ => rfl
  | some n, hs, h => by
    simp only [wsO, Bool.and_eq_true] at h
    simpa [allNO] using full n h.2 (not_text hs h.1)
theorem fullWO : ∀ o : Option Word, wsWO o = true → allNWO listsFull o = true
  | none, _ => rfl
  | some w, h => by simpa [allNWO] using fullW w h
theorem fullTO : ∀ o : Option (List Node), wsTO o = true → allNTO listsFull o = true
  | none, _ => rfl
  | some l, h => by
    simp only [wsTO, Bool.and_eq_true] at h
    simpa [allNTO] using fullL .term l (by simp) h.2
theorem fullL (s : Srt) : ∀ l : List Node, s ≠ .text → wsL s l = true → allNL listsFull l = true
  | [], _, _ => rfl
  | n :: ns, hs, h => by
    simp only [wsL, Bool.and_eq_true] at h
    simp [allNL, full n h.1.2 (not_text hs h.1.1), fullL s ns hs h.2]
end

/-- A node without empty lists, or one that is only an empty list. -/
def Fine (n : Node) : Prop :=
  allN listsFull n = true ∨ n = .terms [] ∨ n = .discourse [] ∨ ∃ l, n = .text l [] ∧ allNO listsFull l = true

theorem allNL_mem {q : Node → Bool} : ∀ {l : List Node}, allNL q l = true → ∀ c ∈ l, allN q c = true
  | [], _, c, hc => by cases hc
  | n :: ns, h, c, hc => by
    simp only [allNL, Bool.and_eq_true] at h
    rcases List.mem_cons.1 hc with rfl | hc
    · exact h.1
    · exact allNL_mem h.2 c hc

theorem optW_mem {q : Node → Bool} (hq : ∀ w, q (wnode w) = true) {o : Option Word} (h : allNWO q o = true) :
    ∀ c ∈ optW o, allN q c = true := by
  cases o with
  | none => simp [optW]
  | some w =>
    have := hq w
    simp only [wnode] at this
    simpa [optW, wnode, allN, this, allNWO] using h

theorem optN_mem {q : Node → Bool} {o : Option Node} (h : allNO q o = true) : ∀ c ∈ optN o, allN q c = true := by
  cases o with
  | none => simp [optN]
  | some w => simpa [optN, allNO] using h

theorem fine_child {n c : Node} (h : Fine n) (hc : c ∈ children n) : Fine c := by
  have hw : ∀ w, listsFull (wnode w) = true := fun w => rfl
  have W : ∀ w : Word, allNW listsFull w = true → allN listsFull (wnode w) = true := fun w h => by
    simpa [wnode, allN, listsFull] using h
  rcases h with h | rfl | rfl | ⟨l, rfl, h⟩
  · cases n with
    | text l d =>
      simp only [allN, listsFull, Bool.and_eq_true] at h
      simp only [children, List.mem_append, List.mem_singleton] at hc
      rcases hc with hc | rfl
      · exact .inl (optN_mem h.2.1 c hc)
      · exact .inl (by simp [allN, listsFull, h.2.2]; simpa using h.1)
    | discourse d => exact .inl (allNL_mem (by simp only [allN, Bool.and_eq_true] at h; exact h.2) c hc)
    | sentence je st da =>
      simp only [allN, Bool.and_eq_true] at h
      simp only [children, List.mem_append, List.mem_singleton] at hc
      rcases hc with (hc | rfl) | hc
      · exact .inl (optW_mem hw h.2.1.1 c hc)
      · exact .inl h.2.1.2
      · exact .inl (optW_mem hw h.2.2 c hc)
    | cop k to0 to1 ru l r =>
      simp only [allN, Bool.and_eq_true] at h
      cases k <;> try
        · simp only [children, List.mem_singleton] at hc
          subst hc
          exact .inl (by simp [allN, listsFull, h.2])
      cases to0 with
      | none =>
        simp only [children, List.mem_cons, List.not_mem_nil, or_false] at hc
        rcases hc with rfl | rfl | rfl
        · exact .inl h.2.1.2
        · exact .inl (W _ h.2.1.1.2)
        · exact .inl h.2.2
      | some w =>
        simp only [children, List.mem_append, List.mem_cons, List.not_mem_nil, or_false] at hc
        have h0 := h.2.1.1.1.1
        simp only [allNWO] at h0
        rcases hc with ((rfl | rfl | rfl) | hc) | rfl
        · exact .inl (W _ h0)
        · exact .inl (W _ h.2.1.1.2)
        · exact .inl h.2.1.2
        · exact .inl (optW_mem hw h.2.1.1.1.2 c hc)
        · exact .inl h.2.2
    | prenex ts bi =>
      simp only [allN, listsFull, Bool.and_eq_true] at h
      simp only [children, List.mem_cons, List.not_mem_nil, or_false] at hc
      rcases hc with rfl | rfl
      · exact .inl (by simp [allN, listsFull, h.2.1]; simpa using h.1)
      · exact .inl (W _ h.2.2)
    | prenexStmt ts bi st =>
      simp only [allN, listsFull, Bool.and_eq_true] at h
      simp only [children, List.mem_cons, List.not_mem_nil, or_false] at hc
      rcases hc with rfl | rfl
      · exact .inl (by simp [allN, listsFull, h.2.1.1, h.2.1.2]; simpa using h.1)
      · exact .inl h.2.2
    | predication k p ts na =>
      cases k <;> try
        · simp only [children, List.mem_singleton] at hc
          subst hc
          exact .inl (by cases ts <;> simpa [allN, listsFull] using h)
      simp only [allN, Bool.and_eq_true] at h
      simp only [children, List.mem_append, List.mem_cons, List.not_mem_nil, or_false] at hc
      rcases hc with (rfl | rfl) | hc
      · exact .inl h.2.1.1
      · cases ts with
        | none => exact .inr (.inl rfl)
        | some l =>
          have h0 := h.2.1.2
          simp only [allNTO] at h0
          exact .inl (by simp [allN, listsFull, h0]; simpa [listsFull] using h.1)
      · exact .inl (optW_mem hw h.2.2 c hc)
    | prefixed mu p =>
      simp only [allN, Bool.and_eq_true] at h
      simp only [children, List.mem_cons, List.not_mem_nil, or_false] at hc
      rcases hc with rfl | rfl
      · exact .inl (W _ h.2.1)
      · exact .inl h.2.2
    | serial l r =>
      simp only [allN, Bool.and_eq_true] at h
      simp only [children, List.mem_cons, List.not_mem_nil, or_false] at hc
      rcases hc with rfl | rfl
      · exact .inl h.2.1
      · exact .inl h.2.2
    | word k w =>
      obtain ⟨t, s, e, m⟩ := w
      simp only [allN, Bool.and_eq_true, allNW] at h
      cases k <;> try
        · simp only [children, List.mem_singleton] at hc
          subst hc
          exact .inl (W _ (by simpa [allNW] using h.2))
      exact .inl (optN_mem h.2 c hc)
    | mi x ga ph =>
      simp only [allN, Bool.and_eq_true] at h
      simp only [children, List.mem_append, List.mem_cons, List.not_mem_nil, or_false] at hc
      rcases hc with (rfl | rfl) | hc
      · exact .inl (W _ h.2.1.1)
      · exact .inl h.2.2
      · exact .inl (optW_mem hw h.2.1.2 c hc)
    | po x ga a =>
      simp only [allN, Bool.and_eq_true] at h
      simp only [children, List.mem_append, List.mem_cons, List.not_mem_nil, or_false] at hc
      rcases hc with (rfl | rfl) | hc
      · exact .inl (W _ h.2.1.1)
      · exact .inl h.2.2
      · exact .inl (optW_mem hw h.2.1.2 c hc)
    | mo x teo d =>
      simp only [allN, listsFull, Bool.and_eq_true] at h
      simp only [children, List.mem_cons, List.not_mem_nil, or_false] at hc
      rcases hc with rfl | rfl | rfl
      · exact .inl (W _ h.2.1.1)
      · exact .inl (by simp [allN, listsFull, h.2.2]; simpa using h.1)
      · exact .inl (W _ h.2.1.2)
    | lu k l st =>
      simp only [allN, Bool.and_eq_true] at h
      cases k <;> try
        · simp only [children, List.mem_singleton] at hc
          subst hc
          exact .inl (by simp [allN, listsFull, h.2])
      simp only [children, List.mem_cons, List.not_mem_nil, or_false] at hc
      rcases hc with rfl | rfl
      · exact .inl (W _ h.2.1)
      · exact .inl h.2.2
    | linked g a =>
      simp only [allN, Bool.and_eq_true] at h
      simp only [children, List.mem_cons, List.not_mem_nil, or_false] at hc
      rcases hc with rfl | rfl
      · exact .inl (W _ h.2.1)
      · exact .inl h.2.2
    | terms ts => exact .inl (allNL_mem (by simp only [allN, Bool.and_eq_true] at h; exact h.2) c hc)
    | predArg id f q p rel =>
      simp only [allN, Bool.and_eq_true] at h
      simp only [children, List.mem_append, List.mem_singleton] at hc
      rcases hc with ((hc | hc) | rfl) | hc
      · exact .inl (optW_mem hw h.2.1.1.1 c hc)
      · exact .inl (optW_mem hw h.2.1.1.2 c hc)
      · exact .inl h.2.1.2
      · exact .inl (optN_mem h.2.2 c hc)
    | predAdverb p =>
      simp only [allN, Bool.and_eq_true] at h
      simp only [children, List.mem_singleton] at hc
      subst hc
      exact .inl h.2
    | prep p a =>
      simp only [allN, Bool.and_eq_true] at h
      simp only [children, List.mem_cons, List.not_mem_nil, or_false] at hc
      rcases hc with rfl | rfl
      · exact .inl h.2.1
      · exact .inl h.2.2
    | paren kio ki d =>
      simp only [allN, listsFull, Bool.and_eq_true] at h
      simp only [children, List.mem_cons, List.not_mem_nil, or_false] at hc
      rcases hc with rfl | rfl | rfl
      · exact .inl (W _ h.2.1.1)
      · exact .inl (by simp [allN, listsFull, h.2.2]; simpa using h.1)
      · exact .inl (W _ h.2.1.2)
    | incidental ju st =>
      simp only [allN, Bool.and_eq_true] at h
      simp only [children, List.mem_cons, List.not_mem_nil, or_false] at hc
      rcases hc with rfl | rfl
      · exact .inl (W _ h.2.1)
      · exact .inl h.2.2
    | vocative hu a =>
      simp only [allN, Bool.and_eq_true] at h
      simp only [children, List.mem_cons, List.not_mem_nil, or_false] at hc
      rcases hc with rfl | rfl
      · exact .inl (W _ h.2.1)
      · exact .inl h.2.2
  · cases hc
  · cases hc
  · simp only [children, List.mem_append, List.mem_singleton] at hc
    rcases hc with hc | rfl
    · exact .inl (optN_mem h c hc)
    · exact .inr (.inr (.inl rfl))

theorem Fine.below {n d : Node} (hb : Below n d) : Fine n → Fine d := by
  induction hb with
  | refl n => exact id
  | step hc _ ih => exact fun h => ih (fine_child h hc)

theorem below_words {n d : Node} (hb : Below n d) : (words d).Sublist (words n) := by
  induction hb with
  | refl n => exact .refl _
  | @step n c d hc _ ih =>
    refine ih.trans ?_
    rw [words_children n]
    refine List.Sublist.trans ?_ (List.sublist_append_right _ _)
    obtain ⟨l, l', e⟩ := List.append_of_mem hc
    rw [e, List.flatMap_append, List.flatMap_cons]
    exact (List.sublist_append_left _ _).trans (List.sublist_append_right _ _)

/-- Words that cover a part of the text come one after the other. -/
theorem tiles_sublist {p q : Nat} {L l : List Tok} (h : Tiles p q L) (hl : l.Sublist L) :
    l.Pairwise (fun x y => x.e ≤ y.s) ∧ ∀ t ∈ l, p ≤ t.s ∧ t.s < t.e ∧ t.e ≤ q := by
  induction hl generalizing p with
  | slnil => simp
  | @cons l L a _ ih =>
    obtain ⟨h1, h2, h3⟩ := h
    obtain ⟨h4, h5⟩ := ih h3
    exact ⟨h4, fun t ht => by have := h5 t ht; omega⟩
  | @cons_cons l L a _ ih =>
    obtain ⟨h1, h2, h3⟩ := h
    obtain ⟨h4, h5⟩ := ih h3
    refine ⟨List.pairwise_cons.2 ⟨fun t ht => (h5 t ht).1, h4⟩, fun t ht => ?_⟩
    rcases List.mem_cons.1 ht with rfl | ht
    · exact ⟨by omega, by omega, h3.le⟩
    · have := h5 t ht; omega

theorem Spans.le_len {p q : Nat} {cs : Tone.Str} (h : Spans (.ofBytes b) p q cs) (hp : p ≤ b.length) : q ≤ b.length := by
  induction h with
  | nil p => exact hp
  | @cons p q c w cs h1 h2 _ ih => exact ih (by have := (Input.ofBytes b).fits p h1; rw [h2] at this; exact this)

/-! ### The order of the words of a node below -/

theorem ordL_eq (l : List Node) : ordL l = l.flatMap ord := by
  induction l <;> simp_all [ordL]
theorem ordO_eq (o : Option Node) : ordO o = (optN o).flatMap ord := by
  cases o <;> simp [ordO, optN]
theorem ordWO_eq (o : Option Word) : ordWO o = (optW o).flatMap ord := by
  cases o <;> simp [ordWO, optW, ord]

theorem ord_children (n : Node) (h : badTok ∉ ord n) : ((children n).flatMap ord).Sublist (ord n) ∨
    ∃ kio ki d, n = .paren kio ki d ∧ ki.M = none ∧ ord n = ordW kio ++ ordL d := by
  have hTO : ∀ o, ordTO o = ord (.terms (o.getD [])) := by
    intro o; cases o <;> simp [ordTO, ord, ordL]
  cases n with
  | cop k to0 to1 ru l r =>
    left
    cases k <;> cases to0 <;> cases to1 <;> simp_all [ord, children, ordWO_eq, optW]
  | word k w =>
    left
    obtain ⟨t, s, e, m⟩ := w
    cases k <;> simp [ord, ordW, children, ordO_eq]
  | predication k p ts na => left; cases k <;> simp [ord, children, ordWO_eq, hTO]
  | lu k l st => left; cases k <;> simp [ord, children]
  | paren kio ki d =>
    right
    simp only [ord, List.mem_append, not_or] at h
    have := mark_good h.1
    exact ⟨kio, ki, d, rfl, this.2.1, by simp [ord, this.1]⟩
  | _ => left; simp [ord, children, ordO_eq, ordWO_eq, ordL_eq]

/-- A node below has its words in order, or it is the word of a closing particle. -/
theorem below_ord {n d : Node} (hb : Below n d) : badTok ∉ ord n →
    (ord d).Sublist (ord n) ∨ ∃ t s e, d = .word .raw (.mk t s e none) := by
  induction hb with
  | refl n => exact fun _ => .inl (.refl _)
  | @step n c d hc hd ih =>
    intro hn
    have mem : ∀ {l : List Node}, c ∈ l → (ord c).Sublist (l.flatMap ord) := by
      intro l hc
      obtain ⟨l, l', rfl⟩ := List.append_of_mem hc
      rw [List.flatMap_append, List.flatMap_cons]
      exact (List.sublist_append_left _ _).trans (List.sublist_append_right _ _)
    have key : (ord c).Sublist (ord n) → (ord d).Sublist (ord n) ∨ ∃ t s e, d = .word .raw (.mk t s e none) := by
      intro h1
      rcases ih (fun h2 => hn (h1.subset h2)) with h2 | h2
      · exact .inl (h2.trans h1)
      · exact .inr h2
    rcases ord_children n hn with h | ⟨kio, ki, ds, rfl, h1, h2⟩
    · exact key ((mem hc).trans h)
    · simp only [children, List.mem_cons, List.not_mem_nil, or_false] at hc
      rcases hc with rfl | rfl | rfl
      · exact key (by rw [h2]; simp [ord])
      · exact key (by rw [h2]; simp [ord])
      · obtain ⟨t, s, e, m⟩ := ki
        simp only [Word.M_mk] at h1
        subst h1
        cases hd with
        | refl => exact .inr ⟨t, s, e, rfl⟩
        | step hx _ => simp [children, optN] at hx

mutual
theorem ord_core : ∀ n : Node, (ord (core n)).Sublist (ord n)
  | .text l d => by
    simp only [core, ord, ordO, List.nil_append]
    exact (ord_coreL d).trans (List.sublist_append_right _ _)
  | .discourse d => by simpa [core, ord] using (ord_coreL d)
  | .sentence je st da => by simpa [core, ord] using ((ord_coreWO je).append ((ord_core st).append (ord_coreWO da)))
  | .cop k to0 to1 ru l r => by
    cases to0 with
    | none =>
      cases to1 with
      | none => simpa [core, ord, coreWO, ordWO] using (ord_core l).append ((ord_coreW ru).append (ord_core r))
      | some w => simpa [core, ord, coreWO, ordWO] using (ord_core r).cons_cons badTok
    | some w => simpa [core, ord, coreWO, ordWO] using
        (ord_coreW w).append ((ord_coreW ru).append ((ord_core l).append ((ord_coreWO to1).append (ord_core r))))
  | .prenex ts bi => by simpa [core, ord] using ((ord_coreL ts).append (ord_coreW bi))
  | .prenexStmt ts bi st => by simpa [core, ord] using ((ord_coreL ts).append ((ord_coreW bi).append (ord_core st)))
  | .predication k p ts na => by simpa [core, ord] using ((ord_core p).append ((ord_coreTO ts).append (ord_coreWO na)))
  | .prefixed mu p => by simpa [core, ord] using ((ord_coreW mu).append (ord_core p))
  | .serial l r => by simpa [core, ord] using ((ord_core l).append (ord_core r))
  | .word k w => by simpa [core, ord] using (ord_coreW w)
  | .mi x ga ph => by simpa [core, ord] using ((ord_coreW x).append ((ord_core ph).append (ord_coreWO ga)))
  | .po x ga a => by simpa [core, ord] using ((ord_coreW x).append ((ord_core a).append (ord_coreWO ga)))
  | .mo x teo d => by simpa [core, ord] using ((ord_coreW x).append ((ord_coreL d).append (ord_coreW teo)))
  | .lu k l st => by simpa [core, ord] using ((ord_coreW l).append (ord_core st))
  | .linked g a => by simpa [core, ord] using ((ord_coreW g).append (ord_core a))
  | .terms ts => by simpa [core, ord] using (ord_coreL ts)
  | .predArg id f q p rel => by simpa [core, ord] using ((ord_coreWO f).append ((ord_coreWO q).append ((ord_core p).append (ord_coreO rel))))
  | .predAdverb p => by simpa [core, ord] using (ord_core p)
  | .prep p a => by simpa [core, ord] using ((ord_core p).append (ord_core a))
  | .incidental ju st => by simpa [core, ord] using ((ord_coreW ju).append (ord_core st))
  | .vocative hu a => by simpa [core, ord] using ((ord_coreW hu).append (ord_core a))
  | .paren (.mk t s e m) (.mk t' s' e' m') d => by
    have h1 : (mark (coreW (.mk t s e m)) (coreW (.mk t' s' e' m'))).Sublist (mark (.mk t s e m) (.mk t' s' e' m')) := by
      simp only [mark, coreW, Word.M_mk, Word.S_mk, Word.E_mk, Option.isNone_none, Bool.true_and]
      by_cases hlt : s < e' <;> cases m' <;> simp [hlt]
    simpa [core, ord] using h1.append ((ord_coreW _).append (ord_coreL d))
theorem ord_coreW : ∀ w : Word, (ordW (coreW w)).Sublist (ordW w)
  | .mk t s e m => by simp [coreW, ordW, ordO]
theorem ord_coreO : ∀ o : Option Node, (ordO (coreO o)).Sublist (ordO o)
  | none => by simp [coreO, ordO]
  | some n => by simpa [coreO, ordO] using ord_core n
theorem ord_coreWO : ∀ o : Option Word, (ordWO (coreWO o)).Sublist (ordWO o)
  | none => by simp [coreWO, ordWO]
  | some n => by simpa [coreWO, ordWO] using ord_coreW n
theorem ord_coreTO : ∀ o : Option (List Node), (ordTO (coreTO o)).Sublist (ordTO o)
  | none => by simp [coreTO, ordTO]
  | some n => by simpa [coreTO, ordTO] using ord_coreL n
theorem ord_coreL : ∀ l : List Node, (ordL (coreL l)).Sublist (ordL l)
  | [] => by simp [coreL, ordL]
  | n :: ns => by simpa [coreL, ordL] using (ord_core n).append (ord_coreL ns)
end

/-- Every word ends after some word that is in order starts. -/
def Before (ol l : List Tok) : Prop := badTok ∉ ol → (∀ t ∈ ol, t.s < t.e) → ∀ t ∈ l, ∃ t' ∈ ol, t'.s < t.e

theorem Before.app {a b l l'} (h : Before a l) (h' : Before b l') : Before (a ++ b) (l ++ l') := by
  intro h1 h2 t ht
  simp only [List.mem_append, not_or] at h1
  rcases List.mem_append.1 ht with ht | ht
  · obtain ⟨t', h3, h4⟩ := h h1.1 (fun t ht => h2 t (by simp [ht])) t ht
    exact ⟨t', by simp [h3], h4⟩
  · obtain ⟨t', h3, h4⟩ := h' h1.2 (fun t ht => h2 t (by simp [ht])) t ht
    exact ⟨t', by simp [h3], h4⟩

theorem Before.nil (ol) : Before ol [] := fun _ _ t ht => by cases ht

mutual
theorem before : ∀ n : Node, Before (ord n) (words n)
  | .text l d => by simpa [ord, words] using ((beforeO l).app (beforeL d))
  | .discourse d => by simpa [ord, words] using (beforeL d)
  | .sentence je st da => by simpa [ord, words] using ((beforeWO je).app ((before st).app (beforeWO da)))
  | .cop k to0 to1 ru l r => by
    cases to0 with
    | none =>
      cases to1 with
      | none => simpa [ord, words] using (before l).app ((beforeW ru).app (before r))
      | some w => intro h; simp [ord] at h
    | some w => simpa [ord, words] using
        (beforeW w).app ((beforeW ru).app ((before l).app ((beforeWO to1).app (before r))))
  | .prenex ts bi => by simpa [ord, words] using ((beforeL ts).app (beforeW bi))
  | .prenexStmt ts bi st => by simpa [ord, words] using ((beforeL ts).app ((beforeW bi).app (before st)))
  | .predication k p ts na => by simpa [ord, words] using ((before p).app ((beforeTO ts).app (beforeWO na)))
  | .prefixed mu p => by simpa [ord, words] using ((beforeW mu).app (before p))
  | .serial l r => by simpa [ord, words] using ((before l).app (before r))
  | .word k w => by simpa [ord, words] using (beforeW w)
  | .mi x ga ph => by simpa [ord, words] using ((beforeW x).app ((before ph).app (beforeWO ga)))
  | .po x ga a => by simpa [ord, words] using ((beforeW x).app ((before a).app (beforeWO ga)))
  | .mo x teo d => by simpa [ord, words] using ((beforeW x).app ((beforeL d).app (beforeW teo)))
  | .lu k l st => by simpa [ord, words] using ((beforeW l).app (before st))
  | .linked g a => by simpa [ord, words] using ((beforeW g).app (before a))
  | .terms ts => by simpa [ord, words] using (beforeL ts)
  | .predArg id f q p rel => by simpa [ord, words] using ((beforeWO f).app ((beforeWO q).app ((before p).app (beforeO rel))))
  | .predAdverb p => by simpa [ord, words] using (before p)
  | .prep p a => by simpa [ord, words] using ((before p).app (before a))
  | .incidental ju st => by simpa [ord, words] using ((beforeW ju).app (before st))
  | .vocative hu a => by simpa [ord, words] using ((beforeW hu).app (before a))
  | .paren (.mk t s e m) (.mk t' s' e' m') d => by
    intro h h2
    have h1 := h
    simp only [ord, List.mem_append, not_or] at h1
    have hm := mark_good h1.1
    simp only [Word.M_mk, Word.S_mk, Word.E_mk] at hm
    obtain ⟨hm1, rfl, hm2⟩ := hm
    have hk := (beforeW (.mk t s e m)).app (beforeL d)
    simp only [ord, hm1, List.nil_append] at h h2 ⊢
    intro x hx
    simp only [words, List.append_assoc] at hx
    rw [← List.append_assoc] at hx
    rcases List.mem_append.1 hx with hx | hx
    · exact hk h h2 x hx
    · simp only [wordsW, wordsO, List.mem_singleton] at hx
      subst hx
      exact ⟨⟨t, s, e⟩, by simp [ordW], hm2⟩
theorem beforeW : ∀ w : Word, Before (ordW w) (wordsW w)
  | .mk t s e m => by
    have h1 : Before [⟨t, s, e⟩] [⟨t, s, e⟩] := fun _ h x hx => ⟨x, hx, h x hx⟩
    simpa [ordW, wordsW] using h1.app (beforeO m)
theorem beforeO : ∀ o : Option Node, Before (ordO o) (wordsO o)
  | none => .nil _
  | some n => by simpa [ordO, wordsO] using before n
theorem beforeWO : ∀ o : Option Word, Before (ordWO o) (wordsWO o)
  | none => .nil _
  | some n => by simpa [ordWO, wordsWO] using beforeW n
theorem beforeTO : ∀ o : Option (List Node), Before (ordTO o) (wordsTO o)
  | none => .nil _
  | some n => by simpa [ordTO, wordsTO] using beforeL n
theorem beforeL : ∀ l : List Node, Before (ordL l) (wordsL l)
  | [] => .nil _
  | n :: ns => by simpa [ordL, wordsL] using (before n).app (beforeL ns)
end

/-- The first word of a node below starts before any of its words ends. -/
theorem first_lt {n d : Node} {p q : Nat} (h : Asc p q (ord n)) (hb : Below n d) {w w' : Tok}
    (hw : (coreWords d).head? = some w) (hw' : w' ∈ coreWords d) (hlt : w'.s < w'.e) : w.s < w'.e := by
  rcases below_ord hb h.good with h1 | ⟨t, s, e, rfl⟩
  · have h2 := (ord_core d).trans h1
    have hgood : badTok ∉ ord (core d) := fun hx => h.good (h2.subset hx)
    have hp := h.pairwise
    have h3 := hp.1.sublist h2
    have h4 : ∀ t ∈ ord (core d), t.s < t.e := fun t ht => (hp.2 t (h2.subset ht)).2.1
    obtain ⟨t', h5, h6⟩ := before (core d) hgood h4 w' hw'
    have h7 := ord_head (core d) hgood
    rw [show (words (core d)).head? = some w from hw] at h7
    cases ho : ord (core d) with
    | nil => rw [ho] at h7; cases h7
    | cons a l =>
      rw [ho] at h7 h5 h3 h4
      simp only [List.head?_cons, Option.some.injEq] at h7
      subst h7
      rcases List.mem_cons.1 h5 with rfl | h8
      · exact h6
      · have := (List.pairwise_cons.1 h3).1 t' h8
        have := h4 a (by simp)
        omega
  · simp only [coreWords, core, coreW, words, wordsW, wordsO, List.head?_cons, Option.some.injEq, List.mem_singleton] at hw hw'
    subst hw hw'
    exact hlt

/-- C15 for parsed texts. `Start` and `End` of a node that has words of its own: `Start` is where its first
word starts, and `End`, unless it panics, where its last word ends, modifiers excluded; both are in the text,
and `Start() < End()`. `End` does not panic if every predication in the node has terms or the final particle.
Partial: it panics on predications with neither. -/
theorem C15_parsed_partial (hU : U.Ok) (cs : List Call) (n : Node) (h : Out.text n ∈ calls U b cs newParser)
    (d : Node) (hb : Below n d) (hd : coreWords d ≠ []) :
    ∃ w, (coreWords d).head? = some w ∧ startN d = some w.s ∧ w.s < b.length ∧
      (∀ e, endN d = some e → ∃ w', (coreWords d).getLast? = some w' ∧ e = w'.e ∧ e ≤ b.length ∧ w.s < e) ∧
      (allN endOk d = true → ∃ e, endN d = some e) := by
  obtain ⟨q, hq, htag, hws, ht⟩ := text_ok hU h
  have hql : q ≤ b.length := by
    obtain ⟨cs, h1, _⟩ := hq
    exact h1.le_len (Nat.zero_le _)
  have hf : Fine n := by
    cases n <;> simp [tag] at htag
    rename_i l d
    simp only [wsIn, Bool.and_eq_true] at hws
    have h1 := fullO _ l (by simp) hws.1
    have h2 := fullL _ d (by simp) hws.2
    cases d with
    | nil => exact .inr (.inr (.inr ⟨l, rfl, h1⟩))
    | cons a d => exact .inl (by simp [allN, listsFull, h1, h2])
  have hF : allN listsFull d = true := by
    rcases hf.below hb with h | rfl | rfl | ⟨l, rfl, _⟩
    · exact h
    all_goals exact absurd (by simp [coreWords, core, words, coreL, wordsL, wordsO]) hd
  obtain ⟨w, hw, hs⟩ := C15_start d hF
  have hsub : (coreWords d).Sublist (words n) := (core_sub d).trans (below_words hb)
  have hin : ∀ t ∈ coreWords d, t.s < t.e ∧ t.e ≤ q := by
    intro t h1
    obtain ⟨L, hp, hL⟩ := ht.perm
    have := (tiles_sublist hL (.refl L)).2 t (hp.mem_iff.2 (hsub.subset h1))
    exact this.2
  have hwm := List.mem_of_head? hw
  refine ⟨w, hw, hs, by have := hin w hwm; omega, fun e he => ?_, fun h1 => ?_⟩
  · rcases end_val d hF with h1 | ⟨w', h1, h2⟩
    · rw [h1] at he; cases he
    · rw [h2] at he
      injection he with he
      subst he
      have hwm' := List.mem_of_getLast? h1
      exact ⟨w', h1, rfl, by have := hin w' hwm'; omega, first_lt ht.order hb hw hwm' (hin w' hwm').1⟩
  · obtain ⟨w', _, h2⟩ := C15_end_partial d h1
    exact ⟨_, h2⟩

/-! ### Examples -/

/-- `Start` and `End` of all nodes of a text. -/
def nodesOf : Out → List (Option Nat × Option Nat)
  | .text n => (entered (trace keepAll n)).map fun d => (startN d, endN d)
  | _ => []

/-- C15 is violated by parsed texts: `End` of the statement of this one panics. -/
theorem C15_parsed_panics : (run "gi?" [.text]).map nodesOf =
    [[(some 0, none), (some 0, none), (some 0, none), (some 0, none), (some 0, some 3), (some 0, some 3), (none, none)]] := by
  decide +kernel

/-- A text without parentheticals in which no node panics. -/
example : (run "jai? ji/" [.text]).map nodesOf =
    [[(some 0, some 8), (some 0, some 8), (some 0, some 8), (some 0, some 8), (some 0, some 4), (some 0, some 4),
      (some 4, some 5), (some 4, some 5), (some 5, some 8), (some 5, some 8), (some 5, some 8), (some 5, some 8)]] := by
  decide +kernel

/-- A text with a parenthetical: the first node is the text, the fourth the parenthetical. -/
example : ((run "kio jai? ji/ ki " [.text]).map fun o => (nodesOf o).take 4) =
    [[(some 0, some 15), (some 0, some 15), (some 0, some 15), (some 0, some 3)]] := by
  decide +kernel

end Verif.Parse
