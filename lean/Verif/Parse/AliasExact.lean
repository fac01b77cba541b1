/-
C21: exactly how the results of `Word` alias the parser. A successful call of `Text` ends all sharing, whatever was called and
written before; `Word` always shares the word it returns.
-/
import Verif.Parse.AliasProps

namespace Verif.Parse
open Verif.AST Verif.Peg

variable (U : Uni) (b : Bytes)

/-- Spec: no text or word is written to between a call of `Word` and the next call of `Text`. `reset` tells whether `Text` succeeds;
`word` whether `Word` was called since. -/
def Apart (reset : Bool) : Bool → List Event → Prop
  | _, [] => True
  | word, .call .tree :: es => Apart reset word es
  | word, .call .text :: es => Apart reset (word && !reset) es
  | _, .call (.word _) :: es => Apart reset true es
  | word, .writeNode _ _ _ :: es => Apart reset word es
  | word, .writeAct _ _ _ :: es => word = false ∧ Apart reset word es

theorem fresh_text_kind {c : Call} {n : Node} (h : fresh U b c = .text n) : c = .text := by
  cases c with
  | text => rfl
  | tree => simp only [fresh] at h; (repeat' split at h) <;> cases h
  | word o => simp only [fresh] at h; (repeat' split at h) <;> cases h

theorem fresh_word_kind {c : Call} {w : Word} {k : Nat} (h : fresh U b c = .word w k) : ∃ o, c = .word o := by
  cases c with
  | word o => exact ⟨o, rfl⟩
  | tree => simp only [fresh] at h; (repeat' split at h) <;> cases h
  | text => simp only [fresh] at h; (repeat' split at h) <;> cases h

theorem apart_run (reset : Bool) (hr : reset = true → ∃ n, fresh U b .text = .text n) (word : Bool) (w : World) (hw : PInv U b w.ps)
    (hn : w.heldNode = .empty) (ha : word = false → w.heldAct = .empty) (es : List Event) (he : Apart reset word es) :
    w.run U b es = (es.filterMap Event.call?).map fun c => (c, fresh U b c) := by
  induction es generalizing w word with
  | nil => rfl
  | cons e es ih =>
    cases e with
    | call c =>
      obtain ⟨h1, h2⟩ := call_fresh U b c w.ps hw
      simp only [World.run, World.step, List.filterMap_cons, Event.call?, Option.toList_some, List.map_cons,
        List.singleton_append, List.cons.injEq, h1, true_and]
      split
      · rename_i t ht
        have hnode := (node_inv U b c w.ps hw.as hw.node).2.2 t (h1.trans ht)
        cases c with
        | tree => exact ih word _ h2 hnode ha he
        | text =>
          simp only [fresh] at ht
          (repeat' split at ht) <;> cases ht
        | word o =>
          simp only [fresh] at ht
          (repeat' split at ht) <;> cases ht
      · rename_i n ht
        cases fresh_text_kind U b ht
        exact ih _ _ h2 hn (fun _ => text_held U b w.ps n (h1.trans ht)) he
      · rename_i v k ht
        obtain ⟨o, rfl⟩ := fresh_word_kind U b ht
        exact ih true _ h2 hn (fun h => by cases h) he
      · rename_i hx1 hx2 hx3
        cases c with
        | tree => exact ih word _ h2 hn ha he
        | text =>
          cases reset with
          | true =>
            obtain ⟨n, h⟩ := hr rfl
            exact absurd h (hx2 n)
          | false =>
            refine ih _ _ h2 hn ?_ he
            simpa using ha
        | word o => exact ih true _ h2 hn (fun h => by cases h) he
    | writeNode p r x =>
      have : (w.step U b (.writeNode p r x)) = (none, w) := by
        simp [World.step, hn]
      simp only [World.run, this, List.filterMap_cons, Event.call?, Option.toList_none, List.nil_append]
      exact ih word w hw hn ha he
    | writeAct p r x =>
      obtain ⟨h0, he⟩ := he
      have : (w.step U b (.writeAct p r x)) = (none, w) := by
        simp [World.step, ha h0]
      simp only [World.run, this, List.filterMap_cons, Event.call?, Option.toList_none, List.nil_append]
      exact ih word w hw hn ha he

/-- The state after a history. -/
def World.after (w : World) : List Event → World
  | [] => w
  | e :: es => World.after (w.step U b e).2 es

theorem run_append (w : World) (es es' : List Event) :
    w.run U b (es ++ es') = w.run U b es ++ (w.after U b es).run U b es' := by
  induction es generalizing w with
  | nil => rfl
  | cons e es ih => simp [World.run, World.after, ih]

theorem ninv_after (w : World) (es : List Event) (h : NInv U b w) : NInv U b (w.after U b es) := by
  induction es generalizing w with
  | nil => exact h
  | cons e es ih => exact ih _ (ninv_step U b w e h)

theorem ninv_new : NInv U b newWorld := ⟨inv_empty _ _ _, invX_empty _ _ _ _ _, rfl⟩

/-- C21. Calls of `Word` do no harm as long as nothing is written to texts and words between a call of `Word` and the next successful
call of `Text`. Partial: else it is false, see `C21_word_aliases` and `C21_word_shared`. -/
theorem C21_apart_partial (reset : Bool) (hr : reset = true → ∃ n, fresh U b .text = .text n) (es : List Event)
    (he : Apart reset false es) : newWorld.run U b es = (es.filterMap Event.call?).map fun c => (c, fresh U b c) :=
  apart_run U b reset hr false newWorld (pinv_new U b) rfl (fun _ => rfl) es he

/-- C21. A call of `Text` that returns a text ends all sharing: whatever was called and written before, and whatever is written to the
results of calls up to this one, later calls return what they return on a new parser (as long as the results of later calls of `Word`
are not written to). -/
theorem C21_text_resets_partial (reset : Bool) (hr : reset = true → ∃ n, fresh U b .text = .text n) (before es : List Event) (n : Node)
    (h : ∃ l, newWorld.run U b (before ++ [.call .text]) = l ++ [(.text, .text n)]) (he : Apart reset false es) :
    newWorld.run U b (before ++ .call .text :: es) = newWorld.run U b (before ++ [.call .text]) ++
      (es.filterMap Event.call?).map fun c => (c, fresh U b c) := by
  have hi := ninv_after U b newWorld before (ninv_new U b)
  have e : before ++ .call .text :: es = (before ++ [.call .text]) ++ es := by simp
  rw [e, run_append U b _ (before ++ [Event.call Call.text])]
  congr 1
  have h1 : (callText U b (newWorld.after U b before).ps).1 = .text n := by
    obtain ⟨l, h⟩ := h
    rw [run_append] at h
    simp only [World.run, World.step, Option.toList_some, List.append_nil, call] at h
    have := (List.append_inj_right' h rfl)
    simpa using this
  have ha : ∀ w : World, w.after U b (before ++ [.call .text]) = ((w.after U b before).step U b (.call .text)).2 := by
    intro w
    generalize before = es
    induction es generalizing w with
    | nil => rfl
    | cons x xs ih => exact ih _
  rw [ha]
  have h2 := node_inv U b .text _ hi.as hi.node
  have h3 := text_held U b _ n h1
  simp only [World.step, call, h1]
  simp only [call] at h2
  have h4 : PInv U b (callText U b (newWorld.after U b before).ps).2 :=
    ⟨h2.1, h2.2.1, by rw [h3]; exact invX_empty _ _ _ _ _⟩
  exact apart_run U b reset hr false ⟨_, _, _⟩ h4 hi.held (fun _ => h3) es he

theorem evM_ref_get (A : Alg Act Err) (d : Tab (Option Nat × Nat)) (r p q n : Nat) (t t' : Tab A.X) (x : A.X)
    (h : evM U toaq (.ofBytes b) A d n (.ref r) p t = some (.ok q x, t')) : t'.get p r = some x := by
  cases n with
  | zero => cases h
  | succ n =>
    simp only [evM, evStepM] at h
    split at h
    · cases h
    · split at h
      · rename_i hx
        simp only [Option.some.injEq, Prod.mk.injEq, Res.ok.injEq] at h
        obtain ⟨⟨_, rfl⟩, rfl⟩ := h
        exact hx
      · split at h
        · simp only [Option.some.injEq, Prod.mk.injEq, Res.ok.injEq] at h
          obtain ⟨⟨_, rfl⟩, rfl⟩ := h
          simp [Tab.get_put]
        · rename_i hno
          exact absurd h (hno _ _ _)

theorem evM_ref_found (A : Alg Act Err) (d : Tab (Option Nat × Nat)) (r p q e n : Nat) (hn : 0 < n) (t : Tab A.X) (x : A.X)
    (hd : d.get p r = some (some q, e)) (ht : t.get p r = some x) :
    evM U toaq (.ofBytes b) A d n (.ref r) p t = some (.ok q x, t) := by
  obtain ⟨n, rfl⟩ : ∃ m, n = m + 1 := ⟨n - 1, by omega⟩
  simp [evM, evStepM, hd, ht]

/-- A call of `Word` that returns a word leaves it in the table. -/
theorem word_kept (o : Int) (s : PS) (w : Word) (k : Nat) (h : (callWord U b o s).1 = .word w k) :
    (0 ≤ o ∧ o ≤ b.length) ∧ ∃ vs, (callWord U b o s).2.act.get o.toNat rWord = some (.word w, vs) := by
  have ho : 0 ≤ o ∧ o ≤ b.length := by
    apply Classical.byContradiction
    intro hc
    simp [callWord, hc] at h
  refine ⟨ho, ?_⟩
  simp only [callWord, ho, and_self, if_true] at h ⊢
  split at h
  · cases h
  · cases h
  · split at h
    · rename_i heq
      cases h
      exact ⟨_, evM_ref_get U b _ _ _ _ _ _ _ _ _ heq⟩
    · cases h
    · cases h

/-- `Word` returns the word in the table, if the parser accepts a word at the offset. -/
theorem word_found (o : Int) (ho : 0 ≤ o ∧ o ≤ b.length) (s : PS) (hs : AccInv U toaq (.ofBytes b) s.as.tab)
    (ha : ∃ q e, acc U toaq (.ofBytes b) (fuel b) (.ref rWord) o.toNat 0 = some (some q, e)) (w : Word) (vs : List Val)
    (hw : s.act.get o.toNat rWord = some (.word w, vs)) : ∃ k, (callWord U b o s).1 = .word w k := by
  obtain ⟨q0, e0, ha⟩ := ha
  obtain ⟨v, s', h1, h2, h3, h4, h5⟩ := accM_run U b rWord o.toNat (by omega) s.as hs
  rw [ha] at h2
  cases h2
  simp only [callWord, ho, and_self, if_true, h1]
  obtain ⟨⟨o1, e1⟩, hd⟩ := Option.ne_none_iff_exists'.1 (h5 _ _ (.ref rWord o.toNat))
  obtain ⟨⟨m, hm⟩, _⟩ := h3 _ _ _ hd
  cases acc_det U toaq (.ofBytes b) hm ha
  have hf : 0 < fuel b := by
    rcases Nat.eq_zero_or_pos (fuel b) with h | h
    · rw [h] at ha; cases ha
    · exact h
  have h6 : evM U toaq (.ofBytes b) (actAlg (.ofBytes b)) s'.tab (fuel b) (.ref rWord) o.toNat s.act =
      some (.ok q0 (.word w, vs), s.act) :=
    evM_ref_found U b (actAlg (.ofBytes b)) s'.tab rWord o.toNat q0 e0 (fuel b) hf s.act (.word w, vs) hd hw
  simp only [h6]
  exact ⟨_, rfl⟩

/-- C21 is violated by every word that `Word` returns, on every parser, text and offset: what the caller writes to it is what the next
call of `Word` at the offset returns. -/
theorem C21_word_shared (before : List Event) (o : Int) (w w' : Word) (k : Nat) (vs : List Val)
    (h : ∃ l, newWorld.run U b (before ++ [.call (.word o)]) = l ++ [(.word o, .word w k)]) :
    ∃ k', newWorld.run U b (before ++ [.call (.word o), .writeAct o.toNat rWord (.word w', vs), .call (.word o)]) =
      newWorld.run U b (before ++ [.call (.word o)]) ++ [(.word o, .word w' k')] := by
  have hi := ninv_after U b newWorld before (ninv_new U b)
  have h1 : (callWord U b o (newWorld.after U b before).ps).1 = .word w k := by
    obtain ⟨l, h⟩ := h
    rw [run_append] at h
    simp only [World.run, World.step, Option.toList_some, List.append_nil, call] at h
    have := (List.append_inj_right' h rfl)
    simpa using this
  rw [run_append, run_append]
  simp only [List.append_assoc, List.append_cancel_left_eq]
  generalize newWorld.after U b before = s at *
  obtain ⟨ho, vs0, h2⟩ := word_kept U b o s.ps w k h1
  have h3 := (node_inv U b (.word o) s.ps hi.as hi.node).1
  simp only [call] at h3
  have hacc : ∃ q e, acc U toaq (.ofBytes b) (fuel b) (.ref rWord) o.toNat 0 = some (some q, e) := by
    obtain ⟨v, s', g1, g2, _⟩ := accM_run U b rWord o.toNat (by omega) s.ps.as hi.as
    rcases v with ⟨_ | q, e⟩
    · simp [callWord, ho, g1] at h1
    · exact ⟨q, e, g2⟩
  obtain ⟨k', h4⟩ := word_found U b o ho { (callWord U b o s.ps).2 with act := (callWord U b o s.ps).2.act.put o.toNat rWord (.word w', vs) }
    h3 hacc w' vs (by simp [Tab.get_put])
  refine ⟨k', ?_⟩
  simp [World.run, World.step, call, h1, h2, h4]

/-! ### Examples -/

/-- Words are read and written to, and a call of `Text` ends the sharing. -/
example : Apart true false [.call (.word 0), .call .text, wordWrite, spaceWrite, .call (.word 0), .call .tree, .call .text, spaceWrite] := by
  simp [Apart, wordWrite, spaceWrite]
example : ¬ Apart true false [.call (.word 0), wordWrite, .call .text] := by
  simp [Apart, wordWrite]

/-- After the text is returned all is well again, though the first call of `Text` returned what the caller wrote. -/
example : (newWorld.run asciiUni aliasText [.call (.word 0), spaceWrite, .call .text, spaceWrite, .call .text]).map (·.2.strings) =
    [["gỉ".toList, " ".toList], ["gỉ".toList, "X".toList, "ka".toList], ["gỉ".toList, " ".toList, "ka".toList]] := by
  decide +kernel

end Verif.Parse
