/-
C21: whether a caller that modifies results changes what later calls return.
-/
import Verif.Parse.ParserProps

namespace Verif.Parse
open Verif.AST Verif.Peg

variable (U : Uni) (b : Bytes)

theorem callTree_fresh (s : PS) (h1 : AccInv U toaq (.ofBytes b) s.as.tab)
    (h2 : InvX U toaq (.ofBytes b) (nodeAlg b) s.as.tab s.node) :
    (callTree U b s).1 = fresh U b .tree := by
  have := (call_fresh U b .tree { s with act := .empty } ⟨h1, h2, invX_empty _ _ _ _ _⟩).1
  rw [← this]
  simp only [call, callTree]
  repeat' split
  all_goals simp_all

/-- The tables of the Accepts and Node functions stay correct, whatever is in the table of the Action
functions, and a returned tree shares nothing with the tables. -/
theorem node_inv (c : Call) (s : PS) (h1 : AccInv U toaq (.ofBytes b) s.as.tab)
    (h2 : InvX U toaq (.ofBytes b) (nodeAlg b) s.as.tab s.node) :
    AccInv U toaq (.ofBytes b) (call U b c s).2.as.tab ∧
    InvX U toaq (.ofBytes b) (nodeAlg b) (call U b c s).2.as.tab (call U b c s).2.node ∧
    (∀ t, (call U b c s).1 = .tree t → (call U b c s).2.node = .empty) := by
  cases c with
  | tree =>
    obtain ⟨v, s', h3, h4, h5, h6, h7⟩ := accM_run U b rFull 0 (Nat.zero_le _) s.as h1
    simp only [call, callTree, h3]
    rcases v with ⟨_ | q, e⟩
    · exact ⟨h5, invX_mono h2 h6, by simp⟩
    · obtain ⟨v, t', h8, h9, h10⟩ := evM_run U b (nodeAlg b) rFull 0 (Nat.zero_le _) s'.tab h5 h7 s.node (invX_mono h2 h6)
      simp only [h8]
      split
      · exact ⟨h5, invX_empty _ _ _ _ _, by simp⟩
      · rename_i heq
        injection heq with heq
        injection heq with _ heq
        subst heq
        exact ⟨h5, h10, by simp⟩
      · rename_i heq; cases heq
  | text =>
    obtain ⟨v, s', h3, h4, h5, h6, h7⟩ := accM_run U b rFull 0 (Nat.zero_le _) s.as h1
    simp only [call, callText, h3]
    rcases v with ⟨_ | q, e⟩
    · exact ⟨h5, invX_mono h2 h6, by simp⟩
    · simp only
      split
      · exact ⟨h5, invX_mono h2 h6, by simp⟩
      · exact ⟨h5, invX_mono h2 h6, by simp⟩
      · exact ⟨h1, h2, by simp⟩
  | word offs =>
    simp only [call, callWord]
    split
    · obtain ⟨v, s', h3, h4, h5, h6, h7⟩ := accM_run U b rWord offs.toNat (by omega) s.as h1
      simp only [h3]
      rcases v with ⟨_ | q, e⟩
      · exact ⟨h5, invX_mono h2 h6, by simp⟩
      · simp only
        split
        · exact ⟨h5, invX_empty _ _ _ _ _, by simp⟩
        · exact ⟨h5, invX_mono h2 h6, by simp⟩
        · exact ⟨h1, h2, by simp⟩
    · exact ⟨h1, h2, by simp⟩

/-- The part of the invariant that callers cannot break. -/
structure NInv (w : World) : Prop where
  as : AccInv U toaq (.ofBytes b) w.ps.as.tab
  node : InvX U toaq (.ofBytes b) (nodeAlg b) w.ps.as.tab w.ps.node
  held : w.heldNode = .empty

theorem ninv_step (w : World) (e : Event) (h : NInv U b w) : NInv U b (w.step U b e).2 := by
  cases e with
  | call c =>
    obtain ⟨h1, h2, h3⟩ := node_inv U b c w.ps h.as h.node
    simp only [World.step]
    split
    · rename_i t ht
      exact ⟨h1, h2, h3 t ht⟩
    · exact ⟨h1, h2, h.held⟩
    · exact ⟨h1, h2, h.held⟩
    · exact ⟨h1, h2, h.held⟩
  | writeNode p r x =>
    simp only [World.step, h.held, Tab.get_empty, Option.isSome_none, Bool.false_and, Bool.false_eq_true, if_false]
    exact h
  | writeAct p r x =>
    simp only [World.step]
    split
    · exact ⟨h.as, h.node, h.held⟩
    · exact h

theorem tree_run (w : World) (h : NInv U b w) (es : List Event) :
    ∀ o, (Call.tree, o) ∈ w.run U b es → o = fresh U b .tree := by
  induction es generalizing w with
  | nil => intro o ho; simp [World.run] at ho
  | cons e es ih =>
    intro o ho
    simp only [World.run, List.mem_append] at ho
    rcases ho with ho | ho
    · cases e with
      | call c =>
        simp only [World.step, Option.toList_some, List.mem_singleton] at ho
        injection ho with h1 h2
        subst h1
        rw [h2]
        exact callTree_fresh U b w.ps h.as h.node
      | writeNode p r x =>
        simp only [World.step] at ho
        split at ho <;> simp at ho
      | writeAct p r x =>
        simp only [World.step] at ho
        split at ho <;> simp at ho
    · exact ih _ (ninv_step U b w e h) o ho

/-- C21, for trees. In every history of calls and modifications of results, `Tree` returns what it
returns on a new parser. -/
theorem C21_tree_unaffected (es : List Event) (o : Out) (h : (Call.tree, o) ∈ newWorld.run U b es) :
    o = fresh U b .tree :=
  tree_run U b newWorld ⟨inv_empty _ _ _, invX_empty _ _ _ _ _, rfl⟩ es o h

/-! ### Without `Word` -/

theorem text_held (s : PS) (n : Node) (h : (callText U b s).1 = .text n) : (callText U b s).2.act = .empty := by
  simp only [callText] at h ⊢
  repeat' split at h
  all_goals cases h
  rfl

theorem noword_run (w : World) (hw : PInv U b w.ps) (hn : w.heldNode = .empty) (ha : w.heldAct = .empty)
    (es : List Event) (he : ∀ o, Event.call (.word o) ∉ es) :
    w.run U b es = (es.filterMap Event.call?).map fun c => (c, fresh U b c) := by
  induction es generalizing w with
  | nil => rfl
  | cons e es ih =>
    have he' : ∀ o, Event.call (.word o) ∉ es := fun o ho => he o (List.mem_cons_of_mem _ ho)
    cases e with
    | call c =>
      obtain ⟨h1, h2⟩ := call_fresh U b c w.ps hw
      simp only [World.run, World.step, List.filterMap_cons, Event.call?, Option.toList_some, List.map_cons,
        List.singleton_append, List.cons.injEq, h1, true_and]
      split
      · rename_i t ht
        exact ih _ h2 ((node_inv U b c w.ps hw.as hw.node).2.2 t (h1.trans ht)) ha he'
      · rename_i n ht
        refine ih _ h2 hn ?_ he'
        cases c with
        | tree =>
          exfalso
          simp only [fresh] at ht
          repeat' split at ht
          all_goals cases ht
        | text => exact text_held U b w.ps n (h1.trans ht)
        | word o => exact absurd List.mem_cons_self (he o)
      · rename_i n k ht
        exfalso
        cases c with
        | tree =>
          simp only [fresh] at ht
          repeat' split at ht
          all_goals cases ht
        | text =>
          simp only [fresh] at ht
          repeat' split at ht
          all_goals cases ht
        | word o => exact he o List.mem_cons_self
      · exact ih _ h2 hn ha he'
    | writeNode p r x =>
      have : (w.step U b (.writeNode p r x)) = (none, w) := by
        simp [World.step, hn]
      simp only [World.run, this, List.filterMap_cons, Event.call?, Option.toList_none, List.nil_append]
      exact ih w hw hn ha he'
    | writeAct p r x =>
      have : (w.step U b (.writeAct p r x)) = (none, w) := by
        simp [World.step, ha]
      simp only [World.run, this, List.filterMap_cons, Event.call?, Option.toList_none, List.nil_append]
      exact ih w hw hn ha he'

/-- C21, for histories without calls of `Word`: modifications of results do not affect later calls.
Partial: with calls of `Word` it is false, see `C21_word_aliases`. -/
theorem C21_no_alias_partial (es : List Event) (he : ∀ o, Event.call (.word o) ∉ es) :
    newWorld.run U b es = (es.filterMap Event.call?).map fun c => (c, fresh U b c) :=
  noword_run U b newWorld (pinv_new U b) rfl rfl es he

/-! ### With `Word`

`Word` resets the table `node`, not `act` (parser.go:79), so the returned word and the space attached
to it stay in the memo table. -/

/-- The strings of the words of a result. -/
def Out.strings : Out → List Verif.Tone.Str
  | .text n => (Spec.words n).map (·.t)
  | .word w _ => (Spec.wordsW w).map (·.t)
  | _ => []

def aliasText : Bytes := utf8 "gi? ka".toList
/-- The caller writes to the space that is attached to the word. -/
def spaceWrite : Event := .writeAct 3 73 (.node (.word .space (.mk "X".toList 3 4 none)), [])
/-- The caller writes to the word. -/
def wordWrite : Event := .writeAct 0 rWord (.word (.mk "X".toList 0 4 none), [])

/-- The space attached to the word that `Word(0)` returns is the entry of `space_word` (rule 73) at
offset 3. -/
theorem alias_shared : (match (callWord asciiUni aliasText 0 newParser).1, (callWord asciiUni aliasText 0 newParser).2.act.get 3 73 with
    | .word (.mk _ _ _ (some (.word .space (.mk t s e none)))) _, some (.node (.word .space (.mk t' s' e' none)), _) =>
      t == t' && s == s' && e == e'
    | _, _ => false) = true := by decide +kernel

/-- C21 is violated by `Word`: writing to a returned word changes what the next `Word` call and the
next `Text` call return. -/
theorem C21_word_aliases :
    (newWorld.run asciiUni aliasText [.call (.word 0), wordWrite, .call (.word 0)]).map (·.2.strings) =
      [["gỉ".toList, " ".toList], ["X".toList]] ∧
    (newWorld.run asciiUni aliasText [.call (.word 0), spaceWrite, .call .text]).map (·.2.strings) =
      [["gỉ".toList, " ".toList], ["gỉ".toList, "X".toList, "ka".toList]] ∧
    (fresh asciiUni aliasText .text).strings = ["gỉ".toList, " ".toList, "ka".toList] := by
  have h := C20_memo_transparent asciiUni aliasText [.text]
  simp only [List.map_cons, List.map_nil] at h
  have h' : fresh asciiUni aliasText .text = (callText asciiUni aliasText newParser).1 := by
    simpa [calls, call] using h.symm
  rw [h']
  decide +kernel

end Verif.Parse
