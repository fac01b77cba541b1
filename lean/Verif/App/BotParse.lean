/-
/repo/bot/bot.go:72-95 `parse`: the answer of the bot (C52). Unlike the server the bot does not
recover from panics.
-/
import Verif.App.Bot
import Verif.App.Server

namespace Verif.App
open Verif.Tone (Str)
open Verif.Peg (Bytes utf8)
open Verif.Parse (callText newParser fresh calls C20_memo_transparent newError shown callsE newEP errorMessage newError_ok)
open Verif.AST.Spec (words)

/-- What `parse` does. -/
inductive Reply
  | said (s : Str)
  /-- a panic, which ends the process -/
  | panic
  | diverge

/-- bot.go:86-93: the logic of a text. -/
def botLogic (E : Env) : Option (Logic.Node × List (Nat × Option Logic.Node)) → Str
  | none => "fragment".toList
  | some (n, defs) =>
    let dfn := fun id => (defs.lookup id).join
    Logic.printTop E.U true dfn (E.order (Logic.scan E.U dfn n).runes) n

/-- bot.go:79-84: the text in braces, on a line of its own if there is any. -/
def botBraces (n : AST.Node) : Str :=
  if AST.bracesString n = [] then AST.bracesString n else AST.bracesString n ++ ['\n']

/-- bot.go:72-95 `parse`, with `k` units of fuel for the interpreter. -/
def botParse (E : Env) (k : Nat) (s : Str) : Reply :=
  let b := utf8 (Logic.trimSpace E.U s)
  match (callText E.U b newParser).1 with
  | .err e => .said ("syntax error ".toList ++ newError E.U b .text)
  | .text (.text l d) =>
    match Logic.interpret E.U k d with
    | .ok st => .said (botBraces (.text l d) ++ botLogic E st)
    | .error .fuel => .diverge
    | .error _ => .panic
  | .diverge => .diverge
  | _ => .panic

/-! ## Specification -/

/-- `parse` does `r` on `s`, whatever the depth of recursion beyond some depth. -/
def Replies (E : Env) (s : Str) (r : Reply) : Prop := ∃ k0, ∀ k, k0 ≤ k → botParse E k s = r

/-- The lines of an answer: the braces, unless there are none, and the logic. -/
inductive TwoLines (braces logic : Str) : Str → Prop
  | both : braces ≠ [] → TwoLines braces logic (braces ++ ['\n'] ++ logic)
  | one : braces = [] → TwoLines braces logic logic

/-- The answer to a text that an error, a syntax tree with its logic, or a panic comes from. -/
inductive Right (E : Env) (b : Bytes) : Reply → Prop
  | reject {k e} : callsE E.U b [.text] newEP = [(.err k, some e)] →
      Right E b (.said ("syntax error ".toList ++ shown (errorMessage e)))
  | fragment {l d r} : calls E.U b [.text] newParser = [.text (.text l d)] → Interprets E.U d (.ok none) →
      TwoLines (AST.bracesString (.text l d)) "fragment".toList r → Right E b (.said r)
  | statement {l d n defs r p} : calls E.U b [.text] newParser = [.text (.text l d)] →
      Interprets E.U d (.ok (some (n, defs))) →
      Logic.IsPrettyString E.U (fun id => (defs.lookup id).join) n p →
      TwoLines (AST.bracesString (.text l d)) p r → Right E b (.said r)
  | parser : calls E.U b [.text] newParser = [.panic] → Right E b .panic
  | interpreter {l d e} : calls E.U b [.text] newParser = [.text (.text l d)] →
      Interprets E.U d (.error e) → Right E b .panic

/-! ## Proofs -/

theorem botParse_eq (E : Env) (k : Nat) (s : Str) : botParse E k s =
    match fresh E.U (utf8 (Logic.trimSpace E.U s)) .text with
    | .err e => .said ("syntax error ".toList ++ newError E.U (utf8 (Logic.trimSpace E.U s)) .text)
    | .text (.text l d) =>
      match Logic.interpret E.U k d with
      | .ok st => .said (botBraces (.text l d) ++ botLogic E st)
      | .error .fuel => .diverge
      | .error _ => .panic
    | .diverge => .diverge
    | _ => .panic := by
  have h := C20_memo_transparent (U := E.U) (b := utf8 (Logic.trimSpace E.U s)) [.text]
  simp only [calls, Parse.call, List.map_cons, List.map_nil, List.cons.injEq, and_true] at h
  rw [← h]
  rfl

theorem outcome_of {E : Env} {b : Bytes} {k : Nat} {e} (h : callsE E.U b [.text] newEP = [(.err k, some e)]) :
    calls E.U b [.text] newParser = [.err k] := by
  rw [← Parse.C57_outcomes, h]; rfl

theorem twoLines (n : AST.Node) (p : Str) : TwoLines (AST.bracesString n) p (botBraces n ++ p) := by
  unfold botBraces
  split
  · rename_i h; rw [h, List.nil_append]; exact .one rfl
  · rename_i h; exact .both h

/-- C52. For every message the bot comes to an answer, which has the braces and the logic of the text,
or to a panic of the parser or the interpreter. -/
theorem C52_reply (E : Env) (hU : E.U.Ok) (hE : ∀ l, (E.order l).Perm l) (s : Str) :
    ∃ r, Replies E s r ∧ Right E (utf8 (Logic.trimSpace E.U s)) r := by
  generalize hb : utf8 (Logic.trimSpace E.U s) = b
  have h0 : ∀ {o}, fresh E.U b .text = o → calls E.U b [.text] newParser = [o] := fun h => by
    simp [C20_memo_transparent, h]
  rcases text_cases E.U b with ⟨n, hn⟩ | ⟨e, he⟩ | hp
  · obtain ⟨l, d, rfl⟩ := text_is_text hU hn
    obtain ⟨r, h1, k0, h2⟩ := Logic.C34_terminates E.U d
    rcases r with e | st
    · refine ⟨.panic, ⟨k0, fun k hk => ?_⟩, .interpreter (h0 hn) ⟨k0, h2⟩⟩
      rw [botParse_eq, hb, hn]
      simp only [h2 k hk]
      cases e with
      | fuel => exact absurd rfl h1
      | _ => rfl
    · refine ⟨.said (botBraces (.text l d) ++ botLogic E st), ⟨k0, fun k hk => ?_⟩, ?_⟩
      · rw [botParse_eq, hb, hn]
        simp only [h2 k hk]
      · rcases st with _ | ⟨n, defs⟩
        · exact .fragment (h0 hn) ⟨k0, h2⟩ (twoLines _ _)
        · exact .statement (h0 hn) ⟨k0, h2⟩ ⟨_, hE _, rfl⟩ (twoLines _ _)
  · obtain ⟨e', h1, h2⟩ := newError_ok (h0 he)
    exact ⟨_, ⟨0, fun k _ => by rw [botParse_eq, hb, he, ← h2]⟩, .reject h1⟩
  · exact ⟨.panic, ⟨0, fun k _ => by rw [botParse_eq, hb, hp]⟩, .parser (h0 hp)⟩

theorem Replies.unique {E : Env} {s : Str} {r r'} (h : Replies E s r) (h' : Replies E s r') : r = r' := by
  obtain ⟨k, h⟩ := h
  obtain ⟨k', h'⟩ := h'
  rw [← h (max k k') (Nat.le_max_left _ _), h' (max k k') (Nat.le_max_right _ _)]

/-- C52. The bot does not panic on a text that `Text` rejects, nor on one that it accepts and
`Interpret` handles. Partial: the tone digits of the text must be in place, and `Interpret` does panic on some texts; either
ends the process, see `C52_digit_kills`, `C52_interpreter_kills`. -/
theorem C52_survives_partial (E : Env) (hU : E.U.Ok) (hE : ∀ l, (E.order l).Perm l) (s : Str)
    (hd : Parse.InPlace (utf8 (Logic.trimSpace E.U s)))
    (hi : ∀ l d, calls E.U (utf8 (Logic.trimSpace E.U s)) [.text] newParser = [.text (.text l d)] →
      ∃ st, Interprets E.U d (.ok st)) : ∃ r, Replies E s (.said r) := by
  obtain ⟨r, h1, h2⟩ := C52_reply E hU hE s
  cases h2 with
  | parser h =>
    have := Parse.C46_no_panic_partial hU hd [.text] 0 rfl
    simp [h] at this
  | interpreter h h' =>
    obtain ⟨st, k, hk⟩ := hi _ _ h
    obtain ⟨k', hk'⟩ := h'
    have h3 := hk (max k k') (Nat.le_max_left _ _)
    rw [hk' (max k k') (Nat.le_max_right _ _)] at h3
    cases h3
  | _ => exact ⟨_, h1⟩

/-- C52, the exact extent of the violation: a message takes the bot down just when the text in it is accepted by
`Tree` and either a tone digit of it is out of place or the interpreter fails on the parsed text. -/
theorem C52_dies_iff (E : Env) (hU : E.U.Ok) (hE : ∀ l, (E.order l).Perm l) (s : Str) :
    Replies E s .panic ↔
      (∃ t, calls E.U (utf8 (Logic.trimSpace E.U s)) [.tree] newParser = [.tree t]) ∧
      (¬Parse.InPlace (utf8 (Logic.trimSpace E.U s)) ∨
        ∃ l d e, calls E.U (utf8 (Logic.trimSpace E.U s)) [.text] newParser = [.text (.text l d)] ∧
          Interprets E.U d (.error e)) := by
  obtain ⟨r, h1, h2⟩ := C52_reply E hU hE s
  generalize hb : utf8 (Logic.trimSpace E.U s) = b at h2 ⊢
  have h0 : ∀ {c : Parse.Call} {o}, calls E.U b [c] newParser = [o] ↔ fresh E.U b c = o := fun {c o} => by
    simp [C20_memo_transparent]
  have hag := fun e => Parse.C19_tree_text_agree E.U b [.tree, .text] 0 1 rfl rfl e
  simp only [C20_memo_transparent, List.map_cons, List.map_nil, List.getElem?_cons_zero, List.getElem?_cons_succ,
    Option.some.injEq] at hag
  have htree : (∀ e, fresh E.U b .text ≠ .err e) → ∃ t, fresh E.U b .tree = .tree t := fun h => by
    rcases tree_cases E.U b with h' | ⟨e, he⟩
    · exact h'
    · exact absurd ((hag e).1 he) (h e)
  have hiff : ∀ t, fresh E.U b .tree = .tree t → (fresh E.U b .text = .panic ↔ ¬Parse.InPlace b) := fun t ht =>
    Parse.C46_panics_iff hU t _ (by simp [C20_memo_transparent, ht])
  constructor
  · intro hp
    cases h1.unique hp
    cases h2 with
    | parser h =>
      rw [h0] at h
      obtain ⟨t, ht⟩ := htree (fun e he => by rw [h] at he; cases he)
      exact ⟨⟨t, h0.2 ht⟩, .inl ((hiff t ht).1 h)⟩
    | interpreter h h' =>
      obtain ⟨t, ht⟩ := htree (fun e he => by rw [h0.1 h] at he; cases he)
      exact ⟨⟨t, h0.2 ht⟩, .inr ⟨_, _, _, h, h'⟩⟩
  · rintro ⟨⟨t, ht⟩, h⟩
    rw [h0] at ht
    have hx : r = .panic := by
      rcases h with h | ⟨l, d, e, h, hi⟩
      · have hn := (hiff t ht).2 h
        cases h2 with
        | parser | interpreter => rfl
        | reject h' => have h' := outcome_of h'; rw [h0, hn] at h'; cases h'
        | fragment h' | statement h' => rw [h0, hn] at h'; cases h'
      · rw [h0] at h
        have key : ∀ {l' d' st}, fresh E.U b .text = .text (.text l' d') → Interprets E.U d' (.ok st) → False := by
          intro l' d' st h' h3
          rw [h] at h'
          cases h'
          obtain ⟨k, hk⟩ := h3
          obtain ⟨k', hk'⟩ := hi
          have h4 := hk (max k k') (Nat.le_max_left _ _)
          rw [hk' (max k k') (Nat.le_max_right _ _)] at h4
          cases h4
        cases h2 with
        | parser | interpreter => rfl
        | reject h' => have h' := outcome_of h'; rw [h0, h] at h'; cases h'
        | fragment h' h3 | statement h' h3 => exact (key (h0.1 h') h3).elim
    rw [← hx]
    exact h1

def Reply.str? : Reply → Option String
  | .said s => some (String.ofList s)
  | _ => none

def Reply.panics : Reply → Bool
  | .panic => true
  | _ => false

theorem Reply.of_panics {r : Reply} (h : r.panics = true) : r = .panic := by cases r <;> first | rfl | cases h

example : (botParse env 100 "gi? ji/ ".toList).str? = some "(gỉ jí)\n[℩𝐽 : ji(𝐽)] gi(𝐽)." := by decide +kernel
example : (botParse env 100 "".toList).str? = some "fragment" := by decide +kernel

theorem replies_panic {E : Env} {s : Str} {k : Nat} (h : botParse E k s = .panic) : Replies E s .panic := by
  refine ⟨k, fun k' hk => ?_⟩
  rw [botParse_eq] at h ⊢
  split at h
  · cases h
  · split at h
    · cases h
    · cases h
    · rename_i e he hi
      simp only [Logic.interpret_error_mono hi he hk]
  · cases h
  · rfl

/-- C52 is violated: this message takes the bot down. -/
theorem C52_digit_kills : Replies env "jai4".toList .panic :=
  replies_panic (k := 0) (Reply.of_panics (by decide +kernel))

/-- C52 is violated: this one does also, though it is parsed. -/
theorem C52_interpreter_kills : Replies env "gi? da ra gi? da".toList .panic :=
  replies_panic (k := 100) (Reply.of_panics (by decide +kernel))

end Verif.App
