/-
/repo/bot/bot.go (C44). The chat channel is the sequence of events it delivers; answering is a
parameter that may fail to return, since a panic of the parser or the interpreter ends the process.
-/
import Verif.Logic.Words

namespace Verif.App
open Verif.Tone (Str)

/-- chat.Message, as far as used: the nick of the sender, if any, and the text. -/
structure Msg where
  nick : Option Str
  text : Str

inductive Event
  | message (m : Msg)
  | other

/-- bot.go:17-19 -/
def parsePrefix : Str := ".miu".toList

/-- `strings.SplitN(s, sep, 2)`: none if there is no separator. -/
def cut (sep : Str) : Str → Option (Str × Str)
  | [] => if sep.isPrefixOf [] then some ([], []) else none
  | c :: s =>
    if sep.isPrefixOf (c :: s) then some ([], (c :: s).drop sep.length)
    else match cut sep s with
      | none => none
      | some (a, b) => some (c :: a, b)

def bridge : Str := "ToaqBridgeBot".toList

/-- bot.go:97-108 `fixBridgeMessage`. -/
def fixBridge (m : Msg) : Msg :=
  match m.nick with
  | none => m
  | some n =>
    if n ≠ bridge ∨ "Toaq Telegram".toList.isPrefixOf n then m
    else match cut [':', ' '] m.text with
      | none => m
      | some (_, s) => { m with text := s }

/-- What has been said so far, and whether the process is still alive. -/
structure BotSt where
  said : List Str
  alive : Bool

/-- bot.go:46-70 `run`: one event. `answer` is `parse` (bot.go:72-95); none if it panics. -/
def botStep (U : Uni) (answer : Str → Option Str) (s : BotSt) (e : Event) : BotSt :=
  if !s.alive then s
  else match e with
    | .other => s
    | .message m =>
      let m := fixBridge m
      if parsePrefix.isPrefixOf m.text then
        match answer (Logic.trimSpace U (m.text.drop parsePrefix.length)) with
        | none => { s with alive := false }
        | some r => { s with said := s.said ++ [r] }
      else s

/-- bot.go:46-70 `run` over the events received. -/
def botRun (U : Uni) (answer : Str → Option Str) (es : List Event) : BotSt :=
  es.foldl (botStep U answer) ⟨[], true⟩

/-! ## Specification -/

/-- `b` is what follows the first occurrence of `sep` in `s`. -/
def AfterFirst (sep s b : Str) : Prop :=
  ∃ a, s = a ++ sep ++ b ∧ ∀ a' b', s = a' ++ sep ++ b' → a.length ≤ a'.length

/-- The text that a message is taken to have. -/
def Taken (m : Msg) (t : Str) : Prop :=
  (m.nick = some bridge ∧ AfterFirst [':', ' '] m.text t) ∨
  (t = m.text ∧ (m.nick = some bridge → ¬ ∃ b, AfterFirst [':', ' '] m.text b))

/-- The trimmed text: no space at the ends, and only spaces cut off. -/
def Trimmed (U : Uni) (s t : Str) : Prop :=
  ∃ a b, s = a ++ t ++ b ∧ (∀ c ∈ a, U.space c = true) ∧ (∀ c ∈ b, U.space c = true) ∧
    (∀ c, t.head? = some c → U.space c = false) ∧ (∀ c, t.getLast? = some c → U.space c = false)

/-- The event asks for `q` to be parsed. -/
def Asks (U : Uni) (e : Event) (q : Str) : Prop :=
  ∃ m t r, e = .message m ∧ Taken m t ∧ t = parsePrefix ++ r ∧ Trimmed U r q

/-- The bot that answers the questions of a history, one after the other. -/
inductive Answers (U : Uni) (answer : Str → Option Str) : List Event → List Str → Prop
  | nil : Answers U answer [] []
  | skip {es said e} : Answers U answer es said → (¬ ∃ q, Asks U e q) →
      Answers U answer (e :: es) said
  | say {es said e q r} : Answers U answer es said → Asks U e q → answer q = some r →
      Answers U answer (e :: es) (r :: said)
  /-- the answer crashes; nothing is said from then on -/
  | crash {es e q} : Asks U e q → answer q = none → Answers U answer (e :: es) []

/-! ## Proofs -/

theorem cut_some (sep : Str) (hsep : sep ≠ []) : ∀ s a b, cut sep s = some (a, b) →
    s = a ++ sep ++ b ∧ ∀ a' b', s = a' ++ sep ++ b' → a.length ≤ a'.length
  | [], a, b, h => by
    cases sep with
    | nil => exact absurd rfl hsep
    | cons x xs => simp [cut] at h
  | c :: s, a, b, h => by
    rw [cut] at h
    split at h
    · next hp =>
      cases h
      rw [List.isPrefixOf_iff_prefix] at hp
      obtain ⟨t, ht⟩ := hp
      refine ⟨?_, fun _ _ _ => Nat.zero_le _⟩
      rw [← ht]
      simp
    · next hp =>
      split at h
      · cases h
      · next a0 b0 h0 =>
        cases h
        obtain ⟨h1, h2⟩ := cut_some sep hsep s a0 b h0
        refine ⟨by rw [h1]; simp, ?_⟩
        intro a' b' h'
        cases a' with
        | nil =>
          exfalso
          apply hp
          rw [List.isPrefixOf_iff_prefix]
          exact ⟨b', by simpa using h'.symm⟩
        | cons x a' =>
          simp only [List.cons_append, List.cons.injEq] at h'
          have := h2 a' b' h'.2
          simpa using this

theorem cut_none (sep : Str) (hsep : sep ≠ []) : ∀ s, cut sep s = none →
    ∀ a b, s ≠ a ++ sep ++ b
  | [], h, a, b => by
    intro h'
    have := congrArg List.length h'
    simp at this
    exact hsep (List.length_eq_zero_iff.1 (by omega))
  | c :: s, h, a, b => by
    rw [cut] at h
    split at h
    · cases h
    · next hp =>
      split at h
      · next h0 =>
        intro h'
        cases a with
        | nil =>
          apply hp
          rw [List.isPrefixOf_iff_prefix]
          exact ⟨b, by simpa using h'.symm⟩
        | cons x a =>
          simp only [List.cons_append, List.cons.injEq] at h'
          exact cut_none sep hsep s h0 a b h'.2
      · cases h

theorem afterFirst_iff (sep : Str) (hsep : sep ≠ []) (s b : Str) :
    AfterFirst sep s b ↔ ∃ a, cut sep s = some (a, b) := by
  constructor
  · rintro ⟨a, h1, h2⟩
    cases h : cut sep s with
    | none => exact absurd h1 (cut_none sep hsep s h a b)
    | some p =>
      obtain ⟨h3, h4⟩ := cut_some sep hsep s p.1 p.2 h
      have hlen : a.length = p.1.length := Nat.le_antisymm (h2 _ _ h3) (h4 _ _ h1)
      have := h1.symm.trans h3
      rw [List.append_assoc, List.append_assoc] at this
      obtain ⟨e1, e2⟩ := List.append_inj this hlen
      have e3 := List.append_cancel_left e2
      exact ⟨p.1, by rw [e3]⟩
  · rintro ⟨a, h⟩
    obtain ⟨h1, h2⟩ := cut_some sep hsep s a b h
    exact ⟨a, h1, h2⟩

theorem taken_iff (m : Msg) (t : Str) : Taken m t ↔ t = (fixBridge m).text := by
  have hs : ([':', ' '] : Str) ≠ [] := by simp
  unfold Taken fixBridge
  simp only [afterFirst_iff _ hs]
  cases hn : m.nick with
  | none => simp
  | some n =>
    simp only [Option.some.injEq]
    by_cases h : n = bridge
    · subst h
      have hp : "Toaq Telegram".toList.isPrefixOf bridge = false := by decide
      rw [if_neg (by rw [hp]; simp)]
      cases hc : cut [':', ' '] m.text with
      | none => simp
      | some p =>
        obtain ⟨x, y⟩ := p
        simp only [Option.some.injEq, Prod.mk.injEq, true_and]
        constructor
        · rintro (⟨_, _, h⟩ | ⟨_, h⟩)
          · exact h.symm
          · exact absurd ⟨y, x, rfl, rfl⟩ (h trivial)
        · rintro rfl
          exact .inl ⟨x, rfl, rfl⟩
    · rw [if_pos (Or.inl h)]
      simp [h]

theorem dropWhile_spec (p : Char → Bool) (s : Str) : ∃ a, s = a ++ s.dropWhile p ∧
    (∀ c ∈ a, p c = true) ∧ ∀ c, (s.dropWhile p).head? = some c → p c = false := by
  refine ⟨s.takeWhile p, (List.takeWhile_append_dropWhile).symm, ?_, ?_⟩
  · intro c hc
    induction s with
    | nil => simp at hc
    | cons x s ih =>
      rw [List.takeWhile_cons] at hc
      split at hc
      · rcases List.mem_cons.1 hc with rfl | hc
        · assumption
        · exact ih hc
      · simp at hc
  · intro c hc
    induction s with
    | nil => simp at hc
    | cons x s ih =>
      rw [List.dropWhile_cons] at hc
      split at hc
      · exact ih hc
      · next h => simp at hc; rw [← hc]; simpa using h

theorem trimSpace_trimmed (U : Uni) (s : Str) : Trimmed U s (Logic.trimSpace U s) := by
  obtain ⟨a, h1, h2, h3⟩ := dropWhile_spec U.space s
  obtain ⟨b, h4, h5, h6⟩ := dropWhile_spec U.space (s.dropWhile U.space).reverse
  have h7 : s.dropWhile U.space = Logic.trimSpace U s ++ b.reverse := by
    have := congrArg List.reverse h4
    rw [List.reverse_reverse, List.reverse_append] at this
    exact this
  refine ⟨a, b.reverse, ?_, h2, by simpa using h5, ?_, ?_⟩
  · rw [List.append_assoc, ← h7]; exact h1
  · intro c hc
    apply h3
    rw [h7, List.head?_append, hc]
    rfl
  · intro c hc
    apply h6
    rw [Logic.trimSpace] at hc
    rwa [List.getLast?_reverse] at hc

theorem eq_of_heads {p : Char → Bool} : ∀ (a a' t t' : Str), a ++ t = a' ++ t' →
    (∀ c ∈ a, p c = true) → (∀ c ∈ a', p c = true) → (∀ c, t.head? = some c → p c = false) →
    (∀ c, t'.head? = some c → p c = false) → t = t'
  | [], [], t, t', h, _, _, _, _ => by simpa using h
  | [], x :: a', t, t', h, _, h2, h3, _ => by
    have h' : t = x :: (a' ++ t') := by simpa using h
    have := h3 x (by rw [h']; rfl)
    rw [h2 x (by simp)] at this
    cases this
  | x :: a, [], t, t', h, h1, _, _, h4 => by
    have h' : t' = x :: (a ++ t) := by simpa using h.symm
    have := h4 x (by rw [h']; rfl)
    rw [h1 x (by simp)] at this
    cases this
  | x :: a, y :: a', t, t', h, h1, h2, h3, h4 => by
    simp only [List.cons_append, List.cons.injEq] at h
    exact eq_of_heads a a' t t' h.2 (fun c hc => h1 c (by simp [hc]))
      (fun c hc => h2 c (by simp [hc])) h3 h4

/-- Trimming has one result. -/
theorem trimmed_unique (U : Uni) (s t t' : Str) (h : Trimmed U s t) (h' : Trimmed U s t') :
    t = t' := by
  obtain ⟨a, b, h1, h2, h3, h4, h5⟩ := h
  obtain ⟨a', b', g1, g2, g3, g4, g5⟩ := h'
  cases ht : t with
  | nil =>
    -- everything is space
    cases ht' : t' with
    | nil => rfl
    | cons c l =>
      exfalso
      have hc := g4 c (by rw [ht']; rfl)
      have hm : c ∈ s := by rw [g1, ht']; simp
      rw [h1, ht] at hm
      simp only [List.append_nil, List.mem_append] at hm
      rcases hm with hm | hm
      · rw [h2 c hm] at hc; cases hc
      · rw [h3 c hm] at hc; cases hc
  | cons x l =>
    cases ht' : t' with
    | nil =>
      exfalso
      have hc := h4 x (by rw [ht]; rfl)
      have hm : x ∈ s := by rw [h1, ht]; simp
      rw [g1, ht'] at hm
      simp only [List.append_nil, List.mem_append] at hm
      rcases hm with hm | hm
      · rw [g2 x hm] at hc; cases hc
      · rw [g3 x hm] at hc; cases hc
    | cons y l' =>
      rw [← ht, ← ht']
      have hne : t ≠ [] := by rw [ht]; simp
      have hne' : t' ≠ [] := by rw [ht']; simp
      have e1 : t ++ b = t' ++ b' := by
        refine eq_of_heads (p := U.space) a a' _ _ ?_ h2 g2 ?_ ?_
        · rw [← List.append_assoc, ← List.append_assoc, ← h1, ← g1]
        · intro c hc
          rw [List.head?_append_of_ne_nil _ hne] at hc
          exact h4 c hc
        · intro c hc
          rw [List.head?_append_of_ne_nil _ hne'] at hc
          exact g4 c hc
      have e2 := congrArg List.reverse e1
      rw [List.reverse_append, List.reverse_append] at e2
      have e3 := eq_of_heads (p := U.space) _ _ _ _ e2 (by simpa using h3) (by simpa using g3)
        (by intro c hc; rw [List.head?_reverse] at hc; exact h5 c hc)
        (by intro c hc; rw [List.head?_reverse] at hc; exact g5 c hc)
      simpa using e3

theorem asks_iff (U : Uni) (e : Event) (q : Str) : Asks U e q ↔
    ∃ m, e = .message m ∧ parsePrefix.isPrefixOf (fixBridge m).text = true ∧
      q = Logic.trimSpace U ((fixBridge m).text.drop parsePrefix.length) := by
  constructor
  · rintro ⟨m, t, r, rfl, ht, rfl, hq⟩
    rw [taken_iff] at ht
    refine ⟨m, rfl, ?_, ?_⟩
    · rw [List.isPrefixOf_iff_prefix, ← ht]; exact ⟨r, rfl⟩
    · rw [← ht, List.drop_left]
      exact trimmed_unique U r _ _ hq (trimSpace_trimmed U r)
  · rintro ⟨m, rfl, hp, rfl⟩
    rw [List.isPrefixOf_iff_prefix] at hp
    obtain ⟨r, hr⟩ := hp
    refine ⟨m, _, r, rfl, (taken_iff m _).2 rfl, hr.symm, ?_⟩
    rw [← hr, List.drop_left]
    exact trimSpace_trimmed U r

theorem foldl_dead (U : Uni) (answer : Str → Option Str) (es : List Event) (said : List Str) :
    es.foldl (botStep U answer) ⟨said, false⟩ = ⟨said, false⟩ := by
  induction es with
  | nil => rfl
  | cons e es ih => rw [List.foldl_cons]; exact ih

theorem answers_run (U : Uni) (answer : Str → Option Str) (es : List Event) (said : List Str) :
    ∃ new, Answers U answer es new ∧
      (es.foldl (botStep U answer) ⟨said, true⟩).said = said ++ new := by
  induction es generalizing said with
  | nil => exact ⟨[], .nil, by simp⟩
  | cons e es ih =>
    rw [List.foldl_cons]
    cases e with
    | other =>
      obtain ⟨new, h1, h2⟩ := ih said
      refine ⟨new, .skip h1 ?_, h2⟩
      rintro ⟨q, hq⟩
      rw [asks_iff] at hq
      obtain ⟨m, h, _⟩ := hq
      cases h
    | message m =>
      by_cases hp : parsePrefix.isPrefixOf (fixBridge m).text = true
      · have ha : Asks U (.message m) (Logic.trimSpace U ((fixBridge m).text.drop parsePrefix.length)) :=
          (asks_iff _ _ _).2 ⟨m, rfl, hp, rfl⟩
        cases hr : answer (Logic.trimSpace U ((fixBridge m).text.drop parsePrefix.length)) with
        | none =>
          refine ⟨[], .crash ha hr, ?_⟩
          have : botStep U answer ⟨said, true⟩ (.message m) = ⟨said, false⟩ := by
            simp only [botStep, hp, hr, if_true, Bool.not_true, Bool.false_eq_true, if_false]
          rw [this, foldl_dead]
          simp
        | some r =>
          obtain ⟨new, h1, h2⟩ := ih (said ++ [r])
          refine ⟨r :: new, .say h1 ha hr, ?_⟩
          have : botStep U answer ⟨said, true⟩ (.message m) = ⟨said ++ [r], true⟩ := by
            simp only [botStep, hp, hr, if_true, Bool.not_true, Bool.false_eq_true, if_false]
          rw [this, h2]
          simp
      · obtain ⟨new, h1, h2⟩ := ih said
        refine ⟨new, .skip h1 ?_, ?_⟩
        · rintro ⟨q, hq⟩
          rw [asks_iff] at hq
          obtain ⟨m', h, h', _⟩ := hq
          cases h
          exact hp h'
        · have : botStep U answer ⟨said, true⟩ (.message m) = ⟨said, true⟩ := by
            simp only [botStep, hp, Bool.not_true, Bool.false_eq_true, if_false]
          rw [this, h2]

theorem asks_unique {U : Uni} {e : Event} {q q' : Str} (h : Asks U e q) (h' : Asks U e q') : q = q' := by
  rw [asks_iff] at h h'
  obtain ⟨m, rfl, _, rfl⟩ := h
  obtain ⟨m', h1, _, rfl⟩ := h'
  cases h1
  rfl

theorem answers_unique {U : Uni} {answer : Str → Option Str} {es : List Event} {s s' : List Str}
    (h : Answers U answer es s) (h' : Answers U answer es s') : s = s' := by
  induction h generalizing s' with
  | nil => cases h'; rfl
  | skip _ hn ih =>
    cases h' with
    | skip h2 _ => exact ih h2
    | say _ ha _ => exact absurd ⟨_, ha⟩ hn
    | crash ha _ => exact absurd ⟨_, ha⟩ hn
  | say _ ha hr ih =>
    cases h' with
    | skip _ hn => exact absurd ⟨_, ha⟩ hn
    | say h2 ha' hr' =>
      rw [asks_unique ha' ha, hr] at hr'
      cases hr'
      rw [ih h2]
    | crash ha' hr' =>
      rw [asks_unique ha' ha, hr] at hr'
      cases hr'
  | crash ha hr =>
    cases h' with
    | skip _ hn => exact absurd ⟨_, ha⟩ hn
    | say _ ha' hr' =>
      rw [asks_unique ha' ha, hr] at hr'
      cases hr'
    | crash _ _ => rfl

/-- C44: over any history the bot says exactly the answers to the messages that ask for one, in
order; a message that crashes the parser or the interpreter silences it. -/
theorem C44_answers (U : Uni) (answer : Str → Option Str) (es : List Event) (said : List Str) :
    (botRun U answer es).said = said ↔ Answers U answer es said := by
  obtain ⟨new, h1, h2⟩ := answers_run U answer es []
  constructor
  · intro h
    have : new = said := by rw [← h]; exact h2.symm
    rwa [← this]
  · intro h
    rw [answers_unique h h1]
    exact h2

/-- C44: a message from the bridge without ": ", or one from anybody else, is taken as it is. -/
theorem C44_taken (m : Msg) (t : Str) (h : Taken m t) (hn : m.nick ≠ some bridge) : t = m.text := by
  rcases h with ⟨h, _⟩ | ⟨h, _⟩
  · exact absurd h hn
  · exact h

/-- A history with a question through the bridge, chatter and a direct question. -/
example : (botRun asciiUni (fun q => some ('<' :: q)) [
    .message ⟨some bridge, "someone: .miu  gi: da ".toList⟩,
    .message ⟨some "x".toList, "someone: .miu gi".toList⟩, .other,
    .message ⟨none, ".miumai".toList⟩]).said = ["<gi: da".toList, "<mai".toList] := by
  decide +kernel
/-- A crash ends the conversation. -/
example : (botRun asciiUni (fun q => if q = [] then none else some q) [
    .message ⟨none, ".miu".toList⟩, .message ⟨none, ".miu gi".toList⟩]).said = [] := by
  decide +kernel

end Verif.App
