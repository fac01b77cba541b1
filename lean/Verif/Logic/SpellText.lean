/-
C59: capitals, the dot of i and the lengths of characters in bytes do not change what a text means.
-/
import Verif.Logic.SpellInterp
import Verif.Logic.InterpProps
import Verif.Parse.SpellTop
import Verif.Parse.TextProps
import Verif.Parse.ToneProps
import Verif.Parse.Examples
import Verif.Logic.Print

namespace Verif.Logic
open Verif.Tone (Str)
open Verif.AST Verif.AST.Spec
open Verif.Parse
open Verif.Peg (utf8)

/-- Not a quote: neither a phrase with mi nor a discourse with mo. -/
def notQuote : AST.Node → Bool
  | .mi .. => false
  | .mo .. => false
  | _ => true

/-! ### Syntax trees without quotes -/

section
variable {f g : Str → Str} {φ : Nat → Nat}

theorem mem_cop {k to0 to1 ru l r} (h : to0.isSome = to1.isSome) (t : Tok) : t ∈ words (.cop k to0 to1 ru l r) ↔
    t ∈ wordsWO to0 ∨ t ∈ wordsWO to1 ∨ t ∈ wordsW ru ∨ t ∈ words l ∨ t ∈ words r := by
  cases to0 <;> cases to1 <;> simp [words, wordsWO] at h ⊢ <;> grind

mutual
theorem reQ_eq : ∀ (n : AST.Node), wsIn n = true → allN notQuote n = true → (∀ t ∈ words n, g t.t = f t.t) →
    reQ g φ n = respell f φ n
  | .text l d, hw, hq, hg => by
    simp only [wsIn, allN, words, Bool.and_eq_true, List.mem_append] at hw hq hg
    rw [reQ, respell, reO_eq l _ hw.1 hq.2.1 (by grind), reL_eq d _ hw.2 hq.2.2 (by grind)]
  | .discourse d, hw, _, _ => by simp [wsIn] at hw
  | .sentence je st da, hw, hq, hg => by
    simp only [wsIn, allN, words, Bool.and_eq_true, List.mem_append] at hw hq hg
    rw [reQ, respell, reWO_eq je hw.1.1 hq.2.1.1 (by grind), reQ_eq st hw.1.2.2 hq.2.1.2 (by grind),
      reWO_eq da hw.2 hq.2.2 (by grind)]
  | .cop k to0 to1 ru l r, hw, hq, hg => by
    simp only [wsIn, allN, Bool.and_eq_true, beq_iff_eq] at hw hq
    have hm := fun t h => hg t ((mem_cop hw.1.1.1.1.1 t).2 h)
    rw [reQ, respell, reWO_eq to0 hw.1.1.1.1.2 hq.2.1.1.1.1 (by grind), reWO_eq to1 hw.1.1.1.2 hq.2.1.1.1.2 (by grind),
      reW_eq ru hw.1.1.2 hq.2.1.1.2 (by grind), reQ_eq l hw.1.2.2 hq.2.1.2 (by grind), reQ_eq r hw.2.2 hq.2.2 (by grind)]
  | .prenex ts bi, hw, hq, hg => by
    simp only [wsIn, allN, words, Bool.and_eq_true, List.mem_append] at hw hq hg
    rw [reQ, respell, reL_eq ts _ hw.1.2 hq.2.1 (by grind), reW_eq bi hw.2 hq.2.2 (by grind)]
  | .prenexStmt ts bi st, hw, hq, hg => by
    simp only [wsIn, allN, words, Bool.and_eq_true, List.mem_append] at hw hq hg
    rw [reQ, respell, reL_eq ts _ hw.1.1.2 hq.2.1.1 (by grind), reW_eq bi hw.1.2 hq.2.1.2 (by grind),
      reQ_eq st hw.2.2 hq.2.2 (by grind)]
  | .predication k p ts na, hw, hq, hg => by
    simp only [wsIn, allN, words, Bool.and_eq_true, List.mem_append] at hw hq hg
    rw [reQ, respell, reQ_eq p hw.1.1.2 hq.2.1.1 (by grind), reTO_eq ts hw.1.2 hq.2.1.2 (by grind),
      reWO_eq na hw.2 hq.2.2 (by grind)]
  | .prefixed mu p, hw, _, _ => by simp [wsIn] at hw
  | .serial l r, hw, hq, hg => by
    simp only [wsIn, allN, words, Bool.and_eq_true, List.mem_append] at hw hq hg
    rw [reQ, respell, reQ_eq l hw.1.2 hq.2.1 (by grind), reQ_eq r hw.2.2 hq.2.2 (by grind)]
  | .word k w, hw, hq, hg => by
    simp only [wsIn, allN, words, Bool.and_eq_true] at hw hq hg
    rw [reQ, respell, reW_eq w hw.2 hq.2 hg]
  | .mi m ga ph, _, hq, _ => by simp [allN, notQuote] at hq
  | .po m ga a, hw, hq, hg => by
    simp only [wsIn, allN, words, Bool.and_eq_true, List.mem_append] at hw hq hg
    rw [reQ, respell, reW_eq m hw.1.1 hq.2.1.1 (by grind), reWO_eq ga hw.1.2 hq.2.1.2 (by grind),
      reQ_eq a hw.2.2 hq.2.2 (by grind)]
  | .mo m teo d, _, hq, _ => by simp [allN, notQuote] at hq
  | .lu k l st, hw, hq, hg => by
    simp only [wsIn, allN, words, Bool.and_eq_true, List.mem_append] at hw hq hg
    rw [reQ, respell, reW_eq l hw.1.2 hq.2.1 (by grind), reQ_eq st hw.2.2 hq.2.2 (by grind)]
  | .linked go a, hw, hq, hg => by
    simp only [wsIn, allN, words, Bool.and_eq_true, List.mem_append] at hw hq hg
    rw [reQ, respell, reW_eq go hw.1 hq.2.1 (by grind), reQ_eq a hw.2.2 hq.2.2 (by grind)]
  | .terms ts, hw, hq, hg => by
    simp only [wsIn, allN, words, Bool.and_eq_true] at hw hq hg
    rw [reQ, respell, reL_eq ts _ hw.2 hq.2 hg]
  | .predArg id focus quant p rel, hw, hq, hg => by
    simp only [wsIn, allN, words, Bool.and_eq_true, List.mem_append] at hw hq hg
    rw [reQ, respell, reWO_eq focus hw.1.1.1 hq.2.1.1.1 (by grind), reWO_eq quant hw.1.1.2 hq.2.1.1.2 (by grind),
      reQ_eq p hw.1.2.2 hq.2.1.2 (by grind), reO_eq rel _ hw.2 hq.2.2 (by grind)]
  | .predAdverb p, hw, hq, hg => by
    simp only [wsIn, allN, words, Bool.and_eq_true] at hw hq hg
    rw [reQ, respell, reQ_eq p hw.2 hq.2 hg]
  | .prep p a, hw, hq, hg => by
    simp only [wsIn, allN, words, Bool.and_eq_true, List.mem_append] at hw hq hg
    rw [reQ, respell, reQ_eq p hw.1.2 hq.2.1 (by grind), reQ_eq a hw.2.2 hq.2.2 (by grind)]
  | .paren kio ki d, hw, hq, hg => by
    simp only [wsIn, allN, words, Bool.and_eq_true, List.mem_append] at hw hq hg
    rw [reQ, respell, reW_eq kio hw.1.1 hq.2.1.1 (by grind), reW_eq ki hw.1.2 hq.2.1.2 (by grind),
      reL_eq d _ hw.2.2 hq.2.2 (by grind)]
  | .incidental ju st, hw, hq, hg => by
    simp only [wsIn, allN, words, Bool.and_eq_true, List.mem_append] at hw hq hg
    rw [reQ, respell, reW_eq ju hw.1 hq.2.1 (by grind), reQ_eq st hw.2.2 hq.2.2 (by grind)]
  | .vocative hu a, hw, hq, hg => by
    simp only [wsIn, allN, words, Bool.and_eq_true, List.mem_append] at hw hq hg
    rw [reQ, respell, reW_eq hu hw.1 hq.2.1 (by grind), reQ_eq a hw.2.2 hq.2.2 (by grind)]
theorem reW_eq : ∀ (w : Word), wsW w = true → allNW notQuote w = true → (∀ t ∈ wordsW w, g t.t = f t.t) →
    reW g φ w = respellW f φ w
  | .mk t s e m, hw, hq, hg => by
    simp only [wsW, allNW, wordsW, List.mem_cons] at hw hq hg
    have := hg ⟨t, s, e⟩ (.inl rfl)
    rw [reW, respellW, reO_eq m _ hw hq (by grind)]
    simp only at this
    rw [this]
theorem reO_eq : ∀ (o : Option AST.Node) (k : Srt), wsO k o = true → allNO notQuote o = true →
    (∀ t ∈ wordsO o, g t.t = f t.t) → reO g φ o = respellO f φ o
  | none, _, _, _, _ => rfl
  | some n, _, hw, hq, hg => by
    simp only [wsO, allNO, wordsO, Bool.and_eq_true] at hw hq hg
    rw [reO, respellO, reQ_eq n hw.2 hq hg]
theorem reWO_eq : ∀ (o : Option Word), wsWO o = true → allNWO notQuote o = true →
    (∀ t ∈ wordsWO o, g t.t = f t.t) → reWO g φ o = respellWO f φ o
  | none, _, _, _ => rfl
  | some w, hw, hq, hg => by rw [reWO, respellWO, reW_eq w hw hq hg]
theorem reTO_eq : ∀ (o : Option (List AST.Node)), wsTO o = true → allNTO notQuote o = true →
    (∀ t ∈ wordsTO o, g t.t = f t.t) → reTO g φ o = respellTO f φ o
  | none, _, _, _ => rfl
  | some l, hw, hq, hg => by
    simp only [wsTO, allNTO, wordsTO, Bool.and_eq_true] at hw hq hg
    rw [reTO, respellTO, reL_eq l _ hw.2 hq hg]
theorem reL_eq : ∀ (l : List AST.Node) (k : Srt), wsL k l = true → allNL notQuote l = true →
    (∀ t ∈ wordsL l, g t.t = f t.t) → reL g φ l = respellL f φ l
  | [], _, _, _, _ => rfl
  | n :: l, k, hw, hq, hg => by
    simp only [wsL, allNL, wordsL, Bool.and_eq_true, List.mem_append] at hw hq hg
    rw [reL, respellL, reQ_eq n hw.1.2 hq.1 (by grind), reL_eq l k hw.2 hq.2 (by grind)]
end
end

/-! ### Offsets that count characters -/

/-- Even numbers for the offsets of characters, odd numbers for the others. -/
noncomputable def marks (s : Str) (p : Nat) : Nat :=
  open Classical in if h : ∃ k, k ≤ s.length ∧ p = off s k then 2 * h.choose else 2 * p + 1

theorem off_inj (s : Str) {k l : Nat} (hk : k ≤ s.length) (hl : l ≤ s.length) (h : off s k = off s l) : k = l := by
  have h1 := off_le_iff s k l hk hl
  have h2 := off_le_iff s l k hl hk
  omega

theorem marks_off (s : Str) (k : Nat) (h : k ≤ s.length) : marks s (off s k) = 2 * k := by
  unfold marks
  have hx : ∃ j, j ≤ s.length ∧ off s k = off s j := ⟨k, h, rfl⟩
  rw [dif_pos hx]
  have := hx.choose_spec
  rw [off_inj s this.1 h this.2.symm]

theorem marks_inj (s : Str) (p q : Nat) (h : marks s p = marks s q) : p = q := by
  unfold marks at h
  split at h <;> split at h
  · rename_i h1 h2
    rw [h1.choose_spec.2, h2.choose_spec.2, show h1.choose = h2.choose by omega]
  · omega
  · omega
  · omega

theorem marks_same {s s' : Str} (hl : s.length = s'.length) {p p' : Nat} (h : RO s s' p p') : marks s p = marks s' p' := by
  obtain ⟨k, hk, rfl, rfl⟩ := h
  rw [marks_off s k hk, marks_off s' k (hl ▸ hk)]

/-! ### Parsed texts -/

variable {U : Uni} {s s' : Str}

/-- The syntax trees of two texts of the same spelling. -/
theorem trees_same (hU : LettersNotPunct U) (h : SameSpelling capitalPairs s s') {cs cs' : List Call} {n n' : AST.Node}
    (hn : Out.text n ∈ calls U (utf8 s) cs newParser) (hn' : Out.text n' ∈ calls U (utf8 s') cs' newParser) :
    respell (List.map (foldBy capitalPairs)) (marks s) n = respell (List.map (foldBy capitalPairs)) (marks s') n' := by
  have hl : s.length = s'.length := by simpa using congrArg List.length h
  obtain ⟨q, l, h1⟩ := text_call hn
  obtain ⟨q', l', h2⟩ := text_call hn'
  have hv := ev_same capitalPairs_ok hU h (act_sim capitalPairs_ok fun _ _ => marks_same hl) rFull
    (p := 0) (p' := 0) ⟨0, Nat.zero_le _, rfl, rfl⟩ (Nat.zero_le _) (Nat.zero_le _)
  rw [h1, h2] at hv
  cases hv with
  | ok _ hx => simpa [respellV] using hx.1

theorem renders_no_i {t rs : Str} (h : Renders t rs) : 'i' ∉ t := by
  induction h with
  | nil => simp
  | char c hc => simpa using fun h => hc h.symm
  | dotless => decide
  | append _ _ h1 h2 => simp [h1, h2]
  | tone _ ht ih =>
    obtain ⟨t, ht, _, hd⟩ := ht
    have h1 : ∀ t ∈ tones, ∀ x ∈ plainVowels.zip t.1, x.2 ≠ 'i' := by decide
    have := h1 t ht _ hd
    simp only [List.mem_cons, not_or] at ih ⊢
    exact ⟨fun h => this h.symm, ih.2⟩

/-! ### Capital Q in parsed words -/

/-- No q stands before a vowel or q. -/
def qEnds : Str → Bool
  | q :: v :: rest => (q ≠ 'q' || (!Tone.isVowel v && v ≠ 'q')) && qEnds (v :: rest)
  | _ => true

theorem spell_vowel (c : Char) : Tone.isVowel (foldBy spellPairs c) = Tone.isVowel c :=
  Parse.fold_ind Parse.spellPairs_ok (Q := fun c c' => Tone.isVowel c' = Tone.isVowel c) (by decide +kernel)
    (fun _ _ => rfl) c

theorem qEnds_fold : ∀ s : Str, qEnds (s.map (foldBy spellPairs)) = true → QEnds s
  | [], _ => trivial
  | [_], _ => trivial
  | q :: v :: rest, h => by
    simp only [List.map_cons, qEnds, Bool.and_eq_true, Bool.or_eq_true, decide_eq_true_eq, Bool.not_eq_true', ne_eq] at h
    refine ⟨?_, qEnds_fold (v :: rest) h.2⟩
    rintro rfl
    rcases h.1 with h1 | ⟨h1, h2⟩
    · exact absurd (by decide +kernel) h1
    · rw [spell_vowel] at h1
      refine ⟨h1, ?_⟩
      rintro rfl
      exact h2 (by decide +kernel)

/-- Starts with neither a vowel nor q. -/
def qStart : Str → Bool
  | [] => true
  | c :: _ => !Tone.isVowel c && c ≠ 'q'

theorem qEnds_append : ∀ a b : Str, qEnds a = true → qEnds b = true → qStart b = true → qEnds (a ++ b) = true
  | [], _, _, hb, _ => hb
  | [c], b, _, hb, hs => by
    cases b with
    | nil => rfl
    | cons v rest =>
      simp only [qStart, Bool.and_eq_true] at hs
      simp only [List.cons_append, List.nil_append, qEnds, Bool.and_eq_true, Bool.or_eq_true]
      exact ⟨.inr hs, hb⟩
  | c :: v :: a, b, ha, hb, hs => by
    simp only [qEnds, Bool.and_eq_true] at ha
    have := qEnds_append (v :: a) b ha.2 hb hs
    simp only [List.cons_append, qEnds, Bool.and_eq_true]
    exact ⟨ha.1, this⟩

theorem qStart_append : ∀ a b : Str, a ≠ [] → qStart a = true → qStart (a ++ b) = true
  | [], _, h, _ => absurd rfl h
  | _ :: _, _, _, h => h

theorem syllable_q {τ : WTone} {s : Str} (h : Syllable τ s) : qEnds (s.map (foldBy spellPairs)) = true ∧
    qStart (s.map (foldBy spellPairs)) = true ∧ s.map (foldBy spellPairs) ≠ [] := by
  obtain ⟨o, ho, r, hr, h⟩ := h
  rw [h]
  have key : ∀ τ ∈ [WTone.plain, .macron, .acute, .caron, .hook, .circumflex, .grave, .tilde], ∀ o ∈ onsets,
      ∀ r ∈ rimes, qEnds (τ.syllable o r) = true ∧ qStart (τ.syllable o r) = true ∧ τ.syllable o r ≠ [] := by
    decide +kernel
  exact key τ (by cases τ <;> decide) o ho r hr

theorem macrons_q {s : Str} (h : Macrons s) : qEnds (s.map (foldBy spellPairs)) = true ∧
    qStart (s.map (foldBy spellPairs)) = true := by
  induction h with
  | nil => exact ⟨rfl, rfl⟩
  | cons ha _ ih =>
    have := syllable_q ha
    rw [List.map_append]
    exact ⟨qEnds_append _ _ this.1 ih.1 ih.2, qStart_append _ _ this.2.2 this.2.1⟩

theorem word_q {τ : WTone} {s : Str} (h : WordOf τ s) : QEnds s := by
  obtain ⟨a, b, rfl, ha, hb⟩ := h
  refine qEnds_fold _ ?_
  rw [List.map_append]
  exact qEnds_append _ _ (syllable_q ha).1 (macrons_q hb).1 (macrons_q hb).2

theorem noQ_ends : ∀ s : Str, 'Q' ∉ s → QEnds s
  | [], _ => trivial
  | [_], _ => trivial
  | q :: v :: rest, h => by
    simp only [List.mem_cons, not_or] at h
    exact ⟨fun e => absurd e.symm h.1, noQ_ends (v :: rest) (by simpa using h.2)⟩

/-- In the words of a parsed text Q ends syllables. -/
theorem parsed_q (hP : LettersNotPunct U) {b : Peg.Bytes} {cs : List Call} {n : AST.Node}
    (hd : Out.text n ∈ calls U b cs newParser) : ∀ t ∈ words n, QEnds t.t := by
  intro t ht
  rcases C60_words cs n hd t ht with ⟨τ, h⟩ | h
  · exact word_q h
  · refine noQ_ends _ fun hQ => ?_
    rcases h _ hQ with h | h
    · revert h; decide
    · rw [(hP ('Q', 'q') (by decide +kernel)).1] at h; cases h

/-- The spelling without capitals, where they do not matter. -/
def lowered (t : Str) : Str := if CaseFree t ∧ QEnds t then t.map soft else t

theorem lowered_same (hU : CaseOk U) (t : Str) : SameWord U t (lowered t) := by
  unfold lowered
  split
  · rename_i h; exact soft_word hU t h.1 h.2
  · exact ⟨fun _ => rfl, rfl, rfl, rfl⟩

theorem lowered_re (hU : CaseOk U) (s : Str) : Re U lowered (marks s) where
  word := lowered_same hU
  pa := by decide
  inj := marks_inj s
  zero := marks_off s 0 (Nat.zero_le _)

theorem soft_map {t : Str} (h : 'i' ∉ t) : t.map soft = t.map (foldBy capitalPairs) := by
  apply List.map_congr_left
  intro c hc
  unfold soft
  rw [if_neg]
  rintro rfl
  exact h hc

/-- The interpretation of a parsed text without quotes depends only on the standard spelling of the
words and the order of the offsets. -/
theorem interpret_standard (hU : CaseOk U) (hP : LettersNotPunct U) {cs : List Call} {lead : Option AST.Node} {d : List AST.Node}
    (hd : Out.text (.text lead d) ∈ calls U (utf8 s) cs newParser)
    (hc : ∀ t ∈ words (.text lead d), CaseFree t.t) (hq : allN notQuote (.text lead d) = true) (k : Nat) :
    discourse U (fns U k) (respellL (List.map (foldBy capitalPairs)) (marks s) d) = discourse U (fns U k) d := by
  have hw := C51_well_sorted hU.ok cs _ hd
  have hi : ∀ t ∈ words (.text lead d), 'i' ∉ t.t := by
    intro t ht
    obtain ⟨_, rs, _, hr, _⟩ := C23_normalised hU.ok cs _ hd t ht
    exact renders_no_i hr
  have hQ := parsed_q hP hd
  simp only [ws, wsIn, allN, words, Bool.and_eq_true, List.mem_append] at hw hq hi hc hQ
  have := discourse_re (lowered_re hU s) (fns_re (lowered_re hU s) k) d
  rw [reL_eq d _ hw.2.2 hq.2.2 (f := List.map (foldBy capitalPairs))] at this
  · exact this
  · intro t ht
    unfold lowered
    rw [if_pos ⟨hc t (.inr ht), hQ t (.inr ht)⟩, soft_map (hi t (.inr ht))]

/-- C59: capitals, the dot of i, and how many bytes the characters have, do not change what a text
means. Take two texts of the same spelling but for these, both parsed, without quotes, in which variables
are written without the capitals D and I. Then `Interpret` does the same
on both. -/
theorem C59_spelling_partial (hU : CaseOk U) (hP : LettersNotPunct U) (h : SameSpelling capitalPairs s s') (cs cs' : List Call)
    (lead lead' : Option AST.Node) (d d' : List AST.Node)
    (hd : Out.text (.text lead d) ∈ calls U (utf8 s) cs newParser)
    (hd' : Out.text (.text lead' d') ∈ calls U (utf8 s') cs' newParser)
    (hc : ∀ t ∈ words (.text lead d), CaseFree t.t) (hc' : ∀ t ∈ words (.text lead' d'), CaseFree t.t)
    (hq : allN notQuote (.text lead d) = true) (hq' : allN notQuote (.text lead' d') = true) (k : Nat) :
    interpret U k d = interpret U k d' := by
  have h1 := interpret_standard hU hP hd hc hq k
  have h2 := interpret_standard hU hP hd' hc' hq' k
  have h3 := trees_same hP h hd hd'
  simp only [respell, Node.text.injEq] at h3
  rw [h3.2, h2] at h1
  unfold interpret
  rw [h1]

/-! ### Examples -/

/-- Case for the letters of Toaq. -/
def caseUni : Uni := { asciiUni with
  lower := fun c => if c.toNat < 128 then asciiLower c else foldBy capitalPairs c }

theorem caseUni_ok : CaseOk caseUni where
  ok := { asciiUni_ok with lower := fun c h => by simp [caseUni, h] }
  lower := by decide +kernel
  dotless := by decide +kernel

theorem letters_case : LettersNotPunct caseUni := letters_ascii

/-- A text in which case does not matter. -/
def outCaseFree : Out → Bool
  | .text (.text lead d) => (words (.text lead d)).all (fun t => CaseFree t.t) && allN notQuote (.text lead d)
  | _ => false

theorem outCaseFree_ok {l : List Out} (h : l.map outCaseFree = [true]) : ∃ lead d, Out.text (.text lead d) ∈ l ∧
    (∀ t ∈ words (.text lead d), CaseFree t.t) ∧ allN notQuote (.text lead d) = true := by
  have : true ∈ l.map outCaseFree := by rw [h]; simp
  obtain ⟨o, ho, h⟩ := List.mem_map.1 this
  unfold outCaseFree at h
  split at h
  · rename_i lead d
    simp only [Bool.and_eq_true, List.all_eq_true, decide_eq_true_eq] at h
    exact ⟨lead, d, ho, h.1, h.2⟩
  · cases h

/-- Two texts for which the theorem applies: with capitals and without, of 28 and 30 bytes. -/
def text1 : Str := "Mải sa Póq ru dóbāi jí".toList
@[inherit_doc text1]
def text2 : Str := "mảı SA pÓQ Ru dÓBĀı jÍ".toList

example : SameSpelling capitalPairs text1 text2 ∧ utf8 text1 ≠ utf8 text2 := by
  unfold SameSpelling; decide +kernel

example : ∃ lead d lead' d', Out.text (.text lead d) ∈ calls caseUni (utf8 text1) [.text] newParser ∧
    Out.text (.text lead' d') ∈ calls caseUni (utf8 text2) [.text] newParser ∧
    ∀ k, interpret caseUni k d = interpret caseUni k d' := by
  have h1 : (calls caseUni (utf8 text1) [.text] newParser).map outCaseFree = [true] := by decide +kernel
  have h2 : (calls caseUni (utf8 text2) [.text] newParser).map outCaseFree = [true] := by decide +kernel
  obtain ⟨lead, d, hd, hc, hq⟩ := outCaseFree_ok h1
  obtain ⟨lead', d', hd', hc', hq'⟩ := outCaseFree_ok h2
  exact ⟨lead, d, lead', d', hd, hd', fun k => C59_spelling_partial caseUni_ok letters_case
    (by unfold SameSpelling; decide +kernel) _ _ lead lead' d d' hd hd' hc hc' hq hq' k⟩

example : (utf8 text1).length = 28 ∧ (utf8 text2).length = 30 := by decide +kernel

/-- The exceptions are real. -/
def outPrint (U : Uni) (k : Nat) : Out → Option Str
  | .text (.text _ d) => match interpret U k d with
    | .ok (some (n, defs)) =>
      let dfn := fun id => (defs.lookup id).join
      some (printTop U false dfn (scan U dfn n).runes n)
    | _ => none
  | _ => none

/-- C59 without the hypothesis on capitals is refuted: the capital D makes a variable a predicate. -/
theorem C59_refuted : SameSpelling capitalPairs "Mải jí dóbāi".toList "Mải jí Dóbāi".toList ∧
    (calls caseUni (utf8 "Mải jí dóbāi".toList) [.text] newParser).map (outPrint caseUni 100) =
      [some "[ιJ : ji(J)] mai(J, U).".toList] ∧
    (calls caseUni (utf8 "Mải jí Dóbāi".toList) [.text] newParser).map (outPrint caseUni 100) =
      [some "[ιJ : ji(J)] [ιD : dobai(D)] mai(J, D).".toList] := by
  unfold SameSpelling; decide +kernel

/-- The small letter of I has a dot and the i of a parsed word has none, so a capital I makes another
variable: here the second argument is not bound. -/
theorem C59_refuted_i : SameSpelling capitalPairs "Mải sa dóbāi dóbāi".toList "Mải sa dóbāi dóbāI".toList ∧
    (calls caseUni (utf8 "Mải sa dóbāi dóbāi".toList) [.text] newParser).map (outPrint caseUni 100) =
      [some "∃X mai(X, X).".toList] ∧
    (calls caseUni (utf8 "Mải sa dóbāi dóbāI".toList) [.text] newParser).map (outPrint caseUni 100) =
      [some "∃X mai(X, U).".toList] := by
  unfold SameSpelling; decide +kernel
example : splitVar caseUni "dóbāı".toList = some ('/', "dobāı".toList) ∧
    splitVar caseUni "dóbāI".toList = some ('/', "dobāi".toList) := by decide +kernel

end Verif.Logic
