/-
C62 for texts with capitals and letters with the breve: without quotes they mean the same.
-/
import Verif.Logic.NoteText

namespace Verif.Logic
open Verif.Tone (Str)
open Verif.AST Verif.AST.Spec
open Verif.Parse
open Verif.Peg (utf8)

variable {U : Uni}

/-! ### Words with a breve -/

/-- Small letters with a breve and the letters with a caron. -/
def softBreves : List (Char × Char) := "ăĕĭŏŭ".toList.zip "ǎěǐǒǔ".toList

/-- The caron instead of the breve. -/
def unbreve (c : Char) : Char := foldBy softBreves c

/-- Only the first vowel has a breve. -/
def breveFirst : Str → Bool
  | [] => true
  | c :: t => if Tone.isVowel c then t.all fun c => unbreve c = c else breveFirst t

theorem fold_list (L : List (Char × Char)) (Q : Char → Char → Prop) (h : ∀ e ∈ L, Q e.1 e.2) (h' : ∀ c, Q c c) (c : Char) :
    Q c (foldBy L c) := by
  unfold foldBy
  cases e : L.lookup c with
  | none => exact h' c
  | some y =>
    have : (c, y) ∈ L := by
      clear h h'
      induction L with
      | nil => simp at e
      | cons p L ih =>
        obtain ⟨a, b⟩ := p
        rw [List.lookup_cons] at e
        split at e
        · rename_i hc
          simp only [beq_iff_eq] at hc
          simp only [Option.some.injEq] at e
          subst hc e
          exact List.mem_cons_self ..
        · exact List.mem_cons_of_mem _ (ih e)
    exact h _ this

theorem unbreve_ind {Q : Char → Char → Prop} (h : ∀ e ∈ softBreves, Q e.1 e.2) (h' : ∀ c, Q c c) (c : Char) : Q c (unbreve c) :=
  fold_list _ Q h h' c

theorem unbreve_vowel (c : Char) : Tone.isVowel (unbreve c) = Tone.isVowel c :=
  unbreve_ind (Q := fun c c' => Tone.isVowel c' = Tone.isVowel c) (by decide +kernel) (fun _ => rfl) c

theorem unbreve_const (c : Char) (h : Tone.isVowel c = false) : unbreve c = c := by
  revert h
  exact unbreve_ind (Q := fun c c' => Tone.isVowel c = false → c' = c) (by decide +kernel) (fun _ _ => rfl) c

theorem unbreve_all (t : Str) (h : (t.all fun c => unbreve c = c) = true) : t.map unbreve = t := by
  rw [List.all_eq_true] at h
  calc t.map unbreve = t.map id := List.map_congr_left fun c hc => by simpa using h c hc
    _ = t := List.map_id _

theorem unbreve_withTone : ∀ t, breveFirst t = true →
    Tone.withTone (t.map unbreve) Tone.noTone = Tone.withTone t Tone.noTone ∨
      Tone.withTone (t.map unbreve) Tone.noTone = none ∧ Tone.withTone t Tone.noTone = none ∧ t.map unbreve = t
  | [], _ => .inl rfl
  | c :: t, h => by
    simp only [breveFirst] at h
    simp only [List.map_cons, Tone.withTone, unbreve_vowel]
    split
    · rename_i hv
      rw [if_pos hv] at h
      rw [unbreve_all t h]
      left
      congr 1
      exact unbreve_ind (Q := fun c c' => Tone.retone c' Tone.noTone = Tone.retone c Tone.noTone) (by decide +kernel) (fun _ => rfl) c
    · rename_i hv
      rw [if_neg hv] at h
      rw [unbreve_const c (by simpa using hv)]
      rcases unbreve_withTone t h with h | ⟨h1, h2, h3⟩
      · rw [h]; exact .inl rfl
      · rw [h1, h2, h3]; exact .inl rfl

theorem unbreve_none : ∀ t, breveFirst t = true → Tone.withTone t Tone.noTone = none → t.map unbreve = t
  | [], _, _ => rfl
  | c :: t, h, hn => by
    simp only [breveFirst] at h
    simp only [Tone.withTone] at hn
    split at hn
    · rename_i hv
      rw [if_pos hv] at h
      rw [List.map_cons, unbreve_all t h]
      congr 1
      simp only [Option.map_eq_none_iff] at hn
      revert hn
      exact unbreve_ind (Q := fun c c' => Tone.retone c Tone.noTone = none → c' = c) (by decide +kernel) (fun _ _ => rfl) c
    · rename_i hv
      rw [if_neg hv] at h
      simp only [Option.map_eq_none_iff] at hn
      rw [List.map_cons, unbreve_none t h hn, unbreve_const c (by simpa using hv)]

theorem unbreve_untone (t : Str) (h : breveFirst t = true) : untone (t.map unbreve) = untone t := by
  unfold untone
  rcases unbreve_withTone t h with h1 | ⟨_, _, h3⟩
  · rw [h1]
    cases e : Tone.withTone t Tone.noTone with
    | none => simp only [Option.getD_none, unbreve_none t h e]
    | some s => rfl
  · rw [h3]

theorem unbreve_toASCII : ∀ t, breveFirst t = true → Tone.toASCIIGo Tone.noTone (t.map unbreve) = Tone.toASCIIGo Tone.noTone t
  | [], _ => rfl
  | c :: t, h => by
    simp only [breveFirst] at h
    simp only [List.map_cons, Tone.toASCIIGo]
    by_cases hv : Tone.isVowel c = true
    · rw [if_pos hv] at h
      rw [unbreve_all t h]
      exact unbreve_ind (Q := fun c c' => (if c' = 'ı' then 'i' :: Tone.toASCIIGo Tone.noTone t
          else if Tone.noTone ≠ Tone.noTone then
            if !Tone.isVowel c' && c' != 'q' then Tone.noTone :: c' :: Tone.toASCIIGo Tone.noTone t else c' :: Tone.toASCIIGo Tone.noTone t
          else if Tone.toneTab c' ≠ Tone.noTone then Tone.asciiTab c' :: Tone.toASCIIGo (Tone.toneTab c') t
          else c' :: Tone.toASCIIGo Tone.noTone t) = (if c = 'ı' then 'i' :: Tone.toASCIIGo Tone.noTone t
          else if Tone.noTone ≠ Tone.noTone then
            if !Tone.isVowel c && c != 'q' then Tone.noTone :: c :: Tone.toASCIIGo Tone.noTone t else c :: Tone.toASCIIGo Tone.noTone t
          else if Tone.toneTab c ≠ Tone.noTone then Tone.asciiTab c :: Tone.toASCIIGo (Tone.toneTab c) t
          else c :: Tone.toASCIIGo Tone.noTone t))
        (by
          have key : ∀ e ∈ softBreves, e.1 ≠ 'ı' ∧ e.2 ≠ 'ı' ∧ Tone.toneTab e.1 = Tone.toneTab e.2 ∧ Tone.toneTab e.1 ≠ Tone.noTone ∧
            Tone.asciiTab e.1 = Tone.asciiTab e.2 := by decide +kernel
          intro e he
          obtain ⟨k1, k2, k3, k4, k5⟩ := key e he
          rw [if_neg k1, if_neg k2, ← k3, if_pos k4, if_pos k4, k5]
          simp only [ne_eq, not_true_eq_false, if_false]) (fun _ => rfl) c
    · rw [if_neg hv] at h
      rw [unbreve_const c (by simpa using hv), unbreve_toASCII t h]
      have ht : ¬ Tone.toneTab c ≠ Tone.noTone := fun h => hv (toneTab_vowel c h).1
      simp [ht]

theorem unbreve_o (c : Char) : ((oPairs Tone.diacritic).find? fun p => p.1 = unbreve c).isSome =
    ((oPairs Tone.diacritic).find? fun p => p.1 = c).isSome :=
  unbreve_ind (Q := fun c c' => ((oPairs Tone.diacritic).find? fun p => p.1 = c').isSome =
    ((oPairs Tone.diacritic).find? fun p => p.1 = c).isSome) (by decide +kernel) (fun _ => rfl) c

theorem unbreve_d (c : Char) : unbreve c = 'd' ↔ c = 'd' :=
  unbreve_ind (Q := fun c c' => c' = 'd' ↔ c = 'd') (by decide +kernel) (fun _ => .rfl) c

theorem unbreve_var (t : Str) (h : breveFirst t = true) : (splitVar U (t.map unbreve)).map (·.2) = (splitVar U t).map (·.2) := by
  match t, h with
  | [], _ => rfl
  | [c], h =>
    have : ∀ c, splitVar U [c] = none := by intro c; unfold splitVar splitVarIn; split <;> simp_all
    simp only [List.map_cons, List.map_nil, this]
  | d :: o :: rest, h =>
    by_cases hd : d = 'd'
    · subst hd
      have hs := unbreve_o o
      simp only [splitVar, splitVarIn, List.map_cons, (unbreve_d 'd').2 rfl]
      have hr : ((oPairs Tone.diacritic).find? fun p => p.1 = o).isSome = true → rest.map unbreve = rest := by
        intro ho
        rw [o_iff] at ho
        have hv : ∀ o ∈ tonedO, Tone.isVowel o = true := by decide +kernel
        simp only [breveFirst, show Tone.isVowel 'd' = false by decide +kernel, hv o ho, if_true, Bool.false_eq_true, if_false] at h
        exact unbreve_all _ h
      revert hs hr
      cases (oPairs Tone.diacritic).find? fun p => p.1 = unbreve o <;> cases (oPairs Tone.diacritic).find? fun p => p.1 = o <;>
        intro hs hr <;> simp only [Option.isSome, Bool.true_eq_false, Bool.false_eq_true] at hs hr ⊢
      rw [hr trivial]
      cases rest with
      | nil => rfl
      | cons a r => simp only []; split <;> rfl
    · have h1 : ∀ (d : Char) (l : Str), d ≠ 'd' → splitVar U (d :: l) = none := by
        intro d l hd
        unfold splitVar splitVarIn
        split
        · rename_i e; exact absurd (List.cons.inj e).1 hd
        · rfl
      rw [List.map_cons, h1 _ _ hd, h1 _ _ (fun e => hd ((unbreve_d d).1 e))]

/-- The interpreter does not tell the breve from the caron. -/
theorem unbreve_word (t : Str) (h : breveFirst t = true) : SameWord U t (t.map unbreve) where
  text := fun b => by rw [hasText, hasText, unbreve_untone t h]
  var := unbreve_var t h
  hoa := by rw [isHoa, isHoa, unbreve_untone t h]
  pred := by unfold wordPred Tone.toASCII; rw [unbreve_toASCII t h]

/-! ### The standard spelling of words -/

theorem fold_out {L : List (Char × Char)} {c : Char} (h : c ∉ L.map (·.1)) : foldBy L c = c := by
  unfold foldBy
  have : L.lookup c = none := by
    rw [List.lookup_eq_none_iff]
    intro p hp
    cases e : c == p.1 with
    | false => simpa using e
    | true =>
      rw [beq_iff_eq.1 e] at h
      exact absurd (List.mem_map_of_mem hp) h
  rw [this]; rfl

theorem unbreve_capital (c : Char) : unbreve (foldBy capitalPairs c) = foldBy spellPairs c := by
  by_cases h : c ∈ (spellPairs ++ capitalPairs ++ softBreves).map (·.1)
  · have key : ∀ c ∈ (spellPairs ++ capitalPairs ++ softBreves).map (·.1), unbreve (foldBy capitalPairs c) = foldBy spellPairs c := by
      decide +kernel
    exact key c h
  · simp only [List.map_append, List.mem_append, not_or] at h
    rw [fold_out h.1.1, fold_out h.1.2, unbreve, fold_out h.2]

/-- The standard spelling of a word, where it does not matter how it is written. -/
def standard (t : Str) : Str := if CaseFree t ∧ QEnds t ∧ breveFirst (t.map soft) = true then (t.map soft).map unbreve else t

theorem standard_same (hU : CaseOk U) (t : Str) : SameWord U t (standard t) := by
  unfold standard
  split
  · rename_i h
    have h1 := soft_word hU t h.1 h.2.1
    have h2 := unbreve_word (U := U) _ h.2.2
    exact ⟨fun b => (h2.text b).trans (h1.text b), h2.var.trans h1.var, h2.hoa.trans h1.hoa, h2.pred.trans h1.pred⟩
  · exact ⟨fun _ => rfl, rfl, rfl, rfl⟩

theorem standard_map {t : Str} (h : 'i' ∉ t) : (t.map soft).map unbreve = t.map (foldBy spellPairs) := by
  rw [soft_map h, List.map_map]
  exact List.map_congr_left fun c _ => unbreve_capital c

/-- Only the first vowel has a caron. -/
def caronFirst : Str → Bool
  | [] => true
  | c :: t => if Tone.isVowel c then t.all fun c => !"ǎěǐǒǔ".toList.contains c else caronFirst t

theorem caron_soft (c : Char) (h : ¬ foldBy spellPairs c ∈ "ǎěǐǒǔ".toList) : unbreve (soft c) = soft c := by
  by_cases hc : c = 'i'
  · subst hc; decide +kernel
  · rw [soft, if_neg hc, unbreve_capital]
    by_cases h' : c ∈ (spellPairs ++ capitalPairs).map (·.1)
    · have key : ∀ c ∈ (spellPairs ++ capitalPairs).map (·.1), foldBy spellPairs c ∉ "ǎěǐǒǔ".toList → c ≠ 'i' →
          foldBy spellPairs c = foldBy capitalPairs c := by decide +kernel
      exact key c h' h hc
    · simp only [List.map_append, List.mem_append, not_or] at h'
      rw [fold_out h'.1, fold_out h'.2]

theorem caron_breve : ∀ t : Str, caronFirst (t.map (foldBy spellPairs)) = true → breveFirst (t.map soft) = true
  | [], _ => rfl
  | c :: t, h => by
    simp only [List.map_cons, caronFirst, breveFirst, spell_vowel, soft_vowel] at h ⊢
    split
    · rename_i hv
      rw [if_pos hv] at h
      simp only [List.all_map, List.all_eq_true, Function.comp_apply, Bool.not_eq_true', List.contains_eq_mem,
        decide_eq_false_iff_not, decide_eq_true_eq] at h ⊢
      exact fun x hx => caron_soft x (h x hx)
    · rename_i hv
      rw [if_neg hv] at h
      exact caron_breve t h

theorem caronFirst_append : ∀ a b : Str, caronFirst a = true → a.any Tone.isVowel = true →
    (b.all fun c => !"ǎěǐǒǔ".toList.contains c) = true → caronFirst (a ++ b) = true
  | [], _, _, h, _ => by cases h
  | c :: a, b, h, hv, hb => by
    simp only [List.cons_append, caronFirst] at h ⊢
    split
    · rename_i hc
      rw [if_pos hc] at h
      rw [List.all_append, h, hb]; rfl
    · rename_i hc
      rw [if_neg hc] at h
      refine caronFirst_append a b h ?_ hb
      simpa [hc] using hv

theorem syllable_caron {τ : WTone} {s : Str} (h : Syllable τ s) : caronFirst (s.map (foldBy spellPairs)) = true ∧
    (s.map (foldBy spellPairs)).any Tone.isVowel = true ∧
    (τ = .macron → ((s.map (foldBy spellPairs)).all fun c => !"ǎěǐǒǔ".toList.contains c) = true) := by
  obtain ⟨o, ho, r, hr, h⟩ := h
  rw [h]
  have key : ∀ τ ∈ [WTone.plain, .macron, .acute, .caron, .hook, .circumflex, .grave, .tilde], ∀ o ∈ onsets,
      ∀ r ∈ rimes, caronFirst (τ.syllable o r) = true ∧ (τ.syllable o r).any Tone.isVowel = true ∧
        (τ = .macron → ((τ.syllable o r).all fun c => !"ǎěǐǒǔ".toList.contains c) = true) := by
    decide +kernel
  exact key τ (by cases τ <;> decide) o ho r hr

theorem macrons_caron {s : Str} (h : Macrons s) : ((s.map (foldBy spellPairs)).all fun c => !"ǎěǐǒǔ".toList.contains c) = true := by
  induction h with
  | nil => rfl
  | cons ha _ ih => rw [List.map_append, List.all_append, (syllable_caron ha).2.2 rfl, ih]; rfl

theorem noBreve_first (s : Str) (h : ∀ c ∈ s, foldBy spellPairs c ∉ "ǎěǐǒǔ".toList) : caronFirst (s.map (foldBy spellPairs)) = true := by
  induction s with
  | nil => rfl
  | cons c t ih =>
    simp only [List.map_cons, caronFirst]
    split
    · simp only [List.all_map, List.all_eq_true, Function.comp_apply, Bool.not_eq_true', List.contains_eq_mem,
        decide_eq_false_iff_not]
      exact fun x hx => h x (List.mem_cons_of_mem _ hx)
    · exact ih fun x hx => h x (List.mem_cons_of_mem _ hx)

/-- In the words of a parsed text only the first vowel can have a breve. -/
theorem parsed_breve (hP : LettersNotPunct U) {b : Peg.Bytes} {cs : List Call} {n : AST.Node}
    (hd : Out.text n ∈ calls U b cs newParser) : ∀ t ∈ words n, breveFirst (t.t.map soft) = true := by
  intro t ht
  apply caron_breve
  rcases C60_words cs n hd t ht with ⟨τ, a, b, h1, h2, h3⟩ | h
  · rw [h1, List.map_append]
    exact caronFirst_append _ _ (syllable_caron h2).1 (syllable_caron h2).2.1 (macrons_caron h3)
  · refine noBreve_first _ fun c hc hm => ?_
    have key : ∀ c, foldBy spellPairs c ∈ "ǎěǐǒǔ".toList → ∃ e ∈ spellPairs, c = e.1 ∨ c = e.2 := by
      intro c hm
      by_cases h' : c ∈ spellPairs.map (·.1)
      · obtain ⟨e, he, rfl⟩ := List.mem_map.1 h'
        exact ⟨e, he, .inl rfl⟩
      · rw [fold_out h'] at hm
        have : ∀ c ∈ "ǎěǐǒǔ".toList, ∃ e ∈ spellPairs, c = e.1 ∨ c = e.2 := by decide +kernel
        exact this c hm
    have key2 : ∀ c, foldBy spellPairs c ∈ "ǎěǐǒǔ".toList → c ∉ "\t\n\r .,:!?".toList := by
      intro c hm hb
      have : ∀ c ∈ "\t\n\r .,:!?".toList, foldBy spellPairs c ∉ "ǎěǐǒǔ".toList := by decide +kernel
      exact this c hb hm
    obtain ⟨e, he, h1⟩ := key c hm
    rcases h _ hc with h2 | h2
    · exact key2 c hm h2
    · rcases h1 with rfl | rfl
      · rw [(hP e he).1] at h2; cases h2
      · rw [(hP e he).2] at h2; cases h2

/-! ### Texts -/

variable {is : List Parse.Item} {ws ws' : List Str}

/-- The interpretation of a parsed text without quotes depends only on the standard spelling of its words
and on which words are the same word. -/
theorem interpret_spelling (hU : CaseOk U) (hP : LettersNotPunct U) {b : Peg.Bytes} {cs : List Call} {lead : Option AST.Node}
    {d : List AST.Node} (hd : Out.text (.text lead d) ∈ calls U b cs newParser)
    (hc : ∀ t ∈ words (.text lead d), CaseFree t.t) (hq : allN notQuote (.text lead d) = true) {φ : Nat → Nat}
    (hi : ∀ p q, φ p = φ q → p = q) (h0 : φ 0 = 0) (k : Nat) :
    discourse U (fns U k) (respellL (List.map (foldBy spellPairs)) φ d) = discourse U (fns U k) d := by
  have H : Re U standard φ := ⟨standard_same hU, by decide +kernel, hi, h0⟩
  have hw := C51_well_sorted hU.ok cs _ hd
  have hi : ∀ t ∈ words (.text lead d), 'i' ∉ t.t := by
    intro t ht
    obtain ⟨_, rs, _, hr, _⟩ := C23_normalised hU.ok cs _ hd t ht
    exact renders_no_i hr
  have hQ := parsed_q hP hd
  have hB := parsed_breve hP hd
  simp only [Parse.ws, wsIn, allN, words, Bool.and_eq_true, List.mem_append] at hw hq hi hc hQ hB
  have := discourse_re H (fns_re H k) d
  rw [reL_eq d _ hw.2.2 hq.2.2 (f := List.map (foldBy spellPairs))] at this
  · exact this
  · intro t ht
    unfold standard
    rw [if_pos ⟨hc t (.inr ht), hQ t (.inr ht), hB t (.inr ht)⟩, standard_map (hi t (.inr ht))]

/-- Trees with the same standard spelling mean the same. -/
theorem same_meaning_free (hU : CaseOk U) (hP : LettersNotPunct U) {b b' : Peg.Bytes} {cs cs' : List Call}
    {lead lead' : Option AST.Node} {d d' : List AST.Node} (hd : Out.text (.text lead d) ∈ calls U b cs newParser)
    (hd' : Out.text (.text lead' d') ∈ calls U b' cs' newParser)
    (hc : ∀ t ∈ words (.text lead d), CaseFree t.t) (hc' : ∀ t ∈ words (.text lead' d'), CaseFree t.t)
    (hq : allN notQuote (.text lead d) = true) (hq' : allN notQuote (.text lead' d') = true) {φ φ' : Nat → Nat}
    (hi : ∀ p q, φ p = φ q → p = q) (hi' : ∀ p q, φ' p = φ' q → p = q) (h0 : φ 0 = 0) (h0' : φ' 0 = 0)
    (h : respell (List.map (foldBy spellPairs)) φ (.text lead d) = respell (List.map (foldBy spellPairs)) φ' (.text lead' d')) (k : Nat) :
    interpret U k d = interpret U k d' := by
  have h1 := interpret_spelling hU hP hd hc hq hi h0 k
  have h2 := interpret_spelling hU hP hd' hc' hq' hi' h0' k
  simp only [respell, Node.text.injEq] at h
  rw [h.2, h2] at h1
  unfold interpret
  rw [h1]

/-! ### Trees -/

section
variable {f : Str → Str} {φ : Nat → Nat}

mutual
theorem quoteN : ∀ n : AST.Node, allN notQuote (respell f φ n) = allN notQuote n
  | .text l d => by simp only [respell, allN, notQuote, quoteO l, quoteL d]
  | .discourse d => by simp only [respell, allN, notQuote, quoteL d]
  | .sentence je st da => by simp only [respell, allN, notQuote, quoteWO je, quoteN st, quoteWO da]
  | .cop k to0 to1 ru l r => by
    simp only [respell, allN, notQuote, quoteWO to0, quoteWO to1, quoteW ru, quoteN l, quoteN r]
  | .prenex ts bi => by simp only [respell, allN, notQuote, quoteL ts, quoteW bi]
  | .prenexStmt ts bi st => by simp only [respell, allN, notQuote, quoteL ts, quoteW bi, quoteN st]
  | .predication k p ts na => by simp only [respell, allN, notQuote, quoteN p, quoteTO ts, quoteWO na]
  | .prefixed mu p => by simp only [respell, allN, notQuote, quoteW mu, quoteN p]
  | .serial l r => by simp only [respell, allN, notQuote, quoteN l, quoteN r]
  | .word k w => by simp only [respell, allN, notQuote, quoteW w]
  | .mi m ga ph => by simp only [respell, allN, notQuote, Bool.false_and]
  | .po m ga a => by simp only [respell, allN, notQuote, quoteW m, quoteWO ga, quoteN a]
  | .mo m teo d => by simp only [respell, allN, notQuote, Bool.false_and]
  | .lu k l st => by simp only [respell, allN, notQuote, quoteW l, quoteN st]
  | .linked go a => by simp only [respell, allN, notQuote, quoteW go, quoteN a]
  | .terms ts => by simp only [respell, allN, notQuote, quoteL ts]
  | .predArg i focus quant p rel => by
    simp only [respell, allN, notQuote, quoteWO focus, quoteWO quant, quoteN p, quoteO rel]
  | .predAdverb p => by simp only [respell, allN, notQuote, quoteN p]
  | .prep p a => by simp only [respell, allN, notQuote, quoteN p, quoteN a]
  | .paren kio ki d => by simp only [respell, allN, notQuote, quoteW kio, quoteW ki, quoteL d]
  | .incidental ju st => by simp only [respell, allN, notQuote, quoteW ju, quoteN st]
  | .vocative hu a => by simp only [respell, allN, notQuote, quoteW hu, quoteN a]
theorem quoteW : ∀ w : Word, allNW notQuote (respellW f φ w) = allNW notQuote w
  | .mk t s e m => by simp only [respellW, allNW, quoteO m]
theorem quoteO : ∀ o : Option AST.Node, allNO notQuote (respellO f φ o) = allNO notQuote o
  | none => rfl
  | some n => by simp only [respellO, allNO, quoteN n]
theorem quoteWO : ∀ o : Option Word, allNWO notQuote (respellWO f φ o) = allNWO notQuote o
  | none => rfl
  | some w => by simp only [respellWO, allNWO, quoteW w]
theorem quoteTO : ∀ o : Option (List AST.Node), allNTO notQuote (respellTO f φ o) = allNTO notQuote o
  | none => rfl
  | some l => by simp only [respellTO, allNTO, quoteL l]
theorem quoteL : ∀ l : List AST.Node, allNL notQuote (respellL f φ l) = allNL notQuote l
  | [] => rfl
  | n :: l => by simp only [respellL, allNL, quoteN n, quoteL l]
end

end

theorem parsed_text {hU : U.Ok} {b : Peg.Bytes} {cs : List Call} {n : AST.Node} (h : Out.text n ∈ calls U b cs newParser) :
    ∃ lead d, n = .text lead d := by
  have hw := C51_well_sorted hU cs _ h
  cases n with
  | text lead d => exact ⟨lead, d, rfl⟩
  | _ => simp [Parse.ws, accepts, tag] at hw

theorem std_small (ws : List Str) : Small (Notes.std ws).flatten := by
  intro c hc _
  rw [Notes.std_flatten] at hc
  obtain ⟨c, _, rfl⟩ := List.mem_map.1 hc
  exact Tones.fold_fold c

/-- The syntax tree of the text in standard spelling. -/
theorem std_tree (hU : U.Ok) (hL : LettersNotPunct U) {cs : List Call} {lead : Option AST.Node}
    {d : List AST.Node} (hd : Out.text (.text lead d) ∈ calls U (utf8 ws.flatten) cs newParser) :
    ∃ lead' d', Out.text (.text lead' d') ∈ calls U (utf8 (Notes.std ws).flatten) [.text] newParser ∧
      respell (List.map (foldBy spellPairs)) (marks ws.flatten) (.text lead d) =
        respell (List.map (foldBy spellPairs)) (marks (Notes.std ws).flatten) (.text lead' d') := by
  have h := Notes.std_same ws
  have hl : ws.flatten.length = (Notes.std ws).flatten.length := by rw [Notes.std_flatten, List.length_map]
  obtain ⟨q, l, h1⟩ := text_call hd
  have hf : ∃ n, fresh U (utf8 ws.flatten) .text = .text n := by
    rw [C20_memo_transparent] at hd
    obtain ⟨c, _, hc⟩ := List.mem_map.1 hd
    cases c with
    | text => exact ⟨_, hc⟩
    | tree => simp only [fresh] at hc; split at hc <;> first | cases hc | (split at hc <;> cases hc)
    | word o => simp only [fresh] at hc; repeat' split at hc <;> try cases hc
  obtain ⟨n, hn⟩ := hf
  have hsp := Notes.std_parse hL ws
  rw [hn] at hsp
  generalize hb : fresh U (utf8 (Notes.std ws).flatten) .text = o at hsp
  cases hsp with
  | @text _ n' _ =>
    have hd' : Out.text n' ∈ calls U (utf8 (Notes.std ws).flatten) [.text] newParser := by
      rw [C20_memo_transparent]; simp [hb]
    obtain ⟨lead', d', rfl⟩ := parsed_text (hU := hU) hd'
    refine ⟨lead', d', hd', ?_⟩
    obtain ⟨q', l', h2⟩ := text_call hd'
    have hv := ev_same spellPairs_ok hL h (act_sim spellPairs_ok fun _ _ => marks_same hl) rFull
      (p := 0) (p' := 0) ⟨0, Nat.zero_le _, rfl, rfl⟩ (Nat.zero_le _) (Nat.zero_le _)
    rw [h1, h2] at hv
    cases hv with
    | ok _ hx => simpa [respellV] using hx.1

/-- In small letters case does not matter. -/
theorem small_free (hU : U.Ok) {s : Str} (hs : Small s) {cs : List Call} {n : AST.Node}
    (h : Out.text n ∈ calls U (utf8 s) cs newParser) : ∀ t ∈ words n, CaseFree t.t := by
  intro t ht _
  have hw := words_small hU hs h t ht
  have key : ∀ c, foldBy spellPairs c ≠ c → c ∉ t.t := by
    intro c hc hm
    refine hc ?_
    have := List.map_eq_iff.1 hw
    rw [List.mem_iff_getElem?] at hm
    obtain ⟨i, hi⟩ := hm
    have := this i
    rw [hi] at this
    simpa using this.symm
  exact ⟨key 'D' (by decide +kernel), key 'I' (by decide +kernel)⟩

/-- C62 with capitals and breves: how tones are written does not change what a text without quotes means. Take
two texts that write the same syllables with the same tones in any of the ways of C61, with or without capitals, with the
breve or the caron, both parsed, without quotes, in which variables are written without the capitals D and
I. Then `Interpret` does the same on both.

What is missing: the syllables for which C61 is violated; see `C62_refuted` for quotes, and C59 for capitals. -/
theorem C62_letters_partial (hU : CaseOk U) (hP : Plain U) (hL : LettersNotPunct U) (hg : ∀ i ∈ is, i.Good U)
    (h : Written is ws) (h' : Written is ws') (cs cs' : List Call) (lead lead' : Option AST.Node)
    (d d' : List AST.Node) (hd : Out.text (.text lead d) ∈ calls U (utf8 ws.flatten) cs newParser)
    (hd' : Out.text (.text lead' d') ∈ calls U (utf8 ws'.flatten) cs' newParser)
    (hc : ∀ t ∈ words (.text lead d), CaseFree t.t) (hc' : ∀ t ∈ words (.text lead' d'), CaseFree t.t)
    (hq : allN notQuote (.text lead d) = true) (hq' : allN notQuote (.text lead' d') = true) (k : Nat) :
    interpret U k d = interpret U k d' := by
  obtain ⟨l1, d1, h1, e1⟩ := std_tree hU.ok hL hd
  obtain ⟨l2, d2, h2, e2⟩ := std_tree hU.ok hL hd'
  have q1 : allN notQuote (.text l1 d1) = true := by
    rw [← quoteN (f := List.map (foldBy spellPairs)) (φ := marks (Notes.std ws).flatten), ← e1, quoteN]; exact hq
  have q2 : allN notQuote (.text l2 d2) = true := by
    rw [← quoteN (f := List.map (foldBy spellPairs)) (φ := marks (Notes.std ws').flatten), ← e2, quoteN]; exact hq'
  rw [same_meaning_free hU hL hd h1 hc (small_free hU.ok (std_small ws) h1) hq q1 (marks_inj _) (marks_inj _)
      (marks_off _ 0 (Nat.zero_le _)) (marks_off _ 0 (Nat.zero_le _)) e1,
    same_meaning_free hU hL hd' h2 hc' (small_free hU.ok (std_small ws') h2) hq' q2 (marks_inj _) (marks_inj _)
      (marks_off _ 0 (Nat.zero_le _)) (marks_off _ 0 (Nat.zero_le _)) e2]
  exact exact_meaning hU.ok hP hL hg h.exact h'.exact (std_small ws) (std_small ws') h1 h2 k

/-! ### Examples -/

/-- "Mải jí rǔa." in two ways. -/
def breveItems : List Parse.Item :=
  [.syl .hook "m".toList "aı".toList, .sep ' ', .syl .acute "j".toList "ı".toList, .sep ' ', .syl .caron "r".toList "ua".toList, .sep '.']
@[inherit_doc breveItems]
def breveLeft : List Str := ["Mải", " ", "jí", " ", "rŭa", "."].map (·.toList)
@[inherit_doc breveItems]
def breveRight : List Str := ["mai?", " ", "JI/", " ", "RuaV", "."].map (·.toList)

theorem breve_written : Written breveItems breveLeft ∧ Written breveItems breveRight := by
  constructor <;>
  · repeat' apply Written.one
    all_goals first | exact Written.nil | decide +kernel
theorem breve_good : ∀ i ∈ breveItems, i.Good caseUni := by
  simp only [breveItems, List.forall_mem_cons, List.not_mem_nil, false_implies, implies_true, and_true, Item.Good, Separator]
  refine ⟨?_, ?_, ?_, ?_, ?_, ?_⟩ <;> decide +kernel

example : ∃ lead d lead' d', Out.text (.text lead d) ∈ calls caseUni (utf8 breveLeft.flatten) [.text] newParser ∧
    Out.text (.text lead' d') ∈ calls caseUni (utf8 breveRight.flatten) [.text] newParser ∧
    ∀ k, interpret caseUni k d = interpret caseUni k d' := by
  obtain ⟨lead, d, hd, hc, hq⟩ := outCaseFree_ok (l := calls caseUni (utf8 breveLeft.flatten) [.text] newParser) (by decide +kernel)
  obtain ⟨lead', d', hd', hc', hq'⟩ := outCaseFree_ok (l := calls caseUni (utf8 breveRight.flatten) [.text] newParser) (by decide +kernel)
  exact ⟨lead, d, lead', d', hd, hd', fun k => C62_letters_partial caseUni_ok (by unfold Plain; decide) letters_case breve_good
    breve_written.1 breve_written.2 _ _ _ _ _ _ hd hd' hc hc' hq hq' k⟩

/-- Both mean the same. -/
example : (calls caseUni (utf8 breveLeft.flatten) [.text] newParser).map (outPrint caseUni 100) =
      [some "[ιJ : ji(J) ∧ rua(J)] mai(J).".toList] ∧
    (calls caseUni (utf8 breveRight.flatten) [.text] newParser).map (outPrint caseUni 100) =
      [some "[ιJ : ji(J) ∧ rua(J)] mai(J).".toList] := by decide +kernel

/-! ### Quotes -/

/-- A quote of a word with a caron. -/
def caronItems : List Parse.Item :=
  [.syl .hook "k".toList "uq".toList, .sep ' ', .syl .acute "j".toList "ı".toList, .sep ' ', .syl .acute "m".toList "o".toList, .sep ' ',
    .syl .caron "j".toList "aı".toList, .sep ' ', .syl .plain "t".toList "eo".toList, .sep '.']
@[inherit_doc caronItems]
def caronLeft : List Str := ["kủq", " ", "jí", " ", "mó", " ", "jăi", " ", "teo", "."].map (·.toList)
@[inherit_doc caronItems]
def caronRight : List Str := ["kủq", " ", "jí", " ", "mó", " ", "jaiV", " ", "teo", "."].map (·.toList)

/-- C62 is refuted for quotes: a breve that is quoted stays a breve, and the tone that is written with an ASCII letter
becomes a caron. Both texts write the same syllables with the same tones, and mean different things. -/
theorem C62_refuted : Written caronItems caronLeft ∧ Written caronItems caronRight ∧ (∀ i ∈ caronItems, i.Good asciiUni) ∧
    (calls asciiUni (utf8 caronLeft.flatten) [.text] newParser).map (outPrint asciiUni 100) =
      [some "[ιJ : ji(J)] kuq(J, «jăı»).".toList] ∧
    (calls asciiUni (utf8 caronRight.flatten) [.text] newParser).map (outPrint asciiUni 100) =
      [some "[ιJ : ji(J)] kuq(J, «jǎı»).".toList] := by
  refine ⟨?_, ?_, ?_, by decide +kernel, by decide +kernel⟩
  · repeat' apply Written.one
    all_goals first | exact Written.nil | decide +kernel
  · repeat' apply Written.one
    all_goals first | exact Written.nil | decide +kernel
  · simp only [caronItems, List.forall_mem_cons, List.not_mem_nil, false_implies, implies_true, and_true, Item.Good, Separator]
    refine ⟨?_, ?_, ?_, ?_, ?_, ?_, ?_, ?_, ?_, ?_⟩ <;> decide +kernel

end Verif.Logic
