/- Property theorems for package tone: C01-C07. -/
import Verif.Tone.Lemmas
import Mathlib.Data.List.Forall2

namespace Verif.Tone
open Spec

/-! ### C01 -/

/-- C01: `ToASCII` of the Unicode spelling of any Toaq word is its ASCII spelling. -/
theorem C01_toASCII_word (w : Word) (hw : Word.ok w) : toASCII (Word.render w) = Word.spell w := by
  have := go_word w hw noTone
  simpa [toASCII] using this

/-- C01: … which is pure ASCII. -/
theorem C01_toASCII_word_ascii (w : Word) (hw : Word.ok w) :
    ∀ c ∈ toASCII (Word.render w), isASCII c := by
  rw [C01_toASCII_word w hw]
  intro c hc
  simp only [Word.spell, List.mem_flatMap, Syll.spell, List.mem_append] at hc
  obtain ⟨s, hs, h | h⟩ := hc
  · exact letters_ascii s (hw s hs) c h
  · exact mark_ascii _ c h

example : Word.ok exWord ∧ toASCII (Word.render exWord) = "joq/shai-Hao".toList :=
  ⟨exWord_ok, by decide +kernel⟩

/-- The domain restriction is needed: a capital Q, which the parser accepts at the end of a
syllable (toaq.peggy:536), is not recognised as part of the syllable, and the marker is misplaced. -/
theorem C01_capital_Q_misplaces_marker : toASCII "jóQ".toList = "jo/Q".toList := by decide +kernel

/-! ### C02 -/

/-- C02: ASCII strings are unchanged. -/
theorem C02_toASCII_ascii (s : Str) (h : ∀ c ∈ s, isASCII c) : toASCII s = s := go_ascii s h

/-- C02: converting a converted word changes nothing. -/
theorem C02_toASCII_idem (w : Word) (hw : Word.ok w) :
    toASCII (toASCII (Word.render w)) = toASCII (Word.render w) :=
  C02_toASCII_ascii _ (C01_toASCII_word_ascii w hw)

example : ∀ c ∈ "joq/ Shai-".toList, isASCII c := by unfold isASCII; decide

/-- For arbitrary strings idempotence fails: two toned vowels in one syllable. -/
theorem C02_not_idem_in_general :
    toASCII (toASCII "áé".toList) ≠ toASCII "áé".toList := by decide +kernel

/-! ### C03 -/

/-- C03: `Strip` never returns a tone marker, for any input. -/
theorem C03_strip_no_marker (s : Str) : ∀ c ∈ strip s, c ∉ toneNameRunes := by
  intro c hc
  simp only [strip, List.mem_filter] at hc
  simpa using hc.2

/-- C03: `Strip` of a word is its letters. -/
theorem C03_strip_word (w : Word) (hw : Word.ok w) : strip (Word.render w) = Word.letters w := by
  rw [strip, C01_toASCII_word w hw]
  induction w with
  | nil => rfl
  | cons s w ih =>
    have hs := hw s (by simp)
    have := ih (fun s hs => hw s (by simp [hs]))
    simp only [Word.spell, Word.letters, List.flatMap_cons, List.filter_append] at this ⊢
    rw [this, Syll.spell, List.filter_append, filter_letters s hs, filter_mark]
    simp

/-- C03: words that differ only in their tones have the same `Strip`. -/
theorem C03_strip_tone_blind (w w' : Word) (hw : Word.ok w) (hw' : Word.ok w')
    (h : Word.letters w = Word.letters w') : strip (Word.render w) = strip (Word.render w') := by
  rw [C03_strip_word w hw, C03_strip_word w' hw', h]

/-- C03: `Strip` is idempotent on words. -/
theorem C03_strip_idem (w : Word) (hw : Word.ok w) :
    strip (strip (Word.render w)) = strip (Word.render w) := by
  rw [C03_strip_word w hw]
  have h1 : ∀ c ∈ Word.letters w, isASCII c := by
    intro c hc
    simp only [Word.letters, List.mem_flatMap] at hc
    obtain ⟨s, hs, h⟩ := hc
    exact letters_ascii s (hw s hs) c h
  rw [strip, C02_toASCII_ascii _ h1, List.filter_eq_self]
  intro c hc
  simp only [Word.letters, List.mem_flatMap] at hc
  obtain ⟨s, hs, h⟩ := hc
  simpa using letters_no_tone s (hw s hs) c h

example : strip (Word.render exWord) = "joqshaiHao".toList := by decide +kernel
example : Word.letters exWord = Word.letters (exWord.map fun s => { s with tone := .low }) := by
  decide +kernel

/-! ### C04 -/

/-- The vowels as the documentation means them: a base letter with any of the eight tones. The
plain ASCII i counts as ı. -/
def specVowel (c : Char) : Prop := c = 'i' ∨ ∃ v t b, c = letter v t b

theorem isVowel_iff (c : Char) : isVowel c = true ↔ specVowel c := by
  constructor
  · intro h
    have h : c ∈ vowelsOf diacritic := by simpa [isVowel] using h
    have key : ∀ c ∈ vowelsOf diacritic, c = 'i' ∨ ∃ v ∈ allV, ∃ t ∈ allT, ∃ b ∈ [true, false], c = letter v t b := by
      decide +kernel
    rcases key c h with rfl | ⟨v, -, t, -, b, -, h⟩
    · exact .inl rfl
    · exact .inr ⟨v, t, b, h⟩
  · rintro (rfl | ⟨v, t, b, rfl⟩)
    · decide +kernel
    · exact (letter_facts v (mem_allV v) t (mem_allT t) b (by cases b <;> decide)).2.1

theorem retone_i (t : T) : retone 'i' t.rune = some (letter .i t false) := by
  cases t <;> decide +kernel

/-- C04: `WithTone(s,t)` for a tone `t` replaces exactly the first vowel, by the same base letter
(same case) with tone `t`, and leaves all other runes alone. -/
theorem C04_withTone_first_vowel (pre post : Str) (v : V) (t0 : T) (b : Bool) (t : T)
    (hpre : ∀ c ∈ pre, ¬ specVowel c) :
    withTone (pre ++ letter v t0 b :: post) t.rune = some (pre ++ letter v t false :: post) := by
  induction pre with
  | nil =>
    simp only [List.nil_append, withTone]
    rw [(letter_facts v (mem_allV v) t0 (mem_allT t0) b (by cases b <;> decide)).2.1]
    simp [retone_facts v (mem_allV v) t0 (mem_allT t0) b (by cases b <;> decide) t (mem_allT t)]
  | cons c pre ih =>
    have h1 : isVowel c = false := by
      have := hpre c (by simp)
      rw [← isVowel_iff] at this; simpa using this
    simp [withTone, h1, ih (fun c hc => hpre c (by simp [hc]))]

/-- C04: the same when the first vowel is a dotted ASCII i. -/
theorem C04_withTone_first_i (pre post : Str) (t : T) (hpre : ∀ c ∈ pre, ¬ specVowel c) :
    withTone (pre ++ 'i' :: post) t.rune = some (pre ++ letter .i t false :: post) := by
  induction pre with
  | nil =>
    simp only [List.nil_append, withTone, (isVowel_iff 'i').2 (.inl rfl), if_true, retone_i t]
    rfl
  | cons c pre ih =>
    have h1 : isVowel c = false := by
      have := hpre c (by simp)
      rw [← isVowel_iff] at this; simpa using this
    simp [withTone, h1, ih (fun c hc => hpre c (by simp [hc]))]

/-- C04: a string without vowels is returned unchanged, whatever the tone argument. -/
theorem C04_withTone_no_vowel (s : Str) (t : Char) (h : ∀ c ∈ s, ¬ specVowel c) :
    withTone s t = some s := by
  induction s with
  | nil => rfl
  | cons c s ih =>
    have h1 : isVowel c = false := by
      have := h c (by simp)
      rw [← isVowel_iff] at this; simpa using this
    simp [withTone, h1, ih (fun c hc => h c (by simp [hc]))]

/-- Every string either has no vowel or splits at its first vowel: the three cases of C04 cover
all strings. -/
theorem first_vowel_cases (s : Str) : (∀ c ∈ s, ¬ specVowel c) ∨
    ∃ pre c post, s = pre ++ c :: post ∧ (∀ c ∈ pre, ¬ specVowel c) ∧
      (c = 'i' ∨ ∃ v t b, c = letter v t b) := by
  induction s with
  | nil => left; simp
  | cons c s ih =>
    by_cases hc : specVowel c
    · right; exact ⟨[], c, s, rfl, by simp, hc⟩
    · rcases ih with h | ⟨pre, c', post, rfl, h, h'⟩
      · left; intro d hd
        rcases List.mem_cons.1 hd with rfl | hd
        · exact hc
        · exact h d hd
      · right; refine ⟨c :: pre, c', post, rfl, ?_, h'⟩
        intro d hd
        rcases List.mem_cons.1 hd with rfl | hd
        · exact hc
        · exact h d hd

example : ∀ c ∈ "sh".toList, ¬ specVowel c := by
  intro c hc
  rw [← isVowel_iff]
  revert c; decide +kernel

/-! ### C05 -/

/-- C05: the last tone set wins, for all strings. -/
theorem C05_withTone_last_wins (s : Str) (t1 t2 : T) :
    (withTone s t1.rune).bind (fun s' => withTone s' t2.rune) = withTone s t2.rune := by
  rcases first_vowel_cases s with h | ⟨pre, c, post, rfl, hpre, rfl | ⟨v, t, b, rfl⟩⟩
  · rw [C04_withTone_no_vowel s _ h]; rfl
  · rw [C04_withTone_first_i _ _ _ hpre, C04_withTone_first_i _ _ _ hpre]
    exact C04_withTone_first_vowel pre post .i t1 false t2 hpre
  · rw [C04_withTone_first_vowel _ _ _ _ _ _ hpre, C04_withTone_first_vowel _ _ _ _ _ _ hpre]
    exact C04_withTone_first_vowel pre post v t1 false t2 hpre

/-- On words, `WithTone` sets the tone of the first syllable. -/
theorem C05_withTone_word (s : Syll) (w : Word) (hs : s.ok) (t : T) :
    withTone (Word.render (s :: w)) t.rune =
      some (Word.render ({ s with tone := t, alt := false } :: w)) := by
  have hpre : ∀ c ∈ s.onset, ¬ specVowel c := by
    intro c hc
    rw [← isVowel_iff, (consonant_facts c (hs.2 c hc)).2.1]; simp
  have := C04_withTone_first_vowel s.onset (s.rest.map V.plain ++ qStr s.q ++ Word.render w)
    s.v s.tone s.alt t hpre
  simpa [Word.render, Syll.render] using this

theorem find_letters (s : Syll) (hs : s.ok) (rest : Str) :
    (s.letters ++ rest).find? (fun r => toneNameRunes.contains r) =
      rest.find? (fun r => toneNameRunes.contains r) := by
  rw [List.find?_append]
  have : s.letters.find? (fun r => toneNameRunes.contains r) = none := by
    rw [List.find?_eq_none]
    intro c hc
    simpa using letters_no_tone s hs c hc
  rw [this]; rfl

/-- The first tone of a word that is not None. -/
def firstTone : Word → T
  | [] => .none
  | s :: w => if s.tone = .none then firstTone w else s.tone

/-- `Tone` returns the tone of the first *toned* syllable. -/
theorem C05_tone_word (w : Word) (hw : Word.ok w) : toneOf (Word.render w) = (firstTone w).rune := by
  rw [toneOf, C01_toASCII_word w hw]
  induction w with
  | nil => rfl
  | cons s w ih =>
    have hs := hw s (by simp)
    have ih := ih (fun s hs => hw s (by simp [hs]))
    have e : Word.spell (s :: w) = s.letters ++ (s.tone.mark ++ Word.spell w) := by
      simp [Word.spell, Syll.spell]
    rw [e, find_letters s hs, firstTone]
    by_cases h : s.tone = .none
    · rw [if_pos h, h, ← ih]; rfl
    · rw [if_neg h]
      generalize s.tone = t at h ⊢
      cases t <;> first | exact absurd rfl h | rfl

/-- C05: a tone that is set is read back. -/
theorem C05_tone_withTone (s : Syll) (w : Word) (hw : Word.ok (s :: w)) (t : T) (ht : t ≠ .none) :
    (withTone (Word.render (s :: w)) t.rune).map toneOf = some t.rune := by
  rw [C05_withTone_word s w (hw s (by simp))]
  have hok : Word.ok ({ s with tone := t, alt := false } :: w) := by
    intro s' hs'
    rcases List.mem_cons.1 hs' with rfl | h
    · exact hw s (by simp)
    · exact hw s' (by simp [h])
  simp [C05_tone_word _ hok, firstTone, ht]

example : Word.ok (exWord.head (by simp [exWord]) :: exWord.tail) := by
  simpa [exWord] using exWord_ok

/-- For None the read-back fails when a later syllable is toned: `Tone` does not return the tone of
the *first* syllable, contrary to its comment (tone.go:217). -/
theorem C05_tone_none_not_read_back :
    (withTone "jóqgāı".toList T.none.rune).map toneOf = some '-' := by decide +kernel

/-! ### C06 -/

/-- C06: `WithTone` panics exactly when the tone is unknown and there is a vowel. -/
theorem C06_withTone_panics_iff (s : Str) (t : Char) :
    withTone s t = none ↔ (∀ k : T, t ≠ k.rune) ∧ ∃ c ∈ s, specVowel c := by
  constructor
  · intro h
    constructor
    · rintro k rfl
      rcases first_vowel_cases s with h' | ⟨pre, c, post, rfl, hpre, rfl | ⟨v, t, b, rfl⟩⟩
      · rw [C04_withTone_no_vowel s _ h'] at h; cases h
      · rw [C04_withTone_first_i _ _ _ hpre] at h; cases h
      · rw [C04_withTone_first_vowel _ _ _ _ _ _ hpre] at h; cases h
    · by_cases hv : ∃ c ∈ s, specVowel c
      · exact hv
      · rw [C04_withTone_no_vowel s t (by simpa using hv)] at h; cases h
  · rintro ⟨ht, c, hc, hv⟩
    have hrow : diacriticRow t = [] := by
      have : diacritic.find? (fun e => e.1 = t) = none := by
        rw [List.find?_eq_none]
        intro e he
        have key : ∀ e ∈ diacritic, ∃ k ∈ allT, e.1 = k.rune := by decide +kernel
        obtain ⟨k, -, hk⟩ := key e he
        have := ht k
        simp only [hk, decide_eq_true_eq]
        exact fun h => this h.symm
      simp [diacriticRow, this]
    have hne : t ≠ noTone := ht .none
    have hret : ∀ r, retone r t = none := by
      intro r; simp [retone, hne, diacritic0, hrow]
    induction s with
    | nil => simp at hc
    | cons d s ih =>
      simp only [withTone]
      by_cases hd : isVowel d
      · simp [hd, hret]
      · rcases List.mem_cons.1 hc with rfl | hc
        · exact absurd ((isVowel_iff _).2 hv) hd
        · simp [hd, ih hc]

example : (∀ k : T, 'x' ≠ k.rune) ∧ ∃ c ∈ "ja".toList, specVowel c :=
  ⟨by intro k; cases k <;> decide, 'a', by decide, .inr ⟨.a, .none, false, rfl⟩⟩

/-! ### C07 -/

/-- `d'` lists the same map entries as `d` in another order, on both map levels. -/
def Reorder (d d' : DMap) : Prop :=
  ∃ e : DMap, List.Forall₂ (fun x y => x.1 = y.1 ∧ x.2.Perm y.2) d e ∧ e.Perm d'

theorem mem_reorder {d d' : DMap} (h : Reorder d d') (t : Char) (p : Char × List Char) :
    (∃ x ∈ d', x.1 = t ∧ p ∈ x.2) ↔ (∃ x ∈ d, x.1 = t ∧ p ∈ x.2) := by
  obtain ⟨e, he, hp⟩ := h
  have : (∃ x ∈ d', x.1 = t ∧ p ∈ x.2) ↔ (∃ x ∈ e, x.1 = t ∧ p ∈ x.2) := by
    simp [hp.mem_iff]
  rw [this]
  clear this hp
  induction he with
  | nil => simp
  | cons hxy _ ih => simp only [List.mem_cons, exists_eq_or_imp, ih, hxy.1, hxy.2.mem_iff]

theorem mem_toneInserts (d : DMap) (k v : Char) :
    (k, v) ∈ toneInserts d ↔ ∃ a us, (∃ x ∈ d, x.1 = v ∧ (a, us) ∈ x.2) ∧ k ∈ us := by
  simp only [toneInserts, List.mem_flatMap, List.mem_map, Prod.mk.injEq]
  constructor
  · rintro ⟨x, hx, ⟨a, us⟩, hp, u, hu, rfl, rfl⟩
    exact ⟨a, us, ⟨x, hx, rfl, hp⟩, hu⟩
  · rintro ⟨a, us, ⟨x, hx, rfl, hp⟩, hu⟩
    exact ⟨x, hx, (a, us), hp, k, hu, rfl, rfl⟩

theorem mem_asciiInserts (d : DMap) (k v : Char) :
    (k, v) ∈ asciiInserts d ↔ v ≠ 'ı' ∧ ∃ t us, (∃ x ∈ d, x.1 = t ∧ (v, us) ∈ x.2) ∧ k ∈ us := by
  simp only [asciiInserts, List.mem_flatMap]
  constructor
  · rintro ⟨x, hx, ⟨a, us⟩, hp, u, hu, h⟩
    dsimp only at h
    split at h
    · simp at h
    · simp only [List.mem_singleton, Prod.mk.injEq] at h
      obtain ⟨rfl, rfl⟩ := h
      exact ⟨by assumption, x.1, us, ⟨x, hx, rfl, hp⟩, hu⟩
  · rintro ⟨hv, t, us, ⟨x, hx, rfl, hp⟩, hu⟩
    exact ⟨x, hx, (v, us), hp, k, hu, by simp [hv]⟩

theorem mem_vowelsOf (d : DMap) (k : Char) :
    k ∈ vowelsOf d ↔ k ∈ ['a', 'e', 'i', 'ı', 'o', 'u', 'A', 'E', 'I', 'O', 'U'] ∨
      ∃ t a us, (∃ x ∈ d, x.1 = t ∧ (a, us) ∈ x.2) ∧ k ∈ us := by
  simp only [vowelsOf, List.mem_append, List.mem_flatMap]
  apply or_congr Iff.rfl
  constructor
  · rintro ⟨x, hx, ⟨a, us⟩, hp, hu⟩
    exact ⟨x.1, a, us, ⟨x, hx, rfl, hp⟩, hu⟩
  · rintro ⟨t, a, us, ⟨x, hx, rfl, hp⟩, hu⟩
    exact ⟨x, hx, (a, us), hp, hu⟩

theorem functional_of_all {l : List (Char × Char)}
    (h : ∀ p ∈ l, ∀ p' ∈ l, p.1 = p'.1 → p.2 = p'.2) :
    ∀ k v v', (k, v) ∈ l → (k, v') ∈ l → v = v' := fun _ _ _ h1 h2 => h _ h1 _ h2 rfl

/-- C07: whatever order the runtime enumerates the (nested) map in, the tables `tone`, `ascii` and
the membership test on `vowels` come out the same. -/
theorem C07_tables_order_independent (d' : DMap) (h : Reorder diacritic d') (r : Char) :
    lookupLast r (toneInserts d') = lookupLast r (toneInserts diacritic) ∧
    lookupLast r (asciiInserts d') = lookupLast r (asciiInserts diacritic) ∧
    (vowelsOf d').contains r = (vowelsOf diacritic).contains r := by
  refine ⟨?_, ?_, ?_⟩
  · apply lookupLast_congr
    · rintro ⟨k, v⟩
      rw [mem_toneInserts, mem_toneInserts]
      simp only [mem_reorder h]
    · exact functional_of_all (by decide +kernel)
  · apply lookupLast_congr
    · rintro ⟨k, v⟩
      rw [mem_asciiInserts, mem_asciiInserts]
      simp only [mem_reorder h]
    · exact functional_of_all (by decide +kernel)
  · rw [Bool.eq_iff_iff]
    simp only [List.contains_eq_mem, decide_eq_true_eq]
    rw [mem_vowelsOf, mem_vowelsOf]
    simp only [mem_reorder h]

/-- A genuinely different order: outer and inner maps reversed. -/
example : Reorder diacritic ((diacritic.map fun x => (x.1, x.2.reverse)).reverse) ∧
    (diacritic.map fun x => (x.1, x.2.reverse)).reverse ≠ diacritic := by
  refine ⟨⟨diacritic.map fun x => (x.1, x.2.reverse), ?_, (List.reverse_perm _).symm⟩, by decide +kernel⟩
  rw [List.forall₂_map_right_iff]
  exact List.forall₂_same.2 fun x _ => ⟨rfl, (List.reverse_perm _).symm⟩

/-- Why the dotless-i rows must be skipped when building `ascii`: without the skip the insertion
sequence is inconsistent and the result would depend on the order. -/
theorem C07_skip_needed : ('ī', 'i') ∈ (diacritic.flatMap fun trs => trs.2.flatMap fun arr =>
      arr.2.map fun uni => (uni, arr.1)) ∧
    ('ī', 'ı') ∈ (diacritic.flatMap fun trs => trs.2.flatMap fun arr =>
      arr.2.map fun uni => (uni, arr.1)) := by decide +kernel

end Verif.Tone
