/-
C45: exactly which headwords keep a tone in their keys.
-/
import Verif.App.Dict

namespace Verif.Tone
open Spec

/-- Spec: a letter with a tone. -/
def Toned (c : Char) : Prop := ∃ v t alt, t ≠ .none ∧ c = letter v t alt

/-- Spec: a letter that does not begin a syllable: a vowel, with or without a tone, or q. -/
def Inner (c : Char) : Prop := Toned c ∨ c ∈ ['a', 'e', 'i', 'ı', 'o', 'u', 'A', 'E', 'I', 'O', 'U', 'q']

/-- Spec: a letter with a tone is reached through letters that do not begin a syllable. -/
def Reached (s : Str) : Prop := ∃ m c r, s = m ++ c :: r ∧ (∀ d ∈ m, Inner d) ∧ Toned c

/-- Spec: two letters with tones, with no letter between them that begins a syllable. -/
def Twice (s : Str) : Prop := ∃ l c r, s = l ++ c :: r ∧ Toned c ∧ Reached r

def tonedB (c : Char) : Bool := allV.any fun v => allT.any fun t => [true, false].any fun b => t != .none && c == letter v t b

theorem tonedB_iff {c : Char} : tonedB c = true ↔ Toned c := by
  simp only [tonedB, Toned, List.any_eq_true, Bool.and_eq_true, bne_iff_ne, beq_iff_eq]
  constructor
  · rintro ⟨v, _, t, _, b, _, h⟩; exact ⟨v, t, b, h⟩
  · rintro ⟨v, t, b, h⟩; exact ⟨v, mem_allV v, t, mem_allT t, b, by cases b <;> simp, h⟩

theorem toneInserts_toned : ∀ p ∈ toneInserts diacritic, tonedB p.1 = true := by decide +kernel
theorem toned_tab : ∀ v ∈ allV, ∀ t ∈ allT, ∀ b ∈ [true, false], t ≠ .none →
    toneTab (letter v t b) ≠ noTone ∧ letter v t b ≠ 'ı' ∧ letter v t b ∉ toneNameRunes ∧ isVowel (letter v t b) = true ∧
      tonedB (asciiTab (letter v t b)) = false := by decide +kernel
theorem vowels_inner : ∀ c ∈ vowelsOf diacritic, tonedB c = true ∨ c ∈ ['a', 'e', 'i', 'ı', 'o', 'u', 'A', 'E', 'I', 'O', 'U', 'q'] := by
  decide +kernel

theorem toned_facts {c : Char} (h : Toned c) :
    toneTab c ≠ noTone ∧ c ≠ 'ı' ∧ c ∉ toneNameRunes ∧ isVowel c = true ∧ ¬ Toned (asciiTab c) := by
  obtain ⟨v, t, b, h1, rfl⟩ := h
  have := toned_tab v (mem_allV v) t (mem_allT t) b (by cases b <;> simp) h1
  rw [← tonedB_iff]
  simpa using this

theorem toneTab_iff {c : Char} : toneTab c ≠ noTone ↔ Toned c := by
  refine ⟨fun h => ?_, fun h => (toned_facts h).1⟩
  unfold toneTab at h
  cases hl : lookupLast c (toneInserts diacritic) with
  | none => rw [hl] at h; exact absurd rfl h
  | some t => exact tonedB_iff.1 (toneInserts_toned _ (lookupLast_mem hl))

theorem toneTab_mark {c : Char} (h : toneTab c ≠ noTone) : ¬ Toned (toneTab c) := by
  unfold toneTab at *
  cases hl : lookupLast c (toneInserts diacritic) with
  | none => rw [hl] at h; exact absurd rfl h
  | some t =>
    have hm : ∀ p ∈ toneInserts diacritic, tonedB p.2 = false := by decide +kernel
    have := hm _ (lookupLast_mem hl)
    rw [← tonedB_iff]
    simpa using this

theorem inner_iff {c : Char} : Inner c ↔ (!isVowel c && c != 'q') = false := by
  have h2 : ∀ c ∈ ['a', 'e', 'i', 'ı', 'o', 'u', 'A', 'E', 'I', 'O', 'U', 'q'], (!isVowel c && c != 'q') = false := by decide +kernel
  constructor
  · rintro (h | h)
    · simp [(toned_facts h).2.2.2.1]
    · exact h2 c h
  · intro h
    simp only [Bool.and_eq_false_iff, Bool.not_eq_false', bne_eq_false_iff_eq] at h
    rcases h with h | rfl
    · rcases vowels_inner c (by simpa [isVowel] using h) with h | h
      · exact .inl (tonedB_iff.1 h)
      · exact .inr h
    · exact .inr (by decide)

theorem reached_cons {c : Char} {s : Str} : Reached (c :: s) ↔ Toned c ∨ Inner c ∧ Reached s := by
  constructor
  · rintro ⟨m, d, r, h1, h2, h3⟩
    cases m with
    | nil => simp only [List.nil_append, List.cons.injEq] at h1; exact .inl (h1.1 ▸ h3)
    | cons a m =>
      simp only [List.cons_append, List.cons.injEq] at h1
      exact .inr ⟨h1.1 ▸ h2 a (by simp), m, d, r, h1.2, fun x hx => h2 x (by simp [hx]), h3⟩
  · rintro (h | ⟨h1, m, d, r, rfl, h3, h4⟩)
    · exact ⟨[], c, s, rfl, by simp, h⟩
    · exact ⟨c :: m, d, r, rfl, by simpa [h1] using h3, h4⟩

theorem twice_cons {c : Char} {s : Str} : Twice (c :: s) ↔ Toned c ∧ Reached s ∨ Twice s := by
  constructor
  · rintro ⟨m, d, r, h1, h2, h3⟩
    cases m with
    | nil => simp only [List.nil_append, List.cons.injEq] at h1; exact .inl ⟨h1.1 ▸ h2, h1.2 ▸ h3⟩
    | cons a m =>
      simp only [List.cons_append, List.cons.injEq] at h1
      exact .inr ⟨m, d, r, h1.2, h2, h3⟩
  · rintro (⟨h1, h2⟩ | ⟨m, d, r, rfl, h3⟩)
    · exact ⟨[], c, s, rfl, h1, h2⟩
    · exact ⟨c :: m, d, r, rfl, h3⟩

theorem go_toned : ∀ (s : Str) (t : Char), ¬ Toned t →
    ((∃ c ∈ toASCIIGo t s, Toned c) ↔ (t ≠ noTone ∧ Reached s) ∨ Twice s)
  | [], t, ht => by
    have h1 : ¬ Reached [] := by rintro ⟨m, c, r, h, _⟩; simp at h
    have h2 : ¬ Twice [] := by rintro ⟨m, c, r, h, _⟩; simp at h
    rw [toASCIIGo]
    split <;> simp [h1, h2, ht]
  | r :: rs, t, ht => by
    have hi : ¬ Toned 'i' := by rw [← tonedB_iff]; decide +kernel
    have h0 : ¬ Toned noTone := by rw [← tonedB_iff]; decide +kernel
    rw [toASCIIGo, twice_cons, reached_cons]
    split
    · next h =>
      subst h
      have h3 : ¬ Toned 'ı' := by rw [← tonedB_iff]; decide +kernel
      have h4 : Inner 'ı' := .inr (by decide)
      simp [hi, h3, h4, go_toned rs t ht]
    · split
      · next h =>
        split
        · next hv =>
          have hin : ¬ Inner r := by rw [inner_iff, hv]; simp
          have hr : ¬ Toned r := fun h => hin (.inl h)
          simp [ht, hr, hin, go_toned rs noTone h0]
        · next hv =>
          have hin : Inner r := by rw [inner_iff]; simpa using hv
          by_cases hr : Toned r
          · simp [h, hr]
          · simp [h, hr, hin, go_toned rs t ht]
      · next h =>
        simp only [ne_eq, Decidable.not_not] at h
        subst h
        split
        · next h =>
          have hr := toneTab_iff.1 h
          have ha := (toned_facts hr).2.2.2.2
          simp [ha, hr, go_toned rs _ (toneTab_mark h), h]
        · next h =>
          have hr : ¬ Toned r := fun h' => h (toneTab_iff.2 h')
          simp [hr, go_toned rs noTone h0]

/-- C03, for all strings: what `Strip` returns has a letter with a tone if and only if the string has two of them and between them no
letter that begins a syllable. -/
theorem C03_strip_exact (s : Str) : (∃ c ∈ strip s, Toned c) ↔ Twice s := by
  have h0 : ¬ Toned noTone := by rw [← tonedB_iff]; decide +kernel
  have := go_toned s noTone h0
  simp only [ne_eq, not_true_eq_false, false_and, false_or] at this
  rw [← this]
  simp only [strip, List.mem_filter, toASCII]
  constructor
  · rintro ⟨c, h1, h2⟩; exact ⟨c, h1.1, h2⟩
  · rintro ⟨c, h1, h2⟩; exact ⟨c, ⟨h1, by simpa using (toned_facts h2).2.2.1⟩, h2⟩

end Verif.Tone

namespace Verif.App
open Verif.Tone Verif.Tone.Spec

/-- C45 exactly: a key has a tone if and only if the headword of its entry, the last one with this key, has two letters with tones in one
syllable. Of Unicode it is assumed that small letters have tones if the capitals have. -/
theorem C45_tone_exact (U : Uni) (hU : ∀ c, Toned (U.lower c) ↔ Toned c) (r : DictResponse) (es : List DictWord)
    (hs : r.success = true) (he : r.entries = some es) :
    ∃ m, load U (.ok r) = .words m ∧ ∀ k w, m k = some w →
      ∃ e ∈ es, norm U e.word = k ∧ w = { e with word := k } ∧ ((∃ c ∈ k, Toned c) ↔ Twice e.word) := by
  obtain ⟨m, h1, h2⟩ := C45_last_wins U r es hs he
  refine ⟨m, h1, fun k w h => ?_⟩
  rw [h2, Option.map_eq_some_iff] at h
  obtain ⟨e, h3, h4⟩ := h
  have h5 := List.mem_of_getLast? h3
  simp only [List.mem_filter, decide_eq_true_eq] at h5
  refine ⟨e, h5.1, h5.2, h4.symm, ?_⟩
  rw [← C03_strip_exact, ← h5.2]
  simp only [norm, List.mem_map]
  constructor
  · rintro ⟨_, ⟨c, hc, rfl⟩, ht⟩; exact ⟨c, hc, (hU c).1 ht⟩
  · rintro ⟨c, hc, ht⟩; exact ⟨_, ⟨c, hc, rfl⟩, (hU c).2 ht⟩

/-- A word with a tone on each of two syllables, and a headword with two on one. -/
example : ¬ Twice "jáqshǎı".toList ∧ Twice "jáé".toList := by
  rw [← C03_strip_exact, ← C03_strip_exact]
  simp only [← tonedB_iff]
  decide +kernel

/-- The assumption holds if `unicode.ToLower` is replaced by what it does to ASCII. -/
example : ∀ c, Toned (asciiUni.lower c) ↔ Toned c := by
  intro c
  have h1 : ∀ n, n < 128 → tonedB (asciiLower (Char.ofNat n)) = false ∧ tonedB (Char.ofNat n) = false := by decide +kernel
  rw [← tonedB_iff, ← tonedB_iff]
  by_cases h : c.toNat < 128
  · have := h1 _ h
    rw [Char.ofNat_toNat] at this
    simp [asciiUni, this]
  · have h2 : ¬ c ≤ 'Z' := fun h3 => h (Nat.lt_of_le_of_lt (UInt32.le_iff_toNat_le.1 (Char.le_def.1 h3)) (by decide))
    simp [asciiUni, asciiLower, h2]

end Verif.App
