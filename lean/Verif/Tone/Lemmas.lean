/- Helper lemmas for package tone. -/
import Verif.Tone.Spec

namespace Verif.Tone
open Spec

/-! Table facts, decided over the finite tables by the kernel. -/

def allV : List V := [.a, .u, .i, .o, .e, .A, .U, .I, .O, .E]
def allT : List T := [.flat, .rising, .dipping, .creaky, .falling, .low, .rising2, .none]
theorem mem_allV (v : V) : v ∈ allV := by cases v <;> decide
theorem mem_allT (t : T) : t ∈ allT := by cases t <;> decide

theorem letter_facts : ∀ v ∈ allV, ∀ t ∈ allT, ∀ b ∈ [true, false],
    toneTab (letter v t b) = t.rune ∧ isVowel (letter v t b) = true ∧
    (letter v t b ≠ 'ı' ∨ t = .none) ∧
    (t ≠ .none → asciiTab? (letter v t b) = some v.ascii) ∧
    (t = .none → asciiTab? (letter v t b) = none) := by
  decide +kernel

theorem retone_facts : ∀ v ∈ allV, ∀ t ∈ allT, ∀ b ∈ [true, false], ∀ t' ∈ allT,
    retone (letter v t b) t'.rune = some (letter v t' false) := by
  decide +kernel

theorem consonant_facts : ∀ c ∈ consonants,
    toneTab c = noTone ∧ isVowel c = false ∧ c ≠ 'ı' ∧ c ≠ 'q' ∧ c ∉ toneNameRunes := by
  decide +kernel

theorem plain_facts : ∀ v ∈ allV, toneTab v.plain = noTone ∧ isVowel v.plain = true ∧
    (v.plain = 'ı' ∧ v.ascii = 'i' ∨ v.plain ≠ 'ı' ∧ v.plain = v.ascii) ∧
    v.ascii ∉ toneNameRunes := by
  decide +kernel

theorem q_facts : toneTab 'q' = noTone ∧ isVowel 'q' = false ∧ 'q' ∉ toneNameRunes := by
  decide +kernel

theorem rune_ne {t : T} (h : t ≠ .none) : t.rune ≠ noTone := by cases t <;> simp_all [T.rune, noTone]
theorem mark_eq (t : T) : (if t.rune ≠ noTone then [t.rune] else []) = t.mark := by
  cases t <;> simp [T.rune, T.mark, noTone]

theorem go_plain (t : Char) (v : V) (rest : Str) :
    toASCIIGo t (v.plain :: rest) = v.ascii :: toASCIIGo t rest := by
  obtain ⟨h1, h2, h3, -⟩ := plain_facts v (mem_allV v)
  rw [toASCIIGo]
  rcases h3 with ⟨h, h'⟩ | ⟨h, h'⟩
  · simp [h, h']
  · by_cases ht : t = noTone
    · subst ht; simp [h, h1, ← h']
    · simp [h, ht, h2, ← h']

theorem go_plains (t : Char) (vs : List V) (rest : Str) :
    toASCIIGo t (vs.map V.plain ++ rest) = vs.map V.ascii ++ toASCIIGo t rest := by
  induction vs with
  | nil => rfl
  | cons v vs ih => simp [go_plain, ih]

theorem go_q (t : Char) (b : Bool) (rest : Str) :
    toASCIIGo t (qStr b ++ rest) = qStr b ++ toASCIIGo t rest := by
  cases b
  · rfl
  · simp only [qStr, if_true, List.cons_append, List.nil_append]
    rw [toASCIIGo]
    by_cases ht : t = noTone
    · subst ht; simp [q_facts.1]
    · simp [ht]

theorem go_consonants (cs : Str) (h : ∀ c ∈ cs, c ∈ consonants) (rest : Str) :
    toASCIIGo noTone (cs ++ rest) = cs ++ toASCIIGo noTone rest := by
  induction cs with
  | nil => rfl
  | cons c cs ih =>
    obtain ⟨h1, h2, h3, h4, -⟩ := consonant_facts c (h c (by simp))
    simp only [List.cons_append]
    rw [toASCIIGo]
    simp [h1, h3, ih (fun c hc => h c (by simp [hc]))]

theorem go_onset (t : Char) (cs : Str) (hne : cs ≠ []) (h : ∀ c ∈ cs, c ∈ consonants) (rest : Str) :
    toASCIIGo t (cs ++ rest) = (if t ≠ noTone then [t] else []) ++ cs ++ toASCIIGo noTone rest := by
  by_cases ht : t = noTone
  · subst ht; simp [go_consonants cs h]
  · cases cs with
    | nil => exact absurd rfl hne
    | cons c cs =>
      obtain ⟨h1, h2, h3, h4, -⟩ := consonant_facts c (h c (by simp))
      simp only [List.cons_append]
      rw [toASCIIGo]
      simp [h3, ht, h2, h4, go_consonants cs (fun c hc => h c (by simp [hc]))]

theorem go_letter (v : V) (t : T) (b : Bool) (rest : Str) :
    toASCIIGo noTone (letter v t b :: rest) = v.ascii :: toASCIIGo t.rune rest := by
  obtain ⟨h1, h2, h3, h4, h5⟩ := letter_facts v (mem_allV v) t (mem_allT t) b (by cases b <;> decide)
  by_cases ht : t = .none
  · subst ht
    have : letter v .none b = v.plain := by cases v <;> rfl
    rw [this, go_plain]; rfl
  · rw [toASCIIGo]
    have h6 := h3.resolve_right ht
    simp [h6, h1, rune_ne ht, asciiTab, h4 ht]

theorem go_syll (t : Char) (s : Syll) (hs : s.ok) (rest : Str) :
    toASCIIGo t (s.render ++ rest) =
      (if t ≠ noTone then [t] else []) ++ s.letters ++ toASCIIGo s.tone.rune rest := by
  simp only [Syll.render, List.append_assoc, List.cons_append]
  rw [go_onset t s.onset hs.1 hs.2, go_letter, go_plains, go_q]
  simp [Syll.letters]

theorem go_word (w : Word) (hw : Word.ok w) (t : Char) :
    toASCIIGo t (Word.render w) = (if t ≠ noTone then [t] else []) ++ Word.spell w := by
  induction w generalizing t with
  | nil => simp [Word.render, Word.spell, toASCIIGo]
  | cons s w ih =>
    have e : Word.render (s :: w) = s.render ++ Word.render w := by simp [Word.render]
    rw [e, go_syll t s (hw s (by simp)), ih (fun s hs => hw s (by simp [hs])), mark_eq]
    simp [Word.spell, Syll.spell]

theorem vowels_ascii_facts : ∀ p ∈ toneInserts diacritic, 128 ≤ p.1.val := by decide +kernel

theorem lookupLast_mem {k v : Char} {l : List (Char × Char)} (h : lookupLast k l = some v) :
    (k, v) ∈ l := by
  induction l with
  | nil => simp [lookupLast] at h
  | cons a l ih =>
    simp only [lookupLast] at h
    split at h
    · rename_i w hw; rw [hw] at ih; rw [h] at ih; exact List.mem_cons_of_mem _ (ih rfl)
    · split at h
      · rename_i hk; cases h; subst hk; simp
      · cases h

theorem lookupLast_some_of_mem {k v : Char} {l : List (Char × Char)} (h : (k, v) ∈ l) :
    ∃ v', lookupLast k l = some v' := by
  induction l with
  | nil => simp at h
  | cons a l ih =>
    simp only [lookupLast]
    rcases List.mem_cons.1 h with rfl | h
    · cases lookupLast k l <;> simp
    · obtain ⟨v', hv⟩ := ih h; simp [hv]

theorem lookupLast_of_functional {k v : Char} {l : List (Char × Char)} (h : (k, v) ∈ l)
    (hf : ∀ v', (k, v') ∈ l → v' = v) : lookupLast k l = some v := by
  obtain ⟨v', hv⟩ := lookupLast_some_of_mem h
  rw [hv, hf v' (lookupLast_mem hv)]

theorem lookupLast_none {k : Char} {l : List (Char × Char)} (h : ∀ v, (k, v) ∉ l) :
    lookupLast k l = none := by
  cases e : lookupLast k l with
  | none => rfl
  | some v => exact absurd (lookupLast_mem e) (h v)

/-- Two insertion sequences with the same entries, one of them consistent, give the same map. -/
theorem lookupLast_congr {l l' : List (Char × Char)} (hm : ∀ p, p ∈ l' ↔ p ∈ l)
    (hf : ∀ k v v', (k, v) ∈ l → (k, v') ∈ l → v = v') (k : Char) :
    lookupLast k l' = lookupLast k l := by
  cases e : lookupLast k l with
  | none =>
    apply lookupLast_none
    intro v hv
    obtain ⟨v', hv'⟩ := lookupLast_some_of_mem ((hm _).1 hv)
    rw [e] at hv'; cases hv'
  | some v =>
    have hv := lookupLast_mem e
    exact lookupLast_of_functional ((hm _).2 hv) fun v' h => hf k _ _ ((hm _).1 h) hv

theorem ascii_toneTab {c : Char} (h : isASCII c) : toneTab c = noTone := by
  unfold toneTab
  cases e : lookupLast c (toneInserts diacritic) with
  | none => rfl
  | some v =>
    have := vowels_ascii_facts _ (lookupLast_mem e)
    simp only [isASCII] at h
    exact absurd h (by simpa using this)

theorem go_ascii (s : Str) (h : ∀ c ∈ s, isASCII c) : toASCIIGo noTone s = s := by
  induction s with
  | nil => rfl
  | cons c s ih =>
    have hc := h c (by simp)
    have : c ≠ 'ı' := by rintro rfl; revert hc; unfold isASCII; decide
    rw [toASCIIGo]
    simp [this, ascii_toneTab hc, ih (fun c hc => h c (by simp [hc]))]

theorem consonants_ascii : ∀ c ∈ consonants, isASCII c := by unfold isASCII; decide
theorem vascii_ascii (v : V) : isASCII v.ascii := by cases v <;> (unfold isASCII; decide)
theorem mark_ascii (t : T) : ∀ c ∈ t.mark, isASCII c := by cases t <;> (unfold isASCII; decide)

theorem letters_ascii (s : Syll) (hs : s.ok) : ∀ c ∈ s.letters, isASCII c := by
  intro c hc
  simp only [Syll.letters, List.mem_append, List.mem_cons, List.mem_map] at hc
  rcases hc with h | rfl | ⟨v, -, rfl⟩ | h
  · exact consonants_ascii c (hs.2 c h)
  · exact vascii_ascii _
  · exact vascii_ascii _
  · revert h; cases s.q <;> simp only [qStr, Bool.false_eq_true, if_false, if_true, List.not_mem_nil, List.mem_singleton, false_imp_iff]
    rintro rfl; unfold isASCII; decide

theorem letters_no_tone (s : Syll) (hs : s.ok) : ∀ c ∈ s.letters, c ∉ toneNameRunes := by
  intro c hc
  simp only [Syll.letters, List.mem_append, List.mem_cons, List.mem_map] at hc
  rcases hc with h | rfl | ⟨v, -, rfl⟩ | h
  · exact (consonant_facts c (hs.2 c h)).2.2.2.2
  · exact (plain_facts _ (mem_allV _)).2.2.2
  · exact (plain_facts _ (mem_allV _)).2.2.2
  · revert h; cases s.q <;> simp only [qStr, Bool.false_eq_true, if_false, if_true, List.not_mem_nil, List.mem_singleton, false_imp_iff]
    rintro rfl; exact q_facts.2.2

theorem filter_letters (s : Syll) (hs : s.ok) :
    s.letters.filter (fun r => !toneNameRunes.contains r) = s.letters := by
  rw [List.filter_eq_self]
  intro c hc; have := letters_no_tone s hs c hc; simpa using this

theorem filter_mark (t : T) : t.mark.filter (fun r => !toneNameRunes.contains r) = [] := by
  cases t <;> decide

end Verif.Tone
