/-
Capitals and the dot of i in the words the interpreter looks at.
-/
import Verif.Logic.Words
import Verif.Parse.SpellProps
import Verif.Tone.Lemmas

namespace Verif.Logic
open Verif.Tone (Str)
open Verif.Parse (capitalPairs foldBy)

/-! ### Specification -/

/-- Package unicode agrees about the case of the letters. -/
structure CaseOk (U : Uni) : Prop where
  ok : U.Ok
  lower : ∀ e ∈ capitalPairs, e.2 ≠ 'ı' → U.lower e.1 = U.lower e.2
  dotless : U.lower 'ı' = 'ı'

/-- The letters o with a tone. -/
def tonedO : List Char := "ōŌóÓǒǑŏŎỏỎôÔòÒõÕ".toList

/-- A word that would be a variable if it were not for capitals: d and a toned o that ends its syllable. -/
def LooksVar : Str → Prop
  | d :: o :: rest => (d = 'd' ∨ d = 'D') ∧ o ∈ tonedO ∧ ∀ c, rest.head? = some c → c ∉ "aeiıouAEIOUqQ".toList
  | _ => False

instance : DecidablePred LooksVar
  | [] => .isFalse id
  | [_] => .isFalse id
  | d :: o :: rest => by
    cases rest with
    | nil => exact decidable_of_iff ((d = 'd' ∨ d = 'D') ∧ o ∈ tonedO) (by simp [LooksVar])
    | cons c l => exact decidable_of_iff ((d = 'd' ∨ d = 'D') ∧ o ∈ tonedO ∧ c ∉ "aeiıouAEIOUqQ".toList) (by simp [LooksVar])

/-- Words in which case does not matter: variables must be written without the capitals D and I. -/
def CaseFree (t : Str) : Prop := LooksVar t → 'D' ∉ t ∧ 'I' ∉ t

instance : DecidablePred CaseFree := fun t => by unfold CaseFree; infer_instance

/-- Two words the interpreter cannot tell apart. -/
structure SameWord (U : Uni) (t t' : Str) : Prop where
  text : ∀ b, hasText U t' b = hasText U t b
  var : (splitVar U t').map (·.2) = (splitVar U t).map (·.2)
  hoa : isHoa U t' = isHoa U t
  pred : wordPred U t' = wordPred U t

/-! ### Letters -/

/-- No capital Q stands before a vowel or q. -/
def QEnds : Str → Prop
  | q :: v :: rest => (q = 'Q' → Tone.isVowel v = false ∧ v ≠ 'q') ∧ QEnds (v :: rest)
  | _ => True

instance : DecidablePred QEnds := fun s => by
  induction s with
  | nil => exact .isTrue trivial
  | cons q s ih => cases s with
    | nil => exact .isTrue trivial
    | cons v rest =>
      unfold QEnds
      exact @instDecidableAnd _ _ _ ih

/-- The small letter; i keeps its dot. -/
def soft (c : Char) : Char := if c = 'i' then 'i' else foldBy capitalPairs c

theorem soft_ind {Q : Char → Char → Prop} (h : ∀ e ∈ capitalPairs, e.1 ≠ 'i' → Q e.1 e.2)
    (h' : ∀ c, c = 'i' ∨ (∀ e ∈ capitalPairs, e.1 ≠ c) → Q c c) (c : Char) : Q c (soft c) := by
  unfold soft
  split
  · subst c; exact h' 'i' (.inl rfl)
  · rename_i hc
    revert hc
    exact Parse.fold_ind Parse.capitalPairs_ok (Q := fun c c' => c ≠ 'i' → Q c c') (fun e he hi => h e he hi)
      (fun c hc _ => h' c (.inr hc)) c

variable {U : Uni}

theorem soft_vowel (c : Char) : Tone.isVowel (soft c) = Tone.isVowel c :=
  soft_ind (Q := fun c c' => Tone.isVowel c' = Tone.isVowel c) (by decide +kernel) (fun _ _ => rfl) c

theorem soft_endsNot (c : Char) : endsNot (soft c) = endsNot c :=
  soft_ind (Q := fun c c' => endsNot c' = endsNot c) (by decide +kernel) (fun _ _ => rfl) c

theorem soft_tone (c : Char) : Tone.toneTab (soft c) = Tone.toneTab c :=
  soft_ind (Q := fun c c' => Tone.toneTab c' = Tone.toneTab c) (by decide +kernel) (fun _ _ => rfl) c

theorem soft_o (c : Char) : ((oPairs Tone.diacritic).find? fun p => p.1 = soft c).isSome =
    ((oPairs Tone.diacritic).find? fun p => p.1 = c).isSome :=
  soft_ind (Q := fun c c' => ((oPairs Tone.diacritic).find? fun p => p.1 = c').isSome =
    ((oPairs Tone.diacritic).find? fun p => p.1 = c).isSome) (by decide +kernel) (fun _ _ => rfl) c

theorem o_iff (c : Char) : ((oPairs Tone.diacritic).find? fun p => p.1 = c).isSome = true ↔ c ∈ tonedO := by
  rw [List.find?_isSome]
  constructor
  · rintro ⟨p, hp, h⟩
    have h1 : ∀ p ∈ oPairs Tone.diacritic, p.1 ∈ tonedO := by decide +kernel
    have := h1 p hp
    simp only [decide_eq_true_eq] at h
    exact h ▸ this
  · intro h
    have h1 : ∀ c ∈ tonedO, ((oPairs Tone.diacritic).any fun p => p.1 = c) = true := by decide +kernel
    have := h1 c h
    simpa using this

theorem lower_ascii (hU : CaseOk U) : ∀ e ∈ capitalPairs, e.2 = 'ı' → U.lower e.1 = 'i' := by
  have h1 : ∀ e ∈ capitalPairs, e.2 = 'ı' → e.1 = 'i' ∨ e.1 = 'I' := by decide +kernel
  intro e he h2
  rcases h1 e he h2 with h | h <;> rw [h, hU.ok.lower _ (by decide)] <;> decide

theorem soft_lower (hU : CaseOk U) (c : Char) (h : c ≠ 'I') : U.lower (soft c) = U.lower c := by
  revert h
  refine soft_ind (Q := fun c c' => c ≠ 'I' → U.lower c' = U.lower c) ?_ (fun _ _ _ => rfl) c
  intro e he hi hI
  have h1 : ∀ e ∈ capitalPairs, e.2 = 'ı' → e.1 = 'i' ∨ e.1 = 'I' := by decide +kernel
  refine (hU.lower e he ?_).symm
  intro h2
  rcases h1 e he h2 with h | h
  · exact hi h
  · exact hI h

theorem soft_fold (hU : CaseOk U) (c : Char) : fold U (soft c) = fold U c := by
  refine soft_ind (Q := fun c c' => fold U c' = fold U c) ?_ (fun _ _ => rfl) c
  intro e he hi
  have h3 : ∀ e ∈ capitalPairs, e.1 ≠ 'ı' := by decide +kernel
  unfold fold
  rw [if_neg (h3 e he)]
  by_cases h : e.2 = 'ı'
  · rw [if_pos h, lower_ascii hU e he h, hU.ok.lower _ (by decide)]; decide
  · rw [if_neg h, hU.lower e he h]

theorem low (hU : CaseOk U) {c : Char} (h : c.toNat < 128) : U.lower c = asciiLower c := hU.ok.lower c h

/-- The first vowel without tone. -/
theorem soft_retone (hU : CaseOk U) (c : Char) :
    (Tone.retone (soft c) Tone.noTone).map (fold U) = (Tone.retone c Tone.noTone).map (fold U) := by
  refine soft_ind (Q := fun c c' => (Tone.retone c' Tone.noTone).map (fold U) = (Tone.retone c Tone.noTone).map (fold U)) ?_
    (fun _ _ => rfl) c
  intro e he hi
  have h1 : ∀ e ∈ capitalPairs, e.1 ≠ 'i' → (Tone.retone e.2 Tone.noTone = some e.2 ∧ Tone.retone e.1 Tone.noTone = some e.1) ∨
      ∃ x ∈ Tone.retone e.1 Tone.noTone, ∃ y ∈ Tone.retone e.2 Tone.noTone,
        ∃ x' ∈ [if x = 'ı' then 'i' else x], ∃ y' ∈ [if y = 'ı' then 'i' else y],
        x'.toNat < 128 ∧ y'.toNat < 128 ∧ asciiLower x' = asciiLower y' := by decide +kernel
  rcases h1 e he hi with ⟨h2, h3⟩ | ⟨x, hx, y, hy, x', hx', y', hy', h4, h5, h6⟩
  · rw [h2, h3]
    have := soft_fold hU e.1
    rw [soft, if_neg hi, Parse.capitalPairs_ok.pairs e he] at this
    simp only [Option.map_some, this]
  · simp only [List.mem_singleton] at hx' hy'
    rw [Option.mem_def] at hx hy
    rw [hx, hy]
    simp only [Option.map_some, fold, ← hx', ← hy', low hU h4, low hU h5, h6]

theorem soft_untone (hU : CaseOk U) (t : Str) : (untone (t.map soft)).map (fold U) = (untone t).map (fold U) := by
  have key : ∀ t : Str, (Tone.withTone (t.map soft) Tone.noTone).map (List.map (fold U)) =
      (Tone.withTone t Tone.noTone).map (List.map (fold U)) := by
    intro t
    induction t with
    | nil => rfl
    | cons r rs ih =>
      simp only [List.map_cons, Tone.withTone, soft_vowel]
      split
      · have h := soft_retone hU r
        revert h
        cases Tone.retone (soft r) Tone.noTone <;> cases Tone.retone r Tone.noTone <;> intro h <;>
          simp only [Option.map_some, Option.map_none, reduceCtorEq, Option.some.injEq] at h ⊢
        simp only [List.map_cons, h, List.map_map, Function.comp_def, soft_fold hU]
      · revert ih
        cases Tone.withTone (rs.map soft) Tone.noTone <;> cases Tone.withTone rs Tone.noTone <;> intro ih <;>
          simp only [Option.map_some, Option.map_none, reduceCtorEq, Option.some.injEq] at ih ⊢
        simp only [List.map_cons, ih, soft_fold hU]
  have h := key t
  unfold untone
  revert h
  cases Tone.withTone (t.map soft) Tone.noTone <;> cases Tone.withTone t Tone.noTone <;> intro h <;>
    simp only [Option.map_some, Option.map_none, reduceCtorEq, Option.some.injEq, Option.getD] at h ⊢
  · simp only [List.map_map, Function.comp_def, soft_fold hU]
  · exact h

theorem sameText_eq (a b : Str) : sameText U a b = true ↔ a.map (fold U) = b.map (fold U) := by
  induction a generalizing b with
  | nil => cases b <;> simp [sameText]
  | cons x a ih => cases b with
    | nil => simp [sameText]
    | cons y b =>
      simp only [sameText, List.map_cons, List.cons.injEq]
      by_cases h : fold U x = fold U y
      · simp [h, ih]
      · simp [h]

theorem soft_text (hU : CaseOk U) (t b : Str) : hasText U (t.map soft) b = hasText U t b := by
  rw [Bool.eq_iff_iff, hasText, hasText, sameText_eq, sameText_eq, soft_untone hU]

theorem hoa_fold (hU : CaseOk U) (t : Str) : isHoa U t = true ↔ (untone t).map (fold U) = ['h', 'o', 'a'] := by
  unfold isHoa
  rw [decide_eq_true_eq]
  have h1 : ∀ c : Char, ∀ x ∈ ['h', 'o', 'a'], U.lower c = x ↔ fold U c = x := by
    intro c x hx
    unfold fold
    by_cases hc : c = 'ı'
    · rw [if_pos hc, hc, hU.dotless, low hU (by decide)]
      simp only [List.mem_cons, List.not_mem_nil, or_false] at hx
      rcases hx with rfl | rfl | rfl <;> decide
    · rw [if_neg hc]
  generalize untone t = u
  match u with
  | [] => simp
  | [a] => simp
  | [a, b] => simp
  | [a, b, c] =>
    simp only [List.map_cons, List.map_nil, List.cons.injEq, and_true]
    rw [h1 a 'h' (by decide), h1 b 'o' (by decide), h1 c 'a' (by decide)]
  | a :: b :: c :: d :: e => simp

theorem soft_hoa (hU : CaseOk U) (t : Str) : isHoa U (t.map soft) = isHoa U t := by
  rw [Bool.eq_iff_iff, hoa_fold hU, hoa_fold hU, soft_untone hU]

/-! ### Predicates -/

/-- What is left of the ASCII form. -/
def shown (U : Uni) (t : Str) : Str := (t.map U.lower).flatMap (wordPredRune U)

theorem shown_cons (c : Char) (t : Str) : shown U (c :: t) = wordPredRune U (U.lower c) ++ shown U t := rfl

theorem shown_tone (hU : CaseOk U) (k : Char) (h : k ∈ Tone.toneNameRunes) : wordPredRune U (U.lower k) = [] := by
  have h1 : ∀ k ∈ Tone.toneNameRunes, k.toNat < 128 ∧ (asciiLower k = 'v' ∨
      (asciiLower k).toNat < 128 ∧ asciiLower k ≠ 'ı' ∧ asciiLetter (asciiLower k) = false) := by decide +kernel
  obtain ⟨h2, h3⟩ := h1 k h
  rw [low hU h2]
  unfold wordPredRune
  rcases h3 with h3 | ⟨h3, h4, h5⟩
  · rw [if_pos h3]
  · rw [if_neg h4, hU.ok.letter _ h3, h5]; simp

theorem toneTab_vowel (c : Char) (h : Tone.toneTab c ≠ Tone.noTone) :
    Tone.isVowel c = true ∧ Tone.toneTab c ∈ Tone.toneNameRunes := by
  unfold Tone.toneTab at h ⊢
  cases e : Tone.lookupLast c (Tone.toneInserts Tone.diacritic) with
  | none => rw [e] at h; exact absurd rfl h
  | some v =>
    have h1 := Tone.lookupLast_mem e
    have h2 : ∀ p ∈ Tone.toneInserts Tone.diacritic, Tone.isVowel p.1 = true ∧ p.2 ∈ Tone.toneNameRunes := by decide +kernel
    exact h2 _ h1

theorem soft_ascii (hU : CaseOk U) (c : Char) (h : Tone.toneTab c ≠ Tone.noTone) :
    U.lower (Tone.asciiTab (soft c)) = U.lower (Tone.asciiTab c) := by
  revert h
  refine soft_ind (Q := fun c c' => Tone.toneTab c ≠ Tone.noTone → U.lower (Tone.asciiTab c') = U.lower (Tone.asciiTab c)) ?_
    (fun _ _ _ => rfl) c
  have h1 : ∀ e ∈ capitalPairs, e.1 ≠ 'i' → Tone.toneTab e.1 ≠ Tone.noTone → (Tone.asciiTab e.1).toNat < 128 ∧
    (Tone.asciiTab e.2).toNat < 128 ∧ asciiLower (Tone.asciiTab e.2) = asciiLower (Tone.asciiTab e.1) := by decide +kernel
  intro e he hi ht
  obtain ⟨h2, h3, h4⟩ := h1 e he hi ht
  rw [low hU h2, low hU h3, h4]

theorem soft_q (c : Char) (h : c ≠ 'Q') : soft c = 'q' ↔ c = 'q' := by
  revert h
  refine soft_ind (Q := fun c c' => c ≠ 'Q' → (c' = 'q' ↔ c = 'q')) (by decide +kernel) (fun _ _ _ => .rfl) c

theorem soft_ı (c : Char) (h : c ≠ 'I') : soft c = 'ı' ↔ c = 'ı' := by
  revert h
  refine soft_ind (Q := fun c c' => c ≠ 'I' → (c' = 'ı' ↔ c = 'ı')) (by decide +kernel) (fun _ _ _ => .rfl) c

theorem toASCII_dotless (k : Char) (t : Str) : Tone.toASCIIGo k ('ı' :: t) = 'i' :: Tone.toASCIIGo k t := by
  rw [Tone.toASCIIGo, if_pos rfl]

theorem toASCII_q (k : Char) (t : Str) : Tone.toASCIIGo k ('q' :: t) = 'q' :: Tone.toASCIIGo k t := by
  have h : Tone.toneTab 'q' = Tone.noTone := by decide +kernel
  rw [Tone.toASCIIGo, if_neg (by decide)]
  by_cases hk : k = Tone.noTone
  · rw [if_neg (by simp [hk]), if_neg (by simp [h]), hk]
  · rw [if_pos hk, if_neg (by simp)]

/-- Consonants end the pending tone. -/
theorem toASCII_cons (hU : CaseOk U) (k : Char) (c : Char) (t : Str) (hv : Tone.isVowel c = false) (hq : c ≠ 'q') (hd : c ≠ 'ı')
    (hk : k = Tone.noTone ∨ k ∈ Tone.toneNameRunes) :
    shown U (Tone.toASCIIGo k (c :: t)) = shown U (c :: Tone.toASCIIGo Tone.noTone t) := by
  have ht : ¬ Tone.toneTab c ≠ Tone.noTone := fun h => by rw [(toneTab_vowel c h).1] at hv; cases hv
  rw [Tone.toASCIIGo, if_neg hd]
  by_cases hk0 : k = Tone.noTone
  · rw [if_neg (by simp [hk0]), if_neg ht]
  · rw [if_pos hk0, if_pos (by simp [hv, hq])]
    rw [shown_cons, shown_tone hU k (hk.resolve_left hk0), List.nil_append]

theorem toASCII_vowel (k : Char) (c : Char) (t : Str) (hv : Tone.isVowel c = true) (hd : c ≠ 'ı') (hk : k ≠ Tone.noTone) :
    Tone.toASCIIGo k (c :: t) = c :: Tone.toASCIIGo k t := by
  rw [Tone.toASCIIGo, if_neg hd, if_pos hk, if_neg (by simp [hv])]

theorem soft_toASCII (hU : CaseOk U) : ∀ (t : Str) (k k' : Char), QEnds t →
    ((k = Tone.noTone ↔ k' = Tone.noTone) ∨ ∀ v r, t = v :: r → Tone.isVowel v = false ∧ v ≠ 'q') →
    (k = Tone.noTone ∨ k ∈ Tone.toneNameRunes) → (k' = Tone.noTone ∨ k' ∈ Tone.toneNameRunes) →
    shown U (Tone.toASCIIGo k' (t.map soft)) = shown U (Tone.toASCIIGo k t)
  | [], k, k', _, _, hk, hk' => by
    have h1 : ∀ k, k = Tone.noTone ∨ k ∈ Tone.toneNameRunes → shown U (Tone.toASCIIGo k []) = [] := by
      intro k hk
      rw [Tone.toASCIIGo]
      split
      · rename_i h; rw [shown_cons, shown_tone hU k (hk.resolve_left h)]; rfl
      · rfl
    rw [List.map_nil, h1 k hk, h1 k' hk']
  | c :: t, k, k', hQ, hs, hk, hk' => by
    have ht : QEnds t := by
      cases t with
      | nil => trivial
      | cons v t => exact hQ.2
    have ih := soft_toASCII hU t
    rw [List.map_cons]
    by_cases hI : c = 'I'
    · subst hI
      have hs : k = Tone.noTone ↔ k' = Tone.noTone := by
        rcases hs with hs | hs
        · exact hs
        · exact absurd (hs _ _ rfl).1 (by decide +kernel)
      rw [show soft 'I' = 'ı' by decide +kernel, toASCII_dotless, shown_cons, ih k k' ht (.inl hs) hk hk']
      have : Tone.toASCIIGo k ('I' :: t) = 'I' :: Tone.toASCIIGo k t := by
        by_cases h : k = Tone.noTone
        · rw [Tone.toASCIIGo, if_neg (by decide), if_neg (by simp [h]), if_neg (by decide +kernel), h]
        · exact toASCII_vowel _ _ _ (by decide +kernel) (by decide) h
      rw [this, shown_cons, low hU (by decide : 'i'.toNat < 128), low hU (by decide : 'I'.toNat < 128)]
      rfl
    by_cases hQc : c = 'Q'
    · subst hQc
      rw [show soft 'Q' = 'q' by decide +kernel, toASCII_q, shown_cons,
        toASCII_cons hU k 'Q' t (by decide +kernel) (by decide) (by decide) hk, shown_cons,
        ih Tone.noTone k' ht (.inr ?_) (.inl rfl) hk', low hU (by decide : 'q'.toNat < 128), low hU (by decide : 'Q'.toNat < 128)]
      · rfl
      · intro v r h
        subst h
        exact hQ.1 rfl
    by_cases hd : c = 'ı'
    · subst hd
      have hs : k = Tone.noTone ↔ k' = Tone.noTone := by
        rcases hs with hs | hs
        · exact hs
        · exact absurd (hs _ _ rfl).1 (by decide +kernel)
      rw [show soft 'ı' = 'ı' by decide +kernel, toASCII_dotless, toASCII_dotless, shown_cons, shown_cons, ih k k' ht (.inl hs) hk hk']
    by_cases hq : c = 'q'
    · subst hq
      have hs : k = Tone.noTone ↔ k' = Tone.noTone := by
        rcases hs with hs | hs
        · exact hs
        · exact absurd rfl (hs _ _ rfl).2
      rw [show soft 'q' = 'q' by decide +kernel, toASCII_q, toASCII_q, shown_cons, shown_cons, ih k k' ht (.inl hs) hk hk']
    have hd' : soft c ≠ 'ı' := fun h => hd ((soft_ı c hI).1 h)
    have hq' : soft c ≠ 'q' := fun h => hq ((soft_q c hQc).1 h)
    by_cases hv : Tone.isVowel c = true
    · have hs : k = Tone.noTone ↔ k' = Tone.noTone := by
        rcases hs with hs | hs
        · exact hs
        · rw [(hs _ _ rfl).1] at hv; cases hv
      have hv' : Tone.isVowel (soft c) = true := by rw [soft_vowel, hv]
      by_cases h : k = Tone.noTone
      · have h' := hs.1 h
        subst h h'
        rw [Tone.toASCIIGo, Tone.toASCIIGo, if_neg hd, if_neg hd', soft_tone]
        simp only [ne_eq, not_true_eq_false, if_false]
        split
        · rename_i htt
          rw [shown_cons, shown_cons, soft_ascii hU c htt, ih _ _ ht (.inl .rfl) (.inr (toneTab_vowel c htt).2) (.inr (toneTab_vowel c htt).2)]
        · rw [shown_cons, shown_cons, soft_lower hU c hI, ih _ _ ht (.inl .rfl) (.inl rfl) (.inl rfl)]
      · have h' : ¬ k' = Tone.noTone := fun h' => h (hs.2 h')
        rw [toASCII_vowel _ _ _ hv hd h, toASCII_vowel _ _ _ hv' hd' h', shown_cons, shown_cons, soft_lower hU c hI,
          ih _ _ ht (.inl hs) hk hk']
    · have hv : Tone.isVowel c = false := by simpa using hv
      have hv' : Tone.isVowel (soft c) = false := by rw [soft_vowel, hv]
      rw [toASCII_cons hU k c t hv hq hd hk, toASCII_cons hU k' (soft c) _ hv' hq' hd' hk', shown_cons, shown_cons,
        soft_lower hU c hI, ih _ _ ht (.inl .rfl) (.inl rfl) (.inl rfl)]

theorem soft_pred (hU : CaseOk U) (t : Str) (h : QEnds t) : wordPred U (t.map soft) = wordPred U t := by
  have := soft_toASCII hU t Tone.noTone Tone.noTone h (.inl .rfl) (.inl rfl) (.inl rfl)
  unfold wordPred
  unfold shown at this
  unfold Tone.toASCII
  rw [this]

/-! ### Variables -/

theorem splitVar_looks (t : Str) (h : (splitVar U t).isSome = true) : LooksVar t := by
  unfold splitVar splitVarIn at h
  split at h
  · rename_i o rest
    cases e : (oPairs Tone.diacritic).find? fun p => p.1 = o with
    | none => simp [e] at h
    | some p =>
      have ho := (o_iff o).1 (by rw [e]; rfl)
      refine ⟨.inl rfl, ho, ?_⟩
      intro c hc
      cases rest with
      | nil => simp at hc
      | cons a r =>
        simp only [List.head?_cons, Option.some.injEq] at hc
        subst hc
        simp only [e] at h
        split at h
        · simp at h
        · rename_i h1; exact fun h2 => h1 (List.contains_iff_mem.2 h2)
  · simp at h

theorem soft_looks (t : Str) (h : LooksVar (t.map soft)) : LooksVar t := by
  match t, h with
  | d :: o :: rest, h =>
    obtain ⟨h1, h2, h3⟩ := h
    refine ⟨?_, ?_, ?_⟩
    · refine (soft_ind (Q := fun c c' => (c' = 'd' ∨ c' = 'D') → (c = 'd' ∨ c = 'D')) (by decide +kernel) (fun _ _ h => h) d) h1
    · rw [← o_iff] at h2 ⊢
      rw [← soft_o]; exact h2
    · intro c hc hm
      cases rest with
      | nil => simp at hc
      | cons a r =>
        simp only [List.head?_cons, Option.some.injEq] at hc
        subst hc
        have := soft_endsNot a
        refine h3 (soft a) rfl ?_
        rw [← List.contains_iff_mem]
        exact this.trans (List.contains_iff_mem.2 hm)

theorem soft_var (hU : CaseOk U) (t : Str) (h : LooksVar t → 'D' ∉ t ∧ 'I' ∉ t) :
    (splitVar U (t.map soft)).map (·.2) = (splitVar U t).map (·.2) := by
  by_cases hl : LooksVar t
  · obtain ⟨hD, hI⟩ := h hl
    match t, hl with
    | d :: o :: rest, hl =>
      have hd : d = 'd' := by
        rcases hl.1 with h | h
        · exact h
        · subst h; simp at hD
      subst hd
      have hm : ∀ c ∈ 'd' :: o :: rest, c ≠ 'I' := fun c hc h => hI (h ▸ hc)
      have hl' : (rest.map soft).map U.lower = rest.map U.lower := by
        rw [List.map_map]
        apply List.map_congr_left
        intro c hc
        exact soft_lower hU c (hm c (by simp [hc]))
      have hs := soft_o o
      simp only [splitVar, splitVarIn, List.map_cons, show soft 'd' = 'd' by decide +kernel]
      revert hs
      cases (oPairs Tone.diacritic).find? fun p => p.1 = soft o <;> cases (oPairs Tone.diacritic).find? fun p => p.1 = o <;>
        intro hs <;> simp only [Option.isSome, reduceCtorEq, Bool.true_eq_false, Bool.false_eq_true] at hs ⊢
      cases rest with
      | nil => rfl
      | cons a r =>
        simp only [List.map_cons, soft_endsNot]
        split
        · rfl
        · simpa using hl'
  · have h1 : splitVar U t = none := by
      cases e : splitVar U t with
      | none => rfl
      | some x => exact absurd (splitVar_looks t (by rw [e]; rfl)) hl
    have h2 : splitVar U (t.map soft) = none := by
      cases e : splitVar U (t.map soft) with
      | none => rfl
      | some x => exact absurd (soft_looks t (splitVar_looks _ (by rw [e]; rfl))) hl
    rw [h1, h2]

/-- The interpreter does not tell a word from its small letters. -/
theorem soft_word (hU : CaseOk U) (t : Str) (h : CaseFree t) (hQ : QEnds t) : SameWord U t (t.map soft) where
  text := soft_text hU t
  var := soft_var hU t h
  hoa := soft_hoa hU t
  pred := soft_pred hU t hQ

end Verif.Logic
