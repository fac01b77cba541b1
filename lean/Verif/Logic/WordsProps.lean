/- Properties C38, C39, C47, C48: the words that the interpreter recognises. -/
import Verif.Logic.Words
import Verif.Tone.Props
import Verif.AST.VisitProps
import Mathlib.Data.List.Forall2

namespace Verif.Logic
open Verif.Tone (Str letter_facts)
open Verif.Tone.Spec

/-! ## C38 -/

/-- Spec: `w'` is `w` with the tone of its first vowel removed (an i becomes ı). -/
def FirstUntoned (w w' : Str) : Prop :=
  ((∀ c ∈ w, ¬ Tone.specVowel c) ∧ w' = w) ∨
  ∃ pre v post, (∀ c ∈ pre, ¬ Tone.specVowel c) ∧ w' = pre ++ v.plain :: post ∧
    ((v = .i ∧ w = pre ++ 'i' :: post) ∨ ∃ t b, w = pre ++ letter v t b :: post)

/-- Spec: the same letter, ignoring case and the dot of i. -/
def SameLetter (U : Uni) (x y : Char) : Prop :=
  U.lower (if x = 'ı' then 'i' else x) = U.lower (if y = 'ı' then 'i' else y)

/-- Spec: the word `w` is the word `b`, ignoring the tone of the first syllable, case and dots. -/
def Reads (U : Uni) (w b : Str) : Prop := ∃ w', FirstUntoned w w' ∧ List.Forall₂ (SameLetter U) w' b

theorem letter_none (v : V) (b : Bool) : letter v .none b = v.plain := by cases v <;> rfl

theorem firstUntoned_untone (w : Str) : FirstUntoned w (untone w) := by
  have hn : Tone.noTone = T.rune .none := rfl
  rcases Tone.first_vowel_cases w with h | ⟨pre, c, post, rfl, hpre, rfl | ⟨v, t, b, rfl⟩⟩
  · left; exact ⟨h, by simp [untone, Tone.C04_withTone_no_vowel w _ h]⟩
  · right
    refine ⟨pre, .i, post, hpre, ?_, Or.inl ⟨rfl, rfl⟩⟩
    rw [untone, hn, Tone.C04_withTone_first_i _ _ _ hpre, letter_none]; rfl
  · right
    refine ⟨pre, v, post, hpre, ?_, Or.inr ⟨t, b, rfl⟩⟩
    rw [untone, hn, Tone.C04_withTone_first_vowel _ _ _ _ _ _ hpre, letter_none]; rfl

theorem firstUntoned_eq {w w' : Str} (h : FirstUntoned w w') : w' = untone w := by
  have hn : Tone.noTone = T.rune .none := rfl
  rcases h with ⟨h, rfl⟩ | ⟨pre, v, post, hpre, rfl, ⟨rfl, rfl⟩ | ⟨t, b, rfl⟩⟩
  · simp [untone, Tone.C04_withTone_no_vowel _ _ h]
  · rw [untone, hn, Tone.C04_withTone_first_i _ _ _ hpre, letter_none]; rfl
  · rw [untone, hn, Tone.C04_withTone_first_vowel _ _ _ _ _ _ hpre, letter_none]; rfl

theorem sameText_iff (U : Uni) : ∀ a b : Str,
    sameText U a b = true ↔ List.Forall₂ (SameLetter U) a b
  | [], [] => by simp [sameText]
  | [], b :: bs => by simp [sameText]
  | a :: as, [] => by simp [sameText]
  | a :: as, b :: bs => by
    rw [List.forall₂_cons, ← sameText_iff U as bs]
    by_cases h : fold U a = fold U b
    · simp [sameText, h, SameLetter]; exact fun _ => h
    · have : ¬ SameLetter U a b := h
      simp [sameText, h, this]

/-- C38: `hasText(w, b)` exactly when `w` without the tone of its first syllable is `b`, ignoring
case and dots. -/
theorem C38_hasText (U : Uni) (w b : Str) : hasText U w b = true ↔ Reads U w b := by
  rw [hasText, sameText_iff]
  exact ⟨fun h => ⟨_, firstUntoned_untone w, h⟩, fun ⟨w', h, h'⟩ => firstUntoned_eq h ▸ h'⟩

/-- C38: the part of a word that is compared is unique. -/
theorem C38_unique (w a b : Str) (ha : FirstUntoned w a) (hb : FirstUntoned w b) : a = b := by
  rw [firstUntoned_eq ha, firstUntoned_eq hb]

def lowerAscii (b : Str) : Prop := ∀ c ∈ b, 'a' ≤ c ∧ c ≤ 'z'

theorem same_lower {U : Uni} (hU : U.Ok) {x y c : Char} (hx : 'a' ≤ x ∧ x ≤ 'z')
    (hy : 'a' ≤ y ∧ y ≤ 'z') (h : SameLetter U c x) (h' : SameLetter U c y) : x = y := by
  have key : ∀ x : Char, 'a' ≤ x ∧ x ≤ 'z' →
      U.lower (if x = 'ı' then 'i' else x) = x := by
    intro x hx
    have hlt : x.toNat < 128 := by
      have : x.toNat ≤ 'z'.toNat := hx.2
      have : 'z'.toNat = 122 := rfl
      omega
    have hne : x ≠ 'ı' := by
      rintro rfl
      exact absurd hlt (by decide)
    rw [if_neg hne, hU.lower x hlt]
    have : ¬ ('A' ≤ x ∧ x ≤ 'Z') := by
      rintro ⟨_, h⟩
      have h1 : 'a'.toNat ≤ x.toNat := hx.1
      have h2 : x.toNat ≤ 'Z'.toNat := h
      have h3 : 'a'.toNat = 97 := rfl
      have h4 : 'Z'.toNat = 90 := rfl
      omega
    rw [asciiLower, if_neg this]
  unfold SameLetter at h h'
  rw [key x hx] at h
  rw [key y hy] at h'
  rw [← h, h']

/-- C38: no word is read as two different function words. -/
theorem C38_exclusive (U : Uni) (hU : U.Ok) (w b b' : Str) (hb : lowerAscii b) (hb' : lowerAscii b')
    (h : hasText U w b = true) (h' : hasText U w b' = true) : b = b' := by
  rw [hasText, sameText_iff] at h h'
  generalize untone w = a at h h'
  induction h generalizing b' with
  | nil => cases h'; rfl
  | @cons x y as bs hxy _ ih =>
    cases h' with
    | @cons _ y' _ bs' hxy' hrest =>
      rw [same_lower hU (hb y (by simp)) (hb' y' (by simp)) hxy hxy',
        ih bs' (fun c hc => hb c (by simp [hc])) (fun c hc => hb' c (by simp [hc])) hrest]

theorem switchText_iff {α : Type} (U : Uni) (hU : U.Ok) (w : Str) (a : α) : ∀ l : List (Str × α),
    (∀ e ∈ l, lowerAscii e.1) → (l.map (·.1)).Nodup →
    (switchText U w l = some a ↔ ∃ b, (b, a) ∈ l ∧ Reads U w b)
  | [], _, _ => by simp [switchText]
  | (b, a') :: l, hl, hn => by
    have hl' : ∀ e ∈ l, lowerAscii e.1 := fun e he => hl e (by simp [he])
    have hn2 : b ∉ l.map (·.1) ∧ (l.map (·.1)).Nodup := by simpa using hn
    have ih := switchText_iff U hU w a l hl' hn2.2
    by_cases h : hasText U w b = true
    · rw [switchText, if_pos h]
      constructor
      · intro he; cases he
        exact ⟨b, by simp, (C38_hasText U w b).1 h⟩
      · rintro ⟨b', hm, hr⟩
        rcases List.mem_cons.1 hm with hm | hm
        · cases hm; rfl
        · have := C38_exclusive U hU w b b' (hl (b, a') (by simp)) (hl' _ hm) h
            ((C38_hasText U w b').2 hr)
          subst this
          exact absurd (List.mem_map.2 ⟨_, hm, rfl⟩) hn2.1
    · rw [switchText, if_neg h, ih]
      constructor
      · rintro ⟨b', hm, hr⟩; exact ⟨b', List.mem_cons_of_mem _ hm, hr⟩
      · rintro ⟨b', hm, hr⟩
        rcases List.mem_cons.1 hm with hm | hm
        · cases hm; exact absurd ((C38_hasText U w _).2 hr) h
        · exact ⟨b', hm, hr⟩

/-- Spec: the Toaq words of the connectives. -/
def connWord : Conn → Str
  | .and => "ru".toList | .or => "ra".toList | .ri => "ri".toList

/-- Spec: the Toaq words of the quantifiers; `all` is introduced only by the interpreter. -/
def quantWord : Quant → Option Str
  | .the => some "ke".toList | .lambda => some "ja".toList | .some => some "sa".toList
  | .each => some "tu".toList | .none => some "sia".toList | .hi => some "hi".toList
  | .all => none

/-- Spec: the Toaq words of places. -/
def placeWord : Nat → Option Str
  | 1 => some "fi".toList | 2 => some "go".toList | 3 => some "cu".toList | 4 => some "ta".toList
  | _ => none

/-- C38: connectives. `connector` panics on all other words, `roi` among them. -/
theorem C38_connector (U : Uni) (hU : U.Ok) (w : Str) (c : Conn) :
    connector U w = some c ↔ Reads U w (connWord c) := by
  rw [connector, switchText_iff U hU w c _ (by unfold lowerAscii; decide) (by decide)]
  cases c <;> simp [connWord]

/-- C38: quantifiers. -/
theorem C38_quantifier (U : Uni) (hU : U.Ok) (w : Str) (q : Quant) :
    quantifier U (some w) = some q ↔ ∃ b, quantWord q = some b ∧ Reads U w b := by
  rw [quantifier, switchText_iff U hU w q _ (by unfold lowerAscii; decide) (by decide)]
  cases q <;> simp [quantWord]

/-- C38: a missing quantifier is ke. -/
theorem C38_no_quantifier (U : Uni) : quantifier U none = some .the := rfl

/-- C38: places. -/
theorem C38_place (U : Uni) (hU : U.Ok) (w : Str) (k : Nat) :
    goPos U w = some k ↔ ∃ b, placeWord k = some b ∧ Reads U w b := by
  rw [goPos, switchText_iff U hU w k _ (by unfold lowerAscii; decide) (by decide)]
  rcases k with _ | _ | _ | _ | _ | k <;> simp [placeWord]

/-- C38: hoa in any tone and case. -/
theorem C38_hoa (U : Uni) (w : Str) :
    isHoa U w = true ↔ ∃ w', FirstUntoned w w' ∧ w'.map U.lower = "hoa".toList := by
  rw [isHoa, decide_eq_true_eq]
  exact ⟨fun h => ⟨_, firstUntoned_untone w, h⟩, fun ⟨w', h, h'⟩ => firstUntoned_eq h ▸ h'⟩

example : isHoa asciiUni "Hỏa".toList = true := by decide +kernel

/-- C38: po and jei. -/
theorem C38_po (U : Uni) (hU : U.Ok) (w : Str) (s : Str) :
    poPred U w = some s ↔ (Reads U w "po".toList ∧ s = "raq".toList) ∨
      (Reads U w "jei".toList ∧ s = "=".toList) := by
  rw [poPred, switchText_iff U hU w s _ (by unfold lowerAscii; decide) (by decide)]
  simp [equalName]
  constructor
  · rintro ⟨b, ⟨rfl, rfl⟩ | ⟨rfl, rfl⟩, h⟩
    exacts [Or.inl ⟨h, rfl⟩, Or.inr ⟨h, rfl⟩]
  · rintro (⟨h, rfl⟩ | ⟨h, rfl⟩)
    exacts [⟨_, Or.inl ⟨rfl, rfl⟩, h⟩, ⟨_, Or.inr ⟨rfl, rfl⟩, h⟩]

/-- C38: mi and shu. -/
theorem C38_mi (U : Uni) (hU : U.Ok) (w : Str) (p : Node) :
    miPred U w = some p ↔ (Reads U w "mi".toList ∧ p = .swap (.name "chua".toList) 1) ∨
      (Reads U w "shu".toList ∧ p = .name "=".toList) := by
  rw [miPred, switchText_iff U hU w p _ (by unfold lowerAscii; decide) (by decide)]
  simp [equalName]
  constructor
  · rintro ⟨b, ⟨rfl, rfl⟩ | ⟨rfl, rfl⟩, h⟩
    exacts [Or.inl ⟨h, rfl⟩, Or.inr ⟨h, rfl⟩]
  · rintro (⟨h, rfl⟩ | ⟨h, rfl⟩)
    exacts [⟨_, Or.inl ⟨rfl, rfl⟩, h⟩, ⟨_, Or.inr ⟨rfl, rfl⟩, h⟩]

example : Reads asciiUni "SÍa".toList "sia".toList :=
  (C38_hasText _ _ _).1 (by decide +kernel)
example : quantifier asciiUni (some "SÍa".toList) = some .none := by decide +kernel
example : connector asciiUni "Rı".toList = some .ri := by decide +kernel
example : connector asciiUni "roı".toList = none := by decide +kernel

/-! ## C39 -/

/-- Spec: `s` is d, an o with tone `t`, and `rest`, where the o ends its syllable. -/
def DoVar (s : Str) (t : T) (rest : Str) : Prop :=
  ∃ v alt, (v = .o ∨ v = .O) ∧ t ≠ .none ∧ s = 'd' :: letter v t alt :: rest ∧
    ∀ c, rest.head? = some c → c ∉ "aeiıouAEIOUqQ".toList

theorem oPairs_facts : ∀ p ∈ oPairs Tone.diacritic, ∃ v ∈ [V.o, V.O], ∃ t ∈ Tone.allT,
    ∃ b ∈ [true, false], t ≠ .none ∧ p = (letter v t b, t.rune) := by decide +kernel

theorem oPairs_complete : ∀ v ∈ [V.o, V.O], ∀ t ∈ Tone.allT, ∀ b ∈ [true, false], t ≠ .none →
    (letter v t b, t.rune) ∈ oPairs Tone.diacritic := by decide +kernel

theorem oPairs_functional : ∀ p ∈ oPairs Tone.diacritic, ∀ q ∈ oPairs Tone.diacritic,
    p.1 = q.1 → p.2 = q.2 := by decide +kernel

theorem rune_inj : ∀ t ∈ Tone.allT, ∀ t' ∈ Tone.allT, t.rune = t'.rune → t = t' := by decide

theorem splitVarIn_iff (U : Uni) (os : List (Char × Char))
    (hf : ∀ p ∈ os, ∀ q ∈ os, p.1 = q.1 → p.2 = q.2) (s : Str) (t : Char) (name : Str) :
    splitVarIn U os s = some (t, name) ↔ ∃ o rest, s = 'd' :: o :: rest ∧ (o, t) ∈ os ∧
      (∀ c, rest.head? = some c → c ∉ "aeiıouAEIOUqQ".toList) ∧
      name = (['d', 'o'] ++ rest).map U.lower := by
  unfold splitVarIn
  split
  · next o rest =>
    cases hfind : os.find? (fun p => p.1 = o) with
    | none =>
      simp only [reduceCtorEq, false_iff]
      rintro ⟨o', rest', he, hm, _⟩
      cases he
      have := List.find?_eq_none.1 hfind _ hm
      simp at this
    | some p =>
      have hp1 : p.1 = o := by simpa using List.find?_some hfind
      have hpm : p ∈ os := List.mem_of_find?_eq_some hfind
      have ht : ∀ t', (o, t') ∈ os ↔ p.2 = t' := by
        intro t'
        constructor
        · intro h; exact hf p hpm (o, t') h hp1
        · rintro rfl; rw [← hp1]; exact hpm
      cases rest with
      | nil =>
        simp only [Option.some.injEq, Prod.mk.injEq]
        constructor
        · rintro ⟨rfl, rfl⟩
          exact ⟨o, [], rfl, (ht _).2 rfl, by simp, rfl⟩
        · rintro ⟨o', rest', he, hm, _, hn⟩
          cases he
          exact ⟨(ht _).1 hm, hn.symm⟩
      | cons a rest =>
        by_cases ha : endsNot a = true
        · simp only [ha, if_true, reduceCtorEq, false_iff]
          rintro ⟨o', rest', he, hm, hh, _⟩
          cases he
          exact hh a rfl (List.contains_iff_mem.1 ha)
        · simp only [if_neg ha, Option.some.injEq, Prod.mk.injEq]
          constructor
          · rintro ⟨rfl, rfl⟩
            refine ⟨o, a :: rest, rfl, (ht _).2 rfl, ?_, rfl⟩
            intro c hc
            simp only [List.head?_cons, Option.some.injEq] at hc
            subst hc
            exact fun h => ha (List.contains_iff_mem.2 h)
          · rintro ⟨o', rest', he, hm, _, hn⟩
            cases he
            exact ⟨(ht _).1 hm, hn.symm⟩
  · next h =>
    simp only [reduceCtorEq, false_iff]
    rintro ⟨o, rest, rfl, _⟩
    exact h o rest rfl

/-- C39: `splitVar` succeeds exactly on a d followed by a toned o that ends its syllable, and
returns the tone and the rest after "do", in lower case. -/
theorem C39_splitVar (U : Uni) (s : Str) (t : Char) (name : Str) :
    splitVar U s = some (t, name) ↔ ∃ k rest, DoVar s k rest ∧ t = k.rune ∧
      name = (['d', 'o'] ++ rest).map U.lower := by
  rw [splitVar, splitVarIn_iff U _ oPairs_functional]
  constructor
  · rintro ⟨o, rest, rfl, hm, hh, rfl⟩
    obtain ⟨v, hv, k, -, b, -, hk, he⟩ := oPairs_facts _ hm
    cases he
    exact ⟨k, rest, ⟨v, b, by simpa using hv, hk, rfl, hh⟩, rfl, rfl⟩
  · rintro ⟨k, rest, ⟨v, b, hv, hk, rfl, hh⟩, rfl, rfl⟩
    exact ⟨_, rest, rfl, oPairs_complete v (by simpa using hv) k (Tone.mem_allT k) b
      (by cases b <;> decide) hk, hh, rfl⟩

/-- C39: the table built by iterating over Go maps may come in any order. -/
theorem C39_order (U : Uni) (d : Tone.DMap) (h : Tone.Reorder Tone.diacritic d) (s : Str) :
    splitVarIn U (oPairs d) s = splitVar U s := by
  have hmem : ∀ p, p ∈ oPairs d ↔ p ∈ oPairs Tone.diacritic := by
    have key : ∀ d' : Tone.DMap, ∀ p, p ∈ oPairs d' ↔ ∃ arr : Char × List Char,
        (∃ trs ∈ d', trs.1 = p.2 ∧ arr ∈ trs.2) ∧ ¬ (arr.1 ≠ 'o' ∧ arr.1 ≠ 'O') ∧ p.1 ∈ arr.2 := by
      intro d' p
      simp only [oPairs, List.mem_flatMap]
      constructor
      · rintro ⟨trs, ht, arr, ha, hp⟩
        split at hp
        · cases hp
        · next hne =>
          obtain ⟨e, he, rfl⟩ := List.mem_map.1 hp
          exact ⟨arr, ⟨trs, ht, rfl, ha⟩, hne, he⟩
      · rintro ⟨arr, ⟨trs, ht, h1, ha⟩, hne, hp⟩
        refine ⟨trs, ht, arr, ha, ?_⟩
        rw [if_neg hne]
        exact List.mem_map.2 ⟨p.1, hp, by rw [h1]⟩
    intro p
    rw [key, key]
    constructor
    · rintro ⟨arr, h1, h2⟩
      exact ⟨arr, (Tone.mem_reorder h _ _).1 h1, h2⟩
    · rintro ⟨arr, h1, h2⟩
      exact ⟨arr, (Tone.mem_reorder h _ _).2 h1, h2⟩
  have hf : ∀ p ∈ oPairs d, ∀ q ∈ oPairs d, p.1 = q.1 → p.2 = q.2 := fun p hp q hq =>
    oPairs_functional p ((hmem p).1 hp) q ((hmem q).1 hq)
  apply Option.ext
  rintro ⟨t, name⟩
  rw [splitVarIn_iff U _ hf, splitVar, splitVarIn_iff U _ oPairs_functional]
  simp only [hmem]

/-- C39: two words name the same variable exactly when they differ only in the tone of the o and in
case. -/
theorem C39_same (U : Uni) (s s' : Str) (k k' : T) (rest rest' : Str) (h : DoVar s k rest)
    (h' : DoVar s' k' rest') : (splitVar U s).map (·.2) = (splitVar U s').map (·.2) ↔
      rest.map U.lower = rest'.map U.lower := by
  rw [(C39_splitVar U s _ _).2 ⟨k, rest, h, rfl, rfl⟩, (C39_splitVar U s' _ _).2 ⟨k', rest', h', rfl, rfl⟩]
  simp

/-- C39: a capital D is never a variable. -/
theorem C39_capital (U : Uni) (s : Str) : splitVar U ('D' :: s) = none := rfl

example : DoVar "dóbı".toList .rising "bı".toList :=
  ⟨.o, false, Or.inl rfl, by decide, rfl, by decide⟩
example : splitVar asciiUni "dóqshi".toList = none := by decide +kernel
example : splitVar asciiUni "do".toList = none := by decide +kernel

/-! ## C47: names of predicates -/

/-- Spec: the name in the notation of a word with the given letters. -/
def notation_ (s : Str) : Str :=
  if s = "mea".toList then ['≺'] else if s = "jeqtu".toList then ['='] else s

theorem letters_wordPred {U : Uni} (hU : U.Ok) (s : Syll) (hs : s.ok) :
    (s.spell.map U.lower).flatMap (wordPredRune U) = s.letters.map asciiLower := by
  have key : ∀ c, isASCII c → U.lower c = asciiLower c := by
    intro c hc
    have : c.toNat < 128 := hc
    exact hU.lower c this
  have good : ∀ c : Char, c.toNat < 128 → (asciiLetter c = true ∧ c ≠ 'v' ∧ c ≠ 'V') →
      wordPredRune U (U.lower c) = [asciiLower c] := by
    intro c hc h
    rw [hU.lower c hc]
    have h2 : ∀ n < 128, asciiLetter (Char.ofNat n) = true ∧ Char.ofNat n ≠ 'v' ∧ Char.ofNat n ≠ 'V' →
        asciiLower (Char.ofNat n) ≠ 'v' ∧ asciiLower (Char.ofNat n) ≠ 'ı' ∧
        asciiLetter (asciiLower (Char.ofNat n)) = true ∧ (asciiLower (Char.ofNat n)).toNat < 128 := by
      decide +kernel
    have h3 := h2 c.toNat hc
    rw [Char.ofNat_toNat] at h3
    obtain ⟨a, b, d, e⟩ := h3 h
    rw [wordPredRune, if_neg a, if_neg b, hU.letter _ e, d, if_pos rfl]
  have hc : ∀ c ∈ consonants, c.toNat < 128 ∧ (asciiLetter c = true ∧ c ≠ 'v' ∧ c ≠ 'V') := by decide
  have hv : ∀ v : V, v.ascii.toNat < 128 ∧ (asciiLetter v.ascii = true ∧ v.ascii ≠ 'v' ∧ v.ascii ≠ 'V') := by
    intro v; cases v <;> decide
  have gen : ∀ l : Str, (∀ c ∈ l, c.toNat < 128 ∧ (asciiLetter c = true ∧ c ≠ 'v' ∧ c ≠ 'V')) →
      (l.map U.lower).flatMap (wordPredRune U) = l.map asciiLower := by
    intro l
    induction l with
    | nil => intro _; rfl
    | cons c l ih =>
      intro h
      have h1 := h c (by simp)
      rw [List.map_cons, List.flatMap_cons, good c h1.1 h1.2, ih (fun c hc => h c (by simp [hc]))]
      rfl
  have hmark : (s.tone.mark.map U.lower).flatMap (wordPredRune U) = [] := by
    have : ∀ c ∈ ['-', '/', '?', '^', '\\', '~'], wordPredRune U (U.lower c) = [] := by
      intro c hc
      have h1 : ∀ c ∈ ['-', '/', '?', '^', '\\', '~'], c.toNat < 128 ∧ asciiLower c = c ∧ c ≠ 'v' ∧
        c ≠ 'ı' ∧ asciiLetter c = false := by decide
      obtain ⟨h2, h3, h4, h5, h6⟩ := h1 c hc
      rw [hU.lower c h2, h3, wordPredRune, if_neg h4, if_neg h5, hU.letter c h2, h6]
      rfl
    cases s.tone <;> simp [T.mark, this]
    rw [hU.lower 'V' (by decide)]
    rfl
  rw [Syll.spell, List.map_append, List.flatMap_append, hmark, List.append_nil]
  apply gen
  intro c hcm
  simp only [Syll.letters, List.mem_append, List.mem_cons, List.mem_map] at hcm
  rcases hcm with h | h | ⟨v, _, rfl⟩ | h
  · exact hc c (hs.2 c h)
  · rw [h]; exact hv _
  · exact hv _
  · have : c = 'q' := by
      cases hq : s.q <;> simp [hq, qStr] at h; exact h
    rw [this]; decide

/-- C47: the name of a predicate is the letters of the word in lower case: tone and case of the
word do not matter. -/
theorem C47_wordPred (U : Uni) (hU : U.Ok) (w : Word) (hw : Word.ok w) :
    wordPred U (Word.render w) = notation_ ((Word.letters w).map asciiLower) := by
  have : ((Tone.toASCII (Word.render w)).map U.lower).flatMap (wordPredRune U) =
      (Word.letters w).map asciiLower := by
    rw [Tone.C01_toASCII_word w hw]
    simp only [Word.spell, Word.letters]
    induction w with
    | nil => rfl
    | cons s w ih =>
      simp only [List.flatMap_cons, List.map_append, List.flatMap_append]
      rw [letters_wordPred hU s (hw s (by simp)), ih (fun s hs => hw s (by simp [hs]))]
  unfold wordPred
  simp only [this]
  rfl

example : wordPred asciiUni (Word.render exWord) = "joqshaihao".toList := by decide +kernel
example : wordPred asciiUni "Meả".toList = "≺".toList := by decide +kernel
example : wordPred asciiUni "méa".toList = "≺".toList := by decide +kernel

/-! ## C48: quoted text -/

theorem visit_text (n : AST.Node) : ∀ s : Str,
    AST.visit textVisitor n () s = s ++ (AST.Spec.words n).flatMap (·.t) := by
  revert n
  apply AST.children_induct
  intro n ih s
  rw [AST.C08_visit]
  have h1 : textVisitor () (some n) s = (s ++ (AST.enteredWords [n]).flatMap (·.t), some ()) := by
    cases n with
    | word k w => cases k <;> simp [textVisitor, AST.enteredWords]
    | _ => simp [textVisitor, AST.enteredWords]
  rw [h1]
  simp only
  have h2 : ∀ (l : List AST.Node), (∀ c ∈ l, c ∈ AST.Spec.children n) → ∀ s : Str,
      l.foldl (fun s c => AST.visit textVisitor c () s) s = s ++ (l.flatMap AST.Spec.words).flatMap (·.t) := by
    intro l
    induction l with
    | nil => intro _ s; simp
    | cons c l ihl =>
      intro h s
      rw [List.foldl_cons, ih c (h c (by simp)), ihl (fun c hc => h c (by simp [hc]))]
      simp
  rw [h2 _ (fun _ h => h)]
  rw [AST.words_children n]
  simp [textVisitor]

theorem dropWhile_head {p : Char → Bool} (l : Str) :
    ∀ c, (l.dropWhile p).head? = some c → p c = false := by
  induction l with
  | nil => simp
  | cons a l ih =>
    intro c
    by_cases h : p a
    · rw [List.dropWhile_cons_of_pos h]; exact ih c
    · rw [List.dropWhile_cons_of_neg h]; intro hc; simp at hc; subst hc; simpa using h

theorem dropWhile_split {p : Char → Bool} (l : Str) :
    ∃ a, l = a ++ l.dropWhile p ∧ ∀ c ∈ a, p c = true :=
  ⟨l.takeWhile p, List.takeWhile_append_dropWhile.symm, fun c hc => List.all_eq_true.1 (List.all_takeWhile) c hc⟩

/-- C48: the text of a quote is the text of all words of the quoted part, in order, up to space at
both ends. -/
theorem C48_quote (U : Uni) (n : AST.Node) : ∃ a b : Str,
    (AST.Spec.words n).flatMap (·.t) = a ++ nodeText U n ++ b ∧
    (∀ c ∈ a, U.space c = true) ∧ (∀ c ∈ b, U.space c = true) ∧
    (∀ c, (nodeText U n).head? = some c → U.space c = false) ∧
    (∀ c, (nodeText U n).getLast? = some c → U.space c = false) := by
  unfold nodeText trimSpace
  rw [visit_text, List.nil_append]
  generalize (AST.Spec.words n).flatMap (·.t) = s
  obtain ⟨a, ha, hsa⟩ := dropWhile_split (p := U.space) s
  obtain ⟨b, hb, hsb⟩ := dropWhile_split (p := U.space) (s.dropWhile U.space).reverse
  have hb2 : s.dropWhile U.space =
      ((s.dropWhile U.space).reverse.dropWhile U.space).reverse ++ b.reverse := by
    have := congrArg List.reverse hb
    rwa [List.reverse_reverse, List.reverse_append] at this
  refine ⟨a, b.reverse, ?_, hsa, by simpa using hsb, ?_, ?_⟩
  · rw [List.append_assoc, ← hb2, ← ha]
  · intro c hc
    apply dropWhile_head s c
    rw [hb2, List.head?_append, hc]; rfl
  · intro c hc
    rw [List.getLast?_reverse] at hc
    exact dropWhile_head _ c hc

end Verif.Logic
