/-
The particles of parsed texts (C53) are words that the interpreter knows (C38).
-/
import Verif.Logic.WordsProps
import Verif.Parse.ClassSpec

namespace Verif.Logic.Parsed
open Verif.Tone (Str specVowel isVowel_iff)
open Verif.Tone.Spec (V T letter)
open Verif.Parse (foldLetter baseLetter toned Plainly WithTone)

variable {U : Uni}

theorem nat_lt {c : Char} (h : c ≤ 'z') : c.toNat < 128 := by
  have h1 : c.toNat ≤ 'z'.toNat := h
  have h2 : 'z'.toNat = 122 := rfl
  omega

theorem lower_lower {c : Char} (h : 'a' ≤ c) : asciiLower c = c := by
  have : ¬ ('A' ≤ c ∧ c ≤ 'Z') := by
    rintro ⟨_, h'⟩
    have h1 : 'a'.toNat ≤ c.toNat := h
    have h2 : c.toNat ≤ 'Z'.toNat := h'
    have h3 : 'a'.toNat = 97 := rfl
    have h4 : 'Z'.toNat = 90 := rfl
    omega
  rw [asciiLower, if_neg this]

theorem same_ascii (hU : U.Ok) {c : Char} (hc : c.toNat < 128) (hd : 'a' ≤ asciiLower c ∧ asciiLower c ≤ 'z') :
    SameLetter U c (asciiLower c) := by
  have h1 : c ≠ 'ı' := by rintro rfl; exact absurd hc (by decide)
  have h2 : asciiLower c ≠ 'ı' := by
    intro h
    rw [h] at hd
    exact absurd hd.2 (by decide)
  unfold SameLetter
  rw [if_neg h1, if_neg h2, hU.lower c hc, hU.lower _ (nat_lt hd.2), lower_lower hd.1]

theorem untoned_same (hU : U.Ok) {c : Char} (h : toned c = false) (hl : 'a' ≤ foldLetter c ∧ foldLetter c ≤ 'z') :
    SameLetter U c (foldLetter c) := by
  simp only [toned, Bool.and_eq_false_iff, bne_eq_false_iff_eq] at h
  rcases h with h | h
  · unfold foldLetter at hl ⊢
    rw [h] at hl ⊢
    refine same_ascii hU ?_ hl
    unfold asciiLower at hl
    split at hl
    · rename_i hc
      have h1 : c.toNat ≤ 'Z'.toNat := hc.2
      have h2 : 'Z'.toNat = 90 := rfl
      omega
    · exact nat_lt hl.2
  · subst h
    have e : foldLetter 'ı' = 'i' := by decide
    rw [e]
    unfold SameLetter
    rw [if_pos rfl, if_neg (by decide)]

/-- The first letter of a vowel's name in lower case. -/
theorem letter_fold (v : V) (t : T) (b : Bool) : foldLetter (letter v t b) = asciiLower v.ascii := by
  cases v <;> cases t <;> cases b <;> decide

theorem plain_same (hU : U.Ok) (v : V) (t : T) (b : Bool) : SameLetter U v.plain (foldLetter (letter v t b)) := by
  rw [letter_fold]
  cases v with
  | i =>
    have e : asciiLower V.i.ascii = 'i' := by decide
    rw [e]
    unfold SameLetter
    rw [if_pos (by decide), if_neg (by decide)]
  | _ => exact same_ascii hU (by decide) (by decide)

def vowels : Str := "aeiou".toList

theorem vowel_fold {c : Char} (h : specVowel c) : vowels.contains (foldLetter c) = true := by
  rcases h with rfl | ⟨v, t, b, rfl⟩
  · decide
  · rw [letter_fold]; cases v <;> decide

theorem toned_vowel {c : Char} (h : toned c = true) : specVowel c := by
  rw [← isVowel_iff]
  simp only [toned, Bool.and_eq_true, bne_iff_ne, ne_eq] at h
  have h1 := h.1
  unfold baseLetter at h1
  have key : ∀ l : Str, (l.all Verif.Tone.isVowel) = true → l.contains c = true → Verif.Tone.isVowel c = true := by
    intro l hl hc
    exact List.all_eq_true.1 hl c (by simpa using hc)
  repeat' split at h1
  all_goals first
    | exact absurd rfl h1
    | (rename_i hc; exact key _ (by decide +kernel) hc)

theorem fold_vowel {c : Char} (h : vowels.contains (foldLetter c) = true) : specVowel c := by
  cases ht : toned c with
  | true => exact toned_vowel ht
  | false =>
    simp only [toned, Bool.and_eq_false_iff, bne_eq_false_iff_eq] at ht
    rcases ht with ht | rfl
    · unfold foldLetter at h
      rw [ht] at h
      have : c ∈ "aeiouAEIOU".toList := by
        unfold asciiLower at h
        split at h
        · rename_i hc
          have hcn : 'A'.toNat ≤ c.toNat ∧ c.toNat ≤ 'Z'.toNat := hc
          have e1 : 'A'.toNat = 65 := rfl
          have e2 : 'Z'.toNat = 90 := rfl
          have hall : ∀ n, n ≤ 90 → vowels.contains (Char.ofNat (n + 32)) = true → Char.ofNat n ∈ "aeiouAEIOU".toList ∨ n < 65 := by
            decide +kernel
          have hc' : Char.ofNat c.toNat = c := Char.ofNat_toNat c
          rcases hall c.toNat (by omega) h with h | h
          · rwa [hc'] at h
          · omega
        · have : c ∈ vowels := by simpa using h
          revert this
          simp [vowels]
          grind
      rw [← isVowel_iff]
      exact List.all_eq_true.1 (by decide +kernel : ("aeiouAEIOU".toList.all Verif.Tone.isVowel) = true) c this
    · exact (isVowel_iff _).1 (by decide +kernel)

/-- Only the first vowel of the text may have a tone. -/
def FirstOnly (t : Str) : Prop :=
  ∀ pre c post, t = pre ++ c :: post → (∀ x ∈ pre, ¬ specVowel x) → specVowel c → ∀ x ∈ post, toned x = false

theorem reads_first (hU : U.Ok) {t : Str} (ho : FirstOnly t) (hl : lowerAscii (t.map foldLetter)) :
    Reads U t (t.map foldLetter) := by
  have hl' : ∀ c ∈ t, 'a' ≤ foldLetter c ∧ foldLetter c ≤ 'z' := fun c hc => hl _ (List.mem_map.2 ⟨c, hc, rfl⟩)
  have same : ∀ l : Str, (∀ c ∈ l, toned c = false) → (∀ c ∈ l, 'a' ≤ foldLetter c ∧ foldLetter c ≤ 'z') →
      List.Forall₂ (SameLetter U) l (l.map foldLetter) := by
    intro l
    induction l with
    | nil => intro _ _; exact .nil
    | cons a l ih =>
      intro h1 h2
      exact .cons (untoned_same hU (h1 a (by simp)) (h2 a (by simp)))
        (ih (fun c hc => h1 c (by simp [hc])) (fun c hc => h2 c (by simp [hc])))
  have nov : ∀ l : Str, (∀ c ∈ l, ¬ specVowel c) → ∀ c ∈ l, toned c = false := by
    intro l h c hc
    cases ht : toned c with
    | false => rfl
    | true => exact absurd (toned_vowel ht) (h c hc)
  have app : ∀ (a b c d : Str), List.Forall₂ (SameLetter U) a b → List.Forall₂ (SameLetter U) c d →
      List.Forall₂ (SameLetter U) (a ++ c) (b ++ d) := by
    intro a b c d h h'
    induction h with
    | nil => exact h'
    | cons x _ ih => exact .cons x ih
  rcases Tone.first_vowel_cases t with h | ⟨pre, c, post, rfl, hpre, hc⟩
  · exact ⟨t, .inl ⟨h, rfl⟩, same t (nov t h) hl'⟩
  · have hpost := ho pre c post rfl hpre hc
    have h1 := same pre (nov pre hpre) (fun x hx => hl' x (by simp [hx]))
    have h2 := same post hpost (fun x hx => hl' x (by simp [hx]))
    rcases hc with rfl | ⟨v, t, b, rfl⟩
    · refine ⟨pre ++ V.i.plain :: post, .inr ⟨pre, .i, post, hpre, rfl, .inl ⟨rfl, rfl⟩⟩, ?_⟩
      rw [List.map_append, List.map_cons]
      refine app _ _ _ _ h1 (.cons ?_ h2)
      exact plain_same hU .i .none false
    · refine ⟨pre ++ v.plain :: post, .inr ⟨pre, v, post, hpre, rfl, .inr ⟨t, b, rfl⟩⟩, ?_⟩
      rw [List.map_append, List.map_cons]
      exact app _ _ _ _ h1 (.cons (plain_same hU v t b) h2)

theorem reads_plain (hU : U.Ok) {t w : Str} (h : Plainly t w) (hw : lowerAscii w) : Reads U t w := by
  obtain ⟨rfl, h2⟩ := h
  refine reads_first hU ?_ hw
  rintro pre c post rfl _ _ x hx
  exact h2 x (by simp [hx])

theorem reads_toned (hU : U.Ok) {t w : Str} (h : WithTone t w) (hw : lowerAscii w) : Reads U t w := by
  obtain ⟨rfl, a, c, b, rfl, h1, h2, h3⟩ := h
  refine reads_first hU ?_ hw
  intro pre d post he hp hd x hx
  have ha : ∀ y ∈ a, ¬ specVowel y := by
    intro y hy hv
    have := vowel_fold hv
    have h' := h1 y hy
    rw [show vowels = "aeiou".toList from rfl, h'] at this
    cases this
  have hc : specVowel c := fold_vowel h2
  have key : ∀ (a pre : Str), a ++ c :: b = pre ++ d :: post → (∀ y ∈ a, ¬ specVowel y) → (∀ y ∈ pre, ¬ specVowel y) →
      post = b := by
    intro a
    induction a with
    | nil =>
      intro pre he _ hp
      cases pre with
      | nil => simp at he; exact he.2.symm
      | cons y pre =>
        simp at he
        exact absurd (he.1 ▸ hc) (hp y (by simp))
    | cons z a ih =>
      intro pre he ha hp
      cases pre with
      | nil =>
        simp at he
        exact absurd (he.1 ▸ hd) (ha z (by simp))
      | cons y pre =>
        simp at he
        exact ih pre he.2 (fun y hy => ha y (by simp [hy])) (fun y hy => hp y (by simp [hy]))
  rw [key a pre he ha hp] at hx
  exact h3 x (by simp [hx])

end Verif.Logic.Parsed
