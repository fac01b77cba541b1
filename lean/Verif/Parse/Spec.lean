/-
Specification vocabulary for parsing: the runes of a part of the text, lists of words that tile a part
of the text, and the normalised spelling of a part of the text. Nothing here uses the grammar or the
parser.
-/
import Verif.AST.Spec
import Verif.Peg.Expr

namespace Verif.Parse
open Verif.AST Verif.AST.Spec Verif.Peg
open Verif.Tone (Str)

/-- The text from byte offset `p` to byte offset `q` is the runes `cs`. -/
inductive Spans (I : Input) : Nat → Nat → Str → Prop
  | nil (p) : Spans I p p []
  | cons {p q c w cs} : p < I.len → I.next p = (c, w) → Spans I (p + w) q cs → Spans I p q (c :: cs)

/-- The words cover the text from `p` to `q` in order, without gaps and overlaps, and are not empty. -/
def Tiles : Nat → Nat → List Tok → Prop
  | p, q, [] => p = q
  | p, q, t :: l => t.s = p ∧ p < t.e ∧ Tiles t.e q l

/-- Vowels without tone mark. -/
def plainVowels : List Char := ['a', 'e', 'ı', 'o', 'u', 'A', 'E', 'I', 'O', 'U']

/-- The tones: the vowels of `plainVowels` with the diacritic of the tone, and the characters and
combining characters that write the tone. -/
def tones : List (List Char × List Char) := [
  ("āēīōūĀĒĪŌŪ".toList, ['-', '1', '̄']),
  ("áéíóúÁÉÍÓÚ".toList, ['/', '2', '́']),
  ("ǎěǐǒǔǍĚǏǑǓ".toList, ['V', '3', '̌', '̆']),
  ("ảẻỉỏủẢẺỈỎỦ".toList, ['?', '4', '̉']),
  ("âêîôûÂÊÎÔÛ".toList, ['^', '5', '̂']),
  ("àèìòùÀÈÌÒÙ".toList, ['\\', '6', '̀']),
  ("ãẽĩõũÃẼĨÕŨ".toList, ['~', '7', '̃'])]

/-- `d` is the vowel `l` with the tone written by the mark `m`. -/
def Toned (l m d : Char) : Prop :=
  ∃ t ∈ tones, m ∈ t.2 ∧ (l, d) ∈ plainVowels.zip t.1

/-- `Renders t cs`: `t` is the normalised spelling of `cs`. Runes stay as they are, except that `i`
becomes `ı`, and a tone mark after some letters is written as diacritic on the first one. -/
inductive Renders : Str → Str → Prop
  | nil : Renders [] []
  | char (c) : c ≠ 'i' → Renders [c] [c]
  | dotless : Renders ['ı'] ['i']
  | append {a b x y} : Renders a x → Renders b y → Renders (a ++ b) (x ++ y)
  | tone {l s cs m d} : Renders (l :: s) cs → Toned l m d → Renders (d :: s) (cs ++ [m])

/-- A token whose text is the normalised spelling of the slice given by its offsets. -/
def GoodTok (I : Input) (t : Tok) : Prop :=
  t.s < t.e ∧ ∃ cs, Spans I t.s t.e cs ∧ Renders t.t cs

/-! ### Letters without tones -/

/-- The letter under a diacritic (breve counts as caron, and ı as i). -/
def baseLetter (c : Char) : Char :=
  if "āáǎảâàãă".toList.contains c then 'a' else if "ēéěẻêèẽĕ".toList.contains c then 'e'
  else if "ıīíǐỉîìĩĭ".toList.contains c then 'i' else if "ōóǒỏôòõŏ".toList.contains c then 'o'
  else if "ūúǔủûùũŭ".toList.contains c then 'u' else if "ĀÁǍẢÂÀÃĂ".toList.contains c then 'A'
  else if "ĒÉĚẺÊÈẼĔ".toList.contains c then 'E' else if "ĪÍǏỈÎÌĨĬ".toList.contains c then 'I'
  else if "ŌÓǑỎÔÒÕŎ".toList.contains c then 'O' else if "ŪÚǓỦÛÙŨŬ".toList.contains c then 'U'
  else c

/-- A character that writes a tone. -/
def isMark (c : Char) : Bool := tones.any fun t => t.2.contains c

/-- The text without tones. -/
def letters (s : Str) : Str := (s.filter fun c => !isMark c).map baseLetter

example : letters "tỉo jai4 gí".toList = "tio jai gi".toList := by decide +kernel
example : Renders "jảı".toList "jai4".toList := by
  have h : Renders ("a".toList ++ "ı".toList) ("a".toList ++ "i".toList) := .append (.char 'a' (by decide)) .dotless
  exact Renders.append (.char 'j' (by decide))
    (Renders.tone (m := '4') (d := 'ả') h ⟨("ảẻỉỏủẢẺỈỎỦ".toList, ['?', '4', '̉']), by decide, by decide, by decide⟩)

theorem letters_append (a b : Str) : letters (a ++ b) = letters a ++ letters b := by simp [letters]

theorem toned_letters : ∀ t ∈ tones, ∀ m ∈ t.2, ∀ p ∈ plainVowels.zip t.1,
    isMark m = true ∧ isMark p.1 = false ∧ isMark p.2 = false ∧ baseLetter p.1 = baseLetter p.2 := by
  decide +kernel

/-- The normalised spelling has the same letters. -/
theorem Renders.letters {t cs : Str} (h : Renders t cs) : letters t = letters cs := by
  induction h with
  | nil => rfl
  | char c _ => rfl
  | dotless => decide +kernel
  | append _ _ h1 h2 => rw [letters_append, letters_append, h1, h2]
  | @tone l s cs m d _ ht ih =>
    obtain ⟨t, ht, hm, hp⟩ := ht
    obtain ⟨h1, h2, h3, h4⟩ := toned_letters t ht m hm _ hp
    rw [letters_append, ← ih]
    simp only at h2 h3 h4
    simp [Verif.Parse.letters, h1, h2, h3, h4]

theorem Renders.length {t cs : Str} (h : Renders t cs) : t.length ≤ cs.length := by
  induction h with
  | nil => simp
  | char c _ => simp
  | dotless => simp
  | append _ _ h1 h2 => simp; omega
  | tone _ _ ih => simp at ih ⊢; omega

/-- Text without `i` and tone marks stays as it is. -/
theorem Renders.same {t cs : Str} (h : Renders t cs) (hi : 'i' ∉ cs) (hm : ∀ c ∈ cs, isMark c = false) :
    t = cs := by
  induction h with
  | nil => rfl
  | char c _ => rfl
  | dotless => simp at hi
  | append _ _ h1 h2 =>
    simp only [List.mem_append, not_or] at hi hm
    rw [h1 hi.1 (fun c hc => hm c (.inl hc)), h2 hi.2 (fun c hc => hm c (.inr hc))]
  | @tone l s cs m d _ ht ih =>
    obtain ⟨t, ht, hm', hp⟩ := ht
    have := (toned_letters t ht m hm' _ hp).1
    rw [hm m (by simp)] at this
    cases this

theorem Renders.verbatim {cs : Str} (h : 'i' ∉ cs) : Renders cs cs := by
  induction cs with
  | nil => exact .nil
  | cons c cs ih =>
    simp only [List.mem_cons, not_or] at h
    exact Renders.append (a := [c]) (x := [c]) (.char c (fun hc => h.1 hc.symm)) (ih h.2)

/-! ### Facts on spans and tilings -/

theorem Spans.append {I : Input} {p m q cs ds} (h : Spans I p m cs) (h' : Spans I m q ds) :
    Spans I p q (cs ++ ds) := by
  induction h with
  | nil p => exact h'
  | cons h1 h2 _ ih => exact .cons h1 h2 (ih h')

theorem Spans.le {I : Input} {p q cs} (h : Spans I p q cs) : p ≤ q := by
  induction h with
  | nil p => exact Nat.le_refl _
  | cons h1 h2 _ ih => omega

theorem Spans.lt {I : Input} {p q c cs} (h : Spans I p q (c :: cs)) : p < q := by
  cases h with
  | cons h1 h2 h3 =>
    have := I.pos _ h1
    rw [h2] at this
    have h4 := h3.le
    simp at this
    omega

/-- The runes of a part of the text are determined by its offsets. -/
theorem Spans.unique {I : Input} {p q cs ds} (h : Spans I p q cs) (h' : Spans I p q ds) : cs = ds := by
  induction h generalizing ds with
  | nil p =>
    cases ds with
    | nil => rfl
    | cons d ds => exact absurd h'.lt (by omega)
  | @cons p q c w cs h1 h2 h3 ih =>
    cases h' with
    | nil => exact absurd (Spans.cons h1 h2 h3).lt (by omega)
    | cons h4 h5 h6 =>
      rw [h2] at h5
      injection h5 with h5 h7
      subst h5; subst h7
      rw [ih h6]

theorem Tiles.append {p m q : Nat} {a b : List Tok} (h : Tiles p m a) (h' : Tiles m q b) : Tiles p q (a ++ b) := by
  induction a generalizing p with
  | nil => simp only [Tiles] at h; subst h; exact h'
  | cons t l ih => exact ⟨h.1, h.2.1, ih h.2.2⟩

theorem Tiles.le {p q : Nat} {l : List Tok} (h : Tiles p q l) : p ≤ q := by
  induction l generalizing p with
  | nil => exact Nat.le_of_eq h
  | cons t l ih => have := ih h.2.2; have := h.2.1; omega

/-- The words of a tiling are determined by their start offsets: a tiling is in order of offsets. -/
theorem Tiles.sorted {p q : Nat} {l : List Tok} (h : Tiles p q l) :
    l.Pairwise (fun a b => a.e ≤ b.s) ∧ ∀ t ∈ l, p ≤ t.s ∧ t.s < t.e ∧ t.e ≤ q := by
  induction l generalizing p with
  | nil => simp
  | cons t l ih =>
    obtain ⟨h1, h2, h3⟩ := h
    obtain ⟨i1, i2⟩ := ih h3
    refine ⟨List.pairwise_cons.2 ⟨fun b hb => (i2 b hb).1, i1⟩, fun u hu => ?_⟩
    rcases List.mem_cons.1 hu with rfl | hu
    · have := h3.le; omega
    · have := i2 u hu; omega

end Verif.Parse
