/-
Specification vocabulary for package tone: Toaq words as lists of syllables, written without
reference to the functions of the model (only to the Diacritic table, which is data).
-/
import Verif.Tone.Model

namespace Verif.Tone.Spec
open Verif.Tone

/-- Letters of the grammar rule `initial` (ast/toaq.peggy:359), both cases. -/
def consonants : Str :=
  ['b','c','d','f','g','h','j','k','l','m','n','p','r','s','t',
   'B','C','D','F','G','H','J','K','L','M','N','P','R','S','T']

/-- The seven tones and no tone. -/
inductive T | flat | rising | dipping | creaky | falling | low | rising2 | none
deriving DecidableEq, Repr

/-- The ASCII tone marker. -/
def T.mark : T → Str
  | .flat => ['-'] | .rising => ['/'] | .dipping => ['V'] | .creaky => ['?']
  | .falling => ['^'] | .low => ['\\'] | .rising2 => ['~'] | .none => []

/-- The tone rune passed to `WithTone` and returned by `Tone`. -/
def T.rune : T → Char
  | .flat => '-' | .rising => '/' | .dipping => 'V' | .creaky => '?'
  | .falling => '^' | .low => '\\' | .rising2 => '~' | .none => '\x00'

/-- Base vowel letters: a u ı o e, lower and upper case. -/
inductive V | a | u | i | o | e | A | U | I | O | E
deriving DecidableEq, Repr

def V.ascii : V → Char
  | .a => 'a' | .u => 'u' | .i => 'i' | .o => 'o' | .e => 'e'
  | .A => 'A' | .U => 'U' | .I => 'I' | .O => 'O' | .E => 'E'

/-- The untoned Toaq letter: the lower-case i is dotless. -/
def V.plain : V → Char
  | .i => 'ı' | v => v.ascii

/-- The letter with a tone. `alt` selects the breve form of the dipping tone.
Written out independently of the Diacritic table. -/
def letter : V → T → Bool → Char
  | v, .none, _ => v.plain
  | .a, .flat, _ => 'ā' | .A, .flat, _ => 'Ā' | .u, .flat, _ => 'ū' | .U, .flat, _ => 'Ū'
  | .i, .flat, _ => 'ī' | .I, .flat, _ => 'Ī' | .o, .flat, _ => 'ō' | .O, .flat, _ => 'Ō'
  | .e, .flat, _ => 'ē' | .E, .flat, _ => 'Ē'
  | .a, .rising, _ => 'á' | .A, .rising, _ => 'Á' | .u, .rising, _ => 'ú' | .U, .rising, _ => 'Ú'
  | .i, .rising, _ => 'í' | .I, .rising, _ => 'Í' | .o, .rising, _ => 'ó' | .O, .rising, _ => 'Ó'
  | .e, .rising, _ => 'é' | .E, .rising, _ => 'É'
  | .a, .dipping, false => 'ǎ' | .A, .dipping, false => 'Ǎ' | .u, .dipping, false => 'ǔ'
  | .U, .dipping, false => 'Ǔ' | .i, .dipping, false => 'ǐ' | .I, .dipping, false => 'Ǐ'
  | .o, .dipping, false => 'ǒ' | .O, .dipping, false => 'Ǒ' | .e, .dipping, false => 'ě'
  | .E, .dipping, false => 'Ě'
  | .a, .dipping, true => 'ă' | .A, .dipping, true => 'Ă' | .u, .dipping, true => 'ŭ'
  | .U, .dipping, true => 'Ŭ' | .i, .dipping, true => 'ĭ' | .I, .dipping, true => 'Ĭ'
  | .o, .dipping, true => 'ŏ' | .O, .dipping, true => 'Ŏ' | .e, .dipping, true => 'ĕ'
  | .E, .dipping, true => 'Ĕ'
  | .a, .creaky, _ => 'ả' | .A, .creaky, _ => 'Ả' | .u, .creaky, _ => 'ủ' | .U, .creaky, _ => 'Ủ'
  | .i, .creaky, _ => 'ỉ' | .I, .creaky, _ => 'Ỉ' | .o, .creaky, _ => 'ỏ' | .O, .creaky, _ => 'Ỏ'
  | .e, .creaky, _ => 'ẻ' | .E, .creaky, _ => 'Ẻ'
  | .a, .falling, _ => 'â' | .A, .falling, _ => 'Â' | .u, .falling, _ => 'û' | .U, .falling, _ => 'Û'
  | .i, .falling, _ => 'î' | .I, .falling, _ => 'Î' | .o, .falling, _ => 'ô' | .O, .falling, _ => 'Ô'
  | .e, .falling, _ => 'ê' | .E, .falling, _ => 'Ê'
  | .a, .low, _ => 'à' | .A, .low, _ => 'À' | .u, .low, _ => 'ù' | .U, .low, _ => 'Ù'
  | .i, .low, _ => 'ì' | .I, .low, _ => 'Ì' | .o, .low, _ => 'ò' | .O, .low, _ => 'Ò'
  | .e, .low, _ => 'è' | .E, .low, _ => 'È'
  | .a, .rising2, _ => 'ã' | .A, .rising2, _ => 'Ã' | .u, .rising2, _ => 'ũ' | .U, .rising2, _ => 'Ũ'
  | .i, .rising2, _ => 'ĩ' | .I, .rising2, _ => 'Ĩ' | .o, .rising2, _ => 'õ' | .O, .rising2, _ => 'Õ'
  | .e, .rising2, _ => 'ẽ' | .E, .rising2, _ => 'Ẽ'

/-- A syllable: a non-empty onset of consonants, a first vowel with its tone, further plain
vowels, and an optional final q. -/
structure Syll where
  onset : Str
  v : V
  tone : T
  alt : Bool
  rest : List V
  q : Bool

def Syll.ok (s : Syll) : Prop := s.onset ≠ [] ∧ ∀ c ∈ s.onset, c ∈ consonants

def qStr (b : Bool) : Str := if b then ['q'] else []

/-- The Unicode spelling. -/
def Syll.render (s : Syll) : Str :=
  s.onset ++ letter s.v s.tone s.alt :: (s.rest.map V.plain ++ qStr s.q)

/-- The ASCII letters. -/
def Syll.letters (s : Syll) : Str :=
  s.onset ++ s.v.ascii :: (s.rest.map V.ascii ++ qStr s.q)

/-- The ASCII spelling: the letters, then the tone marker. -/
def Syll.spell (s : Syll) : Str := s.letters ++ s.tone.mark

abbrev Word := List Syll
def Word.ok (w : Word) : Prop := ∀ s ∈ w, s.ok
def Word.render (w : Word) : Str := w.flatMap Syll.render
def Word.letters (w : Word) : Str := w.flatMap Syll.letters
def Word.spell (w : Word) : Str := w.flatMap Syll.spell

/-- ASCII characters. -/
def isASCII (c : Char) : Prop := c.val < 128

/-- A concrete word, jóqsāı Hảo, used by the non-vacuity examples. -/
def exWord : Word :=
  [⟨['j'], .o, .rising, false, [], true⟩, ⟨['s', 'h'], .a, .flat, false, [.i], false⟩,
   ⟨['H'], .a, .none, false, [.o], false⟩]

theorem exWord_ok : Word.ok exWord := by
  intro s hs
  simp only [exWord, List.mem_cons, List.not_mem_nil, or_false] at hs
  rcases hs with rfl | rfl | rfl <;> exact ⟨by simp, by decide⟩

end Verif.Tone.Spec
