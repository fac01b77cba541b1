/-
Specification vocabulary: spellings that differ in capitals, in the dot of i, and in writing a breve for
a caron; and syntax trees that differ in these spellings and in how offsets are counted. Nothing here
uses the grammar or the parser.
-/
import Verif.AST.Spec
import Verif.Peg.Utf8

namespace Verif.Parse
open Verif.AST Verif.Peg
open Verif.Tone (Str)

/-- Capitals with their small letters, and i with and without dot. The capital V, which is a tone mark,
is not among them. -/
def casePairs : List (Char × Char) :=
  ("ABCDEFGHJKLMNOPQRSTUWY".toList ++ "ĀĒĪŌŪÁÉÍÓÚǍĚǏǑǓẢẺỈỎỦÂÊÎÔÛÀÈÌÒÙÃẼĨÕŨ".toList ++ "iI".toList).zip
    ("abcdefghjklmnopqrstuwy".toList ++ "āēīōūáéíóúǎěǐǒǔảẻỉỏủâêîôûàèìòùãẽĩõũ".toList ++ "ıı".toList)

/-- Letters with a breve, and those with a caron. -/
def brevePairs : List (Char × Char) := "ăĕĭŏŭĂĔĬŎŬ".toList.zip "ǎěǐǒǔǎěǐǒǔ".toList

/-- Capitals with their small letters, those with a breve included, and i with and without dot. -/
def capitalPairs : List (Char × Char) := casePairs ++ "ĂĔĬŎŬ".toList.zip "ăĕĭŏŭ".toList

/-- Letters and their standard spelling: small, ı without dot, caron instead of breve. -/
def spellPairs : List (Char × Char) := casePairs ++ brevePairs

/-- The standard spelling of a character, for given pairs of letters and their standard spelling. -/
def foldBy (L : List (Char × Char)) (c : Char) : Char := (L.lookup c).getD c

/-- Two texts of the same standard spelling. -/
def SameSpelling (L : List (Char × Char)) (s s' : Str) : Prop := s.map (foldBy L) = s'.map (foldBy L)

/-- Package unicode agrees that no letter is punctuation. -/
def LettersNotPunct (U : Uni) : Prop := ∀ e ∈ spellPairs, U.punct e.1 = false ∧ U.punct e.2 = false

/-- The number of characters before a byte offset of the UTF-8 encoding of `s`. -/
def charsBefore : Str → Nat → Nat
  | [], _ => 0
  | c :: s, p => if p = 0 then 0 else charsBefore s (p - (encode c).length) + 1

mutual
/-- Rewrite the text of every word with `f`, and its offsets, and those that stand for the identity of
arguments, with `φ`. -/
def respell (f : Str → Str) (φ : Nat → Nat) : Node → Node
  | .text l d => .text (respellO f φ l) (respellL f φ d)
  | .discourse d => .discourse (respellL f φ d)
  | .sentence je st da => .sentence (respellWO f φ je) (respell f φ st) (respellWO f φ da)
  | .cop k to0 to1 ru l r =>
    .cop k (respellWO f φ to0) (respellWO f φ to1) (respellW f φ ru) (respell f φ l) (respell f φ r)
  | .prenex ts bi => .prenex (respellL f φ ts) (respellW f φ bi)
  | .prenexStmt ts bi st => .prenexStmt (respellL f φ ts) (respellW f φ bi) (respell f φ st)
  | .predication k p ts na => .predication k (respell f φ p) (respellTO f φ ts) (respellWO f φ na)
  | .prefixed mu p => .prefixed (respellW f φ mu) (respell f φ p)
  | .serial l r => .serial (respell f φ l) (respell f φ r)
  | .word k w => .word k (respellW f φ w)
  | .mi m ga ph => .mi (respellW f φ m) (respellWO f φ ga) (respell f φ ph)
  | .po m ga a => .po (respellW f φ m) (respellWO f φ ga) (respell f φ a)
  | .mo m teo d => .mo (respellW f φ m) (respellW f φ teo) (respellL f φ d)
  | .lu k l st => .lu k (respellW f φ l) (respell f φ st)
  | .linked g a => .linked (respellW f φ g) (respell f φ a)
  | .terms ts => .terms (respellL f φ ts)
  | .predArg id focus quant p rel =>
    .predArg (φ id) (respellWO f φ focus) (respellWO f φ quant) (respell f φ p) (respellO f φ rel)
  | .predAdverb p => .predAdverb (respell f φ p)
  | .prep p a => .prep (respell f φ p) (respell f φ a)
  | .paren kio ki d => .paren (respellW f φ kio) (respellW f φ ki) (respellL f φ d)
  | .incidental ju st => .incidental (respellW f φ ju) (respell f φ st)
  | .vocative hu a => .vocative (respellW f φ hu) (respell f φ a)
def respellW (f : Str → Str) (φ : Nat → Nat) : Word → Word
  | .mk t s e m => .mk (f t) (φ s) (φ e) (respellO f φ m)
def respellO (f : Str → Str) (φ : Nat → Nat) : Option Node → Option Node
  | none => none
  | some n => some (respell f φ n)
def respellWO (f : Str → Str) (φ : Nat → Nat) : Option Word → Option Word
  | none => none
  | some w => some (respellW f φ w)
def respellTO (f : Str → Str) (φ : Nat → Nat) : Option (List Node) → Option (List Node)
  | none => none
  | some l => some (respellL f φ l)
def respellL (f : Str → Str) (φ : Nat → Nat) : List Node → List Node
  | [] => []
  | n :: l => respell f φ n :: respellL f φ l
end

/-- The syntax tree of the text `s` with words in standard spelling and with offsets that count
characters, not bytes. -/
def standard (L : List (Char × Char)) (s : Str) : Node → Node := respell (List.map (foldBy L)) (charsBefore s)

@[inherit_doc standard]
def standardW (L : List (Char × Char)) (s : Str) : Word → Word := respellW (List.map (foldBy L)) (charsBefore s)

/-- Byte strings that are texts of the same standard spelling. -/
def SameText (L : List (Char × Char)) (t t' : Bytes) : Prop := ∃ u u' : Str, t = utf8 u ∧ t' = utf8 u' ∧ SameSpelling L u u'

end Verif.Parse
