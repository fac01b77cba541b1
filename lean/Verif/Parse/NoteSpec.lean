/-
Specification vocabulary: texts as sequences of syllables and separators, and the ways to write the tone
of a syllable. Nothing here uses the grammar or the parser.
-/
import Verif.Parse.ToneSpec

namespace Verif.Parse
open Verif.AST Verif.Peg
open Verif.Tone (Str)

/-- The ASCII marks of a tone: a sign or the number of the tone. -/
def WTone.marks : WTone → List Char
  | .plain => []
  | .macron => ['-', '1']
  | .acute => ['/', '2']
  | .caron => ['V', '3']
  | .hook => ['?', '4']
  | .circumflex => ['^', '5']
  | .grave => ['\\', '6']
  | .tilde => ['~', '7']

/-- The combining characters that write a tone. -/
def WTone.combining : WTone → List Char
  | .plain => []
  | .macron => ['\u0304']
  | .acute => ['\u0301']
  | .caron => ['\u030c', '\u0306']
  | .hook => ['\u0309']
  | .circumflex => ['\u0302']
  | .grave => ['\u0300']
  | .tilde => ['\u0303']

/-- The ways to write the vowels of a syllable with a tone: the first vowel as a letter with the
diacritic, or followed by a combining character, or followed by an ASCII mark; or an ASCII sign at the
end. (A number at the end makes the parser panic, see C46.) -/
def WTone.rimeWays (τ : WTone) (rime : Str) : List Str := match rime with
  | [] => []
  | v :: rest => [τ.syllable [] rime] ++ τ.combining.map (fun c => v :: c :: rest) ++ τ.marks.map (fun m => v :: m :: rest) ++
      (τ.marks.take 1).map (fun m => v :: rest ++ [m])

/-- A syllable, given by its tone, consonants and vowels, or a character between words. -/
inductive Item
  | syl (τ : WTone) (onset rime : Str)
  | sep (c : Char)

/-- The ways to write an item. -/
def Item.ways : Item → List Str
  | .syl τ o r => (τ.rimeWays r).map (o ++ ·)
  | .sep c => [[c]]

/-- The characters that can be read as ASCII marks of tones. -/
def markChars : List Char := "-1/2V3?4^5\\6~7".toList

/-- Syllables have consonants and vowels of the language. The syllable moq with the hook is left out: "moq?"
is the particle moq and a question mark. Separators are blanks and punctuation that is no tone mark. -/
def Item.Good (U : Uni) : Item → Prop
  | .syl τ o r => o ∈ onsets ∧ r ∈ rimes ∧ ¬ (τ = .hook ∧ o = "m".toList ∧ r = "oq".toList)
  | .sep c => c ∉ markChars ∧ c ≠ '\ufffd' ∧ Separator U c

/-- `ws` writes the items, one by one, up to capitals, dots of i, and breves. -/
inductive Written : List Item → List Str → Prop
  | nil : Written [] []
  | cons {i is w w' ws} : w' ∈ i.ways → w.map (foldBy spellPairs) = w' → Written is ws → Written (i :: is) (w :: ws)

/-- The number of pieces of the text that start before a byte offset. -/
def piecesBefore : List Str → Nat → Nat
  | [], _ => 0
  | w :: ws, p => if p = 0 then 0 else piecesBefore ws (p - (utf8 w).length) + 1

/-- The tree with standard spelling, and offsets that count pieces of the text. -/
def counted (ws : List Str) (n : Node) : Node := respell (List.map (foldBy spellPairs)) (piecesBefore ws) n

end Verif.Parse
