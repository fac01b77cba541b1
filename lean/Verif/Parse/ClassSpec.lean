/-
Specification for C53: the classes of particles, and which field of a syntax tree has particles of which
class. Nothing here uses the grammar or the parser.
-/
import Verif.Parse.Spec

namespace Verif.Parse
open Verif.AST Verif.AST.Spec
open Verif.Tone (Str)

/-! ### Words -/

/-- A letter without tone, dot and case. -/
def foldLetter (c : Char) : Char := asciiLower (baseLetter c)

/-- The letters of a text, without tones, dots and case. -/
def foldLetters (s : Str) : Str := (letters s).map asciiLower

/-- A vowel with a tone. -/
def toned (c : Char) : Bool := baseLetter c != c && c != 'ı'

/-- Spec: the text has the letters of `w` without tones, in any case. -/
def Plainly (t w : Str) : Prop := t.map foldLetter = w ∧ ∀ c ∈ t, toned c = false

/-- Spec: the text has the letters of `w` in any case, with any tone, written on the first vowel. -/
def WithTone (t w : Str) : Prop :=
  t.map foldLetter = w ∧ ∃ a c b, t = a ++ c :: b ∧ (∀ x ∈ a, "aeiou".toList.contains (foldLetter x) = false) ∧
    "aeiou".toList.contains (foldLetter c) = true ∧ ∀ x ∈ a ++ b, toned x = false

def kuWords : List Str := ["ku".toList]
def teoWords : List Str := ["teo".toList]
def gaWords : List Str := ["ga".toList]
def naWords : List Str := ["na".toList]
def keoWords : List Str := ["keo".toList, "je".toList]
def biWords : List Str := ["bi".toList, "pa".toList]
def juWords : List Str := ["ju".toList]
def kioWords : List Str := ["kio".toList]
def kiWords : List Str := ["ki".toList]
def huWords : List Str := ["hu".toList]
def goWords : List Str := ["go".toList, "fi".toList, "cu".toList, "ta".toList]
def raWords : List Str := ["ra".toList, "ru".toList, "ri".toList, "roi".toList, "ro".toList, "re".toList]
def daWords : List Str := ["da".toList, "ka".toList, "so".toList, "ba".toList]
def moqWords : List Str := ["moq".toList]
def tuWords : List Str := ["ke".toList, "tu".toList, "sia".toList, "sa".toList, "hi".toList, "ja".toList]
def beiWords : List Str := ["bei".toList]
def toWords : List Str := ["to".toList]
def luWords : List Str := ["lu".toList, "li".toList, "lo".toList, "ma".toList, "tio".toList]
def miWords : List Str := ["mi".toList, "shu".toList]
def poWords : List Str := ["po".toList, "jei".toList]
def moWords : List Str := ["mo".toList]

/-- Letters and combining characters that are not punctuation according to Unicode. -/
def notPunct : List Char :=
  ['a', 'A', 'e', 'E', 'ı', 'i', 'I', 'o', 'O', 'u', 'U', 'q', 'Q', '1', '2', 'V', '3', '4', '5', '6', '7', '^', '~',
   '̄', '́', '̌', '̆', '̉', '̂', '̀', '̃']

/-- The table of punctuation agrees with Unicode on them. -/
def Plain (U : Uni) : Prop := ∀ c ∈ notPunct, U.punct c = false

/-! ### Fields -/

/-- The classes of particles, named as in the grammar of the language; `da` has the illocutionary
particles and the question particle moq. -/
inductive Class
  | ku | tu | teo | mo | ga | na | keo | da | bi | ju | kio | ki | hu | go | ra | to | lu | mi | po | bei
deriving DecidableEq

def Class.words : Class → List Str
  | .ku => kuWords | .tu => tuWords | .teo => teoWords | .mo => moWords | .ga => gaWords | .na => naWords
  | .keo => keoWords | .da => daWords ++ moqWords | .bi => biWords | .ju => juWords | .kio => kioWords
  | .ki => kiWords | .hu => huWords | .go => goWords | .ra => raWords | .to => toWords | .lu => luWords
  | .mi => miWords | .po => poWords | .bei => beiWords

/-- The particles that carry the tone of the predicate they start. -/
def Class.hasTone : Class → Bool
  | .lu | .mi | .po | .mo => true
  | _ => false

/-- Spec: the text is a word of the class. -/
def Class.Has (k : Class) (t : Str) : Prop := ∃ w ∈ k.words, if k.hasTone then WithTone t w else Plainly t w

def optP (k : Class) (o : Option Word) : List (Class × Word) := o.toList.map fun w => (k, w)

/-- The particles in the fields of one node, with the classes for the fields. -/
def particles : Node → List (Class × Word)
  | .sentence je _ da => optP .keo je ++ optP .da da
  | .cop _ to0 to1 ru _ _ => optP .to to0 ++ optP .to to1 ++ [(.ra, ru)]
  | .prenex _ bi => [(.bi, bi)]
  | .prenexStmt _ bi _ => [(.bi, bi)]
  | .predication _ _ _ na => optP .na na
  | .word .interjection w => [(.bei, w)]
  | .mi m ga _ => (.mi, m) :: optP .ga ga
  | .po m ga _ => (.po, m) :: optP .ga ga
  | .mo m teo _ => [(.mo, m), (.teo, teo)]
  | .lu _ l _ => [(.lu, l)]
  | .linked g _ => [(.go, g)]
  | .predArg _ focus quant _ _ => optP .ku focus ++ optP .tu quant
  | .paren kio ki _ => [(.kio, kio), (.ki, ki)]
  | .incidental ju _ => [(.ju, ju)]
  | .vocative hu _ => [(.hu, hu)]
  | _ => []

/-- Spec: in the tree every field for a particle has a word of the class for the field. -/
def Classed (n : Node) : Prop := ∀ m, Below n m → ∀ k w, (k, w) ∈ particles m → k.Has w.T

end Verif.Parse
