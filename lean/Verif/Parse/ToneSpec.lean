/-
Specification vocabulary: syllables and their tones, words made of syllables, and the tones that the words
in each place of a syntax tree must have. Nothing here uses the grammar or the parser.
-/
import Verif.AST.Spec
import Verif.Parse.SpellSpec

namespace Verif.Parse
open Verif.AST Verif.AST.Spec Verif.Peg
open Verif.Tone (Str)

/-- The tones, by the diacritic that writes them; `plain` is no diacritic. -/
inductive WTone
  | plain | macron | acute | caron | hook | circumflex | grave | tilde
deriving DecidableEq

/-- The vowels a, e, i, o, u with the diacritic of the tone. -/
def WTone.vowels : WTone → Str
  | .plain => "aeıou".toList
  | .macron => "āēīōū".toList
  | .acute => "áéíóú".toList
  | .caron => "ǎěǐǒǔ".toList
  | .hook => "ảẻỉỏủ".toList
  | .circumflex => "âêîôû".toList
  | .grave => "àèìòù".toList
  | .tilde => "ãẽĩõũ".toList

/-- The consonants a syllable may start with. -/
def onsets : List Str :=
  ["b", "c", "ch", "d", "f", "g", "h", "j", "k", "l", "m", "n", "p", "r", "s", "sh", "t"].map (·.toList)

/-- What may follow the consonants of a syllable. -/
def rimes : List Str := [
  "a", "aı", "ao", "aq",
  "e", "ea", "eaı", "eao", "eaq", "eı", "eo", "eoq", "eq", "eu",
  "ı", "ıa", "ıaı", "ıao", "ıaq", "ıe", "ıeq", "ıo", "ıoı", "ıoq", "ıq", "ıu", "ıuq",
  "o", "oa", "oaı", "oao", "oaq", "oe", "oeq", "oı", "oq",
  "u", "ua", "uaı", "uao", "uaq", "ue", "ueq", "uı", "uo", "uoı", "uoq", "uq"].map (·.toList)

/-- The syllable of the given consonants and vowels: the diacritic is on the first vowel. -/
def WTone.syllable (τ : WTone) (onset rime : Str) : Str := match rime with
  | [] => onset
  | v :: rest => onset ++ ((WTone.plain.vowels.zip τ.vowels).lookup v).getD v :: rest

/-- A syllable of the tone, in any spelling (capitals, dots of i, breves for carons). -/
def Syllable (τ : WTone) (s : Str) : Prop :=
  ∃ o ∈ onsets, ∃ r ∈ rimes, s.map (foldBy spellPairs) = τ.syllable o r

/-- Any number of syllables with macrons. -/
inductive Macrons : Str → Prop
  | nil : Macrons []
  | cons {a b} : Syllable .macron a → Macrons b → Macrons (a ++ b)

/-- A word of the tone: a syllable of the tone, and syllables with macrons. -/
def WordOf (τ : WTone) (s : Str) : Prop := ∃ a b, s = a ++ b ∧ Syllable τ a ∧ Macrons b

/-! ### The tones in a syntax tree -/

/-- The word that carries the tone of a phrase: the first word of its predicate. -/
def headWord : Node → Option Str
  | .word .predicate w => some w.T
  | .lu _ l _ => some l.T
  | .mi m _ _ => some m.T
  | .po m _ _ => some m.T
  | .mo m _ _ => some m.T
  | .serial l _ => headWord l
  | .cop _ _ _ _ l _ => headWord l
  | .predication _ p _ _ => headWord p
  | .predArg _ _ _ p _ => headWord p
  | .predAdverb p => headWord p
  | .prep p _ => headWord p
  | _ => none

/-- The phrase has one of the tones. -/
def HasTone (τs : List WTone) (n : Node) : Prop := ∃ τ ∈ τs, ∃ s, headWord n = some s ∧ WordOf τ s

/-- A word of some tone. -/
def IsWord (w : Word) : Prop := ∃ τ, WordOf τ w.T

/-- Words other than spaces and modifiers in the fields of the node itself. -/
def ownWords : Node → List Word
  | .sentence je _ da => je.toList ++ da.toList
  | .cop _ to0 to1 ru _ _ => to0.toList ++ to1.toList ++ [ru]
  | .prenex _ bi => [bi]
  | .prenexStmt _ bi _ => [bi]
  | .predication _ _ _ na => na.toList
  | .word .space _ => []
  | .word _ w => [w]
  | .prefixed mu _ => [mu]
  | .mi m ga _ => m :: ga.toList
  | .po m ga _ => m :: ga.toList
  | .mo m teo _ => [m, teo]
  | .lu _ l _ => [l]
  | .linked g _ => [g]
  | .predArg _ focus quant _ _ => focus.toList ++ quant.toList
  | .paren kio ki _ => [kio, ki]
  | .incidental ju _ => [ju]
  | .vocative hu _ => [hu]
  | _ => []

/-- Predicates. -/
def isPredicate : Node → Bool
  | .word .predicate _ | .serial _ _ | .mi _ _ _ | .po _ _ _ | .mo _ _ _ | .lu .predicate _ _
  | .cop .predicate _ _ _ _ _ => true
  | _ => false

/-- The tones of the phrases in the fields of the node. Predicates of statements have the hook, those of
relative clauses the caron, those of content clauses the circumflex, those of arguments the acute (or
they are content clauses), those of adverbs the tilde, those of prepositions the grave. The right part
of a serial or connected predicate has the hook; only prepositions may also be connected to
prepositions. -/
def Tones : Node → Prop
  | .predication .raw p _ _ => HasTone [.hook] p
  | .predication .relative p _ _ => HasTone [.caron] p
  | .predication .content p _ _ => HasTone [.circumflex] p
  | .lu .relative l _ => WordOf .caron l.T
  | .lu .content l _ => WordOf .circumflex l.T
  | .predArg _ _ _ p _ => HasTone [.acute, .circumflex] p
  | .predAdverb p => HasTone [.tilde] p
  | .prep p _ => HasTone [.grave] p
  | .serial _ r => HasTone [.hook] r
  | .cop .predicate _ _ _ l r => HasTone [.hook] r ∨ HasTone [.grave] l ∧ HasTone [.grave] r
  | .mi _ _ p => isPredicate p = true → HasTone [.hook] p
  | _ => True

/-- Characters between words: blanks, punctuation (for package unicode), and question marks. -/
def Separator (U : Uni) (c : Char) : Prop := c ∈ "\t\n\r .,:!?".toList ∨ U.punct c = true

/-- A node for the space between words has only separators. -/
def SpaceOf (sep : Char → Prop) : Node → Prop
  | .word .space w => ∀ c ∈ w.T, sep c
  | _ => True

/-- The words of the node are words, its spaces have only separators, and its phrases have the right
tones. -/
def GoodTones (sep : Char → Prop) (n : Node) : Prop := (∀ w ∈ ownWords n, IsWord w) ∧ SpaceOf sep n ∧ Tones n

open Classical in
/-- `Q` holds of the node and every node in a field below it. -/
def Every (Q : Node → Prop) (n : Node) : Prop := allN (fun m => decide (Q m)) n = true

end Verif.Parse
