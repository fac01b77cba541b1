/-
Model of package tone (/repo/tone/tone.go).

Go strings are lists of runes (`List Char`): valid UTF-8 only.  The zero rune `None`
(tone.go:150-151) is the character U+0000, as in Go.
-/
namespace Verif.Tone

/-- A Go string, rune by rune. -/
abbrev Str := List Char

/-- tone.go:150-151 `None rune // 0`. -/
def noTone : Char := '\x00'

/-- tone.go:10-101 `Diacritic`. A Go map literal; the order of the list is the source order and,
by `tables_order_independent`, irrelevant. All strings in the literal are single runes
(checked by tools/gen_tone.py), so they are modelled as `Char`. -/
def diacritic : List (Char × List (Char × List Char)) := [
  ('-', [
    ('a', ['ā']),
    ('A', ['Ā']),
    ('u', ['ū']),
    ('U', ['Ū']),
    ('i', ['ī']),
    ('ı', ['ī']),
    ('I', ['Ī']),
    ('o', ['ō']),
    ('O', ['Ō']),
    ('e', ['ē']),
    ('E', ['Ē'])]),
  ('/', [
    ('a', ['á']),
    ('A', ['Á']),
    ('u', ['ú']),
    ('U', ['Ú']),
    ('i', ['í']),
    ('ı', ['í']),
    ('I', ['Í']),
    ('o', ['ó']),
    ('O', ['Ó']),
    ('e', ['é']),
    ('E', ['É'])]),
  ('V', [
    ('a', ['ǎ', 'ă']),
    ('A', ['Ǎ', 'Ă']),
    ('u', ['ǔ', 'ŭ']),
    ('U', ['Ǔ', 'Ŭ']),
    ('i', ['ǐ', 'ĭ']),
    ('ı', ['ǐ', 'Ĭ']),
    ('I', ['Ǐ', 'Ĭ']),
    ('o', ['ǒ', 'ŏ']),
    ('O', ['Ǒ', 'Ŏ']),
    ('e', ['ě', 'ĕ']),
    ('E', ['Ě', 'Ĕ'])]),
  ('?', [
    ('a', ['ả']),
    ('A', ['Ả']),
    ('u', ['ủ']),
    ('U', ['Ủ']),
    ('i', ['ỉ']),
    ('ı', ['ỉ']),
    ('I', ['Ỉ']),
    ('o', ['ỏ']),
    ('O', ['Ỏ']),
    ('e', ['ẻ']),
    ('E', ['Ẻ'])]),
  ('^', [
    ('a', ['â']),
    ('A', ['Â']),
    ('u', ['û']),
    ('U', ['Û']),
    ('i', ['î']),
    ('ı', ['î']),
    ('I', ['Î']),
    ('o', ['ô']),
    ('O', ['Ô']),
    ('e', ['ê']),
    ('E', ['Ê'])]),
  ('\\', [
    ('a', ['à']),
    ('A', ['À']),
    ('u', ['ù']),
    ('U', ['Ù']),
    ('i', ['ì']),
    ('ı', ['ì']),
    ('I', ['Ì']),
    ('o', ['ò']),
    ('O', ['Ò']),
    ('e', ['è']),
    ('E', ['È'])]),
  ('~', [
    ('a', ['ã']),
    ('A', ['Ã']),
    ('u', ['ũ']),
    ('U', ['Ũ']),
    ('i', ['ĩ']),
    ('ı', ['ĩ']),
    ('I', ['Ĩ']),
    ('o', ['õ']),
    ('O', ['Õ']),
    ('e', ['ẽ']),
    ('E', ['Ẽ'])])]

/-- tone.go:103 `toneNameRunes`. -/
def toneNameRunes : Str := ['-', '/', 'V', '?', '^', '\\', '~']

/-- The type of `Diacritic` as the list of its entries in the order in which `range` visits them. -/
abbrev DMap := List (Char × List (Char × List Char))

/-- Lookup after a sequence of insertions `m[k] = v`: the last insertion for the key counts. -/
def lookupLast (k : Char) : List (Char × Char) → Option Char
  | [] => none
  | (a, b) :: rest =>
    match lookupLast k rest with
    | some v => some v
    | none => if a = k then some b else none

/-- tone.go:105-116: the sequence of insertions building `tone`, for a given iteration order. -/
def toneInserts (d : DMap) : List (Char × Char) :=
  d.flatMap fun trs => trs.2.flatMap fun arr => arr.2.map fun str => (str, trs.1)

/-- tone.go:118-133: the sequence of insertions building `ascii`; keys `ı` are skipped. -/
def asciiInserts (d : DMap) : List (Char × Char) :=
  d.flatMap fun trs => trs.2.flatMap fun arr => arr.2.flatMap fun uni =>
    if arr.1 = 'ı' then [] else [(uni, arr.1)]

/-- tone.go:135-145 `vowels`, for a given iteration order. -/
def vowelsOf (d : DMap) : Str :=
  ['a', 'e', 'i', 'ı', 'o', 'u', 'A', 'E', 'I', 'O', 'U'] ++
    d.flatMap fun trs => trs.2.flatMap fun arr => arr.2

/-- The table `tone` (missing keys give the zero rune, as a Go map does). -/
def toneTab (r : Char) : Char := (lookupLast r (toneInserts diacritic)).getD noTone

/-- The table `ascii` with the comma-ok form. -/
def asciiTab? (r : Char) : Option Char := lookupLast r (asciiInserts diacritic)

/-- The table `ascii` (missing keys give the zero rune). -/
def asciiTab (r : Char) : Char := (asciiTab? r).getD noTone

/-- `strings.ContainsRune(vowels, r)`. -/
def isVowel (r : Char) : Bool := (vowelsOf diacritic).contains r

/-- tone.go:155-181 `ToASCII`: the loop, with the pending tone `t` as state. -/
def toASCIIGo : Char → Str → Str
  | t, [] => if t ≠ noTone then [t] else []
  | t, r :: rs =>
    if r = 'ı' then 'i' :: toASCIIGo t rs
    else if t ≠ noTone then
      if !isVowel r && r != 'q' then t :: r :: toASCIIGo noTone rs
      else r :: toASCIIGo t rs
    else if toneTab r ≠ noTone then asciiTab r :: toASCIIGo (toneTab r) rs
    else r :: toASCIIGo noTone rs

/-- tone.go:155-181 `ToASCII`. -/
def toASCII (txt : Str) : Str := toASCIIGo noTone txt

/-- tone.go:185-193 `Strip`. -/
def strip (txt : Str) : Str := (toASCII txt).filter fun r => !toneNameRunes.contains r

/-- `Diacritic[t]`: a nil map when `t` is not a key. -/
def diacriticRow (t : Char) : List (Char × List Char) :=
  (diacritic.find? fun e => e.1 = t).elim [] (·.2)

/-- `Diacritic[t][r][0]`; `none` is the index-out-of-range panic on the nil slice. -/
def diacritic0 (t r : Char) : Option Char :=
  ((diacriticRow t).find? fun e => e.1 = r).bind fun e => e.2.head?

/-- The new first vowel in tone.go:201-213 (`R`). `none` is a panic. -/
def retone (r t : Char) : Option Char :=
  let base := (asciiTab? r).getD r
  let R := if t ≠ noTone then diacritic0 t base else some base
  R.map fun c => if c = 'i' then 'ı' else c

/-- tone.go:197-215 `WithTone`. `none` is a panic. `strings.IndexAny(str, vowels)` finds the first
vowel; the recursion walks to it. -/
def withTone : Str → Char → Option Str
  | [], _ => some []
  | r :: rs, t =>
    if isVowel r then (retone r t).map fun c => c :: rs
    else (withTone rs t).map fun s => r :: s

/-- tone.go:218-225 `Tone`: the first tone-name rune of the ASCII form. (`rune(ascii[i])` reads a
byte; the tone names are ASCII, so it is the rune.) -/
def toneOf (s : Str) : Char := ((toASCII s).find? fun r => toneNameRunes.contains r).getD noTone

end Verif.Tone
