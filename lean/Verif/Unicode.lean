/-
The parts of Go's package unicode that the code uses, as parameters.

The tables of package unicode are not modelled. Functions that consult them take a `Uni`; theorems
hold for every `Uni`, or for every `Uni` that agrees with the Unicode standard on ASCII (`Uni.Ok`).
-/
namespace Verif

/-- `unicode.ToLower`, `unicode.ToUpper`, `unicode.IsLetter`, `unicode.IsPunct`,
`unicode.IsSpace`. -/
structure Uni where
  lower : Char → Char
  upper : Char → Char
  letter : Char → Bool
  punct : Char → Bool
  space : Char → Bool

def asciiLower (c : Char) : Char := if 'A' ≤ c ∧ c ≤ 'Z' then Char.ofNat (c.toNat + 32) else c
def asciiUpper (c : Char) : Char := if 'a' ≤ c ∧ c ≤ 'z' then Char.ofNat (c.toNat - 32) else c
def asciiLetter (c : Char) : Bool := ('a' ≤ c && c ≤ 'z') || ('A' ≤ c && c ≤ 'Z')

/-- Agreement with the Unicode standard on ASCII. -/
structure Uni.Ok (U : Uni) : Prop where
  lower : ∀ c, c.toNat < 128 → U.lower c = asciiLower c
  upper : ∀ c, c.toNat < 128 → U.upper c = asciiUpper c
  letter : ∀ c, c.toNat < 128 → U.letter c = asciiLetter c
  punct : ∀ c, c.toNat < 128 → U.punct c = "!\"#%&'()*,-./:;?@[\\]_{}".toList.contains c
  space : ∀ c, c.toNat < 128 → U.space c = [' ', '\t', '\n', '\x0b', '\x0c', '\r'].contains c

/-- An instance: case and class of ASCII only, other characters are caseless letters. -/
def asciiUni : Uni where
  lower := asciiLower
  upper := asciiUpper
  letter c := if c.toNat < 128 then asciiLetter c else true
  punct c := "!\"#%&'()*,-./:;?@[\\]_{}".toList.contains c
  space c := [' ', '\t', '\n', '\x0b', '\x0c', '\r'].contains c

theorem asciiUni_ok : asciiUni.Ok where
  lower _ _ := rfl
  upper _ _ := rfl
  letter c h := by simp [asciiUni, h]
  punct _ _ := rfl
  space _ _ := rfl

end Verif
