/-
The parts of Go's library for quoting strings and for formats: `strconv.Quote`, with `unicode.IsPrint` as a parameter, and `Printf`
without operands for text, flags and verbs. Not modelled, but a parameter: what `Printf` writes from a width, a precision, an
operand index or the verb ! on.
-/
import Verif.AST.Basic

namespace Verif.AST
open Verif.Tone (Str)

/-- The parts of Go's library that are not modelled. -/
structure GoLib where
  /-- `unicode.IsPrint` -/
  isPrint : Char → Bool
  /-- what `Printf` writes without operands for the rest of a format that begins, after a % and flags, with a width, a
  precision, an operand index or the verb ! -/
  odd : Str → Str

def hexDigits (k n : Nat) : Str := match k with
  | 0 => []
  | k + 1 => hexDigits k (n / 16) ++ [Nat.digitChar (n % 16)]

/-- strconv: `appendEscapedRune` with the quote `"`. -/
def quoteChar (G : GoLib) (c : Char) : Str :=
  if c = '"' || c = '\\' then ['\\', c]
  else if G.isPrint c then [c]
  else if c.toNat = 7 then ['\\', 'a'] else if c.toNat = 8 then ['\\', 'b'] else if c.toNat = 12 then ['\\', 'f']
  else if c.toNat = 10 then ['\\', 'n'] else if c.toNat = 13 then ['\\', 'r'] else if c.toNat = 9 then ['\\', 't']
  else if c.toNat = 11 then ['\\', 'v']
  else if c.toNat < 32 || c.toNat = 127 then ['\\', 'x'] ++ hexDigits 2 c.toNat
  else if c.toNat < 0x10000 then ['\\', 'u'] ++ hexDigits 4 c.toNat
  else ['\\', 'U'] ++ hexDigits 8 c.toNat

/-- strconv: `Quote` -/
def quote (G : GoLib) (s : Str) : Str := '"' :: s.flatMap (quoteChar G) ++ ['"']

/-- fmt: the flags of a verb. -/
def isFlag (c : Char) : Bool := c = '#' || c = '0' || c = '+' || c = '-' || c = ' '

/-- fmt: `noVerbString`, `missingString`. -/
def noVerb : Str := "%!(NOVERB)".toList
def missing (c : Char) : Str := '%' :: '!' :: c :: "(MISSING)".toList

/-- fmt: `doPrintf` without operands; the argument says whether a % and flags were read. -/
def sprintf (G : GoLib) : Bool → Str → Str
  | false, [] => []
  | false, c :: s => if c = '%' then sprintf G true s else c :: sprintf G false s
  | true, [] => noVerb
  | true, c :: s =>
    if isFlag c then sprintf G true s
    else if c = '[' || c = '*' || c = '.' || c = '!' || c.isDigit then G.odd (c :: s)
    else if c = '%' then '%' :: sprintf G false s
    else missing c ++ sprintf G false s

/-- Go's functions on ASCII. -/
def asciiLib : GoLib where
  isPrint c := 32 ≤ c.toNat && c.toNat != 127
  odd s := "%!".toList ++ s.take 1 ++ "(NOVERB)".toList

variable {G : GoLib}

theorem hex_length : ∀ (k n : Nat), (hexDigits k n).length = k
  | 0, _ => rfl
  | k + 1, n => by simp [hexDigits, hex_length k]

theorem hex_inj : ∀ (k m n : Nat), m < 16 ^ k → n < 16 ^ k → hexDigits k m = hexDigits k n → m = n
  | 0, m, n, h1, h2, _ => by simp at h1 h2; omega
  | k + 1, m, n, h1, h2, h => by
    simp only [hexDigits] at h
    obtain ⟨h3, h4⟩ := List.append_inj h (by simp [hex_length])
    have h5 := hex_inj k (m / 16) (n / 16) (by rw [Nat.pow_succ] at h1; omega) (by rw [Nat.pow_succ] at h2; omega) h3
    have h6 : ∀ a < 16, ∀ b < 16, Nat.digitChar a = Nat.digitChar b → a = b := by decide
    have h7 := h6 (m % 16) (by omega) (n % 16) (by omega) (by simpa using h4)
    omega

theorem hex_append {k m n : Nat} {r r' : Str} (h1 : m < 16 ^ k) (h2 : n < 16 ^ k) (h : hexDigits k m ++ r = hexDigits k n ++ r') :
    m = n ∧ r = r' := by
  obtain ⟨h3, h4⟩ := List.append_inj h (by simp [hex_length])
  exact ⟨hex_inj k m n h1 h2 h3, h4⟩

theorem char_lt (c : Char) : c.toNat < 0x110000 := by
  have := c.valid
  rcases this with h | h
  · have : c.toNat < 0xd800 := h
    omega
  · exact h.2

/-- The cases of `quoteChar`. -/
inductive Quoted (c : Char) : Str → Prop
  | self : (c = '"' ∨ c = '\\') → Quoted c ['\\', c]
  | plain : c ≠ '"' → c ≠ '\\' → Quoted c [c]
  | letter (l : Char) : (c.toNat, l) ∈ [(7, 'a'), (8, 'b'), (12, 'f'), (10, 'n'), (13, 'r'), (9, 't'), (11, 'v')] → Quoted c ['\\', l]
  | x : c.toNat < 16 ^ 2 → Quoted c (['\\', 'x'] ++ hexDigits 2 c.toNat)
  | u : c.toNat < 16 ^ 4 → Quoted c (['\\', 'u'] ++ hexDigits 4 c.toNat)
  | U : c.toNat < 16 ^ 8 → Quoted c (['\\', 'U'] ++ hexDigits 8 c.toNat)

theorem quoted (c : Char) : Quoted c (quoteChar G c) := by
  unfold quoteChar
  repeat' split
  · exact .self (by simp_all)
  · exact .plain (by simp_all) (by simp_all)
  · exact .letter _ (by simp_all)
  · exact .letter _ (by simp_all)
  · exact .letter _ (by simp_all)
  · exact .letter _ (by simp_all)
  · exact .letter _ (by simp_all)
  · exact .letter _ (by simp_all)
  · exact .letter _ (by simp_all)
  · exact .x (by simp_all; omega)
  · exact .u (by simp_all)
  · exact .U (Nat.lt_of_lt_of_le (char_lt c) (by decide))

theorem Quoted.append {c c' : Char} {l l' r r' : Str} (h : Quoted c l) (h' : Quoted c' l') (he : l ++ r = l' ++ r') :
    c = c' ∧ r = r' := by
  cases h <;> cases h' <;> simp only [List.cons_append, List.nil_append, List.cons.injEq, true_and] at he
  case x.x h1 h2 => obtain ⟨h3, h4⟩ := hex_append h1 h2 he; exact ⟨Char.toNat_inj.1 h3, h4⟩
  case u.u h1 h2 => obtain ⟨h3, h4⟩ := hex_append h1 h2 he; exact ⟨Char.toNat_inj.1 h3, h4⟩
  case U.U h1 h2 => obtain ⟨h3, h4⟩ := hex_append h1 h2 he; exact ⟨Char.toNat_inj.1 h3, h4⟩
  case letter.letter a h1 b h2 =>
    obtain ⟨rfl, rfl⟩ := he
    refine ⟨Char.toNat_inj.1 ?_, rfl⟩
    simp only [List.mem_cons, Prod.mk.injEq, List.not_mem_nil, or_false] at h1 h2
    rcases h1 with ⟨h1, rfl⟩ | ⟨h1, rfl⟩ | ⟨h1, rfl⟩ | ⟨h1, rfl⟩ | ⟨h1, rfl⟩ | ⟨h1, rfl⟩ | ⟨h1, rfl⟩ <;>
      simp at h2 <;> omega
  all_goals first
    | exact he
    | (exfalso; grind)

theorem quote_append : ∀ {s s' r r' : Str}, s.flatMap (quoteChar G) ++ '"' :: r = s'.flatMap (quoteChar G) ++ '"' :: r' →
    s = s' ∧ r = r'
  | [], [], _, _, h => ⟨rfl, by simpa using h⟩
  | [], c :: s', r, r', h => by
    exfalso
    have hq := quoted (G := G) c
    simp only [List.flatMap_nil, List.nil_append, List.flatMap_cons, List.append_assoc] at h
    cases hl : quoteChar G c with
    | nil => rw [hl] at hq; cases hq
    | cons a l =>
      rw [hl] at h hq
      simp only [List.cons_append, List.cons.injEq] at h
      rw [← h.1] at hq
      cases hq <;> grind
  | c :: s, [], r, r', h => by
    exfalso
    have hq := quoted (G := G) c
    simp only [List.flatMap_nil, List.nil_append, List.flatMap_cons, List.append_assoc] at h
    cases hl : quoteChar G c with
    | nil => rw [hl] at hq; cases hq
    | cons a l =>
      rw [hl] at h hq
      simp only [List.cons_append, List.cons.injEq] at h
      rw [h.1] at hq
      cases hq <;> grind
  | c :: s, c' :: s', r, r', h => by
    simp only [List.flatMap_cons, List.append_assoc] at h
    have h0 := (quoted c).append (quoted c') h
    obtain ⟨rfl, rfl⟩ := quote_append h0.2
    obtain ⟨rfl, _⟩ := h0
    exact ⟨rfl, rfl⟩

theorem sprintf_id {s : Str} (h : '%' ∉ s) : sprintf G false s = s := by
  induction s with
  | nil => rw [sprintf]
  | cons c s ih =>
    simp only [List.mem_cons, not_or] at h
    rw [sprintf, if_neg (fun hc => h.1 hc.symm), ih h.2]

theorem hex_digits : ∀ (k n : Nat), ∀ c ∈ hexDigits k n, ∃ a < 16, c = Nat.digitChar a
  | 0, _ => by simp [hexDigits]
  | k + 1, n => by
    intro c hc
    simp only [hexDigits, List.mem_append, List.mem_singleton] at hc
    rcases hc with hc | hc
    · exact hex_digits k _ c hc
    · exact ⟨_, Nat.mod_lt _ (by decide), hc⟩

/-- Quoting makes no percent sign. -/
theorem quote_percent {s : Str} (h : '%' ∉ s) : '%' ∉ quote G s := by
  have hh : ∀ k n, '%' ∉ hexDigits k n := fun k n hm => by
    obtain ⟨a, ha, he⟩ := hex_digits k n _ hm
    revert a; decide
  have hc : ∀ c l, Quoted c l → '%' ∈ l → c = '%' := by
    intro c l hq hm
    cases hq <;> simp only [List.mem_cons, List.mem_append, List.not_mem_nil, or_false] at hm <;>
      first
        | grind
        | (rcases hm with (hm | hm) | hm
           · cases hm
           · cases hm
           · exact absurd hm (hh _ _))
  simp only [quote, List.cons_append, List.mem_cons, List.mem_append, List.mem_flatMap, not_or]
  refine ⟨by decide, ?_, by simp⟩
  rintro ⟨c, hc1, hc2⟩
  exact h (hc c _ (quoted c) hc2 ▸ hc1)

end Verif.AST
