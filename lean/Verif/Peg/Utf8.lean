/-
Go strings as byte sequences, and `utf8.DecodeRuneInString`.

The generated parser reads its text with `peg.DecodeRuneInString` (toaq.go:531-534), which is
`utf8.DecodeRuneInString` of Go's standard library. That function is modelled here from its
documentation and source (unicode/utf8/utf8.go, `first` and `acceptRanges`).
-/
import Verif.Peg.Expr

namespace Verif.Peg
open Verif.Tone (Str)

/-- A Go string. Elements above 255 do not occur in Go strings; the decoder treats them as invalid. -/
abbrev Bytes := List Nat

def cont (b : Nat) : Bool := 0x80 ≤ b && b ≤ 0xBF

/-- The accepted second bytes after a first byte (`acceptRanges`). -/
def second (b0 b1 : Nat) : Bool :=
  if b0 = 0xE0 then 0xA0 ≤ b1 && b1 ≤ 0xBF
  else if b0 = 0xED then 0x80 ≤ b1 && b1 ≤ 0x9F
  else if b0 = 0xF0 then 0x90 ≤ b1 && b1 ≤ 0xBF
  else if b0 = 0xF4 then 0x80 ≤ b1 && b1 ≤ 0x8F
  else cont b1

/-- `utf8.DecodeRuneInString`: the first rune and its width; (U+FFFD, 0) for the empty string,
(U+FFFD, 1) for an invalid sequence. -/
def decode : Bytes → Char × Nat
  | [] => (bad, 0)
  | b0 :: bs =>
    if b0 < 0x80 then (Char.ofNat b0, 1)
    else if b0 < 0xC2 then (bad, 1)
    else if b0 < 0xE0 then match bs with
      | b1 :: _ => if second b0 b1 then (Char.ofNat ((b0 - 0xC0) * 64 + (b1 - 0x80)), 2) else (bad, 1)
      | _ => (bad, 1)
    else if b0 < 0xF0 then match bs with
      | b1 :: b2 :: _ => if second b0 b1 && cont b2 then
          (Char.ofNat ((b0 - 0xE0) * 4096 + (b1 - 0x80) * 64 + (b2 - 0x80)), 3) else (bad, 1)
      | _ => (bad, 1)
    else if b0 < 0xF5 then match bs with
      | b1 :: b2 :: b3 :: _ => if second b0 b1 && cont b2 && cont b3 then
          (Char.ofNat ((b0 - 0xF0) * 262144 + (b1 - 0x80) * 4096 + (b2 - 0x80) * 64 + (b3 - 0x80)), 4)
          else (bad, 1)
      | _ => (bad, 1)
    else (bad, 1)

theorem decode_width (b : Bytes) (h : b ≠ []) : 0 < (decode b).2 ∧ (decode b).2 ≤ b.length := by
  unfold decode
  cases b with
  | nil => exact absurd rfl h
  | cons b0 bs =>
    simp only
    repeat' split
    all_goals simp
    all_goals omega

/-- `parser.text[p:q]`. -/
def slice (b : Bytes) (p q : Nat) : Bytes := (b.drop p).take (q - p)

theorem slice_append (b : Bytes) {p m q : Nat} (h : p ≤ m) (h' : m ≤ q) :
    slice b p m ++ slice b m q = slice b p q := by
  unfold slice
  have h1 : q - p = (m - p) + (q - m) := by omega
  rw [h1, List.take_add, List.drop_drop]
  congr 3
  omega

theorem slice_self (b : Bytes) (p : Nat) : slice b p p = [] := by simp [slice]
theorem slice_all (b : Bytes) : slice b 0 b.length = b := by simp [slice]

/-- The text of a parser. -/
def Input.ofBytes (b : Bytes) : Input where
  len := b.length
  next p := decode (b.drop p)
  pos p h := (decode_width _ (by intro h0; rw [List.drop_eq_nil_iff] at h0; omega)).1
  fits p h := by
    have := (decode_width (b.drop p) (by intro h0; rw [List.drop_eq_nil_iff] at h0; omega)).2
    rw [List.length_drop] at this
    omega

/-! ### Valid UTF-8 -/

/-- The UTF-8 encoding of a character. -/
def encode (c : Char) : Bytes :=
  let n := c.toNat
  if n < 0x80 then [n]
  else if n < 0x800 then [0xC0 + n / 64, 0x80 + n % 64]
  else if n < 0x10000 then [0xE0 + n / 4096, 0x80 + n / 64 % 64, 0x80 + n % 64]
  else [0xF0 + n / 262144, 0x80 + n / 4096 % 64, 0x80 + n / 64 % 64, 0x80 + n % 64]

/-- The bytes of a string. -/
def utf8 (s : Str) : Bytes := s.flatMap encode

theorem char_range (c : Char) : c.toNat < 0xD800 ∨ (0xDFFF < c.toNat ∧ c.toNat < 0x110000) := c.valid

/-- Decoding inverts encoding. -/
theorem decode_encode (c : Char) (bs : Bytes) : decode (encode c ++ bs) = (c, (encode c).length) := by
  have hc := char_range c
  have hof : ∀ n, n = c.toNat → Char.ofNat n = c := by intro n h; rw [h, Char.ofNat_toNat]
  unfold encode
  simp only
  generalize hn : c.toNat = n at *
  split
  · simp only [List.cons_append, List.nil_append, decode]
    rw [if_pos (by assumption)]
    simp [hof n rfl]
  · split
    · simp only [List.cons_append, List.nil_append, decode]
      rw [if_neg (by omega), if_neg (by omega), if_pos (by omega)]
      have h2 : second (0xC0 + n / 64) (0x80 + n % 64) = true := by
        unfold second cont
        rw [if_neg (by omega), if_neg (by omega), if_neg (by omega), if_neg (by omega)]
        simp; omega
      rw [if_pos h2, hof _ (by omega)]
      rfl
    · split
      · simp only [List.cons_append, List.nil_append, decode]
        rw [if_neg (by omega), if_neg (by omega), if_neg (by omega), if_pos (by omega)]
        have h2 : (second (0xE0 + n / 4096) (0x80 + n / 64 % 64) && cont (0x80 + n % 64)) = true := by
          simp only [Bool.and_eq_true]
          constructor
          · unfold second cont
            repeat' split
            all_goals simp
            all_goals omega
          · unfold cont; simp; omega
        rw [if_pos h2, hof _ (by omega)]
        rfl
      · simp only [List.cons_append, List.nil_append, decode]
        rw [if_neg (by omega), if_neg (by omega), if_neg (by omega), if_neg (by omega), if_pos (by omega)]
        have h2 : (second (0xF0 + n / 262144) (0x80 + n / 4096 % 64) && cont (0x80 + n / 64 % 64) && cont (0x80 + n % 64)) = true := by
          simp only [Bool.and_eq_true]
          refine ⟨⟨?_, ?_⟩, ?_⟩
          · unfold second cont
            repeat' split
            all_goals simp
            all_goals omega
          · unfold cont; simp; omega
          · unfold cont; simp; omega
        rw [if_pos h2, hof _ (by omega)]
        rfl

end Verif.Peg
