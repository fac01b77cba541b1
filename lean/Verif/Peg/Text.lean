/-
Input texts as the parser and the error functions see them: a Go string read with
utf8.DecodeRuneInString is a sequence of runes with their widths in bytes. Every Go string gives
such a sequence (an invalid byte decodes as U+FFFD of width 1).
-/
import Verif.Tone.Model

namespace Verif.Peg
open Verif.Tone (Str)

/-- One decoding step: rune and width. -/
structure Rn where
  r : Char
  w : Nat
  pos : 0 < w
deriving DecidableEq

abbrev Text := List Rn

/-- The text of a valid UTF-8 string. -/
def ofStr (s : Str) : Text := s.map fun c => ⟨c, c.utf8Size, c.utf8Size_pos⟩

/-- Length in bytes. -/
def width (t : Text) : Nat := (t.map (·.w)).sum

@[simp] theorem width_nil : width [] = 0 := rfl
@[simp] theorem width_cons (u : Rn) (t : Text) : width (u :: t) = u.w + width t := by simp [width]
@[simp] theorem width_append (s t : Text) : width (s ++ t) = width s + width t := by simp [width]

theorem width_pos {t : Text} (h : t ≠ []) : 0 < width t := by
  cases t with
  | nil => exact absurd rfl h
  | cons u t => have := u.pos; simp; omega

end Verif.Peg
