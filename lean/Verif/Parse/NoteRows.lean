/-
The outcome of the rules for syllables and particles on the ways to write a rime.
-/
import Verif.Parse.Window
import Verif.Parse.NoteWins

namespace Verif.Parse.Notes
open Verif.AST Verif.Peg Verif.Parse
open Verif.Tone (Str)

/-- Vowels, the letter q, and all ways to write tones: no syllable and no separator starts with them. -/
def after : List Char :=
  ['q', 'Q', 'a', 'A', 'u', 'U', 'o', 'O', 'e', 'E', 'ı', 'i', 'I', '-', '1', '/', '2', 'V', '3', '?', '4', '5', '^', '\\', '6', '~', '7',
   '̄', '́', '̌', '̆', '̉', '̂', '̀', '̃',
   'ā', 'Ā', 'ū', 'Ū', 'ī', 'Ī', 'ō', 'Ō', 'ē', 'Ē', 'á', 'Á', 'ú', 'Ú', 'í', 'Í', 'ó', 'Ó', 'é', 'É',
   'ǎ', 'Ǎ', 'ă', 'Ă', 'ǔ', 'Ǔ', 'ŭ', 'Ŭ', 'ǐ', 'Ǐ', 'ĭ', 'Ĭ', 'ǒ', 'Ǒ', 'ŏ', 'Ŏ', 'ě', 'Ě', 'ĕ', 'Ĕ',
   'ả', 'Ả', 'ủ', 'Ủ', 'ỉ', 'Ỉ', 'ỏ', 'Ỏ', 'ẻ', 'Ẻ', 'â', 'Â', 'û', 'Û', 'î', 'Î', 'ô', 'Ô', 'ê', 'Ê',
   'à', 'À', 'ù', 'Ù', 'ì', 'Ì', 'ò', 'Ò', 'è', 'È', 'ã', 'Ã', 'ũ', 'Ũ', 'ĩ', 'Ĩ', 'õ', 'Õ', 'ẽ', 'Ẽ']

/-- The letters that start syllables. -/
def starts : List Char :=
  ['b', 'B', 'c', 'C', 'd', 'D', 'f', 'F', 'g', 'G', 'h', 'H', 'j', 'J', 'k', 'K', 'l', 'L', 'm', 'M', 'n', 'N', 'p', 'P', 'r', 'R',
   's', 'S', 't', 'T']

/-- The text of a syllable, if the whole window is one, or failure. -/
def PR.str? : PR → Option (Option Str)
  | .ok [] (.str s, []) => some (some s)
  | .fail => some none
  | _ => none

/-- Likewise, with a label for the syllable. -/
def PR.lab? : PR → Option (Option (Str × Str))
  | .ok [] (.str s, [.str t]) => some (some (s, t))
  | .fail => some none
  | _ => none

/-- Whether the run succeeds. -/
def PR.ok? : PR → Option Bool
  | .ok _ _ => some true
  | .yes => some true
  | .fail => some false
  | .stuck => none

/-- The rule without its first part. -/
def tailOf (r : Nat) : Expr Act := match toaq.body r with
  | .seq _ b => b
  | e => e

/-- The rules for syllables without tone, and with tones. -/
def sylRules : List Nat := [123, 293, 294, 295, 296, 297, 298, 299]

/-- The rules for particles. -/
def fwRules : List Nat :=
  [102, 103, 104, 105, 106, 107, 108, 109, 110, 111, 112, 113, 114, 115, 116, 117, 118, 119, 120, 121, 122]

/-- The rules for particles, with the consonants they may have. -/
def fwPairs : List (Nat × Str) :=
  [(102, ['b']), (102, ['p']), (103, ['b']), (103, ['d']), (103, ['k']), (103, ['s']), (105, ['g']),
   (106, ['c']), (106, ['f']), (106, ['g']), (106, ['t']), (107, ['b']), (107, ['m']), (108, ['h']), (109, ['j']), (110, ['k']),
   (111, ['k']), (112, ['k']), (113, ['j']), (113, ['k']), (114, ['l']), (114, ['m']), (114, ['t']), (115, ['m']), (115, ['s']),
   (115, ['s', 'h']), (116, ['m']), (117, ['n']), (118, ['j']), (118, ['p']), (119, ['r']), (120, ['h']), (120, ['j']), (120, ['k']),
   (120, ['s']), (120, ['t']), (121, ['t']), (122, ['t'])]

/-- The particle moq. -/
def moqExpr : Expr Act := .seq (.and (.ref 104)) (.lab (.ref 124))

/-- All entries of a table are known and the same. -/
def agree {α : Type} [DecidableEq α] : List (Option α) → Bool
  | some a :: l => l.all fun x => decide (x = some a)
  | _ => false

theorem agree_ok {α : Type} [DecidableEq α] {l : List (Option α)} (h : agree l = true) {x y : Option α} (hx : x ∈ l) (hy : y ∈ l) :
    ∃ a, x = some a ∧ y = some a := by
  rcases l with _ | ⟨_ | a, l⟩
  · cases h
  · cases h
  · have : ∀ z ∈ some a :: l, z = some a := by
      intro z hz
      rcases List.mem_cons.1 hz with rfl | hz
      · rfl
      · exact of_decide_eq_true (List.all_eq_true.1 h z hz)
    exact ⟨a, this x hx, this y hy⟩

/-- All ways to write a rime have the same outcome, for the syllables, and the particles. -/
noncomputable def rowOk (ws : List Str) : Bool :=
  sylRules.all (fun r => agree (ws.map fun m => (pev after (prule after true 8) (tailOf r) m).str?)) &&
  fwPairs.all (fun o => agree (ws.map fun m => (prule after true 8 o.1 (o.2 ++ m)).ok?))

/-- Likewise for the particle moq, and the rule for its letters. -/
noncomputable def moqOk (ws : List Str) : Bool :=
  agree (ws.map fun m => (pev after (prule after true 8) moqExpr ('m' :: m)).lab?) &&
  agree (ws.map fun m => (prule after true 8 104 ('m' :: m)).ok?)

/-- The hook on oq, for which moq is different. -/
def except (τ : WTone) (r : Str) : Bool := decide (τ = .hook) && decide (r = ['o', 'q'])

/-- The table of a tone. -/
noncomputable def toneOk (τ : WTone) : Bool := (rimes.zip (wins τ)).all fun e => rowOk e.2 && (except τ e.1 || moqOk e.2)

end Verif.Parse.Notes
