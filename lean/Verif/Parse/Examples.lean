/-
Concrete runs of the parser: the hypotheses of the theorems on parsing are met, and where the code
falls short of C18 and C46.
-/
import Verif.Parse.TextProps

namespace Verif.Parse
open Verif.AST Verif.AST.Spec Verif.Peg

/-- The kind of an outcome. -/
inductive Kind
  | tree | text | word | err | panic | diverge
deriving DecidableEq

def Out.kind : Out → Kind
  | .tree _ => .tree | .text _ => .text | .word _ _ => .word | .err _ => .err | .panic => .panic
  | .diverge => .diverge

/-- The words of a result. -/
def Out.toks : Out → List Tok
  | .text n => words n
  | _ => []

def run (s : String) (cs : List Call) : List Out := calls asciiUni (utf8 s.toList) cs newParser

theorem text_of_kind {U : Uni} {b : Bytes} (h : (calls U b [.text] newParser).map Out.kind = [.text]) :
    ∃ n, calls U b [.text] newParser = [.text n] := by
  simp only [calls, List.map_cons, List.map_nil, List.cons.injEq, and_true] at h ⊢
  cases ho : (call U b .text newParser).1 with
  | text n => exact ⟨n, rfl⟩
  | _ => rw [ho] at h; cases h

/-! ### Histories (C16, C19, C20, C22) -/

example : (run "gi? ji/" [.text, .tree, .word 0, .text, .tree, .word 4, .word 7, .word 8, .word (-1)]).map Out.kind =
    [.text, .tree, .word, .text, .tree, .word, .err, .panic, .panic] := by decide +kernel
example : (run "gi ji" [.tree, .text, .tree]).map Out.kind = [.err, .err, .err] := by decide +kernel

/-- The root of a tree. -/
def Out.root : Out → Bytes × Nat
  | .tree t => (t.text, t.kids.length)
  | _ => ([], 0)
example : (run "gi?" [.tree]).map Out.root = [(utf8 "gi?".toList, 2)] := by decide +kernel

/-! ### The syntax tree (C17, C18, C23, C51) -/

example : (run "gi? ji/" [.text]).map Out.toks =
    [[⟨"gỉ".toList, 0, 3⟩, ⟨" ".toList, 3, 4⟩, ⟨"jí".toList, 4, 7⟩]] := by decide +kernel

/-- The rest of the text after a U+FFFD is ignored (C17). -/
example : (run "gi?� gi ji" [.text]).map Out.toks = [[⟨"gỉ".toList, 0, 3⟩]] := by decide +kernel

/-- C18 is violated: in the syntax tree of "kio gi? ki " the space at the end comes before "ki". -/
theorem C18_parenthetical_reorders : ∃ n, calls asciiUni (utf8 "kio gi? ki ".toList) [.text] newParser = [.text n] ∧
    ∀ p q, ¬ Tiles p q (words n) := by
  obtain ⟨n, hn⟩ := text_of_kind (U := asciiUni) (b := utf8 "kio gi? ki ".toList) (by decide +kernel)
  refine ⟨n, hn, fun p q h => ?_⟩
  have h1 : (run "kio gi? ki " [.text]).map Out.toks = [[⟨"kıo".toList, 0, 3⟩, ⟨" ".toList, 3, 4⟩,
      ⟨"gỉ".toList, 4, 7⟩, ⟨" ".toList, 7, 8⟩, ⟨" ".toList, 10, 11⟩, ⟨"kı".toList, 8, 10⟩]] := by decide +kernel
  rw [run, hn] at h1
  simp only [List.map_cons, List.map_nil, Out.toks, List.cons.injEq, and_true] at h1
  rw [h1] at h
  simp [Tiles] at h

/-- The other words are in order. -/
example : (run "kio gi? ki " [.text]).map (fun | .text n => opens n | _ => []) = [[⟨"kıo".toList, 0, 3⟩, ⟨" ".toList, 3, 4⟩,
    ⟨"gỉ".toList, 4, 7⟩, ⟨" ".toList, 7, 8⟩, ⟨" ".toList, 10, 11⟩]] := by decide +kernel

/-! ### Panics (C46) -/

/-- C46 is violated: the text "jai4" is accepted, `Tree` returns a tree, but `Text` and `Word` panic. -/
theorem C46_digit_panics : (run "jai4" [.tree, .text, .word 0]).map Out.kind = [.tree, .panic, .panic] := by
  decide +kernel

/-- With the other ways to write the tone it does not. -/
example : (run "jai?" [.tree, .text, .word 0]).map Out.kind = [.tree, .text, .word] := by decide +kernel
example : (run "ja4i" [.tree, .text, .word 0]).map Out.kind = [.tree, .text, .word] := by decide +kernel
example : (run "jai? \uFFFD jai4" [.tree, .text]).map Out.kind = [.tree, .text] := by decide +kernel

/-! ### Words (C23) -/

def Out.wordParts : Out → Option (String × Nat × Nat × Nat)
  | .word (.mk t s e _) k => some (String.ofList t, s, e, k)
  | _ => none
example : (run "gi? ji/" [.word 0, .word 4]).map Out.wordParts = [some ("gỉ", 0, 4, 4), some ("jí", 4, 7, 3)] := by
  decide +kernel

end Verif.Parse
