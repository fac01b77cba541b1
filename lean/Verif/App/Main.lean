/-
/repo/main.go: the command-line tool (C65).

`NillOutAST` changes only the fields AST, which the logic trees of the model do not have.
-/
import Verif.App.Parsed
import Verif.Parse.TreePrint
import Verif.Parse.DedupProps
import Verif.Logic.GoPrint

namespace Verif.App
open Verif.Tone (Str)
open Verif.Peg
open Verif.Parse (PNode Act SynErr EP callE callText newEP newParser calls callsE fresh prettyTree failName C20_memo_transparent errorMessage wantText)
open Verif.AST.Spec (words)

/-- The arguments and the input of a run, and the functions that are not modelled. -/
structure Cli where
  U : Uni
  /-- main.go:20 `os.Args[1]`, if there are arguments -/
  path : Option Str
  /-- main.go:22 the error of `os.Open`, if it fails -/
  openErr : Option Str
  /-- main.go:30 what `ReadAll` returns: the error, or the data -/
  read : Except Str Bytes
  /-- the parts of Go's library that `pretty.String` uses on statements -/
  lib : AST.GoLib
  /-- the order in which Go iterates over a map of variable names -/
  order : List (Str × List Nat) → List (Str × List Nat)

/-- How a run ends. -/
inductive End
  | exit (status : Nat)
  | panic
  | diverge
deriving DecidableEq, Repr

/-- A run: what was written to the standard output, and the end. -/
structure Ran where
  out : Bytes
  fin : End

mutual
/-- A `*peg.Fail` as the printer sees it (pretty.go:26-29). -/
def failPT : Fail (Want Act) → PT
  | .mk _ name pos want kids => .mk (match name with
      | some r => failName r
      | none => []) (some pos) (match want with
      | some w => wantText w
      | none => []) (failPTL kids)
def failPTL : List (Fail (Want Act)) → List PT
  | [] => []
  | k :: ks => failPT k :: failPTL ks
end

/-- `fmt.Println` of a string. -/
def line (s : Bytes) : Bytes := s ++ [10]

/-- main.go:56-61: the logic of a text. -/
def cliLogic (C : Cli) : Option (Logic.Node × List (Nat × Option Logic.Node)) → Bytes
  | none => line (utf8 "fragment".toList)
  | some (n, defs) =>
    let dfn := fun id => (defs.lookup id).join
    line (utf8 (Logic.stmtString C.lib n)) ++ line (utf8 (Logic.printTop C.U false dfn (C.order (Logic.scan C.U dfn n).runes) n))

/-- main.go:50-53: what is printed of a parsed text. -/
def cliText (_C : Cli) (t : PNode) (n : AST.Node) : Bytes :=
  line (prettyTree t) ++ line (utf8 (AST.prettyString n)) ++ line (utf8 (toString n)) ++ line (utf8 (AST.bracesString n))

/-- main.go:34-62: the run on input that could be read, with `k` units of fuel for the interpreter. -/
def cliRun (C : Cli) (k : Nat) (b : Bytes) : Ran :=
  match callE C.U b .tree newEP with
  | (.err _, some e, _) =>
    -- main.go:37-44: `path` is the empty string if there are no arguments
    ⟨line (pretty (failPT (dedupFails e.tree))) ++ line (utf8 (C.path.getD []) ++ errorMessage e), .exit 1⟩
  | (.tree t, _, s) => match (callText C.U b s.ps).1 with
    | .text (.text l d) => match Logic.interpret C.U k d with
      | .ok st => ⟨cliText C t (.text l d) ++ cliLogic C st, .exit 0⟩
      | .error .fuel => ⟨cliText C t (.text l d), .diverge⟩
      | .error _ => ⟨cliText C t (.text l d), .panic⟩
    | .diverge => ⟨[], .diverge⟩
    -- main.go:46-49: `panic(err)`, and panics of the parser
    | _ => ⟨[], .panic⟩
  | (.err _, none, _) => ⟨[], .panic⟩
  | (.diverge, _, _) => ⟨[], .diverge⟩
  | _ => ⟨[], .panic⟩

/-- main.go:17-62 `main`. -/
def cliMain (C : Cli) (k : Nat) : Ran :=
  match C.path, C.openErr with
  | some p, some e => ⟨utf8 ("failed to open ".toList ++ p ++ ": ".toList ++ e), .exit 1⟩
  | _, _ => match C.read with
    | .error e => ⟨utf8 ("failed to read input: ".toList ++ e), .exit 1⟩
    | .ok b => cliRun C k b

/-! ## Specification -/

/-- The tool does `r`, whatever the depth of recursion beyond some depth. -/
def Runs (C : Cli) (r : Ran) : Prop := ∃ k0, ∀ k, k0 ≤ k → cliMain C k = r

/-- The input: what can be read from the file, or from the standard input if there is no argument. -/
inductive Input? (C : Cli) : Except Str Bytes → Prop
  | noFile {p e} : C.path = some p → C.openErr = some e →
      Input? C (.error ("failed to open ".toList ++ p ++ ": ".toList ++ e))
  | noData {e} : (C.path = none ∨ C.openErr = none) → C.read = .error e →
      Input? C (.error ("failed to read input: ".toList ++ e))
  | data {b} : (C.path = none ∨ C.openErr = none) → C.read = .ok b → Input? C (.ok b)

/-- The four lines that show a text: the parse tree, the syntax tree, the words, the braces. -/
def Shows (_C : Cli) (t : PNode) (n : AST.Node) (s : Bytes) : Prop :=
  s = prettyTree t ++ [10] ++ (utf8 (AST.prettyString n) ++ [10]) ++ (utf8 ((words n).map (·.t)).flatten ++ [10]) ++
    (utf8 (AST.bracesString n) ++ [10])

/-- What the tool should do with an input. -/
inductive Fit (C : Cli) (b : Bytes) : Ran → Prop
  /-- a text that is rejected: the failures, each once, and on the last line the path and the message -/
  | reject {k e f} : callsE C.U b [.tree] newEP = [(.err k, some e)] →
      (nodes f).map Fail.shape = (firsts (nodes e.tree)).map Fail.shape →
      (∀ x' k', Sub f x' → k' ∈ x'.kids → ∃ x k, Sub e.tree x ∧ k ∈ x.kids ∧ x'.shape = x.shape ∧ k'.shape = k.shape) →
      Fit C b ⟨pretty (failPT f) ++ [10] ++ (utf8 (C.path.getD []) ++ errorMessage e ++ [10]), .exit 1⟩
  | fragment {t l d s} : calls C.U b [.tree, .text] newParser = [.tree t, .text (.text l d)] →
      Interprets C.U d (.ok none) → Shows C t (.text l d) s → Fit C b ⟨s ++ (utf8 "fragment".toList ++ [10]), .exit 0⟩
  | statement {t l d s n defs p} : calls C.U b [.tree, .text] newParser = [.tree t, .text (.text l d)] →
      Interprets C.U d (.ok (some (n, defs))) → Shows C t (.text l d) s →
      Logic.IsString C.U (fun id => (defs.lookup id).join) n p →
      Fit C b ⟨s ++ (utf8 (Logic.stmtString C.lib n) ++ [10] ++ (utf8 p ++ [10])), .exit 0⟩
  /-- a panic of the parser: nothing is printed -/
  | parser {t} : calls C.U b [.tree, .text] newParser = [.tree t, .panic] → Fit C b ⟨[], .panic⟩
  /-- a panic of the interpreter, when the text was shown -/
  | interpreter {t l d s e} : calls C.U b [.tree, .text] newParser = [.tree t, .text (.text l d)] →
      Interprets C.U d (.error e) → Shows C t (.text l d) s → Fit C b ⟨s, .panic⟩

/-! ## Proofs -/

theorem input_cases (C : Cli) : ∃ i, Input? C i ∧ ∀ k, cliMain C k = match i with
    | .error e => ⟨utf8 e, .exit 1⟩
    | .ok b => cliRun C k b := by
  unfold cliMain
  cases hp : C.path with
  | none =>
    cases hr : C.read with
    | error e => exact ⟨_, .noData (.inl hp) hr, fun k => rfl⟩
    | ok b => exact ⟨_, .data (.inl hp) hr, fun k => rfl⟩
  | some p => cases ho : C.openErr with
    | none =>
      cases hr : C.read with
      | error e => exact ⟨_, .noData (.inr ho) hr, fun k => rfl⟩
      | ok b => exact ⟨_, .data (.inr ho) hr, fun k => rfl⟩
    | some e => exact ⟨_, .noFile hp ho, fun k => rfl⟩

theorem Input?.unique {C : Cli} {i j} (h : Input? C i) (h' : Input? C j) : i = j := by
  cases h <;> cases h' <;> simp_all

theorem shows (C : Cli) (t : PNode) (n : AST.Node) : Shows C t n (cliText C t n) := by
  unfold Shows cliText line
  rw [toString_words]

/-- The tool on input that could be read: it comes to one of the ends of the specification. -/
theorem cliRun_fit (C : Cli) (hU : C.U.Ok) (hE : ∀ l, (C.order l).Perm l) (b : Bytes) :
    ∃ r, (∃ k0, ∀ k, k0 ≤ k → cliRun C k b = r) ∧ Fit C b r := by
  have hc : ∀ {t o}, fresh C.U b .tree = .tree t → fresh C.U b .text = o →
      calls C.U b [.tree, .text] newParser = [.tree t, o] := fun h h' => by
    simp [C20_memo_transparent, h, h']
  have h0 : ∀ {o}, fresh C.U b .tree = o → (callE C.U b .tree newEP).1 = o := by
    intro o h
    have := (Parse.callE_ok Parse.Call.tree newEP (Parse.einv_new (U := C.U) (b := b))).2.1
    rw [this, ← h]
    have := C20_memo_transparent (U := C.U) (b := b) [.tree]
    have h1 : (Parse.call C.U b .tree newParser).1 = fresh C.U b .tree := by simpa [calls] using this
    exact h1
  rcases tree_cases C.U b with ⟨t, ht⟩ | ⟨k, hk⟩
  · have hct := h0 ht
    have hps : (callE C.U b .tree newEP).2.2.ps = (Parse.callTree C.U b newParser).2 := by
      unfold callE
      cases hcall : Parse.call C.U b .tree newEP.ps with
      | mk o ps =>
        have h1 : (callE C.U b .tree newEP).1 = o := by
          unfold callE
          rw [hcall]
          cases o <;> try rfl
          simp only
          split <;> rfl
        rw [hct] at h1
        subst h1
        simp only
        have : Parse.callTree C.U b newParser = (.tree t, ps) := hcall
        rw [this]
    have hx : ∀ k, cliRun C k b = match fresh C.U b .text with
        | .text (.text l d) => match Logic.interpret C.U k d with
          | .ok st => ⟨cliText C t (.text l d) ++ cliLogic C st, .exit 0⟩
          | .error .fuel => ⟨cliText C t (.text l d), .diverge⟩
          | .error _ => ⟨cliText C t (.text l d), .panic⟩
        | .diverge => ⟨[], .diverge⟩
        | _ => ⟨[], .panic⟩ := by
      intro k
      have h2 : (callText C.U b (callE C.U b .tree newEP).2.2.ps).1 = fresh C.U b .text := by
        rw [hps]
        have := C20_memo_transparent (U := C.U) (b := b) [.tree, .text]
        simp only [calls, Parse.call, List.map_cons, List.map_nil, List.cons.injEq, and_true] at this
        exact this.2
      unfold cliRun
      rw [← h2]
      rcases hcE : callE C.U b .tree newEP with ⟨o, e, s⟩
      rw [hcE] at hct
      simp only at hct
      subst hct
      rfl
    rcases text_of_tree ht with ⟨n, hn⟩ | hp
    · obtain ⟨l, d, rfl⟩ := text_is_text hU hn
      obtain ⟨r, h1, k0, h2⟩ := Logic.C34_terminates C.U d
      rcases r with e | st
      · refine ⟨⟨cliText C t (.text l d), .panic⟩, ⟨k0, fun k hk => ?_⟩, .interpreter (hc ht hn) ⟨k0, h2⟩ (shows C t _)⟩
        rw [hx, hn]
        simp only [h2 k hk]
        cases e with
        | fuel => exact absurd rfl h1
        | _ => rfl
      · refine ⟨⟨cliText C t (.text l d) ++ cliLogic C st, .exit 0⟩, ⟨k0, fun k hk => ?_⟩, ?_⟩
        · rw [hx, hn]
          simp only [h2 k hk]
        · rcases st with _ | ⟨n, defs⟩
          · exact .fragment (hc ht hn) ⟨k0, h2⟩ (shows C t _)
          · exact .statement (hc ht hn) ⟨k0, h2⟩ (shows C t _) ⟨_, hE _, rfl⟩
    · exact ⟨⟨[], .panic⟩, ⟨0, fun k _ => by rw [hx, hp]⟩, .parser (hc ht hp)⟩
  · have hct := h0 hk
    obtain ⟨e, he, _⟩ := (Parse.callE_ok Parse.Call.tree newEP (Parse.einv_new (U := C.U) (b := b))).2.2 k hct
    rcases hcE : callE C.U b .tree newEP with ⟨o, e', s⟩
    rw [hcE] at hct he
    simp only at hct he
    subst hct he
    have hl : callsE C.U b [.tree] newEP = [(.err k, some e)] := by simp only [callsE, hcE]
    refine ⟨_, ⟨0, fun k' _ => ?_⟩, .reject hl (Parse.C64_errors C.U b [.tree] (.err k) e (by rw [hl]; simp)).2.2.2.1
      (C64_below e.tree)⟩
    unfold cliRun
    rw [hcE]
    rfl

/-- C65. Every run of the command-line tool comes to an end, and does what it should: if the input cannot
be read, it says why and exits with status 1; else it does what `Fit` says. In particular `panic(err)`
(main.go:48) is never reached: a text that has a parse tree has a syntax tree, unless the parser panics. -/
theorem C65_runs (C : Cli) (hU : C.U.Ok) (hE : ∀ l, (C.order l).Perm l) : ∃ r i, Runs C r ∧ Input? C i ∧
    match i with
    | .error e => r = ⟨utf8 e, .exit 1⟩
    | .ok b => Fit C b r := by
  obtain ⟨i, hi, hm⟩ := input_cases C
  cases i with
  | error e => exact ⟨_, _, ⟨0, fun k _ => hm k⟩, hi, rfl⟩
  | ok b =>
    obtain ⟨r, ⟨k0, h1⟩, h2⟩ := cliRun_fit C hU hE b
    exact ⟨r, _, ⟨k0, fun k hk => (hm k).trans (h1 k hk)⟩, hi, h2⟩

theorem Runs.unique {C : Cli} {r r'} (h : Runs C r) (h' : Runs C r') : r = r' := by
  obtain ⟨k, h⟩ := h
  obtain ⟨k', h'⟩ := h'
  rw [← h (max k k') (Nat.le_max_left _ _), h' (max k k') (Nat.le_max_right _ _)]

/-- C65. The exit status is 1 exactly if the input cannot be read or `Tree` rejects it, and 0 exactly if
`Text` returns a text and `Interpret` returns. -/
theorem C65_status (C : Cli) (hU : C.U.Ok) (hE : ∀ l, (C.order l).Perm l) (r : Ran) (h : Runs C r) :
    (r.fin = .exit 1 ↔ (∃ e, Input? C (.error e)) ∨ ∃ b k, Input? C (.ok b) ∧ calls C.U b [.tree] newParser = [.err k]) ∧
    (r.fin = .exit 0 ↔ ∃ b l d st, Input? C (.ok b) ∧ calls C.U b [.text] newParser = [.text (.text l d)] ∧ Interprets C.U d (.ok st)) ∧
    (r.fin = .exit 0 ∨ r.fin = .exit 1 ∨ r.fin = .panic) := by
  obtain ⟨r', i, hr, hi, hf⟩ := C65_runs C hU hE
  have := h.unique hr
  subst this
  have one : ∀ {b o}, calls C.U b [o] newParser = [fresh C.U b o] := fun {b o} => by simp [C20_memo_transparent]
  have two : ∀ {b}, calls C.U b [.tree, .text] newParser = [fresh C.U b .tree, fresh C.U b .text] := fun {b} => by
    simp [C20_memo_transparent]
  cases i with
  | error e =>
    subst hf
    refine ⟨⟨fun _ => .inl ⟨e, hi⟩, fun _ => rfl⟩, ⟨fun h => (by cases h), ?_⟩, .inr (.inl rfl)⟩
    rintro ⟨b, _, _, _, hb, _⟩
    have := hi.unique hb
    cases this
  | ok b =>
    have hne : ¬ ∃ e, Input? C (.error e) := by
      rintro ⟨e, he⟩
      have := hi.unique he
      cases this
    have hb : ∀ {b'}, Input? C (.ok b') → b' = b := fun h => by
      have := h.unique hi
      injection this
    simp only at hf
    have rejects : (∃ b k, Input? C (.ok b) ∧ calls C.U b [.tree] newParser = [.err k]) ↔ ∃ k, fresh C.U b .tree = .err k := by
      constructor
      · rintro ⟨b', k, h1, h2⟩
        rw [hb h1, one] at h2
        exact ⟨k, by simpa using h2⟩
      · rintro ⟨k, hk⟩
        exact ⟨b, k, hi, by rw [one, hk]⟩
    have works : (∃ b l d st, Input? C (.ok b) ∧ calls C.U b [.text] newParser = [.text (.text l d)] ∧ Interprets C.U d (.ok st)) ↔
        ∃ l d st, fresh C.U b .text = .text (.text l d) ∧ Interprets C.U d (.ok st) := by
      constructor
      · rintro ⟨b', l, d, st, h1, h2, h3⟩
        rw [hb h1, one] at h2
        exact ⟨l, d, st, by simpa using h2, h3⟩
      · rintro ⟨l, d, st, h1, h2⟩
        exact ⟨b, l, d, st, hi, by rw [one, h1], h2⟩
    rw [rejects, works]
    cases hf with
    | @reject k e f h1 _ _ =>
      have : fresh C.U b .tree = .err k := by
        have := Parse.C57_outcomes C.U b [.tree]
        rw [h1, one] at this
        simpa using this.symm
      have htx : ∀ n, fresh C.U b .text ≠ .text n := by
        intro n hn
        have h3 := (Parse.C19_tree_text_agree C.U b [.tree, .text] 0 1 rfl rfl k).1 (by simp [C20_memo_transparent, this])
        simp [C20_memo_transparent, hn] at h3
      refine ⟨⟨fun _ => .inr ⟨k, this⟩, fun _ => rfl⟩, ⟨fun h => (by cases h), ?_⟩, .inr (.inl rfl)⟩
      rintro ⟨l, d, st, h1, _⟩
      exact absurd h1 (htx _)
    | @fragment t l d s h1 h2 h3 =>
      rw [two] at h1
      simp only [List.cons.injEq, and_true] at h1
      refine ⟨⟨fun h => (by cases h), ?_⟩, ⟨fun _ => ⟨l, d, _, h1.2, h2⟩, fun _ => rfl⟩, .inl rfl⟩
      rintro (h | ⟨k, hk⟩)
      · exact absurd h hne
      · rw [h1.1] at hk; cases hk
    | @statement t l d s n defs p h1 h2 h3 _ =>
      rw [two] at h1
      simp only [List.cons.injEq, and_true] at h1
      refine ⟨⟨fun h => (by cases h), ?_⟩, ⟨fun _ => ⟨l, d, _, h1.2, h2⟩, fun _ => rfl⟩, .inl rfl⟩
      rintro (h | ⟨k, hk⟩)
      · exact absurd h hne
      · rw [h1.1] at hk; cases hk
    | @parser t h1 =>
      rw [two] at h1
      simp only [List.cons.injEq, and_true] at h1
      refine ⟨⟨fun h => (by cases h), ?_⟩, ⟨fun h => (by cases h), ?_⟩, .inr (.inr rfl)⟩
      · rintro (h | ⟨k, hk⟩)
        · exact absurd h hne
        · rw [h1.1] at hk; cases hk
      · rintro ⟨l, d, st, h2, _⟩
        rw [h1.2] at h2; cases h2
    | @interpreter t l d s e h1 h2 h3 =>
      rw [two] at h1
      simp only [List.cons.injEq, and_true] at h1
      refine ⟨⟨fun h => (by cases h), ?_⟩, ⟨fun h => (by cases h), ?_⟩, .inr (.inr rfl)⟩
      · rintro (h | ⟨k, hk⟩)
        · exact absurd h hne
        · rw [h1.1] at hk; cases hk
      · rintro ⟨l', d', st, h4, h5⟩
        rw [h1.2] at h4
        injection h4 with h4
        injection h4 with _ h4
        subst h4
        obtain ⟨k, h2⟩ := h2
        obtain ⟨k', h5⟩ := h5
        have h6 := h2 (max k k') (Nat.le_max_left _ _)
        rw [h5 (max k k') (Nat.le_max_right _ _)] at h6
        cases h6

/-- C65. The tool exits with status 0 or 1 on every text with its tone digits in place and with connections
that the interpreter knows: it does not panic. Partial: on other texts it may, see `C65_digit_panics`,
`C65_interpreter_panics`. -/
theorem C65_known_partial (C : Cli) (hU : C.U.Ok) (hP : Parse.Plain C.U) (hE : ∀ l, (C.order l).Perm l) (r : Ran)
    (h : Runs C r) (hk : ∀ b, Input? C (.ok b) → Parse.InPlace b ∧ Known C.U b) :
    r.fin = .exit 0 ∨ r.fin = .exit 1 := by
  obtain ⟨r', i, hr, hi, hf⟩ := C65_runs C hU hE
  have := h.unique hr
  subst this
  cases i with
  | error e => subst hf; exact .inr rfl
  | ok b =>
    obtain ⟨hd, hk⟩ := hk b hi
    simp only at hf
    cases hf with
    | reject => exact .inr rfl
    | fragment => exact .inl rfl
    | statement => exact .inl rfl
    | parser h1 =>
      have := Parse.C46_no_panic_partial hU hd [.tree, .text] 1 rfl
      simp [h1] at this
    | @interpreter _ l d _ _ h1 h2 _ =>
      have h3 : calls C.U b [.text] newParser = [.text (.text l d)] := by
        have := C20_memo_transparent (U := C.U) (b := b) [.tree, .text]
        rw [h1] at this
        simp only [List.map_cons, List.map_nil, List.cons.injEq, and_true] at this
        rw [C20_memo_transparent]
        simp [← this.2]
      obtain ⟨st, k, h4⟩ := hk.interprets hU hP h3
      obtain ⟨k', h2⟩ := h2
      have h5 := h2 (max k k') (Nat.le_max_right _ _)
      rw [h4 (max k k') (Nat.le_max_left _ _)] at h5
      cases h5

/-! ### Examples -/

/-- The tool, run on a text on its standard input. -/
def cliOn (s : String) : Cli where
  U := asciiUni
  path := none
  openErr := none
  read := .ok (utf8 s.toList)
  lib := AST.asciiLib
  order l := l

/-- The number of lines printed and the last of them. -/
def Ran.shows (r : Ran) : Nat × String × End :=
  (r.out.count 10, String.ofList (((r.out.dropLast.reverse.takeWhile (· != 10)).reverse).map Char.ofNat), r.fin)

/-- A panic does not depend on the depth of recursion. -/
theorem runs_panic {C : Cli} (k : Nat) (h : (cliMain C k).fin = .panic) : Runs C (cliMain C k) := by
  refine ⟨k, fun k' hk => ?_⟩
  obtain ⟨i, _, hm⟩ := input_cases C
  rw [hm] at h
  rw [hm, hm]
  cases i with
  | error e => rfl
  | ok b =>
    simp only at h ⊢
    unfold cliRun at h ⊢
    split at h
    · rfl
    · split at h
      · split at h
        · cases h
        · cases h
        · rename_i e he hi
          simp only [Logic.interpret_error_mono hi he hk]
      · rfl
      · rfl
    · rfl
    · rfl
    · rfl

/-- C65 is violated: on the text "jai4" the tool panics and prints nothing, not even the tree. -/
theorem C65_digit_panics : Runs (cliOn "jai4") ⟨[], .panic⟩ := by
  have h : (cliMain (cliOn "jai4") 0).fin = .panic ∧ (cliMain (cliOn "jai4") 0).out = [] := by decide +kernel
  have := runs_panic 0 h.1
  rwa [show cliMain (cliOn "jai4") 0 = ⟨[], .panic⟩ from by rw [← h.1, ← h.2]] at this

/-- C65 is violated: this text is parsed and shown, and then the tool panics. -/
theorem C65_interpreter_panics : ∃ r, Runs (cliOn "gi? da ra gi? da") r ∧ r.fin = .panic ∧ r.out.count 10 = 233 :=
  ⟨_, runs_panic 100 (by decide +kernel), by decide +kernel, by decide +kernel⟩

theorem cliOn_order (s : String) : ∀ l, ((cliOn s).order l).Perm l := fun _ => .refl _

example := C65_runs (cliOn "jai? ji/") asciiUni_ok (cliOn_order _)
example : (cliMain (cliOn "jai? ji/") 100).shows.2.2 = .exit 0 := by decide +kernel
example : (cliMain (cliOn "ji/") 100).shows = (80, "fragment", .exit 0) := by decide +kernel
example : (cliMain (cliOn "jai? x") 100).shows.2 = (":1.6: want space; got 'x'", .exit 1) := by decide +kernel
example : (cliMain { cliOn "jai?" with path := some "t".toList, openErr := some "no".toList } 100).shows =
    (0, "failed to open t: n", .exit 1) := by decide +kernel

/-- A text that the hypotheses of `C65_known_partial` hold for. -/
example (r : Ran) (h : Runs (cliOn known) r) : r.fin = .exit 0 ∨ r.fin = .exit 1 :=
  C65_known_partial _ asciiUni_ok (by unfold Parse.Plain; decide) (cliOn_order _) r h fun b hb => by
    have : b = utf8 known.toList := by
      cases hb with
      | data _ h => injection h with h; exact h.symm
    subst this
    exact ⟨Parse.inPlace_of_bytes (by decide +kernel), known_known⟩

end Verif.App
