/-
/repo/server/server.go: the HTTP handler (C42, C43), on top of the models of the parser, of
`BracesString`, of `Interpret` and of `PrettyString`.

Not modelled: `main`, the file server of /font/, the contents of the page, the encoding of the answer
as JSON, and parts of Go's library that `pretty.String` uses; these are parameters.
-/
import Verif.Parse.Examples
import Verif.Parse.Late
import Verif.Parse.Message
import Verif.Parse.TreePrint
import Verif.Parse.Printed
import Verif.AST.BracesProps
import Verif.AST.VisitProps
import Verif.Logic.InterpExamples

namespace Verif.App
open Verif.Tone (Str)
open Verif.Peg (Bytes utf8)
open Verif.Parse (PNode PS callTree callText newParser newError shown prettyTree)

/-- `map[string]interface{}` with strings as values. -/
abbrev Fields := Str → Option Str

/-- `make(map[string]interface{})` -/
def Fields.empty : Fields := fun _ => none

/-- `resp[k] = v` -/
def Fields.set (m : Fields) (k v : Str) : Fields := fun k' => if k' = k then some v else m k'

/-- The surroundings of the handler: what may go wrong, and the functions that are not modelled. -/
structure Env where
  U : Uni
  /-- server.go:34 the error of `template.ParseFiles`, if any -/
  parseFiles : Option Str
  /-- server.go:39 whether `ExecuteTemplate` fails -/
  execFails : Bool
  /-- server.go:76 whether `Encode` fails -/
  encodeFails : Fields → Bool
  /-- the string that `Interpret` panics with, when it panics with a string -/
  panicText : List AST.Node → Str
  /-- the order in which Go iterates over a map of variable names -/
  order : List (Str × List Nat) → List (Str × List Nat)

/-- The method and the body of a request; `none` is a body that cannot be read. -/
structure Req where
  method : Str
  body : Option Bytes

/-- What the client gets. -/
inductive Ans
  /-- the page -/
  | page
  /-- server.go: `http.Error` -/
  | fail (status : Nat) (msg : Str)
  /-- a JSON object -/
  | json (m : Fields)
  /-- nothing: the handler panics, and net/http closes the connection -/
  | crash
  /-- nothing: the handler does not come to an end -/
  | diverge

/-- Go's `(logic.Statement, error)`, in the case that a panic was recovered from or not. -/
structure Interp where
  st : Option (Logic.Node × List (Nat × Option Logic.Node))
  err : Option Str

/-- server.go:88-98 `safeInterp`: a deferred function recovers from every panic, and sets the error if
the panic is a string. Otherwise both results are nil. The outer `none` is the exhaustion of `k`. -/
def safeInterp (E : Env) (k : Nat) (d : List AST.Node) : Option Interp :=
  match Logic.interpret E.U k d with
  | .ok st => some ⟨st, none⟩
  | .error .msg => some ⟨none, some ("bug: ".toList ++ E.panicText d)⟩
  | .error .rt => some ⟨none, none⟩
  | .error .fuel => none

/-- server.go:100-108 `toString`: `Visit` with a `FuncVisitor`, which never returns nil. -/
def toString (n : AST.Node) : Str :=
  AST.visit (fun (_ : Unit) (x : Option AST.Node) (s : Str) => match x with
    | some (.word .raw w) => (s ++ w.T, some ())
    | _ => (s, some ())) n () []

/-- server.go:66-73: the field Logic. -/
def logicField (E : Env) (i : Interp) : Str :=
  match i.err with
  | some e => e
  | none => match i.st with
    | none => "fragment".toList
    | some (n, defs) =>
      let dfn := fun id => (defs.lookup id).join
      Logic.printTop E.U true dfn (E.order (Logic.scan E.U dfn n).runes) n

/-- server.go:62-73: the object for a text that was parsed. -/
def okFields (E : Env) (t : PNode) (n : AST.Node) (i : Interp) : Fields :=
  ((((Fields.empty.set "Braces".toList (AST.bracesString n)).set "AST".toList (AST.prettyString n)).set
    "Text".toList (toString n)).set "Parse".toList (shown (prettyTree t))).set "Logic".toList (logicField E i)

/-- server.go:76-79 -/
def encode (E : Env) (m : Fields) : Ans := if E.encodeFails m then .fail 500 [] else .json m

/-- server.go:43-79: the handling of POST, with `k` units of fuel for the interpreter. A `*ast.Text`
is a node `text`; `Text` returns nothing else (C51). -/
def post (E : Env) (k : Nat) (b : Bytes) : Ans :=
  match callTree E.U b newParser with
  | (.err e, _) => encode E (Fields.empty.set "Error".toList (newError E.U b .tree))
  | (.tree t, s) => match (callText E.U b s).1 with
    | .text (.text l d) => match safeInterp E k d with
      | none => .diverge
      | some i => encode E (okFields E t (.text l d) i)
    -- server.go:56-61: `panic("impossible …")`, and panics of the parser
    | .diverge => .diverge
    | _ => .crash
  | (.diverge, _) => .diverge
  | _ => .crash

/-- server.go:31-85 `rootHandler`. -/
def rootHandler (E : Env) (k : Nat) (r : Req) : Ans :=
  if r.method = "GET".toList then
    match E.parseFiles with
    | some e => .fail 500 e
    | none => if E.execFails then .fail 500 [] else .page
  else if r.method = "POST".toList then
    match r.body with
    | none => .fail 500 []
    | some b => post E k b
  else .fail 405 ("method ".toList ++ r.method ++ " is not allowed".toList)

/-! ## Specification -/

/-- The keys of an object are exactly these. -/
def Keys (m : Fields) (l : List String) : Prop := ∀ k, (m k).isSome = true ↔ ∃ s ∈ l, k = s.toList

/-- The kinds of answers to a request when nothing outside the program goes wrong. -/
inductive Proper : Req → Ans → Prop
  | get (r) : r.method = "GET".toList → Proper r .page
  | error (r m) : r.method = "POST".toList → Keys m ["Error"] → Proper r (.json m)
  | ok (r m) : r.method = "POST".toList → Keys m ["Braces", "AST", "Text", "Parse", "Logic"] → Proper r (.json m)
  | other (r) : r.method ≠ "GET".toList → r.method ≠ "POST".toList →
      Proper r (.fail 405 ("method ".toList ++ r.method ++ " is not allowed".toList))

/-- The template can be read and executed, the body can be read, and the answer can be written. -/
def Env.Works (E : Env) (r : Req) : Prop :=
  E.parseFiles = none ∧ E.execFails = false ∧ (∀ m, E.encodeFails m = false) ∧ r.body ≠ none

/-- The handler gives answer `a`, whatever the depth of recursion beyond some depth. -/
def Answers' (E : Env) (r : Req) (a : Ans) : Prop := ∃ k0, ∀ k, k0 ≤ k → rootHandler E k r = a

/-! ## Proofs -/

theorem keys_error (v : Str) : Keys (Fields.empty.set "Error".toList v) ["Error"] := by
  intro k
  simp [Fields.set, Fields.empty]

theorem keys_ok (E : Env) (t n i) : Keys (okFields E t n i) ["Braces", "AST", "Text", "Parse", "Logic"] := by
  intro k
  simp only [okFields, Fields.set, Fields.empty]
  repeat' split
  all_goals simp_all

open Verif.Parse (fresh calls Call C20_memo_transparent callsE newEP errorMessage newError_ok)
open Verif.AST.Spec (words)

theorem toString_words (n : AST.Node) : toString n = ((words n).map (·.t)).flatten := by
  have key : ∀ n s, AST.visit (fun (_ : Unit) (x : Option AST.Node) (s : Str) => match x with
      | some (.word .raw w) => (s ++ w.T, some ())
      | _ => (s, some ())) n () s = s ++ ((words n).map (·.t)).flatten := by
    apply AST.children_induct
    intro n ih s
    have hl : ∀ (l : List AST.Node), (∀ c ∈ l, c ∈ AST.Spec.children n) → ∀ s : Str,
        l.foldl (fun s c => AST.visit (fun (_ : Unit) (x : Option AST.Node) (s : Str) => match x with
          | some (.word .raw w) => (s ++ w.T, some ())
          | _ => (s, some ())) c () s) s = s ++ ((l.flatMap words).map (·.t)).flatten := by
      intro l
      induction l with
      | nil => intro _ s; simp
      | cons c l ihl =>
        intro hc s
        rw [List.foldl_cons, ih c (hc c List.mem_cons_self), ihl (fun x hx => hc x (List.mem_cons_of_mem _ hx))]
        simp
    rw [AST.C08_visit, AST.words_children]
    by_cases hn : ∃ w, n = .word .raw w
    · obtain ⟨w, rfl⟩ := hn
      simp only
      rw [hl _ (fun _ h => h)]
      simp [AST.enteredWords]
    · have h1 : (match some n with
        | some (.word .raw w) => (s ++ w.T, some ())
        | _ => (s, some ()) : Str × Option Unit) = (s, some ()) := by
        split
        · rename_i w h; exact absurd ⟨w, by simpa using h⟩ hn
        · rfl
      have h2 : AST.enteredWords [n] = [] := by
        unfold AST.enteredWords
        split
        · simp_all
        · simp_all
        · simp_all [AST.enteredWords]
      rw [h1, h2]
      simp only
      rw [hl _ (fun _ h => h)]
      simp
  rw [toString, key, List.nil_append]

theorem post_eq (E : Env) (k : Nat) (b : Bytes) : post E k b =
    match fresh E.U b .tree with
    | .err e => encode E (Fields.empty.set "Error".toList (newError E.U b .tree))
    | .tree t => match fresh E.U b .text with
      | .text (.text l d) => match safeInterp E k d with
        | none => .diverge
        | some i => encode E (okFields E t (.text l d) i)
      | .diverge => .diverge
      | _ => .crash
    | .diverge => .diverge
    | _ => .crash := by
  have h := C20_memo_transparent (U := E.U) (b := b) [.tree, .text]
  simp only [calls, Parse.call, List.map_cons, List.map_nil, List.cons.injEq, and_true] at h
  obtain ⟨h1, h2⟩ := h
  unfold post
  rw [← h1, ← h2]
  rcases callTree E.U b newParser with ⟨o, s⟩
  cases o <;> rfl

theorem tree_cases (U : Uni) (b : Bytes) : (∃ t, fresh U b .tree = .tree t) ∨ ∃ e, fresh U b .tree = .err e := by
  simpa [C20_memo_transparent] using Parse.C22_tree_total (U := U) (b := b) [.tree] 0 rfl

theorem text_cases (U : Uni) (b : Bytes) : (∃ n, fresh U b .text = .text n) ∨ (∃ e, fresh U b .text = .err e) ∨
    fresh U b .text = .panic := by
  have h := Parse.C16_terminates U b [.text] (fresh U b .text) (by simp [C20_memo_transparent])
  revert h
  simp only [fresh]
  repeat' split
  all_goals simp

theorem text_of_tree {U : Uni} {b : Bytes} {t : PNode} (h : fresh U b .tree = .tree t) :
    (∃ n, fresh U b .text = .text n) ∨ fresh U b .text = .panic := by
  rcases text_cases U b with h1 | ⟨e, h1⟩ | h1
  · exact .inl h1
  · have := (Parse.C19_tree_text_agree U b [.tree, .text] 0 1 rfl rfl e).2 (by simp [C20_memo_transparent, h1])
    simp [C20_memo_transparent, h] at this
  · exact .inr h1

theorem text_is_text {U : Uni} (hU : U.Ok) {b : Bytes} {n : AST.Node} (h : fresh U b .text = .text n) :
    ∃ l d, n = .text l d := by
  have h1 := Parse.C51_well_sorted (b := b) hU [.text] n (by simp [C20_memo_transparent, h])
  cases n <;> simp_all [Parse.ws, Parse.tag, Parse.accepts]

/-- `Interpret` does `r` on `d`, whatever the depth of recursion beyond some depth. -/
def Interprets (U : Uni) (d : List AST.Node) (r : Except Logic.Err (Option (Logic.Node × List (Nat × Option Logic.Node)))) : Prop :=
  ∃ k0, ∀ k, k0 ≤ k → Logic.interpret U k d = r

theorem safeInterp_total (E : Env) (d : List AST.Node) : ∃ i, ∃ k0, ∀ k, k0 ≤ k → safeInterp E k d = some i := by
  obtain ⟨r, h1, k0, h2⟩ := Logic.C34_terminates E.U d
  have : ∃ i, ∀ k, k0 ≤ k → safeInterp E k d = some i := by
    rcases r with e | st
    · cases e with
      | msg => exact ⟨_, fun k hk => by rw [safeInterp, h2 k hk]⟩
      | rt => exact ⟨_, fun k hk => by rw [safeInterp, h2 k hk]⟩
      | fuel => exact absurd rfl h1
    · exact ⟨_, fun k hk => by rw [safeInterp, h2 k hk]⟩
  obtain ⟨i, h⟩ := this
  exact ⟨i, k0, h⟩

theorem encode_cases (E : Env) (m : Fields) : encode E m = .json m ∨ (encode E m = .fail 500 [] ∧ E.encodeFails m = true) := by
  unfold encode; split
  · rename_i h; exact .inr ⟨rfl, h⟩
  · exact .inl rfl

/-- C42. Every request gets an answer of the right kind; if the template, the reading of the body or
the writing of the answer fails it may be a status 500 instead. Partial: the tone digits of the body must be in
place, see `C42_crash`. -/
theorem C42_answers_partial (E : Env) (hU : E.U.Ok) (r : Req)
    (hd : r.method = "POST".toList → ∀ b, r.body = some b → Parse.InPlace b) :
    ∃ a, Answers' E r a ∧ (E.Works r → Proper r a) ∧ (Proper r a ∨ ∃ m, a = .fail 500 m) := by
  by_cases hg : r.method = "GET".toList
  · by_cases hp : E.parseFiles = none
    · by_cases he : E.execFails = true
      · exact ⟨.fail 500 [], ⟨0, fun k _ => by simp [rootHandler, hg, hp, he]⟩, fun h => by simp [Env.Works, he] at h,
          .inr ⟨_, rfl⟩⟩
      · exact ⟨.page, ⟨0, fun k _ => by simp [rootHandler, hg, hp, he]⟩, fun _ => .get r hg, .inl (.get r hg)⟩
    · obtain ⟨e, he⟩ := Option.ne_none_iff_exists'.1 hp
      exact ⟨.fail 500 e, ⟨0, fun k _ => by simp [rootHandler, hg, he]⟩, fun h => absurd h.1 hp, .inr ⟨_, rfl⟩⟩
  by_cases hq : r.method = "POST".toList
  · have h0 : ∀ k, rootHandler E k r = match r.body with
        | none => .fail 500 []
        | some b => post E k b := fun k => by unfold rootHandler; rw [if_neg hg, if_pos hq]
    cases hb : r.body with
    | none => exact ⟨.fail 500 [], ⟨0, fun k _ => by rw [h0, hb]⟩, fun h => absurd hb h.2.2.2, .inr ⟨_, rfl⟩⟩
    | some b =>
      have h1 : ∃ m, (Keys m ["Error"] ∨ Keys m ["Braces", "AST", "Text", "Parse", "Logic"]) ∧
          ∃ k0, ∀ k, k0 ≤ k → post E k b = encode E m := by
        rcases tree_cases E.U b with ⟨t, ht⟩ | ⟨e, he⟩
        · have hx : ∃ n, fresh E.U b .text = .text n := by
            rcases text_of_tree ht with h | h
            · exact h
            · have := Parse.C46_no_panic_partial hU (hd hq b hb) [.text] 0 rfl
              simp [C20_memo_transparent, h] at this
          obtain ⟨n, hn⟩ := hx
          obtain ⟨l, d, rfl⟩ := text_is_text hU hn
          obtain ⟨i, k0, hi⟩ := safeInterp_total E d
          exact ⟨_, .inr (keys_ok E t (.text l d) i), k0, fun k hk => by rw [post_eq, ht, hn]; simp only [hi k hk]⟩
        · exact ⟨_, .inl (keys_error _), 0, fun k _ => by rw [post_eq, he]⟩
      obtain ⟨m, hm, k0, hk⟩ := h1
      have hpr : Proper r (.json m) := hm.elim (.error r m hq) (.ok r m hq)
      rcases encode_cases E m with h2 | ⟨h2, h3⟩
      · exact ⟨.json m, ⟨k0, fun k h => by rw [h0, hb]; simp only [hk k h, h2]⟩, fun _ => hpr, .inl hpr⟩
      · exact ⟨.fail 500 [], ⟨k0, fun k h => by rw [h0, hb]; simp only [hk k h, h2]⟩,
          fun h => (by rw [h.2.2.1 m] at h3; cases h3), .inr ⟨_, rfl⟩⟩
  · exact ⟨_, ⟨0, fun k _ => by unfold rootHandler; rw [if_neg hg, if_neg hq]⟩, fun _ => .other r hg hq,
      .inl (.other r hg hq)⟩

/-- C42, the exact extent of the violation: a POST gets no answer, the handler panicking, just when the body is
accepted by `Tree` and a tone digit of it is out of place. -/
theorem C42_crash_iff (E : Env) (hU : E.U.Ok) (b : Bytes) :
    Answers' E ⟨"POST".toList, some b⟩ .crash ↔
      (∃ t, calls E.U b [.tree] newParser = [.tree t]) ∧ ¬Parse.InPlace b := by
  have h0 : ∀ k, rootHandler E k ⟨"POST".toList, some b⟩ = post E k b := fun k => rfl
  have hc : ∀ m, encode E m ≠ .crash := fun m h => by
    rcases encode_cases E m with h2 | ⟨h2, _⟩ <;> rw [h2] at h <;> cases h
  have hiff : ∀ t, fresh E.U b .tree = .tree t → (fresh E.U b .text = .panic ↔ ¬Parse.InPlace b) := fun t ht =>
    Parse.C46_panics_iff hU t _ (by simp [C20_memo_transparent, ht])
  simp only [C20_memo_transparent, List.map_cons, List.map_nil, List.cons.injEq, and_true]
  constructor
  · rintro ⟨k0, h⟩
    rcases tree_cases E.U b with ⟨t, ht⟩ | ⟨e, he⟩
    · refine ⟨⟨t, ht⟩, (hiff t ht).1 ?_⟩
      rcases text_of_tree ht with ⟨n, hn⟩ | hn
      · obtain ⟨l, d, rfl⟩ := text_is_text hU hn
        obtain ⟨i, k1, hi⟩ := safeInterp_total E d
        have h1 := h (max k0 k1) (Nat.le_max_left _ _)
        rw [h0, post_eq, ht, hn] at h1
        simp only [hi _ (Nat.le_max_right _ _)] at h1
        exact absurd h1 (hc _)
      · exact hn
    · have h1 := h k0 (Nat.le_refl _)
      rw [h0, post_eq, he] at h1
      exact absurd h1 (hc _)
  · rintro ⟨⟨t, ht⟩, h⟩
    refine ⟨0, fun k _ => ?_⟩
    rw [h0, post_eq, ht, (hiff t ht).2 h]

/-- The answer to a POST with a body that was answered by an object. -/
theorem post_json {E : Env} (hU : E.U.Ok) {b : Bytes} {m : Fields}
    (h : Answers' E ⟨"POST".toList, some b⟩ (.json m)) :
    (∃ e, fresh E.U b .tree = .err e ∧ m = Fields.empty.set "Error".toList (newError E.U b .tree)) ∨
    ∃ t l d i k0, fresh E.U b .tree = .tree t ∧ fresh E.U b .text = .text (.text l d) ∧
      (∀ k, k0 ≤ k → safeInterp E k d = some i) ∧
      m = okFields E t (.text l d) i := by
  obtain ⟨k0, h⟩ := h
  have h0 : ∀ k, rootHandler E k ⟨"POST".toList, some b⟩ = post E k b := fun k => rfl
  rcases tree_cases E.U b with ⟨t, ht⟩ | ⟨e, he⟩
  · rcases text_of_tree ht with ⟨n, hn⟩ | hn
    · obtain ⟨l, d, rfl⟩ := text_is_text hU hn
      obtain ⟨i, k1, hi⟩ := safeInterp_total E d
      have h1 := h (max k0 k1) (Nat.le_max_left _ _)
      rw [h0, post_eq, ht, hn] at h1
      simp only [hi _ (Nat.le_max_right _ _)] at h1
      rcases encode_cases E _ with h2 | ⟨h2, _⟩
      · rw [h2] at h1
        cases h1
        exact .inr ⟨t, l, d, i, k1, ht, hn, hi, rfl⟩
      · rw [h2] at h1; cases h1
    · have h1 := h k0 (Nat.le_refl _)
      rw [h0, post_eq, ht, hn] at h1
      cases h1
  · have h1 := h k0 (Nat.le_refl _)
    rw [h0, post_eq, he] at h1
    simp only at h1
    rcases encode_cases E (Fields.empty.set "Error".toList (newError E.U b .tree)) with h2 | ⟨h2, _⟩
    · rw [h2] at h1; cases h1
      exact .inl ⟨e, he, rfl⟩
    · rw [h2] at h1; cases h1

/-- C42. The key Error is present exactly when the text does not parse. -/
theorem C42_error_iff_rejected (E : Env) (hU : E.U.Ok) (b : Bytes) (m : Fields)
    (h : Answers' E ⟨"POST".toList, some b⟩ (.json m)) :
    (m "Error".toList).isSome = true ↔ ∃ e, calls E.U b [.tree] newParser = [.err e] := by
  rw [C20_memo_transparent]
  rcases post_json hU h with ⟨e, he, rfl⟩ | ⟨t, l, d, i, k0, ht, hn, hi, rfl⟩
  · simp [he, Fields.set]
  · simp [ht, okFields, Fields.set, Fields.empty]

/-- C42. The field Error is the message of the error of the parser, see C66. -/
theorem C42_error (E : Env) (hU : E.U.Ok) (b : Bytes) (m : Fields)
    (h : Answers' E ⟨"POST".toList, some b⟩ (.json m)) (s : Str) (hs : m "Error".toList = some s) :
    ∃ k e, callsE E.U b [.tree] newEP = [(.err k, some e)] ∧ s = shown (errorMessage e) := by
  rcases post_json hU h with ⟨k, hk, rfl⟩ | ⟨t, l, d, i, k0, ht, hn, hi, rfl⟩
  · obtain ⟨e, h1, h2⟩ := newError_ok (U := E.U) (b := b) (c := .tree) (k := k) (by simp [C20_memo_transparent, hk])
    refine ⟨k, e, h1, ?_⟩
    rw [← h2]
    simpa [Fields.set] using hs.symm
  · simp [okFields, Fields.set, Fields.empty] at hs

/-- C42. When it does, the fields Braces and Text are those of the parsed text. -/
theorem C42_fields (E : Env) (hU : E.U.Ok) (b : Bytes) (m : Fields)
    (h : Answers' E ⟨"POST".toList, some b⟩ (.json m)) (he : m "Error".toList = none) :
    ∃ t n, calls E.U b [.tree, .text] newParser = [.tree t, .text n] ∧
      m "Braces".toList = some (AST.bracesString n) ∧ m "AST".toList = some (AST.prettyString n) ∧
      m "Parse".toList = some (shown (prettyTree t)) ∧
      m "Text".toList = some ((words n).map (·.t)).flatten := by
  rw [C20_memo_transparent]
  rcases post_json hU h with ⟨e, _, rfl⟩ | ⟨t, l, d, i, k0, ht, hn, hi, rfl⟩
  · simp [Fields.set] at he
  · exact ⟨t, .text l d, by simp [ht, hn], by simp [okFields, Fields.set], by simp [okFields, Fields.set], by simp [okFields, Fields.set],
      by simp [okFields, Fields.set, toString_words]⟩

/-- C43. Whatever the interpreter does, panics included, the handler answers if the text could be
parsed; and the field Logic says "bug: " and the string that the interpreter panicked with. Partial: a panic whose value is
not a string is recovered from, but reported as "fragment", see `C43_runtime_panic_hidden`. -/
theorem C43_reported_partial (E : Env) (hE : ∀ m, E.encodeFails m = false) (b : Bytes) (l : Option AST.Node) (d : List AST.Node)
    (h : calls E.U b [.text] newParser = [.text (.text l d)]) :
    ∃ m, Answers' E ⟨"POST".toList, some b⟩ (.json m) ∧
      (Interprets E.U d (.error .msg) → m "Logic".toList = some ("bug: ".toList ++ E.panicText d)) ∧
      (Interprets E.U d (.error .rt) → m "Logic".toList = some "fragment".toList) := by
  rw [C20_memo_transparent] at h
  simp only [List.map_cons, List.map_nil, List.cons.injEq, and_true] at h
  obtain ⟨i, k0, hi⟩ := safeInterp_total E d
  have ht : ∃ t, fresh E.U b .tree = .tree t := by
    rcases tree_cases E.U b with ht | ⟨e, he⟩
    · exact ht
    · have := (Parse.C19_tree_text_agree E.U b [.tree, .text] 0 1 rfl rfl e).1 (by simp [C20_memo_transparent, he])
      simp [C20_memo_transparent, h] at this
  obtain ⟨t, ht⟩ := ht
  refine ⟨okFields E t (.text l d) i, ⟨k0, fun k hk => ?_⟩, ?_, ?_⟩
  · show rootHandler E k ⟨"POST".toList, some b⟩ = _
    have h0 : rootHandler E k ⟨"POST".toList, some b⟩ = post E k b := rfl
    rw [h0, post_eq, ht, h]
    simp [hi k hk, encode, hE]
  · rintro ⟨k1, h1⟩
    have h2 := hi (max k0 k1) (Nat.le_max_left _ _)
    rw [safeInterp, h1 _ (Nat.le_max_right _ _)] at h2
    cases h2
    simp [okFields, Fields.set, logicField]
  · rintro ⟨k1, h1⟩
    have h2 := hi (max k0 k1) (Nat.le_max_left _ _)
    rw [safeInterp, h1 _ (Nat.le_max_right _ _)] at h2
    cases h2
    simp [okFields, Fields.set, logicField]

/-- C43. If the interpreter does not panic, the field Logic is "fragment" exactly if the text is made
of fragments only, or the statement of `PrettyString`. -/
theorem C43_no_panic (E : Env) (hU : E.U.Ok) (b : Bytes) (l : Option AST.Node) (d : List AST.Node)
    (h : calls E.U b [.text] newParser = [.text (.text l d)]) (m : Fields)
    (hm : Answers' E ⟨"POST".toList, some b⟩ (.json m)) (st) (hst : Interprets E.U d (.ok st)) :
    (st = none ∧ m "Logic".toList = some "fragment".toList ∧ ∀ n ∈ d, Logic.isFragment n = true) ∨
    ∃ n defs, st = some (n, defs) ∧ (∃ x ∈ d, Logic.isFragment x = false) ∧
      m "Logic".toList = some (Logic.printTop E.U true (fun id => (defs.lookup id).join)
        (E.order (Logic.scan E.U (fun id => (defs.lookup id).join) n).runes) n) := by
  rw [C20_memo_transparent] at h
  simp only [List.map_cons, List.map_nil, List.cons.injEq, and_true] at h
  obtain ⟨k1, h1⟩ := hst
  rcases post_json hU hm with ⟨e, he, rfl⟩ | ⟨t, l', d', i, k0, ht, hn, hi, rfl⟩
  · have := (Parse.C19_tree_text_agree E.U b [.tree, .text] 0 1 rfl rfl e).1 (by simp [C20_memo_transparent, he])
    simp [C20_memo_transparent, h] at this
  · rw [h] at hn
    cases hn
    have h2 := hi (max k0 k1) (Nat.le_max_left _ _)
    have h3 := h1 _ (Nat.le_max_right k0 k1)
    rw [safeInterp, h3] at h2
    cases h2
    have h4 := Logic.C35_nil_iff_fragments _ _ _ _ h3
    rcases st with _ | ⟨n, defs⟩
    · exact .inl ⟨rfl, by simp [okFields, Fields.set, logicField], h4.1 rfl⟩
    · refine .inr ⟨n, defs, rfl, ?_, by simp [okFields, Fields.set, logicField]⟩
      simp only [reduceCtorEq, false_iff, not_forall] at h4
      obtain ⟨x, hx, h5⟩ := h4
      exact ⟨x, hx, by simpa using h5⟩

/-! ## Concrete requests -/

/-- Surroundings in which nothing goes wrong. -/
def env : Env where
  U := asciiUni
  parseFiles := none
  execFails := false
  encodeFails _ := false
  panicText _ := "unimplemented".toList
  order l := l

def posting (s : String) : Req := ⟨"POST".toList, some (utf8 s.toList)⟩

/-- A field of the answer. -/
def Ans.field (a : Ans) (k : String) : Option String :=
  match a with
  | .json m => (m k.toList).map String.ofList
  | _ => none

def Ans.crashes : Ans → Bool
  | .crash => true
  | _ => false

example : env.Works (posting "gi? ji/") := ⟨rfl, rfl, fun _ => rfl, by simp [posting]⟩
example : (rootHandler env 100 (posting "gi? ji/")).field "Text" = some "gỉ jí" := by decide +kernel
example : (rootHandler env 100 (posting "gi? ji/")).field "Logic" = some "[℩𝐽 : ji(𝐽)] gi(𝐽)." := by decide +kernel
example : (rootHandler env 100 (posting "po/ ji/")).field "Logic" = some "fragment" := by decide +kernel
example : ((rootHandler env 100 (posting "gi ji")).field "Error").isSome = true := by decide +kernel
/-- The connector of sentences must be ru, otherwise the interpreter panics with a string (C43). -/
example : (rootHandler env 100 (posting "gi? da ra gi? da")).field "Logic" = some "bug: unimplemented" := by decide +kernel
example : ∃ m, rootHandler env 0 ⟨"PUT".toList, none⟩ = .fail 405 m := ⟨_, rfl⟩

theorem rootHandler_post (E : Env) (k : Nat) (b : Bytes) : rootHandler E k ⟨"POST".toList, some b⟩ = post E k b := rfl

/-- C42 is violated: a POST of "jai4" gets no answer at all. -/
theorem C42_crash : Answers' env (posting "jai4") .crash := by
  refine ⟨0, fun k _ => ?_⟩
  have h := Parse.C46_digit_panics
  rw [Parse.run, C20_memo_transparent] at h
  simp only [List.map_cons, List.map_nil, List.cons.injEq, and_true] at h
  obtain ⟨h2, h1, _⟩ := h
  have h4 : env.U = asciiUni := rfl
  rw [posting, rootHandler_post, post_eq, h4]
  generalize fresh asciiUni (utf8 "jai4".toList) .tree = ot at h2 ⊢
  generalize fresh asciiUni (utf8 "jai4".toList) .text = on at h1 ⊢
  cases ot <;> cases h2
  cases on <;> cases h1
  rfl

/-- The sentences of an outcome. -/
def discourseOf : Parse.Out → Option (Option AST.Node × List AST.Node)
  | .text (.text l d) => some (l, d)
  | _ => none

/-- C43 is violated: on this sentence the interpreter fails with a runtime error, which the handler
recovers from, but it reports a fragment. -/
theorem C43_runtime_panic_hidden : ∃ d l m, calls asciiUni (utf8 "gi? to ru gi/ to mai?".toList) [.text] newParser = [.text (.text l d)] ∧
    Interprets asciiUni d (.error .rt) ∧ (∃ n ∈ d, Logic.isFragment n = false) ∧
    Answers' env (posting "gi? to ru gi/ to mai?") (.json m) ∧ m "Logic".toList = some "fragment".toList := by
  have h1 : (match discourseOf (callText asciiUni (utf8 "gi? to ru gi/ to mai?".toList) newParser).1 with
      | some (_, d) => (match Logic.interpret asciiUni 200 d with
        | .error .rt => true
        | _ => false) && d.any (fun n => !Logic.isFragment n)
      | none => false) = true := by decide +kernel
  split at h1
  · rename_i l d hd
    have hc : calls asciiUni (utf8 "gi? to ru gi/ to mai?".toList) [.text] newParser = [.text (.text l d)] := by
      simp only [calls, Parse.call, List.cons.injEq, and_true]
      revert hd
      unfold discourseOf
      split
      · intro hd; cases hd; assumption
      · intro hd; cases hd
    simp only [Bool.and_eq_true, List.any_eq_true, Bool.not_eq_true'] at h1
    obtain ⟨h1, h2⟩ := h1
    have h3 : Interprets asciiUni d (.error .rt) := by
      have h6 : Logic.interpret asciiUni 200 d = .error .rt := by
        split at h1
        · assumption
        · cases h1
      exact ⟨200, fun k hk => Logic.interpret_error_mono h6 (by decide) hk⟩
    obtain ⟨m, h8, _, h9⟩ := C43_reported_partial env (fun _ => rfl) _ l d hc
    exact ⟨d, l, m, hc, h3, h2, h8, h9 h3⟩
  · cases h1

end Verif.App
