/-
The message of a syntax error: `SimpleError` and `Error.Error` of
/repo/vendor/github.com/eaburns/peggy/peg/fail.go, with the words of the Fail functions of
/repo/ast/toaq.go for what they want (C66).
-/
import Verif.Parse.Wants
import Verif.Parse.Names
import Verif.Parse.ErrEnd
import Verif.Parse.DedupProps
import Verif.Peg.Pretty

namespace Verif.Parse
open Verif.AST Verif.Peg
open Verif.Tone (Str)

/-! ## Model -/

/-- The characters that are escaped in a class: `[\t\n\r .,:!]`, `[\-1]`, `[5\^]`, `[\\6]`. -/
def clsChar (c : Char) : Str :=
  if c = '\t' then ['\\', 't'] else if c = '\n' then ['\\', 'n'] else if c = '\r' then ['\\', 'r']
  else if c = '-' ∨ c = '^' ∨ c = '\\' then ['\\', c] else [c]

/-- A literal, with Go escapes: `"?"`, `"̄"`. -/
def litChar (c : Char) : Str :=
  if c.toNat < 128 then [c]
  else ['\\', 'u'] ++ List.replicate (4 - (Nat.toDigits 16 c.toNat).length) '0' ++ Nat.toDigits 16 c.toNat

/-- The `Want` of a terminal. The code predicate is written as it is in toaq.peggy:550; of the terminal `punct`,
which is `. &{…}`, the first part wants "." when it fails. (Neither is ever shown, as they are used in a rule with
an error name only.) -/
def termText : Term → Bytes
  | .cls cs => utf8 ('[' :: cs.flatMap clsChar ++ [']'])
  | .lit c => utf8 ('"' :: litChar c ++ ['"'])
  | .any => utf8 ['.']
  | .punct => utf8 "&{ func() bool { r, _ := peg.DecodeRuneInString(p); return unicode.IsPunct(r) }() }".toList

/-- The expression of a predicate in the grammar. Those of toaq.peggy are names of rules, and
`(tone? boundary)`; expressions of other forms do not occur in predicates. -/
def exprText : Expr Act → Bytes
  | .term t => termText t
  | .ref r => failName r
  | .seq a b => exprText a ++ utf8 [' '] ++ exprText b
  | .opt a => exprText a ++ utf8 ['?']
  | .grp a => utf8 ['('] ++ exprText a ++ utf8 [')']
  | .lab a => exprText a
  | .act _ a => exprText a
  | .alt a b => exprText a ++ utf8 ['/'] ++ exprText b
  | .plus a => exprText a ++ utf8 ['+']
  | .star a => exprText a ++ utf8 ['*']
  | .not a => utf8 ['!'] ++ exprText a
  | .and a => utf8 ['&'] ++ exprText a

/-- /repo/ast/toaq.go: `Want` of a `peg.Fail`. -/
def wantText : Want Act → Bytes
  | .term t => termText t
  | .not e => utf8 ['!'] ++ exprText e
  | .and e => utf8 ['&'] ++ exprText e
  | .name r => errorName r

/-- A `Fail` that is not a leaf of the grammar wants the empty string. -/
def wantWords : Option (Want Act) → Bytes
  | none => []
  | some w => wantText w

/-- What an expression wants, in the order in which the Fail functions write it; the code of a repeated
expression is written twice. -/
def exprWants : Expr Act → List Bytes
  | .term .punct => [termText .any, termText .punct]
  | .term t => [termText t]
  | .ref _ => []
  | .seq a b | .alt a b => exprWants a ++ exprWants b
  | .opt a | .star a | .lab a | .grp a | .act _ a => exprWants a
  | .plus a => exprWants a ++ exprWants a
  | .not a => exprWants a ++ [wantText (.not a)]
  | .and a => exprWants a ++ [wantText (.and a)]

/-- The words are those of the Fail functions: for every rule, what its expression wants is what its Fail
function writes. -/
theorem wants_conform : (List.range 403).map (fun r => exprWants (toaq.body r)) = wantTable := by decide +kernel

/-- The rules with an error name are those whose Fail functions write one. -/
theorem names_conform : (List.range 403).filter (fun r => toaq.named r) = errorNames.map Prod.fst := by decide +kernel

/-- fail.go:21-32: the loop that lists the expectations; `n` is their number, `i` the index of the first of the list, `want` what
was written. -/
def wantLoop (n : Nat) : Nat → Bytes → List Bytes → Bytes
  | _, want, [] => want
  | i, want, l :: ls => wantLoop n (i + 1) (want ++
      (if i + 1 = n ∧ i = 1 then utf8 " or ".toList
       else if i + 1 = n ∧ want.length > 1 then utf8 ", or ".toList
       else if i > 0 then utf8 ", ".toList
       else []) ++ l) ls

/-- fail.go:34-47: `got` and the message. -/
def reportMessage (r : Report Act) : Bytes :=
  utf8 "want ".toList ++ wantLoop r.want.length 0 [] (r.want.map wantWords) ++ utf8 "; got ".toList ++
    match r.got with
    | none => utf8 "EOF".toList
    | some t => utf8 "'".toList ++ t ++ utf8 "'".toList

/-- fail.go:61-64 `Error`, with the empty `FilePath`; parser.go:23. -/
def errorMessage (e : SynErr) : Bytes :=
  utf8 ":".toList ++ itoa e.report.loc.line ++ utf8 ".".toList ++ itoa e.report.loc.col ++ utf8 ": ".toList ++ reportMessage e.report

/-- A string of bytes as runes: what is not valid UTF-8 is U+FFFD, as the JSON encoder writes it. -/
def shown (b : Bytes) : Str := (runes b).map (·.r)

/-- `err.Error()` of the error of a call on a new parser. -/
def newError (U : Uni) (b : Bytes) (c : Call) : Str :=
  match (callE U b c newEP).2.1 with
  | some e => shown (errorMessage e)
  | none => []

/-! ## Specification -/

/-- A list in English. -/
inductive Listing : List Bytes → Bytes → Prop
  | one (a) : Listing [a] a
  | two (a b) : Listing [a, b] (a ++ utf8 " or ".toList ++ b)
  | more (l z) : 2 ≤ l.length → Listing (l ++ [z]) ((utf8 ", ".toList).intercalate l ++ utf8 ", or ".toList ++ z)

/-- Line and column of a rune boundary: one more than the number of newlines before it, and one more than the
number of runes since. -/
def Place (b : Bytes) (x line col : Nat) : Prop := ∃ pre post, runes b = pre ++ post ∧ width pre = x ∧
  line = 1 + newlines pre ∧ col = 1 + lastLine pre

/-- What is found at an offset: the end of the text, or its next ten bytes, or as many as there are. -/
inductive Found (b : Bytes) : Nat → Bytes → Prop
  | eof : Found b b.length (utf8 "EOF".toList)
  | text {x t} : t ≠ [] → t <+: b.drop x → t.length ≤ 10 → (t.length < 10 → t = b.drop x) →
      Found b x (utf8 "'".toList ++ t ++ utf8 "'".toList)

/-! ## Proofs -/

theorem wantLoop_mid (n : Nat) : ∀ (l : List Bytes) (i : Nat) (w z : Bytes), 2 ≤ i + l.length → 0 < i → 1 < w.length →
    i + l.length + 1 = n →
    wantLoop n i w (l ++ [z]) = w ++ (l.flatMap fun x => utf8 ", ".toList ++ x) ++ utf8 ", or ".toList ++ z := by
  intro l
  induction l with
  | nil =>
    intro i w z h1 h2 h3 h4
    simp only [List.length_nil, Nat.add_zero] at h1 h4
    have : i ≠ 1 := by omega
    simp [wantLoop, h4, this, h3]
  | cons a l ih =>
    intro i w z h1 h2 h3 h4
    simp only [List.length_cons] at h1 h4
    have : i + 1 ≠ n := by omega
    simp only [List.cons_append, wantLoop, this, false_and, if_false, h2, if_true]
    rw [ih]
    · simp
    · omega
    · omega
    · simp only [List.length_append]; omega
    · omega

theorem intercalate_cons (s a : Bytes) (l : List Bytes) : s.intercalate (a :: l) = a ++ l.flatMap fun x => s ++ x := by
  induction l generalizing a with
  | nil => simp [List.intercalate]
  | cons c l ih =>
    have : s.intercalate (a :: c :: l) = a ++ (s ++ s.intercalate (c :: l)) := by simp [List.intercalate]
    rw [this, ih]
    simp

theorem wantLoop_listing (l : List Bytes) (h : l ≠ []) : Listing l (wantLoop l.length 0 [] l) := by
  match l, h with
  | [a], _ =>
    have : wantLoop 1 0 [] [a] = a := by simp [wantLoop]
    simp only [List.length_singleton, this]
    exact .one a
  | [a, c], _ =>
    have : wantLoop 2 0 [] [a, c] = a ++ utf8 " or ".toList ++ c := by simp [wantLoop]
    simp only [List.length_cons, List.length_nil, this]
    exact .two a c
  | a :: c :: d :: l, _ =>
    obtain ⟨l', z, hz⟩ : ∃ l' z, d :: l = l' ++ [z] :=
      ⟨_, _, (List.dropLast_concat_getLast (List.cons_ne_nil d l)).symm⟩
    have h2 : wantLoop (l'.length + 3) 0 [] (a :: c :: (l' ++ [z])) =
        (utf8 ", ".toList).intercalate (a :: c :: l') ++ utf8 ", or ".toList ++ z := by
      have e1 : ¬ (0 + 1 = l'.length + 3) := by omega
      have e2 : ¬ (0 + 1 + 1 = l'.length + 3) := by omega
      simp only [wantLoop, e1, e2, false_and, if_false, Nat.lt_irrefl, Nat.zero_lt_succ, if_true,
        List.append_nil, List.nil_append, gt_iff_lt]
      rw [wantLoop_mid _ l' (0 + 1 + 1) _ z (by omega) (by omega) (by
        have : (utf8 ", ".toList).length = 2 := rfl
        simp only [List.length_append, this]; omega) (by omega), intercalate_cons]
      simp
    rw [hz]
    have : (a :: c :: (l' ++ [z])).length = l'.length + 3 := by simp
    rw [this, h2]
    exact .more (a :: c :: l') z (by simp)

theorem errors_err {U : Uni} {b : Bytes} {o : Out} {e : SynErr} : ∀ (cs : List Call) (s : EP),
    (o, some e) ∈ callsE U b cs s → ∃ k, o = .err k
  | [], _, h => by cases h
  | c :: cs, s, h => by
    rcases List.mem_cons.1 h with h | h
    · injection h with h1 h2
      unfold callE at h1 h2
      split at h1
      · split at h1 <;> exact ⟨_, h1⟩
      · rename_i o' ps hne hc
        rw [hc] at h2
        cases o' with
        | err k => exact absurd rfl (hne k)
        | _ => cases h2
    · exact errors_err cs _ h

/-- C66. The message of an error, whatever was called before: the line and the column of the place of the error,
what was wanted there, and what was found. -/
theorem C66_message (U : Uni) (b : Bytes) (cs : List Call) (o : Out) (e : SynErr) (h : (o, some e) ∈ callsE U b cs newEP) :
    ∃ x line col want got, byteOffset e.tree = (x : Nat) ∧ Place b x line col ∧
      Listing ((firsts ((leaves e.tree).filter fun l => (l.pos : Int) = x)).map fun l => wantWords l.want) want ∧
      Found b x got ∧
      errorMessage e = utf8 ":".toList ++ itoa line ++ utf8 ".".toList ++ itoa col ++ utf8 ": want ".toList ++ want ++
        utf8 "; got ".toList ++ got := by
  obtain ⟨k, rfl⟩ := errors_err cs _ h
  obtain ⟨r, hr, ho⟩ := C57_reported U b cs k _ h
  cases hr
  obtain ⟨hc, _⟩ := C64_errors U b cs _ e h
  obtain ⟨x, hx, hxl, ⟨pre, post, h1, h2, h3⟩, hg⟩ := ho.offset
  have hw := ho.wants
  obtain ⟨y, l, hl, _⟩ := C24_first_leaf e.tree hc
  rw [C24_leafFails e.tree hc, ← C24_byteOffset] at hl
  have hne : e.report.want ≠ [] := by rw [hw, hl]; simp
  refine ⟨x, _, _, wantLoop e.report.want.length 0 [] (e.report.want.map wantWords), match e.report.got with
      | none => utf8 "EOF".toList
      | some t => utf8 "'".toList ++ t ++ utf8 "'".toList, hx, ⟨pre, post, h1, h2, rfl, rfl⟩, ?_, ?_, ?_⟩
  · have : (firsts ((leaves e.tree).filter fun l => (l.pos : Int) = x)).map (fun l => wantWords l.want) =
        e.report.want.map wantWords := by rw [hw, hx, List.map_map]; rfl
    rw [this]
    have h4 := wantLoop_listing (e.report.want.map wantWords) (by simpa using hne)
    simpa using h4
  · by_cases hlt : x < b.length
    · rw [if_pos hlt] at hg
      rw [hg]
      have hlen : (slice b x (min (x + 10) b.length)).length = min 10 (b.length - x) := by
        unfold slice
        rw [List.length_take, List.length_drop]
        omega
      refine .text ?_ ?_ ?_ ?_
      · intro h0
        rw [h0] at hlen
        simp only [List.length_nil] at hlen
        omega
      · exact List.take_prefix ..
      · omega
      · intro h0
        unfold slice
        exact List.take_of_length_le (by rw [List.length_drop]; omega)
    · rw [if_neg hlt] at hg
      rw [hg]
      have : x = b.length := by omega
      rw [this]
      exact .eof
  · simp only [errorMessage, reportMessage, h3]
    have : utf8 ": want ".toList = utf8 ": ".toList ++ utf8 "want ".toList := rfl
    rw [this]
    simp only [List.append_assoc]

theorem itoa_inj {m n : Nat} {x y : Nat} {r r' : Bytes} (hx : x < 48 ∨ 57 < x) (hy : y < 48 ∨ 57 < y)
    (h : itoa m ++ x :: r = itoa n ++ y :: r') : m = n ∧ x :: r = y :: r' := by
  have hd : ∀ n, ∀ c ∈ itoa n, 48 ≤ c ∧ c ≤ 57 := by
    intro n c hc
    obtain ⟨d, hd, rfl⟩ := List.mem_map.1 hc
    have := Nat.isDigit_of_mem_toDigits (by omega) (by omega) hd
    simp only [Char.isDigit, Bool.and_eq_true, decide_eq_true_eq] at this
    exact ⟨this.1, this.2⟩
  have key : ∀ (a c : Bytes), (∀ z ∈ a, 48 ≤ z ∧ z ≤ 57) → (∀ z ∈ c, 48 ≤ z ∧ z ≤ 57) → a ++ x :: r = c ++ y :: r' →
      a = c ∧ x :: r = y :: r' := by
    intro a
    induction a with
    | nil =>
      intro c _ hc h
      cases c with
      | nil => exact ⟨rfl, h⟩
      | cons z c =>
        injection h with h1 _
        have := hc z (List.mem_cons_self ..)
        omega
    | cons w a ih =>
      intro c ha hc h
      cases c with
      | nil =>
        injection h with h1 _
        have := ha w (List.mem_cons_self ..)
        omega
      | cons z c =>
        injection h with h1 h2
        obtain ⟨h3, h4⟩ := ih c (fun z hz => ha z (List.mem_cons_of_mem _ hz)) (fun z hz => hc z (List.mem_cons_of_mem _ hz)) h2
        exact ⟨by rw [h1, h3], h4⟩
  obtain ⟨h1, h2⟩ := key _ _ (hd m) (hd n) h
  have h3 : Nat.toDigits 10 m = Nat.toDigits 10 n := by
    refine List.map_inj_right (fun a c hac => ?_) |>.1 h1
    exact Char.toNat_inj.1 hac
  have h4 := congrArg (fun l => Nat.ofDigitChars 10 l 0) h3
  simp only [Nat.ofDigitChars_ten_toDigits] at h4
  exact ⟨h4, h2⟩

theorem newlines_append (p q : Text) : newlines (p ++ q) = newlines p + newlines q := by simp [newlines]

theorem lastLine_append (p q : Text) (h : newlines q = 0) : lastLine (p ++ q) = lastLine p + q.length := by
  have hq : ∀ u ∈ q, u.r ≠ '\n' := by
    simpa [newlines, List.filter_eq_nil_iff] using h
  unfold lastLine
  rw [List.reverse_append, List.takeWhile_append_of_pos]
  · simp [Nat.add_comm]
  · intro u hu
    simpa using hq u (List.mem_reverse.1 hu)

/-- Line and column of a text tell the offset. -/
theorem place_offset {b : Bytes} {x y line col : Nat} (h : Place b x line col) (h' : Place b y line col) : x = y := by
  have key : ∀ {p q : Text}, newlines p = newlines (p ++ q) → lastLine p = lastLine (p ++ q) → q = [] := by
    intro p q h1 h2
    rw [newlines_append] at h1
    rw [lastLine_append p q (by omega)] at h2
    exact List.length_eq_zero_iff.1 (by omega)
  obtain ⟨p, q, h1, h2, h3, h4⟩ := h
  obtain ⟨p', q', h1', h2', h3', h4'⟩ := h'
  rw [h1] at h1'
  rcases List.append_eq_append_iff.1 h1' with ⟨a, ha, _⟩ | ⟨a, ha, _⟩
  · subst ha
    have := key (p := p) (q := a) (by omega) (by omega)
    subst this
    rw [← h2, ← h2', List.append_nil]
  · subst ha
    have := key (p := p') (q := a) (by omega) (by omega)
    subst this
    rw [← h2, ← h2', List.append_nil]

/-- C66. The message tells the line and the column: errors with the same message, on whatever texts, are on the same line
and in the same column; so on the same text they are at the same offset. -/
theorem C66_place (U U' : Uni) (b b' : Bytes) (cs cs' : List Call) (o o' : Out) (e e' : SynErr)
    (h : (o, some e) ∈ callsE U b cs newEP) (h' : (o', some e') ∈ callsE U' b' cs' newEP)
    (hm : errorMessage e = errorMessage e') :
    (∃ x y line col, byteOffset e.tree = (x : Nat) ∧ byteOffset e'.tree = (y : Nat) ∧ Place b x line col ∧
      Place b' y line col) ∧ (b = b' → byteOffset e.tree = byteOffset e'.tree) := by
  obtain ⟨x, line, col, want, got, h1, h2, _, _, h3⟩ := C66_message U b cs o e h
  obtain ⟨y, line', col', want', got', h1', h2', _, _, h3'⟩ := C66_message U' b' cs' o' e' h'
  rw [h3, h3'] at hm
  simp only [List.append_assoc] at hm
  have hm := List.append_cancel_left hm
  obtain ⟨hl, hm⟩ := itoa_inj (x := 46) (y := 46) (by omega) (by omega) hm
  obtain ⟨hc, _⟩ := itoa_inj (x := 58) (y := 58) (by omega) (by omega) (List.append_cancel_left (as := utf8 ".".toList) hm)
  subst hl hc
  refine ⟨⟨x, y, line, col, h1, h1', h2, h2'⟩, ?_⟩
  rintro rfl
  rw [h1, h1', place_offset h2 h2']

/-- The message of the error of a call on a new parser. -/
theorem newError_ok {U : Uni} {b : Bytes} {c : Call} {k : Nat} (h : calls U b [c] newParser = [.err k]) :
    ∃ e, callsE U b [c] newEP = [(.err k, some e)] ∧ newError U b c = shown (errorMessage e) := by
  have h1 := C57_outcomes U b [c]
  rw [h] at h1
  have h2 : callsE U b [c] newEP = [((callE U b c newEP).1, (callE U b c newEP).2.1)] := rfl
  rw [h2] at h1
  simp only [List.map_cons, List.map_nil, List.cons.injEq, and_true] at h1
  obtain ⟨r, hr, _⟩ := C57_reported U b [c] k (callE U b c newEP).2.1 (by rw [h2, h1]; simp)
  exact ⟨r, by rw [h2, h1, hr], by rw [newError, hr]⟩

/-! ### Encoding -/

/-- The bytes are the encoding of a string. -/
def ValidUtf8 (b : Bytes) : Prop := ∃ s : Str, b = utf8 s

theorem encode_cons_ne (c : Char) : encode c ≠ [] := by
  simp only [encode]
  split
  · exact List.cons_ne_nil _ _
  · split
    · exact List.cons_ne_nil _ _
    · split <;> exact List.cons_ne_nil _ _

theorem valid_cut {t : Bytes} : ∀ {a s : Str}, utf8 a ++ t = utf8 s → ∃ s', s = a ++ s' ∧ t = utf8 s' := by
  intro a
  induction a with
  | nil => intro s h; exact ⟨s, rfl, by simpa [utf8] using h⟩
  | cons c a ih =>
    intro s h
    have hc : utf8 (c :: a) = encode c ++ utf8 a := by simp [utf8]
    rw [hc, List.append_assoc] at h
    cases s with
    | nil =>
      exact absurd (List.append_eq_nil_iff.1 h).1 (encode_cons_ne c)
    | cons d s =>
      have hd : utf8 (d :: s) = encode d ++ utf8 s := by simp [utf8]
      rw [hd] at h
      have h1 := decode_encode c (utf8 a ++ t)
      rw [h, decode_encode] at h1
      injection h1 with h1 _
      subst h1
      obtain ⟨s', h2, h3⟩ := ih (List.append_cancel_left h)
      exact ⟨s', by rw [h2]; rfl, h3⟩

theorem utf8_app (s t : Str) : utf8 (s ++ t) = utf8 s ++ utf8 t := by simp [utf8]

/-- A boundary of the runes of a string is one of its characters. -/
theorem runes_cut : ∀ (s : Str) (pre post : Text), runes (utf8 s) = pre ++ post →
    ∃ p q, s = p ++ q ∧ (utf8 p).length = width pre := by
  intro s
  induction s with
  | nil =>
    intro pre post h
    have : runes (utf8 []) = [] := rfl
    rw [this] at h
    obtain ⟨rfl, rfl⟩ := List.append_eq_nil_iff.1 h.symm
    exact ⟨[], [], rfl, rfl⟩
  | cons c s ih =>
    intro pre post h
    cases pre with
    | nil => exact ⟨[], c :: s, rfl, rfl⟩
    | cons u pre =>
      have hc : utf8 (c :: s) = encode c ++ utf8 s := by simp [utf8]
      have hd := decode_encode c (utf8 s)
      have hne : encode c ++ utf8 s ≠ [] := by
        intro h0
        exact encode_cons_ne c (List.append_eq_nil_iff.1 h0).1
      rw [hc, runes_cons _ hne, List.cons_append] at h
      injection h with h1 h2
      rw [hd] at h2
      simp only [List.drop_left] at h2
      obtain ⟨p, q, h3, h4⟩ := ih pre post h2
      refine ⟨c :: p, q, by rw [h3]; rfl, ?_⟩
      have : u.w = (encode c).length := by rw [← h1]; simp [hd]
      rw [width_cons, this, ← h4, ← List.length_append]
      simp [utf8]

theorem valid_append {a c : Bytes} (h : ValidUtf8 a) (h' : ValidUtf8 c) : ValidUtf8 (a ++ c) := by
  obtain ⟨s, rfl⟩ := h
  obtain ⟨t, rfl⟩ := h'
  exact ⟨s ++ t, (utf8_app s t).symm⟩

theorem valid_utf8 (s : Str) : ValidUtf8 (utf8 s) := ⟨s, rfl⟩

theorem valid_ascii : ∀ b : Bytes, (∀ x ∈ b, x < 128) → ValidUtf8 b
  | [], _ => ⟨[], rfl⟩
  | x :: b, h => by
    obtain ⟨s, hs⟩ := valid_ascii b fun y hy => h y (List.mem_cons_of_mem _ hy)
    have hx := h x (List.mem_cons_self ..)
    refine ⟨Char.ofNat x :: s, ?_⟩
    have : (Char.ofNat x).toNat = x := by
      rw [Char.ofNat, dif_pos (.inl (by omega))]; rfl
    have he : encode (Char.ofNat x) = [x] := by
      simp only [encode, this]
      rw [if_pos (by omega)]
    simp only [utf8, List.flatMap_cons, he]
    rw [hs]
    rfl

/-- Decoding a list of bytes that should be valid. -/
def validB (b : Bytes) : Bool := utf8 ((runes b).map (·.r)) = b

theorem validB_ok {b : Bytes} (h : validB b = true) : ValidUtf8 b := ⟨_, (of_decide_eq_true h).symm⟩

theorem names_valid (r : Nat) : ValidUtf8 (failName r) ∧ ValidUtf8 (errorName r) := by
  have h1 : failNames.all validB = true := by decide +kernel
  have h2 : errorNames.all (fun p => validB p.2) = true := by decide +kernel
  have h0 : ValidUtf8 [] := ⟨[], rfl⟩
  constructor
  · unfold failName
    rw [List.getD_eq_getElem?_getD]
    cases h : failNames[r]? with
    | none => exact h0
    | some x => exact validB_ok (List.all_eq_true.1 h1 x (List.mem_of_getElem? h))
  · unfold errorName
    cases h : errorNames.lookup r with
    | none => exact h0
    | some x =>
      have hm : ∃ p ∈ errorNames, p.2 = x := by
        revert h
        generalize errorNames = l
        intro h
        induction l with
        | nil => cases h
        | cons p l ih =>
          obtain ⟨a, c⟩ := p
          rw [List.lookup_cons] at h
          split at h
          · injection h with h; exact ⟨_, List.mem_cons_self .., h⟩
          · obtain ⟨p, hp, he⟩ := ih h
            exact ⟨p, List.mem_cons_of_mem _ hp, he⟩
      obtain ⟨p, hp, rfl⟩ := hm
      exact validB_ok (List.all_eq_true.1 h2 p hp)

theorem expr_valid (e : Expr Act) : ValidUtf8 (exprText e) := by
  induction e with
  | term t => cases t <;> exact valid_utf8 _
  | ref r => exact (names_valid r).1
  | seq a c iha ihc => exact valid_append (valid_append iha (valid_utf8 _)) ihc
  | alt a c iha ihc => exact valid_append (valid_append iha (valid_utf8 _)) ihc
  | opt a ih => exact valid_append ih (valid_utf8 _)
  | plus a ih => exact valid_append ih (valid_utf8 _)
  | star a ih => exact valid_append ih (valid_utf8 _)
  | not a ih => exact valid_append (valid_utf8 _) ih
  | and a ih => exact valid_append (valid_utf8 _) ih
  | lab a ih => exact ih
  | grp a ih => exact valid_append (valid_append (valid_utf8 _) ih) (valid_utf8 _)
  | act f a ih => exact ih

theorem want_valid (w : Option (Want Act)) : ValidUtf8 (wantWords w) := by
  cases w with
  | none => exact ⟨[], rfl⟩
  | some w =>
    cases w with
    | term t => cases t <;> exact valid_utf8 _
    | not e => exact valid_append (valid_utf8 _) (expr_valid e)
    | and e => exact valid_append (valid_utf8 _) (expr_valid e)
    | name r => exact (names_valid r).2

theorem intercalate_valid (s : Str) : ∀ l : List Bytes, (∀ x ∈ l, ValidUtf8 x) → ValidUtf8 ((utf8 s).intercalate l)
  | [], _ => ⟨[], by simp [List.intercalate, utf8]⟩
  | a :: l, h => by
    rw [intercalate_cons]
    refine valid_append (h a (List.mem_cons_self ..)) ?_
    have h' : ∀ x ∈ l, ValidUtf8 x := fun x hx => h x (List.mem_cons_of_mem _ hx)
    clear h
    induction l with
    | nil => exact ⟨[], rfl⟩
    | cons c l ih =>
      rw [List.flatMap_cons]
      exact valid_append (valid_append (valid_utf8 _) (h' c (List.mem_cons_self ..)))
        (ih fun x hx => h' x (List.mem_cons_of_mem _ hx))

theorem listing_valid {l : List Bytes} {w : Bytes} (h : Listing l w) (hv : ∀ x ∈ l, ValidUtf8 x) : ValidUtf8 w := by
  cases h with
  | one a => exact hv _ (by simp)
  | two a c => exact valid_append (valid_append (hv a (by simp)) (valid_utf8 _)) (hv c (by simp))
  | more l z h =>
    exact valid_append (valid_append (intercalate_valid _ l fun x hx => hv x (by simp [hx])) (valid_utf8 _)) (hv z (by simp))

theorem itoa_valid (n : Nat) : ValidUtf8 (itoa n) := valid_ascii _ fun x hx => by
  obtain ⟨d, hd, rfl⟩ := List.mem_map.1 hx
  have := Nat.isDigit_of_mem_toDigits (by omega) (by omega) hd
  simp only [Char.isDigit, Bool.and_eq_true, decide_eq_true_eq] at this
  have h2 : d.toNat ≤ 57 := this.2
  omega

/-- A string of valid UTF-8 and one more character below 128 is valid only if the string is. -/
theorem valid_init {t : Bytes} {x : Nat} (hx : x < 128) (h : ValidUtf8 (t ++ [x])) : ValidUtf8 t := by
  obtain ⟨s, hs⟩ := h
  rcases List.eq_nil_or_concat s with rfl | ⟨s, c, rfl⟩
  · simp [utf8] at hs
  · rw [List.concat_eq_append, utf8_app] at hs
    have hc : utf8 [c] = encode c := by simp [utf8]
    rw [hc] at hs
    have hl : (encode c).getLast? = some x := by
      have := congrArg List.getLast? hs
      rw [List.getLast?_append] at this
      simp only [List.getLast?_singleton, Option.some_or, List.getLast?_append] at this
      cases he : (encode c).getLast? with
      | none => exact absurd (List.getLast?_eq_none_iff.1 he) (encode_cons_ne c)
      | some y => rw [he] at this; simpa using this.symm
    have : encode c = [x] := by
      simp only [encode] at hl ⊢
      split at hl
      · rw [if_pos (by assumption)]; simpa using hl
      · split at hl
        · simp at hl; omega
        · split at hl
          · simp at hl; omega
          · simp at hl; omega
    rw [this] at hs
    exact ⟨s, List.append_cancel_right hs⟩

/-- C66. The message of an error on valid UTF-8 is valid UTF-8 just if the excerpt of ten bytes does not end inside
a character. -/
theorem C66_utf8_iff (U : Uni) (s : Str) (cs : List Call) (o : Out) (e : SynErr)
    (h : (o, some e) ∈ callsE U (utf8 s) cs newEP) :
    ValidUtf8 (errorMessage e) ↔ ∀ x : Nat, byteOffset e.tree = x → x + 10 ≤ (utf8 s).length →
      ∃ p q, s = p ++ q ∧ (utf8 p).length = x + 10 := by
  obtain ⟨x, line, col, want, got, h1, ⟨pre, post, h2, h3, _⟩, h4, h5, h6⟩ := C66_message U (utf8 s) cs o e h
  obtain ⟨p, q, rfl, hp⟩ := runes_cut s pre post h2
  rw [h3] at hp
  have hw : ValidUtf8 want := listing_valid h4 fun y hy => by
    obtain ⟨l, _, rfl⟩ := List.mem_map.1 hy
    exact want_valid _
  have hhead : ValidUtf8 (utf8 ":".toList ++ itoa line ++ utf8 ".".toList ++ itoa col ++ utf8 ": want ".toList ++ want ++
      utf8 "; got ".toList) :=
    valid_append (valid_append (valid_append (valid_append (valid_append (valid_append (valid_utf8 _) (itoa_valid _))
      (valid_utf8 _)) (itoa_valid _)) (valid_utf8 _)) hw) (valid_utf8 _)
  have hmsg : ValidUtf8 (errorMessage e) ↔ ValidUtf8 got := by
    rw [h6]
    constructor
    · rintro ⟨m, hm⟩
      obtain ⟨a, ha⟩ := hhead
      rw [ha] at hm
      obtain ⟨s', _, h⟩ := valid_cut hm
      exact ⟨s', h⟩
    · exact fun h => valid_append hhead h
  rw [hmsg]
  have hd : (utf8 (p ++ q)).drop x = utf8 q := by rw [utf8_app, ← hp, List.drop_left]
  generalize hb : utf8 (p ++ q) = b at h5 hd
  cases h5 with
  | eof =>
    refine ⟨fun _ y hy hy' => ?_, fun _ => valid_utf8 _⟩
    have : y = b.length := by omega
    omega
  | @text _ t ht0 ht1 ht2 ht3 =>
    have hq : ValidUtf8 (utf8 "'".toList ++ t ++ utf8 "'".toList) ↔ ValidUtf8 t := by
      constructor
      · intro h
        obtain ⟨m, hm⟩ := valid_init (t := utf8 "'".toList ++ t) (x := 39) (by omega) h
        obtain ⟨s', _, h⟩ := valid_cut hm
        exact ⟨s', h⟩
      · exact fun h => valid_append (valid_append (valid_utf8 _) h) (valid_utf8 _)
    rw [hq]
    obtain ⟨t', ht'⟩ := ht1
    rw [hd] at ht'
    constructor
    · rintro ⟨m, rfl⟩ y hy hy'
      have : y = x := by omega
      subst this
      obtain ⟨s', rfl, h8⟩ := valid_cut ht'
      refine ⟨p ++ m, s', by simp, ?_⟩
      rw [utf8_app, List.length_append, hp]
      have hlen : ((utf8 m).length < 10 → False) := by
        intro h9
        have h10 := ht3 h9
        rw [hd] at h10
        have h11 := congrArg List.length hb
        rw [utf8_app, List.length_append, hp, ← h10] at h11
        omega
      have := Nat.le_of_not_lt hlen
      omega
    · intro hx
      by_cases h9 : t.length < 10
      · rw [ht3 h9, hd]; exact valid_utf8 _
      · have hlen : x + 10 ≤ b.length := by
          rw [← hb, utf8_app, List.length_append, hp, ← ht', List.length_append]; omega
        obtain ⟨p', q', h10, h11⟩ := hx x h1 hlen
        have h12 := congrArg utf8 h10
        rw [utf8_app, utf8_app] at h12
        rcases List.append_eq_append_iff.1 h10 with ⟨a, ha, _⟩ | ⟨a, ha, hb'⟩
        · refine ⟨a, ?_⟩
          rw [ha, utf8_app, List.append_assoc] at h12
          have h13 := List.append_cancel_left h12
          rw [ha, utf8_app, List.length_append, hp] at h11
          rw [← ht'] at h13
          exact (List.append_inj h13 (by omega)).1
        · rw [ha, utf8_app, List.length_append] at hp
          omega

/-! ### Cases -/

/-- The messages of the errors, with U+FFFD for what is not valid UTF-8. -/
def messages (s : String) (cs : List Call) : List (Option Str) :=
  (runE s cs).map fun p => p.2.map fun e => shown (errorMessage e)

example : messages "gi? x" [.tree] = [some ":1.5: want space; got 'x'".toList] := by decide +kernel
example : messages "gi?\n hoqx" [.text] = [some ":2.5: want [?4], [5\\^], [/2], [~7], [\\\\6], or [V3]; got 'x'".toList] := by
  decide +kernel
/-- An error that expects nothing, see C57. -/
example : messages "to ru?" [.tree] = [some ":1.1: want ; got 'to ru?'".toList] := by decide +kernel

theorem one_error {s : String} {c : Call} {P : SynErr → Bool}
    (h : (runE s [c]).map (fun p => p.2.map P) = [some true]) :
    ∃ o e, (o, some e) ∈ callsE asciiUni (utf8 s.toList) [c] newEP ∧ P e = true := by
  obtain ⟨⟨o, e⟩, h1, h2⟩ := List.map_eq_singleton_iff.1 h
  cases e with
  | none => cases h2
  | some e =>
    refine ⟨o, e, ?_, by simpa using h2⟩
    have h1 : callsE asciiUni (utf8 s.toList) [c] newEP = [(o, some e)] := h1
    rw [h1]
    simp

/-- C66 is violated: on this text, which is valid UTF-8, the message is not. -/
theorem C66_refuted_utf8 : ∃ U s o e, (o, some e) ∈ callsE U (utf8 s) [.tree] newEP ∧ ¬ ValidUtf8 (errorMessage e) := by
  obtain ⟨o, e, h1, h2⟩ := one_error (s := "gi? xxxxxxxxxé") (c := .tree) (P := fun e => byteOffset e.tree = 4) (by decide +kernel)
  refine ⟨_, _, o, e, h1, ?_⟩
  rw [C66_utf8_iff _ _ _ _ _ h1]
  intro h
  obtain ⟨p, q, hp, hl⟩ := h 4 (by simpa using h2) (by decide)
  have key : ∀ n ≤ 15, (utf8 ("gi? xxxxxxxxxé".toList.take n)).length ≠ 14 := by decide +kernel
  have hn : p = "gi? xxxxxxxxxé".toList.take p.length := by rw [hp, List.take_left]
  have hlen : p.length ≤ 14 := by
    have := congrArg List.length hp
    rw [List.length_append] at this
    have h14 : "gi? xxxxxxxxxé".toList.length = 14 := by decide
    omega
  rw [hn] at hl
  exact key _ (by omega) hl

/-- C66 is violated: on this text `&MI` is wanted six times. -/
theorem C66_refuted_once : ∃ U b o e, (o, some e) ∈ callsE U b [.tree] newEP ∧
    (e.report.want.map wantWords).count (utf8 "&MI".toList) = 6 := by
  obtain ⟨o, e, h1, h2⟩ := one_error (s := "gi? ^") (c := .tree)
    (P := fun e => (e.report.want.map wantWords).count (utf8 "&MI".toList) == 6) (by decide +kernel)
  exact ⟨_, _, o, e, h1, by simpa using h2⟩

end Verif.Parse
