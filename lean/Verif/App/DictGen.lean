/-
/repo/dict/main.go: the generator of the dictionary (C69).

Of Go's library are modelled: `Sprintf` with %#v of a map of words, with the order of the keys given (fmt sorts them), and
`strings.Replace`. Parameters: the time, the errors of `os.Create`, and `gofmt` (main.go:55), which reads and formats the source.
-/
import Verif.App.Dict
import Verif.AST.GoLib

namespace Verif.App
open Verif.Tone (Str)
open Verif.AST (GoLib quote quoteChar hexDigits)

/-- The string that is replaced by nothing, main.go:49. -/
def dictDot : Str := "dict.".toList

/-- `strings.Replace(s, "dict.", "", -1)`; the argument counts what is left of an occurrence. -/
def del : Nat → Str → Str
  | _, [] => []
  | k + 1, _ :: s => del k s
  | 0, c :: s => if dictDot.isPrefixOf (c :: s) then del 4 s else c :: del 0 s

/-- %#v of an int. -/
def intLit : Int → Str
  | .ofNat n => Nat.toDigits 10 n
  | .negSucc n => '-' :: Nat.toDigits 10 (n + 1)

/-- %#v of a `dict.Word` -/
def wordLit (G : GoLib) (w : DictWord) : Str :=
  "dict.Word{Word:".toList ++ quote G w.word ++ ", Def:".toList ++ quote G w.dfn ++ ", By:".toList ++ quote G w.by_ ++
    ", Score:".toList ++ intLit w.score ++ ['}']

def entryLit (G : GoLib) (e : Str × DictWord) : Str := quote G e.1 ++ [':'] ++ wordLit G e.2

def entriesLit (G : GoLib) : List (Str × DictWord) → Str
  | [] => []
  | [e] => entryLit G e
  | e :: es => entryLit G e ++ ", ".toList ++ entriesLit G es

/-- %#v of a `map[string]dict.Word` -/
def mapLit (G : GoLib) (es : List (Str × DictWord)) : Str := "map[string]dict.Word{".toList ++ entriesLit G es ++ ['}']

/-- main.go:45-49: the source. -/
def source (G : GoLib) (time : Str) (es : List (Str × DictWord)) : Str :=
  del 0 ("package dict\n// Words contains the dictionary of words.\n// Last updated: ".toList ++ time ++
    ".\nvar Words = ".toList ++ mapLit G es ++ ['\n'])

/-- What a run leaves: its output, the output file if it was opened, and the status. -/
structure GenRan where
  out : Str
  file : Option Str
  status : Nat

/-- main.go:29-53 `main`; `none` if `Load` panics. The errors are given to `Printf` as formats. -/
def genMain (G : GoLib) (time : Str) (loaded : Loaded) (order : (Str → Option DictWord) → List (Str × DictWord))
    (create : Option Str) (gofmt : Str → Except Str Str) : Option GenRan :=
  match loaded with
  | .panic => none
  | .err s => some ⟨AST.sprintf G false s, none, 1⟩
  | .words m => match create with
    | some s => some ⟨AST.sprintf G false s, none, 1⟩
    | none => match gofmt (source G time (order m)) with
      | .error s => some ⟨AST.sprintf G false s, some [], 1⟩
      | .ok t => some ⟨[], some t, 0⟩

/-! ### Spec: reading the source -/

/-- What is being read of a string literal: characters, the character after a backslash, or `k` more digits of a number. -/
inductive Lex | text | esc | hex (k n : Nat)

def hexVal (c : Char) : Option Nat :=
  if c.isDigit then some (c.toNat - 48) else if 'a' ≤ c ∧ c ≤ 'f' then some (c.toNat - 87)
  else if 'A' ≤ c ∧ c ≤ 'F' then some (c.toNat - 55) else none

/-- The Go specification, Rune literals: the escapes of one letter. -/
def escVal (c : Char) : Option Char :=
  if c = 'a' then some (Char.ofNat 7) else if c = 'b' then some (Char.ofNat 8) else if c = 'f' then some (Char.ofNat 12)
  else if c = 'n' then some (Char.ofNat 10) else if c = 'r' then some (Char.ofNat 13) else if c = 't' then some (Char.ofNat 9)
  else if c = 'v' then some (Char.ofNat 11) else if c = '\\' ∨ c = '"' then some c else none

/-- The Go specification, String literals: an interpreted string literal after its first quote; the string and what follows. \x
with a number above 127, a byte that is no character, is not read. -/
def unq : Lex → Str → Option (Str × Str)
  | _, [] => none
  | .text, c :: r =>
    if c = '"' then some ([], r) else if c = '\\' then unq .esc r else if c = '\n' then none
    else (unq .text r).map fun x => (c :: x.1, x.2)
  | .esc, c :: r =>
    if c = 'x' then unq (.hex 2 0) r else if c = 'u' then unq (.hex 4 0) r else if c = 'U' then unq (.hex 8 0) r
    else (escVal c).bind fun d => (unq .text r).map fun x => (d :: x.1, x.2)
  | .hex k n, c :: r =>
    (hexVal c).bind fun d =>
      if k ≤ 1 then
        if (16 * n + d).isValidChar then (unq .text r).map fun x => (Char.ofNat (16 * n + d) :: x.1, x.2) else none
      else unq (.hex (k - 1) (16 * n + d)) r

/-- What follows the text. -/
def expect : Str → Str → Option Str
  | [], s => some s
  | c :: p, d :: s => if c = d then expect p s else none
  | _ :: _, [] => none

def readStr (s : Str) : Option (Str × Str) := (expect ['"'] s).bind (unq .text)

/-- A decimal number and what follows. -/
def readNat (n : Nat) : Str → Nat × Str
  | [] => (n, [])
  | c :: s => if c.isDigit then readNat (10 * n + (c.toNat - 48)) s else (n, c :: s)

def readInt : Str → Int × Str
  | '-' :: s => let x := readNat 0 s; (-(x.1 : Int), x.2)
  | s => let x := readNat 0 s; ((x.1 : Int), x.2)

/-- A composite literal of the type Word. -/
def readWord (s : Str) : Option (DictWord × Str) := do
  let s ← expect "Word{Word:".toList s
  let (a, s) ← readStr s
  let s ← expect ", Def:".toList s
  let (b, s) ← readStr s
  let s ← expect ", By:".toList s
  let (c, s) ← readStr s
  let s ← expect ", Score:".toList s
  let x := readInt s
  let s ← expect ['}'] x.2
  return (⟨a, b, c, x.1⟩, s)

def readEntry (s : Str) : Option ((Str × DictWord) × Str) := do
  let (k, s) ← readStr s
  let s ← expect [':'] s
  let (w, s) ← readWord s
  return ((k, w), s)

/-- Entries separated by commas, at most `k`. -/
def readEntries : Nat → Str → Option (List (Str × DictWord) × Str)
  | 0, _ => none
  | k + 1, s => do
    let (e, s) ← readEntry s
    match s with
    | ',' :: ' ' :: s => do
      let (es, s) ← readEntries k s
      return (e :: es, s)
    | s => return ([e], s)

/-- What follows the comments; the argument says whether one is being read. -/
def skipComments : Bool → Str → Str
  | false, '/' :: '/' :: s => skipComments true s
  | false, s => s
  | true, [] => []
  | true, c :: s => skipComments (c != '\n') s

/-- The value of `Words` of a source file: the entries of the map, whose keys are distinct, else it does not compile. -/
def readSource (s : Str) : Option (List (Str × DictWord)) := do
  let s ← expect "package dict\n".toList s
  let s ← expect "var Words = map[string]Word{".toList (skipComments false s)
  let (es, s) ← (match s with
    | '}' :: s => some ([], '}' :: s)
    | s => readEntries s.length s)
  let s ← expect "}\n".toList s
  if s = [] ∧ (es.map (·.1)).Nodup then some es else none

/-- The list has the entries of the map, each once. -/
def Lists (es : List (Str × DictWord)) (m : Str → Option DictWord) : Prop :=
  (es.map (·.1)).Nodup ∧ ∀ k w, (k, w) ∈ es ↔ m k = some w

/-! ### Strings -/

theorem hexVal_digit : ∀ d, d < 16 → hexVal (Nat.digitChar d) = some d := by decide

theorem unq_hex {k j m n : Nat} {r : Str} (hj : 0 < j) :
    unq (.hex (k + j) n) (hexDigits k m ++ r) = unq (.hex j (16 ^ k * n + m % 16 ^ k)) r := by
  induction k generalizing m j r with
  | zero => simp [hexDigits, Nat.mod_one]
  | succ k ih =>
    rw [hexDigits, List.append_assoc, show k + 1 + j = k + (j + 1) by omega, ih (by omega)]
    simp only [List.singleton_append, unq, hexVal_digit _ (Nat.mod_lt _ (by decide : 0 < 16)), Option.bind_some]
    rw [if_neg (by omega)]
    congr 1
    have h1 : m % 16 ^ (k + 1) = 16 * (m / 16 % 16 ^ k) + m % 16 := by
      rw [Nat.pow_succ, Nat.mul_comm (16 ^ k) 16, Nat.mod_mul]
      omega
    rw [h1]
    simp only [Nat.pow_succ, Nat.add_sub_cancel, Nat.mul_add, Nat.add_assoc, Nat.mul_assoc, Nat.mul_left_comm]

theorem unq_code {k : Nat} {c : Char} {r : Str} (h : c.toNat < 16 ^ (k + 1)) :
    unq (.hex (k + 1) 0) (hexDigits (k + 1) c.toNat ++ r) = (unq .text r).map fun x => (c :: x.1, x.2) := by
  rw [hexDigits, List.append_assoc, unq_hex (by omega)]
  simp only [List.singleton_append, unq, hexVal_digit _ (Nat.mod_lt _ (by decide : 0 < 16)), Option.bind_some]
  have h1 : 16 * (16 ^ k * 0 + c.toNat / 16 % 16 ^ k) + c.toNat % 16 = c.toNat := by
    rw [Nat.mod_eq_of_lt (a := c.toNat / 16)]
    · omega
    · rw [Nat.pow_succ] at h; omega
  rw [h1, if_pos (by omega), if_pos (show c.toNat.isValidChar from c.valid), Char.ofNat_toNat]

theorem char_of {c : Char} {n : Nat} (h : c.toNat = n) : c = Char.ofNat n := by rw [← h, Char.ofNat_toNat]

theorem unq_char {G : GoLib} (hG : G.isPrint '\n' = false) (c : Char) (r : Str) :
    unq .text (quoteChar G c ++ r) = (unq .text r).map fun x => (c :: x.1, x.2) := by
  have h0 : c.toNat < 0x110000 := by
    have := c.valid
    simp only [UInt32.isValidChar, Nat.isValidChar] at this
    show c.val.toNat < _
    omega
  unfold quoteChar
  split
  · next h =>
    simp only [Bool.or_eq_true, decide_eq_true_eq] at h
    rcases h with rfl | rfl <;> simp [unq, escVal]
  next h =>
  simp only [Bool.or_eq_true, decide_eq_true_eq, not_or] at h
  split
  · next hp =>
    have h2 : c ≠ '\n' := by rintro rfl; rw [hG] at hp; cases hp
    simp [unq, h.1, h.2, h2]
  split
  · next h => rw [char_of h]; rfl
  split
  · next h => rw [char_of h]; rfl
  split
  · next h => rw [char_of h]; rfl
  split
  · next h => rw [char_of h]; rfl
  split
  · next h => rw [char_of h]; rfl
  split
  · next h => rw [char_of h]; rfl
  split
  · next h => rw [char_of h]; rfl
  split
  · next h =>
    simp only [Bool.or_eq_true, decide_eq_true_eq] at h
    exact unq_code (k := 1) (by omega)
  split
  · exact unq_code (k := 3) (by omega)
  · exact unq_code (k := 7) (by omega)

theorem readStr_quote {G : GoLib} (hG : G.isPrint '\n' = false) (s r : Str) : readStr (quote G s ++ r) = some (s, r) := by
  simp only [readStr, quote, List.cons_append, List.append_assoc, expect, if_pos, Option.bind_some, List.nil_append]
  induction s with
  | nil => simp [unq]
  | cons c s ih => rw [List.flatMap_cons, List.append_assoc, unq_char hG, ih]; rfl

/-! ### Replacing -/

theorem prefix_sep {p : Str} {c : Char} (hc : c ∉ p) (a b : Str) : p.isPrefixOf (a ++ c :: b) = p.isPrefixOf a := by
  induction p generalizing a with
  | nil => cases a <;> rfl
  | cons x p ih =>
    simp only [List.mem_cons, not_or] at hc
    cases a with
    | nil => simp [List.isPrefixOf, Ne.symm hc.1]
    | cons y a => simp only [List.cons_append, List.isPrefixOf, ih hc.2]

theorem prefix_length {p a : Str} (h : p.isPrefixOf a = true) : p.length ≤ a.length :=
  (List.isPrefixOf_iff_prefix.1 h).length_le

/-- A character that does not occur in what is replaced separates. -/
theorem del_sep {c : Char} (hc : c ∉ dictDot) (a b : Str) : ∀ k, k ≤ a.length → del k (a ++ c :: b) = del k a ++ c :: del 0 b := by
  induction a with
  | nil =>
    intro k hk
    have : k = 0 := by simpa using hk
    subst this
    have h := prefix_sep hc [] b
    simp only [List.nil_append] at h
    simp [del, h, show dictDot.isPrefixOf [] = false from rfl]
  | cons x a ih =>
    intro k hk
    cases k with
    | succ k => exact ih k (by simpa using hk)
    | zero =>
      have h := prefix_sep hc (x :: a) b
      simp only [List.cons_append] at h
      simp only [List.cons_append, del, h]
      split
      · next hp =>
        have := prefix_length hp
        exact ih 4 (by simpa [dictDot] using this)
      · rw [ih 0 (by omega)]; rfl

theorem del_id {s : Str} (h : ¬ dictDot <:+: s) : del 0 s = s := by
  induction s with
  | nil => rfl
  | cons c s ih =>
    simp only [del]
    rw [if_neg, ih]
    · intro hi
      obtain ⟨a, b, hab⟩ := hi
      exact h ⟨c :: a, b, by simp [← hab]⟩
    · intro hp
      obtain ⟨t, ht⟩ := List.isPrefixOf_iff_prefix.1 hp
      exact h ⟨[], t, by simpa using ht⟩

theorem del_dotless {s : Str} (h : '.' ∉ s) : del 0 s = s := by
  refine del_id fun hi => h ?_
  exact hi.subset (by decide)

theorem del_sub {s : Str} : ∀ k, ∀ c ∈ del k s, c ∈ s := by
  induction s with
  | nil => intro k c h; cases k <;> cases h
  | cons x s ih =>
    intro k c h
    cases k with
    | succ k => exact List.mem_cons_of_mem _ (ih k c h)
    | zero =>
      simp only [del] at h
      split at h
      · exact List.mem_cons_of_mem _ (ih 4 c h)
      · rcases List.mem_cons.1 h with h | h
        · subst h; exact List.mem_cons_self
        · exact List.mem_cons_of_mem _ (ih 0 c h)

/-- What is before a string, the string, and what is after it are separate. -/
theorem del_quote {G : GoLib} {s : Str} (h : ¬ dictDot <:+: quote G s) (a r : Str) :
    del 0 (a ++ (quote G s ++ r)) = del 0 a ++ (quote G s ++ del 0 r) := by
  have hq : '"' ∉ dictDot := by decide
  simp only [quote, List.cons_append, List.append_assoc, List.nil_append]
  rw [del_sep hq _ _ 0 (by omega), del_sep hq _ _ 0 (by omega), del_id (s := s.flatMap (quoteChar G))]
  intro hi
  obtain ⟨x, y, hxy⟩ := hi
  exact h ⟨'"' :: x, y ++ ['"'], by simp [quote, ← hxy]⟩

/-! ### Reading -/

theorem expect_append (p s : Str) : expect p (p ++ s) = some s := by
  induction p with
  | nil => rfl
  | cons c p ih => simp [expect, ih]

theorem readNat_append : ∀ {l : Str} {n : Nat} {r : Str}, (∀ c ∈ l, c.isDigit = true) → (∀ c ∈ r.head?, c.isDigit = false) →
    readNat n (l ++ r) = (Nat.ofDigitChars 10 l n, r)
  | [], n, r, _, h => by
    cases r with
    | nil => rfl
    | cons c r => simp [readNat, h c rfl, Nat.ofDigitChars]
  | c :: l, n, r, h, h' => by
    simp only [List.cons_append, readNat, h c List.mem_cons_self, if_pos]
    rw [readNat_append (fun d hd => h d (List.mem_cons_of_mem _ hd)) h']
    rfl

theorem digits_head {n : Nat} {c : Char} {l : Str} (h : Nat.toDigits 10 n = c :: l) : c.isDigit = true :=
  Nat.isDigit_of_mem_toDigits (b := 10) (n := n) (by decide) (by decide) (by rw [h]; exact List.mem_cons_self)

theorem readInt_lit (i : Int) (r : Str) (hr : ∀ c ∈ r.head?, c.isDigit = false) : readInt (intLit i ++ r) = (i, r) := by
  have h : ∀ n, readNat 0 (Nat.toDigits 10 n ++ r) = (n, r) := fun n => by
    rw [readNat_append (fun c hc => Nat.isDigit_of_mem_toDigits (by decide) (by decide) hc) hr,
      Nat.ofDigitChars_toDigits (by decide) (by decide)]
  cases i with
  | ofNat n =>
    cases hd : Nat.toDigits 10 n with
    | nil => exact absurd hd Nat.toDigits_ne_nil
    | cons c l =>
      have hc := digits_head hd
      have h1 := h n
      rw [hd] at h1
      simp only [intLit, hd, List.cons_append] at h1 ⊢
      unfold readInt
      split
      · next he => injection he with he _; subst he; exact absurd hc (by decide)
      · rw [h1]; rfl
  | negSucc n =>
    simp only [intLit, List.cons_append, readInt, h]
    rfl

/-- The strings of an entry are not changed by the replacement. -/
def Kept (G : GoLib) (e : Str × DictWord) : Prop :=
  ∀ s ∈ [e.1, e.2.word, e.2.dfn, e.2.by_], ¬ dictDot <:+: quote G s

/-- An entry after the replacement. -/
def entryLit' (G : GoLib) (e : Str × DictWord) : Str :=
  quote G e.1 ++ (":Word{Word:".toList ++ (quote G e.2.word ++ (", Def:".toList ++ (quote G e.2.dfn ++ (", By:".toList ++
    (quote G e.2.by_ ++ (", Score:".toList ++ (intLit e.2.score ++ ['}']))))))))

theorem intLit_chars {i : Int} {c : Char} (h : c ∈ intLit i) : c.isDigit = true ∨ c = '-' := by
  cases i with
  | ofNat n => exact .inl (Nat.isDigit_of_mem_toDigits (b := 10) (n := n) (by decide) (by decide) h)
  | negSucc n =>
    rcases List.mem_cons.1 h with h | h
    · exact .inr h
    · exact .inl (Nat.isDigit_of_mem_toDigits (b := 10) (n := n + 1) (by decide) (by decide) h)

theorem del_entry {G : GoLib} {e : Str × DictWord} (h : Kept G e) (a r : Str) :
    del 0 (a ++ (entryLit G e ++ r)) = del 0 a ++ (entryLit' G e ++ del 0 r) := by
  obtain ⟨k, w, d, b, i⟩ := e
  simp only [Kept, List.mem_cons, List.not_mem_nil, or_false, forall_eq_or_imp, forall_eq] at h
  have hs : ∀ r : Str, ", Score:".toList ++ (intLit i ++ (['}'] ++ r)) = (", Score:".toList ++ intLit i) ++ '}' :: r :=
    fun r => (List.append_assoc _ _ _).symm
  have hd : del 0 (", Score:".toList ++ (intLit i ++ (['}'] ++ r))) = ", Score:".toList ++ (intLit i ++ (['}'] ++ del 0 r)) := by
    rw [hs, hs, del_sep (by decide) _ _ 0 (by omega), del_dotless (s := ", Score:".toList ++ intLit i)]
    · intro hm
      rcases List.mem_append.1 hm with hm | hm
      · revert hm; decide
      · rcases intLit_chars hm with h | h <;> revert h <;> decide
  have e1 : del 0 ([':'] ++ "dict.Word{Word:".toList) = ":Word{Word:".toList := by decide +kernel
  have e2 : del 0 ", Def:".toList = ", Def:".toList := by decide +kernel
  have e3 : del 0 ", By:".toList = ", By:".toList := by decide +kernel
  have hx : entryLit G (k, ⟨w, d, b, i⟩) ++ r = quote G k ++ (([':'] ++ "dict.Word{Word:".toList) ++ (quote G w ++
      (", Def:".toList ++ (quote G d ++ (", By:".toList ++ (quote G b ++ (", Score:".toList ++ (intLit i ++ (['}'] ++ r))))))))) := by
    unfold entryLit wordLit
    generalize "dict.Word{Word:".toList = x1, ", Def:".toList = x2, ", By:".toList = x3, ", Score:".toList = x4
    simp only [List.append_assoc]
  rw [hx, del_quote h.1, del_quote h.2.1, del_quote h.2.2.1, del_quote h.2.2.2, hd, e1, e2, e3]
  simp only [entryLit', List.append_assoc]

/-- The entries after the replacement. -/
def entriesLit' (G : GoLib) : List (Str × DictWord) → Str
  | [] => []
  | [e] => entryLit' G e
  | e :: es => entryLit' G e ++ ", ".toList ++ entriesLit' G es

theorem del_entries {G : GoLib} : ∀ {es : List (Str × DictWord)}, (∀ e ∈ es, Kept G e) → ∀ a r : Str, 
    es ≠ [] → del 0 (a ++ (entriesLit G es ++ r)) = del 0 a ++ (entriesLit' G es ++ del 0 r)
  | [], _, _, _, h => absurd rfl h
  | [e], h, a, r, _ => del_entry (h e (by simp)) a r
  | e :: e' :: es, h, a, r, _ => by
    have ih := del_entries (es := e' :: es) (fun x hx => h x (List.mem_cons_of_mem _ hx)) ", ".toList r (by simp)
    simp only [entriesLit, entriesLit', List.append_assoc] at ih ⊢
    rw [del_entry (h e (by simp)), ih]
    rfl

theorem readEntry_lit {G : GoLib} (hG : G.isPrint '\n' = false) (e : Str × DictWord) (r : Str) :
    readEntry (entryLit' G e ++ r) = some (e, r) := by
  obtain ⟨k, w, d, b, i⟩ := e
  have h1 : entryLit' G (k, ⟨w, d, b, i⟩) ++ r = quote G k ++ ([':'] ++ ("Word{Word:".toList ++ (quote G w ++
      (", Def:".toList ++ (quote G d ++ (", By:".toList ++ (quote G b ++ (", Score:".toList ++ (intLit i ++ (['}'] ++ r)))))))))) := by
    simp only [entryLit', List.append_assoc]
    rfl
  simp only [h1, readEntry, readWord, readStr_quote hG, expect_append, Option.bind_eq_bind, Option.bind_some,
    readInt_lit i (['}'] ++ r) (by simp)]
  rfl

theorem readEntries_lit {G : GoLib} (hG : G.isPrint '\n' = false) : ∀ {es : List (Str × DictWord)}, es ≠ [] → ∀ (k : Nat) (r : Str),
    es.length ≤ k → readEntries k (entriesLit' G es ++ '}' :: r) = some (es, '}' :: r)
  | [], h, _, _, _ => absurd rfl h
  | [e], _, k, r, hk => by
    cases k with
    | zero => simp at hk
    | succ k =>
      simp only [entriesLit', readEntries, readEntry_lit hG, Option.bind_eq_bind, Option.bind_some]
      rfl
  | e :: e' :: es, _, k, r, hk => by
    cases k with
    | zero => simp at hk
    | succ k =>
      have ih := readEntries_lit hG (es := e' :: es) (by simp) k r (by simpa using hk)
      simp only [entriesLit', List.append_assoc, readEntries, readEntry_lit hG, Option.bind_eq_bind, Option.bind_some] at ih ⊢
      simp only [show (", ".toList : Str) = [',', ' '] from rfl, List.cons_append, List.nil_append, ih, Option.bind_some]
      rfl

theorem entries_length {G : GoLib} : ∀ es : List (Str × DictWord), es.length ≤ (entriesLit' G es).length
  | [] => Nat.le_refl _
  | [e] => by simp [entriesLit', entryLit', quote]
  | e :: e' :: es => by
    have := entries_length (G := G) (e' :: es)
    simp only [entriesLit', List.length_append, List.length_cons] at this ⊢
    simp only [entryLit', quote, List.length_append, List.length_cons] at this ⊢
    omega

theorem skip_line {l r : Str} (h : '\n' ∉ l) : skipComments true (l ++ '\n' :: r) = skipComments false r := by
  induction l with
  | nil => rfl
  | cons c l ih =>
    simp only [List.mem_cons, not_or] at h
    simp only [List.cons_append, skipComments, bne_iff_ne.2 (Ne.symm h.1)]
    exact ih h.2

theorem source_eq {G : GoLib} {time : Str} {es : List (Str × DictWord)} (h : ∀ e ∈ es, Kept G e) (ht : '\n' ∉ time) :
    ∃ l, '\n' ∉ l ∧ source G time es = "package dict\n".toList ++ ("// Words contains the dictionary of words.\n//".toList ++
      (l ++ '\n' :: ("var Words = map[string]Word{".toList ++ (entriesLit' G es ++ "}\n".toList)))) := by
  have hn : '\n' ∉ dictDot := by decide
  have hs : '/' ∉ dictDot := by decide
  refine ⟨del 0 (" Last updated: ".toList ++ time ++ ['.']), ?_, ?_⟩
  · intro hm
    have := del_sub 0 _ hm
    simp only [List.mem_append, ht, or_false] at this
    revert this
    decide
  · have h1 : ∀ r, "package dict\n// Words contains the dictionary of words.\n// Last updated: ".toList ++ time ++
        ".\nvar Words = ".toList ++ r = "package dict\n// Words contains the dictionary of words.\n/".toList ++ '/' ::
          ((" Last updated: ".toList ++ time ++ ['.']) ++ '\n' :: ("var Words = ".toList ++ r)) := by
      intro r
      have e : "package dict\n// Words contains the dictionary of words.\n// Last updated: ".toList =
        "package dict\n// Words contains the dictionary of words.\n/".toList ++ '/' :: " Last updated: ".toList := by decide +kernel
      have e' : ".\nvar Words = ".toList = '.' :: '\n' :: "var Words = ".toList := by decide +kernel
      simp only [e, e', List.append_assoc, List.cons_append, List.nil_append]
    have h2 : del 0 "package dict\n// Words contains the dictionary of words.\n/".toList =
        "package dict\n// Words contains the dictionary of words.\n/".toList := by decide +kernel
    have h3 : del 0 ("var Words = ".toList ++ (mapLit G es ++ ['\n'])) =
        "var Words = map[string]Word{".toList ++ (entriesLit' G es ++ "}\n".toList) := by
      have e1 : ∀ x, "var Words = ".toList ++ (mapLit G es ++ x) =
          "var Words = map[string]dict.Word{".toList ++ (entriesLit G es ++ (['}'] ++ x)) := by
        intro x
        have e : "var Words = map[string]dict.Word{".toList = "var Words = ".toList ++ "map[string]dict.Word{".toList := by decide +kernel
        unfold mapLit
        rw [e]
        generalize "var Words = ".toList = x1, "map[string]dict.Word{".toList = x2
        simp only [List.append_assoc]
      rw [e1]
      cases es with
      | nil => simp only [entriesLit, entriesLit', List.nil_append]; decide +kernel
      | cons e es =>
        rw [del_entries h _ _ (by simp)]
        have : del 0 "var Words = map[string]dict.Word{".toList = "var Words = map[string]Word{".toList := by decide +kernel
        rw [this]
        rfl
    have e : "package dict\n// Words contains the dictionary of words.\n/".toList =
        "package dict\n".toList ++ "// Words contains the dictionary of words.\n/".toList := by decide +kernel
    have e' : "// Words contains the dictionary of words.\n//".toList = "// Words contains the dictionary of words.\n/".toList ++ ['/'] := by
      decide +kernel
    rw [source, List.append_assoc, h1, del_sep hs _ _ 0 (by omega), del_sep hn _ _ 0 (by omega), h2, h3, e, e']
    simp only [List.append_assoc, List.singleton_append]

/-- C69. The source that is generated, read as Go, gives the words that were loaded, whatever quotation marks, backslashes, newlines or
characters that cannot be printed they have. The hypotheses on Go's library: a newline is no printable character, the time has none.
Missing: words with "dict." in a string as it is quoted, see `C69_refuted`. -/
theorem C69_generated_partial (G : GoLib) (time : Str) (hG : G.isPrint '\n' = false) (ht : '\n' ∉ time) (U : Uni)
    (resp : Except Str DictResponse) (m : Str → Option DictWord) (_hm : load U resp = .words m) (es : List (Str × DictWord))
    (hes : Lists es m) (hk : ∀ k w, m k = some w → ∀ s ∈ [k, w.word, w.dfn, w.by_], ¬ dictDot <:+: quote G s) :
    ∃ es', readSource (source G time es) = some es' ∧ Lists es' m := by
  obtain ⟨l, h1, h2⟩ := source_eq (G := G) (time := time) (es := es) (fun e he => hk e.1 e.2 ((hes.2 _ _).1 he)) ht
  refine ⟨es, ?_, hes⟩
  have e1 : ∀ r, skipComments false ("// Words contains the dictionary of words.\n//".toList ++ r) = skipComments true r := by
    intro r
    rfl
  have e2 : ∀ r, skipComments false ("var Words = map[string]Word{".toList ++ r) = "var Words = map[string]Word{".toList ++ r := by
    intro r
    rfl
  simp only [readSource, h2, expect_append, Option.bind_eq_bind, Option.bind_some, e1, skip_line h1, e2]
  cases es with
  | nil => rfl
  | cons e es =>
    have h3 := readEntries_lit hG (es := e :: es) (by simp) (entriesLit' G (e :: es) ++ "}\n".toList).length ['\n'] (by
      have := entries_length (G := G) (e :: es)
      simp only [List.length_append]
      omega)
    have h4 : ∃ r, entriesLit' G (e :: es) ++ "}\n".toList = '"' :: r := by
      cases es with
      | nil => exact ⟨_, rfl⟩
      | cons e' es => exact ⟨_, rfl⟩
    obtain ⟨r, h4⟩ := h4
    have h5 : (entriesLit' G (e :: es) ++ "}\n".toList) = entriesLit' G (e :: es) ++ '}' :: ['\n'] := rfl
    rw [← h5, h4] at h3
    rw [h4]
    show Option.bind (readEntries ('"' :: r).length ('"' :: r)) _ = _
    rw [h3]
    show (if _ then some _ else none) = _
    rw [if_pos ⟨rfl, hes.1⟩]

/-- C69. How a run ends: with status 0 and the formatted source in the file if everything succeeded, else with status 1, and then the file
is untouched or emptied. It crashes only if `Load` does. -/
theorem C69_status (G : GoLib) (time : Str) (l : Loaded) (order : (Str → Option DictWord) → List (Str × DictWord))
    (create : Option Str) (gofmt : Str → Except Str Str) :
    (genMain G time l order create gofmt = none ↔ l = .panic) ∧
    ∀ r, genMain G time l order create gofmt = some r →
      (r.status = 0 ∧ ∃ m t, l = .words m ∧ create = none ∧ gofmt (source G time (order m)) = .ok t ∧ r.file = some t ∧ r.out = []) ∨
      (r.status = 1 ∧ (r.file = none ∨ r.file = some []) ∧ ∃ e, r.out = AST.sprintf G false e ∧ ('%' ∉ e → r.out = e) ∧
        (l = .err e ∨ create = some e ∨ ∃ m, l = .words m ∧ gofmt (source G time (order m)) = .error e)) := by
  unfold genMain
  refine ⟨?_, fun r hr => ?_⟩
  · split
    · simp
    · simp
    · split
      · simp
      · split <;> simp
  · split at hr
    · cases hr
    · next e =>
      cases hr
      exact .inr ⟨rfl, .inl rfl, e, rfl, fun h => AST.sprintf_id h, .inl rfl⟩
    · next m =>
      split at hr
      · next e =>
        cases hr
        exact .inr ⟨rfl, .inl rfl, e, rfl, fun h => AST.sprintf_id h, .inr (.inl rfl)⟩
      · split at hr
        · next e he =>
          cases hr
          exact .inr ⟨rfl, .inr rfl, e, rfl, fun h => AST.sprintf_id h, .inr (.inr ⟨m, rfl, he⟩)⟩
        · next t he =>
          cases hr
          exact .inl ⟨rfl, m, t, rfl, rfl, he, rfl, rfl⟩

/-! ### Violations and examples -/

/-- Go's functions on ASCII; other characters count as not printable. -/
def plainLib : GoLib where
  isPrint c := 32 ≤ c.toNat && c.toNat < 127
  odd s := s

/-- A response with words without authors. -/
def respond (l : List (String × String)) : DictResponse :=
  ⟨true, some (l.map fun x => ⟨x.1.toList, x.2.toList, [], 0⟩), none⟩

/-- The entries of these words. -/
def listed (l : List (String × String)) : List (Str × DictWord) :=
  l.map fun x => (x.1.toList, ⟨x.1.toList, x.2.toList, [], 0⟩)

/-- The time in a file. -/
def then_ : Str := "2019-06-30 00:15:47".toList

/-- C69 is violated: "dict." is deleted in definitions too. -/
theorem C69_refuted : ∃ (m : Str → Option DictWord) (es es' : List (Str × DictWord)),
    load asciiUni (.ok (respond [("jai", "▯ predict. ▯")])) = .words m ∧ Lists es m ∧
    readSource (source AST.asciiLib then_ es) = some es' ∧ ¬ Lists es' m := by
  let m : Str → Option DictWord := fun k => if k = "jai".toList then some ⟨"jai".toList, "▯ predict. ▯".toList, [], 0⟩ else none
  refine ⟨m, listed [("jai", "▯ predict. ▯")], listed [("jai", "▯ pre ▯")], ?_, ⟨by decide, fun k w => ?_⟩, by decide +kernel, ?_⟩
  · show Loaded.words _ = _
    congr 1
  · show (k, w) ∈ [_] ↔ (if _ then some _ else none) = some w
    by_cases hk : k = "jai".toList
    · rw [if_pos hk, List.mem_singleton, hk]
      constructor
      · intro h; injection h with _ h; rw [h]
      · intro h; injection h with h; subst h; rfl
    · rw [if_neg hk, List.mem_singleton]
      constructor
      · intro h; injection h with h _; exact absurd h hk
      · intro h; cases h
  · intro h
    have := (h.2 "jai".toList ⟨"jai".toList, "▯ pre ▯".toList, [], 0⟩).1 List.mem_cons_self
    simp only [m, if_pos] at this
    revert this
    decide +kernel

/-- C69 is violated: if a character that is written as \u…d is before "ict.", the source is no Go. -/
theorem C69_refuted_escape : readSource (source plainLib then_ (listed [("jai", "a\u00adict.")])) = none := by decide +kernel

/-- C69 is violated: different keys become the same, and the source does not compile. -/
theorem C69_refuted_keys : (respond [("dict.a", "b"), ("a", "c")]).entries.isSome ∧
    readSource (source AST.asciiLib then_ (listed [("dict.a", "b"), ("a", "c")])) = none := by decide +kernel

/-- A text that meets the hypotheses, with characters that are escaped. -/
example : readSource (source plainLib then_ (listed [("a\"\\\n\u00e9\x07\x7f😀", "dict"), ("b", "")])) =
    some (listed [("a\"\\\n\u00e9\x07\x7f😀", "dict"), ("b", "")]) := by decide +kernel

example : String.ofList (source plainLib then_ (listed [("a", "\"\n"), ("b", "\u00e9")])) =
"package dict
// Words contains the dictionary of words.
// Last updated: 2019-06-30 00:15:47.
var Words = map[string]Word{\"a\":Word{Word:\"a\", Def:\"\\\"\\n\", By:\"\", Score:0}, \"b\":Word{Word:\"b\", Def:\"\\u00e9\", By:\"\", Score:0}}
" := by decide +kernel

end Verif.App
