/-
C69 exactly: the generated source gives the words that were loaded just if no string, as it is quoted, has "dict.".
-/
import Verif.App.DictGen

namespace Verif.App
open Verif.Tone (Str)
open Verif.AST (GoLib quote quoteChar hexDigits)

/-- A string as it is quoted, without the quotation marks. -/
def body (G : GoLib) (s : Str) : Str := s.flatMap (quoteChar G)

/-- The literal after the replacement. -/
def quoteD (G : GoLib) (s : Str) : Str := '"' :: (del 0 (body G s) ++ ['"'])

theorem quote_body (G : GoLib) (s : Str) : quote G s = '"' :: (body G s ++ ['"']) := rfl

theorem ict_length : dictDot = ['d', 'i', 'c', 't', '.'] := by decide +kernel

theorem del_quoteD {G : GoLib} (s a r : Str) : del 0 (a ++ (quote G s ++ r)) = del 0 a ++ (quoteD G s ++ del 0 r) := by
  have hq : '"' ∉ dictDot := by decide
  simp only [quote, quoteD, body, List.cons_append, List.append_assoc, List.nil_append]
  rw [del_sep hq _ _ 0 (by omega), del_sep hq _ _ 0 (by omega)]

theorem del_le (s : Str) : ∀ k, (del k s).length ≤ s.length := by
  induction s with
  | nil => intro k; cases k <;> exact Nat.le_refl _
  | cons c s ih =>
    intro k
    cases k with
    | succ k => exact Nat.le_succ_of_le (ih k)
    | zero =>
      simp only [del]
      split
      · exact Nat.le_succ_of_le (ih 4)
      · exact Nat.succ_le_succ (ih 0)

theorem del_lt {s : Str} (h : dictDot <:+: s) : (del 0 s).length < s.length := by
  obtain ⟨a, b, rfl⟩ := h
  induction a with
  | nil =>
    simp only [List.nil_append, ict_length, List.cons_append, del, List.length_cons]
    rw [if_pos (by simp [List.isPrefixOf])]
    exact Nat.lt_succ_of_le (Nat.le_trans (del_le b 0) (by omega))
  | cons c a ih =>
    simp only [List.cons_append, del]
    split
    · exact Nat.lt_succ_of_le (del_le _ _)
    · exact Nat.succ_lt_succ ih

theorem not_occurs {s : Str} (h : del 0 s = s) : ¬ dictDot <:+: s := fun ho => by
  have := del_lt ho
  rw [h] at this
  omega

theorem occurs_quote {G : GoLib} {s : Str} : dictDot <:+: quote G s ↔ dictDot <:+: body G s := by
  constructor
  · intro h
    apply Classical.byContradiction
    intro hn
    refine not_occurs ?_ h
    have := del_quoteD (G := G) s [] []
    rw [quoteD, del_id hn] at this
    simpa [quote_body, del] using this
  · rintro ⟨a, b, h⟩
    exact ⟨'"' :: a, b ++ ['"'], by rw [quote_body, ← h]; simp⟩

/-- Deleting does not reach into what follows unless what precedes ends in d. -/
theorem del_cross {q t : Str} (h1 : 'i' ∉ q.tail) (h2 : ¬ (q.getLast? = some 'd' ∧ ['i', 'c', 't', '.'] <+: t)) :
    del 0 (q ++ t) = q ++ del 0 t := by
  induction q with
  | nil => rfl
  | cons a q ih =>
    simp only [List.cons_append, del]
    rw [if_neg, ih]
    · intro hm; exact h1 (List.mem_of_mem_tail hm)
    · rintro ⟨hl, ht⟩
      refine h2 ⟨?_, ht⟩
      cases q with
      | nil => cases hl
      | cons b q => rw [List.getLast?_cons_cons]; exact hl
    · intro hp
      obtain ⟨y, hy⟩ := List.isPrefixOf_iff_prefix.1 hp
      rw [ict_length] at hy
      simp only [List.cons_append, List.nil_append, List.cons.injEq] at hy
      obtain ⟨rfl, hy⟩ := hy
      cases q with
      | nil => exact h2 ⟨rfl, y, hy⟩
      | cons b q =>
        simp only [List.cons_append, List.cons.injEq] at hy
        exact h1 (by rw [← hy.1]; exact List.mem_cons_self)

/-- What is deleted across. -/
theorem del_across {q t : Str} (h1 : 'i' ∉ q) : del 0 (q ++ ['d'] ++ (['i', 'c', 't', '.'] ++ t)) = q ++ del 0 t := by
  have : q ++ ['d'] ++ (['i', 'c', 't', '.'] ++ t) = q ++ (dictDot ++ t) := by rw [ict_length]; simp
  rw [this, del_cross (fun h => h1 (List.mem_of_mem_tail h))]
  · rw [ict_length]
    simp [del, List.isPrefixOf, ict_length]
  · rintro ⟨_, h⟩
    rw [ict_length] at h
    simp [List.cons_prefix_cons] at h

/-- The forms of a quoted character. -/
inductive Form (c : Char) : Str → Prop
  | raw : Form c [c]
  | esc (l : Char) : l ≠ 'd' → l ≠ 'i' → Form c ['\\', l]
  | hex (l : Char) (k : Nat) : (l = 'x' ∧ k = 1 ∨ l = 'u' ∧ k = 3 ∨ l = 'U' ∧ k = 7) → Form c ('\\' :: l :: hexDigits (k + 1) c.toNat)

theorem form (G : GoLib) (c : Char) : Form c (quoteChar G c) := by
  unfold quoteChar
  split
  · next h =>
    simp only [Bool.or_eq_true, decide_eq_true_eq] at h
    rcases h with rfl | rfl <;> exact .esc _ (by decide) (by decide)
  repeat' split
  all_goals first
    | exact .raw
    | exact .esc _ (by decide) (by decide)
    | exact .hex 'x' 1 (by simp)
    | exact .hex 'u' 3 (by simp)
    | exact .hex 'U' 7 (by simp)

theorem hex_i (k n : Nat) : 'i' ∉ hexDigits k n := fun hm => by
  obtain ⟨a, ha, he⟩ := AST.hex_digits k n _ hm
  revert a; decide

theorem Form.tail {c : Char} {q : Str} (h : Form c q) : 'i' ∉ q.tail := by
  cases h with
  | raw => simp
  | esc l _ h => simpa using Ne.symm h
  | hex l k h =>
    have := hex_i (k + 1) c.toNat
    simp only [List.tail_cons, List.mem_cons, not_or]
    exact ⟨by rcases h with ⟨h, _⟩ | ⟨h, _⟩ | ⟨h, _⟩ <;> subst h <;> decide, this⟩

theorem body_head {G : GoLib} {s t : Str} {a : Char} (h : body G s = a :: t) (ha : a ≠ '\\') : ∃ s', s = a :: s' ∧ t = body G s' := by
  cases s with
  | nil => cases h
  | cons c s =>
    have hf := form G c
    simp only [body, List.flatMap_cons] at h
    generalize quoteChar G c = q at hf h
    cases hf with
    | raw => injection h with h1 h2; subst h1; exact ⟨s, rfl, h2.symm⟩
    | esc l => injection h with h1 _; exact absurd h1.symm ha
    | hex l k => injection h with h1 _; exact absurd h1.symm ha

theorem body_ict {G : GoLib} {s : Str} (h : ['i', 'c', 't', '.'] <+: body G s) :
    ∃ s', s = 'i' :: 'c' :: 't' :: '.' :: s' ∧ body G s = ['i', 'c', 't', '.'] ++ body G s' := by
  obtain ⟨t, h⟩ := h
  obtain ⟨s1, rfl, h1⟩ := body_head h.symm (by decide)
  obtain ⟨s2, rfl, h2⟩ := body_head h1.symm (by decide)
  obtain ⟨s3, rfl, h3⟩ := body_head h2.symm (by decide)
  obtain ⟨s4, rfl, h4⟩ := body_head h3.symm (by decide)
  exact ⟨s4, rfl, by rw [← h, ← h4]; rfl⟩

theorem occurs_cons {G : GoLib} {c : Char} {s : Str} (h : dictDot <:+: body G (c :: s)) :
    ((quoteChar G c).getLast? = some 'd' ∧ ['i', 'c', 't', '.'] <+: body G s) ∨ dictDot <:+: body G s := by
  apply Classical.byContradiction
  intro hn
  simp only [not_or] at hn
  have h1 := del_cross (form G c).tail hn.1
  rw [del_id hn.2] at h1
  exact not_occurs h1 h

/-- A string read after the replacement: what follows is read alike, and the string is not longer, and shorter if something was deleted;
and so if the last digit of an escape before it was deleted. -/
theorem unq_del {G : GoLib} (hG : G.isPrint '\n' = false) (n : Nat) : ∀ s : Str, s.length < n → ∀ r x,
    (unq .text (del 0 (body G s) ++ '"' :: r) = some x →
      x.2 = r ∧ x.1.length ≤ s.length ∧ (dictDot <:+: body G s → x.1.length < s.length)) ∧
    ∀ m, unq (.hex 1 m) (del 0 (body G s) ++ '"' :: r) = some x → x.2 = r ∧ x.1.length ≤ s.length := by
  induction n with
  | zero => intro s h; omega
  | succ n ih =>
    intro s hs r x
    cases s with
    | nil =>
      refine ⟨fun h => ?_, fun m h => ?_⟩
      · simp only [body, List.flatMap_nil, del, List.nil_append, unq, if_pos, Option.some.injEq] at h
        subst h
        refine ⟨rfl, Nat.le_refl _, fun ho => ?_⟩
        have := ho.length_le
        rw [ict_length] at this
        simp [body] at this
      · simp only [body, List.flatMap_nil, del, List.nil_append, unq] at h
        rw [show hexVal '"' = none by decide] at h
        cases h
    | cons c s =>
      simp only [List.length_cons] at hs
      have hf := form G c
      have hb : body G (c :: s) = quoteChar G c ++ body G s := by rw [body, List.flatMap_cons]; rfl
      by_cases hx : (quoteChar G c).getLast? = some 'd' ∧ ['i', 'c', 't', '.'] <+: body G s
      · obtain ⟨hl, hi⟩ := hx
        obtain ⟨s', rfl, hs'⟩ := body_ict hi
        simp only [List.length_cons] at hs
        have hq : quoteChar G c = (quoteChar G c).dropLast ++ ['d'] := by
          rw [List.dropLast_append_getLast? 'd' hl]
        have h1 : del 0 (body G (c :: 'i' :: 'c' :: 't' :: '.' :: s')) = (quoteChar G c).dropLast ++ del 0 (body G s') := by
          rw [hb, hs', hq, del_across, ← hq]
          generalize quoteChar G c = q at hf hl
          cases hf with
          | raw => simp
          | esc l h => simp at hl; exact absurd hl h
          | hex l k h =>
            intro hm
            have := Form.tail (.hex l k h : Form c _)
            have hm := (List.dropLast_subset _) hm
            rcases List.mem_cons.1 hm with hm | hm
            · revert hm; decide
            · exact this hm
        rw [h1]
        generalize quoteChar G c = q at hf hl
        cases hf with
        | raw =>
          simp only [List.dropLast_singleton, List.nil_append, List.length_cons]
          have := ih s' (by omega) r x
          refine ⟨fun h => ?_, fun m h => ?_⟩
          · have := this.1 h
            exact ⟨this.1, by omega, fun _ => by omega⟩
          · have := this.2 m h
            exact ⟨this.1, by omega⟩
        | esc l h => simp at hl; exact absurd hl h
        | hex l k h =>
          rw [hexDigits]
          have he : ('\\' :: l :: (hexDigits k (c.toNat / 16) ++ [Nat.digitChar (c.toNat % 16)])).dropLast =
              '\\' :: l :: hexDigits k (c.toNat / 16) := by
            rw [← List.cons_append, ← List.cons_append, List.dropLast_concat]
          rw [he]
          refine ⟨fun h0 => ?_, fun m h0 => ?_⟩
          · have h2 : unq .text ('\\' :: l :: hexDigits k (c.toNat / 16) ++ del 0 (body G s') ++ '"' :: r) =
                unq (.hex (k + 1) 0) (hexDigits k (c.toNat / 16) ++ (del 0 (body G s') ++ '"' :: r)) := by
              rcases h with ⟨rfl, rfl⟩ | ⟨rfl, rfl⟩ | ⟨rfl, rfl⟩ <;>
                simp only [List.cons_append, List.append_assoc, unq] <;> simp
            rw [h2, unq_hex (by omega)] at h0
            have := (ih s' (by omega) r x).2 _ h0
            simp only [List.length_cons]
            exact ⟨this.1, by omega, fun _ => by omega⟩
          · simp only [List.cons_append, unq] at h0
            rw [show hexVal '\\' = none by decide] at h0
            cases h0
      · have h1 : del 0 (body G (c :: s)) = quoteChar G c ++ del 0 (body G s) := by rw [hb, del_cross hf.tail hx]
        rw [h1, List.append_assoc]
        refine ⟨fun h => ?_, fun m h => ?_⟩
        · rw [unq_char hG] at h
          simp only [Option.map_eq_some_iff] at h
          obtain ⟨y, h2, rfl⟩ := h
          have := (ih s (by omega) r y).1 h2
          refine ⟨this.1, by simp only [List.length_cons]; omega, fun ho => ?_⟩
          rcases occurs_cons ho with ho | ho
          · exact absurd ho hx
          · have := this.2.2 ho
            simp only [List.length_cons]
            omega
        · generalize quoteChar G c = q at hf h
          cases hf with
          | raw =>
            simp only [List.cons_append, List.nil_append, unq, Option.bind_eq_some_iff, Nat.le_refl, if_pos] at h
            obtain ⟨d, _, h⟩ := h
            split at h
            · simp only [Option.map_eq_some_iff] at h
              obtain ⟨y, h2, rfl⟩ := h
              have := (ih s (by omega) r y).1 h2
              exact ⟨this.1, by simp only [List.length_cons]; omega⟩
            · cases h
          | esc l h0 =>
            simp only [List.cons_append, unq] at h
            rw [show hexVal '\\' = none by decide] at h
            cases h
          | hex l k h0 =>
            simp only [List.cons_append, unq] at h
            rw [show hexVal '\\' = none by decide] at h
            cases h

theorem readStr_del {G : GoLib} (hG : G.isPrint '\n' = false) {s r : Str} {x : Str × Str} (h : readStr (quoteD G s ++ r) = some x) :
    x.2 = r ∧ x.1.length ≤ s.length ∧ (dictDot <:+: quote G s → x.1.length < s.length) := by
  simp only [readStr, quoteD, List.cons_append, List.append_assoc, List.nil_append, expect, if_pos, Option.bind_some] at h
  have := (unq_del hG _ s (Nat.lt_succ_self _) r x).1 h
  exact ⟨this.1, this.2.1, fun ho => this.2.2 (occurs_quote.1 ho)⟩

/-! ### Entries -/

/-- An entry after the replacement. -/
def entryLitD (G : GoLib) (e : Str × DictWord) : Str :=
  quoteD G e.1 ++ (":Word{Word:".toList ++ (quoteD G e.2.word ++ (", Def:".toList ++ (quoteD G e.2.dfn ++ (", By:".toList ++
    (quoteD G e.2.by_ ++ (", Score:".toList ++ (intLit e.2.score ++ ['}']))))))))

theorem del_entryD {G : GoLib} (e : Str × DictWord) (a r : Str) :
    del 0 (a ++ (entryLit G e ++ r)) = del 0 a ++ (entryLitD G e ++ del 0 r) := by
  obtain ⟨k, w, d, b, i⟩ := e
  have hs : ∀ r : Str, ", Score:".toList ++ (intLit i ++ (['}'] ++ r)) = (", Score:".toList ++ intLit i) ++ '}' :: r :=
    fun r => (List.append_assoc _ _ _).symm
  have hd : del 0 (", Score:".toList ++ (intLit i ++ (['}'] ++ r))) = ", Score:".toList ++ (intLit i ++ (['}'] ++ del 0 r)) := by
    rw [hs, hs, del_sep (by decide) _ _ 0 (by omega), del_dotless (s := ", Score:".toList ++ intLit i)]
    · intro hm
      rcases List.mem_append.1 hm with hm | hm
      · revert hm; decide
      · rcases intLit_chars hm with h | h <;> revert h <;> decide
  have e1 : del 0 ([':'] ++ "dict.Word{Word:".toList) = ":Word{Word:".toList := by decide +kernel
  have e2 : del 0 ", Def:".toList = ", Def:".toList := by decide +kernel
  have e3 : del 0 ", By:".toList = ", By:".toList := by decide +kernel
  have hx : entryLit G (k, ⟨w, d, b, i⟩) ++ r = quote G k ++ (([':'] ++ "dict.Word{Word:".toList) ++ (quote G w ++
      (", Def:".toList ++ (quote G d ++ (", By:".toList ++ (quote G b ++ (", Score:".toList ++ (intLit i ++ (['}'] ++ r))))))))) := by
    unfold entryLit wordLit
    generalize "dict.Word{Word:".toList = x1, ", Def:".toList = x2, ", By:".toList = x3, ", Score:".toList = x4
    simp only [List.append_assoc]
  rw [hx, del_quoteD, del_quoteD, del_quoteD, del_quoteD, hd, e1, e2, e3]
  simp only [entryLitD, List.append_assoc]

/-- The entries after the replacement. -/
def entriesLitD (G : GoLib) : List (Str × DictWord) → Str
  | [] => []
  | [e] => entryLitD G e
  | e :: es => entryLitD G e ++ ", ".toList ++ entriesLitD G es

theorem del_entriesD {G : GoLib} : ∀ {es : List (Str × DictWord)}, ∀ a r : Str,
    es ≠ [] → del 0 (a ++ (entriesLit G es ++ r)) = del 0 a ++ (entriesLitD G es ++ del 0 r)
  | [], _, _, h => absurd rfl h
  | [e], a, r, _ => del_entryD e a r
  | e :: e' :: es, a, r, _ => by
    have ih := del_entriesD (G := G) (es := e' :: es) ", ".toList r (by simp)
    simp only [entriesLit, entriesLitD, List.append_assoc] at ih ⊢
    rw [del_entryD, ih]
    rfl

/-- The number of characters of the strings. -/
def size (e : Str × DictWord) : Nat := e.1.length + e.2.word.length + e.2.dfn.length + e.2.by_.length

theorem readEntry_del {G : GoLib} (hG : G.isPrint '\n' = false) {e : Str × DictWord} {r : Str} {x : (Str × DictWord) × Str}
    (h : readEntry (entryLitD G e ++ r) = some x) : x.2 = r ∧ size x.1 ≤ size e ∧ (¬ Kept G e → size x.1 < size e) := by
  obtain ⟨k, w, d, b, i⟩ := e
  have h1 : entryLitD G (k, ⟨w, d, b, i⟩) ++ r = quoteD G k ++ ([':'] ++ ("Word{Word:".toList ++ (quoteD G w ++
      (", Def:".toList ++ (quoteD G d ++ (", By:".toList ++ (quoteD G b ++ (", Score:".toList ++ (intLit i ++ (['}'] ++ r)))))))))) := by
    simp only [entryLitD, List.append_assoc]
    rfl
  simp only [h1, readEntry, readWord, Option.bind_eq_bind, Option.bind_eq_some_iff] at h
  obtain ⟨⟨k', t1⟩, g1, t2, g2, ⟨w0, t3⟩, ⟨t4, g4, ⟨w', t5⟩, g5, t6, g6, ⟨d', t7⟩, g7, t8, g8, ⟨b', t9⟩, g9, t10, g10, t11, g11, g12⟩, g13⟩ := h
  obtain ⟨rfl, l1, m1⟩ := readStr_del hG g1
  simp only [expect_append, Option.some.injEq] at g2
  subst g2
  simp only [expect_append, Option.some.injEq] at g4
  subst g4
  obtain ⟨rfl, l2, m2⟩ := readStr_del hG g5
  simp only [expect_append, Option.some.injEq] at g6
  subst g6
  obtain ⟨rfl, l3, m3⟩ := readStr_del hG g7
  simp only [expect_append, Option.some.injEq] at g8
  subst g8
  obtain ⟨rfl, l4, m4⟩ := readStr_del hG g9
  simp only [expect_append, Option.some.injEq] at g10
  subst g10
  rw [readInt_lit i (['}'] ++ r) (by simp)] at g11 g12
  simp only [expect_append, Option.some.injEq] at g11
  subst g11
  cases g12
  cases g13
  simp only at l1 m1 l2 m2 l3 m3 l4 m4
  refine ⟨rfl, by simp only [size]; omega, fun hk => ?_⟩
  simp only [Kept, List.mem_cons, List.not_mem_nil, or_false, forall_eq_or_imp, forall_eq] at hk
  simp only [size]
  by_cases o1 : dictDot <:+: quote G k
  · have := m1 o1; omega
  by_cases o2 : dictDot <:+: quote G w
  · have := m2 o2; omega
  by_cases o3 : dictDot <:+: quote G d
  · have := m3 o3; omega
  by_cases o4 : dictDot <:+: quote G b
  · have := m4 o4; omega
  exact absurd ⟨o1, o2, o3, o4⟩ hk

def sizes (es : List (Str × DictWord)) : Nat := (es.map size).sum

theorem readEntries_del {G : GoLib} (hG : G.isPrint '\n' = false) : ∀ {es : List (Str × DictWord)}, es ≠ [] → ∀ (k : Nat) (r : Str) x,
    readEntries k (entriesLitD G es ++ '}' :: r) = some x →
      x.2 = '}' :: r ∧ sizes x.1 ≤ sizes es ∧ ((∃ e ∈ es, ¬ Kept G e) → sizes x.1 < sizes es)
  | [], h, _, _, _, _ => absurd rfl h
  | [e], _, k, r, x, h => by
    cases k with
    | zero => cases h
    | succ k =>
      simp only [entriesLitD, readEntries, Option.bind_eq_bind, Option.bind_eq_some_iff] at h
      obtain ⟨⟨e', t⟩, h1, h2⟩ := h
      obtain ⟨rfl, h3, h4⟩ := readEntry_del hG h1
      have h2 : some ([e'], '}' :: r) = some x := h2
      simp only [Option.some.injEq] at h2
      subst h2
      simp only [sizes, List.map_cons, List.map_nil, List.sum_cons, List.sum_nil, Nat.add_zero] at h3 h4 ⊢
      refine ⟨trivial, h3, ?_⟩
      rintro ⟨_, hm, hk⟩
      simp only [List.mem_singleton] at hm
      subst hm
      exact h4 hk
  | e :: e2 :: es, _, k, r, x, h => by
    cases k with
    | zero => cases h
    | succ k =>
      simp only [entriesLitD, List.append_assoc, readEntries, Option.bind_eq_bind, Option.bind_eq_some_iff] at h
      obtain ⟨⟨e', t⟩, h1, h2⟩ := h
      obtain ⟨rfl, h3, h4⟩ := readEntry_del hG h1
      simp only [show (", ".toList : Str) = [',', ' '] from rfl, List.cons_append, List.nil_append, Option.bind_eq_some_iff] at h2
      obtain ⟨⟨es', t⟩, h5, h6⟩ := h2
      have ih := readEntries_del hG (es := e2 :: es) (by simp) k r (es', t) (by simpa only [entriesLitD, List.append_assoc] using h5)
      simp only [pure, Option.some.injEq] at h6
      subst h6
      simp only [sizes, List.map_cons, List.sum_cons] at ih h3 h4 ⊢
      refine ⟨ih.1, by omega, ?_⟩
      rintro ⟨y, hm, hk⟩
      rcases List.mem_cons.1 hm with rfl | hm
      · have := h4 hk; omega
      · have := ih.2.2 ⟨y, hm, hk⟩; omega

theorem entriesD_head {G : GoLib} {e : Str × DictWord} {es : List (Str × DictWord)} (r : Str) :
    ∃ t, entriesLitD G (e :: es) ++ r = '"' :: t := by
  cases es with
  | nil => exact ⟨_, rfl⟩
  | cons e' es => exact ⟨_, rfl⟩

theorem source_eqD {G : GoLib} {time : Str} {es : List (Str × DictWord)} (ht : '\n' ∉ time) :
    ∃ l, '\n' ∉ l ∧ source G time es = "package dict\n".toList ++ ("// Words contains the dictionary of words.\n//".toList ++
      (l ++ '\n' :: ("var Words = map[string]Word{".toList ++ (entriesLitD G es ++ "}\n".toList)))) := by
  have hn : '\n' ∉ dictDot := by decide
  have hs : '/' ∉ dictDot := by decide
  refine ⟨del 0 (" Last updated: ".toList ++ time ++ ['.']), ?_, ?_⟩
  · intro hm
    have := del_sub 0 _ hm
    simp only [List.mem_append, ht, or_false] at this
    revert this
    decide
  · have h1 : ∀ r, "package dict\n// Words contains the dictionary of words.\n// Last updated: ".toList ++ time ++
        ".\nvar Words = ".toList ++ r = "package dict\n// Words contains the dictionary of words.\n/".toList ++ '/' ::
          ((" Last updated: ".toList ++ time ++ ['.']) ++ '\n' :: ("var Words = ".toList ++ r)) := by
      intro r
      have e : "package dict\n// Words contains the dictionary of words.\n// Last updated: ".toList =
        "package dict\n// Words contains the dictionary of words.\n/".toList ++ '/' :: " Last updated: ".toList := by decide +kernel
      have e' : ".\nvar Words = ".toList = '.' :: '\n' :: "var Words = ".toList := by decide +kernel
      simp only [e, e', List.append_assoc, List.cons_append, List.nil_append]
    have h2 : del 0 "package dict\n// Words contains the dictionary of words.\n/".toList =
        "package dict\n// Words contains the dictionary of words.\n/".toList := by decide +kernel
    have h3 : del 0 ("var Words = ".toList ++ (mapLit G es ++ ['\n'])) =
        "var Words = map[string]Word{".toList ++ (entriesLitD G es ++ "}\n".toList) := by
      have e1 : ∀ x, "var Words = ".toList ++ (mapLit G es ++ x) =
          "var Words = map[string]dict.Word{".toList ++ (entriesLit G es ++ (['}'] ++ x)) := by
        intro x
        have e : "var Words = map[string]dict.Word{".toList = "var Words = ".toList ++ "map[string]dict.Word{".toList := by decide +kernel
        unfold mapLit
        rw [e]
        generalize "var Words = ".toList = x1, "map[string]dict.Word{".toList = x2
        simp only [List.append_assoc]
      rw [e1]
      cases es with
      | nil => simp only [entriesLit, entriesLitD, List.nil_append]; decide +kernel
      | cons e es =>
        rw [del_entriesD _ _ (by simp)]
        have : del 0 "var Words = map[string]dict.Word{".toList = "var Words = map[string]Word{".toList := by decide +kernel
        rw [this]
        rfl
    have e : "package dict\n// Words contains the dictionary of words.\n/".toList =
        "package dict\n".toList ++ "// Words contains the dictionary of words.\n/".toList := by decide +kernel
    have e' : "// Words contains the dictionary of words.\n//".toList = "// Words contains the dictionary of words.\n/".toList ++ ['/'] := by
      decide +kernel
    rw [source, List.append_assoc, h1, del_sep hs _ _ 0 (by omega), del_sep hn _ _ 0 (by omega), h2, h3, e, e']
    simp only [List.append_assoc, List.singleton_append]

theorem lists_perm {es es' : List (Str × DictWord)} {m : Str → Option DictWord} (h : Lists es m) (h' : Lists es' m) : es.Perm es' := by
  have hn : ∀ {l : List (Str × DictWord)}, (l.map (·.1)).Nodup → l.Nodup := by
    intro l hl
    exact List.Pairwise.of_map (·.1) (fun a b hab he => hab (by rw [he])) hl
  exact (List.perm_ext_iff_of_nodup (hn h.1) (hn h'.1)).2 fun e => by rw [h.2 e.1 e.2, h'.2 e.1 e.2]

/-- C69 exactly: the source that is generated, read as Go, gives the words that were loaded if and only if "dict." occurs in no string
as it is quoted. The hypotheses on Go's library: a newline is no printable character, the time has none. -/
theorem C69_exact (G : GoLib) (time : Str) (hG : G.isPrint '\n' = false) (ht : '\n' ∉ time) (U : Uni)
    (resp : Except Str DictResponse) (m : Str → Option DictWord) (hm : load U resp = .words m) (es : List (Str × DictWord))
    (hes : Lists es m) :
    (∃ es', readSource (source G time es) = some es' ∧ Lists es' m) ↔
      ∀ k w, m k = some w → ∀ s ∈ [k, w.word, w.dfn, w.by_], ¬ dictDot <:+: quote G s := by
  refine ⟨?_, C69_generated_partial G time hG ht U resp m hm es hes⟩
  rintro ⟨es', hr, hl⟩ k w hk s hs ho
  have hmem : (k, w) ∈ es := (hes.2 k w).2 hk
  have hkept : ¬ Kept G (k, w) := fun h => h s hs ho
  have hp : sizes es' = sizes es := by
    unfold sizes
    exact ((lists_perm hl hes).map size).sum_nat
  obtain ⟨l, h1, h2⟩ := source_eqD (G := G) (time := time) (es := es) ht
  have e1 : ∀ r, skipComments false ("// Words contains the dictionary of words.\n//".toList ++ r) = skipComments true r := by
    intro r
    rfl
  have e2 : ∀ r, skipComments false ("var Words = map[string]Word{".toList ++ r) = "var Words = map[string]Word{".toList ++ r := by
    intro r
    rfl
  simp only [readSource, h2, expect_append, Option.bind_eq_bind, Option.bind_some, e1, skip_line h1, e2] at hr
  cases es with
  | nil => cases hmem
  | cons e es =>
    obtain ⟨t, h4⟩ := entriesD_head (G := G) (e := e) (es := es) "}\n".toList
    rw [h4] at hr
    simp only [Option.bind_eq_some_iff] at hr
    obtain ⟨⟨es1, t1⟩, h5, t2, h6, h7⟩ := hr
    have h5 : readEntries ('"' :: t).length ('"' :: t) = some (es1, t1) := h5
    rw [← h4] at h5
    have h8 := readEntries_del hG (es := e :: es) (by simp) _ ['\n'] (es1, t1) h5
    have h9 := h8.2.2 ⟨_, hmem, hkept⟩
    split at h7
    · cases h7
      have h9 : sizes es1 < sizes (e :: es) := h9
      omega
    · cases h7

/-- The map with one word. -/
def oneWord (w : DictWord) : Str → Option DictWord := fun k => if k = w.word then some w else none

theorem lists_one (w : DictWord) : Lists [(w.word, w)] (oneWord w) := by
  refine ⟨by simp, fun k v => ?_⟩
  rw [List.mem_singleton, Prod.mk.injEq, oneWord]
  constructor
  · rintro ⟨rfl, rfl⟩; rw [if_pos rfl]
  · intro h
    split at h
    · next hk => cases h; exact ⟨hk, rfl⟩
    · cases h

/-- A word with line breaks and quotation marks, and with "dict", which is kept, and one with "dict.", which is not. -/
example : ((∃ es', readSource (source plainLib then_ [("jai".toList, ⟨"jai".toList, "\"dict\n.".toList, [], 0⟩)]) = some es' ∧
      Lists es' (oneWord ⟨"jai".toList, "\"dict\n.".toList, [], 0⟩))) ∧
    ¬ ∃ es', readSource (source plainLib then_ [("jai".toList, ⟨"jai".toList, "addict.".toList, [], 0⟩)]) = some es' ∧
      Lists es' (oneWord ⟨"jai".toList, "addict.".toList, [], 0⟩) := by
  have hl : ∀ d : String, load asciiUni (.ok (respond [("jai", d)])) = .words (oneWord ⟨"jai".toList, d.toList, [], 0⟩) := by
    intro d
    show Loaded.words _ = _
    congr 1
    have hk : norm asciiUni "jai".toList = "jai".toList := by decide +kernel
    funext k
    simp only [List.map_cons, List.map_nil, List.foldl_cons, List.foldl_nil, addEntry, oneWord, hk]
  constructor
  · refine (C69_exact plainLib then_ (by decide) (by decide) asciiUni _ _ (hl _) _ (lists_one _)).2 ?_
    intro k w h s hs
    unfold oneWord at h
    split at h
    · next hk =>
      cases h
      subst hk
      revert s
      decide +kernel
    · cases h
  · rw [C69_exact plainLib then_ (by decide) (by decide) asciiUni _ _ (hl _) _ (lists_one _)]
    intro h
    exact h "jai".toList _ (if_pos rfl) "addict.".toList (by simp) ⟨['"', 'a', 'd'], ['"'], by decide +kernel⟩

end Verif.App
