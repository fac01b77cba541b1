/-
C68: what `pretty.String` prints of a syntax tree.
-/
import Verif.AST.GoPrint
import Verif.AST.Spec
import Verif.Parse.Sort
import Verif.Parse.ToneSpec

namespace Verif.AST
open Verif.Tone (Str)
open Verif.AST.Spec

set_option linter.unusedSimpArgs false

/-! ### Spec -/

/-- A word without its offsets and its modifier. -/
def bareW (w : Word) : Word := .mk w.T 0 0 none

mutual
/-- Spec: the tree without the offsets of words, the modifiers of words and the identities of arguments. -/
def bare : Node → Node
  | .text l d => .text (bareO l) (bareL d)
  | .discourse d => .discourse (bareL d)
  | .sentence je st da => .sentence (je.map bareW) (bare st) (da.map bareW)
  | .cop k to0 to1 ru l r => .cop k (to0.map bareW) (to1.map bareW) (bareW ru) (bare l) (bare r)
  | .prenex ts bi => .prenex (bareL ts) (bareW bi)
  | .prenexStmt ts bi st => .prenexStmt (bareL ts) (bareW bi) (bare st)
  | .predication k p ts na => .predication k (bare p) (bareTO ts) (na.map bareW)
  | .prefixed mu p => .prefixed (bareW mu) (bare p)
  | .serial l r => .serial (bare l) (bare r)
  | .word k w => .word k (bareW w)
  | .mi m ga ph => .mi (bareW m) (ga.map bareW) (bare ph)
  | .po m ga a => .po (bareW m) (ga.map bareW) (bare a)
  | .mo m teo d => .mo (bareW m) (bareW teo) (bareL d)
  | .lu k l st => .lu k (bareW l) (bare st)
  | .linked g a => .linked (bareW g) (bare a)
  | .terms ts => .terms (bareL ts)
  | .predArg _ focus quant p rel => .predArg 0 (focus.map bareW) (quant.map bareW) (bare p) (bareO rel)
  | .predAdverb p => .predAdverb (bare p)
  | .prep p a => .prep (bare p) (bare a)
  | .paren kio ki d => .paren (bareW kio) (bareW ki) (bareL d)
  | .incidental ju st => .incidental (bareW ju) (bare st)
  | .vocative hu a => .vocative (bareW hu) (bare a)
def bareO : Option Node → Option Node
  | none => none
  | some n => some (bare n)
def bareTO : Option (List Node) → Option (List Node)
  | none => none
  | some l => some (bareL l)
def bareL : List Node → List Node
  | [] => []
  | n :: ns => bare n :: bareL ns
end

/-! ### Values -/

mutual
/-- No quotation mark in words, and structs have their fields. -/
def GV.wf : GV → Bool
  | .nil => true
  | .word _ t => !t.contains '"'
  | .arr l => wfL l
  | .struct t l => l.length == t.fields.length && wfL l
def GV.wfL : List GV → Bool
  | [] => true
  | v :: l => v.wf && wfL l
end

/-- The class of the first character of a value. -/
def headClass (c : Char) : Nat :=
  if c = 'n' then 0 else if c = '"' then 1 else if c = '[' then 2 else 3
def GV.class : GV → Nat
  | .nil => 0 | .word .raw _ => 1 | .arr _ => 2 | .word _ _ => 3 | .struct _ _ => 3

def allGT : List GT :=
  [.Text, .StatementSentence, .CoP, .CoPSentence, .CoPStatement, .CoPPredicate, .TermSet, .CoPArgument, .CoPRelative, .CoPAdverb,
   .CoPPreposition, .CoPContent, .Prenex, .PrenexStatement, .Predication, .PredicationRelative, .PredicationContent,
   .PrefixedPredicate, .SerialPredicate, .MIPredicate, .POPredicate, .MOPredicate,
   .LUPhrase, .LUPredicate, .LURelative, .LUContent, .LinkedTerm, .PredicateArgument, .PredicateAdverb, .PredicationPreposition,
   .Parenthetical, .Incidental, .Vocative]

theorem mem_allGT (t : GT) : t ∈ allGT := by cases t <;> decide

theorem GT.name_inj {t t' : GT} (h : t.name = t'.name) : t = t' := by
  have h1 : ∀ a ∈ allGT, ∀ b ∈ allGT, a.name = b.name → a = b := by decide +kernel
  exact h1 t (mem_allGT t) t' (mem_allGT t') h

theorem GT.name_head (t : GT) : ∃ c l, t.name = c :: l ∧ headClass c = 3 := by
  cases t <;> exact ⟨_, _, rfl, by decide⟩

/-- The characters after names. -/
def opener (c : Char) : Bool := c = '{' || c = '('

theorem GT.name_opener (t : GT) : ∀ c ∈ t.name, opener c = false := by cases t <;> decide

theorem wordName_inj {k k' : WordKind} (h : wordName k = wordName k') : k = k' := by
  cases k <;> cases k' <;> first | rfl | (revert h; decide)

theorem wordName_opener (k : WordKind) : ∀ c ∈ wordName k, opener c = false := by cases k <;> decide

theorem wordName_head {k : WordKind} (h : k ≠ .raw) : ∃ c l, wordName k = c :: l ∧ headClass c = 3 := by
  cases k
  · exact absurd rfl h
  all_goals exact ⟨_, _, rfl, by decide⟩

/-- What follows the text of a word. -/
def wordEnd : WordKind → Str
  | .raw => [] | .interjection => ['}', ')'] | _ => [')']

theorem prettyWord_raw (t : Str) : prettyWord .raw t = '"' :: (t ++ ['"']) := rfl

theorem prettyWord_eq {k : WordKind} (h : k ≠ .raw) (t : Str) :
    prettyWord k t = wordName k ++ '(' :: '"' :: (t ++ '"' :: wordEnd k) := by
  cases k
  · exact absurd rfl h
  all_goals rfl

/-- Two texts split at the first character of a kind. -/
theorem split_stop (stop : Char → Bool) : ∀ {a a' r r' : Str} {x x' : Char}, (∀ c ∈ a, stop c = false) → (∀ c ∈ a', stop c = false) →
    stop x = true → stop x' = true → a ++ x :: r = a' ++ x' :: r' → a = a' ∧ x = x' ∧ r = r'
  | [], [], _, _, _, _, _, _, _, _, h => by simpa using h
  | [], c :: a', _, _, _, _, _, h2, h3, _, h => by
    simp only [List.nil_append, List.cons_append, List.cons.injEq] at h
    have := h2 c List.mem_cons_self
    rw [← h.1, h3] at this
    cases this
  | c :: a, [], _, _, _, _, h1, _, _, h4, h => by
    simp only [List.nil_append, List.cons_append, List.cons.injEq] at h
    have := h1 c List.mem_cons_self
    rw [h.1, h4] at this
    cases this
  | c :: a, c' :: a', _, _, _, _, h1, h2, h3, h4, h => by
    simp only [List.cons_append, List.cons.injEq] at h
    have := split_stop stop (fun c hc => h1 c (by simp [hc])) (fun c hc => h2 c (by simp [hc])) h3 h4 h.2
    exact ⟨by rw [h.1, this.1], this.2⟩

theorem split_at (c : Char) {a a' r r' : Str} (h1 : c ∉ a) (h2 : c ∉ a') (h : a ++ c :: r = a' ++ c :: r') : a = a' ∧ r = r' := by
  have := split_stop (fun x => x == c) (x := c) (x' := c) (a := a) (a' := a')
    (fun x hx => by simp only [beq_eq_false_iff_ne]; rintro rfl; exact h1 hx)
    (fun x hx => by simp only [beq_eq_false_iff_ne]; rintro rfl; exact h2 hx) (by simp) (by simp) h
  exact ⟨this.1, this.2.2⟩

theorem goPrint_head (ind : Str) (v : GV) : ∃ c l, goPrint ind v = c :: l ∧ headClass c = v.class := by
  cases v with
  | nil => exact ⟨_, _, rfl, by decide⟩
  | word k t =>
    rw [goPrint]
    by_cases hk : k = .raw
    · subst hk; exact ⟨_, _, rfl, by simp only [GV.class]; decide⟩
    · obtain ⟨c, l, h, h'⟩ := wordName_head hk
      rw [prettyWord_eq hk, h]
      refine ⟨_, _, rfl, ?_⟩
      cases k
      · exact absurd rfl hk
      all_goals exact h'
  | arr l => cases l <;> exact ⟨'[', _, rfl, by simp only [GV.class]; decide⟩
  | struct t l =>
    obtain ⟨c, l', h, h'⟩ := t.name_head
    rw [goPrint, h]
    exact ⟨_, _, rfl, h'⟩

theorem ind_head {ind : Str} (h : ind.head? = some '\n') : (indented ind).head? = some '\n' := by
  cases ind with
  | nil => cases h
  | cons c l => exact h

mutual
theorem goPrint_inj : ∀ (v v' : GV) (ind r r' : Str), ind.head? = some '\n' → v.wf = true → v'.wf = true →
    goPrint ind v ++ r = goPrint ind v' ++ r' → v = v' ∧ r = r'
  | v, v', ind, r, r', hi, hv, hv', h => by
    have hcl : v.class = v'.class := by
      obtain ⟨c, l, h1, h2⟩ := goPrint_head ind v
      obtain ⟨c', l', h1', h2'⟩ := goPrint_head ind v'
      rw [h1, h1'] at h
      simp only [List.cons_append, List.cons.injEq] at h
      rw [← h2, ← h2', h.1]
    match v, v', hv, hv', h, hcl with
    | .nil, .nil, _, _, h, _ => exact ⟨rfl, by simpa [goPrint] using h⟩
    | .word k t, .word k' t', hv, hv', h, hcl =>
      simp only [GV.wf, Bool.not_eq_true', List.contains_eq_mem, decide_eq_false_iff_not] at hv hv'
      rw [goPrint, goPrint] at h
      by_cases hk : k = .raw
      · have hk' : k' = .raw := by subst hk; cases k' <;> simp [GV.class] at hcl ⊢
        subst hk hk'
        simp only [prettyWord_raw, List.cons_append, List.append_assoc, List.cons.injEq, true_and, List.nil_append] at h
        obtain ⟨rfl, rfl⟩ := split_at '"' hv hv' h
        exact ⟨rfl, rfl⟩
      · have hk' : k' ≠ .raw := by rintro rfl; cases k <;> simp [GV.class] at hcl hk
        rw [prettyWord_eq hk, prettyWord_eq hk'] at h
        simp only [List.cons_append, List.append_assoc] at h
        obtain ⟨h1, _, h2⟩ := split_stop opener (wordName_opener k) (wordName_opener k') (by decide) (by decide) h
        obtain rfl := wordName_inj h1
        simp only [List.cons.injEq, true_and] at h2
        obtain ⟨rfl, h3⟩ := split_at '"' hv hv' h2
        exact ⟨rfl, List.append_cancel_left h3⟩
    | .word k t, .nil, _, _, _, hcl => exfalso; cases k <;> simp [GV.class] at hcl
    | .word k t, .arr _, _, _, _, hcl => exfalso; cases k <;> simp [GV.class] at hcl
    | .word k t, .struct t' l', hv, hv', h, hcl =>
      exfalso
      rw [goPrint, goPrint] at h
      have hk : k ≠ .raw := by rintro rfl; simp [GV.class] at hcl
      rw [prettyWord_eq hk] at h
      simp only [List.cons_append, List.append_assoc] at h
      obtain ⟨_, h1, _⟩ := split_stop opener (wordName_opener k) t'.name_opener (by decide) (by decide) h
      cases h1
    | .struct t l, .word k' t', hv, hv', h, hcl =>
      exfalso
      rw [goPrint, goPrint] at h
      have hk : k' ≠ .raw := by rintro rfl; simp [GV.class] at hcl
      rw [prettyWord_eq hk] at h
      simp only [List.cons_append, List.append_assoc] at h
      obtain ⟨_, h1, _⟩ := split_stop opener t.name_opener (wordName_opener k') (by decide) (by decide) h
      cases h1
    | .arr l, .arr l', hv, hv', h, _ =>
      rw [GV.wf] at hv hv'
      have e : ∀ l : List GV, goPrint ind (.arr l) = match l with
          | [] => "[]".toList
          | x :: l => '[' :: goItems (indented ind) (x :: l) ++ ind ++ [']'] := fun l => by cases l <;> rw [goPrint]
      have e0 : ∀ (x : GV) (l : List GV) (s r r' : Str), s.head? = some '\n' →
          "[]".toList ++ r ≠ '[' :: goItems (indented ind) (x :: l) ++ s ++ [']'] ++ r' := by
        intro x l s r r' _ h
        rw [goItems] at h
        cases hind : ind with
        | nil => rw [hind] at hi; cases hi
        | cons c t =>
          rw [hind] at hi h
          simp only [List.head?_cons, Option.some.injEq] at hi
          subst hi
          simp [indented] at h
      rw [e, e] at h
      cases l with
      | nil => cases l' with
        | nil => exact ⟨rfl, by simpa using h⟩
        | cons x l' => exact absurd h (e0 _ _ _ _ _ hi)
      | cons x l => cases l' with
        | nil => exact absurd h.symm (e0 _ _ _ _ _ hi)
        | cons x' l' =>
          simp only [List.cons_append, List.append_assoc, List.cons.injEq, true_and, List.nil_append] at h
          obtain ⟨h1, h2⟩ := goItems_inj (x :: l) (x' :: l') ind r r' hi hv hv' h
          exact ⟨by rw [h1], h2⟩
    | .struct t l, .struct t' l', hv, hv', h, _ =>
      simp only [GV.wf, Bool.and_eq_true, beq_iff_eq] at hv hv'
      rw [goPrint, goPrint] at h
      simp only [List.cons_append, List.append_assoc, List.nil_append] at h
      obtain ⟨h1, _, h2⟩ := split_stop opener t.name_opener t'.name_opener (by decide) (by decide) h
      have := GT.name_inj h1
      subst this
      obtain ⟨h3, h4⟩ := goFields_inj l l' t.fields ind r r' hi hv.1 hv'.1 hv.2 hv'.2 h2
      exact ⟨by rw [h3], h4⟩
theorem goItems_inj : ∀ (l l' : List GV) (ind r r' : Str), ind.head? = some '\n' → GV.wfL l = true → GV.wfL l' = true →
    goItems (indented ind) l ++ (ind ++ ']' :: r) = goItems (indented ind) l' ++ (ind ++ ']' :: r') → l = l' ∧ r = r'
  | [], [], ind, r, r', _, _, _, h => by
    simp only [goItems, List.nil_append] at h
    have := List.append_cancel_left h
    exact ⟨rfl, by simpa using this⟩
  | [], x :: l', ind, r, r', _, _, _, h => by
    exfalso
    simp only [goItems, List.nil_append, indented, List.append_assoc] at h
    have := List.append_cancel_left h
    simp at this
  | x :: l, [], ind, r, r', _, _, _, h => by
    exfalso
    simp only [goItems, List.nil_append, indented, List.append_assoc] at h
    have := List.append_cancel_left h
    simp at this
  | x :: l, x' :: l', ind, r, r', hi, hv, hv', h => by
    simp only [GV.wfL, Bool.and_eq_true] at hv hv'
    simp only [goItems, List.append_assoc] at h
    have h := List.append_cancel_left h
    have h := goPrint_inj x x' (indented ind) _ _ (ind_head hi) hv.1 hv'.1 h
    have h0 := goItems_inj l l' ind r r' hi hv.2 hv'.2 h.2
    exact ⟨by rw [h.1, h0.1], h0.2⟩
theorem goFields_inj : ∀ (l l' : List GV) (fs : List Str) (ind r r' : Str), ind.head? = some '\n' → l.length = fs.length →
    l'.length = fs.length → GV.wfL l = true → GV.wfL l' = true →
    goFields (indented ind) fs l ++ (ind ++ '}' :: r) = goFields (indented ind) fs l' ++ (ind ++ '}' :: r') → l = l' ∧ r = r'
  | [], [], fs, ind, r, r', _, _, _, _, _, h => by
    have := List.append_cancel_left (List.append_cancel_left h)
    exact ⟨rfl, by simpa using this⟩
  | [], x :: l', fs, ind, r, r', _, h1, h2, _, _, h => by
    rw [← h1] at h2; cases h2
  | x :: l, [], fs, ind, r, r', _, h1, h2, _, _, h => by
    rw [← h1] at h2; cases h2
  | x :: l, x' :: l', [], ind, r, r', _, h1, h2, _, _, h => by cases h1
  | x :: l, x' :: l', f :: fs, ind, r, r', hi, h1, h2, hv, hv', h => by
    simp only [List.length_cons, Nat.add_right_cancel_iff] at h1 h2
    simp only [GV.wfL, Bool.and_eq_true] at hv hv'
    simp only [goFields, List.append_assoc] at h
    have h := List.append_cancel_left (List.append_cancel_left (List.append_cancel_left h))
    have h := goPrint_inj x x' (indented ind) _ _ (ind_head hi) hv.1 hv'.1 h
    have h0 := goFields_inj l l' fs ind r r' hi h1 h2 hv.2 hv'.2 h.2
    exact ⟨by rw [h.1, h0.1], h0.2⟩
end

/-! ### Nodes -/

open Verif.Parse (Tag tag wsIn wsW wsO wsWO wsTO wsL)

/-- The dynamic type of a node of which a value is printed. -/
def gtag : GT → Tag
  | .Text => .text | .StatementSentence => .sentence
  | .CoP => .cop .raw | .CoPSentence => .cop .sentence | .CoPStatement => .cop .statement | .CoPPredicate => .cop .predicate
  | .TermSet => .cop .termSet | .CoPArgument => .cop .argument | .CoPRelative => .cop .relative | .CoPAdverb => .cop .adverb
  | .CoPPreposition => .cop .preposition | .CoPContent => .cop .content
  | .Prenex => .prenex | .PrenexStatement => .prenexStmt | .Predication => .predication .raw
  | .PredicationRelative => .predication .relative | .PredicationContent => .predication .content
  | .PrefixedPredicate => .prefixed | .SerialPredicate => .serial
  | .MIPredicate => .mi | .POPredicate => .po | .MOPredicate => .mo
  | .LUPhrase => .lu .raw | .LUPredicate => .lu .predicate | .LURelative => .lu .relative | .LUContent => .lu .content
  | .LinkedTerm => .linked | .PredicateArgument => .predArg | .PredicateAdverb => .predAdverb
  | .PredicationPreposition => .prep | .Parenthetical => .paren | .Incidental => .incidental | .Vocative => .vocative
def vtag : GV → Tag
  | .struct t _ => gtag t
  | .word k _ => .word k
  | _ => .terms

theorem vtag_gv (n : Node) (h : wsIn n = true) : vtag (gv n) = tag n := by
  cases n with
  | cop k => cases k <;> rfl
  | predication k => cases k <;> rfl
  | word k => cases k <;> rfl
  | lu k => cases k <;> rfl
  | discourse d => simp [wsIn] at h
  | _ => rfl

theorem gv_ne_nil (n : Node) : gv n ≠ .nil := by
  cases n with
  | predication k => cases k <;> simp [gv]
  | _ => simp [gv]

theorem gvW_inj {w w' : Word} (h : gvW w = gvW w') : bareW w = bareW w' := by
  simp only [gvW, GV.word.injEq, true_and] at h
  rw [bareW, h, ← bareW]

theorem gvWO_inj {o o' : Option Word} (h : gvWO o = gvWO o') : o.map bareW = o'.map bareW := by
  cases o <;> cases o' <;> first | rfl | cases h | skip
  simp only [gvWO] at h
  simp only [Option.map_some, gvW_inj h]

theorem gv_inj_aux : (∀ n n', wsIn n = true → wsIn n' = true → gv n = gv n' → bare n = bare n') ∧ (∀ _ : Word, True) := by
  have hO : ∀ (s s') (o o' : Option Node), (∀ x, o = some x → ∀ n', wsIn x = true → wsIn n' = true → gv x = gv n' →
      bare x = bare n') → wsO s o = true → wsO s' o' = true → gvO o = gvO o' →
      bareO o = bareO o' := by
    intro s s' o o' ih h h' he
    cases o with
    | none => cases o' with
      | none => rfl
      | some x' => exact absurd he.symm (gv_ne_nil x')
    | some x => cases o' with
      | none => exact absurd he (gv_ne_nil x)
      | some x' =>
        simp only [wsO, Bool.and_eq_true] at h h'
        simp only [bareO, ih x rfl x' h.2 h'.2 he]
  have hL : ∀ (s s') (l l' : List Node), (∀ x ∈ l, ∀ n', wsIn x = true → wsIn n' = true → gv x = gv n' →
      bare x = bare n') → wsL s l = true → wsL s' l' = true → gvL l = gvL l' →
      bareL l = bareL l' := by
    intro s s' l
    induction l with
    | nil => intro l' _ _ _ he; cases l' with
      | nil => rfl
      | cons x' l' => cases he
    | cons x l ihl => intro l' ih h h' he; cases l' with
      | nil => cases he
      | cons x' l' =>
        simp only [wsL, Bool.and_eq_true] at h h'
        simp only [gvL, List.cons.injEq] at he
        simp only [bareL, ih x (by simp) x' h.1.2 h'.1.2 he.1, ihl l' (fun y hy => ih y (by simp [hy])) h.2 h'.2 he.2]
  have hTO : ∀ (o o' : Option (List Node)), (∀ l, o = some l → ∀ x ∈ l, ∀ n', wsIn x = true → wsIn n' = true → gv x = gv n' →
      bare x = bare n') → wsTO o = true → wsTO o' = true → gvTO o = gvTO o' →
      bareTO o = bareTO o' := by
    intro o o' ih h h' he
    cases o with
    | none => cases o' with
      | none => rfl
      | some l' => cases l' with
        | nil => simp [wsTO] at h'
        | cons => cases he
    | some l => cases o' with
      | none => cases l with
        | nil => simp [wsTO] at h
        | cons => cases he
      | some l' =>
        simp only [wsTO, Bool.and_eq_true] at h h'
        simp only [bareTO, hL _ _ l l' (ih l rfl) h.2 h'.2 he]
  have hT : ∀ {n n'}, wsIn n = true → wsIn n' = true → gv n = gv n' → tag n = tag n' := fun h h' he => by
    rw [← vtag_gv _ h, ← vtag_gv _ h', he]
  refine Node.induct (P := fun n => ∀ n', wsIn n = true → wsIn n' = true → gv n = gv n' → bare n = bare n')
    (Q := fun _ => True) ?_ ?_ ?_ ?_ ?_ ?_ ?_ ?_ ?_ ?_ ?_ ?_ ?_ ?_ ?_ ?_ ?_ ?_ ?_ ?_ ?_ ?_ ?_
  · intros; trivial
  · intro l d i_l i_d n' h h' he
    have ht := hT h h' he
    cases n' <;> simp only [tag, reduceCtorEq, Tag.cop.injEq, Tag.predication.injEq, Tag.word.injEq, Tag.lu.injEq] at ht
    rename_i l' d'
    simp only [gv, GV.struct.injEq, GV.arr.injEq, GV.word.injEq, List.cons.injEq, true_and, and_true] at he
    simp only [wsIn, Bool.and_eq_true] at h h'
    simp only [bare, hO _ _ l l' i_l (by first | exact h.1 | exact h.2) (by first | exact h'.1 | exact h'.2) (by grind), hL _ _ d d' i_d (by first | exact h.1 | exact h.2 | exact h.2.2 | exact h.1.2 | exact h.1.1.2) (by first | exact h'.1 | exact h'.2 | exact h'.2.2 | exact h'.1.2 | exact h'.1.1.2) (by grind)]
  · intro d _ n' h; simp [wsIn] at h
  · intro je st da i_je i_st i_da n' h h' he
    have ht := hT h h' he
    cases n' <;> simp only [tag, reduceCtorEq, Tag.cop.injEq, Tag.predication.injEq, Tag.word.injEq, Tag.lu.injEq] at ht
    rename_i je' st' da'
    simp only [gv, GV.struct.injEq, GV.arr.injEq, GV.word.injEq, List.cons.injEq, true_and, and_true] at he
    simp only [wsIn, Bool.and_eq_true] at h h'
    simp only [bare, gvWO_inj (o := je) (o' := je') (by grind), i_st st' (by grind) (by grind) (by grind), gvWO_inj (o := da) (o' := da') (by grind)]
  · intro k to0 to1 ru l r i_to0 i_to1 i_ru i_l i_r n' h h' he
    have ht := hT h h' he
    cases n' <;> simp only [tag, reduceCtorEq, Tag.cop.injEq, Tag.predication.injEq, Tag.word.injEq, Tag.lu.injEq] at ht
    rename_i k' to0' to1' ru' l' r'
    subst ht
    simp only [gv, GV.struct.injEq, GV.arr.injEq, GV.word.injEq, List.cons.injEq, true_and, and_true] at he
    simp only [wsIn, Bool.and_eq_true] at h h'
    simp only [bare, gvWO_inj (o := to0) (o' := to0') (by grind), gvWO_inj (o := to1) (o' := to1') (by grind), gvW_inj (w := ru) (w' := ru') (by grind), i_l l' (by grind) (by grind) (by grind), i_r r' (by grind) (by grind) (by grind)]
  · intro ts bi i_ts i_bi n' h h' he
    have ht := hT h h' he
    cases n' <;> simp only [tag, reduceCtorEq, Tag.cop.injEq, Tag.predication.injEq, Tag.word.injEq, Tag.lu.injEq] at ht
    rename_i ts' bi'
    simp only [gv, GV.struct.injEq, GV.arr.injEq, GV.word.injEq, List.cons.injEq, true_and, and_true] at he
    simp only [wsIn, Bool.and_eq_true] at h h'
    simp only [bare, hL _ _ ts ts' i_ts (by first | exact h.1 | exact h.2 | exact h.2.2 | exact h.1.2 | exact h.1.1.2) (by first | exact h'.1 | exact h'.2 | exact h'.2.2 | exact h'.1.2 | exact h'.1.1.2) (by grind), gvW_inj (w := bi) (w' := bi') (by grind)]
  · intro ts bi st i_ts i_bi i_st n' h h' he
    have ht := hT h h' he
    cases n' <;> simp only [tag, reduceCtorEq, Tag.cop.injEq, Tag.predication.injEq, Tag.word.injEq, Tag.lu.injEq] at ht
    rename_i ts' bi' st'
    simp only [gv, GV.struct.injEq, GV.arr.injEq, GV.word.injEq, List.cons.injEq, true_and, and_true] at he
    simp only [wsIn, Bool.and_eq_true] at h h'
    simp only [bare, hL _ _ ts ts' i_ts (by first | exact h.1 | exact h.2 | exact h.2.2 | exact h.1.2 | exact h.1.1.2) (by first | exact h'.1 | exact h'.2 | exact h'.2.2 | exact h'.1.2 | exact h'.1.1.2) (by grind), gvW_inj (w := bi) (w' := bi') (by grind), i_st st' (by grind) (by grind) (by grind)]
  · intro k p ts na i_p i_ts i_na n' h h' he
    have ht := hT h h' he
    cases n' <;> simp only [tag, reduceCtorEq, Tag.cop.injEq, Tag.predication.injEq, Tag.word.injEq, Tag.lu.injEq] at ht
    rename_i k' p' ts' na'
    subst ht
    have he : gv p = gv p' ∧ gvTO ts = gvTO ts' ∧ gvWO na = gvWO na' := by
      cases k <;> simpa [gv] using he
    simp only [wsIn, Bool.and_eq_true] at h h'
    simp only [bare, i_p p' (by grind) (by grind) (by grind), hTO ts ts' i_ts (by grind) (by grind) (by grind), gvWO_inj (o := na) (o' := na') (by grind)]
  · intro mu p i_mu i_p n' h h' he
    have ht := hT h h' he
    cases n' <;> simp only [tag, reduceCtorEq, Tag.cop.injEq, Tag.predication.injEq, Tag.word.injEq, Tag.lu.injEq] at ht
    rename_i mu' p'
    simp only [gv, GV.struct.injEq, GV.arr.injEq, GV.word.injEq, List.cons.injEq, true_and, and_true] at he
    simp only [wsIn, Bool.and_eq_true] at h h'
    simp only [bare, gvW_inj (w := mu) (w' := mu') (by grind), i_p p' (by grind) (by grind) (by grind)]
  · intro l r i_l i_r n' h h' he
    have ht := hT h h' he
    cases n' <;> simp only [tag, reduceCtorEq, Tag.cop.injEq, Tag.predication.injEq, Tag.word.injEq, Tag.lu.injEq] at ht
    rename_i l' r'
    simp only [gv, GV.struct.injEq, GV.arr.injEq, GV.word.injEq, List.cons.injEq, true_and, and_true] at he
    simp only [wsIn, Bool.and_eq_true] at h h'
    simp only [bare, i_l l' (by grind) (by grind) (by grind), i_r r' (by grind) (by grind) (by grind)]
  · intro k w i_w n' h h' he
    have ht := hT h h' he
    cases n' <;> simp only [tag, reduceCtorEq, Tag.cop.injEq, Tag.predication.injEq, Tag.word.injEq, Tag.lu.injEq] at ht
    rename_i k' w'
    subst ht
    simp only [gv, GV.struct.injEq, GV.arr.injEq, GV.word.injEq, List.cons.injEq, true_and, and_true] at he
    simp only [wsIn, Bool.and_eq_true] at h h'
    simp only [bare, bareW, (by grind : w.T = w'.T)]
  · intro m ga ph i_m i_ga i_ph n' h h' he
    have ht := hT h h' he
    cases n' <;> simp only [tag, reduceCtorEq, Tag.cop.injEq, Tag.predication.injEq, Tag.word.injEq, Tag.lu.injEq] at ht
    rename_i m' ga' ph'
    simp only [gv, GV.struct.injEq, GV.arr.injEq, GV.word.injEq, List.cons.injEq, true_and, and_true] at he
    simp only [wsIn, Bool.and_eq_true] at h h'
    simp only [bare, gvW_inj (w := m) (w' := m') (by grind), gvWO_inj (o := ga) (o' := ga') (by grind), i_ph ph' (by grind) (by grind) (by grind)]
  · intro m ga a i_m i_ga i_a n' h h' he
    have ht := hT h h' he
    cases n' <;> simp only [tag, reduceCtorEq, Tag.cop.injEq, Tag.predication.injEq, Tag.word.injEq, Tag.lu.injEq] at ht
    rename_i m' ga' a'
    simp only [gv, GV.struct.injEq, GV.arr.injEq, GV.word.injEq, List.cons.injEq, true_and, and_true] at he
    simp only [wsIn, Bool.and_eq_true] at h h'
    simp only [bare, gvW_inj (w := m) (w' := m') (by grind), gvWO_inj (o := ga) (o' := ga') (by grind), i_a a' (by grind) (by grind) (by grind)]
  · intro m teo d i_m i_teo i_d n' h h' he
    have ht := hT h h' he
    cases n' <;> simp only [tag, reduceCtorEq, Tag.cop.injEq, Tag.predication.injEq, Tag.word.injEq, Tag.lu.injEq] at ht
    rename_i m' teo' d'
    simp only [gv, GV.struct.injEq, GV.arr.injEq, GV.word.injEq, List.cons.injEq, true_and, and_true] at he
    simp only [wsIn, Bool.and_eq_true] at h h'
    simp only [bare, gvW_inj (w := m) (w' := m') (by grind), gvW_inj (w := teo) (w' := teo') (by grind), hL _ _ d d' i_d (by first | exact h.1 | exact h.2 | exact h.2.2 | exact h.1.2 | exact h.1.1.2) (by first | exact h'.1 | exact h'.2 | exact h'.2.2 | exact h'.1.2 | exact h'.1.1.2) (by grind)]
  · intro k w st i_w i_st n' h h' he
    have ht := hT h h' he
    cases n' <;> simp only [tag, reduceCtorEq, Tag.cop.injEq, Tag.predication.injEq, Tag.word.injEq, Tag.lu.injEq] at ht
    rename_i k' w' st'
    subst ht
    simp only [gv, GV.struct.injEq, GV.arr.injEq, GV.word.injEq, List.cons.injEq, true_and, and_true] at he
    simp only [wsIn, Bool.and_eq_true] at h h'
    simp only [bare, gvW_inj (w := w) (w' := w') (by grind), i_st st' (by grind) (by grind) (by grind)]
  · intro g a i_g i_a n' h h' he
    have ht := hT h h' he
    cases n' <;> simp only [tag, reduceCtorEq, Tag.cop.injEq, Tag.predication.injEq, Tag.word.injEq, Tag.lu.injEq] at ht
    rename_i g' a'
    simp only [gv, GV.struct.injEq, GV.arr.injEq, GV.word.injEq, List.cons.injEq, true_and, and_true] at he
    simp only [wsIn, Bool.and_eq_true] at h h'
    simp only [bare, gvW_inj (w := g) (w' := g') (by grind), i_a a' (by grind) (by grind) (by grind)]
  · intro ts i_ts n' h h' he
    have ht := hT h h' he
    cases n' <;> simp only [tag, reduceCtorEq, Tag.cop.injEq, Tag.predication.injEq, Tag.word.injEq, Tag.lu.injEq] at ht
    rename_i ts'
    simp only [gv, GV.struct.injEq, GV.arr.injEq, GV.word.injEq, List.cons.injEq, true_and, and_true] at he
    simp only [wsIn, Bool.and_eq_true] at h h'
    simp only [bare, hL _ _ ts ts' i_ts (by first | exact h.1 | exact h.2 | exact h.2.2 | exact h.1.2 | exact h.1.1.2) (by first | exact h'.1 | exact h'.2 | exact h'.2.2 | exact h'.1.2 | exact h'.1.1.2) (by grind)]
  · intro id focus quant p rel i_focus i_quant i_p i_rel n' h h' he
    have ht := hT h h' he
    cases n' <;> simp only [tag, reduceCtorEq, Tag.cop.injEq, Tag.predication.injEq, Tag.word.injEq, Tag.lu.injEq] at ht
    rename_i id' focus' quant' p' rel'
    simp only [gv, GV.struct.injEq, GV.arr.injEq, GV.word.injEq, List.cons.injEq, true_and, and_true] at he
    simp only [wsIn, Bool.and_eq_true] at h h'
    simp only [bare, gvWO_inj (o := focus) (o' := focus') (by grind), gvWO_inj (o := quant) (o' := quant') (by grind), i_p p' (by grind) (by grind) (by grind), hO _ _ rel rel' i_rel (by first | exact h.1 | exact h.2) (by first | exact h'.1 | exact h'.2) (by grind)]
  · intro p i_p n' h h' he
    have ht := hT h h' he
    cases n' <;> simp only [tag, reduceCtorEq, Tag.cop.injEq, Tag.predication.injEq, Tag.word.injEq, Tag.lu.injEq] at ht
    rename_i p'
    simp only [gv, GV.struct.injEq, GV.arr.injEq, GV.word.injEq, List.cons.injEq, true_and, and_true] at he
    simp only [wsIn, Bool.and_eq_true] at h h'
    simp only [bare, i_p p' (by grind) (by grind) (by grind)]
  · intro p a i_p i_a n' h h' he
    have ht := hT h h' he
    cases n' <;> simp only [tag, reduceCtorEq, Tag.cop.injEq, Tag.predication.injEq, Tag.word.injEq, Tag.lu.injEq] at ht
    rename_i p' a'
    simp only [gv, GV.struct.injEq, GV.arr.injEq, GV.word.injEq, List.cons.injEq, true_and, and_true] at he
    simp only [wsIn, Bool.and_eq_true] at h h'
    simp only [bare, i_p p' (by grind) (by grind) (by grind), i_a a' (by grind) (by grind) (by grind)]
  · intro kio ki d i_kio i_ki i_d n' h h' he
    have ht := hT h h' he
    cases n' <;> simp only [tag, reduceCtorEq, Tag.cop.injEq, Tag.predication.injEq, Tag.word.injEq, Tag.lu.injEq] at ht
    rename_i kio' ki' d'
    simp only [gv, GV.struct.injEq, GV.arr.injEq, GV.word.injEq, List.cons.injEq, true_and, and_true] at he
    simp only [wsIn, Bool.and_eq_true] at h h'
    simp only [bare, gvW_inj (w := kio) (w' := kio') (by grind), gvW_inj (w := ki) (w' := ki') (by grind), hL _ _ d d' i_d (by first | exact h.1 | exact h.2 | exact h.2.2 | exact h.1.2 | exact h.1.1.2) (by first | exact h'.1 | exact h'.2 | exact h'.2.2 | exact h'.1.2 | exact h'.1.1.2) (by grind)]
  · intro ju st i_ju i_st n' h h' he
    have ht := hT h h' he
    cases n' <;> simp only [tag, reduceCtorEq, Tag.cop.injEq, Tag.predication.injEq, Tag.word.injEq, Tag.lu.injEq] at ht
    rename_i ju' st'
    simp only [gv, GV.struct.injEq, GV.arr.injEq, GV.word.injEq, List.cons.injEq, true_and, and_true] at he
    simp only [wsIn, Bool.and_eq_true] at h h'
    simp only [bare, gvW_inj (w := ju) (w' := ju') (by grind), i_st st' (by grind) (by grind) (by grind)]
  · intro hu a i_hu i_a n' h h' he
    have ht := hT h h' he
    cases n' <;> simp only [tag, reduceCtorEq, Tag.cop.injEq, Tag.predication.injEq, Tag.word.injEq, Tag.lu.injEq] at ht
    rename_i hu' a'
    simp only [gv, GV.struct.injEq, GV.arr.injEq, GV.word.injEq, List.cons.injEq, true_and, and_true] at he
    simp only [wsIn, Bool.and_eq_true] at h h'
    simp only [bare, gvW_inj (w := hu) (w' := hu') (by grind), i_a a' (by grind) (by grind) (by grind)]

theorem gvW_bare (w : Word) : gvW (bareW w) = gvW w := rfl
theorem gvWO_bare (o : Option Word) : gvWO (o.map bareW) = gvWO o := by cases o <;> rfl

theorem gv_bare_aux : (∀ n, gv (bare n) = gv n) ∧ (∀ _ : Word, True) := by
  have hO : ∀ o : Option Node, (∀ x, o = some x → gv (bare x) = gv x) → gvO (bareO o) = gvO o := by
    intro o h; cases o with
    | none => rfl
    | some x => simp only [bareO, gvO, h x rfl]
  have hL : ∀ l : List Node, (∀ x ∈ l, gv (bare x) = gv x) → gvL (bareL l) = gvL l := by
    intro l; induction l with
    | nil => intro _; rfl
    | cons x l ih => intro h; simp only [bareL, gvL, h x (by simp), ih fun y hy => h y (by simp [hy])]
  have hTO : ∀ o : Option (List Node), (∀ l, o = some l → ∀ x ∈ l, gv (bare x) = gv x) → gvTO (bareTO o) = gvTO o := by
    intro o h; cases o with
    | none => rfl
    | some l => simp only [bareTO, gvTO, hL l (h l rfl)]
  apply Node.induct (P := fun n => gv (bare n) = gv n) (Q := fun _ => True)
  case hword => intros; trivial
  case predication =>
    intro k p ts na h1 h2 h3
    cases k <;> simp only [bare, gv, h1, hTO _ h2, gvWO_bare]
  case word => intros; rfl
  all_goals intros
  all_goals simp only [bare, gv, gvW_bare, gvWO_bare]
  all_goals simp_all

/-- The words in the fields of the node have no quotation marks. -/
def plainWords (n : Node) : Bool := (Parse.ownWords n).all fun w => !w.T.contains '"'

open Verif.Parse (accepts acceptsO)

/-- Nodes that are printed inside of a text. -/
def inner (t : Tag) : Bool := t != .word .space && t != .text
/-- Fields that have such nodes. -/
def innerS (s : Parse.Srt) : Bool := s != .space && s != .mod && s != .text

theorem not_space {s : Parse.Srt} {t : Tag} (h : accepts s t = true) (h1 : innerS s = true) : inner t = true := by
  simp only [inner, bne_iff_ne, ne_eq, Bool.and_eq_true]
  constructor <;> rintro rfl <;> revert h h1 <;> cases s <;> decide

theorem not_spaceO {o : Option Parse.Srt} {t : Tag} (h : acceptsO o t = true) (h1 : o.all innerS = true) : inner t = true := by
  cases o with
  | none => cases h
  | some s => exact not_space h h1

/-- Nodes inside of a text whose words have no quotation marks can be told apart. -/
def Shown (n : Node) : Prop := wsIn n = true → inner (tag n) = true → allN plainWords n = true → (gv n).wf = true

theorem wfW {w : Word} (h : '"' ∉ w.T) : (gvW w).wf = true := by simpa [gvW, GV.wf] using h
theorem wfWO {o : Option Word} (h : ∀ w ∈ o.toList, '"' ∉ w.T) : (gvWO o).wf = true := by
  cases o with
  | none => rfl
  | some w => exact wfW (h w (by simp))

theorem wfL_of {s : Parse.Srt} (hs : innerS s = true) : ∀ {l : List Node}, (∀ x ∈ l, Shown x) → wsL s l = true →
    allNL plainWords l = true → GV.wfL (gvL l) = true
  | [], _, _, _ => rfl
  | x :: l, h, h0, h' => by
    simp only [wsL, allNL, Bool.and_eq_true] at h0 h'
    simp only [gvL, GV.wfL, h x (by simp) h0.1.2 (not_space h0.1.1 hs) h'.1,
      wfL_of hs (fun y hy => h y (by simp [hy])) h0.2 h'.2, Bool.and_self]

theorem wf_aux : (∀ n, Shown n) ∧ (∀ _ : Word, True) := by
  have hO : ∀ (o : Option Node), (∀ x, o = some x → Shown x) → wsO .relative o = true → allNO plainWords o = true →
      (gvO o).wf = true := by
    intro o h h0 h'; cases o with
    | none => rfl
    | some x =>
      simp only [wsO, Bool.and_eq_true] at h0
      exact h x rfl h0.2 (not_space h0.1 (by decide)) h'
  have hL : ∀ (l : List Node), (∀ x ∈ l, Shown x) → wsL .elem l = true → allNL plainWords l = true → GV.wfL (gvL l) = true :=
    fun l => wfL_of (by decide)
  have hT : ∀ (l : List Node), (∀ x ∈ l, Shown x) → wsL .term l = true → allNL plainWords l = true → GV.wfL (gvL l) = true :=
    fun l => wfL_of (by decide)
  have hTO : ∀ o : Option (List Node), (∀ l, o = some l → ∀ x ∈ l, Shown x) →
      wsTO o = true → allNTO plainWords o = true → GV.wfL (gvTO o) = true := by
    intro o h h0 h'; cases o with
    | none => rfl
    | some l => simp only [wsTO, Bool.and_eq_true] at h0; exact hT l (h l rfl) h0.2 h'
  have hN : ∀ {s : Parse.Srt} {n : Node}, Shown n → innerS s = true → (accepts s (tag n) = true ∧ wsIn n = true) →
      allN plainWords n = true → (gv n).wf = true := fun h h1 h2 h3 => h h2.2 (not_space h2.1 h1) h3
  apply Node.induct (P := Shown) (Q := fun _ => True)
  case hword => intros; trivial
  case text => intro l d _ _ h0 h1 h; cases h1
  case discourse => intro d _ h0; simp [wsIn] at h0
  case prefixed => intro m p _ _ h0; simp [wsIn] at h0
  case word =>
    intro k w _ h0 h1 h
    simp only [allN, Bool.and_eq_true] at h
    have h := h.1
    cases k
    case space => cases h1
    all_goals simpa [plainWords, Parse.ownWords, gv, GV.wf] using h
  case predication =>
    intro k p ts na h1 h2 h3 h0 _ h
    simp only [wsIn, allN, Bool.and_eq_true, plainWords, Parse.ownWords, List.all_eq_true, Bool.not_eq_true', List.contains_eq_mem,
      decide_eq_false_iff_not] at h0 h
    have a1 := hN h1 (by decide) h0.1.1 h.2.1.1
    have a2 := hTO _ h2 h0.1.2 h.2.1.2
    have a3 := wfWO h.1
    cases k <;> simp [gv, GV.wf, GV.wfL, GT.fields, a1, a2, a3]
  case cop =>
    intro k to0 to1 ru l r h1 h2 h3 h4 h5 h0 _ h
    simp only [wsIn, allN, Bool.and_eq_true, plainWords, Parse.ownWords, List.all_eq_true, Bool.not_eq_true', List.contains_eq_mem,
      decide_eq_false_iff_not, List.mem_append, List.mem_singleton] at h0 h
    have a1 := wfWO (o := to0) fun w hw => h.1 w (.inl (.inl hw))
    have a2 := wfWO (o := to1) fun w hw => h.1 w (.inl (.inr hw))
    have a3 := wfW (w := ru) (h.1 _ (.inr rfl))
    have a4 := h4 h0.1.2.2 (not_spaceO h0.1.2.1 (by cases k <;> decide)) h.2.1.2
    have a5 := h5 h0.2.2 (not_spaceO h0.2.1 (by cases k <;> decide)) h.2.2
    cases k <;> simp [gv, copGT, GV.wf, GV.wfL, GT.fields, a1, a2, a3, a4, a5]
  case lu =>
    intro k w st h1 h2 h0 _ h
    simp only [wsIn, allN, Bool.and_eq_true, plainWords, Parse.ownWords, List.all_eq_true, Bool.not_eq_true', List.contains_eq_mem,
      decide_eq_false_iff_not, List.mem_singleton, forall_eq] at h0 h
    have a1 := wfW h.1
    have a2 := hN h2 (by decide) h0.2 h.2.2
    cases k <;> simp [gv, luGT, GV.wf, GV.wfL, GT.fields, a1, a2]
  case sentence =>
    intro je st da _ i_st _ h0 _ h
    simp only [wsIn, allN, Bool.and_eq_true, plainWords, List.all_eq_true, Bool.not_eq_true', List.contains_eq_mem,
      decide_eq_false_iff_not] at h0 h
    have a0 := wfWO (o := je) fun w hw => h.1 w (by simp [Parse.ownWords, hw])
    have a1 := hN (s := .statement) i_st (by decide) (by grind) (by grind)
    have a2 := wfWO (o := da) fun w hw => h.1 w (by simp [Parse.ownWords, hw])
    simp [gv, GV.wf, GV.wfL, GT.fields, a0, a1, a2]
  case prenex =>
    intro ts bi i_ts _ h0 _ h
    simp only [wsIn, allN, Bool.and_eq_true, plainWords, List.all_eq_true, Bool.not_eq_true', List.contains_eq_mem,
      decide_eq_false_iff_not] at h0 h
    have a0 := hT ts i_ts (by grind) (by grind)
    have a1 := wfW (w := bi) (h.1 _ (by simp [Parse.ownWords]))
    simp [gv, GV.wf, GV.wfL, GT.fields, a0, a1]
  case prenexStmt =>
    intro ts bi st i_ts _ i_st h0 _ h
    simp only [wsIn, allN, Bool.and_eq_true, plainWords, List.all_eq_true, Bool.not_eq_true', List.contains_eq_mem,
      decide_eq_false_iff_not] at h0 h
    have a0 := hT ts i_ts (by grind) (by grind)
    have a1 := wfW (w := bi) (h.1 _ (by simp [Parse.ownWords]))
    have a2 := hN (s := .statement) i_st (by decide) (by grind) (by grind)
    simp [gv, GV.wf, GV.wfL, GT.fields, a0, a1, a2]
  case serial =>
    intro l r i_l i_r h0 _ h
    simp only [wsIn, allN, Bool.and_eq_true, plainWords, List.all_eq_true, Bool.not_eq_true', List.contains_eq_mem,
      decide_eq_false_iff_not] at h0 h
    have a0 := hN (s := .predicateOrContent) i_l (by decide) (by grind) (by grind)
    have a1 := hN (s := .predicate) i_r (by decide) (by grind) (by grind)
    simp [gv, GV.wf, GV.wfL, GT.fields, a0, a1]
  case mi =>
    intro m ga ph _ _ i_ph h0 _ h
    simp only [wsIn, allN, Bool.and_eq_true, plainWords, List.all_eq_true, Bool.not_eq_true', List.contains_eq_mem,
      decide_eq_false_iff_not] at h0 h
    have a0 := wfW (w := m) (h.1 _ (by simp [Parse.ownWords]))
    have a1 := wfWO (o := ga) fun w hw => h.1 w (by simp [Parse.ownWords, hw])
    have a2 := hN (s := .phrase) i_ph (by decide) (by grind) (by grind)
    simp [gv, GV.wf, GV.wfL, GT.fields, a0, a1, a2]
  case po =>
    intro m ga a _ _ i_a h0 _ h
    simp only [wsIn, allN, Bool.and_eq_true, plainWords, List.all_eq_true, Bool.not_eq_true', List.contains_eq_mem,
      decide_eq_false_iff_not] at h0 h
    have a0 := wfW (w := m) (h.1 _ (by simp [Parse.ownWords]))
    have a1 := wfWO (o := ga) fun w hw => h.1 w (by simp [Parse.ownWords, hw])
    have a2 := hN (s := .argument) i_a (by decide) (by grind) (by grind)
    simp [gv, GV.wf, GV.wfL, GT.fields, a0, a1, a2]
  case mo =>
    intro m teo d _ _ i_d h0 _ h
    simp only [wsIn, allN, Bool.and_eq_true, plainWords, List.all_eq_true, Bool.not_eq_true', List.contains_eq_mem,
      decide_eq_false_iff_not] at h0 h
    have a0 := wfW (w := m) (h.1 _ (by simp [Parse.ownWords]))
    have a1 := wfW (w := teo) (h.1 _ (by simp [Parse.ownWords]))
    have a2 := hL d i_d (by grind) (by grind)
    simp [gv, GV.wf, GV.wfL, GT.fields, a0, a1, a2]
  case linked =>
    intro g a _ i_a h0 _ h
    simp only [wsIn, allN, Bool.and_eq_true, plainWords, List.all_eq_true, Bool.not_eq_true', List.contains_eq_mem,
      decide_eq_false_iff_not] at h0 h
    have a0 := wfW (w := g) (h.1 _ (by simp [Parse.ownWords]))
    have a1 := hN (s := .argument) i_a (by decide) (by grind) (by grind)
    simp [gv, GV.wf, GV.wfL, GT.fields, a0, a1]
  case terms =>
    intro ts i_ts h0 _ h
    simp only [wsIn, allN, Bool.and_eq_true, plainWords, List.all_eq_true, Bool.not_eq_true', List.contains_eq_mem,
      decide_eq_false_iff_not] at h0 h
    have a0 := hT ts i_ts (by grind) (by grind)
    simp [gv, GV.wf, GV.wfL, GT.fields, a0]
  case predArg =>
    intro id focus quant p rel _ _ i_p i_rel h0 _ h
    simp only [wsIn, allN, Bool.and_eq_true, plainWords, List.all_eq_true, Bool.not_eq_true', List.contains_eq_mem,
      decide_eq_false_iff_not] at h0 h
    have a0 := wfWO (o := focus) fun w hw => h.1 w (by simp [Parse.ownWords, hw])
    have a1 := wfWO (o := quant) fun w hw => h.1 w (by simp [Parse.ownWords, hw])
    have a2 := hN (s := .predicateOrContent) i_p (by decide) (by grind) (by grind)
    have a3 := hO rel i_rel (by grind) (by grind)
    simp [gv, GV.wf, GV.wfL, GT.fields, a0, a1, a2, a3]
  case predAdverb =>
    intro p i_p h0 _ h
    simp only [wsIn, allN, Bool.and_eq_true, plainWords, List.all_eq_true, Bool.not_eq_true', List.contains_eq_mem,
      decide_eq_false_iff_not] at h0 h
    have a0 := hN (s := .predicate) i_p (by decide) (by grind) (by grind)
    simp [gv, GV.wf, GV.wfL, GT.fields, a0]
  case prep =>
    intro p a i_p i_a h0 _ h
    simp only [wsIn, allN, Bool.and_eq_true, plainWords, List.all_eq_true, Bool.not_eq_true', List.contains_eq_mem,
      decide_eq_false_iff_not] at h0 h
    have a0 := hN (s := .predicate) i_p (by decide) (by grind) (by grind)
    have a1 := hN (s := .argument) i_a (by decide) (by grind) (by grind)
    simp [gv, GV.wf, GV.wfL, GT.fields, a0, a1]
  case paren =>
    intro kio ki d _ _ i_d h0 _ h
    simp only [wsIn, allN, Bool.and_eq_true, plainWords, List.all_eq_true, Bool.not_eq_true', List.contains_eq_mem,
      decide_eq_false_iff_not] at h0 h
    have a0 := wfW (w := kio) (h.1 _ (by simp [Parse.ownWords]))
    have a1 := wfW (w := ki) (h.1 _ (by simp [Parse.ownWords]))
    have a2 := hL d i_d (by grind) (by grind)
    simp [gv, GV.wf, GV.wfL, GT.fields, a0, a1, a2]
  case incidental =>
    intro ju st _ i_st h0 _ h
    simp only [wsIn, allN, Bool.and_eq_true, plainWords, List.all_eq_true, Bool.not_eq_true', List.contains_eq_mem,
      decide_eq_false_iff_not] at h0 h
    have a0 := wfW (w := ju) (h.1 _ (by simp [Parse.ownWords]))
    have a1 := hN (s := .statement) i_st (by decide) (by grind) (by grind)
    simp [gv, GV.wf, GV.wfL, GT.fields, a0, a1]
  case vocative =>
    intro hu a _ i_a h0 _ h
    simp only [wsIn, allN, Bool.and_eq_true, plainWords, List.all_eq_true, Bool.not_eq_true', List.contains_eq_mem,
      decide_eq_false_iff_not] at h0 h
    have a0 := wfW (w := hu) (h.1 _ (by simp [Parse.ownWords]))
    have a1 := hN (s := .argument) i_a (by decide) (by grind) (by grind)
    simp [gv, GV.wf, GV.wfL, GT.fields, a0, a1]

theorem text_key (a b : Str) : "Text".toList ++ '{' :: (indented ['\n'] ++ "Leading".toList ++ ": ".toList ++ a ++ (indented ['\n'] ++ "Discourse".toList ++ ": ".toList ++ b ++ [])) ++ ['\n'] ++ ['}'] = "Text{\n\tLeading: ".toList ++ (a ++
    (['\n', '\t'] ++ 'D' :: ("iscourse: ".toList ++ (b ++ ['\n', '}'])))) := by
  have e1 : "Text{\n\tLeading: ".toList = "Text".toList ++ '{' :: '\n' :: '\t' :: ("Leading".toList ++ ": ".toList) := by decide +kernel
  have e2 : "Discourse".toList = 'D' :: "iscourse".toList := by decide +kernel
  have e3 : "iscourse: ".toList = "iscourse".toList ++ ": ".toList := by decide +kernel
  rw [e1, e2, e3]
  generalize "Text".toList = x1
  generalize "Leading".toList = x2
  generalize "iscourse".toList = x3
  generalize ": ".toList = x4
  simp only [indented, List.append_assoc, List.cons_append, List.nil_append, List.append_nil]
theorem text_eq (x y : GV) : goPrint ['\n'] (.struct .Text [x, y]) = "Text{\n\tLeading: ".toList ++ (goPrint (indented ['\n']) x ++
    (['\n', '\t'] ++ 'D' :: ("iscourse: ".toList ++ (goPrint (indented ['\n']) y ++ ['\n', '}'])))) := by
  have := text_key (goPrint (indented ['\n']) x) (goPrint (indented ['\n']) y)
  rw [goPrint, GT.fields, goFields, goFields, goFields]
  · exact this
  · simp

theorem lead_key (t r : Str) : prettyWord .space t ++ (['\n', '\t'] ++ 'D' :: r) =
    'S' :: ("pace(\"".toList ++ ((t ++ ['"', ')', '\n', '\t']) ++ 'D' :: r)) := by
  have e : 'S' :: "pace(\"".toList = "Space".toList ++ ['(', '"'] := by decide +kernel
  have e1 : wordName .space = "Space".toList := rfl
  have e2 : wordEnd .space = [')'] := rfl
  rw [← List.cons_append, e, prettyWord_eq (by decide), e1, e2]
  generalize "Space".toList = x1
  simp only [List.append_assoc, List.cons_append, List.nil_append]

/-- The leading space and what follows can be told apart. -/
theorem lead_inj {l l' : Option Node} {ind r r' : Str} (h : ∀ x, l = some x → ∃ w, x = .word .space w ∧ 'D' ∉ w.T)
    (h' : ∀ x, l' = some x → ∃ w, x = .word .space w ∧ 'D' ∉ w.T)
    (he : goPrint ind (gvO l) ++ (['\n', '\t'] ++ 'D' :: r) = goPrint ind (gvO l') ++ (['\n', '\t'] ++ 'D' :: r')) :
    gvO l = gvO l' ∧ r = r' := by
  have hs : ∀ (w : Word) (r : Str), goPrint ind (gvO (some (.word .space w))) ++ (['\n', '\t'] ++ 'D' :: r) =
      'S' :: ("pace(\"".toList ++ ((w.T ++ ['"', ')', '\n', '\t']) ++ 'D' :: r)) := by
    intro w r
    rw [gvO, gv, goPrint]
    exact lead_key w.T r
  have hn : ∀ r, goPrint ind (gvO none) ++ r = 'n' :: 'i' :: 'l' :: r := by
    intro r
    rw [gvO, goPrint]
    rfl
  cases l with
  | none => cases l' with
    | none => rw [hn, hn] at he; exact ⟨rfl, by simpa using he⟩
    | some x' =>
      obtain ⟨w', rfl, _⟩ := h' x' rfl
      rw [hs, hn] at he
      cases he
  | some x =>
    obtain ⟨w, rfl, hw⟩ := h x rfl
    cases l' with
    | none =>
      rw [hs, hn] at he
      cases he
    | some x' =>
      obtain ⟨w', rfl, hw'⟩ := h' x' rfl
      rw [hs, hs] at he
      simp only [List.cons.injEq, true_and] at he
      have := split_at 'D' (by simpa using hw) (by simpa using hw') (List.append_cancel_left he)
      have h1 := List.append_cancel_right this.1
      exact ⟨by simp only [gvO, gv, h1], this.2⟩

/-- Two texts whose words have no quotation marks, and whose leading spaces have no letter D, are printed alike exactly if they are
equal without offsets, modifiers of words and identities of arguments. -/
theorem prettyString_inj {l l' : Option Node} {d d' : List Node} (hw : wsIn (.text l d) = true) (hw' : wsIn (.text l' d') = true)
    (h : allN plainWords (.text l d) = true) (h' : allN plainWords (.text l' d') = true)
    (hl : ∀ w, l = some (.word .space w) → 'D' ∉ w.T) (hl' : ∀ w, l' = some (.word .space w) → 'D' ∉ w.T) :
    prettyString (.text l d) = prettyString (.text l' d') ↔ bare (.text l d) = bare (.text l' d') := by
  constructor
  · intro he
    have hd : ∀ {l : Option Node} {d : List Node}, wsIn (.text l d) = true → allN plainWords (.text l d) = true →
        (GV.arr (gvL d)).wf = true := by
      intro l d hw h
      simp only [wsIn, allN, Bool.and_eq_true] at hw h
      exact wfL_of (by decide) (fun x _ => wf_aux.1 x) hw.2 h.2.2
    have hg : gv (.text l d) = gv (.text l' d') := by
      rw [prettyString, prettyString, gv, gv, text_eq, text_eq] at he
      have he := List.append_cancel_left he
      have hs : ∀ {l : Option Node} {d : List Node}, wsIn (.text l d) = true → (∀ w, l = some (.word .space w) → 'D' ∉ w.T) →
          ∀ x, l = some x → ∃ w, x = .word .space w ∧ 'D' ∉ w.T := by
        rintro l d hw hl x rfl
        simp only [wsIn, wsO, accepts, Bool.and_eq_true, beq_iff_eq] at hw
        cases x <;> simp only [tag, reduceCtorEq, false_and, Tag.word.injEq] at hw
        rename_i k w
        obtain rfl := hw.1.1
        exact ⟨w, rfl, hl w rfl⟩
      obtain ⟨h1, h2⟩ := lead_inj (hs hw hl) (hs hw' hl') he
      have h3 := goPrint_inj _ _ _ _ _ rfl (hd hw h) (hd hw' h') (List.append_cancel_left h2)
      rw [gv, gv, h1, h3.1]
    exact gv_inj_aux.1 _ _ hw hw' hg
  · intro he
    rw [prettyString, prettyString, ← gv_bare_aux.1 (.text l d), ← gv_bare_aux.1 (.text l' d'), he]

end Verif.AST
