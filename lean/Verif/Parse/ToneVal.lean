/-
The texts of syllables: every value of a rule for syllables is a syllable of the tone of the rule.
-/
import Verif.Parse.ToneSpec
import Verif.Parse.WordVal
import Verif.Parse.SpellProps

namespace Verif.Parse.Tones
open Verif.AST Verif.AST.Spec Verif.Peg Verif.Parse Verif.Parse.WordLang Verif.Parse.WordVal
open Verif.Tone (Str)

variable {U : Uni} {I : Input}

local notation "fold" => foldBy spellPairs

/-- Union of two lists. -/
def union : List Str → List Str → List Str
  | [], b => b
  | x :: a, b => if b.contains x then union a b else x :: union a b

theorem mem_union {x : Str} : ∀ {a b : List Str}, x ∈ union a b ↔ x ∈ a ∨ x ∈ b
  | [], b => by simp [union]
  | y :: a, b => by
    rw [union]
    split
    · rename_i h
      rw [mem_union]
      simp only [List.contains_iff_mem] at h
      simp only [List.mem_cons]
      constructor
      · rintro (h | h) <;> simp [h]
      · rintro ((rfl | h') | h')
        · exact .inr h
        · exact .inl h'
        · exact .inr h'
    · simp only [List.mem_cons, mem_union, or_assoc]

/-- The standard spellings of the strings that an expression returns. -/
def strs : Nat → Expr Act → Option (List Str)
  | 0, _ => none
  | m+1, e => match e with
    | .term (.cls cs) => some (cs.foldr (fun c l => union [[fold c]] l) [])
    | .term (.lit c) => some [[fold c]]
    | .ref r => strs m (toaq.body r)
    | .seq a (.and _) => strs m a
    | .seq a b => match strs m a, strs m b with
      | some l, some l' => some (l.flatMap fun s => l'.map fun s' => s ++ s')
      | _, _ => none
    | .alt a b => match strs m a, strs m b with
      | some l, some l' => some (union l l')
      | _, _ => none
    | .lab a => strs m a
    | .grp a => strs m a
    | .act .dotless (.lab a) => strs m a
    | .act (.diacritic d) (.seq (.lab a) _) => match strs m a with
      | some l => some (l.filterMap fun s => match s with
        | [c] => (Verif.Tone.diacritic0 d c).map fun c => [c]
        | _ => none)
      | none => none
    | .act .addTone (.seq (.lab a) (.lab b)) => match strs m a, strs m b with
      | some l, some l' => some (l'.flatMap fun s' => match s' with
        | [] => []
        | d :: _ => l.filterMap fun s => addToneTo d s)
      | _, _ => none
    | _ => none

/-- A string of one of the standard spellings. -/
def InL (l : List Str) (v : Val) : Prop := ∃ s, v = .str s ∧ s.map fold ∈ l

theorem fold_fold (c : Char) : fold (fold c) = fold c :=
  fold_ind spellPairs_ok (Q := fun _ c' => fold c' = c') (by decide +kernel)
    (fun c h => fold_rest c h) c

theorem mem_cls {cs : List Char} {c : Char} (h : c ∈ cs) :
    [fold c] ∈ cs.foldr (fun c l => union [[fold c]] l) [] := by
  induction cs with
  | nil => cases h
  | cons a cs ih =>
    simp only [List.foldr_cons, mem_union, List.mem_singleton]
    rcases List.mem_cons.1 h with rfl | h
    · exact .inl rfl
    · exact .inr (ih h)

theorem strs_ok : ∀ m e n p q x l, strs m e = some l → ev U toaq I (actAlg I) n e p = some (.ok q x) →
    InL l x.1 := by
  intro m
  induction m with
  | zero => intro e n p q x l hv; simp [strs] at hv
  | succ m ih =>
    intro e n p q x l hv he
    cases n with
    | zero => rw [ev_0] at he; cases he
    | succ n =>
    unfold strs at hv
    split at hv
    · rename_i cs
      injection hv with hv
      subst hv
      obtain ⟨ht, rfl⟩ := ev_term he
      obtain ⟨c, w, _, h2, h3, _⟩ := tm_cls (.inl rfl) ht
      exact ⟨[c], by simp [actAlg, h2], mem_cls h3⟩
    · rename_i c
      injection hv with hv
      subst hv
      obtain ⟨ht, rfl⟩ := ev_term he
      obtain ⟨c', w, _, h2, h3, _⟩ := tm_cls (.inr ⟨_, rfl, rfl⟩) ht
      simp only [List.mem_singleton] at h3
      subst h3
      exact ⟨[c'], by simp [actAlg, h2], by simp⟩
    · obtain ⟨y, hy, rfl⟩ := ev_ref he
      exact ih _ _ _ _ y _ hv hy
    · obtain ⟨k, y, z, hy, hz, rfl⟩ := ev_seq he
      cases n with
      | zero => rw [ev_0] at hz; cases hz
      | succ n =>
      obtain ⟨_, rfl, _⟩ := ev_and hz
      have := ih _ _ _ _ _ _ hv hy
      simp only [actAlg, cat_nil]
      exact this
    · split at hv
      · rename_i l1 l2 ha hb
        injection hv with hv
        subst hv
        obtain ⟨k, y, z, hy, hz, rfl⟩ := ev_seq he
        obtain ⟨s, h1, h2⟩ := ih _ _ _ _ _ _ ha hy
        obtain ⟨s', h3, h4⟩ := ih _ _ _ _ _ _ hb hz
        refine ⟨s ++ s', by simp [actAlg, h1, h3, cat], ?_⟩
        simp only [List.map_append, List.mem_flatMap, List.mem_map]
        exact ⟨_, h2, _, h4, rfl⟩
      · cases hv
    · split at hv
      · rename_i l1 l2 ha hb
        injection hv with hv
        subst hv
        rcases ev_alt he with he | he
        · obtain ⟨s, h1, h2⟩ := ih _ _ _ _ _ _ ha he
          exact ⟨s, h1, mem_union.2 (.inl h2)⟩
        · obtain ⟨s, h1, h2⟩ := ih _ _ _ _ _ _ hb he
          exact ⟨s, h1, mem_union.2 (.inr h2)⟩
      · cases hv
    · obtain ⟨y, hy, rfl⟩ := ev_lab he
      exact ih _ _ _ _ y _ hv hy
    · obtain ⟨y, hy, rfl⟩ := ev_grp he
      exact ih _ _ _ _ _ _ hv hy
    · obtain ⟨y, hy, hr⟩ := ev_act he
      cases n with
      | zero => rw [ev_0] at hy; cases hy
      | succ n =>
      obtain ⟨z, hz, rfl⟩ := ev_lab hy
      obtain ⟨s, hc, h2⟩ := ih _ _ _ _ _ _ hv hz
      simp only [actAlg, hc, runAct, Val.asStr] at hr
      injection hr with hr
      subst hr
      refine ⟨_, rfl, ?_⟩
      split
      · rename_i hs
        subst hs
        exact h2
      · exact h2
    · split at hv
      · rename_i l1 ha
        injection hv with hv
        subst hv
        obtain ⟨y, hy, hr⟩ := ev_act he
        cases n with
        | zero => rw [ev_0] at hy; cases hy
        | succ n =>
        obtain ⟨k, y1, y2, hy1, hy2, rfl⟩ := ev_seq hy
        cases n with
        | zero => rw [ev_0] at hy1; cases hy1
        | succ n =>
        obtain ⟨z, hz, rfl⟩ := ev_lab hy1
        obtain ⟨s, hc, h2⟩ := ih _ _ _ _ _ _ ha hz
        simp only [actAlg, hc, runAct, List.cons_append, List.nil_append] at hr
        split at hr
        · rename_i v hv
          injection hr with hr
          subst hr
          generalize y2.2 = l at hv
          cases l with
          | nil =>
            simp only [Val.asStr] at hv
            split at hv
            · rename_i c' hc'
              injection hc' with hc'
              subst hc'
              split at hv
              · rename_i d hd
                injection hv with hv
                subst hv
                refine ⟨_, rfl, List.mem_filterMap.2 ⟨_, h2, ?_⟩⟩
                simp [diacritic0_fold spellPairs_ok, hd]
              · cases hv
            · cases hv
            · cases hv
          | cons a l => simp at hv
        · cases hr
      · cases hv
    · split at hv
      · rename_i l1 l2 ha hb
        injection hv with hv
        subst hv
        obtain ⟨y, hy, hr⟩ := ev_act he
        cases n with
        | zero => rw [ev_0] at hy; cases hy
        | succ n =>
        obtain ⟨k, y1, y2, hy1, hy2, rfl⟩ := ev_seq hy
        cases n with
        | zero => rw [ev_0] at hy1; cases hy1
        | succ n =>
        obtain ⟨z1, hz1, rfl⟩ := ev_lab hy1
        obtain ⟨z2, hz2, rfl⟩ := ev_lab hy2
        obtain ⟨s, hc, h3⟩ := ih _ _ _ _ _ _ ha hz1
        obtain ⟨s', hd, h5⟩ := ih _ _ _ _ _ _ hb hz2
        simp only [actAlg, hc, hd, runAct, List.cons_append, List.nil_append, Val.asStr] at hr
        cases s' with
        | nil => simp at hr
        | cons d s' =>
        cases s with
        | nil => simp [addToneTo] at hr
        | cons c s =>
        simp only [addToneTo] at hr
        split at hr
        · rename_i v hv
          injection hr with hr
          subst hr
          split at hv
          · rename_i u hu
            injection hv with hv
            subst hv
            simp only [Option.map_eq_some_iff] at hu
            obtain ⟨c', hc', rfl⟩ := hu
            refine ⟨_, rfl, List.mem_flatMap.2 ⟨_, h5, ?_⟩⟩
            simp only [List.map_cons]
            refine List.mem_filterMap.2 ⟨_, h3, ?_⟩
            simp [addToneTo, diacritic0_tone spellPairs_ok, diacritic0_fold spellPairs_ok, hc']
          · cases hv
        · cases hr
      · cases hv
    · cases hv

/-- The values of the expression are syllables of the tone. -/
def isSyl (τ : WTone) : Nat → Expr Act → Bool
  | 0, _ => false
  | m+1, e => match e with
    | .ref r => isSyl τ m (toaq.body r)
    | .grp a => isSyl τ m a
    | .seq a b => match strs m a, strs m b with
      | some l, some l' => l.all (fun o => onsets.contains o) &&
        l'.all (fun r => (rimes.map fun r => τ.syllable [] r).contains r)
      | _, _ => false
    | _ => false

theorem syllable_append (τ : WTone) (o r : Str) : o ++ τ.syllable [] r = τ.syllable o r := by
  cases r <;> simp [WTone.syllable]

theorem isSyl_ok {τ : WTone} : ∀ {m e n p q x}, isSyl τ m e = true →
    ev U toaq I (actAlg I) n e p = some (.ok q x) → ∃ s, x.1 = .str s ∧ Syllable τ s := by
  intro m
  induction m with
  | zero => intro e n p q x h; simp [isSyl] at h
  | succ m ih =>
    intro e n p q x h he
    cases n with
    | zero => rw [ev_0] at he; cases he
    | succ n =>
    unfold isSyl at h
    split at h
    · obtain ⟨y, hy, rfl⟩ := ev_ref he
      exact ih (x := y) h hy
    · obtain ⟨y, hy, rfl⟩ := ev_grp he
      exact ih h hy
    · split at h
      · rename_i l l' ha hb
        simp only [Bool.and_eq_true, List.all_eq_true, List.contains_iff_mem, List.mem_map] at h
        obtain ⟨k, y, z, hy, hz, rfl⟩ := ev_seq he
        obtain ⟨s, h1, h2⟩ := strs_ok _ _ _ _ _ _ _ ha hy
        obtain ⟨s', h3, h4⟩ := strs_ok _ _ _ _ _ _ _ hb hz
        obtain ⟨r, hr, e⟩ := h.2 _ h4
        refine ⟨s ++ s', by simp [actAlg, h1, h3, cat], _, h.1 _ h2, r, hr, ?_⟩
        rw [← syllable_append, e, List.map_append]
      · cases h
    · cases h

/-- The tones of the rules for syllables. -/
def sylTone : Nat → Option WTone
  | 123 => some .plain | 124 => some .plain | 125 => some .macron | 126 => some .acute | 127 => some .caron
  | 128 => some .hook | 129 => some .circumflex | 130 => some .grave | 131 => some .tilde | _ => none

theorem syl_table : (List.range 403).all (fun r => match sylTone r with
    | some τ => isSyl τ 90 (bodies.get r)
    | none => true) = true := by decide +kernel

theorem syl_ok {r : Nat} {τ : WTone} (h : sylTone r = some τ) {n p q x}
    (hx : ev U toaq I (actAlg I) n (toaq.body r) p = some (.ok q x)) : ∃ s, x.1 = .str s ∧ Syllable τ s := by
  have hr : r < 403 := by
    unfold sylTone at h
    split at h <;> first | omega | cases h
  have := List.all_eq_true.1 syl_table r (List.mem_range.2 hr)
  rw [h] at this
  exact isSyl_ok this hx

end Verif.Parse.Tones
