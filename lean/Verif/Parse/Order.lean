/-
The order of the words of a syntax tree with parentheticals. The modifiers after a parenthetical are put
at the end of its text, before the particle `ki` that closes it, so that particle is not in its place.
Nothing here uses the parser.
-/
import Verif.Parse.Sort
import Verif.Parse.Spec

namespace Verif.Parse
open Verif.AST Verif.AST.Spec Verif.Peg

/-- Not a parenthetical. -/
def notParen : Node → Bool
  | .paren _ _ _ => false
  | _ => true
/-- There are no parentheticals. -/
def noPar (n : Node) : Bool := allN notParen n

/-- The particle that closes a parenthetical has no modifier, and ends after the particle that opens it starts. -/
def kiOk : Node → Bool
  | .paren kio ki _ => ki.M.isNone && decide (kio.S < ki.E)
  | _ => true

mutual
/-- The words of a node but for the particles that close parentheticals (and what is attached to them). -/
def opens : Node → List Tok
  | .text l d => opensO l ++ opensL d
  | .discourse d => opensL d
  | .sentence je st da => opensWO je ++ opens st ++ opensWO da
  | .cop _ to0 to1 ru l r => match to0 with
    | none => opens l ++ opensW ru ++ opens r
    | some t => opensW t ++ opensW ru ++ opens l ++ opensWO to1 ++ opens r
  | .prenex ts bi => opensL ts ++ opensW bi
  | .prenexStmt ts bi st => opensL ts ++ opensW bi ++ opens st
  | .predication _ p ts na => opens p ++ opensTO ts ++ opensWO na
  | .prefixed mu p => opensW mu ++ opens p
  | .serial l r => opens l ++ opens r
  | .word _ w => opensW w
  | .mi m ga ph => opensW m ++ opens ph ++ opensWO ga
  | .po m ga a => opensW m ++ opens a ++ opensWO ga
  | .mo m teo d => opensW m ++ opensL d ++ opensW teo
  | .lu _ l st => opensW l ++ opens st
  | .linked g a => opensW g ++ opens a
  | .terms ts => opensL ts
  | .predArg _ focus quant p rel => opensWO focus ++ opensWO quant ++ opens p ++ opensO rel
  | .predAdverb p => opens p
  | .prep p a => opens p ++ opens a
  | .paren kio _ d => opensW kio ++ opensL d
  | .incidental ju st => opensW ju ++ opens st
  | .vocative hu a => opensW hu ++ opens a
def opensW : Word → List Tok
  | .mk t s e m => ⟨t, s, e⟩ :: opensO m
def opensO : Option Node → List Tok
  | none => []
  | some n => opens n
def opensWO : Option Word → List Tok
  | none => []
  | some w => opensW w
def opensTO : Option (List Node) → List Tok
  | none => []
  | some l => opensL l
def opensL : List Node → List Tok
  | [] => []
  | n :: ns => opens n ++ opensL ns
end

/-- The words are in the order of the text, between `p` and `q`. -/
def Asc (p q : Nat) : List Tok → Prop
  | [] => p ≤ q
  | t :: l => p ≤ t.s ∧ t.s < t.e ∧ Asc t.e q l

/-- A token that is in no text. -/
def badTok : Tok := ⟨[], 1, 0⟩
def mark (kio ki : Word) : List Tok := if ki.M.isNone && decide (kio.S < ki.E) then [] else [badTok]

mutual
/-- Like `opens`, with a token that is in no text before a parenthetical that is not as `kiOk` says, and
for a connective phrase with only the second forethought marker. -/
def ord : Node → List Tok
  | .text l d => ordO l ++ ordL d
  | .discourse d => ordL d
  | .sentence je st da => ordWO je ++ ord st ++ ordWO da
  | .cop _ to0 to1 ru l r => match to0, to1 with
    | none, none => ord l ++ ordW ru ++ ord r
    | none, some _ => badTok :: ord r
    | some t, to1 => ordW t ++ ordW ru ++ ord l ++ ordWO to1 ++ ord r
  | .prenex ts bi => ordL ts ++ ordW bi
  | .prenexStmt ts bi st => ordL ts ++ ordW bi ++ ord st
  | .predication _ p ts na => ord p ++ ordTO ts ++ ordWO na
  | .prefixed mu p => ordW mu ++ ord p
  | .serial l r => ord l ++ ord r
  | .word _ w => ordW w
  | .mi m ga ph => ordW m ++ ord ph ++ ordWO ga
  | .po m ga a => ordW m ++ ord a ++ ordWO ga
  | .mo m teo d => ordW m ++ ordL d ++ ordW teo
  | .lu _ l st => ordW l ++ ord st
  | .linked g a => ordW g ++ ord a
  | .terms ts => ordL ts
  | .predArg _ focus quant p rel => ordWO focus ++ ordWO quant ++ ord p ++ ordO rel
  | .predAdverb p => ord p
  | .prep p a => ord p ++ ord a
  | .paren kio ki d => mark kio ki ++ (ordW kio ++ ordL d)
  | .incidental ju st => ordW ju ++ ord st
  | .vocative hu a => ordW hu ++ ord a
def ordW : Word → List Tok
  | .mk t s e m => ⟨t, s, e⟩ :: ordO m
def ordO : Option Node → List Tok
  | none => []
  | some n => ord n
def ordWO : Option Word → List Tok
  | none => []
  | some w => ordW w
def ordTO : Option (List Node) → List Tok
  | none => []
  | some l => ordL l
def ordL : List Node → List Tok
  | [] => []
  | n :: ns => ord n ++ ordL ns
end

/-! ### Ascending lists -/

theorem Asc.le : ∀ {l : List Tok} {p q : Nat}, Asc p q l → p ≤ q
  | [], _, _, h => h
  | _ :: l, _, _, h => by have := Asc.le h.2.2; have := h.1; have := h.2.1; omega

theorem Asc.app : ∀ {l l' : List Tok} {p m q : Nat}, Asc p m l → Asc m q l' → Asc p q (l ++ l')
  | [], l', p, m, q, h, h' => by
    have h : p ≤ m := h
    cases l' with
    | nil => exact Nat.le_trans h h'
    | cons a l' => exact ⟨Nat.le_trans h h'.1, h'.2⟩
  | a :: l, _, _, _, _, h, h' => ⟨h.1, h.2.1, h.2.2.app h'⟩

theorem Asc.left : ∀ {l l' : List Tok} {p q : Nat}, Asc p q (l ++ l') → Asc p q l
  | [], _, _, _, h => h.le
  | _ :: _, _, _, _, h => ⟨h.1, h.2.1, h.2.2.left⟩

theorem Asc.of_tiles : ∀ {l : List Tok} {p q : Nat}, Tiles p q l → Asc p q l
  | [], _, _, h => Nat.le_of_eq h
  | _ :: _, _, _, h => by
    obtain ⟨h1, h2, h3⟩ := h
    exact ⟨by omega, by omega, Asc.of_tiles h3⟩

theorem Asc.pairwise : ∀ {l : List Tok} {p q : Nat}, Asc p q l →
    l.Pairwise (fun x y => x.e ≤ y.s) ∧ ∀ t ∈ l, p ≤ t.s ∧ t.s < t.e ∧ t.e ≤ q
  | [], _, _, _ => by simp
  | a :: l, p, q, h => by
    obtain ⟨h1, h2, h3⟩ := h
    obtain ⟨h4, h5⟩ := h3.pairwise
    refine ⟨List.pairwise_cons.2 ⟨fun t ht => (h5 t ht).1, h4⟩, fun t ht => ?_⟩
    rcases List.mem_cons.1 ht with rfl | ht
    · exact ⟨h1, h2, h3.le⟩
    · have := h5 t ht; omega

theorem Asc.good {l : List Tok} {p q : Nat} (h : Asc p q l) : badTok ∉ l := by
  intro hb
  have := (h.pairwise.2 _ hb).2.1
  simp [badTok] at this

/-- Words that cover the text in some order and are in the order of the text cover it as they are. -/
theorem tiles_of_asc : ∀ {L l : List Tok} {p q p' q' : Nat}, L.Perm l → Tiles p q L → Asc p' q' l → Tiles p q l
  | [], l, _, _, _, _, hp, h, _ => by rw [hp.nil_eq] at h; exact h
  | a :: L, l, p, q, p', q', hp, h, ha => by
    cases l with
    | nil => exact absurd hp.symm.nil_eq (by simp)
    | cons b l =>
      have hab : a = b := by
        refine Classical.byContradiction fun hne => ?_
        have h1 : a ∈ l := by
          rcases List.mem_cons.1 (hp.mem_iff.1 (List.mem_cons_self ..)) with h | h
          · exact absurd h hne
          · exact h
        have h2 : b ∈ L := by
          rcases List.mem_cons.1 (hp.mem_iff.2 (List.mem_cons_self ..)) with h | h
          · exact absurd h.symm hne
          · exact h
        have h3 := (Asc.of_tiles h.2.2).pairwise.2 b h2
        have h4 := ha.2.2.pairwise.2 a h1
        omega
      subst hab
      exact ⟨h.1, h.2.1, tiles_of_asc (List.Perm.cons_inv hp) h.2.2 ha.2.2⟩

/-! ### Modifiers -/

theorem ord_mod_aux (m : Node) :
    (∀ n, modDefined n = true → ord (mod m n) = ord n ++ ord m) ∧
    (∀ w, modDefinedW w = true → ordW (modW m w) = ordW w ++ ord m) := by
  have hL : ∀ l : List Node, (∀ x ∈ l, modDefined x = true → ord (mod m x) = ord x ++ ord m) →
      lastDefined l = true → ordL (modLast m l) = ordL l ++ ord m := by
    intro l
    induction l with
    | nil => intro _ h; simp [lastDefined] at h
    | cons a l ih =>
      intro h hl
      cases l with
      | nil =>
        simp only [lastDefined] at hl
        simpa [ordL, modLast] using h a (by simp) hl
      | cons b l =>
        simp only [lastDefined] at hl
        have := ih (fun x hx => h x (by simp [hx])) hl
        simp only [ordL, modLast] at this ⊢
        rw [this]
        simp
  apply Node.induct
    (P := fun n => modDefined n = true → ord (mod m n) = ord n ++ ord m)
    (Q := fun w => modDefinedW w = true → ordW (modW m w) = ordW w ++ ord m)
  · intro t s e M hM h
    cases M with
    | none => simp [modW, modO, ordW, ordO]
    | some x =>
      have := hM x rfl (by simpa [modDefinedW, modDefinedO] using h)
      simp [modW, modO, ordW, ordO, this]
  case sentence =>
    intro je st da _ h2 h3 h
    cases da with
    | none => simp_all [modDefined, mod, ord, ordWO]
    | some w => simp_all [modDefined, mod, ord, ordWO]
  case cop =>
    intro k to0 to1 ru l r _ _ _ _ h5 h
    cases to0 <;> cases to1 <;> simp_all [modDefined, mod, ord]
  case predication =>
    intro k p ts na h1 h2 h3 h
    cases na with
    | some w => simp_all [modDefined, mod, ord, ordWO]
    | none =>
      cases ts with
      | some l =>
        simp only [modDefined] at h
        simp [mod, ord, ordTO, ordWO, hL l (h2 l rfl) h]
      | none => simp_all [modDefined, mod, ord, ordWO, ordTO]
  case mi => intro x ga ph _ h2 h3 h; cases ga <;> simp_all [modDefined, mod, ord, ordWO]
  case po => intro x ga ph _ h2 h3 h; cases ga <;> simp_all [modDefined, mod, ord, ordWO]
  case predArg =>
    intro id f q p rel _ _ h3 h4 h
    cases rel <;> simp_all [modDefined, mod, ord, ordO]
  case text => intro l d _ hd h; simp only [modDefined] at h; simp [mod, ord, hL d hd h]
  case discourse => intro d hd h; simp only [modDefined] at h; simp [mod, ord, hL d hd h]
  case terms => intro d hd h; simp only [modDefined] at h; simp [mod, ord, hL d hd h]
  case paren => intro kio ki d _ _ hd h; simp only [modDefined] at h; simp [mod, ord, hL d hd h]
  all_goals intros
  all_goals simp_all [modDefined, mod, ord]

/-! ### Without the token that is in no text -/

set_option linter.unusedSimpArgs false

theorem mark_good {kio ki : Word} (h : badTok ∉ mark kio ki) : mark kio ki = [] ∧ ki.M = none ∧ kio.S < ki.E := by
  unfold mark at h ⊢
  split
  · rename_i hc
    simp only [Bool.and_eq_true, Option.isNone_iff_eq_none, decide_eq_true_eq] at hc
    exact ⟨rfl, hc⟩
  · rename_i hc
    rw [if_neg hc] at h
    simp at h

mutual
theorem ord_opens : ∀ n : Node, badTok ∉ ord n → ord n = opens n
  | .text l d => by intro h; have := ord_opensO l; have := ord_opensL d; simp_all [ord, opens, ordW, opensW, ordO, opensO, ordWO, opensWO, ordTO, opensTO, ordL, opensL]
  | .discourse d => by intro h; have := ord_opensL d; simp_all [ord, opens, ordW, opensW, ordO, opensO, ordWO, opensWO, ordTO, opensTO, ordL, opensL]
  | .sentence je st da => by intro h; have := ord_opensWO je; have := ord_opens st; have := ord_opensWO da; simp_all [ord, opens, ordW, opensW, ordO, opensO, ordWO, opensWO, ordTO, opensTO, ordL, opensL]
  | .cop k to0 to1 ru l r => by
    intro h; have := ord_opens l; have := ord_opens r; have := ord_opensW ru; have := ord_opensWO to1
    cases to0 with
    | none => cases to1 <;> simp_all [ord, opens, ordW, opensW, ordO, opensO, ordWO, opensWO, ordTO, opensTO, ordL, opensL]
    | some t => have := ord_opensW t; simp_all [ord, opens, ordW, opensW, ordO, opensO, ordWO, opensWO, ordTO, opensTO, ordL, opensL]
  | .prenex ts bi => by intro h; have := ord_opensL ts; have := ord_opensW bi; simp_all [ord, opens, ordW, opensW, ordO, opensO, ordWO, opensWO, ordTO, opensTO, ordL, opensL]
  | .prenexStmt ts bi st => by intro h; have := ord_opensL ts; have := ord_opensW bi; have := ord_opens st; simp_all [ord, opens, ordW, opensW, ordO, opensO, ordWO, opensWO, ordTO, opensTO, ordL, opensL]
  | .predication k p ts na => by intro h; have := ord_opens p; have := ord_opensTO ts; have := ord_opensWO na; simp_all [ord, opens, ordW, opensW, ordO, opensO, ordWO, opensWO, ordTO, opensTO, ordL, opensL]
  | .prefixed mu p => by intro h; have := ord_opensW mu; have := ord_opens p; simp_all [ord, opens, ordW, opensW, ordO, opensO, ordWO, opensWO, ordTO, opensTO, ordL, opensL]
  | .serial l r => by intro h; have := ord_opens l; have := ord_opens r; simp_all [ord, opens, ordW, opensW, ordO, opensO, ordWO, opensWO, ordTO, opensTO, ordL, opensL]
  | .word k w => by intro h; have := ord_opensW w; simp_all [ord, opens, ordW, opensW, ordO, opensO, ordWO, opensWO, ordTO, opensTO, ordL, opensL]
  | .mi x ga ph => by intro h; have := ord_opensW x; have := ord_opens ph; have := ord_opensWO ga; simp_all [ord, opens, ordW, opensW, ordO, opensO, ordWO, opensWO, ordTO, opensTO, ordL, opensL]
  | .po x ga a => by intro h; have := ord_opensW x; have := ord_opens a; have := ord_opensWO ga; simp_all [ord, opens, ordW, opensW, ordO, opensO, ordWO, opensWO, ordTO, opensTO, ordL, opensL]
  | .mo x teo d => by intro h; have := ord_opensW x; have := ord_opensL d; have := ord_opensW teo; simp_all [ord, opens, ordW, opensW, ordO, opensO, ordWO, opensWO, ordTO, opensTO, ordL, opensL]
  | .lu k l st => by intro h; have := ord_opensW l; have := ord_opens st; simp_all [ord, opens, ordW, opensW, ordO, opensO, ordWO, opensWO, ordTO, opensTO, ordL, opensL]
  | .linked g a => by intro h; have := ord_opensW g; have := ord_opens a; simp_all [ord, opens, ordW, opensW, ordO, opensO, ordWO, opensWO, ordTO, opensTO, ordL, opensL]
  | .terms ts => by intro h; have := ord_opensL ts; simp_all [ord, opens, ordW, opensW, ordO, opensO, ordWO, opensWO, ordTO, opensTO, ordL, opensL]
  | .predArg id f q p rel => by intro h; have := ord_opensWO f; have := ord_opensWO q; have := ord_opens p; have := ord_opensO rel; simp_all [ord, opens, ordW, opensW, ordO, opensO, ordWO, opensWO, ordTO, opensTO, ordL, opensL]
  | .predAdverb p => by intro h; have := ord_opens p; simp_all [ord, opens, ordW, opensW, ordO, opensO, ordWO, opensWO, ordTO, opensTO, ordL, opensL]
  | .prep p a => by intro h; have := ord_opens p; have := ord_opens a; simp_all [ord, opens, ordW, opensW, ordO, opensO, ordWO, opensWO, ordTO, opensTO, ordL, opensL]
  | .incidental ju st => by intro h; have := ord_opensW ju; have := ord_opens st; simp_all [ord, opens, ordW, opensW, ordO, opensO, ordWO, opensWO, ordTO, opensTO, ordL, opensL]
  | .vocative hu a => by intro h; have := ord_opensW hu; have := ord_opens a; simp_all [ord, opens, ordW, opensW, ordO, opensO, ordWO, opensWO, ordTO, opensTO, ordL, opensL]
  | .paren kio ki d => by
    intro h
    have := ord_opensW kio; have := ord_opensL d
    simp only [ord, List.mem_append, not_or] at h
    have := mark_good h.1
    simp_all [ord, opens]
theorem ord_opensW : ∀ w : Word, badTok ∉ ordW w → ordW w = opensW w
  | .mk t s e m => by intro h; have := ord_opensO m; simp_all [ord, opens, ordW, opensW, ordO, opensO, ordWO, opensWO, ordTO, opensTO, ordL, opensL]
theorem ord_opensO : ∀ o : Option Node, badTok ∉ ordO o → ordO o = opensO o
  | none => by intro h; simp_all [ord, opens, ordW, opensW, ordO, opensO, ordWO, opensWO, ordTO, opensTO, ordL, opensL]
  | some n => by intro h; have := ord_opens n; simp_all [ord, opens, ordW, opensW, ordO, opensO, ordWO, opensWO, ordTO, opensTO, ordL, opensL]
theorem ord_opensWO : ∀ o : Option Word, badTok ∉ ordWO o → ordWO o = opensWO o
  | none => by intro h; simp_all [ord, opens, ordW, opensW, ordO, opensO, ordWO, opensWO, ordTO, opensTO, ordL, opensL]
  | some n => by intro h; have := ord_opensW n; simp_all [ord, opens, ordW, opensW, ordO, opensO, ordWO, opensWO, ordTO, opensTO, ordL, opensL]
theorem ord_opensTO : ∀ o : Option (List Node), badTok ∉ ordTO o → ordTO o = opensTO o
  | none => by intro h; simp_all [ord, opens, ordW, opensW, ordO, opensO, ordWO, opensWO, ordTO, opensTO, ordL, opensL]
  | some n => by intro h; have := ord_opensL n; simp_all [ord, opens, ordW, opensW, ordO, opensO, ordWO, opensWO, ordTO, opensTO, ordL, opensL]
theorem ord_opensL : ∀ l : List Node, badTok ∉ ordL l → ordL l = opensL l
  | [] => by intro h; simp_all [ord, opens, ordW, opensW, ordO, opensO, ordWO, opensWO, ordTO, opensTO, ordL, opensL]
  | n :: ns => by intro h; have := ord_opens n; have := ord_opensL ns; simp_all [ord, opens, ordW, opensW, ordO, opensO, ordWO, opensWO, ordTO, opensTO, ordL, opensL]
end

mutual
theorem opens_words : ∀ n : Node, allN notParen n = true → opens n = words n
  | .text l d => by intro h; have := opens_wordsO l; have := opens_wordsL d; simp_all [opens, words, opensW, wordsW, opensO, wordsO, opensWO, wordsWO, opensTO, wordsTO, opensL, wordsL, allN, allNW, allNO, allNWO, allNTO, allNL]
  | .discourse d => by intro h; have := opens_wordsL d; simp_all [opens, words, opensW, wordsW, opensO, wordsO, opensWO, wordsWO, opensTO, wordsTO, opensL, wordsL, allN, allNW, allNO, allNWO, allNTO, allNL]
  | .sentence je st da => by intro h; have := opens_wordsWO je; have := opens_words st; have := opens_wordsWO da; simp_all [opens, words, opensW, wordsW, opensO, wordsO, opensWO, wordsWO, opensTO, wordsTO, opensL, wordsL, allN, allNW, allNO, allNWO, allNTO, allNL]
  | .cop k to0 to1 ru l r => by
    intro h; have := opens_words l; have := opens_words r; have := opens_wordsW ru; have := opens_wordsWO to1
    cases to0 with
    | none => simp_all [opens, words, opensW, wordsW, opensO, wordsO, opensWO, wordsWO, opensTO, wordsTO, opensL, wordsL, allN, allNW, allNO, allNWO, allNTO, allNL]
    | some t => have := opens_wordsW t; simp_all [opens, words, opensW, wordsW, opensO, wordsO, opensWO, wordsWO, opensTO, wordsTO, opensL, wordsL, allN, allNW, allNO, allNWO, allNTO, allNL]
  | .prenex ts bi => by intro h; have := opens_wordsL ts; have := opens_wordsW bi; simp_all [opens, words, opensW, wordsW, opensO, wordsO, opensWO, wordsWO, opensTO, wordsTO, opensL, wordsL, allN, allNW, allNO, allNWO, allNTO, allNL]
  | .prenexStmt ts bi st => by intro h; have := opens_wordsL ts; have := opens_wordsW bi; have := opens_words st; simp_all [opens, words, opensW, wordsW, opensO, wordsO, opensWO, wordsWO, opensTO, wordsTO, opensL, wordsL, allN, allNW, allNO, allNWO, allNTO, allNL]
  | .predication k p ts na => by intro h; have := opens_words p; have := opens_wordsTO ts; have := opens_wordsWO na; simp_all [opens, words, opensW, wordsW, opensO, wordsO, opensWO, wordsWO, opensTO, wordsTO, opensL, wordsL, allN, allNW, allNO, allNWO, allNTO, allNL]
  | .prefixed mu p => by intro h; have := opens_wordsW mu; have := opens_words p; simp_all [opens, words, opensW, wordsW, opensO, wordsO, opensWO, wordsWO, opensTO, wordsTO, opensL, wordsL, allN, allNW, allNO, allNWO, allNTO, allNL]
  | .serial l r => by intro h; have := opens_words l; have := opens_words r; simp_all [opens, words, opensW, wordsW, opensO, wordsO, opensWO, wordsWO, opensTO, wordsTO, opensL, wordsL, allN, allNW, allNO, allNWO, allNTO, allNL]
  | .word k w => by intro h; have := opens_wordsW w; simp_all [opens, words, opensW, wordsW, opensO, wordsO, opensWO, wordsWO, opensTO, wordsTO, opensL, wordsL, allN, allNW, allNO, allNWO, allNTO, allNL]
  | .mi x ga ph => by intro h; have := opens_wordsW x; have := opens_words ph; have := opens_wordsWO ga; simp_all [opens, words, opensW, wordsW, opensO, wordsO, opensWO, wordsWO, opensTO, wordsTO, opensL, wordsL, allN, allNW, allNO, allNWO, allNTO, allNL]
  | .po x ga a => by intro h; have := opens_wordsW x; have := opens_words a; have := opens_wordsWO ga; simp_all [opens, words, opensW, wordsW, opensO, wordsO, opensWO, wordsWO, opensTO, wordsTO, opensL, wordsL, allN, allNW, allNO, allNWO, allNTO, allNL]
  | .mo x teo d => by intro h; have := opens_wordsW x; have := opens_wordsL d; have := opens_wordsW teo; simp_all [opens, words, opensW, wordsW, opensO, wordsO, opensWO, wordsWO, opensTO, wordsTO, opensL, wordsL, allN, allNW, allNO, allNWO, allNTO, allNL]
  | .lu k l st => by intro h; have := opens_wordsW l; have := opens_words st; simp_all [opens, words, opensW, wordsW, opensO, wordsO, opensWO, wordsWO, opensTO, wordsTO, opensL, wordsL, allN, allNW, allNO, allNWO, allNTO, allNL]
  | .linked g a => by intro h; have := opens_wordsW g; have := opens_words a; simp_all [opens, words, opensW, wordsW, opensO, wordsO, opensWO, wordsWO, opensTO, wordsTO, opensL, wordsL, allN, allNW, allNO, allNWO, allNTO, allNL]
  | .terms ts => by intro h; have := opens_wordsL ts; simp_all [opens, words, opensW, wordsW, opensO, wordsO, opensWO, wordsWO, opensTO, wordsTO, opensL, wordsL, allN, allNW, allNO, allNWO, allNTO, allNL]
  | .predArg id f q p rel => by intro h; have := opens_wordsWO f; have := opens_wordsWO q; have := opens_words p; have := opens_wordsO rel; simp_all [opens, words, opensW, wordsW, opensO, wordsO, opensWO, wordsWO, opensTO, wordsTO, opensL, wordsL, allN, allNW, allNO, allNWO, allNTO, allNL]
  | .predAdverb p => by intro h; have := opens_words p; simp_all [opens, words, opensW, wordsW, opensO, wordsO, opensWO, wordsWO, opensTO, wordsTO, opensL, wordsL, allN, allNW, allNO, allNWO, allNTO, allNL]
  | .prep p a => by intro h; have := opens_words p; have := opens_words a; simp_all [opens, words, opensW, wordsW, opensO, wordsO, opensWO, wordsWO, opensTO, wordsTO, opensL, wordsL, allN, allNW, allNO, allNWO, allNTO, allNL]
  | .incidental ju st => by intro h; have := opens_wordsW ju; have := opens_words st; simp_all [opens, words, opensW, wordsW, opensO, wordsO, opensWO, wordsWO, opensTO, wordsTO, opensL, wordsL, allN, allNW, allNO, allNWO, allNTO, allNL]
  | .vocative hu a => by intro h; have := opens_wordsW hu; have := opens_words a; simp_all [opens, words, opensW, wordsW, opensO, wordsO, opensWO, wordsWO, opensTO, wordsTO, opensL, wordsL, allN, allNW, allNO, allNWO, allNTO, allNL]
  | .paren kio ki d => by intro h; simp [allN, notParen] at h
theorem opens_wordsW : ∀ w : Word, allNW notParen w = true → opensW w = wordsW w
  | .mk t s e m => by intro h; have := opens_wordsO m; simp_all [opens, words, opensW, wordsW, opensO, wordsO, opensWO, wordsWO, opensTO, wordsTO, opensL, wordsL, allN, allNW, allNO, allNWO, allNTO, allNL]
theorem opens_wordsO : ∀ o : Option Node, allNO notParen o = true → opensO o = wordsO o
  | none => by intro h; simp_all [opens, words, opensW, wordsW, opensO, wordsO, opensWO, wordsWO, opensTO, wordsTO, opensL, wordsL, allN, allNW, allNO, allNWO, allNTO, allNL]
  | some n => by intro h; have := opens_words n; simp_all [opens, words, opensW, wordsW, opensO, wordsO, opensWO, wordsWO, opensTO, wordsTO, opensL, wordsL, allN, allNW, allNO, allNWO, allNTO, allNL]
theorem opens_wordsWO : ∀ o : Option Word, allNWO notParen o = true → opensWO o = wordsWO o
  | none => by intro h; simp_all [opens, words, opensW, wordsW, opensO, wordsO, opensWO, wordsWO, opensTO, wordsTO, opensL, wordsL, allN, allNW, allNO, allNWO, allNTO, allNL]
  | some n => by intro h; have := opens_wordsW n; simp_all [opens, words, opensW, wordsW, opensO, wordsO, opensWO, wordsWO, opensTO, wordsTO, opensL, wordsL, allN, allNW, allNO, allNWO, allNTO, allNL]
theorem opens_wordsTO : ∀ o : Option (List Node), allNTO notParen o = true → opensTO o = wordsTO o
  | none => by intro h; simp_all [opens, words, opensW, wordsW, opensO, wordsO, opensWO, wordsWO, opensTO, wordsTO, opensL, wordsL, allN, allNW, allNO, allNWO, allNTO, allNL]
  | some n => by intro h; have := opens_wordsL n; simp_all [opens, words, opensW, wordsW, opensO, wordsO, opensWO, wordsWO, opensTO, wordsTO, opensL, wordsL, allN, allNW, allNO, allNWO, allNTO, allNL]
theorem opens_wordsL : ∀ l : List Node, allNL notParen l = true → opensL l = wordsL l
  | [] => by intro h; simp_all [opens, words, opensW, wordsW, opensO, wordsO, opensWO, wordsWO, opensTO, wordsTO, opensL, wordsL, allN, allNW, allNO, allNWO, allNTO, allNL]
  | n :: ns => by intro h; have := opens_words n; have := opens_wordsL ns; simp_all [opens, words, opensW, wordsW, opensO, wordsO, opensWO, wordsWO, opensTO, wordsTO, opensL, wordsL, allN, allNW, allNO, allNWO, allNTO, allNL]
end

mutual
theorem ord_kiOk : ∀ n : Node, badTok ∉ ord n → allN kiOk n = true
  | .text l d => by intro h; have := ord_kiOkO l; have := ord_kiOkL d; simp_all [ord, ordW, ordO, ordWO, ordTO, ordL, allN, allNW, allNO, allNWO, allNTO, allNL, kiOk]
  | .discourse d => by intro h; have := ord_kiOkL d; simp_all [ord, ordW, ordO, ordWO, ordTO, ordL, allN, allNW, allNO, allNWO, allNTO, allNL, kiOk]
  | .sentence je st da => by intro h; have := ord_kiOkWO je; have := ord_kiOk st; have := ord_kiOkWO da; simp_all [ord, ordW, ordO, ordWO, ordTO, ordL, allN, allNW, allNO, allNWO, allNTO, allNL, kiOk]
  | .cop k to0 to1 ru l r => by
    intro h; have := ord_kiOk l; have := ord_kiOk r; have := ord_kiOkW ru; have := ord_kiOkWO to1
    cases to0 with
    | none => cases to1 <;> simp_all [ord, ordW, ordO, ordWO, ordTO, ordL, allN, allNW, allNO, allNWO, allNTO, allNL, kiOk]
    | some t => have := ord_kiOkW t; simp_all [ord, ordW, ordO, ordWO, ordTO, ordL, allN, allNW, allNO, allNWO, allNTO, allNL, kiOk]
  | .prenex ts bi => by intro h; have := ord_kiOkL ts; have := ord_kiOkW bi; simp_all [ord, ordW, ordO, ordWO, ordTO, ordL, allN, allNW, allNO, allNWO, allNTO, allNL, kiOk]
  | .prenexStmt ts bi st => by intro h; have := ord_kiOkL ts; have := ord_kiOkW bi; have := ord_kiOk st; simp_all [ord, ordW, ordO, ordWO, ordTO, ordL, allN, allNW, allNO, allNWO, allNTO, allNL, kiOk]
  | .predication k p ts na => by intro h; have := ord_kiOk p; have := ord_kiOkTO ts; have := ord_kiOkWO na; simp_all [ord, ordW, ordO, ordWO, ordTO, ordL, allN, allNW, allNO, allNWO, allNTO, allNL, kiOk]
  | .prefixed mu p => by intro h; have := ord_kiOkW mu; have := ord_kiOk p; simp_all [ord, ordW, ordO, ordWO, ordTO, ordL, allN, allNW, allNO, allNWO, allNTO, allNL, kiOk]
  | .serial l r => by intro h; have := ord_kiOk l; have := ord_kiOk r; simp_all [ord, ordW, ordO, ordWO, ordTO, ordL, allN, allNW, allNO, allNWO, allNTO, allNL, kiOk]
  | .word k w => by intro h; have := ord_kiOkW w; simp_all [ord, ordW, ordO, ordWO, ordTO, ordL, allN, allNW, allNO, allNWO, allNTO, allNL, kiOk]
  | .mi x ga ph => by intro h; have := ord_kiOkW x; have := ord_kiOk ph; have := ord_kiOkWO ga; simp_all [ord, ordW, ordO, ordWO, ordTO, ordL, allN, allNW, allNO, allNWO, allNTO, allNL, kiOk]
  | .po x ga a => by intro h; have := ord_kiOkW x; have := ord_kiOk a; have := ord_kiOkWO ga; simp_all [ord, ordW, ordO, ordWO, ordTO, ordL, allN, allNW, allNO, allNWO, allNTO, allNL, kiOk]
  | .mo x teo d => by intro h; have := ord_kiOkW x; have := ord_kiOkL d; have := ord_kiOkW teo; simp_all [ord, ordW, ordO, ordWO, ordTO, ordL, allN, allNW, allNO, allNWO, allNTO, allNL, kiOk]
  | .lu k l st => by intro h; have := ord_kiOkW l; have := ord_kiOk st; simp_all [ord, ordW, ordO, ordWO, ordTO, ordL, allN, allNW, allNO, allNWO, allNTO, allNL, kiOk]
  | .linked g a => by intro h; have := ord_kiOkW g; have := ord_kiOk a; simp_all [ord, ordW, ordO, ordWO, ordTO, ordL, allN, allNW, allNO, allNWO, allNTO, allNL, kiOk]
  | .terms ts => by intro h; have := ord_kiOkL ts; simp_all [ord, ordW, ordO, ordWO, ordTO, ordL, allN, allNW, allNO, allNWO, allNTO, allNL, kiOk]
  | .predArg id f q p rel => by intro h; have := ord_kiOkWO f; have := ord_kiOkWO q; have := ord_kiOk p; have := ord_kiOkO rel; simp_all [ord, ordW, ordO, ordWO, ordTO, ordL, allN, allNW, allNO, allNWO, allNTO, allNL, kiOk]
  | .predAdverb p => by intro h; have := ord_kiOk p; simp_all [ord, ordW, ordO, ordWO, ordTO, ordL, allN, allNW, allNO, allNWO, allNTO, allNL, kiOk]
  | .prep p a => by intro h; have := ord_kiOk p; have := ord_kiOk a; simp_all [ord, ordW, ordO, ordWO, ordTO, ordL, allN, allNW, allNO, allNWO, allNTO, allNL, kiOk]
  | .incidental ju st => by intro h; have := ord_kiOkW ju; have := ord_kiOk st; simp_all [ord, ordW, ordO, ordWO, ordTO, ordL, allN, allNW, allNO, allNWO, allNTO, allNL, kiOk]
  | .vocative hu a => by intro h; have := ord_kiOkW hu; have := ord_kiOk a; simp_all [ord, ordW, ordO, ordWO, ordTO, ordL, allN, allNW, allNO, allNWO, allNTO, allNL, kiOk]
  | .paren kio ki d => by
    intro h
    have := ord_kiOkW kio; have := ord_kiOkL d
    simp only [ord, List.mem_append, not_or] at h
    have hm := mark_good h.1
    obtain ⟨t, s, e, m⟩ := ki
    have : m = none := hm.2.1
    subst this
    simp_all [allN, allNW, allNO, kiOk]
theorem ord_kiOkW : ∀ w : Word, badTok ∉ ordW w → allNW kiOk w = true
  | .mk t s e m => by intro h; have := ord_kiOkO m; simp_all [ord, ordW, ordO, ordWO, ordTO, ordL, allN, allNW, allNO, allNWO, allNTO, allNL, kiOk]
theorem ord_kiOkO : ∀ o : Option Node, badTok ∉ ordO o → allNO kiOk o = true
  | none => by intro h; simp_all [ord, ordW, ordO, ordWO, ordTO, ordL, allN, allNW, allNO, allNWO, allNTO, allNL, kiOk]
  | some n => by intro h; have := ord_kiOk n; simp_all [ord, ordW, ordO, ordWO, ordTO, ordL, allN, allNW, allNO, allNWO, allNTO, allNL, kiOk]
theorem ord_kiOkWO : ∀ o : Option Word, badTok ∉ ordWO o → allNWO kiOk o = true
  | none => by intro h; simp_all [ord, ordW, ordO, ordWO, ordTO, ordL, allN, allNW, allNO, allNWO, allNTO, allNL, kiOk]
  | some n => by intro h; have := ord_kiOkW n; simp_all [ord, ordW, ordO, ordWO, ordTO, ordL, allN, allNW, allNO, allNWO, allNTO, allNL, kiOk]
theorem ord_kiOkTO : ∀ o : Option (List Node), badTok ∉ ordTO o → allNTO kiOk o = true
  | none => by intro h; simp_all [ord, ordW, ordO, ordWO, ordTO, ordL, allN, allNW, allNO, allNWO, allNTO, allNL, kiOk]
  | some n => by intro h; have := ord_kiOkL n; simp_all [ord, ordW, ordO, ordWO, ordTO, ordL, allN, allNW, allNO, allNWO, allNTO, allNL, kiOk]
theorem ord_kiOkL : ∀ l : List Node, badTok ∉ ordL l → allNL kiOk l = true
  | [] => by intro h; simp_all [ord, ordW, ordO, ordWO, ordTO, ordL, allN, allNW, allNO, allNWO, allNTO, allNL, kiOk]
  | n :: ns => by intro h; have := ord_kiOk n; have := ord_kiOkL ns; simp_all [ord, ordW, ordO, ordWO, ordTO, ordL, allN, allNW, allNO, allNWO, allNTO, allNL, kiOk]
end

mutual
theorem ord_head : ∀ n : Node, badTok ∉ ord n → (ord n).head? = (words n).head?
  | .text l d => by intro h; have := ord_headO l; have := ord_headL d; simp_all [ord, words, ordW, wordsW, ordO, wordsO, ordWO, wordsWO, ordTO, wordsTO, ordL, wordsL, List.head?_append]
  | .discourse d => by intro h; have := ord_headL d; simp_all [ord, words, ordW, wordsW, ordO, wordsO, ordWO, wordsWO, ordTO, wordsTO, ordL, wordsL, List.head?_append]
  | .sentence je st da => by intro h; have := ord_headWO je; have := ord_head st; have := ord_headWO da; simp_all [ord, words, ordW, wordsW, ordO, wordsO, ordWO, wordsWO, ordTO, wordsTO, ordL, wordsL, List.head?_append]
  | .cop k to0 to1 ru l r => by
    intro h; have := ord_head l; have := ord_head r; have := ord_headW ru; have := ord_headWO to1
    cases to0 with
    | none => cases to1 <;> simp_all [ord, words, ordW, wordsW, ordO, wordsO, ordWO, wordsWO, ordTO, wordsTO, ordL, wordsL, List.head?_append]
    | some t => have := ord_headW t; simp_all [ord, words, ordW, wordsW, ordO, wordsO, ordWO, wordsWO, ordTO, wordsTO, ordL, wordsL, List.head?_append]
  | .prenex ts bi => by intro h; have := ord_headL ts; have := ord_headW bi; simp_all [ord, words, ordW, wordsW, ordO, wordsO, ordWO, wordsWO, ordTO, wordsTO, ordL, wordsL, List.head?_append]
  | .prenexStmt ts bi st => by intro h; have := ord_headL ts; have := ord_headW bi; have := ord_head st; simp_all [ord, words, ordW, wordsW, ordO, wordsO, ordWO, wordsWO, ordTO, wordsTO, ordL, wordsL, List.head?_append]
  | .predication k p ts na => by intro h; have := ord_head p; have := ord_headTO ts; have := ord_headWO na; simp_all [ord, words, ordW, wordsW, ordO, wordsO, ordWO, wordsWO, ordTO, wordsTO, ordL, wordsL, List.head?_append]
  | .prefixed mu p => by intro h; have := ord_headW mu; have := ord_head p; simp_all [ord, words, ordW, wordsW, ordO, wordsO, ordWO, wordsWO, ordTO, wordsTO, ordL, wordsL, List.head?_append]
  | .serial l r => by intro h; have := ord_head l; have := ord_head r; simp_all [ord, words, ordW, wordsW, ordO, wordsO, ordWO, wordsWO, ordTO, wordsTO, ordL, wordsL, List.head?_append]
  | .word k w => by intro h; have := ord_headW w; simp_all [ord, words, ordW, wordsW, ordO, wordsO, ordWO, wordsWO, ordTO, wordsTO, ordL, wordsL, List.head?_append]
  | .mi x ga ph => by intro h; have := ord_headW x; have := ord_head ph; have := ord_headWO ga; simp_all [ord, words, ordW, wordsW, ordO, wordsO, ordWO, wordsWO, ordTO, wordsTO, ordL, wordsL, List.head?_append]
  | .po x ga a => by intro h; have := ord_headW x; have := ord_head a; have := ord_headWO ga; simp_all [ord, words, ordW, wordsW, ordO, wordsO, ordWO, wordsWO, ordTO, wordsTO, ordL, wordsL, List.head?_append]
  | .mo x teo d => by intro h; have := ord_headW x; have := ord_headL d; have := ord_headW teo; simp_all [ord, words, ordW, wordsW, ordO, wordsO, ordWO, wordsWO, ordTO, wordsTO, ordL, wordsL, List.head?_append]
  | .lu k l st => by intro h; have := ord_headW l; have := ord_head st; simp_all [ord, words, ordW, wordsW, ordO, wordsO, ordWO, wordsWO, ordTO, wordsTO, ordL, wordsL, List.head?_append]
  | .linked g a => by intro h; have := ord_headW g; have := ord_head a; simp_all [ord, words, ordW, wordsW, ordO, wordsO, ordWO, wordsWO, ordTO, wordsTO, ordL, wordsL, List.head?_append]
  | .terms ts => by intro h; have := ord_headL ts; simp_all [ord, words, ordW, wordsW, ordO, wordsO, ordWO, wordsWO, ordTO, wordsTO, ordL, wordsL, List.head?_append]
  | .predArg id f q p rel => by intro h; have := ord_headWO f; have := ord_headWO q; have := ord_head p; have := ord_headO rel; simp_all [ord, words, ordW, wordsW, ordO, wordsO, ordWO, wordsWO, ordTO, wordsTO, ordL, wordsL, List.head?_append]
  | .predAdverb p => by intro h; have := ord_head p; simp_all [ord, words, ordW, wordsW, ordO, wordsO, ordWO, wordsWO, ordTO, wordsTO, ordL, wordsL, List.head?_append]
  | .prep p a => by intro h; have := ord_head p; have := ord_head a; simp_all [ord, words, ordW, wordsW, ordO, wordsO, ordWO, wordsWO, ordTO, wordsTO, ordL, wordsL, List.head?_append]
  | .incidental ju st => by intro h; have := ord_headW ju; have := ord_head st; simp_all [ord, words, ordW, wordsW, ordO, wordsO, ordWO, wordsWO, ordTO, wordsTO, ordL, wordsL, List.head?_append]
  | .vocative hu a => by intro h; have := ord_headW hu; have := ord_head a; simp_all [ord, words, ordW, wordsW, ordO, wordsO, ordWO, wordsWO, ordTO, wordsTO, ordL, wordsL, List.head?_append]
  | .paren (.mk t s e m) ki d => by
    intro h
    simp only [ord, List.mem_append, not_or] at h
    have := mark_good h.1
    simp_all [ord, words, ordW, wordsW]
theorem ord_headW : ∀ w : Word, badTok ∉ ordW w → (ordW w).head? = (wordsW w).head?
  | .mk t s e m => by intro h; have := ord_headO m; simp_all [ord, words, ordW, wordsW, ordO, wordsO, ordWO, wordsWO, ordTO, wordsTO, ordL, wordsL, List.head?_append]
theorem ord_headO : ∀ o : Option Node, badTok ∉ ordO o → (ordO o).head? = (wordsO o).head?
  | none => by intro h; simp_all [ord, words, ordW, wordsW, ordO, wordsO, ordWO, wordsWO, ordTO, wordsTO, ordL, wordsL, List.head?_append]
  | some n => by intro h; have := ord_head n; simp_all [ord, words, ordW, wordsW, ordO, wordsO, ordWO, wordsWO, ordTO, wordsTO, ordL, wordsL, List.head?_append]
theorem ord_headWO : ∀ o : Option Word, badTok ∉ ordWO o → (ordWO o).head? = (wordsWO o).head?
  | none => by intro h; simp_all [ord, words, ordW, wordsW, ordO, wordsO, ordWO, wordsWO, ordTO, wordsTO, ordL, wordsL, List.head?_append]
  | some n => by intro h; have := ord_headW n; simp_all [ord, words, ordW, wordsW, ordO, wordsO, ordWO, wordsWO, ordTO, wordsTO, ordL, wordsL, List.head?_append]
theorem ord_headTO : ∀ o : Option (List Node), badTok ∉ ordTO o → (ordTO o).head? = (wordsTO o).head?
  | none => by intro h; simp_all [ord, words, ordW, wordsW, ordO, wordsO, ordWO, wordsWO, ordTO, wordsTO, ordL, wordsL, List.head?_append]
  | some n => by intro h; have := ord_headL n; simp_all [ord, words, ordW, wordsW, ordO, wordsO, ordWO, wordsWO, ordTO, wordsTO, ordL, wordsL, List.head?_append]
theorem ord_headL : ∀ l : List Node, badTok ∉ ordL l → (ordL l).head? = (wordsL l).head?
  | [] => by intro h; simp_all [ord, words, ordW, wordsW, ordO, wordsO, ordWO, wordsWO, ordTO, wordsTO, ordL, wordsL, List.head?_append]
  | n :: ns => by intro h; have := ord_head n; have := ord_headL ns; simp_all [ord, words, ordW, wordsW, ordO, wordsO, ordWO, wordsWO, ordTO, wordsTO, ordL, wordsL, List.head?_append]
end

end Verif.Parse
