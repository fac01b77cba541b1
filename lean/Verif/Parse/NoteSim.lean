/-
Two texts that write the same items are parsed alike.
-/
import Verif.Parse.NoteLeaf

namespace Verif.Parse.Notes
open Verif.AST Verif.Peg Verif.Parse
open Verif.Tone (Str)

variable {U : Uni} {s s' : Str} {is : List Item} {us us' : List Str}

local notation "Ok" => EvOk U toaq (Input.ofBytes (utf8 s)) (actAlg (Input.ofBytes (utf8 s)))
local notation "Fl" => EvFail U toaq (Input.ofBytes (utf8 s)) (actAlg (Input.ofBytes (utf8 s)))
local notation "Ok'" => EvOk U toaq (Input.ofBytes (utf8 s')) (actAlg (Input.ofBytes (utf8 s')))
local notation "Fl'" => EvFail U toaq (Input.ofBytes (utf8 s')) (actAlg (Input.ofBytes (utf8 s')))

/-- The rest of both texts writes the same items. -/
structure Both (U : Uni) (s s' : Str) (is : List Item) (us us' : List Str) : Prop where
  good : ∀ i ∈ is, i.Good U
  left : Exact is us
  right : Exact is us'
  suff : us.flatten <:+ s
  suff' : us'.flatten <:+ s'

theorem Both.tail {i : Item} {w w' : Str} (H : Both U s s' (i :: is) (w :: us) (w' :: us')) : Both U s s' is us us' where
  good j hj := H.good j (List.mem_cons_of_mem _ hj)
  left := by cases H.left; assumption
  right := by cases H.right; assumption
  suff := (List.suffix_append w us.flatten).trans H.suff
  suff' := (List.suffix_append w' us'.flatten).trans H.suff'

/-- Success on both texts, or failure on both. -/
def Alike (U : Uni) (s s' : Str) (e : Expr Act) (p p' : Nat) : Prop :=
  ((∃ q x, EvOk U toaq (Input.ofBytes (utf8 s)) (actAlg (Input.ofBytes (utf8 s))) e p q x) ∧
    (∃ q x, EvOk U toaq (Input.ofBytes (utf8 s')) (actAlg (Input.ofBytes (utf8 s'))) e p' q x)) ∨
  (EvFail U toaq (Input.ofBytes (utf8 s)) (actAlg (Input.ofBytes (utf8 s))) e p ∧
    EvFail U toaq (Input.ofBytes (utf8 s')) (actAlg (Input.ofBytes (utf8 s'))) e p')

/-- Likewise, with the same value, and the rest of both texts writes the same items. -/
def Matches (U : Uni) (s s' : Str) (e : Expr Act) (is : List Item) (us us' : List Str) : Prop :=
  (∃ is2 us2 us2' x, (∃ k, is2 = is.drop k ∧ us2 = us.drop k ∧ us2' = us'.drop k) ∧ (∀ L φ φ', SameVal L φ φ' x x) ∧
    EvOk U toaq (Input.ofBytes (utf8 s)) (actAlg (Input.ofBytes (utf8 s))) e (at' s us.flatten) (at' s us2.flatten) x ∧
    EvOk U toaq (Input.ofBytes (utf8 s')) (actAlg (Input.ofBytes (utf8 s'))) e (at' s' us'.flatten) (at' s' us2'.flatten) x) ∨
  (EvFail U toaq (Input.ofBytes (utf8 s)) (actAlg (Input.ofBytes (utf8 s))) e (at' s us.flatten) ∧
    EvFail U toaq (Input.ofBytes (utf8 s')) (actAlg (Input.ofBytes (utf8 s'))) e (at' s' us'.flatten))

/-- Either there is no syllable, or both texts start with the same. -/
theorem Both.cases (H : Both U s s' is us us') :
    (∀ τ o r is', is ≠ .syl τ o r :: is') ∨
    ∃ τ o r is2 m m' us2 us2', is = .syl τ o r :: is2 ∧ us = (o ++ m) :: us2 ∧ us' = (o ++ m') :: us2' ∧
      AtSyl U s τ o r m is2 us2 ∧ AtSyl U s' τ o r m' is2 us2' := by
  rcases H with ⟨hg, hl, hr, hs, hs'⟩
  cases hl with
  | nil => exact Or.inl nofun
  | @cons i is w ws hw hl =>
    cases hr with
    | @cons _ _ w' ws' hw' hr =>
      have g := hg i (List.mem_cons_self ..)
      cases i with
      | sep c => exact Or.inl nofun
      | syl τ o r =>
        simp only [Item.ways, List.mem_map] at hw hw'
        obtain ⟨m, hm, rfl⟩ := hw
        obtain ⟨m', hm', rfl⟩ := hw'
        refine Or.inr ⟨τ, o, r, is, m, m', ws, ws', rfl, rfl, rfl, ?_, ?_⟩
        · exact ⟨g, fun j hj => hg j (List.mem_cons_of_mem _ hj), hm, hl, by simpa using hs⟩
        · exact ⟨g, fun j hj => hg j (List.mem_cons_of_mem _ hj), hm', hr, by simpa using hs'⟩

theorem except_or {U : Uni} {τ : WTone} {r : Str} (g : (Item.syl τ ['m'] r).Good U) : moqOk (τ.rimeWays r) = true := by
  have := (row_ok (τ := τ) g.2.1).2
  rw [Bool.or_eq_true] at this
  rcases this with h | h
  · simp only [except, Bool.and_eq_true, decide_eq_true_eq] at h
    exact absurd ⟨h.1, rfl, h.2⟩ g.2.2
  · exact h

/-- The rules for particles. -/
theorem fw_alike (hP : Plain U) (hL : LettersNotPunct U) (H : Both U s s' is us us') {q : Nat} (hq : q ∈ fwRules) :
    Alike U s s' (.ref q) (at' s us.flatten) (at' s' us'.flatten) := by
  rcases H.cases with hi | ⟨τ, o, r, is2, m, m', us2, us2', rfl, rfl, rfl, A, A'⟩
  · exact Or.inr ⟨none_at hP hL H.left H.good H.suff hi (List.mem_append_left _ hq),
      none_at hP hL H.right H.good H.suff' hi (List.mem_append_left _ hq)⟩
  · have hA := A.around hP hL
    have hA' := A'.around hP hL
    simp only [List.flatten_cons]
    have fin : ∀ {b : Bool}, (prule after true 8 q (o ++ m)).ok? = some b → (prule after true 8 q (o ++ m')).ok? = some b →
        Alike U s s' (.ref q) (at' s (o ++ m ++ us2.flatten)) (at' s' (o ++ m' ++ us2'.flatten)) := by
      intro b h1 h2
      have k1 := prule_ok hA 8 q (o ++ m) (by simpa using A.suffix)
      have k2 := prule_ok hA' 8 q (o ++ m') (by simpa using A'.suffix)
      cases b with
      | true => exact Or.inl ⟨ok_of k1 h1, ok_of k2 h2⟩
      | false => exact Or.inr ⟨fail_of k1 h1, fail_of k2 h2⟩
    have := List.all_eq_true.1 (List.all_eq_true.1 fw_ok q hq) o A.good.1
    simp only [Bool.or_eq_true, Bool.and_eq_true, decide_eq_true_eq, List.contains_iff_mem] at this
    rcases this with (h | ⟨rfl, rfl⟩) | h
    · have hrow := (row_ok (τ := τ) A.good.2.1).1
      simp only [rowOk, Bool.and_eq_true] at hrow
      obtain ⟨b, h1, h2⟩ := agree_ok (List.all_eq_true.1 hrow.2 _ h) (List.mem_map_of_mem A.way) (List.mem_map_of_mem A'.way)
      exact fin h1 h2
    · have hm := except_or A.good
      simp only [moqOk, Bool.and_eq_true] at hm
      obtain ⟨b, h1, h2⟩ := agree_ok hm.2 (List.mem_map_of_mem A.way) (List.mem_map_of_mem A'.way)
      exact fin h1 h2
    · simp only [List.append_assoc]
      have B : Around U s (m ++ us2.flatten) [] false := ⟨hP, hL, fun _ _ => rfl, by intro h; cases h⟩
      have B' : Around U s' (m' ++ us2'.flatten) [] false := ⟨hP, hL, fun _ _ => rfl, by intro h; cases h⟩
      exact Or.inr ⟨fail_of (prule_ok B 8 q o A.suffix) h, fail_of (prule_ok B' 8 q o A'.suffix) h⟩

/-- Choices between the rules for particles. -/
def choices : Expr Act → Bool
  | .ref r => fwRules.contains r
  | .alt a b => choices a && choices b
  | _ => false

theorem choices_alike (hP : Plain U) (hL : LettersNotPunct U) (H : Both U s s' is us us') : ∀ e, choices e = true →
    Alike U s s' e (at' s us.flatten) (at' s' us'.flatten)
  | .ref r, h => fw_alike hP hL H (List.contains_iff_mem.1 h)
  | .alt a b, h => by
    simp only [choices, Bool.and_eq_true] at h
    rcases choices_alike hP hL H a h.1 with ⟨⟨q, x, h1⟩, ⟨q', x', h2⟩⟩ | ⟨h1, h2⟩
    · exact Or.inl ⟨⟨_, _, ok_alt1 h1⟩, ⟨_, _, ok_alt1 h2⟩⟩
    · rcases choices_alike hP hL H b h.2 with ⟨⟨q, x, h3⟩, ⟨q', x', h4⟩⟩ | ⟨h3, h4⟩
      · exact Or.inl ⟨⟨_, _, ok_alt2 h1 h3⟩, ⟨_, _, ok_alt2 h2 h4⟩⟩
      · exact Or.inr ⟨fail_alt h1 h3, fail_alt h2 h4⟩

theorem body_101 : choices (toaq.body 101) = true := by decide +kernel

theorem same_nil (L : List (Char × Char)) (φ φ' : Nat → Nat) : SameVal L φ φ' (.nil, []) (.nil, []) := ⟨rfl, rfl⟩
theorem same_str (t : Str) (L : List (Char × Char)) (φ φ' : Nat → Nat) : SameVal L φ φ' (.str t, []) (.str t, []) := ⟨rfl, rfl⟩
theorem same_lab (t t' : Str) (L : List (Char × Char)) (φ φ' : Nat → Nat) : SameVal L φ φ' (.str t, [.str t']) (.str t, [.str t']) := ⟨rfl, rfl⟩

/-- The rules for syllables. -/
theorem syl_matches (hP : Plain U) (hL : LettersNotPunct U) (H : Both U s s' is us us') {q : Nat} (hq : q ∈ sylRules) :
    Matches U s s' (.ref q) is us us' := by
  rcases H.cases with hi | ⟨τ, o, r, is2, m, m', us2, us2', rfl, rfl, rfl, A, A'⟩
  · exact Or.inr ⟨none_at hP hL H.left H.good H.suff hi (List.mem_append_right _ hq),
      none_at hP hL H.right H.good H.suff' hi (List.mem_append_right _ hq)⟩
  · have hrow := (row_ok (τ := τ) A.good.2.1).1
    simp only [rowOk, Bool.and_eq_true] at hrow
    obtain ⟨a, h1, h2⟩ := agree_ok (List.all_eq_true.1 hrow.1 _ hq) (List.mem_map_of_mem A.way) (List.mem_map_of_mem A'.way)
    have k1 := syl_at A hP hL hq h1
    have k2 := syl_at A' hP hL hq h2
    simp only [Matches, List.flatten_cons, List.append_assoc]
    cases a with
    | none => exact Or.inr ⟨k1, k2⟩
    | some t => exact Or.inl ⟨is2, us2, us2', _, ⟨1, rfl, rfl, rfl⟩, same_str _, k1, k2⟩

theorem ref_matches {q q' : Nat} (hb : toaq.body q = .ref q') (h : Matches U s s' (.ref q') is us us') : Matches U s s' (.ref q) is us us' := by
  rcases h with ⟨is2, us2, us2', x, hk, hx, h1, h2⟩ | ⟨h1, h2⟩
  · refine Or.inl ⟨is2, us2, us2', (x.1, []), hk, fun L φ φ' => ⟨(hx L φ φ').1, rfl⟩, ?_, ?_⟩
    · exact ok_ref (k := q) (by rw [hb]; exact h1)
    · exact ok_ref (k := q) (by rw [hb]; exact h2)
  · exact Or.inr ⟨fail_ref (by rw [hb]; exact h1), fail_ref (by rw [hb]; exact h2)⟩

/-- The particle moq. -/
theorem moq_matches (hP : Plain U) (hL : LettersNotPunct U) (H : Both U s s' is us us') : Matches U s s' moqExpr is us us' := by
  rcases H.cases with hi | ⟨τ, o, r, is2, m, m', us2, us2', rfl, rfl, rfl, A, A'⟩
  · refine Or.inr ⟨fail_seq1 (fail_and ?_), fail_seq1 (fail_and ?_)⟩
    · exact none_at hP hL H.left H.good H.suff hi (by decide)
    · exact none_at hP hL H.right H.good H.suff' hi (by decide)
  · by_cases ho : o = ['m']
    · subst ho
      have hm := except_or A.good
      simp only [moqOk, Bool.and_eq_true] at hm
      obtain ⟨a, h1, h2⟩ := agree_ok hm.1 (List.mem_map_of_mem A.way) (List.mem_map_of_mem A'.way)
      have hA := A.around hP hL
      have hA' := A'.around hP hL
      have k1 := lab_of (pev_ok hA (prule_ok hA 8) moqExpr ('m' :: m) (by simpa using A.suffix)) h1
      have k2 := lab_of (pev_ok hA' (prule_ok hA' 8) moqExpr ('m' :: m') (by simpa using A'.suffix)) h2
      cases a with
      | none => exact Or.inr ⟨k1, k2⟩
      | some t => exact Or.inl ⟨is2, us2, us2', _, ⟨1, rfl, rfl, rfl⟩, same_lab _ _, k1, k2⟩
    · have hfail : (prule [] false 8 104 o).ok? = some false := by
        have := List.all_eq_true.1 (List.all_eq_true.1 fw_ok 104 (by decide)) o A.good.1
        simp only [Bool.or_eq_true, Bool.and_eq_true, decide_eq_true_eq, List.contains_iff_mem] at this
        rcases this with (h | ⟨_, h⟩) | h
        · exfalso
          have : ∀ e ∈ fwPairs, e.1 ≠ 104 := by decide
          exact this _ h rfl
        · exact absurd h ho
        · exact h
      simp only [Matches, List.flatten_cons, List.append_assoc]
      have B : Around U s (m ++ us2.flatten) [] false := ⟨hP, hL, fun _ _ => rfl, by intro h; cases h⟩
      have B' : Around U s' (m' ++ us2'.flatten) [] false := ⟨hP, hL, fun _ _ => rfl, by intro h; cases h⟩
      exact Or.inr ⟨fail_seq1 (fail_and (fail_of (prule_ok B 8 104 o A.suffix) hfail)),
        fail_seq1 (fail_and (fail_of (prule_ok B' 8 104 o A'.suffix) hfail))⟩

/-- The end of the text. -/
theorem eof_at (hP : Plain U) (hL : LettersNotPunct U) (h : Exact is us) (hg : ∀ i ∈ is, i.Good U) (hs : us.flatten <:+ s) :
    match is with
    | [] => Ok (.ref 224) (at' s us.flatten) (at' s us.flatten) (.nil, [])
    | _ :: _ => Fl (.ref 224) (at' s us.flatten) := by
  cases h with
  | nil =>
    have h1 : Ok (toaq.body 224) (at' s []) (at' s []) (.nil, []) := by rw [body_224]; exact ok_not end_fails
    exact ok_ref h1
  | @cons i is w ws hw hr =>
    have hne : ∃ c t, (w :: ws).flatten = c :: t := by
      have g := hg i (List.mem_cons_self ..)
      cases i with
      | sep c =>
        simp only [Item.ways, List.mem_singleton] at hw
        subst hw
        exact ⟨c, ws.flatten, rfl⟩
      | syl τ o r =>
        simp only [Item.ways, List.mem_map] at hw
        obtain ⟨m, -, rfl⟩ := hw
        have ho := List.all_eq_true.1 onset_heads o g.1
        cases o with
        | nil => cases ho
        | cons d o => exact ⟨d, _, rfl⟩
    obtain ⟨c, t, he⟩ := hne
    have hb := (head_ok hP hL (.cons hw hr) hg (c := c) (by rw [he]; rfl)).2.2
    rw [he] at hs ⊢
    have : takes U .any c = 1 := by simp only [takes, ne_eq, hb, not_false_eq_true, if_true]
    exact fail_ref (by rw [body_224]; exact fail_not (ok_term (takes_at hs this)))

theorem leaf_matches (hP : Plain U) (hL : LettersNotPunct U) (H : Both U s s' is us us') {e : Expr Act} (he : lf e = true) :
    Matches U s s' e is us us' := by
  simp only [lf, Bool.or_eq_true, decide_eq_true_eq, List.contains_iff_mem, List.mem_map] at he
  rcases he with (((⟨q, hq, rfl⟩ | rfl) | rfl) | ⟨q, hq, rfl⟩) | rfl
  · rcases fw_alike hP hL H hq with ⟨⟨a, x, h1⟩, ⟨b, y, h2⟩⟩ | ⟨h1, h2⟩
    · exact Or.inl ⟨is, us, us', _, ⟨0, rfl, rfl, rfl⟩, same_nil, ok_and h1, ok_and h2⟩
    · exact Or.inr ⟨fail_and h1, fail_and h2⟩
  · rcases choices_alike hP hL H _ body_101 with ⟨⟨a, x, h1⟩, ⟨b, y, h2⟩⟩ | ⟨h1, h2⟩
    · exact Or.inr ⟨fail_not (ok_ref h1), fail_not (ok_ref h2)⟩
    · exact Or.inl ⟨is, us, us', _, ⟨0, rfl, rfl, rfl⟩, same_nil, ok_not (fail_ref h1), ok_not (fail_ref h2)⟩
  · exact moq_matches hP hL H
  · simp only [List.mem_cons, List.not_mem_nil, or_false] at hq
    rcases hq with rfl | rfl | rfl | rfl | rfl | rfl | rfl | rfl
    · exact syl_matches hP hL H (by decide)
    · exact ref_matches (q' := 293) (by decide +kernel) (syl_matches hP hL H (by decide))
    · exact ref_matches (q' := 294) (by decide +kernel) (syl_matches hP hL H (by decide))
    · exact ref_matches (q' := 295) (by decide +kernel) (syl_matches hP hL H (by decide))
    · exact ref_matches (q' := 296) (by decide +kernel) (syl_matches hP hL H (by decide))
    · exact ref_matches (q' := 297) (by decide +kernel) (syl_matches hP hL H (by decide))
    · exact ref_matches (q' := 298) (by decide +kernel) (syl_matches hP hL H (by decide))
    · exact ref_matches (q' := 299) (by decide +kernel) (syl_matches hP hL H (by decide))
  · have h1 := eof_at hP hL H.left H.good H.suff
    have h2 := eof_at hP hL H.right H.good H.suff'
    cases is with
    | nil => exact Or.inl ⟨[], us, us', _, ⟨0, rfl, rfl, rfl⟩, same_nil, h1, h2⟩
    | cons i is => exact Or.inr ⟨h1, h2⟩

end Verif.Parse.Notes
