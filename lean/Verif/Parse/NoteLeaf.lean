/-
Texts that write the same syllables and separators are treated alike by the rules for syllables,
particles and separators.
-/
import Verif.Parse.NoteTab1
import Verif.Parse.NoteTab2
import Verif.Parse.NoteTab3
import Verif.Parse.NoteTab4
import Verif.Peg.Leaves

namespace Verif.Parse.Notes
open Verif.AST Verif.Peg Verif.Parse
open Verif.Tone (Str)

/-! ### Tables -/

theorem tone_ok (τ : WTone) : toneOk τ = true := by
  cases τ
  · exact plain_ok
  · exact macron_ok
  · exact acute_ok
  · exact caron_ok
  · exact hook_ok
  · exact circumflex_ok
  · exact grave_ok
  · exact tilde_ok

theorem row_ok {τ : WTone} {r : Str} (hr : r ∈ rimes) : rowOk (τ.rimeWays r) = true ∧ (except τ r || moqOk (τ.rimeWays r)) = true := by
  have h := tone_ok τ
  unfold toneOk at h
  rw [wins_ok, List.all_eq_true] at h
  have hm : (r, τ.rimeWays r) ∈ rimes.zip (rimes.map τ.rimeWays) := by
    generalize rimes = l at hr
    induction l with
    | nil => cases hr
    | cons a l ih =>
      rcases List.mem_cons.1 hr with rfl | hr
      · simp
      · exact List.mem_cons_of_mem _ (ih hr)
  have := h _ hm
  rwa [Bool.and_eq_true] at this

theorem heads_ok : ∀ τ, ((rimes.map (WTone.rimeWays τ)).all fun ws => ws.all fun m => match m with
    | [] => false
    | c :: _ => !['h', 'H'].contains c) = true := by
  intro τ; rw [← wins_ok]; cases τ <;> decide +kernel

theorem initial_ok : (onsets.all fun o => decide ((prule ['h', 'H'] false 8 133 o).str? = some (some o))) = true := by decide +kernel
theorem bound_ok : (onsets.all fun o => decide ((prule ['h', 'H'] false 8 132 o).ok? = some true)) = true := by decide +kernel
theorem fw_ok : (fwRules.all fun r => onsets.all fun o => fwPairs.contains (r, o) || (decide (r = 104) && decide (o = ['m'])) ||
    decide ((prule [] false 8 r o).ok? = some false)) = true := by decide +kernel
theorem none_ok : ((fwRules ++ sylRules).all fun r => decide ((prule starts false 8 r []).ok? = some false)) = true := by decide +kernel
theorem initial_none : (prule starts false 8 133 []).ok? = some false := by decide +kernel
theorem tone_none : (prule markChars false 8 142 []).ok? = some false := by decide +kernel
theorem onset_heads : (onsets.all fun o => match o with
    | [] => false
    | c :: _ => starts.contains c && !after.contains c && !markChars.contains c && !decide (c = bad) && np c) = true := by decide +kernel
theorem after_marks : (after.all fun c => markChars.contains c || (np c && !"\t\n\r .,:!?".toList.contains c)) = true := by decide +kernel
theorem starts_np : (starts.all fun c => np c && !"\t\n\r .,:!?".toList.contains c) = true := by decide +kernel
theorem syl_bodies : (sylRules.all fun r => decide (toaq.body r = .seq (.ref 133) (tailOf r))) = true := by decide +kernel

/-! ### Texts of items -/

/-- The pieces write the items, one by one, in standard spelling. -/
inductive Exact : List Item → List Str → Prop
  | nil : Exact [] []
  | cons {i is w ws} : w ∈ i.ways → Exact is ws → Exact (i :: is) (w :: ws)

theorem Exact.length {is : List Item} {us : List Str} (h : Exact is us) : us.length = is.length := by
  induction h with
  | nil => rfl
  | cons _ _ ih => simp [ih]

variable {U : Uni} {s : Str}

/-- How a text of items starts. -/
theorem head_ok (hP : Plain U) (hL : LettersNotPunct U) {is : List Item} {us : List Str} (h : Exact is us) (hg : ∀ i ∈ is, i.Good U) {c : Char}
    (hc : us.flatten.head? = some c) : after.contains c = false ∧ markChars.contains c = false ∧ c ≠ bad := by
  cases h with
  | nil => cases hc
  | @cons i is w ws hw _ =>
    have g := hg i (List.mem_cons_self ..)
    cases i with
    | syl τ o r =>
      simp only [Item.ways, List.mem_map] at hw
      obtain ⟨m, -, rfl⟩ := hw
      have ho := List.all_eq_true.1 onset_heads o g.1
      cases o with
      | nil => cases ho
      | cons d o =>
        simp only [Bool.and_eq_true, Bool.not_eq_true', decide_eq_false_iff_not] at ho
        simp only [List.flatten_cons, List.cons_append, List.head?_cons, Option.some.injEq] at hc
        subst hc
        exact ⟨ho.1.1.1.2, ho.1.1.2, ho.1.2⟩
    | sep d =>
      simp only [Item.ways, List.mem_singleton] at hw
      subst hw
      simp only [List.flatten_cons, List.cons_append, List.head?_cons, Option.some.injEq] at hc
      subst hc
      have hm : markChars.contains d = false := by
        cases hm : markChars.contains d with
        | false => rfl
        | true => exact absurd (List.contains_iff_mem.1 hm) g.1
      refine ⟨?_, hm, g.2.1⟩
      cases ha : after.contains d with
      | false => rfl
      | true =>
        have := List.all_eq_true.1 after_marks d (List.contains_iff_mem.1 ha)
        rw [hm, Bool.false_or, Bool.and_eq_true] at this
        rcases g.2.2 with hb | hp
        · rw [List.contains_iff_mem.2 hb] at this; cases this.2
        · rw [np_ok hP hL this.1] at hp; cases hp

theorem sep_starts (hP : Plain U) (hL : LettersNotPunct U) {c : Char} (g : (Item.sep c).Good U) : starts.contains c = false := by
  cases ha : starts.contains c with
  | false => rfl
  | true =>
    have := List.all_eq_true.1 starts_np c (List.contains_iff_mem.1 ha)
    rw [Bool.and_eq_true] at this
    rcases g.2.2 with hb | hp
    · rw [List.contains_iff_mem.2 hb] at this; cases this.2
    · rw [np_ok hP hL this.1] at hp; cases hp

local notation "Ok" => EvOk U toaq (Input.ofBytes (utf8 s)) (actAlg (Input.ofBytes (utf8 s)))
local notation "Fl" => EvFail U toaq (Input.ofBytes (utf8 s)) (actAlg (Input.ofBytes (utf8 s)))

theorem ok_of {rest w : Str} {e : Expr Act} {v : PR} (h : Says (U := U) (s := s) rest e w v) (hv : v.ok? = some true) :
    ∃ q x, Ok e (at' s (w ++ rest)) q x := by
  cases v with
  | ok w' x => exact ⟨_, _, h.2⟩
  | yes => exact h
  | fail => cases hv
  | stuck => cases hv

theorem fail_of {rest w : Str} {e : Expr Act} {v : PR} (h : Says (U := U) (s := s) rest e w v) (hv : v.ok? = some false) :
    Fl e (at' s (w ++ rest)) := by
  cases v with
  | ok w' x => cases hv
  | yes => cases hv
  | fail => exact h
  | stuck => cases hv

/-- The rule `tone` fails at the start of an item. -/
theorem tone_fails (hP : Plain U) (hL : LettersNotPunct U) {is : List Item} {us : List Str} (h : Exact is us) (hg : ∀ i ∈ is, i.Good U)
    (hs : us.flatten <:+ s) : Fl (.ref 142) (at' s us.flatten) :=
  fail_of (w := []) (prule_ok ⟨hP, hL, fun _ hc => (head_ok hP hL h hg hc).2.1, by intro h; cases h⟩ 8 142 [] hs) tone_none

theorem end_fails {t : Term} : Fl (.term t) (at' s []) := by
  have : ∃ z, tm U (.ofBytes (utf8 s)) t (at' s []) = .inr z := by
    rw [tm_takes, at_nil]; exact ⟨_, rfl⟩
  obtain ⟨z, hz⟩ := this
  exact fail_term hz

/-- One character of the rule `space`. -/
def spaceX : Expr Act := .grp (.alt (.term (.cls ['\t', '\n', '\r', ' ', '.', ',', ':', '!'])) (.ref 222))

theorem body_221 : toaq.body 221 = .lab (.plus spaceX) := by decide +kernel
theorem body_222 : toaq.body 222 = .seq (.not (.ref 142)) (.term .punct) := by decide +kernel
theorem body_224 : toaq.body 224 = .not (.term .any) := by decide +kernel
theorem body_132 : toaq.body 132 = .act .empty (.grp (.alt (.ref 133) (.alt (.ref 221) (.ref 224)))) := by decide +kernel

theorem takes_at {c : Char} {t : Str} (h : c :: t <:+ s) {k : Term} (hk : takes U k c = 1) :
    tm U (.ofBytes (utf8 s)) k (at' s (c :: t)) = .inl (at' s t) := by
  rw [tm_takes, (at_rune h).1]
  simp only [hk, (at_rune h).2]

theorem leaves_at {c : Char} {t : Str} (h : c :: t <:+ s) {k : Term} (hk : takes U k c ≠ 1) :
    ∃ z, tm U (.ofBytes (utf8 s)) k (at' s (c :: t)) = .inr z := by
  rw [tm_takes, (at_rune h).1]
  simp only
  split
  · exact ⟨_, rfl⟩
  · contradiction
  · exact ⟨_, rfl⟩

/-- Blanks and punctuation at the start of an item are the separators. -/
theorem space_at (hP : Plain U) (hL : LettersNotPunct U) {is : List Item} {us : List Str} (h : Exact is us) (hg : ∀ i ∈ is, i.Good U)
    (hs : us.flatten <:+ s) :
    (∃ c is' us', is = .sep c :: is' ∧ us = [c] :: us' ∧ ∃ x, Ok spaceX (at' s us.flatten) (at' s us'.flatten) x) ∨
      (∀ c is', is ≠ .sep c :: is') ∧ Fl spaceX (at' s us.flatten) := by
  have ht := tone_fails hP hL h hg hs
  cases h with
  | nil =>
    exact Or.inr ⟨nofun, fail_grp (fail_alt end_fails (fail_ref (by rw [body_222]; exact fail_seq2 (ok_not ht) end_fails)))⟩
  | @cons i is w ws hw hr =>
    have g := hg i (List.mem_cons_self ..)
    cases i with
    | syl τ o r =>
      simp only [Item.ways, List.mem_map] at hw
      obtain ⟨m, -, rfl⟩ := hw
      have ho := List.all_eq_true.1 onset_heads o g.1
      cases o with
      | nil => cases ho
      | cons d o =>
        simp only [Bool.and_eq_true, Bool.not_eq_true', decide_eq_false_iff_not] at ho
        have hst := List.all_eq_true.1 starts_np d (List.contains_iff_mem.1 ho.1.1.1.1)
        simp only [Bool.and_eq_true, Bool.not_eq_true'] at hst
        simp only [List.flatten_cons, List.cons_append] at hs ht ⊢
        have h1 : takes U (.cls ['\t', '\n', '\r', ' ', '.', ',', ':', '!']) d ≠ 1 := by
          simp only [takes]
          rw [if_neg]
          · decide
          · intro hc
            have h2 := List.contains_iff_mem.1 hc
            have h3 : d ∈ "\t\n\r .,:!?".toList := by
              have : "\t\n\r .,:!?".toList = ['\t', '\n', '\r', ' ', '.', ',', ':', '!'] ++ ['?'] := by decide
              rw [this]; exact List.mem_append_left _ h2
            rw [List.contains_iff_mem.2 h3] at hst
            cases hst.2
        have h2 : takes U .punct d ≠ 1 := by
          simp only [takes, np_ok hP hL hst.1]; split <;> simp
        obtain ⟨z1, h1⟩ := leaves_at (U := U) hs h1
        obtain ⟨z2, h2⟩ := leaves_at (U := U) hs h2
        exact Or.inr ⟨nofun, fail_grp (fail_alt (fail_term h1) (fail_ref (by rw [body_222]; exact fail_seq2 (ok_not ht) (fail_term h2))))⟩
    | sep d =>
      simp only [Item.ways, List.mem_singleton] at hw
      subst hw
      refine Or.inl ⟨d, is, ws, rfl, rfl, ?_⟩
      simp only [List.flatten_cons, List.cons_append, List.nil_append] at hs ht ⊢
      by_cases hb : takes U (.cls ['\t', '\n', '\r', ' ', '.', ',', ':', '!']) d = 1
      · exact ⟨_, ok_grp (ok_alt1 (ok_term (takes_at hs hb)))⟩
      · have hp : takes U .punct d = 1 := by
          have hp : U.punct d = true := by
            rcases g.2.2 with hb' | hp
            · exfalso
              have : "\t\n\r .,:!?".toList = ['\t', '\n', '\r', ' ', '.', ',', ':', '!'] ++ ['?'] := by decide
              rw [this, List.mem_append] at hb'
              rcases hb' with hb' | hb'
              · exact hb (by simp only [takes, List.contains_iff_mem.2 hb', if_true])
              · have h4 : d = '?' := by simpa using hb'
                exact g.1 (h4 ▸ by decide)
            · exact hp
          have hbad : d ≠ bad := g.2.1
          simp only [takes, hp, ne_eq, hbad, not_false_eq_true, if_true]
        obtain ⟨z1, h1⟩ := leaves_at (U := U) hs hb
        exact ⟨_, ok_grp (ok_alt2 (fail_term h1) (ok_ref (by rw [body_222]; exact ok_seq (ok_not ht) (ok_term (takes_at hs hp)))))⟩

theorem spaces_at (hP : Plain U) (hL : LettersNotPunct U) {is : List Item} {us : List Str} (h : Exact is us) (hg : ∀ i ∈ is, i.Good U)
    (hs : us.flatten <:+ s) : ∃ q x, Ok (.star spaceX) (at' s us.flatten) q x := by
  have h' := h
  induction h' with
  | nil =>
    rcases space_at hP hL h hg hs with ⟨_, _, _, h1, _⟩ | ⟨_, h1⟩
    · cases h1
    · exact ⟨_, _, ok_star0 h1⟩
  | @cons i is w ws hw hr ih =>
    rcases space_at hP hL h hg hs with ⟨c, is', us', h1, h2, x, h3⟩ | ⟨_, h1⟩
    · cases h1; cases h2
      obtain ⟨q, y, h4⟩ := ih hr (fun i hi => hg i (List.mem_cons_of_mem _ hi))
        ((List.suffix_append _ _).trans (by simpa only [List.flatten_cons] using hs))
      exact ⟨q, _, ok_star1 h3 h4⟩
    · exact ⟨_, _, ok_star0 h1⟩

/-- The rule `boundary` succeeds at the start of an item, and at the end. -/
theorem boundary_at (hP : Plain U) (hL : LettersNotPunct U) {is : List Item} {us : List Str} (h : Exact is us) (hg : ∀ i ∈ is, i.Good U)
    (hs : us.flatten <:+ s) : ∃ q x, Ok (.ref 132) (at' s us.flatten) q x := by
  have act : ∀ {q x}, Ok (.alt (.ref 133) (.alt (.ref 221) (.ref 224))) (at' s us.flatten) q x → ∃ q x, Ok (.ref 132) (at' s us.flatten) q x := by
    intro q x h
    have : ∃ y, (actAlg (Input.ofBytes (utf8 s))).act .empty (at' s us.flatten) q
        ((actAlg (Input.ofBytes (utf8 s))).grp (at' s us.flatten) q x) = .ok y := ⟨_, rfl⟩
    obtain ⟨y, hy⟩ := this
    exact ⟨_, _, ok_ref (by rw [body_132]; exact ok_act (ok_grp h) hy)⟩
  have i_none : us.flatten.head?.all (fun c => !starts.contains c) = true → Fl (.ref 133) (at' s us.flatten) := by
    intro hh
    refine fail_of (w := []) (prule_ok ⟨hP, hL, ?_, by intro h; cases h⟩ 8 133 [] hs) initial_none
    intro c hc
    rw [hc] at hh
    simpa using hh
  have h0 := h
  cases h with
  | nil =>
    have h1 := i_none rfl
    rcases space_at hP hL .nil hg hs with ⟨_, _, _, h2, _⟩ | ⟨_, h2⟩
    · cases h2
    · exact act (ok_alt2 h1 (ok_alt2 (fail_ref (by rw [body_221]; exact fail_lab (fail_plus h2)))
        (ok_ref (by rw [body_224]; exact ok_not end_fails))))
  | @cons i is w ws hw hr =>
    have g := hg i (List.mem_cons_self ..)
    cases i with
    | syl τ o r =>
      simp only [Item.ways, List.mem_map] at hw
      obtain ⟨m, hm, rfl⟩ := hw
      have hb := of_decide_eq_true (List.all_eq_true.1 bound_ok o g.1)
      simp only [List.flatten_cons, List.append_assoc] at hs ⊢
      refine ok_of (prule_ok ⟨hP, hL, ?_, by intro h; cases h⟩ 8 132 o hs) hb
      intro c hc
      have := List.all_eq_true.1 (List.all_eq_true.1 (heads_ok τ) _ (List.mem_map_of_mem g.2.1)) m hm
      cases m with
      | nil => cases this
      | cons d m =>
        simp only [List.cons_append, List.head?_cons, Option.some.injEq] at hc
        subst hc
        simpa using this
    | sep c =>
      simp only [Item.ways, List.mem_singleton] at hw
      subst hw
      have h1 := i_none (by simp only [List.flatten_cons, List.cons_append, List.head?_cons, Option.all_some, sep_starts hP hL g]; rfl)
      rcases space_at hP hL h0 hg hs with ⟨c', is', us', e1, e2, x, h2⟩ | ⟨h2, _⟩
      · cases e1; cases e2
        obtain ⟨q, y, h4⟩ := spaces_at hP hL hr (fun i hi => hg i (List.mem_cons_of_mem _ hi))
          ((List.suffix_append _ _).trans (by simpa only [List.flatten_cons] using hs))
        exact act (ok_alt2 h1 (ok_alt1 (ok_ref (by rw [body_221]; exact ok_lab (ok_plus h2 h4)))))
      · exact absurd rfl (h2 _ _)

/-! ### Leaves -/

/-- The expressions that are treated alike as a whole. -/
def lf (e : Expr Act) : Bool :=
  (fwRules.map fun r => Expr.and (.ref r)).contains e || decide (e = .not (.ref 101)) || decide (e = moqExpr) ||
    ([123, 125, 126, 127, 128, 129, 130, 131].map fun r => Expr.ref r).contains e || decide (e = .ref 224)

/-- The rules above them. -/
def upper (r : Nat) : Bool :=
  decide (r ≤ 78) || (decide (84 ≤ r) && decide (r ≤ 100)) || [142, 154, 161, 169, 176, 183, 190, 197, 221, 222, 223].contains r ||
    (decide (225 ≤ r) && decide (r ≤ 292)) || (decide (308 ≤ r) && decide (r ≤ 402))

/-- Terminals that take no letter at the start of a syllable. -/
def apart : Term → Bool
  | .cls cs => cs.all fun c => !starts.contains c
  | .lit d => !starts.contains d
  | .any => false
  | .punct => true

theorem upper_ok : ((List.range 403).all fun r => !upper r || leafy lf apart upper (toaq.body r)) = true := by decide +kernel

theorem upper_lt {r : Nat} (h : upper r = true) : r < 403 := by
  simp only [upper, Bool.or_eq_true, Bool.and_eq_true, decide_eq_true_eq, List.contains_iff_mem] at h
  rcases h with (((h | h) | h) | h) | h
  · omega
  · omega
  · have : ∀ x ∈ [142, 154, 161, 169, 176, 183, 190, 197, 221, 222, 223], x < 403 := by decide
    exact this r h
  · omega
  · omega

theorem upper_rules (r : Nat) (h : upper r = true) : leafy lf apart upper (toaq.body r) = true := by
  have := List.all_eq_true.1 upper_ok r (List.mem_range.2 (upper_lt h))
  rw [h] at this
  simpa using this

theorem around (hP : Plain U) (hL : LettersNotPunct U) {is : List Item} {us : List Str} (h : Exact is us) (hg : ∀ i ∈ is, i.Good U)
    (hs : us.flatten <:+ s) : Around U s us.flatten after true :=
  ⟨hP, hL, fun _ hc => (head_ok hP hL h hg hc).1, fun _ => boundary_at hP hL h hg hs⟩

theorem no_start (hP : Plain U) (hL : LettersNotPunct U) {is : List Item} {us : List Str} (h : Exact is us) (hg : ∀ i ∈ is, i.Good U)
    (hi : ∀ τ o r is', is ≠ .syl τ o r :: is') : Around U s us.flatten starts false := by
  refine ⟨hP, hL, ?_, by intro h; cases h⟩
  intro c hc
  cases h with
  | nil => cases hc
  | @cons i is w ws hw _ =>
    have g := hg i (List.mem_cons_self ..)
    cases i with
    | syl τ o r => exact absurd rfl (hi τ o r is)
    | sep d =>
      simp only [Item.ways, List.mem_singleton] at hw
      subst hw
      simp only [List.flatten_cons, List.cons_append, List.head?_cons, Option.some.injEq] at hc
      subst hc
      exact sep_starts hP hL g

/-- The rules for syllables and particles fail where there is no syllable. -/
theorem none_at (hP : Plain U) (hL : LettersNotPunct U) {is : List Item} {us : List Str} (h : Exact is us) (hg : ∀ i ∈ is, i.Good U)
    (hs : us.flatten <:+ s) (hi : ∀ τ o r is', is ≠ .syl τ o r :: is') {r : Nat} (hr : r ∈ fwRules ++ sylRules) :
    Fl (.ref r) (at' s us.flatten) :=
  fail_of (w := []) (prule_ok (no_start hP hL h hg hi) 8 r [] hs) (of_decide_eq_true (List.all_eq_true.1 none_ok r hr))

/-- A syllable. -/
structure AtSyl (U : Uni) (s : Str) (τ : WTone) (o r m : Str) (is : List Item) (us : List Str) : Prop where
  good : (Item.syl τ o r).Good U
  rest : ∀ i ∈ is, i.Good U
  way : m ∈ τ.rimeWays r
  exact' : Exact is us
  suffix : o ++ (m ++ us.flatten) <:+ s

variable {τ : WTone} {o r m : Str} {is : List Item} {us : List Str}

theorem AtSyl.tail (H : AtSyl U s τ o r m is us) : us.flatten <:+ s := by
  have : o ++ (m ++ us.flatten) = (o ++ m) ++ us.flatten := by simp
  exact (List.suffix_append (o ++ m) us.flatten).trans (this ▸ H.suffix)

theorem AtSyl.rime (H : AtSyl U s τ o r m is us) : m ++ us.flatten <:+ s := (List.suffix_append _ _).trans H.suffix

theorem AtSyl.around (H : AtSyl U s τ o r m is us) (hP : Plain U) (hL : LettersNotPunct U) : Around U s us.flatten after true :=
  Notes.around hP hL H.exact' H.rest H.tail

theorem AtSyl.onset (H : AtSyl U s τ o r m is us) (hP : Plain U) (hL : LettersNotPunct U) : Around U s (m ++ us.flatten) ['h', 'H'] false := by
  refine ⟨hP, hL, ?_, by intro h; cases h⟩
  intro c hc
  have := List.all_eq_true.1 (List.all_eq_true.1 (heads_ok τ) _ (List.mem_map_of_mem H.good.2.1)) m H.way
  cases m with
  | nil => cases this
  | cons d m =>
    simp only [List.cons_append, List.head?_cons, Option.some.injEq] at hc
    subst hc
    simpa using this

theorem str_of {rest w : Str} {e : Expr Act} {v : PR} (h : Says (U := U) (s := s) rest e w v) {a : Option Str} (hv : v.str? = some a) :
    match a with
    | none => Fl e (at' s (w ++ rest))
    | some t => Ok e (at' s (w ++ rest)) (at' s rest) (.str t, []) := by
  unfold PR.str? at hv
  split at hv
  · injection hv with hv; subst hv; exact h.2
  · injection hv with hv; subst hv; exact h
  · cases hv

theorem lab_of {rest w : Str} {e : Expr Act} {v : PR} (h : Says (U := U) (s := s) rest e w v) {a : Option (Str × Str)} (hv : v.lab? = some a) :
    match a with
    | none => Fl e (at' s (w ++ rest))
    | some t => Ok e (at' s (w ++ rest)) (at' s rest) (.str t.1, [.str t.2]) := by
  unfold PR.lab? at hv
  split at hv
  · injection hv with hv; subst hv; exact h.2
  · injection hv with hv; subst hv; exact h
  · cases hv

/-- A rule for syllables at a syllable. -/
theorem syl_at (H : AtSyl U s τ o r m is us) (hP : Plain U) (hL : LettersNotPunct U) {q : Nat} (hq : q ∈ sylRules) {a : Option Str}
    (ha : (pev after (prule after true 8) (tailOf q) m).str? = some a) : match a with
    | none => Fl (.ref q) (at' s (o ++ (m ++ us.flatten)))
    | some t => Ok (.ref q) (at' s (o ++ (m ++ us.flatten))) (at' s us.flatten) (.str (o ++ t), []) := by
  have hA := H.around hP hL
  have h1 := str_of (prule_ok (H.onset hP hL) 8 133 o H.suffix) (of_decide_eq_true (List.all_eq_true.1 initial_ok o H.good.1))
  have h2 := str_of (pev_ok hA (prule_ok hA 8) (tailOf q) m H.rime) ha
  have hb := of_decide_eq_true (List.all_eq_true.1 syl_bodies q hq)
  simp only at h1
  cases a with
  | none => exact fail_ref (by rw [hb]; exact fail_seq2 h1 h2)
  | some t =>
    have h3 := ok_ref (k := q) (by rw [hb]; exact ok_seq h1 h2)
    exact h3

end Verif.Parse.Notes
