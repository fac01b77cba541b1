/-
C71: the number of bytes that `Word` returns leads to the next word of the text.

The spaces of a syntax tree come from the rule for spaces, or are the question marks after moq (Prov.lean). The words and spaces
of a parsed text cover it (C18); so what follows a word is another word, for which the rule for spaces fails, or the space that
`Word` attaches, which is followed by no other.
-/
import Verif.Parse.WordAt

namespace Verif.Parse.Prov
open Verif.AST Verif.AST.Spec Verif.Peg Verif.Parse Verif.Parse.WordLang
open Verif.Tone (Str)

variable {U : Uni} {I : Input} {E : Type}

/-! ## Words and spaces -/

mutual
theorem cntN (a : Tok) : ∀ n : Node, cnt a (words n) = cnt a (toks false n) + cnt a (toks true n)
  | .text l d => by have := cntO a l; have := cntL a d; simp only [words, toks, cnt, List.count_append] at *; omega
  | .discourse d => by have := cntL a d; simp only [words, toks, cnt] at *; omega
  | .sentence je st da => by have := cntWO a je; have := cntN a st; have := cntWO a da; simp only [words, toks, cnt, List.count_append] at *; omega
  | .cop k to0 to1 ru l r => by
    have := cntWO a to0; have := cntWO a to1; have := cntW a ru; have := cntN a l; have := cntN a r
    cases to0 <;> (simp [words, wordsWO, toks, toksWO, cnt] at *; omega)
  | .prenex ts bi => by have := cntL a ts; have := cntW a bi; simp only [words, toks, cnt, List.count_append] at *; omega
  | .prenexStmt ts bi st => by have := cntL a ts; have := cntW a bi; have := cntN a st; simp only [words, toks, cnt, List.count_append] at *; omega
  | .predication k p ts na => by have := cntN a p; have := cntTO a ts; have := cntWO a na; simp only [words, toks, cnt, List.count_append] at *; omega
  | .prefixed mu p => by have := cntW a mu; have := cntN a p; simp only [words, toks, cnt, List.count_append] at *; omega
  | .serial l r => by have := cntN a l; have := cntN a r; simp only [words, toks, cnt, List.count_append] at *; omega
  | .mi m ga ph => by have := cntW a m; have := cntWO a ga; have := cntN a ph; simp only [words, toks, cnt, List.count_append] at *; omega
  | .po m ga ph => by have := cntW a m; have := cntWO a ga; have := cntN a ph; simp only [words, toks, cnt, List.count_append] at *; omega
  | .mo m teo d => by have := cntW a m; have := cntW a teo; have := cntL a d; simp only [words, toks, cnt, List.count_append] at *; omega
  | .lu k l st => by have := cntW a l; have := cntN a st; simp only [words, toks, cnt, List.count_append] at *; omega
  | .linked g x => by have := cntW a g; have := cntN a x; simp only [words, toks, cnt, List.count_append] at *; omega
  | .terms ts => by have := cntL a ts; simp only [words, toks, cnt] at *; omega
  | .predArg i f q p rel => by have := cntWO a f; have := cntWO a q; have := cntN a p; have := cntO a rel; simp only [words, toks, cnt, List.count_append] at *; omega
  | .predAdverb p => by have := cntN a p; simp only [words, toks, cnt] at *; omega
  | .prep p x => by have := cntN a p; have := cntN a x; simp only [words, toks, cnt, List.count_append] at *; omega
  | .paren kio ki d => by have := cntW a kio; have := cntW a ki; have := cntL a d; simp only [words, toks, cnt, List.count_append] at *; omega
  | .incidental ju st => by have := cntW a ju; have := cntN a st; simp only [words, toks, cnt, List.count_append] at *; omega
  | .vocative hu x => by have := cntW a hu; have := cntN a x; simp only [words, toks, cnt, List.count_append] at *; omega
  | .word k (.mk t s e m) => by
    have := cntO a m
    by_cases hk : k = .space <;> simp [words, wordsW, toks, hk, cnt, List.count_cons] at * <;> omega
theorem cntW (a : Tok) : ∀ w : Word, cnt a (wordsW w) = cnt a (toksW false w) + cnt a (toksW true w)
  | .mk t s e m => by have := cntO a m; simp [wordsW, toksW, cnt, List.count_cons] at *; omega
theorem cntO (a : Tok) : ∀ n : Option Node, cnt a (wordsO n) = cnt a (toksO false n) + cnt a (toksO true n)
  | none => by simp [wordsO, toksO]
  | some n => by have := cntN a n; simpa only [wordsO, toksO] using this
theorem cntWO (a : Tok) : ∀ n : Option Word, cnt a (wordsWO n) = cnt a (toksWO false n) + cnt a (toksWO true n)
  | none => by simp [wordsWO, toksWO]
  | some n => by have := cntW a n; simpa only [wordsWO, toksWO] using this
theorem cntTO (a : Tok) : ∀ n : Option (List Node), cnt a (wordsTO n) = cnt a (toksTO false n) + cnt a (toksTO true n)
  | none => by simp [wordsTO, toksTO]
  | some n => by have := cntL a n; simpa only [wordsTO, toksTO] using this
theorem cntL (a : Tok) : ∀ n : List Node, cnt a (wordsL n) = cnt a (toksL false n) + cnt a (toksL true n)
  | [] => by simp [wordsL, toksL]
  | n :: l => by have := cntN a n; have := cntL a l; simp only [wordsL, toksL, cnt, List.count_append] at *; omega
end

theorem mem_words {a : Tok} {n : Node} : a ∈ words n ↔ a ∈ toks false n ∨ a ∈ toks true n := by
  rw [cnt_mem, cnt_mem, cnt_mem, cntN]
  omega

/-! ## What words and spaces begin with -/

theorem reads_first {A : Alg Act E} {p q x} (h : Gives U I A (.ref 133) p (.ok q x)) : p < I.len ∧ (I.next p).1 ∈ onsetRunes := by
  obtain ⟨n, h⟩ := h
  obtain ⟨rs, h1, h2, h3⟩ := onset_reads h
  cases h1 with
  | nil => exact absurd rfl h3
  | cons a b _ => exact ⟨a, by rw [b]; exact (h2 _ (by simp)).1⟩

theorem syl_initial {A : Alg Act E} {y p q x} (hy : y ∈ 123 :: 124 :: tones) (h : Gives U I A (.ref y) p (.ok q x)) :
    p < I.len ∧ (I.next p).1 ∈ onsetRunes := by
  simp only [List.mem_cons] at hy
  rcases hy with rfl | rfl | hy
  · obtain ⟨y1, g1, _⟩ := h.of_ref
    have hb : toaq.body 123 = .seq (.ref 133) (.seq (.ref 134) (.and (.ref 132))) := rfl
    rw [hb] at g1
    obtain ⟨m, z, z', g, _⟩ := g1.of_seq
    exact reads_first g
  · obtain ⟨y1, g1, _⟩ := h.of_ref
    have hb : toaq.body 124 = .seq (.ref 133) (.seq (.ref 134) (.and (.grp (.alt (.seq (.ref 223) (.ref 132)) (.ref 132))))) := rfl
    rw [hb] at g1
    obtain ⟨m, z, z', g, _⟩ := g1.of_seq
    exact reads_first g
  · obtain ⟨m, z, s, g, _⟩ := toned_reads hy h
    exact reads_first g

theorem src_first {a : Tok} (h : Src U I false a) : (I.next a.s).1 ∈ onsetRunes := by
  cases h with
  | @pred n y t s e l hp hy h =>
    cases n with
    | zero => rw [ev_0] at h; cases h
    | succ n =>
    obtain ⟨v, h, _⟩ := ev_grp h
    rcases Gives.of_alt ⟨n, h⟩ with g | ⟨_, g⟩
    · obtain ⟨m, z, z', g, _⟩ := g.of_seq
      exact (syl_initial (by simp [hy]) g).2
    · obtain ⟨m, z, z', ⟨n', g0⟩, g1, _⟩ := g.of_seq
      cases n' with
      | zero => rw [ev_0] at g0; cases g0
      | succ n' =>
      obtain ⟨rfl, _⟩ := ev_not g0
      exact (syl_initial (by simp [hy]) g1).2
  | @part n x y t s e l r u hp hc hx hy =>
    have hy' : y ∈ 123 :: 124 :: tones := by
      unfold Classes.wordClass at hc
      split at hc
      · split at hc
        · rename_i k _ hcc
          simp only [Bool.and_eq_true, Classes.sylls] at hcc
          have h1 := hcc.1
          split at h1 <;> simp [tones] at h1 ⊢ <;> omega
        · cases hc
      · cases hc
    exact (syl_initial hy' ⟨_, hy⟩).2

theorem tm_punct {p q} (h : tm U I .punct p = .inl q) : ∃ c w, p < I.len ∧ I.next p = (c, w) ∧ U.punct c = true ∧ c ≠ bad ∧ q = p + w := by
  simp only [tm] at h
  split at h
  · rename_i c w hr
    split at h
    · rename_i hb
      split at h
      · rename_i hp
        unfold Input.rune at hr
        split at hr
        · rename_i hl
          injection hr with hr
          injection h with h
          exact ⟨c, w, hl, hr, hp, hb, h.symm⟩
        · cases hr
      · cases h
    · cases h
  · cases h

theorem tone_question : must 20 (.ref 142) '?' = true := by decide +kernel

theorem star_stop {A : Alg Act E} {e} : ∀ n p q x, ev U toaq I A n (.star e) p = some (.ok q x) → Gives U I A e q .fail := by
  intro n
  induction n with
  | zero => intro p q x h; rw [ev_0] at h; cases h
  | succ n ih =>
    intro p q x h
    rw [ev_s] at h
    simp only [evStep] at h
    split at h
    · split at h
      · rename_i h1
        injection h with h
        injection h with h2 h3
        subst h2
        exact ih _ _ _ h1
      · rename_i hne
        exact absurd h (hne _ _)
    · rename_i h1
      injection h with h
      injection h with h2 h3
      subst h2
      exact ⟨n, h1⟩
    · rename_i hne _
      exact absurd h (hne _ _)

theorem star_last {A : Alg Act E} {e} : ∀ n p q x, ev U toaq I A n (.star e) p = some (.ok q x) → q = p ∨ ∃ m y, Gives U I A e m (.ok q y) := by
  intro n
  induction n with
  | zero => intro p q x h; rw [ev_0] at h; cases h
  | succ n ih =>
    intro p q x h
    rw [ev_s] at h
    simp only [evStep] at h
    split at h
    · rename_i m y hy
      split at h
      · rename_i h1
        injection h with h
        injection h with h2 h3
        subst h2
        rcases ih _ _ _ h1 with rfl | h
        · exact .inr ⟨_, _, n, hy⟩
        · exact .inr h
      · rename_i hne
        exact absurd h (hne _ _)
    · injection h with h
      injection h with h2 h3
      exact .inl h2.symm
    · rename_i hne _
      exact absurd h (hne _ _)

theorem plus_last {A : Alg Act E} {e n p q x} (h : ev U toaq I A n (.plus e) p = some (.ok q x)) : ∃ m y, Gives U I A e m (.ok q y) := by
  cases n with
  | zero => rw [ev_0] at h; cases h
  | succ n =>
  rw [ev_s] at h
  simp only [evStep] at h
  split at h
  · rename_i m y hy
    split at h
    · rename_i h1
      injection h with h
      injection h with h2 h3
      subst h2
      rcases star_last _ _ _ _ h1 with rfl | h
      · exact ⟨_, _, n, hy⟩
      · exact h
    · rename_i hne
      exact absurd h (hne _ _)
  · rename_i hne
    exact absurd h (hne _ _)

theorem fits_last : ∀ {s : Seq} {p q : Nat}, Fits I s p q → s ≠ [] → (s.all (·.all plainRunes.contains)) = true →
    ∃ m c w, m < I.len ∧ I.next m = (c, w) ∧ m + w = q ∧ c ∈ plainRunes := by
  intro s
  induction s with
  | nil => intro p q _ h; exact absurd rfl h
  | cons k ks ih =>
    intro p q h _ ha
    simp only [List.all_cons, Bool.and_eq_true] at ha
    cases h with
    | @cons _ _ c w _ _ a1 a2 a3 a4 =>
    cases ks with
    | nil =>
      cases a4
      exact ⟨p, c, w, a1, a2, rfl, by simpa using List.all_eq_true.1 ha.1 c a3⟩
    | cons k' ks => exact ih a4 (by simp) ha.2

/-! ## Runes before an offset -/

theorem decode_cont {b : Bytes} {c : Char} {w i : Nat} (h : decode b = (c, w)) (h0 : 0 < i) (hi : i < w) :
    ∃ x l, b.drop i = x :: l ∧ 0x80 ≤ x ∧ x ≤ 0xBF := by
  have sec : ∀ {a x}, second a x = true → 0x80 ≤ x ∧ x ≤ 0xBF := by
    intro a x h
    unfold second cont at h
    repeat' split at h
    all_goals simp at h; omega
  have con : ∀ {x}, cont x = true → 0x80 ≤ x ∧ x ≤ 0xBF := by
    intro x h
    simpa [cont] using h
  unfold decode at h
  repeat' split at h
  all_goals injection h with _ h
  all_goals subst h
  all_goals first | omega | skip
  · rename_i h _
    obtain rfl : i = 1 := by omega
    exact ⟨_, _, rfl, sec h⟩
  · rename_i h _
    simp only [Bool.and_eq_true] at h
    obtain rfl | rfl : i = 1 ∨ i = 2 := by omega
    · exact ⟨_, _, rfl, sec h.1⟩
    · exact ⟨_, _, rfl, con h.2⟩
  · rename_i h _
    simp only [Bool.and_eq_true] at h
    obtain rfl | rfl | rfl : i = 1 ∨ i = 2 ∨ i = 3 := by omega
    · exact ⟨_, _, rfl, sec h.1.1⟩
    · exact ⟨_, _, rfl, con h.1.2⟩
    · exact ⟨_, _, rfl, con h.2⟩

theorem decode_bad {x : Nat} {l : Bytes} (h : 0x80 ≤ x) (h' : x ≤ 0xBF) : (decode (x :: l)).1 = bad := by
  simp only [decode]
  rw [if_neg (by omega), if_pos (by omega)]

/-- At most one rune ends at an offset. -/
theorem rune_before {b : Bytes} {m m' c c' w w'} (h : decode (b.drop m) = (c, w)) (h' : decode (b.drop m') = (c', w'))
    (he : m + w = m' + w') (hw : 0 < w) (hw' : 0 < w') (hc : c ≠ bad) (hc' : c' ≠ bad) : c = c' := by
  have key : ∀ {m m' c c' w w'}, decode (b.drop m) = (c, w) → decode (b.drop m') = (c', w') → m + w = m' + w' → 0 < w' → c' ≠ bad →
      ¬ m < m' := by
    intro m m' c c' w w' h h' he hw' hc' hm
    obtain ⟨x, l, h1, h2, h3⟩ := decode_cont (i := m' - m) h (by omega) (by omega)
    rw [List.drop_drop, show m + (m' - m) = m' by omega] at h1
    rw [h1] at h'
    have := decode_bad (l := l) h2 h3
    rw [h'] at this
    exact hc' this
  have h1 := key h h' he hw' hc'
  have h2 := key h' h he.symm hw hc
  obtain rfl : m = m' := by omega
  rw [h] at h'
  injection h'

theorem body_73 : toaq.body 73 = .act (.wordNode .space) (.lab (.plus (.ref 221))) := rfl

theorem space_plus {p q x} (h : Gives U I (actAlg I) (.ref 73) p (.ok q x)) :
    (∃ m y, Gives U I (actAlg I) (.ref 221) p (.ok m y)) ∧ Gives U I (actAlg I) (.ref 221) q .fail := by
  obtain ⟨y, ⟨n, hy⟩, _⟩ := h.of_ref
  rw [body_73] at hy
  cases n with
  | zero => rw [ev_0] at hy; cases hy
  | succ n =>
  obtain ⟨y, hy, _⟩ := ev_act hy
  cases n with
  | zero => rw [ev_0] at hy; cases hy
  | succ n =>
  obtain ⟨y, hy, _⟩ := ev_lab hy
  cases n with
  | zero => rw [ev_0] at hy; cases hy
  | succ n =>
  rw [ev_s] at hy
  simp only [evStep] at hy
  split at hy
  · rename_i m z hz
    split at hy
    · rename_i h1
      injection hy with hy
      injection hy with h2 h3
      subst h2
      exact ⟨⟨m, z, n, hz⟩, star_stop _ _ _ _ h1⟩
    · rename_i hne
      exact absurd hy (hne _ _)
  · rename_i hne
    exact absurd hy (hne _ _)

/-- One rune of a space (toaq.peggy:549). -/
def spaceRune : Expr Act := .grp (.alt (.term (.cls ['\t', '\n', '\r', ' ', '.', ',', ':', '!'])) (.ref 222))

theorem body_221 : toaq.body 221 = .lab (.plus spaceRune) := rfl

theorem spaceRune_ok (hU : U.Ok) (hP : Plain U) {p q x} (h : Gives U I (actAlg I) spaceRune p (.ok q x)) :
    ∃ c w, p < I.len ∧ I.next p = (c, w) ∧ q = p + w ∧ c ∉ onsetRunes ∧ c ≠ '?' ∧ c ≠ bad ∧ c ∉ plainRunes := by
  obtain ⟨n, h⟩ := h
  cases n with
  | zero => rw [ev_0] at h; cases h
  | succ n =>
  obtain ⟨y, h, _⟩ := ev_grp h
  rcases Gives.of_alt ⟨n, h⟩ with ⟨n, g⟩ | ⟨_, g⟩
  · cases n with
    | zero => rw [ev_0] at g; cases g
    | succ n =>
    obtain ⟨g, _⟩ := ev_term g
    obtain ⟨c, w, g1, g2, g3, g4⟩ := tm_cls (.inl rfl) g
    have : ∀ c ∈ ['\t', '\n', '\r', ' ', '.', ',', ':', '!'], c ∉ onsetRunes ∧ c ≠ '?' ∧ c ≠ bad ∧ c ∉ plainRunes := by decide
    exact ⟨c, w, g1, g2, g4, this c g3⟩
  · obtain ⟨y, g, _⟩ := g.of_ref
    have hb : toaq.body 222 = .seq (.not (.ref 142)) (.term .punct) := rfl
    rw [hb] at g
    obtain ⟨m', z, z', ⟨n1, g1⟩, ⟨n2, g2⟩, _⟩ := g.of_seq
    cases n1 with
    | zero => rw [ev_0] at g1; cases g1
    | succ n1 =>
    obtain ⟨rfl, _, g3⟩ := ev_not g1
    cases n2 with
    | zero => rw [ev_0] at g2; cases g2
    | succ n2 =>
    obtain ⟨g4, _⟩ := ev_term g2
    obtain ⟨c, w, g5, g6, g7, g8, g9⟩ := tm_punct g4
    refine ⟨c, w, g5, g6, g9, ?_, ?_, g8, ?_⟩
    · intro hc
      have : ∀ c ∈ onsetRunes, c.toNat < 128 ∧ "!\"#%&'()*,-./:;?@[\\]_{}".toList.contains c = false := by decide
      rw [hU.punct _ (this c hc).1, (this c hc).2] at g7
      cases g7
    · rintro rfl
      have ha := ev_acc U toaq I (actAlg I) n1 (.ref 142) m' 0
      rw [g3] at ha
      obtain ⟨er, ha⟩ := ha
      exact must_ok _ _ _ _ _ _ tone_question g5 g6 ha
    · intro hc
      have : ∀ c ∈ plainRunes, c ∈ notPunct := by decide
      rw [hP c (this c hc)] at g7
      cases g7

theorem of_221 {p q x} (h : Gives U I (actAlg I) (.ref 221) p (.ok q x)) :
    (∃ m y, Gives U I (actAlg I) spaceRune p (.ok m y)) ∧ ∃ m y, Gives U I (actAlg I) spaceRune m (.ok q y) := by
  obtain ⟨y, ⟨n, h⟩, _⟩ := h.of_ref
  rw [body_221] at h
  cases n with
  | zero => rw [ev_0] at h; cases h
  | succ n =>
  obtain ⟨y, h, _⟩ := ev_lab h
  refine ⟨?_, plus_last h⟩
  cases n with
  | zero => rw [ev_0] at h; cases h
  | succ n =>
  obtain ⟨m, y, h⟩ := ev_plus h
  exact ⟨m, y, n, h⟩

/-- A space begins neither with a consonant nor with a question mark, and there is no space at the end of the text. -/
theorem space_first (hU : U.Ok) (hP : Plain U) {p q x} (h : Gives U I (actAlg I) (.ref 73) p (.ok q x)) :
    (I.next p).1 ∉ onsetRunes ∧ (I.next p).1 ≠ '?' ∧ p < I.len ∧ (I.next p).1 ≠ bad := by
  obtain ⟨⟨m, y, h⟩, _⟩ := space_plus h
  obtain ⟨⟨m, y, h⟩, _⟩ := of_221 h
  obtain ⟨c, w, h1, h2, _, h3, h4, h5, _⟩ := spaceRune_ok hU hP h
  rw [h2]
  exact ⟨h3, h4, h1, h5⟩

/-- The last rune of a space. -/
theorem space_last (hU : U.Ok) (hP : Plain U) {p q x} (h : Gives U I (actAlg I) (.ref 73) p (.ok q x)) :
    ∃ m c w, m < I.len ∧ I.next m = (c, w) ∧ m + w = q ∧ c ≠ bad ∧ c ∉ plainRunes := by
  obtain ⟨y, ⟨n, hy⟩, _⟩ := h.of_ref
  rw [body_73] at hy
  cases n with
  | zero => rw [ev_0] at hy; cases hy
  | succ n =>
  obtain ⟨y, hy, _⟩ := ev_act hy
  cases n with
  | zero => rw [ev_0] at hy; cases hy
  | succ n =>
  obtain ⟨y, hy, _⟩ := ev_lab hy
  obtain ⟨m, y, h1⟩ := plus_last hy
  obtain ⟨_, m, y, h1⟩ := of_221 h1
  obtain ⟨c, w, h2, h3, h4, _, _, h5, h6⟩ := spaceRune_ok hU hP h1
  exact ⟨m, c, w, h2, h3, h4.symm, h5, h6⟩

/-- The last rune of moq. -/
theorem moq_last {p q x} (h : Gives U I (actAlg I) (.ref 97) p (.ok q x)) :
    ∃ m c w, m < I.len ∧ I.next m = (c, w) ∧ m + w = q ∧ c ∈ plainRunes := by
  obtain ⟨y, ⟨n, hy⟩, _⟩ := h.of_ref
  have hb : toaq.body 97 = .act .word (.seq (.and (.ref 104)) (.lab (.ref 124))) := rfl
  rw [hb] at hy
  cases n with
  | zero => rw [ev_0] at hy; cases hy
  | succ n =>
  obtain ⟨y, hy, _⟩ := ev_act hy
  obtain ⟨m, z, z', _, ⟨n', g⟩, _⟩ := Gives.of_seq ⟨n, hy⟩
  cases n' with
  | zero => rw [ev_0] at g; cases g
  | succ n' =>
  obtain ⟨y, g, _⟩ := ev_lab g
  obtain ⟨y1, g1, _⟩ := Gives.of_ref ⟨n', g⟩
  have hb : toaq.body 124 = .seq (.ref 133) (.seq (.ref 134) (.and (.grp (.alt (.seq (.ref 223) (.ref 132)) (.ref 132))))) := rfl
  rw [hb] at g1
  obtain ⟨_, _, _, _, g4, _⟩ := g1.of_seq
  obtain ⟨m', u, u', ⟨n1, g5⟩, ⟨n2, g6⟩, _⟩ := g4.of_seq
  cases n2 with
  | zero => rw [ev_0] at g6; cases g6
  | succ n2 =>
  obtain ⟨rfl, _⟩ := ev_and g6
  have hc := plain_seqs
  split at hc
  · rename_i ls hl
    obtain ⟨s, hs, hf⟩ := lang_ok _ _ _ _ _ _ _ hl g5
    have := List.all_eq_true.1 hc s hs
    simp only [Bool.and_eq_true, Bool.not_eq_true', List.isEmpty_eq_false_iff] at this
    exact fits_last hf this.2 this.1
  · cases hc

theorem not_consumed {b : Bytes} {p : Nat} (h : p < (Input.ofBytes b).len) (hb : ((Input.ofBytes b).next p).1 ≠ bad) : ¬ Consumed b p := by
  rintro ⟨_, _, _, h1 | h1⟩
  · exact absurd h (by rw [h1]; exact Nat.lt_irrefl _)
  · exact hb h1

/-- No space follows a space. -/
theorem space_space {p q q' x x'} (h : Gives U I (actAlg I) (.ref 73) p (.ok q x)) (h' : Gives U I (actAlg I) (.ref 73) q (.ok q' x')) :
    False := by
  obtain ⟨m, y, h1⟩ := (space_plus h').1
  have := h1.det (space_plus h).2
  cases this

/-- Question marks do not stand after a space. -/
theorem space_moq {b : Bytes} (hU : U.Ok) (hP : Plain U) {p p' q x y} (h : Gives U (.ofBytes b) (actAlg (.ofBytes b)) (.ref 73) p (.ok q x))
    (h' : Gives U (.ofBytes b) (actAlg (.ofBytes b)) (.ref 97) p' (.ok q y)) : False := by
  obtain ⟨m, c, w, a1, a2, a3, a4, a5⟩ := space_last hU hP h
  obtain ⟨m', c', w', b1, b2, b3, b4⟩ := moq_last h'
  have n1 : bad ∉ plainRunes := by decide
  have p1 := (Input.ofBytes b).pos m a1
  have p2 := (Input.ofBytes b).pos m' b1
  rw [a2] at p1
  rw [b2] at p2
  have := rune_before a2 b2 (by omega) p1 p2 a4 (fun h => n1 (h ▸ b4))
  exact a5 (this ▸ b4)

/-! ## The ends of words -/

theorem all_ends : ((123 :: 125 :: tones).all WordLang.endOk) = true := by decide +kernel

theorem syl_ends (hP : Plain U) {A : Alg Act E} {y p q x} (hy : y ∈ 123 :: 125 :: tones) (h : Gives U I A (.ref y) p (.ok q x)) : Ends I q := by
  have h1 := List.all_eq_true.1 all_ends y hy
  unfold WordLang.endOk at h1
  split at h1
  · rename_i b hb
    obtain ⟨n, h⟩ := h
    obtain ⟨n', q', z, h2⟩ := lastAhead_ok _ _ _ _ _ _ _ hb h
    intro hl hc
    have h3 := List.all_eq_true.1 h1 _ hc
    exact avoid_ok hP _ _ _ _ _ _ h3 hl rfl h2
  · cases h1

theorem src_ends (hU : U.Ok) (hP : Plain U) {a : Tok} (h : Src U I false a) (hs : ¬ Special I a) (hl : a.e < I.len) :
    (I.next a.e).1 ≠ '?' := by
  have out : ∀ {q}, Ends I q → q < I.len → (I.next q).1 ≠ '?' := by
    intro q h h1 h2
    exact h h1 (h2 ▸ by decide)
  cases h with
  | @pred n y t s e l hp hy h =>
    cases n with
    | zero => rw [ev_0] at h; cases h
    | succ n =>
    obtain ⟨v, h, _⟩ := ev_grp h
    rcases Gives.of_alt ⟨n, h⟩ with g | ⟨_, g⟩
    · obtain ⟨m, z, z', _, ⟨n', g⟩, _⟩ := g.of_seq
      obtain ⟨_, _, g⟩ := plus_last g
      exact out (syl_ends hP (by simp) g) hl
    · obtain ⟨m, z, z', _, g1, _⟩ := g.of_seq
      exact out (syl_ends hP (by simp [hy]) g1) hl
  | @part n x y t s e l r u hp hc hx hy =>
    obtain ⟨k, hk⟩ := Option.isSome_iff_exists.1 hc
    obtain ⟨t', ht, hh⟩ := Classes.wordClass_ok (punct_i hU) hP hk hx hy
    injection ht with ht
    subst ht
    unfold Classes.wordClass at hk
    split at hk
    · rename_i k' hk'
      split at hk
      · rename_i hcc
        injection hk with hk
        subst hk
        cases hT : k'.hasTone with
        | true => exact absurd (toned_class (w := ⟨t, s, e⟩) hT hh) hs
        | false =>
          simp only [Bool.and_eq_true, List.any_eq_true, beq_iff_eq, Classes.sylls, hT, Bool.false_eq_true, if_false] at hcc
          obtain ⟨hcc, ⟨x', y', ws⟩, hm, ⟨rfl, rfl⟩, _⟩ := hcc
          have hy' : y' = 123 ∨ y' = 124 := by simpa using hcc
          rcases hy' with rfl | rfl
          · exact out (syl_ends hP (by simp) ⟨_, hy⟩) hl
          · have hw := List.all_eq_true.1 pairs_moq _ hm
            simp only [bne_self_eq_false, Bool.false_or, beq_iff_eq] at hw
            subst hw
            obtain ⟨cs, h1, h2⟩ := pair_ok hP (List.all_eq_true.1 pairs_ok _ hm) (by simp) hx hy
            obtain ⟨t', h4, h5⟩ := WordVal.neutral_text (punct_i hU) (by simp) hy h1
            injection h4 with h4
            subst h4
            simp only [moqWords, List.mem_cons, List.not_mem_nil, or_false] at h2
            rw [h2] at h5
            exact fun hq => hs (.inr (.inr (.inr (.inr ⟨h5, hq⟩))))
      · cases hk
    · cases hk

/-! ## Tiles -/

theorem tiles_next : ∀ {l : List Tok} {p q : Nat} {w : Tok}, Tiles p q l → w ∈ l → w.e = q ∨ ∃ t ∈ l, t.s = w.e := by
  intro l
  induction l with
  | nil => intro p q w _ h; cases h
  | cons t l ih =>
    intro p q w h hw
    rcases List.mem_cons.1 hw with rfl | hw
    · cases l with
      | nil => exact .inl h.2.2
      | cons u l => exact .inr ⟨u, by simp, h.2.2.1⟩
    · rcases ih h.2.2 hw with h | ⟨u, hu, h⟩
      · exact .inl h
      · exact .inr ⟨u, by simp [hu], h⟩

theorem tiles_apart {l : List Tok} {p q : Nat} (h : Tiles p q l) {a b : Tok} (ha : a ∈ l) (hb : b ∈ l) : a = b ∨ a.e ≤ b.s ∨ b.e ≤ a.s := by
  have h1 := h.sorted.1
  clear h
  induction l with
  | nil => cases ha
  | cons t l ih =>
    have h2 := List.pairwise_cons.1 h1
    rcases List.mem_cons.1 ha with ea | ea <;> rcases List.mem_cons.1 hb with eb | eb
    · exact .inl (ea.trans eb.symm)
    · exact .inr (.inl (ea ▸ h2.1 _ eb))
    · exact .inr (.inr (eb ▸ h2.1 _ ea))
    · exact ih ea eb h2.2

end Verif.Parse.Prov

namespace Verif.Parse
open Verif.AST Verif.AST.Spec Verif.Peg Verif.Parse.Prov
open Verif.Tone (Str)

/-- C71, with the exceptions of `C71_word_at_partial`: the bytes that `Word` parses at the offset of a word of a parsed text end where
the text ends, after all its words, or where the next word starts. Words of the text are not skipped. -/
theorem C71_next_partial {U : Uni} {b : Bytes} (hU : U.Ok) (hP : Plain U) (cs : List Call) (n : Node)
    (h : Out.text n ∈ calls U b cs newParser) (w : Tok) (hw : w ∈ toks false n) (hs : ¬ Special (.ofBytes b) w)
    (cs' : List Call) (i : Nat) (hi : cs'[i]? = some (.word w.s)) :
    ∃ o k, (calls U b cs' newParser)[i]? = some (.word (.mk w.t w.s (w.s + k) o) k) ∧ w.e ≤ w.s + k ∧ (∀ t ∈ toks false n, w.e ≤ t.s → w.s + k ≤ t.s) ∧
      (Consumed b (w.s + k) ∧ (∀ t ∈ toks false n, t.e ≤ w.s + k) ∨ ∃ t ∈ toks false n, t.s = w.s + k) := by
  obtain ⟨q, hq, L, hL, hT⟩ := C17_whole_text hU cs n h
  obtain ⟨q', l, hx⟩ := text_call h
  have hf : ∀ t ∈ toks false n, Src U (.ofBytes b) false t := fun t ht => (ev_src _ _ _ _ _ (Nat.zero_le _) (by rfl) hx t).1 ht
  have ht : ∀ t ∈ toks true n, Src U (.ofBytes b) true t := fun t ht => (ev_src _ _ _ _ _ (Nat.zero_le _) (by rfl) hx t).1 ht
  obtain ⟨e, o, h1, h2, h3, _, h5⟩ := at_word_call hU hP (hf w hw) hs hi
  have hin : ∀ {t}, t ∈ toks false n → t ∈ L := fun ht => hL.mem_iff.2 (mem_words.2 (.inl ht))
  have hlt : ∀ t ∈ L, t.s < t.e ∧ t.e ≤ q := fun t ht => (hT.sorted.2 t ht).2
  have he : w.s + (e - w.s) = e := by omega
  refine ⟨o, e - w.s, ?_⟩
  rw [he]
  refine ⟨h1, h3, ?_⟩
  have hsp : ∀ t ∈ toks true n, (∃ x, Gives U (.ofBytes b) (actAlg (.ofBytes b)) (.ref 73) t.s (.ok t.e x)) ∨
      t.s < (Input.ofBytes b).len ∧ ((Input.ofBytes b).next t.s).1 = '?' ∧
        ∃ p x, Gives U (.ofBytes b) (actAlg (.ofBytes b)) (.ref 97) p (.ok t.s x) := by
    intro t hm
    cases ht t hm with
    | space h => exact .inl ⟨_, g_ref ⟨_, h⟩⟩
    | ques h h' => exact .inr ⟨(question ⟨_, h'⟩).1, (question ⟨_, h'⟩).2, _, _, _, h⟩
  have nx : ∀ t ∈ L, t.e = q ∨ ∃ u ∈ words n, u.s = t.e := by
    intro t ht
    rcases tiles_next hT ht with h' | ⟨u, hu, h'⟩
    · exact .inl h'
    · exact .inr ⟨u, hL.mem_iff.1 hu, h'⟩
  rcases h5 with ⟨rfl, h5⟩ | ⟨x, h5⟩
  · refine ⟨fun _ _ h => h, ?_⟩
    rcases nx w (hin hw) with h6 | ⟨t, ht1, ht2⟩
    · exact .inl ⟨h6 ▸ hq, fun t ht => h6 ▸ (hlt t (hin ht)).2⟩
    rcases mem_words.1 ht1 with h6 | h6
    · exact .inr ⟨t, h6, ht2⟩
    · rcases hsp t h6 with ⟨x, h7⟩ | ⟨h7, h8, _⟩
      · rw [ht2] at h7
        cases h7.det h5
      · rw [ht2] at h7 h8
        exact absurd h8 (src_ends hU hP (hf w hw) hs h7)
  · have h6 := space_first hU hP h5
    rcases nx w (hin hw) with h0 | ⟨t, ht1, ht2⟩
    · exact absurd (h0 ▸ hq) (not_consumed h6.2.2.1 h6.2.2.2)
    rcases mem_words.1 ht1 with h7 | h7
    · exact absurd (ht2 ▸ src_first (hf t h7)) h6.1
    · rcases hsp t h7 with ⟨x', h8⟩ | ⟨_, h8, _⟩
      · rw [ht2] at h8
        have h9 := h8.det h5
        injection h9 with h9 _
        constructor
        · intro w' hw' hl
          rcases tiles_apart hT (hL.mem_iff.2 ht1) (hin hw') with h | h | h
          · subst h
            exact absurd (ht2 ▸ src_first (hf _ hw')) h6.1
          · omega
          · have := hlt w' (hin hw')
            omega
        rcases nx t (hL.mem_iff.2 ht1) with h0 | ⟨u, hu1, hu2⟩
        · have h10 : e = q := h9.symm.trans h0
          exact .inl ⟨h10 ▸ hq, fun t ht => h10 ▸ (hlt t (hin ht)).2⟩
        rcases mem_words.1 hu1 with h11 | h11
        · exact .inr ⟨u, h11, by omega⟩
        · rcases hsp u h11 with ⟨y, h12⟩ | ⟨_, _, p', y, h12⟩
          · rw [hu2, h9] at h12
            exact (space_space h5 h12).elim
          · rw [hu2, h9] at h12
            exact (space_moq hU hP h5 h12).elim
      · exact absurd (ht2 ▸ h8) h6.2.1

/-- Where the text ends, or its first invalid byte is, `Word` finds no word. -/
theorem word_stop {U : Uni} {b : Bytes} (hU : U.Ok) {p : Nat} (hc : Consumed b p) (cs : List Call) (i : Nat) (hi : cs[i]? = some (.word p))
    (t : Str) (s e k : Nat) (o : Option Node) : (calls U b cs newParser)[i]? ≠ some (.word (.mk t s e o) k) := by
  intro h
  obtain ⟨h1, _, m, rs, h2, _, h3, _⟩ := C23_word_call hU cs p i t s e k o hi h
  have h1 : s = p := by omega
  subst h1
  obtain ⟨_, _, _, h4⟩ := hc
  have h5 : s < b.length := by
    cases h2 with
    | nil => omega
    | cons h _ _ => exact h
  rw [C20_memo_transparent, List.getElem?_map, hi] at h
  simp only [Option.map_some, Option.some.injEq, fresh] at h
  split at h
  · rename_i ho
    split at h
    · cases h
    · cases h
    · split at h
      · rename_i q w l hx
        injection h with e1 e2
        subst e1
        obtain ⟨rs', h6, h7⟩ := ev_reads (by rfl) hx
        have h8 := rule_sound (punct_i hU) hx
        have ht : types.get rWord = .spaced := by rfl
        rw [ht] at h8
        obtain ⟨⟨t', m', o', h9, ⟨h10, _⟩, h11⟩, _⟩ := h8
        have h12 : s < q := by
          rcases h11 with ⟨_, rfl⟩ | ⟨n, _, _, _, h13⟩
          · exact h10
          · have := h13.le
            injection h9 with h9
            injection h9 with e1 e2 e3 e4
            omega
        have h14 : (Int.toNat (s : Int)) = s := rfl
        cases h6 with
        | nil => omega
        | cons h15 h16 h17 =>
          rcases h4 with h4 | h4
          · omega
          · have h18 : decode (b.drop s) = _ := h16
            rw [h18] at h4
            exact h7 (by simp [← h4])
      · cases h
      · cases h
  · cases h

/-- Spec: the texts and offsets of the words that a program gets from at most `f` calls of `Word`, each at the offset where the bytes parsed by
the one before end, until one gives no word. -/
def scan (U : Uni) (b : Bytes) : Nat → Nat → List (Str × Nat)
  | 0, _ => []
  | f+1, off => match ((calls U b [.word off] newParser)[0]? : Option Out) with
    | some (Out.word (.mk t s _ _) k) => (t, s) :: scan U b f (off + k)
    | _ => []

/-- C71: a program that reads a parsed text word by word, beginning at the first, gets all words of the syntax tree in the order of the
text and no others, if none of them is of the exceptions of `C71_word_at_partial`. -/
theorem C71_scan_partial {U : Uni} {b : Bytes} (hU : U.Ok) (hP : Plain U) (cs : List Call) (n : Node)
    (h : Out.text n ∈ calls U b cs newParser) (hs : ∀ w ∈ toks false n, ¬ Special (.ofBytes b) w) :
    ∃ l : List Tok, l.Perm (toks false n) ∧ l.Pairwise (fun v w => v.e ≤ w.s) ∧
      ∀ w, l.head? = some w → ∀ f, l.length ≤ f → scan U b f w.s = l.map fun w => (w.t, w.s) := by
  obtain ⟨q, _, L, hL, hT⟩ := C17_whole_text hU cs n h
  obtain ⟨hso, hlt⟩ := hT.sorted
  have hnd : L.Nodup := hso.imp_of_mem fun {a c} ha hc hac he => by
    have := (hlt a ha).2.1
    rw [he] at hac this
    omega
  refine ⟨L.filter fun a => decide (a ∈ toks false n), ?_, hso.filter _, ?_⟩
  · refine List.perm_iff_count.2 fun a => ?_
    have h1 := cntN a n
    have h2 := hL.count_eq a
    have h3 : L.count a ≤ 1 := List.nodup_iff_count.1 hnd a
    simp only [cnt] at h1
    by_cases ha : a ∈ toks false n
    · rw [List.count_filter (by simpa using ha)]
      have := List.count_pos_iff.2 ha
      omega
    · rw [List.count_eq_zero.2 ha, List.count_eq_zero.2 (by simp [ha])]
  · have hl : ∀ w ∈ L.filter (fun a => decide (a ∈ toks false n)), w ∈ toks false n := fun w hw => by simpa using (List.mem_filter.1 hw).2
    have hr : ∀ w ∈ toks false n, w ∈ L.filter (fun a => decide (a ∈ toks false n)) := fun w hw =>
      List.mem_filter.2 ⟨hL.mem_iff.2 (mem_words.2 (.inl hw)), by simpa using hw⟩
    have hpw := hso.filter fun a => decide (a ∈ toks false n)
    have hpos : ∀ w ∈ toks false n, w.s < w.e := fun w hw => (hlt w (hL.mem_iff.2 (mem_words.2 (.inl hw)))).2.1
    generalize L.filter (fun a => decide (a ∈ toks false n)) = l at hl hr hpw
    have key : ∀ l' pre, l = pre ++ l' → ∀ w, l'.head? = some w →
        ∀ f, l'.length ≤ f → scan U b f w.s = l'.map fun w => (w.t, w.s) := by
      intro l'
      induction l' with
      | nil => intro pre _ w hw; cases hw
      | cons w rest ih =>
        intro pre he w0 hw0 f hf
        injection hw0 with hw0
        subst hw0
        obtain ⟨f, rfl⟩ : ∃ g, f = g + 1 := ⟨f - 1, by simp only [List.length_cons] at hf; omega⟩
        simp only [List.length_cons, Nat.add_le_add_iff_right] at hf
        have hw : w ∈ toks false n := hl w (by simp [he])
        obtain ⟨o, k, c1, c2, c3, c4⟩ := C71_next_partial hU hP cs n h w hw (hs w hw) [.word w.s] 0 rfl
        simp only [scan, c1, List.map_cons, List.cons.injEq, true_and]
        cases rest with
        | nil =>
          have hc : Consumed b (w.s + k) := by
            rcases c4 with c4 | ⟨t, ht, c4⟩
            · exact c4.1
            · have h1 := hr t ht
              rw [he, List.mem_append, List.mem_singleton] at h1
              have := hpos t ht
              have := hpos w hw
              rw [he] at hpw
              rcases h1 with h1 | rfl
              · have := (List.pairwise_append.1 hpw).2.2 t h1 w (by simp)
                omega
              · omega
          cases f with
          | zero => rfl
          | succ f =>
            simp only [scan, List.map_nil]
            split
            · rename_i h1
              exact absurd h1 (word_stop hU hc [.word ((w.s + k : Nat) : Int)] 0 rfl _ _ _ _ _)
            · rfl
        | cons w' rest =>
          have hw' : w' ∈ toks false n := hl w' (by simp [he])
          have hp := hpos w' hw'
          rw [he] at hpw
          have p1 := List.pairwise_append.1 hpw
          have p2 := List.pairwise_cons.1 p1.2.1
          have p3 := List.pairwise_cons.1 p2.2
          have d1 := c3 w' hw' (p2.1 w' (by simp))
          have hk : w.s + k = w'.s := by
            rcases c4 with ⟨_, c4⟩ | ⟨t, ht, c4⟩
            · have := c4 w' hw'
              omega
            · have h1 := hr t ht
              rw [he, List.mem_append, List.mem_cons, List.mem_cons] at h1
              have := hpos t ht
              have := hpos w hw
              rcases h1 with h1 | rfl | rfl | h1
              · have := p1.2.2 t h1 w (by simp)
                omega
              · omega
              · exact c4.symm
              · have := p3.1 t h1
                omega
          rw [hk]
          exact ih (pre ++ [w]) (by simp [he]) w' rfl f hf
    exact key l [] rfl

/-- The bytes that `Word` returns, and where they end. -/
def outBytes : Out → List (Nat × Nat)
  | .word (.mk _ s _ _) k => [(s, s + k)]
  | _ => []

/-- Read word by word; the last word is followed by the end of the text. -/
example : (run "Mai?, suq/ ji/ moq. " [.word 0, .word 6, .word 11, .word 15]).map outBytes =
      [[(0, 6)], [(6, 11)], [(11, 15)], [(15, 20)]] ∧
    (run "Mai?, suq/ ji/ moq. " [.text]).map outToks = [[("Mảı", 0, 4), ("súq", 6, 10), ("jí", 11, 14), ("moq", 15, 18)]] := by
  decide +kernel

example : (scan asciiUni (utf8 "Mai? suq/ (kio Sha?mu- ki) moq.".toList) 9 0).map (fun w => (String.ofList w.1, w.2)) =
    [("Mảı", 0), ("súq", 5), ("kıo", 11), ("Shảmū", 15), ("kı", 23), ("moq", 27)] := by decide +kernel

end Verif.Parse
