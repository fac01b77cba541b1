/-
Where tone digits may stand: the Action functions panic exactly on the texts that have a tone digit
elsewhere than after the first vowel of a syllable (C46).
-/
import Verif.Parse.WordVal
import Verif.Parse.TextProps

namespace Verif.Parse
open Verif.AST Verif.AST.Spec Verif.Peg Verif.Parse.WordLang
open Verif.Tone (Str)

variable {U : Uni} {I : Input}

/-! ## Specification -/

/-- The consonants that begin a syllable. -/
def onsetRunes : Str := "bBcCdDfFgGhHjJkKlLmMnNpPrRsStT".toList

/-- The vowels without a mark of tone. -/
def bareVowels : Str := "aAuUiIıoOeE".toList

/-- The digits that write a tone. -/
def toneDigits : Str := "1234567".toList

/-- Every tone digit stands after a consonant and a vowel: the vowel is the first of its syllable. -/
def DigitsInPlace (rs : Str) : Prop := ∀ xs d ys, rs = xs ++ d :: ys → d ∈ toneDigits →
  ∃ zs c v, xs = zs ++ [c, v] ∧ c ∈ onsetRunes ∧ v ∈ bareVowels

theorem DigitsInPlace.nil : DigitsInPlace [] := by
  intro xs d ys h
  simp at h

theorem DigitsInPlace.append {r s : Str} (h : DigitsInPlace r) (h' : DigitsInPlace s) : DigitsInPlace (r ++ s) := by
  intro xs d ys e hd
  rcases List.append_eq_append_iff.1 e with ⟨t, h1, h2⟩ | ⟨t, h1, h2⟩
  · obtain ⟨zs, c, v, h3, h4⟩ := h' t d ys h2 hd
    exact ⟨r ++ zs, c, v, by rw [h1, h3, List.append_assoc], h4⟩
  · cases t with
    | nil =>
      obtain ⟨zs, c, v, h3, h4⟩ := h' [] d ys h2.symm hd
      simp at h3
    | cons x t =>
      simp only [List.cons_append, List.cons.injEq] at h2
      obtain ⟨rfl, _⟩ := h2
      exact h xs d t h1 hd

theorem DigitsInPlace.one {c : Char} (h : c ∉ toneDigits) : DigitsInPlace [c] := by
  intro xs d ys e hd
  cases xs with
  | nil => simp only [List.nil_append, List.cons.injEq] at e; rw [← e.1] at hd; exact absurd hd h
  | cons x xs => simp at e

/-! ## What expressions read, piece by piece -/

/-- All terminals outside of lookaheads are in `P`, all references in `K`. -/
def over (P : Term → Bool) (K : Nat → Bool) : Expr Act → Bool
  | .term t => P t
  | .ref r => K r
  | .seq a b | .alt a b => over P K a && over P K b
  | .not _ | .and _ => true
  | .opt a | .plus a | .star a | .lab a | .grp a | .act _ a => over P K a

section
variable {E : Type} {A : Alg Act E} {P : Term → Bool} {K : Nat → Bool} {Q : Str → Prop}

theorem over_ok (h0 : Q []) (h2 : ∀ r s, Q r → Q s → Q (r ++ s))
    (hP : ∀ t p q, P t = true → tm U I t p = .inl q → ∃ rs, Spans I p q rs ∧ Q rs)
    (hK : ∀ r, K r = true → over P K (toaq.body r) = true ∨
      ∀ n p q x, ev U toaq I A n (.ref r) p = some (.ok q x) → ∃ rs, Spans I p q rs ∧ Q rs) :
    ∀ n e p q x, over P K e = true → ev U toaq I A n e p = some (.ok q x) → ∃ rs, Spans I p q rs ∧ Q rs := by
  have app : ∀ {p m q}, (∃ rs, Spans I p m rs ∧ Q rs) → (∃ rs, Spans I m q rs ∧ Q rs) → ∃ rs, Spans I p q rs ∧ Q rs :=
    fun ⟨r, h1, h3⟩ ⟨s, h4, h5⟩ => ⟨r ++ s, h1.append h4, h2 r s h3 h5⟩
  have emp : ∀ p, ∃ rs, Spans I p p rs ∧ Q rs := fun p => ⟨[], .nil p, h0⟩
  intro n
  induction n with
  | zero => intro e p q x _ h; rw [ev_0] at h; cases h
  | succ n ih =>
    intro e p q x ho h
    cases e with
    | term t =>
      obtain ⟨h1, _⟩ := ev_term h
      exact hP t p q ho h1
    | ref r =>
      rcases hK r ho with h1 | h1
      · obtain ⟨y, hy, _⟩ := ev_ref h
        exact ih _ _ _ _ h1 hy
      · exact h1 _ _ _ _ h
    | seq a b =>
      simp only [over, Bool.and_eq_true] at ho
      obtain ⟨m, y, z, h1, h3, _⟩ := ev_seq h
      exact app (ih _ _ _ _ ho.1 h1) (ih _ _ _ _ ho.2 h3)
    | alt a b =>
      simp only [over, Bool.and_eq_true] at ho
      rcases ev_alt h with h1 | h1
      · exact ih _ _ _ _ ho.1 h1
      · exact ih _ _ _ _ ho.2 h1
    | opt a =>
      rcases ev_opt h with ⟨rfl, _⟩ | h1
      · exact emp _
      · exact ih a _ _ _ ho h1
    | plus a =>
      rw [ev_s] at h
      simp only [evStep] at h
      split at h
      · rename_i m y hy
        split at h
        · rename_i q' z hz
          injection h with h
          injection h with h1 _
          subst h1
          exact app (ih a _ _ _ ho hy) (ih (.star a) _ _ _ ho hz)
        · rename_i hne
          exact absurd h (hne _ _)
      · rename_i hne
        exact absurd h (hne _ _)
    | star a =>
      rw [ev_s] at h
      simp only [evStep] at h
      split at h
      · rename_i m y hy
        split at h
        · rename_i q' z hz
          injection h with h
          injection h with h1 _
          subst h1
          exact app (ih a _ _ _ ho hy) (ih (.star a) _ _ _ ho hz)
        · rename_i hne
          exact absurd h (hne _ _)
      · injection h with h
        injection h with h1 _
        subst h1
        exact emp _
      · rename_i hne _
        exact absurd h (hne _ _)
    | not a => obtain ⟨h1, _⟩ := ev_not h; first | exact h1 ▸ emp _ | (subst h1; exact emp _)
    | and a => obtain ⟨h1, _⟩ := ev_and h; first | exact h1 ▸ emp _ | (subst h1; exact emp _)
    | lab a => obtain ⟨y, h1, _⟩ := ev_lab h; exact ih a _ _ _ ho h1
    | grp a => obtain ⟨y, h1, _⟩ := ev_grp h; exact ih a _ _ _ ho h1
    | act f a => obtain ⟨y, h1, _⟩ := ev_act h; exact ih a _ _ _ ho h1

theorem tm_runes {t p q} (h : tm U I t p = .inl q) : ∃ c, Spans I p q [c] ∧ (∀ cs, t = .cls cs → c ∈ cs) ∧
    (∀ d, t = .lit d → c = d) := by
  have key : ∀ {c w}, I.rune p = some (c, w) → q = p + w → Spans I p q [c] := by
    intro c w hr hq
    unfold Input.rune at hr
    split at hr
    · injection hr with hr
      subst hq
      exact .cons (by assumption) hr (.nil _)
    · cases hr
  cases t with
  | cls cs =>
    simp only [tm] at h
    split at h
    · rename_i c w hr
      split at h
      · rename_i hc
        injection h with h
        exact ⟨c, key hr h.symm, (by intro _ e; injection e with e; subst e; simpa using hc), (by intro _ e; cases e)⟩
      · cases h
    · cases h
  | lit d =>
    simp only [tm] at h
    split at h
    · rename_i c w hr
      split at h
      · rename_i hc
        injection h with h
        exact ⟨c, key hr h.symm, (by intro _ e; cases e), (by intro _ e; injection e with e; rw [← e]; exact hc)⟩
      · cases h
    · cases h
  | any =>
    simp only [tm] at h
    split at h
    · rename_i c w hr
      split at h
      · injection h with h
        exact ⟨c, key hr h.symm, (by intro _ e; cases e), (by intro _ e; cases e)⟩
      · cases h
    · cases h
  | punct =>
    simp only [tm] at h
    split at h
    · rename_i c w hr
      split at h
      · split at h
        · injection h with h
          exact ⟨c, key hr h.symm, (by intro _ e; cases e), (by intro _ e; cases e)⟩
        · cases h
      · cases h
    · cases h

/-- The expressions of the grammar read whole runes, other than U+FFFD. -/
theorem ev_reads {n e p q x} (he : noBad e = true) (h : ev U toaq I A n e p = some (.ok q x)) :
    ∃ rs, Spans I p q rs ∧ bad ∉ rs := by
  have ha := ev_acc U toaq I A n e p 0
  rw [h] at ha
  obtain ⟨er, ha⟩ := ha
  exact reads U n e p 0 q er he ha
end

/-! ## Panics -/

/-- No `addTone`, and all references in `K`. -/
def calm (K : Nat → Bool) : Expr Act → Bool
  | .term t => noBad (.term t)
  | .ref r => K r
  | .seq a b | .alt a b => calm K a && calm K b
  | .not a | .and a | .opt a | .plus a | .star a | .lab a | .grp a => calm K a
  | .act f a => f != .addTone && calm K a

theorem calm_noBad {K : Nat → Bool} (e : Expr Act) (h : calm K e = true) : noBad e = true := by
  induction e <;> simp_all [calm, noBad]

/-- A panic comes from one of the rules that are not calm. -/
theorem panic_from (hU : U.punct 'i' = false) {K : Nat → Bool} {Bad : Prop} {Rc : Nat → Prop}
    (hR : ∀ p q rs, Rc p → Spans I p q rs → bad ∉ rs → Rc q)
    (hK : ∀ r, K r = true → calm K (toaq.body r) = true ∨
      ∀ n p e, Rc p → ev U toaq I (actAlg I) n (.ref r) p = some (.panic e) → Bad) : ∀ n,
    (∀ e t es p er, infer types.get e = some (t, es) → calm K e = true → Rc p →
      ev U toaq I (actAlg I) n e p = some (.panic er) → Bad) ∧
    (∀ a t es p er, infer types.get a = some (t, es) → calm K a = true → Rc p →
      ev U toaq I (actAlg I) n (.star a) p = some (.panic er) → Bad) := by
  intro n
  induction n with
  | zero =>
    refine ⟨?_, ?_⟩
    · intro e t es p er _ _ _ h
      rw [ev_0] at h
      cases h
    · intro e t es p er _ _ _ h
      rw [ev_0] at h
      cases h
  | succ n ih =>
    obtain ⟨ih, ihs⟩ := ih
    have mv : ∀ {e p q x}, calm K e = true → Rc p → ev U toaq I (actAlg I) n e p = some (.ok q x) → Rc q := fun hc hp h => by
      obtain ⟨rs, h1, h2⟩ := ev_reads (calm_noBad _ hc) h
      exact hR _ _ rs hp h1 h2
    constructor
    · intro e t es p er hi hc hp h
      have h' := h
      rw [ev_s] at h
      cases e with
      | term tt =>
        simp only [evStep] at h
        split at h <;> cases h
      | ref r =>
        rcases hK r hc with h1 | h1
        · simp only [evStep] at h
          split at h
          · cases h
          · cases h
          · have ht := typed r
            unfold checkRule at ht
            split at ht
            · rename_i u us hu
              split at h
              · cases h
              · exact ih _ _ _ _ _ hu h1 hp h
            · cases ht
        · exact h1 _ _ _ hp h'
      | seq a b =>
        simp only [infer] at hi
        simp only [calm, Bool.and_eq_true] at hc
        split at hi
        · rename_i ta ea tb eb ha hb
          simp only [evStep] at h
          split at h
          · rename_i q x hx
            split at h
            · cases h
            · exact ih _ _ _ _ _ hb hc.2 (mv hc.1 hp hx) h
          · exact ih _ _ _ _ _ ha hc.1 hp h
        · cases hi
      | alt a b =>
        simp only [infer] at hi
        simp only [calm, Bool.and_eq_true] at hc
        split at hi
        · rename_i ta ea tb eb ha hb
          simp only [evStep] at h
          split at h
          · exact ih _ _ _ _ _ hb hc.2 hp h
          · exact ih _ _ _ _ _ ha hc.1 hp h
        · cases hi
      | opt a =>
        simp only [infer] at hi
        split at hi
        · rename_i ta ea ha
          simp only [evStep] at h
          split at h
          · cases h
          · exact ih a _ _ _ _ ha hc hp h
        · cases hi
      | plus a =>
        simp only [infer] at hi
        split at hi
        · rename_i ta ea ha
          simp only [evStep] at h
          split at h
          · rename_i q x hx
            split at h
            · cases h
            · exact ihs a _ _ _ _ ha hc (mv (e := a) hc hp hx) h
          · exact ih a _ _ _ _ ha hc hp h
        · cases hi
      | star a => simp [infer] at hi
      | not a =>
        simp only [infer] at hi
        split at hi
        · rename_i te ha
          simp only [evStep] at h
          split at h
          · cases h
          · cases h
          · exact ih a _ _ _ _ ha hc hp h
        · cases hi
      | and a =>
        simp only [infer] at hi
        split at hi
        · rename_i te ha
          simp only [evStep] at h
          split at h
          · cases h
          · exact ih a _ _ _ _ ha hc hp h
        · cases hi
      | lab a =>
        simp only [infer] at hi
        split at hi
        · rename_i ta ea ha
          simp only [evStep] at h
          split at h
          · cases h
          · exact ih a _ _ _ _ ha hc hp h
        · cases hi
      | grp a =>
        simp only [infer] at hi
        split at hi
        · rename_i ta ea ha
          simp only [evStep] at h
          split at h
          · cases h
          · exact ih a _ _ _ _ ha hc hp h
        · cases hi
      | act f a =>
        simp only [infer] at hi
        simp only [calm, Bool.and_eq_true, bne_iff_ne] at hc
        split at hi
        · rename_i ta ea ha
          split at hi
          · rename_i u hf
            simp only [evStep] at h
            split at h
            · rename_i q x hx
              have s1 := (infer_ok hU toaq types.get typed n).1 _ _ _ _ _ ha hx
              rcases sig_ok hf s1.2 with ⟨v, h3, h4⟩ | ⟨h3, h4, _⟩
              · simp only [actAlg, h3] at h
                cases h
              · exact absurd h4 hc.1
            · exact ih a _ _ _ _ ha hc.2 hp h
          · cases hi
        · cases hi
    · intro a t es p er hi hc hp h
      rw [ev_s] at h
      simp only [evStep] at h
      split at h
      · rename_i q x hx
        split at h
        · cases h
        · exact ihs a _ _ _ _ hi hc (mv (e := a) hc hp hx) h
      · cases h
      · exact ih a _ _ _ _ hi hc hp h

/-- The rules of the letters, the desinences and the boundary. -/
def lowRule (r : Nat) : Bool := (decide (132 ≤ r) && decide (r < 225)) || (decide (300 ≤ r) && decide (r < 308))

theorem low_table : ((List.range 403).all fun r => !lowRule r || calm lowRule (toaq.body r)) = true := by decide +kernel

theorem low_lt {r} (h : lowRule r = true) : r < 403 := by
  unfold lowRule at h
  simp at h
  omega

theorem low_calm {r} (h : lowRule r = true) : calm lowRule (toaq.body r) = true := by
  have hr := low_lt h
  have := List.all_eq_true.1 low_table r (List.mem_range.2 hr)
  simp only [Bool.or_eq_true, Bool.not_eq_true'] at this
  rcases this with h1 | h1
  · rw [h1] at h; cases h
  · exact h1

/-- Letters do not panic. -/
theorem low_quiet (hU : U.punct 'i' = false) {n e t es p er} (hi : infer types.get e = some (t, es))
    (hc : calm lowRule e = true) : ev U toaq I (actAlg I) n e p ≠ some (.panic er) := fun h =>
  (panic_from (Bad := False) (Rc := fun _ => True) hU (fun _ _ _ _ _ _ => trivial)
    (fun _ hr => .inl (low_calm hr)) n).1 e t es p er hi hc
    trivial h

/-! ## Syllables with tone -/

/-- The expression succeeds where the text goes on with `c`, and reads only this rune. -/
def one : Nat → Expr Act → Char → Bool
  | 0, _, _ => false
  | m+1, e, c => match e with
    | .term (.cls cs) => cs.contains c
    | .ref r => one m (toaq.body r) c
    | .lab a => one m a c
    | .grp a => one m a c
    | .act _ a => one m a c
    | _ => false

theorem one_ok {c w} : ∀ m e n p err o err', one m e c = true → p < I.len → I.next p = (c, w) →
    acc U toaq I n e p err = some (o, err') → o = some (p + w) := by
  intro m
  induction m with
  | zero => intro e n p err o err' h; simp [one] at h
  | succ m ih =>
    intro e n p err o err' hm h1 h2 h
    cases n with
    | zero => rw [acc_0] at h; cases h
    | succ n =>
    rw [acc_s] at h
    have hr : I.rune p = some (c, w) := by simp [Input.rune, h1, h2]
    cases e with
    | term t =>
      simp only [accStep] at h
      cases t with
      | cls cs =>
        simp only [one] at hm
        simp only [tm, hr, hm, if_true] at h
        injection h with h
        injection h with h _
        exact h.symm
      | lit d => simp [one] at hm
      | any => simp [one] at hm
      | punct => simp [one] at hm
    | ref r =>
      simp only [one] at hm
      simp only [accStep] at h
      split at h
      · cases h
      · rename_i he
        injection h with h
        injection h with h _
        subst h
        exact ih _ _ _ _ _ _ hm h1 h2 he
      · rename_i he
        injection h with h
        injection h with h _
        subst h
        exact ih _ _ _ _ _ _ hm h1 h2 he
    | lab a => exact ih _ _ _ _ _ _ hm h1 h2 h
    | grp a => exact ih _ _ _ _ _ _ hm h1 h2 h
    | act f a => exact ih _ _ _ _ _ _ hm h1 h2 h
    | alt a b => simp [one] at hm
    | seq a b => simp [one] at hm
    | opt a => simp [one] at hm
    | plus a => simp [one] at hm
    | star a => simp [one] at hm
    | not a => simp [one] at hm
    | and a => simp [one] at hm

/-- The expression succeeds where the text goes on with `c` and `d`. -/
def must2 : Nat → Expr Act → Char → Char → Bool
  | 0, _, _, _ => false
  | m+1, e, c, d => match e with
    | .ref r => must2 m (toaq.body r) c d
    | .alt a b => must2 m a c d || must2 m b c d
    | .seq a b => one m a c && must m b d
    | .lab a => must2 m a c d
    | .grp a => must2 m a c d
    | .act _ a => must2 m a c d
    | _ => false

theorem must2_ok {c w d w'} : ∀ m e n p err err', must2 m e c d = true → p < I.len → I.next p = (c, w) →
    p + w < I.len → I.next (p + w) = (d, w') → acc U toaq I n e p err ≠ some (none, err') := by
  intro m
  induction m with
  | zero => intro e n p err err' h; simp [must2] at h
  | succ m ih =>
    intro e n p err err' hm h1 h2 h3 h4 h
    cases n with
    | zero => rw [acc_0] at h; cases h
    | succ n =>
    rw [acc_s] at h
    cases e with
    | term t => simp [must2] at hm
    | ref r =>
      simp only [must2] at hm
      simp only [accStep] at h
      split at h
      · cases h
      · cases h
      · rename_i e' he
        exact ih _ _ _ _ _ hm h1 h2 h3 h4 he
    | alt a b =>
      simp only [must2, Bool.or_eq_true] at hm
      simp only [accStep] at h
      split at h
      · rename_i e' he
        rcases hm with hm | hm
        · exact ih _ _ _ _ _ hm h1 h2 h3 h4 he
        · exact ih _ _ _ _ _ hm h1 h2 h3 h4 h
      · rename_i hne
        exact hne _ h
    | seq a b =>
      simp only [must2, Bool.and_eq_true] at hm
      simp only [accStep] at h
      split at h
      · rename_i q e' he
        have := one_ok _ _ _ _ _ _ _ hm.1 h1 h2 he
        injection this with this
        subst this
        exact must_ok _ _ _ _ _ _ hm.2 h3 h4 h
      · have := one_ok _ _ _ _ _ _ _ hm.1 h1 h2 h
        cases this
    | lab a => exact ih _ _ _ _ _ hm h1 h2 h3 h4 h
    | grp a => exact ih _ _ _ _ _ hm h1 h2 h3 h4 h
    | act f a => exact ih _ _ _ _ _ hm h1 h2 h3 h4 h
    | opt a => simp [must2] at hm
    | plus a => simp [must2] at hm
    | star a => simp [must2] at hm
    | not a => simp [must2] at hm
    | and a => simp [must2] at hm

/-- toaq.peggy:427 the template `syllable<desinence, tone>`. -/
def sylBody (des tn : Nat) : Expr Act :=
  .seq (.ref 133) (.seq (.grp (.alt (.ref des) (.act .addTone (.seq (.lab (.ref 134)) (.lab (.ref tn)))))) (.and (.ref 132)))

/-- The rules made with it, their desinences and tones. -/
def toneSyls : List (Nat × Nat × Nat) :=
  [(293, 135, 154), (294, 136, 161), (295, 137, 169), (296, 138, 176), (297, 139, 183), (298, 140, 190), (299, 141, 197)]

theorem toneSyl_bodies : ∀ t ∈ toneSyls, toaq.body t.1 = sylBody t.2.1 t.2.2 := by
  intro t ht
  simp only [toneSyls, List.mem_cons, List.not_mem_nil, or_false] at ht
  rcases ht with rfl | rfl | rfl | rfl | rfl | rfl | rfl <;> rfl

/-- What is checked of the rules: the types of the tones, and that a desinence can be a vowel followed by a digit. -/
def sylOk (t : Nat × Nat × Nat) : Bool :=
  lowRule t.2.1 && lowRule t.2.2 && sub (types.get t.2.2) (.chr toneRunes) &&
  (match toaq.body t.2.2 with
    | .term (.cls cs) => bareVowels.all fun v => toneDigits.all fun d => !cs.contains d || must2 90 (.ref t.2.1) v d
    | _ => false)

theorem toneSyl_ok : (toneSyls.all sylOk) = true := by decide +kernel

/-- A desinence without tone: vowels and `q`, and if it is one letter, a vowel. -/
def neutralSeq (s : Seq) : Bool :=
  (s.all fun k => k.all fun c => !onsetRunes.contains c && !toneDigits.contains c) &&
  match s with
  | [] => false
  | [k] => k.all fun c => bareVowels.contains c
  | _ => true

theorem neutral_seqs : (match lang 90 (.ref 134) with
  | some ls => ls.all neutralSeq
  | none => false) = true := by decide +kernel

theorem neutral_ty : sub (types.get 134) (.sy plainVowels) = true := by decide +kernel

theorem fits_spans {s p q} (h : Fits I s p q) : ∃ rs, Spans I p q rs ∧ rs.length = s.length ∧ ∀ c ∈ rs, ∃ k ∈ s, c ∈ k := by
  induction h with
  | nil p => exact ⟨[], .nil p, rfl, by simp⟩
  | @cons p q c w k ks h1 h2 h3 _ ih =>
    obtain ⟨rs, h4, h5, h6⟩ := ih
    refine ⟨c :: rs, .cons h1 h2 h4, by simp [h5], ?_⟩
    intro x hx
    rcases List.mem_cons.1 hx with rfl | hx
    · exact ⟨k, by simp, h3⟩
    · obtain ⟨k', hk, hx⟩ := h6 x hx
      exact ⟨k', by simp [hk], hx⟩

theorem neutral_reads {E : Type} {A : Alg Act E} {n p q x} (h : ev U toaq I A n (.ref 134) p = some (.ok q x)) :
    ∃ rs, Spans I p q rs ∧ (∀ c ∈ rs, c ∉ onsetRunes ∧ c ∉ toneDigits) ∧ (2 ≤ rs.length ∨ ∃ v ∈ bareVowels, rs = [v]) := by
  have h1 := neutral_seqs
  split at h1
  · rename_i ls hl
    obtain ⟨s, hs, hf⟩ := lang_ok _ _ _ _ _ _ _ hl h
    obtain ⟨rs, h2, h3, h4⟩ := fits_spans hf
    have h5 := List.all_eq_true.1 h1 s hs
    simp only [neutralSeq, Bool.and_eq_true] at h5
    obtain ⟨h5, h6⟩ := h5
    refine ⟨rs, h2, ?_, ?_⟩
    · intro c hc
      obtain ⟨k, hk, hc⟩ := h4 c hc
      have := List.all_eq_true.1 (List.all_eq_true.1 h5 k hk) c hc
      simpa using this
    · split at h6
      · cases h6
      · rename_i k
        cases rs with
        | nil => simp at h3
        | cons v rs =>
          cases rs with
          | nil =>
            obtain ⟨k', hk, hv⟩ := h4 v (by simp)
            simp only [List.mem_cons, List.not_mem_nil, or_false] at hk
            subst hk
            exact .inr ⟨v, by simpa using List.all_eq_true.1 h6 v hv, rfl⟩
          | cons _ _ => simp at h3
      · rename_i h7 h8
        left
        cases s with
        | nil => exact absurd rfl h7
        | cons k s =>
          cases s with
          | nil => exact absurd rfl (h8 k)
          | cons _ _ => rw [h3]; simp
  · cases h1

theorem syl_panic (hU : U.punct 'i' = false) {t} (ht : t ∈ toneSyls) {n p e}
    (h : ev U toaq I (actAlg I) n (.ref t.1) p = some (.panic e)) :
    ∃ m q rs ss d w, Spans I p m rs ∧ bad ∉ rs ∧ Spans I m q ss ∧ bad ∉ ss ∧ q < I.len ∧ I.next q = (d, w) ∧ d ∈ toneDigits ∧
      (∀ c ∈ ss, c ∉ onsetRunes) ∧ 2 ≤ ss.length := by
  have hb := toneSyl_bodies t ht
  have hk := List.all_eq_true.1 toneSyl_ok t ht
  obtain ⟨r, des, tn⟩ := t
  simp only [sylOk, Bool.and_eq_true] at hk hb
  obtain ⟨⟨⟨k1, k2⟩, k3⟩, k4⟩ := hk
  simp only at h
  cases n with
  | zero => rw [ev_0] at h; cases h
  | succ n =>
  rw [ev_s] at h
  simp only [evStep] at h
  split at h
  · cases h
  · cases h
  rw [hb] at h
  split at h
  · cases h
  rename_i hne
  clear hne
  cases n with
  | zero => rw [ev_0] at h; cases h
  | succ n =>
  rw [sylBody, ev_s] at h
  simp only [evStep] at h
  have quiet : ∀ {n r p e}, lowRule r = true → ev U toaq I (actAlg I) n (.ref r) p ≠ some (.panic e) := fun hl =>
    low_quiet hU (e := .ref _) rfl hl
  split at h
  · rename_i m x hx
    obtain ⟨rs, hrs, hbad⟩ := ev_reads rfl hx
    split at h
    · cases h
    rename_i hne
    clear hne
    cases n with
    | zero => rw [ev_0] at h; cases h
    | succ n =>
    rw [ev_s] at h
    simp only [evStep] at h
    split at h
    · rename_i q y hy
      split at h
      · cases h
      · cases n with
        | zero => rw [ev_0] at h; cases h
        | succ n =>
        rw [ev_s] at h
        simp only [evStep] at h
        split at h
        · cases h
        · exact absurd h (quiet (by decide))
    · cases n with
      | zero => rw [ev_0] at h; cases h
      | succ n =>
      rw [ev_s] at h
      simp only [evStep] at h
      split at h
      · cases h
      cases n with
      | zero => rw [ev_0] at h; cases h
      | succ n =>
      rw [ev_s] at h
      simp only [evStep] at h
      split at h
      · rename_i hfail
        cases n with
        | zero => rw [ev_0] at h; cases h
        | succ n =>
        rw [ev_s] at h
        simp only [evStep] at h
        split at h
        · rename_i q y hy
          cases n with
          | zero => rw [ev_0] at hy; cases hy
          | succ n =>
          obtain ⟨k, a, b, h1, h2, h3⟩ := ev_seq hy
          cases n with
          | zero => rw [ev_0] at h1; cases h1
          | succ n =>
          obtain ⟨a', g1, e1⟩ := ev_lab h1
          obtain ⟨b', g2, e2⟩ := ev_lab h2
          subst e1 e2
          clear h1 h2
          have h1 := g1
          have h2 := g2
          clear g1 g2
          obtain ⟨ss, s1, s2, s3⟩ := neutral_reads h1
          obtain ⟨c, hc, s, hs, _⟩ := sub_mean neutral_ty (rule_sound hU h1).1
          obtain ⟨d, hd, hd', hl, w, hw, _⟩ := sub_mean k3 (rule_sound hU h2).1
          have hdig : d ∈ toneDigits := by
            cases hx : d.isDigit with
            | true => exact (digit_table d hd hx).1
            | false =>
              obtain ⟨z, hz, _⟩ := diacritic_table hd hx hc
              subst h3
              simp [actAlg, runAct, Val.asStr, addToneTo, hs, hd', hz] at h
          obtain ⟨ss', u1, u2⟩ := ev_reads rfl h1
          rw [u1.unique s1] at u2
          refine ⟨m, k, rs, ss, d, w, hrs, hbad, s1, u2, hl, hw, hdig, fun c hc => (s2 c hc).1, ?_⟩
          rcases s3 with h4 | ⟨v, hv, rfl⟩
          · exact h4
          · exfalso
            cases s1 with
            | cons g1 g2 g3 =>
            cases g3
            cases n with
            | zero => rw [ev_0] at h2; cases h2
            | succ n =>
            obtain ⟨z, h2, _⟩ := ev_ref h2
            split at k4
            · rename_i cs hcs
              rw [hcs] at h2
              cases n with
              | zero => rw [ev_0] at h2; cases h2
              | succ n =>
              obtain ⟨h2, _⟩ := ev_term h2
              obtain ⟨c', w', _, g4, g5, _⟩ := tm_cls (.inl rfl) h2
              rw [hw] at g4
              injection g4 with g4 _
              subst g4
              have := List.all_eq_true.1 (List.all_eq_true.1 k4 v hv) d hdig
              simp only [Bool.or_eq_true, Bool.not_eq_true', List.contains_iff_mem.2 g5] at this
              rcases this with h5 | h5
              · cases h5
              · have ha := ev_acc U toaq I (actAlg I) (n + 1 + 1 + 1 + 1 + 1) (.ref des) m 0
                rw [hfail] at ha
                obtain ⟨er, ha⟩ := ha
                exact must2_ok _ _ _ _ _ _ h5 g1 g2 hl hw ha
            · cases k4
        · refine absurd h (low_quiet hU (e := .seq (.lab (.ref 134)) (.lab (.ref tn))) rfl ?_)
          simp only [calm, k2, Bool.and_true]
          decide
      · exact absurd h (quiet k1)
  · exact absurd h (quiet (by decide))

/-- Classes of the runes of a syllable: digits only after an onset and a bare vowel; `a` and `b` are the
classes before. -/
def placed : List Char → List Char → Seq → Bool
  | _, _, [] => true
  | a, b, k :: ks =>
    ((k.all fun c => !toneDigits.contains c) || ((a.all fun c => onsetRunes.contains c) && b.all fun c => bareVowels.contains c)) &&
      placed b k ks

theorem placed_ok {s p q} (h : Fits I s p q) : ∀ a b, placed a b s = true → ∃ rs, Spans I p q rs ∧
    ∀ x ∈ a, ∀ y ∈ b, ∀ xs d ys, rs = xs ++ d :: ys → d ∈ toneDigits →
      ∃ zs c v, x :: y :: xs = zs ++ [c, v] ∧ c ∈ onsetRunes ∧ v ∈ bareVowels := by
  induction h with
  | nil p =>
    intro a b _
    refine ⟨[], .nil p, ?_⟩
    intro x _ y _ xs d ys e
    simp at e
  | @cons p q c w k ks h1 h2 h3 _ ih =>
    intro a b hp
    simp only [placed, Bool.and_eq_true, Bool.or_eq_true] at hp
    obtain ⟨rs, h4, h5⟩ := ih b k hp.2
    refine ⟨c :: rs, .cons h1 h2 h4, ?_⟩
    intro x hx y hy xs d ys e hd
    cases xs with
    | nil =>
      simp only [List.nil_append, List.cons.injEq] at e
      obtain ⟨rfl, _⟩ := e
      rcases hp.1 with h6 | h6
      · have := List.all_eq_true.1 h6 c h3
        simp [hd] at this
      · exact ⟨[], x, y, rfl, by simpa using List.all_eq_true.1 h6.1 x hx, by simpa using List.all_eq_true.1 h6.2 y hy⟩
    | cons z xs =>
      simp only [List.cons_append, List.cons.injEq] at e
      obtain ⟨rfl, e⟩ := e
      obtain ⟨zs, c', v, h6, h7⟩ := h5 y hy c h3 xs d ys e hd
      exact ⟨x :: zs, c', v, by rw [h6]; rfl, h7⟩

/-- The classes of the consonants before a desinence. -/
def onsetSeq (s : Seq) : Bool := !s.isEmpty && s.all fun k => k.all fun c => onsetRunes.contains c && !toneDigits.contains c

theorem onset_seqs : (match lang 90 (.ref 133) with
  | some ls => ls.all onsetSeq
  | none => false) = true := by decide +kernel

theorem onset_reads {E : Type} {A : Alg Act E} {n p q x} (h : ev U toaq I A n (.ref 133) p = some (.ok q x)) :
    ∃ rs, Spans I p q rs ∧ (∀ c ∈ rs, c ∈ onsetRunes ∧ c ∉ toneDigits) ∧ rs ≠ [] := by
  have h1 := onset_seqs
  split at h1
  · rename_i ls hl
    obtain ⟨s, hs, hf⟩ := lang_ok _ _ _ _ _ _ _ hl h
    obtain ⟨rs, h2, h3, h4⟩ := fits_spans hf
    have h5 := List.all_eq_true.1 h1 s hs
    simp only [onsetSeq, Bool.and_eq_true, Bool.not_eq_true'] at h5
    refine ⟨rs, h2, ?_, ?_⟩
    · intro c hc
      obtain ⟨k, hk, hc⟩ := h4 c hc
      have := List.all_eq_true.1 (List.all_eq_true.1 h5.2 k hk) c hc
      simpa using this
    · rintro rfl
      cases s with
      | nil => simp at h5
      | cons _ _ => simp at h3
  · cases h1

theorem desinence_seqs : (toneSyls.all fun t => match lang 90 (.ref t.2.1) with
  | some ls => ls.all fun s => placed ['x'] onsetRunes s
  | none => false) = true := by decide +kernel

theorem no_digits {rs : Str} (h : ∀ c ∈ rs, c ∉ toneDigits) : DigitsInPlace rs := by
  intro xs d ys e hd
  exact absurd hd (h d (by simp [e]))

theorem syl_good (hU : U.punct 'i' = false) {t} (ht : t ∈ toneSyls) {n p q x}
    (h : ev U toaq I (actAlg I) n (.ref t.1) p = some (.ok q x)) : ∃ rs, Spans I p q rs ∧ DigitsInPlace rs := by
  have hb := toneSyl_bodies t ht
  have hk := List.all_eq_true.1 toneSyl_ok t ht
  have hs := List.all_eq_true.1 desinence_seqs t ht
  obtain ⟨r, des, tn⟩ := t
  simp only [sylOk, Bool.and_eq_true] at hk hb hs
  obtain ⟨⟨⟨k1, k2⟩, k3⟩, k4⟩ := hk
  have up : ∀ {n e p r}, ev U toaq I (actAlg I) n e p = some r → ev U toaq I (actAlg I) (n + 1) e p = some r :=
    fun h => ev_mono U toaq I (actAlg I) (Nat.le_succ _) h
  replace h := up (up (up (up (up (up (up (up h)))))))
  obtain ⟨y, h, _⟩ := ev_ref h
  rw [hb] at h
  obtain ⟨m, a, b, h1, h2, _⟩ := ev_seq h
  obtain ⟨rs, r1, r2, r3⟩ := onset_reads h1
  obtain ⟨m', a', b', h3, h4, _⟩ := ev_seq h2
  obtain ⟨rfl, _⟩ := ev_and h4
  obtain ⟨z, h5, _⟩ := ev_grp h3
  rcases ev_alt h5 with h6 | h6
  · split at hs
    · rename_i ls hl
      obtain ⟨s, hsl, hf⟩ := lang_ok _ _ _ _ _ _ _ hl h6
      obtain ⟨ss, s1, s2⟩ := placed_ok hf _ _ (List.all_eq_true.1 hs s hsl)
      refine ⟨rs ++ ss, r1.append s1, ?_⟩
      intro xs d ys e hd
      rcases List.append_eq_append_iff.1 e with ⟨t, g1, g2⟩ | ⟨t, g1, g2⟩
      · obtain ⟨rs', c0, rfl⟩ : ∃ rs' c0, rs = rs' ++ [c0] := ⟨rs.dropLast, rs.getLast r3, (List.dropLast_concat_getLast r3).symm⟩
        obtain ⟨zs, c, v, g3, g4, g5⟩ := s2 'x' (by simp) c0 (r2 c0 (by simp)).1 t d ys g2 hd
        cases zs with
        | nil =>
          simp only [List.nil_append, List.cons.injEq] at g3
          rw [← g3.1] at g4
          exact absurd g4 (by decide)
        | cons z zs =>
          simp only [List.cons_append, List.cons.injEq] at g3
          refine ⟨rs' ++ zs, c, v, ?_, g4, g5⟩
          rw [g1, List.append_assoc, List.append_assoc, ← g3.2]
          rfl
      · cases t with
        | nil =>
          obtain ⟨rs', c0, rfl⟩ : ∃ rs' c0, rs = rs' ++ [c0] := ⟨rs.dropLast, rs.getLast r3, (List.dropLast_concat_getLast r3).symm⟩
          obtain ⟨zs, c, v, g3, g4, g5⟩ := s2 'x' (by simp) c0 (r2 c0 (by simp)).1 [] d ys g2.symm hd
          cases zs with
          | nil =>
            simp only [List.nil_append, List.cons.injEq] at g3
            rw [← g3.1] at g4
            exact absurd g4 (by decide)
          | cons z zs =>
            simp only [List.cons_append, List.cons.injEq] at g3
            have := congrArg List.length g3.2
            simp at this
        | cons y t =>
          simp only [List.cons_append, List.cons.injEq] at g2
          obtain ⟨rfl, _⟩ := g2
          exact absurd hd (r2 d (by rw [g1]; simp)).2
    · cases hs
  · obtain ⟨w, h7, h8⟩ := ev_act h6
    obtain ⟨k, u, v, g1, g2, g3⟩ := ev_seq h7
    obtain ⟨u', f1, e1⟩ := ev_lab g1
    obtain ⟨v', f2, e2⟩ := ev_lab g2
    subst e1 e2
    obtain ⟨ss, s1, s2, _⟩ := neutral_reads f1
    obtain ⟨c, hc, s, hs', _⟩ := sub_mean neutral_ty (rule_sound hU f1).1
    obtain ⟨d, hd, hd', hl, w', hw, hq⟩ := sub_mean k3 (rule_sound hU f2).1
    refine ⟨rs ++ (ss ++ [d]), r1.append (s1.append (.cons hl hw (hq ▸ .nil _))), ?_⟩
    have hdig : d ∉ toneDigits := by
      intro hdig
      have hi : d.isDigit = true := (by decide : ∀ d ∈ toneDigits, d.isDigit = true) d hdig
      have := (digit_table d hd hi).2 c hc
      subst g3
      simp [actAlg, runAct, Val.asStr, addToneTo, hs', hd', this] at h8
    exact (no_digits fun c hc => (r2 c hc).2).append ((no_digits fun c hc => (s2 c hc).2).append (.one hdig))

/-! ## Texts -/

/-- Rules that do not read tones themselves, other than in syllables. -/
def highRule (r : Nat) : Bool :=
  decide (r < 403) && r != 79 && r != 82 && !(decide (101 ≤ r) && decide (r ≤ 122)) && !(decide (135 ≤ r) && decide (r ≤ 197)) &&
    !(decide (301 ≤ r) && decide (r ≤ 307))

def noDigit : Term → Bool
  | .cls cs => cs.all fun c => !toneDigits.contains c
  | .lit c => !toneDigits.contains c
  | _ => false

def leafRule (r : Nat) : Bool := r == 222 || toneSyls.any fun t => t.1 == r

theorem high_table : ((List.range 403).all fun r => !highRule r || leafRule r || over noDigit highRule (toaq.body r)) = true := by
  decide +kernel

theorem tone_digits : (toneDigits.all fun d => must 20 (.ref 142) d) = true := by decide +kernel

theorem punct_good {E : Type} {A : Alg Act E} {n p q x} (h : ev U toaq I A n (.ref 222) p = some (.ok q x)) :
    ∃ rs, Spans I p q rs ∧ DigitsInPlace rs := by
  have up : ∀ {n e p r}, ev U toaq I A n e p = some r → ev U toaq I A (n + 1) e p = some r :=
    fun h => ev_mono U toaq I A (Nat.le_succ _) h
  replace h := up (up (up h))
  obtain ⟨y, h, _⟩ := ev_ref h
  have hb : toaq.body 222 = .seq (.not (.ref 142)) (.term .punct) := by rfl
  rw [hb] at h
  obtain ⟨m, a, b, h1, h2, _⟩ := ev_seq h
  obtain ⟨rfl, _, h3⟩ := ev_not h1
  obtain ⟨h4, _⟩ := ev_term h2
  obtain ⟨c, h5, _⟩ := tm_runes h4
  refine ⟨[c], h5, .one fun hc => ?_⟩
  cases h5 with
  | cons g1 g2 _ =>
    have ha := ev_acc U toaq I A n (.ref 142) m 0
    rw [h3] at ha
    obtain ⟨er, ha⟩ := ha
    exact must_ok _ _ _ _ _ _ (List.all_eq_true.1 tone_digits c hc) g1 g2 ha

/-- A text whose actions do not panic has its digits in place. -/
theorem rule_good (hU : U.punct 'i' = false) {r} (hr : highRule r = true) {n p q x}
    (h : ev U toaq I (actAlg I) n (.ref r) p = some (.ok q x)) : ∃ rs, Spans I p q rs ∧ DigitsInPlace rs := by
  refine over_ok (P := noDigit) (K := highRule) .nil (fun _ _ h h' => h.append h') ?_ ?_ n (.ref r) p q x hr h
  · intro t p q ht h
    obtain ⟨c, h1, h2, h3⟩ := tm_runes h
    refine ⟨[c], h1, .one ?_⟩
    cases t with
    | cls cs => simpa using List.all_eq_true.1 ht c (h2 cs rfl)
    | lit d => have := h3 d rfl; subst this; simpa [noDigit] using ht
    | any => cases ht
    | punct => cases ht
  · intro r hr
    have hlt : r < 403 := by
      unfold highRule at hr
      simp at hr
      omega
    have := List.all_eq_true.1 high_table r (List.mem_range.2 hlt)
    simp only [Bool.or_eq_true, Bool.not_eq_true', hr] at this
    rcases this with (h1 | h1) | h1
    · cases h1
    · right
      intro n p q x h
      simp only [leafRule, Bool.or_eq_true, beq_iff_eq, List.any_eq_true] at h1
      rcases h1 with rfl | ⟨t, ht, rfl⟩
      · exact punct_good h
      · exact syl_good hU ht h
    · exact .inl h1

theorem spans_rest (k : Nat) : ∀ p, I.len - p ≤ k → p ≤ I.len → ∃ rs, Spans I p I.len rs := by
  induction k with
  | zero =>
    intro p h1 h2
    have : p = I.len := by omega
    subst this
    exact ⟨[], .nil _⟩
  | succ k ih =>
    intro p h1 h2
    by_cases h : p < I.len
    · have := I.pos p h
      obtain ⟨rs, hr⟩ := ih (p + (I.next p).2) (by omega) (I.fits p h)
      exact ⟨_, .cons h rfl hr⟩
    · have : p = I.len := by omega
      subst this
      exact ⟨[], .nil _⟩

theorem calm_table : ((List.range 403).all fun r => (toneSyls.any fun t => t.1 == r) ||
    calm (fun r => decide (r < 403)) (toaq.body r)) = true := by
  decide +kernel

/-- If an Action function panics, the text has a digit out of place. -/
theorem rule_panic (hU : U.punct 'i' = false) {r} (hr : r < 403) {n p e}
    (h : ev U toaq I (actAlg I) n (.ref r) p = some (.panic e)) :
    ∃ rs, Spans I p I.len rs ∧ ¬DigitsInPlace (rs.takeWhile (· != bad)) := by
  refine (panic_from (K := fun r => decide (r < 403)) (Rc := fun q => ∃ rs, Spans I p q rs ∧ bad ∉ rs) hU
    (fun _ _ rs ⟨xs, h1, h3⟩ h2 h4 => ⟨xs ++ rs, h1.append h2, by simp [h3, h4]⟩) ?_ n).1
    (.ref r) _ _ p e rfl (by simpa [calm] using hr) ⟨[], .nil _, by simp⟩ h
  intro r hr
  have hlt : r < 403 := by simpa using hr
  have := List.all_eq_true.1 calm_table r (List.mem_range.2 hlt)
  simp only [Bool.or_eq_true, List.any_eq_true, beq_iff_eq] at this
  rcases this with ⟨t, ht, rfl⟩ | h1
  · right
    intro n p' e ⟨xs, hx, hxb⟩ h
    obtain ⟨m, q, rs, ss, d, w, h1, h1b, h2, h2b, h3, h4, h5, h6, h7⟩ := syl_panic hU ht h
    have hf := I.fits q h3
    rw [h4] at hf
    obtain ⟨ys, hy⟩ := spans_rest _ (q + w) (Nat.le_refl _) hf
    refine ⟨(xs ++ (rs ++ ss)) ++ d :: ys, ?_, ?_⟩
    · have := hx.append (h1.append (h2.append (.cons h3 h4 hy)))
      simpa using this
    intro hg
    have htw : ((xs ++ (rs ++ ss)) ++ d :: ys).takeWhile (· != bad) =
        (xs ++ (rs ++ ss)) ++ d :: ys.takeWhile (· != bad) := by
      rw [List.takeWhile_append_of_pos, List.takeWhile_cons_of_pos]
      · have : bad ∉ toneDigits := by decide
        simp only [bne_iff_ne]
        rintro rfl
        exact this h5
      · intro c hc
        simp only [bne_iff_ne]
        rintro rfl
        simp only [List.mem_append] at hc
        rcases hc with hc | hc | hc
        · exact hxb hc
        · exact h1b hc
        · exact h2b hc
    rw [htw] at hg
    obtain ⟨zs, c, v, g1, g2, _⟩ := hg (xs ++ (rs ++ ss)) d _ rfl h5
    obtain ⟨s', a, b, rfl⟩ : ∃ s' a b, ss = s' ++ [a, b] := by
      refine ⟨ss.take (ss.length - 2), ss[ss.length - 2], ss[ss.length - 1], ?_⟩
      apply List.ext_getElem
      · simp; omega
      · intro i hi hi'
        by_cases hc : i < ss.length - 2
        · rw [List.getElem_append_left (by simp; omega)]; simp
        · rw [List.getElem_append_right (by simp; omega)]
          have : i = ss.length - 2 ∨ i = ss.length - 1 := by omega
          rcases this with h | h
          · subst h; simp [Nat.min_eq_left (Nat.sub_le _ _)]
          · subst h
            have : ss.length - 1 - (ss.length - 2) = 1 := by omega
            simp [Nat.min_eq_left (Nat.sub_le _ _), this]
    have h8 : (xs ++ (rs ++ s')) ++ [a, b] = zs ++ [c, v] := by simpa using g1
    have := (List.append_inj' h8 rfl).2
    simp only [List.cons.injEq] at this
    exact h6 a (by simp) (this.1 ▸ g2)
  · exact .inl h1

/-! ## C46 -/

variable {b : Bytes}

/-- All tone digits from the offset on stand after a consonant and a vowel. What follows U+FFFD does not count:
the parser takes it for the end of the text. -/
def InPlaceFrom (b : Bytes) (p : Nat) : Prop :=
  ∀ rs, Spans (.ofBytes b) p b.length rs → DigitsInPlace (rs.takeWhile (· != bad))

/-- All tone digits of the text. -/
def InPlace (b : Bytes) : Prop := InPlaceFrom b 0

/-- C46. `Text` returns a syntax tree or an error. Partial: all tone digits of the text must be in place. -/
theorem C46_no_panic_partial (hU : U.Ok) (hd : InPlace b) (cs : List Call) (i : Nat) (hi : cs[i]? = some .text) :
    (∃ n, (calls U b cs newParser)[i]? = some (.text n)) ∨ ∃ e, (calls U b cs newParser)[i]? = some (.err e) := by
  rw [C20_memo_transparent, List.getElem?_map, hi]
  simp only [Option.map_some, Option.some.injEq, fresh]
  have h0 := acc_total_ref U toaq (.ofBytes b) ranked rFull 0 0 (Nat.zero_le _)
  have h1 := ev_total U toaq (.ofBytes b) (actAlg (.ofBytes b)) h0
  have ha := ev_acc U toaq (.ofBytes b) (actAlg (.ofBytes b)) (fuel b) (.ref rFull) 0 0
  cases hac : acc U toaq (.ofBytes b) (fuel b) (.ref rFull) 0 0 with
  | none => exact absurd hac h0
  | some v =>
    rcases v with ⟨_ | q, e⟩
    · exact .inr ⟨e, rfl⟩
    · left
      cases hev : ev U toaq (.ofBytes b) (actAlg (.ofBytes b)) (fuel b) (.ref rFull) 0 with
      | none => exact absurd hev h1
      | some v =>
        cases v with
        | ok q' x =>
          have h2 := rule_sound (punct_i hU) hev
          have ht : types.get rFull = .nd .text := by rfl
          rw [ht] at h2
          obtain ⟨⟨n, h3, _⟩, _⟩ := h2
          obtain ⟨v, l⟩ := x
          simp only at h3
          subst h3
          exact ⟨n, rfl⟩
        | fail =>
          rw [hev, hac] at ha
          obtain ⟨e, he⟩ := ha
          injection he with he
          injection he with he _
          cases he
        | panic e =>
          obtain ⟨rs, h2, h3⟩ := rule_panic (punct_i hU) (by decide) hev
          exact absurd (hd rs h2) h3

theorem spans_bound {p q rs} (h : Spans I p q rs) (hp : p ≤ I.len) : q ≤ I.len := by
  induction h with
  | nil _ => exact hp
  | @cons p q c w cs h1 h2 _ ih =>
    have := I.fits p h1
    rw [h2] at this
    exact ih this

/-- A text of which `Text` returns the syntax tree has its tone digits in place. -/
theorem text_inPlace (hU : U.Ok) {cs : List Call} {n : Node} (h : Out.text n ∈ calls U b cs newParser) : InPlace b := by
  obtain ⟨q, l, hx⟩ := text_call h
  obtain ⟨rs, h1, h2⟩ := rule_good (punct_i hU) (r := rFull) rfl hx
  obtain ⟨cs', h3, h4, h5⟩ := full_consumed U b (Recog.of_ev hx)
  rw [h3.unique h1] at h4
  intro tot ht
  have hq : q ≤ b.length := (spans_bound h1 (Nat.zero_le _))
  obtain ⟨ys, hy⟩ := spans_rest (I := .ofBytes b) _ q (Nat.le_refl _) hq
  rw [ht.unique (h1.append hy)]
  have hys : ys.takeWhile (· != bad) = [] := by
    cases hy with
    | nil _ => rfl
    | @cons _ _ c w zs g1 g2 g3 =>
      rcases h5 with h5 | h5
      · exact absurd g1 (by rw [h5]; exact Nat.lt_irrefl _)
      · have : c = bad := by rw [← h5]; exact (congrArg Prod.fst g2).symm
        subst this
        simp
  rw [List.takeWhile_append_of_pos, hys, List.append_nil]
  · exact h2
  · intro c hc
    simp only [bne_iff_ne]
    rintro rfl
    exact h4 hc

/-- C46, exactly: of the texts that `Tree` accepts, `Text` panics on those that have a tone digit elsewhere than
after the first vowel of a syllable. -/
theorem C46_panics_iff (hU : U.Ok) (t : PNode) (o : Out) (h : calls U b [.tree, .text] newParser = [.tree t, o]) :
    o = .panic ↔ ¬InPlace b := by
  have hm : (calls U b [.tree, .text] newParser)[1]? = some o := by rw [h]; rfl
  constructor
  · rintro rfl hd
    rcases C46_no_panic_partial hU hd [.tree, .text] 1 rfl with ⟨n, h1⟩ | ⟨e, h1⟩ <;> rw [hm] at h1 <;> cases h1
  · intro hd
    rw [C20_memo_transparent] at h
    simp only [List.map_cons, List.map_nil, List.cons.injEq, and_true] at h
    obtain ⟨h1, h2⟩ := h
    have h0 := acc_total_ref U toaq (.ofBytes b) ranked rFull 0 0 (Nat.zero_le _)
    have h3 := ev_total U toaq (.ofBytes b) (actAlg (.ofBytes b)) h0
    unfold fresh at h1 h2
    cases hac : acc U toaq (.ofBytes b) (fuel b) (.ref rFull) 0 0 with
    | none => exact absurd hac h0
    | some v =>
      rcases v with ⟨_ | q, e⟩
      · rw [hac] at h1; cases h1
      · rw [hac] at h2
        simp only at h2
        split at h2
        · subst h2
          exact absurd (text_inPlace hU (List.mem_of_getElem? hm)) hd
        · exact h2.symm
        · rename_i hev
          exact absurd hev h3

/-- C46 for `Word`: it panics if the offset is not in the text, and otherwise only if a tone digit after the
offset is out of place. -/
theorem C46_word_partial (hU : U.Ok) (cs : List Call) (offs i : Nat) (hi : cs[i]? = some (.word offs)) (ho : offs ≤ b.length)
    (hd : InPlaceFrom b offs) :
    (∃ w k, (calls U b cs newParser)[i]? = some (.word w k)) ∨ ∃ e, (calls U b cs newParser)[i]? = some (.err e) := by
  rw [C20_memo_transparent, List.getElem?_map, hi]
  have hc : 0 ≤ (offs : Int) ∧ (offs : Int) ≤ b.length := by omega
  simp only [Option.map_some, Option.some.injEq, fresh, hc, and_self, if_true, Int.toNat_natCast]
  have h0 := acc_total_ref U toaq (.ofBytes b) ranked rWord offs 0 ho
  have h1 := ev_total U toaq (.ofBytes b) (actAlg (.ofBytes b)) h0
  have ha := ev_acc U toaq (.ofBytes b) (actAlg (.ofBytes b)) (fuel b) (.ref rWord) offs 0
  cases hac : acc U toaq (.ofBytes b) (fuel b) (.ref rWord) offs 0 with
  | none => exact absurd hac h0
  | some v =>
    rcases v with ⟨_ | q, e⟩
    · exact .inr ⟨_, rfl⟩
    · left
      cases hev : ev U toaq (.ofBytes b) (actAlg (.ofBytes b)) (fuel b) (.ref rWord) offs with
      | none => exact absurd hev h1
      | some v =>
        cases v with
        | ok q' x =>
          have h2 := rule_sound (punct_i hU) hev
          have ht : types.get rWord = .spaced := by rfl
          rw [ht] at h2
          obtain ⟨⟨_, _, _, h3, _⟩, _⟩ := h2
          obtain ⟨v, l⟩ := x
          simp only at h3
          subst h3
          exact ⟨_, _, rfl⟩
        | fail =>
          rw [hev, hac] at ha
          obtain ⟨e, he⟩ := ha
          injection he with he
          injection he with he _
          cases he
        | panic e =>
          obtain ⟨rs, h2, h3⟩ := rule_panic (punct_i hU) (by decide) hev
          exact absurd (hd rs h2) h3

/-! ### Valid UTF-8 -/

theorem spans_utf8 (s : Str) : ∀ pre : Bytes, Spans (.ofBytes (pre ++ utf8 s)) pre.length (pre ++ utf8 s).length s := by
  induction s with
  | nil => intro pre; simpa [utf8] using Spans.nil _
  | cons c s ih =>
    intro pre
    have e : pre ++ utf8 (c :: s) = (pre ++ encode c) ++ utf8 s := by simp [utf8]
    have hd : decode (encode c ++ utf8 s) = (c, (encode c).length) := decode_encode c _
    refine .cons (w := (encode c).length) ?_ ?_ ?_
    · show pre.length < (pre ++ utf8 (c :: s)).length
      have : 0 < (encode c).length := by
        unfold encode
        simp only
        split
        · simp
        · split
          · simp
          · split <;> simp
      simp [utf8]
      omega
    · show decode ((pre ++ utf8 (c :: s)).drop pre.length) = _
      simpa [utf8] using hd
    · have := ih (pre ++ encode c)
      rw [← e] at this
      simpa using this

/-- For the text of a string: the runes are those of the string. -/
theorem inPlace_utf8 (s : Str) : InPlace (utf8 s) ↔ DigitsInPlace (s.takeWhile (· != bad)) := by
  have h : Spans (.ofBytes (utf8 s)) 0 (utf8 s).length s := by simpa using spans_utf8 s []
  constructor
  · intro hd; exact hd s h
  · intro hd rs hr
    rw [hr.unique h]
    exact hd

theorem digitsInPlace_iff (rs : Str) : DigitsInPlace rs ↔ ∀ i, ∀ h : i < rs.length, rs[i] ∈ toneDigits →
    2 ≤ i ∧ rs.getD (i - 2) ' ' ∈ onsetRunes ∧ rs.getD (i - 1) ' ' ∈ bareVowels := by
  constructor
  · intro h i hi hd
    obtain ⟨zs, c, v, h1, h2, h3⟩ := h (rs.take i) rs[i] (rs.drop (i + 1)) (by simp) hd
    have hl := congrArg List.length h1
    have hl' : i = zs.length + 2 := by simpa [Nat.min_eq_left (Nat.le_of_lt hi)] using hl
    have e : rs = zs ++ [c, v] ++ rs.drop i := by rw [← h1, List.take_append_drop]
    refine ⟨by omega, ?_, ?_⟩
    · rw [e, hl']; simpa using h2
    · rw [e, hl']; simpa using h3
  · intro h xs d ys e hd
    subst e
    obtain ⟨h1, h2, h3⟩ := h xs.length (by simp) (by simpa using hd)
    refine ⟨xs.take (xs.length - 2), xs[xs.length - 2], xs[xs.length - 1], ?_, ?_, ?_⟩
    · apply List.ext_getElem
      · simp; omega
      · intro i hi hi'
        by_cases hc : i < xs.length - 2
        · rw [List.getElem_append_left (by simp; omega)]; simp
        · rw [List.getElem_append_right (by simp; omega)]
          have : i = xs.length - 2 ∨ i = xs.length - 1 := by omega
          rcases this with h | h
          · subst h; simp [Nat.min_eq_left (Nat.sub_le _ _)]
          · subst h
            have : xs.length - 1 - (xs.length - 2) = 1 := by omega
            simp [Nat.min_eq_left (Nat.sub_le _ _), this]
    · rw [List.getD_eq_getElem?_getD, List.getElem?_append_left (by omega), List.getElem?_eq_getElem (by omega)] at h2; exact h2
    · rw [List.getD_eq_getElem?_getD, List.getElem?_append_left (by omega), List.getElem?_eq_getElem (by omega)] at h3; exact h3

instance (rs : Str) : Decidable (DigitsInPlace rs) := decidable_of_iff' _ (digitsInPlace_iff rs)

theorem inPlace_of_bytes (h : ∀ x ∈ b, x < 0x31 ∨ 0x37 < x) : InPlace b := by
  have key : ∀ {p q rs}, Spans (.ofBytes b) p q rs → ∀ c ∈ rs, c ∉ toneDigits := by
    intro p q rs hr
    induction hr with
    | nil _ => simp
    | @cons p q c w cs h1 h2 _ ih =>
      intro x hx hd
      rcases List.mem_cons.1 hx with rfl | hx
      · obtain ⟨y, hy, h3, h4⟩ := digit_byte (b := b) ⟨p, h1, by rw [h2]; exact hd⟩
        have := h y hy
        omega
      · exact ih x hx hd
  intro rs hr
  exact no_digits fun c hc => key hr c ((List.takeWhile_sublist _).subset hc)

/-! ### Examples -/

example : InPlace (utf8 "Ja4i fu7aq".toList) := (inPlace_utf8 _).2 (by decide)
example : ¬InPlace (utf8 "jai4".toList) := fun h => absurd ((inPlace_utf8 _).1 h) (by decide)
example : ¬InPlace (utf8 "ja4i jao4".toList) := fun h => absurd ((inPlace_utf8 _).1 h) (by decide)

/-- What follows U+FFFD does not matter. -/
example : InPlace (utf8 "ja4i \uFFFD jai4".toList) := (inPlace_utf8 _).2 (by decide)
end Verif.Parse
