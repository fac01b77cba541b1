/-
C61: how tones are written does not change how a text is parsed.
-/
import Verif.Parse.NoteSim
import Verif.Parse.Examples
import Verif.Parse.ToneVal
import Verif.Parse.SpellTop

namespace Verif.Parse
open Verif.AST Verif.Peg
open Verif.Tone (Str)

/-- Both calls return a tree, the same up to spelling and offsets; or both return an error; or both panic. -/
inductive SameParse (ws ws' : List Str) : Out → Out → Prop
  | text {n n'} : counted ws n = counted ws' n' → SameParse ws ws' (.text n) (.text n')
  | err {e e'} : SameParse ws ws' (.err e) (.err e')
  | panic : SameParse ws ws' .panic .panic

namespace Notes

variable {U : Uni} {is : List Item} {ws ws' : List Str}

/-! ### Offsets -/

theorem off_append (w t : Str) (k : Nat) : off (w ++ t) k - (utf8 w).length = off t (k - w.length) := by
  unfold off
  rw [List.take_append, utf8_append, List.length_append]
  by_cases h : k ≤ w.length
  · have h2 : (utf8 (w.take k)).length ≤ (utf8 w).length := by
      have h3 := congrArg (fun x => (utf8 x).length) (List.take_append_drop k w)
      simp only [utf8_append, List.length_append] at h3
      omega
    rw [Nat.sub_eq_zero_of_le h]
    simp only [List.take_zero]
    rw [show (utf8 ([] : Str)).length = 0 from rfl]
    omega
  · rw [List.take_of_length_le (by omega : w.length ≤ k)]
    omega

theorem off_eq_zero {s : Str} {k : Nat} : off s k = 0 ↔ k = 0 ∨ s = [] := by
  cases s with
  | nil => simp [off, utf8]
  | cons c s =>
    cases k with
    | zero => simp [off, utf8]
    | succ k =>
      rw [off_cons]
      have := encode_pos c
      simp only [Nat.add_eq_zero_iff, Nat.succ_ne_zero, reduceCtorEq, or_self, iff_false, not_and]
      omega

/-- The number of pieces before an offset depends on the number of characters before it. -/
theorem pieces_chars : ∀ (ws ws' : List Str) (k : Nat), ws.map List.length = ws'.map List.length →
    piecesBefore ws (off ws.flatten k) = piecesBefore ws' (off ws'.flatten k) := by
  intro ws
  induction ws with
  | nil => intro ws' k h; cases ws' with
    | nil => rfl
    | cons _ _ => cases h
  | cons w ws ih =>
    intro ws' k h
    cases ws' with
    | nil => cases h
    | cons w' ws' =>
      simp only [List.map_cons, List.cons.injEq] at h
      have hf : (w :: ws).flatten = [] ↔ (w' :: ws').flatten = [] := by
        have e : ∀ l : List Str, l.flatten = [] ↔ (l.map List.length).sum = 0 := by
          intro l
          rw [← List.length_flatten, List.length_eq_zero_iff]
        rw [e, e, List.map_cons, List.map_cons, h.1, h.2]
      have h0 : off (w :: ws).flatten k = 0 ↔ off (w' :: ws').flatten k = 0 := by rw [off_eq_zero, off_eq_zero, hf]
      simp only [piecesBefore]
      by_cases hz : off (w :: ws).flatten k = 0
      · rw [if_pos hz, if_pos (h0.1 hz)]
      · rw [if_neg hz, if_neg (fun h => hz (h0.2 h)), List.flatten_cons, List.flatten_cons, off_append, off_append, h.1, ih ws' _ h.2]

/-- The number of pieces before a piece. -/
theorem pieces_at : ∀ (ws : List Str) (k : Nat), (∀ w ∈ ws, w ≠ []) →
    piecesBefore ws (off ws.flatten (ws.take k).flatten.length) = min k ws.length := by
  intro ws
  induction ws with
  | nil => intro k _; simp [piecesBefore]
  | cons w ws ih =>
    intro k hne
    cases k with
    | zero => simp [piecesBefore, off_zero]
    | succ k =>
      have hw := hne w (List.mem_cons_self ..)
      simp only [piecesBefore, List.take_succ_cons, List.flatten_cons, List.length_append]
      rw [if_neg, off_append, Nat.add_sub_cancel_left, ih k (fun x hx => hne x (List.mem_cons_of_mem _ hx))]
      · simp only [List.length_cons]; omega
      · rw [off_eq_zero]
        have := List.length_pos_iff.2 hw
        rintro (h | h)
        · omega
        · exact hw (List.append_eq_nil_iff.1 h).1

theorem at_drop (ws : List Str) (k : Nat) : at' ws.flatten (ws.drop k).flatten = off ws.flatten (ws.take k).flatten.length := by
  unfold at'
  congr 1
  have := congrArg List.length (congrArg List.flatten (List.take_append_drop k ws))
  rw [List.flatten_append, List.length_append] at this
  omega

theorem suffix_drop (ws : List Str) (k : Nat) : (ws.drop k).flatten <:+ ws.flatten :=
  ⟨(ws.take k).flatten, by rw [← List.flatten_append, List.take_append_drop]⟩

theorem Exact.drop (h : Exact is ws) (k : Nat) : Exact (is.drop k) (ws.drop k) := by
  induction h generalizing k with
  | nil => simpa using Exact.nil
  | cons hw h ih => cases k with
    | zero => exact .cons hw h
    | succ k => exact ih k

theorem Exact.ne (h : Exact is ws) (hg : ∀ i ∈ is, i.Good U) : ∀ w ∈ ws, w ≠ [] := by
  induction h with
  | nil => nofun
  | @cons i is w ws hw h ih =>
    intro x hx
    rcases List.mem_cons.1 hx with rfl | hx
    · have g := hg i (List.mem_cons_self ..)
      cases i with
      | sep c =>
        simp only [Item.ways, List.mem_singleton] at hw
        subst hw; simp
      | syl τ o r =>
        simp only [Item.ways, List.mem_map] at hw
        obtain ⟨m, -, rfl⟩ := hw
        have ho := List.all_eq_true.1 onset_heads o g.1
        cases o with
        | nil => cases ho
        | cons d o => simp
    · exact ih (fun j hj => hg j (List.mem_cons_of_mem _ hj)) x hx

/-! ### The simulation -/

/-- The starts of the same item. -/
def RN (ws ws' : List Str) (p p' : Nat) : Prop :=
  ∃ k, p = at' ws.flatten (ws.drop k).flatten ∧ p' = at' ws'.flatten (ws'.drop k).flatten

theorem both_at (h : Exact is ws) (h' : Exact is ws') (hg : ∀ i ∈ is, i.Good U) (k : Nat) :
    Both U ws.flatten ws'.flatten (is.drop k) (ws.drop k) (ws'.drop k) :=
  ⟨fun i hi => hg i (List.mem_of_mem_drop hi), h.drop k, h'.drop k, suffix_drop ws k, suffix_drop ws' k⟩

theorem pieces_same (h : Exact is ws) (h' : Exact is ws') (hg : ∀ i ∈ is, i.Good U) {p p' : Nat} (hp : RN ws ws' p p') :
    piecesBefore ws p = piecesBefore ws' p' := by
  obtain ⟨k, rfl, rfl⟩ := hp
  rw [at_drop, at_drop, pieces_at ws k (h.ne hg), pieces_at ws' k (h'.ne hg), h.length, h'.length]

theorem term_same (hP : Plain U) (hL : LettersNotPunct U) (h : Exact is ws) (h' : Exact is ws') (hg : ∀ i ∈ is, i.Good U) (t : Term)
    (ht : apart t = true) (k : Nat) :
    (∃ c, tm U (.ofBytes (utf8 ws.flatten)) t (at' ws.flatten (ws.drop k).flatten) = .inl (at' ws.flatten (ws.drop (k + 1)).flatten) ∧
      tm U (.ofBytes (utf8 ws'.flatten)) t (at' ws'.flatten (ws'.drop k).flatten) = .inl (at' ws'.flatten (ws'.drop (k + 1)).flatten) ∧
      ((Input.ofBytes (utf8 ws.flatten)).next (at' ws.flatten (ws.drop k).flatten)).1 = c ∧
      ((Input.ofBytes (utf8 ws'.flatten)).next (at' ws'.flatten (ws'.drop k).flatten)).1 = c) ∨
    ∃ z z', tm U (.ofBytes (utf8 ws.flatten)) t (at' ws.flatten (ws.drop k).flatten) = .inr z ∧
      tm U (.ofBytes (utf8 ws'.flatten)) t (at' ws'.flatten (ws'.drop k).flatten) = .inr z' := by
  have H := both_at (U := U) h h' hg k
  rcases H with ⟨hg', hl, hr, hs, hs'⟩
  have e1 : ∀ l : List Str, l.drop (k + 1) = (l.drop k).drop 1 := by intro l; rw [List.drop_drop]
  rw [e1, e1]
  generalize ws.flatten = s at hs ⊢
  generalize ws'.flatten = s' at hs' ⊢
  generalize ws.drop k = us at *
  generalize ws'.drop k = us' at *
  generalize is.drop k = js at *
  cases hl with
  | nil =>
    cases hr with
    | nil =>
      refine Or.inr ⟨at' s [], at' s' [], ?_, ?_⟩
      · rw [tm_takes, List.flatten_nil, at_nil]
      · rw [tm_takes, List.flatten_nil, at_nil]
  | @cons i js w us hw hl =>
    cases hr with
    | @cons _ _ w' us' hw' hr =>
      have g := hg' i (List.mem_cons_self ..)
      cases i with
      | sep c =>
        simp only [Item.ways, List.mem_singleton] at hw hw'
        subst hw; subst hw'
        simp only [List.flatten_cons, List.cons_append, List.nil_append, List.drop_one, List.tail_cons] at hs hs' ⊢
        by_cases hc : takes U t c = 1
        · exact Or.inl ⟨c, takes_at hs hc, takes_at hs' hc, at_next hs, at_next hs'⟩
        · obtain ⟨z, hz⟩ := leaves_at (U := U) hs hc
          obtain ⟨z', hz'⟩ := leaves_at (U := U) hs' hc
          exact Or.inr ⟨z, z', hz, hz'⟩
      | syl τ o r =>
        simp only [Item.ways, List.mem_map] at hw hw'
        obtain ⟨m, -, rfl⟩ := hw
        obtain ⟨m', -, rfl⟩ := hw'
        have ho := List.all_eq_true.1 onset_heads o g.1
        cases o with
        | nil => cases ho
        | cons d o =>
          simp only [Bool.and_eq_true, Bool.not_eq_true', decide_eq_false_iff_not] at ho
          simp only [List.flatten_cons, List.cons_append] at hs hs' ⊢
          have hd : starts.contains d = true := ho.1.1.1.1
          have hc : takes U t d ≠ 1 := by
            cases t with
            | cls cs =>
              simp only [takes]
              rw [if_neg]
              · decide
              · intro hcs
                have := List.all_eq_true.1 ht d (List.contains_iff_mem.1 hcs)
                rw [hd] at this; cases this
            | lit c =>
              simp only [takes]
              rw [if_neg]
              · decide
              · rintro rfl
                simp only [apart, hd] at ht; cases ht
            | any => cases ht
            | punct => simp only [takes, np_ok hP hL ho.2]; split <;> simp
          obtain ⟨z, hz⟩ := leaves_at (U := U) hs hc
          obtain ⟨z', hz'⟩ := leaves_at (U := U) hs' hc
          exact Or.inr ⟨z, z', hz, hz'⟩

theorem alg_same {φ φ' : Nat → Nat} (hφ : ∀ p p', RN ws ws' p p' → φ p = φ' p') :
    AlgSim (actAlg (.ofBytes (utf8 ws.flatten))) (actAlg (.ofBytes (utf8 ws'.flatten))) (fun _ _ => False) (RN ws ws')
      (SameVal spellPairs φ φ') (.ofBytes (utf8 ws.flatten)) (.ofBytes (utf8 ws'.flatten)) where
  leaf _ _ _ _ _ _ _ _ hc _ _ := hc.elim
  nil := ⟨rfl, rfl⟩
  seq x x' y y' hx hy := by
    refine ⟨?_, ?_⟩
    · simp only [actAlg, rv_cat, hx.1, hy.1]
    · simp only [actAlg, List.map_append, hx.2, hy.2]
  rep0 := ⟨rfl, rfl⟩
  rep x x' y y' hx hy := by
    refine ⟨?_, rfl⟩
    simp only [actAlg, rv_cons, hx.1, hy.1]
  lab x x' hx := by
    refine ⟨hx.1, ?_⟩
    simp only [actAlg, List.map, hx.1]
  grp _ _ _ _ _ _ _ _ hx := hx
  act f p p' q q' x x' hp hq hx := by
    have e := runAct_respell φ spellPairs_ok f p q x.2
    have e' := runAct_respell φ' spellPairs_ok f p' q' x'.2
    rw [hx.2, hφ _ _ hp, hφ _ _ hq, e'] at e
    simp only [actAlg]
    revert e
    cases runAct f p q x.2 <;> cases runAct f p' q' x'.2 <;> intro e <;>
      simp only [mapExcept_ok, mapExcept_error, Except.ok.injEq, reduceCtorEq] at e
    · trivial
    · exact ⟨e.symm, rfl⟩
  rule _ _ _ _ _ _ _ _ _ hx := ⟨hx.1, rfl⟩

theorem leaf_sim (hP : Plain U) (hL : LettersNotPunct U) (h : Exact is ws) (h' : Exact is ws') (hg : ∀ i ∈ is, i.Good U)
    {φ φ' : Nat → Nat} (hφ : ∀ p p', RN ws ws' p p' → φ p = φ' p') :
    LeafSim U toaq (.ofBytes (utf8 ws.flatten)) (.ofBytes (utf8 ws'.flatten)) (actAlg (.ofBytes (utf8 ws.flatten)))
      (actAlg (.ofBytes (utf8 ws'.flatten))) lf apart upper (RN ws ws') (SameVal spellPairs φ φ') where
  leaf e p p' he hp := by
    obtain ⟨k, rfl, rfl⟩ := hp
    rcases leaf_matches hP hL (both_at h h' hg k) he with ⟨is2, us2, us2', x, ⟨j, _, rfl, rfl⟩, hx, h1, h2⟩ | ⟨h1, h2⟩
    · refine Or.inl ⟨_, _, x, x, h1, h2, ⟨k + j, ?_, ?_⟩, hx _ _ _⟩
      · rw [List.drop_drop]
      · rw [List.drop_drop]
    · exact Or.inr ⟨h1, h2⟩
  term t p p' ht hp := by
    obtain ⟨k, rfl, rfl⟩ := hp
    rcases term_same hP hL h h' hg t ht k with ⟨c, h1, h2, h3, h4⟩ | h1
    · exact Or.inl ⟨_, _, h1, h2, ⟨k + 1, rfl, rfl⟩, by simp only [SameVal, actAlg, h3, h4]; exact ⟨rfl, rfl⟩⟩
    · exact Or.inr h1
  rules := upper_rules
  alg := alg_same hφ

/-! ### Calls of Text -/

theorem _root_.Verif.Parse.SameParse.trans {a b c : List Str} {o o' o'' : Out} (h : SameParse a b o o') (h' : SameParse b c o' o'') : SameParse a c o o'' := by
  cases h with
  | text h => cases h' with | text h' => exact .text (h.trans h')
  | err => cases h' with | err => exact .err
  | panic => cases h' with | panic => exact .panic

theorem _root_.Verif.Parse.SameParse.symm {a b : List Str} {o o' : Out} (h : SameParse a b o o') : SameParse b a o' o := by
  cases h with
  | text h => exact .text h.symm
  | err => exact .err
  | panic => exact .panic

/-- Texts whose runs are alike have outcomes alike. -/
theorem text_outs {R : Nat → Nat → Prop} {v v'}
    (ha : ∀ o e o' e', acc U toaq (.ofBytes (utf8 ws.flatten)) (fuel (utf8 ws.flatten)) (.ref rFull) 0 0 = some (o, e) →
      acc U toaq (.ofBytes (utf8 ws'.flatten)) (fuel (utf8 ws'.flatten)) (.ref rFull) 0 0 = some (o', e') → ROpt R o o')
    (h1 : ev U toaq (.ofBytes (utf8 ws.flatten)) (actAlg (.ofBytes (utf8 ws.flatten))) (fuel (utf8 ws.flatten)) (.ref rFull) 0 = some v)
    (h2 : ev U toaq (.ofBytes (utf8 ws'.flatten)) (actAlg (.ofBytes (utf8 ws'.flatten))) (fuel (utf8 ws'.flatten)) (.ref rFull) 0 = some v')
    (hv : RV (actAlg (.ofBytes (utf8 ws.flatten))) (actAlg (.ofBytes (utf8 ws'.flatten))) R
      (SameVal spellPairs (piecesBefore ws) (piecesBefore ws')) (some v) (some v')) :
    SameParse ws ws' (fresh U (utf8 ws.flatten) .text) (fresh U (utf8 ws'.flatten) .text) := by
  simp only [fresh]
  have hn := acc_some (U := U) (utf8 ws.flatten) rFull 0 (Nat.zero_le _)
  have hn' := acc_some (U := U) (utf8 ws'.flatten) rFull 0 (Nat.zero_le _)
  rw [h1, h2]
  revert ha hn hn'
  generalize acc U toaq (.ofBytes (utf8 ws.flatten)) (fuel (utf8 ws.flatten)) (.ref rFull) 0 0 = a
  generalize acc U toaq (.ofBytes (utf8 ws'.flatten)) (fuel (utf8 ws'.flatten)) (.ref rFull) 0 0 = a'
  intro ha hn hn'
  cases a with
  | none => exact absurd rfl hn
  | some a => cases a' with
    | none => exact absurd rfl hn'
    | some a' =>
      rcases a with ⟨o, e⟩; rcases a' with ⟨o', e'⟩
      cases ha o e o' e' rfl rfl with
      | none => exact .err
      | some _ =>
        cases hv with
        | fail => exact .panic
        | panic => exact .panic
        | @ok q q' x x' _ hx =>
          rcases x with ⟨x, xs⟩
          rcases x' with ⟨x', xs'⟩
          have hx : rv spellPairs (piecesBefore ws) x = rv spellPairs (piecesBefore ws') x' := hx.1
          cases x <;> cases x' <;> simp only [respellV, reduceCtorEq, Val.node.injEq] at hx
          case node.node n n' => exact .text hx
          all_goals exact .panic

/-- The standard spelling. -/
abbrev std (ws : List Str) : List Str := ws.map (List.map (foldBy spellPairs))

theorem std_flatten (ws : List Str) : (std ws).flatten = ws.flatten.map (foldBy spellPairs) := by
  rw [List.map_flatten]

theorem std_same (ws : List Str) : SameSpelling spellPairs ws.flatten (std ws).flatten := by
  rw [std_flatten]
  unfold SameSpelling
  rw [List.map_map]
  refine List.map_congr_left fun c _ => ?_
  exact (Tones.fold_fold c).symm

theorem std_parse (hL : LettersNotPunct U) (ws : List Str) :
    SameParse ws (std ws) (fresh U (utf8 ws.flatten) .text) (fresh U (utf8 (std ws).flatten) .text) := by
  have h := std_same ws
  have h00 : RO ws.flatten (std ws).flatten 0 0 := ⟨0, Nat.zero_le _, rfl, rfl⟩
  have hφ : ∀ p p', RO ws.flatten (std ws).flatten p p' → piecesBefore ws p = piecesBefore (std ws) p' := by
    rintro p p' ⟨k, _, rfl, rfl⟩
    refine pieces_chars ws (std ws) k ?_
    rw [List.map_map]
    refine List.map_congr_left fun w _ => ?_
    simp
  have ha := acc_same spellPairs_ok hL h rFull h00 (Nat.zero_le _) (Nat.zero_le _)
  have hv := ev_same spellPairs_ok hL h (act_sim spellPairs_ok hφ) rFull h00 (Nat.zero_le _) (Nat.zero_le _)
  have hn := ev_total U toaq _ (actAlg (.ofBytes (utf8 ws.flatten))) (acc_some (U := U) (utf8 ws.flatten) rFull 0 (Nat.zero_le _))
  have hn' := ev_total U toaq _ (actAlg (.ofBytes (utf8 (std ws).flatten)))
    (acc_some (U := U) (utf8 (std ws).flatten) rFull 0 (Nat.zero_le _))
  obtain ⟨v, h1⟩ := Option.ne_none_iff_exists'.1 hn
  obtain ⟨v', h2⟩ := Option.ne_none_iff_exists'.1 hn'
  refine text_outs (R := RO ws.flatten (std ws).flatten) (v := v) (v' := v') ?_ h1 h2 ?_
  · intro o e o' e' h3 h4
    rw [h3, h4] at ha
    cases ha with
    | ok h _ => exact .some h
    | fail _ => exact .none
  · rw [h1, h2] at hv
    exact hv

theorem full_leafy : leafy lf apart upper (.ref rFull : Expr Act) = true := by decide +kernel

theorem exact_parse (hP : Plain U) (hL : LettersNotPunct U) (hg : ∀ i ∈ is, i.Good U) (h : Exact is ws) (h' : Exact is ws') :
    SameParse ws ws' (fresh U (utf8 ws.flatten) .text) (fresh U (utf8 ws'.flatten) .text) := by
  have S := leaf_sim hP hL h h' hg (fun _ _ => pieces_same h h' hg)
  have h0 : RN ws ws' 0 0 := ⟨0, by simp [at', off_zero], by simp [at', off_zero]⟩
  have hn := ev_total U toaq _ (actAlg (.ofBytes (utf8 ws.flatten))) (acc_some (U := U) (utf8 ws.flatten) rFull 0 (Nat.zero_le _))
  have hn' := ev_total U toaq _ (actAlg (.ofBytes (utf8 ws'.flatten)))
    (acc_some (U := U) (utf8 ws'.flatten) rFull 0 (Nat.zero_le _))
  obtain ⟨v, h1⟩ := Option.ne_none_iff_exists'.1 hn
  obtain ⟨v', h2⟩ := Option.ne_none_iff_exists'.1 hn'
  refine text_outs (R := RN ws ws') (v := v) (v' := v') ?_ h1 h2 ?_
  · intro o e o' e' h3 h4
    exact acc_leaves S (max (fuel (utf8 ws.flatten)) (fuel (utf8 ws'.flatten))) _ _ _ _ _ _ _ _ _ full_leafy h0
      (acc_mono U toaq _ (Nat.le_max_left _ _) h3) (acc_mono U toaq _ (Nat.le_max_right _ _) h4)
  · exact ev_leaves S (max (fuel (utf8 ws.flatten)) (fuel (utf8 ws'.flatten))) _ _ _ _ _ full_leafy h0
      (ev_mono U toaq _ _ (Nat.le_max_left _ _) h1) (ev_mono U toaq _ _ (Nat.le_max_right _ _) h2)

theorem _root_.Verif.Parse.Written.exact (h : Written is ws) : Exact is (std ws) := by
  induction h with
  | nil => exact .nil
  | cons hw he _ ih => exact .cons (by rw [he]; exact hw) ih

end Notes

/-- C61: how tones are written does not change how a text is parsed. Take two texts that write the same
syllables with the same tones, and the same blanks and punctuation between them, each in any of these ways to
write tones: with the letter that carries the diacritic, with a combining character, with an ASCII sign or
number after the first vowel, or with an ASCII sign at the end of the syllable. Take any two histories of
calls, and in each a call of Text. Then both return a syntax tree, or both an error, or both panic. The trees
are the same, with words in the same standard spelling, at offsets that count the same pieces of the text.

What is missing: the syllable moq with the hook (`C61_refuted`), and numbers at the end of the syllable
(`C61_refuted_number`). -/
theorem C61_notation_partial {U : Uni} {is : List Item} {ws ws' : List Str} (hP : Plain U) (hL : LettersNotPunct U)
    (hg : ∀ i ∈ is, i.Good U) (h : Written is ws) (h' : Written is ws') (cs cs' : List Call) (i j : Nat)
    (hi : cs[i]? = some .text) (hj : cs'[j]? = some .text) :
    ∃ o o', (calls U (utf8 ws.flatten) cs newParser)[i]? = some o ∧ (calls U (utf8 ws'.flatten) cs' newParser)[j]? = some o' ∧
      SameParse ws ws' o o' := by
  rw [C20_memo_transparent, C20_memo_transparent, List.getElem?_map, List.getElem?_map, hi, hj]
  exact ⟨_, _, rfl, rfl, ((Notes.std_parse hL ws).trans (Notes.exact_parse hP hL hg h.exact h'.exact)).trans (Notes.std_parse hL ws').symm⟩

/-- One item written in one of its ways. -/
theorem Written.one {i : Item} {is : List Item} {w : Str} {ws : List Str} (h : w.map (foldBy spellPairs) ∈ i.ways) (hs : Written is ws) :
    Written (i :: is) (w :: ws) := .cons h rfl hs

/-- "Mải jí súaqtōa." in two ways: the items. -/
def noteItems : List Item :=
  [.syl .hook "m".toList "aı".toList, .sep ' ', .syl .acute "j".toList "ı".toList, .sep ' ', .syl .acute "s".toList "uaq".toList,
   .syl .macron "t".toList "oa".toList, .sep '.']
def noteLeft : List Str := ["Mải", " ", "jí", " ", "súaq", "tōa", "."].map (·.toList)
def noteRight : List Str := ["mai?", " ", "JI2", " ", "suaq/", "to\u0304a", "."].map (·.toList)

example : Written noteItems noteLeft ∧ Written noteItems noteRight := by
  constructor <;>
  · repeat' apply Written.one
    all_goals first | exact Written.nil | decide +kernel
example : ∀ i ∈ noteItems, i.Good asciiUni := by
  simp only [noteItems, List.forall_mem_cons, List.not_mem_nil, false_implies, implies_true, and_true, Item.Good, Separator]
  refine ⟨?_, ?_, ?_, ?_, ?_, ?_, ?_⟩ <;> decide +kernel
example : (run "Mải jí súaqtōa." [.text]).map Out.toks =
    [[⟨"Mảı".toList, 0, 5⟩, ⟨" ".toList, 5, 6⟩, ⟨"jí".toList, 6, 9⟩, ⟨" ".toList, 9, 10⟩, ⟨"súaqtōa".toList, 10, 19⟩,
      ⟨".".toList, 19, 20⟩]] := by decide +kernel
example : (run "mai? JI2 suaq/to\u0304a." [.text]).map Out.toks =
    [[⟨"mảı".toList, 0, 4⟩, ⟨" ".toList, 4, 5⟩, ⟨"JÍ".toList, 5, 8⟩, ⟨" ".toList, 8, 9⟩, ⟨"súaqtōa".toList, 9, 19⟩,
      ⟨".".toList, 19, 20⟩]] := by decide +kernel

/-- C61 is violated by the syllable moq with the hook: written with a sign at the end it is the particle and a
question mark. -/
theorem C61_refuted : ∃ is ws ws', Written is ws ∧ Written is ws' ∧
    (calls asciiUni (utf8 ws.flatten) [.text] newParser).map Out.kind = [.text] ∧
    (calls asciiUni (utf8 ws'.flatten) [.text] newParser).map Out.kind = [.err] := by
  refine ⟨[.syl .hook "m".toList "aı".toList, .sep ' ', .syl .acute "j".toList "ı".toList, .sep ' ', .syl .hook "m".toList "oq".toList],
    ["mải", " ", "jí", " ", "moq?"].map (·.toList), ["mải", " ", "jí", " ", "mỏq"].map (·.toList), ?_, ?_, ?_, ?_⟩
  · repeat' apply Written.one
    all_goals first | exact Written.nil | decide +kernel
  · repeat' apply Written.one
    all_goals first | exact Written.nil | decide +kernel
  · decide +kernel
  · decide +kernel

/-- C61 is violated by numbers at the end of a syllable. -/
theorem C61_refuted_number : (run "mai? ji/" [.text]).map Out.kind = [.text] ∧ (run "mai4 ji/" [.text]).map Out.kind = [.panic] := by
  decide +kernel

end Verif.Parse
