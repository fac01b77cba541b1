/-
The text of particles: what the Action functions of the rules for syllables return.
-/
import Verif.Parse.WordLang

namespace Verif.Parse.WordVal
open Verif.AST Verif.AST.Spec Verif.Peg Verif.Parse Verif.Parse.WordLang
open Verif.Tone (Str)

variable {U : Uni} {I : Input}

/-- The first runes and the other runes of the strings that an expression returns. -/
def vals : Nat → Expr Act → Option (List Char × List Char)
  | 0, _ => none
  | m+1, e => match e with
    | .term (.cls cs) => some (cs, [])
    | .term (.lit c) => some ([c], [])
    | .ref r => vals m (toaq.body r)
    | .seq a (.and _) => vals m a
    | .seq a b => match vals m a, vals m b with
      | some (h, t), some (h', t') => some (h, t ++ h' ++ t')
      | _, _ => none
    | .alt a b => match vals m a, vals m b with
      | some (h, t), some (h', t') => some (h ++ h', t ++ t')
      | _, _ => none
    | .lab a => vals m a
    | .grp a => vals m a
    | .act .dotless (.lab a) => match vals m a with
      | some (h, t) => some ('ı' :: h, t)
      | none => none
    | .act (.diacritic d) (.seq (.lab a) _) => match vals m a with
      | some (h, _) => some (h.filterMap (Verif.Tone.diacritic0 d), [])
      | none => none
    | .act .addTone (.seq (.lab a) (.lab b)) => match vals m a, vals m b with
      | some (h, t), some (h', _) => some (h'.flatMap fun d => h.filterMap (Verif.Tone.diacritic0 d), t)
      | _, _ => none
    | _ => none

/-- A string with these runes. -/
def Has (h t : List Char) (v : Val) : Prop := ∃ c s, v = .str (c :: s) ∧ c ∈ h ∧ ∀ d ∈ s, d ∈ t

theorem Has.cat {h t h' t' v v'} (a : Has h t v) (b : Has h' t' v') : Has h (t ++ h' ++ t') (cat v v') := by
  obtain ⟨c, s, rfl, h1, h2⟩ := a
  obtain ⟨c', s', rfl, h3, h4⟩ := b
  refine ⟨c, s ++ c' :: s', rfl, h1, ?_⟩
  intro d hd
  rcases List.mem_append.1 hd with hd | hd
  · simp [h2 d hd]
  · rcases List.mem_cons.1 hd with rfl | hd
    · simp [h3]
    · simp [h4 d hd]

theorem Has.mono {h t h' t' v} (a : Has h t v) (hh : ∀ c ∈ h, c ∈ h') (ht : ∀ c ∈ t, c ∈ t') : Has h' t' v := by
  obtain ⟨c, s, rfl, h1, h2⟩ := a
  exact ⟨c, s, rfl, hh c h1, fun d hd => ht d (h2 d hd)⟩

theorem vals_ok : ∀ m e n p q x h t, vals m e = some (h, t) → ev U toaq I (actAlg I) n e p = some (.ok q x) →
    Has h t x.1 := by
  intro m
  induction m with
  | zero => intro e n p q x h t hv; simp [vals] at hv
  | succ m ih =>
    intro e n p q x h t hv he
    cases n with
    | zero => rw [ev_0] at he; cases he
    | succ n =>
    unfold vals at hv
    split at hv
    · rename_i cs
      injection hv with hv
      injection hv with h1 h2
      subst h1 h2
      obtain ⟨ht, rfl⟩ := ev_term he
      obtain ⟨c, w, _, h2, h3, _⟩ := tm_cls (.inl rfl) ht
      exact ⟨c, [], by simp [actAlg, h2], h3, by simp⟩
    · rename_i c
      injection hv with hv
      injection hv with h1 h2
      subst h1 h2
      obtain ⟨ht, rfl⟩ := ev_term he
      obtain ⟨c, w, _, h2, h3, _⟩ := tm_cls (.inr ⟨_, rfl, rfl⟩) ht
      exact ⟨c, [], by simp [actAlg, h2], h3, by simp⟩
    · obtain ⟨y, hy, rfl⟩ := ev_ref he
      exact ih _ _ _ _ y _ _ hv hy
    · obtain ⟨k, y, z, hy, hz, rfl⟩ := ev_seq he
      cases n with
      | zero => rw [ev_0] at hz; cases hz
      | succ n =>
      obtain ⟨_, rfl, _⟩ := ev_and hz
      have := ih _ _ _ _ _ _ _ hv hy
      simp only [actAlg, cat_nil]
      exact this
    · split at hv
      · rename_i h1 t1 h2 t2 ha hb
        injection hv with hv
        injection hv with e1 e2
        subst e1 e2
        obtain ⟨k, y, z, hy, hz, rfl⟩ := ev_seq he
        exact (ih _ _ _ _ _ _ _ ha hy).cat (ih _ _ _ _ _ _ _ hb hz)
      · cases hv
    · split at hv
      · rename_i h1 t1 h2 t2 ha hb
        injection hv with hv
        injection hv with e1 e2
        subst e1 e2
        rcases ev_alt he with he | he
        · exact (ih _ _ _ _ _ _ _ ha he).mono (by simp +contextual) (by simp +contextual)
        · exact (ih _ _ _ _ _ _ _ hb he).mono (by simp +contextual) (by simp +contextual)
      · cases hv
    · obtain ⟨y, hy, rfl⟩ := ev_lab he
      exact ih _ _ _ _ y _ _ hv hy
    · obtain ⟨y, hy, rfl⟩ := ev_grp he
      exact ih _ _ _ _ _ _ _ hv hy
    · split at hv
      · rename_i h1 t1 ha
        injection hv with hv
        injection hv with e1 e2
        subst e1 e2
        obtain ⟨y, hy, hr⟩ := ev_act he
        cases n with
        | zero => rw [ev_0] at hy; cases hy
        | succ n =>
        obtain ⟨z, hz, rfl⟩ := ev_lab hy
        obtain ⟨c, s, hc, h2, h3⟩ := ih _ _ _ _ _ _ _ ha hz
        simp only [actAlg, hc, runAct, Val.asStr] at hr
        injection hr with hr
        subst hr
        simp only [List.cons.injEq]
        by_cases hs : c = 'i' ∧ s = []
        · rw [if_pos hs]
          exact ⟨'ı', [], rfl, by simp, by simp⟩
        · rw [if_neg hs]
          exact ⟨c, s, rfl, by simp [h2], h3⟩
      · cases hv
    · split at hv
      · rename_i h1 t1 ha
        injection hv with hv
        injection hv with e1 e2
        subst e1 e2
        obtain ⟨y, hy, hr⟩ := ev_act he
        cases n with
        | zero => rw [ev_0] at hy; cases hy
        | succ n =>
        obtain ⟨k, y1, y2, hy1, hy2, rfl⟩ := ev_seq hy
        cases n with
        | zero => rw [ev_0] at hy1; cases hy1
        | succ n =>
        obtain ⟨z, hz, rfl⟩ := ev_lab hy1
        obtain ⟨c, s, hc, h2, h3⟩ := ih _ _ _ _ _ _ _ ha hz
        simp only [actAlg, hc, runAct, List.cons_append, List.nil_append] at hr
        split at hr
        · rename_i v hv
          injection hr with hr
          subst hr
          generalize y2.2 = l at hv
          cases l with
          | nil =>
            simp only [Val.asStr] at hv
            split at hv
            · rename_i c' hc'
              injection hc' with hc'
              injection hc' with e1 e2
              subst e1 e2
              split at hv
              · rename_i d hd
                injection hv with hv
                subst hv
                exact ⟨d, [], rfl, List.mem_filterMap.2 ⟨c, h2, hd⟩, by simp⟩
              · cases hv
            · cases hv
            · cases hv
          | cons a l => simp at hv
        · cases hr
      · cases hv
    · split at hv
      · rename_i h1 t1 h2 t2 ha hb
        injection hv with hv
        injection hv with e1 e2
        subst e1 e2
        obtain ⟨y, hy, hr⟩ := ev_act he
        cases n with
        | zero => rw [ev_0] at hy; cases hy
        | succ n =>
        obtain ⟨k, y1, y2, hy1, hy2, rfl⟩ := ev_seq hy
        cases n with
        | zero => rw [ev_0] at hy1; cases hy1
        | succ n =>
        obtain ⟨z1, hz1, rfl⟩ := ev_lab hy1
        obtain ⟨z2, hz2, rfl⟩ := ev_lab hy2
        obtain ⟨c, s, hc, h3, h4⟩ := ih _ _ _ _ _ _ _ ha hz1
        obtain ⟨d, s', hd, h5, h6⟩ := ih _ _ _ _ _ _ _ hb hz2
        simp only [actAlg, hc, hd, runAct, List.cons_append, List.nil_append, Val.asStr, addToneTo] at hr
        split at hr
        · rename_i v hv
          injection hr with hr
          subst hr
          split at hv
          · rename_i u hu
            injection hv with hv
            subst hv
            simp only [Option.map_eq_some_iff] at hu
            obtain ⟨c', hc', rfl⟩ := hu
            exact ⟨c', s, rfl, List.mem_flatMap.2 ⟨d, h5, List.mem_filterMap.2 ⟨c, h3, hc'⟩⟩, h4⟩
          · cases hv
        · cases hr
      · cases hv
    · cases hv

/-! ### Texts without marks -/

theorem foldLetters_plain {t : Str} (h : ∀ c ∈ t, isMark c = false) : foldLetters t = t.map foldLetter := by
  simp only [foldLetters, letters]
  rw [List.filter_eq_self.2 (by simpa using h)]
  simp [foldLetter]

/-- The text of a value of a rule of syllables and the text read have the same letters. -/
theorem same_letters (hU : U.punct 'i' = false) {n y p q t l cs} (hy : sub (types.get y) .str = true)
    (h : ev U toaq I (actAlg I) n (.ref y) p = some (.ok q (.str t, l))) (hs : Spans I p q cs) :
    foldLetters t = foldLetters cs := by
  obtain ⟨h1, _⟩ := rule_sound hU h
  obtain ⟨s, hv, _, ds, h2, h3⟩ := sub_mean hy h1
  injection hv with hv
  subst hv
  rw [Spans.unique hs h2]
  simp only [foldLetters, h3.letters]

def consonants : List Char :=
  ['b', 'B', 'c', 'C', 'h', 'H', 'd', 'D', 'f', 'F', 'g', 'G', 'j', 'J', 'k', 'K', 'l', 'L', 'm', 'M', 'n', 'N', 'p',
   'P', 'r', 'R', 's', 'S', 't', 'T']

def plainOk (c : Char) : Bool := !toned c && !isMark c
def vowelOk (c : Char) : Bool := "aeiou".toList.contains (foldLetter c) && !isMark c
def consOk (c : Char) : Bool := !"aeiou".toList.contains (foldLetter c) && plainOk c

def neutralOk (y : Nat) : Bool := match vals 90 (.ref y) with
  | some (h, t) => h.all plainOk && t.all plainOk && sub (types.get y) .str
  | none => false

theorem neutral_ok : ([123, 124].all neutralOk) = true := by decide +kernel

/-- The consonants and the rest of a syllable with tone. -/
def tonedOk (y : Nat) : Bool := sub (types.get y) .str && match toaq.body y with
  | .ref z => match toaq.body z with
    | .seq a (.seq b (.and _)) => match vals 90 a, vals 90 b with
      | some (h, t), some (h', t') => h.all consOk && t.all consOk && h'.all vowelOk && t'.all plainOk
      | _, _ => false
    | _ => false
  | _ => false

theorem toned_ok : ([126, 127, 128, 129, 130, 131].all tonedOk) = true := by decide +kernel

/-- The text of a neutral syllable. -/
theorem neutral_text (hU : U.punct 'i' = false) {n y p q v cs} (hy : y ∈ [123, 124])
    (h : ev U toaq I (actAlg I) n (.ref y) p = some (.ok q v)) (hs : Spans I p q cs) :
    ∃ t, v.1 = .str t ∧ Plainly t (foldLetters cs) := by
  have ho := List.all_eq_true.1 neutral_ok y hy
  unfold neutralOk at ho
  split at ho
  · rename_i hd tl hv
    simp only [Bool.and_eq_true] at ho
    obtain ⟨⟨h1, h2⟩, h3⟩ := ho
    obtain ⟨c, s, hc, h4, h5⟩ := vals_ok _ _ _ _ _ _ _ _ hv h
    have hp : ∀ d ∈ c :: s, plainOk d = true := by
      intro d hd'
      rcases List.mem_cons.1 hd' with rfl | hd'
      · exact List.all_eq_true.1 h1 _ h4
      · exact List.all_eq_true.1 h2 _ (h5 d hd')
    obtain ⟨v, l⟩ := v
    simp only at hc
    subst hc
    refine ⟨_, rfl, ?_, ?_⟩
    · rw [← same_letters hU h3 h hs, foldLetters_plain]
      intro d hd'
      have := hp d hd'
      simp only [plainOk, Bool.and_eq_true, Bool.not_eq_true'] at this
      exact this.2
    · intro d hd'
      have := hp d hd'
      simp only [plainOk, Bool.and_eq_true, Bool.not_eq_true'] at this
      exact this.1
  · cases ho

/-- The text of a syllable with tone. -/
theorem toned_text (hU : U.punct 'i' = false) {n y p q v cs} (hy : y ∈ [126, 127, 128, 129, 130, 131])
    (h : ev U toaq I (actAlg I) n (.ref y) p = some (.ok q v)) (hs : Spans I p q cs) :
    ∃ t, v.1 = .str t ∧ WithTone t (foldLetters cs) := by
  have ho := List.all_eq_true.1 toned_ok y hy
  simp only [tonedOk, Bool.and_eq_true] at ho
  obtain ⟨h3, ho⟩ := ho
  split at ho
  · rename_i z hz
    split at ho
    · rename_i a b d hb
      split at ho
      · rename_i h1 t1 h2 t2 va vb
        simp only [Bool.and_eq_true] at ho
        obtain ⟨⟨⟨o1, o2⟩, o3⟩, o4⟩ := ho
        have h0 := h
        cases n with
        | zero => rw [ev_0] at h; cases h
        | succ n =>
        obtain ⟨y1, hy1, rfl⟩ := ev_ref h
        rw [hz] at hy1
        cases n with
        | zero => rw [ev_0] at hy1; cases hy1
        | succ n =>
        obtain ⟨y2, hy2, rfl⟩ := ev_ref hy1
        rw [hb] at hy2
        cases n with
        | zero => rw [ev_0] at hy2; cases hy2
        | succ n =>
        obtain ⟨k, u1, u2, hu1, hu2, rfl⟩ := ev_seq hy2
        cases n with
        | zero => rw [ev_0] at hu2; cases hu2
        | succ n =>
        obtain ⟨k', u3, u4, hu3, hu4, rfl⟩ := ev_seq hu2
        cases n with
        | zero => rw [ev_0] at hu4; cases hu4
        | succ n =>
        obtain ⟨_, rfl, _⟩ := ev_and hu4
        obtain ⟨c, s, hc, c1, c2⟩ := vals_ok _ _ _ _ _ _ _ _ va hu1
        obtain ⟨c', s', hc', c3, c4⟩ := vals_ok _ _ _ _ _ _ _ _ vb hu3
        simp only [actAlg, hc, hc', Verif.Parse.cat] at h0 ⊢
        have ha : ∀ x ∈ c :: s, consOk x = true := by
          intro x hx
          rcases List.mem_cons.1 hx with rfl | hx
          · exact List.all_eq_true.1 o1 _ c1
          · exact List.all_eq_true.1 o2 _ (c2 x hx)
        have hv := List.all_eq_true.1 o3 _ c3
        have hp : ∀ x ∈ s', plainOk x = true := fun x hx => List.all_eq_true.1 o4 _ (c4 x hx)
        simp only [consOk, plainOk, vowelOk, Bool.and_eq_true, Bool.not_eq_true'] at ha hv hp
        refine ⟨_, rfl, ?_, c :: s, c', s', rfl, fun x hx => (ha x hx).1, hv.1, ?_⟩
        · rw [← same_letters hU h3 h0 hs, foldLetters_plain]
          intro x hx
          simp only [List.mem_append] at hx
          rcases hx with hx | hx
          · exact (ha x hx).2.2
          · rcases List.mem_cons.1 hx with rfl | hx
            · exact hv.2
            · exact (hp x hx).2
        · intro x hx
          rcases List.mem_append.1 hx with hx | hx
          · exact (ha x hx).2.1
          · exact (hp x hx).1
      · cases ho
    · cases ho
  · cases ho

end Verif.Parse.WordVal
