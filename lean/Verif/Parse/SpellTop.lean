/-
Capitals, the dot of i, and breves do not change how a text is parsed: the calls of the API.
-/
import Verif.Parse.SpellProps

namespace Verif.Parse
open Verif.AST Verif.Peg
open Verif.Tone (Str)

/-! ### What calls on two texts of the same standard spelling have in common -/

/-- Calls at the same place: the offset of `Word` is the offset of the same character. -/
inductive SameCall (s s' : Str) : Call → Call → Prop
  | tree : SameCall s s' .tree .tree
  | text : SameCall s s' .text .text
  | word (k : Nat) : k ≤ s.length → SameCall s s' (.word (utf8 (s.take k)).length) (.word (utf8 (s'.take k)).length)

mutual
/-- Parse trees of the same rules, for texts of the same standard spelling. -/
inductive SameTree (L : List (Char × Char)) : PNode → PNode → Prop
  | mk {name t t' kids kids'} : SameText L t t' → SameTrees L kids kids' → SameTree L (.mk name t kids) (.mk name t' kids')
inductive SameTrees (L : List (Char × Char)) : List PNode → List PNode → Prop
  | nil : SameTrees L [] []
  | cons {n n' l l'} : SameTree L n n' → SameTrees L l l' → SameTrees L (n :: l) (n' :: l')
end

/-- The same outcome. `p` and `p'` are the offsets at which the parse started. -/
inductive SameOut (L : List (Char × Char)) (s s' : Str) (p p' : Nat) : Out → Out → Prop
  | tree {t t'} : SameTree L t t' → SameOut L s s' p p' (.tree t) (.tree t')
  | text {n n'} : standard L s n = standard L s' n' → SameOut L s s' p p' (.text n) (.text n')
  | word {w w' k k'} : standardW L s w = standardW L s' w' → charsBefore s (p + k) = charsBefore s' (p' + k') →
      SameOut L s s' p p' (.word w k) (.word w' k')
  /-- `e` is the offset of the error plus one, relative to the start. -/
  | err {e e'} : charsBefore s (p + e) = charsBefore s' (p' + e') → SameOut L s s' p p' (.err e) (.err e')
  | panic : SameOut L s s' p p' .panic .panic

/-- The offset at which a call starts. -/
def Call.start : Call → Nat
  | .word offs => offs.toNat
  | _ => 0

/-! ### Offsets -/

/-- The byte offset of a character. -/
def off (s : Str) (k : Nat) : Nat := (utf8 (s.take k)).length

theorem encode_pos (c : Char) : 0 < (encode c).length := by
  unfold encode; simp only; repeat' split
  all_goals simp

theorem utf8_append (s t : Str) : utf8 (s ++ t) = utf8 s ++ utf8 t := by simp [utf8]
theorem utf8_cons (c : Char) (t : Str) : utf8 (c :: t) = encode c ++ utf8 t := by simp [utf8]

theorem off_zero (s : Str) : off s 0 = 0 := rfl
theorem off_cons (c : Char) (s : Str) (k : Nat) : off (c :: s) (k + 1) = (encode c).length + off s k := by
  simp [off, utf8_cons]
theorem off_length (s : Str) : off s s.length = (utf8 s).length := by simp [off]

theorem off_succ (s : Str) (k : Nat) (h : k < s.length) : off s (k + 1) = off s k + (encode s[k]).length := by
  unfold off
  rw [List.take_succ_eq_append_getElem h, utf8_append]
  simp [utf8]

theorem off_lt (s : Str) (k l : Nat) (h : k < l) (hl : l ≤ s.length) : off s k < off s l := by
  induction l with
  | zero => omega
  | succ l ih =>
    have h2 := off_succ s l (by omega)
    have := encode_pos (s[l]'(by omega))
    by_cases hk : k = l
    · subst hk; omega
    · have := ih (by omega) (by omega); omega

theorem off_le_iff (s : Str) (k l : Nat) (hk : k ≤ s.length) (hl : l ≤ s.length) : off s k ≤ off s l ↔ k ≤ l := by
  constructor
  · intro h
    by_cases hn : k ≤ l
    · exact hn
    · have := off_lt s l k (by omega) hk; omega
  · intro h
    by_cases hn : k = l
    · subst hn; exact Nat.le_refl _
    · exact Nat.le_of_lt (off_lt s k l (by omega) hl)

theorem drop_off (s : Str) (k : Nat) : (utf8 s).drop (off s k) = utf8 (s.drop k) := by
  have h : utf8 s = utf8 (s.take k) ++ utf8 (s.drop k) := by rw [← utf8_append, List.take_append_drop]
  rw [h, off, List.drop_left]

theorem rune_off (s : Str) (k : Nat) (h : k < s.length) :
    (Input.ofBytes (utf8 s)).rune (off s k) = some (s[k], (encode s[k]).length) := by
  unfold Input.rune
  have h1 : off s k < (Input.ofBytes (utf8 s)).len := by
    show off s k < (utf8 s).length
    rw [← off_length]; exact off_lt s k _ h (Nat.le_refl _)
  rw [if_pos h1]
  show some (decode ((utf8 s).drop (off s k))) = _
  rw [drop_off, List.drop_eq_getElem_cons h, utf8_cons, decode_encode]

theorem rune_end (s : Str) : (Input.ofBytes (utf8 s)).rune (off s s.length) = none := by
  unfold Input.rune
  rw [if_neg]
  show ¬ off s s.length < (utf8 s).length
  rw [off_length]; omega

theorem charsBefore_off (s : Str) (k : Nat) (h : k ≤ s.length) : charsBefore s (off s k) = k := by
  induction s generalizing k with
  | nil => simp only [List.length_nil] at h; have : k = 0 := by omega
           subst this; rfl
  | cons c s ih =>
    cases k with
    | zero => simp [off_zero, charsBefore]
    | succ k =>
      have := encode_pos c
      rw [off_cons, charsBefore, if_neg (by omega), Nat.add_sub_cancel_left, ih k (by simpa using h)]

/-- One byte further is one character further. -/
theorem charsBefore_next (s : Str) (k : Nat) (h : k ≤ s.length) :
    charsBefore s (off s k + 1) = min (k + 1) s.length := by
  induction s generalizing k with
  | nil => simp [charsBefore]
  | cons c s ih =>
    cases k with
    | zero =>
      have := encode_pos c
      have h0 : charsBefore s 0 = 0 := by cases s <;> simp [charsBefore]
      rw [off_zero, charsBefore, if_neg (by omega), show 0 + 1 - (encode c).length = 0 by omega, h0]
      simp
    | succ k =>
      have := encode_pos c
      rw [off_cons, charsBefore, if_neg (by omega), show (encode c).length + off s k + 1 - (encode c).length = off s k + 1 by omega,
        ih k (by simpa using h)]
      simp only [List.length_cons]; omega

theorem slice_off (s : Str) (k l : Nat) (h : k ≤ l) :
    slice (utf8 s) (off s k) (off s l) = utf8 ((s.take l).drop k) := by
  unfold slice
  rw [drop_off]
  have h1 : s.take l = s.take k ++ (s.take l).drop k := by
    conv => lhs; rw [← List.take_append_drop k (s.take l)]
    rw [List.take_take, Nat.min_eq_left h]
  have h2 : off s l - off s k = (utf8 ((s.take l).drop k)).length := by
    unfold off
    conv => lhs; rw [h1]
    rw [utf8_append, List.length_append]; omega
  have h3 : s.drop k = (s.take l).drop k ++ s.drop l := by
    have : s.take k ++ s.drop k = s.take k ++ ((s.take l).drop k ++ s.drop l) := by
      rw [← List.append_assoc, ← h1, List.take_append_drop, List.take_append_drop]
    exact List.append_cancel_left this
  rw [h2, h3, utf8_append, List.take_left]

/-! ### The simulation -/

/-- Offsets of the same character. -/
def RO (s s' : Str) (p p' : Nat) : Prop := ∃ k, k ≤ s.length ∧ p = off s k ∧ p' = off s' k

theorem termsB_ok (P : Term → Bool) (e : Expr Act) (h : termsB P e = true) : terms (fun t => P t = true) e := by
  induction e with
  | term t => exact h
  | ref r => trivial
  | seq a b iha ihb => simp only [termsB, Bool.and_eq_true] at h; exact ⟨iha h.1, ihb h.2⟩
  | alt a b iha ihb => simp only [termsB, Bool.and_eq_true] at h; exact ⟨iha h.1, ihb h.2⟩
  | opt a ih => exact ih h
  | plus a ih => exact ih h
  | star a ih => exact ih h
  | not a ih => exact ih h
  | and a ih => exact ih h
  | lab a ih => exact ih h
  | grp a ih => exact ih h
  | act f a ih => exact ih h

variable {L : List (Char × Char)}

theorem terms_fold (HL : Spelling L) (r : Nat) : terms (fun t => termFold L t = true) (toaq.body r) :=
  termsB_ok _ _ (bodies.all (fun e => termsB (termFold L) e = true) bounds.1 HL.terms r)

variable {U : Uni} {s s' : Str}

theorem takes_fold (HL : Spelling L) (hU : LettersNotPunct U) (t : Term) (ht : termFold L t = true) (c : Char) :
    takes U t c = takes U t (foldBy L c) := by
  refine fold_ind HL (Q := fun c c' => takes U t c = takes U t c') ?_ (fun _ _ => rfl) c
  intro e he
  cases t with
  | cls cs =>
    simp only [termFold, List.all_eq_true, beq_iff_eq] at ht
    simp only [takes, ht e he]
  | lit d =>
    simp only [termFold, List.all_eq_true, Bool.and_eq_true, bne_iff_ne] at ht
    simp only [takes, if_neg (ht e he).1, if_neg (ht e he).2]
  | any =>
    have := HL.bad e he
    simp only [takes, ne_eq, this.1, this.2, not_false_eq_true, if_true]
  | punct =>
    have := HL.bad e he
    have h2 := HL.punct hU e he
    simp only [takes, ne_eq, this.1, this.2, not_false_eq_true, if_true, h2.1, h2.2]

theorem sim (HL : Spelling L) (hU : LettersNotPunct U) (h : SameSpelling L s s') :
    Sim U (.ofBytes (utf8 s)) (.ofBytes (utf8 s')) (fun t => termFold L t = true) (fun c c' => foldBy L c = foldBy L c') (RO s s') := by
  have hl : s.length = s'.length := by simpa using congrArg List.length h
  refine ⟨?_, ?_, ?_⟩
  · rintro p p' q q' ⟨k, hk, rfl, rfl⟩ ⟨l, hl', rfl, rfl⟩
    rw [off_le_iff s k l hk hl', off_le_iff s' k l (hl ▸ hk) (hl ▸ hl')]
  · rintro p p' ⟨k, hk, rfl, rfl⟩
    by_cases hlt : k < s.length
    · rw [rune_off s k hlt, rune_off s' k (hl ▸ hlt)]
      refine ⟨?_, k + 1, hlt, (off_succ s k hlt).symm, (off_succ s' k (hl ▸ hlt)).symm⟩
      have h1 : (s.map (foldBy L))[k]'(by simpa using hlt) = (s'.map (foldBy L))[k]'(by simpa using hl ▸ hlt) := by
        have h : s.map (foldBy L) = s'.map (foldBy L) := h
        simp only [h]
      simpa using h1
    · have : k = s.length := by omega
      subst this
      rw [rune_end s]
      rw [show off s' s.length = off s' s'.length by rw [hl], rune_end s']
      trivial
  · intro t c c' ht hc
    rw [takes_fold HL hU t ht c, takes_fold HL hU t ht c', hc]

theorem sameText_off (h : SameSpelling L s s') {p p' q q' : Nat} (hp : RO s s' p p') (hq : RO s s' q q') :
    SameText L (slice (utf8 s) p q) (slice (utf8 s') p' q') := by
  have hl : s.length = s'.length := by simpa using congrArg List.length h
  obtain ⟨k, hk, rfl, rfl⟩ := hp
  obtain ⟨l, hl', rfl, rfl⟩ := hq
  by_cases hkl : k ≤ l
  · refine ⟨_, _, slice_off s k l hkl, slice_off s' k l hkl, ?_⟩
    have h : s.map (foldBy L) = s'.map (foldBy L) := h
    simp only [SameSpelling, List.map_drop, List.map_take, h]
  · have h1 := off_lt s l k (by omega) hk
    have h2 := off_lt s' l k (by omega) (hl ▸ hk)
    refine ⟨[], [], ?_, ?_, rfl⟩
    · simp [slice, show off s l - off s k = 0 by omega, utf8]
    · simp [slice, show off s' l - off s' k = 0 by omega, utf8]

theorem SameTrees.append {a a' b b' : List PNode} (h : SameTrees L a a') (h' : SameTrees L b b') :
    SameTrees L (a ++ b) (a' ++ b') := by
  induction a generalizing a' with
  | nil => cases h; exact h'
  | cons n l ih => cases h with | cons hn hl => exact .cons hn (ih hl)

theorem node_sim (h : SameSpelling L s s') :
    AlgSim (nodeAlg (utf8 s)) (nodeAlg (utf8 s')) (fun c c' => foldBy L c = foldBy L c') (RO s s') (SameTrees L)
      (.ofBytes (utf8 s)) (.ofBytes (utf8 s')) where
  leaf _ _ _ _ _ _ _ _ _ hp hw := .cons (.mk (sameText_off h hp hw) .nil) .nil
  nil := .nil
  seq _ _ _ _ hx hy := hx.append hy
  rep0 := .nil
  rep _ _ _ _ hx hy := hx.append hy
  lab _ _ hx := hx
  grp _ _ _ _ _ _ hp hq hx := .cons (.mk (sameText_off h hp hq) hx) .nil
  act _ _ _ _ _ _ _ _ _ hx := hx
  rule _ _ _ _ _ _ _ hp hq hx := .cons (.mk (sameText_off h hp hq) hx) .nil

/-- Values that respell to the same, if offsets are rewritten by `φ` and `φ'`. -/
def SameVal (L : List (Char × Char)) (φ φ' : Nat → Nat) (x x' : Val × List Val) : Prop :=
  rv L φ x.1 = rv L φ' x'.1 ∧ x.2.map (rv L φ) = x'.2.map (rv L φ')

theorem rv_cat (L : List (Char × Char)) (φ : Nat → Nat) (x y : Val) : rv L φ (cat x y) = cat (rv L φ x) (rv L φ y) := by
  cases x <;> cases y <;> simp [cat, respellV]

theorem rv_cons (L : List (Char × Char)) (φ : Nat → Nat) (x y : Val) : rv L φ (cons x y) = cons (rv L φ x) (rv L φ y) := by
  cases x <;> cases y <;> simp [cons, respellV, respellL]

theorem chars_same (h : SameSpelling L s s') {p p' : Nat} (hp : RO s s' p p') : charsBefore s p = charsBefore s' p' := by
  have hl : s.length = s'.length := by simpa using congrArg List.length h
  obtain ⟨k, hk, rfl, rfl⟩ := hp
  rw [charsBefore_off s k hk, charsBefore_off s' k (hl ▸ hk)]

theorem act_sim (HL : Spelling L) {φ φ' : Nat → Nat} (hφ : ∀ p p', RO s s' p p' → φ p = φ' p') :
    AlgSim (actAlg (.ofBytes (utf8 s))) (actAlg (.ofBytes (utf8 s'))) (fun c c' => foldBy L c = foldBy L c') (RO s s') (SameVal L φ φ')
      (.ofBytes (utf8 s)) (.ofBytes (utf8 s')) where
  leaf p p' c c' w w' h1 h2 hc hp hw := by
    have e1 : ((Input.ofBytes (utf8 s)).next p).1 = c := by
      unfold Input.rune at h1; split at h1
      · injection h1 with h1; rw [h1]
      · cases h1
    have e2 : ((Input.ofBytes (utf8 s')).next p').1 = c' := by
      unfold Input.rune at h2; split at h2
      · injection h2 with h2; rw [h2]
      · cases h2
    simp only [SameVal, actAlg, e1, e2, respellV, List.map, hc, and_self]
  nil := ⟨rfl, rfl⟩
  seq x x' y y' hx hy := by
    refine ⟨?_, ?_⟩
    · simp only [actAlg, rv_cat, hx.1, hy.1]
    · simp only [actAlg, List.map_append, hx.2, hy.2]
  rep0 := ⟨rfl, rfl⟩
  rep x x' y y' hx hy := by
    refine ⟨?_, rfl⟩
    simp only [actAlg, rv_cons, hx.1, hy.1]
  lab x x' hx := by
    refine ⟨hx.1, ?_⟩
    simp only [actAlg, List.map, hx.1]
  grp _ _ _ _ _ _ _ _ hx := hx
  act f p p' q q' x x' hp hq hx := by
    have e := runAct_respell φ HL f p q x.2
    have e' := runAct_respell φ' HL f p' q' x'.2
    rw [hx.2, hφ _ _ hp, hφ _ _ hq, e'] at e
    simp only [actAlg]
    revert e
    cases runAct f p q x.2 <;> cases runAct f p' q' x'.2 <;> intro e <;>
      simp only [mapExcept_ok, mapExcept_error, Except.ok.injEq, reduceCtorEq] at e
    · trivial
    · exact ⟨e.symm, rfl⟩
  rule _ _ _ _ _ _ _ _ _ hx := ⟨hx.1, rfl⟩


/-! ### Calls -/

theorem acc_some (b : Bytes) (r p : Nat) (hp : p ≤ b.length) : acc U toaq (.ofBytes b) (fuel b) (.ref r) p 0 ≠ none :=
  acc_total_ref U toaq (.ofBytes b) ranked r p 0 hp

/-- The Accepts functions on both texts. -/
theorem acc_same (HL : Spelling L) (hU : LettersNotPunct U) (h : SameSpelling L s s') (r : Nat) {p p' : Nat} (hp : RO s s' p p')
    (hb : p ≤ (utf8 s).length) (hb' : p' ≤ (utf8 s').length) :
    RA (RO s s') (acc U toaq (.ofBytes (utf8 s)) (fuel (utf8 s)) (.ref r) p 0)
      (acc U toaq (.ofBytes (utf8 s')) (fuel (utf8 s')) (.ref r) p' 0) := by
  cases h1 : acc U toaq (.ofBytes (utf8 s)) (fuel (utf8 s)) (.ref r) p 0 with
  | none => exact absurd h1 (acc_some _ r p hb)
  | some v => cases h2 : acc U toaq (.ofBytes (utf8 s')) (fuel (utf8 s')) (.ref r) p' 0 with
    | none => exact absurd h2 (acc_some _ r p' hb')
    | some v' =>
      have := acc_sim toaq (sim HL hU h) (terms_fold HL) (max (fuel (utf8 s)) (fuel (utf8 s'))) (.ref r) p p' 0 0 trivial hp
        (Or.inl ⟨rfl, rfl⟩)
      rw [acc_mono U toaq _ (Nat.le_max_left _ _) h1, acc_mono U toaq _ (Nat.le_max_right _ _) h2] at this
      exact this

/-- The Node and Action functions on both texts. -/
theorem ev_same (HL : Spelling L) (hU : LettersNotPunct U) (h : SameSpelling L s s') {A A' : Alg Act Err} {Q : A.X → A'.X → Prop}
    (HA : AlgSim A A' (fun c c' => foldBy L c = foldBy L c') (RO s s') Q (.ofBytes (utf8 s)) (.ofBytes (utf8 s')))
    (r : Nat) {p p' : Nat} (hp : RO s s' p p') (hb : p ≤ (utf8 s).length) (hb' : p' ≤ (utf8 s').length) :
    RV A A' (RO s s') Q (ev U toaq (.ofBytes (utf8 s)) A (fuel (utf8 s)) (.ref r) p)
      (ev U toaq (.ofBytes (utf8 s')) A' (fuel (utf8 s')) (.ref r) p') := by
  cases h1 : ev U toaq (.ofBytes (utf8 s)) A (fuel (utf8 s)) (.ref r) p with
  | none => exact absurd h1 (ev_total U toaq _ A (acc_some _ r p hb))
  | some v => cases h2 : ev U toaq (.ofBytes (utf8 s')) A' (fuel (utf8 s')) (.ref r) p' with
    | none => exact absurd h2 (ev_total U toaq _ A' (acc_some _ r p' hb'))
    | some v' =>
      have := ev_sim toaq (sim HL hU h) (terms_fold HL) HA (max (fuel (utf8 s)) (fuel (utf8 s'))) (.ref r) p p' trivial hp
      rw [ev_mono U toaq _ A (Nat.le_max_left _ _) h1, ev_mono U toaq _ A' (Nat.le_max_right _ _) h2] at this
      exact this

theorem err_same (h : SameSpelling L s s') {e e' : Nat} (he : RE (RO s s') e e') : charsBefore s e = charsBefore s' e' := by
  have hl : s.length = s'.length := by simpa using congrArg List.length h
  rcases he with ⟨rfl, rfl⟩ | ⟨p, p', ⟨k, hk, rfl, rfl⟩, rfl, rfl⟩
  · have h0 : ∀ t : Str, charsBefore t 0 = 0 := by intro t; cases t <;> simp [charsBefore]
    rw [h0, h0]
  · rw [charsBefore_next s k hk, charsBefore_next s' k (hl ▸ hk), hl]

theorem fresh_same (HL : Spelling L) (hU : LettersNotPunct U) (h : SameSpelling L s s') {c c' : Call} (hc : SameCall s s' c c') :
    SameOut L s s' c.start c'.start (fresh U (utf8 s) c) (fresh U (utf8 s') c') := by
  have hl : s.length = s'.length := by simpa using congrArg List.length h
  have h00 : RO s s' 0 0 := ⟨0, Nat.zero_le _, rfl, rfl⟩
  cases hc with
  | tree =>
    simp only [fresh, Call.start]
    have ha := acc_same HL hU h rFull h00 (Nat.zero_le _) (Nat.zero_le _)
    have hv := ev_same HL hU h (node_sim h) rFull h00 (Nat.zero_le _) (Nat.zero_le _)
    have hn := acc_some (U := U) (utf8 s) rFull 0 (Nat.zero_le _)
    have hn' := ev_total U toaq _ (nodeAlg (utf8 s)) hn
    generalize acc U toaq (.ofBytes (utf8 s)) (fuel (utf8 s)) (.ref rFull) 0 0 = a at ha hn ⊢
    generalize acc U toaq (.ofBytes (utf8 s')) (fuel (utf8 s')) (.ref rFull) 0 0 = a' at ha ⊢
    generalize ev U toaq (.ofBytes (utf8 s)) (nodeAlg (utf8 s)) (fuel (utf8 s)) (.ref rFull) 0 = v at hv hn' ⊢
    generalize ev U toaq (.ofBytes (utf8 s')) (nodeAlg (utf8 s')) (fuel (utf8 s')) (.ref rFull) 0 = v' at hv ⊢
    cases ha with
    | none => exact absurd rfl hn
    | fail he => exact .err (by simpa using err_same h he)
    | ok _ _ =>
      cases hv with
      | none => exact absurd rfl hn'
      | fail => exact .panic
      | panic => exact .panic
      | @ok q q' x x' _ hx =>
        have hx : SameTrees L x x' := hx
        cases hx with
        | nil => exact .panic
        | cons ht hl => cases hl with
          | nil => exact .tree ht
          | cons _ _ => exact .panic
  | text =>
    simp only [fresh, Call.start]
    have ha := acc_same HL hU h rFull h00 (Nat.zero_le _) (Nat.zero_le _)
    have hv := ev_same HL hU h (act_sim HL fun _ _ => chars_same h) rFull h00 (Nat.zero_le _) (Nat.zero_le _)
    have hn := acc_some (U := U) (utf8 s) rFull 0 (Nat.zero_le _)
    have hn' := ev_total U toaq _ (actAlg (.ofBytes (utf8 s))) hn
    generalize acc U toaq (.ofBytes (utf8 s)) (fuel (utf8 s)) (.ref rFull) 0 0 = a at ha hn ⊢
    generalize acc U toaq (.ofBytes (utf8 s')) (fuel (utf8 s')) (.ref rFull) 0 0 = a' at ha ⊢
    generalize ev U toaq (.ofBytes (utf8 s)) (actAlg (.ofBytes (utf8 s))) (fuel (utf8 s)) (.ref rFull) 0 = v at hv hn' ⊢
    generalize ev U toaq (.ofBytes (utf8 s')) (actAlg (.ofBytes (utf8 s'))) (fuel (utf8 s')) (.ref rFull) 0 = v' at hv ⊢
    cases ha with
    | none => exact absurd rfl hn
    | fail he => exact .err (by simpa using err_same h he)
    | ok _ _ =>
      cases hv with
      | none => exact absurd rfl hn'
      | fail => exact .panic
      | panic => exact .panic
      | @ok q q' x x' _ hx =>
        rcases x with ⟨x, xs⟩
        rcases x' with ⟨x', xs'⟩
        have hx : rv L (charsBefore s) x = rv L (charsBefore s') x' := hx.1
        cases x <;> cases x' <;> simp only [respellV, reduceCtorEq, Val.node.injEq] at hx
        case node.node n n' => exact .text hx
        all_goals exact .panic
  | word k hk =>
    have hb : off s k ≤ (utf8 s).length := by rw [← off_length]; exact (off_le_iff s k _ hk (Nat.le_refl _)).2 hk
    have hb' : off s' k ≤ (utf8 s').length := by
      rw [← off_length]; exact (off_le_iff s' k _ (hl ▸ hk) (Nat.le_refl _)).2 (hl ▸ hk)
    have hp : RO s s' (off s k) (off s' k) := ⟨k, hk, rfl, rfl⟩
    have e1 : ((off s k : Nat) : Int).toNat = off s k := Int.toNat_natCast _
    have e2 : ((off s' k : Nat) : Int).toNat = off s' k := Int.toNat_natCast _
    show SameOut L s s' ((off s k : Nat) : Int).toNat ((off s' k : Nat) : Int).toNat
      (fresh U (utf8 s) (.word ((off s k : Nat) : Int))) (fresh U (utf8 s') (.word ((off s' k : Nat) : Int)))
    simp only [fresh]
    rw [if_pos (by omega), if_pos (by omega)]
    simp only [e1, e2]
    have ha := acc_same HL hU h rWord hp hb hb'
    have hv := ev_same HL hU h (act_sim HL fun _ _ => chars_same h) rWord hp hb hb'
    have hn := acc_some (U := U) (utf8 s) rWord _ hb
    have hn' := ev_total U toaq _ (actAlg (.ofBytes (utf8 s))) hn
    have hle2 : ∀ q x, ev U toaq (.ofBytes (utf8 s)) (actAlg (.ofBytes (utf8 s))) (fuel (utf8 s)) (.ref rWord) (off s k) =
        some (.ok q x) → off s k ≤ q := by
      intro q x hx
      obtain ⟨_, _, _, h1⟩ := ev_recog_ok U toaq _ _ hx
      exact ((acc_bounds U toaq _ _ _ _ _ _ hb h1).1 q rfl).1
    have hle2' : ∀ q x, ev U toaq (.ofBytes (utf8 s')) (actAlg (.ofBytes (utf8 s'))) (fuel (utf8 s')) (.ref rWord) (off s' k) =
        some (.ok q x) → off s' k ≤ q := by
      intro q x hx
      obtain ⟨_, _, _, h1⟩ := ev_recog_ok U toaq _ _ hx
      exact ((acc_bounds U toaq _ _ _ _ _ _ hb' h1).1 q rfl).1
    generalize acc U toaq (.ofBytes (utf8 s)) (fuel (utf8 s)) (.ref rWord) (off s k) 0 = a at ha hn ⊢
    generalize acc U toaq (.ofBytes (utf8 s')) (fuel (utf8 s')) (.ref rWord) (off s' k) 0 = a' at ha ⊢
    generalize ev U toaq (.ofBytes (utf8 s)) (actAlg (.ofBytes (utf8 s))) (fuel (utf8 s)) (.ref rWord) (off s k) = v at hv hn' hle2 ⊢
    generalize ev U toaq (.ofBytes (utf8 s')) (actAlg (.ofBytes (utf8 s'))) (fuel (utf8 s')) (.ref rWord) (off s' k) = v' at hv hle2' ⊢
    cases ha with
    | none => exact absurd rfl hn
    | @fail e e' he =>
      refine .err ?_
      rw [show off s k + (e - off s k) = max e (off s k) by omega,
        show off s' k + (e' - off s' k) = max e' (off s' k) by omega]
      have he2 := err_same h he
      have hp2 := chars_same h hp
      rcases he with ⟨rfl, rfl⟩ | ⟨q, q', hq, rfl, rfl⟩
      · rw [Nat.max_eq_right (Nat.zero_le _), Nat.max_eq_right (Nat.zero_le _)]; exact hp2
      · have hm := (sim HL hU h).mono _ _ _ _ hp hq
        by_cases hk : off s k ≤ q
        · have := hm.1 hk
          rw [Nat.max_eq_left (by omega), Nat.max_eq_left (by omega)]; exact he2
        · have : ¬ off s' k ≤ q' := fun h => hk (hm.2 h)
          rw [Nat.max_eq_right (by omega), Nat.max_eq_right (by omega)]; exact hp2
    | ok _ _ =>
      cases hv with
      | none => exact absurd rfl hn'
      | fail => exact .panic
      | panic => exact .panic
      | @ok q q' x x' hq hx =>
        have q1 := hle2 _ _ rfl
        have q2 := hle2' _ _ rfl
        rcases x with ⟨x, xs⟩
        rcases x' with ⟨x', xs'⟩
        have hx : rv L (charsBefore s) x = rv L (charsBefore s') x' := hx.1
        cases x <;> cases x' <;> simp only [respellV, reduceCtorEq, Val.word.injEq] at hx
        case word.word n n' =>
          refine .word hx ?_
          rw [show off s k + (q - off s k) = q by omega, show off s' k + (q' - off s' k) = q' by omega]
          exact chars_same h hq
        all_goals exact .panic

/-- C58: capitals, the dot of i, and a breve for a caron do not change how a text is parsed. Take two
texts of the same standard spelling and any two histories of calls, and in each a call at the same
place. Then both succeed, or both return an error, or both panic. The trees have the same rules over
texts of the same spelling; the syntax trees are the same but for the spelling of the words, with
offsets that count the same characters; and errors are at the same character. -/
theorem C58_spelling (hU : LettersNotPunct U) (h : SameSpelling spellPairs s s') (cs cs' : List Call) (i j : Nat)
    (c c' : Call) (hi : cs[i]? = some c) (hj : cs'[j]? = some c') (hc : SameCall s s' c c') :
    ∃ o o', (calls U (utf8 s) cs newParser)[i]? = some o ∧ (calls U (utf8 s') cs' newParser)[j]? = some o' ∧
      SameOut spellPairs s s' c.start c'.start o o' := by
  rw [C20_memo_transparent, C20_memo_transparent, List.getElem?_map, List.getElem?_map, hi, hj]
  exact ⟨_, _, rfl, rfl, fresh_same spellPairs_ok hU h hc⟩

/-- ASCII letters are not punctuation; nothing else is in `asciiUni`. -/
theorem letters_ascii : LettersNotPunct asciiUni := by unfold LettersNotPunct; decide +kernel

example : SameSpelling spellPairs "Mải sǎq MUAO".toList "mảı săq muao".toList := by unfold SameSpelling; decide +kernel
/-- The two texts have different lengths in bytes. -/
example : (run "Mải jí" [.text]).map Out.toks =
    [[⟨"Mảı".toList, 0, 5⟩, ⟨" ".toList, 5, 6⟩, ⟨"jí".toList, 6, 9⟩]] := by decide +kernel
example : (run "mảı Jí" [.text]).map Out.toks =
    [[⟨"mảı".toList, 0, 6⟩, ⟨" ".toList, 6, 7⟩, ⟨"Jí".toList, 7, 10⟩]] := by decide +kernel
/-- V is a tone mark and v is nothing. -/
example : foldBy spellPairs 'V' = 'V' ∧ (run "maiV jai?" [.tree]).map Out.kind ≠ (run "maiv jai?" [.tree]).map Out.kind := by decide +kernel

end Verif.Parse
