/-
Trees for the proof of C60: modifiers change neither the words nor the tones of a tree.
-/
import Verif.Parse.ToneSpec
import Verif.AST.Model

namespace Verif.Parse.Tones
open Verif.AST Verif.AST.Spec Verif.Parse
open Verif.Tone (Str)

variable {P : Char → Prop}

open Classical in
/-- The predicate of `Every (GoodTones P)`. -/
noncomputable def gq (P : Char → Prop) (n : Node) : Bool := decide (GoodTones P n)

theorem gq_iff (n : Node) : gq P n = true ↔ GoodTones P n := by simp [gq]

/-- Every node is fine. -/
abbrev EP (P : Char → Prop) (n : Node) : Prop := allN (gq P) n = true
abbrev EWP (P : Char → Prop) (w : Word) : Prop := allNW (gq P) w = true
abbrev EOP (P : Char → Prop) (o : Option Node) : Prop := allNO (gq P) o = true
abbrev ELP (P : Char → Prop) (l : List Node) : Prop := allNL (gq P) l = true
abbrev ETOP (P : Char → Prop) (o : Option (List Node)) : Prop := allNTO (gq P) o = true
local notation "E" => EP P
local notation "EW" => EWP P
local notation "EO" => EOP P
local notation "EL" => ELP P
local notation "ETO" => ETOP P

theorem every_iff (n : Node) : Every (GoodTones P) n ↔ E n := by
  unfold Every EP
  have : (fun m => @decide (GoodTones P m) (Classical.propDecidable _)) = gq P := by
    funext m; rfl
  rw [← this]

/-- A word, with fine modifiers. -/
def WdP (P : Char → Prop) (w : Word) : Prop := IsWord w ∧ EWP P w
/-- The same, or no word. -/
def WOP (P : Char → Prop) (o : Option Word) : Prop := ∀ w, o = some w → WdP P w
local notation "Wd" => WdP P
local notation "WO" => WOP P

theorem wo_none : WO none := by intro w h; cases h
theorem wo_some {w : Word} : WO (some w) ↔ Wd w := by
  constructor
  · exact fun h => h w rfl
  · intro h x hx; injection hx with hx; subst hx; exact h

theorem wo_iff (o : Option Word) : WO o ↔ (∀ w ∈ o.toList, IsWord w) ∧ allNWO (gq P) o = true := by
  cases o <;> simp [WOP, WdP, allNWO]

/-! ### Nodes -/

theorem e_text (l d) : E (.text l d) ↔ EO l ∧ EL d := by
  simp [EP, allN, gq_iff, GoodTones, SpaceOf, ownWords, Tones]
theorem e_discourse (d) : E (.discourse d) ↔ EL d := by
  simp [EP, allN, gq_iff, GoodTones, SpaceOf, ownWords, Tones]
theorem e_sentence (je st da) : E (.sentence je st da) ↔ WO je ∧ E st ∧ WO da := by
  simp only [EP, allN, gq_iff, GoodTones, SpaceOf, ownWords, Tones, wo_iff, Bool.and_eq_true, List.mem_append]; grind
theorem e_cop (k to0 to1 ru l r) : E (.cop k to0 to1 ru l r) ↔ WO to0 ∧ WO to1 ∧ Wd ru ∧ E l ∧ E r ∧
    (k = .predicate → HasTone [.hook] r ∨ HasTone [.grave] l ∧ HasTone [.grave] r) := by
  have : Tones (.cop k to0 to1 ru l r) ↔
      (k = .predicate → HasTone [.hook] r ∨ HasTone [.grave] l ∧ HasTone [.grave] r) := by
    cases k <;> simp [Tones]
  simp only [EP, allN, gq_iff, GoodTones, SpaceOf, ownWords, this, wo_iff, Bool.and_eq_true, List.mem_append, WdP,
    List.mem_singleton]
  grind
theorem e_prenex (ts bi) : E (.prenex ts bi) ↔ EL ts ∧ Wd bi := by
  simp [EP, allN, gq_iff, GoodTones, SpaceOf, ownWords, Tones, WdP]; grind
theorem e_prenexStmt (ts bi st) : E (.prenexStmt ts bi st) ↔ EL ts ∧ Wd bi ∧ E st := by
  simp [EP, allN, gq_iff, GoodTones, SpaceOf, ownWords, Tones, WdP]; grind

/-- The tone of the predicate of a predication. -/
def predTone : PredKind → WTone
  | .raw => .hook | .relative => .caron | .content => .circumflex

theorem e_predication (k p ts na) : E (.predication k p ts na) ↔ HasTone [predTone k] p ∧ E p ∧ ETO ts ∧ WO na := by
  have : Tones (.predication k p ts na) ↔ HasTone [predTone k] p := by
    cases k <;> simp [Tones, predTone]
  simp only [EP, allN, gq_iff, GoodTones, SpaceOf, ownWords, this, wo_iff, Bool.and_eq_true]; grind
theorem e_prefixed (mu p) : E (.prefixed mu p) ↔ Wd mu ∧ E p := by
  simp [EP, allN, gq_iff, GoodTones, SpaceOf, ownWords, Tones, WdP]; grind
theorem e_serial (l r) : E (.serial l r) ↔ E l ∧ E r ∧ HasTone [.hook] r := by
  simp [EP, allN, gq_iff, GoodTones, SpaceOf, ownWords, Tones]; grind
theorem e_word (k w) : E (.word k w) ↔ EW w ∧ (k ≠ .space → IsWord w) ∧ (k = .space → ∀ c ∈ w.T, P c) := by
  cases k <;> simp [EP, allN, gq_iff, GoodTones, SpaceOf, ownWords, Tones] <;> grind
theorem e_mi (m ga ph) : E (.mi m ga ph) ↔ Wd m ∧ WO ga ∧ E ph ∧ (isPredicate ph = true → HasTone [.hook] ph) := by
  simp only [EP, allN, gq_iff, GoodTones, SpaceOf, ownWords, Tones, wo_iff, Bool.and_eq_true, WdP, List.mem_cons]; grind
theorem e_po (m ga ph) : E (.po m ga ph) ↔ Wd m ∧ WO ga ∧ E ph := by
  simp only [EP, allN, gq_iff, GoodTones, SpaceOf, ownWords, Tones, wo_iff, Bool.and_eq_true, WdP, List.mem_cons]; grind
theorem e_mo (m teo d) : E (.mo m teo d) ↔ Wd m ∧ Wd teo ∧ EL d := by
  simp [EP, allN, gq_iff, GoodTones, SpaceOf, ownWords, Tones, WdP]; grind

/-- The tone of the particle of a clause of the kind. -/
def luTone : LuKind → Option WTone
  | .relative => some .caron
  | .content => some .circumflex
  | _ => none

theorem e_lu (k l st) : E (.lu k l st) ↔ Wd l ∧ E st ∧ (∀ τ, luTone k = some τ → WordOf τ l.T) := by
  have : Tones (.lu k l st) ↔ ∀ τ, luTone k = some τ → WordOf τ l.T := by
    cases k <;> simp [Tones, luTone]
  simp [EP, allN, gq_iff, GoodTones, SpaceOf, ownWords, this, WdP]; grind
theorem e_linked (g a) : E (.linked g a) ↔ Wd g ∧ E a := by
  simp [EP, allN, gq_iff, GoodTones, SpaceOf, ownWords, Tones, WdP]; grind
theorem e_terms (d) : E (.terms d) ↔ EL d := by
  simp [EP, allN, gq_iff, GoodTones, SpaceOf, ownWords, Tones]
theorem e_predArg (id f q p rel) :
    E (.predArg id f q p rel) ↔ WO f ∧ WO q ∧ HasTone [.acute, .circumflex] p ∧ E p ∧ EO rel := by
  simp only [EP, allN, gq_iff, GoodTones, SpaceOf, ownWords, Tones, wo_iff, Bool.and_eq_true, List.mem_append]; grind
theorem e_predAdverb (p) : E (.predAdverb p) ↔ HasTone [.tilde] p ∧ E p := by
  simp [EP, allN, gq_iff, GoodTones, SpaceOf, ownWords, Tones]
theorem e_prep (p a) : E (.prep p a) ↔ HasTone [.grave] p ∧ E p ∧ E a := by
  simp [EP, allN, gq_iff, GoodTones, SpaceOf, ownWords, Tones]
theorem e_paren (kio ki d) : E (.paren kio ki d) ↔ Wd kio ∧ Wd ki ∧ EL d := by
  simp [EP, allN, gq_iff, GoodTones, SpaceOf, ownWords, Tones, WdP]; grind
theorem e_incidental (g a) : E (.incidental g a) ↔ Wd g ∧ E a := by
  simp [EP, allN, gq_iff, GoodTones, SpaceOf, ownWords, Tones, WdP]; grind
theorem e_vocative (g a) : E (.vocative g a) ↔ Wd g ∧ E a := by
  simp [EP, allN, gq_iff, GoodTones, SpaceOf, ownWords, Tones, WdP]; grind

theorem el_cons {n l} : EL (n :: l) ↔ E n ∧ EL l := by simp [ELP, EP, allNL]
theorem el_nil : EL [] := rfl
theorem eo_none : EO none := rfl
theorem eo_some {n} : EO (some n) ↔ E n := Iff.rfl
theorem eto_none : ETO none := rfl
theorem eto_some {l} : ETO (some l) ↔ EL l := Iff.rfl

/-! ### Modifiers -/

theorem modW_text (m : Node) (w : Word) : (modW m w).T = w.T := by cases w; rfl

theorem isWord_mod (m : Node) (w : Word) : IsWord (modW m w) ↔ IsWord w := by
  simp [IsWord, modW_text]

theorem head_mod (m : Node) : ∀ n, headWord (mod m n) = headWord n :=
  (Node.induct (P := fun n => headWord (mod m n) = headWord n) (Q := fun _ => True)
    (hword := fun _ _ _ _ _ => trivial)
    (text := fun _ _ _ _ => rfl)
    (discourse := fun _ _ => rfl)
    (sentence := fun _ _ da _ _ _ => by cases da <;> rfl)
    (cop := fun _ _ _ _ _ _ _ _ _ _ _ => rfl)
    (prenex := fun _ _ _ _ => rfl)
    (prenexStmt := fun _ _ _ _ _ _ => rfl)
    (predication := fun _ _ ts na h _ _ => by
      cases na with
      | some _ => rfl
      | none => cases ts with
        | some _ => rfl
        | none => exact h)
    (prefixed := fun _ _ _ _ => rfl)
    (serial := fun _ _ _ _ => rfl)
    (word := fun k w _ => by cases k <;> simp [mod, headWord, modW_text])
    (mi := fun _ ga _ _ _ _ => by cases ga <;> rfl)
    (po := fun _ ga _ _ _ _ => by cases ga <;> rfl)
    (mo := fun _ _ _ _ _ _ => rfl)
    (lu := fun _ _ _ _ _ => rfl)
    (linked := fun _ _ _ _ => rfl)
    (terms := fun _ _ => rfl)
    (predArg := fun _ _ _ _ rel _ _ h _ => by
      cases rel with
      | some _ => rfl
      | none => exact h)
    (predAdverb := fun _ h => h)
    (prep := fun _ _ _ _ => rfl)
    (paren := fun _ _ _ _ _ _ => rfl)
    (incidental := fun _ _ _ _ => rfl)
    (vocative := fun _ _ _ _ => rfl)).1

theorem isPredicate_mod (m n : Node) : isPredicate (mod m n) = isPredicate n := by
  cases n with
  | sentence _ _ da => cases da <;> rfl
  | predication _ _ ts na => cases na <;> cases ts <;> rfl
  | mi _ ga _ => cases ga <;> rfl
  | po _ ga _ => cases ga <;> rfl
  | predArg _ _ _ _ rel => cases rel <;> rfl
  | word k _ => cases k <;> rfl
  | cop k => cases k <;> rfl
  | lu k => cases k <;> rfl
  | _ => rfl

theorem hasTone_mod (τs : List WTone) (m n : Node) : HasTone τs (mod m n) ↔ HasTone τs n := by
  simp [HasTone, head_mod]

theorem wo_mod {m : Node} {w : Word} (h : WO (some w)) (hw : EW w → EW (modW m w)) : WO (some (modW m w)) := by
  rw [wo_some] at h ⊢
  exact ⟨(isWord_mod m w).2 h.1, hw h.2⟩

theorem wd_mod {m : Node} {w : Word} (h : Wd w) (hw : EW w → EW (modW m w)) : Wd (modW m w) :=
  ⟨(isWord_mod m w).2 h.1, hw h.2⟩

theorem e_mod_aux (m : Node) (hm : E m) :
    (∀ n, E n → E (mod m n)) ∧ (∀ w, EW w → EW (modW m w)) := by
  have hL : ∀ l : List Node, (∀ x ∈ l, E x → E (mod m x)) → EL l → EL (modLast m l) := by
    intro l
    induction l with
    | nil => intro _ h; exact h
    | cons a l ih =>
      intro h hl
      rw [el_cons] at hl
      cases l with
      | nil => exact el_cons.2 ⟨h a (by simp) hl.1, el_nil⟩
      | cons b l => exact el_cons.2 ⟨hl.1, ih (fun x hx => h x (by simp [hx])) hl.2⟩
  apply Node.induct
    (P := fun n => E n → E (mod m n))
    (Q := fun w => EW w → EW (modW m w))
  · intro t s e M hM h
    cases M with
    | none => exact hm
    | some y => exact hM y rfl h
  case text =>
    intro l d _ h2 h
    rw [e_text] at h
    rw [mod, e_text]
    exact ⟨h.1, hL d h2 h.2⟩
  case discourse =>
    intro d h2 h
    rw [e_discourse] at h
    rw [mod, e_discourse]
    exact hL d h2 h
  case sentence =>
    intro je st da h1 h2 h3 h
    rw [e_sentence] at h
    cases da with
    | none => simp only [mod]; rw [e_sentence]; exact ⟨h.1, h2 h.2.1, h.2.2⟩
    | some w => simp only [mod]; rw [e_sentence]; exact ⟨h.1, h.2.1, wo_mod h.2.2 (h3 w rfl)⟩
  case cop =>
    intro k to0 to1 ru l r _ _ _ _ h5 h
    rw [e_cop] at h
    rw [mod, e_cop]
    simp only [hasTone_mod]
    exact ⟨h.1, h.2.1, h.2.2.1, h.2.2.2.1, h5 h.2.2.2.2.1, h.2.2.2.2.2⟩
  case prenex =>
    intro ts bi _ h2 h
    rw [e_prenex] at h
    rw [mod, e_prenex]
    exact ⟨h.1, wd_mod h.2 h2⟩
  case prenexStmt =>
    intro ts bi st _ _ h3 h
    rw [e_prenexStmt] at h
    rw [mod, e_prenexStmt]
    exact ⟨h.1, h.2.1, h3 h.2.2⟩
  case predication =>
    intro k p ts na h1 h2 h3 h
    rw [e_predication] at h
    cases na with
    | some w => simp only [mod]; rw [e_predication]; exact ⟨h.1, h.2.1, h.2.2.1, wo_mod h.2.2.2 (h3 w rfl)⟩
    | none =>
      cases ts with
      | none => simp only [mod]; rw [e_predication, hasTone_mod]; exact ⟨h.1, h1 h.2.1, h.2.2⟩
      | some l =>
        simp only [mod]
        rw [e_predication]
        exact ⟨h.1, h.2.1, hL l (h2 l rfl) h.2.2.1, h.2.2.2⟩
  case prefixed =>
    intro mu p _ h2 h
    rw [e_prefixed] at h
    rw [mod, e_prefixed]
    exact ⟨h.1, h2 h.2⟩
  case serial =>
    intro l r _ h2 h
    rw [e_serial] at h
    rw [mod, e_serial, hasTone_mod]
    exact ⟨h.1, h2 h.2.1, h.2.2⟩
  case word =>
    intro k w h1 h
    rw [e_word] at h
    rw [mod, e_word, isWord_mod, modW_text]
    exact ⟨h1 h.1, h.2⟩
  case mi =>
    intro x ga ph _ h2 h3 h
    rw [e_mi] at h
    cases ga with
    | none =>
      simp only [mod]
      rw [e_mi, isPredicate_mod, hasTone_mod]
      exact ⟨h.1, h.2.1, h3 h.2.2.1, h.2.2.2⟩
    | some w => simp only [mod]; rw [e_mi]; exact ⟨h.1, wo_mod h.2.1 (h2 w rfl), h.2.2⟩
  case po =>
    intro x ga ph _ h2 h3 h
    rw [e_po] at h
    cases ga with
    | none => simp only [mod]; rw [e_po]; exact ⟨h.1, h.2.1, h3 h.2.2⟩
    | some w => simp only [mod]; rw [e_po]; exact ⟨h.1, wo_mod h.2.1 (h2 w rfl), h.2.2⟩
  case mo =>
    intro x teo d _ h2 _ h
    rw [e_mo] at h
    rw [mod, e_mo]
    exact ⟨h.1, wd_mod h.2.1 h2, h.2.2⟩
  case lu =>
    intro k l st _ h2 h
    rw [e_lu] at h
    rw [mod, e_lu]
    exact ⟨h.1, h2 h.2.1, h.2.2⟩
  case linked =>
    intro g a _ h2 h
    rw [e_linked] at h
    rw [mod, e_linked]
    exact ⟨h.1, h2 h.2⟩
  case terms =>
    intro d h2 h
    rw [e_terms] at h
    rw [mod, e_terms]
    exact hL d h2 h
  case predArg =>
    intro id f q p rel _ _ h3 h4 h
    rw [e_predArg] at h
    cases rel with
    | none =>
      simp only [mod]
      rw [e_predArg, hasTone_mod]
      exact ⟨h.1, h.2.1, h.2.2.1, h3 h.2.2.2.1, h.2.2.2.2⟩
    | some r =>
      simp only [mod]
      rw [e_predArg]
      exact ⟨h.1, h.2.1, h.2.2.1, h.2.2.2.1, h4 r rfl h.2.2.2.2⟩
  case predAdverb =>
    intro p h1 h
    rw [e_predAdverb] at h
    rw [mod, e_predAdverb, hasTone_mod]
    exact ⟨h.1, h1 h.2⟩
  case prep =>
    intro p a _ h2 h
    rw [e_prep] at h
    rw [mod, e_prep]
    exact ⟨h.1, h.2.1, h2 h.2.2⟩
  case paren =>
    intro kio ki d _ _ h3 h
    rw [e_paren] at h
    rw [mod, e_paren]
    exact ⟨h.1, h.2.1, hL d h3 h.2.2⟩
  case incidental =>
    intro g a _ h2 h
    rw [e_incidental] at h
    rw [mod, e_incidental]
    exact ⟨h.1, h2 h.2⟩
  case vocative =>
    intro g a _ h2 h
    rw [e_vocative] at h
    rw [mod, e_vocative]
    exact ⟨h.1, h2 h.2⟩

theorem e_modOpt {s : Option Node} {n : Node} (hs : EO s) (h : E n) : E (modOpt s n) := by
  cases s with
  | none => exact h
  | some m => exact (e_mod_aux m hs).1 n h

theorem hasTone_modOpt (τs : List WTone) (s : Option Node) (n : Node) : HasTone τs (modOpt s n) ↔ HasTone τs n := by
  cases s with
  | none => exact Iff.rfl
  | some m => exact hasTone_mod τs m n

theorem isPredicate_modOpt (s : Option Node) (n : Node) : isPredicate (modOpt s n) = isPredicate n := by
  cases s with
  | none => rfl
  | some m => exact isPredicate_mod m n

theorem modWOpt_T (s : Option Node) (w : Word) : (modWOpt s w).T = w.T := by
  cases s with
  | none => rfl
  | some m => exact modW_text m w

theorem ew_modWOpt {s : Option Node} {w : Word} (hs : EO s) (h : EW w) : EW (modWOpt s w) := by
  cases s with
  | none => exact h
  | some m => exact (e_mod_aux m hs).2 w h

theorem wd_modWOpt {s : Option Node} {w : Word} (hs : EO s) (h : Wd w) : Wd (modWOpt s w) := by
  refine ⟨?_, ew_modWOpt hs h.2⟩
  simpa [IsWord, modWOpt_T] using h.1

theorem el_modLastOpt {s : Option Node} {l : List Node} (hs : EO s) (h : EL l) : EL (modLastOpt s l) := by
  cases s with
  | none => exact h
  | some m =>
    have := (e_mod_aux m hs).1 (.discourse l) ((e_discourse l).2 h)
    rw [mod, e_discourse] at this
    exact this

/-! ### Tokens -/

/-- A word, or separators. -/
def TokOk (P : Char → Prop) (s : Str) : Prop := (∃ τ, WordOf τ s) ∨ ∀ c ∈ s, P c

mutual
theorem tok_node : ∀ n, E n → ∀ t ∈ words n, TokOk P t.t
  | .text l d, h => by
    rw [e_text] at h
    simp only [words, List.mem_append]
    rintro t (ht | ht)
    · exact tok_opt l h.1 t ht
    · exact tok_list d h.2 t ht
  | .discourse d, h => tok_list d ((e_discourse d).1 h)
  | .sentence je st da, h => by
    rw [e_sentence] at h
    simp only [words, List.mem_append]
    rintro t ((ht | ht) | ht)
    · exact tok_wopt je h.1 t ht
    · exact tok_node st h.2.1 t ht
    · exact tok_wopt da h.2.2 t ht
  | .cop k to0 to1 ru l r, h => by
    rw [e_cop] at h
    have h0 := tok_wopt to0 h.1
    have h1 := tok_wopt to1 h.2.1
    have h2 := tok_word ru h.2.2.1
    have h3 := tok_node l h.2.2.2.1
    have h4 := tok_node r h.2.2.2.2.1
    cases to0 with
    | none =>
      simp only [words, List.mem_append]
      rintro t ((ht | ht) | ht)
      · exact h3 t ht
      · exact h2 t ht
      · exact h4 t ht
    | some w =>
      simp only [words, List.mem_append]
      rintro t ((((ht | ht) | ht) | ht) | ht)
      · exact h0 t ht
      · exact h2 t ht
      · exact h3 t ht
      · exact h1 t ht
      · exact h4 t ht
  | .prenex ts bi, h => by
    rw [e_prenex] at h
    simp only [words, List.mem_append]
    rintro t (ht | ht)
    · exact tok_list ts h.1 t ht
    · exact tok_word bi h.2 t ht
  | .prenexStmt ts bi st, h => by
    rw [e_prenexStmt] at h
    simp only [words, List.mem_append]
    rintro t ((ht | ht) | ht)
    · exact tok_list ts h.1 t ht
    · exact tok_word bi h.2.1 t ht
    · exact tok_node st h.2.2 t ht
  | .predication k p ts na, h => by
    rw [e_predication] at h
    simp only [words, List.mem_append]
    rintro t ((ht | ht) | ht)
    · exact tok_node p h.2.1 t ht
    · exact tok_topt ts h.2.2.1 t ht
    · exact tok_wopt na h.2.2.2 t ht
  | .prefixed mu p, h => by
    rw [e_prefixed] at h
    simp only [words, List.mem_append]
    rintro t (ht | ht)
    · exact tok_word mu h.1 t ht
    · exact tok_node p h.2 t ht
  | .serial l r, h => by
    rw [e_serial] at h
    simp only [words, List.mem_append]
    rintro t (ht | ht)
    · exact tok_node l h.1 t ht
    · exact tok_node r h.2.1 t ht
  | .word k w, h => by
    rw [e_word] at h
    simp only [words]
    refine tok_mod w h.1 ?_
    by_cases hk : k = .space
    · exact .inr (h.2.2 hk)
    · exact .inl (h.2.1 hk)
  | .mi m ga ph, h => by
    rw [e_mi] at h
    simp only [words, List.mem_append]
    rintro t ((ht | ht) | ht)
    · exact tok_word m h.1 t ht
    · exact tok_node ph h.2.2.1 t ht
    · exact tok_wopt ga h.2.1 t ht
  | .po m ga ph, h => by
    rw [e_po] at h
    simp only [words, List.mem_append]
    rintro t ((ht | ht) | ht)
    · exact tok_word m h.1 t ht
    · exact tok_node ph h.2.2 t ht
    · exact tok_wopt ga h.2.1 t ht
  | .mo m teo d, h => by
    rw [e_mo] at h
    simp only [words, List.mem_append]
    rintro t ((ht | ht) | ht)
    · exact tok_word m h.1 t ht
    · exact tok_list d h.2.2 t ht
    · exact tok_word teo h.2.1 t ht
  | .lu k l st, h => by
    rw [e_lu] at h
    simp only [words, List.mem_append]
    rintro t (ht | ht)
    · exact tok_word l h.1 t ht
    · exact tok_node st h.2.1 t ht
  | .linked g a, h => by
    rw [e_linked] at h
    simp only [words, List.mem_append]
    rintro t (ht | ht)
    · exact tok_word g h.1 t ht
    · exact tok_node a h.2 t ht
  | .terms d, h => tok_list d ((e_terms d).1 h)
  | .predArg id f q p rel, h => by
    rw [e_predArg] at h
    simp only [words, List.mem_append]
    rintro t (((ht | ht) | ht) | ht)
    · exact tok_wopt f h.1 t ht
    · exact tok_wopt q h.2.1 t ht
    · exact tok_node p h.2.2.2.1 t ht
    · exact tok_opt rel h.2.2.2.2 t ht
  | .predAdverb p, h => tok_node p ((e_predAdverb p).1 h).2
  | .prep p a, h => by
    rw [e_prep] at h
    simp only [words, List.mem_append]
    rintro t (ht | ht)
    · exact tok_node p h.2.1 t ht
    · exact tok_node a h.2.2 t ht
  | .paren kio ki d, h => by
    rw [e_paren] at h
    simp only [words, List.mem_append]
    rintro t ((ht | ht) | ht)
    · exact tok_word kio h.1 t ht
    · exact tok_list d h.2.2 t ht
    · exact tok_word ki h.2.1 t ht
  | .incidental g a, h => by
    rw [e_incidental] at h
    simp only [words, List.mem_append]
    rintro t (ht | ht)
    · exact tok_word g h.1 t ht
    · exact tok_node a h.2 t ht
  | .vocative g a, h => by
    rw [e_vocative] at h
    simp only [words, List.mem_append]
    rintro t (ht | ht)
    · exact tok_word g h.1 t ht
    · exact tok_node a h.2 t ht
theorem tok_mod : ∀ w : Word, EW w → TokOk P w.T → ∀ t ∈ wordsW w, TokOk P t.t
  | .mk s _ _ m, h, hs => by
    simp only [wordsW, List.mem_cons]
    rintro t (rfl | ht)
    · exact hs
    · exact tok_opt m h t ht
theorem tok_word : ∀ w : Word, Wd w → ∀ t ∈ wordsW w, TokOk P t.t
  | .mk s _ _ m, h => by
    simp only [wordsW, List.mem_cons]
    rintro t (rfl | ht)
    · exact .inl h.1
    · exact tok_opt m h.2 t ht
theorem tok_opt : ∀ o : Option Node, EO o → ∀ t ∈ wordsO o, TokOk P t.t
  | none, _ => by simp [wordsO]
  | some n, h => tok_node n h
theorem tok_wopt : ∀ o : Option Word, WO o → ∀ t ∈ wordsWO o, TokOk P t.t
  | none, _ => by simp [wordsWO]
  | some w, h => tok_word w (wo_some.1 h)
theorem tok_topt : ∀ o : Option (List Node), ETO o → ∀ t ∈ wordsTO o, TokOk P t.t
  | none, _ => by simp [wordsTO]
  | some l, h => tok_list l h
theorem tok_list : ∀ l : List Node, EL l → ∀ t ∈ wordsL l, TokOk P t.t
  | [], _ => by simp [wordsL]
  | n :: l, h => by
    rw [el_cons] at h
    simp only [wordsL, List.mem_append]
    rintro t (ht | ht)
    · exact tok_node n h.1 t ht
    · exact tok_list l h.2 t ht
end

end Verif.Parse.Tones
