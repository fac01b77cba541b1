/-
The actions produce values of their types.
-/
import Verif.Parse.TypesProps

namespace Verif.Parse
open Verif.AST Verif.AST.Spec Verif.Peg
open Verif.Tone (Str)

variable {I : Input}

/-! ### Modifiers -/

theorem tile_mod {p m q : Nat} {n x : Node} (hd : modDefined n = true) (h : TileP I p m (ord n) (words n))
    (hx : TileP I m q (ord x) (words x)) : TileP I p q (ord (mod x n)) (words (mod x n)) := by
  have hp := C11_mod_perm x n hd
  have happ := h.app hx
  refine ⟨?_, ?_, fun t ht => happ.good t (hp.mem_iff.1 ht)⟩
  · obtain ⟨L, h1, h2⟩ := happ.perm
    exact ⟨L, h1.trans hp.symm, h2⟩
  · rw [(ord_mod_aux x).1 n hd]
    exact happ.order

theorem NP.mod {p m q : Nat} {n : Node} {o : Option Node} (h : NP I p m n) (ht : tag n ≠ .text) (ho : OM I m q o) :
    NP I p q (modOpt o n) := by
  cases o with
  | none => have : m = q := ho; subst this; exact h
  | some x =>
    obtain ⟨h1, h2, h3⟩ := ho
    have hd := modDefined_aux.1 n h.1 ht
    exact ⟨(ws_mod_aux x (by simp [ws, h1, h2])).1 n h.1, tile_mod hd h.2 h3⟩

theorem tag_modOpt (o : Option Node) (n : Node) : tag (modOpt o n) = tag n := by
  cases o with
  | none => rfl
  | some x => exact tag_mod x n

theorem wp_np {p q : Nat} {w : Word} : WP I p q w ↔ NP I p q (.word .predicate w) := by
  simp [WP, NP, wsIn, ord, words]

theorem WP.mod {p m q : Nat} {w : Word} {o : Option Node} (h : WP I p m w) (ho : OM I m q o) :
    WP I p q (modWOpt o w) := by
  have := (wp_np.1 h).mod (by simp [tag]) ho
  cases o with
  | none => exact wp_np.2 this
  | some x => exact wp_np.2 (by simpa [modOpt, modWOpt, Verif.AST.mod] using this)

theorem LP.mod {s : Srt} {p m q : Nat} {l : List Node} {o : Option Node} (hs : s ≠ .text) (h : LP I s p m l)
    (ho : OM I m q o) : LP I s p q (modLastOpt o l) := by
  cases o with
  | none => have : m = q := ho; subst this; exact h
  | some x =>
    obtain ⟨h1, h2, h3⟩ := ho
    obtain ⟨h4, h5, h6⟩ := h
    have hd := ws_lastDefined hs h5 h4
    refine ⟨by simpa [modLastOpt, wsL_nonempty_modLast] using h4, ws_modLast (by simp [ws, h1, h2]) h5, ?_⟩
    have := tile_mod (n := .terms l) (by simpa [modDefined] using hd) (by simpa [ord, words] using h6) h3
    simpa [Verif.AST.mod, ord, words, modLastOpt] using this

theorem OM_of {p q v} (h : Mean I (.opt (.nd .mod)) p q v) : ∃ o, v.asNode? = some o ∧ OM I p q o := by
  rcases h with ⟨rfl, rfl⟩ | ⟨n, rfl, h1, h2⟩
  · exact ⟨none, rfl, rfl⟩
  · exact ⟨some n, rfl, h1, h2⟩

theorem OW_of {p q v} (h : Mean I (.opt .word) p q v) : ∃ o, v.asWord? = some o ∧ OW I p q o := by
  rcases h with ⟨rfl, rfl⟩ | ⟨n, rfl, h1⟩
  · exact ⟨none, rfl, rfl⟩
  · exact ⟨some n, rfl, h1⟩

theorem OW.ws {p q o} (h : OW I p q o) : wsWO o = true := by
  cases o with
  | none => rfl
  | some w => exact h.1

theorem OW.tile {p q o} (h : OW I p q o) : TileP I p q (ordWO o) (wordsWO o) := by
  cases o with
  | none =>
    have : p = q := h
    subst this
    exact TileP.nil I p
  | some w => exact h.2

theorem NP.tile {p q n} (h : NP I p q n) : TileP I p q (ord n) (words n) := h.2
theorem WP.tile {p q w} (h : WP I p q w) : TileP I p q (ordW w) (wordsW w) := h.2
theorem LP.tile {s p q l} (h : LP I s p q l) : TileP I p q (ordL l) (wordsL l) := h.2.2
theorem accepts_ne_text {s : Srt} {t : Tag} (hs : accepts s .text = false) (h : accepts s t = true) : t ≠ .text := by
  rintro rfl
  rw [hs] at h
  cases h

theorem sp_word {p q s} (h : SP I p q s) : WP I p q (.mk s p q none) := by
  obtain ⟨h1, cs, h2, h3⟩ := h
  refine ⟨by simp [wsW, wsO], ?_⟩
  have ht : Tiles p q (wordsW (.mk s p q none)) := by simp [wordsW, wordsO, Tiles, h1]
  refine ⟨⟨_, .refl _, ht⟩, ?_, fun t ht => ?_⟩
  · simp [ordW, ordO, Asc, h1]
  simp only [wordsW, wordsO, List.mem_singleton] at ht
  subst ht
  exact ⟨h1, cs, h2, h3⟩

/-! ### The arguments of an action -/

variable (I)

/-- The values `vs` of the labels of parts of types `es` that cover the text from `p` to `q`. -/
def Env : List Ent → Nat → Nat → List Val → Prop
  | [], p, q, vs => vs = [] ∧ p = q
  | (true, t) :: es, p, q, vs => ∃ m v vs', vs = v :: vs' ∧ Mean I t p m v ∧ Env es m q vs'
  | (false, t) :: es, p, q, vs => ∃ m v, Mean I t p m v ∧ Env es m q vs

def Args : List Ty → Nat → Nat → List Val → Prop
  | [], p, q, vs => vs = [] ∧ p = q
  | t :: ts, p, q, vs => ∃ m v vs', vs = v :: vs' ∧ Mean I t p m v ∧ Args ts m q vs'

/-- The text has a digit that writes a tone. -/
def HasDigit : Prop := ∃ p, p < I.len ∧ (I.next p).1 ∈ "1234567".toList

variable {I}

theorem Env.append {es fs p m q vs ws} (h : Env I es p m vs) (h' : Env I fs m q ws) : Env I (es ++ fs) p q (vs ++ ws) := by
  induction es generalizing p vs with
  | nil =>
    obtain ⟨rfl, rfl⟩ := h
    exact h'
  | cons e es ih =>
    obtain ⟨b, t⟩ := e
    cases b with
    | true =>
      obtain ⟨k, v, vs', rfl, h1, h2⟩ := h
      exact ⟨k, v, vs' ++ ws, rfl, h1, ih h2⟩
    | false =>
      obtain ⟨k, v, h1, h2⟩ := h
      exact ⟨k, v, h1, ih h2⟩

theorem Env.unlabelled {es p q vs} (h : Env I es p q vs) (hu : unlabelled es = true) : vs = [] := by
  induction es generalizing p vs with
  | nil => exact h.1
  | cons e es ih =>
    obtain ⟨b, t⟩ := e
    simp only [Verif.Parse.unlabelled, List.all_cons, Bool.and_eq_true] at hu
    cases b with
    | true => simp at hu
    | false =>
      obtain ⟨k, v, h1, h2⟩ := h
      exact ih h2 hu.2

theorem Env.single {t p q v} (h : Mean I t p q v) : Env I (single t).2 p q [] := by
  unfold Verif.Parse.single
  split
  · rename_i ht
    have := eq_of_beq ht
    subst this
    exact ⟨rfl, h.2⟩
  · exact ⟨q, v, h, rfl, rfl⟩

theorem matches_args {es ts p q vs} (hm : matches' es ts = true) (h : Env I es p q vs) : Args I ts p q vs := by
  induction es generalizing ts p vs with
  | nil =>
    cases ts with
    | nil => exact h
    | cons t ts => simp [matches'] at hm
  | cons e es ih =>
    obtain ⟨b, t⟩ := e
    cases b with
    | false => cases ts <;> simp [matches'] at hm
    | true =>
      cases ts with
      | nil => simp [matches'] at hm
      | cons u us =>
        simp only [matches', Bool.and_eq_true] at hm
        obtain ⟨m, v, vs', rfl, h1, h2⟩ := h
        exact ⟨m, v, vs', rfl, sub_mean hm.1 h1, ih hm.2 h2⟩

theorem Args.one {a p q vs} (h : Args I [a] p q vs) : ∃ x, vs = [x] ∧ Mean I a p q x := by
  obtain ⟨m, v, vs', rfl, h1, rfl, rfl⟩ := h
  exact ⟨v, rfl, h1⟩
theorem Args.two {a b p q vs} (h : Args I [a, b] p q vs) :
    ∃ x y m, vs = [x, y] ∧ Mean I a p m x ∧ Mean I b m q y := by
  obtain ⟨m, v, vs', rfl, h1, h2⟩ := h
  obtain ⟨y, rfl, h3⟩ := h2.one
  exact ⟨v, y, m, rfl, h1, h3⟩
theorem Args.three {a b c p q vs} (h : Args I [a, b, c] p q vs) :
    ∃ x y z m k, vs = [x, y, z] ∧ Mean I a p m x ∧ Mean I b m k y ∧ Mean I c k q z := by
  obtain ⟨m, v, vs', rfl, h1, h2⟩ := h
  obtain ⟨y, z, k, rfl, h3, h4⟩ := h2.two
  exact ⟨v, y, z, m, k, rfl, h1, h3, h4⟩

variable (I)
/-- The result of an action is a value of the type, or the action is `addTone` and panics with an index out
of range because the text has a tone digit. -/
def ActOk (f : Act) (t : Ty) (p q : Nat) (vs : List Val) : Prop :=
  (∃ v, runAct f p q vs = .ok v ∧ Mean I t p q v) ∨ (runAct f p q vs = .error .index ∧ f = .addTone ∧ HasDigit I)
variable {I}

/-- Unfold word lists and the like. -/
macro "wrds" : tactic => `(tactic|
  (simp only [ord, ordW, ordWO, ordO, ordTO, ordL, words, wordsW, wordsWO, wordsO, wordsTO,
      wordsL, List.append_assoc, List.append_nil, List.nil_append]) <;>
    grind)

theorem diacritic_table_bool : ∀ t ∈ toneRunes, t.isDigit = false → ∀ l ∈ plainVowels,
    (Verif.Tone.diacritic0 t l).any (fun d => (marksOf t).all fun m =>
      tones.any fun x => x.2.contains m && (plainVowels.zip x.1).contains (l, d)) = true := by decide +kernel

theorem diacritic_table {t : Char} (ht : t ∈ toneRunes) (hd : t.isDigit = false) {l : Char} (hl : l ∈ plainVowels) :
    ∃ d, Verif.Tone.diacritic0 t l = some d ∧ ∀ m ∈ marksOf t, Toned l m d := by
  have := diacritic_table_bool t ht hd l hl
  cases hz : Verif.Tone.diacritic0 t l with
  | none => rw [hz] at this; cases this
  | some d =>
    rw [hz] at this
    refine ⟨d, rfl, fun m hm => ?_⟩
    have := List.all_eq_true.1 this m hm
    obtain ⟨x, hx, h⟩ := List.any_eq_true.1 this
    simp only [Bool.and_eq_true, List.contains_iff_mem] at h
    exact ⟨x, hx, h⟩

theorem digit_table : ∀ t ∈ toneRunes, t.isDigit = true → t ∈ "1234567".toList ∧
    ∀ l ∈ plainVowels, Verif.Tone.diacritic0 t l = none := by decide +kernel

theorem self_mark : ∀ t ∈ toneRunes, t.isDigit = false → t ∈ marksOf t := by decide +kernel

theorem is_terms {n : Node} (h : accepts .terms (tag n) = true) : ∃ ts, n = .terms ts := by
  cases n <;> first | exact ⟨_, rfl⟩ | (simp [accepts, tag] at h; done)

theorem terms_lp {p q ts} : NP I p q (.terms ts) ↔ LP I .term p q ts := by
  simp [NP, LP, wsIn, ord, words, and_assoc]

theorem endPred_ok (kd : PredKind) {p q vs} (h : Args I [.predn, .opt (.nd .mod), .opt .word] p q vs) :
    ∃ n, runAct (.endPred kd) p q vs = .ok (.node n) ∧ tag n = .predication kd ∧ NP I p q n := by
  obtain ⟨x, y, z, m, k, rfl, ⟨p, ts, rfl, hn⟩, h2, h3⟩ := h.three
  obtain ⟨o, ho, hm⟩ := OM_of h2
  obtain ⟨na, hna, hw⟩ := OW_of h3
  have hn' := hn.mod (by simp [tag]) hm
  obtain ⟨p', ts', hp⟩ : ∃ p' ts', modOpt o (.predication .raw p ts none) = .predication .raw p' ts' none := by
    cases o with
    | none => exact ⟨_, _, rfl⟩
    | some x => cases ts <;> exact ⟨_, _, rfl⟩
  rw [hp] at hn'
  refine ⟨.predication kd p' ts' na, by simp only [runAct, Val.asNode, ho, hna, hp], rfl, ?_,
    (hn'.tile.app hw.tile).of (by wrds) (by wrds)⟩
  have := hn'.1
  simp only [wsIn, wsWO, Bool.and_eq_true, Bool.and_true] at this ⊢
  exact ⟨this, hw.ws⟩

theorem fixed_ok {f ts t p q vs} (hf : fixed f = some (ts, t)) (h : Args I ts p q vs) : ActOk I f t p q vs := by
  unfold fixed at hf
  split at hf <;> (first | (cases hf; done) | skip) <;> injection hf with hf <;> injection hf with hf1 hf2 <;> subst hf1 <;> subst hf2
  · -- text
    obtain ⟨x, y, m, rfl, h1, h2⟩ := h.two
    left
    rcases h1 with ⟨rfl, rfl⟩ | ⟨s, rfl, h3, h4⟩ <;> rcases h2 with ⟨rfl, rfl⟩ | ⟨l, rfl, h5, h6, h7⟩
    · exact ⟨_, rfl, _, rfl, rfl, by simp [wsIn, wsO, wsL], (TileP.nil I p).of (by simp [ord, ordO, ordL]) (by simp [words, wordsO, wordsL])⟩
    · exact ⟨_, rfl, _, rfl, rfl, by simp [wsIn, wsO, h6], h7.of (by wrds) (by wrds)⟩
    · exact ⟨_, rfl, _, rfl, rfl, by simp [wsIn, wsO, wsL, h3, h4.1], h4.2.of (by wrds) (by wrds)⟩
    · exact ⟨_, rfl, _, rfl, rfl, by simp [wsIn, wsO, h3, h4.1, h6], (h4.2.app h7).of (by wrds) (by wrds)⟩
  · -- modWord
    obtain ⟨x, y, m, rfl, ⟨w, rfl, hw⟩, h2⟩ := h.two
    obtain ⟨o, ho, hm⟩ := OM_of h2
    exact .inl ⟨.word (modWOpt o w), by simp [runAct, Val.asWord, ho], _, rfl, hw.mod hm⟩
  · -- luAs
    obtain ⟨x, rfl, w, st, rfl, h1, h2, h3⟩ := h.one
    exact .inl ⟨_, rfl, _, rfl, rfl, by simp [wsIn, h1, h2], h3.of (by wrds) (by wrds)⟩
  · obtain ⟨x, rfl, w, st, rfl, h1, h2, h3⟩ := h.one
    exact .inl ⟨_, rfl, _, rfl, rfl, by simp [wsIn, h1, h2], h3.of (by wrds) (by wrds)⟩
  · obtain ⟨x, rfl, w, st, rfl, h1, h2, h3⟩ := h.one
    exact .inl ⟨_, rfl, _, rfl, rfl, by simp [wsIn, h1, h2], h3.of (by wrds) (by wrds)⟩
  · -- je
    obtain ⟨x, y, m, rfl, h1, ⟨st, da, rfl, h2, h3⟩⟩ := h.two
    obtain ⟨o, ho, hw⟩ := OW_of h1
    refine .inl ⟨.node (.sentence o st da), by simp [runAct, ho], _, rfl, rfl, ?_, (hw.tile.app h3).of (by wrds) (by wrds)⟩
    simp only [wsIn, wsWO, Bool.and_eq_true, Bool.true_and] at h2 ⊢
    exact ⟨⟨hw.ws, h2.1⟩, h2.2⟩
  · -- sentence
    obtain ⟨x, y, z, m, k, rfl, ⟨st, rfl, ha, hn⟩, h2, h3⟩ := h.three
    obtain ⟨o, ho, hm⟩ := OM_of h2
    obtain ⟨da, hda, hw⟩ := OW_of h3
    have hn' := hn.mod (accepts_ne_text rfl ha) hm
    refine .inl ⟨.node (.sentence none (modOpt o st) da), by simp [runAct, Val.asNode, ho, hda], _, _, rfl, ?_,
      (hn'.tile.app hw.tile).of (by wrds) (by wrds)⟩
    simp [wsIn, wsWO, tag_modOpt, ha, hn'.1, hw.ws]
  · -- prenexStmt
    obtain ⟨x, y, m, rfl, h1, ⟨st, rfl, ha, hn⟩⟩ := h.two
    rcases h1 with ⟨rfl, rfl⟩ | ⟨n, rfl, h1, h2⟩
    · exact .inl ⟨_, rfl, _, rfl, ha, hn⟩
    · cases n <;> (first | (rename_i ts bi; skip) | skip) <;> first | (simp [accepts, tag] at h1; done) | skip
      refine .inl ⟨_, rfl, _, rfl, rfl, ?_, (h2.tile.app hn.tile).of (by wrds) (by wrds)⟩
      have := h2.1
      simp only [wsIn, Bool.and_eq_true] at this ⊢
      exact ⟨this, ha, hn.1⟩
  iterate 3
    · obtain ⟨n, h1, h2, h3⟩ := endPred_ok _ h
      exact .inl ⟨_, h1, n, rfl, by rw [h2]; rfl, h3⟩
  · -- predication
    obtain ⟨x, y, z, m, k, rfl, ⟨n, rfl, ha, hn⟩, h2, h3⟩ := h.three
    obtain ⟨o, ho, hm⟩ := OM_of h2
    have hn' := hn.mod (accepts_ne_text rfl ha) hm
    rcases h3 with ⟨rfl, rfl⟩ | ⟨t, rfl, h4, h5⟩
    · refine .inl ⟨.node (.predication .raw (modOpt o n) none none), by simp only [runAct, Val.asNode, ho], _, _, rfl, ?_,
        hn'.tile.of (by wrds) (by wrds)⟩
      simp [wsIn, wsWO, wsTO, tag_modOpt, ha, hn'.1]
    · obtain ⟨ts, rfl⟩ := is_terms h4
      have := h5.1
      simp only [wsIn, Bool.and_eq_true] at this
      refine .inl ⟨.node (.predication .raw (modOpt o n) (some ts) none), by simp only [runAct, Val.asNode, ho], _, _, rfl, ?_,
        (hn'.tile.app h5.tile).of (by wrds) (by wrds)⟩
      simp only [wsIn, wsWO, wsTO, tag_modOpt, ha, hn'.1, this, Bool.and_true]
  · -- prenex
    obtain ⟨x, y, z, m, k, rfl, ⟨t, rfl, h4, h5⟩, h2, ⟨bi, rfl, hb⟩⟩ := h.three
    obtain ⟨o, ho, hm⟩ := OM_of h2
    obtain ⟨ts, rfl⟩ := is_terms h4
    have hl := (terms_lp.1 h5).mod (by decide) hm
    refine .inl ⟨.node (.prenex (modLastOpt o ts) bi), by simp only [runAct, Val.asWord, ho], _, rfl, rfl, ?_,
      (hl.tile.app hb.tile).of (by wrds) (by wrds)⟩
    simp [wsIn, hl.1, hl.2.1, hb.1]
  · -- serial
    obtain ⟨x, y, z, m, k, rfl, ⟨l, rfl, ha, hn⟩, h2, ⟨r, rfl, hb, hr⟩⟩ := h.three
    obtain ⟨o, ho, hm⟩ := OM_of h2
    have hn' := hn.mod (accepts_ne_text rfl ha) hm
    refine .inl ⟨.node (.serial (modOpt o l) r), by simp only [runAct, Val.asNode, ho], _, rfl, rfl, ?_,
      (hn'.tile.app hr.tile).of (by wrds) (by wrds)⟩
    simp [wsIn, tag_modOpt, ha, hn'.1, hb, hr.1]
  · -- terms1
    obtain ⟨x, rfl, n, rfl, ha, hn⟩ := h.one
    refine .inl ⟨.node (.terms [n]), rfl, _, rfl, rfl, ?_, hn.tile.of (by wrds) (by wrds)⟩
    simp [wsIn, wsL, ha, hn.1]
  · -- prepend
    obtain ⟨x, y, z, m, k, rfl, ⟨l, rfl, ha, hn⟩, h2, ⟨t, rfl, h4, h5⟩⟩ := h.three
    obtain ⟨o, ho, hm⟩ := OM_of h2
    obtain ⟨ts, rfl⟩ := is_terms h4
    have hn' := hn.mod (accepts_ne_text rfl ha) hm
    have hl := terms_lp.1 h5
    refine .inl ⟨.node (.terms (modOpt o l :: ts)), by simp only [runAct, Val.asNode, ho], _, rfl, rfl, ?_,
      (hn'.tile.app hl.tile).of (by wrds) (by wrds)⟩
    simp [wsIn, wsL, tag_modOpt, ha, hn'.1, hl.2.1]
  · -- terms2
    obtain ⟨x, y, z, m, k, rfl, ⟨l, rfl, ha, hn⟩, h2, ⟨r, rfl, hb, hr⟩⟩ := h.three
    obtain ⟨o, ho, hm⟩ := OM_of h2
    have hn' := hn.mod (accepts_ne_text rfl ha) hm
    refine .inl ⟨.node (.terms [modOpt o l, r]), by simp only [runAct, Val.asNode, ho], _, rfl, rfl, ?_,
      (hn'.tile.app hr.tile).of (by wrds) (by wrds)⟩
    simp [wsIn, wsL, tag_modOpt, ha, hn'.1, hb, hr.1]
  · -- linked
    obtain ⟨x, y, m, rfl, h1, ⟨a, rfl, ha, hn⟩⟩ := h.two
    rcases h1 with ⟨rfl, rfl⟩ | ⟨g, rfl, hg⟩
    · exact .inl ⟨.node a, rfl, _, rfl, subS_accepts (s := .argument) (by decide) ha, hn⟩
    · refine .inl ⟨.node (.linked g a), rfl, _, rfl, rfl, ?_, (hg.tile.app hn.tile).of (by wrds) (by wrds)⟩
      simp [wsIn, hg.1, ha, hn.1]
  · -- focused
    obtain ⟨x, y, m, rfl, h1, ⟨id, f, qu, p, rel, rfl, hn, _, _, hf⟩⟩ := h.two
    obtain ⟨o, ho, hw⟩ := OW_of h1
    have := hf (by decide)
    subst this
    refine .inl ⟨.node (.predArg id o qu p rel), by simp only [runAct, ho], _, rfl, rfl, ?_,
      (hw.tile.app hn.tile).of (by wrds) (by wrds)⟩
    have := hn.1
    simp only [wsIn, wsWO, Bool.and_eq_true, Bool.true_and] at this ⊢
    exact ⟨⟨⟨hw.ws, this.1.1⟩, this.1.2⟩, this.2⟩
  · -- quantified
    obtain ⟨x, y, m, rfl, h1, ⟨id, f, qu, p, rel, rfl, hn, _, hq, hf⟩⟩ := h.two
    obtain ⟨o, ho, hw⟩ := OW_of h1
    have := hf (by decide)
    subst this
    have := hq (by decide)
    subst this
    refine .inl ⟨.node (.predArg id none o p rel), by simp only [runAct, ho], _, _, _, _, _, rfl, ⟨?_,
      (hw.tile.app hn.tile).of (by wrds) (by wrds)⟩, by simp, by simp, by simp⟩
    have := hn.1
    simp only [wsIn, wsWO, Bool.and_eq_true, Bool.true_and] at this ⊢
    exact ⟨⟨hw.ws, this.1⟩, this.2⟩
  · -- argRel
    obtain ⟨x, y, z, m, k, rfl, ⟨id, f, qu, p, rel, rfl, hn, hrel, hq, hf⟩, h2, h3⟩ := h.three
    obtain ⟨o, ho, hm⟩ := OM_of h2
    have := hf (by decide)
    subst this
    have := hq (by decide)
    subst this
    have := hrel (by decide)
    subst this
    have hn' := hn.mod (by simp [tag]) hm
    obtain ⟨p', hp⟩ : ∃ p', modOpt o (.predArg id none none p none) = .predArg id none none p' none := by
      cases o <;> exact ⟨_, rfl⟩
    rw [hp] at hn'
    rcases h3 with ⟨rfl, rfl⟩ | ⟨r, rfl, h4, h5⟩
    · exact .inl ⟨.node (.predArg id none none p' none), by
        have hv : Val.nil.asNode? = some none := rfl
        simp [runAct, Val.asNode, hv, ho, hp], _, _, _, _, _, rfl, hn',
        by simp, by simp, by simp⟩
    · refine .inl ⟨.node (.predArg id none none p' (some r)), by
        have hv : (Val.node r).asNode? = some (some r) := rfl
        simp [runAct, Val.asNode, hv, ho, hp], _, _, _, _, _, rfl,
        ⟨?_, (hn'.tile.app h5.tile).of (by wrds) (by wrds)⟩, by simp, by simp, by simp⟩
      have := hn'.1
      simp only [wsIn, wsWO, wsO, Bool.and_eq_true, Bool.and_true, Bool.true_and] at this ⊢
      exact ⟨this, h4, h5.1⟩
  · -- predArg
    obtain ⟨x, rfl, n, rfl, ha, hn⟩ := h.one
    refine .inl ⟨.node (.predArg p none none n none), rfl, _, _, _, _, _, rfl, ⟨?_, hn.tile.of (by wrds) (by wrds)⟩,
      by simp, by simp, by simp⟩
    simp [wsIn, wsWO, wsO, ha, hn.1]
  · -- predAdverb
    obtain ⟨x, rfl, n, rfl, ha, hn⟩ := h.one
    refine .inl ⟨.node (.predAdverb n), rfl, _, rfl, rfl, ?_, hn.tile.of (by wrds) (by wrds)⟩
    simp [wsIn, ha, hn.1]
  · -- prep
    obtain ⟨x, y, z, m, k, rfl, ⟨l, rfl, ha, hn⟩, h2, ⟨r, rfl, hb, hr⟩⟩ := h.three
    obtain ⟨o, ho, hm⟩ := OM_of h2
    have hn' := hn.mod (accepts_ne_text rfl ha) hm
    refine .inl ⟨.node (.prep (modOpt o l) r), by simp only [runAct, Val.asNode, ho], _, rfl, rfl, ?_,
      (hn'.tile.app hr.tile).of (by wrds) (by wrds)⟩
    simp [wsIn, tag_modOpt, ha, hn'.1, hb, hr.1]
  · -- connector
    obtain ⟨x, y, z, m, k, rfl, ⟨w, rfl, hw⟩, h2, ⟨r, rfl, hr⟩⟩ := h.three
    obtain ⟨o, ho, hm⟩ := OM_of h2
    have hw' := hw.mod hm
    exact .inl ⟨.con (modWOpt o w) r, by simp only [runAct, Val.asWord, ho], _, _, k, rfl, hw', hr⟩
  · -- luPhrase
    obtain ⟨x, y, z, m, k, rfl, ⟨w, rfl, hw⟩, h2, ⟨r, rfl, hb, hr⟩⟩ := h.three
    obtain ⟨o, ho, hm⟩ := OM_of h2
    have hw' := hw.mod hm
    exact .inl ⟨.node (.lu .raw (modWOpt o w) r), by simp only [runAct, Val.asWord, Val.asNode, ho], _, _, rfl, hw'.1, ⟨hb, hr.1⟩,
      (hw'.tile.app hr.tile).of (by wrds) (by wrds)⟩
  · -- word
    obtain ⟨x, rfl, s, rfl, hs⟩ := h.one
    exact .inl ⟨.word (.mk s p q none), rfl, _, rfl, sp_word hs, rfl⟩
  · -- wordNode
    obtain ⟨x, rfl, s, rfl, hs⟩ := h.one
    have hw := sp_word hs
    exact .inl ⟨.node (.word .predicate (.mk s p q none)), rfl, _, rfl, rfl, by simp [wsIn, hw.1], hw.tile.of (by wrds) (by wrds)⟩
  · obtain ⟨x, rfl, s, rfl, hs⟩ := h.one
    have hw := sp_word hs
    exact .inl ⟨.node (.word .interjection (.mk s p q none)), rfl, _, rfl, rfl, by simp [wsIn, hw.1], hw.tile.of (by wrds) (by wrds)⟩
  · obtain ⟨x, rfl, s, rfl, h1, h2, h3⟩ := h.one
    have hw := sp_word ⟨h1, s, h2, .verbatim h3⟩
    exact .inl ⟨.node (.word .space (.mk s p q none)), rfl, _, rfl, rfl, by simp [wsIn, hw.1], hw.tile.of (by wrds) (by wrds)⟩
  · -- wordMod
    obtain ⟨x, y, m, rfl, ⟨s, rfl, hs⟩, h2⟩ := h.two
    rcases h2 with ⟨rfl, rfl⟩ | ⟨n, rfl, h3⟩
    · exact .inl ⟨.word (.mk s p m none), rfl, s, m, none, rfl, hs, .inl ⟨rfl, rfl⟩⟩
    · exact .inl ⟨.word (.mk s p q (some n)), rfl, s, m, some n, rfl, hs, .inr ⟨n, rfl, h3⟩⟩
  · -- miEnd
    obtain ⟨x, y, z, m, k, rfl, ⟨w, n, rfl, j, hw, ha, hn⟩, h2, h3⟩ := h.three
    obtain ⟨o, ho, hm⟩ := OM_of h2
    obtain ⟨ga, hga, hg⟩ := OW_of h3
    have hn' := hn.mod (accepts_ne_text rfl ha) hm
    refine .inl ⟨.node (.mi w ga (modOpt o n)), by simp only [runAct, ho, hga], _, rfl, rfl, ?_,
      (hw.tile.app (hn'.tile.app hg.tile)).of (by wrds) (by wrds)⟩
    simp [wsIn, tag_modOpt, hw.1, ha, hn'.1, hg.ws]
  · -- mi
    obtain ⟨x, y, z, m, k, rfl, ⟨w, rfl, hw⟩, h2, ⟨r, rfl, hb, hr⟩⟩ := h.three
    obtain ⟨o, ho, hm⟩ := OM_of h2
    exact .inl ⟨.node (.mi (modWOpt o w) none r), by simp only [runAct, Val.asWord, Val.asNode, ho], _, _, rfl, k, hw.mod hm, hb, hr⟩
  · -- poEnd
    obtain ⟨x, y, z, m, k, rfl, ⟨w, n, rfl, j, hw, ha, hn⟩, h2, h3⟩ := h.three
    obtain ⟨o, ho, hm⟩ := OM_of h2
    obtain ⟨ga, hga, hg⟩ := OW_of h3
    have hn' := hn.mod (accepts_ne_text rfl ha) hm
    refine .inl ⟨.node (.po w ga (modOpt o n)), by simp only [runAct, ho, hga], _, rfl, rfl, ?_,
      (hw.tile.app (hn'.tile.app hg.tile)).of (by wrds) (by wrds)⟩
    simp [wsIn, tag_modOpt, hw.1, ha, hn'.1, hg.ws]
  · -- po
    obtain ⟨x, y, z, m, k, rfl, ⟨w, rfl, hw⟩, h2, ⟨r, rfl, hb, hr⟩⟩ := h.three
    obtain ⟨o, ho, hm⟩ := OM_of h2
    exact .inl ⟨.node (.po (modWOpt o w) none r), by simp only [runAct, Val.asWord, Val.asNode, ho], _, _, rfl, k, hw.mod hm, hb, hr⟩
  · -- moEnd
    obtain ⟨x, y, z, m, k, rfl, ⟨w, d, rfl, j, hw, hd⟩, h2, ⟨e, rfl, he⟩⟩ := h.three
    obtain ⟨o, ho, hm⟩ := OM_of h2
    have hd' := hd.mod (by decide) hm
    refine .inl ⟨.node (.mo w e (modLastOpt o d)), by simp only [runAct, Val.asWord, ho], _, rfl, rfl, ?_,
      (hw.tile.app (hd'.tile.app he.tile)).of (by wrds) (by wrds)⟩
    simp [wsIn, hw.1, hd'.1, hd'.2.1, he.1]
  · -- mo
    obtain ⟨x, y, z, m, k, rfl, ⟨w, rfl, hw⟩, h2, ⟨d, rfl, hd⟩⟩ := h.three
    obtain ⟨o, ho, hm⟩ := OM_of h2
    exact .inl ⟨.part (modWOpt o w) d, by simp only [runAct, Val.asWord, ho], _, _, rfl, k, hw.mod hm, hd⟩
  · -- endParen
    obtain ⟨x, y, z, m, k, rfl, ⟨w, d, rfl, j, hw, hd⟩, h2, ⟨e, rfl, he, hM⟩⟩ := h.three
    obtain ⟨o, ho, hm⟩ := OM_of h2
    have hd' := hd.mod (by decide) hm
    have hmk : mark w e = [] := by
      obtain ⟨t, s, e1, m1⟩ := w
      obtain ⟨t', s', e', m'⟩ := e
      have h3 : m' = none := hM
      have h4 := hw.tile.order
      have h5 := he.tile.order
      have h6 := hd'.tile.le
      simp only [ordW, Asc] at h4 h5
      have h7 := h4.2.2.le
      have : s < e' := by omega
      simp [mark, h3, this]
    have ht := hw.tile.app (hd'.tile.app he.tile)
    rw [← List.append_assoc] at ht
    refine .inl ⟨.node (.paren w e (modLastOpt o d)), by simp only [runAct, Val.asWord, ho], _, rfl, rfl, ?_,
      ht.drop.of (by simp [ord, hmk]) (by wrds)⟩
    simp [wsIn, hw.1, hd'.1, hd'.2.1, he.1]
  · -- paren
    obtain ⟨x, y, z, m, k, rfl, ⟨w, rfl, hw⟩, h2, ⟨d, rfl, hd⟩⟩ := h.three
    obtain ⟨o, ho, hm⟩ := OM_of h2
    exact .inl ⟨.part (modWOpt o w) d, by simp only [runAct, Val.asWord, ho], _, _, rfl, k, hw.mod hm, hd⟩
  · -- incidental
    obtain ⟨x, y, z, m, k, rfl, ⟨w, rfl, hw⟩, h2, ⟨r, rfl, hb, hr⟩⟩ := h.three
    obtain ⟨o, ho, hm⟩ := OM_of h2
    have hw' := hw.mod hm
    refine .inl ⟨.node (.incidental (modWOpt o w) r), by simp only [runAct, Val.asWord, Val.asNode, ho], _, rfl, rfl, ?_,
      (hw'.tile.app hr.tile).of (by wrds) (by wrds)⟩
    simp [wsIn, hw'.1, hb, hr.1]
  · -- vocative
    obtain ⟨x, y, z, m, k, rfl, ⟨w, rfl, hw⟩, h2, ⟨r, rfl, hb, hr⟩⟩ := h.three
    obtain ⟨o, ho, hm⟩ := OM_of h2
    have hw' := hw.mod hm
    refine .inl ⟨.node (.vocative (modWOpt o w) r), by simp only [runAct, Val.asWord, Val.asNode, ho], _, rfl, rfl, ?_,
      (hw'.tile.app hr.tile).of (by wrds) (by wrds)⟩
    simp [wsIn, hw'.1, hb, hr.1]
  · -- addTone
    obtain ⟨x, y, m, rfl, ⟨c, hc, s, rfl, h1, cs, h2, h3⟩, ⟨t, ht, rfl, h4, w, h5, h6⟩⟩ := h.two
    cases hd : t.isDigit with
    | true =>
      have hz := digit_table t ht hd
      refine .inr ⟨?_, rfl, m, h4, by rw [h5]; exact hz.1⟩
      simp [runAct, Val.asStr, addToneTo, hz.2 c hc]
    | false =>
      obtain ⟨d, hz, hm⟩ := diacritic_table ht hd hc
      refine .inl ⟨.str (d :: s), by simp [runAct, Val.asStr, addToneTo, hz], d :: s, rfl, ?_⟩
      have hs := chr_span h4 h5 h6
      exact ⟨by omega, cs ++ [t], h2.append hs.2, .tone h3 (hm t (self_mark t ht hd))⟩
  · -- dotless
    obtain ⟨x, rfl, c, hc, rfl, h4, w, h5, h6⟩ := h.one
    have hs := chr_span h4 h5 h6
    simp only [List.mem_cons, List.not_mem_nil, or_false] at hc
    rcases hc with rfl | rfl | rfl
    · exact .inl ⟨.str ['ı'], rfl, 'ı', by simp, rfl, hs.1, _, hs.2, .char _ (by decide)⟩
    · exact .inl ⟨.str ['ı'], rfl, 'ı', by simp, rfl, hs.1, _, hs.2, .dotless⟩
    · exact .inl ⟨.str ['I'], rfl, 'I', by simp, rfl, hs.1, _, hs.2, .char _ (by decide)⟩

theorem asNd_mean {a : Ty} {s p q v} (h : asNd a = some s) (hv : Mean I a p q v) : Mean I (.nd s) p q v := by
  unfold asNd at h
  split at h
  · injection h with h; subst h; exact hv
  · injection h with h; subst h
    obtain ⟨id, f, qu, x, rel, rfl, h1, _⟩ := hv
    exact ⟨_, rfl, rfl, h1⟩
  · cases h

theorem subSO_accepts {s : Srt} {o : Option Srt} {t : Tag} (h : subSO s o = true) (ht : accepts s t = true) :
    acceptsO o t = true := by
  cases o with
  | none => cases h
  | some s' => exact subS_accepts h ht

theorem Env.args {es p q vs} (h : Env I es p q vs) (he : es.all (·.1) = true) : Args I (es.map (·.2)) p q vs := by
  induction es generalizing p vs with
  | nil => exact h
  | cons e es ih =>
    obtain ⟨b, t⟩ := e
    simp only [List.all_cons, Bool.and_eq_true] at he
    cases b with
    | false => cases he.1
    | true =>
      obtain ⟨m, v, vs', rfl, h1, h2⟩ := h
      exact ⟨m, v, vs', rfl, h1, ih h2 he.2⟩

theorem words_cop_kind (k : CopKind) (to0 to1 ru l r) :
    words (.cop k to0 to1 ru l r) = words (.cop .raw to0 to1 ru l r) := by
  cases to0 <;> simp [words]

theorem ord_cop_kind (k : CopKind) (to0 to1 ru l r) :
    ord (.cop k to0 to1 ru l r) = ord (.cop .raw to0 to1 ru l r) := by
  cases to0 <;> cases to1 <;> simp [ord]

theorem copAs_ok {k : CopKind} {l r : Srt} {p q v} (hl : subSO l (leftOf k) = true) (hr : subSO r (rightOf k) = true)
    (h : Mean I (.cop l r) p q v) : ActOk I (.copAs k) (.nd (resOf k)) p q [v] := by
  obtain ⟨to0, to1, ru, a, b, rfl, h1, h2, h3, h4⟩ := h
  refine .inl ⟨.node (.cop k to0 to1 ru a b), rfl, _, rfl, ?_, ?_, h4.of (ord_cop_kind _ _ _ _ _ _).symm (words_cop_kind _ _ _ _ _ _).symm⟩
  · cases k <;> first | rfl | cases hl
  · simp [wsIn, h1, h2.2, h3.2, subSO_accepts hl h2.1, subSO_accepts hr h3.1]

/-- Actions give values of the type of their signature. -/
theorem sig_ok {f es t p q vs} (hf : sig f es = some t) (h : Env I es p q vs) : ActOk I f t p q vs := by
  unfold sig at hf
  split at hf
  · rename_i ts u hfix
    split at hf
    · rename_i hm
      injection hf with hf
      subst hf
      exact fixed_ok hfix (matches_args hm h)
    · cases hf
  · rename_i hfix
    split at hf
    · -- keep
      injection hf with hf
      subst hf
      obtain ⟨x, rfl, h1⟩ := (h.args rfl).one
      exact .inl ⟨x, rfl, h1⟩
    · -- modNode
      split at hf
      · rename_i hc
        simp only [Bool.and_eq_true, Bool.not_eq_true'] at hc
        injection hf with hf
        subst hf
        obtain ⟨x, y, m, rfl, ⟨n, rfl, ha, hn⟩, h2⟩ := (h.args rfl).two
        obtain ⟨o, ho, hm⟩ := OM_of (sub_mean hc.2 h2)
        exact .inl ⟨.node (modOpt o n), by simp [runAct, Val.asNode, ho], _, rfl, by rw [tag_modOpt]; exact ha,
          hn.mod (accepts_ne_text hc.1 ha) hm⟩
      · cases hf
    · -- copAs
      split at hf
      · rename_i hc
        simp only [Bool.and_eq_true] at hc
        injection hf with hf
        subst hf
        obtain ⟨x, rfl, h1⟩ := (h.args rfl).one
        exact copAs_ok hc.1 hc.2 h1
      · cases hf
    · -- copLeft
      split at hf
      · rename_i l hl
        split at hf
        · rename_i hc
          simp only [Bool.and_eq_true, Bool.not_eq_true'] at hc
          injection hf with hf
          subst hf
          obtain ⟨x, y, z, m, k, rfl, h1, h2, ⟨w, r, rfl, h3, h4, h5, h6⟩⟩ := (h.args rfl).three
          obtain ⟨o, ho, hm⟩ := OM_of (sub_mean hc.2 h2)
          obtain ⟨n, rfl, ha, hn⟩ := asNd_mean hl h1
          have hn' := hn.mod (accepts_ne_text hc.1 ha) hm
          exact .inl ⟨.node (.cop .raw none none w (modOpt o n) r), by simp [runAct, Val.asNode, ho], _, _, _, _, _, rfl,
            ⟨rfl, rfl, rfl, h3⟩, ⟨by rw [tag_modOpt]; exact ha, hn'.1⟩, ⟨h4, h5⟩, (hn'.tile.app h6).of (by wrds) (by wrds)⟩
        · cases hf
      · cases hf
    · -- copRight
      split at hf
      · rename_i r hr
        split at hf
        · rename_i hc
          injection hf with hf
          subst hf
          obtain ⟨x, y, z, m, k, rfl, ⟨w, rfl, hw⟩, h2, h3⟩ := (h.args rfl).three
          obtain ⟨o, ho, hm⟩ := OM_of (sub_mean hc h2)
          obtain ⟨n, rfl, ha, hn⟩ := asNd_mean hr h3
          have hw' := hw.mod hm
          exact .inl ⟨.bar (modWOpt o w) n, by simp [runAct, Val.asNode, Val.asWord, ho], _, _, rfl, hw'.1, ha, hn.1,
            hw'.tile.app hn.tile⟩
        · cases hf
      · cases hf
    · -- foreCoP
      split at hf
      · rename_i hc
        injection hf with hf
        subst hf
        obtain ⟨x, y, z, m, k, rfl, ⟨a, b, j, rfl, h1, h2⟩, h4, ⟨l, w, r, rfl, h5, h6, h7, h8⟩⟩ := (h.args rfl).three
        obtain ⟨o, ho, hm⟩ := OM_of (sub_mean hc h4)
        have h2' := h2.mod hm
        exact .inl ⟨.node (.cop .raw (some a) (some w) (modWOpt o b) l r), by simp [runAct, ho], _, _, _, _, _, rfl,
          ⟨rfl, h1.1, h6, h2'.1⟩, h5, h7, ((h1.tile.app h2'.tile).app h8).of (by wrds) (by wrds)⟩
      · cases hf
    · -- foreCoPLeft
      split at hf
      · rename_i l hl
        split at hf
        · rename_i hc
          simp only [Bool.and_eq_true, Bool.not_eq_true'] at hc
          injection hf with hf
          subst hf
          obtain ⟨x, y, z, m, k, rfl, h1, h2, ⟨w, r, rfl, h3, h4, h5, h6⟩⟩ := (h.args rfl).three
          obtain ⟨o, ho, hm⟩ := OM_of (sub_mean hc.2 h2)
          obtain ⟨n, rfl, ha, hn⟩ := asNd_mean hl h1
          have hn' := hn.mod (accepts_ne_text hc.1 ha) hm
          exact .inl ⟨.cop1 (modOpt o n) w r, by simp [runAct, Val.asNode, ho], _, _, _, rfl,
            ⟨by rw [tag_modOpt]; exact ha, hn'.1⟩, h3, ⟨h4, h5⟩, hn'.tile.app h6⟩
        · cases hf
      · cases hf
    · -- foreCoPRight
      split at hf
      · rename_i r hr
        split at hf
        · rename_i hc
          injection hf with hf
          subst hf
          obtain ⟨x, y, z, m, k, rfl, ⟨w, rfl, hw⟩, h2, h3⟩ := (h.args rfl).three
          obtain ⟨o, ho, hm⟩ := OM_of (sub_mean hc h2)
          obtain ⟨n, rfl, ha, hn⟩ := asNd_mean hr h3
          have hw' := hw.mod hm
          exact .inl ⟨.bar (modWOpt o w) n, by simp [runAct, Val.asNode, Val.asWord, ho], _, _, rfl, hw'.1, ha, hn.1,
            hw'.tile.app hn.tile⟩
        · cases hf
      · cases hf
    · -- diacritic
      split at hf
      · rename_i hc
        simp only [Bool.and_eq_true, Bool.not_eq_true', List.contains_iff_mem] at hc
        injection hf with hf
        subst hf
        obtain ⟨m, v, vs', rfl, h1, k, v', ⟨t, ht, rfl, h4, w, h5, h6⟩, rfl, rfl⟩ := h
        obtain ⟨c, hc1, rfl, h7, cs, h8, h9⟩ := sub_mean hc.1.1.1 h1
        obtain ⟨d, hz, hm⟩ := diacritic_table hc.1.2 hc.2 hc1
        have hs := chr_span h4 h5 h6
        exact .inl ⟨.str [d], by simp [runAct, Val.asStr, hz], [d], rfl, by omega, cs ++ [t], h8.append hs.2,
          .tone h9 (hm t (inc_mem hc.1.1.2 ht))⟩
      · cases hf
    · -- empty
      injection hf with hf
      subst hf
      exact .inl ⟨.str [], by simp [runAct], trivial⟩
    · cases hf

end Verif.Parse
