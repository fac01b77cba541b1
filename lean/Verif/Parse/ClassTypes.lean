/-
Types for the proof of C53: in the syntax tree of a parsed text every field for a particle has a word of
the class for the field.

A type checker for the grammar like that of `Verif.Parse.Types`, whose types say which classes the words
in a value belong to. The words come from the rules that `Verif.Parse.WordLang` and `Verif.Parse.WordVal`
are about.
-/
import Verif.Parse.WordVal
import Verif.Parse.TextProps

namespace Verif.Parse.Classes
open Verif.AST Verif.AST.Spec Verif.Peg Verif.Parse Verif.Parse.WordLang Verif.Parse.WordVal
open Verif.Tone (Str)

variable {U : Uni} {I : Input}

/-! ### Trees -/

theorem classed_iff (n : Node) :
    Classed n ↔ (∀ k w, (k, w) ∈ particles n → k.Has w.T) ∧ ∀ c ∈ children n, Classed c := by
  constructor
  · intro h
    exact ⟨h n (.refl n), fun c hc m hm => h m (.step hc hm)⟩
  · rintro ⟨h1, h2⟩ m hm
    cases hm with
    | refl => exact h1
    | step hc hm => exact h2 _ hc m hm

/-- The modifiers of the word are fine. -/
def CW (w : Word) : Prop := ∀ m, w.M = some m → Classed m

/-- A word of the class. -/
def Is (k : Class) (w : Word) : Prop := k.Has w.T ∧ CW w

def IsO (k : Class) (o : Option Word) : Prop := ∀ w, o = some w → Is k w
def CO (o : Option Node) : Prop := ∀ w, o = some w → Classed w
def CL (l : List Node) : Prop := ∀ n ∈ l, Classed n

theorem classed_raw (w : Word) : Classed (.word .raw w) ↔ CW w := by
  rw [classed_iff]
  simp [children, particles, optN, CW]

theorem classed_discourse (d : List Node) : Classed (.discourse d) ↔ CL d := by
  rw [classed_iff]; simp [children, particles, CL]

theorem classed_terms (d : List Node) : Classed (.terms d) ↔ CL d := by
  rw [classed_iff]; simp [children, particles, CL]

theorem isO_iff (k : Class) (o : Option Word) :
    IsO k o ↔ (∀ w, (k, w) ∈ optP k o → k.Has w.T) ∧ ∀ c ∈ optW o, Classed c := by
  cases o <;> simp [IsO, Is, optP, optW, classed_raw]

theorem mem_optP {k k' : Class} {w : Word} {o : Option Word} : (k, w) ∈ optP k' o ↔ k = k' ∧ o = some w := by
  cases o <;> simp [optP]
  intro _; exact eq_comm

theorem mem_optW {n : Node} {o : Option Word} : n ∈ optW o ↔ ∃ w, o = some w ∧ n = wnode w := by
  cases o <;> simp [optW]

theorem classed_text (l d) : Classed (.text l d) ↔ CO l ∧ CL d := by
  rw [classed_iff]
  cases l <;> simp [children, particles, optN, classed_discourse, CO]

theorem classed_sentence (je st da) : Classed (.sentence je st da) ↔ IsO .keo je ∧ Classed st ∧ IsO .da da := by
  rw [classed_iff]
  cases je <;> cases da <;> simp [children, particles, optP, optW, IsO, Is, classed_raw] <;> grind

/-- The particles of a connection; a second marker without the first is not visited. -/
def Conn (to0 to1 : Option Word) (ru : Word) : Prop :=
  IsO .to to0 ∧ (∀ w, to1 = some w → Class.to.Has w.T ∧ (to0 ≠ none → CW w)) ∧ Is .ra ru

theorem classed_cop (k to0 to1 ru l r) :
    Classed (.cop k to0 to1 ru l r) ↔ Conn to0 to1 ru ∧ Classed l ∧ Classed r := by
  have raw : Classed (.cop .raw to0 to1 ru l r) ↔ Conn to0 to1 ru ∧ Classed l ∧ Classed r := by
    rw [classed_iff]
    cases to0 <;> cases to1 <;> simp [Conn, children, particles, optP, optW, IsO, Is, classed_raw] <;> grind
  cases k with
  | raw => exact raw
  | _ =>
    rw [classed_iff]
    simp only [children, List.mem_singleton, forall_eq, raw, particles]
    constructor
    · exact fun h => h.2
    · intro h
      refine ⟨?_, h⟩
      intro k w hw
      simp only [List.mem_append, mem_optP, List.mem_singleton, Prod.mk.injEq] at hw
      rcases hw with (⟨rfl, hw⟩ | ⟨rfl, hw⟩) | ⟨rfl, rfl⟩
      · exact (h.1.1 w hw).1
      · exact (h.1.2.1 w hw).1
      · exact h.1.2.2.1

theorem classed_prenex (ts bi) : Classed (.prenex ts bi) ↔ CL ts ∧ Is .bi bi := by
  rw [classed_iff]
  simp [children, particles, Is, classed_raw, classed_terms]
  grind

theorem classed_prenexStmt (ts bi st) : Classed (.prenexStmt ts bi st) ↔ CL ts ∧ Is .bi bi ∧ Classed st := by
  rw [classed_iff]
  simp [children, particles, Is, classed_prenex]
  grind

def CTO (o : Option (List Node)) : Prop := ∀ l, o = some l → CL l

theorem classed_predication (k p ts na) :
    Classed (.predication k p ts na) ↔ Classed p ∧ CTO ts ∧ IsO .na na := by
  have raw : Classed (.predication .raw p ts na) ↔ Classed p ∧ CTO ts ∧ IsO .na na := by
    rw [classed_iff]
    cases ts <;> cases na <;>
      simp [children, particles, optP, optW, IsO, Is, classed_raw, classed_terms, CTO, CL] <;> grind
  cases k with
  | raw => exact raw
  | _ =>
    rw [classed_iff]
    simp only [children, List.mem_singleton, forall_eq, raw, particles]
    constructor
    · exact fun h => h.2
    · intro h
      refine ⟨?_, h⟩
      intro k w hw
      simp only [mem_optP] at hw
      obtain ⟨rfl, hw⟩ := hw
      exact (h.2.2 w hw).1

theorem classed_prefixed (mu p) : Classed (.prefixed mu p) ↔ CW mu ∧ Classed p := by
  rw [classed_iff]; simp [children, particles, classed_raw]

theorem classed_serial (l r) : Classed (.serial l r) ↔ Classed l ∧ Classed r := by
  rw [classed_iff]; simp [children, particles]

theorem classed_word (k w) : Classed (.word k w) ↔ CW w ∧ (k = .interjection → Is .bei w) := by
  cases k with
  | raw => simp [classed_raw]
  | interjection =>
    rw [classed_iff]
    simp [children, particles, classed_raw, Is]
  | _ => rw [classed_iff]; simp [children, particles, classed_raw]

theorem classed_mi (m ga ph) : Classed (.mi m ga ph) ↔ Is .mi m ∧ IsO .ga ga ∧ Classed ph := by
  rw [classed_iff]
  cases ga <;> simp [children, particles, optP, optW, IsO, Is, classed_raw] <;> grind

theorem classed_po (m ga ph) : Classed (.po m ga ph) ↔ Is .po m ∧ IsO .ga ga ∧ Classed ph := by
  rw [classed_iff]
  cases ga <;> simp [children, particles, optP, optW, IsO, Is, classed_raw] <;> grind

theorem classed_mo (m teo d) : Classed (.mo m teo d) ↔ Is .mo m ∧ Is .teo teo ∧ CL d := by
  rw [classed_iff]
  simp [children, particles, Is, classed_raw, classed_discourse]; grind

theorem classed_lu (k l st) : Classed (.lu k l st) ↔ Is .lu l ∧ Classed st := by
  have raw : Classed (.lu .raw l st) ↔ Is .lu l ∧ Classed st := by
    rw [classed_iff]
    simp [children, particles, Is, classed_raw]; grind
  cases k with
  | raw => exact raw
  | _ =>
    rw [classed_iff]
    simp only [children, List.mem_singleton, forall_eq, raw, particles, Prod.mk.injEq]
    constructor
    · exact fun h => h.2
    · intro h
      refine ⟨?_, h⟩
      rintro k w ⟨rfl, rfl⟩
      exact h.1.1

theorem classed_linked (g a) : Classed (.linked g a) ↔ Is .go g ∧ Classed a := by
  rw [classed_iff]
  simp [children, particles, Is, classed_raw]; grind

theorem classed_predArg (id f q p rel) :
    Classed (.predArg id f q p rel) ↔ IsO .ku f ∧ IsO .tu q ∧ Classed p ∧ CO rel := by
  rw [classed_iff]
  cases f <;> cases q <;> cases rel <;>
    simp [children, particles, optP, optW, optN, IsO, Is, CO, classed_raw] <;> grind

theorem classed_predAdverb (p) : Classed (.predAdverb p) ↔ Classed p := by
  rw [classed_iff]; simp [children, particles]

theorem classed_prep (p a) : Classed (.prep p a) ↔ Classed p ∧ Classed a := by
  rw [classed_iff]; simp [children, particles]

theorem classed_paren (kio ki d) : Classed (.paren kio ki d) ↔ Is .kio kio ∧ Is .ki ki ∧ CL d := by
  rw [classed_iff]
  simp [children, particles, Is, classed_raw, classed_discourse]; grind

theorem classed_incidental (g a) : Classed (.incidental g a) ↔ Is .ju g ∧ Classed a := by
  rw [classed_iff]
  simp [children, particles, Is, classed_raw]; grind

theorem classed_vocative (g a) : Classed (.vocative g a) ↔ Is .hu g ∧ Classed a := by
  rw [classed_iff]
  simp [children, particles, Is, classed_raw]; grind


/-! ### Modifiers -/

theorem modW_T (m : Node) (w : Word) : (modW m w).T = w.T := by cases w; rfl

theorem isO_mod {k : Class} {m : Node} {w : Word} (h : IsO k (some w)) (hw : CW w → CW (modW m w)) :
    IsO k (some (modW m w)) := by
  intro x hx
  injection hx with hx
  subst hx
  obtain ⟨h1, h2⟩ := h w rfl
  exact ⟨by rw [modW_T]; exact h1, hw h2⟩

theorem is_mod {k : Class} {m : Node} {w : Word} (h : Is k w) (hw : CW w → CW (modW m w)) : Is k (modW m w) :=
  ⟨by rw [modW_T]; exact h.1, hw h.2⟩

theorem classed_mod_aux (m : Node) (hm : Classed m) :
    (∀ n, Classed n → Classed (mod m n)) ∧ (∀ w, CW w → CW (modW m w)) := by
  have hL : ∀ l : List Node, (∀ x ∈ l, Classed x → Classed (mod m x)) → CL l → CL (modLast m l) := by
    intro l
    induction l with
    | nil => intro _ h; exact h
    | cons a l ih =>
      intro h hl
      cases l with
      | nil =>
        intro x hx
        simp only [modLast, List.mem_singleton] at hx
        subst hx
        exact h a (by simp) (hl a (by simp))
      | cons b l =>
        have := ih (fun x hx => h x (by simp [hx])) (fun x hx => hl x (by simp [hx]))
        intro x hx
        simp only [modLast] at hx
        rcases List.mem_cons.1 hx with rfl | hx
        · exact hl _ (by simp)
        · exact this x hx
  apply Node.induct
    (P := fun n => Classed n → Classed (mod m n))
    (Q := fun w => CW w → CW (modW m w))
  · intro t s e M hM h
    cases M with
    | none =>
      intro x hx
      simp only [modW, modO, Word.M_mk, Option.some.injEq] at hx
      subst hx
      exact hm
    | some y =>
      intro x hx
      simp only [modW, modO, Word.M_mk, Option.some.injEq] at hx
      subst hx
      exact hM y rfl (h y rfl)
  case text =>
    intro l d _ h2 h
    rw [classed_text] at h
    rw [mod, classed_text]
    exact ⟨h.1, hL d h2 h.2⟩
  case discourse =>
    intro d h2 h
    rw [classed_discourse] at h
    rw [mod, classed_discourse]
    exact hL d h2 h
  case sentence =>
    intro je st da h1 h2 h3 h
    rw [classed_sentence] at h
    cases da with
    | none =>
      simp only [mod]
      rw [classed_sentence]
      exact ⟨h.1, h2 h.2.1, h.2.2⟩
    | some w =>
      simp only [mod]
      rw [classed_sentence]
      exact ⟨h.1, h.2.1, isO_mod h.2.2 (h3 w rfl)⟩
  case cop =>
    intro k to0 to1 ru l r _ _ _ _ h5 h
    rw [classed_cop] at h
    rw [mod, classed_cop]
    exact ⟨h.1, h.2.1, h5 h.2.2⟩
  case prenex =>
    intro ts bi _ h2 h
    rw [classed_prenex] at h
    rw [mod, classed_prenex]
    exact ⟨h.1, is_mod h.2 h2⟩
  case prenexStmt =>
    intro ts bi st _ _ h3 h
    rw [classed_prenexStmt] at h
    rw [mod, classed_prenexStmt]
    exact ⟨h.1, h.2.1, h3 h.2.2⟩
  case predication =>
    intro k p ts na h1 h2 h3 h
    rw [classed_predication] at h
    cases na with
    | some w =>
      simp only [mod]
      rw [classed_predication]
      exact ⟨h.1, h.2.1, isO_mod h.2.2 (h3 w rfl)⟩
    | none =>
      cases ts with
      | none =>
        simp only [mod]
        rw [classed_predication]
        exact ⟨h1 h.1, h.2⟩
      | some l =>
        simp only [mod]
        rw [classed_predication]
        refine ⟨h.1, ?_, h.2.2⟩
        intro l' hl'
        injection hl' with hl'
        subst hl'
        exact hL l (h2 l rfl) (h.2.1 l rfl)
  case prefixed =>
    intro mu p _ h2 h
    rw [classed_prefixed] at h
    rw [mod, classed_prefixed]
    exact ⟨h.1, h2 h.2⟩
  case serial =>
    intro l r _ h2 h
    rw [classed_serial] at h
    rw [mod, classed_serial]
    exact ⟨h.1, h2 h.2⟩
  case word =>
    intro k w h1 h
    rw [classed_word] at h
    rw [mod, classed_word]
    exact ⟨h1 h.1, fun hk => is_mod (h.2 hk) h1⟩
  case mi =>
    intro x ga ph _ h2 h3 h
    rw [classed_mi] at h
    cases ga with
    | none => simp only [mod]; rw [classed_mi]; exact ⟨h.1, h.2.1, h3 h.2.2⟩
    | some w => simp only [mod]; rw [classed_mi]; exact ⟨h.1, isO_mod h.2.1 (h2 w rfl), h.2.2⟩
  case po =>
    intro x ga ph _ h2 h3 h
    rw [classed_po] at h
    cases ga with
    | none => simp only [mod]; rw [classed_po]; exact ⟨h.1, h.2.1, h3 h.2.2⟩
    | some w => simp only [mod]; rw [classed_po]; exact ⟨h.1, isO_mod h.2.1 (h2 w rfl), h.2.2⟩
  case mo =>
    intro x teo d _ h2 _ h
    rw [classed_mo] at h
    rw [mod, classed_mo]
    exact ⟨h.1, is_mod h.2.1 h2, h.2.2⟩
  case lu =>
    intro k l st _ h2 h
    rw [classed_lu] at h
    rw [mod, classed_lu]
    exact ⟨h.1, h2 h.2⟩
  case linked =>
    intro g a _ h2 h
    rw [classed_linked] at h
    rw [mod, classed_linked]
    exact ⟨h.1, h2 h.2⟩
  case terms =>
    intro d h2 h
    rw [classed_terms] at h
    rw [mod, classed_terms]
    exact hL d h2 h
  case predArg =>
    intro id f q p rel _ _ h3 h4 h
    rw [classed_predArg] at h
    cases rel with
    | none => simp only [mod]; rw [classed_predArg]; exact ⟨h.1, h.2.1, h3 h.2.2.1, h.2.2.2⟩
    | some r =>
      simp only [mod]
      rw [classed_predArg]
      refine ⟨h.1, h.2.1, h.2.2.1, ?_⟩
      intro x hx
      injection hx with hx
      subst hx
      exact h4 r rfl (h.2.2.2 r rfl)
  case predAdverb =>
    intro p h1 h
    rw [classed_predAdverb] at h
    rw [mod, classed_predAdverb]
    exact h1 h
  case prep =>
    intro p a _ h2 h
    rw [classed_prep] at h
    rw [mod, classed_prep]
    exact ⟨h.1, h2 h.2⟩
  case paren =>
    intro kio ki d _ _ h3 h
    rw [classed_paren] at h
    rw [mod, classed_paren]
    exact ⟨h.1, h.2.1, hL d h3 h.2.2⟩
  case incidental =>
    intro g a _ h2 h
    rw [classed_incidental] at h
    rw [mod, classed_incidental]
    exact ⟨h.1, h2 h.2⟩
  case vocative =>
    intro g a _ h2 h
    rw [classed_vocative] at h
    rw [mod, classed_vocative]
    exact ⟨h.1, h2 h.2⟩

theorem classed_modOpt {s : Option Node} {n : Node} (hs : CO s) (h : Classed n) : Classed (modOpt s n) := by
  cases s with
  | none => exact h
  | some m => exact (classed_mod_aux m (hs m rfl)).1 n h

theorem is_modWOpt {k : Class} {s : Option Node} {w : Word} (hs : CO s) (h : Is k w) : Is k (modWOpt s w) := by
  cases s with
  | none => exact h
  | some m => exact is_mod h ((classed_mod_aux m (hs m rfl)).2 w)

theorem cl_modLastOpt {s : Option Node} {l : List Node} (hs : CO s) (h : CL l) : CL (modLastOpt s l) := by
  cases s with
  | none => exact h
  | some m =>
    have := (classed_mod_aux m (hs m rfl)).1 (.discourse l) ((classed_discourse l).2 h)
    rw [mod, classed_discourse] at this
    exact this

/-! ### Types -/

inductive CTy
  /-- nil -/
  | nul
  /-- strings, and nodes in which every field is fine -/
  | any
  /-- nil or a word of the class -/
  | wd (k : Class)
  | bar (k : Class)
  | con
  | cop1
  | part (k : Class)
  /-- any value -/
  | top
deriving DecidableEq

def Fine : Val → Prop
  | .nil => True
  | .str _ => True
  | .node n => Classed n
  | .nodes l => CL l
  | _ => False

def Means : CTy → Val → Prop
  | .nul, v => v = .nil
  | .any, v => Fine v
  | .wd k, v => v = .nil ∨ ∃ w, v = .word w ∧ Is k w
  | .bar k, v => ∃ w r, v = .bar w r ∧ Is k w ∧ Classed r
  | .con, v => ∃ a b, v = .con a b ∧ Is .to a ∧ Is .ra b
  | .cop1, v => ∃ l w r, v = .cop1 l w r ∧ Classed l ∧ Is .to w ∧ Classed r
  | .part k, v => ∃ w d, v = .part w d ∧ Is k w ∧ CL d
  | .top, _ => True

def subC (a b : CTy) : Bool := a == b || b == .top || match a, b with
  | .nul, .any => true
  | .nul, .wd _ => true
  | _, _ => false

theorem sub_ok {a b : CTy} {v : Val} (h : subC a b = true) (hv : Means a v) : Means b v := by
  unfold subC at h
  simp only [Bool.or_eq_true, beq_iff_eq] at h
  rcases h with (rfl | rfl) | h
  · exact hv
  · trivial
  · split at h
    · simp only [Means] at hv; subst hv; trivial
    · simp only [Means] at hv; subst hv; exact .inl rfl
    · cases h

/-- Argument types and result type of the actions. -/
def fixedC : Act → Option (List CTy × CTy)
  | .keep => some ([.any], .any)
  | .text => some ([.any, .any], .any)
  | .modNode => some ([.any, .any], .any)
  | .copAs _ => some ([.any], .any)
  | .luAs _ => some ([.any], .any)
  | .je => some ([.wd .keo, .any], .any)
  | .sentence => some ([.any, .any, .wd .da], .any)
  | .prenexStmt => some ([.any, .any], .any)
  | .endPred _ => some ([.any, .any, .wd .na], .any)
  | .predication => some ([.any, .any, .any], .any)
  | .prenex => some ([.any, .any, .wd .bi], .any)
  | .serial => some ([.any, .any, .any], .any)
  | .terms1 => some ([.any], .any)
  | .prepend => some ([.any, .any, .any], .any)
  | .terms2 => some ([.any, .any, .any], .any)
  | .linked => some ([.wd .go, .any], .any)
  | .focused => some ([.wd .ku, .any], .any)
  | .quantified => some ([.wd .tu, .any], .any)
  | .argRel => some ([.any, .any, .any], .any)
  | .predArg => some ([.any], .any)
  | .predAdverb => some ([.any], .any)
  | .prep => some ([.any, .any, .any], .any)
  | .copLeft => some ([.any, .any, .bar .ra], .any)
  | .copRight => some ([.wd .ra, .any, .any], .bar .ra)
  | .foreCoP => some ([.con, .any, .cop1], .any)
  | .foreCoPLeft => some ([.any, .any, .bar .to], .cop1)
  | .foreCoPRight => some ([.wd .to, .any, .any], .bar .to)
  | .connector => some ([.wd .to, .any, .wd .ra], .con)
  | .luPhrase => some ([.wd .lu, .any, .any], .any)
  | .wordNode .predicate => some ([.any], .any)
  | .wordNode .space => some ([.any], .any)
  | .miEnd => some ([.any, .any, .wd .ga], .any)
  | .mi => some ([.wd .mi, .any, .any], .any)
  | .poEnd => some ([.any, .any, .wd .ga], .any)
  | .po => some ([.wd .po, .any, .any], .any)
  | .moEnd => some ([.part .mo, .any, .wd .teo], .any)
  | .mo => some ([.wd .mo, .any, .any], .part .mo)
  | .endParen => some ([.part .kio, .any, .wd .ki], .any)
  | .paren => some ([.wd .kio, .any, .any], .part .kio)
  | .incidental => some ([.wd .ju, .any, .any], .any)
  | .vocative => some ([.wd .hu, .any, .any], .any)
  | .addTone => some ([.any, .any], .any)
  | .dotless => some ([.any], .any)
  | .diacritic _ => some ([.any], .any)
  | _ => none

inductive MeansL : List CTy → List Val → Prop
  | nil : MeansL [] []
  | cons {t ts v vs} : Means t v → MeansL ts vs → MeansL (t :: ts) (v :: vs)

theorem MeansL.append {ts us vs ws} (h : MeansL ts vs) (h' : MeansL us ws) : MeansL (ts ++ us) (vs ++ ws) := by
  induction h with
  | nil => exact h'
  | cons a _ ih => exact .cons a ih

/-! ### Actions -/

theorem asNode_ok {v : Val} {n : Node} (hv : Fine v) (h : v.asNode = some n) : Classed n := by
  cases v <;> simp [Val.asNode] at h
  subst h; exact hv

theorem asNode?_ok {v : Val} {n : Option Node} (hv : Fine v) (h : v.asNode? = some n) : CO n := by
  cases v <;> simp [Val.asNode?] at h
  · subst h; intro x hx; cases hx
  · subst h; intro x hx; injection hx with hx; subst hx; exact hv

theorem asNodes?_ok {v : Val} {l : List Node} (hv : Fine v) (h : v.asNodes? = some l) : CL l := by
  cases v <;> simp [Val.asNodes?] at h
  · subst h; intro x hx; cases hx
  · subst h; exact hv

theorem asWord_ok {k : Class} {v : Val} {w : Word} (hv : Means (.wd k) v) (h : v.asWord = some w) : Is k w := by
  rcases hv with rfl | ⟨x, rfl, hx⟩
  · cases h
  · simp [Val.asWord] at h; subst h; exact hx

theorem asWord?_ok {k : Class} {v : Val} {w : Option Word} (hv : Means (.wd k) v) (h : v.asWord? = some w) :
    IsO k w := by
  rcases hv with rfl | ⟨x, rfl, hx⟩
  · simp [Val.asWord?] at h; subst h; intro x hx; cases hx
  · simp [Val.asWord?] at h; subst h; intro y hy; injection hy with hy; subst hy; exact hx


theorem fine_node {n : Node} (h : Fine (.node n)) : Classed n := h
theorem fine_nodes {n : List Node} (h : Fine (.nodes n)) : CL n := h
theorem isO_some {k : Class} {w : Word} (h : IsO k (some w)) : Is k w := h w rfl
theorem some_isO {k : Class} {w : Word} (h : Is k w) : IsO k (some w) := by
  intro x hx; injection hx with hx; subst hx; exact h
theorem isO_none (k : Class) : IsO k none := by intro x hx; cases hx
theorem cto_none : CTO none := by intro x hx; cases hx
theorem cto_some {l : List Node} (h : CL l) : CTO (some l) := by
  intro x hx; injection hx with hx; subst hx; exact h
theorem co_none : CO none := by intro x hx; cases hx
theorem cl_cons {n : Node} {l : List Node} (h : Classed n) (h' : CL l) : CL (n :: l) := by
  intro x hx; rcases List.mem_cons.1 hx with rfl | hx
  · exact h
  · exact h' x hx
theorem cl_nil : CL [] := by intro x hx; cases hx
theorem cw_new (t p q) : CW (.mk t p q none) := by intro x hx; cases hx
theorem conn_none {ru : Word} (h : Is .ra ru) : Conn none none ru :=
  ⟨isO_none _, by simp, h⟩
theorem conn_some {a b ru : Word} (ha : Is .to a) (hb : Is .to b) (h : Is .ra ru) : Conn (some a) (some b) ru :=
  ⟨some_isO ha, by intro w hw; injection hw with hw; subst hw; exact ⟨hb.1, fun _ => hb.2⟩, h⟩

macro "fine" : tactic => `(tactic|
  (simp only [runAct] at *
   repeat' split at *
   all_goals first
     | (exfalso; contradiction)
     | grind [asNode_ok, asNode?_ok, asNodes?_ok, asWord_ok, asWord?_ok, classed_modOpt, is_modWOpt, cl_modLastOpt,
        fine_node, fine_nodes, isO_some, some_isO, isO_none, cto_none, cto_some, co_none, cl_cons, cl_nil, Means, Fine,
        classed_text, classed_sentence, classed_prenex, classed_prenexStmt, classed_predication, classed_serial,
        classed_mi, classed_po, classed_mo, classed_lu, classed_linked, classed_terms, classed_predArg,
        classed_predAdverb, classed_prep, classed_paren, classed_incidental, classed_vocative, classed_cop, conn_none, conn_some]))

set_option maxHeartbeats 2000000 in
theorem act_ok {f : Act} {ts : List CTy} {t : CTy} {vs : List Val} {p q : Nat} {v : Val} (hf : fixedC f = some (ts, t))
    (hv : MeansL ts vs) (hr : runAct f p q vs = .ok v) : Means t v := by
  cases f with
  | keep =>
    simp only [fixedC, Option.some.injEq, Prod.mk.injEq] at hf
    obtain ⟨rfl, rfl⟩ := hf
    obtain _ | ⟨h1, _ | _⟩ := hv
    fine
  | text =>
    simp only [fixedC, Option.some.injEq, Prod.mk.injEq] at hf
    obtain ⟨rfl, rfl⟩ := hf
    obtain _ | ⟨h1, _ | ⟨h2, _ | _⟩⟩ := hv
    fine
  | modNode =>
    simp only [fixedC, Option.some.injEq, Prod.mk.injEq] at hf
    obtain ⟨rfl, rfl⟩ := hf
    obtain _ | ⟨h1, _ | ⟨h2, _ | _⟩⟩ := hv
    fine
  | copAs k =>
    simp only [fixedC, Option.some.injEq, Prod.mk.injEq] at hf
    obtain ⟨rfl, rfl⟩ := hf
    obtain _ | ⟨h1, _ | _⟩ := hv
    fine
  | luAs k =>
    simp only [fixedC, Option.some.injEq, Prod.mk.injEq] at hf
    obtain ⟨rfl, rfl⟩ := hf
    obtain _ | ⟨h1, _ | _⟩ := hv
    fine
  | je =>
    simp only [fixedC, Option.some.injEq, Prod.mk.injEq] at hf
    obtain ⟨rfl, rfl⟩ := hf
    obtain _ | ⟨h1, _ | ⟨h2, _ | _⟩⟩ := hv
    fine
  | sentence =>
    simp only [fixedC, Option.some.injEq, Prod.mk.injEq] at hf
    obtain ⟨rfl, rfl⟩ := hf
    obtain _ | ⟨h1, _ | ⟨h2, _ | ⟨h3, _ | _⟩⟩⟩ := hv
    fine
  | prenexStmt =>
    simp only [fixedC, Option.some.injEq, Prod.mk.injEq] at hf
    obtain ⟨rfl, rfl⟩ := hf
    obtain _ | ⟨h1, _ | ⟨h2, _ | _⟩⟩ := hv
    fine
  | endPred k =>
    simp only [fixedC, Option.some.injEq, Prod.mk.injEq] at hf
    obtain ⟨rfl, rfl⟩ := hf
    obtain _ | ⟨h1, _ | ⟨h2, _ | ⟨h3, _ | _⟩⟩⟩ := hv
    fine
  | predication =>
    simp only [fixedC, Option.some.injEq, Prod.mk.injEq] at hf
    obtain ⟨rfl, rfl⟩ := hf
    obtain _ | ⟨h1, _ | ⟨h2, _ | ⟨h3, _ | _⟩⟩⟩ := hv
    fine
  | prenex =>
    simp only [fixedC, Option.some.injEq, Prod.mk.injEq] at hf
    obtain ⟨rfl, rfl⟩ := hf
    obtain _ | ⟨h1, _ | ⟨h2, _ | ⟨h3, _ | _⟩⟩⟩ := hv
    fine
  | serial =>
    simp only [fixedC, Option.some.injEq, Prod.mk.injEq] at hf
    obtain ⟨rfl, rfl⟩ := hf
    obtain _ | ⟨h1, _ | ⟨h2, _ | ⟨h3, _ | _⟩⟩⟩ := hv
    fine
  | terms1 =>
    simp only [fixedC, Option.some.injEq, Prod.mk.injEq] at hf
    obtain ⟨rfl, rfl⟩ := hf
    obtain _ | ⟨h1, _ | _⟩ := hv
    fine
  | prepend =>
    simp only [fixedC, Option.some.injEq, Prod.mk.injEq] at hf
    obtain ⟨rfl, rfl⟩ := hf
    obtain _ | ⟨h1, _ | ⟨h2, _ | ⟨h3, _ | _⟩⟩⟩ := hv
    fine
  | terms2 =>
    simp only [fixedC, Option.some.injEq, Prod.mk.injEq] at hf
    obtain ⟨rfl, rfl⟩ := hf
    obtain _ | ⟨h1, _ | ⟨h2, _ | ⟨h3, _ | _⟩⟩⟩ := hv
    fine
  | linked =>
    simp only [fixedC, Option.some.injEq, Prod.mk.injEq] at hf
    obtain ⟨rfl, rfl⟩ := hf
    obtain _ | ⟨h1, _ | ⟨h2, _ | _⟩⟩ := hv
    fine
  | focused =>
    simp only [fixedC, Option.some.injEq, Prod.mk.injEq] at hf
    obtain ⟨rfl, rfl⟩ := hf
    obtain _ | ⟨h1, _ | ⟨h2, _ | _⟩⟩ := hv
    fine
  | quantified =>
    simp only [fixedC, Option.some.injEq, Prod.mk.injEq] at hf
    obtain ⟨rfl, rfl⟩ := hf
    obtain _ | ⟨h1, _ | ⟨h2, _ | _⟩⟩ := hv
    fine
  | argRel =>
    simp only [fixedC, Option.some.injEq, Prod.mk.injEq] at hf
    obtain ⟨rfl, rfl⟩ := hf
    obtain _ | ⟨h1, _ | ⟨h2, _ | ⟨h3, _ | _⟩⟩⟩ := hv
    fine
  | predArg =>
    simp only [fixedC, Option.some.injEq, Prod.mk.injEq] at hf
    obtain ⟨rfl, rfl⟩ := hf
    obtain _ | ⟨h1, _ | _⟩ := hv
    fine
  | predAdverb =>
    simp only [fixedC, Option.some.injEq, Prod.mk.injEq] at hf
    obtain ⟨rfl, rfl⟩ := hf
    obtain _ | ⟨h1, _ | _⟩ := hv
    fine
  | prep =>
    simp only [fixedC, Option.some.injEq, Prod.mk.injEq] at hf
    obtain ⟨rfl, rfl⟩ := hf
    obtain _ | ⟨h1, _ | ⟨h2, _ | ⟨h3, _ | _⟩⟩⟩ := hv
    fine
  | copLeft =>
    simp only [fixedC, Option.some.injEq, Prod.mk.injEq] at hf
    obtain ⟨rfl, rfl⟩ := hf
    obtain _ | ⟨h1, _ | ⟨h2, _ | ⟨h3, _ | _⟩⟩⟩ := hv
    obtain ⟨w, r, rfl, h4, h5⟩ := h3
    fine
  | copRight =>
    simp only [fixedC, Option.some.injEq, Prod.mk.injEq] at hf
    obtain ⟨rfl, rfl⟩ := hf
    obtain _ | ⟨h1, _ | ⟨h2, _ | ⟨h3, _ | _⟩⟩⟩ := hv
    fine
  | foreCoP =>
    simp only [fixedC, Option.some.injEq, Prod.mk.injEq] at hf
    obtain ⟨rfl, rfl⟩ := hf
    obtain _ | ⟨h1, _ | ⟨h2, _ | ⟨h3, _ | _⟩⟩⟩ := hv
    obtain ⟨a, b, rfl, h4, h5⟩ := h1
    obtain ⟨l, w, r, rfl, h6, h7, h8⟩ := h3
    fine
  | foreCoPLeft =>
    simp only [fixedC, Option.some.injEq, Prod.mk.injEq] at hf
    obtain ⟨rfl, rfl⟩ := hf
    obtain _ | ⟨h1, _ | ⟨h2, _ | ⟨h3, _ | _⟩⟩⟩ := hv
    obtain ⟨w, r, rfl, h4, h5⟩ := h3
    fine
  | foreCoPRight =>
    simp only [fixedC, Option.some.injEq, Prod.mk.injEq] at hf
    obtain ⟨rfl, rfl⟩ := hf
    obtain _ | ⟨h1, _ | ⟨h2, _ | ⟨h3, _ | _⟩⟩⟩ := hv
    fine
  | connector =>
    simp only [fixedC, Option.some.injEq, Prod.mk.injEq] at hf
    obtain ⟨rfl, rfl⟩ := hf
    obtain _ | ⟨h1, _ | ⟨h2, _ | ⟨h3, _ | _⟩⟩⟩ := hv
    fine
  | luPhrase =>
    simp only [fixedC, Option.some.injEq, Prod.mk.injEq] at hf
    obtain ⟨rfl, rfl⟩ := hf
    obtain _ | ⟨h1, _ | ⟨h2, _ | ⟨h3, _ | _⟩⟩⟩ := hv
    fine
  | miEnd =>
    simp only [fixedC, Option.some.injEq, Prod.mk.injEq] at hf
    obtain ⟨rfl, rfl⟩ := hf
    obtain _ | ⟨h1, _ | ⟨h2, _ | ⟨h3, _ | _⟩⟩⟩ := hv
    fine
  | mi =>
    simp only [fixedC, Option.some.injEq, Prod.mk.injEq] at hf
    obtain ⟨rfl, rfl⟩ := hf
    obtain _ | ⟨h1, _ | ⟨h2, _ | ⟨h3, _ | _⟩⟩⟩ := hv
    fine
  | poEnd =>
    simp only [fixedC, Option.some.injEq, Prod.mk.injEq] at hf
    obtain ⟨rfl, rfl⟩ := hf
    obtain _ | ⟨h1, _ | ⟨h2, _ | ⟨h3, _ | _⟩⟩⟩ := hv
    fine
  | po =>
    simp only [fixedC, Option.some.injEq, Prod.mk.injEq] at hf
    obtain ⟨rfl, rfl⟩ := hf
    obtain _ | ⟨h1, _ | ⟨h2, _ | ⟨h3, _ | _⟩⟩⟩ := hv
    fine
  | moEnd =>
    simp only [fixedC, Option.some.injEq, Prod.mk.injEq] at hf
    obtain ⟨rfl, rfl⟩ := hf
    obtain _ | ⟨h1, _ | ⟨h2, _ | ⟨h3, _ | _⟩⟩⟩ := hv
    obtain ⟨w, d, rfl, h4, h5⟩ := h1
    fine
  | mo =>
    simp only [fixedC, Option.some.injEq, Prod.mk.injEq] at hf
    obtain ⟨rfl, rfl⟩ := hf
    obtain _ | ⟨h1, _ | ⟨h2, _ | ⟨h3, _ | _⟩⟩⟩ := hv
    fine
  | endParen =>
    simp only [fixedC, Option.some.injEq, Prod.mk.injEq] at hf
    obtain ⟨rfl, rfl⟩ := hf
    obtain _ | ⟨h1, _ | ⟨h2, _ | ⟨h3, _ | _⟩⟩⟩ := hv
    obtain ⟨w, d, rfl, h4, h5⟩ := h1
    fine
  | paren =>
    simp only [fixedC, Option.some.injEq, Prod.mk.injEq] at hf
    obtain ⟨rfl, rfl⟩ := hf
    obtain _ | ⟨h1, _ | ⟨h2, _ | ⟨h3, _ | _⟩⟩⟩ := hv
    fine
  | incidental =>
    simp only [fixedC, Option.some.injEq, Prod.mk.injEq] at hf
    obtain ⟨rfl, rfl⟩ := hf
    obtain _ | ⟨h1, _ | ⟨h2, _ | ⟨h3, _ | _⟩⟩⟩ := hv
    fine
  | vocative =>
    simp only [fixedC, Option.some.injEq, Prod.mk.injEq] at hf
    obtain ⟨rfl, rfl⟩ := hf
    obtain _ | ⟨h1, _ | ⟨h2, _ | ⟨h3, _ | _⟩⟩⟩ := hv
    fine
  | dotless =>
    simp only [fixedC, Option.some.injEq, Prod.mk.injEq] at hf
    obtain ⟨rfl, rfl⟩ := hf
    obtain _ | ⟨h1, _ | _⟩ := hv
    fine
  | wordNode k =>
    cases k <;> simp only [fixedC, Option.some.injEq, Prod.mk.injEq, reduceCtorEq] at hf
    all_goals
      obtain ⟨rfl, rfl⟩ := hf
      obtain _ | ⟨h1, _ | _⟩ := hv
      simp only [runAct] at hr
      split at hr
      · injection hr with hr
        subst hr
        simp [Means, Fine, classed_word, cw_new]
      · cases hr
  | addTone =>
    simp only [fixedC, Option.some.injEq, Prod.mk.injEq] at hf
    obtain ⟨rfl, rfl⟩ := hf
    obtain _ | ⟨h1, _ | ⟨h2, _ | _⟩⟩ := hv
    fine
  | diacritic t =>
    simp only [fixedC, Option.some.injEq, Prod.mk.injEq] at hf
    obtain ⟨rfl, rfl⟩ := hf
    obtain _ | ⟨h1, _ | _⟩ := hv
    fine
  | _ => simp [fixedC] at hf

end Verif.Parse.Classes
