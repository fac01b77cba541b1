/-
Types for the proof of C60: in the syntax tree of a parsed text the words are words, and the tone of every
phrase is that of its place.

A type checker for the grammar like that of `Verif.Parse.ClassTypes`, whose types say which tones the
values have.
-/
import Verif.Parse.ToneTrees
import Verif.Parse.ToneVal

namespace Verif.Parse.Tones
open Verif.AST Verif.AST.Spec Verif.Peg Verif.Parse Verif.Parse.WordLang
open Verif.Tone (Str)

variable {P : Char → Prop}
local notation "E" => EP P
local notation "EW" => EWP P
local notation "EO" => EOP P
local notation "EL" => ELP P
local notation "ETO" => ETOP P
local notation "Wd" => WdP P
local notation "WO" => WOP P

abbrev Hd := Option (List WTone)

/-- If tones are given, the phrase has one of them. -/
def HasHd (h : Hd) (n : Node) : Prop := ∀ τs, h = some τs → HasTone τs n

inductive TTy
  /-- nil -/
  | nul
  /-- a syllable -/
  | syl (τ : WTone)
  /-- nil or syllables with macrons -/
  | syls
  /-- a word -/
  | wds (τ : WTone)
  /-- nil or a string of separators -/
  | sep
  /-- strings, and fine nodes; a node has one of the tones; if the flag is set, it is no predicate -/
  | nd (h : Hd) (np : Bool)
  /-- strings, and fine nodes; a predicate has the hook -/
  | ph
  /-- nil or a word -/
  | wd (τ : WTone)
  | bar (h : Hd)
  | con
  | cop1 (h h' : Hd)
  | cop (h h' : Hd)
  | lu (τ : WTone)
  | pd (τs : List WTone)
  | part (τ : WTone)
  /-- any value -/
  | top
deriving DecidableEq

abbrev TTy.any : TTy := .nd none false

def FineP (P : Char → Prop) : Val → Prop
  | .nil => True
  | .str _ => True
  | .node n => EP P n
  | .nodes l => ELP P l
  | _ => False

/-- A word of the tone, with fine modifiers. -/
def TWP (P : Char → Prop) (τ : WTone) (w : Word) : Prop := WordOf τ w.T ∧ EWP P w

def MeansP (P : Char → Prop) : TTy → Val → Prop
  | .nul, v => v = .nil
  | .syl τ, v => ∃ s, v = .str s ∧ Syllable τ s
  | .syls, v => v = .nil ∨ ∃ s, v = .str s ∧ Macrons s
  | .wds τ, v => ∃ s, v = .str s ∧ WordOf τ s
  | .sep, v => v = .nil ∨ ∃ s, v = .str s ∧ ∀ c ∈ s, P c
  | .nd h np, v => FineP P v ∧ ∀ n, v = .node n → HasHd h n ∧ (np = true → isPredicate n = false)
  | .ph, v => FineP P v ∧ ∀ n, v = .node n → isPredicate n = true → HasTone [.hook] n
  | .wd τ, v => v = .nil ∨ ∃ w, v = .word w ∧ TWP P τ w
  | .bar h, v => ∃ w r, v = .bar w r ∧ WdP P w ∧ EP P r ∧ HasHd h r
  | .con, v => ∃ a b, v = .con a b ∧ WdP P a ∧ WdP P b
  | .cop1 h h', v => ∃ l w r, v = .cop1 l w r ∧ EP P l ∧ WdP P w ∧ EP P r ∧ HasHd h l ∧ HasHd h' r
  | .cop h h', v => ∃ to0 to1 ru l r, v = .node (.cop .raw to0 to1 ru l r) ∧ EP P (.cop .raw to0 to1 ru l r) ∧
      HasHd h l ∧ HasHd h' r
  | .lu τ, v => ∃ w st, v = .node (.lu .raw w st) ∧ TWP P τ w ∧ EP P st
  | .pd τs, v => ∃ p ts, v = .node (.predication .raw p ts none) ∧ HasTone τs p ∧ EP P p ∧ ETOP P ts
  | .part τ, v => ∃ w d, v = .part w d ∧ TWP P τ w ∧ ELP P d
  | .top, _ => True

local notation "Fine" => FineP P
local notation "TW" => TWP P
local notation "Means" => MeansP P

/-- One list of tones is contained in the other. -/
def subH : Hd → Hd → Bool
  | _, none => true
  | some a, some b => a.all b.contains
  | none, some _ => false

theorem subH_ok {h h' : Hd} {n : Node} (hs : subH h h' = true) (hn : HasHd h n) : HasHd h' n := by
  unfold subH at hs
  split at hs
  · intro τs h; cases h
  · rename_i a b
    intro τs h
    injection h with h
    subst h
    obtain ⟨τ, h1, s, h2, h3⟩ := hn a rfl
    simp only [List.all_eq_true] at hs
    have := hs τ h1
    simp only [List.contains_iff_mem] at this
    exact ⟨τ, this, s, h2, h3⟩
  · cases hs

def subT (a b : TTy) : Bool := a == b || b == .top || match a, b with
  | .nul, .nd _ _ => true
  | .nul, .wd _ => true
  | .nul, .ph => true
  | .nul, .syls => true
  | .syl _, .nd _ _ => true
  | .syls, .nd _ _ => true
  | .wds _, .nd _ _ => true
  | .syl τ, .wds σ => τ == σ
  | .nul, .sep => true
  | .sep, .nd _ _ => true
  | .nd h b, .nd h' b' => subH h h' && (!b' || b)
  | .nd h b, .ph => b || subH h (some [.hook])
  | .bar h, .bar h' => subH h h'
  | .cop1 h h', .cop1 k k' => subH h k && subH h' k'
  | .cop h h', .cop k k' => subH h k && subH h' k'
  | .cop h _, .nd k b => subH h k && !b
  | _, _ => false

theorem sub_ok {a b : TTy} {v : Val} (h : subT a b = true) (hv : Means a v) : Means b v := by
  unfold subT at h
  simp only [Bool.or_eq_true, beq_iff_eq] at h
  rcases h with (rfl | rfl) | h
  · exact hv
  · trivial
  · split at h
    · simp only [MeansP] at hv; subst hv; exact ⟨trivial, by simp⟩
    · simp only [MeansP] at hv; subst hv; exact .inl rfl
    · simp only [MeansP] at hv; subst hv; exact ⟨trivial, by simp⟩
    · simp only [MeansP] at hv; subst hv; exact .inl rfl
    · obtain ⟨s, rfl, _⟩ := hv; exact ⟨trivial, by simp⟩
    · obtain rfl | ⟨s, rfl, _⟩ := hv <;> exact ⟨trivial, by simp⟩
    · obtain ⟨s, rfl, _⟩ := hv; exact ⟨trivial, by simp⟩
    · rename_i τ σ
      simp only [beq_iff_eq] at h
      subst h
      obtain ⟨s, rfl, hs⟩ := hv
      exact ⟨s, rfl, s, [], by simp, hs, .nil⟩
    · simp only [MeansP] at hv; subst hv; exact .inl rfl
    · obtain rfl | ⟨s, rfl, _⟩ := hv <;> exact ⟨trivial, by simp⟩
    · rename_i k b k' b'
      simp only [Bool.and_eq_true, Bool.or_eq_true, Bool.not_eq_true'] at h
      refine ⟨hv.1, fun n hn => ⟨subH_ok h.1 (hv.2 n hn).1, fun hb => (hv.2 n hn).2 ?_⟩⟩
      rcases h.2 with h | h
      · rw [h] at hb; cases hb
      · exact h
    · rename_i k b
      simp only [Bool.or_eq_true] at h
      refine ⟨hv.1, fun n hn hp => ?_⟩
      rcases h with h | h
      · rw [(hv.2 n hn).2 h] at hp; cases hp
      · exact subH_ok h (hv.2 n hn).1 _ rfl
    · obtain ⟨w, r, rfl, h1, h2, h3⟩ := hv
      exact ⟨w, r, rfl, h1, h2, subH_ok h h3⟩
    · simp only [Bool.and_eq_true] at h
      obtain ⟨l, w, r, rfl, h1, h2, h3, h4, h5⟩ := hv
      exact ⟨l, w, r, rfl, h1, h2, h3, subH_ok h.1 h4, subH_ok h.2 h5⟩
    · simp only [Bool.and_eq_true] at h
      obtain ⟨a, b, c, l, r, rfl, h1, h2, h3⟩ := hv
      exact ⟨a, b, c, l, r, rfl, h1, subH_ok h.1 h2, subH_ok h.2 h3⟩
    · simp only [Bool.and_eq_true, Bool.not_eq_true'] at h
      obtain ⟨a, b, c, l, r, rfl, h1, h2, h3⟩ := hv
      refine ⟨h1, ?_⟩
      intro n hn
      injection hn with hn
      subst hn
      refine ⟨?_, by rw [h.2]; intro h; cases h⟩
      exact subH_ok (n := .cop .raw a b c l r) h.1 h2
    · cases h

inductive MeansL (P : Char → Prop) : List TTy → List Val → Prop
  | nil : MeansL P [] []
  | cons {t ts v vs} : MeansP P t v → MeansL P ts vs → MeansL P (t :: ts) (v :: vs)

theorem MeansL.append {ts us vs ws} (h : MeansL P ts vs) (h' : MeansL P us ws) : MeansL P (ts ++ us) (vs ++ ws) := by
  induction h with
  | nil => exact h'
  | cons a _ ih => exact .cons a ih

/-! ### Actions -/

def TTy.hd : TTy → Hd
  | .nd h _ => h
  | _ => none

def TTy.np : TTy → Bool
  | .nd _ b => b
  | _ => false

/-- The tones of the halves of a connection of predicates. -/
def okCop (h h' : Hd) : Bool := subH h' (some [.hook]) || subH h (some [.grave]) && subH h' (some [.grave])

/-- Argument types and result type of the actions, for labels of the given types. -/
def need (f : Act) (ts : List TTy) : Option (List TTy × TTy) := match f, ts with
  | .keep, [t] => some ([t], t)
  | .text, _ => some ([.any, .any], .any)
  | .modNode, t :: _ => some ([.nd t.hd t.np, .any], .nd t.hd t.np)
  | .modWord, .wd τ :: _ => some ([.wd τ, .any], .wd τ)
  | .copAs k, [.cop h h'] =>
    if k = .predicate then if okCop h h' then some ([.cop h h'], .nd h false) else none
    else some ([.cop h h'], .nd h true)
  | .luAs k, [.lu τ] =>
    if k = .predicate then some ([.lu τ], .nd (some [τ]) false)
    else if luTone k = none || luTone k = some τ then some ([.lu τ], .nd (some [τ]) true) else none
  | .je, _ => some ([.wd .plain, .any], .any)
  | .sentence, _ => some ([.any, .any, .wd .plain], .any)
  | .prenexStmt, _ => some ([.any, .any], .any)
  | .endPred k, _ => some ([.pd [predTone k], .any, .wd .plain], .nd (some [predTone k]) true)
  | .predication, .nd (some τs) _ :: _ => some ([.nd (some τs) false, .any, .any], .pd τs)
  | .prenex, _ => some ([.any, .any, .wd .plain], .any)
  | .serial, t :: _ => some ([.nd t.hd false, .any, .nd (some [.hook]) false], .nd t.hd false)
  | .terms1, _ => some ([.any], .any)
  | .prepend, _ => some ([.any, .any, .any], .any)
  | .terms2, _ => some ([.any, .any, .any], .any)
  | .linked, [_, t] => some ([.wd .plain, .nd none t.np], .nd none t.np)
  | .focused, [_, t] => some ([.wd .plain, .nd t.hd false], .nd t.hd true)
  | .quantified, [_, t] => some ([.wd .plain, .nd t.hd false], .nd t.hd true)
  | .argRel, t :: _ => some ([.nd t.hd false, .any, .any], .nd t.hd true)
  | .predArg, _ => some ([.nd (some [.acute, .circumflex]) false], .nd (some [.acute, .circumflex]) true)
  | .predAdverb, _ => some ([.nd (some [.tilde]) false], .nd (some [.tilde]) true)
  | .prep, _ => some ([.nd (some [.grave]) false, .any, .any], .nd (some [.grave]) true)
  | .copLeft, [t, _, .bar h'] => some ([.nd t.hd false, .any, .bar h'], .cop t.hd h')
  | .copRight, [_, _, t] => some ([.wd .plain, .any, .nd t.hd false], .bar t.hd)
  | .foreCoP, [_, _, .cop1 h h'] => some ([.con, .any, .cop1 h h'], .cop h h')
  | .foreCoPLeft, [t, _, .bar h'] => some ([.nd t.hd false, .any, .bar h'], .cop1 t.hd h')
  | .foreCoPRight, [_, _, t] => some ([.wd .plain, .any, .nd t.hd false], .bar t.hd)
  | .connector, _ => some ([.wd .plain, .any, .wd .plain], .con)
  | .luPhrase, .wd τ :: _ => some ([.wd τ, .any, .any], .lu τ)
  | .word, [.syl τ] => some ([.syl τ], .wd τ)
  | .wordNode .predicate, [.wds τ] => some ([.wds τ], .nd (some [τ]) false)
  | .wordNode .interjection, [.syl τ] => some ([.syl τ], .nd none true)
  | .wordNode .space, _ => some ([.sep], .nd none true)
  | .miEnd, t :: _ => some ([.nd t.hd false, .any, .wd .plain], .nd t.hd false)
  | .mi, .wd τ :: _ => some ([.wd τ, .any, .ph], .nd (some [τ]) false)
  | .poEnd, t :: _ => some ([.nd t.hd false, .any, .wd .plain], .nd t.hd false)
  | .po, .wd τ :: _ => some ([.wd τ, .any, .any], .nd (some [τ]) false)
  | .moEnd, .part τ :: _ => some ([.part τ, .any, .wd .plain], .nd (some [τ]) false)
  | .mo, .wd τ :: _ => some ([.wd τ, .any, .any], .part τ)
  | .endParen, .part τ :: _ => some ([.part τ, .any, .wd .plain], .nd none true)
  | .paren, .wd τ :: _ => some ([.wd τ, .any, .any], .part τ)
  | .incidental, _ => some ([.wd .plain, .any, .any], .nd none true)
  | .vocative, _ => some ([.wd .plain, .any, .any], .nd none true)
  | .addTone, _ => some ([.any, .any], .any)
  | .dotless, _ => some ([.any], .any)
  | .diacritic _, _ => some ([.any], .any)
  | _, _ => none

theorem asNode_ok {h np} {v : Val} {n : Node} (hv : Means (.nd h np) v) (hn : v.asNode = some n) :
    E n ∧ HasHd h n ∧ (np = true → isPredicate n = false) := by
  cases v <;> simp [Val.asNode] at hn
  subst hn; exact ⟨hv.1, hv.2 _ rfl⟩

theorem asNode_ph {v : Val} {n : Node} (hv : Means .ph v) (hn : v.asNode = some n) :
    E n ∧ (isPredicate n = true → HasTone [.hook] n) := by
  cases v <;> simp [Val.asNode] at hn
  subst hn; exact ⟨hv.1, hv.2 _ rfl⟩

theorem asNode?_ok {h np} {v : Val} {n : Option Node} (hv : Means (.nd h np) v) (hn : v.asNode? = some n) : EO n := by
  cases v <;> simp [Val.asNode?] at hn
  · subst hn; exact eo_none
  · subst hn; exact hv.1

theorem asNodes?_ok {h np} {v : Val} {l : List Node} (hv : Means (.nd h np) v) (hn : v.asNodes? = some l) : EL l := by
  cases v <;> simp [Val.asNodes?] at hn
  · subst hn; exact el_nil
  · subst hn; exact hv.1

theorem asWord_ok {τ : WTone} {v : Val} {w : Word} (hv : Means (.wd τ) v) (h : v.asWord = some w) : TW τ w := by
  rcases hv with rfl | ⟨x, rfl, hx⟩
  · cases h
  · simp [Val.asWord] at h; subst h; exact hx

theorem tw_wd {τ : WTone} {w : Word} (h : TW τ w) : Wd w := ⟨⟨τ, h.1⟩, h.2⟩

theorem asWord?_ok {τ : WTone} {v : Val} {w : Option Word} (hv : Means (.wd τ) v) (h : v.asWord? = some w) :
    WO w := by
  rcases hv with rfl | ⟨x, rfl, hx⟩
  · simp [Val.asWord?] at h; subst h; exact wo_none
  · simp [Val.asWord?] at h; subst h; exact wo_some.2 (tw_wd hx)

theorem tw_modWOpt {τ : WTone} {s : Option Node} {w : Word} (hs : EO s) (h : TW τ w) : TW τ (modWOpt s w) :=
  ⟨by rw [modWOpt_T]; exact h.1, ew_modWOpt hs h.2⟩

theorem hasHd_modOpt (h : Hd) (s : Option Node) (n : Node) : HasHd h (modOpt s n) ↔ HasHd h n := by
  simp [HasHd, hasTone_modOpt]

/-- A node of a type. -/
theorem node_means {h : Hd} {np : Bool} {n : Node} (he : E n) (hh : HasHd h n)
    (hp : np = true → isPredicate n = false) : Means (.nd h np) (.node n) :=
  ⟨he, by rintro _ ⟨⟩; exact ⟨hh, hp⟩⟩

theorem any_means {n : Node} (he : E n) : Means .any (.node n) :=
  node_means he (by intro _ h; cases h) (by intro h; cases h)

theorem hd_none (n : Node) : HasHd none n := by intro _ h; cases h

theorem hd_some {τs : List WTone} {n : Node} : HasHd (some τs) n ↔ HasTone τs n :=
  ⟨fun h => h _ rfl, fun h _ e => by injection e with e; subst e; exact h⟩

theorem hd_same {h : Hd} {n n' : Node} (hn : HasHd h n) (e : headWord n' = headWord n) : HasHd h n' := by
  intro τs hs
  obtain ⟨τ, h1, s, h2, h3⟩ := hn τs hs
  exact ⟨τ, h1, s, by rw [e, h2], h3⟩

theorem hd_own {τ : WTone} {n : Node} {s : Str} (h : headWord n = some s) (hs : WordOf τ s) : HasHd (some [τ]) n :=
  hd_some.2 ⟨τ, by simp, s, h, hs⟩

theorem syl_word {τ : WTone} {s : Str} (h : Syllable τ s) : WordOf τ s := ⟨s, [], by simp, h, .nil⟩

theorem wd_new {τ : WTone} {s : Str} (p q : Nat) (h : WordOf τ s) : TW τ (.mk s p q none) := ⟨h, rfl⟩

theorem fine_nodes {h np l} (hv : Means (.nd h np) (.nodes l)) : EL l := hv.1
theorem fine_node {h np n} (hv : Means (.nd h np) (.node n)) : E n := hv.1
theorem node_hd {h np n} (hv : Means (.nd h np) (.node n)) : HasHd h n := (hv.2 n rfl).1
theorem node_np {n} {h} (hv : Means (.nd h true) (.node n)) : isPredicate n = false := (hv.2 n rfl).2 rfl

macro "fineT" : tactic => `(tactic|
  (simp only [runAct] at *
   repeat' split at *
   all_goals first
     | (exfalso; contradiction)
     | grind [asNode_ok, asNode?_ok, asNodes?_ok, asWord_ok, asWord?_ok, e_modOpt, wd_modWOpt, tw_modWOpt, tw_wd,
        el_modLastOpt, fine_node, fine_nodes, any_means, wo_none, wo_some, eo_none, eo_some, eto_none, eto_some,
        el_cons, el_nil, e_text, e_sentence, e_prenex, e_prenexStmt, e_serial, e_po, e_mo, e_linked, e_terms, e_predArg,
        e_predAdverb, e_prep, e_paren, e_incidental, e_vocative, e_cop, MeansP]))

theorem mod_raw {s : Option Node} {p : Node} {ts : Option (List Node)} {τs : List WTone} (hs : EO s)
    (h1 : HasTone τs p) (h2 : E p) (h3 : ETO ts) : ∃ p' ts', modOpt s (.predication .raw p ts none) =
    .predication .raw p' ts' none ∧ HasTone τs p' ∧ E p' ∧ ETO ts' := by
  cases s with
  | none => exact ⟨p, ts, rfl, h1, h2, h3⟩
  | some m =>
    cases ts with
    | none => exact ⟨mod m p, none, rfl, (hasTone_mod τs m p).2 h1, (e_mod_aux m hs).1 p h2, h3⟩
    | some l =>
      refine ⟨p, some (modLast m l), rfl, h1, h2, ?_⟩
      exact el_modLastOpt (s := some m) hs h3

theorem inv_prenex {p q a b c v} (h : runAct .prenex p q [a, b, c] = .ok v) : ∃ ts s bi, a = .node (.terms ts) ∧
    b.asNode? = some s ∧ c.asWord = some bi ∧ v = .node (.prenex (modLastOpt s ts) bi) := by
  cases a with
  | node n =>
    cases n with
    | terms ts =>
      simp only [runAct] at h
      split at h
      · rename_i s bi hs hb
        injection h with h
        exact ⟨ts, s, bi, rfl, hs, hb, h.symm⟩
      · cases h
    | _ => simp [runAct] at h
  | _ => simp [runAct] at h

theorem inv_focused {p q a b v} (h : runAct .focused p q [a, b] = .ok v) : ∃ id f tu x rel ku,
    b = .node (.predArg id f tu x rel) ∧ a.asWord? = some ku ∧ v = .node (.predArg id ku tu x rel) := by
  cases b with
  | node n =>
    cases n with
    | predArg id f tu x rel =>
      simp only [runAct] at h
      split at h
      · rename_i ku hk
        injection h with h
        exact ⟨id, f, tu, x, rel, ku, rfl, hk, h.symm⟩
      · cases h
    | _ => simp [runAct] at h
  | _ => simp [runAct] at h

theorem inv_quantified {p q a b v} (h : runAct .quantified p q [a, b] = .ok v) : ∃ id f tu x rel ku,
    b = .node (.predArg id f tu x rel) ∧ a.asWord? = some ku ∧ v = .node (.predArg id f ku x rel) := by
  cases b with
  | node n =>
    cases n with
    | predArg id f tu x rel =>
      simp only [runAct] at h
      split at h
      · rename_i ku hk
        injection h with h
        exact ⟨id, f, tu, x, rel, ku, rfl, hk, h.symm⟩
      · cases h
    | _ => simp [runAct] at h
  | _ => simp [runAct] at h

theorem inv_miEnd {p q a b c v} (h : runAct .miEnd p q [a, b, c] = .ok v) : ∃ m g x s ga, a = .node (.mi m g x) ∧
    b.asNode? = some s ∧ c.asWord? = some ga ∧ v = .node (.mi m ga (modOpt s x)) := by
  cases a with
  | node n =>
    cases n with
    | mi m g x =>
      simp only [runAct] at h
      split at h
      · rename_i s ga hs hg
        injection h with h
        exact ⟨m, g, x, s, ga, rfl, hs, hg, h.symm⟩
      · cases h
    | _ => simp [runAct] at h
  | _ => simp [runAct] at h

theorem inv_poEnd {p q a b c v} (h : runAct .poEnd p q [a, b, c] = .ok v) : ∃ m g x s ga, a = .node (.po m g x) ∧
    b.asNode? = some s ∧ c.asWord? = some ga ∧ v = .node (.po m ga (modOpt s x)) := by
  cases a with
  | node n =>
    cases n with
    | po m g x =>
      simp only [runAct] at h
      split at h
      · rename_i s ga hs hg
        injection h with h
        exact ⟨m, g, x, s, ga, rfl, hs, hg, h.symm⟩
      · cases h
    | _ => simp [runAct] at h
  | _ => simp [runAct] at h

theorem inv_mo {p q a b c v} (h : runAct .mo p q [a, b, c] = .ok v) : ∃ w s d, c = .nodes d ∧
    a.asWord = some w ∧ b.asNode? = some s ∧ v = .part (modWOpt s w) d := by
  cases c with
  | nodes d =>
    simp only [runAct] at h
    split at h
    · rename_i w s hw hs
      injection h with h
      exact ⟨w, s, d, rfl, hw, hs, h.symm⟩
    · cases h
  | _ => simp [runAct] at h

theorem inv_paren {p q a b c v} (h : runAct .paren p q [a, b, c] = .ok v) : ∃ w s d, c = .nodes d ∧
    a.asWord = some w ∧ b.asNode? = some s ∧ v = .part (modWOpt s w) d := by
  cases c with
  | nodes d =>
    simp only [runAct] at h
    split at h
    · rename_i w s hw hs
      injection h with h
      exact ⟨w, s, d, rfl, hw, hs, h.symm⟩
    · cases h
  | _ => simp [runAct] at h

set_option maxHeartbeats 4000000 in
theorem act_ok {f : Act} {ts us : List TTy} {t : TTy} {vs : List Val} {p q : Nat} {v : Val}
    (hf : need f us = some (ts, t)) (hv : MeansL P ts vs) (hr : runAct f p q vs = .ok v) : Means t v := by
  unfold need at hf
  split at hf
  case h_1 => -- keep
    injection hf with hf; injection hf with e1 e2; subst e1 e2
    obtain _ | ⟨h1, _ | _⟩ := hv
    simp only [runAct] at hr
    injection hr with hr
    subst hr
    exact h1
  case h_2 => -- text
    injection hf with hf; injection hf with e1 e2; subst e1 e2
    obtain _ | ⟨h1, _ | ⟨h2, _ | _⟩⟩ := hv
    fineT
  case h_3 => -- modNode
    injection hf with hf; injection hf with e1 e2; subst e1 e2
    obtain _ | ⟨h1, _ | ⟨h2, _ | _⟩⟩ := hv
    simp only [runAct] at hr
    split at hr
    · rename_i x s hx hs
      injection hr with hr
      subst hr
      have := asNode_ok h1 hx
      exact node_means (e_modOpt (asNode?_ok h2 hs) this.1) ((hasHd_modOpt _ _ _).2 this.2.1)
        (by rw [isPredicate_modOpt]; exact this.2.2)
    · cases hr
  case h_4 => -- modWord
    injection hf with hf; injection hf with e1 e2; subst e1 e2
    obtain _ | ⟨h1, _ | ⟨h2, _ | _⟩⟩ := hv
    simp only [runAct] at hr
    split at hr
    · rename_i x s hx hs
      injection hr with hr
      subst hr
      exact .inr ⟨_, rfl, tw_modWOpt (asNode?_ok h2 hs) (asWord_ok h1 hx)⟩
    · cases hr
  case h_5 => -- copAs
    rename_i k h h'
    have key : ∀ {a b c l r}, E (.cop .raw a b c l r) → HasHd h l → HasHd h' r → (k = .predicate → okCop h h' = true) →
        E (.cop k a b c l r) := by
      intro a b c l r he h1 h2 hk
      rw [e_cop] at he ⊢
      refine ⟨he.1, he.2.1, he.2.2.1, he.2.2.2.1, he.2.2.2.2.1, ?_⟩
      intro e
      have := hk e
      simp only [okCop, Bool.or_eq_true, Bool.and_eq_true] at this
      rcases this with h | h
      · exact .inl (hd_some.1 (subH_ok h h2))
      · exact .inr ⟨hd_some.1 (subH_ok h.1 h1), hd_some.1 (subH_ok h.2 h2)⟩
    split at hf
    · rename_i hk
      split at hf
      · rename_i hok
        injection hf with hf; injection hf with e1 e2; subst e1 e2
        obtain _ | ⟨⟨a, b, c, l, r, rfl, h1, h2, h3⟩, _ | _⟩ := hv
        simp only [runAct] at hr
        injection hr with hr
        subst hr
        exact node_means (key h1 h2 h3 fun _ => hok) (hd_same h2 rfl) (by intro h; cases h)
      · cases hf
    · rename_i hk
      injection hf with hf; injection hf with e1 e2; subst e1 e2
      obtain _ | ⟨⟨a, b, c, l, r, rfl, h1, h2, h3⟩, _ | _⟩ := hv
      simp only [runAct] at hr
      injection hr with hr
      subst hr
      refine node_means (key h1 h2 h3 fun h => absurd h hk) (hd_same h2 rfl) (fun _ => ?_)
      cases k <;> first | rfl | exact absurd rfl hk
  case h_6 => -- luAs
    rename_i k τ
    have key : ∀ {w st}, TW τ w → E st → (luTone k = none ∨ luTone k = some τ) → E (.lu k w st) := by
      intro w st h1 h2 hk
      rw [e_lu]
      refine ⟨tw_wd h1, h2, ?_⟩
      intro σ hσ
      rcases hk with hk | hk
      · rw [hk] at hσ; cases hσ
      · rw [hk] at hσ; injection hσ with hσ; subst hσ; exact h1.1
    split at hf
    · rename_i hk
      injection hf with hf; injection hf with e1 e2; subst e1 e2
      obtain _ | ⟨⟨w, st, rfl, h1, h2⟩, _ | _⟩ := hv
      simp only [runAct] at hr
      injection hr with hr
      subst hr
      exact node_means (key h1 h2 (.inl (by rw [hk]; rfl))) (hd_own rfl h1.1) (by intro h; cases h)
    · rename_i hk
      split at hf
      · rename_i hok
        injection hf with hf; injection hf with e1 e2; subst e1 e2
        obtain _ | ⟨⟨w, st, rfl, h1, h2⟩, _ | _⟩ := hv
        simp only [runAct] at hr
        injection hr with hr
        subst hr
        refine node_means (key h1 h2 (by simpa using hok)) (hd_own rfl h1.1) (fun _ => ?_)
        cases k <;> first | rfl | exact absurd rfl hk
      · cases hf
  case h_7 => -- je
    injection hf with hf; injection hf with e1 e2; subst e1 e2
    obtain _ | ⟨h1, _ | ⟨h2, _ | _⟩⟩ := hv
    fineT
  case h_8 => -- sentence
    injection hf with hf; injection hf with e1 e2; subst e1 e2
    obtain _ | ⟨h1, _ | ⟨h2, _ | ⟨h3, _ | _⟩⟩⟩ := hv
    fineT
  case h_9 => -- prenexStmt
    injection hf with hf; injection hf with e1 e2; subst e1 e2
    obtain _ | ⟨h1, _ | ⟨h2, _ | _⟩⟩ := hv
    fineT
  case h_10 => -- endPred
    rename_i k
    injection hf with hf; injection hf with e1 e2; subst e1 e2
    obtain _ | ⟨⟨x, ts, rfl, h3, h4, h5⟩, _ | ⟨h2, _ | ⟨h6, _ | _⟩⟩⟩ := hv
    simp only [runAct, Val.asNode] at hr
    split at hr
    · rename_i n s na hn hs hna
      injection hn with hn
      subst hn
      obtain ⟨p', ts', e, g1, g2, g3⟩ := mod_raw (asNode?_ok h2 hs) h3 h4 h5
      rw [e] at hr
      simp only at hr
      injection hr with hr
      subst hr
      exact node_means ((e_predication _ _ _ _).2 ⟨g1, g2, g3, asWord?_ok h6 hna⟩)
        (hd_same (hd_some.2 g1) rfl) (fun _ => rfl)
    · cases hr
  case h_11 => -- predication
    injection hf with hf; injection hf with e1 e2; subst e1 e2
    obtain _ | ⟨h1, _ | ⟨h2, _ | ⟨h3, _ | _⟩⟩⟩ := hv
    simp only [runAct] at hr
    split at hr
    · rename_i x s hx hs
      injection hr with hr
      subst hr
      have := asNode_ok h1 hx
      exact ⟨_, _, rfl, (hasTone_modOpt _ _ _).2 (hd_some.1 this.2.1), e_modOpt (asNode?_ok h2 hs) this.1, rfl⟩
    · rename_i x s ts hx hs
      injection hr with hr
      subst hr
      have := asNode_ok h1 hx
      exact ⟨_, _, rfl, (hasTone_modOpt _ _ _).2 (hd_some.1 this.2.1), e_modOpt (asNode?_ok h2 hs) this.1,
        (e_terms ts).1 h3.1⟩
    · cases hr
  case h_12 => -- prenex
    injection hf with hf; injection hf with e1 e2; subst e1 e2
    obtain _ | ⟨h1, _ | ⟨h2, _ | ⟨h3, _ | _⟩⟩⟩ := hv
    obtain ⟨ts, s, bi, rfl, hs, hb, rfl⟩ := inv_prenex hr
    exact any_means ((e_prenex _ _).2 ⟨el_modLastOpt (asNode?_ok h2 hs) ((e_terms _).1 h1.1), tw_wd (asWord_ok h3 hb)⟩)
  case h_13 => -- serial
    injection hf with hf; injection hf with e1 e2; subst e1 e2
    obtain _ | ⟨h1, _ | ⟨h2, _ | ⟨h3, _ | _⟩⟩⟩ := hv
    simp only [runAct] at hr
    split at hr
    · rename_i l s r hl hs hr'
      injection hr with hr
      subst hr
      have g1 := asNode_ok h1 hl
      have g3 := asNode_ok h3 hr'
      exact node_means ((e_serial _ _).2 ⟨e_modOpt (asNode?_ok h2 hs) g1.1, g3.1, hd_some.1 g3.2.1⟩)
        (hd_same ((hasHd_modOpt _ _ _).2 g1.2.1) rfl) (by intro h; cases h)
    · cases hr
  case h_14 => -- terms1
    injection hf with hf; injection hf with e1 e2; subst e1 e2
    obtain _ | ⟨h1, _ | _⟩ := hv
    fineT
  case h_15 => -- prepend
    injection hf with hf; injection hf with e1 e2; subst e1 e2
    obtain _ | ⟨h1, _ | ⟨h2, _ | ⟨h3, _ | _⟩⟩⟩ := hv
    fineT
  case h_16 => -- terms2
    injection hf with hf; injection hf with e1 e2; subst e1 e2
    obtain _ | ⟨h1, _ | ⟨h2, _ | ⟨h3, _ | _⟩⟩⟩ := hv
    fineT
  case h_17 => -- linked
    injection hf with hf; injection hf with e1 e2; subst e1 e2
    obtain _ | ⟨h1, _ | ⟨h2, _ | _⟩⟩ := hv
    simp only [runAct] at hr
    split at hr
    · rename_i a hg ha
      injection hr with hr
      subst hr
      have := asNode_ok h2 ha
      exact node_means this.1 (hd_none _) this.2.2
    · rename_i g a hg ha
      injection hr with hr
      subst hr
      have := asNode_ok h2 ha
      exact node_means ((e_linked _ _).2 ⟨wo_some.1 (asWord?_ok h1 hg), this.1⟩) (hd_none _) (fun _ => rfl)
    · cases hr
  case h_18 => -- focused
    injection hf with hf; injection hf with e1 e2; subst e1 e2
    obtain _ | ⟨h1, _ | ⟨h2, _ | _⟩⟩ := hv
    obtain ⟨id, f, tu, x, rel, ku, rfl, hk, rfl⟩ := inv_focused hr
    have := (e_predArg _ _ _ _ _).1 h2.1
    exact node_means ((e_predArg _ _ _ _ _).2 ⟨asWord?_ok h1 hk, this.2⟩) (hd_same (h2.2 _ rfl).1 rfl) (fun _ => rfl)
  case h_19 => -- quantified
    injection hf with hf; injection hf with e1 e2; subst e1 e2
    obtain _ | ⟨h1, _ | ⟨h2, _ | _⟩⟩ := hv
    obtain ⟨id, f, tu, x, rel, ku, rfl, hk, rfl⟩ := inv_quantified hr
    have := (e_predArg _ _ _ _ _).1 h2.1
    exact node_means ((e_predArg _ _ _ _ _).2 ⟨this.1, asWord?_ok h1 hk, this.2.2⟩) (hd_same (h2.2 _ rfl).1 rfl)
      (fun _ => rfl)
  case h_20 => -- argRel
    injection hf with hf; injection hf with e1 e2; subst e1 e2
    obtain _ | ⟨h1, _ | ⟨h2, _ | ⟨h3, _ | _⟩⟩⟩ := hv
    simp only [runAct] at hr
    split at hr
    · rename_i a s rc ha hs hrc
      have g1 := asNode_ok h1 ha
      have g2 := e_modOpt (asNode?_ok h2 hs) g1.1
      have g3 := (hasHd_modOpt _ s a).2 g1.2.1
      split at hr
      · rename_i id f q p rel e
        rw [e] at g2 g3
        injection hr with hr
        subst hr
        rw [e_predArg] at g2
        refine node_means ((e_predArg _ _ _ _ _).2 ⟨g2.1, g2.2.1, g2.2.2.1, g2.2.2.2.1, ?_⟩) (hd_same g3 rfl) (fun _ => rfl)
        split
        · exact asNode?_ok h3 hrc
        · exact g2.2.2.2.2
      · cases hr
    · cases hr
  case h_21 => -- predArg
    injection hf with hf; injection hf with e1 e2; subst e1 e2
    obtain _ | ⟨h1, _ | _⟩ := hv
    simp only [runAct] at hr
    split at hr
    · rename_i x hx
      injection hr with hr
      subst hr
      have := asNode_ok h1 hx
      exact node_means ((e_predArg _ _ _ _ _).2 ⟨wo_none, wo_none, hd_some.1 this.2.1, this.1, eo_none⟩)
        (hd_same this.2.1 rfl) (fun _ => rfl)
    · cases hr
  case h_22 => -- predAdverb
    injection hf with hf; injection hf with e1 e2; subst e1 e2
    obtain _ | ⟨h1, _ | _⟩ := hv
    simp only [runAct] at hr
    split at hr
    · rename_i x hx
      injection hr with hr
      subst hr
      have := asNode_ok h1 hx
      exact node_means ((e_predAdverb _).2 ⟨hd_some.1 this.2.1, this.1⟩) (hd_same this.2.1 rfl) (fun _ => rfl)
    · cases hr
  case h_23 => -- prep
    injection hf with hf; injection hf with e1 e2; subst e1 e2
    obtain _ | ⟨h1, _ | ⟨h2, _ | ⟨h3, _ | _⟩⟩⟩ := hv
    simp only [runAct] at hr
    split at hr
    · rename_i x s a hx hs ha
      injection hr with hr
      subst hr
      have g := asNode_ok h1 hx
      have g' := (hasHd_modOpt _ s x).2 g.2.1
      exact node_means ((e_prep _ _).2 ⟨hd_some.1 g', e_modOpt (asNode?_ok h2 hs) g.1, (asNode_ok h3 ha).1⟩)
        (hd_same g' rfl) (fun _ => rfl)
    · cases hr
  case h_24 => -- copLeft
    injection hf with hf; injection hf with e1 e2; subst e1 e2
    obtain _ | ⟨h1, _ | ⟨h2, _ | ⟨⟨w, r, rfl, h3, h4, h5⟩, _ | _⟩⟩⟩ := hv
    simp only [runAct] at hr
    split at hr
    · rename_i l s hl hs
      injection hr with hr
      subst hr
      have g := asNode_ok h1 hl
      exact ⟨_, _, _, _, _, rfl, (e_cop _ _ _ _ _ _).2 ⟨wo_none, wo_none, h3, e_modOpt (asNode?_ok h2 hs) g.1, h4,
        (by intro h; cases h)⟩, (hasHd_modOpt _ _ _).2 g.2.1, h5⟩
    · cases hr
  case h_25 => -- copRight
    injection hf with hf; injection hf with e1 e2; subst e1 e2
    obtain _ | ⟨h1, _ | ⟨h2, _ | ⟨h3, _ | _⟩⟩⟩ := hv
    simp only [runAct] at hr
    split at hr
    · rename_i ru s r hw hs hr'
      injection hr with hr
      subst hr
      have g := asNode_ok h3 hr'
      exact ⟨_, _, rfl, wd_modWOpt (asNode?_ok h2 hs) (tw_wd (asWord_ok h1 hw)), g.1, g.2.1⟩
    · cases hr
  case h_26 => -- foreCoP
    injection hf with hf; injection hf with e1 e2; subst e1 e2
    obtain _ | ⟨⟨a, b, rfl, h1, h2⟩, _ | ⟨h3, _ | ⟨⟨l, w, r, rfl, h4, h5, h6, h7, h8⟩, _ | _⟩⟩⟩ := hv
    simp only [runAct] at hr
    split at hr
    · rename_i s hs
      injection hr with hr
      subst hr
      exact ⟨_, _, _, _, _, rfl, (e_cop _ _ _ _ _ _).2 ⟨wo_some.2 h1, wo_some.2 h5, wd_modWOpt (asNode?_ok h3 hs) h2,
        h4, h6, (by intro h; cases h)⟩, h7, h8⟩
    · cases hr
  case h_27 => -- foreCoPLeft
    injection hf with hf; injection hf with e1 e2; subst e1 e2
    obtain _ | ⟨h1, _ | ⟨h2, _ | ⟨⟨w, r, rfl, h3, h4, h5⟩, _ | _⟩⟩⟩ := hv
    simp only [runAct] at hr
    split at hr
    · rename_i l s hl hs
      injection hr with hr
      subst hr
      have g := asNode_ok h1 hl
      exact ⟨_, _, _, rfl, e_modOpt (asNode?_ok h2 hs) g.1, h3, h4, (hasHd_modOpt _ _ _).2 g.2.1, h5⟩
    · cases hr
  case h_28 => -- foreCoPRight
    injection hf with hf; injection hf with e1 e2; subst e1 e2
    obtain _ | ⟨h1, _ | ⟨h2, _ | ⟨h3, _ | _⟩⟩⟩ := hv
    simp only [runAct] at hr
    split at hr
    · rename_i ru s r hw hs hr'
      injection hr with hr
      subst hr
      have g := asNode_ok h3 hr'
      exact ⟨_, _, rfl, wd_modWOpt (asNode?_ok h2 hs) (tw_wd (asWord_ok h1 hw)), g.1, g.2.1⟩
    · cases hr
  case h_29 => -- connector
    injection hf with hf; injection hf with e1 e2; subst e1 e2
    obtain _ | ⟨h1, _ | ⟨h2, _ | ⟨h3, _ | _⟩⟩⟩ := hv
    simp only [runAct] at hr
    split at hr
    · rename_i a s b ha hs hb
      injection hr with hr
      subst hr
      exact ⟨_, _, rfl, wd_modWOpt (asNode?_ok h2 hs) (tw_wd (asWord_ok h1 ha)), tw_wd (asWord_ok h3 hb)⟩
    · cases hr
  case h_30 => -- luPhrase
    injection hf with hf; injection hf with e1 e2; subst e1 e2
    obtain _ | ⟨h1, _ | ⟨h2, _ | ⟨h3, _ | _⟩⟩⟩ := hv
    simp only [runAct] at hr
    split at hr
    · rename_i a s b ha hs hb
      injection hr with hr
      subst hr
      exact ⟨_, _, rfl, tw_modWOpt (asNode?_ok h2 hs) (asWord_ok h1 ha), (asNode_ok h3 hb).1⟩
    · cases hr
  case h_31 => -- word
    injection hf with hf; injection hf with e1 e2; subst e1 e2
    obtain _ | ⟨⟨s, rfl, h1⟩, _ | _⟩ := hv
    simp only [runAct, Val.asStr] at hr
    injection hr with hr
    subst hr
    exact .inr ⟨_, rfl, wd_new p q (syl_word h1)⟩
  case h_32 => -- wordNode predicate
    injection hf with hf; injection hf with e1 e2; subst e1 e2
    obtain _ | ⟨⟨s, rfl, h1⟩, _ | _⟩ := hv
    simp only [runAct, Val.asStr] at hr
    injection hr with hr
    subst hr
    exact node_means ((e_word _ _).2 ⟨rfl, fun _ => ⟨_, h1⟩, by intro h; cases h⟩) (hd_own rfl h1) (by intro h; cases h)
  case h_33 => -- wordNode interjection
    injection hf with hf; injection hf with e1 e2; subst e1 e2
    obtain _ | ⟨⟨s, rfl, h1⟩, _ | _⟩ := hv
    simp only [runAct, Val.asStr] at hr
    injection hr with hr
    subst hr
    exact node_means ((e_word _ _).2 ⟨rfl, fun _ => ⟨_, syl_word h1⟩, by intro h; cases h⟩) (hd_none _) (fun _ => rfl)
  case h_34 => -- wordNode space
    injection hf with hf; injection hf with e1 e2; subst e1 e2
    obtain _ | ⟨h1, _ | _⟩ := hv
    rcases h1 with rfl | ⟨s, rfl, h1⟩
    · cases hr
    · simp only [runAct, Val.asStr] at hr
      injection hr with hr
      subst hr
      exact node_means ((e_word _ _).2 ⟨rfl, fun h => absurd rfl h, fun _ => h1⟩) (hd_none _) (fun _ => rfl)
  case h_35 => -- miEnd
    injection hf with hf; injection hf with e1 e2; subst e1 e2
    obtain _ | ⟨h1, _ | ⟨h2, _ | ⟨h3, _ | _⟩⟩⟩ := hv
    obtain ⟨m, g, x, s, ga, rfl, hs, hg, rfl⟩ := inv_miEnd hr
    have := (e_mi _ _ _).1 h1.1
    refine node_means ((e_mi _ _ _).2 ⟨this.1, asWord?_ok h3 hg, e_modOpt (asNode?_ok h2 hs) this.2.2.1, ?_⟩)
      (hd_same (h1.2 _ rfl).1 rfl) (by intro h; cases h)
    rw [isPredicate_modOpt, hasTone_modOpt]
    exact this.2.2.2
  case h_36 => -- mi
    injection hf with hf; injection hf with e1 e2; subst e1 e2
    obtain _ | ⟨h1, _ | ⟨h2, _ | ⟨h3, _ | _⟩⟩⟩ := hv
    simp only [runAct] at hr
    split at hr
    · rename_i a s b ha hs hb
      injection hr with hr
      subst hr
      have g := tw_modWOpt (asNode?_ok h2 hs) (asWord_ok h1 ha)
      have g' := asNode_ph h3 hb
      exact node_means ((e_mi _ _ _).2 ⟨tw_wd g, wo_none, g'⟩) (hd_own rfl g.1) (by intro h; cases h)
    · cases hr
  case h_37 => -- poEnd
    injection hf with hf; injection hf with e1 e2; subst e1 e2
    obtain _ | ⟨h1, _ | ⟨h2, _ | ⟨h3, _ | _⟩⟩⟩ := hv
    obtain ⟨m, g, x, s, ga, rfl, hs, hg, rfl⟩ := inv_poEnd hr
    have := (e_po _ _ _).1 h1.1
    exact node_means ((e_po _ _ _).2 ⟨this.1, asWord?_ok h3 hg, e_modOpt (asNode?_ok h2 hs) this.2.2⟩)
      (hd_same (h1.2 _ rfl).1 rfl) (by intro h; cases h)
  case h_38 => -- po
    injection hf with hf; injection hf with e1 e2; subst e1 e2
    obtain _ | ⟨h1, _ | ⟨h2, _ | ⟨h3, _ | _⟩⟩⟩ := hv
    simp only [runAct] at hr
    split at hr
    · rename_i a s b ha hs hb
      injection hr with hr
      subst hr
      have g := tw_modWOpt (asNode?_ok h2 hs) (asWord_ok h1 ha)
      exact node_means ((e_po _ _ _).2 ⟨tw_wd g, wo_none, (asNode_ok h3 hb).1⟩) (hd_own rfl g.1) (by intro h; cases h)
    · cases hr
  case h_39 => -- moEnd
    injection hf with hf; injection hf with e1 e2; subst e1 e2
    obtain _ | ⟨⟨w, d, rfl, h1, h4⟩, _ | ⟨h2, _ | ⟨h3, _ | _⟩⟩⟩ := hv
    simp only [runAct] at hr
    split at hr
    · rename_i s teo hs ht
      injection hr with hr
      subst hr
      exact node_means ((e_mo _ _ _).2 ⟨tw_wd h1, tw_wd (asWord_ok h3 ht), el_modLastOpt (asNode?_ok h2 hs) h4⟩)
        (hd_own rfl h1.1) (by intro h; cases h)
    · cases hr
  case h_40 => -- mo
    injection hf with hf; injection hf with e1 e2; subst e1 e2
    obtain _ | ⟨h1, _ | ⟨h2, _ | ⟨h3, _ | _⟩⟩⟩ := hv
    obtain ⟨w, s, d, rfl, hw, hs, rfl⟩ := inv_mo hr
    exact ⟨_, _, rfl, tw_modWOpt (asNode?_ok h2 hs) (asWord_ok h1 hw), h3.1⟩
  case h_41 => -- endParen
    injection hf with hf; injection hf with e1 e2; subst e1 e2
    obtain _ | ⟨⟨w, d, rfl, h1, h4⟩, _ | ⟨h2, _ | ⟨h3, _ | _⟩⟩⟩ := hv
    simp only [runAct] at hr
    split at hr
    · rename_i s teo hs ht
      injection hr with hr
      subst hr
      exact node_means ((e_paren _ _ _).2 ⟨tw_wd h1, tw_wd (asWord_ok h3 ht), el_modLastOpt (asNode?_ok h2 hs) h4⟩)
        (hd_none _) (fun _ => rfl)
    · cases hr
  case h_42 => -- paren
    injection hf with hf; injection hf with e1 e2; subst e1 e2
    obtain _ | ⟨h1, _ | ⟨h2, _ | ⟨h3, _ | _⟩⟩⟩ := hv
    obtain ⟨w, s, d, rfl, hw, hs, rfl⟩ := inv_paren hr
    exact ⟨_, _, rfl, tw_modWOpt (asNode?_ok h2 hs) (asWord_ok h1 hw), h3.1⟩
  case h_43 => -- incidental
    injection hf with hf; injection hf with e1 e2; subst e1 e2
    obtain _ | ⟨h1, _ | ⟨h2, _ | ⟨h3, _ | _⟩⟩⟩ := hv
    simp only [runAct] at hr
    split at hr
    · rename_i a s b ha hs hb
      injection hr with hr
      subst hr
      exact node_means ((e_incidental _ _).2 ⟨tw_wd (tw_modWOpt (asNode?_ok h2 hs) (asWord_ok h1 ha)), (asNode_ok h3 hb).1⟩)
        (hd_none _) (fun _ => rfl)
    · cases hr
  case h_44 => -- vocative
    injection hf with hf; injection hf with e1 e2; subst e1 e2
    obtain _ | ⟨h1, _ | ⟨h2, _ | ⟨h3, _ | _⟩⟩⟩ := hv
    simp only [runAct] at hr
    split at hr
    · rename_i a s b ha hs hb
      injection hr with hr
      subst hr
      exact node_means ((e_vocative _ _).2 ⟨tw_wd (tw_modWOpt (asNode?_ok h2 hs) (asWord_ok h1 ha)), (asNode_ok h3 hb).1⟩)
        (hd_none _) (fun _ => rfl)
    · cases hr
  case h_45 => -- addTone
    injection hf with hf; injection hf with e1 e2; subst e1 e2
    obtain _ | ⟨h1, _ | ⟨h2, _ | _⟩⟩ := hv
    simp only [runAct] at hr
    split at hr
    · split at hr
      · injection hr with hr; subst hr; exact ⟨trivial, by simp⟩
      · cases hr
    · cases hr
  case h_46 => -- dotless
    injection hf with hf; injection hf with e1 e2; subst e1 e2
    obtain _ | ⟨h1, _ | _⟩ := hv
    simp only [runAct] at hr
    split at hr
    · injection hr with hr; subst hr; exact ⟨trivial, by simp⟩
    · cases hr
  case h_47 => -- diacritic
    injection hf with hf; injection hf with e1 e2; subst e1 e2
    obtain _ | ⟨h1, _ | _⟩ := hv
    simp only [runAct] at hr
    split at hr
    · split at hr
      · injection hr with hr; subst hr; exact ⟨trivial, by simp⟩
      · cases hr
    · cases hr
    · cases hr
  case h_48 => cases hf

end Verif.Parse.Tones
