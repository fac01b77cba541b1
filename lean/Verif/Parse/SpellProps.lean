/-
Capitals, the dot of i, and breves do not change how a text is parsed.
-/
import Verif.Parse.SpellSpec
import Verif.Parse.ParserProps
import Verif.Parse.Examples
import Verif.Peg.Sim

namespace Verif.Parse
open Verif.AST Verif.Peg
open Verif.Tone (Str)

/-! ### Actions -/

section
variable (f : Str → Str) (φ : Nat → Nat)

theorem respell_modLast (m : Node) (d : List Node)
    (ih : ∀ x ∈ d, respell f φ (mod m x) = mod (respell f φ m) (respell f φ x)) :
    respellL f φ (modLast m d) = modLast (respell f φ m) (respellL f φ d) := by
  induction d with
  | nil => rfl
  | cons x d hd =>
    cases d with
    | nil => simp only [modLast, respellL]; rw [ih x (by simp)]
    | cons y l =>
      have := hd (fun z hz => ih z (List.mem_cons_of_mem _ hz))
      simp only [modLast, respellL] at this ⊢
      rw [this]


theorem respell_mod_both (m : Node) : (∀ n, respell f φ (mod m n) = mod (respell f φ m) (respell f φ n)) ∧
    (∀ w, respellW f φ (modW m w) = modW (respell f φ m) (respellW f φ w)) := by
  refine Node.induct (P := fun n => respell f φ (mod m n) = mod (respell f φ m) (respell f φ n))
    (Q := fun w => respellW f φ (modW m w) = modW (respell f φ m) (respellW f φ w))
    ?_ ?_ ?_ ?_ ?_ ?_ ?_ ?_ ?_ ?_ ?_ ?_ ?_ ?_ ?_ ?_ ?_ ?_ ?_ ?_ ?_ ?_ ?_
  · intro t s e m' ih
    cases m' with
    | none => simp [modW, respellW, respellO, modO]
    | some x => simp [modW, respellW, respellO, modO, ih x rfl]
  · intro l d _ ih; simp only [mod, respell]; rw [respell_modLast f φ m d ih]
  · intro d ih; simp only [mod, respell]; rw [respell_modLast f φ m d ih]
  · intro je st da _ ih ih'
    cases da with
    | none => simp [mod, respell, respellWO, ih]
    | some w => simp [mod, respell, respellWO, ih' w rfl]
  · intro k to0 to1 ru l r _ _ _ _ ih; simp [mod, respell, ih]
  · intro ts bi _ ih; simp [mod, respell, ih]
  · intro ts bi st _ _ ih; simp [mod, respell, ih]
  · intro k p ts na ih iht ihn
    cases na with
    | some w => simp [mod, respell, respellWO, ihn w rfl]
    | none => cases ts with
      | none => simp [mod, respell, respellWO, respellTO, ih]
      | some l => simp only [mod, respell, respellWO, respellTO]; rw [respell_modLast f φ m l (iht l rfl)]
  · intro mu p _ ih; simp [mod, respell, ih]
  · intro l r _ ih; simp [mod, respell, ih]
  · intro k w ih; simp [mod, respell, ih]
  · intro x ga ph _ ihg ih
    cases ga with
    | none => simp [mod, respell, respellWO, ih]
    | some w => simp [mod, respell, respellWO, ihg w rfl]
  · intro x ga ph _ ihg ih
    cases ga with
    | none => simp [mod, respell, respellWO, ih]
    | some w => simp [mod, respell, respellWO, ihg w rfl]
  · intro x teo d _ ih _; simp [mod, respell, ih]
  · intro k l st _ ih; simp [mod, respell, ih]
  · intro g a _ ih; simp [mod, respell, ih]
  · intro ts ih; simp only [mod, respell]; rw [respell_modLast f φ m ts ih]
  · intro id fo qu p rel _ _ ih ihr
    cases rel with
    | none => simp [mod, respell, respellO, ih]
    | some w => simp [mod, respell, respellO, ihr w rfl]
  · intro p ih; simp [mod, respell, ih]
  · intro p a _ ih; simp [mod, respell, ih]
  · intro kio ki d _ _ ih; simp only [mod, respell]; rw [respell_modLast f φ m d ih]
  · intro ju st _ ih; simp [mod, respell, ih]
  · intro ju st _ ih; simp [mod, respell, ih]

theorem respell_modOpt (m : Option Node) (n : Node) :
    respell f φ (modOpt m n) = modOpt (m.map (respell f φ)) (respell f φ n) := by
  cases m with
  | none => rfl
  | some m => exact (respell_mod_both f φ m).1 n

theorem respell_modWOpt (m : Option Node) (n : Word) :
    respellW f φ (modWOpt m n) = modWOpt (m.map (respell f φ)) (respellW f φ n) := by
  cases m with
  | none => rfl
  | some m => exact (respell_mod_both f φ m).2 n

theorem respell_modLastOpt (m : Option Node) (l : List Node) :
    respellL f φ (modLastOpt m l) = modLastOpt (m.map (respell f φ)) (respellL f φ l) := by
  cases m with
  | none => rfl
  | some m => exact respell_modLast f φ m l fun x _ => (respell_mod_both f φ m).1 x

theorem respellO_eq (m : Option Node) : respellO f φ m = m.map (respell f φ) := by cases m <;> rfl
theorem respellWO_eq (m : Option Word) : respellWO f φ m = m.map (respellW f φ) := by cases m <;> rfl

/-- Respell a value of an action. -/
def respellV : Val → Val
  | .nil => .nil
  | .str s => .str (f s)
  | .word w => .word (respellW f φ w)
  | .node n => .node (respell f φ n)
  | .nodes l => .nodes (respellL f φ l)
  | .bar w r => .bar (respellW f φ w) (respell f φ r)
  | .con a b => .con (respellW f φ a) (respellW f φ b)
  | .cop1 l w r => .cop1 (respell f φ l) (respellW f φ w) (respell f φ r)
  | .part w d => .part (respellW f φ w) (respellL f φ d)

theorem asStr_respell (v : Val) : (respellV f φ v).asStr = v.asStr.map f := by cases v <;> rfl
theorem asWord_respell (v : Val) : (respellV f φ v).asWord = v.asWord.map (respellW f φ) := by cases v <;> rfl
theorem asNode_respell (v : Val) : (respellV f φ v).asNode = v.asNode.map (respell f φ) := by cases v <;> rfl
theorem asNode?_respell (v : Val) : (respellV f φ v).asNode? = v.asNode?.map (Option.map (respell f φ)) := by cases v <;> rfl
theorem asWord?_respell (v : Val) : (respellV f φ v).asWord? = v.asWord?.map (Option.map (respellW f φ)) := by cases v <;> rfl
theorem asNodes?_respell (v : Val) : (respellV f φ v).asNodes? = v.asNodes?.map (respellL f φ) := by cases v <;> rfl

end

/-! ### Letters -/

/-- Terminals that do not tell spellings apart. -/
def termFold (L : List (Char × Char)) : Term → Bool
  | .cls cs => L.all fun e => cs.contains e.1 == cs.contains e.2
  | .lit d => L.all fun e => e.1 != d && e.2 != d
  | .any | .punct => true

def termsB (P : Term → Bool) : Expr Act → Bool
  | .term t => P t
  | .ref _ => true
  | .seq a b | .alt a b => termsB P a && termsB P b
  | .opt a | .plus a | .star a | .not a | .and a | .lab a | .grp a | .act _ a => termsB P a

/-- What is checked for the pairs of letters. -/
structure Spelling (L : List (Char × Char)) : Prop where
  pairs : ∀ e ∈ L, foldBy L e.1 = e.2
  rows : ∀ e ∈ L, Verif.Tone.diacriticRow e.1 = [] ∧ Verif.Tone.diacriticRow e.2 = []
  toned : ∀ row ∈ Verif.Tone.diacritic, ∀ e ∈ L,
    ((row.2.find? fun x => x.1 = e.2).bind fun x => x.2.head?) =
      ((row.2.find? fun x => x.1 = e.1).bind fun x => x.2.head?).map (foldBy L)
  small : ∀ row ∈ Verif.Tone.diacritic, ∀ x ∈ row.2, (∀ e ∈ L, e.1 ≠ x.1) → x.2.head?.map (foldBy L) = x.2.head?
  dot : ('i', 'ı') ∈ L ∧ (∀ e ∈ L, e.2 ≠ 'i') ∧ foldBy L 'ı' = 'ı'
  bad : ∀ e ∈ L, e.1 ≠ bad ∧ e.2 ≠ bad
  terms : ∀ r, r < 403 → termsB (termFold L) (bodies.get r) = true
  some : ∀ e ∈ L, (∃ p ∈ spellPairs, e.1 = p.1 ∨ e.1 = p.2) ∧ ∃ p ∈ spellPairs, e.2 = p.1 ∨ e.2 = p.2

theorem spellPairs_ok : Spelling spellPairs where
  pairs := by decide +kernel
  rows := by decide +kernel
  toned := by decide +kernel
  small := by decide +kernel
  dot := by decide +kernel
  bad := by decide +kernel
  terms := by decide +kernel
  some := fun e h => ⟨⟨e, h, .inl rfl⟩, ⟨e, h, .inr rfl⟩⟩

theorem capitalPairs_ok : Spelling capitalPairs where
  pairs := by decide +kernel
  rows := by decide +kernel
  toned := by decide +kernel
  small := by decide +kernel
  dot := by decide +kernel
  bad := by decide +kernel
  terms := by decide +kernel
  some := by decide +kernel

variable {L : List (Char × Char)}

theorem fold_rest (c : Char) (h : ∀ e ∈ L, e.1 ≠ c) : foldBy L c = c := by
  have : L.lookup c = none := by
    rw [List.lookup_eq_none_iff]
    intro e he
    simp only [bne_iff_ne, ne_eq]
    exact fun hc => h e he hc.symm
  rw [foldBy, this]; rfl

/-- A property of characters and their standard spelling. -/
theorem fold_ind (HL : Spelling L) {Q : Char → Char → Prop} (h : ∀ e ∈ L, Q e.1 e.2)
    (h' : ∀ c, (∀ e ∈ L, e.1 ≠ c) → Q c c) (c : Char) : Q c (foldBy L c) := by
  by_cases hc : ∃ e ∈ L, e.1 = c
  · obtain ⟨e, he, rfl⟩ := hc
    rw [HL.pairs e he]; exact h e he
  · have hn : ∀ e ∈ L, e.1 ≠ c := fun e he h => hc ⟨e, he, h⟩
    rw [fold_rest c hn]; exact h' c hn

theorem diacritic0_tone (HL : Spelling L) (t c : Char) :
    Verif.Tone.diacritic0 (foldBy L t) c = Verif.Tone.diacritic0 t c := by
  refine fold_ind HL (Q := fun t t' => Verif.Tone.diacritic0 t' c = Verif.Tone.diacritic0 t c) ?_ (fun _ _ => rfl) t
  intro e he
  have := HL.rows e he
  simp only [Verif.Tone.diacritic0, this.1, this.2]

theorem diacritic0_fold (HL : Spelling L) (t c : Char) :
    Verif.Tone.diacritic0 t (foldBy L c) = (Verif.Tone.diacritic0 t c).map (foldBy L) := by
  unfold Verif.Tone.diacritic0 Verif.Tone.diacriticRow
  cases h : Verif.Tone.diacritic.find? fun e => e.1 = t with
  | none => rfl
  | some row =>
    have hrow := List.mem_of_find?_eq_some h
    simp only [Option.elim]
    refine fold_ind HL (Q := fun c c' => ((row.2.find? fun x => x.1 = c').bind fun x => x.2.head?) =
      ((row.2.find? fun x => x.1 = c).bind fun x => x.2.head?).map (foldBy L)) (HL.toned row hrow) ?_ c
    intro c hc
    cases h2 : row.2.find? fun x => x.1 = c with
    | none => rfl
    | some x =>
      have hx := List.find?_some h2
      simp only [decide_eq_true_eq] at hx
      simp only [Option.bind]
      rw [HL.small row hrow x (List.mem_of_find?_eq_some h2) (hx ▸ hc)]

theorem Spelling.punct (HL : Spelling L) {U : Uni} (hU : LettersNotPunct U) (e : Char × Char) (he : e ∈ L) :
    U.punct e.1 = false ∧ U.punct e.2 = false := by
  obtain ⟨⟨p, hp, h⟩, ⟨q, hq, h'⟩⟩ := HL.some e he
  have := hU p hp
  have := hU q hq
  grind

theorem fold_ne_i (HL : Spelling L) (c : Char) : foldBy L c ≠ 'i' :=
  fold_ind HL (Q := fun _ c' => c' ≠ 'i') HL.dot.2.1 (fun c hc h => hc ('i', 'ı') HL.dot.1 h.symm) c

/-! ### Actions -/

section
variable (φ : Nat → Nat)

/-- A respelled value. -/
abbrev rv (L : List (Char × Char)) (φ : Nat → Nat) : Val → Val := respellV (List.map (foldBy L)) φ

theorem mapExcept_ok {ε α β : Type} (f : α → β) (a : α) : (Except.ok a : Except ε α).map f = .ok (f a) := rfl
theorem mapExcept_error {ε α β : Type} (f : α → β) (e : ε) : (Except.error e : Except ε α).map f = .error e := rfl

local macro "expand" : tactic => `(tactic| simp only [runAct, List.map, asNode_respell, asNode?_respell, asNodes?_respell,
  asWord_respell, asWord?_respell, asStr_respell, respellV, respell])

local macro "finish" : tactic => `(tactic| simp [mapExcept_ok, mapExcept_error, respellV, respell, respellW, respellL, respellTO,
  respellO_eq, respellWO_eq, respell_modOpt, respell_modWOpt, respell_modLastOpt])

set_option linter.unusedSimpArgs false in
theorem runAct_respell (HL : Spelling L) (a : Act) (p q : Nat) (vs : List Val) :
    runAct a (φ p) (φ q) (vs.map (rv L φ)) = (runAct a p q vs).map (rv L φ) := by
  cases a
  all_goals first
    | (rcases vs with _ | ⟨v1, _ | ⟨v2, _ | ⟨v3, _ | ⟨v4, vs⟩⟩⟩⟩ <;> rfl)
    | (rcases vs with _ | ⟨v1, _ | ⟨v2, _ | ⟨v3, _ | ⟨v4, vs⟩⟩⟩⟩ <;> try rfl)
  all_goals try (first
    | (cases v1 <;> rfl)
    | (cases v2 <;> rfl)
    | (cases v3 <;> rfl)
    | (cases v1 <;> cases v3 <;> rfl)
    | (rcases v1 with _ | s | w | n | l | ⟨w, r⟩ | ⟨a, b⟩ | ⟨l, w, r⟩ | ⟨w, d⟩ <;> first | rfl | (cases n <;> first | rfl | (rename_i k _ _; cases k <;> rfl) | (rename_i k _ _ _ _ _; cases k <;> rfl)))
    | (rcases v2 with _ | s | w | n | l | ⟨w, r⟩ | ⟨a, b⟩ | ⟨l, w, r⟩ | ⟨w, d⟩ <;> first | rfl | (cases n <;> first | rfl | (rename_i k _ _; cases k <;> rfl) | (rename_i k _ _ _ _ _; cases k <;> rfl)))
    | (rcases v3 with _ | s | w | n | l | ⟨w, r⟩ | ⟨a, b⟩ | ⟨l, w, r⟩ | ⟨w, d⟩ <;> first | rfl | (cases n <;> first | rfl | (rename_i k _ _; cases k <;> rfl) | (rename_i k _ _ _ _ _; cases k <;> rfl))))
  case text =>
    expand
    cases v1.asNode? <;> cases v2.asNodes? <;> finish
  case modNode =>
    expand
    cases v1.asNode <;> cases v2.asNode? <;> finish
  case modWord =>
    expand
    cases v1.asWord <;> cases v2.asNode? <;> finish
  case sentence =>
    expand
    cases v1.asNode <;> cases v2.asNode? <;> cases v3.asWord? <;> finish
  case serial =>
    expand
    cases v1.asNode <;> cases v2.asNode? <;> cases v3.asNode <;> finish
  case terms2 =>
    expand
    cases v1.asNode <;> cases v2.asNode? <;> cases v3.asNode <;> finish
  case prep =>
    expand
    cases v1.asNode <;> cases v2.asNode? <;> cases v3.asNode <;> finish
  case copRight =>
    expand
    cases v1.asWord <;> cases v2.asNode? <;> cases v3.asNode <;> finish
  case foreCoPRight =>
    expand
    cases v1.asWord <;> cases v2.asNode? <;> cases v3.asNode <;> finish
  case connector =>
    expand
    cases v1.asWord <;> cases v2.asNode? <;> cases v3.asWord <;> finish
  case luPhrase =>
    expand
    cases v1.asWord <;> cases v2.asNode? <;> cases v3.asNode <;> finish
  case wordMod =>
    expand
    cases v1.asStr <;> cases v2.asNode? <;> finish
  case mi =>
    expand
    cases v1.asWord <;> cases v2.asNode? <;> cases v3.asNode <;> finish
  case po =>
    expand
    cases v1.asWord <;> cases v2.asNode? <;> cases v3.asNode <;> finish
  case incidental =>
    expand
    cases v1.asWord <;> cases v2.asNode? <;> cases v3.asNode <;> finish
  case vocative =>
    expand
    cases v1.asWord <;> cases v2.asNode? <;> cases v3.asNode <;> finish
  case je =>
    rcases v2 with _ | s | w | n | l | ⟨w, r⟩ | ⟨a, b⟩ | ⟨l, w, r⟩ | ⟨w, d⟩ <;> try rfl
    case node => cases n <;> first | rfl | (expand; cases v1.asWord? <;> finish)
    all_goals (expand; cases v1.asWord? <;> finish)
  case prenexStmt =>
    rcases v1 with _ | s | w | n | l | ⟨w, r⟩ | ⟨a, b⟩ | ⟨l, w, r⟩ | ⟨w, d⟩ <;> try rfl
    case node => cases n <;> first | rfl | (expand; cases v2.asNode <;> finish)
    all_goals (expand; cases v2.asNode <;> finish)
  case predication =>
    rcases v3 with _ | s | w | n | l | ⟨w, r⟩ | ⟨a, b⟩ | ⟨l, w, r⟩ | ⟨w, d⟩ <;> try rfl
    case node => cases n <;> first | rfl | (expand; cases v1.asNode <;> cases v2.asNode? <;> finish)
    all_goals (expand; cases v1.asNode <;> cases v2.asNode? <;> finish)
  case prenex =>
    rcases v1 with _ | s | w | n | l | ⟨w, r⟩ | ⟨a, b⟩ | ⟨l, w, r⟩ | ⟨w, d⟩ <;> try rfl
    case node => cases n <;> first | rfl | (expand; cases v2.asNode? <;> cases v3.asWord <;> finish)
    all_goals (expand; cases v2.asNode? <;> cases v3.asWord <;> finish)
  case prepend =>
    rcases v3 with _ | s | w | n | l | ⟨w, r⟩ | ⟨a, b⟩ | ⟨l, w, r⟩ | ⟨w, d⟩ <;> try rfl
    case node => cases n <;> first | rfl | (expand; cases v1.asNode <;> cases v2.asNode? <;> finish)
    all_goals (expand; cases v1.asNode <;> cases v2.asNode? <;> finish)
  case focused =>
    rcases v2 with _ | s | w | n | l | ⟨w, r⟩ | ⟨a, b⟩ | ⟨l, w, r⟩ | ⟨w, d⟩ <;> try rfl
    case node => cases n <;> first | rfl | (expand; cases v1.asWord? <;> finish)
    all_goals (expand; cases v1.asWord? <;> finish)
  case quantified =>
    rcases v2 with _ | s | w | n | l | ⟨w, r⟩ | ⟨a, b⟩ | ⟨l, w, r⟩ | ⟨w, d⟩ <;> try rfl
    case node => cases n <;> first | rfl | (expand; cases v1.asWord? <;> finish)
    all_goals (expand; cases v1.asWord? <;> finish)
  case copLeft =>
    cases v3 <;> try rfl
    all_goals (expand; cases v1.asNode <;> cases v2.asNode? <;> finish)
  case foreCoP =>
    cases v1 <;> try rfl
    cases v3 <;> try rfl
    (expand; cases v2.asNode? <;> finish)
  case foreCoPLeft =>
    cases v3 <;> try rfl
    all_goals (expand; cases v1.asNode <;> cases v2.asNode? <;> finish)
  case miEnd =>
    rcases v1 with _ | s | w | n | l | ⟨w, r⟩ | ⟨a, b⟩ | ⟨l, w, r⟩ | ⟨w, d⟩ <;> try rfl
    case node => cases n <;> first | rfl | (expand; cases v2.asNode? <;> cases v3.asWord? <;> finish)
    all_goals (expand; cases v2.asNode? <;> cases v3.asWord? <;> finish)
  case poEnd =>
    rcases v1 with _ | s | w | n | l | ⟨w, r⟩ | ⟨a, b⟩ | ⟨l, w, r⟩ | ⟨w, d⟩ <;> try rfl
    case node => cases n <;> first | rfl | (expand; cases v2.asNode? <;> cases v3.asWord? <;> finish)
    all_goals (expand; cases v2.asNode? <;> cases v3.asWord? <;> finish)
  case moEnd =>
    cases v1 <;> try rfl
    all_goals (expand; cases v2.asNode? <;> cases v3.asWord <;> finish)
  case mo =>
    cases v3 <;> try rfl
    all_goals (expand; cases v1.asWord <;> cases v2.asNode? <;> finish)
  case endParen =>
    cases v1 <;> try rfl
    all_goals (expand; cases v2.asNode? <;> cases v3.asWord <;> finish)
  case paren =>
    cases v3 <;> try rfl
    all_goals (expand; cases v1.asWord <;> cases v2.asNode? <;> finish)
  case endPred k =>
    expand
    cases v1.asNode with
    | none => rfl
    | some x =>
      cases v2.asNode? with
      | none => rfl
      | some m => cases v3.asWord? with
        | none => rfl
        | some na =>
          simp only [Option.map_some, ← respell_modOpt]
          cases modOpt m x <;> simp [mapExcept_ok, mapExcept_error, respellV, respell, respellWO_eq]
  case argRel =>
    expand
    cases v1.asNode with
    | none => rfl
    | some x =>
      cases v2.asNode? with
      | none => rfl
      | some m => cases v3.asNode? with
        | none => rfl
        | some rc =>
          simp only [Option.map_some, ← respell_modOpt]
          cases modOpt m x <;> simp [mapExcept_ok, mapExcept_error, respellV, respell, respellWO_eq, respellO_eq]
          cases rc <;> simp
  case linked =>
    expand
    cases v1.asWord? with
    | none => rfl
    | some g => cases g <;> cases v2.asNode <;> finish
  case addTone =>
    expand
    cases v1.asStr with
    | none => rfl
    | some d => cases v2.asStr with
      | none => rfl
      | some t => cases t with
        | nil => rfl
        | cons t ts =>
          simp only [Option.map_some, List.map_cons]
          cases d with
          | nil => rfl
          | cons c d =>
            simp only [addToneTo, List.map_cons, diacritic0_tone HL, diacritic0_fold HL]
            cases Verif.Tone.diacritic0 t c <;> rfl
  case diacritic t =>
    expand
    cases v1.asStr with
    | none => rfl
    | some d => cases d with
      | nil => rfl
      | cons c d => cases d with
        | nil =>
          simp only [Option.map_some, List.map_cons, List.map_nil, diacritic0_fold HL]
          cases Verif.Tone.diacritic0 t c <;> rfl
        | cons _ _ => rfl
  case dotless =>
    expand
    cases v1.asStr with
    | none => rfl
    | some d =>
      simp only [Option.map_some, mapExcept_ok, rv, respellV]
      have h1 : ¬ d.map (foldBy L) = ['i'] := by
        intro h
        obtain ⟨c, rfl, hc⟩ := List.map_eq_singleton_iff.1 h
        exact fold_ne_i HL c hc
      rw [if_neg h1]
      split
      · rename_i h; subst h; simp only [List.map, HL.dot.2.2, HL.pairs _ HL.dot.1]
      · rfl

end

end Verif.Parse
