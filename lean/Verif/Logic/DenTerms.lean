/-
C56: terms.
-/
import Verif.Logic.DenRoi

namespace Verif.Logic.Den
open Verif.Tone (Str)

/-! ## Terms in a row -/

section
variable {M : Model} {U : Uni} {A : Nat → AST.Node}

theorem branches_append : ∀ ls ts : List AST.Node, branches U (ls ++ ts) = (branches U ls || branches U ts)
  | [], ts => by simp [branches]
  | t :: ls, ts => by simp [branches, branches_append ls ts, Bool.or_assoc]

theorem plTerms_append (ls ts : List AST.Node) : plTerms U (ls ++ ts) = plTerms U ls ++ plTerms U ts := by
  induction ls with
  | nil => simp [plTerms]
  | cons t ls ih =>
    rw [List.cons_append]
    by_cases h1 : ∃ go a, t = .linked go a
    · obtain ⟨go, a, rfl⟩ := h1
      simp [plTerms, ih]
    · by_cases h2 : ∃ a b c ls rs, t = .cop .termSet a b c (.terms ls) (.terms rs)
      · obtain ⟨a, b, c, l, r, rfl⟩ := h2
        simp [plTerms, ih]
      · have e : ∀ ts, plTerms U (t :: ts) = plTerms U ts := by
          intro ts
          rw [plTerms]
          · intro go a h; exact h1 ⟨go, a, h⟩
          · intro a b c l r h; exact h2 ⟨a, b, c, l, r, h⟩
        rw [e, e, ih]

theorem evTerms_append (u : Bool) (rest : List Ev) (ls ts : List AST.Node) :
    evTerms U u rest (ls ++ ts) = evTerms U u (evTerms U u rest ts) ls := by
  induction ls with
  | nil => simp [evTerms]
  | cons t ls ih =>
    rw [List.cons_append]
    by_cases h1 : ∃ go a, t = .linked go a
    · obtain ⟨go, a, rfl⟩ := h1
      simp only [evTerms, ih]
    · by_cases h2 : ∃ a b c ls rs, t = .cop .termSet a b c (.terms ls) (.terms rs)
      · obtain ⟨a, b, c, l, r, rfl⟩ := h2
        simp only [evTerms, ih]
      · have e : ∀ rest ts, evTerms U u rest (t :: ts) = if isPreposition t then evTerms U u rest ts ++ evPrep U t
            else if isAdverb t then evTerms U u rest ts ++ evAdv U t else evArg U u (evTerms U u rest ts) t := by
          intro rest ts
          rw [evTerms]
          · intro go a h; exact h1 ⟨go, a, h⟩
          · intro a b c l r h; exact h2 ⟨a, b, c, l, r, h⟩
        rw [e, e, ih]

theorem dTerms_append (L : Nat → M.D) (k : Env M → List (M.D × Nat) → M.B) (ts ls : List AST.Node) : ∀ env as,
    dTerms U L env as k (ls ++ ts) = dTerms U L env as (fun env as => dTerms U L env as k ts) ls := by
  induction ls with
  | nil => intro env as; simp [dTerms]
  | cons t ls ih =>
    intro env as
    rw [List.cons_append]
    by_cases h1 : ∃ go a, t = .linked go a
    · obtain ⟨go, a, rfl⟩ := h1
      simp only [dTerms, ih]
    · by_cases h2 : ∃ a b c ls rs, t = .cop .termSet a b c (.terms ls) (.terms rs)
      · obtain ⟨a, b, c, l, r, rfl⟩ := h2
        simp only [dTerms, ih]
      · have e : ∀ env as (k : Env M → List (M.D × Nat) → M.B) ts, dTerms U L env as k (t :: ts) =
            if isPreposition t then dPrep U L env (M.absD (dTerms U L env as k ts)) t
            else if isAdverb t then dAdv U L env (M.absD (dTerms U L env as k ts)) t
            else dArg U L env (fun env d => dTerms U L env (as ++ [(d, 0)]) k ts) t := by
          intro env as k ts
          rw [dTerms]
          · intro go a h; exact h1 ⟨go, a, h⟩
          · intro a b c l r h; exact h2 ⟨a, b, c, l, r, h⟩
        rw [e, e, ih]
        simp only [ih]

theorem okTerms_other {t : AST.Node} (h1 : ¬ ∃ go a, t = .linked go a)
    (h2 : ¬ ∃ a b c ls rs, t = .cop .termSet a b c (.terms ls) (.terms rs)) (dep : Dep) (i u b : Bool) (pl : List Nat)
    (rest : List Ev) (k : Dep → Bool → Prop) (ts : List AST.Node) : okTerms U A dep i u b pl rest k (t :: ts) =
      if isPreposition t ∨ isAdverb t then
        i = false ∧ ClosedOr dep (evTerms U u rest ts) ∧
        okTerms U A dep i u b pl rest k ts ∧ if isPreposition t then (branches U ts || b) = false ∧ okPrep U A dep t else okAdv U A dep t
      else (branchA U t = true → (branches U ts || b) = false) ∧
        okArg U A dep (fun dep j => okTerms U A dep (i || j) u b pl rest k ts) t := by
  rw [okTerms]
  · intro go a h; exact h1 ⟨go, a, h⟩
  · intro a b c l r h; exact h2 ⟨a, b, c, l, r, h⟩

theorem okTerms_append (u b : Bool) (pl : List Nat) (rest : List Ev) (k : Dep → Bool → Prop) (ts ls : List AST.Node) : ∀ dep i,
    okTerms U A dep i u b pl rest k (ls ++ ts) =
      okTerms U A dep i u (branches U ts || b) (plTerms U ts ++ pl) (evTerms U u rest ts)
        (fun dep i => okTerms U A dep i u b pl rest k ts) ls := by
  induction ls with
  | nil => intro dep i; simp [okTerms]
  | cons t ls ih =>
    intro dep i
    rw [List.cons_append]
    by_cases h1 : ∃ go a, t = .linked go a
    · obtain ⟨go, a, rfl⟩ := h1
      simp only [okTerms, ih, branches_append, plTerms_append, Bool.or_assoc, List.append_assoc]
    · by_cases h2 : ∃ a b c ls rs, t = .cop .termSet a b c (.terms ls) (.terms rs)
      · obtain ⟨a, b, c, l, r, rfl⟩ := h2
        simp only [okTerms, ih, branches_append, plTerms_append, evTerms_append, Bool.or_assoc, List.append_assoc]
      · rw [okTerms_other h1 h2, okTerms_other h1 h2]
        simp only [ih, branches_append, evTerms_append, Bool.or_assoc]

/-! ## Arguments as terms -/

def IsArg : AST.Node → Prop
  | .predArg .. => True
  | .cop .argument .. => True
  | _ => False

theorem okArg_isArg {dep : Dep} {k : Dep → Bool → Prop} {α : AST.Node} (h : okArg U A dep k α) : IsArg α := by
  unfold okArg at h
  split at h
  · trivial
  · trivial
  · cases h

theorem IsArg.cases {α : AST.Node} (h : IsArg α) : (∃ id fo q p rel, α = .predArg id fo q p rel) ∨
    ∃ t0 t1 ru l r, α = .cop .argument t0 t1 ru l r := by
  unfold IsArg at h
  split at h
  · exact .inl ⟨_, _, _, _, _, rfl⟩
  · exact .inr ⟨_, _, _, _, _, rfl⟩
  · cases h

/-- `t` puts the argument `α` in the place `pos`. -/
inductive Puts (U : Uni) : AST.Node → AST.Node → Nat → Prop
  | bare {α : AST.Node} (h : IsArg α) : Puts U α α 0
  | link {α : AST.Node} (go : AST.Word) : Puts U (.linked go α) α (placeOf U go)

variable {t α : AST.Node} {pos : Nat}

theorem Puts.ev (h : Puts U t α pos) (u : Bool) (rest : List Ev) (ts : List AST.Node) :
    evTerms U u rest (t :: ts) = evArg U u (evTerms U u rest ts) α := by
  cases h with
  | bare h =>
    rcases h.cases with ⟨_, _, _, _, _, rfl⟩ | ⟨_, _, _, _, _, rfl⟩
    · simp [evTerms, isPreposition, isAdverb]
    · simp [evTerms, isPreposition, isAdverb]
  | link go => simp only [evTerms]

theorem Puts.d (h : Puts U t α pos) (L : Nat → M.D) (env : Env M) (as : List (M.D × Nat)) (k : Env M → List (M.D × Nat) → M.B)
    (ts : List AST.Node) : dTerms U L env as k (t :: ts) = dArg U L env (fun env d => dTerms U L env (as ++ [(d, pos)]) k ts) α := by
  cases h with
  | bare h =>
    rcases h.cases with ⟨_, _, _, _, _, rfl⟩ | ⟨_, _, _, _, _, rfl⟩
    · simp [dTerms, isPreposition, isAdverb]
    · simp [dTerms, isPreposition, isAdverb]
  | link go => simp only [dTerms]

theorem Puts.branch (h : Puts U t α pos) : branch U t = branchA U α := by
  cases h with
  | bare h =>
    rcases h.cases with ⟨_, _, _, _, _, rfl⟩ | ⟨_, _, _, _, _, rfl⟩
    · simp [Den.branch]
    · simp [Den.branch]
  | link go => simp only [Den.branch]

theorem Puts.ok (h : Puts U t α pos) (dep : Dep) (i u b : Bool) (pl : List Nat)
    (rest : List Ev) (k : Dep → Bool → Prop) (ts : List AST.Node) : okTerms U A dep i u b pl rest k (t :: ts) ↔
      (branchA U α = true → (branches U ts || b) = false) ∧
      (u = true → pos ≠ 0 ∨ t ≠ α → pos ∉ plTerms U ts ++ pl) ∧
      okArg U A dep (fun dep j => okTerms U A dep (i || j) u b pl rest k ts) α := by
  cases h with
  | bare h =>
    rcases h.cases with ⟨_, _, _, _, _, rfl⟩ | ⟨_, _, _, _, _, rfl⟩
    · simp [okTerms, isPreposition, isAdverb]
    · simp [okTerms, isPreposition, isAdverb]
  | link go =>
    have : AST.Node.linked go α ≠ α := by
      intro h
      have := congrArg sizeOf h
      simp at this
    simp [okTerms, this]

theorem Puts.pl (h : Puts U t α pos) {Z : Args} {n : Node} {pl : List Nat} (ts : List AST.Node) (hp : PlOk Z (plTerms U (t :: ts) ++ pl))
    (hn : pos ≠ 0 ∨ t ≠ α → pos ∉ plTerms U ts ++ pl) : PlOk (Z ++ [(n, pos)]) (plTerms U ts ++ pl) := by
  cases h with
  | bare h =>
    have : plTerms U (t :: ts) = plTerms U ts := by
      rcases h.cases with ⟨_, _, _, _, _, rfl⟩ | ⟨_, _, _, _, _, rfl⟩
      · simp [plTerms]
      · simp [plTerms]
    rw [this] at hp
    exact hp.snoc fun h => absurd rfl h
  | link go =>
    have hne : AST.Node.linked go α ≠ α := by
      intro h
      have := congrArg sizeOf h
      simp at this
    rw [plTerms, List.cons_append] at hp
    exact hp.link (hn (.inr hne))

theorem evArg_binds {x : Str} (h : bindsA U α = some x) (u u' : Bool) (E : List Ev) : evArg U u E α = evArg U u' E α := by
  unfold bindsA at h
  split at h
  · next id fo quant p rel =>
    split at h
    · next y hf =>
      split at h
      · next hq => simp only [evArg, hf, hq, if_true]
      · cases h
    · cases h
  · cases h

end

end Verif.Logic.Den
