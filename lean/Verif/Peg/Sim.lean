/-
Two texts that every terminal of a grammar treats alike are parsed alike.

`R p p'` relates offsets of the two texts. If related offsets have runes that no terminal of the
grammar tells apart, and skipping these runes leads to related offsets, then every pass of a generated
parser does the same on both texts, up to `R` and up to what the actions make of the runes.
-/
import Verif.Peg.ExprProps

namespace Verif.Peg

variable {F : Type} (U : Uni) (G : Gram F) (I I' : Input)

/-- Whether a terminal takes a rune: 0 no, 1 yes, 2 no, but the rune is read first. -/
def takes (t : Term) (c : Char) : Nat := match t with
  | .cls cs => if cs.contains c then 1 else 0
  | .lit d => if c = d then 1 else 0
  | .any => if c ≠ bad then 1 else 0
  | .punct => if c ≠ bad then (if U.punct c then 1 else 2) else 0

theorem tm_takes (t : Term) (p : Nat) : tm U I t p = match I.rune p with
    | none => .inr p
    | some (c, w) => match takes U t c with
      | 0 => .inr p
      | 1 => .inl (p + w)
      | _ => .inr (p + w) := by
  cases t <;> simp only [tm, takes] <;> cases I.rune p with
    | none => rfl
    | some v => rcases v with ⟨c, w⟩; simp only; repeat' split <;> simp_all

/-- All terminals of an expression satisfy `P`. -/
def terms (P : Term → Prop) : Expr F → Prop
  | .term t => P t
  | .ref _ => True
  | .seq a b | .alt a b => terms P a ∧ terms P b
  | .opt a | .plus a | .star a | .not a | .and a | .lab a | .grp a | .act _ a => terms P a

/-- Related offsets: the terminals in `P` do not tell the runes apart. -/
structure Sim (P : Term → Prop) (C : Char → Char → Prop) (R : Nat → Nat → Prop) : Prop where
  mono : ∀ p p' q q', R p p' → R q q' → (p ≤ q ↔ p' ≤ q')
  rune : ∀ p p', R p p' → match I.rune p, I'.rune p' with
    | none, none => True
    | some (c, w), some (c', w') => C c c' ∧ R (p + w) (p' + w')
    | _, _ => False
  takes : ∀ t c c', P t → C c c' → takes U t c = takes U t c'

variable {U I I'}

section
variable {P : Term → Prop} {C : Char → Char → Prop} {R : Nat → Nat → Prop}

/-- Related values of `perr + 1`. -/
def RE (R : Nat → Nat → Prop) (e e' : Nat) : Prop := (e = 0 ∧ e' = 0) ∨ ∃ p p', R p p' ∧ e = p + 1 ∧ e' = p' + 1

theorem RE.max (S : Sim U I I' P C R) {a a' b b' : Nat} (h : RE R a a') (h' : RE R b b') : RE R (max a b) (max a' b') := by
  rcases h with ⟨rfl, rfl⟩ | ⟨p, p', hp, rfl, rfl⟩
  · simpa using h'
  · rcases h' with ⟨rfl, rfl⟩ | ⟨q, q', hq, rfl, rfl⟩
    · rw [Nat.max_eq_left (Nat.zero_le _), Nat.max_eq_left (Nat.zero_le _)]
      exact Or.inr ⟨p, p', hp, rfl, rfl⟩
    · have := S.mono _ _ _ _ hp hq
      by_cases hle : p ≤ q
      · have := this.1 hle
        exact Or.inr ⟨q, q', hq, by omega, by omega⟩
      · have hn : ¬ p' ≤ q' := fun h => hle (this.2 h)
        exact Or.inr ⟨p, p', hp, by omega, by omega⟩

/-- Related results of the Accepts functions. -/
inductive RA (R : Nat → Nat → Prop) : Option (Option Nat × Nat) → Option (Option Nat × Nat) → Prop
  | none : RA R none none
  | fail {e e'} : RE R e e' → RA R (some (none, e)) (some (none, e'))
  | ok {q q' e e'} : R q q' → RE R e e' → RA R (some (some q, e)) (some (some q', e'))

/-- Related results of a terminal. -/
inductive RT (C : Char → Char → Prop) (R : Nat → Nat → Prop) (p p' : Nat) : Nat ⊕ Nat → Nat ⊕ Nat → Prop
  | inl {c c' w w'} : I.rune p = some (c, w) → I'.rune p' = some (c', w') → C c c' → R (p + w) (p' + w') →
      RT C R p p' (.inl (p + w)) (.inl (p' + w'))
  | inr {x x'} : R x x' → RT C R p p' (.inr x) (.inr x')

theorem tm_sim (S : Sim U I I' P C R) {t : Term} (ht : P t) {p p' : Nat} (h : R p p') :
    RT (I := I) (I' := I') C R p p' (tm U I t p) (tm U I' t p') := by
  have hr := S.rune _ _ h
  rw [tm_takes, tm_takes]
  revert hr
  cases h1 : I.rune p with
  | none => cases h2 : I'.rune p' with
    | none => intro _; exact .inr h
    | some v => intro hr; exact hr.elim
  | some v => cases h2 : I'.rune p' with
    | none => intro hr; rcases v with ⟨c, w⟩; exact hr.elim
    | some v' =>
      rcases v with ⟨c, w⟩; rcases v' with ⟨c', w'⟩
      rintro ⟨hc, hw⟩
      simp only
      rw [S.takes t c c' ht hc]
      generalize Verif.Peg.takes U t c' = k
      match k with
      | 0 => exact .inr h
      | 1 => exact .inl h1 h2 hc hw
      | _ + 2 => exact .inr hw

theorem acc_sim (S : Sim U I I' P C R) (HG : ∀ r, terms P (G.body r)) : ∀ n e p p' err err', terms P e → R p p' → RE R err err' →
    RA R (acc U G I n e p err) (acc U G I' n e p' err') := by
  intro n
  induction n with
  | zero => intros; exact .none
  | succ n ih =>
    intro e p p' err err' he h hE
    rw [acc_s, acc_s]
    have hp1 : RE R (p + 1) (p' + 1) := Or.inr ⟨p, p', h, rfl, rfl⟩
    cases e with
    | term t =>
      simp only [accStep]
      have ht := tm_sim S he h
      generalize tm U I t p = x at ht ⊢
      generalize tm U I' t p' = x' at ht ⊢
      cases ht with
      | inl _ _ _ hw => exact .ok hw hE
      | inr hx => exact .fail (hE.max S (Or.inr ⟨_, _, hx, rfl, rfl⟩))
    | ref k =>
      simp only [accStep]
      generalize hx : acc U G I n (G.body k) p 0 = x
      generalize hx' : acc U G I' n (G.body k) p' 0 = x'
      have := ih _ _ _ 0 0 (HG k) h (Or.inl ⟨rfl, rfl⟩)
      rw [hx, hx'] at this
      cases this with
      | none => exact .none
      | fail he => exact .fail (hE.max S he)
      | ok hq he => exact .ok hq (hE.max S (by split <;> assumption))
    | seq a b =>
      simp only [accStep]
      generalize hx : acc U G I n a p err = x
      generalize hx' : acc U G I' n a p' err' = x'
      have := ih _ _ _ _ _ he.1 h hE
      rw [hx, hx'] at this
      cases this with
      | none => exact .none
      | fail he => exact .fail he
      | ok hq hE' => exact ih _ _ _ _ _ he.2 hq hE'
    | alt a b =>
      simp only [accStep]
      generalize hx : acc U G I n a p err = x
      generalize hx' : acc U G I' n a p' err' = x'
      have := ih _ _ _ _ _ he.1 h hE
      rw [hx, hx'] at this
      cases this with
      | none => exact .none
      | fail hE' => exact ih _ _ _ _ _ he.2 h hE'
      | ok hq hE' => exact .ok hq hE'
    | opt a =>
      simp only [accStep]
      generalize hx : acc U G I n a p err = x
      generalize hx' : acc U G I' n a p' err' = x'
      have := ih a _ _ _ _ he h hE
      rw [hx, hx'] at this
      cases this with
      | none => exact .none
      | fail hE' => exact .ok h hE'
      | ok hq hE' => exact .ok hq hE'
    | plus a =>
      simp only [accStep]
      generalize hx : acc U G I n a p err = x
      generalize hx' : acc U G I' n a p' err' = x'
      have := ih a _ _ _ _ he h hE
      rw [hx, hx'] at this
      cases this with
      | none => exact .none
      | fail hE' => exact .fail hE'
      | ok hq hE' => exact ih (.star a) _ _ _ _ he hq hE'
    | star a =>
      simp only [accStep]
      generalize hx : acc U G I n a p err = x
      generalize hx' : acc U G I' n a p' err' = x'
      have := ih a _ _ _ _ he h hE
      rw [hx, hx'] at this
      cases this with
      | none => exact .none
      | fail hE' => exact .ok h hE'
      | ok hq hE' => exact ih (.star a) _ _ _ _ he hq hE'
    | not a =>
      simp only [accStep]
      generalize hx : acc U G I n a p err = x
      generalize hx' : acc U G I' n a p' err' = x'
      have := ih a _ _ _ _ he h hE
      rw [hx, hx'] at this
      cases this with
      | none => exact .none
      | fail hE' => exact .ok h hE
      | ok hq hE' => exact .fail (hE.max S hp1)
    | and a =>
      simp only [accStep]
      generalize hx : acc U G I n a p err = x
      generalize hx' : acc U G I' n a p' err' = x'
      have := ih a _ _ _ _ he h hE
      rw [hx, hx'] at this
      cases this with
      | none => exact .none
      | fail hE' => exact .fail (hE.max S hp1)
      | ok hq hE' => exact .ok h hE
    | lab a => exact ih a _ _ _ _ he h hE
    | grp a => exact ih a _ _ _ _ he h hE
    | act f a => exact ih a _ _ _ _ he h hE

end

section
variable {E E' : Type} (A : Alg F E) (A' : Alg F E') (P : Term → Prop) (C : Char → Char → Prop) (R : Nat → Nat → Prop)
  (Q : A.X → A'.X → Prop)

/-- The operations of two passes preserve a relation of their values. -/
structure AlgSim (I I' : Input) : Prop where
  leaf : ∀ p p' c c' w w', I.rune p = some (c, w) → I'.rune p' = some (c', w') → C c c' → R p p' → R (p + w) (p' + w') →
    Q (A.leaf p (p + w)) (A'.leaf p' (p' + w'))
  nil : Q A.nil A'.nil
  seq : ∀ x x' y y', Q x x' → Q y y' → Q (A.seq x y) (A'.seq x' y')
  rep0 : Q A.rep0 A'.rep0
  rep : ∀ x x' y y', Q x x' → Q y y' → Q (A.rep x y) (A'.rep x' y')
  lab : ∀ x x', Q x x' → Q (A.lab x) (A'.lab x')
  grp : ∀ p p' q q' x x', R p p' → R q q' → Q x x' → Q (A.grp p q x) (A'.grp p' q' x')
  act : ∀ f p p' q q' x x', R p p' → R q q' → Q x x' → match A.act f p q x, A'.act f p' q' x' with
    | .ok y, .ok y' => Q y y'
    | .error _, .error _ => True
    | _, _ => False
  rule : ∀ r p p' q q' x x', R p p' → R q q' → Q x x' → Q (A.rule r p q x) (A'.rule r p' q' x')

/-- Related results of the Node and Action functions. -/
inductive RV : Option (Res E A.X) → Option (Res E' A'.X) → Prop
  | none : RV none none
  | fail : RV (some .fail) (some .fail)
  | panic {e e'} : RV (some (.panic e)) (some (.panic e'))
  | ok {q q' x x'} : R q q' → Q x x' → RV (some (.ok q x)) (some (.ok q' x'))

variable {A A' P C R Q}

theorem ev_sim (S : Sim U I I' P C R) (HG : ∀ r, terms P (G.body r)) (HA : AlgSim A A' C R Q I I') : ∀ n e p p', terms P e → R p p' →
    RV A A' R Q (ev U G I A n e p) (ev U G I' A' n e p') := by
  intro n
  induction n with
  | zero => intros; exact .none
  | succ n ih =>
    intro e p p' he h
    rw [ev_s, ev_s]
    cases e with
    | term t =>
      simp only [evStep]
      have ht := tm_sim S he h
      generalize tm U I t p = x at ht ⊢
      generalize tm U I' t p' = x' at ht ⊢
      cases ht with
      | inl h1 h2 hc hw => exact .ok hw (HA.leaf _ _ _ _ _ _ h1 h2 hc h hw)
      | inr hx => exact .fail
    | ref k =>
      simp only [evStep]
      generalize hx : acc U G I n (G.body k) p 0 = x
      generalize hx' : acc U G I' n (G.body k) p' 0 = x'
      have := acc_sim G S HG n _ _ _ 0 0 (HG k) h (Or.inl ⟨rfl, rfl⟩)
      rw [hx, hx'] at this
      cases this with
      | none => exact .none
      | fail he => exact .fail
      | ok hq _ =>
        simp only
        generalize hy : ev U G I A n (G.body k) p = y
        generalize hy' : ev U G I' A' n (G.body k) p' = y'
        have := ih _ _ _ (HG k) h
        rw [hy, hy'] at this
        cases this with
        | none => exact .none
        | fail => exact .fail
        | panic => exact .panic
        | ok hq hv => exact .ok hq (HA.rule _ _ _ _ _ _ _ h hq hv)
    | seq a b =>
      simp only [evStep]
      generalize hx : ev U G I A n a p = x
      generalize hx' : ev U G I' A' n a p' = x'
      have := ih _ _ _ he.1 h
      rw [hx, hx'] at this
      cases this with
      | none => exact .none
      | fail => exact .fail
      | panic => exact .panic
      | @ok q q' _ _ hq hv =>
        simp only
        generalize hy : ev U G I A n b q = y
        generalize hy' : ev U G I' A' n b q' = y'
        have := ih _ _ _ he.2 hq
        rw [hy, hy'] at this
        cases this with
        | none => exact .none
        | fail => exact .fail
        | panic => exact .panic
        | ok hq' hz => exact .ok hq' (HA.seq _ _ _ _ hv hz)
    | alt a b =>
      simp only [evStep]
      generalize hx : ev U G I A n a p = x
      generalize hx' : ev U G I' A' n a p' = x'
      have := ih _ _ _ he.1 h
      rw [hx, hx'] at this
      cases this with
      | none => exact .none
      | fail => exact ih _ _ _ he.2 h
      | panic => exact .panic
      | ok hq hv => exact .ok hq hv
    | opt a =>
      simp only [evStep]
      generalize hx : ev U G I A n a p = x
      generalize hx' : ev U G I' A' n a p' = x'
      have := ih a _ _ he h
      rw [hx, hx'] at this
      cases this with
      | none => exact .none
      | fail => exact .ok h HA.nil
      | panic => exact .panic
      | ok hq hv => exact .ok hq hv
    | plus a =>
      simp only [evStep]
      generalize hx : ev U G I A n a p = x
      generalize hx' : ev U G I' A' n a p' = x'
      have := ih a _ _ he h
      rw [hx, hx'] at this
      cases this with
      | none => exact .none
      | fail => exact .fail
      | panic => exact .panic
      | @ok q q' _ _ hq hv =>
        simp only
        generalize hy : ev U G I A n (.star a) q = y
        generalize hy' : ev U G I' A' n (.star a) q' = y'
        have := ih (.star a) _ _ he hq
        rw [hy, hy'] at this
        cases this with
        | none => exact .none
        | fail => exact .fail
        | panic => exact .panic
        | ok hq' hz => exact .ok hq' (HA.rep _ _ _ _ hv hz)
    | star a =>
      simp only [evStep]
      generalize hx : ev U G I A n a p = x
      generalize hx' : ev U G I' A' n a p' = x'
      have := ih a _ _ he h
      rw [hx, hx'] at this
      cases this with
      | none => exact .none
      | fail => exact .ok h HA.rep0
      | panic => exact .panic
      | @ok q q' _ _ hq hv =>
        simp only
        generalize hy : ev U G I A n (.star a) q = y
        generalize hy' : ev U G I' A' n (.star a) q' = y'
        have := ih (.star a) _ _ he hq
        rw [hy, hy'] at this
        cases this with
        | none => exact .none
        | fail => exact .fail
        | panic => exact .panic
        | ok hq' hz => exact .ok hq' (HA.rep _ _ _ _ hv hz)
    | not a =>
      simp only [evStep]
      generalize hx : ev U G I A n a p = x
      generalize hx' : ev U G I' A' n a p' = x'
      have := ih a _ _ he h
      rw [hx, hx'] at this
      cases this with
      | none => exact .none
      | fail => exact .ok h HA.nil
      | panic => exact .panic
      | ok hq hv => exact .fail
    | and a =>
      simp only [evStep]
      generalize hx : ev U G I A n a p = x
      generalize hx' : ev U G I' A' n a p' = x'
      have := ih a _ _ he h
      rw [hx, hx'] at this
      cases this with
      | none => exact .none
      | fail => exact .fail
      | panic => exact .panic
      | ok hq hv => exact .ok h HA.nil
    | lab a =>
      simp only [evStep]
      generalize hx : ev U G I A n a p = x
      generalize hx' : ev U G I' A' n a p' = x'
      have := ih a _ _ he h
      rw [hx, hx'] at this
      cases this with
      | none => exact .none
      | fail => exact .fail
      | panic => exact .panic
      | ok hq hv => exact .ok hq (HA.lab _ _ hv)
    | grp a =>
      simp only [evStep]
      generalize hx : ev U G I A n a p = x
      generalize hx' : ev U G I' A' n a p' = x'
      have := ih a _ _ he h
      rw [hx, hx'] at this
      cases this with
      | none => exact .none
      | fail => exact .fail
      | panic => exact .panic
      | ok hq hv => exact .ok hq (HA.grp _ _ _ _ _ _ h hq hv)
    | act f a =>
      simp only [evStep]
      generalize hx : ev U G I A n a p = x
      generalize hx' : ev U G I' A' n a p' = x'
      have := ih a _ _ he h
      rw [hx, hx'] at this
      cases this with
      | none => exact .none
      | fail => exact .fail
      | panic => exact .panic
      | @ok q q' x x' hq hv =>
        have ha := HA.act f _ _ _ _ _ _ h hq hv
        simp only
        revert ha
        cases A.act f p q x with
        | ok y => cases A'.act f p' q' x' with
          | ok y' => intro ha; exact .ok hq ha
          | error e => intro ha; exact ha.elim
        | error e => cases A'.act f p' q' x' with
          | ok y' => intro ha; exact ha.elim
          | error e => intro _; exact .panic

end

end Verif.Peg
