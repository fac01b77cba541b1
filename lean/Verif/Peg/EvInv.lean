/-
Invariants of the values that the Node and Action functions compute.
-/
import Verif.Peg.ExprProps

namespace Verif.Peg

variable {F E : Type} (U : Uni) (G : Gram F) (I : Input) (A : Alg F E)

/-- The terminals and the rules called satisfy the given conditions. -/
def chk (T : Term → Bool) (R : Nat → Bool) : Expr F → Bool
  | .term t => T t
  | .ref r => R r
  | .seq a b => chk T R a && chk T R b
  | .alt a b => chk T R a && chk T R b
  | .plus a => chk T R a
  | .star a => chk T R a
  | .opt a => chk T R a
  | .not a => chk T R a
  | .and a => chk T R a
  | .lab a => chk T R a
  | .grp a => chk T R a
  | .act _ a => chk T R a

/-- A property of the values from one offset to another that all operations keep. -/
structure Kept (T : Term → Bool) (R : Nat → Bool) (P : Nat → Nat → A.X → Prop) : Prop where
  leaf : ∀ {t p q}, T t = true → tm U I t p = .inl q → P p q (A.leaf p q)
  nil : ∀ p, P p p A.nil
  seq : ∀ {p q r x y}, P p q x → P q r y → P p r (A.seq x y)
  rep0 : ∀ p, P p p A.rep0
  rep : ∀ {p q r x y}, P p q x → P q r y → P p r (A.rep x y)
  lab : ∀ {p q x}, P p q x → P p q (A.lab x)
  grp : ∀ {p q x}, P p q x → P p q (A.grp p q x)
  act : ∀ {f p q x y}, P p q x → A.act f p q x = .ok y → P p q y
  rule : ∀ {r p q x}, R r = true → P p q x → P p q (A.rule r p q x)

theorem ev_kept {T : Term → Bool} {R : Nat → Bool} {P : Nat → Nat → A.X → Prop} (K : Kept U I A T R P)
    (HG : ∀ r, chk T R (G.body r) = true) : ∀ n e p q x, chk T R e = true → ev U G I A n e p = some (.ok q x) → P p q x := by
  intro n
  induction n with
  | zero => intro e p q x _ h; rw [ev_0] at h; cases h
  | succ n ih =>
    intro e p q x he h
    rw [ev_s] at h
    cases e with
    | term t =>
      simp only [evStep] at h
      cases ht : tm U I t p with
      | inl q' =>
        rw [ht] at h
        simp only [Option.some.injEq, Res.ok.injEq] at h
        obtain ⟨rfl, rfl⟩ := h
        exact K.leaf he ht
      | inr x => rw [ht] at h; cases h
    | ref r =>
      simp only [evStep] at h
      cases hac : acc U G I n (G.body r) p 0 with
      | none => rw [hac] at h; cases h
      | some v =>
        rw [hac] at h
        rcases v with ⟨_ | q', e'⟩
        · cases h
        · simp only at h
          cases hx : ev U G I A n (G.body r) p with
          | none => rw [hx] at h; cases h
          | some v =>
            rw [hx] at h
            cases v with
            | ok q' y =>
              simp only [Option.some.injEq, Res.ok.injEq] at h
              obtain ⟨rfl, rfl⟩ := h
              exact K.rule he (ih _ _ _ _ (HG r) hx)
            | fail => cases h
            | panic e => cases h
    | seq a b =>
      simp only [chk, Bool.and_eq_true] at he
      simp only [evStep] at h
      cases hx : ev U G I A n a p with
      | none => rw [hx] at h; cases h
      | some v =>
        rw [hx] at h
        cases v with
        | fail => cases h
        | panic e => cases h
        | ok m y =>
          simp only at h
          cases hy : ev U G I A n b m with
          | none => rw [hy] at h; cases h
          | some v =>
            rw [hy] at h
            cases v with
            | fail => cases h
            | panic e => cases h
            | ok m' y' =>
              simp only [Option.some.injEq, Res.ok.injEq] at h
              obtain ⟨rfl, rfl⟩ := h
              exact K.seq (ih _ _ _ _ he.1 hx) (ih _ _ _ _ he.2 hy)
    | alt a b =>
      simp only [chk, Bool.and_eq_true] at he
      simp only [evStep] at h
      cases hx : ev U G I A n a p with
      | none => rw [hx] at h; cases h
      | some v =>
        rw [hx] at h
        cases v with
        | fail => exact ih _ _ _ _ he.2 h
        | panic e => cases h
        | ok m y => exact ih _ _ _ _ he.1 (hx.trans h)
    | opt a =>
      simp only [evStep] at h
      cases hx : ev U G I A n a p with
      | none => rw [hx] at h; cases h
      | some v =>
        rw [hx] at h
        cases v with
        | fail =>
          simp only [Option.some.injEq, Res.ok.injEq] at h
          obtain ⟨rfl, rfl⟩ := h
          exact K.nil p
        | panic e => cases h
        | ok m y => exact ih a _ _ _ he (hx.trans h)
    | plus a =>
      simp only [evStep] at h
      cases hx : ev U G I A n a p with
      | none => rw [hx] at h; cases h
      | some v =>
        rw [hx] at h
        cases v with
        | fail => cases h
        | panic e => cases h
        | ok m y =>
          simp only at h
          cases hy : ev U G I A n (.star a) m with
          | none => rw [hy] at h; cases h
          | some v =>
            rw [hy] at h
            cases v with
            | fail => cases h
            | panic e => cases h
            | ok m' y' =>
              simp only [Option.some.injEq, Res.ok.injEq] at h
              obtain ⟨rfl, rfl⟩ := h
              exact K.rep (ih a _ _ _ he hx) (ih (.star a) _ _ _ he hy)
    | star a =>
      simp only [evStep] at h
      cases hx : ev U G I A n a p with
      | none => rw [hx] at h; cases h
      | some v =>
        rw [hx] at h
        cases v with
        | fail =>
          simp only [Option.some.injEq, Res.ok.injEq] at h
          obtain ⟨rfl, rfl⟩ := h
          exact K.rep0 p
        | panic e => cases h
        | ok m y =>
          simp only at h
          cases hy : ev U G I A n (.star a) m with
          | none => rw [hy] at h; cases h
          | some v =>
            rw [hy] at h
            cases v with
            | fail => cases h
            | panic e => cases h
            | ok m' y' =>
              simp only [Option.some.injEq, Res.ok.injEq] at h
              obtain ⟨rfl, rfl⟩ := h
              exact K.rep (ih a _ _ _ he hx) (ih (.star a) _ _ _ he hy)
    | not a =>
      simp only [evStep] at h
      cases hx : ev U G I A n a p with
      | none => rw [hx] at h; cases h
      | some v =>
        rw [hx] at h
        cases v with
        | fail =>
          simp only [Option.some.injEq, Res.ok.injEq] at h
          obtain ⟨rfl, rfl⟩ := h
          exact K.nil p
        | panic e => cases h
        | ok m y => cases h
    | and a =>
      simp only [evStep] at h
      cases hx : ev U G I A n a p with
      | none => rw [hx] at h; cases h
      | some v =>
        rw [hx] at h
        cases v with
        | fail => cases h
        | panic e => cases h
        | ok m y =>
          simp only [Option.some.injEq, Res.ok.injEq] at h
          obtain ⟨rfl, rfl⟩ := h
          exact K.nil p
    | lab a =>
      simp only [evStep] at h
      cases hx : ev U G I A n a p with
      | none => rw [hx] at h; cases h
      | some v =>
        rw [hx] at h
        cases v with
        | fail => cases h
        | panic e => cases h
        | ok m y =>
          simp only [Option.some.injEq, Res.ok.injEq] at h
          obtain ⟨rfl, rfl⟩ := h
          exact K.lab (ih a _ _ _ he hx)
    | grp a =>
      simp only [evStep] at h
      cases hx : ev U G I A n a p with
      | none => rw [hx] at h; cases h
      | some v =>
        rw [hx] at h
        cases v with
        | fail => cases h
        | panic e => cases h
        | ok m y =>
          simp only [Option.some.injEq, Res.ok.injEq] at h
          obtain ⟨rfl, rfl⟩ := h
          exact K.grp (ih a _ _ _ he hx)
    | act f a =>
      simp only [evStep] at h
      cases hx : ev U G I A n a p with
      | none => rw [hx] at h; cases h
      | some v =>
        rw [hx] at h
        cases v with
        | fail => cases h
        | panic e => cases h
        | ok m y =>
          simp only at h
          cases ha : A.act f p m y with
          | error e => rw [ha] at h; cases h
          | ok z =>
            rw [ha] at h
            simp only [Option.some.injEq, Res.ok.injEq] at h
            obtain ⟨rfl, rfl⟩ := h
            exact K.act (ih a _ _ _ he hx) ha

end Verif.Peg
