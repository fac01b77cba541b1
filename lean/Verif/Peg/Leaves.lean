/-
Two texts that a grammar treats alike down to some expressions are parsed alike.

In contrast to `Sim`, the texts need not agree rune by rune. Some expressions, the leaves, are only known
to have the same outcome on both texts.
-/
import Verif.Peg.Runs
import Verif.Peg.Sim

namespace Verif.Peg

variable {F E E' : Type}

/-- All terminals of an expression, outside of leaves, are in `P`, and all references in `K`. -/
def leafy (lf : Expr F → Bool) (P : Term → Bool) (K : Nat → Bool) : Expr F → Bool
  | .term t => P t
  | .ref r => lf (.ref r) || K r
  | .seq a b => lf (.seq a b) || (leafy lf P K a && leafy lf P K b)
  | .alt a b => leafy lf P K a && leafy lf P K b
  | .not a => lf (.not a) || leafy lf P K a
  | .and a => lf (.and a) || leafy lf P K a
  | .opt a | .plus a | .star a | .lab a | .grp a | .act _ a => leafy lf P K a

/-- Leaves and terminals have the same outcome at related offsets. -/
structure LeafSim (U : Uni) (G : Gram F) (I I' : Input) (A : Alg F E) (A' : Alg F E') (lf : Expr F → Bool) (P : Term → Bool)
    (K : Nat → Bool) (R : Nat → Nat → Prop) (Q : A.X → A'.X → Prop) : Prop where
  leaf : ∀ e p p', lf e = true → R p p' →
    (∃ q q' x x', EvOk U G I A e p q x ∧ EvOk U G I' A' e p' q' x' ∧ R q q' ∧ Q x x') ∨ (EvFail U G I A e p ∧ EvFail U G I' A' e p')
  term : ∀ t p p', P t = true → R p p' →
    (∃ q q', tm U I t p = .inl q ∧ tm U I' t p' = .inl q' ∧ R q q' ∧ Q (A.leaf p q) (A'.leaf p' q')) ∨
      (∃ z z', tm U I t p = .inr z ∧ tm U I' t p' = .inr z')
  rules : ∀ r, K r = true → leafy lf P K (G.body r) = true
  alg : AlgSim A A' (fun _ _ => False) R Q I I'

variable {U : Uni} {G : Gram F} {I I' : Input} {A : Alg F E} {A' : Alg F E'} {lf : Expr F → Bool} {P : Term → Bool}
  {K : Nat → Bool} {R : Nat → Nat → Prop} {Q : A.X → A'.X → Prop}

/-- Related results of the Accepts functions. -/
inductive ROpt (R : Nat → Nat → Prop) : Option Nat → Option Nat → Prop
  | none : ROpt R none none
  | some {q q'} : R q q' → ROpt R (some q) (some q')

theorem leaf_acc (S : LeafSim U G I I' A A' lf P K R Q) {e : Expr F} (he : lf e = true) {p p' : Nat} (h : R p p')
    {o o' : Option Nat} (h1 : Recog U G I e p o) (h2 : Recog U G I' e p' o') : ROpt R o o' := by
  rcases S.leaf e p p' he h with ⟨q, q', x, x', h3, h4, hq, _⟩ | ⟨h3, h4⟩
  · rw [h1.det _ _ _ h3.recog, h2.det _ _ _ h4.recog]; exact .some hq
  · rw [h1.det _ _ _ h3.recog, h2.det _ _ _ h4.recog]; exact .none

theorem leaf_ev (S : LeafSim U G I I' A A' lf P K R Q) {e : Expr F} (he : lf e = true) {p p' : Nat} (h : R p p')
    {n : Nat} {v v'} (h1 : ev U G I A n e p = some v) (h2 : ev U G I' A' n e p' = some v') : RV A A' R Q (some v) (some v') := by
  rcases S.leaf e p p' he h with ⟨q, q', x, x', ⟨k, h3⟩, ⟨k', h4⟩, hq, hx⟩ | ⟨⟨k, h3⟩, ⟨k', h4⟩⟩
  · rw [ev_det U G I A h1 h3, ev_det U G I' A' h2 h4]; exact .ok hq hx
  · rw [ev_det U G I A h1 h3, ev_det U G I' A' h2 h4]; exact .fail

theorem acc_leaves (S : LeafSim U G I I' A A' lf P K R Q) : ∀ n e p p' err err' o o' x x', leafy lf P K e = true → R p p' →
    acc U G I n e p err = some (o, x) → acc U G I' n e p' err' = some (o', x') → ROpt R o o' := by
  intro n
  induction n with
  | zero => intro e p p' err err' o o' x x' _ _ h1; cases h1
  | succ n ih =>
    intro e p p' err err' o o' x x' he h h1 h2
    have leaf : lf e = true → ROpt R o o' := fun hl => leaf_acc S hl h ⟨_, _, _, h1⟩ ⟨_, _, _, h2⟩
    rw [acc_s] at h1 h2
    cases e with
    | term t =>
      simp only [accStep] at h1 h2
      rcases S.term t p p' he h with ⟨q, q', h3, h4, hq, _⟩ | ⟨z, z', h3, h4⟩
      · rw [h3] at h1; rw [h4] at h2
        simp only [Option.some.injEq, Prod.mk.injEq] at h1 h2
        rw [← h1.1, ← h2.1]; exact .some hq
      · rw [h3] at h1; rw [h4] at h2
        simp only [Option.some.injEq, Prod.mk.injEq] at h1 h2
        rw [← h1.1, ← h2.1]; exact .none
    | ref k =>
      simp only [leafy, Bool.or_eq_true] at he
      rcases he with he | he
      · exact leaf he
      · simp only [accStep] at h1 h2
        cases hx : acc U G I n (G.body k) p 0 with
        | none => rw [hx] at h1; cases h1
        | some y => cases hx' : acc U G I' n (G.body k) p' 0 with
          | none => rw [hx'] at h2; cases h2
          | some y' =>
            rcases y with ⟨y, ye⟩; rcases y' with ⟨y', ye'⟩
            have := ih _ _ _ _ _ _ _ _ _ (S.rules k he) h hx hx'
            rw [hx] at h1; rw [hx'] at h2
            cases this with
            | none =>
              simp only [Option.some.injEq, Prod.mk.injEq] at h1 h2
              rw [← h1.1, ← h2.1]; exact .none
            | some hq =>
              simp only [Option.some.injEq, Prod.mk.injEq] at h1 h2
              rw [← h1.1, ← h2.1]; exact .some hq
    | seq a b =>
      simp only [leafy, Bool.or_eq_true, Bool.and_eq_true] at he
      rcases he with he | he
      · exact leaf he
      · simp only [accStep] at h1 h2
        cases hx : acc U G I n a p err with
        | none => rw [hx] at h1; cases h1
        | some y => cases hx' : acc U G I' n a p' err' with
          | none => rw [hx'] at h2; cases h2
          | some y' =>
            rcases y with ⟨y, ye⟩; rcases y' with ⟨y', ye'⟩
            have := ih _ _ _ _ _ _ _ _ _ he.1 h hx hx'
            rw [hx] at h1; rw [hx'] at h2
            cases this with
            | none =>
              simp only [Option.some.injEq, Prod.mk.injEq] at h1 h2
              rw [← h1.1, ← h2.1]; exact .none
            | some hq =>
              exact ih _ _ _ _ _ _ _ _ _ he.2 hq h1 h2
    | alt a b =>
      simp only [leafy, Bool.and_eq_true] at he
      · simp only [accStep] at h1 h2
        cases hx : acc U G I n a p err with
        | none => rw [hx] at h1; cases h1
        | some y => cases hx' : acc U G I' n a p' err' with
          | none => rw [hx'] at h2; cases h2
          | some y' =>
            rcases y with ⟨y, ye⟩; rcases y' with ⟨y', ye'⟩
            have := ih _ _ _ _ _ _ _ _ _ he.1 h hx hx'
            rw [hx] at h1; rw [hx'] at h2
            cases this with
            | none =>
              exact ih _ _ _ _ _ _ _ _ _ he.2 h h1 h2
            | some hq =>
              simp only [Option.some.injEq, Prod.mk.injEq] at h1 h2
              rw [← h1.1, ← h2.1]; exact .some hq
    | opt a =>
      · simp only [leafy] at he
        simp only [accStep] at h1 h2
        cases hx : acc U G I n a p err with
        | none => rw [hx] at h1; cases h1
        | some y => cases hx' : acc U G I' n a p' err' with
          | none => rw [hx'] at h2; cases h2
          | some y' =>
            rcases y with ⟨y, ye⟩; rcases y' with ⟨y', ye'⟩
            have := ih _ _ _ _ _ _ _ _ _ he h hx hx'
            rw [hx] at h1; rw [hx'] at h2
            cases this with
            | none =>
              simp only [Option.some.injEq, Prod.mk.injEq] at h1 h2
              rw [← h1.1, ← h2.1]; exact .some h
            | some hq =>
              simp only [Option.some.injEq, Prod.mk.injEq] at h1 h2
              rw [← h1.1, ← h2.1]; exact .some hq
    | plus a =>
      · simp only [leafy] at he
        simp only [accStep] at h1 h2
        cases hx : acc U G I n a p err with
        | none => rw [hx] at h1; cases h1
        | some y => cases hx' : acc U G I' n a p' err' with
          | none => rw [hx'] at h2; cases h2
          | some y' =>
            rcases y with ⟨y, ye⟩; rcases y' with ⟨y', ye'⟩
            have := ih _ _ _ _ _ _ _ _ _ he h hx hx'
            rw [hx] at h1; rw [hx'] at h2
            cases this with
            | none =>
              simp only [Option.some.injEq, Prod.mk.injEq] at h1 h2
              rw [← h1.1, ← h2.1]; exact .none
            | some hq =>
              exact ih (.star a) _ _ _ _ _ _ _ _ he hq h1 h2
    | star a =>
      · simp only [leafy] at he
        simp only [accStep] at h1 h2
        cases hx : acc U G I n a p err with
        | none => rw [hx] at h1; cases h1
        | some y => cases hx' : acc U G I' n a p' err' with
          | none => rw [hx'] at h2; cases h2
          | some y' =>
            rcases y with ⟨y, ye⟩; rcases y' with ⟨y', ye'⟩
            have := ih _ _ _ _ _ _ _ _ _ he h hx hx'
            rw [hx] at h1; rw [hx'] at h2
            cases this with
            | none =>
              simp only [Option.some.injEq, Prod.mk.injEq] at h1 h2
              rw [← h1.1, ← h2.1]; exact .some h
            | some hq =>
              exact ih (.star a) _ _ _ _ _ _ _ _ he hq h1 h2
    | not a =>
      simp only [leafy, Bool.or_eq_true] at he
      rcases he with he | he
      · exact leaf he
      · simp only [accStep] at h1 h2
        cases hx : acc U G I n a p err with
        | none => rw [hx] at h1; cases h1
        | some y => cases hx' : acc U G I' n a p' err' with
          | none => rw [hx'] at h2; cases h2
          | some y' =>
            rcases y with ⟨y, ye⟩; rcases y' with ⟨y', ye'⟩
            have := ih _ _ _ _ _ _ _ _ _ he h hx hx'
            rw [hx] at h1; rw [hx'] at h2
            cases this with
            | none =>
              simp only [Option.some.injEq, Prod.mk.injEq] at h1 h2
              rw [← h1.1, ← h2.1]; exact .some h
            | some hq =>
              simp only [Option.some.injEq, Prod.mk.injEq] at h1 h2
              rw [← h1.1, ← h2.1]; exact .none
    | and a =>
      simp only [leafy, Bool.or_eq_true] at he
      rcases he with he | he
      · exact leaf he
      · simp only [accStep] at h1 h2
        cases hx : acc U G I n a p err with
        | none => rw [hx] at h1; cases h1
        | some y => cases hx' : acc U G I' n a p' err' with
          | none => rw [hx'] at h2; cases h2
          | some y' =>
            rcases y with ⟨y, ye⟩; rcases y' with ⟨y', ye'⟩
            have := ih _ _ _ _ _ _ _ _ _ he h hx hx'
            rw [hx] at h1; rw [hx'] at h2
            cases this with
            | none =>
              simp only [Option.some.injEq, Prod.mk.injEq] at h1 h2
              rw [← h1.1, ← h2.1]; exact .none
            | some hq =>
              simp only [Option.some.injEq, Prod.mk.injEq] at h1 h2
              rw [← h1.1, ← h2.1]; exact .some h
    | lab a => exact ih a _ _ _ _ _ _ _ _ he h h1 h2
    | grp a => exact ih a _ _ _ _ _ _ _ _ he h h1 h2
    | act f a => exact ih a _ _ _ _ _ _ _ _ he h h1 h2

theorem ev_leaves (S : LeafSim U G I I' A A' lf P K R Q) : ∀ n e p p' v v', leafy lf P K e = true → R p p' →
    ev U G I A n e p = some v → ev U G I' A' n e p' = some v' → RV A A' R Q (some v) (some v') := by
  intro n
  induction n with
  | zero => intro e p p' v v' _ _ h1; cases h1
  | succ n ih =>
    intro e p p' v v' he h h1 h2
    have leaf : lf e = true → RV A A' R Q (some v) (some v') := fun hl => leaf_ev S hl h h1 h2
    rw [ev_s] at h1 h2
    cases e with
    | term t =>
      simp only [evStep] at h1 h2
      rcases S.term t p p' he h with ⟨q, q', h3, h4, hq, hx⟩ | ⟨z, z', h3, h4⟩
      · rw [h3] at h1; rw [h4] at h2
        rw [← h1, ← h2]; exact .ok hq hx
      · rw [h3] at h1; rw [h4] at h2
        rw [← h1, ← h2]; exact .fail
    | ref k =>
      simp only [leafy, Bool.or_eq_true] at he
      rcases he with he | he
      · exact leaf he
      · simp only [evStep] at h1 h2
        cases hx : acc U G I n (G.body k) p 0 with
        | none => rw [hx] at h1; cases h1
        | some y => cases hx' : acc U G I' n (G.body k) p' 0 with
          | none => rw [hx'] at h2; cases h2
          | some y' =>
            rcases y with ⟨y, ye⟩; rcases y' with ⟨y', ye'⟩
            have := acc_leaves S _ _ _ _ _ _ _ _ _ _ (S.rules k he) h hx hx'
            rw [hx] at h1; rw [hx'] at h2
            cases this with
            | none => rw [← h1, ← h2]; exact .fail
            | some _ =>
              simp only at h1 h2
              cases hy : ev U G I A n (G.body k) p with
              | none => rw [hy] at h1; cases h1
              | some y => cases hy' : ev U G I' A' n (G.body k) p' with
                | none => rw [hy'] at h2; cases h2
                | some y' =>
                  have := ih _ _ _ _ _ (S.rules k he) h hy hy'
                  rw [hy] at h1; rw [hy'] at h2
                  cases this with
                  | fail => rw [← h1, ← h2]; exact .fail
                  | panic => rw [← h1, ← h2]; exact .panic
                  | ok hq hv => rw [← h1, ← h2]; exact .ok hq (S.alg.rule _ _ _ _ _ _ _ h hq hv)
    | seq a b =>
      simp only [leafy, Bool.or_eq_true, Bool.and_eq_true] at he
      rcases he with he | he
      · exact leaf he
      · simp only [evStep] at h1 h2
        cases hx : ev U G I A n a p with
        | none => rw [hx] at h1; cases h1
        | some y => cases hx' : ev U G I' A' n a p' with
          | none => rw [hx'] at h2; cases h2
          | some y' =>
            have := ih _ _ _ _ _ he.1 h hx hx'
            rw [hx] at h1; rw [hx'] at h2
            cases this with
            | fail => rw [← h1, ← h2]; exact .fail
            | panic => rw [← h1, ← h2]; exact .panic
            | @ok q q' x x' hq hv =>
              simp only at h1 h2
              cases hy : ev U G I A n b q with
              | none => rw [hy] at h1; cases h1
              | some z => cases hy' : ev U G I' A' n b q' with
                | none => rw [hy'] at h2; cases h2
                | some z' =>
                  have := ih b _ _ _ _ he.2 hq hy hy'
                  rw [hy] at h1; rw [hy'] at h2
                  cases this with
                  | fail => rw [← h1, ← h2]; exact .fail
                  | panic => rw [← h1, ← h2]; exact .panic
                  | ok hq' hz => rw [← h1, ← h2]; exact .ok hq' (S.alg.seq _ _ _ _ hv hz)
    | alt a b =>
      · simp only [leafy, Bool.and_eq_true] at he
        simp only [evStep] at h1 h2
        cases hx : ev U G I A n a p with
        | none => rw [hx] at h1; cases h1
        | some y => cases hx' : ev U G I' A' n a p' with
          | none => rw [hx'] at h2; cases h2
          | some y' =>
            have := ih _ _ _ _ _ he.1 h hx hx'
            rw [hx] at h1; rw [hx'] at h2
            cases this with
            | fail => exact ih _ _ _ _ _ he.2 h h1 h2
            | panic => rw [← h1, ← h2]; exact .panic
            | @ok q q' x x' hq hv =>
              rw [← h1, ← h2]; exact .ok hq hv
    | opt a =>
      · simp only [leafy] at he
        simp only [evStep] at h1 h2
        cases hx : ev U G I A n a p with
        | none => rw [hx] at h1; cases h1
        | some y => cases hx' : ev U G I' A' n a p' with
          | none => rw [hx'] at h2; cases h2
          | some y' =>
            have := ih _ _ _ _ _ he h hx hx'
            rw [hx] at h1; rw [hx'] at h2
            cases this with
            | fail => rw [← h1, ← h2]; exact .ok h S.alg.nil
            | panic => rw [← h1, ← h2]; exact .panic
            | @ok q q' x x' hq hv =>
              rw [← h1, ← h2]; exact .ok hq hv
    | plus a =>
      · simp only [leafy] at he
        simp only [evStep] at h1 h2
        cases hx : ev U G I A n a p with
        | none => rw [hx] at h1; cases h1
        | some y => cases hx' : ev U G I' A' n a p' with
          | none => rw [hx'] at h2; cases h2
          | some y' =>
            have := ih _ _ _ _ _ he h hx hx'
            rw [hx] at h1; rw [hx'] at h2
            cases this with
            | fail => rw [← h1, ← h2]; exact .fail
            | panic => rw [← h1, ← h2]; exact .panic
            | @ok q q' x x' hq hv =>
              simp only at h1 h2
              cases hy : ev U G I A n (.star a) q with
              | none => rw [hy] at h1; cases h1
              | some z => cases hy' : ev U G I' A' n (.star a) q' with
                | none => rw [hy'] at h2; cases h2
                | some z' =>
                  have := ih (.star a) _ _ _ _ he hq hy hy'
                  rw [hy] at h1; rw [hy'] at h2
                  cases this with
                  | fail => rw [← h1, ← h2]; exact .fail
                  | panic => rw [← h1, ← h2]; exact .panic
                  | ok hq' hz => rw [← h1, ← h2]; exact .ok hq' (S.alg.rep _ _ _ _ hv hz)
    | star a =>
      · simp only [leafy] at he
        simp only [evStep] at h1 h2
        cases hx : ev U G I A n a p with
        | none => rw [hx] at h1; cases h1
        | some y => cases hx' : ev U G I' A' n a p' with
          | none => rw [hx'] at h2; cases h2
          | some y' =>
            have := ih _ _ _ _ _ he h hx hx'
            rw [hx] at h1; rw [hx'] at h2
            cases this with
            | fail => rw [← h1, ← h2]; exact .ok h S.alg.rep0
            | panic => rw [← h1, ← h2]; exact .panic
            | @ok q q' x x' hq hv =>
              simp only at h1 h2
              cases hy : ev U G I A n (.star a) q with
              | none => rw [hy] at h1; cases h1
              | some z => cases hy' : ev U G I' A' n (.star a) q' with
                | none => rw [hy'] at h2; cases h2
                | some z' =>
                  have := ih (.star a) _ _ _ _ he hq hy hy'
                  rw [hy] at h1; rw [hy'] at h2
                  cases this with
                  | fail => rw [← h1, ← h2]; exact .fail
                  | panic => rw [← h1, ← h2]; exact .panic
                  | ok hq' hz => rw [← h1, ← h2]; exact .ok hq' (S.alg.rep _ _ _ _ hv hz)
    | not a =>
      simp only [leafy, Bool.or_eq_true] at he
      rcases he with he | he
      · exact leaf he
      · simp only [evStep] at h1 h2
        cases hx : ev U G I A n a p with
        | none => rw [hx] at h1; cases h1
        | some y => cases hx' : ev U G I' A' n a p' with
          | none => rw [hx'] at h2; cases h2
          | some y' =>
            have := ih _ _ _ _ _ he h hx hx'
            rw [hx] at h1; rw [hx'] at h2
            cases this with
            | fail => rw [← h1, ← h2]; exact .ok h S.alg.nil
            | panic => rw [← h1, ← h2]; exact .panic
            | @ok q q' x x' hq hv =>
              rw [← h1, ← h2]; exact .fail
    | and a =>
      simp only [leafy, Bool.or_eq_true] at he
      rcases he with he | he
      · exact leaf he
      · simp only [evStep] at h1 h2
        cases hx : ev U G I A n a p with
        | none => rw [hx] at h1; cases h1
        | some y => cases hx' : ev U G I' A' n a p' with
          | none => rw [hx'] at h2; cases h2
          | some y' =>
            have := ih _ _ _ _ _ he h hx hx'
            rw [hx] at h1; rw [hx'] at h2
            cases this with
            | fail => rw [← h1, ← h2]; exact .fail
            | panic => rw [← h1, ← h2]; exact .panic
            | @ok q q' x x' hq hv =>
              rw [← h1, ← h2]; exact .ok h S.alg.nil
    | lab a =>
      · simp only [leafy] at he
        simp only [evStep] at h1 h2
        cases hx : ev U G I A n a p with
        | none => rw [hx] at h1; cases h1
        | some y => cases hx' : ev U G I' A' n a p' with
          | none => rw [hx'] at h2; cases h2
          | some y' =>
            have := ih _ _ _ _ _ he h hx hx'
            rw [hx] at h1; rw [hx'] at h2
            cases this with
            | fail => rw [← h1, ← h2]; exact .fail
            | panic => rw [← h1, ← h2]; exact .panic
            | @ok q q' x x' hq hv =>
              rw [← h1, ← h2]; exact .ok hq (S.alg.lab _ _ hv)
    | grp a =>
      · simp only [leafy] at he
        simp only [evStep] at h1 h2
        cases hx : ev U G I A n a p with
        | none => rw [hx] at h1; cases h1
        | some y => cases hx' : ev U G I' A' n a p' with
          | none => rw [hx'] at h2; cases h2
          | some y' =>
            have := ih _ _ _ _ _ he h hx hx'
            rw [hx] at h1; rw [hx'] at h2
            cases this with
            | fail => rw [← h1, ← h2]; exact .fail
            | panic => rw [← h1, ← h2]; exact .panic
            | @ok q q' x x' hq hv =>
              rw [← h1, ← h2]; exact .ok hq (S.alg.grp _ _ _ _ _ _ h hq hv)
    | act f a =>
      · simp only [leafy] at he
        simp only [evStep] at h1 h2
        cases hx : ev U G I A n a p with
        | none => rw [hx] at h1; cases h1
        | some y => cases hx' : ev U G I' A' n a p' with
          | none => rw [hx'] at h2; cases h2
          | some y' =>
            have := ih _ _ _ _ _ he h hx hx'
            rw [hx] at h1; rw [hx'] at h2
            cases this with
            | fail => rw [← h1, ← h2]; exact .fail
            | panic => rw [← h1, ← h2]; exact .panic
            | @ok q q' x x' hq hv =>
              have hf := S.alg.act f _ _ _ _ _ _ h hq hv
              revert hf h1 h2
              simp only
              cases A.act f p q x <;> cases A'.act f p' q' x' <;> intro h1 h2 hf
              · rw [← h1, ← h2]; exact .panic
              · exact hf.elim
              · exact hf.elim
              · rw [← h1, ← h2]; exact .ok hq hf

end Verif.Peg
