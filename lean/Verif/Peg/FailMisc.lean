/- Lemmas on `perr`, and on the rules that are called. -/
import Verif.Peg.FailEnd

namespace Verif.Peg

variable {F : Type} {U : Uni} {G : Gram F} {I : Input}

/-- A failure is reported at or after the start. -/
theorem acc_fail_err : ∀ n e p er E, p ≤ I.len → acc U G I n e p er = some (none, E) → p + 1 ≤ E := by
  intro n
  induction n with
  | zero => intro e p er E _ h; cases h
  | succ n ih =>
    intro e p er E hp h
    rw [acc_s] at h
    cases e with
    | term t =>
      simp only [accStep] at h
      cases ht : tm U I t p with
      | inl q => rw [ht] at h; cases h
      | inr x => rw [ht] at h; cases h; have := tm_err U I hp ht; omega
    | ref k =>
      simp only [accStep] at h
      cases h1 : acc U G I n (G.body k) p 0 with
      | none => rw [h1] at h; cases h
      | some v =>
        rw [h1] at h
        rcases v with ⟨_ | q, e'⟩
        · cases h; have := ih _ _ _ _ hp h1; omega
        · cases h
    | seq a b | plus a =>
      simp only [accStep] at h
      cases h1 : acc U G I n a p er with
      | none => rw [h1] at h; cases h
      | some v =>
        rw [h1] at h
        rcases v with ⟨_ | q, e'⟩
        · cases h; exact ih _ _ _ _ hp h1
        · have b1 := (acc_bounds U G I _ _ _ _ _ hp h1).1 q rfl
          have := ih _ _ _ _ b1.2 h; omega
    | star a =>
      simp only [accStep] at h
      cases h1 : acc U G I n a p er with
      | none => rw [h1] at h; cases h
      | some v =>
        rw [h1] at h
        rcases v with ⟨_ | q, e'⟩
        · cases h
        · have b1 := (acc_bounds U G I _ _ _ _ _ hp h1).1 q rfl
          have := ih _ _ _ _ b1.2 h; omega
    | alt a b =>
      simp only [accStep] at h
      cases h1 : acc U G I n a p er with
      | none => rw [h1] at h; cases h
      | some v =>
        rw [h1] at h
        rcases v with ⟨_ | q, e'⟩
        · exact ih _ _ _ _ hp h
        · cases h
    | opt a =>
      simp only [accStep] at h
      cases h1 : acc U G I n a p er with
      | none => rw [h1] at h; cases h
      | some v => rw [h1] at h; rcases v with ⟨_ | q, e'⟩ <;> cases h
    | not a | and a =>
      simp only [accStep] at h
      cases h1 : acc U G I n a p er with
      | none => rw [h1] at h; cases h
      | some v => rw [h1] at h; rcases v with ⟨_ | q, e'⟩ <;> cases h; omega
    | lab a | grp a | act f a => exact ih _ _ _ _ hp h

theorem acc_star_some : ∀ n (a : Expr F) p er E, acc U G I n (.star a) p er ≠ some (none, E) := by
  intro n
  induction n with
  | zero => intro a p er E h; cases h
  | succ n ih =>
    intro a p er E h
    rw [acc_s] at h
    simp only [accStep] at h
    cases h1 : acc U G I n a p er with
    | none => rw [h1] at h; cases h
    | some v =>
      rw [h1] at h
      rcases v with ⟨_ | q, e'⟩
      · cases h
      · exact ih _ _ _ _ h

/-! ### Failures within one rune -/

/-- The end of the rune at `p`. -/
def runeEnd (I : Input) (p : Nat) : Nat := match I.rune p with
  | some (_, w) => p + w
  | none => p

theorem le_runeEnd (p : Nat) : p ≤ runeEnd I p := by unfold runeEnd; split <;> omega

theorem tm_runeEnd {t p x} (h : tm U I t p = .inr x) : x ≤ runeEnd I p := by
  cases hr : I.rune p with
  | none => cases t <;> simp only [tm, hr] at h <;> cases h <;> exact le_runeEnd _
  | some v =>
    obtain ⟨c, w⟩ := v
    cases t <;> simp only [tm, hr] at h <;> (repeat' split at h) <;> cases h <;> simp [runeEnd, hr]

def isNot : Expr F → Bool
  | .not _ => true
  | _ => false

/-- When the expression fails it has looked at one rune only, lookaheads aside. -/
def near (rec : Nat → Bool) : Expr F → Bool
  | .term _ => true
  | .ref r => rec r
  | .seq a b => isNot a && near rec b
  | .alt a b => near rec a && near rec b
  | .plus a => near rec a
  | .not _ => true
  | .and _ => true
  | .opt _ => true
  | .star _ => true
  | .lab a => near rec a
  | .grp a => near rec a
  | .act _ a => near rec a

theorem near_ok {rec : Nat → Bool} {p : Nat}
    (H : ∀ r, rec r = true → ∀ m er E, acc U G I m (.ref r) p er = some (none, E) → E ≤ max er (runeEnd I p + 1)) :
    ∀ n e er E, near rec e = true → acc U G I n e p er = some (none, E) → E ≤ max er (runeEnd I p + 1) := by
  have hle := le_runeEnd (I := I) p
  intro n
  induction n with
  | zero => intro e er E _ h; cases h
  | succ n ih =>
    intro e er E hn h
    cases e with
    | term t =>
      rw [acc_s] at h
      simp only [accStep] at h
      cases ht : tm U I t p with
      | inl q => rw [ht] at h; cases h
      | inr x => rw [ht] at h; cases h; have := tm_runeEnd ht; omega
    | ref k => exact H k hn _ _ _ h
    | seq a b =>
      rw [near, Bool.and_eq_true] at hn
      rw [acc_s] at h
      simp only [accStep] at h
      cases a with
      | not a =>
        cases n with
        | zero => cases h
        | succ n =>
          cases h1 : acc U G I (n+1) (.not a) p er with
          | none => rw [h1] at h; cases h
          | some v =>
            rw [h1] at h
            rw [acc_s] at h1
            simp only [accStep] at h1
            cases h2 : acc U G I n a p er with
            | none => rw [h2] at h1; cases h1
            | some w =>
              rw [h2] at h1
              rcases w with ⟨_ | q, e'⟩
              · cases h1; exact ih _ _ _ hn.2 h
              · cases h1; cases h; omega
      | _ => cases hn.1
    | alt a b =>
      rw [near, Bool.and_eq_true] at hn
      rw [acc_s] at h
      simp only [accStep] at h
      cases h1 : acc U G I n a p er with
      | none => rw [h1] at h; cases h
      | some v =>
        rw [h1] at h
        rcases v with ⟨_ | q, e'⟩
        · have := ih _ _ _ hn.1 h1
          have := ih _ _ _ hn.2 h
          omega
        · cases h
    | plus a =>
      rw [acc_s] at h
      simp only [accStep] at h
      cases h1 : acc U G I n a p er with
      | none => rw [h1] at h; cases h
      | some v =>
        rw [h1] at h
        rcases v with ⟨_ | q, e'⟩
        · cases h; exact ih a _ _ hn h1
        · exact absurd h (acc_star_some _ _ _ _ _)
    | star a => exact absurd h (acc_star_some _ _ _ _ _)
    | opt a =>
      rw [acc_s] at h
      simp only [accStep] at h
      cases h1 : acc U G I n a p er with
      | none => rw [h1] at h; cases h
      | some v => rw [h1] at h; rcases v with ⟨_ | q, e'⟩ <;> cases h
    | not a | and a =>
      rw [acc_s] at h
      simp only [accStep] at h
      cases h1 : acc U G I n a p er with
      | none => rw [h1] at h; cases h
      | some v => rw [h1] at h; rcases v with ⟨_ | q, e'⟩ <;> cases h; omega
    | lab a | grp a | act f a => exact ih a _ _ hn h

/-- Rules that fail within one rune, with calls nested to a depth. -/
def nearR (G : Gram F) : Nat → Nat → Bool
  | 0, _ => false
  | n+1, r => near (nearR G n) (G.body r)

theorem nearR_ok (p : Nat) : ∀ k r, nearR G k r = true → ∀ m er E,
    acc U G I m (.ref r) p er = some (none, E) → E ≤ max er (runeEnd I p + 1) := by
  intro k
  induction k with
  | zero => intro r h; cases h
  | succ k ih =>
    intro r hr m er E h
    cases m with
    | zero => cases h
    | succ m =>
      rw [acc_s] at h
      simp only [accStep] at h
      cases h1 : acc U G I m (G.body r) p 0 with
      | none => rw [h1] at h; cases h
      | some v =>
        rw [h1] at h
        rcases v with ⟨_ | q, e'⟩
        · cases h
          have := near_ok (U := U) (G := G) (I := I) ih _ _ _ _ hr h1
          omega
        · cases h

/-! ### The rules with entries -/

theorem accM_refs (S : Nat → Bool) (hS : ∀ r, S r = true → refsIn S (G.body r) = true) : ∀ n e p er s res s',
    accM U G I n e p er s = some (res, s') → refsIn S e = true →
    ∀ q r, s'.tab.get q r ≠ none → s.tab.get q r ≠ none ∨ S r = true := by
  intro n
  induction n with
  | zero => intro e p er s res s' h; cases h
  | succ n ih =>
    intro e p er s res s' h hs
    change accStepM U G I (accM U G I n) e p er s = _ at h
    cases e with
    | term t =>
      simp only [accStepM] at h
      cases ht : tm U I t p with
      | inl q => rw [ht] at h; cases h; exact fun _ _ h => .inl h
      | inr x => rw [ht] at h; cases h; exact fun _ _ h => .inl h
    | ref k =>
      simp only [accStepM] at h
      cases hg : s.tab.get p k with
      | some v => rw [hg] at h; cases h; exact fun _ _ h => .inl h
      | none =>
        rw [hg] at h
        simp only at h
        have put : ∀ {t : AS} {v : Option Nat × Nat}, (∀ q r, t.tab.get q r ≠ none → s.tab.get q r ≠ none ∨ S r = true) →
            ∀ q r, (t.memoize p k v).tab.get q r ≠ none → s.tab.get q r ≠ none ∨ S r = true := by
          intro t v ht q r hq
          simp only [AS.memoize, Tab.get_put] at hq
          split at hq
          · rename_i he; rw [he.2]; exact .inr hs
          · exact ht q r hq
        cases h1 : accM U G I n (G.body k) p 0 s with
        | none => rw [h1] at h; cases h
        | some w =>
          rw [h1] at h
          obtain ⟨⟨_ | q, e'⟩, s1⟩ := w
          · cases h; exact put (ih _ _ _ _ _ _ h1 (hS k hs))
          · cases h; exact put (ih _ _ _ _ _ _ h1 (hS k hs))
    | seq a b =>
      rw [refsIn, Bool.and_eq_true] at hs
      simp only [accStepM] at h
      cases h1 : accM U G I n a p er s with
      | none => rw [h1] at h; cases h
      | some w =>
        rw [h1] at h
        obtain ⟨⟨_ | q, e'⟩, s1⟩ := w
        · cases h; exact ih _ _ _ _ _ _ h1 hs.1
        · intro q r hq
          rcases ih _ _ _ _ _ _ h hs.2 q r hq with h' | h'
          · exact ih _ _ _ _ _ _ h1 hs.1 q r h'
          · exact .inr h'
    | alt a b =>
      rw [refsIn, Bool.and_eq_true] at hs
      simp only [accStepM] at h
      cases h1 : accM U G I n a p er s with
      | none => rw [h1] at h; cases h
      | some w =>
        rw [h1] at h
        obtain ⟨⟨_ | q, e'⟩, s1⟩ := w
        · intro q r hq
          rcases ih _ _ _ _ _ _ h hs.2 q r hq with h' | h'
          · exact ih _ _ _ _ _ _ h1 hs.1 q r h'
          · exact .inr h'
        · cases h; exact ih _ _ _ _ _ _ h1 hs.1
    | plus a | star a =>
      simp only [accStepM] at h
      cases h1 : accM U G I n a p er s with
      | none => rw [h1] at h; cases h
      | some w =>
        rw [h1] at h
        obtain ⟨⟨_ | q, e'⟩, s1⟩ := w
        · cases h; exact ih _ _ _ _ _ _ h1 hs
        · intro q r hq
          rcases ih _ _ _ _ _ _ h hs q r hq with h' | h'
          · exact ih _ _ _ _ _ _ h1 hs q r h'
          · exact .inr h'
    | opt a | not a | and a =>
      simp only [accStepM] at h
      cases h1 : accM U G I n a p er s with
      | none => rw [h1] at h; cases h
      | some w =>
        rw [h1] at h
        obtain ⟨⟨_ | q, e'⟩, s1⟩ := w <;> cases h <;> exact ih _ _ _ _ _ _ h1 hs
    | lab a | grp a | act f a => exact ih _ _ _ _ _ _ h hs

/-! ### Inversions -/

theorem acc_lab_inv {a : Expr F} {m p er v} (h : acc U G I m (.lab a) p er = some v) : ∃ m', acc U G I m' a p er = some v := by
  cases m with
  | zero => cases h
  | succ m => exact ⟨m, h⟩

theorem acc_act_inv {f : F} {a : Expr F} {m p er v} (h : acc U G I m (.act f a) p er = some v) :
    ∃ m', acc U G I m' a p er = some v := by
  cases m with
  | zero => cases h
  | succ m => exact ⟨m, h⟩

theorem acc_seq_inv {a b : Expr F} {m p er v} (h : acc U G I m (.seq a b) p er = some v) :
    (∃ m' e, acc U G I m' a p er = some (none, e) ∧ v = (none, e)) ∨
    ∃ m' q e, acc U G I m' a p er = some (some q, e) ∧ acc U G I m' b q e = some v := by
  cases m with
  | zero => cases h
  | succ m =>
    rw [acc_s] at h
    simp only [accStep] at h
    cases h1 : acc U G I m a p er with
    | none => rw [h1] at h; cases h
    | some w =>
      rw [h1] at h
      obtain ⟨_ | q, e⟩ := w
      · cases h; exact .inl ⟨m, e, h1, rfl⟩
      · exact .inr ⟨m, q, e, h1, h⟩

theorem acc_opt_inv {a : Expr F} {m p er v} (h : acc U G I m (.opt a) p er = some v) :
    ∃ m' o, acc U G I m' a p er = some (o, v.2) ∧ v.1 = some (o.getD p) := by
  cases m with
  | zero => cases h
  | succ m =>
    rw [acc_s] at h
    simp only [accStep] at h
    cases h1 : acc U G I m a p er with
    | none => rw [h1] at h; cases h
    | some w =>
      rw [h1] at h
      obtain ⟨_ | q, e⟩ := w
      · cases h; exact ⟨m, none, h1, rfl⟩
      · cases h; exact ⟨m, some q, h1, rfl⟩

theorem Closed.both {d : Tab (Option Nat × Nat)} {last err : Nat} {V W : Expr F → Nat → Prop}
    (h : Closed U G I d last err V) (h' : Closed U G I d last err W) :
    Closed U G I d last err (fun e p => V e p ∧ W e p) where
  ref a b := ⟨h.ref a.1 b, h'.ref a.2 b⟩
  seqL a := ⟨h.seqL a.1, h'.seqL a.2⟩
  seqR a b := ⟨h.seqR a.1 b, h'.seqR a.2 b⟩
  altL a := ⟨h.altL a.1, h'.altL a.2⟩
  altR a b := ⟨h.altR a.1 b, h'.altR a.2 b⟩
  opt a := ⟨h.opt a.1, h'.opt a.2⟩
  plusL a := ⟨h.plusL a.1, h'.plusL a.2⟩
  plusR a b := ⟨h.plusR a.1 b, h'.plusR a.2 b⟩
  starL a := ⟨h.starL a.1, h'.starL a.2⟩
  starR a b := ⟨h.starR a.1 b, h'.starR a.2 b⟩
  not a := ⟨h.not a.1, h'.not a.2⟩
  and a := ⟨h.and a.1, h'.and a.2⟩
  lab a := ⟨h.lab a.1, h'.lab a.2⟩
  grp a := ⟨h.grp a.1, h'.grp a.2⟩
  act a := ⟨h.act a.1, h'.act a.2⟩

end Verif.Peg
