/-
General facts about the interpreters of parsing expressions: more depth does not change results,
offsets stay in the text, `acc` and `ev` accept the same, and a grammar that passes the check
`Ranked` terminates on every text.
-/
import Verif.Peg.Expr

namespace Verif.Peg

variable {F E : Type} (U : Uni) (G : Gram F) (I : Input) (A : Alg F E)

theorem acc_s (n) (e : Expr F) (p err) : acc U G I (n+1) e p err = accStep U G I (acc U G I n) e p err := rfl
theorem acc_0 (e : Expr F) (p err) : acc U G I 0 e p err = none := rfl
theorem ev_s (n) (e : Expr F) (p) : ev U G I A (n+1) e p = evStep U G I A (acc U G I n) (ev U G I A n) e p := rfl
theorem ev_0 (e : Expr F) (p) : ev U G I A 0 e p = none := rfl

/-! ### More depth does not change results -/

theorem acc_succ : ∀ n e p err r, acc U G I n e p err = some r → acc U G I (n+1) e p err = some r := by
  intro n
  induction n with
  | zero => intro e p err r h; rw [acc_0] at h; cases h
  | succ n ih =>
    intro e p err r h
    rw [acc_s] at h ⊢
    cases e with
    | term t => exact h
    | ref k =>
      simp only [accStep] at h ⊢
      cases h1 : acc U G I n (G.body k) p 0 with
      | none => rw [h1] at h; cases h
      | some v => rw [ih _ _ _ _ h1]; rw [h1] at h; exact h
    | seq a b =>
      simp only [accStep] at h ⊢
      cases h1 : acc U G I n a p err with
      | none => rw [h1] at h; cases h
      | some v =>
        rw [ih _ _ _ _ h1]; rw [h1] at h
        rcases v with ⟨_ | q, e'⟩
        · exact h
        · exact ih _ _ _ _ h
    | alt a b =>
      simp only [accStep] at h ⊢
      cases h1 : acc U G I n a p err with
      | none => rw [h1] at h; cases h
      | some v =>
        rw [ih _ _ _ _ h1]; rw [h1] at h
        rcases v with ⟨_ | q, e'⟩
        · exact ih _ _ _ _ h
        · exact h
    | plus a =>
      simp only [accStep] at h ⊢
      cases h1 : acc U G I n a p err with
      | none => rw [h1] at h; cases h
      | some v =>
        rw [ih _ _ _ _ h1]; rw [h1] at h
        rcases v with ⟨_ | q, e'⟩
        · exact h
        · exact ih _ _ _ _ h
    | star a =>
      simp only [accStep] at h ⊢
      cases h1 : acc U G I n a p err with
      | none => rw [h1] at h; cases h
      | some v =>
        rw [ih _ _ _ _ h1]; rw [h1] at h
        rcases v with ⟨_ | q, e'⟩
        · exact h
        · exact ih _ _ _ _ h
    | opt a =>
      simp only [accStep] at h ⊢
      cases h1 : acc U G I n a p err with
      | none => rw [h1] at h; cases h
      | some v => rw [ih _ _ _ _ h1]; rw [h1] at h; exact h
    | not a =>
      simp only [accStep] at h ⊢
      cases h1 : acc U G I n a p err with
      | none => rw [h1] at h; cases h
      | some v => rw [ih _ _ _ _ h1]; rw [h1] at h; exact h
    | and a =>
      simp only [accStep] at h ⊢
      cases h1 : acc U G I n a p err with
      | none => rw [h1] at h; cases h
      | some v => rw [ih _ _ _ _ h1]; rw [h1] at h; exact h
    | lab a => exact ih _ _ _ _ h
    | grp a => exact ih _ _ _ _ h
    | act f a => exact ih _ _ _ _ h

theorem acc_mono {n m e p err r} (hnm : n ≤ m) (h : acc U G I n e p err = some r) :
    acc U G I m e p err = some r := by
  induction hnm with
  | refl => exact h
  | step _ ih => exact acc_succ U G I _ _ _ _ _ ih

/-- Results do not depend on the depth. -/
theorem acc_det {n m e p err r s} (h : acc U G I n e p err = some r) (h' : acc U G I m e p err = some s) :
    r = s := by
  have a := acc_mono U G I (Nat.le_max_left n m) h
  have b := acc_mono U G I (Nat.le_max_right n m) h'
  rw [a] at b; injection b

theorem ev_succ : ∀ n e p r, ev U G I A n e p = some r → ev U G I A (n+1) e p = some r := by
  intro n
  induction n with
  | zero => intro e p r h; rw [ev_0] at h; cases h
  | succ n ih =>
    intro e p r h
    rw [ev_s] at h ⊢
    cases e with
    | term t => exact h
    | seq a b =>
      simp only [evStep] at h ⊢
      cases h1 : ev U G I A n a p with
      | none => rw [h1] at h; cases h
      | some v =>
        rw [ih _ _ _ h1]; rw [h1] at h
        cases v with
        | ok q x =>
          simp only at h ⊢
          cases h2 : ev U G I A n b q with
          | none => rw [h2] at h; cases h
          | some v => rw [ih _ _ _ h2]; rw [h2] at h; exact h
        | fail => exact h
        | panic _ => exact h
    | alt a b =>
      simp only [evStep] at h ⊢
      cases h1 : ev U G I A n a p with
      | none => rw [h1] at h; cases h
      | some v =>
        rw [ih _ _ _ h1]; rw [h1] at h
        cases v with
        | fail => exact ih _ _ _ h
        | ok _ _ => exact h
        | panic _ => exact h
    | plus a =>
      simp only [evStep] at h ⊢
      cases h1 : ev U G I A n a p with
      | none => rw [h1] at h; cases h
      | some v =>
        rw [ih _ _ _ h1]; rw [h1] at h
        cases v with
        | ok q x =>
          simp only at h ⊢
          cases h2 : ev U G I A n (.star a) q with
          | none => rw [h2] at h; cases h
          | some v => rw [ih _ _ _ h2]; rw [h2] at h; exact h
        | fail => exact h
        | panic _ => exact h
    | star a =>
      simp only [evStep] at h ⊢
      cases h1 : ev U G I A n a p with
      | none => rw [h1] at h; cases h
      | some v =>
        rw [ih _ _ _ h1]; rw [h1] at h
        cases v with
        | ok q x =>
          simp only at h ⊢
          cases h2 : ev U G I A n (.star a) q with
          | none => rw [h2] at h; cases h
          | some v => rw [ih _ _ _ h2]; rw [h2] at h; exact h
        | fail => exact h
        | panic _ => exact h
    | ref k =>
      simp only [evStep] at h ⊢
      cases h0 : acc U G I n (G.body k) p 0 with
      | none => rw [h0] at h; cases h
      | some w =>
        rw [acc_succ U G I _ _ _ _ _ h0]; rw [h0] at h
        rcases w with ⟨_ | q, e'⟩
        · exact h
        · simp only at h ⊢
          cases h1 : ev U G I A n (G.body k) p with
          | none => rw [h1] at h; cases h
          | some v => rw [ih _ _ _ h1]; rw [h1] at h; exact h
    | opt a | not a | and a | lab a | grp a | act f a =>
      simp only [evStep] at h ⊢
      cases h1 : ev U G I A n a p with
      | none => rw [h1] at h; cases h
      | some v => rw [ih _ _ _ h1]; rw [h1] at h; exact h

theorem ev_mono {n m e p r} (hnm : n ≤ m) (h : ev U G I A n e p = some r) :
    ev U G I A m e p = some r := by
  induction hnm with
  | refl => exact h
  | step _ ih => exact ev_succ U G I A _ _ _ _ ih

theorem ev_det {n m e p r s} (h : ev U G I A n e p = some r) (h' : ev U G I A m e p = some s) :
    r = s := by
  have a := ev_mono U G I A (Nat.le_max_left n m) h
  have b := ev_mono U G I A (Nat.le_max_right n m) h'
  rw [a] at b; injection b

/-! ### Offsets -/

theorem tm_lt {t p q} (h : tm U I t p = .inl q) : p < q ∧ q ≤ I.len := by
  unfold tm at h
  have key : ∀ c w, I.rune p = some (c, w) → p < p + w ∧ p + w ≤ I.len := by
    intro c w hr
    unfold Input.rune at hr
    split at hr
    · rename_i hp
      injection hr with hr
      have h1 := I.pos p hp
      have h2 := I.fits p hp
      rw [hr] at h1 h2
      exact ⟨by simp at h1; omega, h2⟩
    · cases hr
  cases t <;> simp only at h <;> cases hr : I.rune p with
    | none => rw [hr] at h; cases h
    | some v =>
      obtain ⟨c, w⟩ := v
      rw [hr] at h
      simp only at h
      repeat' split at h
      all_goals first | (injection h with h; subst h; exact key _ _ hr) | cases h

/-- The reported failure of a terminal lies in the text. -/
theorem tm_err {t p x} (hp : p ≤ I.len) (h : tm U I t p = .inr x) : p ≤ x ∧ x ≤ I.len := by
  unfold tm at h
  have key : ∀ c w, I.rune p = some (c, w) → p ≤ p + w ∧ p + w ≤ I.len := by
    intro c w hr
    unfold Input.rune at hr
    split at hr
    · rename_i hp
      injection hr with hr
      have h2 := I.fits p hp
      rw [hr] at h2
      exact ⟨by omega, h2⟩
    · cases hr
  cases t <;> simp only at h <;> cases hr : I.rune p with
    | none => rw [hr] at h; simp only at h; injection h with h; omega
    | some v =>
      obtain ⟨c, w⟩ := v
      rw [hr] at h
      simp only at h
      repeat' split at h
      all_goals first | cases h | skip
      all_goals first | exact ⟨Nat.le_refl _, hp⟩ | exact key _ _ hr

/-- Offsets never decrease and stay in the text; `perr` never decreases and stays in the text. -/
theorem acc_bounds : ∀ n e p err r, p ≤ I.len → acc U G I n e p err = some r →
    (∀ q, r.1 = some q → p ≤ q ∧ q ≤ I.len) ∧ err ≤ r.2 ∧ (err ≤ I.len + 1 → r.2 ≤ I.len + 1) := by
  intro n
  induction n with
  | zero => intro e p err r _ h; rw [acc_0] at h; cases h
  | succ n ih =>
    intro e p err r hp h
    rw [acc_s] at h
    cases e with
    | term t =>
      simp only [accStep] at h
      cases ht : tm U I t p with
      | inl q =>
        rw [ht] at h; injection h with h; subst h
        have := tm_lt U I ht
        refine ⟨?_, Nat.le_refl _, id⟩
        intro q' hq'; injection hq' with hq'; subst hq'; exact ⟨Nat.le_of_lt this.1, this.2⟩
      | inr x =>
        rw [ht] at h; injection h with h; subst h
        have := tm_err U I hp ht
        refine ⟨?_, Nat.le_max_left _ _, ?_⟩
        · intro q hq; cases hq
        · intro; simp only; omega
    | ref k =>
      simp only [accStep] at h
      cases h1 : acc U G I n (G.body k) p 0 with
      | none => rw [h1] at h; cases h
      | some v =>
        have hv := ih _ _ _ _ hp h1
        rw [h1] at h
        rcases v with ⟨_ | q, e'⟩
        · injection h with h; subst h
          refine ⟨?_, Nat.le_max_left _ _, ?_⟩
          · intro q hq; cases hq
          · intro he; have := hv.2.2 (Nat.zero_le _); simp only at this ⊢; omega
        · injection h with h; subst h
          refine ⟨?_, Nat.le_max_left _ _, ?_⟩
          · intro q' hq; exact hv.1 q' hq
          · intro he; have := hv.2.2 (Nat.zero_le _); simp only at this ⊢; split <;> omega
    | seq a b =>
      simp only [accStep] at h
      cases h1 : acc U G I n a p err with
      | none => rw [h1] at h; cases h
      | some v =>
        have hv := ih _ _ _ _ hp h1
        rw [h1] at h
        rcases v with ⟨_ | q, e'⟩
        · injection h with h; subst h; exact hv
        · have hq := hv.1 q rfl
          have h2 := ih _ _ _ _ hq.2 h
          refine ⟨fun q' hq' => ?_, ?_, fun he => h2.2.2 (hv.2.2 he)⟩
          · have := h2.1 q' hq'; omega
          · have := hv.2.1; have := h2.2.1; simp only at *; omega
    | alt a b =>
      simp only [accStep] at h
      cases h1 : acc U G I n a p err with
      | none => rw [h1] at h; cases h
      | some v =>
        have hv := ih _ _ _ _ hp h1
        rw [h1] at h
        rcases v with ⟨_ | q, e'⟩
        · have h2 := ih _ _ _ _ hp h
          refine ⟨h2.1, ?_, fun he => h2.2.2 (hv.2.2 he)⟩
          have := hv.2.1; have := h2.2.1; simp only at *; omega
        · injection h with h; subst h; exact hv
    | plus a =>
      simp only [accStep] at h
      cases h1 : acc U G I n a p err with
      | none => rw [h1] at h; cases h
      | some v =>
        have hv := ih _ _ _ _ hp h1
        rw [h1] at h
        rcases v with ⟨_ | q, e'⟩
        · injection h with h; subst h; exact hv
        · have hq := hv.1 q rfl
          have h2 := ih _ _ _ _ hq.2 h
          refine ⟨fun q' hq' => ?_, ?_, fun he => h2.2.2 (hv.2.2 he)⟩
          · have := h2.1 q' hq'; omega
          · have := hv.2.1; have := h2.2.1; simp only at *; omega
    | star a =>
      simp only [accStep] at h
      cases h1 : acc U G I n a p err with
      | none => rw [h1] at h; cases h
      | some v =>
        have hv := ih _ _ _ _ hp h1
        rw [h1] at h
        rcases v with ⟨_ | q, e'⟩
        · injection h with h; subst h
          refine ⟨?_, hv.2.1, hv.2.2⟩
          intro q hq; injection hq with hq; subst hq; exact ⟨Nat.le_refl _, hp⟩
        · have hq := hv.1 q rfl
          have h2 := ih _ _ _ _ hq.2 h
          refine ⟨fun q' hq' => ?_, ?_, fun he => h2.2.2 (hv.2.2 he)⟩
          · have := h2.1 q' hq'; omega
          · have := hv.2.1; have := h2.2.1; simp only at *; omega
    | opt a =>
      simp only [accStep] at h
      cases h1 : acc U G I n a p err with
      | none => rw [h1] at h; cases h
      | some v =>
        have hv := ih _ _ _ _ hp h1
        rw [h1] at h
        rcases v with ⟨_ | q, e'⟩
        · injection h with h; subst h
          refine ⟨?_, hv.2.1, hv.2.2⟩
          intro q hq; injection hq with hq; subst hq; exact ⟨Nat.le_refl _, hp⟩
        · injection h with h; subst h; exact hv
    | not a =>
      simp only [accStep] at h
      cases h1 : acc U G I n a p err with
      | none => rw [h1] at h; cases h
      | some v =>
        rw [h1] at h
        rcases v with ⟨_ | q, e'⟩
        · injection h with h; subst h
          refine ⟨?_, Nat.le_refl _, id⟩
          intro q hq; injection hq with hq; subst hq; exact ⟨Nat.le_refl _, hp⟩
        · injection h with h; subst h
          refine ⟨?_, Nat.le_max_left _ _, ?_⟩
          · intro q hq; cases hq
          · intro; simp only; omega
    | and a =>
      simp only [accStep] at h
      cases h1 : acc U G I n a p err with
      | none => rw [h1] at h; cases h
      | some v =>
        rw [h1] at h
        rcases v with ⟨_ | q, e'⟩
        · injection h with h; subst h
          refine ⟨?_, Nat.le_max_left _ _, ?_⟩
          · intro q hq; cases hq
          · intro; simp only; omega
        · injection h with h; subst h
          refine ⟨?_, Nat.le_refl _, id⟩
          intro q hq; injection hq with hq; subst hq; exact ⟨Nat.le_refl _, hp⟩
    | lab a => exact ih _ _ _ _ hp h
    | grp a => exact ih _ _ _ _ hp h
    | act f a => exact ih _ _ _ _ hp h

/-! ### The offset does not depend on `perr` -/

/-- The recognised offset, as a relation independent of depth and `perr`. -/
def Recog (e : Expr F) (p : Nat) (o : Option Nat) : Prop := ∃ n err err', acc U G I n e p err = some (o, err')

theorem acc_indep : ∀ n e p err err2 r, acc U G I n e p err = some r →
    ∃ e2, acc U G I n e p err2 = some (r.1, e2) := by
  intro n
  induction n with
  | zero => intro e p err err2 r h; rw [acc_0] at h; cases h
  | succ n ih =>
    intro e p err err2 r h
    rw [acc_s] at h ⊢
    cases e with
    | term t =>
      simp only [accStep] at h ⊢
      cases ht : tm U I t p with
      | inl q => rw [ht] at h; injection h with h; subst h; exact ⟨_, rfl⟩
      | inr x => rw [ht] at h; injection h with h; subst h; exact ⟨_, rfl⟩
    | ref k =>
      simp only [accStep] at h ⊢
      cases h1 : acc U G I n (G.body k) p 0 with
      | none => rw [h1] at h; cases h
      | some v =>
        rw [h1] at h
        rcases v with ⟨_ | q, e'⟩
        · injection h with h; subst h; exact ⟨_, rfl⟩
        · injection h with h; subst h; exact ⟨_, rfl⟩
    | seq a b =>
      simp only [accStep] at h ⊢
      cases h1 : acc U G I n a p err with
      | none => rw [h1] at h; cases h
      | some v =>
        obtain ⟨e2, h2⟩ := ih _ _ _ err2 _ h1
        rw [h1] at h; rw [h2]
        rcases v with ⟨_ | q, e'⟩
        · injection h with h; subst h; exact ⟨_, rfl⟩
        · exact ih _ _ _ _ _ h
    | alt a b =>
      simp only [accStep] at h ⊢
      cases h1 : acc U G I n a p err with
      | none => rw [h1] at h; cases h
      | some v =>
        obtain ⟨e2, h2⟩ := ih _ _ _ err2 _ h1
        rw [h1] at h; rw [h2]
        rcases v with ⟨_ | q, e'⟩
        · exact ih _ _ _ _ _ h
        · injection h with h; subst h; exact ⟨_, rfl⟩
    | plus a =>
      simp only [accStep] at h ⊢
      cases h1 : acc U G I n a p err with
      | none => rw [h1] at h; cases h
      | some v =>
        obtain ⟨e2, h2⟩ := ih _ _ _ err2 _ h1
        rw [h1] at h; rw [h2]
        rcases v with ⟨_ | q, e'⟩
        · injection h with h; subst h; exact ⟨_, rfl⟩
        · exact ih _ _ _ _ _ h
    | star a =>
      simp only [accStep] at h ⊢
      cases h1 : acc U G I n a p err with
      | none => rw [h1] at h; cases h
      | some v =>
        obtain ⟨e2, h2⟩ := ih _ _ _ err2 _ h1
        rw [h1] at h; rw [h2]
        rcases v with ⟨_ | q, e'⟩
        · injection h with h; subst h; exact ⟨_, rfl⟩
        · exact ih _ _ _ _ _ h
    | opt a | not a | and a =>
      simp only [accStep] at h ⊢
      cases h1 : acc U G I n a p err with
      | none => rw [h1] at h; cases h
      | some v =>
        obtain ⟨e2, h2⟩ := ih _ _ _ err2 _ h1
        rw [h1] at h; rw [h2]
        rcases v with ⟨_ | q, e'⟩
        · injection h with h; subst h; exact ⟨_, rfl⟩
        · injection h with h; subst h; exact ⟨_, rfl⟩
    | lab a => exact ih _ _ _ _ _ h
    | grp a => exact ih _ _ _ _ _ h
    | act f a => exact ih _ _ _ _ _ h

theorem Recog.det {e p o o'} (h : Recog U G I e p o) (h' : Recog U G I e p o') : o = o' := by
  obtain ⟨n, err, er, h⟩ := h
  obtain ⟨m, err', er', h'⟩ := h'
  obtain ⟨e2, h2⟩ := acc_indep U G I _ _ _ _ err' _ h
  exact congrArg Prod.fst (acc_det U G I h2 h')

/-! ### `ev` accepts what `acc` accepts -/

/-- The results of `ev` and `acc` for the same call agree. -/
def Agree {X : Type} : Option (Res E X) → Option (Option Nat × Nat) → Prop
  | none, b => b = none
  | some (.ok q _), b => ∃ e, b = some (some q, e)
  | some .fail, b => ∃ e, b = some (none, e)
  | some (.panic _), _ => True

theorem ev_acc : ∀ n e p err, Agree (ev U G I A n e p) (acc U G I n e p err) := by
  intro n
  induction n with
  | zero => intro e p err; rfl
  | succ n ih =>
    intro e p err
    rw [ev_s, acc_s]
    cases e with
    | term t =>
      simp only [evStep, accStep]
      cases ht : tm U I t p with
      | inl q => exact ⟨_, rfl⟩
      | inr x => exact ⟨_, rfl⟩
    | ref k =>
      simp only [evStep, accStep]
      have h1 := ih (G.body k) p 0
      cases h0 : acc U G I n (G.body k) p 0 with
      | none => rfl
      | some w =>
        rcases w with ⟨_ | q, e'⟩
        · exact ⟨_, rfl⟩
        · simp only
          rw [h0] at h1
          cases hv : ev U G I A n (G.body k) p with
          | none => rw [hv] at h1; cases h1
          | some v =>
            rw [hv] at h1
            cases v with
            | ok q x => obtain ⟨e, h1⟩ := h1; injection h1 with h1; injection h1 with h1; injection h1 with h1; subst h1; exact ⟨_, rfl⟩
            | fail => obtain ⟨e, h1⟩ := h1; injection h1 with h1; injection h1 with h1; cases h1
            | panic _ => trivial
    | seq a b =>
      simp only [evStep, accStep]
      have h1 := ih a p err
      cases hv : ev U G I A n a p with
      | none => rw [hv] at h1; rw [show acc U G I n a p err = none from h1]; rfl
      | some v =>
        rw [hv] at h1
        cases v with
        | ok q x =>
          obtain ⟨e, h1⟩ := h1; rw [h1]
          simp only
          have h2 := ih b q e
          cases hw : ev U G I A n b q with
          | none => rw [hw] at h2; exact h2
          | some w =>
            rw [hw] at h2
            cases w <;> exact h2
        | fail => obtain ⟨e, h1⟩ := h1; rw [h1]; exact ⟨_, rfl⟩
        | panic _ => trivial
    | alt a b =>
      simp only [evStep, accStep]
      have h1 := ih a p err
      cases hv : ev U G I A n a p with
      | none => rw [hv] at h1; rw [show acc U G I n a p err = none from h1]; rfl
      | some v =>
        rw [hv] at h1
        cases v with
        | ok q x => obtain ⟨e, h1⟩ := h1; rw [h1]; exact ⟨_, rfl⟩
        | fail => obtain ⟨e, h1⟩ := h1; rw [h1]; exact ih b p e
        | panic _ => trivial
    | plus a =>
      simp only [evStep, accStep]
      have h1 := ih a p err
      cases hv : ev U G I A n a p with
      | none => rw [hv] at h1; rw [show acc U G I n a p err = none from h1]; rfl
      | some v =>
        rw [hv] at h1
        cases v with
        | ok q x =>
          obtain ⟨e, h1⟩ := h1; rw [h1]
          simp only
          have h2 := ih (.star a) q e
          cases hw : ev U G I A n (.star a) q with
          | none => rw [hw] at h2; exact h2
          | some w =>
            rw [hw] at h2
            cases w <;> exact h2
        | fail => obtain ⟨e, h1⟩ := h1; rw [h1]; exact ⟨_, rfl⟩
        | panic _ => trivial
    | star a =>
      simp only [evStep, accStep]
      have h1 := ih a p err
      cases hv : ev U G I A n a p with
      | none => rw [hv] at h1; rw [show acc U G I n a p err = none from h1]; rfl
      | some v =>
        rw [hv] at h1
        cases v with
        | ok q x =>
          obtain ⟨e, h1⟩ := h1; rw [h1]
          simp only
          have h2 := ih (.star a) q e
          cases hw : ev U G I A n (.star a) q with
          | none => rw [hw] at h2; exact h2
          | some w =>
            rw [hw] at h2
            cases w <;> exact h2
        | fail => obtain ⟨e, h1⟩ := h1; rw [h1]; exact ⟨_, rfl⟩
        | panic _ => trivial
    | opt a | not a | and a =>
      simp only [evStep, accStep]
      have h1 := ih a p err
      cases hv : ev U G I A n a p with
      | none => rw [hv] at h1; rw [show acc U G I n a p err = none from h1]; rfl
      | some v =>
        rw [hv] at h1
        cases v with
        | ok q x => obtain ⟨e, h1⟩ := h1; rw [h1]; exact ⟨_, rfl⟩
        | fail => obtain ⟨e, h1⟩ := h1; rw [h1]; exact ⟨_, rfl⟩
        | panic _ => trivial
    | lab a | grp a =>
      simp only [evStep, accStep]
      have h1 := ih a p err
      cases hv : ev U G I A n a p with
      | none => rw [hv] at h1; exact h1
      | some v =>
        rw [hv] at h1
        cases v with
        | ok q x => exact h1
        | fail => exact h1
        | panic _ => trivial
    | act f a =>
      simp only [evStep, accStep]
      have h1 := ih a p err
      cases hv : ev U G I A n a p with
      | none => rw [hv] at h1; exact h1
      | some v =>
        rw [hv] at h1
        cases v with
        | ok q x =>
          simp only
          cases A.act f p q x with
          | ok y => exact h1
          | error e => trivial
        | fail => exact h1
        | panic _ => trivial

/-! ### Termination -/

/-- Whether an expression may succeed without reading; `nl` answers for rules. -/
def nul (nl : Nat → Bool) : Expr F → Bool
  | .term _ => false
  | .ref r => nl r
  | .seq a b => nul nl a && nul nl b
  | .alt a b => nul nl a || nul nl b
  | .opt _ => true
  | .plus a => nul nl a
  | .star _ => true
  | .not _ => true
  | .and _ => true
  | .lab a => nul nl a
  | .grp a => nul nl a
  | .act _ a => nul nl a

/-- All rules that can be called at the start offset have a rank below `k`. -/
def lr (nl : Nat → Bool) (rank : Nat → Nat) (k : Nat) : Expr F → Bool
  | .term _ => true
  | .ref r => rank r < k
  | .seq a b => lr nl rank k a && (!nul nl a || lr nl rank k b)
  | .alt a b => lr nl rank k a && lr nl rank k b
  | .opt a => lr nl rank k a
  | .plus a => lr nl rank k a
  | .star a => lr nl rank k a
  | .not a => lr nl rank k a
  | .and a => lr nl rank k a
  | .lab a => lr nl rank k a
  | .grp a => lr nl rank k a
  | .act _ a => lr nl rank k a

/-- The bodies of repetitions read something. -/
def reps (nl : Nat → Bool) : Expr F → Bool
  | .term _ => true
  | .ref _ => true
  | .seq a b => reps nl a && reps nl b
  | .alt a b => reps nl a && reps nl b
  | .plus a => reps nl a && !nul nl a
  | .star a => reps nl a && !nul nl a
  | .opt a => reps nl a
  | .not a => reps nl a
  | .and a => reps nl a
  | .lab a => reps nl a
  | .grp a => reps nl a
  | .act _ a => reps nl a

/-- Nesting depth; `plus` counts for itself and its loop. -/
def depth : Expr F → Nat
  | .term _ => 1
  | .ref _ => 1
  | .seq a b => max (depth a) (depth b) + 1
  | .alt a b => max (depth a) (depth b) + 1
  | .plus a => depth a + 2
  | .star a => depth a + 1
  | .opt a => depth a + 1
  | .not a => depth a + 1
  | .and a => depth a + 1
  | .lab a => depth a + 1
  | .grp a => depth a + 1
  | .act _ a => depth a + 1

/-- A grammar without left recursion and without repetitions of the empty string: there are ranks
below `R` such that a rule calls at its start only rules of smaller rank. `D` bounds the depth of the
bodies. -/
structure Ranked (nl : Nat → Bool) (rank : Nat → Nat) (R D : Nat) : Prop where
  nul : ∀ r, nul nl (G.body r) = true → nl r = true
  lr : ∀ r, lr nl rank (rank r) (G.body r) = true
  reps : ∀ r, reps nl (G.body r) = true
  depth : ∀ r, depth (G.body r) ≤ D
  rank : ∀ r, rank r < R

variable {nl : Nat → Bool} {rank : Nat → Nat} {R D : Nat}

/-- An expression that is not `nul` reads something when it succeeds. -/
theorem acc_progress (H : ∀ r, nul nl (G.body r) = true → nl r = true) : ∀ n e p err q err',
    p ≤ I.len → nul nl e = false → acc U G I n e p err = some (some q, err') → p < q := by
  intro n
  induction n with
  | zero => intro e p err q err' _ _ h; rw [acc_0] at h; cases h
  | succ n ih =>
    intro e p err q err' hp hn h
    rw [acc_s] at h
    cases e with
    | term t =>
      simp only [accStep] at h
      cases ht : tm U I t p with
      | inl q' => rw [ht] at h; injection h with h; injection h with h; injection h with h; subst h; exact (tm_lt U I ht).1
      | inr x => rw [ht] at h; injection h with h; injection h with h; cases h
    | ref k =>
      simp only [accStep] at h
      cases h1 : acc U G I n (G.body k) p 0 with
      | none => rw [h1] at h; cases h
      | some v =>
        rw [h1] at h
        rcases v with ⟨_ | q', e'⟩
        · injection h with h; injection h with h; cases h
        · injection h with h; injection h with h; injection h with h; subst h
          refine ih _ _ _ _ _ hp ?_ h1
          cases hb : nul nl (G.body k) with
          | false => rfl
          | true => rw [nul] at hn; rw [H k hb] at hn; cases hn
    | seq a b =>
      simp only [accStep] at h
      cases h1 : acc U G I n a p err with
      | none => rw [h1] at h; cases h
      | some v =>
        rw [h1] at h
        rcases v with ⟨_ | q', e'⟩
        · injection h with h; injection h with h; cases h
        · have b1 := acc_bounds U G I _ _ _ _ _ hp h1
          have hq := b1.1 q' rfl
          have b2 := (acc_bounds U G I _ _ _ _ _ hq.2 h).1 q rfl
          rw [nul, Bool.and_eq_false_iff] at hn
          rcases hn with hn | hn
          · have := ih _ _ _ _ _ hp hn h1; omega
          · have := ih _ _ _ _ _ hq.2 hn h; omega
    | alt a b =>
      simp only [accStep] at h
      rw [nul, Bool.or_eq_false_iff] at hn
      cases h1 : acc U G I n a p err with
      | none => rw [h1] at h; cases h
      | some v =>
        rw [h1] at h
        rcases v with ⟨_ | q', e'⟩
        · exact ih _ _ _ _ _ hp hn.2 h
        · injection h with h; injection h with h; injection h with h; subst h
          exact ih _ _ _ _ _ hp hn.1 h1
    | plus a =>
      simp only [accStep] at h
      cases h1 : acc U G I n a p err with
      | none => rw [h1] at h; cases h
      | some v =>
        rw [h1] at h
        rcases v with ⟨_ | q', e'⟩
        · injection h with h; injection h with h; cases h
        · have b1 := acc_bounds U G I _ _ _ _ _ hp h1
          have hq := b1.1 q' rfl
          have b2 := (acc_bounds U G I _ _ _ _ _ hq.2 h).1 q rfl
          have := ih a _ _ _ _ hp hn h1
          omega
    | opt a => cases hn
    | star a => cases hn
    | not a => cases hn
    | and a => cases hn
    | lab a => exact ih a _ _ _ _ hp hn h
    | grp a => exact ih a _ _ _ _ hp hn h
    | act f a => exact ih a _ _ _ _ hp hn h

theorem lr_top (hr : ∀ r, rank r < R) : ∀ e : Expr F, lr nl rank R e = true := by
  intro e
  induction e with
  | term t => rfl
  | ref r => simp [lr, hr]
  | seq a b iha ihb => simp [lr, iha, ihb]
  | alt a b iha ihb => simp [lr, iha, ihb]
  | opt a ih | plus a ih | star a ih | not a ih | and a ih | lab a ih | grp a ih => simpa [lr] using ih
  | act f a ih => simpa [lr] using ih

/-- The call depth that suffices at offset `p` for an expression with first calls of rank below `k`. -/
def need (len R D p k d : Nat) : Nat := (len - p) * ((R + 1) * (D + 2)) + k * (D + 2) + d

theorem need_advance {len R D p q k d k' : Nat} (hpq : p < q) (hq : q ≤ len) (hk : k ≤ R) (hd : d ≤ D + 1) :
    need len R D q k d ≤ need len R D p k' 0 := by
  unfold need
  have h1 : k * (D + 2) ≤ R * (D + 2) := Nat.mul_le_mul_right _ hk
  have h2 : (R + 1) * (D + 2) = R * (D + 2) + (D + 2) := Nat.succ_mul _ _
  have h3 : (len - p) * ((R + 1) * (D + 2)) ≥ (len - q + 1) * ((R + 1) * (D + 2)) :=
    Nat.mul_le_mul_right _ (by omega)
  have h4 : (len - q + 1) * ((R + 1) * (D + 2)) = (len - q) * ((R + 1) * (D + 2)) + (R + 1) * (D + 2) := Nat.succ_mul _ _
  generalize (len - p) * ((R + 1) * (D + 2)) = a at *
  generalize (len - q) * ((R + 1) * (D + 2)) = b at *
  generalize k * (D + 2) = c at *
  generalize k' * (D + 2) = c' at *
  generalize R * (D + 2) = m at *
  omega

/-- Termination: with depth `need`, `acc` returns. -/
theorem acc_total (H : Ranked G nl rank R D) : ∀ n e p err k, p ≤ I.len → k ≤ R →
    lr nl rank k e = true → reps nl e = true → depth e ≤ D + 1 →
    need I.len R D p k (depth e) ≤ n → acc U G I n e p err ≠ none := by
  intro n
  induction n with
  | zero =>
    intro e p err k _ _ _ _ _ hn
    exfalso
    have : 0 < depth e := by cases e <;> simp [depth]
    unfold need at hn
    omega
  | succ n ih =>
    intro e p err k hp hk hl hr hd hn
    rw [acc_s]
    -- a call of a smaller expression at the same offset
    have here : ∀ (a : Expr F) (er : Nat), lr nl rank k a = true → reps nl a = true → depth a < depth e →
        acc U G I n a p er ≠ none := by
      intro a er h1 h2 h3
      refine ih _ _ _ _ hp hk h1 h2 (by omega) ?_
      unfold need at hn ⊢; omega
    -- a call at a later offset
    have later : ∀ (b : Expr F) (q er : Nat), p < q → q ≤ I.len → reps nl b = true → depth b ≤ D + 1 →
        acc U G I n b q er ≠ none := by
      intro b q er h1 h2 h3 h4
      refine ih _ _ _ R h2 (Nat.le_refl _) (lr_top H.rank b) h3 h4 ?_
      have := @need_advance I.len R D p q R (depth b) k h1 h2 (Nat.le_refl _) h4
      have : 0 < depth e := by cases e <;> simp [depth]
      unfold need at *
      omega
    cases e with
    | term t =>
      simp only [accStep]
      cases tm U I t p <;> exact Option.some_ne_none _
    | ref r =>
      simp only [accStep]
      have : acc U G I n (G.body r) p 0 ≠ none := by
        simp only [lr, decide_eq_true_eq] at hl
        refine ih _ _ _ (rank r) hp (by omega) (H.lr r) (H.reps r) (by have := H.depth r; omega) ?_
        have h2 : (rank r + 1) * (D + 2) ≤ k * (D + 2) := Nat.mul_le_mul_right _ hl
        have h3 : (rank r + 1) * (D + 2) = rank r * (D + 2) + (D + 2) := Nat.succ_mul _ _
        have := H.depth r
        simp only [depth] at hn
        unfold need at *
        omega
      cases h1 : acc U G I n (G.body r) p 0 with
      | none => exact absurd h1 this
      | some v =>
        rcases v with ⟨_ | q, e'⟩ <;> exact Option.some_ne_none _
    | seq a b =>
      simp only [accStep]
      simp only [depth] at hd here
      simp only [reps, Bool.and_eq_true] at hr
      simp only [lr, Bool.and_eq_true, Bool.or_eq_true, Bool.not_eq_true'] at hl
      cases h1 : acc U G I n a p err with
      | none => exact absurd h1 (here a _ hl.1 hr.1 (by omega))
      | some v =>
        rcases v with ⟨_ | q, e'⟩
        · exact Option.some_ne_none _
        · have hq := (acc_bounds U G I _ _ _ _ _ hp h1).1 q rfl
          by_cases hpq : p < q
          · exact later b q _ hpq hq.2 hr.2 (by omega)
          · have : q = p := by omega
            subst this
            rcases hl.2 with hl | hl
            · exact absurd (acc_progress U G I H.nul _ _ _ _ _ _ hp hl h1) (Nat.lt_irrefl _)
            · exact here b _ hl hr.2 (by omega)
    | alt a b =>
      simp only [accStep]
      simp only [depth] at hd here
      simp only [reps, Bool.and_eq_true] at hr
      simp only [lr, Bool.and_eq_true] at hl
      cases h1 : acc U G I n a p err with
      | none => exact absurd h1 (here a _ hl.1 hr.1 (by omega))
      | some v =>
        rcases v with ⟨_ | q, e'⟩
        · exact here b _ hl.2 hr.2 (by omega)
        · exact Option.some_ne_none _
    | plus a =>
      simp only [accStep]
      simp only [depth] at hd here
      simp only [reps, Bool.and_eq_true, Bool.not_eq_true'] at hr
      simp only [lr] at hl
      cases h1 : acc U G I n a p err with
      | none => exact absurd h1 (here a _ hl hr.1 (by omega))
      | some v =>
        rcases v with ⟨_ | q, e'⟩
        · exact Option.some_ne_none _
        · have hq := (acc_bounds U G I _ _ _ _ _ hp h1).1 q rfl
          exact later (.star a) q _ (acc_progress U G I H.nul _ _ _ _ _ _ hp hr.2 h1) hq.2
            (by simp [reps, hr]) (by simp [depth]; omega)
    | star a =>
      simp only [accStep]
      simp only [depth] at hd here
      simp only [reps, Bool.and_eq_true, Bool.not_eq_true'] at hr
      simp only [lr] at hl
      cases h1 : acc U G I n a p err with
      | none => exact absurd h1 (here a _ hl hr.1 (by omega))
      | some v =>
        rcases v with ⟨_ | q, e'⟩
        · exact Option.some_ne_none _
        · have hq := (acc_bounds U G I _ _ _ _ _ hp h1).1 q rfl
          exact later (.star a) q _ (acc_progress U G I H.nul _ _ _ _ _ _ hp hr.2 h1) hq.2
            (by simp [reps, hr]) (by simp [depth]; omega)
    | opt a =>
      simp only [accStep]
      simp only [depth] at here
      cases h1 : acc U G I n a p err with
      | none => exact absurd h1 (here a _ hl hr (by omega))
      | some v => rcases v with ⟨_ | q, e'⟩ <;> exact Option.some_ne_none _
    | not a =>
      simp only [accStep]
      simp only [depth] at here
      cases h1 : acc U G I n a p err with
      | none => exact absurd h1 (here a _ hl hr (by omega))
      | some v => rcases v with ⟨_ | q, e'⟩ <;> exact Option.some_ne_none _
    | and a =>
      simp only [accStep]
      simp only [depth] at here
      cases h1 : acc U G I n a p err with
      | none => exact absurd h1 (here a _ hl hr (by omega))
      | some v => rcases v with ⟨_ | q, e'⟩ <;> exact Option.some_ne_none _
    | lab a => simp only [depth] at here; exact here a _ hl hr (by omega)
    | grp a => simp only [depth] at here; exact here a _ hl hr (by omega)
    | act f a => simp only [depth] at here; exact here a _ hl hr (by omega)

/-- The call depth that suffices for every rule of the grammar at every offset of a text. -/
def enough (len R D : Nat) : Nat := (len + 1) * ((R + 1) * (D + 2))

theorem acc_total_ref (H : Ranked G nl rank R D) (r p err : Nat) (hp : p ≤ I.len) :
    acc U G I (enough I.len R D) (.ref r) p err ≠ none := by
  refine acc_total U G I H _ _ _ _ R hp (Nat.le_refl _) (lr_top H.rank _) rfl (by simp [depth]) ?_
  unfold need enough
  have h1 : (I.len - p) * ((R + 1) * (D + 2)) ≤ I.len * ((R + 1) * (D + 2)) := Nat.mul_le_mul_right _ (by omega)
  have h2 : (I.len + 1) * ((R + 1) * (D + 2)) = I.len * ((R + 1) * (D + 2)) + (R + 1) * (D + 2) := Nat.succ_mul _ _
  have h3 : (R + 1) * (D + 2) = R * (D + 2) + (D + 2) := Nat.succ_mul _ _
  simp only [depth]
  omega

theorem ev_total {n e p} (h : acc U G I n e p 0 ≠ none) : ev U G I A n e p ≠ none := by
  intro h0
  have := ev_acc U G I A n e p 0
  rw [h0] at this
  exact h this

end Verif.Peg
