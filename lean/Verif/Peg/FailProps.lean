/- Properties of the Fail functions: they end, they stay in the text, and what the tree says is true. -/
import Verif.Peg.FailPass

namespace Verif.Peg
open Verif.Tone (Str)

variable {F : Type} (U : Uni) (G : Gram F) (I : Input) (d : Tab (Option Nat × Nat)) (last err : Nat)

/-- The kids after a call. -/
def addKid (f : Fail (Want F)) (ks : List (Fail (Want F))) : List (Fail (Want F)) :=
  if f.counts then ks ++ [f] else ks

/-- The Fail functions as a relation. -/
inductive FRun : Expr F → Nat → List (Fail (Want F)) → FS F → Option Nat → List (Fail (Want F)) → FS F → Prop
  | termOk {t p ks s q} : tm U I t p = .inl q → FRun (.term t) p ks s (some q) ks s
  | termNo {t p ks s x} : tm U I t p = .inr x →
      FRun (.term t) p ks s none (addLeaf err x (.term t) ks s).1 (addLeaf err x (.term t) ks s).2
  | memo {r p ks s o f} : failMemo d last err r p s = some (o, f) →
      FRun (.ref r) p ks s o (addKid f ks) ⟨s.tab, s.next + 1⟩
  | body {r p ks s o kids s'} : failMemo d last err r p s = none → FRun (G.body r) p [] s o kids s' →
      FRun (.ref r) p ks s o (addKid (ruleFail G r p o kids s'.next) ks)
        ⟨s'.tab.put p r (ruleFail G r p o kids s'.next), s'.next + 1⟩
  | seqNo {a b p ks s ks' s'} : FRun a p ks s none ks' s' → FRun (.seq a b) p ks s none ks' s'
  | seqOk {a b p ks s q ks' s' o ks'' s''} : FRun a p ks s (some q) ks' s' → FRun b q ks' s' o ks'' s'' →
      FRun (.seq a b) p ks s o ks'' s''
  | altL {a b p ks s q ks' s'} : FRun a p ks s (some q) ks' s' → FRun (.alt a b) p ks s (some q) ks' s'
  | altR {a b p ks s ks' s' o ks'' s''} : FRun a p ks s none ks' s' → FRun b p ks' s' o ks'' s'' →
      FRun (.alt a b) p ks s o ks'' s''
  | optOk {a p ks s q ks' s'} : FRun a p ks s (some q) ks' s' → FRun (.opt a) p ks s (some q) ks' s'
  | optNo {a p ks s ks' s'} : FRun a p ks s none ks' s' → FRun (.opt a) p ks s (some p) ks' s'
  | plusNo {a p ks s ks' s'} : FRun a p ks s none ks' s' → FRun (.plus a) p ks s none ks' s'
  | plusOk {a p ks s q ks' s' o ks'' s''} : FRun a p ks s (some q) ks' s' → FRun (.star a) q ks' s' o ks'' s'' →
      FRun (.plus a) p ks s o ks'' s''
  | starNo {a p ks s ks' s'} : FRun a p ks s none ks' s' → FRun (.star a) p ks s (some p) ks' s'
  | starOk {a p ks s q ks' s' o ks'' s''} : FRun a p ks s (some q) ks' s' → FRun (.star a) q ks' s' o ks'' s'' →
      FRun (.star a) p ks s o ks'' s''
  | notNo {a p ks s q ks' s'} : FRun a p ks s (some q) ks' s' →
      FRun (.not a) p ks s none (addLeaf err p (.not a) ks s').1 (addLeaf err p (.not a) ks s').2
  | notOk {a p ks s ks' s'} : FRun a p ks s none ks' s' → FRun (.not a) p ks s (some p) ks s'
  | andOk {a p ks s q ks' s'} : FRun a p ks s (some q) ks' s' → FRun (.and a) p ks s (some p) ks s'
  | andNo {a p ks s ks' s'} : FRun a p ks s none ks' s' →
      FRun (.and a) p ks s none (addLeaf err p (.and a) ks s').1 (addLeaf err p (.and a) ks s').2
  | lab {a p ks s o ks' s'} : FRun a p ks s o ks' s' → FRun (.lab a) p ks s o ks' s'
  | grp {a p ks s o ks' s'} : FRun a p ks s o ks' s' → FRun (.grp a) p ks s o ks' s'
  | act {f a p ks s o ks' s'} : FRun a p ks s o ks' s' → FRun (.act f a) p ks s o ks' s'

theorem failM_s (n) (e : Expr F) (p ks s) :
    failM U G I d last err (n+1) e p ks s = failStep U G I d last err (failM U G I d last err n) e p ks s := rfl

theorem failM_run : ∀ n e p ks s o ks' s', failM U G I d last err n e p ks s = some ((o, ks'), s') →
    FRun U G I d last err e p ks s o ks' s' := by
  intro n
  induction n with
  | zero => intro e p ks s o ks' s' h; cases h
  | succ n ih =>
    intro e p ks s o ks' s' h
    rw [failM_s] at h
    cases e with
    | term t =>
      simp only [failStep] at h
      cases ht : tm U I t p with
      | inl q => rw [ht] at h; cases h; exact .termOk ht
      | inr x => rw [ht] at h; cases h; exact .termNo ht
    | ref r =>
      simp only [failStep] at h
      cases hm : failMemo d last err r p s with
      | some v => rw [hm] at h; cases h; exact .memo hm
      | none =>
        rw [hm] at h
        cases h1 : failM U G I d last err n (G.body r) p [] s with
        | none => rw [h1] at h; cases h
        | some v => rw [h1] at h; cases h; exact .body hm (ih _ _ _ _ _ _ _ h1)
    | seq a b =>
      simp only [failStep] at h
      cases h1 : failM U G I d last err n a p ks s with
      | none => rw [h1] at h; cases h
      | some v =>
        rw [h1] at h
        obtain ⟨⟨_ | q, k1⟩, s1⟩ := v
        · cases h; exact .seqNo (ih _ _ _ _ _ _ _ h1)
        · exact .seqOk (ih _ _ _ _ _ _ _ h1) (ih _ _ _ _ _ _ _ h)
    | alt a b =>
      simp only [failStep] at h
      cases h1 : failM U G I d last err n a p ks s with
      | none => rw [h1] at h; cases h
      | some v =>
        rw [h1] at h
        obtain ⟨⟨_ | q, k1⟩, s1⟩ := v
        · exact .altR (ih _ _ _ _ _ _ _ h1) (ih _ _ _ _ _ _ _ h)
        · cases h; exact .altL (ih _ _ _ _ _ _ _ h1)
    | opt a =>
      simp only [failStep] at h
      cases h1 : failM U G I d last err n a p ks s with
      | none => rw [h1] at h; cases h
      | some v =>
        rw [h1] at h
        obtain ⟨⟨_ | q, k1⟩, s1⟩ := v
        · cases h; exact .optNo (ih _ _ _ _ _ _ _ h1)
        · cases h; exact .optOk (ih _ _ _ _ _ _ _ h1)
    | plus a =>
      simp only [failStep] at h
      cases h1 : failM U G I d last err n a p ks s with
      | none => rw [h1] at h; cases h
      | some v =>
        rw [h1] at h
        obtain ⟨⟨_ | q, k1⟩, s1⟩ := v
        · cases h; exact .plusNo (ih _ _ _ _ _ _ _ h1)
        · exact .plusOk (ih _ _ _ _ _ _ _ h1) (ih _ _ _ _ _ _ _ h)
    | star a =>
      simp only [failStep] at h
      cases h1 : failM U G I d last err n a p ks s with
      | none => rw [h1] at h; cases h
      | some v =>
        rw [h1] at h
        obtain ⟨⟨_ | q, k1⟩, s1⟩ := v
        · cases h; exact .starNo (ih _ _ _ _ _ _ _ h1)
        · exact .starOk (ih _ _ _ _ _ _ _ h1) (ih _ _ _ _ _ _ _ h)
    | not a =>
      simp only [failStep] at h
      cases h1 : failM U G I d last err n a p ks s with
      | none => rw [h1] at h; cases h
      | some v =>
        rw [h1] at h
        obtain ⟨⟨_ | q, k1⟩, s1⟩ := v
        · cases h; exact .notOk (ih _ _ _ _ _ _ _ h1)
        · cases h; exact .notNo (ih _ _ _ _ _ _ _ h1)
    | and a =>
      simp only [failStep] at h
      cases h1 : failM U G I d last err n a p ks s with
      | none => rw [h1] at h; cases h
      | some v =>
        rw [h1] at h
        obtain ⟨⟨_ | q, k1⟩, s1⟩ := v
        · cases h; exact .andNo (ih _ _ _ _ _ _ _ h1)
        · cases h; exact .andOk (ih _ _ _ _ _ _ _ h1)
    | lab a => exact .lab (ih _ _ _ _ _ _ _ h)
    | grp a => exact .grp (ih _ _ _ _ _ _ _ h)
    | act f a => exact .act (ih _ _ _ _ _ _ _ h)

variable {U G I d last err}

/-! ### Offsets -/

/-- What the memo says about a call: nothing, or the result of the Accepts functions. -/
theorem failMemo_res {r p : Nat} {s : FS F} {o : Option Nat} {f : Fail (Want F)} (h : failMemo d last err r p s = some (o, f)) :
    o = none ∨ ∃ e, d.get p r = some (o, e) := by
  unfold failMemo at h
  split at h
  · cases h; exact .inl rfl
  · cases hd : d.get p r with
    | none => rw [hd] at h; simp only at h; split at h <;> cases h; exact .inl rfl
    | some v =>
      obtain ⟨o', e⟩ := v
      rw [hd] at h
      simp only at h
      split at h
      · cases h; exact .inr ⟨e, rfl⟩
      · cases hf : s.tab.get p r with
        | none => rw [hf] at h; cases h
        | some g => rw [hf] at h; cases h; exact .inr ⟨e, rfl⟩

theorem FRun.bounds (hd : AccInv U G I d) {nl : Nat → Bool}
    (H : ∀ r, nul nl (G.body r) = true → nl r = true) {e p ks s o ks' s'}
    (h : FRun U G I d last err e p ks s o ks' s') :
    p ≤ I.len → ∀ q, o = some q → p ≤ q ∧ q ≤ I.len ∧ (nul nl e = false → p < q) := by
  induction h with
  | termOk ht => intro hp q hq; cases hq; have := tm_lt U I ht; exact ⟨by omega, this.2, fun _ => this.1⟩
  | memo hm =>
    rename_i r p ks s o f
    intro hp q hq
    subst hq
    rcases failMemo_res hm with h | ⟨e, h⟩
    · cases h
    · obtain ⟨⟨n, hn⟩, _⟩ := hd _ _ _ h
      have b := (acc_bounds U G I _ _ _ _ _ hp hn).1 q rfl
      exact ⟨b.1, b.2, fun hn' => acc_progress U G I H _ _ _ _ _ _ hp hn' hn⟩
  | body hm _ ih =>
    rename_i r p ks s o kids s' _
    intro hp q hq
    obtain ⟨h1, h2, h3⟩ := ih hp q hq
    refine ⟨h1, h2, fun hn => h3 ?_⟩
    cases hb : nul nl (G.body r) with
    | false => rfl
    | true => rw [nul, H _ hb] at hn; cases hn
  | seqOk _ _ iha ihb =>
    intro hp q hq
    have a := iha hp _ rfl
    have b := ihb a.2.1 q hq
    refine ⟨by omega, b.2.1, fun hn => ?_⟩
    rw [nul, Bool.and_eq_false_iff] at hn
    rcases hn with hn | hn
    · have := a.2.2 hn; omega
    · have := b.2.2 hn; omega
  | altL _ iha =>
    intro hp q hq
    have a := iha hp q hq
    exact ⟨a.1, a.2.1, fun hn => a.2.2 (by rw [nul, Bool.or_eq_false_iff] at hn; exact hn.1)⟩
  | altR _ _ _ ihb =>
    intro hp q hq
    have a := ihb hp q hq
    exact ⟨a.1, a.2.1, fun hn => a.2.2 (by rw [nul, Bool.or_eq_false_iff] at hn; exact hn.2)⟩
  | optOk _ iha => intro hp q hq; have a := iha hp q hq; exact ⟨a.1, a.2.1, fun hn => by cases hn⟩
  | plusOk _ _ iha ihb =>
    intro hp q hq
    have a := iha hp _ rfl
    have b := ihb a.2.1 q hq
    exact ⟨by omega, b.2.1, fun hn => by have := a.2.2 hn; omega⟩
  | starOk _ _ iha ihb =>
    intro hp q hq
    have a := iha hp _ rfl
    have b := ihb a.2.1 q hq
    exact ⟨by omega, b.2.1, fun hn => by cases hn⟩
  | optNo _ _ | starNo _ _ | notOk _ _ | andOk _ _ =>
    intro hp q hq; cases hq; exact ⟨Nat.le_refl _, hp, fun hn => by cases hn⟩
  | termNo _ | seqNo _ _ | plusNo _ _ | notNo _ _ | andNo _ _ => intro hp q hq; cases hq
  | lab _ ih | grp _ ih | act _ ih => exact ih

/-! ### Termination -/

variable {nl : Nat → Bool} {rank : Nat → Nat} {R D : Nat} (U G I d last err)

theorem failM_total (hd : AccInv U G I d) (H : Ranked G nl rank R D) : ∀ n e p ks s k, p ≤ I.len → k ≤ R →
    lr nl rank k e = true → reps nl e = true → depth e ≤ D + 1 →
    need I.len R D p k (depth e) ≤ n → failM U G I d last err n e p ks s ≠ none := by
  intro n
  induction n with
  | zero =>
    intro e p ks s k _ _ _ _ _ hn
    exfalso
    have : 0 < depth e := by cases e <;> simp [depth]
    unfold need at hn
    omega
  | succ n ih =>
    intro e p ks s k hp hk hl hr hd' hn
    rw [failM_s]
    have here : ∀ (a : Expr F) ks s, lr nl rank k a = true → reps nl a = true → depth a < depth e →
        failM U G I d last err n a p ks s ≠ none := by
      intro a ks s h1 h2 h3
      refine ih _ _ _ _ _ hp hk h1 h2 (by omega) ?_
      unfold need at hn ⊢; omega
    have later : ∀ (b : Expr F) (q : Nat) ks s, p < q → q ≤ I.len → reps nl b = true → depth b ≤ D + 1 →
        failM U G I d last err n b q ks s ≠ none := by
      intro b q ks s h1 h2 h3 h4
      refine ih _ _ _ _ R h2 (Nat.le_refl _) (lr_top H.rank b) h3 h4 ?_
      have := @need_advance I.len R D p q R (depth b) k h1 h2 (Nat.le_refl _) h4
      have : 0 < depth e := by cases e <;> simp [depth]
      unfold need at *
      omega
    have bnd : ∀ {a : Expr F} {ks s q ks' s'}, failM U G I d last err n a p ks s = some ((some q, ks'), s') →
        p ≤ q ∧ q ≤ I.len ∧ (nul nl a = false → p < q) := fun h =>
      (failM_run U G I d last err _ _ _ _ _ _ _ _ h).bounds hd H.nul hp _ rfl
    cases e with
    | term t =>
      simp only [failStep]
      cases tm U I t p <;> exact Option.some_ne_none _
    | ref r =>
      simp only [failStep]
      cases failMemo d last err r p s with
      | some v => exact Option.some_ne_none _
      | none =>
        have : failM U G I d last err n (G.body r) p [] s ≠ none := by
          simp only [lr, decide_eq_true_eq] at hl
          refine ih _ _ _ _ (rank r) hp (by omega) (H.lr r) (H.reps r) (by have := H.depth r; omega) ?_
          have h2 : (rank r + 1) * (D + 2) ≤ k * (D + 2) := Nat.mul_le_mul_right _ hl
          have h3 : (rank r + 1) * (D + 2) = rank r * (D + 2) + (D + 2) := Nat.succ_mul _ _
          have := H.depth r
          simp only [depth] at hn
          unfold need at *
          omega
        simp only
        cases h1 : failM U G I d last err n (G.body r) p [] s with
        | none => exact absurd h1 this
        | some v => exact Option.some_ne_none _
    | seq a b =>
      simp only [failStep]
      simp only [depth] at hd' here
      simp only [reps, Bool.and_eq_true] at hr
      simp only [lr, Bool.and_eq_true, Bool.or_eq_true, Bool.not_eq_true'] at hl
      cases h1 : failM U G I d last err n a p ks s with
      | none => exact absurd h1 (here a _ _ hl.1 hr.1 (by omega))
      | some v =>
        obtain ⟨⟨_ | q, k1⟩, s1⟩ := v
        · exact Option.some_ne_none _
        · have hq := bnd h1
          by_cases hpq : p < q
          · exact later b q _ _ hpq hq.2.1 hr.2 (by omega)
          · have : q = p := by omega
            subst this
            rcases hl.2 with hl | hl
            · exact absurd (hq.2.2 hl) (Nat.lt_irrefl _)
            · exact here b _ _ hl hr.2 (by omega)
    | alt a b =>
      simp only [failStep]
      simp only [depth] at hd' here
      simp only [reps, Bool.and_eq_true] at hr
      simp only [lr, Bool.and_eq_true] at hl
      cases h1 : failM U G I d last err n a p ks s with
      | none => exact absurd h1 (here a _ _ hl.1 hr.1 (by omega))
      | some v =>
        obtain ⟨⟨_ | q, k1⟩, s1⟩ := v
        · exact here b _ _ hl.2 hr.2 (by omega)
        · exact Option.some_ne_none _
    | plus a =>
      simp only [failStep]
      simp only [depth] at hd' here
      simp only [reps, Bool.and_eq_true, Bool.not_eq_true'] at hr
      simp only [lr] at hl
      cases h1 : failM U G I d last err n a p ks s with
      | none => exact absurd h1 (here a _ _ hl hr.1 (by omega))
      | some v =>
        obtain ⟨⟨_ | q, k1⟩, s1⟩ := v
        · exact Option.some_ne_none _
        · have hq := bnd h1
          exact later (.star a) q _ _ (hq.2.2 hr.2) hq.2.1 (by simp [reps, hr]) (by simp [depth]; omega)
    | star a =>
      simp only [failStep]
      simp only [depth] at hd' here
      simp only [reps, Bool.and_eq_true, Bool.not_eq_true'] at hr
      simp only [lr] at hl
      cases h1 : failM U G I d last err n a p ks s with
      | none => exact absurd h1 (here a _ _ hl hr.1 (by omega))
      | some v =>
        obtain ⟨⟨_ | q, k1⟩, s1⟩ := v
        · exact Option.some_ne_none _
        · have hq := bnd h1
          exact later (.star a) q _ _ (hq.2.2 hr.2) hq.2.1 (by simp [reps, hr]) (by simp [depth]; omega)
    | opt a | not a | and a =>
      simp only [failStep]
      simp only [depth] at here
      cases h1 : failM U G I d last err n a p ks s with
      | none => exact absurd h1 (here a _ _ hl hr (by omega))
      | some v => obtain ⟨⟨_ | q, k1⟩, s1⟩ := v <;> exact Option.some_ne_none _
    | lab a => simp only [depth] at here; exact here a _ _ hl hr (by omega)
    | grp a => simp only [depth] at here; exact here a _ _ hl hr (by omega)
    | act f a => simp only [depth] at here; exact here a _ _ hl hr (by omega)

/-- The Fail functions return. -/
theorem failRule_total (hd : AccInv U G I d) (H : Ranked G nl rank R D) (r p : Nat) (s : FS F) (hp : p ≤ I.len) :
    failRule U G I d last err (enough I.len R D) r p s ≠ none := by
  unfold failRule
  cases failMemo d last err r p s with
  | some v => exact Option.some_ne_none _
  | none =>
    have : failM U G I d last err (enough I.len R D) (G.body r) p [] s ≠ none := by
      refine failM_total U G I d last err hd H _ _ _ _ _ R hp (Nat.le_refl _) (lr_top H.rank _) (H.reps r)
        (by have := H.depth r; omega) ?_
      unfold need enough
      have h1 : (I.len - p) * ((R + 1) * (D + 2)) ≤ I.len * ((R + 1) * (D + 2)) := Nat.mul_le_mul_right _ (by omega)
      have h2 : (I.len + 1) * ((R + 1) * (D + 2)) = I.len * ((R + 1) * (D + 2)) + (R + 1) * (D + 2) := Nat.succ_mul _ _
      have h3 : (R + 1) * (D + 2) = R * (D + 2) + (D + 2) := Nat.succ_mul _ _
      have := H.depth r
      omega
    simp only
    cases h1 : failM U G I d last err (enough I.len R D) (G.body r) p [] s with
    | none => exact absurd h1 this
    | some v => exact Option.some_ne_none _

end Verif.Peg
