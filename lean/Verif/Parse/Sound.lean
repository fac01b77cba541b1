/-
Soundness of the type checker: the Action functions give values of the types of the rules.
-/
import Verif.Parse.ActProps
import Verif.Parse.Check

namespace Verif.Parse
open Verif.AST Verif.AST.Spec Verif.Peg
open Verif.Tone (Str)

variable {U : Uni} {I : Input}

variable (I) in
/-- A result of an expression of the type. -/
def Sound (t : Ty) (es : List Ent) (p : Nat) : Res Err (Val × List Val) → Prop
  | .ok q x => Mean I t p q x.1 ∧ Env I es p q x.2
  | .fail => True
  | .panic e => e = .index ∧ HasDigit I

variable (I) in
def SoundRep (t : Ty) (p : Nat) : Res Err (Val × List Val) → Prop
  | .ok q x => ((x.1 = .nil ∧ p = q) ∨ Mean I (repTy t) p q x.1) ∧ x.2 = []
  | .fail => True
  | .panic e => e = .index ∧ HasDigit I

theorem infer_ok (hU : U.punct 'i' = false) (G : Gram Act) (rt : Nat → Ty)
    (hrt : ∀ r, checkRule rt (G.body r) (rt r) = true) : ∀ n,
    (∀ e t es p res, infer rt e = some (t, es) → ev U G I (actAlg I) n e p = some res → Sound I t es p res) ∧
    (∀ a t es p res, infer rt a = some (t, es) → unlabelled es = true →
      ev U G I (actAlg I) n (.star a) p = some res → SoundRep I t p res) := by
  intro n
  induction n with
  | zero => 
    refine ⟨?_, ?_⟩
    · intro e t es p res _ h
      rw [ev_0] at h
      cases h
    · intro a t es p res _ _ h
      rw [ev_0] at h
      cases h
  | succ n ih =>
    obtain ⟨ih, ihs⟩ := ih
    constructor
    · intro e t es p res hi h
      rw [ev_s] at h
      cases e with
      | term tt =>
        simp only [infer, Option.some.injEq] at hi
        have h1 : t = leafTy tt := by rw [single] at hi; injection hi with h _; exact h.symm
        have h2 : es = (single (leafTy tt)).2 := by rw [hi]
        simp only [evStep] at h
        cases ht : tm U I tt p with
        | inl q =>
          rw [ht] at h
          injection h with h
          subst h h1 h2
          have := leafTy_mean U hU ht
          exact ⟨this, Env.single this⟩
        | inr x => rw [ht] at h; injection h with h; subst h; trivial
      | ref r =>
        simp only [infer, Option.some.injEq] at hi
        have h1 : t = rt r := by rw [single] at hi; injection hi with h _; exact h.symm
        have h2 : es = (single (rt r)).2 := by rw [hi]
        simp only [evStep] at h
        split at h
        · cases h
        · injection h with h; subst h; trivial
        · have hc := hrt r
          unfold checkRule at hc
          split at hc
          · rename_i u us hu
            split at h
            · rename_i q x hx
              injection h with h
              subst h h1 h2
              have := sub_mean hc (ih _ _ _ _ _ hu hx).1
              exact ⟨this, Env.single this⟩
            · rename_i hne
              have := ih _ _ _ _ _ hu h
              cases res with
              | ok q x => exact absurd h (hne q x)
              | fail => trivial
              | panic e => exact this
          · cases hc
      | seq a b =>
        simp only [infer] at hi
        split at hi
        · rename_i ta ea tb eb ha hb
          injection hi with hi
          injection hi with h1 h2
          subst h1 h2
          simp only [evStep] at h
          split at h
          · rename_i q x hx
            have s1 := ih _ _ _ _ _ ha hx
            split at h
            · rename_i q' y hy
              injection h with h
              subst h
              have s2 := ih _ _ _ _ _ hb hy
              exact ⟨seqTy_mean s1.1 s2.1, s1.2.append s2.2⟩
            · rename_i hne
              have := ih _ _ _ _ _ hb h
              cases res with
              | ok q x => exact absurd h (hne q x)
              | fail => trivial
              | panic e => exact this
          · rename_i hne
            have := ih _ _ _ _ _ ha h
            cases res with
            | ok q x => exact absurd h (hne q x)
            | fail => trivial
            | panic e => exact this
        · cases hi
      | alt a b =>
        simp only [infer] at hi
        split at hi
        · rename_i ta ea tb eb ha hb
          split at hi
          · rename_i hu
            simp only [Bool.and_eq_true] at hu
            injection hi with hi
            have h1 : t = join ta tb := by rw [single] at hi; injection hi with h _; exact h.symm
            have h2 : es = (single (join ta tb)).2 := by rw [hi]
            subst h1 h2
            simp only [evStep] at h
            split at h
            · have s2 := ih _ _ _ _ _ hb h
              cases res with
              | ok q x =>
                have := join_mean (a := ta) (.inr s2.1)
                exact ⟨this, by rw [s2.2.unlabelled hu.2]; exact Env.single this⟩
              | fail => trivial
              | panic e => exact s2
            · have s2 := ih _ _ _ _ _ ha h
              cases res with
              | ok q x =>
                have := join_mean (b := tb) (.inl s2.1)
                exact ⟨this, by rw [s2.2.unlabelled hu.1]; exact Env.single this⟩
              | fail => trivial
              | panic e => exact s2
          · cases hi
        · cases hi
      | opt a =>
        simp only [infer] at hi
        split at hi
        · rename_i ta ea ha
          split at hi
          · rename_i hu
            injection hi with hi
            have h1 : t = optTy ta := by rw [single] at hi; injection hi with h _; exact h.symm
            have h2 : es = (single (optTy ta)).2 := by rw [hi]
            subst h1 h2
            simp only [evStep] at h
            split at h
            · injection h with h
              subst h
              have := optTy_mean (I := I) (a := ta) (p := p) (q := p) (v := .nil) (.inl ⟨rfl, rfl⟩)
              exact ⟨this, Env.single this⟩
            · have s2 := ih _ _ _ _ _ ha h
              cases res with
              | ok q x =>
                have := optTy_mean (.inr s2.1)
                exact ⟨this, by rw [s2.2.unlabelled hu]; exact Env.single this⟩
              | fail => trivial
              | panic e => exact s2
          · cases hi
        · cases hi
      | plus a =>
        simp only [infer] at hi
        split at hi
        · rename_i ta ea ha
          split at hi
          · rename_i hu
            injection hi with hi
            have h1 : t = repTy ta := by rw [single] at hi; injection hi with h _; exact h.symm
            have h2 : es = (single (repTy ta)).2 := by rw [hi]
            subst h1 h2
            simp only [evStep] at h
            split at h
            · rename_i q x hx
              have s1 := ih _ _ _ _ _ ha hx
              split at h
              · rename_i q' y hy
                injection h with h
                subst h
                have s2 := ihs _ _ _ _ _ ha hu hy
                have := repTy_mean s1.1 s2.1
                exact ⟨this, Env.single this⟩
              · rename_i hne
                have := ihs _ _ _ _ _ ha hu h
                cases res with
                | ok q x => exact absurd h (hne q x)
                | fail => trivial
                | panic e => exact this
            · rename_i hne
              have := ih _ _ _ _ _ ha h
              cases res with
              | ok q x => exact absurd h (hne q x)
              | fail => trivial
              | panic e => exact this
          · cases hi
        · cases hi
      | star a => simp [infer] at hi
      | not a =>
        simp only [infer] at hi
        split at hi
        · rename_i te ha
          obtain ⟨ta, ea⟩ := te
          injection hi with hi
          injection hi with h1 h2
          subst h1 h2
          simp only [evStep] at h
          split at h
          · injection h with h; subst h; trivial
          · injection h with h; subst h; exact ⟨⟨rfl, rfl⟩, rfl, rfl⟩
          · rename_i hne1 hne2
            have := ih _ _ _ _ _ ha h
            cases res with
            | ok q x => exact absurd h (hne1 q x)
            | fail => trivial
            | panic e => exact this
        · cases hi
      | and a =>
        simp only [infer] at hi
        split at hi
        · rename_i te ha
          obtain ⟨ta, ea⟩ := te
          injection hi with hi
          injection hi with h1 h2
          subst h1 h2
          simp only [evStep] at h
          split at h
          · injection h with h; subst h; exact ⟨⟨rfl, rfl⟩, rfl, rfl⟩
          · rename_i hne1
            have := ih _ _ _ _ _ ha h
            cases res with
            | ok q x => exact absurd h (hne1 q x)
            | fail => trivial
            | panic e => exact this
        · cases hi
      | lab a =>
        simp only [infer] at hi
        split at hi
        · rename_i ta ea ha
          injection hi with hi
          injection hi with h1 h2
          subst h1 h2
          simp only [evStep] at h
          split at h
          · rename_i q x hx
            injection h with h
            subst h
            have s1 := ih _ _ _ _ _ ha hx
            exact ⟨s1.1, q, x.1, [], rfl, s1.1, rfl, rfl⟩
          · rename_i hne
            have := ih _ _ _ _ _ ha h
            cases res with
            | ok q x => exact absurd h (hne q x)
            | fail => trivial
            | panic e => exact this
        · cases hi
      | grp a =>
        simp only [infer] at hi
        split at hi
        · rename_i ta ea ha
          split at hi
          · rename_i hu
            injection hi with hi
            have h1 : t = ta := by rw [single] at hi; injection hi with h _; exact h.symm
            have h2 : es = (single ta).2 := by rw [hi]
            subst h1 h2
            simp only [evStep] at h
            split at h
            · rename_i q x hx
              injection h with h
              subst h
              have s1 := ih _ _ _ _ _ ha hx
              refine ⟨s1.1, ?_⟩
              show Env I _ p q x.2
              rw [s1.2.unlabelled hu]
              exact Env.single s1.1
            · rename_i hne
              have := ih _ _ _ _ _ ha h
              cases res with
              | ok q x => exact absurd h (hne q x)
              | fail => trivial
              | panic e => exact this
          · cases hi
        · cases hi
      | act f a =>
        simp only [infer] at hi
        split at hi
        · rename_i ta ea ha
          split at hi
          · rename_i u hf
            injection hi with hi
            have h1 : t = u := by rw [single] at hi; injection hi with h _; exact h.symm
            have h2 : es = (single u).2 := by rw [hi]
            subst h1 h2
            simp only [evStep] at h
            split at h
            · rename_i q x hx
              have s1 := ih _ _ _ _ _ ha hx
              rcases sig_ok hf s1.2 with ⟨v, h3, h4⟩ | ⟨h3, _, h4⟩
              · simp only [actAlg, h3] at h
                injection h with h
                subst h
                exact ⟨h4, Env.single h4⟩
              · simp only [actAlg, h3] at h
                injection h with h
                subst h
                exact ⟨rfl, h4⟩
            · rename_i hne
              have := ih _ _ _ _ _ ha h
              cases res with
              | ok q x => exact absurd h (hne q x)
              | fail => trivial
              | panic e => exact this
          · cases hi
        · cases hi
    · intro a t es p res hi hu h
      rw [ev_s] at h
      simp only [evStep] at h
      split at h
      · rename_i q x hx
        have s1 := ih _ _ _ _ _ hi hx
        split at h
        · rename_i q' y hy
          injection h with h
          subst h
          have s2 := ihs _ _ _ _ _ hi hu hy
          exact ⟨.inr (repTy_mean s1.1 s2.1), rfl⟩
        · rename_i hne
          have := ihs _ _ _ _ _ hi hu h
          cases res with
          | ok q x => exact absurd h (hne q x)
          | fail => trivial
          | panic e => exact this
      · injection h with h
        subst h
        exact ⟨.inl ⟨rfl, rfl⟩, rfl⟩
      · rename_i hne1 hne2
        have := ih _ _ _ _ _ hi h
        cases res with
        | ok q x => exact absurd h (hne1 q x)
        | fail => trivial
        | panic e => exact this

/-- The values of the Action functions of toaq.go. -/
theorem rule_sound (hU : U.punct 'i' = false) {n r p res}
    (h : ev U toaq I (actAlg I) n (.ref r) p = some res) :
    Sound I (types.get r) (single (types.get r)).2 p res :=
  (infer_ok hU toaq types.get typed n).1 (.ref r) _ _ p res rfl h

end Verif.Parse
