/- The Fail functions when no rule is called after `lastFail`: they find what the Accepts functions
found, and the tree is not empty. -/
import Verif.Peg.FailTree

namespace Verif.Peg
open Verif.Tone (Str)

variable {F : Type} {U : Uni} {G : Gram F} {I : Input} {d : Tab (Option Nat × Nat)} {last err : Nat}

/-! ### Recognition -/

theorem Recog.at {e p o} (h : Recog U G I e p o) (er : Nat) : ∃ n er', acc U G I n e p er = some (o, er') := by
  obtain ⟨n, e1, e2, h⟩ := h
  obtain ⟨e3, h3⟩ := acc_indep U G I _ _ _ _ er _ h
  exact ⟨n, e3, h3⟩

theorem Recog.seqOk {a b : Expr F} {p q o} (ha : Recog U G I a p (some q)) (hb : Recog U G I b q o) :
    Recog U G I (.seq a b) p o := by
  obtain ⟨n, e1, h1⟩ := ha.at 0
  obtain ⟨m, e2, h2⟩ := hb.at e1
  refine ⟨max n m + 1, 0, e2, ?_⟩
  rw [acc_s]
  simp only [accStep, acc_mono U G I (Nat.le_max_left n m) h1]
  exact acc_mono U G I (Nat.le_max_right n m) h2

theorem Recog.seqNo {a b : Expr F} {p} (ha : Recog U G I a p none) : Recog U G I (.seq a b) p none := by
  obtain ⟨n, e1, h1⟩ := ha.at 0
  exact ⟨n + 1, 0, e1, by rw [acc_s]; simp only [accStep, h1]⟩

theorem Recog.altL {a b : Expr F} {p q} (ha : Recog U G I a p (some q)) : Recog U G I (.alt a b) p (some q) := by
  obtain ⟨n, e1, h1⟩ := ha.at 0
  exact ⟨n + 1, 0, e1, by rw [acc_s]; simp only [accStep, h1]⟩

theorem Recog.altR {a b : Expr F} {p o} (ha : Recog U G I a p none) (hb : Recog U G I b p o) :
    Recog U G I (.alt a b) p o := by
  obtain ⟨n, e1, h1⟩ := ha.at 0
  obtain ⟨m, e2, h2⟩ := hb.at e1
  refine ⟨max n m + 1, 0, e2, ?_⟩
  rw [acc_s]
  simp only [accStep, acc_mono U G I (Nat.le_max_left n m) h1]
  exact acc_mono U G I (Nat.le_max_right n m) h2

theorem Recog.plusOk {a : Expr F} {p q o} (ha : Recog U G I a p (some q)) (hb : Recog U G I (.star a) q o) :
    Recog U G I (.plus a) p o := by
  obtain ⟨n, e1, h1⟩ := ha.at 0
  obtain ⟨m, e2, h2⟩ := hb.at e1
  refine ⟨max n m + 1, 0, e2, ?_⟩
  rw [acc_s]
  simp only [accStep, acc_mono U G I (Nat.le_max_left n m) h1]
  exact acc_mono U G I (Nat.le_max_right n m) h2

theorem Recog.starOk {a : Expr F} {p q o} (ha : Recog U G I a p (some q)) (hb : Recog U G I (.star a) q o) :
    Recog U G I (.star a) p o := by
  obtain ⟨n, e1, h1⟩ := ha.at 0
  obtain ⟨m, e2, h2⟩ := hb.at e1
  refine ⟨max n m + 1, 0, e2, ?_⟩
  rw [acc_s]
  simp only [accStep, acc_mono U G I (Nat.le_max_left n m) h1]
  exact acc_mono U G I (Nat.le_max_right n m) h2

theorem Recog.starNo {a : Expr F} {p} (ha : Recog U G I a p none) : Recog U G I (.star a) p (some p) := by
  obtain ⟨n, e1, h1⟩ := ha.at 0
  exact ⟨n + 1, 0, e1, by rw [acc_s]; simp only [accStep, h1]⟩

theorem Recog.plusNo {a : Expr F} {p} (ha : Recog U G I a p none) : Recog U G I (.plus a) p none := by
  obtain ⟨n, e1, h1⟩ := ha.at 0
  exact ⟨n + 1, 0, e1, by rw [acc_s]; simp only [accStep, h1]⟩

theorem Recog.optOk {a : Expr F} {p q} (ha : Recog U G I a p (some q)) : Recog U G I (.opt a) p (some q) := by
  obtain ⟨n, e1, h1⟩ := ha.at 0
  exact ⟨n + 1, 0, e1, by rw [acc_s]; simp only [accStep, h1]⟩

theorem Recog.optNo {a : Expr F} {p} (ha : Recog U G I a p none) : Recog U G I (.opt a) p (some p) := by
  obtain ⟨n, e1, h1⟩ := ha.at 0
  exact ⟨n + 1, 0, e1, by rw [acc_s]; simp only [accStep, h1]⟩

theorem Recog.notOk {a : Expr F} {p} (ha : Recog U G I a p none) : Recog U G I (.not a) p (some p) := by
  obtain ⟨n, e1, h1⟩ := ha.at 0
  exact ⟨n + 1, 0, _, by rw [acc_s]; simp only [accStep, h1]; rfl⟩

theorem Recog.notNo {a : Expr F} {p q} (ha : Recog U G I a p (some q)) : Recog U G I (.not a) p none := by
  obtain ⟨n, e1, h1⟩ := ha.at 0
  exact ⟨n + 1, 0, _, by rw [acc_s]; simp only [accStep, h1]; rfl⟩

theorem Recog.andOk {a : Expr F} {p q} (ha : Recog U G I a p (some q)) : Recog U G I (.and a) p (some p) := by
  obtain ⟨n, e1, h1⟩ := ha.at 0
  exact ⟨n + 1, 0, _, by rw [acc_s]; simp only [accStep, h1]; rfl⟩

theorem Recog.andNo {a : Expr F} {p} (ha : Recog U G I a p none) : Recog U G I (.and a) p none := by
  obtain ⟨n, e1, h1⟩ := ha.at 0
  exact ⟨n + 1, 0, _, by rw [acc_s]; simp only [accStep, h1]; rfl⟩

theorem Recog.ref {r p o} (h : Recog U G I (G.body r) p o) : Recog U G I (.ref r) p o := by
  obtain ⟨n, e1, h1⟩ := h.at 0
  cases o with
  | none => exact ⟨n + 1, 0, _, by rw [acc_s]; simp only [accStep, h1]; rfl⟩
  | some q => exact ⟨n + 1, 0, _, by rw [acc_s]; simp only [accStep, h1]; rfl⟩

theorem Recog.lab {a : Expr F} {p o} (h : Recog U G I a p o) : Recog U G I (.lab a) p o := by
  obtain ⟨n, e1, h1⟩ := h.at 0; exact ⟨n + 1, 0, e1, h1⟩
theorem Recog.grp {a : Expr F} {p o} (h : Recog U G I a p o) : Recog U G I (.grp a) p o := by
  obtain ⟨n, e1, h1⟩ := h.at 0; exact ⟨n + 1, 0, e1, h1⟩
theorem Recog.act {f : F} {a : Expr F} {p o} (h : Recog U G I a p o) : Recog U G I (.act f a) p o := by
  obtain ⟨n, e1, h1⟩ := h.at 0; exact ⟨n + 1, 0, e1, h1⟩

/-! ### Agreement -/

/-- A call in the text whose rules have entries in the tables. -/
def Known (U : Uni) (G : Gram F) (I : Input) (d : Tab (Option Nat × Nat)) (e : Expr F) (p : Nat) : Prop :=
  p ≤ I.len ∧ ∀ r q, Vis U G I e p r q → d.get q r ≠ none

theorem failMemo_known {r p : Nat} {s : FS F} {o o' : Option Nat} {e : Nat} {f : Fail (Want F)} (hl : p + 1 ≤ last)
    (hd : d.get p r = some (o', e)) (h : failMemo d last err r p s = some (o, f)) :
    o = o' ∧ ((e < err ∧ f = noFail s.next) ∨ (err ≤ e ∧ s.tab.get p r = some f)) := by
  unfold failMemo at h
  rw [if_neg (by omega), hd] at h
  simp only at h
  split at h
  · cases h; exact ⟨rfl, .inl ⟨by assumption, rfl⟩⟩
  · cases hf : s.tab.get p r with
    | none => rw [hf] at h; cases h
    | some g => rw [hf] at h; cases h; exact ⟨rfl, .inr ⟨by omega, rfl⟩⟩

theorem failMemo_body {r p : Nat} {s : FS F} {o' : Option Nat} {e : Nat} (hl : p + 1 ≤ last)
    (hd : d.get p r = some (o', e)) (h : failMemo d last err r p s = none) : err ≤ e := by
  unfold failMemo at h
  rw [if_neg (by omega), hd] at h
  simp only at h
  split at h
  · cases h
  · omega

/-- The Fail functions find what the Accepts functions found. -/
theorem FRun.agree (hd : AccInv U G I d) (hl : I.len + 1 ≤ last) {e p ks s o ks' s'}
    (h : FRun U G I d last err e p ks s o ks' s') : Known U G I d e p → Recog U G I e p o := by
  have bnd : ∀ {e p q}, Recog U G I e p (some q) → p ≤ I.len → q ≤ I.len := by
    rintro e p q ⟨n, e1, e2, h⟩ hp
    exact ((acc_bounds U G I _ _ _ _ _ hp h).1 q rfl).2
  induction h with
  | termOk ht => exact fun _ => ⟨1, 0, _, by rw [acc_s]; simp only [accStep, ht]; rfl⟩
  | termNo ht => exact fun _ => ⟨1, 0, _, by rw [acc_s]; simp only [accStep, ht]; rfl⟩
  | memo hm =>
    rename_i r p ks s o f
    intro hk
    cases hg : d.get p r with
    | none => exact absurd hg (hk.2 _ _ (.ref r p))
    | some v =>
      obtain ⟨o', e⟩ := v
      have := failMemo_known (Nat.le_trans (Nat.succ_le_succ hk.1) hl) hg hm
      obtain ⟨⟨n, hn⟩, _⟩ := hd _ _ _ hg
      rw [this.1]
      exact ⟨n, 0, e, hn⟩
  | body hm _ ih =>
    rename_i r p ks s o kids s' _
    intro hk
    cases hg : d.get p r with
    | none => exact absurd hg (hk.2 _ _ (.ref r p))
    | some v => exact (ih ⟨hk.1, (hd _ _ _ hg).2⟩).ref
  | seqNo _ ih => exact fun hk => (ih ⟨hk.1, fun r q h => hk.2 r q (.seqL h)⟩).seqNo
  | seqOk _ _ iha ihb =>
    intro hk
    have ha := iha ⟨hk.1, fun r q h => hk.2 r q (.seqL h)⟩
    exact ha.seqOk (ihb ⟨bnd ha hk.1, fun r q h => hk.2 r q (.seqR ha h)⟩)
  | altL _ ih => exact fun hk => (ih ⟨hk.1, fun r q h => hk.2 r q (.altL h)⟩).altL
  | altR _ _ iha ihb =>
    intro hk
    have ha := iha ⟨hk.1, fun r q h => hk.2 r q (.altL h)⟩
    exact ha.altR (ihb ⟨hk.1, fun r q h => hk.2 r q (.altR ha h)⟩)
  | optOk _ ih => exact fun hk => (ih ⟨hk.1, fun r q h => hk.2 r q (.opt h)⟩).optOk
  | optNo _ ih => exact fun hk => (ih ⟨hk.1, fun r q h => hk.2 r q (.opt h)⟩).optNo
  | plusNo _ ih => exact fun hk => (ih ⟨hk.1, fun r q h => hk.2 r q (.plusL h)⟩).plusNo
  | plusOk _ _ iha ihb =>
    intro hk
    have ha := iha ⟨hk.1, fun r q h => hk.2 r q (.plusL h)⟩
    exact ha.plusOk (ihb ⟨bnd ha hk.1, fun r q h => hk.2 r q (.plusR ha h)⟩)
  | starNo _ ih => exact fun hk => (ih ⟨hk.1, fun r q h => hk.2 r q (.starL h)⟩).starNo
  | starOk _ _ iha ihb =>
    intro hk
    have ha := iha ⟨hk.1, fun r q h => hk.2 r q (.starL h)⟩
    exact ha.starOk (ihb ⟨bnd ha hk.1, fun r q h => hk.2 r q (.starR ha h)⟩)
  | notNo _ ih => exact fun hk => (ih ⟨hk.1, fun r q h => hk.2 r q (.not h)⟩).notNo
  | notOk _ ih => exact fun hk => (ih ⟨hk.1, fun r q h => hk.2 r q (.not h)⟩).notOk
  | andOk _ ih => exact fun hk => (ih ⟨hk.1, fun r q h => hk.2 r q (.and h)⟩).andOk
  | andNo _ ih => exact fun hk => (ih ⟨hk.1, fun r q h => hk.2 r q (.and h)⟩).andNo
  | lab _ ih => exact fun hk => (ih ⟨hk.1, fun r q h => hk.2 r q (.lab h)⟩).lab
  | grp _ ih => exact fun hk => (ih ⟨hk.1, fun r q h => hk.2 r q (.grp h)⟩).grp
  | act _ ih => exact fun hk => (ih ⟨hk.1, fun r q h => hk.2 r q (.act h)⟩).act

theorem known_closed (hd : AccInv U G I d) (hl : I.len + 1 ≤ last) : Closed U G I d last err (Known U G I d) := by
  have bnd : ∀ {e p q}, Recog U G I e p (some q) → p ≤ I.len → q ≤ I.len := by
    rintro e p q ⟨n, e1, e2, h⟩ hp
    exact ((acc_bounds U G I _ _ _ _ _ hp h).1 q rfl).2
  exact
  { ref := fun {r p s} hk _ => by
      cases hg : d.get p r with
      | none => exact absurd hg (hk.2 _ _ (.ref r p))
      | some v => exact ⟨hk.1, (hd _ _ _ hg).2⟩
    seqL := fun hk => ⟨hk.1, fun r q h => hk.2 r q (.seqL h)⟩
    seqR := fun hk hr => by
      have ha := hr.agree hd hl ⟨hk.1, fun r q h => hk.2 r q (.seqL h)⟩
      exact ⟨bnd ha hk.1, fun r q h => hk.2 r q (.seqR ha h)⟩
    altL := fun hk => ⟨hk.1, fun r q h => hk.2 r q (.altL h)⟩
    altR := fun hk hr => by
      have ha := hr.agree hd hl ⟨hk.1, fun r q h => hk.2 r q (.altL h)⟩
      exact ⟨hk.1, fun r q h => hk.2 r q (.altR ha h)⟩
    opt := fun hk => ⟨hk.1, fun r q h => hk.2 r q (.opt h)⟩
    plusL := fun hk => ⟨hk.1, fun r q h => hk.2 r q (.plusL h)⟩
    plusR := fun hk hr => by
      have ha := hr.agree hd hl ⟨hk.1, fun r q h => hk.2 r q (.plusL h)⟩
      exact ⟨bnd ha hk.1, fun r q h => hk.2 r q (.plusR ha h)⟩
    starL := fun hk => ⟨hk.1, fun r q h => hk.2 r q (.starL h)⟩
    starR := fun hk hr => by
      have ha := hr.agree hd hl ⟨hk.1, fun r q h => hk.2 r q (.starL h)⟩
      exact ⟨bnd ha hk.1, fun r q h => hk.2 r q (.starR ha h)⟩
    not := fun hk => ⟨hk.1, fun r q h => hk.2 r q (.not h)⟩
    and := fun hk => ⟨hk.1, fun r q h => hk.2 r q (.and h)⟩
    lab := fun hk => ⟨hk.1, fun r q h => hk.2 r q (.lab h)⟩
    grp := fun hk => ⟨hk.1, fun r q h => hk.2 r q (.grp h)⟩
    act := fun hk => ⟨hk.1, fun r q h => hk.2 r q (.act h)⟩ }

/-! ### The tree is not empty -/

/-- The rules called are in `S`. -/
def refsIn (S : Nat → Bool) : Expr F → Bool
  | .term _ => true
  | .ref r => S r
  | .seq a b => refsIn S a && refsIn S b
  | .alt a b => refsIn S a && refsIn S b
  | .plus a => refsIn S a
  | .star a => refsIn S a
  | .opt a => refsIn S a
  | .not a => refsIn S a
  | .and a => refsIn S a
  | .lab a => refsIn S a
  | .grp a => refsIn S a
  | .act _ a => refsIn S a

/-- The rules called outside of lookaheads are in `S`. -/
def refsOut (S : Nat → Bool) : Expr F → Bool
  | .term _ => true
  | .ref r => S r
  | .seq a b => refsOut S a && refsOut S b
  | .alt a b => refsOut S a && refsOut S b
  | .plus a => refsOut S a
  | .star a => refsOut S a
  | .opt a => refsOut S a
  | .not _ => true
  | .and _ => true
  | .lab a => refsOut S a
  | .grp a => refsOut S a
  | .act _ a => refsOut S a

/-- The trees in the table of rules that failed late count. -/
def TabG (d : Tab (Option Nat × Nat)) (err : Nat) (S : Nat → Bool) (t : Tab (Fail (Want F))) : Prop :=
  ∀ p r f o e, t.get p r = some f → S r = true → d.get p r = some (o, e) → err ≤ e → f.counts = true

theorem addLeaf_len (x : Nat) (w : Want F) (ks : List (Fail (Want F))) (s : FS F) :
    ks.length ≤ (addLeaf err x w ks s).1.length ∧ (err ≤ x + 1 → ks.length < (addLeaf err x w ks s).1.length) ∧
    (addLeaf err x w ks s).2.tab = s.tab := by
  unfold addLeaf
  split
  · simp
  · rename_i h; exact ⟨Nat.le_refl _, fun h' => absurd h' h, rfl⟩

theorem addKid_len (f : Fail (Want F)) (ks : List (Fail (Want F))) :
    ks.length ≤ (addKid f ks).length ∧ (f.counts = true → ks.length < (addKid f ks).length) := by
  unfold addKid
  split
  · simp
  · rename_i h; exact ⟨Nat.le_refl _, fun h' => absurd h' h⟩

theorem FRun.len {e p ks s o ks' s'} (h : FRun U G I d last err e p ks s o ks' s') : ks.length ≤ ks'.length := by
  induction h with
  | termOk _ | notOk _ _ | andOk _ _ => exact Nat.le_refl _
  | termNo _ | notNo _ _ | andNo _ _ => exact (addLeaf_len _ _ _ _).1
  | memo _ | body _ _ _ => exact (addKid_len _ _).1
  | seqOk _ _ h1 h2 | altR _ _ h1 h2 | plusOk _ _ h1 h2 | starOk _ _ h1 h2 => exact Nat.le_trans h1 h2
  | _ _ h => exact h

/-- `perr` of a rule. -/
theorem acc_ref_err {m r p er v n w} (h : acc U G I m (.ref r) p er = some v) (h' : acc U G I n (.ref r) p 0 = some w) :
    v.1 = w.1 ∧ v.2 = max er w.2 := by
  cases m with
  | zero => cases h
  | succ m =>
  cases n with
  | zero => cases h'
  | succ n =>
    rw [acc_s] at h h'
    simp only [accStep] at h h'
    cases h1 : acc U G I m (G.body r) p 0 with
    | none => rw [h1] at h; cases h
    | some x =>
      cases h2 : acc U G I n (G.body r) p 0 with
      | none => rw [h2] at h'; cases h'
      | some y =>
        have := acc_det U G I h1 h2
        subst this
        rw [h1] at h; rw [h2] at h'
        obtain ⟨_ | q, e⟩ := x <;> cases h <;> cases h' <;> simp

/-- `perr` of a rule, from that of its body. -/
theorem acc_ref_body {n r p o e} (h : acc U G I n (.ref r) p 0 = some (o, e)) :
    ∃ m e', acc U G I m (G.body r) p 0 = some (o, e') ∧
      ((∃ q, o = some q) ∧ G.named r = true ∧ e = p + 1 ∨ ((o = none ∨ G.named r = false) ∧ e = e')) := by
  cases n with
  | zero => cases h
  | succ n =>
    rw [acc_s] at h
    simp only [accStep] at h
    cases h1 : acc U G I n (G.body r) p 0 with
    | none => rw [h1] at h; cases h
    | some x =>
      rw [h1] at h
      obtain ⟨_ | q, e'⟩ := x
      · cases h; exact ⟨n, e', h1, .inr ⟨.inl rfl, by simp⟩⟩
      · cases h
        refine ⟨n, e', h1, ?_⟩
        cases hn : G.named r with
        | true => exact .inl ⟨⟨q, rfl⟩, rfl, by simp⟩
        | false => exact .inr ⟨.inr rfl, by simp⟩

theorem ruleFail_counts {r p : Nat} {o : Option Nat} {kids : List (Fail (Want F))} {i : Nat}
    (h : (G.named r = true ∧ o = none) ∨ (G.named r = false ∧ 0 < kids.length)) : (ruleFail G r p o kids i).counts = true := by
  unfold ruleFail
  rcases h with ⟨h1, rfl⟩ | ⟨h1, h2⟩
  · rw [if_pos h1]; rfl
  · rw [if_neg (by simp [h1])]
    cases kids with
    | nil => cases h2
    | cons k ks => rfl

/-- Attempts that failed at `errPos` or later leave a node in the tree. -/
theorem FRun.grows (hd : AccInv U G I d) (hl : I.len + 1 ≤ last) (S : Nat → Bool)
    (hS : ∀ r, S r = true → refsOut S (G.body r) = true) (herr : 0 < err)
    (hN : ∀ r, S r = true → G.named r = true → ∀ p q, p ≤ I.len → Recog U G I (.ref r) p (some q) → p + 1 < err)
    {e p ks s o ks' s'} (h : FRun U G I d last err e p ks s o ks' s') :
    Known U G I d e p → TabG d err S s.tab → TabG d err S s'.tab ∧
      (refsOut S e = true → ∀ m er v, acc U G I m e p er = some v → er < err → err ≤ v.2 → ks.length < ks'.length) := by
  have hV := known_closed (err := err) hd hl
  have det : ∀ {a : Expr F} {p m er v o}, acc U G I m a p er = some v → Recog U G I a p o → v.1 = o := by
    intro a p m er v o h1 h2
    have : Recog U G I a p v.1 := ⟨m, er, v.2, h1⟩
    exact this.det U G I h2
  induction h with
  | termOk ht =>
    intro hk hg
    refine ⟨hg, fun hs m er v h h1 h2 => ?_⟩
    cases m with
    | zero => cases h
    | succ m => rw [acc_s] at h; simp only [accStep, ht] at h; cases h; simp only at h2; omega
  | termNo ht =>
    intro hk hg
    refine ⟨by rw [(addLeaf_len _ _ _ _).2.2]; exact hg, fun hs m er v h h1 h2 => ?_⟩
    cases m with
    | zero => cases h
    | succ m =>
      rw [acc_s] at h; simp only [accStep, ht] at h; cases h
      simp only at h2
      exact (addLeaf_len _ _ _ _).2.1 (by omega)
  | memo hm =>
    rename_i r p ks s o f
    intro hk hg
    refine ⟨hg, fun hs m er v h h1 h2 => ?_⟩
    cases hgd : d.get p r with
    | none => exact absurd hgd (hk.2 _ _ (.ref r p))
    | some w =>
      obtain ⟨o', e⟩ := w
      obtain ⟨⟨n, hn⟩, _⟩ := hd _ _ _ hgd
      have he := (acc_ref_err h hn).2
      simp only at he
      obtain ⟨_, hf⟩ := failMemo_known (Nat.le_trans (Nat.succ_le_succ hk.1) hl) hgd hm
      rcases hf with ⟨hf, _⟩ | ⟨hf, ht⟩
      · omega
      · exact (addKid_len _ _).2 (hg _ _ _ _ _ ht hs hgd hf)
  | body hm hb ih =>
    rename_i r p ks s o kids s'
    intro hk hg
    obtain ⟨i1, i2⟩ := ih (hV.ref hk hm) hg
    have ha := hb.agree hd hl (hV.ref hk hm)
    cases hgd : d.get p r with
    | none => exact absurd hgd (hk.2 _ _ (.ref r p))
    | some w =>
      obtain ⟨o', e⟩ := w
      obtain ⟨⟨n, hn⟩, _⟩ := hd _ _ _ hgd
      have hee := failMemo_body (Nat.le_trans (Nat.succ_le_succ hk.1) hl) hgd hm
      have hc : S r = true → (ruleFail G r p o kids s'.next).counts = true := by
        intro hs
        obtain ⟨m, e', hb', hcase⟩ := acc_ref_body hn
        have ho : o' = o := det hb' ha
        subst ho
        refine ruleFail_counts ?_
        rcases hcase with ⟨⟨q, hq⟩, hnm, he⟩ | ⟨hc, he⟩
        · have := hN r hs hnm p q hk.1 (hq ▸ ⟨n, 0, e, hn⟩)
          omega
        · cases hnm : G.named r with
          | true =>
            rcases hc with hc | hc
            · exact .inl ⟨rfl, hc⟩
            · rw [hnm] at hc; cases hc
          | false =>
            refine .inr ⟨rfl, ?_⟩
            have := i2 (hS r hs) m 0 _ hb' herr (by simp only; omega)
            simpa using this
      refine ⟨?_, fun hs _ _ _ _ _ _ => (addKid_len _ _).2 (hc hs)⟩
      intro p' r' f o1 e1 h1 h2 h3 h4
      simp only [Tab.get_put] at h1
      split at h1
      · rename_i he; cases h1; exact hc (he.2 ▸ h2)
      · exact i1 _ _ _ _ _ h1 h2 h3 h4
  | seqNo h ih =>
    intro hk hg
    obtain ⟨i1, i2⟩ := ih (hV.seqL hk) hg
    refine ⟨i1, fun hs m er v h' h1 h2 => ?_⟩
    rw [refsOut, Bool.and_eq_true] at hs
    cases m with
    | zero => cases h'
    | succ m =>
      rw [acc_s] at h'
      simp only [accStep] at h'
      rename_i a b p ks s ks' s'
      cases hx : acc U G I m a p er with
      | none => rw [hx] at h'; cases h'
      | some x =>
        have := det hx (h.agree hd hl (hV.seqL hk))
        obtain ⟨o, e⟩ := x
        simp only at this; subst this
        rw [hx] at h'; cases h'
        exact i2 hs.1 _ _ _ hx h1 h2
  | seqOk ha hb iha ihb =>
    intro hk hg
    obtain ⟨i1, i2⟩ := iha (hV.seqL hk) hg
    obtain ⟨j1, j2⟩ := ihb (hV.seqR hk ha) i1
    refine ⟨j1, fun hs m er v h' h1 h2 => ?_⟩
    rw [refsOut, Bool.and_eq_true] at hs
    cases m with
    | zero => cases h'
    | succ m =>
      rw [acc_s] at h'
      simp only [accStep] at h'
      rename_i a b p ks s q ks' s' o ks'' s''
      cases hx : acc U G I m a p er with
      | none => rw [hx] at h'; cases h'
      | some x =>
        have := det hx (ha.agree hd hl (hV.seqL hk))
        obtain ⟨o, e⟩ := x
        simp only at this; subst this
        rw [hx] at h'
        by_cases he : err ≤ e
        · exact Nat.lt_of_lt_of_le (i2 hs.1 _ _ _ hx h1 he) hb.len
        · exact Nat.lt_of_le_of_lt ha.len (j2 hs.2 _ _ _ h' (by omega) h2)
  | altL h ih =>
    intro hk hg
    obtain ⟨i1, i2⟩ := ih (hV.altL hk) hg
    refine ⟨i1, fun hs m er v h' h1 h2 => ?_⟩
    rw [refsOut, Bool.and_eq_true] at hs
    cases m with
    | zero => cases h'
    | succ m =>
      rw [acc_s] at h'
      simp only [accStep] at h'
      rename_i a b p ks s q ks' s'
      cases hx : acc U G I m a p er with
      | none => rw [hx] at h'; cases h'
      | some x =>
        have := det hx (h.agree hd hl (hV.altL hk))
        obtain ⟨o, e⟩ := x
        simp only at this; subst this
        rw [hx] at h'; cases h'
        exact i2 hs.1 _ _ _ hx h1 h2
  | altR ha hb iha ihb =>
    intro hk hg
    obtain ⟨i1, i2⟩ := iha (hV.altL hk) hg
    obtain ⟨j1, j2⟩ := ihb (hV.altR hk ha) i1
    refine ⟨j1, fun hs m er v h' h1 h2 => ?_⟩
    rw [refsOut, Bool.and_eq_true] at hs
    cases m with
    | zero => cases h'
    | succ m =>
      rw [acc_s] at h'
      simp only [accStep] at h'
      rename_i a b p ks s ks' s' o ks'' s''
      cases hx : acc U G I m a p er with
      | none => rw [hx] at h'; cases h'
      | some x =>
        have := det hx (ha.agree hd hl (hV.altL hk))
        obtain ⟨o, e⟩ := x
        simp only at this; subst this
        rw [hx] at h'
        by_cases he : err ≤ e
        · exact Nat.lt_of_lt_of_le (i2 hs.1 _ _ _ hx h1 he) hb.len
        · exact Nat.lt_of_le_of_lt ha.len (j2 hs.2 _ _ _ h' (by omega) h2)
  | optOk h ih =>
    intro hk hg
    obtain ⟨i1, i2⟩ := ih (hV.opt hk) hg
    refine ⟨i1, fun hs m er v h' h1 h2 => ?_⟩
    cases m with
    | zero => cases h'
    | succ m =>
      rw [acc_s] at h'
      simp only [accStep] at h'
      rename_i a p ks s q ks' s'
      cases hx : acc U G I m a p er with
      | none => rw [hx] at h'; cases h'
      | some x =>
        have := det hx (h.agree hd hl (hV.opt hk))
        obtain ⟨o, e⟩ := x
        simp only at this; subst this
        rw [hx] at h'; cases h'
        exact i2 hs _ _ _ hx h1 h2
  | optNo h ih =>
    intro hk hg
    obtain ⟨i1, i2⟩ := ih (hV.opt hk) hg
    refine ⟨i1, fun hs m er v h' h1 h2 => ?_⟩
    cases m with
    | zero => cases h'
    | succ m =>
      rw [acc_s] at h'
      simp only [accStep] at h'
      rename_i a p ks s ks' s'
      cases hx : acc U G I m a p er with
      | none => rw [hx] at h'; cases h'
      | some x =>
        have := det hx (h.agree hd hl (hV.opt hk))
        obtain ⟨o, e⟩ := x
        simp only at this; subst this
        rw [hx] at h'; cases h'
        exact i2 hs _ _ _ hx h1 h2
  | plusNo h ih =>
    intro hk hg
    obtain ⟨i1, i2⟩ := ih (hV.plusL hk) hg
    refine ⟨i1, fun hs m er v h' h1 h2 => ?_⟩
    cases m with
    | zero => cases h'
    | succ m =>
      rw [acc_s] at h'
      simp only [accStep] at h'
      rename_i a p ks s ks' s'
      cases hx : acc U G I m a p er with
      | none => rw [hx] at h'; cases h'
      | some x =>
        have := det hx (h.agree hd hl (hV.plusL hk))
        obtain ⟨o, e⟩ := x
        simp only at this; subst this
        rw [hx] at h'; cases h'
        exact i2 hs _ _ _ hx h1 h2
  | plusOk ha hb iha ihb =>
    intro hk hg
    obtain ⟨i1, i2⟩ := iha (hV.plusL hk) hg
    obtain ⟨j1, j2⟩ := ihb (hV.plusR hk ha) i1
    refine ⟨j1, fun hs m er v h' h1 h2 => ?_⟩
    cases m with
    | zero => cases h'
    | succ m =>
      rw [acc_s] at h'
      simp only [accStep] at h'
      rename_i a p ks s q ks' s' o ks'' s''
      cases hx : acc U G I m a p er with
      | none => rw [hx] at h'; cases h'
      | some x =>
        have := det hx (ha.agree hd hl (hV.plusL hk))
        obtain ⟨o, e⟩ := x
        simp only at this; subst this
        rw [hx] at h'
        by_cases he : err ≤ e
        · exact Nat.lt_of_lt_of_le (i2 hs _ _ _ hx h1 he) hb.len
        · exact Nat.lt_of_le_of_lt ha.len (j2 hs _ _ _ h' (by omega) h2)
  | starNo h ih =>
    intro hk hg
    obtain ⟨i1, i2⟩ := ih (hV.starL hk) hg
    refine ⟨i1, fun hs m er v h' h1 h2 => ?_⟩
    cases m with
    | zero => cases h'
    | succ m =>
      rw [acc_s] at h'
      simp only [accStep] at h'
      rename_i a p ks s ks' s'
      cases hx : acc U G I m a p er with
      | none => rw [hx] at h'; cases h'
      | some x =>
        have := det hx (h.agree hd hl (hV.starL hk))
        obtain ⟨o, e⟩ := x
        simp only at this; subst this
        rw [hx] at h'; cases h'
        exact i2 hs _ _ _ hx h1 h2
  | starOk ha hb iha ihb =>
    intro hk hg
    obtain ⟨i1, i2⟩ := iha (hV.starL hk) hg
    obtain ⟨j1, j2⟩ := ihb (hV.starR hk ha) i1
    refine ⟨j1, fun hs m er v h' h1 h2 => ?_⟩
    cases m with
    | zero => cases h'
    | succ m =>
      rw [acc_s] at h'
      simp only [accStep] at h'
      rename_i a p ks s q ks' s' o ks'' s''
      cases hx : acc U G I m a p er with
      | none => rw [hx] at h'; cases h'
      | some x =>
        have := det hx (ha.agree hd hl (hV.starL hk))
        obtain ⟨o, e⟩ := x
        simp only at this; subst this
        rw [hx] at h'
        by_cases he : err ≤ e
        · exact Nat.lt_of_lt_of_le (i2 hs _ _ _ hx h1 he) hb.len
        · exact Nat.lt_of_le_of_lt ha.len (j2 hs _ _ _ h' (by omega) h2)
  | notNo h ih =>
    intro hk hg
    obtain ⟨i1, -⟩ := ih (hV.not hk) hg
    refine ⟨by rw [(addLeaf_len _ _ _ _).2.2]; exact i1, fun hs m er v h' h1 h2 => ?_⟩
    cases m with
    | zero => cases h'
    | succ m =>
      rw [acc_s] at h'
      simp only [accStep] at h'
      rename_i a p ks s q ks' s'
      cases hx : acc U G I m a p er with
      | none => rw [hx] at h'; cases h'
      | some x =>
        have := det hx (h.agree hd hl (hV.not hk))
        obtain ⟨o, e⟩ := x
        simp only at this; subst this
        rw [hx] at h'; cases h'
        simp only at h2
        exact (addLeaf_len _ _ _ _).2.1 (by omega)
  | andNo h ih =>
    intro hk hg
    obtain ⟨i1, -⟩ := ih (hV.and hk) hg
    refine ⟨by rw [(addLeaf_len _ _ _ _).2.2]; exact i1, fun hs m er v h' h1 h2 => ?_⟩
    cases m with
    | zero => cases h'
    | succ m =>
      rw [acc_s] at h'
      simp only [accStep] at h'
      rename_i a p ks s ks' s'
      cases hx : acc U G I m a p er with
      | none => rw [hx] at h'; cases h'
      | some x =>
        have := det hx (h.agree hd hl (hV.and hk))
        obtain ⟨o, e⟩ := x
        simp only at this; subst this
        rw [hx] at h'; cases h'
        simp only at h2
        exact (addLeaf_len _ _ _ _).2.1 (by omega)
  | notOk h ih =>
    intro hk hg
    obtain ⟨i1, -⟩ := ih (hV.not hk) hg
    refine ⟨i1, fun hs m er v h' h1 h2 => ?_⟩
    cases m with
    | zero => cases h'
    | succ m =>
      rw [acc_s] at h'
      simp only [accStep] at h'
      rename_i a p ks s ks' s'
      cases hx : acc U G I m a p er with
      | none => rw [hx] at h'; cases h'
      | some x =>
        have := det hx (h.agree hd hl (hV.not hk))
        obtain ⟨o, e⟩ := x
        simp only at this; subst this
        rw [hx] at h'; cases h'
        simp only at h2
        omega
  | andOk h ih =>
    intro hk hg
    obtain ⟨i1, -⟩ := ih (hV.and hk) hg
    refine ⟨i1, fun hs m er v h' h1 h2 => ?_⟩
    cases m with
    | zero => cases h'
    | succ m =>
      rw [acc_s] at h'
      simp only [accStep] at h'
      rename_i a p ks s q ks' s'
      cases hx : acc U G I m a p er with
      | none => rw [hx] at h'; cases h'
      | some x =>
        have := det hx (h.agree hd hl (hV.and hk))
        obtain ⟨o, e⟩ := x
        simp only at this; subst this
        rw [hx] at h'; cases h'
        simp only at h2
        omega
  | lab _ ih =>
    intro hk hg
    obtain ⟨i1, i2⟩ := ih (hV.lab hk) hg
    refine ⟨i1, fun hs m er v h' => ?_⟩
    cases m with
    | zero => cases h'
    | succ m => exact i2 hs m er v h'
  | grp _ ih =>
    intro hk hg
    obtain ⟨i1, i2⟩ := ih (hV.grp hk) hg
    refine ⟨i1, fun hs m er v h' => ?_⟩
    cases m with
    | zero => cases h'
    | succ m => exact i2 hs m er v h'
  | act _ ih =>
    intro hk hg
    obtain ⟨i1, i2⟩ := ih (hV.act hk) hg
    refine ⟨i1, fun hs m er v h' => ?_⟩
    cases m with
    | zero => cases h'
    | succ m => exact i2 hs m er v h'

end Verif.Peg
