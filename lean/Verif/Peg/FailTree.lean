/- The trees of the Fail functions: their addresses, positions and wants; and when they are not empty. -/
import Verif.Peg.FailProps

namespace Verif.Peg
open Verif.Tone (Str)

variable {F : Type} {U : Uni} {G : Gram F} {I : Input} {d : Tab (Option Nat × Nat)} {last err : Nat}

/-! ### Rune boundaries -/

/-- The offsets where runes start when the text is read from its start, and its end. -/
inductive Bnd (I : Input) : Nat → Prop
  | zero : Bnd I 0
  | step {p} : Bnd I p → p < I.len → Bnd I (p + (I.next p).2)

theorem Bnd.le {p} (h : Bnd I p) : p ≤ I.len := by
  cases h with
  | zero => exact Nat.zero_le _
  | step _ hp => exact I.fits _ hp

theorem rune_bnd {p c w} (h : Bnd I p) (hr : I.rune p = some (c, w)) : Bnd I (p + w) := by
  unfold Input.rune at hr
  split at hr
  · rename_i hp
    have : w = (I.next p).2 := by
      have := congrArg (fun o => o.map Prod.snd) hr
      simpa using this.symm
    rw [this]; exact h.step hp
  · cases hr

theorem tm_bnd {t p} (h : Bnd I p) : (∀ q, tm U I t p = .inl q → Bnd I q) ∧ (∀ x, tm U I t p = .inr x → Bnd I x) := by
  cases hr : I.rune p with
  | none =>
    constructor
    · intro q hq; cases t <;> simp [tm, hr] at hq
    · intro x hx; cases t <;> simp [tm, hr] at hx <;> exact hx ▸ h
  | some v =>
    obtain ⟨c, w⟩ := v
    have hw := rune_bnd h hr
    constructor
    · intro q hq
      cases t <;> simp only [tm, hr] at hq <;> (repeat' split at hq) <;> first | (cases hq; exact hw) | cases hq
    · intro x hx
      cases t <;> simp only [tm, hr] at hx <;> (repeat' split at hx) <;>
        first | (cases hx; exact hw) | (cases hx; exact h) | cases hx

theorem acc_bnd : ∀ n e p er r, acc U G I n e p er = some r → Bnd I p → ∀ q, r.1 = some q → Bnd I q := by
  intro n
  induction n with
  | zero => intro e p er r h; rw [acc_0] at h; cases h
  | succ n ih =>
    intro e p er r h hp
    rw [acc_s] at h
    cases e with
    | term t =>
      simp only [accStep] at h
      cases ht : tm U I t p with
      | inl q => rw [ht] at h; cases h; intro q' hq; cases hq; exact (tm_bnd hp).1 _ ht
      | inr x => rw [ht] at h; cases h; intro q' hq; cases hq
    | ref k =>
      simp only [accStep] at h
      cases h1 : acc U G I n (G.body k) p 0 with
      | none => rw [h1] at h; cases h
      | some v =>
        rw [h1] at h
        have := ih _ _ _ _ h1 hp
        rcases v with ⟨_ | q, e'⟩ <;> cases h <;> exact this
    | seq a b | plus a | star a =>
      simp only [accStep] at h
      cases h1 : acc U G I n a p er with
      | none => rw [h1] at h; cases h
      | some v =>
        rw [h1] at h
        have := ih _ _ _ _ h1 hp
        rcases v with ⟨_ | q, e'⟩
        · cases h; intro q hq; cases hq; try exact hp
        · exact ih _ _ _ _ h (this q rfl)
    | alt a b =>
      simp only [accStep] at h
      cases h1 : acc U G I n a p er with
      | none => rw [h1] at h; cases h
      | some v =>
        rw [h1] at h
        have := ih _ _ _ _ h1 hp
        rcases v with ⟨_ | q, e'⟩
        · exact ih _ _ _ _ h hp
        · cases h; exact this
    | opt a | not a | and a =>
      simp only [accStep] at h
      cases h1 : acc U G I n a p er with
      | none => rw [h1] at h; cases h
      | some v =>
        rw [h1] at h
        have := ih _ _ _ _ h1 hp
        rcases v with ⟨_ | q, e'⟩ <;> cases h <;> intro q' hq <;> first | (cases hq; exact hp) | exact this _ hq | cases hq
    | lab a | grp a | act f a => exact ih _ _ _ _ h hp

theorem FRun.bnd (hd : AccInv U G I d) {e p ks s o ks' s'} (h : FRun U G I d last err e p ks s o ks' s') :
    Bnd I p → ∀ q, o = some q → Bnd I q := by
  induction h with
  | termOk ht => intro hp q hq; cases hq; exact (tm_bnd hp).1 _ ht
  | memo hm =>
    intro hp q hq
    subst hq
    rcases failMemo_res hm with h | ⟨e, h⟩
    · cases h
    · obtain ⟨⟨n, hn⟩, _⟩ := hd _ _ _ h
      exact acc_bnd _ _ _ _ _ hn hp q rfl
  | body _ _ ih => exact ih
  | seqOk _ _ iha ihb | plusOk _ _ iha ihb | starOk _ _ iha ihb => intro hp q hq; exact ihb (iha hp _ rfl) q hq
  | altL _ iha | optOk _ iha => exact iha
  | altR _ _ _ ihb => exact ihb
  | optNo _ _ | starNo _ _ | notOk _ _ | andOk _ _ => intro hp q hq; cases hq; exact hp
  | termNo _ | seqNo _ _ | plusNo _ _ | notNo _ _ | andNo _ _ => intro hp q hq; cases hq
  | lab _ ih | grp _ ih | act _ ih => exact ih

/-! ### The nodes of the trees -/

/-- A property of calls that passes on to the calls they make. -/
structure Closed (U : Uni) (G : Gram F) (I : Input) (d : Tab (Option Nat × Nat)) (last err : Nat)
    (V : Expr F → Nat → Prop) : Prop where
  ref : ∀ {r p s}, V (.ref r) p → failMemo (F := F) d last err r p s = none → V (G.body r) p
  seqL : ∀ {a b p}, V (.seq a b) p → V a p
  seqR : ∀ {a b p ks s q ks' s'}, V (.seq a b) p → FRun U G I d last err a p ks s (some q) ks' s' → V b q
  altL : ∀ {a b p}, V (.alt a b) p → V a p
  altR : ∀ {a b p ks s ks' s'}, V (.alt a b) p → FRun U G I d last err a p ks s none ks' s' → V b p
  opt : ∀ {a p}, V (.opt a) p → V a p
  plusL : ∀ {a p}, V (.plus a) p → V a p
  plusR : ∀ {a p ks s q ks' s'}, V (.plus a) p → FRun U G I d last err a p ks s (some q) ks' s' → V (.star a) q
  starL : ∀ {a p}, V (.star a) p → V a p
  starR : ∀ {a p ks s q ks' s'}, V (.star a) p → FRun U G I d last err a p ks s (some q) ks' s' → V (.star a) q
  not : ∀ {a p}, V (.not a) p → V a p
  and : ∀ {a p}, V (.and a) p → V a p
  lab : ∀ {a p}, V (.lab a) p → V a p
  grp : ∀ {a p}, V (.grp a) p → V a p
  act : ∀ {f a p}, V (.act f a) p → V a p

/-- `Q` holds for the nodes that are made. -/
structure Makes (U : Uni) (G : Gram F) (I : Input) (d : Tab (Option Nat × Nat)) (last err : Nat)
    (V : Expr F → Nat → Prop) (Q : Fail (Want F) → Prop) : Prop where
  term : ∀ {t p x i}, V (.term t) p → tm U I t p = .inr x → err ≤ x + 1 → Q (.mk i none x (some (.term t)) [])
  not : ∀ {a p ks s q ks' s' i}, V (.not a) p → FRun U G I d last err a p ks s (some q) ks' s' → err ≤ p + 1 →
    Q (.mk i none p (some (.not a)) [])
  and : ∀ {a p ks s ks' s' i}, V (.and a) p → FRun U G I d last err a p ks s none ks' s' → err ≤ p + 1 →
    Q (.mk i none p (some (.and a)) [])
  rule : ∀ {r p s o kids s' i}, V (.ref r) p → failMemo d last err r p s = none →
    FRun U G I d last err (G.body r) p [] s o kids s' → Q (ruleFail G r p o kids i)

/-- A set of nodes whose addresses are below `n` and identify them. -/
structure Pool (Q P : Fail (Want F) → Prop) (n : Nat) : Prop where
  kid : ∀ f, P f → ∀ k ∈ f.kids, P k ∧ k.counts = true
  lt : ∀ f, P f → f.id < n
  inj : ∀ f g, P f → P g → f.id = g.id → f = g
  ok : ∀ f, P f → Q f

theorem Pool.mono {Q P : Fail (Want F) → Prop} {n m : Nat} (h : Pool Q P n) (hn : n ≤ m) : Pool Q P m :=
  ⟨h.kid, fun f hf => Nat.lt_of_lt_of_le (h.lt f hf) hn, h.inj, h.ok⟩

theorem Pool.add {Q P : Fail (Want F) → Prop} {n : Nat} (h : Pool Q P n) (f : Fail (Want F)) (hi : f.id = n)
    (hq : Q f) (hk : ∀ k ∈ f.kids, P k ∧ k.counts = true) : Pool Q (fun x => P x ∨ x = f) (n + 1) := by
  refine ⟨?_, ?_, ?_, ?_⟩
  · rintro g (hg | rfl) k hk'
    · exact ⟨.inl (h.kid g hg k hk').1, (h.kid g hg k hk').2⟩
    · exact ⟨.inl (hk k hk').1, (hk k hk').2⟩
  · rintro g (hg | rfl)
    · have := h.lt g hg; omega
    · omega
  · rintro g g' (hg | rfl) (hg' | rfl) he
    · exact h.inj g g' hg hg' he
    · have := h.lt g hg; omega
    · have := h.lt g' hg'; omega
    · rfl
  · rintro g (hg | rfl)
    · exact h.ok g hg
    · exact hq

/-- The entries of the table are in the set. -/
def TabIn (t : Tab (Fail (Want F))) (P : Fail (Want F) → Prop) : Prop := ∀ p r f, t.get p r = some f → P f
def KidsIn (ks : List (Fail (Want F))) (P : Fail (Want F) → Prop) : Prop := ∀ k ∈ ks, P k ∧ k.counts = true

theorem failMemo_tree {r p : Nat} {s : FS F} {o : Option Nat} {f : Fail (Want F)}
    (h : failMemo d last err r p s = some (o, f)) :
    f = noFail s.next ∨ s.tab.get p r = some f := by
  unfold failMemo at h
  split at h
  · cases h; exact .inl rfl
  · cases hd : d.get p r with
    | none => rw [hd] at h; simp only at h; split at h <;> cases h; exact .inl rfl
    | some v =>
      obtain ⟨o', e⟩ := v
      rw [hd] at h
      simp only at h
      split at h
      · cases h; exact .inl rfl
      · cases hf : s.tab.get p r with
        | none => rw [hf] at h; cases h
        | some g => rw [hf] at h; cases h; exact .inr rfl

theorem noFail_counts (i : Nat) : (noFail (F := F) i).counts = false := rfl

/-- What a call achieves. -/
def Step (Q P : Fail (Want F) → Prop) (ks' : List (Fail (Want F))) (s s' : FS F) : Prop :=
  ∃ P' : Fail (Want F) → Prop, Pool Q P' s'.next ∧ (∀ f, P f → P' f) ∧ TabIn s'.tab P' ∧ KidsIn ks' P' ∧ s.next ≤ s'.next

theorem addLeaf_pool {Q P : Fail (Want F) → Prop} {ks : List (Fail (Want F))} {s : FS F} {x : Nat} {w : Want F}
    (hp : Pool Q P s.next) (ht : TabIn s.tab P) (hk : KidsIn ks P)
    (hq : err ≤ x + 1 → ∀ i, Q (.mk i none x (some w) [])) :
    Step Q P (addLeaf err x w ks s).1 s (addLeaf err x w ks s).2 := by
  unfold addLeaf
  split
  · rename_i he
    refine ⟨_, hp.add (.mk s.next none x (some w) []) rfl (hq he _) (by intro k hk; cases hk), fun f h => .inl h,
      fun p r f h => .inl (ht p r f h), ?_, Nat.le_succ _⟩
    intro k hk'
    rcases List.mem_append.1 hk' with h | h
    · exact ⟨.inl (hk k h).1, (hk k h).2⟩
    · rw [List.mem_singleton] at h; subst h; exact ⟨.inr rfl, rfl⟩
  · exact ⟨P, hp, fun _ h => h, ht, hk, Nat.le_refl _⟩

theorem addKid_in {P : Fail (Want F) → Prop} {f : Fail (Want F)} {ks : List (Fail (Want F))}
    (hf : f.counts = true → P f) (hk : KidsIn ks P) : KidsIn (addKid f ks) P := by
  unfold addKid
  split
  · rename_i hc
    intro k hk'
    rcases List.mem_append.1 hk' with h | h
    · exact hk k h
    · rw [List.mem_singleton] at h; subst h; exact ⟨hf hc, hc⟩
  · exact hk

theorem ruleFail_id (r p o) (kids : List (Fail (Want F))) (i : Nat) : (ruleFail G r p o kids i).id = i := by
  unfold ruleFail; split <;> rfl
theorem ruleFail_kids (r p o) (kids : List (Fail (Want F))) (i : Nat) :
    ∀ k ∈ (ruleFail G r p o kids i).kids, k ∈ kids := by
  unfold ruleFail; split
  · intro k hk; cases hk
  · exact fun k hk => hk

theorem put_in {P : Fail (Want F) → Prop} {f : Fail (Want F)} {t : Tab (Fail (Want F))} {p r : Nat} (h : TabIn t P) :
    TabIn (t.put p r f) (fun x => P x ∨ x = f) := by
  intro p' r' g hg
  rw [Tab.get_put] at hg
  split at hg
  · cases hg; exact .inr rfl
  · exact .inl (h _ _ _ hg)

theorem FRun.pool {V : Expr F → Nat → Prop} {Q : Fail (Want F) → Prop} (hV : Closed U G I d last err V)
    (hQ : Makes U G I d last err V Q) {e p ks s o ks' s'}
    (h : FRun U G I d last err e p ks s o ks' s') :
    V e p → ∀ P, Pool Q P s.next → TabIn s.tab P → KidsIn ks P → Step Q P ks' s s' := by
  have stay : ∀ {P : Fail (Want F) → Prop} {ks : List (Fail (Want F))} {s : FS F}, Pool Q P s.next → TabIn s.tab P →
      KidsIn ks P → Step Q P ks s s := fun hp ht hk => ⟨_, hp, fun _ h => h, ht, hk, Nat.le_refl _⟩
  have two : ∀ {P : Fail (Want F) → Prop} {ks' ks'' : List (Fail (Want F))} {s s' s'' : FS F}, Step Q P ks' s s' →
      (∀ P', Pool Q P' s'.next → TabIn s'.tab P' → KidsIn ks' P' → Step Q P' ks'' s' s'') → Step Q P ks'' s s'' := by
    rintro P ks' ks'' s s' s'' ⟨P', h1, h2, h3, h4, h5⟩ h
    obtain ⟨P'', i1, i2, i3, i4, i5⟩ := h P' h1 h3 h4
    exact ⟨P'', i1, fun f hf => i2 f (h2 f hf), i3, i4, Nat.le_trans h5 i5⟩
  induction h with
  | termOk _ => exact fun _ P hp ht hk => stay hp ht hk
  | termNo htm => exact fun hv P hp ht hk => addLeaf_pool hp ht hk fun he i => hQ.term hv htm he
  | memo hm =>
    intro hv P hp ht hk
    refine ⟨P, hp.mono (Nat.le_succ _), fun _ h => h, ht, addKid_in (fun hc => ?_) hk, Nat.le_succ _⟩
    rcases failMemo_tree hm with h | h
    · rw [h] at hc; cases hc
    · exact ht _ _ _ h
  | body hm hb ih =>
    intro hv P hp ht hk
    obtain ⟨P', h1, h2, h3, h4, h5⟩ := ih (hV.ref hv hm) P hp ht (by intro k hk; cases hk)
    refine ⟨_, h1.add (ruleFail G _ _ _ _ _) (ruleFail_id ..) (hQ.rule hv hm hb)
      (fun k hk => h4 k (ruleFail_kids _ _ _ _ _ k hk)), fun f hf => .inl (h2 f hf), put_in h3,
      addKid_in (fun _ => .inr rfl) (fun k hk' => ⟨.inl (h2 _ (hk k hk').1), (hk k hk').2⟩), by
        show _ ≤ _ + 1; omega⟩
  | seqNo _ ih => exact fun hv => ih (hV.seqL hv)
  | seqOk ha _ iha ihb => exact fun hv P hp ht hk => two (iha (hV.seqL hv) P hp ht hk) (ihb (hV.seqR hv ha))
  | altL _ ih => exact fun hv => ih (hV.altL hv)
  | altR ha _ iha ihb => exact fun hv P hp ht hk => two (iha (hV.altL hv) P hp ht hk) (ihb (hV.altR hv ha))
  | optOk _ ih | optNo _ ih => exact fun hv => ih (hV.opt hv)
  | plusNo _ ih => exact fun hv => ih (hV.plusL hv)
  | plusOk ha _ iha ihb => exact fun hv P hp ht hk => two (iha (hV.plusL hv) P hp ht hk) (ihb (hV.plusR hv ha))
  | starNo _ ih => exact fun hv => ih (hV.starL hv)
  | starOk ha _ iha ihb => exact fun hv P hp ht hk => two (iha (hV.starL hv) P hp ht hk) (ihb (hV.starR hv ha))
  | notNo ha ih =>
    intro hv P hp ht hk
    obtain ⟨P', h1, h2, h3, h4, h5⟩ := ih (hV.not hv) P hp ht hk
    obtain ⟨P'', i1, i2, i3, i4, i5⟩ := addLeaf_pool (err := err) h1 h3 (fun k hk' => ⟨h2 k (hk k hk').1, (hk k hk').2⟩)
      fun he i => hQ.not hv ha he
    exact ⟨P'', i1, fun f hf => i2 f (h2 f hf), i3, i4, Nat.le_trans h5 i5⟩
  | andNo ha ih =>
    intro hv P hp ht hk
    obtain ⟨P', h1, h2, h3, h4, h5⟩ := ih (hV.and hv) P hp ht hk
    obtain ⟨P'', i1, i2, i3, i4, i5⟩ := addLeaf_pool (err := err) h1 h3 (fun k hk' => ⟨h2 k (hk k hk').1, (hk k hk').2⟩)
      fun he i => hQ.and hv ha he
    exact ⟨P'', i1, fun f hf => i2 f (h2 f hf), i3, i4, Nat.le_trans h5 i5⟩
  | notOk _ ih =>
    intro hv P hp ht hk
    obtain ⟨P', h1, h2, h3, h4, h5⟩ := ih (hV.not hv) P hp ht hk
    exact ⟨P', h1, h2, h3, fun k hk' => ⟨h2 k (hk k hk').1, (hk k hk').2⟩, h5⟩
  | andOk _ ih =>
    intro hv P hp ht hk
    obtain ⟨P', h1, h2, h3, h4, h5⟩ := ih (hV.and hv) P hp ht hk
    exact ⟨P', h1, h2, h3, fun k hk' => ⟨h2 k (hk k hk').1, (hk k hk').2⟩, h5⟩
  | lab _ ih => exact fun hv => ih (hV.lab hv)
  | grp _ ih => exact fun hv => ih (hV.grp hv)
  | act _ ih => exact fun hv => ih (hV.act hv)

/-- The same for a call from outside. -/
theorem failRule_pool {V : Expr F → Nat → Prop} {Q : Fail (Want F) → Prop} (hV : Closed U G I d last err V)
    (hQ : Makes U G I d last err V Q) {n r p s f s'} (h : failRule U G I d last err n r p s = some (f, s'))
    (hv : V (.ref r) p) {P} (hp : Pool Q P s.next) (ht : TabIn s.tab P) :
    ∃ P' : Fail (Want F) → Prop, Pool Q P' s'.next ∧ TabIn s'.tab P' ∧ (f = noFail s.next ∨ P' f) := by
  unfold failRule at h
  cases hm : failMemo d last err r p s with
  | some v =>
    rw [hm] at h
    cases h
    refine ⟨P, hp.mono (Nat.le_succ _), ht, ?_⟩
    rcases failMemo_tree hm with h | h
    · exact .inl h
    · exact .inr (ht _ _ _ h)
  | none =>
    rw [hm] at h
    simp only at h
    cases h1 : failM U G I d last err n (G.body r) p [] s with
    | none => rw [h1] at h; cases h
    | some v =>
      obtain ⟨⟨o, kids⟩, s1⟩ := v
      rw [h1] at h
      cases h
      have hr := failM_run U G I d last err _ _ _ _ _ _ _ _ h1
      obtain ⟨P', i1, i2, i3, i4, i5⟩ := hr.pool hV hQ (hV.ref hv hm) P hp ht (by intro k hk; cases hk)
      exact ⟨_, i1.add (ruleFail G _ _ _ _ _) (ruleFail_id ..) (hQ.rule hv hm hr)
        (fun k hk => i4 k (ruleFail_kids _ _ _ _ _ k hk)), put_in i3, .inr (.inr rfl)⟩

/-! Trees in a pool -/

theorem Pool.sub {Q P : Fail (Want F) → Prop} {n : Nat} (h : Pool Q P n) {f x : Fail (Want F)} (hs : Sub f x) :
    P f → P x := by
  induction hs with
  | refl => exact fun h => h
  | kid hk _ ih => exact fun hf => ih (h.kid _ hf _ hk).1

theorem Pool.consistent {Q P : Fail (Want F) → Prop} {n : Nat} (h : Pool Q P n) {f} (hf : P f) : Consistent f :=
  fun x y hx hy he => h.inj x y (h.sub hx hf) (h.sub hy hf) he

theorem leaf_sub : ∀ f : Fail (Want F), ∀ x ∈ leaves f, Sub f x ∧ x.kids = [] ∧ (x = f ∨ ∃ g, Sub f g ∧ x ∈ g.kids) := by
  refine Fail.induct ?_
  intro i nm p w ks ih x hx
  cases ks with
  | nil =>
    simp only [leaves, List.mem_singleton] at hx
    subst hx
    exact ⟨.refl _, rfl, .inl rfl⟩
  | cons k ks =>
    have hx' : x ∈ leavesL (k :: ks) := by simpa [leaves, leavesL] using hx
    rw [leavesL_eq, List.mem_flatMap] at hx'
    obtain ⟨k', hk', hx'⟩ := hx'
    obtain ⟨h1, h2, h3⟩ := ih k' hk' x hx'
    refine ⟨.kid hk' h1, h2, .inr ?_⟩
    rcases h3 with rfl | ⟨g, hg, hxg⟩
    · exact ⟨_, .refl _, hk'⟩
    · exact ⟨g, .kid hk' hg, hxg⟩

/-- The leaves of a tree in a pool: each wants something, or it is the whole tree. -/
theorem Pool.leaf {Q P : Fail (Want F) → Prop} {n : Nat} (h : Pool Q P n) {f} (hf : P f) {x} (hx : x ∈ leaves f) :
    Q x ∧ (x = f ∨ x.want.isSome = true) := by
  obtain ⟨h1, h2, h3⟩ := leaf_sub f x hx
  refine ⟨h.ok _ (h.sub h1 hf), ?_⟩
  rcases h3 with h3 | ⟨g, hg, hxg⟩
  · exact .inl h3
  · have := (h.kid g (h.sub hg hf) x hxg).2
    unfold Fail.counts at this
    rw [h2] at this
    simpa using Or.inr this

end Verif.Peg
