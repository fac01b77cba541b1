/-
C56: what the states of the interpreter mean.
-/
import Verif.Logic.DenBase
import Verif.Logic.InterpSorted

namespace Verif.Logic.Den
open Verif.Tone (Str)

/-! ## Lists -/

theorem addNew_append : ∀ (m l n : List Nat), addNew l (m ++ n) = addNew (addNew l m) n
  | [], l, n => rfl
  | i :: m, l, n => by
    simp only [List.cons_append, addNew]
    split <;> exact addNew_append m _ n

theorem mem_addNew {i : Nat} : ∀ {m l : List Nat}, i ∈ addNew l m ↔ i ∈ l ∨ i ∈ m
  | [], l => by simp [addNew]
  | j :: m, l => by
    simp only [addNew]
    split
    · next h =>
      rw [mem_addNew (m := m), List.mem_cons]
      constructor
      · rintro (h' | h')
        · exact .inl h'
        · exact .inr (.inr h')
      · rintro (h' | rfl | h')
        · exact .inl h'
        · exact .inl h
        · exact .inr h'
    · rw [mem_addNew (m := m)]
      simp only [List.mem_append, List.mem_cons, List.not_mem_nil, or_false]
      tauto

theorem addNew_sub : ∀ {m l : List Nat}, (∀ i ∈ m, i ∈ l) → addNew l m = l
  | [], l, _ => rfl
  | j :: m, l, h => by
    simp only [addNew, h j (by simp), if_true]
    exact addNew_sub fun i hi => h i (by simp [hi])

theorem addNew_nodup : ∀ {m l : List Nat}, l.Nodup → (addNew l m).Nodup
  | [], l, h => h
  | j :: m, l, h => by
    simp only [addNew]
    split
    · exact addNew_nodup h
    · next hj =>
      refine addNew_nodup ?_
      rw [List.nodup_append]
      refine ⟨h, by simp, ?_⟩
      intro a ha b hb
      rw [List.mem_singleton] at hb
      subst hb
      rintro rfl
      exact hj ha

@[simp] theorem toks_append (l m : List Ev) : toks (l ++ m) = toks l ++ toks m := by simp [toks]
@[simp] theorem argIds_append (l m : List Ev) : argIds (l ++ m) = argIds l ++ argIds m := by simp [argIds]
@[simp] theorem toks_nil : toks [] = [] := rfl
@[simp] theorem argIds_nil : argIds [] = [] := rfl
@[simp] theorem toks_tok (t : Tok) : toks [.tok t] = [t] := rfl
@[simp] theorem argIds_tok (t : Tok) : argIds [.tok t] = [] := rfl
@[simp] theorem toks_arg (i : Nat) : toks [.arg i] = [] := rfl
@[simp] theorem argIds_arg (i : Nat) : argIds [.arg i] = [i] := rfl

@[simp] theorem mem_toks {t : Tok} {l : List Ev} : t ∈ toks l ↔ .tok t ∈ l := by
  rw [toks, List.mem_filterMap]
  constructor
  · rintro ⟨e, he, h⟩
    cases e with
    | tok u => cases h; exact he
    | arg i => cases h
  · intro h; exact ⟨_, h, rfl⟩

@[simp] theorem mem_argIds {i : Nat} {l : List Ev} : i ∈ argIds l ↔ .arg i ∈ l := by
  rw [argIds, List.mem_filterMap]
  constructor
  · rintro ⟨e, he, h⟩
    cases e with
    | tok u => cases h
    | arg i => cases h; exact he
  · intro h; exact ⟨_, h, rfl⟩

theorem mem_toks_without (t t' : Tok) (l : List Ev) : t ∈ toks (without t' l) ↔ t ∈ toks l ∧ t ≠ t' := by
  simp [without]

@[simp] theorem argIds_without (t : Tok) (l : List Ev) : argIds (without t l) = argIds l := by
  induction l with
  | nil => rfl
  | cons e l ih =>
    cases e with
    | tok u =>
      by_cases h : u = t
      · subst h
        have : without u (.tok u :: l) = without u l := by simp [without]
        rw [this, ih]; rfl
      · have : without t (.tok u :: l) = .tok u :: without t l := by simp [without, h]
        rw [this]; exact ih
    | arg i =>
      have : without t (.arg i :: l) = .arg i :: without t l := by simp [without]
      rw [this]
      show i :: argIds (without t l) = i :: argIds l
      rw [ih]

/-! ## States -/

def ids (l : List Pending) : List Nat := l.map (·.id)
@[simp] theorem ids_append (l m : List Pending) : ids (l ++ m) = ids l ++ ids m := by simp [ids]
theorem mem_ids {b : Nat} {l : List Pending} : b ∈ ids l ↔ ∃ p ∈ l, p.id = b := by simp [ids]

/-- The arguments bound around the text so far, in order. -/
def keys (s : St) : List Nat := (s.lifted.map (·.1)).reverse

/-- The binding a name refers to. -/
def look (s : St) : Tok → Option Nat
  | none => s.hoa.head?
  | some x => s.vars.lookup x

/-- `sub` is the content of the argument `w`. -/
def content (sub : Node) (y : Nat) (v w : Var) : Node :=
  .app (.abs (.bind .lambda y y false none (.app (.name equalName) [some (.var v), some (.abs sub)]))) [some (.var w)]

section
variable {M : Model}

/-- The variables of pending bindings have the values they should have. -/
structure Good (L ρ : Nat → M.D) (X : List Pending) (T : List (Nat × Nat)) : Prop where
  arg : ∀ id b, T.lookup id = some b → b ∈ ids X → ρ b = L id
  adv : ∀ p ∈ X, (∀ id, T.lookup id ≠ some p.id) → ∀ sub y v w, p.restr = some (content sub y v w) →
    ρ p.id = M.absD (M.stmt sub ρ)

variable (U : Uni) (A : Nat → AST.Node)

/-- What an argument's description mentions. -/
abbrev evRestr (p : AST.Node) (rel : Option AST.Node) : List Ev := evPred U p ++ evORel U rel

/-- The argument with this address is bound around the text. -/
def Lifted (i : Nat) (E : List Ev) : Prop :=
  ∃ focus quant p rel, A i = .predArg i focus quant p rel ∧ form U p = .plain ∧ quantOf U quant = .the ∧
    E = evRestr U p rel ∧ toks E = []

variable (M)

/-- A pending binding after `X`. -/
structure PendOk (T : List (Nat × Nat)) (X : List Pending) (p : Pending) : Prop where
  q : p.q = .the
  restr : ∃ r, p.restr = some r ∧
    ((∃ id, T.lookup id = some p.id ∧ (∃ E, Lifted U A id E) ∧
        Tr (fun _ => True) (fun x => x ∈ ids X ∨ x = p.id) r ∧
        ∀ L ρ : Nat → M.D, Good L ρ X T → M.stmt r ρ = restrOf U L (ρ p.id) (A id)) ∨
      ((∀ id, T.lookup id ≠ some p.id) ∧ ∃ sub y v w, r = content sub y v w ∧ v.n = y ∧ v.dfn = some y ∧ w.n = p.id ∧
        w.dfn = some p.id ∧ y ∉ ids X ∧ y ≠ p.id ∧ Tr (fun _ => True) (fun x => x ∈ ids X) sub))

structure Inv (s : St) : Prop where
  cleared : s.cleared = []
  the : ∀ p ∈ s.the, p.id < s.n ∧ s.quant p.id = .the
  nodup : (ids s.the).Nodup
  lift : ∀ x ∈ s.lifted, x.2 ∈ ids s.the
  keysN : (s.lifted.map (·.1)).Nodup
  order : (ids s.the).filter (fun b => b ∈ s.lifted.map (·.2)) = (s.lifted.map (·.2)).reverse
  pend : ∀ X p Y, s.the = X ++ p :: Y → PendOk M U A s.lifted X p
  inner : ∀ i ∈ keys s, ∃ E, Lifted U A i E ∧ ∀ j ∈ argIds E, j ∈ keys s

end

/-- From `s` to `s'`, with the arguments `E` coming up. -/
structure Evo (s s' : St) (E : List Nat) : Prop where
  n : s.n ≤ s'.n
  hoa : s'.hoa = s.hoa
  hi : s'.hi = s.hi
  quant : ∀ b < s.n, s'.quant b = s.quant b
  keys : keys s' = addNew (keys s) E
  lifted : ∃ N, s'.lifted = N ++ s.lifted ∧ ∀ x ∈ N, s.n ≤ x.2 ∧ x.2 < s'.n ∧ x.1 ∉ s.lifted.map (·.1)
  the : ∃ N, s'.the = s.the ++ N ∧ ∀ p ∈ N, s.n ≤ p.id ∧ p.id < s'.n

theorem Evo.refl (s : St) : Evo s s [] :=
  ⟨Nat.le_refl _, rfl, rfl, fun _ _ => rfl, rfl, ⟨[], rfl, by simp⟩, ⟨[], by simp, by simp⟩⟩

theorem Evo.trans {s s' s'' : St} {E E' : List Nat} (h : Evo s s' E) (h' : Evo s' s'' E') : Evo s s'' (E ++ E') := by
  obtain ⟨N, hN, hN'⟩ := h.lifted
  obtain ⟨N2, hN2, hN2'⟩ := h'.lifted
  obtain ⟨P, hP, hP'⟩ := h.the
  obtain ⟨P2, hP2, hP2'⟩ := h'.the
  have hn := h.n
  have hn' := h'.n
  refine ⟨Nat.le_trans hn hn', h'.hoa.trans h.hoa, h'.hi.trans h.hi, fun b hb => ?_, ?_, ?_, ?_⟩
  · rw [h'.quant b (by omega), h.quant b hb]
  · rw [h'.keys, h.keys, addNew_append]
  · refine ⟨N2 ++ N, by rw [hN2, hN, List.append_assoc], fun x hx => ?_⟩
    rcases List.mem_append.1 hx with hx | hx
    · obtain ⟨a, b, c⟩ := hN2' x hx
      refine ⟨by omega, b, fun hk => c ?_⟩
      rw [hN]; simp only [List.map_append, List.mem_append]; exact .inr hk
    · obtain ⟨a, b, c⟩ := hN' x hx
      exact ⟨a, by omega, c⟩
  · refine ⟨P ++ P2, by rw [hP2, hP, List.append_assoc], fun x hx => ?_⟩
    rcases List.mem_append.1 hx with hx | hx
    · obtain ⟨a, b⟩ := hP' x hx
      exact ⟨a, by omega⟩
    · obtain ⟨a, b⟩ := hP2' x hx
      exact ⟨by omega, b⟩

theorem Evo.the_sub {s s' : St} {E : List Nat} (h : Evo s s' E) {b : Nat} (hb : b ∈ ids s.the) : b ∈ ids s'.the := by
  obtain ⟨P, hP, -⟩ := h.the
  rw [hP, ids_append]; exact List.mem_append_left _ hb

theorem Evo.the_new {s s' : St} {E : List Nat} (h : Evo s s' E) {b : Nat} (hb : b ∈ ids s'.the) :
    b ∈ ids s.the ∨ s.n ≤ b := by
  obtain ⟨P, hP, hP'⟩ := h.the
  rw [hP, ids_append] at hb
  rcases List.mem_append.1 hb with hb | hb
  · exact .inl hb
  · obtain ⟨p, hp, rfl⟩ := mem_ids.1 hb
    exact .inr (hP' p hp).1

theorem lookup_append {l m : List (Nat × Nat)} {i : Nat} : (l ++ m).lookup i = (l.lookup i).or (m.lookup i) := by
  induction l with
  | nil => simp
  | cons a l ih =>
    obtain ⟨j, b⟩ := a
    by_cases h : i = j
    · subst h; simp [List.lookup]
    · have : (i == j) = false := by simpa using h
      simp [List.lookup, this, ih]

theorem mem_lookup {l : List (Nat × Nat)} {i b : Nat} (h : l.lookup i = some b) : (i, b) ∈ l := by
  induction l with
  | nil => cases h
  | cons a l ih =>
    obtain ⟨j, c⟩ := a
    by_cases hj : i = j
    · subst hj; simp [List.lookup] at h; simp [h]
    · have : (i == j) = false := by simpa using hj
      simp only [List.lookup, this] at h
      exact List.mem_cons_of_mem _ (ih h)

theorem lookup_none {l : List (Nat × Nat)} {i : Nat} : l.lookup i = none ↔ i ∉ l.map (·.1) := by
  induction l with
  | nil => simp
  | cons a l ih =>
    obtain ⟨j, c⟩ := a
    by_cases hj : i = j
    · subst hj; simp [List.lookup]
    · have : (i == j) = false := by simpa using hj
      simp only [List.lookup, this, ih, List.map_cons, List.mem_cons, hj, false_or]

theorem lookup_mem {l : List (Nat × Nat)} (hn : (l.map (·.1)).Nodup) {i b : Nat} (h : (i, b) ∈ l) : l.lookup i = some b := by
  induction l with
  | nil => cases h
  | cons a l ih =>
    obtain ⟨j, c⟩ := a
    rw [List.map_cons, List.nodup_cons] at hn
    rcases List.mem_cons.1 h with h' | h'
    · cases h'; simp [List.lookup]
    · have hij : i ≠ j := by
        rintro rfl
        exact hn.1 (List.mem_map.2 ⟨(i, b), h', rfl⟩)
      have : (i == j) = false := by simpa using hij
      simp only [List.lookup, this]
      exact ih hn.2 h'

theorem Evo.lookup {s s' : St} {E : List Nat} (h : Evo s s' E) {i b : Nat} (hb : s.lifted.lookup i = some b) :
    s'.lifted.lookup i = some b := by
  obtain ⟨N, hN, hN'⟩ := h.lifted
  rw [hN, lookup_append]
  have : N.lookup i = none := by
    rw [lookup_none]
    intro hi
    obtain ⟨x, hx, rfl⟩ := List.mem_map.1 hi
    exact (hN' x hx).2.2 (List.mem_map.2 ⟨_, mem_lookup hb, rfl⟩)
  rw [this, Option.none_or, hb]

theorem Evo.lookup_new {s s' : St} {E : List Nat} (h : Evo s s' E) {i b : Nat} (hb : s'.lifted.lookup i = some b) :
    s.lifted.lookup i = some b ∨ s.n ≤ b := by
  obtain ⟨N, hN, hN'⟩ := h.lifted
  rw [hN, lookup_append] at hb
  cases hl : N.lookup i with
  | none => rw [hl, Option.none_or] at hb; exact .inl hb
  | some c =>
    rw [hl, Option.some_or] at hb
    cases hb
    exact .inr (hN' _ (mem_lookup hl)).1

section
variable {M : Model} {U : Uni} {A : Nat → AST.Node}

/-- What is right for a longer list and table is right for a shorter one. -/
theorem Good.sub {L ρ : Nat → M.D} {X X' : List Pending} {T T' : List (Nat × Nat)} (h : Good L ρ X' T')
    (hX : ∀ p ∈ X, p ∈ X') (hT : ∀ i b, T.lookup i = some b → T'.lookup i = some b)
    (hT' : ∀ i b, T'.lookup i = some b → b ∈ ids X → T.lookup i = some b) : Good L ρ X T where
  arg i b hb hX' := h.arg i b (hT i b hb) (by
    obtain ⟨p, hp, rfl⟩ := mem_ids.1 hX'
    exact mem_ids.2 ⟨p, hX p hp, rfl⟩)
  adv p hp hn := h.adv p (hX p hp) fun i hi => hn i (hT' i _ hi (mem_ids.2 ⟨p, hp, rfl⟩))

theorem Good.evo {L ρ : Nat → M.D} {s s' : St} {E : List Nat} (h : Good L ρ s'.the s'.lifted) (hs : Inv M U A s)
    (he : Evo s s' E) : Good L ρ s.the s.lifted := by
  obtain ⟨P, hP, -⟩ := he.the
  refine h.sub (fun p hp => by rw [hP]; exact List.mem_append_left _ hp) (fun i b hb => he.lookup hb) ?_
  intro i b hb hX
  rcases he.lookup_new hb with h | h
  · exact h
  · obtain ⟨p, hp, rfl⟩ := mem_ids.1 hX
    have := (hs.the p hp).1
    omega

/-- A change of the value of something else. -/
theorem Good.upd {L ρ : Nat → M.D} {s : St} (h : Good L ρ s.the s.lifted) (hs : Inv M U A s) {x : Nat}
    (hx : x ∉ ids s.the) (d : M.D) : Good L (upd ρ x d) s.the s.lifted where
  arg i b hb hX := by
    have : b ≠ x := by rintro rfl; exact hx hX
    rw [Logic.upd, if_neg this]
    exact h.arg i b hb hX
  adv p hp hn sub y v w hr := by
    have hpx : p.id ≠ x := by rintro rfl; exact hx (mem_ids.2 ⟨p, hp, rfl⟩)
    rw [Logic.upd, if_neg hpx, h.adv p hp hn sub y v w hr]
    obtain ⟨X, Y, hXY⟩ := List.append_of_mem hp
    obtain ⟨r, hr', h1 | ⟨h2, sub', y', v', w', rfl, -, -, -, -, -, -, ht⟩⟩ := (hs.pend X p Y hXY).restr
    · obtain ⟨i, hi, -⟩ := h1
      exact absurd hi (hn i)
    · rw [hr] at hr'
      cases hr'
      congr 1
      refine (val_congr sub ht ?_).1
      intro z hz
      have : z ≠ x := by
        rintro rfl
        refine hx ?_
        rw [hXY, ids_append]
        exact List.mem_append_left _ hz
      rw [Logic.upd, if_neg this]

/-- Steps of the interpreter that leave the pending bindings alone. -/
theorem Inv.same {s s' : St} (h : Inv M U A s) (hc : s'.cleared = s.cleared) (ht : s'.the = s.the)
    (hl : s'.lifted = s.lifted) (hn : s.n ≤ s'.n) (hq : ∀ b < s.n, s'.quant b = s.quant b) : Inv M U A s' where
  cleared := hc.trans h.cleared
  the p hp := by
    rw [ht] at hp
    obtain ⟨h1, h2⟩ := h.the p hp
    exact ⟨by omega, (hq _ h1).trans h2⟩
  nodup := by rw [ht]; exact h.nodup
  lift x hx := by rw [ht]; exact h.lift x (hl ▸ hx)
  keysN := by rw [hl]; exact h.keysN
  order := by rw [ht, hl]; exact h.order
  pend X p Y hp := by rw [hl]; exact h.pend X p Y (ht ▸ hp)
  inner i hi := by
    have hk : keys s' = keys s := by rw [keys, hl]; rfl
    rw [hk] at hi ⊢
    exact h.inner i hi

theorem Evo.same {s s' : St} (ht : s'.the = s.the) (hl : s'.lifted = s.lifted) (hn : s.n ≤ s'.n)
    (hq : ∀ b < s.n, s'.quant b = s.quant b) (hh : s'.hoa = s.hoa) (hi : s'.hi = s.hi) : Evo s s' [] :=
  ⟨hn, hh, hi, hq, by rw [Den.keys, hl]; rfl, ⟨[], by simp [hl], by simp⟩, ⟨[], by simp [ht], by simp⟩⟩

/-- The bindings made between two states that are put in their place at once. -/
def Bd (s s' : St) (b : Nat) : Prop := s.n ≤ b ∧ b < s'.n ∧ b ∉ ids s'.the

theorem Bd.right {s s' s'' : St} {E : List Nat} (he : Evo s' s'' E) {b : Nat} (h : Bd s s' b) : Bd s s'' b := by
  refine ⟨h.1, Nat.lt_of_lt_of_le h.2.1 he.n, fun hb => ?_⟩
  rcases he.the_new hb with hb | hb
  · exact h.2.2 hb
  · have := h.2.1; omega

theorem Bd.left {s s' s'' : St} {E : List Nat} (he : Evo s s' E) {b : Nat} (h : Bd s' s'' b) : Bd s s'' b :=
  ⟨Nat.le_trans he.n h.1, h.2⟩

/-- The variables that may be free: names `F`, variables `V`, pending bindings. -/
def Xs (lk : Tok → Option Nat) (s' : St) (F : List Tok) (V : List Var) (x : Nat) : Prop :=
  (∃ t ∈ F, lk t = some x) ∨ (∃ v ∈ V, v.n = x) ∨ x ∈ ids s'.the

theorem Xs.mono {lk : Tok → Option Nat} {s s' : St} {F F' : List Tok} {V V' : List Var} {x : Nat} (h : Xs lk s F V x)
    (hF : ∀ t ∈ F, t ∈ F') (hV : ∀ z ∈ V, z ∈ V') (hs : ∀ b ∈ ids s.the, b ∈ ids s'.the) : Xs lk s' F' V' x := by
  rcases h with ⟨t, ht, h⟩ | ⟨z, hz, h⟩ | h
  · exact .inl ⟨t, hF t ht, h⟩
  · exact .inr (.inl ⟨z, hV z hz, h⟩)
  · exact .inr (.inr (hs x h))

/-- The names `F` refer to bindings that vary or not as `dep` says. -/
def Sees (dep : Dep) (lk : Tok → Option Nat) (s : St) (F : List Tok) : Prop :=
  ∀ t ∈ F, ∃ b, lk t = some b ∧ b < s.n ∧ (dep t = true ↔ s.quant b ≠ .the)

theorem Sees.sub {dep : Dep} {lk : Tok → Option Nat} {s : St} {F F' : List Tok} (h : Sees dep lk s F)
    (hF : ∀ t ∈ F', t ∈ F) : Sees dep lk s F' := fun t ht => h t (hF t ht)

theorem Sees.evo {dep : Dep} {lk : Tok → Option Nat} {s s' : St} {F : List Tok} {E : List Nat} (h : Sees dep lk s F)
    (he : Evo s s' E) : Sees dep lk s' F := by
  intro t ht
  obtain ⟨b, h1, h2, h3⟩ := h t ht
  exact ⟨b, h1, Nat.lt_of_lt_of_le h2 he.n, by rw [he.quant b h2]; exact h3⟩

/-- Arguments are variables. -/
def ZOk (s : St) (Z : Args) : Prop := ∀ z ∈ Z, ∃ v, z.1 = Node.var v ∧ v.n < s.n

/-- Variables point to their bindings; those that do not vary are pending, unless `i`. -/
def VOk (s : St) (V : List Var) (i : Bool) : Prop :=
  ∀ v ∈ V, v.dfn = some v.n ∧ v.n < s.n ∧ (s.quant v.n = .the → i = false → v.n ∈ ids s.the)

theorem ZOk.evo {s s' : St} {Z : Args} {E : List Nat} (h : ZOk s Z) (he : Evo s s' E) : ZOk s' Z := by
  intro z hz
  obtain ⟨v, h1, h3⟩ := h z hz
  exact ⟨v, h1, Nat.lt_of_lt_of_le h3 he.n⟩

theorem VOk.evo {s s' : St} {V : List Var} {i : Bool} {E : List Nat} (h : VOk s V i) (he : Evo s s' E) :
    VOk s' V i := by
  intro v hv
  obtain ⟨h2, h3, h4⟩ := h v hv
  exact ⟨h2, Nat.lt_of_lt_of_le h3 he.n, fun hq hi => he.the_sub (h4 (by rw [← he.quant _ h3]; exact hq) hi)⟩

theorem VOk.imp {s : St} {V : List Var} {i j : Bool} (h : VOk s V i) (hij : j = false → i = false) : VOk s V j := by
  intro v hv
  obtain ⟨h2, h3, h4⟩ := h v hv
  exact ⟨h2, h3, fun hq hj => h4 hq (hij hj)⟩

/-- The values of arguments. -/
def vals (ρ : Nat → M.D) (Z : Args) : List (M.D × Nat) := Z.map fun z => (M.arg z.1 ρ, z.2)

end

end Verif.Logic.Den
