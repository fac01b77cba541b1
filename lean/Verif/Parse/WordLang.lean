/-
What the rules for particles read. The grammar has a particle as `&X w:S`, where the rule `X` reads the
letters of the particles of a class with any tone and looks for the end of the word, and `S` is a rule
for a syllable. Here are computable bounds for what the rules of words read, and the proof that they
are bounds; with them it is checked that the syllable that `S` reads is a word of the class.
-/
import Verif.Parse.Sound
import Verif.Parse.ClassSpec


namespace Verif.Parse.WordLang
open Verif.AST Verif.AST.Spec Verif.Peg Verif.Parse
open Verif.Tone (Str)

variable {U : Uni} {I : Input} {E : Type} {A : Alg Act E}

/-- A list of character classes. -/
abbrev Seq := List (List Char)

/-- The text from the first to the second offset has a rune of each class, in order. -/
inductive Fits (I : Input) : Seq → Nat → Nat → Prop
  | nil (p) : Fits I [] p p
  | cons {p q c w k ks} : p < I.len → I.next p = (c, w) → c ∈ k → Fits I ks (p + w) q → Fits I (k :: ks) p q

theorem Fits.append {x y p m q} (h : Fits I x p m) (h' : Fits I y m q) : Fits I (x ++ y) p q := by
  induction h with
  | nil p => exact h'
  | cons h1 h2 h3 _ ih => exact .cons h1 h2 h3 (ih h')

/-- The letter that all runes of a class have; `some []` for tone marks. -/
def clsOut : List Char → Option Str
  | [] => none
  | c :: cs => if (c :: cs).all (fun d => foldLetters [d] == foldLetters [c]) then some (foldLetters [c]) else none

theorem clsOut_ok {cs out c} (h : clsOut cs = some out) (hc : c ∈ cs) : foldLetters [c] = out := by
  cases cs with
  | nil => cases hc
  | cons d ds =>
    simp only [clsOut] at h
    split at h
    · rename_i ha
      injection h with h
      rw [← h]
      exact eq_of_beq (List.all_eq_true.1 ha c hc)
    · cases h

/-! ### What an expression reads -/

/-- Add a list of classes; it is joined with one for the same letters. -/
def addSeq (x : Seq) : List Seq → List Seq
  | [] => [x]
  | y :: ys => if x.length == y.length && x.map clsOut == y.map clsOut then List.zipWith (· ++ ·) x y :: ys else y :: addSeq x ys

theorem fits_zip {x y : Seq} {p q} (hl : x.length = y.length) (h : Fits I x p q ∨ Fits I y p q) :
    Fits I (List.zipWith (· ++ ·) x y) p q := by
  induction x generalizing y p with
  | nil =>
    cases y with
    | nil => rcases h with h | h <;> exact h
    | cons _ _ => simp at hl
  | cons a x ih =>
    cases y with
    | nil => simp at hl
    | cons b y =>
      simp only [List.length_cons, Nat.add_right_cancel_iff] at hl
      simp only [List.zipWith_cons_cons]
      rcases h with h | h
      · cases h with
        | cons h1 h2 h3 h4 => exact .cons h1 h2 (List.mem_append_left _ h3) (ih hl (.inl h4))
      · cases h with
        | cons h1 h2 h3 h4 => exact .cons h1 h2 (List.mem_append_right _ h3) (ih hl (.inr h4))

theorem addSeq_ok {x : Seq} {ys : List Seq} {p q} (h : Fits I x p q ∨ ∃ y ∈ ys, Fits I y p q) :
    ∃ z ∈ addSeq x ys, Fits I z p q := by
  induction ys with
  | nil =>
    rcases h with h | ⟨y, hy, _⟩
    · exact ⟨x, by simp [addSeq], h⟩
    · cases hy
  | cons y ys ih =>
    simp only [addSeq]
    split
    · rename_i hs
      simp only [Bool.and_eq_true] at hs
      have hl := eq_of_beq hs.1
      rcases h with h | ⟨z, hz, h⟩
      · exact ⟨_, List.mem_cons_self .., fits_zip hl (.inl h)⟩
      · rcases List.mem_cons.1 hz with rfl | hz
        · exact ⟨_, List.mem_cons_self .., fits_zip hl (.inr h)⟩
        · exact ⟨z, List.mem_cons_of_mem _ hz, h⟩
    · rcases h with h | ⟨z, hz, h⟩
      · obtain ⟨z, hz, h⟩ := ih (.inl h)
        exact ⟨z, List.mem_cons_of_mem _ hz, h⟩
      · rcases List.mem_cons.1 hz with rfl | hz
        · exact ⟨z, List.mem_cons_self .., h⟩
        · obtain ⟨z, hz, h⟩ := ih (.inr ⟨z, hz, h⟩)
          exact ⟨z, List.mem_cons_of_mem _ hz, h⟩

def merge (xs ys : List Seq) : List Seq := xs.foldr addSeq ys

theorem merge_ok {xs ys : List Seq} {p q} (h : (∃ x ∈ xs, Fits I x p q) ∨ ∃ y ∈ ys, Fits I y p q) :
    ∃ z ∈ merge xs ys, Fits I z p q := by
  induction xs with
  | nil => simpa [merge] using h
  | cons x xs ih =>
    simp only [merge, List.foldr_cons]
    rcases h with ⟨z, hz, h⟩ | h
    · rcases List.mem_cons.1 hz with rfl | hz
      · exact addSeq_ok (.inl h)
      · exact addSeq_ok (.inr (ih (.inl ⟨z, hz, h⟩)))
    · exact addSeq_ok (.inr (ih (.inr h)))

/-- Lists of classes for everything that an expression reads. The number bounds the nesting. -/
def lang : Nat → Expr Act → Option (List Seq)
  | 0, _ => none
  | m+1, e => match e with
    | .term (.cls cs) => some [[cs]]
    | .term (.lit c) => some [[[c]]]
    | .term _ => none
    | .ref r => lang m (toaq.body r)
    | .seq a b => match lang m a, lang m b with
      | some xs, some ys => some (xs.flatMap fun x => ys.map (x ++ ·))
      | _, _ => none
    | .alt a b => match lang m a, lang m b with
      | some xs, some ys => some (merge xs ys)
      | _, _ => none
    | .opt a => match lang m a with
      | some xs => some ([] :: xs)
      | none => none
    | .plus _ => none
    | .star _ => none
    | .not _ => some [[]]
    | .and _ => some [[]]
    | .lab a => lang m a
    | .grp a => lang m a
    | .act _ a => lang m a

theorem tm_cls {t : Term} {cs p q} (ht : t = .cls cs ∨ ∃ c, t = .lit c ∧ cs = [c]) (h : tm U I t p = .inl q) :
    ∃ c w, p < I.len ∧ I.next p = (c, w) ∧ c ∈ cs ∧ q = p + w := by
  rcases ht with rfl | ⟨c, rfl, rfl⟩
  · have := leafTy_mean (t := .cls cs) (U := { U with punct := fun _ => false }) (I := I) (p := p) (q := q) rfl h
    obtain ⟨c, hc, _, h1, w, h2, h3⟩ := this
    exact ⟨c, w, h1, h2, hc, h3⟩
  · have := leafTy_mean (t := .lit c) (U := { U with punct := fun _ => false }) (I := I) (p := p) (q := q) rfl h
    obtain ⟨c, hc, _, h1, w, h2, h3⟩ := this
    exact ⟨c, w, h1, h2, hc, h3⟩

theorem fits_one {c w : _} {k : List Char} {p q : Nat} (h1 : p < I.len) (h2 : I.next p = (c, w)) (h3 : c ∈ k)
    (h4 : q = p + w) : Fits I [k] p q := by
  subst h4
  exact .cons h1 h2 h3 (.nil _)

/-- Two results of one expression agree on what was read. -/
theorem ev_ref {n r p q x} (h : ev U toaq I A (n+1) (.ref r) p = some (.ok q x)) :
    ∃ y, ev U toaq I A n (toaq.body r) p = some (.ok q y) ∧ x = A.rule r p q y := by
  rw [ev_s] at h
  simp only [evStep] at h
  split at h
  · cases h
  · cases h
  · split at h
    · rename_i q' y hy
      injection h with h
      injection h with h1 h2
      subst h1
      exact ⟨y, hy, h2.symm⟩
    · rename_i hne
      exact absurd h (hne _ _)

theorem ev_seq {n a b p q x} (h : ev U toaq I A (n+1) (.seq a b) p = some (.ok q x)) :
    ∃ m y z, ev U toaq I A n a p = some (.ok m y) ∧ ev U toaq I A n b m = some (.ok q z) ∧ x = A.seq y z := by
  rw [ev_s] at h
  simp only [evStep] at h
  split at h
  · rename_i m y hy
    split at h
    · rename_i q' z hz
      injection h with h
      injection h with h1 h2
      subst h1
      exact ⟨m, y, z, hy, hz, h2.symm⟩
    · rename_i hne
      exact absurd h (hne _ _)
  · rename_i hne
    exact absurd h (hne _ _)

theorem ev_alt {n a b p q x} (h : ev U toaq I A (n+1) (.alt a b) p = some (.ok q x)) :
    ev U toaq I A n a p = some (.ok q x) ∨ ev U toaq I A n b p = some (.ok q x) := by
  rw [ev_s] at h
  simp only [evStep] at h
  split at h
  · exact .inr h
  · exact .inl h

theorem ev_opt {n a p q x} (h : ev U toaq I A (n+1) (.opt a) p = some (.ok q x)) :
    (q = p ∧ x = A.nil) ∨ ev U toaq I A n a p = some (.ok q x) := by
  rw [ev_s] at h
  simp only [evStep] at h
  split at h
  · injection h with h
    injection h with h1 h2
    exact .inl ⟨h1.symm, h2.symm⟩
  · exact .inr h

theorem ev_plus {n a p q x} (h : ev U toaq I A (n+1) (.plus a) p = some (.ok q x)) :
    ∃ m y, ev U toaq I A n a p = some (.ok m y) := by
  rw [ev_s] at h
  simp only [evStep] at h
  split at h
  · rename_i m y hy
    exact ⟨m, y, hy⟩
  · rename_i hne
    exact absurd h (hne _ _)

theorem ev_not {n a p q x} (h : ev U toaq I A (n+1) (.not a) p = some (.ok q x)) :
    q = p ∧ x = A.nil ∧ ev U toaq I A n a p = some .fail := by
  rw [ev_s] at h
  simp only [evStep] at h
  split at h
  · cases h
  · rename_i hf
    injection h with h
    injection h with h1 h2
    exact ⟨h1.symm, h2.symm, hf⟩
  · rename_i hne _
    exact absurd h (hne _ _)

theorem ev_and {n a p q x} (h : ev U toaq I A (n+1) (.and a) p = some (.ok q x)) :
    q = p ∧ x = A.nil ∧ ∃ m y, ev U toaq I A n a p = some (.ok m y) := by
  rw [ev_s] at h
  simp only [evStep] at h
  split at h
  · rename_i m y hy
    injection h with h
    injection h with h1 h2
    exact ⟨h1.symm, h2.symm, m, y, hy⟩
  · rename_i hne
    exact absurd h (hne _ _)

theorem ev_lab {n a p q x} (h : ev U toaq I A (n+1) (.lab a) p = some (.ok q x)) :
    ∃ y, ev U toaq I A n a p = some (.ok q y) ∧ x = A.lab y := by
  rw [ev_s] at h
  simp only [evStep] at h
  split at h
  · rename_i m y hy
    injection h with h
    injection h with h1 h2
    subst h1
    exact ⟨y, hy, h2.symm⟩
  · rename_i hne
    exact absurd h (hne _ _)

theorem ev_grp {n a p q x} (h : ev U toaq I A (n+1) (.grp a) p = some (.ok q x)) :
    ∃ y, ev U toaq I A n a p = some (.ok q y) ∧ x = A.grp p q y := by
  rw [ev_s] at h
  simp only [evStep] at h
  split at h
  · rename_i m y hy
    injection h with h
    injection h with h1 h2
    subst h1
    exact ⟨y, hy, h2.symm⟩
  · rename_i hne
    exact absurd h (hne _ _)

theorem ev_act {n f a p q x} (h : ev U toaq I A (n+1) (.act f a) p = some (.ok q x)) :
    ∃ y, ev U toaq I A n a p = some (.ok q y) ∧ A.act f p q y = .ok x := by
  rw [ev_s] at h
  simp only [evStep] at h
  split at h
  · rename_i m y hy
    split at h
    · rename_i z hz
      injection h with h
      injection h with h1 h2
      subst h1 h2
      exact ⟨y, hy, hz⟩
    · cases h
  · rename_i hne
    exact absurd h (hne _ _)

theorem ev_term {n t p q x} (h : ev U toaq I A (n+1) (.term t) p = some (.ok q x)) :
    tm U I t p = .inl q ∧ x = A.leaf p q := by
  rw [ev_s] at h
  simp only [evStep] at h
  split at h
  · rename_i q' hq
    injection h with h
    injection h with h1 h2
    subst h1
    exact ⟨hq, h2.symm⟩
  · cases h

theorem lang_ok : ∀ m e n p q x ls, lang m e = some ls → ev U toaq I A n e p = some (.ok q x) →
    ∃ s ∈ ls, Fits I s p q := by
  intro m
  induction m with
  | zero => intro e n p q x ls h; simp [lang] at h
  | succ m ih =>
    intro e n p q x ls hl h
    cases n with
    | zero => rw [ev_0] at h; cases h
    | succ n =>
    cases e with
    | term t =>
      obtain ⟨ht, _⟩ := ev_term h
      cases t with
      | cls cs =>
        simp only [lang, Option.some.injEq] at hl
        subst hl
        obtain ⟨c, w, h1, h2, h3, h4⟩ := tm_cls (.inl rfl) ht
        exact ⟨_, List.mem_cons_self .., fits_one h1 h2 h3 h4⟩
      | lit c =>
        simp only [lang, Option.some.injEq] at hl
        subst hl
        obtain ⟨c, w, h1, h2, h3, h4⟩ := tm_cls (.inr ⟨c, rfl, rfl⟩) ht
        exact ⟨_, List.mem_cons_self .., fits_one h1 h2 h3 h4⟩
      | any => simp [lang] at hl
      | punct => simp [lang] at hl
    | ref r =>
      obtain ⟨y, hy, _⟩ := ev_ref h
      exact ih _ _ _ _ _ _ hl hy
    | seq a b =>
      simp only [lang] at hl
      split at hl
      · rename_i xs ys ha hb
        injection hl with hl
        subst hl
        obtain ⟨k, y, z, hy, hz, _⟩ := ev_seq h
        obtain ⟨s, hs, fs⟩ := ih _ _ _ _ _ _ ha hy
        obtain ⟨t, ht, ft⟩ := ih _ _ _ _ _ _ hb hz
        exact ⟨s ++ t, List.mem_flatMap.2 ⟨s, hs, List.mem_map.2 ⟨t, ht, rfl⟩⟩, fs.append ft⟩
      · cases hl
    | alt a b =>
      simp only [lang] at hl
      split at hl
      · rename_i xs ys ha hb
        injection hl with hl
        subst hl
        rcases ev_alt h with h | h
        · exact merge_ok (.inl (ih _ _ _ _ _ _ ha h))
        · exact merge_ok (.inr (ih _ _ _ _ _ _ hb h))
      · cases hl
    | opt a =>
      simp only [lang] at hl
      split at hl
      · rename_i xs ha
        injection hl with hl
        subst hl
        rcases ev_opt h with ⟨rfl, _⟩ | h
        · exact ⟨[], List.mem_cons_self .., .nil _⟩
        · obtain ⟨s, hs, fs⟩ := ih _ _ _ _ _ _ ha h
          exact ⟨s, List.mem_cons_of_mem _ hs, fs⟩
      · cases hl
    | plus a => simp [lang] at hl
    | star a => simp [lang] at hl
    | not a =>
      simp only [lang, Option.some.injEq] at hl
      subst hl
      obtain ⟨rfl, _⟩ := ev_not h
      exact ⟨[], List.mem_cons_self .., .nil _⟩
    | and a =>
      simp only [lang, Option.some.injEq] at hl
      subst hl
      obtain ⟨rfl, _⟩ := ev_and h
      exact ⟨[], List.mem_cons_self .., .nil _⟩
    | lab a =>
      obtain ⟨y, hy, _⟩ := ev_lab h
      exact ih _ _ _ _ _ _ hl hy
    | grp a =>
      obtain ⟨y, hy, _⟩ := ev_grp h
      exact ih _ _ _ _ _ _ hl hy
    | act f a =>
      obtain ⟨y, hy, _⟩ := ev_act h
      exact ih _ _ _ _ _ _ hl hy

/-! ### What cannot follow a word -/

/-- The expression succeeds where the text goes on with `c`. -/
def must : Nat → Expr Act → Char → Bool
  | 0, _, _ => false
  | m+1, e, c => match e with
    | .term (.cls cs) => cs.contains c
    | .term (.lit d) => c == d
    | .term .any => c != bad
    | .ref r => must m (toaq.body r) c
    | .alt a b => must m a c || must m b c
    | .lab a => must m a c
    | .grp a => must m a c
    | .act _ a => must m a c
    | _ => false

theorem must_ok {c w} : ∀ m e n p err err', must m e c = true → p < I.len → I.next p = (c, w) →
    acc U toaq I n e p err ≠ some (none, err') := by
  intro m
  induction m with
  | zero => intro e n p err err' h; simp [must] at h
  | succ m ih =>
    intro e n p err err' hm h1 h2 h
    cases n with
    | zero => rw [acc_0] at h; cases h
    | succ n =>
    rw [acc_s] at h
    have hr : I.rune p = some (c, w) := by simp [Input.rune, h1, h2]
    cases e with
    | term t =>
      simp only [accStep] at h
      cases t with
      | cls cs =>
        simp only [must] at hm
        simp only [tm, hr, hm, if_true] at h
        cases h
      | lit d =>
        simp only [must] at hm
        have := eq_of_beq hm
        subst this
        simp only [tm, hr, if_true] at h
        cases h
      | any =>
        simp only [must, bne_iff_ne] at hm
        simp only [tm, hr] at h
        rw [if_pos hm] at h
        cases h
      | punct => simp [must] at hm
    | ref r =>
      simp only [must] at hm
      simp only [accStep] at h
      split at h
      · cases h
      · cases h
      · rename_i e' he
        exact ih _ _ _ _ _ hm h1 h2 he
    | alt a b =>
      simp only [must, Bool.or_eq_true] at hm
      simp only [accStep] at h
      split at h
      · rename_i e' he
        rcases hm with hm | hm
        · exact ih _ _ _ _ _ hm h1 h2 he
        · exact ih _ _ _ _ _ hm h1 h2 h
      · rename_i hne
        exact hne _ h
    | lab a => exact ih _ _ _ _ _ hm h1 h2 h
    | grp a => exact ih _ _ _ _ _ hm h1 h2 h
    | act f a => exact ih _ _ _ _ _ hm h1 h2 h
    | seq a b => simp [must] at hm
    | opt a => simp [must] at hm
    | plus a => simp [must] at hm
    | star a => simp [must] at hm
    | not a => simp [must] at hm
    | and a => simp [must] at hm

/-- The expression fails where the text goes on with `c`. -/
def avoid : Nat → Expr Act → Char → Bool
  | 0, _, _ => false
  | m+1, e, c => match e with
    | .term (.cls cs) => !cs.contains c
    | .term (.lit d) => c != d
    | .term .any => false
    | .term .punct => notPunct.contains c
    | .ref r => avoid m (toaq.body r) c
    | .seq a b => avoid m a c || ((match a with
      | .opt a => avoid m a c
      | .not _ => true
      | .and _ => true
      | _ => false) && avoid m b c)
    | .alt a b => avoid m a c && avoid m b c
    | .plus a => avoid m a c
    | .not a => must m a c
    | .and a => avoid m a c
    | .lab a => avoid m a c
    | .grp a => avoid m a c
    | .act _ a => avoid m a c
    | _ => false

theorem tm_avoid {t : Term} {c w p q} (hP : Plain U) (hc : (match t with
    | .cls cs => !cs.contains c
    | .lit d => c != d
    | .any => false
    | .punct => notPunct.contains c) = true) (h2 : I.next p = (c, w)) : tm U I t p ≠ .inl q := by
  intro h
  cases t with
  | cls cs =>
    obtain ⟨c', w', _, h4, h5, _⟩ := tm_cls (.inl rfl) h
    rw [h2] at h4
    injection h4 with h4 h6
    subst h4
    simp [h5] at hc
  | lit d =>
    obtain ⟨c', w', _, h4, h5, _⟩ := tm_cls (.inr ⟨d, rfl, rfl⟩) h
    rw [h2] at h4
    injection h4 with h4 h6
    subst h4
    simp only [List.mem_singleton] at h5
    simp [h5] at hc
  | any => cases hc
  | punct =>
    simp only [tm, Input.rune, h2] at h
    have := hP c (by simpa using hc)
    split at h
    · rename_i c' w' hc'
      split at hc'
      · injection hc' with hc'
        injection hc' with h3 h4
        subst h3
        rw [this] at h
        split at h <;> cases h
      · cases hc'
    · cases h

theorem avoid_ok {c w} (hP : Plain U) : ∀ m e n p q x, avoid m e c = true → p < I.len → I.next p = (c, w) →
    ev U toaq I A n e p ≠ some (.ok q x) := by
  intro m
  induction m with
  | zero => intro e n p q x h; simp [avoid] at h
  | succ m ih =>
    intro e n p q x hm h1 h2 h
    cases n with
    | zero => rw [ev_0] at h; cases h
    | succ n =>
    cases e with
    | term t =>
      obtain ⟨ht, _⟩ := ev_term h
      refine tm_avoid hP ?_ h2 ht
      cases t <;> first | (simp [avoid] at hm; done) | simpa [avoid] using hm
    | ref r =>
      obtain ⟨y, hy, _⟩ := ev_ref h
      exact ih _ _ _ _ _ hm h1 h2 hy
    | seq a b =>
      simp only [avoid, Bool.or_eq_true, Bool.and_eq_true] at hm
      obtain ⟨k, y, z, hy, hz, _⟩ := ev_seq h
      rcases hm with hm | ⟨hm, hb⟩
      · exact ih _ _ _ _ _ hm h1 h2 hy
      · cases n with
        | zero => rw [ev_0] at hy; cases hy
        | succ n =>
        split at hm
        · rcases ev_opt hy with ⟨rfl, _⟩ | hy
          · exact ih _ _ _ _ _ hb h1 h2 hz
          · exact ih _ _ _ _ _ hm h1 h2 hy
        · obtain ⟨rfl, _⟩ := ev_not hy
          exact ih _ _ _ _ _ hb h1 h2 hz
        · obtain ⟨rfl, _⟩ := ev_and hy
          exact ih _ _ _ _ _ hb h1 h2 hz
        · cases hm
    | alt a b =>
      simp only [avoid, Bool.and_eq_true] at hm
      rcases ev_alt h with h | h
      · exact ih _ _ _ _ _ hm.1 h1 h2 h
      · exact ih _ _ _ _ _ hm.2 h1 h2 h
    | opt a => simp [avoid] at hm
    | plus a =>
      obtain ⟨k, y, hy⟩ := ev_plus h
      exact ih _ _ _ _ _ hm h1 h2 hy
    | star a => simp [avoid] at hm
    | not a =>
      obtain ⟨_, _, hf⟩ := ev_not h
      have := ev_acc U toaq I A n a p 0
      rw [hf] at this
      obtain ⟨e', he⟩ := this
      exact must_ok m a n p 0 e' hm h1 h2 he
    | and a =>
      obtain ⟨_, _, k, y, hy⟩ := ev_and h
      exact ih _ _ _ _ _ hm h1 h2 hy
    | lab a =>
      obtain ⟨y, hy, _⟩ := ev_lab h
      exact ih _ _ _ _ _ hm h1 h2 hy
    | grp a =>
      obtain ⟨y, hy, _⟩ := ev_grp h
      exact ih _ _ _ _ _ hm h1 h2 hy
    | act f a =>
      obtain ⟨y, hy, _⟩ := ev_act h
      exact ih _ _ _ _ _ hm h1 h2 hy

/-- Runes that a word can have after the first vowel. -/
def inWord : List Char :=
  ['a', 'A', 'e', 'E', 'ı', 'i', 'I', 'o', 'O', 'u', 'U', 'q', 'Q', '-', '1', '/', '2', 'V', '3', '?', '4', '^', '5',
   '\\', '6', '~', '7', '̄', '́', '̌', '̆', '̉', '̂', '̀', '̃']

/-- The text does not go on with such a rune. -/
def Ends (I : Input) (p : Nat) : Prop := p < I.len → (I.next p).1 ∉ inWord

theorem boundary_avoids : (inWord.all fun c => avoid 30 (.ref 132) c) = true := by decide +kernel

theorem boundary_ends (hP : Plain U) {n p q x} (h : ev U toaq I A n (.ref 132) p = some (.ok q x)) : Ends I p := by
  intro hp hc
  exact avoid_ok hP 30 _ n p q x (List.all_eq_true.1 boundary_avoids _ hc) hp rfl h

/-! ### The rules of the classes -/

/-- What the rule of a class reads, with the tone mark that may follow; and whether the word ends
there. -/
def langX (m : Nat) : Expr Act → Option (List Seq × Bool)
  | .seq a b => match lang m a, langX m b with
    | some xs, some (ys, f) => some (xs.flatMap fun x => ys.map (x ++ ·), f)
    | _, _ => none
  | .and (.grp (.seq (.opt t) (.ref 132))) => match lang m t with
    | some xs => some ([] :: xs, true)
    | none => some ([[]], false)
  | .and (.ref 132) => some ([[]], true)
  | _ => none

theorem langX_ok (hP : Plain U) (m : Nat) : ∀ e n p q x ls f, langX m e = some (ls, f) →
    ev U toaq I A n e p = some (.ok q x) → ∃ s ∈ ls, ∃ q', Fits I s p q' ∧ (f = true → Ends I q') := by
  intro e
  fun_induction langX m e with
  | case1 a b xs ys f ha hb ih =>
    intro n p q x ls f' hl h
    injection hl with hl
    injection hl with h1 h2
    subst h1 h2
    cases n with
    | zero => rw [ev_0] at h; cases h
    | succ n =>
    obtain ⟨k, y, z, hy, hz, _⟩ := ev_seq h
    obtain ⟨s, hs, fs⟩ := lang_ok _ _ _ _ _ _ _ hb hy
    obtain ⟨t, ht, q', ft, he⟩ := ih _ _ _ _ _ _ ha hz
    exact ⟨s ++ t, List.mem_flatMap.2 ⟨s, hs, List.mem_map.2 ⟨t, ht, rfl⟩⟩, q', fs.append ft, he⟩
  | case2 => intro n p q x ls f' hl; cases hl
  | case3 t xs hx =>
    intro n p q x ls f' hl h
    injection hl with hl
    injection hl with h1 h2
    subst h1 h2
    cases n with
    | zero => rw [ev_0] at h; cases h
    | succ n =>
    obtain ⟨_, _, k, y, hy⟩ := ev_and h
    cases n with
    | zero => rw [ev_0] at hy; cases hy
    | succ n =>
    obtain ⟨y', hy, _⟩ := ev_grp hy
    cases n with
    | zero => rw [ev_0] at hy; cases hy
    | succ n =>
    obtain ⟨j, y, z, hy, hz, _⟩ := ev_seq hy
    cases n with
    | zero => rw [ev_0] at hy; cases hy
    | succ n =>
    have he := boundary_ends hP hz
    rcases ev_opt hy with ⟨rfl, _⟩ | hy
    · exact ⟨[], List.mem_cons_self .., j, .nil _, fun _ => he⟩
    · obtain ⟨s, hs, fs⟩ := lang_ok _ _ _ _ _ _ _ hx hy
      exact ⟨s, List.mem_cons_of_mem _ hs, j, fs, fun _ => he⟩
  | case4 t hx =>
    intro n p q x ls f' hl h
    injection hl with hl
    injection hl with h1 h2
    subst h1 h2
    exact ⟨[], List.mem_cons_self .., p, .nil _, fun h => by cases h⟩
  | case5 =>
    intro n p q x ls f' hl h
    injection hl with hl
    injection hl with h1 h2
    subst h1 h2
    cases n with
    | zero => rw [ev_0] at h; cases h
    | succ n =>
    obtain ⟨_, _, k, y, hy⟩ := ev_and h
    exact ⟨[], List.mem_cons_self .., p, .nil _, fun _ => boundary_ends hP hy⟩
  | case6 => intro n p q x ls f' hl; cases hl

/-! ### Syllables beginning with a given list of classes -/

/-- All results, unless one is missing. -/
def mapAll {α β : Type} (f : α → Option (List β)) : List α → Option (List β)
  | [] => some []
  | a :: as => match f a, mapAll f as with
    | some x, some y => some (x ++ y)
    | _, _ => none

theorem mapAll_ok {α β : Type} {f : α → Option (List β)} {l : List α} {ys : List β} (h : mapAll f l = some ys)
    {a : α} (ha : a ∈ l) : ∃ zs, f a = some zs ∧ ∀ z ∈ zs, z ∈ ys := by
  induction l generalizing ys with
  | nil => cases ha
  | cons b l ih =>
    simp only [mapAll] at h
    split at h
    · rename_i x y hx hy
      injection h with h
      subst h
      rcases List.mem_cons.1 ha with rfl | ha
      · exact ⟨x, hx, fun z hz => List.mem_append_left _ hz⟩
      · obtain ⟨zs, h1, h2⟩ := ih hy ha
        exact ⟨zs, h1, fun z hz => List.mem_append_right _ (h2 z hz)⟩
    · cases h

/-- Read a rune of the class `cs` in a text that goes on with the classes `x`; after them the word ends
if `f`. -/
def readOne (f : Bool) (cs : List Char) (x : Seq) (acc : Str) : Option (List (Seq × Str)) :=
  match clsOut cs with
  | none => none
  | some out => match x with
    | k :: x => if cs.any k.contains then some [(x, acc ++ out)] else some []
    | [] => if f && cs.all inWord.contains then some [] else none

/-- Run an expression on a text that goes on with the classes `x`: what remains of them, and the
letters read. -/
def walk (f : Bool) : Nat → Expr Act → Seq → Str → Option (List (Seq × Str))
  | 0, _, _, _ => none
  | m+1, e, x, acc => match e with
    | .term (.cls cs) => readOne f cs x acc
    | .term (.lit c) => readOne f [c] x acc
    | .ref r => walk f m (toaq.body r) x acc
    | .seq a b => match walk f m a x acc with
      | some ss => mapAll (fun s => walk f m b s.1 s.2) ss
      | none => none
    | .alt a b => match walk f m a x acc, walk f m b x acc with
      | some ss, some ts => some (ss ++ ts)
      | _, _ => none
    | .opt a => match walk f m a x acc with
      | some ss => some ((x, acc) :: ss)
      | none => none
    | .not _ => some [(x, acc)]
    | .and _ => some [(x, acc)]
    | .lab a => walk f m a x acc
    | .grp a => walk f m a x acc
    | .act _ a => walk f m a x acc
    | _ => none

theorem foldLetters_append (a b : Str) : foldLetters (a ++ b) = foldLetters a ++ foldLetters b := by
  simp [foldLetters, letters_append]

theorem readOne_ok {f cs x acc ss c w p q q'} (h : readOne f cs x acc = some ss) (h1 : p < I.len)
    (h2 : I.next p = (c, w)) (hc : c ∈ cs) (hq : q = p + w) (hx : Fits I x p q') (hf : f = true → Ends I q') :
    ∃ x' out cs, (x', acc ++ out) ∈ ss ∧ Fits I x' q q' ∧ Spans I p q cs ∧ foldLetters cs = out := by
  subst hq
  unfold readOne at h
  split at h
  · cases h
  · rename_i out ho
    split at h
    · rename_i k x
      cases hx with
      | cons h3 h4 h5 h6 =>
        rw [h2] at h4
        injection h4 with h4 h7
        subst h4 h7
        rw [if_pos (List.any_eq_true.2 ⟨c, hc, by simpa using h5⟩)] at h
        injection h with h
        subst h
        exact ⟨x, out, [c], List.mem_cons_self .., h6, .cons h1 h2 (.nil _), clsOut_ok ho hc⟩
    · split at h
      · rename_i hb
        simp only [Bool.and_eq_true] at hb
        cases hx
        have := hf hb.1 h1
        rw [h2] at this
        exact absurd (by simpa using List.all_eq_true.1 hb.2 c hc) this
      · cases h

theorem walk_ok {f} : ∀ m e n p q v x acc ss q', walk f m e x acc = some ss →
    ev U toaq I A n e p = some (.ok q v) → Fits I x p q' → (f = true → Ends I q') →
    ∃ x' out cs, (x', acc ++ out) ∈ ss ∧ Fits I x' q q' ∧ Spans I p q cs ∧ foldLetters cs = out := by
  intro m
  induction m with
  | zero => intro e n p q v x acc ss q' h; simp [walk] at h
  | succ m ih =>
    intro e n p q v x acc ss q' hw h hx hf
    have stay : q = p → (x, acc) ∈ ss → ∃ x' out cs, (x', acc ++ out) ∈ ss ∧ Fits I x' q q' ∧ Spans I p q cs ∧
        foldLetters cs = out := by
      rintro rfl hs
      exact ⟨x, [], [], by simpa using hs, hx, .nil _, rfl⟩
    cases n with
    | zero => rw [ev_0] at h; cases h
    | succ n =>
    cases e with
    | term t =>
      obtain ⟨ht, _⟩ := ev_term h
      cases t with
      | cls cs =>
        obtain ⟨c, w, h1, h2, h3, h4⟩ := tm_cls (.inl rfl) ht
        exact readOne_ok hw h1 h2 h3 h4 hx hf
      | lit c =>
        obtain ⟨c, w, h1, h2, h3, h4⟩ := tm_cls (.inr ⟨c, rfl, rfl⟩) ht
        exact readOne_ok hw h1 h2 h3 h4 hx hf
      | any => simp [walk] at hw
      | punct => simp [walk] at hw
    | ref r =>
      obtain ⟨y, hy, _⟩ := ev_ref h
      exact ih _ _ _ _ _ _ _ _ _ hw hy hx hf
    | seq a b =>
      simp only [walk] at hw
      split at hw
      · rename_i ts ha
        obtain ⟨k, y, z, hy, hz, _⟩ := ev_seq h
        obtain ⟨x1, o1, c1, m1, f1, s1, l1⟩ := ih _ _ _ _ _ _ _ _ _ ha hy hx hf
        obtain ⟨us, hu, hin⟩ := mapAll_ok hw m1
        obtain ⟨x2, o2, c2, m2, f2, s2, l2⟩ := ih _ _ _ _ _ _ _ _ _ hu hz f1 hf
        refine ⟨x2, o1 ++ o2, c1 ++ c2, ?_, f2, s1.append s2, by rw [foldLetters_append, l1, l2]⟩
        have := hin _ m2
        simpa using this
      · cases hw
    | alt a b =>
      simp only [walk] at hw
      split at hw
      · rename_i ss' ts ha hb
        injection hw with hw
        subst hw
        rcases ev_alt h with h | h
        · obtain ⟨x1, o1, c1, m1, r⟩ := ih _ _ _ _ _ _ _ _ _ ha h hx hf
          exact ⟨x1, o1, c1, List.mem_append_left _ m1, r⟩
        · obtain ⟨x1, o1, c1, m1, r⟩ := ih _ _ _ _ _ _ _ _ _ hb h hx hf
          exact ⟨x1, o1, c1, List.mem_append_right _ m1, r⟩
      · cases hw
    | opt a =>
      simp only [walk] at hw
      split at hw
      · rename_i ss' ha
        injection hw with hw
        subst hw
        rcases ev_opt h with ⟨hq, _⟩ | h
        · exact stay hq (List.mem_cons_self ..)
        · obtain ⟨x1, o1, c1, m1, r⟩ := ih _ _ _ _ _ _ _ _ _ ha h hx hf
          exact ⟨x1, o1, c1, List.mem_cons_of_mem _ m1, r⟩
      · cases hw
    | plus a => simp [walk] at hw
    | star a => simp [walk] at hw
    | not a =>
      simp only [walk, Option.some.injEq] at hw
      subst hw
      exact stay (ev_not h).1 (List.mem_cons_self ..)
    | and a =>
      simp only [walk, Option.some.injEq] at hw
      subst hw
      exact stay (ev_and h).1 (List.mem_cons_self ..)
    | lab a =>
      obtain ⟨y, hy, _⟩ := ev_lab h
      exact ih _ _ _ _ _ _ _ _ _ hw hy hx hf
    | grp a =>
      obtain ⟨y, hy, _⟩ := ev_grp h
      exact ih _ _ _ _ _ _ _ _ _ hw hy hx hf
    | act f a =>
      obtain ⟨y, hy, _⟩ := ev_act h
      exact ih _ _ _ _ _ _ _ _ _ hw hy hx hf

/-- The expression that an expression looks ahead for at its end. -/
def lastAhead : Nat → Expr Act → Option (Expr Act)
  | 0, _ => none
  | m+1, e => match e with
    | .ref r => lastAhead m (toaq.body r)
    | .seq _ b => lastAhead m b
    | .and b => some b
    | _ => none

theorem lastAhead_ok : ∀ m e b n p q x, lastAhead m e = some b → ev U toaq I A n e p = some (.ok q x) →
    ∃ n' q' y, ev U toaq I A n' b q = some (.ok q' y) := by
  intro m
  induction m with
  | zero => intro e b n p q x h; simp [lastAhead] at h
  | succ m ih =>
    intro e b n p q x hl h
    cases n with
    | zero => rw [ev_0] at h; cases h
    | succ n =>
    cases e with
    | ref r =>
      obtain ⟨y, hy, _⟩ := ev_ref h
      exact ih _ _ _ _ _ _ hl hy
    | seq a c =>
      obtain ⟨k, y, z, hy, hz, _⟩ := ev_seq h
      exact ih _ _ _ _ _ _ hl hz
    | and c =>
      simp only [lastAhead, Option.some.injEq] at hl
      subst hl
      obtain ⟨rfl, _, k, y, hy⟩ := ev_and h
      exact ⟨n, k, y, hy⟩
    | term t => simp [lastAhead] at hl
    | alt a b => simp [lastAhead] at hl
    | opt a => simp [lastAhead] at hl
    | plus a => simp [lastAhead] at hl
    | star a => simp [lastAhead] at hl
    | not a => simp [lastAhead] at hl
    | lab a => simp [lastAhead] at hl
    | grp a => simp [lastAhead] at hl
    | act f a => simp [lastAhead] at hl

/-- What the syllables except `moq_syllable` look for at the end. -/
def endOk (y : Nat) : Bool := match lastAhead 5 (.ref y) with
  | some b => inWord.all fun c => avoid 40 b c
  | none => false

/-- What `moq_syllable` looks for at the end. -/
def moqEnd : Expr Act := .grp (.alt (.seq (.ref 223) (.ref 132)) (.ref 132))

/-- A syllable of rule `y` does not end where the text goes on with the classes. -/
def goesOn (y : Nat) : Seq → Bool
  | [] => false
  | k :: ks => k.all inWord.contains && (y != 124 || !k.contains '?' || (match ks with
      | [] => false
      | k :: _ => k.all fun c => inWord.contains c && c != '?'))

/-- A syllable read by rule `y` at the place of a word of the class rule `x` has the letters of one of
the words `ws`. -/
def pairOk (x y : Nat) (ws : List Str) : Bool := match langX 40 (toaq.body x) with
  | some (ls, f) => ls.all fun s => match walk f 90 (.ref y) s [] with
    | some ss => ss.all fun t => ws.contains t.2 || goesOn y t.1
    | none => false
  | none => false

theorem moqEnd_ok : lastAhead 5 (.ref 124) = some moqEnd := by decide +kernel
theorem ends_ok : ([123, 126, 127, 128, 129, 130, 131].all endOk) = true := by decide +kernel

theorem ev_star_stop {n p q x} (h : ev U toaq I A n (.star (.term (.lit '?'))) p = some (.ok q x))
    (hn : p < I.len → (I.next p).1 ≠ '?') : q = p := by
  cases n with
  | zero => rw [ev_0] at h; cases h
  | succ n =>
    rw [ev_s] at h
    simp only [evStep] at h
    split at h
    · rename_i q' y hy
      exfalso
      cases n with
      | zero => rw [ev_0] at hy; cases hy
      | succ n =>
        obtain ⟨ht, _⟩ := ev_term hy
        obtain ⟨c, w, h1, h2, h3, h4⟩ := tm_cls (.inr ⟨_, rfl, rfl⟩) ht
        rw [h2] at hn
        simp only [List.mem_singleton] at h3
        exact hn h1 h3
    · injection h with h
      injection h with h _
      exact h.symm
    · rename_i hne _
      exact absurd h (hne _ _)

theorem questions_one {n p q x w} (h : ev U toaq I A n (.ref 223) p = some (.ok q x)) (h2 : I.next p = ('?', w))
    (hn : p + w < I.len → (I.next (p + w)).1 ≠ '?') : q = p + w := by
  cases n with
  | zero => rw [ev_0] at h; cases h
  | succ n =>
  obtain ⟨y, hy, _⟩ := ev_ref h
  have hb : toaq.body 223 = r223 := rfl
  rw [hb, r223] at hy
  cases n with
  | zero => rw [ev_0] at hy; cases hy
  | succ n =>
  obtain ⟨y, hy, _⟩ := ev_act hy
  cases n with
  | zero => rw [ev_0] at hy; cases hy
  | succ n =>
  obtain ⟨y, hy, _⟩ := ev_lab hy
  cases n with
  | zero => rw [ev_0] at hy; cases hy
  | succ n =>
  obtain ⟨y, hy, _⟩ := ev_grp hy
  cases n with
  | zero => rw [ev_0] at hy; cases hy
  | succ n =>
  rw [ev_s] at hy
  simp only [evStep] at hy
  split at hy
  · rename_i m z hz
    cases n with
    | zero => rw [ev_0] at hz; cases hz
    | succ n =>
    obtain ⟨ht, _⟩ := ev_term hz
    obtain ⟨c, w', h3, h4, h5, h6⟩ := tm_cls (.inr ⟨_, rfl, rfl⟩) ht
    rw [h2] at h4
    injection h4 with h4 h7
    subst h7 h6
    split at hy
    · rename_i q' u hu
      injection hy with hy
      injection hy with hy _
      subst hy
      exact ev_star_stop hu hn
    · rename_i hne
      exact absurd hy (hne _ _)
  · rename_i hne
    exact absurd hy (hne _ _)

theorem goesOn_ok (hP : Plain U) {y n p q q' x s} (hy : y ∈ [123, 124, 126, 127, 128, 129, 130, 131])
    (h : ev U toaq I A n (.ref y) p = some (.ok q x)) (hs : Fits I s q q') : goesOn y s = false := by
  cases hg : goesOn y s with
  | false => rfl
  | true =>
  exfalso
  cases hs with
  | nil => cases hg
  | @cons _ _ c w k ks h3 h4 h5 h6 =>
  simp only [goesOn, Bool.and_eq_true, Bool.or_eq_true] at hg
  obtain ⟨hg, hg'⟩ := hg
  have hc : c ∈ inWord := by simpa using List.all_eq_true.1 hg _ h5
  by_cases h124 : y = 124
  · subst h124
    obtain ⟨n', q'', y', hy'⟩ := lastAhead_ok _ _ _ _ _ _ _ moqEnd_ok h
    cases n' with
    | zero => rw [ev_0] at hy'; cases hy'
    | succ n' =>
    obtain ⟨y', hy', _⟩ := ev_grp hy'
    cases n' with
    | zero => rw [ev_0] at hy'; cases hy'
    | succ n' =>
    rcases ev_alt hy' with hy' | hy'
    · cases n' with
      | zero => rw [ev_0] at hy'; cases hy'
      | succ n' =>
      obtain ⟨m, u, z, hu, hz, _⟩ := ev_seq hy'
      have hz' := boundary_ends hP hz
      have hq : c = '?' := Classical.byContradiction fun hne =>
        avoid_ok hP 10 (.ref 223) _ _ _ _ (by
          have : avoid 10 (.ref 223) c = (c != '?') := rfl
          rw [this]; simpa using hne) h3 h4 hu
      subst hq
      rcases hg' with (hg' | hg') | hg'
      · simp at hg'
      · simp [h5] at hg'
      split at hg'
      · cases hg'
      · rename_i k2 ks2
        cases h6 with
        | cons g3 g4 g5 g6 =>
          have g := List.all_eq_true.1 hg' _ g5
          simp only [Bool.and_eq_true, bne_iff_ne] at g
          have hm := questions_one hu h4 (fun _ => by rw [g4]; exact g.2)
          subst hm
          have := hz' g3
          rw [g4] at this
          exact this (by simpa using g.1)
    · have := boundary_ends hP hy' h3
      rw [h4] at this
      exact this hc
  · have he : endOk y = true := by
      have := List.all_eq_true.1 ends_ok
      simp only [List.mem_cons, List.not_mem_nil, or_false] at hy
      rcases hy with rfl | rfl | rfl | rfl | rfl | rfl | rfl | rfl <;>
        first | exact absurd rfl h124 | exact this _ (by decide)
    unfold endOk at he
    split at he
    · rename_i b hb
      obtain ⟨n', q'', y', hy'⟩ := lastAhead_ok _ _ _ _ _ _ _ hb h
      exact avoid_ok hP 40 b n' q q'' y' (List.all_eq_true.1 he _ hc) h3 h4 hy'
    · cases he

theorem pair_ok (hP : Plain U) {x y ws n p q r v u} (h : pairOk x y ws = true)
    (hy' : y ∈ [123, 124, 126, 127, 128, 129, 130, 131])
    (hx : ev U toaq I A n (.ref x) p = some (.ok r u)) (hy : ev U toaq I A n (.ref y) p = some (.ok q v)) :
    ∃ cs, Spans I p q cs ∧ foldLetters cs ∈ ws := by
  unfold pairOk at h
  split at h
  · rename_i ls f hl
    cases n with
    | zero => rw [ev_0] at hx; cases hx
    | succ n =>
    obtain ⟨u', hu, _⟩ := ev_ref hx
    obtain ⟨s, hs, q', fs, hf⟩ := langX_ok hP _ _ _ _ _ _ _ _ hl hu
    have h1 := List.all_eq_true.1 h s hs
    split at h1
    · rename_i ss hw
      obtain ⟨x', out, cs, m, fx, sp, hc⟩ := walk_ok _ _ _ _ _ _ _ _ _ _ hw hy fs hf
      have h2 := List.all_eq_true.1 h1 _ m
      simp only [List.nil_append, Bool.or_eq_true] at h2
      rcases h2 with h2 | h2
      · exact ⟨cs, sp, by rw [hc]; simpa using h2⟩
      · rw [goesOn_ok hP hy' hy fx] at h2
        cases h2
    · cases h1
  · cases h

/-- The class rules, the rules for syllables, and the words. -/
def pairs : List (Nat × Nat × List Str) :=
  [(110, 123, kuWords), (122, 123, teoWords), (105, 123, gaWords), (117, 123, naWords), (113, 123, keoWords),
   (102, 123, biWords), (109, 123, juWords), (112, 123, kioWords), (111, 123, kiWords), (108, 123, huWords),
   (106, 123, goWords), (119, 123, raWords), (103, 123, daWords), (104, 124, moqWords), (120, 123, tuWords),
   (107, 123, beiWords), (121, 123, toWords)] ++
  (List.range 6).flatMap fun i => [(114, 126 + i, luWords), (115, 126 + i, miWords), (118, 126 + i, poWords),
    (116, 126 + i, moWords)]

theorem pairs_ok : (pairs.all fun t => pairOk t.1 t.2.1 t.2.2) = true := by decide +kernel
end Verif.Parse.WordLang
