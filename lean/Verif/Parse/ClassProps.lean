/-
C53: in the syntax tree of a parsed text every field for a particle has a word of the class for the
field.
-/
import Verif.Parse.ClassTypes
import Verif.Parse.Examples

namespace Verif.Parse.Classes
open Verif.AST Verif.AST.Spec Verif.Peg Verif.Parse Verif.Parse.WordLang Verif.Parse.WordVal
open Verif.Tone (Str)

variable {U : Uni} {I : Input}

/-- The classes of the rules for particles. -/
def classOf : Nat → Option Class
  | 110 => some .ku | 122 => some .teo | 105 => some .ga | 117 => some .na | 113 => some .keo | 102 => some .bi
  | 109 => some .ju | 112 => some .kio | 111 => some .ki | 108 => some .hu | 106 => some .go | 119 => some .ra
  | 103 => some .da | 104 => some .da | 120 => some .tu | 107 => some .bei | 121 => some .to | 114 => some .lu
  | 115 => some .mi | 118 => some .po | 116 => some .mo | _ => none

/-- The rules for the syllables that particles of the class are. -/
def sylls (k : Class) : List Nat := if k.hasTone then [126, 127, 128, 129, 130, 131] else [123, 124]

/-- The class of a syllable read by rule `y` where rule `x` succeeds. -/
def wordClass (x y : Nat) : Option Class := match classOf x with
  | some k =>
    if (sylls k).contains y &&
      pairs.any (fun t => t.1 == x && t.2.1 == y && t.2.2.all fun w => k.words.contains w) then some k else none
  | none => none

theorem wordClass_ok (hU : U.punct 'i' = false) (hP : Plain U) {x y k n p q r v u} (h : wordClass x y = some k)
    (hx : ev U toaq I (actAlg I) n (.ref x) p = some (.ok r u))
    (hy : ev U toaq I (actAlg I) n (.ref y) p = some (.ok q v)) : ∃ t, v.1 = .str t ∧ k.Has t := by
  unfold wordClass at h
  split at h
  · rename_i k' hk
    split at h
    · rename_i hc
      injection h with h
      subst h
      simp only [Bool.and_eq_true, List.any_eq_true, beq_iff_eq] at hc
      obtain ⟨hc, ⟨a, b, ws⟩, hm, ⟨rfl, rfl⟩, hw⟩ := hc
      have hp := List.all_eq_true.1 pairs_ok _ hm
      have hb : b ∈ [123, 124, 126, 127, 128, 129, 130, 131] := by
        have : b ∈ sylls k' := by simpa using hc
        unfold sylls at this
        split at this <;> revert this <;> simp <;> omega
      obtain ⟨cs, h1, h2⟩ := pair_ok hP hp hb hx hy
      have h3 : foldLetters cs ∈ k'.words := by
        have := List.all_eq_true.1 hw _ h2
        simpa using this
      cases ht : k'.hasTone with
      | true =>
        obtain ⟨t, h4, h5⟩ := toned_text hU (by simpa [sylls, ht] using hc) hy h1
        exact ⟨t, h4, _, h3, by simpa [ht] using h5⟩
      | false =>
        obtain ⟨t, h4, h5⟩ := neutral_text hU (by simpa [sylls, ht] using hc) hy h1
        exact ⟨t, h4, _, h3, by simpa [ht] using h5⟩
    · cases h
  · cases h

/-- The type of a choice. -/
def joinC (a b : CTy) : CTy := if subC a b then b else if subC b a then a else .top

/-- The type of a sequence without action. -/
def seqC (a b : CTy) : CTy :=
  if a = .nul then b else if b = .nul then a else if a = .any && b = .any then .any else .top

def repC : CTy → CTy
  | .any => .any
  | _ => .top

def matchesC : List CTy → List CTy → Bool
  | [], [] => true
  | a :: as, b :: bs => subC a b && matchesC as bs
  | _, _ => false

def sigC (f : Act) (ts : List CTy) : Option CTy := match f, ts with
  | .modWord, [.wd k, a] => if subC a .any then some (.wd k) else none
  | .word, _ => some .top
  | .wordMod, _ => some .top
  | .empty, _ => some .any
  | f, ts => match fixedC f with
    | some (us, t) => if matchesC ts us then some t else none
    | none => none

/-- The type of a particle. -/
def particle (f : Act) (a : Expr Act) : Option CTy := match a with
  | .seq (.and (.ref x)) (.lab (.ref y)) => match f, wordClass x y with
    | .word, some k => some (.wd k)
    | .wordNode .interjection, some .bei => some .any
    | _, _ => none
  | _ => none

/-- The type of an expression and the types of its labels; `rt` are the types of the rules. -/
def inferC (rt : Nat → CTy) : Expr Act → Option (CTy × List CTy)
  | .term _ => some (.any, [])
  | .ref r => some (rt r, [])
  | .seq a b => match inferC rt a, inferC rt b with
    | some (t, ts), some (u, us) => some (seqC t u, ts ++ us)
    | _, _ => none
  | .alt a b => match inferC rt a, inferC rt b with
    | some (t, []), some (u, []) => some (joinC t u, [])
    | _, _ => none
  | .opt a => match inferC rt a with
    | some (t, []) => some (joinC .nul t, [])
    | _ => none
  | .plus a => match inferC rt a with
    | some (t, _) => some (repC t, [])
    | none => none
  | .star a => match inferC rt a with
    | some (t, _) => some (repC t, [])
    | none => none
  | .not _ => some (.nul, [])
  | .and _ => some (.nul, [])
  | .lab a => match inferC rt a with
    | some (t, _) => some (t, [t])
    | none => none
  | .grp a => inferC rt a
  | .act f a => match particle f a with
    | some t => some (t, [])
    | none => match inferC rt a with
      | some (_, ts) => match sigC f ts with
        | some t => some (t, [])
        | none => none
      | none => none

theorem join_left {a b : CTy} {v : Val} (h : Means a v) : Means (joinC a b) v := by
  unfold joinC
  split
  · exact sub_ok (by assumption) h
  · split
    · exact h
    · trivial

theorem join_right {a b : CTy} {v : Val} (h : Means b v) : Means (joinC a b) v := by
  unfold joinC
  split
  · exact h
  · split
    · exact sub_ok (by assumption) h
    · trivial

theorem seq_ok {a b : CTy} {v w : Val} (h : Means a v) (h' : Means b w) : Means (seqC a b) (cat v w) := by
  unfold seqC
  split
  · rename_i ha
    subst ha
    simp only [Means] at h
    subst h
    cases w <;> exact h'
  · split
    · rename_i hb
      subst hb
      simp only [Means] at h'
      subst h'
      simpa [cat_nil] using h
    · split
      · rename_i hab
        simp only [Bool.and_eq_true, decide_eq_true_eq] at hab
        obtain ⟨rfl, rfl⟩ := hab
        simp only [Means] at h h' ⊢
        cases v <;> cases w <;> first | exact h' | exact h | trivial
      · trivial

theorem rep_ok {a : CTy} {v w : Val} (h : Means a v) (h' : Means (repC a) w) : Means (repC a) (cons v w) := by
  cases a <;> try trivial
  simp only [repC, Means] at h h' ⊢
  cases v <;> cases w <;> try trivial
  · exact cl_cons h cl_nil
  · exact cl_cons h h'

theorem matches_ok : ∀ {ts us : List CTy} {vs : List Val}, matchesC ts us = true → MeansL ts vs → MeansL us vs
  | [], [], _, _, h => h
  | a :: as, b :: bs, _, hm, .cons h1 h2 => by
    simp only [matchesC, Bool.and_eq_true] at hm
    exact .cons (sub_ok hm.1 h1) (matches_ok hm.2 h2)
  | [], _ :: _, _, hm, _ => by simp [matchesC] at hm
  | _ :: _, [], _, hm, _ => by simp [matchesC] at hm

theorem sig_ok {f : Act} {ts : List CTy} {t : CTy} {vs : List Val} {p q : Nat} {v : Val} (hf : sigC f ts = some t)
    (hv : MeansL ts vs) (hr : runAct f p q vs = .ok v) : Means t v := by
  unfold sigC at hf
  split at hf
  · split at hf
    · rename_i k a ha
      injection hf with hf
      subst hf
      obtain _ | ⟨h1, _ | ⟨h2, _ | _⟩⟩ := hv
      have h2 := sub_ok ha h2
      simp only [runAct] at hr
      split at hr
      · rename_i w s hw hs
        injection hr with hr
        subst hr
        exact .inr ⟨_, rfl, is_modWOpt (asNode?_ok h2 hs) (asWord_ok h1 hw)⟩
      · cases hr
    · cases hf
  · injection hf with hf; subst hf; trivial
  · injection hf with hf; subst hf; trivial
  · injection hf with hf
    subst hf
    simp only [runAct] at hr
    injection hr with hr
    subst hr
    trivial
  · split at hf
    · rename_i us t' hx
      split at hf
      · rename_i hm
        injection hf with hf
        subst hf
        exact act_ok hx (matches_ok hm hv) hr
      · cases hf
    · cases hf

theorem inferC_ok (hU : U.punct 'i' = false) (hP : Plain U) (rt : Nat → CTy)
    (hrt : ∀ r, ∃ t ts, inferC rt (toaq.body r) = some (t, ts) ∧ subC t (rt r) = true) : ∀ n e t ts p q x,
    inferC rt e = some (t, ts) → ev U toaq I (actAlg I) n e p = some (.ok q x) → Means t x.1 ∧ MeansL ts x.2 := by
  intro n
  induction n with
  | zero => intro e t ts p q x _ h; rw [ev_0] at h; cases h
  | succ n ih =>
    intro e t ts p q x hi h
    cases e with
    | term c =>
      simp only [inferC, Option.some.injEq, Prod.mk.injEq] at hi
      obtain ⟨rfl, rfl⟩ := hi
      obtain ⟨_, rfl⟩ := ev_term h
      exact ⟨trivial, .nil⟩
    | ref r =>
      simp only [inferC, Option.some.injEq, Prod.mk.injEq] at hi
      obtain ⟨rfl, rfl⟩ := hi
      obtain ⟨y, hy, rfl⟩ := ev_ref h
      obtain ⟨t, ts, h1, h2⟩ := hrt r
      exact ⟨sub_ok h2 (ih _ _ _ _ _ _ h1 hy).1, .nil⟩
    | seq a b =>
      simp only [inferC] at hi
      split at hi
      · rename_i ta la tb lb ha hb
        simp only [Option.some.injEq, Prod.mk.injEq] at hi
        obtain ⟨rfl, rfl⟩ := hi
        obtain ⟨m, y, z, hy, hz, rfl⟩ := ev_seq h
        have h1 := ih _ _ _ _ _ _ ha hy
        have h2 := ih _ _ _ _ _ _ hb hz
        exact ⟨seq_ok h1.1 h2.1, h1.2.append h2.2⟩
      · cases hi
    | alt a b =>
      simp only [inferC] at hi
      split at hi
      · rename_i ta tb ha hb
        simp only [Option.some.injEq, Prod.mk.injEq] at hi
        obtain ⟨rfl, rfl⟩ := hi
        rcases ev_alt h with h | h
        · have h1 := ih _ _ _ _ _ _ ha h
          exact ⟨join_left h1.1, h1.2⟩
        · have h1 := ih _ _ _ _ _ _ hb h
          exact ⟨join_right h1.1, h1.2⟩
      · cases hi
    | opt a =>
      simp only [inferC] at hi
      split at hi
      · rename_i ta ha
        simp only [Option.some.injEq, Prod.mk.injEq] at hi
        obtain ⟨rfl, rfl⟩ := hi
        rcases ev_opt h with ⟨_, rfl⟩ | h
        · exact ⟨join_left rfl, .nil⟩
        · have h1 := ih _ _ _ _ _ _ ha h
          exact ⟨join_right h1.1, h1.2⟩
      · cases hi
    | plus a =>
      simp only [inferC] at hi
      split at hi
      · rename_i ta la ha
        simp only [Option.some.injEq, Prod.mk.injEq] at hi
        obtain ⟨rfl, rfl⟩ := hi
        rw [ev_s] at h
        simp only [evStep] at h
        split at h
        · rename_i m y hy
          split at h
          · rename_i m' z hz
            injection h with h
            injection h with h1 h2
            subst h1 h2
            have h1 := ih _ _ _ _ _ _ ha hy
            have h2 := ih (.star a) (repC ta) [] _ _ _ (by simp [inferC, ha]) hz
            exact ⟨rep_ok h1.1 h2.1, .nil⟩
          · rename_i hne
            exact absurd h (hne _ _)
        · rename_i hne
          exact absurd h (hne _ _)
      · cases hi
    | star a =>
      simp only [inferC] at hi
      split at hi
      · rename_i ta la ha
        simp only [Option.some.injEq, Prod.mk.injEq] at hi
        obtain ⟨rfl, rfl⟩ := hi
        rw [ev_s] at h
        simp only [evStep] at h
        split at h
        · rename_i m y hy
          split at h
          · rename_i m' z hz
            injection h with h
            injection h with h1 h2
            subst h1 h2
            have h1 := ih _ _ _ _ _ _ ha hy
            have h2 := ih (.star a) (repC ta) [] _ _ _ (by simp [inferC, ha]) hz
            exact ⟨rep_ok h1.1 h2.1, .nil⟩
          · rename_i hne
            exact absurd h (hne _ _)
        · injection h with h
          injection h with h1 h2
          subst h1 h2
          refine ⟨?_, .nil⟩
          cases ta <;> trivial
        · rename_i hne _
          exact absurd h (hne _ _)
      · cases hi
    | not a =>
      simp only [inferC, Option.some.injEq, Prod.mk.injEq] at hi
      obtain ⟨rfl, rfl⟩ := hi
      obtain ⟨_, rfl, _⟩ := ev_not h
      exact ⟨rfl, .nil⟩
    | and a =>
      simp only [inferC, Option.some.injEq, Prod.mk.injEq] at hi
      obtain ⟨rfl, rfl⟩ := hi
      obtain ⟨_, rfl, _⟩ := ev_and h
      exact ⟨rfl, .nil⟩
    | lab a =>
      simp only [inferC] at hi
      split at hi
      · rename_i ta la ha
        simp only [Option.some.injEq, Prod.mk.injEq] at hi
        obtain ⟨rfl, rfl⟩ := hi
        obtain ⟨y, hy, rfl⟩ := ev_lab h
        have h1 := ih _ _ _ _ _ _ ha hy
        exact ⟨h1.1, .cons h1.1 .nil⟩
      · cases hi
    | grp a =>
      simp only [inferC] at hi
      obtain ⟨y, hy, rfl⟩ := ev_grp h
      exact ih _ _ _ _ _ _ hi hy
    | act f a =>
      obtain ⟨y, hy, hr⟩ := ev_act h
      have hr' : ∃ v, runAct f p q y.2 = .ok v ∧ x = (v, []) := by
        simp only [actAlg] at hr
        split at hr
        · rename_i v hv
          injection hr with hr
          exact ⟨v, hv, hr.symm⟩
        · cases hr
      obtain ⟨v, hv, rfl⟩ := hr'
      have syll : ∀ x y', a = .seq (.and (.ref x)) (.lab (.ref y')) → ∀ k, wordClass x y' = some k →
          ∃ s, y.2 = [.str s] ∧ k.Has s := by
        rintro x y' rfl k hk
        cases n with
        | zero => rw [ev_0] at hy; cases hy
        | succ n =>
        obtain ⟨m, u, w, hu, hw, rfl⟩ := ev_seq hy
        cases n with
        | zero => rw [ev_0] at hu; cases hu
        | succ n =>
        obtain ⟨rfl, rfl, r, u, hu⟩ := ev_and hu
        obtain ⟨w', hw', rfl⟩ := ev_lab hw
        obtain ⟨s, h1, h2⟩ := wordClass_ok hU hP hk hu hw'
        exact ⟨s, by simp [actAlg, h1], h2⟩
      simp only [inferC] at hi
      split at hi
      · rename_i t' hp
        simp only [Option.some.injEq, Prod.mk.injEq] at hi
        obtain ⟨rfl, rfl⟩ := hi
        refine ⟨?_, .nil⟩
        unfold particle at hp
        split at hp
        · rename_i x y'
          split at hp
          · rename_i k hk
            injection hp with hp
            subst hp
            obtain ⟨s, h1, h2⟩ := syll _ _ rfl _ hk
            rw [h1] at hv
            simp only [runAct, Val.asStr] at hv
            injection hv with hv
            subst hv
            exact .inr ⟨_, rfl, h2, cw_new _ _ _⟩
          · rename_i hk
            injection hp with hp
            subst hp
            obtain ⟨s, h1, h2⟩ := syll _ _ rfl _ hk
            rw [h1] at hv
            simp only [runAct, Val.asStr] at hv
            injection hv with hv
            subst hv
            simp only [Means, Fine, classed_word]
            exact ⟨cw_new _ _ _, fun _ => ⟨h2, cw_new _ _ _⟩⟩
          · cases hp
        · cases hp
      · split at hi
        · rename_i la ha
          split at hi
          · rename_i t' hs
            simp only [Option.some.injEq, Prod.mk.injEq] at hi
            obtain ⟨rfl, rfl⟩ := hi
            exact ⟨sig_ok hs (ih _ _ _ _ _ _ ha hy).2 hv, .nil⟩
          · cases hi
        · cases hi

/-- The rules whose values have words in them. -/
def ruleTypes : List (CTy × List Nat) := [
  (.wd .keo, [7, 88]),
  (.wd .go, [25, 94]),
  (.wd .ku, [34, 84]),
  (.wd .tu, [36, 98]),
  (.con, [69]),
  (.part .kio, [76]),
  (.top, [79]),
  (.wd .teo, [85]),
  (.wd .ga, [86]),
  (.wd .na, [87]),
  (.wd .bi, [89]),
  (.wd .ju, [90]),
  (.wd .kio, [91]),
  (.wd .ki, [92]),
  (.wd .hu, [93]),
  (.wd .ra, [95]),
  (.wd .da, [96, 97]),
  (.wd .to, [100]),
  (.bar .ra, [308, 309, 311, 313, 323, 338, 346, 348, 374]),
  (.cop1, [310, 312, 319, 320, 321, 322, 324, 332, 339, 347, 349, 364, 375, 381, 386, 393, 398]),
  (.part .mo, [318, 330, 337, 345, 355, 361]),
  (.wd .lu, [331, 356, 365, 376, 387, 394]),
  (.bar .to, [362, 363, 369, 370, 371, 372, 373, 380, 385, 391, 392, 402]),
  (.wd .mi, [366, 377, 382, 388, 395, 399]),
  (.wd .po, [367, 378, 383, 389, 396, 400]),
  (.wd .mo, [368, 379, 384, 390, 397, 401])]

/-- The types of the rules. -/
def ruleTy (r : Nat) : CTy := match ruleTypes.find? fun t => t.2.contains (min r 402) with
  | some t => t.1
  | none => .any

def ruleOkC (r : Nat) : Bool := match inferC ruleTy (bodies.get r) with
  | some (t, _) => subC t (ruleTy r)
  | none => false

theorem rules_table : (List.range 403).all ruleOkC = true := by decide +kernel

theorem rules_typed (r : Nat) : ∃ t ts, inferC ruleTy (toaq.body r) = some (t, ts) ∧ subC t (ruleTy r) = true := by
  have key : ∀ r, ruleOkC r = true → ∃ t ts, inferC ruleTy (toaq.body r) = some (t, ts) ∧ subC t (ruleTy r) = true := by
    intro r h
    unfold ruleOkC at h
    split at h
    · rename_i t ts ht
      exact ⟨t, ts, ht, h⟩
    · cases h
  refine key r ?_
  have h := List.all_eq_true.1 rules_table
  by_cases hr : r < 403
  · exact h r (List.mem_range.2 hr)
  · have h402 := h 402 (List.mem_range.2 (by decide))
    have e : ruleTy r = ruleTy 402 := by simp only [ruleTy]; rw [Nat.min_eq_right (by omega)]; rfl
    unfold ruleOkC at h402 ⊢
    rw [bodies.get_ge r 402 (by have := bounds.1; omega) (by have := bounds.1; omega), e]
    exact h402

end Verif.Parse.Classes

namespace Verif.Parse
open Verif.AST Verif.AST.Spec Verif.Peg Verif.Parse.Classes
open Verif.Tone (Str)

/-- C53. In the syntax tree of a parsed text every field for a particle has a word of the class for the
field, in any case; the particles that start a predicate have any tone, the others have none. -/
theorem C53_classes {U : Uni} {b : Bytes} (hU : U.Ok) (hP : Plain U) (cs : List Call) (n : Node)
    (h : Out.text n ∈ calls U b cs newParser) : Classed n := by
  obtain ⟨q, l, hx⟩ := text_call h
  have := (inferC_ok (punct_i hU) hP ruleTy rules_typed _ _ _ _ _ _ _ (by rfl) hx).1
  exact this

/-! Examples: a text with particles of several classes; texts that are and are not words of a class. -/

example : Plain asciiUni := by unfold Plain; decide
example : (run "kEo To ru Po? ji/ ga ku tu ji/ to mai? Mi/ ji/ dA" [.text]).map Out.kind = [.text] := by
  decide +kernel
example : Class.tu.Has "SıA".toList := ⟨"sia".toList, by decide, by decide, by decide⟩
example : ¬ Class.tu.Has "sıá".toList := by
  rintro ⟨w, _, h⟩
  exact absurd (h.2 'á' (by decide)) (by decide)
example : Class.po.Has "Jẻı".toList :=
  ⟨"jei".toList, by decide, by decide, ['J'], 'ẻ', ['ı'], rfl, by decide, by decide, by decide⟩
example : ¬ Class.po.Has "mỉ".toList := by
  rintro ⟨w, hw, h⟩
  have h1 : ("mỉ".toList).map foldLetter = "mi".toList := by decide
  rw [h.1] at h1
  subst h1
  exact absurd hw (by decide)

end Verif.Parse
