/-
C60: in the syntax tree of a parsed text the words are made of syllables, and the tone of every phrase is
that of its place.
-/
import Verif.Parse.ToneTypes
import Verif.Parse.TextProps
import Verif.Parse.Examples

namespace Verif.Parse.Tones
open Verif.AST Verif.AST.Spec Verif.Peg Verif.Parse Verif.Parse.WordLang
open Verif.Tone (Str)

variable {U : Uni} {I : Input}
local notation "Means" => MeansP (Separator U)
local notation "Fine" => FineP (Separator U)

/-- The union of two lists of tones. -/
def joinH : Hd → Hd → Hd
  | some a, some b => some (a ++ b.filter fun x => !a.contains x)
  | _, _ => none

/-- The type of a choice. -/
def joinT (a b : TTy) : TTy :=
  let h := joinH a.hd b.hd
  (([b, a, .nd h true, .ph, .nd h false, .any] : List TTy).find? fun c => subT a c && subT b c).getD .top

/-- The type of a sequence without action. -/
def seqT (a b : TTy) : TTy :=
  if a = .nul then b else if b = .nul then a else match a, b with
  | .syl τ, .syls => .wds τ
  | .sep, .sep => .sep
  | _, _ => if subT a .any && subT b .any then .any else .top

def repT : TTy → TTy
  | .syl .macron => .syls
  | .sep => .sep
  | .nd _ _ => .any
  | _ => .top

def matchesT : List TTy → List TTy → Bool
  | [], [] => true
  | a :: as, b :: bs => subT a b && matchesT as bs
  | _, _ => false

def sigT (f : Act) (ts : List TTy) : Option TTy := match f with
  | .wordMod => some .top
  | .empty => some .any
  | f => match need f ts with
    | some (us, t) => if matchesT ts us then some t else none
    | none => none

/-- The type of a terminal. -/
def termT : Term → TTy
  | .cls cs => if cs.all "\t\n\r .,:!?".toList.contains then .sep else .any
  | .lit c => if "\t\n\r .,:!?".toList.contains c then .sep else .any
  | .punct => .sep
  | .any => .any

/-- The type of an expression and the types of its labels; `rt` are the types of the rules. -/
def inferT (rt : Nat → TTy) : Expr Act → Option (TTy × List TTy)
  | .term t => some (termT t, [])
  | .ref r => some (rt r, [])
  | .seq a b => match inferT rt a, inferT rt b with
    | some (t, ts), some (u, us) => some (seqT t u, ts ++ us)
    | _, _ => none
  | .alt a b => match inferT rt a, inferT rt b with
    | some (t, []), some (u, []) => some (joinT t u, [])
    | _, _ => none
  | .opt a => match inferT rt a with
    | some (t, []) => some (joinT .nul t, [])
    | _ => none
  | .plus a => match inferT rt a with
    | some (t, _) => some (repT t, [])
    | none => none
  | .star a => match inferT rt a with
    | some (t, _) => some (repT t, [])
    | none => none
  | .not _ => some (.nul, [])
  | .and _ => some (.nul, [])
  | .lab a => match inferT rt a with
    | some (t, _) => some (t, [t])
    | none => none
  | .grp a => inferT rt a
  | .act f a => match inferT rt a with
    | some (_, ts) => match sigT f ts with
      | some t => some (t, [])
      | none => none
    | none => none

theorem join_left {a b : TTy} {v : Val} (h : Means a v) : Means (joinT a b) v := by
  unfold joinT
  simp only
  cases hf : ([b, a, .nd (joinH a.hd b.hd) true, .ph, .nd (joinH a.hd b.hd) false, .any] : List TTy).find?
      fun c => subT a c && subT b c with
  | none => trivial
  | some c =>
    have := List.find?_some hf
    simp only [Bool.and_eq_true] at this
    exact sub_ok this.1 h

theorem join_right {a b : TTy} {v : Val} (h : Means b v) : Means (joinT a b) v := by
  unfold joinT
  simp only
  cases hf : ([b, a, .nd (joinH a.hd b.hd) true, .ph, .nd (joinH a.hd b.hd) false, .any] : List TTy).find?
      fun c => subT a c && subT b c with
  | none => trivial
  | some c =>
    have := List.find?_some hf
    simp only [Bool.and_eq_true] at this
    exact sub_ok this.2 h

theorem any_iff {v : Val} : Means .any v ↔ Fine v := by
  constructor
  · exact fun h => h.1
  · intro h
    exact ⟨h, fun n _ => ⟨hd_none n, by intro h; cases h⟩⟩

theorem seq_ok {a b : TTy} {v w : Val} (h : Means a v) (h' : Means b w) : Means (seqT a b) (cat v w) := by
  unfold seqT
  split
  · rename_i ha
    subst ha
    simp only [MeansP] at h
    subst h
    cases w <;> exact h'
  · split
    · rename_i hb
      subst hb
      simp only [MeansP] at h'
      subst h'
      simpa [cat_nil] using h
    · split
      · obtain ⟨s, rfl, h1⟩ := h
        rcases h' with rfl | ⟨s', rfl, h2⟩
        · exact ⟨s, rfl, syl_word h1⟩
        · exact ⟨s ++ s', rfl, s, s', rfl, h1, h2⟩
      · rcases h with rfl | ⟨s, rfl, h1⟩ <;> rcases h' with rfl | ⟨s', rfl, h2⟩
        · exact .inl rfl
        · exact .inr ⟨s', rfl, h2⟩
        · exact .inr ⟨s, rfl, h1⟩
        · exact .inr ⟨s ++ s', rfl, by
            intro c hc
            rcases List.mem_append.1 hc with hc | hc
            · exact h1 c hc
            · exact h2 c hc⟩
      · split
        · rename_i hab
          simp only [Bool.and_eq_true] at hab
          have h1 := any_iff.1 (sub_ok hab.1 h)
          have h2 := any_iff.1 (sub_ok hab.2 h')
          rw [any_iff]
          cases v <;> cases w <;> first | exact h1 | exact h2 | trivial
        · trivial

theorem rep_nil (a : TTy) : Means (repT a) .nil := by
  unfold repT
  split
  · exact .inl rfl
  · exact .inl rfl
  · exact any_iff.2 trivial
  · trivial

theorem rep_ok {a : TTy} {v w : Val} (h : Means a v) (h' : Means (repT a) w) : Means (repT a) (cons v w) := by
  unfold repT at h' ⊢
  split
  · obtain ⟨s, rfl, h1⟩ := h
    rcases h' with rfl | ⟨s', rfl, h2⟩
    · exact .inr ⟨s, rfl, by simpa using Macrons.cons h1 .nil⟩
    · exact .inr ⟨s ++ s', rfl, .cons h1 h2⟩
  · rcases h with rfl | ⟨s, rfl, h1⟩ <;> rcases h' with rfl | ⟨s', rfl, h2⟩
    · exact .inl rfl
    · exact .inl rfl
    · exact .inr ⟨s, rfl, h1⟩
    · exact .inr ⟨s ++ s', rfl, by
        intro c hc
        rcases List.mem_append.1 hc with hc | hc
        · exact h1 c hc
        · exact h2 c hc⟩
  · have h1 : Fine v := h.1
    have h2 : Fine w := h'.1
    rw [any_iff]
    cases v <;> cases w <;> try trivial
    · exact el_cons.2 ⟨h1, el_nil⟩
    · exact el_cons.2 ⟨h1, h2⟩
  · trivial

theorem matches_ok : ∀ {ts us : List TTy} {vs : List Val}, matchesT ts us = true → MeansL (Separator U) ts vs → MeansL (Separator U) us vs
  | [], [], _, _, h => h
  | a :: as, b :: bs, _, hm, .cons h1 h2 => by
    simp only [matchesT, Bool.and_eq_true] at hm
    exact .cons (sub_ok hm.1 h1) (matches_ok hm.2 h2)
  | [], _ :: _, _, hm, _ => by simp [matchesT] at hm
  | _ :: _, [], _, hm, _ => by simp [matchesT] at hm

theorem sig_ok {f : Act} {ts : List TTy} {t : TTy} {vs : List Val} {p q : Nat} {v : Val} (hf : sigT f ts = some t)
    (hv : MeansL (Separator U) ts vs) (hr : runAct f p q vs = .ok v) : Means t v := by
  unfold sigT at hf
  split at hf
  · injection hf with hf; subst hf; trivial
  · injection hf with hf
    subst hf
    simp only [runAct] at hr
    injection hr with hr
    subst hr
    exact any_iff.2 trivial
  · split at hf
    · rename_i us t' hx
      split at hf
      · rename_i hm
        injection hf with hf
        subst hf
        exact act_ok hx (matches_ok hm hv) hr
      · cases hf
    · cases hf

theorem term_ok {t : Term} {p q : Nat} (h : tm U I t p = .inl q) : Means (termT t) (.str [(I.next p).1]) := by
  have any : Means .any (.str [(I.next p).1]) := any_iff.2 trivial
  cases t with
  | cls cs =>
    simp only [termT]
    split
    · rename_i hs
      obtain ⟨c, w, _, h2, h3, _⟩ := tm_cls (.inl rfl) h
      simp only [List.all_eq_true, List.contains_iff_mem] at hs
      exact .inr ⟨_, rfl, by simp only [h2, List.mem_singleton, forall_eq]; exact .inl (hs c h3)⟩
    · exact any
  | lit d =>
    simp only [termT]
    split
    · rename_i hs
      obtain ⟨c, w, _, h2, h3, _⟩ := tm_cls (.inr ⟨d, rfl, rfl⟩) h
      simp only [List.mem_singleton] at h3
      subst h3
      simp only [List.contains_iff_mem] at hs
      exact .inr ⟨_, rfl, by simp only [h2, List.mem_singleton, forall_eq]; exact .inl hs⟩
    · exact any
  | any => exact any
  | punct =>
    simp only [tm, Input.rune] at h
    refine .inr ⟨_, rfl, ?_⟩
    simp only [List.mem_singleton, forall_eq]
    split at h
    · rename_i c w hc
      split at h
      · split at h
        · rename_i hp
          split at hc
          · injection hc with hc
            rw [hc]
            exact .inr hp
          · cases hc
        · cases h
      · cases h
    · cases h

theorem inferT_ok (rt : Nat → TTy)
    (hrt : ∀ r, (∃ τ, sylTone r = some τ ∧ rt r = .syl τ) ∨
      ∃ t ts, inferT rt (toaq.body r) = some (t, ts) ∧ subT t (rt r) = true) : ∀ n e t ts p q x,
    inferT rt e = some (t, ts) → ev U toaq I (actAlg I) n e p = some (.ok q x) → Means t x.1 ∧ MeansL (Separator U) ts x.2 := by
  intro n
  induction n with
  | zero => intro e t ts p q x _ h; rw [ev_0] at h; cases h
  | succ n ih =>
    intro e t ts p q x hi h
    cases e with
    | term c =>
      simp only [inferT, Option.some.injEq, Prod.mk.injEq] at hi
      obtain ⟨rfl, rfl⟩ := hi
      obtain ⟨ht, rfl⟩ := ev_term h
      exact ⟨term_ok ht, .nil⟩
    | ref r =>
      simp only [inferT, Option.some.injEq, Prod.mk.injEq] at hi
      obtain ⟨rfl, rfl⟩ := hi
      obtain ⟨y, hy, rfl⟩ := ev_ref h
      rcases hrt r with ⟨τ, h1, h2⟩ | ⟨t, ts, h1, h2⟩
      · obtain ⟨s, h3, h4⟩ := syl_ok h1 hy
        rw [h2]
        exact ⟨⟨s, h3, h4⟩, .nil⟩
      · exact ⟨sub_ok h2 (ih _ _ _ _ _ _ h1 hy).1, .nil⟩
    | seq a b =>
      simp only [inferT] at hi
      split at hi
      · rename_i ta la tb lb ha hb
        simp only [Option.some.injEq, Prod.mk.injEq] at hi
        obtain ⟨rfl, rfl⟩ := hi
        obtain ⟨m, y, z, hy, hz, rfl⟩ := ev_seq h
        have h1 := ih _ _ _ _ _ _ ha hy
        have h2 := ih _ _ _ _ _ _ hb hz
        exact ⟨seq_ok h1.1 h2.1, h1.2.append h2.2⟩
      · cases hi
    | alt a b =>
      simp only [inferT] at hi
      split at hi
      · rename_i ta tb ha hb
        simp only [Option.some.injEq, Prod.mk.injEq] at hi
        obtain ⟨rfl, rfl⟩ := hi
        rcases ev_alt h with h | h
        · have h1 := ih _ _ _ _ _ _ ha h
          exact ⟨join_left h1.1, h1.2⟩
        · have h1 := ih _ _ _ _ _ _ hb h
          exact ⟨join_right h1.1, h1.2⟩
      · cases hi
    | opt a =>
      simp only [inferT] at hi
      split at hi
      · rename_i ta ha
        simp only [Option.some.injEq, Prod.mk.injEq] at hi
        obtain ⟨rfl, rfl⟩ := hi
        rcases ev_opt h with ⟨_, rfl⟩ | h
        · exact ⟨join_left rfl, .nil⟩
        · have h1 := ih _ _ _ _ _ _ ha h
          exact ⟨join_right h1.1, h1.2⟩
      · cases hi
    | plus a =>
      simp only [inferT] at hi
      split at hi
      · rename_i ta la ha
        simp only [Option.some.injEq, Prod.mk.injEq] at hi
        obtain ⟨rfl, rfl⟩ := hi
        rw [ev_s] at h
        simp only [evStep] at h
        split at h
        · rename_i m y hy
          split at h
          · rename_i m' z hz
            injection h with h
            injection h with h1 h2
            subst h1 h2
            have h1 := ih _ _ _ _ _ _ ha hy
            have h2 := ih (.star a) (repT ta) [] _ _ _ (by simp [inferT, ha]) hz
            exact ⟨rep_ok h1.1 h2.1, .nil⟩
          · rename_i hne
            exact absurd h (hne _ _)
        · rename_i hne
          exact absurd h (hne _ _)
      · cases hi
    | star a =>
      simp only [inferT] at hi
      split at hi
      · rename_i ta la ha
        simp only [Option.some.injEq, Prod.mk.injEq] at hi
        obtain ⟨rfl, rfl⟩ := hi
        rw [ev_s] at h
        simp only [evStep] at h
        split at h
        · rename_i m y hy
          split at h
          · rename_i m' z hz
            injection h with h
            injection h with h1 h2
            subst h1 h2
            have h1 := ih _ _ _ _ _ _ ha hy
            have h2 := ih (.star a) (repT ta) [] _ _ _ (by simp [inferT, ha]) hz
            exact ⟨rep_ok h1.1 h2.1, .nil⟩
          · rename_i hne
            exact absurd h (hne _ _)
        · injection h with h
          injection h with h1 h2
          subst h1 h2
          exact ⟨rep_nil ta, .nil⟩
        · rename_i hne _
          exact absurd h (hne _ _)
      · cases hi
    | not a =>
      simp only [inferT, Option.some.injEq, Prod.mk.injEq] at hi
      obtain ⟨rfl, rfl⟩ := hi
      obtain ⟨_, rfl, _⟩ := ev_not h
      exact ⟨rfl, .nil⟩
    | and a =>
      simp only [inferT, Option.some.injEq, Prod.mk.injEq] at hi
      obtain ⟨rfl, rfl⟩ := hi
      obtain ⟨_, rfl, _⟩ := ev_and h
      exact ⟨rfl, .nil⟩
    | lab a =>
      simp only [inferT] at hi
      split at hi
      · rename_i ta la ha
        simp only [Option.some.injEq, Prod.mk.injEq] at hi
        obtain ⟨rfl, rfl⟩ := hi
        obtain ⟨y, hy, rfl⟩ := ev_lab h
        have h1 := ih _ _ _ _ _ _ ha hy
        exact ⟨h1.1, .cons h1.1 .nil⟩
      · cases hi
    | grp a =>
      simp only [inferT] at hi
      obtain ⟨y, hy, rfl⟩ := ev_grp h
      exact ih _ _ _ _ _ _ hi hy
    | act f a =>
      obtain ⟨y, hy, hr⟩ := ev_act h
      have hr' : ∃ v, runAct f p q y.2 = .ok v ∧ x = (v, []) := by
        simp only [actAlg] at hr
        split at hr
        · rename_i v hv
          injection hr with hr
          exact ⟨v, hv, hr.symm⟩
        · cases hr
      obtain ⟨v, hv, rfl⟩ := hr'
      simp only [inferT] at hi
      split at hi
      · rename_i la ha
        split at hi
        · rename_i t' hs
          simp only [Option.some.injEq, Prod.mk.injEq] at hi
          obtain ⟨rfl, rfl⟩ := hi
          exact ⟨sig_ok hs (ih _ _ _ _ _ _ ha hy).2 hv, .nil⟩
        · cases hi
      · cases hi

/-- The types of the rules that are not `any`. -/
def ruleTypes : List (TTy × List Nat) := [
  (.wd .plain, [7, 25, 34, 36, 84, 85, 86, 87, 88, 89, 90, 91, 92, 93, 94, 95, 96, 97, 98, 100]),
  (.nd none true, [10, 11, 23, 24, 26, 71, 72, 73, 74, 75, 77, 78, 99, 223]),
  (.nd (some [.hook]) true, [12]),
  (.pd [.hook], [13]),
  (.nd (some [.hook]) false, [16, 17, 18, 19, 20, 231, 232, 233, 234, 235, 236, 237, 316, 317]),
  (.nd (some [.acute, .circumflex]) true, [31, 32, 33, 35, 37, 38]),
  (.nd (some [.acute, .circumflex]) false, [39, 244, 246]),
  (.nd (some [.acute]) false, [40, 245, 247, 248, 249, 250, 251, 328, 329]),
  (.nd (some [.caron]) true, [41, 42, 43, 44]),
  (.pd [.caron], [45]),
  (.nd (some [.caron]) false, [46, 47, 48, 255, 256, 257, 258, 259, 260, 261, 335, 336]),
  (.nd (some [.tilde]) true, [49, 50, 51]),
  (.nd (some [.tilde]) false, [52, 53, 264, 265, 266, 267, 268, 269, 270, 271, 343, 344]),
  (.nd (some [.grave]) true, [54, 55, 56]),
  (.nd (some [.grave]) false, [57, 58, 59, 60, 61, 276, 277, 278, 279, 280, 281, 282, 283, 353, 354]),
  (.nd (some [.circumflex]) true, [62, 63, 64]),
  (.pd [.circumflex], [65]),
  (.nd (some [.circumflex]) false, [66, 67, 68, 286, 287, 288, 289, 290, 291, 292, 359, 360]),
  (.con, [69]),
  (.ph, [70]),
  (.part .plain, [76]),
  (.sep, [221, 222]),
  (.top, [79]),
  (.syl .plain, [81, 123, 124]),
  (.syl .macron, [125]),
  (.syl .acute, [126]),
  (.syl .caron, [127]),
  (.syl .hook, [128]),
  (.syl .circumflex, [129]),
  (.syl .grave, [130]),
  (.syl .tilde, [131]),
  (.nul, [224]),
  (.cop (some [.caron]) (some [.caron]), [225, 253]),
  (.cop none none, [226, 227, 228, 229, 238, 239, 240, 241]),
  (.cop (some [.hook]) (some [.hook]), [230, 314]),
  (.cop (some [.acute, .circumflex]) (some [.acute, .circumflex]), [242, 243]),
  (.lu .caron, [252]),
  (.cop (some [.caron]) none, [254]),
  (.cop (some [.tilde]) (some [.tilde]), [262, 263]),
  (.cop (some [.grave]) (some [.grave]), [272, 273, 274, 275]),
  (.cop (some [.circumflex]) none, [284]),
  (.lu .circumflex, [285]),
  (.bar (some [.caron]), [308, 380]),
  (.bar none, [309, 311, 362, 363, 369, 370, 371, 372]),
  (.cop1 none none, [310, 312, 319, 320, 321, 322]),
  (.bar (some [.hook]), [313, 374, 402]),
  (.lu .hook, [315]),
  (.part .hook, [318]),
  (.bar (some [.acute, .circumflex]), [323, 373]),
  (.cop1 (some [.acute, .circumflex]) (some [.acute, .circumflex]), [324]),
  (.cop (some [.acute]) (some [.hook]), [325]),
  (.cop (some [.acute, .circumflex]) (some [.hook]), [326]),
  (.lu .acute, [327]),
  (.part .acute, [330]),
  (.wd .caron, [331, 382, 383, 384]),
  (.cop1 (some [.caron]) (some [.caron]), [332]),
  (.cop (some [.caron]) (some [.hook]), [333, 334]),
  (.part .caron, [337]),
  (.bar (some [.tilde]), [338, 385]),
  (.cop1 (some [.tilde]) (some [.tilde]), [339]),
  (.cop (some [.tilde]) (some [.hook]), [340, 341]),
  (.lu .tilde, [342]),
  (.part .tilde, [345]),
  (.bar (some [.grave]), [346, 348, 391, 392]),
  (.cop1 (some [.grave]) (some [.grave]), [347, 349]),
  (.cop (some [.grave]) (some [.hook]), [350, 351]),
  (.lu .grave, [352]),
  (.part .grave, [355]),
  (.wd .circumflex, [356, 399, 400, 401]),
  (.cop (some [.circumflex]) (some [.hook]), [357, 358]),
  (.part .circumflex, [361]),
  (.cop1 (some [.hook]) (some [.hook]), [364]),
  (.wd .hook, [365, 366, 367, 368]),
  (.cop1 (some [.acute, .circumflex]) (some [.hook]), [375]),
  (.wd .acute, [376, 377, 378, 379]),
  (.cop1 (some [.caron]) (some [.hook]), [381]),
  (.cop1 (some [.tilde]) (some [.hook]), [386]),
  (.wd .tilde, [387, 388, 389, 390]),
  (.cop1 (some [.grave]) (some [.hook]), [393]),
  (.wd .grave, [394, 395, 396, 397]),
  (.cop1 (some [.circumflex]) (some [.hook]), [398])]

/-- The types of the rules. -/
def ruleTy (r : Nat) : TTy := match ruleTypes.find? fun t => t.2.contains (min r 402) with
  | some t => t.1
  | none => .any

def ruleOkT (r : Nat) : Bool := match sylTone r with
  | some τ => ruleTy r == .syl τ
  | none => match inferT ruleTy (bodies.get r) with
    | some (t, _) => subT t (ruleTy r)
    | none => false

theorem rules_table : (List.range 403).all ruleOkT = true := by decide +kernel

theorem rules_typed (r : Nat) : (∃ τ, sylTone r = some τ ∧ ruleTy r = .syl τ) ∨
    ∃ t ts, inferT ruleTy (toaq.body r) = some (t, ts) ∧ subT t (ruleTy r) = true := by
  have key : ∀ r, ruleOkT r = true → (∃ τ, sylTone r = some τ ∧ ruleTy r = .syl τ) ∨
      ∃ t ts, inferT ruleTy (toaq.body r) = some (t, ts) ∧ subT t (ruleTy r) = true := by
    intro r h
    unfold ruleOkT at h
    split at h
    · rename_i τ hτ
      exact .inl ⟨τ, hτ, by simpa using h⟩
    · split at h
      · rename_i t ts ht
        exact .inr ⟨t, ts, ht, h⟩
      · cases h
  refine key r ?_
  have h := List.all_eq_true.1 rules_table
  by_cases hr : r < 403
  · exact h r (List.mem_range.2 hr)
  · have h402 := h 402 (List.mem_range.2 (by decide))
    have e : ruleTy r = ruleTy 402 := by simp only [ruleTy]; rw [Nat.min_eq_right (by omega)]; rfl
    have e' : sylTone r = none := by
      unfold sylTone
      split <;> first | omega | rfl
    unfold ruleOkT at h402 ⊢
    rw [bodies.get_ge r 402 (by have := bounds.1; omega) (by have := bounds.1; omega), e, e']
    exact h402

end Verif.Parse.Tones

namespace Verif.Parse
open Verif.AST Verif.AST.Spec Verif.Peg Verif.Parse.Tones
open Verif.Tone (Str)

/-- C60. In the syntax tree of a parsed text every word other than a space is a syllable followed by
syllables with macrons, and the first words of predicates have the tones of their places. -/
theorem C60_tones {U : Uni} {b : Bytes} (cs : List Call) (n : Node)
    (h : Out.text n ∈ calls U b cs newParser) : Every (GoodTones (Separator U)) n := by
  obtain ⟨q, l, hx⟩ := text_call h
  have := (inferT_ok ruleTy rules_typed _ _ _ _ _ _ _ (by rfl) hx).1
  exact (every_iff n).2 this.1

/-- C60 for the words of the text in order: each token is a word, or only separators. -/
theorem C60_words {U : Uni} {b : Bytes} (cs : List Call) (n : Node)
    (h : Out.text n ∈ calls U b cs newParser) :
    ∀ t ∈ words n, (∃ τ, WordOf τ t.t) ∨ ∀ c ∈ t.t, Separator U c :=
  tok_node n ((every_iff n).1 (C60_tones cs n h))

/-! ### Examples -/

/-- A text with words of all the tones, serial and connected predicates, a relative clause, a content
clause, an adverb and a preposition. -/
example : (run "JaI? ru Po?mai- ji/ poqV bu~ ti\\ ni/ pai^ suq/ da" [.text]).map Out.kind = [.text] := by
  decide +kernel

example : Syllable .hook "ChỎaq".toList := ⟨"ch".toList, by decide, "oaq".toList, by decide, by decide +kernel⟩
example : WordOf .acute "pójījī".toList :=
  ⟨"pó".toList, "jījī".toList, rfl, ⟨"p".toList, by decide, "o".toList, by decide, by decide +kernel⟩,
    .cons (a := "jī".toList) (b := "jī".toList) ⟨"j".toList, by decide, "ı".toList, by decide, by decide +kernel⟩
      (.cons (a := "jī".toList) (b := []) ⟨"j".toList, by decide, "ı".toList, by decide, by decide +kernel⟩ .nil)⟩

/-- The first letters of a word: the tones are told apart by them. -/
theorem word_start {τ : WTone} {s : Str} (h : WordOf τ s) :
    ∃ o ∈ onsets, ∃ r ∈ rimes, ∃ rest, s.map (foldBy spellPairs) = τ.syllable o r ++ rest := by
  obtain ⟨a, b, rfl, ⟨o, ho, r, hr, h⟩, _⟩ := h
  exact ⟨o, ho, r, hr, b.map (foldBy spellPairs), by rw [List.map_append, h]⟩

/-- A word with the acute is not one with the hook. -/
example : ¬ WordOf .hook "máı".toList := by
  intro h
  obtain ⟨o, ho, r, hr, rest, h⟩ := word_start h
  have e : ("máı".toList).map (foldBy spellPairs) = "máı".toList := by decide +kernel
  rw [e] at h
  have key : ∀ o ∈ onsets, ∀ r ∈ rimes, "máı".toList.take (WTone.hook.syllable o r).length ≠ WTone.hook.syllable o r := by
    decide +kernel
  refine key o ho r hr ?_
  rw [h, List.take_left]

/-- A statement whose predicate has the acute is not well toned. -/
example : ¬ GoodTones (Separator asciiUni)
    (.predication .raw (.word .predicate (.mk "máı".toList 0 0 none)) none none) := by
  rintro ⟨_, _, τ, hτ, s, hs, h⟩
  simp only [List.mem_singleton] at hτ
  simp only [headWord, Word.T, Option.some.injEq] at hs
  subst hτ hs
  obtain ⟨o, ho, r, hr, rest, h⟩ := word_start h
  have e : ("máı".toList).map (foldBy spellPairs) = "máı".toList := by decide +kernel
  rw [e] at h
  have key : ∀ o ∈ onsets, ∀ r ∈ rimes, "máı".toList.take (WTone.hook.syllable o r).length ≠ WTone.hook.syllable o r := by
    decide +kernel
  refine key o ho r hr ?_
  rw [h, List.take_left]

end Verif.Parse
