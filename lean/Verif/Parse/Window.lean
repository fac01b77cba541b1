/-
Running the rules for syllables on a part of a text.

`pev` runs the Action functions on the runes of a window, without looking at the rest of the text, of
which only some runes are known not to be next. What it finds holds for every text with this window.
-/
import Verif.Peg.Runs
import Verif.Parse.SpellTop
import Verif.Parse.ClassSpec

namespace Verif.Parse.Notes
open Verif.AST Verif.Peg Verif.Parse
open Verif.Tone (Str)

/-- The result of a run on a window: success with the rest of the window, success somewhere, failure, or
unknown. -/
inductive PR
  | ok (w : Str) (x : Val × List Val)
  | yes
  | fail
  | stuck

/-- The actions that do not depend on offsets. -/
def local? : Act → Bool
  | .addTone | .diacritic _ | .empty | .dotless => true
  | _ => false

/-- Runes that are no punctuation. -/
def np (c : Char) : Bool := notPunct.contains c || spellPairs.any fun e => e.1 = c || e.2 = c

/-- Run a terminal on a window; the rune after the window is not in `out`. -/
def pterm (out : List Char) (t : Term) (w : Str) : PR := match w with
  | [] => match t with
    | .cls cs => if cs.all out.contains then .fail else .stuck
    | .lit c => if out.contains c then .fail else .stuck
    | _ => .stuck
  | c :: w => match t with
    | .cls cs => if cs.contains c then .ok w (.str [c], []) else .fail
    | .lit d => if c = d then .ok w (.str [c], []) else .fail
    | .any => if c = bad then .stuck else .ok w (.str [c], [])
    | .punct => if np c then .fail else .stuck

/-! The evaluators are defined by recursors, so that the kernel runs them quickly. -/

/-- The expression fails at the rune `c`, whatever comes next. -/
noncomputable def nofirst (rec : Nat → Bool) (c : Char) : Expr Act → Bool :=
  Expr.rec (fun t => match t with | .cls cs => !cs.contains c | .lit d => !decide (c = d) | _ => false)
    (fun r => rec r) (fun _ _ a _ => a) (fun _ _ a b => a && b) (fun _ _ => false) (fun _ a => a) (fun _ _ => false)
    (fun _ _ => false) (fun _ a => a) (fun _ a => a) (fun _ a => a) (fun _ _ a => a)

@[inherit_doc nofirst]
noncomputable def norule (n : Nat) : Char → Nat → Bool :=
  Nat.rec (fun _ _ => false) (fun _ rec c r => nofirst (rec c) c (toaq.body r)) n

def pseq (f g : Str → PR) (w : Str) : PR := match f w with
  | .ok w' x => match g w' with
    | .ok w'' y => .ok w'' (cat x.1 y.1, x.2 ++ y.2)
    | r => r
  | .yes => .stuck
  | r => r
def palt (f g : Str → PR) (w : Str) : PR := match f w with
  | .fail => g w
  | r => r
def popt (f : Str → PR) (w : Str) : PR := match f w with
  | .fail => .ok w (.nil, [])
  | r => r
def pstar (f : Str → PR) : Nat → Str → PR
  | 0, _ => .stuck
  | n+1, w => match f w with
    | .ok w' x => match pstar f n w' with
      | .ok w'' y => .ok w'' (cons x.1 y.1, [])
      | _ => .stuck
    | .fail => .ok w (.nil, [])
    | _ => .stuck
def pplus (f : Str → PR) (w : Str) : PR := match f w with
  | .ok w' x => match pstar f 8 w' with
    | .ok w'' y => .ok w'' (cons x.1 y.1, [])
    | _ => .stuck
  | .fail => .fail
  | _ => .stuck
def pnot (f : Str → PR) (w : Str) : PR := match f w with
  | .ok _ _ => .fail
  | .yes => .fail
  | .fail => .ok w (.nil, [])
  | .stuck => .stuck
def pand (f : Str → PR) (w : Str) : PR := match f w with
  | .ok _ _ => .ok w (.nil, [])
  | .yes => .ok w (.nil, [])
  | r => r
def plab (f : Str → PR) (w : Str) : PR := match f w with
  | .ok w' x => .ok w' (x.1, [x.1])
  | r => r
def pact (a : Act) (f : Str → PR) (w : Str) : PR := match f w with
  | .ok w' x => if local? a then match runAct a 0 0 x.2 with
    | .ok v => .ok w' (v, [])
    | .error _ => .stuck
    else .stuck
  | .yes => .stuck
  | r => r

/-- Run an expression on a window; `rec` runs the rules. -/
noncomputable def pev (out : List Char) (rec : Nat → Str → PR) : Expr Act → Str → PR :=
  Expr.rec (fun t => pterm out t) (fun r => rec r) (fun _ _ f g => pseq f g) (fun _ _ f g => palt f g) (fun _ f => popt f)
    (fun _ f => pplus f) (fun _ f => pstar f 8) (fun _ f => pnot f) (fun _ f => pand f) (fun _ f => plab f) (fun _ f => f)
    (fun a _ f => pact a f)

/-- Run a rule on a window, where `bd` is set if the rule `boundary` succeeds after it. -/
noncomputable def pbody (bd : Bool) (f : Expr Act → Str → PR) (r : Nat) (w : Str) : PR := match w with
  | [] => if bd && r == 132 then .yes else match f (toaq.body r) [] with
    | .ok w' x => .ok w' (x.1, [])
    | r => r
  | c :: w => if norule 4 c r then .fail else match f (toaq.body r) (c :: w) with
    | .ok w' x => .ok w' (x.1, [])
    | r => r

@[inherit_doc pbody]
noncomputable def prule (out : List Char) (bd : Bool) (n : Nat) : Nat → Str → PR :=
  Nat.rec (fun _ _ => .stuck) (fun _ rec => pbody bd (pev out rec)) n

theorem local_act {f : Act} (h : local? f = true) (p q p' q' : Nat) (l : List Val) : runAct f p q l = runAct f p' q' l := by
  cases f <;> first | (cases h; done) | skip
  all_goals
    rcases l with _ | ⟨v1, _ | ⟨v2, _ | ⟨v3, vs⟩⟩⟩ <;> rfl

/-! ### The text around a window -/

/-- The offset of a suffix of the text. -/
def at' (s t : Str) : Nat := off s (s.length - t.length)

theorem at_rune {s t : Str} {c : Char} (h : c :: t <:+ s) :
    (Input.ofBytes (utf8 s)).rune (at' s (c :: t)) = some (c, (encode c).length) ∧ at' s (c :: t) + (encode c).length = at' s t := by
  obtain ⟨u, rfl⟩ := h
  have hl : (u ++ c :: t).length - (c :: t).length = u.length := by simp
  have hlt : u.length < (u ++ c :: t).length := by simp
  have hc : (u ++ c :: t)[u.length] = c := by simp
  unfold at'
  rw [hl]
  have h1 := rune_off (u ++ c :: t) u.length hlt
  have h2 := off_succ (u ++ c :: t) u.length hlt
  rw [hc] at h1 h2
  refine ⟨h1, ?_⟩
  rw [show (u ++ c :: t).length - t.length = u.length + 1 by simp; omega, h2]

theorem at_nil (s : Str) : (Input.ofBytes (utf8 s)).rune (at' s []) = none := by
  unfold at'
  rw [show s.length - ([] : Str).length = s.length by simp]
  exact rune_end s

theorem at_next {s t : Str} {c : Char} (h : c :: t <:+ s) : ((Input.ofBytes (utf8 s)).next (at' s (c :: t))).1 = c := by
  have := (at_rune h).1
  unfold Input.rune at this
  split at this
  · injection this with this; rw [this]
  · cases this

variable {U : Uni} {s rest : Str} {out : List Char} {bd : Bool}

theorem np_ok (hP : Plain U) (hL : LettersNotPunct U) {c : Char} (h : np c = true) : U.punct c = false := by
  simp only [np, Bool.or_eq_true, List.contains_iff_mem, List.any_eq_true, decide_eq_true_eq] at h
  rcases h with h | ⟨e, he, h | h⟩
  · exact hP c h
  · exact h ▸ (hL e he).1
  · exact h ▸ (hL e he).2

/-- What is known about the text after the window. -/
structure Around (U : Uni) (s rest : Str) (out : List Char) (bd : Bool) : Prop where
  plain : Plain U
  letters : LettersNotPunct U
  next : ∀ c, rest.head? = some c → out.contains c = false
  bound : bd = true → ∃ q x, EvOk U toaq (.ofBytes (utf8 s)) (actAlg (.ofBytes (utf8 s))) (.ref 132) (at' s rest) q x

local notation "Ok" => EvOk U toaq (Input.ofBytes (utf8 s)) (actAlg (Input.ofBytes (utf8 s)))
local notation "Fl" => EvFail U toaq (Input.ofBytes (utf8 s)) (actAlg (Input.ofBytes (utf8 s)))

/-- What the result of a run on a window says about the text. -/
def Says (rest : Str) (e : Expr Act) (w : Str) : PR → Prop
  | .ok w' x => w' <:+ w ∧ Ok e (at' s (w ++ rest)) (at' s (w' ++ rest)) x
  | .yes => ∃ q x, Ok e (at' s (w ++ rest)) q x
  | .fail => Fl e (at' s (w ++ rest))
  | .stuck => True

theorem pterm_ok (H : Around U s rest out bd) (t : Term) (w : Str) (hw : w ++ rest <:+ s) :
    Says (U := U) (s := s) rest (.term t) w (pterm out t w) := by
  unfold pterm
  cases w with
  | nil =>
    have key : ∀ c w, (Input.ofBytes (utf8 s)).rune (at' s rest) = some (c, w) → out.contains c = false := by
      intro c w hc
      cases rest with
      | nil => rw [at_nil] at hc; cases hc
      | cons d r =>
        rw [(at_rune hw).1] at hc
        injection hc with hc
        injection hc with hc _
        subst hc
        exact H.next d rfl
    cases t with
    | cls cs =>
      simp only
      split
      · rename_i hcs
        have : ∃ z, tm U (.ofBytes (utf8 s)) (.cls cs) (at' s rest) = .inr z := by
          rw [tm_takes]
          cases hr : (Input.ofBytes (utf8 s)).rune (at' s rest) with
          | none => exact ⟨_, rfl⟩
          | some v =>
            rcases v with ⟨c, wd⟩
            have hc := key c wd hr
            have : cs.contains c = false := by
              cases hn : cs.contains c with
              | false => rfl
              | true => rw [List.all_eq_true.1 hcs c (List.contains_iff_mem.1 hn)] at hc; cases hc
            simp only [takes, this]
            exact ⟨_, rfl⟩
        obtain ⟨z, hz⟩ := this
        exact fail_term hz
      · trivial
    | lit d =>
      simp only
      split
      · rename_i hd
        have : ∃ z, tm U (.ofBytes (utf8 s)) (.lit d) (at' s rest) = .inr z := by
          rw [tm_takes]
          cases hr : (Input.ofBytes (utf8 s)).rune (at' s rest) with
          | none => exact ⟨_, rfl⟩
          | some v =>
            rcases v with ⟨c, wd⟩
            have hc := key c wd hr
            have : c ≠ d := by rintro rfl; rw [hd] at hc; cases hc
            simp only [takes, if_neg this]
            exact ⟨_, rfl⟩
        obtain ⟨z, hz⟩ := this
        exact fail_term hz
      · trivial
    | any => trivial
    | punct => trivial
  | cons c w =>
    have hr := at_rune (t := w ++ rest) hw
    have hn := at_next (t := w ++ rest) hw
    have yes : ∀ t, takes U t c = 1 → Says (U := U) (s := s) rest (.term t) (c :: w) (.ok w (.str [c], [])) := by
      intro t ht
      have : tm U (.ofBytes (utf8 s)) t (at' s (c :: (w ++ rest))) = .inl (at' s (w ++ rest)) := by
        rw [tm_takes, hr.1]
        simp only [ht, hr.2]
      have h2 := ok_term (G := toaq) (A := actAlg (Input.ofBytes (utf8 s))) this
      refine ⟨List.suffix_cons _ _, ?_⟩
      have h3 : (actAlg (Input.ofBytes (utf8 s))).leaf (at' s (c :: (w ++ rest))) (at' s (w ++ rest)) = (.str [c], []) := by
        simp only [actAlg, hn]
      rw [h3] at h2
      exact h2
    have no : ∀ t, takes U t c ≠ 1 → Says (U := U) (s := s) rest (.term t) (c :: w) .fail := by
      intro t ht
      have : ∃ z, tm U (.ofBytes (utf8 s)) t (at' s (c :: (w ++ rest))) = .inr z := by
        rw [tm_takes, hr.1]
        simp only
        split
        · exact ⟨_, rfl⟩
        · contradiction
        · exact ⟨_, rfl⟩
      obtain ⟨z, hz⟩ := this
      exact fail_term hz
    cases t with
    | cls cs =>
      simp only
      split
      · rename_i h; exact yes _ (by simp only [takes, h, if_true])
      · rename_i h; exact no _ (by simp only [takes, h]; simp)
    | lit d =>
      simp only
      split
      · rename_i h; exact yes _ (by simp only [takes, h, if_true])
      · rename_i h; exact no _ (by simp only [takes, h]; simp)
    | any =>
      simp only
      split
      · trivial
      · rename_i h; exact yes _ (by simp only [takes, ne_eq, h, not_false_eq_true, if_true])
    | punct =>
      simp only
      split
      · rename_i h
        exact no _ (by simp only [takes, np_ok H.plain H.letters h]; split <;> simp)
      · trivial

/-- Failure at the rune `c`. -/
theorem nofirst_ok {rec : Nat → Bool} {c : Char} {t : Str} (h : c :: t <:+ s) (hr : ∀ r, rec r = true → Fl (.ref r) (at' s (c :: t))) :
    ∀ e, nofirst rec c e = true → Fl e (at' s (c :: t)) := by
  have no : ∀ t', takes U t' c = 0 → Fl (.term t') (at' s (c :: t)) := by
    intro t' ht
    have : ∃ z, tm U (.ofBytes (utf8 s)) t' (at' s (c :: t)) = .inr z := by
      rw [tm_takes, (at_rune h).1]
      simp only [ht]
      exact ⟨_, rfl⟩
    obtain ⟨z, hz⟩ := this
    exact fail_term hz
  intro e
  induction e with
  | term t' =>
    intro he
    cases t' with
    | cls cs =>
      have he : (!cs.contains c) = true := he
      exact no _ (by simp only [takes]; rw [if_neg]; simpa using he)
    | lit d =>
      have he : (!decide (c = d)) = true := he
      exact no _ (by simp only [takes]; rw [if_neg]; simpa using he)
    | any => cases he
    | punct => cases he
  | ref r => exact hr r
  | seq a b iha _ => exact fun he => fail_seq1 (iha he)
  | alt a b iha ihb =>
    intro he
    have he : (nofirst rec c a && nofirst rec c b) = true := he
    simp only [Bool.and_eq_true] at he
    exact fail_alt (iha he.1) (ihb he.2)
  | opt a _ => intro he; cases he
  | plus a iha => exact fun he => fail_plus (iha he)
  | star a _ => intro he; cases he
  | not a _ => intro he; cases he
  | and a iha => exact fun he => fail_and (iha he)
  | lab a iha => exact fun he => fail_lab (iha he)
  | grp a iha => exact fun he => fail_grp (iha he)
  | act f a iha => exact fun he => fail_act (iha he)

theorem norule_ok {c : Char} {t : Str} (h : c :: t <:+ s) : ∀ n r, norule n c r = true → Fl (.ref r) (at' s (c :: t)) := by
  intro n
  induction n with
  | zero => intro r h; cases h
  | succ n ih => exact fun r hr => fail_ref (nofirst_ok h (fun r hr => ih r hr) _ hr)

theorem sub {w w' : Str} (hw : w ++ rest <:+ s) (h : w' <:+ w) : w' ++ rest <:+ s := by
  obtain ⟨u, rfl⟩ := h
  exact (List.suffix_append u (w' ++ rest)).trans (by simpa using hw)

variable {rec : Nat → Str → PR}

local notation "Sy" => Says (U := U) (s := s) rest

theorem pstar_ok {a : Expr Act} {f : Str → PR} (hf : ∀ w, w ++ rest <:+ s → Sy a w (f w)) :
    ∀ n w, w ++ rest <:+ s → Sy (.star a) w (pstar f n w) := by
  intro n
  induction n with
  | zero => intros; trivial
  | succ n ih =>
    intro w hw
    have := hf w hw
    unfold pstar
    revert this
    cases f w with
    | ok w' x =>
      intro h
      have := ih w' (sub hw h.1)
      simp only
      revert this
      cases pstar f n w' with
      | ok w'' y => intro h'; exact ⟨h'.1.trans h.1, ok_star1 h.2 h'.2⟩
      | yes => intro _; trivial
      | fail => intro _; trivial
      | stuck => intro h; exact h
    | yes => intro _; trivial
    | fail => intro h; exact ⟨List.suffix_refl _, ok_star0 h⟩
    | stuck => intro h; exact h

theorem pev_ok (H : Around U s rest out bd) (hr : ∀ r w, w ++ rest <:+ s → Sy (.ref r) w (rec r w)) :
    ∀ e w, w ++ rest <:+ s → Sy e w (pev out rec e w) := by
  intro e
  induction e with
  | term t => exact fun w hw => pterm_ok H t w hw
  | ref r => exact fun w hw => hr r w hw
  | seq a b iha ihb =>
    intro w hw
    have := iha w hw
    show Sy _ w (pseq (pev out rec a) (pev out rec b) w)
    unfold pseq
    revert this
    cases pev out rec a w with
    | ok w' x =>
      intro h
      have := ihb w' (sub hw h.1)
      simp only
      revert this
      cases pev out rec b w' with
      | ok w'' y => intro h'; exact ⟨h'.1.trans h.1, ok_seq h.2 h'.2⟩
      | yes => rintro ⟨q, y, h'⟩; exact ⟨q, _, ok_seq h.2 h'⟩
      | fail => intro h'; exact fail_seq2 h.2 h'
      | stuck => intro h; exact h
    | yes => intro _; trivial
    | fail => intro h; exact fail_seq1 h
    | stuck => intro h; exact h
  | alt a b iha ihb =>
    intro w hw
    have := iha w hw
    show Sy _ w (palt (pev out rec a) (pev out rec b) w)
    unfold palt
    revert this
    cases pev out rec a w with
    | ok w' x => intro h; exact ⟨h.1, ok_alt1 h.2⟩
    | yes => rintro ⟨q, x, h⟩; exact ⟨q, _, ok_alt1 h⟩
    | fail =>
      intro h
      have := ihb w hw
      simp only
      revert this
      cases pev out rec b w with
      | ok w'' y => intro h'; exact ⟨h'.1, ok_alt2 h h'.2⟩
      | yes => rintro ⟨q, y, h'⟩; exact ⟨q, _, ok_alt2 h h'⟩
      | fail => intro h'; exact fail_alt h h'
      | stuck => intro h; exact h
    | stuck => intro h; exact h
  | opt a iha =>
    intro w hw
    have := iha w hw
    show Sy _ w (popt (pev out rec a) w)
    unfold popt
    revert this
    cases pev out rec a w with
    | ok w' x => intro h; exact ⟨h.1, ok_opt1 h.2⟩
    | yes => rintro ⟨q, x, h⟩; exact ⟨q, _, ok_opt1 h⟩
    | fail => intro h; exact ⟨List.suffix_refl _, ok_opt2 h⟩
    | stuck => intro h; exact h
  | plus a iha =>
    intro w hw
    have := iha w hw
    show Sy _ w (pplus (pev out rec a) w)
    unfold pplus
    revert this
    cases pev out rec a w with
    | ok w' x =>
      intro h
      have := pstar_ok iha 8 w' (sub hw h.1)
      simp only
      revert this
      cases pstar (pev out rec a) 8 w' with
      | ok w'' y => intro h'; exact ⟨h'.1.trans h.1, ok_plus h.2 h'.2⟩
      | yes => intro _; trivial
      | fail => intro _; trivial
      | stuck => intro h; exact h
    | yes => intro _; trivial
    | fail => intro h; exact fail_plus h
    | stuck => intro h; exact h
  | star a iha => exact fun w hw => pstar_ok iha 8 w hw
  | not a iha =>
    intro w hw
    have := iha w hw
    show Sy _ w (pnot (pev out rec a) w)
    unfold pnot
    revert this
    cases pev out rec a w with
    | ok w' x => intro h; exact fail_not h.2
    | yes => rintro ⟨q, x, h⟩; exact fail_not h
    | fail => intro h; exact ⟨List.suffix_refl _, ok_not h⟩
    | stuck => intro h; exact h
  | and a iha =>
    intro w hw
    have := iha w hw
    show Sy _ w (pand (pev out rec a) w)
    unfold pand
    revert this
    cases pev out rec a w with
    | ok w' x => intro h; exact ⟨List.suffix_refl _, ok_and h.2⟩
    | yes => rintro ⟨q, x, h⟩; exact ⟨List.suffix_refl _, ok_and h⟩
    | fail => intro h; exact fail_and h
    | stuck => intro h; exact h
  | lab a iha =>
    intro w hw
    have := iha w hw
    show Sy _ w (plab (pev out rec a) w)
    unfold plab
    revert this
    cases pev out rec a w with
    | ok w' x => intro h; exact ⟨h.1, ok_lab h.2⟩
    | yes => rintro ⟨q, x, h⟩; exact ⟨q, _, ok_lab h⟩
    | fail => intro h; exact fail_lab h
    | stuck => intro h; exact h
  | grp a iha =>
    intro w hw
    have := iha w hw
    show Sy _ w (pev out rec a w)
    revert this
    cases pev out rec a w with
    | ok w' x => intro h; exact ⟨h.1, ok_grp h.2⟩
    | yes => rintro ⟨q, x, h⟩; exact ⟨q, _, ok_grp h⟩
    | fail => intro h; exact fail_grp h
    | stuck => intro h; exact h
  | act f a iha =>
    intro w hw
    have := iha w hw
    show Sy _ w (pact f (pev out rec a) w)
    unfold pact
    revert this
    cases pev out rec a w with
    | ok w' x =>
      intro h
      simp only
      split
      · rename_i hf
        cases hr : runAct f 0 0 x.2 with
        | ok v =>
          refine ⟨h.1, ok_act h.2 ?_⟩
          simp only [actAlg]
          rw [local_act hf _ _ 0 0, hr]
        | error _ => trivial
      · trivial
    | yes => intro _; trivial
    | fail => intro h; exact fail_act h
    | stuck => intro h; exact h

theorem prule_ok (H : Around U s rest out bd) : ∀ n r w, w ++ rest <:+ s → Sy (.ref r) w (prule out bd n r w) := by
  intro n
  induction n with
  | zero => intros; trivial
  | succ n ih =>
    intro r w hw
    have := pev_ok H ih (toaq.body r) w hw
    show Sy _ w (pbody bd (pev out (prule out bd n)) r w)
    have key : Sy (.ref r) w (match pev out (prule out bd n) (toaq.body r) w with | .ok w' x => .ok w' (x.1, []) | r => r) := by
      revert this
      cases pev out (prule out bd n) (toaq.body r) w with
      | ok w' x => intro h; exact ⟨h.1, ok_ref h.2⟩
      | yes => rintro ⟨q, x, h⟩; exact ⟨q, _, ok_ref h⟩
      | fail => intro h; exact fail_ref h
      | stuck => intro h; exact h
    unfold pbody
    cases w with
    | nil =>
      simp only
      split
      · rename_i h
        simp only [Bool.and_eq_true, beq_iff_eq] at h
        obtain ⟨hb, rfl⟩ := h
        exact H.bound hb
      · exact key
    | cons c w =>
      simp only
      split
      · rename_i h
        exact norule_ok (U := U) hw 4 r h
      · exact key

end Verif.Parse.Notes
