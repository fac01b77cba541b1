/-
C43, C52 and C65, exactly: which texts make the programs panic, by C36 and C46, whose exact forms are
`C36_parsed_exact` and `C46_panics_iff`.
-/
import Verif.App.Main
import Verif.Logic.PanicParsed

namespace Verif.App
open Verif.Peg Verif.Parse
open Verif.Tone (Str)
open Verif.Logic (Meets)

/-- Spec: the text is parsed, and in one of its sentences the interpreter comes to a connection that it does not know. -/
def Unmet (U : Uni) (b : Bytes) : Prop :=
  ∃ l d, calls U b [.text] newParser = [.text (.text l d)] ∧ ∃ n ∈ d, accepts .sentence (tag n) = true ∧ ¬Meets U False n

theorem interprets_error {U : Uni} (hU : U.Ok) (hP : Plain U) {b : Bytes} {l d}
    (hc : calls U b [.text] newParser = [.text (.text l d)]) :
    (∃ e, Interprets U d (.error e)) ↔ ∃ n ∈ d, accepts .sentence (tag n) = true ∧ ¬Meets U False n := by
  rw [← Logic.C36_parsed_exact_panic hU hP [.text] l d (by rw [hc]; simp)]
  constructor
  · rintro ⟨e, k0, h⟩
    refine ⟨e, k0, ?_, h⟩
    rintro rfl
    obtain ⟨r, hr, k1, hk⟩ := Logic.C34_terminates U d
    have := hk (max k0 k1) (Nat.le_max_right _ _)
    rw [h _ (Nat.le_max_left _ _)] at this
    exact hr this.symm
  · rintro ⟨e, k0, _, h⟩
    exact ⟨e, k0, h⟩

theorem interprets_ok {U : Uni} (hU : U.Ok) (hP : Plain U) {b : Bytes} {l d}
    (hc : calls U b [.text] newParser = [.text (.text l d)]) :
    (∃ st, Interprets U d (.ok st)) ↔ ¬Unmet U b := by
  have := Logic.C36_parsed_exact hU hP [.text] l d (by rw [hc]; simp)
  constructor
  · rintro h ⟨l', d', hc', n, hn, h1, h2⟩
    rw [hc] at hc'
    cases hc'
    exact h2 (this.1 h n hn h1)
  · intro h
    exact this.2 fun n hn h1 => Classical.byContradiction fun h2 => h ⟨l, d, hc, n, hn, h1, h2⟩

/-- C52. Exactly the messages that are accepted by `Tree` and have tone digits out of place, or are parsed and have a
connection to which the interpreter comes and that it does not know, take the bot down. -/
theorem C52_dies_exact (E : Env) (hU : E.U.Ok) (hP : Plain E.U) (hE : ∀ l, (E.order l).Perm l) (s : Str) :
    Replies E s .panic ↔
      (∃ t, calls E.U (utf8 (Logic.trimSpace E.U s)) [.tree] newParser = [.tree t]) ∧
      (¬InPlace (utf8 (Logic.trimSpace E.U s)) ∨ Unmet E.U (utf8 (Logic.trimSpace E.U s))) := by
  rw [C52_dies_iff E hU hE s]
  refine and_congr_right fun _ => or_congr_right ?_
  constructor
  · rintro ⟨l, d, e, hc, h⟩
    exact ⟨l, d, hc, (interprets_error hU hP hc).1 ⟨e, h⟩⟩
  · rintro ⟨l, d, hc, h⟩
    obtain ⟨e, he⟩ := (interprets_error hU hP hc).2 h
    exact ⟨l, d, e, hc, he⟩

/-- C65. The tool panics exactly if its input is accepted by `Tree` and has tone digits out of place, or is parsed and
has a connection to which the interpreter comes and that it does not know. -/
theorem C65_panics_exact (C : Cli) (hU : C.U.Ok) (hP : Plain C.U) (hE : ∀ l, (C.order l).Perm l) (r : Ran)
    (h : Runs C r) :
    r.fin = .panic ↔ ∃ b, Input? C (.ok b) ∧ (∃ t, calls C.U b [.tree] newParser = [.tree t]) ∧
      (¬InPlace b ∨ Unmet C.U b) := by
  have one : ∀ {b o}, calls C.U b [o] newParser = [fresh C.U b o] := fun {b o} => by simp [C20_memo_transparent]
  have two : ∀ {b}, calls C.U b [.tree, .text] newParser = [fresh C.U b .tree, fresh C.U b .text] := fun {b} => by
    simp [C20_memo_transparent]
  obtain ⟨h1, h0, hall⟩ := C65_status C hU hE r h
  constructor
  · intro hp
    obtain ⟨r', i, hr, hi, hf⟩ := C65_runs C hU hE
    have := h.unique hr
    subst this
    cases i with
    | error e => subst hf; cases hp
    | ok b =>
      simp only at hf
      refine ⟨b, hi, ?_⟩
      cases hf with
      | reject => cases hp
      | fragment => cases hp
      | statement => cases hp
      | @parser t h3 =>
        refine ⟨⟨t, ?_⟩, .inl ((C46_panics_iff hU t _ h3).1 rfl)⟩
        rw [two] at h3; rw [one]
        simp only [List.cons.injEq, and_true] at h3 ⊢
        exact h3.1
      | @interpreter t l d s e h3 h' _ =>
        rw [two] at h3
        simp only [List.cons.injEq, and_true] at h3
        have hc : calls C.U b [.text] newParser = [.text (.text l d)] := by rw [one, h3.2]
        exact ⟨⟨t, by rw [one, h3.1]⟩, .inr ⟨l, d, hc, (interprets_error hU hP hc).1 ⟨e, h'⟩⟩⟩
  · rintro ⟨b, hi, ⟨t, ht⟩, hq⟩
    have hb : ∀ {b'}, Input? C (.ok b') → b' = b := fun h => by
      have := h.unique hi
      injection this
    have htx : ∀ l d st, calls C.U b [.text] newParser = [.text (.text l d)] → ¬Interprets C.U d (.ok st) := by
      intro l d st hc hst
      rcases hq with hq | hq
      · have hc' : calls C.U b [.tree, .text] newParser = [.tree t, .text (.text l d)] := by
          rw [two]; rw [one] at ht hc
          simp only [List.cons.injEq, and_true] at ht hc ⊢
          exact ⟨ht, hc⟩
        have := (C46_panics_iff hU t _ hc').2 hq
        cases this
      · exact (interprets_ok hU hP hc).1 ⟨st, hst⟩ hq
    rcases hall with h | h | h
    · obtain ⟨b', l, d, st, h2, h3, h4⟩ := h0.1 h
      rw [hb h2] at h3
      exact absurd h4 (htx l d st h3)
    · rcases h1.1 h with ⟨e, he⟩ | ⟨b', k, h2, h3⟩
      · have := he.unique hi
        cases this
      · rw [hb h2, ht] at h3
        cases h3
    · exact h

/-- C43. For a text that can be parsed, exactly: if there is no connection that the interpreter does not know and comes
to, the field Logic is "fragment" for fragments, and the statement of `PrettyString` otherwise; and if there is one, the
field says "bug: " and the string that the interpreter panicked with, or it says "fragment" when the value that it
panicked with is not a string. -/
theorem C43_exact_partial (E : Env) (hU : E.U.Ok) (hP : Plain E.U) (hE : ∀ m, E.encodeFails m = false) (b : Bytes)
    (l : Option AST.Node) (d : List AST.Node) (h : calls E.U b [.text] newParser = [.text (.text l d)]) :
    ∃ m, Answers' E ⟨"POST".toList, some b⟩ (.json m) ∧
      (¬Unmet E.U b →
        ((∀ n ∈ d, Logic.isFragment n = true) ∧ m "Logic".toList = some "fragment".toList) ∨
        ∃ n defs, Interprets E.U d (.ok (some (n, defs))) ∧ (∃ x ∈ d, Logic.isFragment x = false) ∧
          m "Logic".toList = some (Logic.printTop E.U true (fun id => (defs.lookup id).join)
            (E.order (Logic.scan E.U (fun id => (defs.lookup id).join) n).runes) n)) ∧
      (Unmet E.U b →
        (Interprets E.U d (.error .msg) ∧ m "Logic".toList = some ("bug: ".toList ++ E.panicText d)) ∨
        (Interprets E.U d (.error .rt) ∧ m "Logic".toList = some "fragment".toList)) := by
  obtain ⟨m, hm, h1, h2⟩ := C43_reported_partial E hE b l d h
  refine ⟨m, hm, fun hu => ?_, ?_⟩
  · obtain ⟨st, hst⟩ := (interprets_ok hU hP h).2 hu
    rcases C43_no_panic E hU b l d h m hm st hst with ⟨_, h1, h2⟩ | ⟨n, defs, rfl, h1, h2⟩
    · exact .inl ⟨h2, h1⟩
    · exact .inr ⟨n, defs, hst, h1, h2⟩
  · rintro ⟨l', d', hc', hu⟩
    rw [h] at hc'
    cases hc'
    obtain ⟨e, k0, hne, he⟩ := (Logic.C36_parsed_exact_panic hU hP [.text] l d (by rw [h]; simp)).2 hu
    cases e with
    | fuel => exact absurd rfl hne
    | msg => exact .inl ⟨⟨k0, he⟩, h1 ⟨k0, he⟩⟩
    | rt => exact .inr ⟨⟨k0, he⟩, h2 ⟨k0, he⟩⟩

/-- C43. Which of the two it is: a panic is reported if all connections of the text have sides of their kinds, and it is hidden if the
interpreter knows all connectives. -/
theorem C43_kind_partial (E : Env) (hU : E.U.Ok) (hP : Plain E.U) (hE : ∀ m, E.encodeFails m = false) (b : Bytes)
    (l : Option AST.Node) (d : List AST.Node) (h : calls E.U b [.text] newParser = [.text (.text l d)]) (hu : Unmet E.U b) :
    ∃ m, Answers' E ⟨"POST".toList, some b⟩ (.json m) ∧
      ((∀ n ∈ d, accepts .sentence (tag n) = true → ¬ Logic.HasCop (fun k _ l r => Logic.Mismatch k l r) n) →
        m "Logic".toList = some ("bug: ".toList ++ E.panicText d)) ∧
      ((∀ n ∈ d, accepts .sentence (tag n) = true → ¬ Logic.HasCop (fun k w _ _ => Logic.Unknown E.U k w) n) →
        m "Logic".toList = some "fragment".toList) := by
  obtain ⟨m, hm, _, h2⟩ := C43_exact_partial E hU hP hE b l d h
  have hk := Logic.C36_parsed_kind hU hP [.text] l d (by rw [h]; simp)
  refine ⟨m, hm, fun hn => ?_, fun hn => ?_⟩
  · rcases h2 hu with ⟨_, h3⟩ | ⟨⟨k0, h3⟩, _⟩
    · exact h3
    · obtain ⟨n, h4, h5, h6⟩ := (hk k0).1 (h3 k0 (Nat.le_refl _))
      exact absurd h6 (hn n h4 h5)
  · rcases h2 hu with ⟨⟨k0, h3⟩, _⟩ | ⟨_, h3⟩
    · obtain ⟨n, h4, h5, h6⟩ := (hk k0).2 (h3 k0 (Nat.le_refl _))
      exact absurd h6 (hn n h4 h5)
    · exact h3

/-! ### Examples -/

mutual
/-- Decides `HasCop`. -/
def hasB (q : AST.CopKind → Str → AST.Node → AST.Node → Bool) : AST.Node → Bool
  | .sentence _ st _ => hasB q st
  | .cop k _ _ ru l r => q k ru.T l r || (hasB q l || hasB q r)
  | .prenexStmt ts _ st => hasBL q ts || hasB q st
  | .predication _ p ts _ => hasB q p || hasBT q ts
  | .serial l r => hasB q l || hasB q r
  | .po _ _ a => hasB q a
  | .lu _ _ st => hasB q st
  | .linked _ a => hasB q a
  | .terms ts => hasBL q ts
  | .predArg _ _ _ p rel => hasB q p || hasBO q rel
  | .predAdverb p => hasB q p
  | .prep p a => hasB q p || hasB q a
  | _ => false
def hasBO (q : AST.CopKind → Str → AST.Node → AST.Node → Bool) : Option AST.Node → Bool
  | none => false
  | some n => hasB q n
def hasBT (q : AST.CopKind → Str → AST.Node → AST.Node → Bool) : Option (List AST.Node) → Bool
  | none => false
  | some l => hasBL q l
def hasBL (q : AST.CopKind → Str → AST.Node → AST.Node → Bool) : List AST.Node → Bool
  | [] => false
  | n :: ns => hasB q n || hasBL q ns
end

section
variable {q : AST.CopKind → Str → AST.Node → AST.Node → Bool} {Q : AST.CopKind → Str → AST.Node → AST.Node → Prop}
  (hq : ∀ k w l r, Q k w l r → q k w l r = true)
open Logic (HasCop HasCopO HasCopT HasCopL)
include hq

set_option linter.unusedSectionVars false

mutual
theorem hasB_of : ∀ n, HasCop Q n → hasB q n = true
  | .text _ _, h => by simp [HasCop] at h
  | .discourse _, h => by simp [HasCop] at h
  | .prenex _ _, h => by simp [HasCop] at h
  | .prefixed _ _, h => by simp [HasCop] at h
  | .word _ _, h => by simp [HasCop] at h
  | .mi _ _ _, h => by simp [HasCop] at h
  | .mo _ _ _, h => by simp [HasCop] at h
  | .paren _ _ _, h => by simp [HasCop] at h
  | .incidental _ _, h => by simp [HasCop] at h
  | .vocative _ _, h => by simp [HasCop] at h
  | .sentence _ st _, h => by rw [HasCop] at h; rw [hasB]; exact hasB_of st h
  | .cop k _ _ ru l r, h => by
    rw [HasCop] at h; rw [hasB, Bool.or_eq_true, Bool.or_eq_true]
    exact h.imp (hq _ _ _ _) (.imp (hasB_of l) (hasB_of r))
  | .prenexStmt ts _ st, h => by rw [HasCop] at h; rw [hasB, Bool.or_eq_true]; exact h.imp (hasBL_of ts) (hasB_of st)
  | .predication _ p ts _, h => by rw [HasCop] at h; rw [hasB, Bool.or_eq_true]; exact h.imp (hasB_of p) (hasBT_of ts)
  | .serial l r, h => by rw [HasCop] at h; rw [hasB, Bool.or_eq_true]; exact h.imp (hasB_of l) (hasB_of r)
  | .po _ _ a, h => by rw [HasCop] at h; rw [hasB]; exact hasB_of a h
  | .lu _ _ st, h => by rw [HasCop] at h; rw [hasB]; exact hasB_of st h
  | .linked _ a, h => by rw [HasCop] at h; rw [hasB]; exact hasB_of a h
  | .terms ts, h => by rw [HasCop] at h; rw [hasB]; exact hasBL_of ts h
  | .predArg _ _ _ p rel, h => by rw [HasCop] at h; rw [hasB, Bool.or_eq_true]; exact h.imp (hasB_of p) (hasBO_of rel)
  | .predAdverb p, h => by rw [HasCop] at h; rw [hasB]; exact hasB_of p h
  | .prep p a, h => by rw [HasCop] at h; rw [hasB, Bool.or_eq_true]; exact h.imp (hasB_of p) (hasB_of a)
theorem hasBO_of : ∀ n, HasCopO Q n → hasBO q n = true
  | none, h => by simp [HasCopO] at h
  | some n, h => by rw [HasCopO] at h; rw [hasBO]; exact hasB_of n h
theorem hasBT_of : ∀ n, HasCopT Q n → hasBT q n = true
  | none, h => by simp [HasCopT] at h
  | some n, h => by rw [HasCopT] at h; rw [hasBT]; exact hasBL_of n h
theorem hasBL_of : ∀ n, HasCopL Q n → hasBL q n = true
  | [], h => by simp [HasCopL] at h
  | n :: ns, h => by rw [HasCopL] at h; rw [hasBL, Bool.or_eq_true]; exact h.imp (hasB_of n) (hasBL_of ns)
end
end

/-- Whether a text has a sentence to whose unknown connections the interpreter comes, and whether it has connections of each kind. -/
def kinds (U : Uni) : Out → Option (Bool × Bool × Bool)
  | .text (.text _ d) => some (d.all fun n => !accepts .sentence (tag n) || Logic.meetsB U false n,
      d.any (hasB fun k _ l r => match k with
        | .content => true
        | .relative => !accepts .relative (tag r)
        | .predicate => !accepts .predicate (tag l)
        | _ => false),
      d.any (hasB fun k w _ _ => match k with
        | .sentence => !Logic.hasText U w ['r', 'u']
        | .argument => !(Logic.connectiveB U w || Logic.hasText U w ['r', 'o', 'i'])
        | _ => !Logic.connectiveB U w))
  | _ => none

/-- Two texts that the interpreter panics on: the first for a connective, which is reported, and the second for the sides of a
connection, which is not. -/
example : (Verif.Parse.run "Mai? suq/ giV ji/ roi maiV suq/" [.text]).map (kinds asciiUni) = [some (false, false, true)] := by
  decide +kernel
example : (Verif.Parse.run "gi? to ru gi/ to mai?" [.text]).map (kinds asciiUni) = [some (false, true, false)] := by
  decide +kernel

theorem meets_of {U : Uni} {b : Bytes} (h : (calls U b [.text] newParser).map (Logic.outMeets U) = [some (false, true)]) :
    ¬Unmet U b := by
  rintro ⟨l, d, hc, n, hn, h1, h2⟩
  rw [hc] at h
  simp only [List.map_cons, List.map_nil, Logic.outMeets, List.cons.injEq, Option.some.injEq, Prod.mk.injEq, and_true] at h
  have := List.all_eq_true.1 h.2 n hn
  rw [h1] at this
  simp only [Bool.not_true, Bool.false_or] at this
  exact h2 (by simpa using (Logic.meetsB_iff false n).1 this)

/-- A message that the bot survives though it has a connection that the interpreter does not know: it is not in
`Known`, and the theorem above tells that the bot answers. -/
example : ¬Replies env "Mai? hoa/ giV ji/ roi maiV suq/".toList .panic := by
  rw [C52_dies_exact env asciiUni_ok (by unfold Plain; decide) (fun _ => .refl _)]
  have ht : Logic.trimSpace env.U "Mai? hoa/ giV ji/ roi maiV suq/".toList = "Mai? hoa/ giV ji/ roi maiV suq/".toList := by
    decide +kernel
  rw [ht]
  rintro ⟨_, h | h⟩
  · exact h (inPlace_of_bytes (by decide +kernel))
  · exact meets_of (U := asciiUni) (by decide +kernel) h

end Verif.App
