/-
The printed syntax tree (C68): `pretty.String` of /repo/vendor/github.com/eaburns/pretty/pretty.go:62 on what the parser returns.
-/
import Verif.AST.GoPrintProps
import Verif.Parse.TextProps
import Verif.Parse.ToneProps
import Verif.Parse.Examples

namespace Verif.Parse
open Verif.AST Verif.Peg Verif.AST.Spec
open Verif.Tone (Str)

variable {U : Uni} {b b' : Bytes}

theorem allN_imp {q q' : Node → Bool} (h : ∀ m, q m = true → q' m = true) :
    (∀ n, allN q n = true → allN q' n = true) ∧ (∀ w, allNW q w = true → allNW q' w = true) := by
  have hO : ∀ o : Option Node, (∀ x, o = some x → allN q x = true → allN q' x = true) → allNO q o = true → allNO q' o = true := by
    intro o h; cases o with
    | none => exact id
    | some x => exact h x rfl
  have hWO : ∀ o : Option Word, (∀ x, o = some x → allNW q x = true → allNW q' x = true) → allNWO q o = true → allNWO q' o = true := by
    intro o h; cases o with
    | none => exact id
    | some x => exact h x rfl
  have hL : ∀ l : List Node, (∀ x ∈ l, allN q x = true → allN q' x = true) → allNL q l = true → allNL q' l = true := by
    intro l; induction l with
    | nil => exact fun _ => id
    | cons x l ih =>
      intro h h0
      simp only [allNL, Bool.and_eq_true] at h0 ⊢
      exact ⟨h x (by simp) h0.1, ih (fun y hy => h y (by simp [hy])) h0.2⟩
  have hTO : ∀ o : Option (List Node), (∀ l, o = some l → ∀ x ∈ l, allN q x = true → allN q' x = true) →
      allNTO q o = true → allNTO q' o = true := by
    intro o h; cases o with
    | none => exact id
    | some l => exact hL l (h l rfl)
  apply Node.induct (P := fun n => allN q n = true → allN q' n = true) (Q := fun w => allNW q w = true → allNW q' w = true)
  case hword => intro t s e m h1 h0; exact hO m h1 h0
  all_goals intros
  all_goals rename_i h0
  all_goals simp only [allN, Bool.and_eq_true] at h0 ⊢
  all_goals refine ⟨h _ h0.1, ?_⟩
  all_goals grind

/-! ### Words have no quotation marks -/

def allTones : List WTone := [.plain, .macron, .acute, .caron, .hook, .circumflex, .grave, .tilde]

theorem syllable_plain : (allTones.all fun τ => onsets.all fun o => rimes.all fun r => !(τ.syllable o r).contains '"') = true := by
  decide +kernel

theorem not_quote {s t : Str} (h : s.map (foldBy spellPairs) = t) (ht : '"' ∉ t) : '"' ∉ s := by
  intro hs
  have := List.mem_map_of_mem (f := foldBy spellPairs) hs
  rw [h, show foldBy spellPairs '"' = '"' from by decide +kernel] at this
  exact ht this

theorem Syllable.plain {τ : WTone} {s : Str} (h : Syllable τ s) : '"' ∉ s := by
  obtain ⟨o, ho, r, hr, h⟩ := h
  refine not_quote h ?_
  have h1 := syllable_plain
  simp only [List.all_eq_true, Bool.not_eq_true', List.contains_eq_mem, decide_eq_false_iff_not] at h1
  exact h1 τ (by cases τ <;> decide) o ho r hr

theorem Macrons.plain {s : Str} (h : Macrons s) : '"' ∉ s := by
  induction h with
  | nil => simp
  | cons h _ ih => simp only [List.mem_append, not_or]; exact ⟨h.plain, ih⟩

theorem WordOf.plain {τ : WTone} {s : Str} (h : WordOf τ s) : '"' ∉ s := by
  obtain ⟨a, b, rfl, ha, hb⟩ := h
  simp only [List.mem_append, not_or]
  exact ⟨ha.plain, hb.plain⟩

theorem good_plain {P : Char → Prop} {m : Node} (h : GoodTones P m) : plainWords m = true := by
  simp only [plainWords, List.all_eq_true, Bool.not_eq_true', List.contains_eq_mem, decide_eq_false_iff_not]
  intro w hw
  obtain ⟨τ, h⟩ := h.1 w hw
  exact h.plain

open Classical in
theorem parsed_plain (cs : List Call) (n : Node) (h : Out.text n ∈ calls U b cs newParser) : allN plainWords n = true :=
  (allN_imp fun m hm => good_plain (P := Separator U) (of_decide_eq_true hm)).1 n (C60_tones cs n h)

open Classical in
theorem parsed_lead (hD : U.punct 'D' = false) (cs : List Call) (l : Option Node) (d : List Node)
    (h : Out.text (.text l d) ∈ calls U b cs newParser) (w : Word) (hl : l = some (.word .space w)) : 'D' ∉ w.T := by
  intro hw
  have := C60_tones cs _ h
  subst hl
  simp only [Every, allN, allNO, Bool.and_eq_true, decide_eq_true_eq] at this
  rcases this.2.1.1.2.1 'D' hw with h | h
  · revert h; decide
  · rw [hD] at h; cases h

/-- C68. The trees of two texts are printed alike exactly if they are the same up to the offsets of words, the modifiers of words, and
the identities of the arguments.
Missing: the modifiers of words and the offsets, which are not shown (see `C68_refuted`). -/
theorem C68_printed_partial (hU : U.Ok) (hD : U.punct 'D' = false) (cs cs' : List Call) (n n' : Node)
    (h : Out.text n ∈ calls U b cs newParser) (h' : Out.text n' ∈ calls U b' cs' newParser) :
    prettyString n = prettyString n' ↔ bare n = bare n' := by
  have hw := C51_well_sorted hU cs n h
  have hw' := C51_well_sorted hU cs' n' h'
  simp only [ws, accepts, Bool.and_eq_true, beq_iff_eq] at hw hw'
  cases n <;> simp only [tag, reduceCtorEq, false_and] at hw
  cases n' <;> simp only [tag, reduceCtorEq, false_and] at hw'
  exact prettyString_inj hw.2 hw'.2 (parsed_plain cs _ h) (parsed_plain cs' _ h') (parsed_lead hD cs _ _ h) (parsed_lead hD cs' _ _ h')

/-! ### Modifiers are not shown -/

mutual
def _root_.Verif.AST.GV.eqb : GV → GV → Bool
  | .nil, .nil => true
  | .word k s, .word k' s' => k == k' && s == s'
  | .arr l, .arr l' => eqbL l l'
  | .struct t l, .struct t' l' => t == t' && eqbL l l'
  | _, _ => false
def eqbL : List GV → List GV → Bool
  | [], [] => true
  | x :: l, y :: l' => x.eqb y && eqbL l l'
  | _, _ => false
end

mutual
theorem eqb_eq : ∀ (v v' : GV), v.eqb v' = true → v = v'
  | .nil, v', h => by cases v' <;> simp_all [GV.eqb]
  | .word k s, v', h => by cases v' <;> simp_all [GV.eqb]
  | .arr l, v', h => by
    cases v' <;> simp only [GV.eqb, reduceCtorEq] at h
    rw [eqbL_eq _ _ h]
  | .struct t l, v', h => by
    cases v' <;> simp only [GV.eqb, reduceCtorEq, Bool.and_eq_true, beq_iff_eq] at h
    rw [h.1, eqbL_eq _ _ h.2]
theorem eqbL_eq : ∀ (l l' : List GV), eqbL l l' = true → l = l'
  | [], l', h => by cases l' <;> simp_all [eqbL]
  | x :: l, l', h => by
    cases l' <;> simp only [eqbL, reduceCtorEq, Bool.and_eq_true] at h
    rw [eqb_eq _ _ h.1, eqbL_eq _ _ h.2]
end

/-- The result is a text with the words that is seen by `print` as the value. -/
def Out.seen (v : GV) (ts : List Str) : List Out → Bool
  | [.text n] => (gv n).eqb v && (words n).map (·.t) == ts
  | _ => false

theorem of_seen {U : Uni} {b : Bytes} {v : GV} {ts : List Str} (h : Out.seen v ts (calls U b [.text] newParser) = true) :
    ∃ n, Out.text n ∈ calls U b [.text] newParser ∧ gv n = v ∧ (words n).map (·.t) = ts := by
  unfold Out.seen at h
  split at h
  next n hn =>
    simp only [Bool.and_eq_true, beq_iff_eq] at h
    exact ⟨n, by rw [hn]; exact List.mem_cons_self, eqb_eq _ _ h.1, h.2⟩
  next => cases h

/-- What is seen of the tree of jảı. -/
def jai : GV := .struct .Text [.nil, .arr [.struct .StatementSentence [.nil, .struct .Predication [.word .predicate "jảı".toList,
  .arr [], .nil], .nil]]]

/-- C68 does not hold for modifiers: a parenthetical is not shown. -/
theorem C68_refuted : ∃ b b' n n', Out.text n ∈ calls asciiUni b [.text] newParser ∧ Out.text n' ∈ calls asciiUni b' [.text] newParser ∧
    (words n).map (·.t) ≠ (words n').map (·.t) ∧ prettyString n = prettyString n' := by
  obtain ⟨n, h1, h2, h3⟩ := of_seen (U := asciiUni) (b := utf8 "jai?".toList) (v := jai) (ts := ["jảı".toList]) (by decide +kernel)
  obtain ⟨n', h1', h2', h3'⟩ := of_seen (U := asciiUni) (b := utf8 "jai? kio gi? ki".toList) (v := jai)
    (ts := ["jảı".toList, " ".toList, "kıo".toList, " ".toList, "gỉ".toList, " ".toList, "kı".toList]) (by decide +kernel)
  refine ⟨_, _, n, n', h1, h1', ?_, ?_⟩
  · rw [h3, h3']; decide
  · rw [prettyString, prettyString, h2, h2']

/-! ### Examples -/

/-- What is printed of the result. -/
def Out.shown : List Out → String
  | [.text n] => String.ofList (prettyString n)
  | _ => ""

example : Out.shown (run ", jai? ji/ bei" [.text]) =
"Text{
	Leading: Space(\", \")
	Discourse: [
		StatementSentence{
			JE: nil
			Statement: Predication{
				Predicate: WordPredicate(\"jảı\")
				Terms: [
					PredicateArgument{
						Focus: nil
						Quantifier: nil
						Predicate: WordPredicate(\"jí\")
						Relative: nil
					}
				]
				NA: nil
			}
			DA: nil
		}
	]
}" := by decide +kernel

/-- The hypotheses of `C68_printed_partial`, and two texts that differ in a tone only. -/
example : asciiUni.punct 'D' = false ∧ (run "jai? ji/" [.text]).map Out.kind = [.text] ∧
    (run "jai? ji~" [.text]).map Out.kind = [.text] ∧
    Out.shown (run "jai? ji/" [.text]) ≠ Out.shown (run "jai? ji~" [.text]) := by decide +kernel

end Verif.Parse
