/-
C43 and C52 for texts whose connections the interpreter knows: by C36 it does not panic on them, so the
server reports the logic of the text and the bot answers.
-/
import Verif.App.BotParse
import Verif.Logic.ParsedPanic

namespace Verif.App
open Verif.Peg Verif.Parse
open Verif.Tone (Str)
open Verif.Logic (Joins)

/-- Spec: all sentences of the text have connections that the interpreter knows, if it is parsed. -/
def Known (U : Uni) (b : Bytes) : Prop :=
  ∀ l d, calls U b [.text] newParser = [.text (.text l d)] → ∀ n ∈ d, accepts .sentence (tag n) = true → Joins U n

theorem Known.interprets {U : Uni} (hU : U.Ok) (hP : Plain U) {b : Bytes} (h : Known U b) {l d}
    (hc : calls U b [.text] newParser = [.text (.text l d)]) : ∃ st, Interprets U d (.ok st) := by
  obtain ⟨r, k0, hk⟩ := Logic.C36_parsed_partial hU hP [.text] l d (by rw [hc]; simp) (h l d hc)
  exact ⟨r, k0, hk⟩

/-- C52. No message with its tone digits in place and with known connections takes the bot down. Partial: the
other messages do, see `C52_digit_kills`, `C52_interpreter_kills`. -/
theorem C52_known_survives_partial (E : Env) (hU : E.U.Ok) (hP : Plain E.U) (hE : ∀ l, (E.order l).Perm l) (s : Str)
    (hd : Parse.InPlace (utf8 (Logic.trimSpace E.U s)))
    (hj : Known E.U (utf8 (Logic.trimSpace E.U s))) : ∃ r, Replies E s (.said r) :=
  C52_survives_partial E hU hE s hd fun _ _ hc => hj.interprets hU hP hc

/-- C43. For a text that can be parsed and has known connections the answer to a POST reports no bug: the
field Logic is "fragment" if the text is made of fragments only, and the statement of `PrettyString`
otherwise. -/
theorem C43_known_partial (E : Env) (hU : E.U.Ok) (hP : Plain E.U) (hE : ∀ m, E.encodeFails m = false) (b : Bytes)
    (l : Option AST.Node) (d : List AST.Node) (h : calls E.U b [.text] newParser = [.text (.text l d)]) (hj : Known E.U b) :
    ∃ m, Answers' E ⟨"POST".toList, some b⟩ (.json m) ∧
      (((∀ n ∈ d, Logic.isFragment n = true) ∧ m "Logic".toList = some "fragment".toList) ∨
        ∃ n defs, Interprets E.U d (.ok (some (n, defs))) ∧ (∃ x ∈ d, Logic.isFragment x = false) ∧
          m "Logic".toList = some (Logic.printTop E.U true (fun id => (defs.lookup id).join)
            (E.order (Logic.scan E.U (fun id => (defs.lookup id).join) n).runes) n)) := by
  obtain ⟨m, hm, _⟩ := C43_reported_partial E hE b l d h
  obtain ⟨st, hst⟩ := hj.interprets hU hP h
  refine ⟨m, hm, ?_⟩
  rcases C43_no_panic E hU b l d h m hm st hst with ⟨_, h1, h2⟩ | ⟨n, defs, rfl, h1, h2⟩
  · exact .inl ⟨h2, h1⟩
  · exact .inr ⟨n, defs, hst, h1, h2⟩

/-! ### Examples -/

theorem known_of {U : Uni} {b : Bytes} (h : (calls U b [.text] newParser).all (Logic.outJoins U) = true) : Known U b := by
  intro l d hc n hn ha
  rw [hc] at h
  simp only [List.all_cons, List.all_nil, Bool.and_true, Logic.outJoins, List.all_eq_true, Bool.or_eq_true] at h
  rcases h n hn with h' | h'
  · rw [ha] at h'; cases h'
  · exact Logic.joinsB_ok n h'

def known : String := "To ru gi? to mai? ji/ ru suq/ fa?. Fa?"

theorem known_known : Known asciiUni (utf8 known.toList) := known_of (by decide +kernel)

example : ∃ r, Replies env known.toList (.said r) :=
  C52_known_survives_partial env asciiUni_ok (by unfold Plain; decide) (fun _ => .refl _) _ (Parse.inPlace_of_bytes (by decide +kernel))
    (by
      have : Logic.trimSpace asciiUni known.toList = known.toList := by decide +kernel
      change Known asciiUni (utf8 (Logic.trimSpace asciiUni known.toList))
      rw [this]
      exact known_known)

example : ∃ l d, calls env.U (utf8 known.toList) [.text] newParser = [.text (.text l d)] := by
  have h : (calls asciiUni (utf8 known.toList) [.text] newParser).all (Logic.outJoins asciiUni) = true := by decide +kernel
  obtain ⟨o, ho⟩ : ∃ o, calls asciiUni (utf8 known.toList) [.text] newParser = [o] := ⟨_, rfl⟩
  rw [ho] at h
  simp only [List.all_cons, List.all_nil, Bool.and_true] at h
  unfold Logic.outJoins at h
  split at h
  · exact ⟨_, _, ho⟩
  · cases h

end Verif.App
