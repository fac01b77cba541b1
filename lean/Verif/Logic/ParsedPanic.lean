/-
C36 for parsed texts: the only reason for `Interpret` to panic on the syntax tree of a parsed text is a
connection that it does not know. All other conditions of `C36_interprets_partial` hold, by C51 and C53.
-/
import Verif.Logic.PanicProps
import Verif.Logic.ParsedWords
import Verif.Parse.ClassProps

namespace Verif.Logic
open Verif.Tone (Str)
open Verif.Parse (Class Classed Out Call calls newParser Plain ws wsL wsIn accepts tag)

/-! ## Specification -/

mutual
/-- Spec: the connections in the parts that the interpreter looks at are those it knows. Quoted text and
modifiers may have any. -/
def Joins (U : Uni) : AST.Node → Prop
  | .text _ d => JoinsL U d
  | .discourse d => JoinsL U d
  | .sentence _ st _ => Joins U st
  | .cop k _ _ ru l r => Joined U k ru.T l r ∧ Joins U l ∧ Joins U r
  | .prenex ts _ => JoinsL U ts
  | .prenexStmt ts _ st => JoinsL U ts ∧ Joins U st
  | .predication _ p ts _ => Joins U p ∧ JoinsT U ts
  | .prefixed _ p => Joins U p
  | .serial l r => Joins U l ∧ Joins U r
  | .word _ _ => True
  | .mi _ _ _ => True
  | .po _ _ a => Joins U a
  | .mo _ _ _ => True
  | .lu _ _ st => Joins U st
  | .linked _ a => Joins U a
  | .terms ts => JoinsL U ts
  | .predArg _ _ _ p rel => Joins U p ∧ JoinsO U rel
  | .predAdverb p => Joins U p
  | .prep p a => Joins U p ∧ Joins U a
  | .paren _ _ _ => True
  | .incidental _ _ => True
  | .vocative _ _ => True
def JoinsO (U : Uni) : Option AST.Node → Prop
  | none => True
  | some n => Joins U n
def JoinsT (U : Uni) : Option (List AST.Node) → Prop
  | none => True
  | some l => JoinsL U l
def JoinsL (U : Uni) : List AST.Node → Prop
  | [] => True
  | n :: ns => Joins U n ∧ JoinsL U ns
end

/-! ## Words -/

namespace Parsed
open Verif.Parse.Classes

variable {U : Uni} (hU : U.Ok)
include hU

theorem quantifier_of {t : Str} (h : Class.tu.Has t) : Quantifier U t := by
  obtain ⟨w, hw, h⟩ := h
  replace h : Verif.Parse.Plainly t w := h
  have key : lowerAscii w → Reads U t w := reads_plain hU h
  simp only [Class.words, Verif.Parse.tuWords, List.mem_cons, List.not_mem_nil, or_false] at hw
  rcases hw with rfl | rfl | rfl | rfl | rfl | rfl
  · exact ⟨.the, _, rfl, key (by unfold lowerAscii; decide)⟩
  · exact ⟨.each, _, rfl, key (by unfold lowerAscii; decide)⟩
  · exact ⟨.none, _, rfl, key (by unfold lowerAscii; decide)⟩
  · exact ⟨.some, _, rfl, key (by unfold lowerAscii; decide)⟩
  · exact ⟨.hi, _, rfl, key (by unfold lowerAscii; decide)⟩
  · exact ⟨.lambda, _, rfl, key (by unfold lowerAscii; decide)⟩

theorem place_of {t : Str} (h : Class.go.Has t) : Place U t := by
  obtain ⟨w, hw, h⟩ := h
  replace h : Verif.Parse.Plainly t w := h
  have key : lowerAscii w → Reads U t w := reads_plain hU h
  simp only [Class.words, Verif.Parse.goWords, List.mem_cons, List.not_mem_nil, or_false] at hw
  rcases hw with rfl | rfl | rfl | rfl
  · exact ⟨2, _, rfl, key (by unfold lowerAscii; decide)⟩
  · exact ⟨1, _, rfl, key (by unfold lowerAscii; decide)⟩
  · exact ⟨3, _, rfl, key (by unfold lowerAscii; decide)⟩
  · exact ⟨4, _, rfl, key (by unfold lowerAscii; decide)⟩

theorem mi_of {t : Str} (h : Class.mi.Has t) : Reads U t "mi".toList ∨ Reads U t "shu".toList := by
  obtain ⟨w, hw, h⟩ := h
  replace h : Verif.Parse.WithTone t w := h
  have key : lowerAscii w → Reads U t w := reads_toned hU h
  simp only [Class.words, Verif.Parse.miWords, List.mem_cons, List.not_mem_nil, or_false] at hw
  rcases hw with rfl | rfl
  · exact .inl (key (by unfold lowerAscii; decide))
  · exact .inr (key (by unfold lowerAscii; decide))

theorem po_of {t : Str} (h : Class.po.Has t) : Reads U t "po".toList ∨ Reads U t "jei".toList := by
  obtain ⟨w, hw, h⟩ := h
  replace h : Verif.Parse.WithTone t w := h
  have key : lowerAscii w → Reads U t w := reads_toned hU h
  simp only [Class.words, Verif.Parse.poWords, List.mem_cons, List.not_mem_nil, or_false] at hw
  rcases hw with rfl | rfl
  · exact .inl (key (by unfold lowerAscii; decide))
  · exact .inr (key (by unfold lowerAscii; decide))

omit hU

/-! ## Trees -/

mutual
theorem usual_of (hU : U.Ok) : ∀ n : AST.Node, Classed n → Joins U n → Usual U n
  | .text _ d, h, j => by
    rw [Usual]; rw [Joins] at j
    exact usual_list hU d ((classed_text _ _).1 h).2 j
  | .discourse d, h, j => by
    rw [Usual]; rw [Joins] at j
    exact usual_list hU d ((classed_discourse _).1 h) j
  | .sentence _ st _, h, j => by
    rw [Usual]; rw [Joins] at j
    exact usual_of hU st ((classed_sentence _ _ _).1 h).2.1 j
  | .cop k _ _ ru l r, h, j => by
    rw [Usual]; rw [Joins] at j
    have h := (classed_cop _ _ _ _ _ _).1 h
    exact ⟨j.1, usual_of hU l h.2.1 j.2.1, usual_of hU r h.2.2 j.2.2⟩
  | .prenex ts _, h, j => by
    rw [Usual]; rw [Joins] at j
    exact usual_list hU ts ((classed_prenex _ _).1 h).1 j
  | .prenexStmt ts _ st, h, j => by
    rw [Usual]; rw [Joins] at j
    have h := (classed_prenexStmt _ _ _).1 h
    exact ⟨usual_list hU ts h.1 j.1, usual_of hU st h.2.2 j.2⟩
  | .predication _ p ts _, h, j => by
    rw [Usual]; rw [Joins] at j
    have h := (classed_predication _ _ _ _).1 h
    exact ⟨usual_of hU p h.1 j.1, usual_terms hU ts h.2.1 j.2⟩
  | .prefixed _ p, h, j => by
    rw [Usual]; rw [Joins] at j
    exact usual_of hU p ((classed_prefixed _ _).1 h).2 j
  | .serial l r, h, j => by
    rw [Usual]; rw [Joins] at j
    have h := (classed_serial _ _).1 h
    exact ⟨usual_of hU l h.1 j.1, usual_of hU r h.2 j.2⟩
  | .word _ _, _, _ => by rw [Usual]; trivial
  | .mi m _ _, h, _ => by
    rw [Usual]
    exact mi_of hU ((classed_mi _ _ _).1 h).1.1
  | .po m _ a, h, j => by
    rw [Usual]; rw [Joins] at j
    have h := (classed_po _ _ _).1 h
    exact ⟨po_of hU h.1.1, usual_of hU a h.2.2 j⟩
  | .mo _ _ _, _, _ => by rw [Usual]; trivial
  | .lu _ _ st, h, j => by
    rw [Usual]; rw [Joins] at j
    exact usual_of hU st ((classed_lu _ _ _).1 h).2 j
  | .linked g a, h, j => by
    rw [Usual]; rw [Joins] at j
    have h := (classed_linked _ _).1 h
    exact ⟨place_of hU h.1.1, usual_of hU a h.2 j⟩
  | .terms ts, h, j => by
    rw [Usual]; rw [Joins] at j
    exact usual_list hU ts ((classed_terms _).1 h) j
  | .predArg _ _ q p rel, h, j => by
    rw [Usual]; rw [Joins] at j
    have h := (classed_predArg _ _ _ _ _).1 h
    exact ⟨fun w hw => quantifier_of hU (h.2.1 w hw).1, usual_of hU p h.2.2.1 j.1, usual_opt hU rel h.2.2.2 j.2⟩
  | .predAdverb p, h, j => by
    rw [Usual]; rw [Joins] at j
    exact usual_of hU p ((classed_predAdverb _).1 h) j
  | .prep p a, h, j => by
    rw [Usual]; rw [Joins] at j
    have h := (classed_prep _ _).1 h
    exact ⟨usual_of hU p h.1 j.1, usual_of hU a h.2 j.2⟩
  | .paren _ _ _, _, _ => by rw [Usual]; trivial
  | .incidental _ _, _, _ => by rw [Usual]; trivial
  | .vocative _ _, _, _ => by rw [Usual]; trivial
theorem usual_opt (hU : U.Ok) : ∀ o : Option AST.Node, CO o → JoinsO U o → UsualO U o
  | none, _, _ => by rw [UsualO]; trivial
  | some n, h, j => by
    rw [UsualO]; rw [JoinsO] at j
    exact usual_of hU n (h n rfl) j
theorem usual_terms (hU : U.Ok) : ∀ o : Option (List AST.Node), CTO o → JoinsT U o → UsualT U o
  | none, _, _ => by rw [UsualT]; trivial
  | some l, h, j => by
    rw [UsualT]; rw [JoinsT] at j
    exact usual_list hU l (h l rfl) j
theorem usual_list (hU : U.Ok) : ∀ l : List AST.Node, CL l → JoinsL U l → UsualL U l
  | [], _, _ => by rw [UsualL]; trivial
  | n :: ns, h, j => by
    rw [UsualL]; rw [JoinsL] at j
    exact ⟨usual_of hU n (h n (by simp)) j.1, usual_list hU ns (fun m hm => h m (by simp [hm])) j.2⟩
end

end Parsed

/-! ## Texts -/

/-- C36 (partial): after any calls of the parser, the syntax tree of a text in whose sentences only the
connections occur that the interpreter knows is interpreted without a panic. Missing, because false
(`C36_refuted`, `C36_refuted_sentence`): texts with other connections. -/
theorem C36_parsed_partial {U : Uni} {b : Verif.Peg.Bytes} (hU : U.Ok) (hP : Plain U) (cs : List Call) (lead : Option AST.Node)
    (d : List AST.Node) (h : Out.text (.text lead d) ∈ calls U b cs newParser)
    (hj : ∀ n ∈ d, accepts .sentence (tag n) = true → Joins U n) :
    ∃ r k0, ∀ k, k0 ≤ k → interpret U k d = .ok r := by
  have hs := Verif.Parse.C51_well_sorted hU cs _ h
  have hc := (Verif.Parse.Classes.classed_text _ _).1 (Verif.Parse.C53_classes hU hP cs _ h)
  refine C36_interprets_partial U hU d ?_ ?_
  · simp only [ws, wsIn, Bool.and_eq_true] at hs
    exact hs.2.2
  · exact fun n hn ha => Parsed.usual_of hU n (hc.2 n hn) (hj n hn ha)

/-! ## An example -/

def connectiveB (U : Uni) (w : Str) : Bool :=
  hasText U w (connWord .and) || hasText U w (connWord .or) || hasText U w (connWord .ri)

/-- Decides `Joined`. -/
def joinedB (U : Uni) (k : AST.CopKind) (w : Str) (l r : AST.Node) : Bool :=
  match k with
  | .sentence => hasText U w "ru".toList
  | .argument => connectiveB U w || hasText U w "roi".toList
  | .content => false
  | .relative => connectiveB U w && accepts .relative (tag r)
  | .predicate => connectiveB U w && accepts .predicate (tag l)
  | _ => connectiveB U w

mutual
/-- Decides `Joins`. -/
def joinsB (U : Uni) : AST.Node → Bool
  | .text _ d => joinsLB U d
  | .discourse d => joinsLB U d
  | .sentence _ st _ => joinsB U st
  | .cop k _ _ ru l r => joinedB U k ru.T l r && joinsB U l && joinsB U r
  | .prenex ts _ => joinsLB U ts
  | .prenexStmt ts _ st => joinsLB U ts && joinsB U st
  | .predication _ p ts _ => joinsB U p && joinsTB U ts
  | .prefixed _ p => joinsB U p
  | .serial l r => joinsB U l && joinsB U r
  | .word _ _ => true
  | .mi _ _ _ => true
  | .po _ _ a => joinsB U a
  | .mo _ _ _ => true
  | .lu _ _ st => joinsB U st
  | .linked _ a => joinsB U a
  | .terms ts => joinsLB U ts
  | .predArg _ _ _ p rel => joinsB U p && joinsOB U rel
  | .predAdverb p => joinsB U p
  | .prep p a => joinsB U p && joinsB U a
  | .paren _ _ _ => true
  | .incidental _ _ => true
  | .vocative _ _ => true
def joinsOB (U : Uni) : Option AST.Node → Bool
  | none => true
  | some n => joinsB U n
def joinsTB (U : Uni) : Option (List AST.Node) → Bool
  | none => true
  | some l => joinsLB U l
def joinsLB (U : Uni) : List AST.Node → Bool
  | [] => true
  | n :: ns => joinsB U n && joinsLB U ns
end

section
variable {U : Uni}

theorem connectiveB_ok {w : Str} (h : connectiveB U w = true) : Connective U w := by
  simp only [connectiveB, Bool.or_eq_true, C38_hasText] at h
  rcases h with (h | h) | h
  exacts [⟨_, h⟩, ⟨_, h⟩, ⟨_, h⟩]

theorem joinedB_ok {k : AST.CopKind} {w : Str} {l r : AST.Node} (h : joinedB U k w l r = true) : Joined U k w l r := by
  cases k <;> simp only [joinedB, Bool.and_eq_true, Bool.or_eq_true, C38_hasText, Bool.false_eq_true] at h <;>
    simp only [Joined]
  all_goals first
    | exact h
    | exact connectiveB_ok h
    | exact ⟨connectiveB_ok h.1, h.2⟩
    | exact h.imp_left connectiveB_ok

mutual
theorem joinsB_ok : ∀ n : AST.Node, joinsB U n = true → Joins U n
  | .text _ d, h => by
    rw [Joins]; simp only [joinsB] at h
    exact joinsLB_ok d h
  | .discourse d, h => by
    rw [Joins]; simp only [joinsB] at h
    exact joinsLB_ok d h
  | .sentence _ st _, h => by
    rw [Joins]; simp only [joinsB] at h
    exact joinsB_ok st h
  | .cop k _ _ ru l r, h => by
    rw [Joins]; simp only [joinsB, Bool.and_eq_true] at h
    exact ⟨joinedB_ok h.1.1, joinsB_ok l h.1.2, joinsB_ok r h.2⟩
  | .prenex ts _, h => by
    rw [Joins]; simp only [joinsB] at h
    exact joinsLB_ok ts h
  | .prenexStmt ts _ st, h => by
    rw [Joins]; simp only [joinsB, Bool.and_eq_true] at h
    exact ⟨joinsLB_ok ts h.1, joinsB_ok st h.2⟩
  | .predication _ p ts _, h => by
    rw [Joins]; simp only [joinsB, Bool.and_eq_true] at h
    exact ⟨joinsB_ok p h.1, joinsTB_ok ts h.2⟩
  | .prefixed _ p, h => by
    rw [Joins]; simp only [joinsB] at h
    exact joinsB_ok p h
  | .serial l r, h => by
    rw [Joins]; simp only [joinsB, Bool.and_eq_true] at h
    exact ⟨joinsB_ok l h.1, joinsB_ok r h.2⟩
  | .word _ _, _ => by rw [Joins]; trivial
  | .mi _ _ _, _ => by rw [Joins]; trivial
  | .po _ _ a, h => by
    rw [Joins]; simp only [joinsB] at h
    exact joinsB_ok a h
  | .mo _ _ _, _ => by rw [Joins]; trivial
  | .lu _ _ st, h => by
    rw [Joins]; simp only [joinsB] at h
    exact joinsB_ok st h
  | .linked _ a, h => by
    rw [Joins]; simp only [joinsB] at h
    exact joinsB_ok a h
  | .terms ts, h => by
    rw [Joins]; simp only [joinsB] at h
    exact joinsLB_ok ts h
  | .predArg _ _ _ p rel, h => by
    rw [Joins]; simp only [joinsB, Bool.and_eq_true] at h
    exact ⟨joinsB_ok p h.1, joinsOB_ok rel h.2⟩
  | .predAdverb p, h => by
    rw [Joins]; simp only [joinsB] at h
    exact joinsB_ok p h
  | .prep p a, h => by
    rw [Joins]; simp only [joinsB, Bool.and_eq_true] at h
    exact ⟨joinsB_ok p h.1, joinsB_ok a h.2⟩
  | .paren _ _ _, _ => by rw [Joins]; trivial
  | .incidental _ _, _ => by rw [Joins]; trivial
  | .vocative _ _, _ => by rw [Joins]; trivial
theorem joinsOB_ok : ∀ o : Option AST.Node, joinsOB U o = true → JoinsO U o
  | none, _ => by rw [JoinsO]; trivial
  | some n, h => by rw [JoinsO]; rw [joinsOB] at h; exact joinsB_ok n h
theorem joinsTB_ok : ∀ o : Option (List AST.Node), joinsTB U o = true → JoinsT U o
  | none, _ => by rw [JoinsT]; trivial
  | some l, h => by rw [JoinsT]; rw [joinsTB] at h; exact joinsLB_ok l h
theorem joinsLB_ok : ∀ l : List AST.Node, joinsLB U l = true → JoinsL U l
  | [], _ => by rw [JoinsL]; trivial
  | n :: ns, h => by
    rw [JoinsL]; simp only [joinsLB, Bool.and_eq_true] at h
    exact ⟨joinsB_ok n h.1, joinsLB_ok ns h.2⟩
end

end

/-- All sentences of the parsed text have connections that the interpreter knows. -/
def outJoins (U : Uni) : Out → Bool
  | .text (.text _ d) => d.all fun n => !accepts .sentence (tag n) || joinsB U n
  | _ => false

/-- A text with connected arguments and predicates, and a place word, is parsed, and the theorem applies. -/
example : ∃ lead d, Out.text (.text lead d) ∈ Verif.Parse.run "Mai? sa poq/ ru ji/ go suq/. Gi? ra mai? ji/ da" [.text] ∧
    ∃ r k0, ∀ k, k0 ≤ k → interpret asciiUni k d = .ok r := by
  have h : (Verif.Parse.run "Mai? sa poq/ ru ji/ go suq/. Gi? ra mai? ji/ da" [.text]).map (outJoins asciiUni) = [true] := by
    decide +kernel
  have hm : ∀ l : List Out, l.map (outJoins asciiUni) = [true] → ∃ lead d, Out.text (.text lead d) ∈ l ∧
      ∀ n ∈ d, accepts .sentence (tag n) = true → Joins asciiUni n := by
    intro l hl
    have : ∃ o ∈ l, outJoins asciiUni o = true := by
      have : true ∈ l.map (outJoins asciiUni) := by rw [hl]; simp
      exact List.mem_map.1 this
    obtain ⟨o, ho, h⟩ := this
    unfold outJoins at h
    split at h
    · rename_i lead d
      refine ⟨lead, d, ho, fun n hn ha => ?_⟩
      simp only [List.all_eq_true, Bool.or_eq_true] at h
      rcases h n hn with h' | h'
      · rw [ha] at h'; cases h'
      · exact joinsB_ok n h'
    · cases h
  obtain ⟨lead, d, hd, hj⟩ := hm _ h
  exact ⟨lead, d, hd, C36_parsed_partial asciiUni_ok (by unfold Plain; decide) [.text] lead d hd hj⟩

end Verif.Logic
