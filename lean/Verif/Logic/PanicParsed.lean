/-
C36 for parsed texts, exactly: `Interpret` panics on the syntax tree of a parsed text if and only if it comes to a
connection that it does not know. The other conditions of `C36_exact` hold, by C51, C53 and C67.
-/
import Verif.Logic.PanicExact
import Verif.Parse.ArgPlaces

namespace Verif.Logic
open Verif.Tone (Str)
open Verif.Parse (Class Classed Out Call calls newParser Plain ws wsL wsIn accepts tag args argsO argsTO argsL)

namespace Exact
open Verif.Parse.Classes Verif.Logic.Parsed

variable {U : Uni}

mutual
theorem words_of (hU : U.Ok) : ∀ n : AST.Node, Classed n → Words U n
  | .text _ _, _ => by rw [Words]; trivial
  | .discourse _, _ => by rw [Words]; trivial
  | .sentence _ st _, h => by
    rw [Words]
    exact words_of hU st ((classed_sentence _ _ _).1 h).2.1
  | .cop k _ _ ru l r, h => by
    rw [Words]
    have h := (classed_cop _ _ _ _ _ _).1 h
    exact ⟨words_of hU l h.2.1, words_of hU r h.2.2⟩
  | .prenex _ _, _ => by rw [Words]; trivial
  | .prenexStmt ts _ st, h => by
    rw [Words]
    have h := (classed_prenexStmt _ _ _).1 h
    exact ⟨words_list hU ts h.1, words_of hU st h.2.2⟩
  | .predication _ p ts _, h => by
    rw [Words]
    have h := (classed_predication _ _ _ _).1 h
    exact ⟨words_of hU p h.1, words_terms hU ts h.2.1⟩
  | .prefixed _ _, _ => by rw [Words]; trivial
  | .serial l r, h => by
    rw [Words]
    have h := (classed_serial _ _).1 h
    exact ⟨words_of hU l h.1, words_of hU r h.2⟩
  | .word _ _, _ => by rw [Words]; trivial
  | .mi m _ _, h => by
    rw [Words]
    exact mi_of hU ((classed_mi _ _ _).1 h).1.1
  | .po m _ a, h => by
    rw [Words]
    have h := (classed_po _ _ _).1 h
    exact ⟨po_of hU h.1.1, words_of hU a h.2.2⟩
  | .mo _ _ _, _ => by rw [Words]; trivial
  | .lu _ _ st, h => by
    rw [Words]
    exact words_of hU st ((classed_lu _ _ _).1 h).2
  | .linked g a, h => by
    rw [Words]
    have h := (classed_linked _ _).1 h
    exact ⟨place_of hU h.1.1, words_of hU a h.2⟩
  | .terms ts, h => by
    rw [Words]
    exact words_list hU ts ((classed_terms _).1 h)
  | .predArg _ _ q p rel, h => by
    rw [Words]
    have h := (classed_predArg _ _ _ _ _).1 h
    exact ⟨fun w hw => quantifier_of hU (h.2.1 w hw).1, words_of hU p h.2.2.1, words_opt hU rel h.2.2.2⟩
  | .predAdverb p, h => by
    rw [Words]
    exact words_of hU p ((classed_predAdverb _).1 h)
  | .prep p a, h => by
    rw [Words]
    have h := (classed_prep _ _).1 h
    exact ⟨words_of hU p h.1, words_of hU a h.2⟩
  | .paren _ _ _, _ => by rw [Words]; trivial
  | .incidental _ _, _ => by rw [Words]; trivial
  | .vocative _ _, _ => by rw [Words]; trivial
theorem words_opt (hU : U.Ok) : ∀ o : Option AST.Node, CO o → WordsO U o
  | none, _ => by rw [WordsO]; trivial
  | some n, h => by
    rw [WordsO]
    exact words_of hU n (h n rfl)
theorem words_terms (hU : U.Ok) : ∀ o : Option (List AST.Node), CTO o → WordsT U o
  | none, _ => by rw [WordsT]; trivial
  | some l, h => by
    rw [WordsT]
    exact words_list hU l (h l rfl)
theorem words_list (hU : U.Ok) : ∀ l : List AST.Node, CL l → WordsL U l
  | [], _ => by rw [WordsL]; trivial
  | n :: ns, h => by
    rw [WordsL]
    exact ⟨words_of hU n (h n (by simp)), words_list hU ns (fun m hm => h m (by simp [hm]))⟩
end

/-- A part of a list, with parts of the list on both sides. -/
theorem sub_mid {a b c l : List Nat} (h : l.Sublist b) : l.Sublist (a ++ b ++ c) :=
  (h.trans (List.sublist_append_right a b)).trans (List.sublist_append_left _ c)

mutual
theorem argIds_sub : ∀ n : AST.Node, (argIds n).Sublist (args n)
  | .text _ _ => by simp [argIds]
  | .discourse _ => by simp [argIds]
  | .sentence _ st _ => by rw [argIds, args]; exact sub_mid (argIds_sub st)
  | .cop _ _ _ _ l r => by
    rw [argIds, args]
    exact ((argIds_sub l).trans (List.sublist_append_right _ _)).append (argIds_sub r)
  | .prenex _ _ => by simp [argIds]
  | .prenexStmt ts _ st => by
    rw [argIds, args]
    exact ((argIds_subL ts).trans (List.sublist_append_left _ _)).append (argIds_sub st)
  | .predication _ p ts _ => by
    rw [argIds, args]
    exact ((argIds_sub p).append (argIds_subT ts)).trans (List.sublist_append_left _ _)
  | .prefixed _ _ => by simp [argIds]
  | .serial l r => by rw [argIds, args]; exact (argIds_sub l).append (argIds_sub r)
  | .word _ _ => by simp [argIds]
  | .mi _ _ _ => by simp [argIds]
  | .po _ _ a => by rw [argIds, args]; exact sub_mid (argIds_sub a)
  | .mo _ _ _ => by simp [argIds]
  | .lu _ _ st => by rw [argIds, args]; exact (argIds_sub st).trans (List.sublist_append_right _ _)
  | .linked _ a => by rw [argIds, args]; exact (argIds_sub a).trans (List.sublist_append_right _ _)
  | .terms ts => by rw [argIds, args]; exact argIds_subL ts
  | .predArg id f q p rel => by
    rw [argIds, args]
    exact (((argIds_sub p).trans (List.sublist_append_right _ _)).append (argIds_subO rel)).cons_cons _
  | .predAdverb p => by rw [argIds, args]; exact argIds_sub p
  | .prep p a => by rw [argIds, args]; exact (argIds_sub p).append (argIds_sub a)
  | .paren _ _ _ => by simp [argIds]
  | .incidental _ _ => by simp [argIds]
  | .vocative _ _ => by simp [argIds]
theorem argIds_subO : ∀ n : Option AST.Node, (argIdsO n).Sublist (argsO n)
  | none => by simp [argIdsO]
  | some n => by rw [argIdsO, argsO]; exact argIds_sub n
theorem argIds_subT : ∀ n : Option (List AST.Node), (argIdsT n).Sublist (argsTO n)
  | none => by simp [argIdsT]
  | some n => by rw [argIdsT, argsTO]; exact argIds_subL n
theorem argIds_subL : ∀ n : List AST.Node, (argIdsL n).Sublist (argsL n)
  | [] => by simp [argIdsL]
  | n :: ns => by rw [argIdsL, argsL]; exact (argIds_sub n).append (argIds_subL ns)
end

theorem sentenceIds_sub : ∀ d : List AST.Node, (sentenceIds d).Sublist (argsL d)
  | [] => by simp [sentenceIds]
  | n :: d => by
    rw [argsL, sentenceIds, List.flatMap_cons]
    refine List.Sublist.append ?_ (sentenceIds_sub d)
    split
    · exact argIds_sub n
    · exact List.nil_sublist _

/-- What is known of a parsed text. -/
theorem parsed {b : Verif.Peg.Bytes} (hU : U.Ok) (hP : Plain U) {cs : List Call} {lead : Option AST.Node} {d : List AST.Node}
    (h : Out.text (.text lead d) ∈ calls U b cs newParser) :
    wsL .elem d = true ∧ (∀ n ∈ d, accepts .sentence (tag n) = true → Words U n) ∧ (sentenceIds d).Nodup := by
  have hs := Verif.Parse.C51_well_sorted hU cs _ h
  have hc := (Verif.Parse.Classes.classed_text _ _).1 (Verif.Parse.C53_classes hU hP cs _ h)
  have ha := (Verif.Parse.C67_distinct cs _ h).1
  simp only [ws, wsIn, Bool.and_eq_true] at hs
  refine ⟨hs.2.2, fun n hn _ => words_of hU n (hc.2 n hn), ?_⟩
  rw [args] at ha
  exact ha.sublist ((sentenceIds_sub d).trans (List.sublist_append_right _ _))

end Exact

/-! ## Texts -/

/-- C36, exactly, for texts: after any calls of the parser, the syntax tree of a text is interpreted without a panic if
and only if the interpreter knows the connections of the sentences to which it comes. -/
theorem C36_parsed_exact {U : Uni} {b : Verif.Peg.Bytes} (hU : U.Ok) (hP : Plain U) (cs : List Call) (lead : Option AST.Node)
    (d : List AST.Node) (h : Out.text (.text lead d) ∈ calls U b cs newParser) :
    (∃ r k0, ∀ k, k0 ≤ k → interpret U k d = .ok r) ↔ ∀ n ∈ d, accepts .sentence (tag n) = true → Meets U False n :=
  have hp := Exact.parsed hU hP h
  C36_exact U hU d hp.1 hp.2.1 hp.2.2

/-- C36, exactly, for texts, the other way round. -/
theorem C36_parsed_exact_panic {U : Uni} {b : Verif.Peg.Bytes} (hU : U.Ok) (hP : Plain U) (cs : List Call)
    (lead : Option AST.Node) (d : List AST.Node) (h : Out.text (.text lead d) ∈ calls U b cs newParser) :
    (∃ e k0, e ≠ .fuel ∧ ∀ k, k0 ≤ k → interpret U k d = .error e) ↔
      ∃ n ∈ d, accepts .sentence (tag n) = true ∧ ¬ Meets U False n :=
  have hp := Exact.parsed hU hP h
  C36_exact_panic U hU d hp.1 hp.2.1 hp.2.2

/-- C36, C43, for texts: which panic. -/
theorem C36_parsed_kind {U : Uni} {b : Verif.Peg.Bytes} (hU : U.Ok) (hP : Plain U) (cs : List Call) (lead : Option AST.Node)
    (d : List AST.Node) (h : Out.text (.text lead d) ∈ calls U b cs newParser) (k : Nat) :
    (interpret U k d = .error .rt → ∃ n ∈ d, accepts .sentence (tag n) = true ∧ HasCop (fun k _ l r => Mismatch k l r) n) ∧
    (interpret U k d = .error .msg → ∃ n ∈ d, accepts .sentence (tag n) = true ∧ HasCop (fun k w _ _ => Unknown U k w) n) :=
  have hp := Exact.parsed hU hP h
  C36_kind U hU d hp.1 hp.2.1 hp.2.2 k

/-! ## Examples -/

mutual
/-- Decides `Meets`. -/
def meetsB (U : Uni) : Bool → AST.Node → Bool
  | _, .text _ _ => true
  | _, .discourse _ => true
  | h, .sentence _ st _ => meetsB U h st
  | h, .cop k _ _ ru l r => joinedB U k ru.T l r && (meetsB U h l && meetsB U h r)
  | _, .prenex _ _ => true
  | h, .prenexStmt ts _ st => meetsLB U h ts && meetsB U h st
  | h, .predication _ p ts _ => meetsB U h p && meetsTB U h ts
  | _, .prefixed _ _ => true
  | h, .serial l r => meetsB U h l && meetsB U h r
  | _, .word _ _ => true
  | _, .mi _ _ _ => true
  | h, .po _ _ a => meetsB U h a
  | _, .mo _ _ _ => true
  | h, .lu k w st => meetsB U (h || k = .predicate && hasText U w.T "lu".toList) st
  | h, .linked _ a => meetsB U h a
  | h, .terms ts => meetsLB U h ts
  | h, .predArg _ _ _ p rel => meetsB U h p && (!h && hoaPred U p || meetsOB U true rel)
  | h, .predAdverb p => meetsB U h p
  | h, .prep p a => meetsB U h p && meetsPB U h a
  | _, .paren _ _ _ => true
  | _, .incidental _ _ => true
  | _, .vocative _ _ => true
def meetsPB (U : Uni) : Bool → AST.Node → Bool
  | h, .cop k _ _ ru l r => joinedB U k ru.T l r &&
      (if hasText U ru.T "roi".toList then meetsB U h l && meetsB U h r else meetsPB U h l)
  | h, .predArg _ _ _ p rel => meetsB U h p && (!h && hoaPred U p || meetsOB U true rel)
  | _, _ => true
def meetsOB (U : Uni) : Bool → Option AST.Node → Bool
  | _, none => true
  | h, some n => meetsB U h n
def meetsTB (U : Uni) : Bool → Option (List AST.Node) → Bool
  | _, none => true
  | h, some l => meetsLB U h l
def meetsLB (U : Uni) : Bool → List AST.Node → Bool
  | _, [] => true
  | h, n :: ns => meetsB U h n && meetsLB U h ns
end

section
variable {U : Uni}

theorem connectiveB_iff {w : Str} : connectiveB U w = true ↔ Connective U w := by
  refine ⟨connectiveB_ok, fun ⟨c, h⟩ => ?_⟩
  simp only [connectiveB, Bool.or_eq_true, C38_hasText]
  cases c <;> simp [h]

theorem joinedB_iff {k : AST.CopKind} {w : Str} {l r : AST.Node} : joinedB U k w l r = true ↔ Joined U k w l r := by
  cases k <;> simp [joinedB, Joined, connectiveB_iff, C38_hasText]

theorem lu_iff {h : Bool} {k : AST.LuKind} {w : Str} : ((h || decide (k = .predicate) && hasText U w "lu".toList) = true) =
    (h = true ∨ k = .predicate ∧ Reads U w "lu".toList) := by
  simp [C38_hasText]

theorem hoa_iff {h : Bool} {p : AST.Node} {A : Prop} : ((!h && hoaPred U p) = true ∨ A) ↔ ((h = true ∨ ¬ IsHoa U p) → A) := by
  rw [← Exact.isHoa_iff]
  by_cases hA : A <;> cases h <;> simp [hA]

mutual
theorem meetsB_iff : ∀ (h : Bool) (n : AST.Node), meetsB U h n = true ↔ Meets U (h = true) n
  | _, .text _ _ => by simp [meetsB, Meets]
  | _, .discourse _ => by simp [meetsB, Meets]
  | h, .sentence _ st _ => by rw [meetsB, Meets, meetsB_iff h st]
  | h, .cop k _ _ ru l r => by
    rw [meetsB, Meets, Bool.and_eq_true, Bool.and_eq_true, meetsB_iff h l, meetsB_iff h r, joinedB_iff]
  | _, .prenex _ _ => by simp [meetsB, Meets]
  | h, .prenexStmt ts _ st => by rw [meetsB, Meets, Bool.and_eq_true, meetsLB_iff h ts, meetsB_iff h st]
  | h, .predication _ p ts _ => by rw [meetsB, Meets, Bool.and_eq_true, meetsB_iff h p, meetsTB_iff h ts]
  | _, .prefixed _ _ => by simp [meetsB, Meets]
  | h, .serial l r => by rw [meetsB, Meets, Bool.and_eq_true, meetsB_iff h l, meetsB_iff h r]
  | _, .word _ _ => by simp [meetsB, Meets]
  | _, .mi _ _ _ => by simp [meetsB, Meets]
  | h, .po _ _ a => by rw [meetsB, Meets, meetsB_iff h a]
  | _, .mo _ _ _ => by simp [meetsB, Meets]
  | h, .lu k w st => by rw [meetsB, Meets, meetsB_iff _ st, lu_iff]
  | h, .linked _ a => by rw [meetsB, Meets, meetsB_iff h a]
  | h, .terms ts => by rw [meetsB, Meets, meetsLB_iff h ts]
  | h, .predArg _ _ _ p rel => by
    rw [meetsB, Meets, Bool.and_eq_true, Bool.or_eq_true, meetsB_iff h p, meetsOB_iff true rel, hoa_iff]
    simp
  | h, .predAdverb p => by rw [meetsB, Meets, meetsB_iff h p]
  | h, .prep p a => by rw [meetsB, Meets, Bool.and_eq_true, meetsB_iff h p, meetsPB_iff h a]
  | _, .paren _ _ _ => by simp [meetsB, Meets]
  | _, .incidental _ _ => by simp [meetsB, Meets]
  | _, .vocative _ _ => by simp [meetsB, Meets]
theorem meetsPB_iff : ∀ (h : Bool) (n : AST.Node), meetsPB U h n = true ↔ MeetsP U (h = true) n
  | h, .cop k _ _ ru l r => by
    rw [meetsPB, MeetsP, Bool.and_eq_true, joinedB_iff, ← C38_hasText]
    split
    · next hr =>
      rw [Bool.and_eq_true, meetsB_iff h l, meetsB_iff h r]
      exact and_congr_right fun _ => ⟨fun h => ⟨fun _ => h, fun h' => absurd hr h'⟩, fun h => h.1 hr⟩
    · next hr =>
      rw [meetsPB_iff h l]
      exact and_congr_right fun _ => ⟨fun h => ⟨fun h' => absurd h' hr, fun _ => h⟩, fun h => h.2 hr⟩
  | h, .predArg _ _ _ p rel => by
    rw [meetsPB, MeetsP, Bool.and_eq_true, Bool.or_eq_true, meetsB_iff h p, meetsOB_iff true rel, hoa_iff]
    simp
  | _, .text _ _ => by simp [meetsPB, MeetsP]
  | _, .discourse _ => by simp [meetsPB, MeetsP]
  | _, .sentence _ _ _ => by simp [meetsPB, MeetsP]
  | _, .prenex _ _ => by simp [meetsPB, MeetsP]
  | _, .prenexStmt _ _ _ => by simp [meetsPB, MeetsP]
  | _, .predication _ _ _ _ => by simp [meetsPB, MeetsP]
  | _, .prefixed _ _ => by simp [meetsPB, MeetsP]
  | _, .serial _ _ => by simp [meetsPB, MeetsP]
  | _, .word _ _ => by simp [meetsPB, MeetsP]
  | _, .mi _ _ _ => by simp [meetsPB, MeetsP]
  | _, .po _ _ _ => by simp [meetsPB, MeetsP]
  | _, .mo _ _ _ => by simp [meetsPB, MeetsP]
  | _, .lu _ _ _ => by simp [meetsPB, MeetsP]
  | _, .linked _ _ => by simp [meetsPB, MeetsP]
  | _, .terms _ => by simp [meetsPB, MeetsP]
  | _, .predAdverb _ => by simp [meetsPB, MeetsP]
  | _, .prep _ _ => by simp [meetsPB, MeetsP]
  | _, .paren _ _ _ => by simp [meetsPB, MeetsP]
  | _, .incidental _ _ => by simp [meetsPB, MeetsP]
  | _, .vocative _ _ => by simp [meetsPB, MeetsP]
theorem meetsOB_iff : ∀ (h : Bool) (o : Option AST.Node), meetsOB U h o = true ↔ MeetsO U (h = true) o
  | _, none => by simp [meetsOB, MeetsO]
  | h, some n => by rw [meetsOB, MeetsO, meetsB_iff h n]
theorem meetsTB_iff : ∀ (h : Bool) (o : Option (List AST.Node)), meetsTB U h o = true ↔ MeetsT U (h = true) o
  | _, none => by simp [meetsTB, MeetsT]
  | h, some l => by rw [meetsTB, MeetsT, meetsLB_iff h l]
theorem meetsLB_iff : ∀ (h : Bool) (l : List AST.Node), meetsLB U h l = true ↔ MeetsL U (h = true) l
  | _, [] => by simp [meetsLB, MeetsL]
  | h, n :: ns => by rw [meetsLB, MeetsL, Bool.and_eq_true, meetsB_iff h n, meetsLB_iff h ns]
end

end

/-- For a parsed text: whether the interpreter knows all connections of its sentences, and whether it knows those to
which it comes. -/
def outMeets (U : Uni) : Out → Option (Bool × Bool)
  | .text (.text _ d) => some (d.all fun n => !accepts .sentence (tag n) || joinsB U n,
      d.all fun n => !accepts .sentence (tag n) || meetsB U false n)
  | _ => none

/-- Unknown connections in the relative clause of a hoa that nothing binds, and in the right one of the arguments of a
preposition: the interpreter does not come to them. -/
example : (Verif.Parse.run "Mai? hoa/ giV ji/ roi maiV suq/" [.text]).map (outMeets asciiUni) = [some (false, true)] := by
  decide +kernel
example : (Verif.Parse.run "Fa? suq/ ne\\ ji/ ru poq/ giV ji/ roi maiV suq/" [.text]).map (outMeets asciiUni) =
    [some (false, true)] := by decide +kernel
/-- The same connection in other places. -/
example : (Verif.Parse.run "Mai? suq/ giV ji/ roi maiV suq/" [.text]).map (outMeets asciiUni) = [some (false, false)] := by
  decide +kernel
example : (Verif.Parse.run "Fa? suq/ ne\\ poq/ giV ji/ roi maiV suq/ ru ji/" [.text]).map (outMeets asciiUni) =
    [some (false, false)] := by decide +kernel

/-- A text on which the interpreter panics, and the theorem says so. -/
example : ∃ lead d, Out.text (.text lead d) ∈ Verif.Parse.run "Mai? suq/ giV ji/ roi maiV suq/" [.text] ∧
    ∃ e k0, e ≠ .fuel ∧ ∀ k, k0 ≤ k → interpret asciiUni k d = .error e := by
  have h : (Verif.Parse.run "Mai? suq/ giV ji/ roi maiV suq/" [.text]).map (outMeets asciiUni) = [some (false, false)] := by
    decide +kernel
  have hm : ∀ l : List Out, l.map (outMeets asciiUni) = [some (false, false)] → ∃ lead d, Out.text (.text lead d) ∈ l ∧
      ∃ n ∈ d, accepts .sentence (tag n) = true ∧ ¬ Meets asciiUni False n := by
    intro l hl
    obtain ⟨o, ho, h⟩ := List.mem_map.1 (show some (false, false) ∈ l.map (outMeets asciiUni) by rw [hl]; simp)
    unfold outMeets at h
    split at h
    · rename_i lead d
      refine ⟨lead, d, ho, ?_⟩
      simp only [Option.some.injEq, Prod.mk.injEq] at h
      obtain ⟨n, hn, h'⟩ := List.all_eq_false.1 h.2
      simp only [Bool.not_eq_true, Bool.or_eq_false_iff, Bool.not_eq_false'] at h'
      refine ⟨n, hn, h'.1, fun hc => ?_⟩
      have := (meetsB_iff (U := asciiUni) false n).2 (by simpa using hc)
      rw [h'.2] at this
      cases this
    · cases h
  obtain ⟨lead, d, hd, hj⟩ := hm _ h
  exact ⟨lead, d, hd, (C36_parsed_exact_panic asciiUni_ok (by unfold Plain; decide) [.text] lead d hd).2 hj⟩

end Verif.Logic
