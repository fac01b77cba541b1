/-
C56: the theorems, with cases.
-/
import Verif.Logic.DenTop
import Verif.Logic.SemMeaning
import Verif.Logic.InterpExamples

namespace Verif.Logic.Den
open Verif.Tone (Str)

/-- C56: whatever statement the interpreter makes of a text, before simplification, means in every model
in which the laws hold what the text means. `A` has the arguments of the text by address.
Full statement: the same for all texts, which is false (`C56_refuted_preposition`, `C49_refuted`, `C37_refuted`). -/
theorem C56_meaning_partial (U : Uni) (A : Nat → AST.Node) (M : Model) (hM : M.Laws) (d : List AST.Node) (S : AST.Node)
    (Ss : List AST.Node) (hd : (d.filter fun n => !isFragment n) = S :: Ss) (ho : ∀ T ∈ S :: Ss, okSent U A T)
    (ht : ∀ T ∈ S :: Ss, toks (evSent U T) = []) (k : Nat) (n : Node) (h : discourse U (fns U k) d = .ok (some n))
    (ρ : Nat → M.D) : M.stmt n ρ = dText U M A S Ss :=
  (discourse_den hM k d S Ss hd ho ht n h).1 ρ

/-- C56 for `Interpret`, where it is known that simplification keeps the meaning (C55). -/
theorem C56_interpret_partial (U : Uni) (A : Nat → AST.Node) (M : Model) (hM : M.Laws) (d : List AST.Node) (S : AST.Node)
    (Ss : List AST.Node) (hd : (d.filter fun n => !isFragment n) = S :: Ss) (ho : ∀ T ∈ S :: Ss, okSent U A T)
    (ht : ∀ T ∈ S :: Ss, toks (evSent U T) = []) (k : Nat) (r : Node) (defs : List (Nat × Option Node))
    (h : interpret U k d = .ok (some (r, defs)))
    (hs : ∀ n, discourse U (fns U k) d = .ok (some n) → (addHoa none n).1 = n ∧ Fit (fun _ => False) n ∧ Closed n ∧
      ∀ t st, simpS k n { sub := [], predVars := predVars n, defs := bindDefs n } = some (t, st) → (bnums (pre t)).Nodup)
    (ρ : Nat → M.D) : M.stmt r ρ = dText U M A S Ss := by
  unfold interpret at h
  split at h
  · cases h
  · cases h
  · next n hn =>
    split at h
    · cases h
    · next x hx =>
      cases h
      obtain ⟨h1, h2, h3, h4⟩ := hs n hn
      rw [C55_simplify_partial M hM n n r k defs h1.symm h2 h3 h4 hx ρ ρ]
      exact C56_meaning_partial U A M hM d S Ss hd ho ht k n hn ρ

/-- C37 for the texts of C56, before simplification: every variable is in the scope of its binding. -/
theorem C37_clauses_partial (U : Uni) (A : Nat → AST.Node) (d : List AST.Node) (S : AST.Node)
    (Ss : List AST.Node) (hd : (d.filter fun n => !isFragment n) = S :: Ss) (ho : ∀ T ∈ S :: Ss, okSent U A T)
    (ht : ∀ T ∈ S :: Ss, toks (evSent U T) = []) (k : Nat) (n : Node) (h : discourse U (fns U k) d = .ok (some n)) :
    Scoped [] n :=
  (discourse_den (M := allTrue) (std_laws _ _ _) k d S Ss hd ho ht n h).2

/-! ## Cases -/

open Ex

def relA (i : Nat) (q : Option String) (s : String) (r : AST.Node) : AST.Node := .predArg i none (q.map w) (p s) (some r)

/-- "sa do/ bi mai? ji/ poq/ gi^ hoa/ do/ jai~" -/
def ex1 : AST.Node := sen (.prenexStmt [qa 0 "sa" "dó"] (w "bi")
  (st (p "mai") [a 1 "ji", relA 2 none "poq" (rel (p "gi") [a 3 "hóa", a 4 "dó"]), .predAdverb (p "jai")]))
/-- "nie? ji/ roi suq/ go tu rua/ lu gi? hoa/" -/
def ex2 : AST.Node := sen (st (p "nie") [arg2 "roi" (a 5 "ji") (a 6 "suq"),
  .linked (w "go") (relA 7 (some "tu") "rua" (.lu .relative (w "lu") (st (p "gi") [a 8 "hóa"])))])
/-- "mai? po- ji/ gi\ poq/" with the fact that the person gives -/
def ex3 : AST.Node := sen (st (p "mai") [.predArg 9 none none (.po (w "po") none (a 10 "ji")) none,
  .prep (p "gi") (.predArg 11 none none (con (p "gi") [a 12 "poq"]) none)])
def exA : Nat → AST.Node
  | 0 => qa 0 "sa" "dó"
  | 1 => a 1 "ji"
  | 2 => relA 2 none "poq" (rel (p "gi") [a 3 "hóa", a 4 "dó"])
  | 3 => a 3 "hóa"
  | 4 => a 4 "dó"
  | 5 => a 5 "ji"
  | 6 => a 6 "suq"
  | 7 => relA 7 (some "tu") "rua" (.lu .relative (w "lu") (st (p "gi") [a 8 "hóa"]))
  | 8 => a 8 "hóa"
  | 9 => .predArg 9 none none (.po (w "po") none (a 10 "ji")) none
  | 10 => a 10 "ji"
  | 11 => .predArg 11 none none (con (p "gi") [a 12 "poq"]) none
  | 12 => a 12 "poq"
  | _ => p ""

theorem ex_form : form asciiUni (p "dó") = .var "do".toList ∧ form asciiUni (p "hóa") = .hoa ∧
    form asciiUni (p "ji") = .plain ∧ form asciiUni (p "suq") = .plain ∧ form asciiUni (p "poq") = .plain ∧
    form asciiUni (p "rua") = .plain ∧ form asciiUni (.po (w "po") none (.predArg 10 none none (p "ji") none)) = .plain ∧
    form asciiUni (.predication .content (p "gi") (some [.predArg 12 none none (p "poq") none]) none) = .plain := by decide +kernel
theorem ex_quant : quantOf asciiUni (some (w "sa")) = .some ∧ quantOf asciiUni (some (w "tu")) = .each ∧
    quantOf asciiUni none = .the := by decide +kernel
theorem ex_words : isRoi asciiUni (w "roi") = true ∧ isPa asciiUni (w "bi") = false ∧ placeOf asciiUni (w "go") = 2 := by
  decide +kernel
theorem ex_ev : evPred asciiUni (p "mai") = [] ∧ evPred asciiUni (p "nie") = [] ∧ evPred asciiUni (p "gi") = [] ∧
    evPred asciiUni (p "poq") = [] ∧ evPred asciiUni (p "rua") = [] ∧ evPred asciiUni (p "ji") = [] ∧
    evPred asciiUni (p "suq") = [] := by decide +kernel
theorem ok_word (U : Uni) (A : Nat → AST.Node) (dep : Dep) (s : String) : okPred U A dep (p s) := trivial

theorem okPred_po (U : Uni) (A : Nat → AST.Node) (dep : Dep) (po ga) (n : AST.Node) :
    okPred U A dep (.po po ga n) = okArg U A dep (fun _ _ => True) n := by simp [okPred]
theorem okPred_con (U : Uni) (A : Nat → AST.Node) (dep : Dep) (q : AST.Node) (ts na) :
    okPred U A dep (.predication .content q ts na) = okOTerms U A dep false (evPred U q) (fun dep _ => okPred U A dep q) ts := by
  simp [okPred]

theorem ex_toks : ∀ T ∈ [ex1, ex2, ex3], toks (evSent asciiUni T) = [] := by
  simp only [List.forall_mem_cons, List.not_mem_nil, false_imp_iff, implies_true, and_true]
  decide +kernel

theorem ex_ok : ∀ T ∈ [ex1, ex2, ex3], okSent asciiUni exA T := by
  simp only [List.forall_mem_cons, List.not_mem_nil, false_imp_iff, implies_true, and_true]
  obtain ⟨h1, h2, h3, h4, h5, h6, h7, h8⟩ := ex_form
  obtain ⟨q1, q2, q3⟩ := ex_quant
  obtain ⟨w1, w2, w3⟩ := ex_words
  obtain ⟨e1, e2, e3, e4, e5, e6, e7⟩ := ex_ev
  refine ⟨?_, ?_, ?_⟩
  · simp [ex1, sen, st, a, qa, relA, rel, okSent, okStmt, okOTerms, okTerms, okArg, okORel, okRel, okAdv, h1, h2, h3, h5, q1, q3,
      isPreposition, isAdverb, branchA, exA, ClosedOr, evTerms, evArg, evORel, evRel, evOTerms, e1, e3, e4, e6, upd, varies,
      w2, without, ok_word]
  · simp [ex2, sen, st, a, arg2, relA, okSent, okStmt, okOTerms, okTerms, okArg, okORel, okRel, h2, h3, h4, h6, q2, q3,
      isPreposition, isAdverb, branchA, exA, ClosedOr, evTerms, evArg, evORel, evRel, evOTerms, e3, e5, e6, e7, varies,
      w1, w3, without, ok_word, noBind, evStmt, plTerms]
  · simp [ex3, sen, st, a, con, okSent, okStmt, okOTerms, okTerms, okArg, okORel, okPrep, okPred_po, okPred_con, evPred, branches, h3, h5, h7, h8, q3,
      isPreposition, isAdverb, branchA, exA, ClosedOr, evTerms, evArg, evORel, evOTerms, e1, e3, e4, e6, evPlain, ok_word, noBind]

/-- The hypotheses hold of these three sentences, and they are interpreted. -/
example (M : Model) (hM : M.Laws) : ∃ n, discourse asciiUni (fns asciiUni 100) [ex1, ex2, ex3] = .ok (some n) ∧
    (∀ ρ, M.stmt n ρ = dText asciiUni M exA ex1 [ex2, ex3]) ∧ Scoped [] n := by
  have h : (match discourse asciiUni (fns asciiUni 100) [ex1, ex2, ex3] with | .ok (some _) => true | _ => false) = true := by
    decide +kernel
  split at h
  · next n hn =>
    exact ⟨n, hn, fun ρ => C56_meaning_partial asciiUni exA M hM _ ex1 [ex2, ex3] rfl ex_ok ex_toks 100 n hn ρ,
      C37_clauses_partial asciiUni exA _ ex1 [ex2, ex3] rfl ex_ok ex_toks 100 n hn⟩
  · cases h

theorem ex_names : wordPred asciiUni (w "ji").T = "ji".toList ∧ wordPred asciiUni (w "poq").T = "poq".toList ∧
    wordPred asciiUni (w "gi").T = "gi".toList ∧ wordPred asciiUni (w "mai").T = "mai".toList ∧
    wordPred asciiUni (w "jai").T = "jai".toList ∧ form asciiUni (p "gi") = .plain ∧ form asciiUni (p "mai") = .plain ∧
    form asciiUni (p "jai") = .plain := by decide +kernel

theorem dPred_word (M : Model) (U : Uni) (L : Nat → M.D) (env : Env M) (s : String) (k : M.P → M.B)
    (h : form U (p s) = .plain) : dPred U L env (p s) k = k (M.name (wordPred U (w s).T)) := by
  have h' : form U (.word .predicate (w s)) = .plain := h
  rw [p, dPred, h']

/-- What the first sentence means: there is a J who is me and some X such that for all people P that X gave,
J likes P, seemingly. -/
example (M : Model) : dText asciiUni M exA ex1 [] =
    M.bind .the (some fun j => M.app (M.name "ji".toList) [some j]) fun j =>
      M.bind .some none fun x =>
        M.bind .all (some fun q => M.conn .and (M.app (M.name "poq".toList) [some q]) (M.app (M.name "gi".toList) [some q, some x]))
          fun q => M.app (M.name "jai".toList) [some (M.absD (M.app (M.name "mai".toList) [some j, some q]))] := by
  obtain ⟨h1, h2, h3, h4, h5, h6, h7, h8⟩ := ex_form
  obtain ⟨q1, q2, q3⟩ := ex_quant
  obtain ⟨w1, w2, w3⟩ := ex_words
  obtain ⟨e1, e2, e3, e4, e5, e6, e7⟩ := ex_ev
  obtain ⟨n1, n2, n3, n4, n5, g1, g2, g3⟩ := ex_names
  have hids : addNew [] (argIds ([ex1].flatMap (evSent asciiUni))) = [1] := by decide +kernel
  rw [dText, hids]
  simp [dLift, restrOf, exA, dSents, dSent, ex1, sen, st, a, qa, relA, rel, dStmt, dOTerms, dTerms, dArg, dBRel, dORel, dRel, dAdv,
    h1, h2, h3, h5, q1, q3, isPreposition, isAdverb, upd, w2, andO, Den.inPlace, dPred_word, g1, g2, g3, n1, n2, n3, n4, n5,
    evORel, evRel, evOTerms, evTerms, evArg, without, e3, e4, e6]
  rfl

/-- C56 is violated: of the arguments of a preposition that are connected, the first is used twice. -/
theorem C56_refuted_preposition :
    run 100 [sen (st (p "fa") [.prep (p "ne") (arg2 "ra" (a 1 "poq") (a 2 "rua"))])] =
      .str "[ιP : poq(P)] ne({fa()}, P) ∨ ne({fa()}, P)." := by decide +kernel

end Verif.Logic.Den
