/-
C56: what texts mean, in any model: relative clauses, named variables, hoa, content clauses, po, mi, mo,
lu, roi, adverbs, prepositions, connections of everything. This file is the specification; it gives a
value to a syntax tree directly, without numbered variables, tables, lists of pending bindings or logic trees.

The meaning of words (connectives, quantifiers, places, names, variables, quoted text) is that of C38, C39,
C47 and C48; arguments go to their places as C26 says.
-/
import Verif.Logic.Sem
import Verif.Logic.Interp

namespace Verif.Logic.Den
open Verif.Tone (Str)

/-! ## What an argument can be -/

/-- The names a text can use: `none` is hoa, `some x` the variable x. -/
abbrev Tok := Option Str

/-- An argument is a variable, hoa, or something described by a predicate. -/
inductive Form
  | var (x : Str)
  | hoa
  | plain
deriving DecidableEq

section
variable (U : Uni)

def form (p : AST.Node) : Form :=
  match varPred U p with
  | some x => .var x
  | none => if hoaPred U p then .hoa else .plain

def isRoi (ru : AST.Word) : Bool := hasText U ru.T ['r', 'o', 'i']
def isPa (bi : AST.Word) : Bool := hasText U bi.T ['p', 'a']
def isLu (lu : AST.Word) : Bool := hasText U lu.T ['l', 'u']
def quantOf (quant : Option AST.Word) : Quant := (quantifier U (quant.map (·.T))).getD .the
def connOf (ru : AST.Word) : Conn := (connector U ru.T).getD .and
def placeOf (go : AST.Word) : Nat := (goPos U go.T).getD 0

/-! ## What a text mentions -/

/-- The names a text uses that it does not bind, and the arguments that are bound around the whole text. -/
inductive Ev
  | tok (t : Tok)
  | arg (id : Nat)
deriving DecidableEq

def toks (l : List Ev) : List Tok := l.filterMap fun | .tok t => some t | _ => none
def argIds (l : List Ev) : List Nat := l.filterMap fun | .arg i => some i | _ => none
def without (t : Tok) (l : List Ev) : List Ev := l.filter (· ≠ .tok t)

/-- Definite arguments that mention nothing are bound around the text. -/
def evPlain (id : Nat) (q : Quant) (e : List Ev) : List Ev := if q = .the ∧ toks e = [] then e ++ [.arg id] else e

/-- Does the statement say something about arguments put before it? -/
def uses : AST.Node → Bool
  | .prenexStmt _ bi st => isPa U bi && uses st
  | .cop .statement _ _ _ l r => uses l || uses r
  | _ => true

mutual
def evStmt : AST.Node → List Ev
  | .prenexStmt ts bi st => evTerms (isPa U bi && uses U st) (evStmt st) ts
  | .predication .raw p ts _ => evOTerms (evPred p) ts
  | .cop .statement _ _ _ l r => evStmt l ++ evStmt r
  | _ => []
def evOTerms (rest : List Ev) : Option (List AST.Node) → List Ev
  | none => rest
  | some ts => evTerms true rest ts
/-- `rest` is what comes after the terms; `u`: the arguments are talked about. -/
def evTerms (u : Bool) (rest : List Ev) : List AST.Node → List Ev
  | [] => rest
  | .linked _ a :: ts => evArg u (evTerms u rest ts) a
  | .cop .termSet _ _ _ (.terms ls) (.terms rs) :: ts =>
    evTerms u (evTerms u rest ts) ls ++ evTerms u (evTerms u rest ts) rs
  | t :: ts =>
    if isPreposition t then evTerms u rest ts ++ evPrep t
    else if isAdverb t then evTerms u rest ts ++ evAdv t
    else evArg u (evTerms u rest ts) t
def evArg (u : Bool) (rest : List Ev) : AST.Node → List Ev
  | .predArg id _ quant p rel =>
    match form U p with
    | .var x => if quant.isSome then without (some x) (evORel rel ++ rest)
      else (if u ∨ rel.isSome then [.tok (some x)] else []) ++ evORel rel ++ rest
    | .hoa => (if u ∨ quant.isSome ∨ rel.isSome then [.tok none] else []) ++ evORel rel ++ rest
    | .plain => evPlain id (quantOf U quant) (evPred p ++ evORel rel) ++ rest
  | .cop .argument _ _ ru l r =>
    if isRoi U ru then evArg true (evArg true [] r) l ++ rest
    else evArg u rest l ++ evArg u rest r
  | _ => []
/-- In a relative clause hoa is the argument it describes. -/
def evORel : Option AST.Node → List Ev
  | none => []
  | some r => without none (evRel r)
def evRel : AST.Node → List Ev
  | .predication .relative p ts _ => evOTerms (evPred p) ts
  | .lu .relative _ st => evStmt st
  | .cop .relative _ _ _ l r => evRel l ++ evRel r
  | _ => []
def evPred : AST.Node → List Ev
  | .word .predicate w => match form U (.word .predicate w) with
    | .var x => [.tok (some x)]
    | .hoa => [.tok none]
    | .plain => []
  | .serial l r => evPred l ++ evPred r
  | .po _ _ a => evArg true [] a
  | .lu .predicate lu st => if isLu U lu then without none (evStmt st) else evStmt st
  | .cop .predicate _ _ _ l r => evPred l ++ evPred r
  | .cop .content _ _ _ l r => evPred l ++ evPred r
  | .lu .content _ st => evStmt st
  | .predication .content p ts _ => evOTerms (evPred p) ts
  | _ => []
def evAdv : AST.Node → List Ev
  | .predAdverb p => evPred p
  | .cop .adverb _ _ _ l r => evAdv l ++ evAdv r
  | _ => []
def evPrep : AST.Node → List Ev
  | .prep p a => evArg true (evPred p) a
  | .cop .preposition _ _ _ l r => evPrep l ++ evPrep r
  | _ => []
end


/-! ## The meaning -/

variable {M : Model}

/-- What the names stand for. -/
abbrev Env (M : Model) := Tok → M.D

/-- The meaning of predicates that say what their argument is. -/
def isThat (P : M.P) (e : M.D) : M.P := M.absP (M.bind .lambda none fun d => M.app P [some d, some e])

/-- Arguments in their places. -/
def placed (as : List (M.D × Nat)) : List (Option M.D) := (orderArguments as).getD []

/-- A description with a relative clause. -/
def andO (b : M.B) : Option M.B → M.B
  | none => b
  | some c => M.conn .and b c

def inPlace (q : Quant) : Quant := if q = .the then .all else q

section
variable (L : Nat → M.D)

mutual
/-- The meaning of a statement about the arguments `as` put before it. `L` has the things that are bound
around the text. -/
def dStmt (env : Env M) : AST.Node → List (M.D × Nat) → M.B
  | .prenexStmt ts bi st, as => dTerms env as (fun env as => dStmt env st (if isPa U bi then as else [])) ts
  | .predication .raw p ts _, as => dOTerms env as (fun env as => dPred env p fun P => M.app P (placed as)) ts
  | .cop .statement _ _ ru l r, as => M.conn (connOf U ru) (dStmt env l as) (dStmt env r as)
  | _, _ => M.b0
def dOTerms (env : Env M) (as : List (M.D × Nat)) (k : Env M → List (M.D × Nat) → M.B) :
    Option (List AST.Node) → M.B
  | none => k env as
  | some ts => dTerms env as k ts
/-- The meaning of terms in front of something: `k` is what follows. -/
def dTerms (env : Env M) (as : List (M.D × Nat)) (k : Env M → List (M.D × Nat) → M.B) : List AST.Node → M.B
  | [] => k env as
  | .linked go a :: ts => dArg env (fun env d => dTerms env (as ++ [(d, placeOf U go)]) k ts) a
  | .cop .termSet _ _ ru (.terms ls) (.terms rs) :: ts =>
    M.conn (connOf U ru) (dTerms env as (fun env as => dTerms env as k ts) ls)
      (dTerms env as (fun env as => dTerms env as k ts) rs)
  | t :: ts =>
    -- an adverb or preposition is said of what follows
    if isPreposition t then dPrep env (M.absD (dTerms env as k ts)) t
    else if isAdverb t then dAdv env (M.absD (dTerms env as k ts)) t
    else dArg env (fun env d => dTerms env (as ++ [(d, 0)]) k ts) t
/-- The meaning of an argument in front of something: `k` is what is said of it. -/
def dArg (env : Env M) (k : Env M → M.D → M.B) : AST.Node → M.B
  | .predArg id _ quant p rel =>
    match form U p with
    | .var x =>
      if quant.isSome then M.bind (quantOf U quant) (dBRel env x rel) fun d => k (upd env (some x) d) d
      else if rel.isNone then k env (env (some x))
      else M.bind .all (some fun d => andO (M.app (M.name amongName) [some d, some (env (some x))])
        (dORel (upd env none d) rel)) fun d => k env d
    | .hoa =>
      if quant.isNone ∧ rel.isNone then k env (env none)
      else M.bind .all (some fun d => andO (M.app (M.name amongName) [some d, some (env none)])
        (dORel (upd env none d) rel)) fun d => k env d
    | .plain =>
      -- a definite argument that mentions nothing bound outside is bound around the text;
      -- other definite arguments stand for all that is described
      if quantOf U quant = .the ∧ toks (evPred U p ++ evORel U rel) = [] then k env (L id)
      else M.bind (inPlace (quantOf U quant)) (some fun d => andO (dPred env p fun P => M.app P [some d])
        (dORel (upd env none d) rel)) fun d => k env d
  | .cop .argument _ _ ru l r =>
    if isRoi U ru then
      M.bind .the (some fun x => dArg env (fun env a => dArg env (fun _ b =>
        M.app (M.name equalName) [some x, some (M.plural [a, b])]) r) l) fun x => k env x
    else M.conn (connOf U ru) (dArg env k l) (dArg env k r)
  | _ => M.b0
/-- The relative clause of a variable that is introduced. -/
def dBRel (env : Env M) (x : Str) : Option AST.Node → Option (M.D → M.B)
  | none => none
  | some r => some fun d => dRel (upd (upd env (some x) d) none d) r
def dORel (env : Env M) : Option AST.Node → Option M.B
  | none => none
  | some r => some (dRel env r)
def dRel (env : Env M) : AST.Node → M.B
  | .predication .relative p ts _ => dOTerms env [] (fun env as => dPred env p fun P => M.app P (placed as)) ts
  | .lu .relative _ st => dStmt env st []
  | .cop .relative _ _ ru l r => M.conn (connOf U ru) (dRel env l) (dRel env r)
  | _ => M.b0
/-- The meaning of what `k` says of a predicate. -/
def dPred (env : Env M) : AST.Node → (M.P → M.B) → M.B
  | .word .predicate w, k => match form U (.word .predicate w) with
    | .var x => k (M.varP (env (some x)))
    | .hoa => k (M.varP (env none))
    | .plain => k (M.name (wordPred U w.T))
  | .serial l r, k => dPred env l fun P => dPred env r fun Q => k (M.serial P Q)
  | .mi m _ ph, k => k (isThat (M.pred ((miPred U m.T).getD (.name [])) fun _ => M.d0) (M.quote (nodeText U ph) false))
  | .po m _ a, k => k (M.absP (M.bind .lambda none fun d => dArg env
      (fun _ e => M.app (M.name ((poPred U m.T).getD [])) [some d, some e]) a))
  | .mo _ _ d, k => k (isThat (M.name equalName) (M.quote (nodeText U (.discourse d)) true))
  | .lu .predicate lu st, k =>
    if isLu U lu then k (M.absP (M.bind .lambda none fun d => dStmt (upd env none d) st []))
    else k (M.absP (dStmt env st []))
  | .cop .predicate _ _ ru l r, k => M.conn (connOf U ru) (dPred env l k) (dPred env r k)
  | .cop .content _ _ ru l r, k => M.conn (connOf U ru) (dPred env l k) (dPred env r k)
  | .lu .content _ st, k => k (isThat (M.name equalName) (M.absD (dStmt env st [])))
  | .predication .content p ts _, k => k (isThat (M.name equalName) (M.absD
      (dOTerms env [] (fun env as => dPred env p fun P => M.app P (placed as)) ts)))
  | _, _ => M.b0
def dAdv (env : Env M) (e : M.D) : AST.Node → M.B
  | .predAdverb p => dPred env p fun P => M.app P [some e]
  | .cop .adverb _ _ ru l r => M.conn (connOf U ru) (dAdv env e l) (dAdv env e r)
  | _ => M.b0
def dPrep (env : Env M) (e : M.D) : AST.Node → M.B
  | .prep p a => dArg env (fun env d => dPred env p fun P => M.app P [some e, some d]) a
  | .cop .preposition _ _ ru l r => M.conn (connOf U ru) (dPrep env e l) (dPrep env e r)
  | _ => M.b0
end

/-- The meaning of a sentence. -/
def dSent (env : Env M) : AST.Node → M.B
  | .sentence _ st _ => dStmt U L env st []
  | .cop .sentence _ _ _ l r => M.conn .and (dSent env l) (dSent env r)
  | _ => M.b0

end

/-! ## Which texts -/

/-- A connected argument, after which (interp.go:571-585) connected arguments are forgotten. -/
def branchA : AST.Node → Bool
  | .cop .argument _ _ ru _ _ => !isRoi U ru
  | _ => false

mutual
def branch : AST.Node → Bool
  | .linked _ a => branchA U a
  | .cop .termSet _ _ _ (.terms ls) (.terms rs) => branches ls || branches rs
  | t => branchA U t
def branches : List AST.Node → Bool
  | [] => false
  | t :: ts => branch t || branches ts
end

/-- No variable is introduced. -/
def noBind : AST.Node → Bool
  | .predArg _ _ quant p _ => match form U p with
    | .var _ => quant.isNone
    | _ => true
  | .cop _ _ _ _ l r => noBind l && noBind r
  | _ => true

mutual
/-- The places claimed by the arguments of a predication that come after those put before the statement. -/
def plStmt : AST.Node → List Nat
  | .prenexStmt ts bi st => if isPa U bi then plTerms ts ++ plStmt st else []
  | .predication .raw _ ts _ => plOTerms ts
  | .cop .statement _ _ _ l r => plStmt l ++ plStmt r
  | _ => []
def plOTerms : Option (List AST.Node) → List Nat
  | none => []
  | some ts => plTerms ts
def plTerms : List AST.Node → List Nat
  | [] => []
  | .linked go _ :: ts => placeOf U go :: plTerms ts
  | .cop .termSet _ _ _ (.terms ls) (.terms rs) :: ts => plTerms ls ++ plTerms rs ++ plTerms ts
  | _ :: ts => plTerms ts
end

/-- Which names vary with a quantifier, as opposed to definite ones. -/
abbrev Dep := Tok → Bool

def varies (quant : Option AST.Word) : Bool := decide (quantOf U quant ≠ .the)

/-- `e` mentions nothing, or something that varies. -/
def ClosedOr (dep : Dep) (e : List Ev) : Prop := toks e = [] ∨ ∃ t ∈ toks e, dep t = true

section
variable (A : Nat → AST.Node)

mutual
/-- Texts the theorem is about. `dep` says which names vary, `i` whether a definite variable or roi
is among the arguments put before the statement. -/
def okStmt (dep : Dep) (i : Bool) : AST.Node → Prop
  | .prenexStmt ts bi st => okTerms dep i (isPa U bi && uses U st) false (plStmt U st) (evStmt U st)
      (fun dep i => okStmt dep (isPa U bi && i) st) ts
  | .predication .raw p ts _ => okOTerms dep i (evPred U p) (fun dep _ => okPred dep p) ts
  | .cop .statement _ _ _ l r => okStmt dep i l ∧ okStmt dep i r
  | _ => False
def okOTerms (dep : Dep) (i : Bool) (rest : List Ev) (k : Dep → Bool → Prop) : Option (List AST.Node) → Prop
  | none => k dep i
  | some ts => okTerms dep i true false [] rest k ts
/-- `b`: there is a connected argument among the terms that follow; `pl` are the places claimed by what follows, and
`rest` is what it mentions. -/
def okTerms (dep : Dep) (i u b : Bool) (pl : List Nat) (rest : List Ev) (k : Dep → Bool → Prop) : List AST.Node → Prop
  | [] => k dep i
  | .linked go a :: ts => (branchA U a = true → (branches U ts || b) = false) ∧
      (u = true → placeOf U go ∉ plTerms U ts ++ pl) ∧
      okArg dep (fun dep j => okTerms dep (i || j) u b pl rest k ts) a
  | .cop .termSet _ _ _ (.terms ls) (.terms rs) :: ts =>
    okTerms dep i u (branches U ts || b) (plTerms U ts ++ pl) (evTerms U u rest ts)
      (fun dep i => okTerms dep i u b pl rest k ts) ls ∧
    okTerms dep i u (branches U ts || b) (plTerms U ts ++ pl) (evTerms U u rest ts)
      (fun dep i => okTerms dep i u b pl rest k ts) rs
  | t :: ts =>
    if isPreposition t ∨ isAdverb t then
      -- what follows mentions nothing outside, or something that varies
      i = false ∧ ClosedOr dep (evTerms U u rest ts) ∧
      okTerms dep i u b pl rest k ts ∧ if isPreposition t then (branches U ts || b) = false ∧ okPrep dep t else okAdv dep t
    else (branchA U t = true → (branches U ts || b) = false) ∧
      okArg dep (fun dep j => okTerms dep (i || j) u b pl rest k ts) t
def okArg (dep : Dep) (k : Dep → Bool → Prop) : AST.Node → Prop
  | .predArg id focus quant p rel =>
    A id = .predArg id focus quant p rel ∧
    match form U p with
    | .var x =>
      if quant.isSome then okORel (upd (upd dep (some x) (varies U quant)) none (varies U quant)) rel ∧
        k (upd dep (some x) (varies U quant)) (!varies U quant)
      else okORel (upd dep none true) rel ∧ k dep (rel.isNone && !dep (some x))
    | .hoa => okORel (upd dep none true) rel ∧ k dep (quant.isNone && rel.isNone && !dep none)
    | .plain => quantOf U quant ≠ .hi ∧ okPred dep p ∧ okORel (upd dep none (varies U quant)) rel ∧
      (quantOf U quant = .the → ClosedOr dep (evPred U p ++ evORel U rel)) ∧
      id ∉ argIds (evPred U p ++ evORel U rel) ∧ k dep false
  | .cop .argument _ _ ru l r =>
    if isRoi U ru then
      noBind U l = true ∧ noBind U r = true ∧ okArg dep (fun dep _ => okArg dep (fun _ _ => True) r) l ∧ k dep true
    else okArg dep k l ∧ okArg dep k r
  | _ => False
def okORel (dep : Dep) : Option AST.Node → Prop
  | none => True
  | some r => okRel dep r
def okRel (dep : Dep) : AST.Node → Prop
  | .predication .relative p ts _ => okOTerms dep false (evPred U p) (fun dep _ => okPred dep p) ts
  | .lu .relative _ st => okStmt dep false st
  | .cop .relative _ _ _ l r => okRel dep l ∧ okRel dep r
  | _ => False
def okPred (dep : Dep) : AST.Node → Prop
  | .serial l r => okPred dep l ∧ okPred dep r
  | .po _ _ a => okArg dep (fun _ _ => True) a
  | .lu .predicate lu st => okStmt (if isLu U lu then upd dep none true else dep) false st
  | .cop .predicate _ _ _ l r => okPred dep l ∧ okPred dep r
  | .cop .content _ _ _ l r => okPred dep l ∧ okPred dep r
  | .lu .content _ st => okStmt dep false st
  | .predication .content p ts _ => okOTerms dep false (evPred U p) (fun dep _ => okPred dep p) ts
  | _ => True
def okAdv (dep : Dep) : AST.Node → Prop
  | .predAdverb p => okPred dep p
  | .cop .adverb _ _ _ l r => okAdv dep l ∧ okAdv dep r
  | _ => False
def okPrep (dep : Dep) : AST.Node → Prop
  | .prep p a => noBind U a = true ∧ branchA U a = false ∧ okArg dep (fun dep _ => okPred dep p) a
  | .cop .preposition _ _ _ l r => okPrep dep l ∧ okPrep dep r
  | _ => False
end

def okSent : AST.Node → Prop
  | .sentence _ st _ => okStmt U A (fun _ => false) false st
  | .cop .sentence _ _ _ l r => okSent l ∧ okSent r
  | _ => False

end

/-! ## Texts -/

/-- The description of an argument. -/
def restrOf (L : Nat → M.D) (d : M.D) : AST.Node → M.B
  | .predArg _ _ _ p rel => andO (dPred U L (fun _ => M.d0) p fun P => M.app P [some d])
      (dORel U L (upd (fun _ => M.d0) none d) rel)
  | _ => M.b0

/-- Definite arguments around something, the first one outermost. -/
def dLift (A : Nat → AST.Node) (k : (Nat → M.D) → M.B) : List Nat → (Nat → M.D) → M.B
  | [], L => k L
  | i :: is, L => M.bind .the (some fun d => restrOf U (upd L i d) d (A i)) fun d => dLift A k is (upd L i d)

/-- `l` and what of `m` is not in it yet, in order. -/
def addNew : List Nat → List Nat → List Nat
  | l, [] => l
  | l, i :: m => if i ∈ l then addNew l m else addNew (l ++ [i]) m

def evSent : AST.Node → List Ev
  | .sentence _ st _ => evStmt U st
  | .cop .sentence _ _ _ l r => evSent l ++ evSent r
  | _ => []

/-- Sentences are joined by and. -/
def dSents (L : Nat → M.D) (b : M.B) : List AST.Node → M.B
  | [] => b
  | n :: ns => dSents L (M.conn .and b (dSent U L (fun _ => M.d0) n)) ns

/-- The meaning of a text whose first sentence is `n` and whose other sentences are `ns`: the definite arguments
in the order in which they first come, around the sentences. -/
def dText (M : Model) (A : Nat → AST.Node) (n : AST.Node) (ns : List AST.Node) : M.B :=
  dLift U A (fun L => dSents U L (dSent U L (fun _ => M.d0) n) ns)
    (addNew [] (argIds ((n :: ns).flatMap (evSent U)))) fun _ => M.d0

end

end Verif.Logic.Den
