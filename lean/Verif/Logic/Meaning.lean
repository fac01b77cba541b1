/-
C54: what a plain text means. A plain text consists of sentences whose statements are predications of
words to arguments that are words, with any quantifiers, places, prenexes and connectives (of
statements, of predicates and of one argument per list of terms). For all of them the interpretation is
given by a short recursive definition; C37 and C49 hold of them.
-/
import Verif.Logic.DistProps
import Verif.Logic.WordsProps
import Mathlib.Data.List.Forall2

namespace Verif.Logic
open Verif.Tone (Str)

/-! ## Plain texts -/

/-- An argument: quantifier (`q` is what it reads as) and predicate. -/
structure SArg where
  id : Nat
  focus : Option AST.Word
  quant : Option AST.Word
  q : Quant
  p : PExp

/-- An argument or arguments joined by connectives. -/
inductive CArg where
  | one (a : SArg)
  | join (c : Conn) (to0 to1 : Option AST.Word) (ru : AST.Word) (l r : CArg)

/-- A term: an argument, after a word for its place or not. -/
structure STerm where
  place : Option (AST.Word × Nat)
  arg : CArg

/-- Statements. -/
inductive SStmt where
  | base (p : PExp) (na : Option AST.Word)
  | pred (p : PExp) (ts : List STerm) (na : Option AST.Word)
  | prenex (pa : Bool) (bi : AST.Word) (ts : List STerm) (st : SStmt)
  | conn (c : Conn) (to0 to1 : Option AST.Word) (ru : AST.Word) (l r : SStmt)

/-- A sentence. -/
structure SSent where
  je : Option AST.Word
  st : SStmt
  da : Option AST.Word

/-! ### Syntax trees -/

def SArg.ast (a : SArg) : AST.Node := .predArg a.id a.focus a.quant a.p.ast none

def CArg.ast : CArg → AST.Node
  | .one a => a.ast
  | .join _ t0 t1 ru l r => .cop .argument t0 t1 ru l.ast r.ast

def STerm.ast (t : STerm) : AST.Node :=
  match t.place with
  | none => t.arg.ast
  | some g => .linked g.1 t.arg.ast

def SStmt.ast : SStmt → AST.Node
  | .base p na => .predication .raw p.ast none na
  | .pred p ts na => .predication .raw p.ast (some (ts.map STerm.ast)) na
  | .prenex _ bi ts st => .prenexStmt (ts.map STerm.ast) bi st.ast
  | .conn _ t0 t1 ru l r => .cop .statement t0 t1 ru l.ast r.ast

def SSent.ast (s : SSent) : AST.Node := .sentence s.je s.st.ast s.da

/-! ### The words are what they are said to be -/

def SArg.Ok (U : Uni) (a : SArg) : Prop :=
  ((a.quant = none ∧ a.q = .the) ∨ ∃ w b, a.quant = some w ∧ quantWord a.q = some b ∧ Reads U w.T b) ∧
  a.p.Ok U

def CArg.Ok (U : Uni) : CArg → Prop
  | .one a => a.Ok U
  | .join c _ _ ru l r => Reads U ru.T (connWord c) ∧ l.Ok U ∧ r.Ok U

def STerm.Ok (U : Uni) (t : STerm) : Prop :=
  (∀ g, t.place = some g → ∃ b, placeWord g.2 = some b ∧ Reads U g.1.T b) ∧ t.arg.Ok U

def CArg.isOne : CArg → Bool
  | .one _ => true
  | .join .. => false

/-- At most one term of a list is connected. -/
def Single : List STerm → Prop
  | [] => True
  | t :: ts => (t.arg.isOne = true ∨ ∀ u ∈ ts, u.arg.isOne = true) ∧ Single ts

def SStmt.Ok (U : Uni) : SStmt → Prop
  | .base p _ => p.Ok U
  | .pred p ts _ => p.Ok U ∧ (∀ t ∈ ts, t.Ok U) ∧ Single ts
  | .prenex pa bi ts st => (pa = true ↔ Reads U bi.T "pa".toList) ∧ (∀ t ∈ ts, t.Ok U) ∧ Single ts ∧ st.Ok U
  | .conn c _ _ ru l r => Reads U ru.T (connWord c) ∧ l.Ok U ∧ r.Ok U

/-! ### Arguments of a text -/

def CArg.args : CArg → List SArg
  | .one a => [a]
  | .join _ _ _ _ l r => l.args ++ r.args

def SStmt.args : SStmt → List SArg
  | .base _ _ => []
  | .pred _ ts _ => ts.flatMap fun t => t.arg.args
  | .prenex _ _ ts st => (ts.flatMap fun t => t.arg.args) ++ st.args
  | .conn _ _ _ _ l r => l.args ++ r.args

/-! ## Meanings -/

/-- Spec: a statement whose variables are the arguments of the text. -/
inductive T where
  | bind (q : Quant) (src : Nat) (restr body : T)
  | conn (c : Conn) (l r : T)
  | app (p : Node) (args : List (Option Nat))

def Alt.toT : Alt T → T
  | .one t => t
  | .join c l r => .conn c l.toT r.toT

/-- Spec: the predication of a predicate to arguments. -/
def PExp.says (U : Uni) (p : PExp) (as : List (Option Nat)) : T := ((p.alts U).map fun x => .app x as).toT

/-- Arguments with ke or hi are bound at the top. -/
def SArg.lifts (a : SArg) : Bool := a.q = .the || a.q = .hi

/-- Spec: what an argument binds. -/
def SArg.binds (U : Uni) (a : SArg) (t : T) : T := .bind a.q a.id (a.p.says U [some a.id]) t

/-- Spec: what an argument binds where it stands. -/
def SArg.over (U : Uni) (a : SArg) (t : T) : T := if a.lifts then t else a.binds U t

/-- The place of a term; 0 if it has none. -/
def STerm.pos (t : STerm) : Nat := (t.place.map (·.2)).getD 0

/-- Spec: every alternative is in the place of the connected argument. -/
def CArg.dist (f : SArg → T) : CArg → T
  | .one a => f a
  | .join c _ _ _ l r => .conn c (l.dist f) (r.dist f)

/-- Spec: terms, one after the other, in front of what they are arguments of. `acc` are the arguments
so far, with their places. -/
def termsMean (U : Uni) (k : List (Nat × Nat) → T) : List STerm → List (Nat × Nat) → T
  | [], acc => k acc
  | t :: ts, acc => t.arg.dist fun a => a.over U (termsMean U k ts (acc ++ [(a.id, t.pos)]))

/-- Spec: a statement with the given arguments before its own. Arguments go to their places as C26 says.
A prenex with pa provides arguments to its statement, others do not. -/
def SStmt.mean (U : Uni) : SStmt → List (Nat × Nat) → T
  | .base p _, acc => p.says U ((orderArguments acc).getD [])
  | .pred p ts _, acc => termsMean U (fun acc => p.says U ((orderArguments acc).getD [])) ts acc
  | .prenex pa _ ts st, acc => termsMean U (fun acc => st.mean U (if pa then acc else [])) ts acc
  | .conn c _ _ _ l r, acc => .conn c (l.mean U acc) (r.mean U acc)

/-- Spec: the order in which arguments are met: of a connected argument the first alternative, what
follows the argument, and then the other alternatives. -/
def termsOrder (rest : List SArg) : List STerm → List SArg
  | [] => rest
  | t :: ts => t.arg.args.take 1 ++ termsOrder rest ts ++ t.arg.args.drop 1

def SStmt.order : SStmt → List SArg
  | .base _ _ => []
  | .pred _ ts _ => termsOrder [] ts
  | .prenex _ _ ts st => termsOrder st.order ts
  | .conn _ _ _ _ l r => l.order ++ r.order

/-- Spec: the questions of a sentence are bound around its statement. -/
def SSent.mean (U : Uni) (s : SSent) : T :=
  (s.st.order.filter (·.q = .hi)).foldr (SArg.binds U) (s.st.mean U [])

/-- Spec: sentences are joined by "and". -/
def joinAll (U : Uni) : SSent → List SSent → T
  | s, ss => ss.foldl (fun t s => .conn .and t (s.mean U)) (s.mean U)

/-- Spec: the meaning of a text, with the arguments with ke of all its sentences bound around it. -/
def textMean (U : Uni) (s : SSent) (ss : List SSent) : T :=
  (((s :: ss).flatMap fun s => s.st.order).filter (·.q = .the)).foldr (SArg.binds U) (joinAll U s ss)

/-! ### What it means to be a tree with a meaning -/

/-- Spec: a variable for an argument: it has the number of the argument's binding and points to it. -/
def ArgIs (E : Nat → Option Nat) (s : Nat) : Node → Prop
  | .var v => E s = some v.n ∧ v.dfn ≠ none
  | _ => False

/-- Both missing or both there and related. -/
def RelO {α β : Type} (R : α → β → Prop) : Option α → Option β → Prop
  | none, none => True
  | some a, some b => R a b
  | _, _ => False

/-- Spec: a logic tree is a statement with the given meaning. `E` are the numbers of the bindings in
scope; a binding has a number of its own. -/
def Is : (Nat → Option Nat) → T → Node → Prop
  | E, .bind q s r b, .bind q' _ m _ (some r') b' =>
    q' = q ∧ (∀ i, E i ≠ some m) ∧ Is (upd E s (some m)) r r' ∧ Is (upd E s (some m)) b b'
  | E, .conn c l r, .conn c' l' r' => c' = c ∧ Is E l l' ∧ Is E r r'
  | E, .app p as, .app p' as' => p' = p ∧ List.Forall₂ (RelO (ArgIs E)) as as'
  | _, _, _ => False

/-! ## Proofs: argument lists -/

section Order
variable {α β : Type} {R : α → β → Prop}

abbrev RelA (R : α → β → Prop) : List (α × Nat) → List (β × Nat) → Prop :=
  List.Forall₂ fun a b => R a.1 b.1 ∧ a.2 = b.2

theorem orderLen_rel {as : List (α × Nat)} {bs : List (β × Nat)} (h : RelA R as bs) :
    orderLen as = orderLen bs := by
  have : ∀ n, as.foldl (fun n a => if a.2 > n then a.2 else n) n =
      bs.foldl (fun n a => if a.2 > n then a.2 else n) n := by
    induction h with
    | nil => intro n; rfl
    | cons h _ ih => intro n; simp only [List.foldl_cons, h.2, ih]
  unfold orderLen
  rw [this, h.length_eq]

theorem forall₂_set {γ δ : Type} {Q : γ → δ → Prop} {l : List γ} {m : List δ} (h : List.Forall₂ Q l m)
    (i : Nat) {x : γ} {y : δ} (hxy : Q x y) : List.Forall₂ Q (l.set i x) (m.set i y) := by
  induction h generalizing i with
  | nil => simp
  | cons h1 h2 ih =>
    cases i with
    | zero => exact .cons hxy h2
    | succ i => exact .cons h1 (ih i)

theorem orderPlace_rel {as : List (α × Nat)} {bs : List (β × Nat)} (h : RelA R as bs) :
    ∀ {l : List (Option α)} {m : List (Option β)}, List.Forall₂ (RelO R) l m →
      RelO (List.Forall₂ (RelO R)) (orderPlace as l) (orderPlace bs m) := by
  induction h with
  | nil => intro l m h; exact h
  | @cons a b as bs h _ ih =>
    obtain ⟨a, p⟩ := a
    obtain ⟨b, q⟩ := b
    obtain ⟨h, rfl⟩ := h
    intro l m hl
    simp only [orderPlace, hl.length_eq]
    split
    · split
      · exact ih (forall₂_set hl _ h)
      · trivial
    · exact ih hl

theorem orderSkip_rel {l : List (Option α)} {m : List (Option β)} (h : List.Forall₂ (RelO R) l m) :
    ∀ k i, orderSkip l k i = orderSkip m k i := by
  intro k
  induction k with
  | zero => intro i; rfl
  | succ k ih =>
    intro i
    have key : RelO (RelO R) l[i]? m[i]? := by
      clear ih
      induction h generalizing i with
      | nil => simp [RelO]
      | cons h1 h2 ih =>
        cases i with
        | zero => simpa [RelO] using h1
        | succ i => simpa using ih i
    simp only [orderSkip]
    revert key
    cases l[i]? with
    | none => cases m[i]? <;> simp [RelO]
    | some x =>
      cases m[i]? with
      | none => simp [RelO]
      | some y => cases x <;> cases y <;> simp [RelO, ih]

theorem orderFill_rel {as : List (α × Nat)} {bs : List (β × Nat)} (h : RelA R as bs) :
    ∀ {l : List (Option α)} {m : List (Option β)} (i : Nat), List.Forall₂ (RelO R) l m →
      RelO (List.Forall₂ (RelO R)) (orderFill as i l) (orderFill bs i m) := by
  induction h with
  | nil => intro l m i h; exact h
  | @cons a b as bs h _ ih =>
    obtain ⟨a, p⟩ := a
    obtain ⟨b, q⟩ := b
    obtain ⟨h, rfl⟩ := h
    intro l m i hl
    simp only [orderFill, hl.length_eq, orderSkip_rel hl]
    split
    · exact ih _ hl
    · split
      · trivial
      · exact ih _ (forall₂_set hl _ h)

theorem order_rel {as : List (α × Nat)} {bs : List (β × Nat)} (h : RelA R as bs) :
    ∃ l m, orderArguments as = some l ∧ orderArguments bs = some m ∧ List.Forall₂ (RelO R) l m := by
  have hp := orderPlace_rel h (l := List.replicate (orderLen as) none)
    (m := List.replicate (orderLen bs) none) (by
      rw [orderLen_rel h]
      generalize orderLen bs = n
      induction n with
      | zero => exact .nil
      | succ n ih => exact .cons trivial ih)
  obtain ⟨l, hl, -⟩ := C26_order as
  obtain ⟨m, hm, -⟩ := C26_order bs
  refine ⟨l, m, hl, hm, ?_⟩
  unfold orderArguments at hl hm
  revert hp hl hm
  cases orderPlace as (List.replicate (orderLen as) none) with
  | none => simp
  | some x =>
    cases orderPlace bs (List.replicate (orderLen bs) none) with
    | none => simp
    | some y =>
      intro hp hl hm
      have := orderFill_rel h 0 hp
      simp only at hl hm
      rw [hl, hm] at this
      exact this

end Order

/-! ## Proofs: runs -/

/-- With enough fuel. -/
def Runs {α : Type} (m : Nat → M α) (s : St) (a : α) (s' : St) : Prop :=
  ∃ k0, ∀ k, k0 ≤ k → m k s = .ok (a, s')

section Runs
variable {α β : Type} {s s' s'' : St} {a : α} {b : β} {U : Uni}

theorem Runs.const {m : M α} (h : m s = .ok (a, s')) : Runs (fun _ => m) s a s' := ⟨0, fun _ _ => h⟩

theorem Runs.ret : Runs (fun _ => (pure a : M α)) s a s := ⟨0, fun _ _ => rfl⟩

theorem Runs.bind {m : Nat → M α} {f : Nat → α → M β} (h1 : Runs m s a s')
    (h2 : Runs (fun k => f k a) s' b s'') : Runs (fun k => m k >>= f k) s b s'' := by
  obtain ⟨k1, h1⟩ := h1
  obtain ⟨k2, h2⟩ := h2
  refine ⟨max k1 k2, fun k hk => ?_⟩
  show M.bind (m k) (f k) s = _
  unfold M.bind
  rw [h1 k (by omega)]
  exact h2 k (by omega)

theorem Runs.keepVars {m : Nat → M α} (h : Runs m s a s') (hv : s'.vars = s.vars) :
    Runs (fun k => Verif.Logic.keepVars (m k)) s a s' := by
  obtain ⟨k1, h1⟩ := h
  refine ⟨k1, fun k hk => ?_⟩
  simp only [Verif.Logic.keepVars, h1 k hk, ← hv]

theorem Runs.statement {args : Args} {n : AST.Node} {r : Node}
    (h : Runs (fun k => statementF U (fns U k) args n) s r s') :
    Runs (fun k => (fns U k).statement args n) s r s' := by
  obtain ⟨k1, h1⟩ := h
  refine ⟨k1 + 1, fun k hk => ?_⟩
  obtain ⟨j, rfl⟩ : ∃ j, k = j + 1 := ⟨k - 1, by omega⟩
  exact h1 j (by omega)

theorem Runs.prenexS {args : Args} {bi : Str} {n : AST.Node} {ts : List AST.Node}
    {r : Node × List AST.Node} (h : Runs (fun k => prenexSF U (fns U k) args bi n ts) s r s') :
    Runs (fun k => (fns U k).prenexS args bi n ts) s r s' := by
  obtain ⟨k1, h1⟩ := h
  refine ⟨k1 + 1, fun k hk => ?_⟩
  obtain ⟨j, rfl⟩ : ∃ j, k = j + 1 := ⟨k - 1, by omega⟩
  exact h1 j (by omega)

theorem Runs.predArg {n : AST.Node} {r : Option Pending × Node}
    (h : Runs (fun k => predArgF U (fns U k) n) s r s') :
    Runs (fun k => (fns U k).predArg n) s r s' := by
  obtain ⟨k1, h1⟩ := h
  refine ⟨k1 + 1, fun k hk => ?_⟩
  obtain ⟨j, rfl⟩ : ∃ j, k = j + 1 := ⟨k - 1, by omega⟩
  exact h1 j (by omega)

theorem Runs.predication {e : PExp} (he : e.Ok U) {args : Args} {as : List (Option Node)}
    (ha : orderArguments args = some as) :
    Runs (fun k => Verif.Logic.predication (fns U k) e.ast args) s
      ((e.alts U).map fun p => .app p as).stmt s :=
  ⟨e.depth, fun k hk => C40_distributes U e he args as ha k hk s⟩

end Runs

/-! ## Proofs: trees with meaning -/

/-- Names and series of names. -/
def PlainP : Node → Prop
  | .name _ => True
  | .serial l r => PlainP l ∧ PlainP r
  | _ => False

theorem Alt.all_plain_bind {a : Alt Node} {b : Alt Node} (ha : ∀ x ∈ a.all, PlainP x)
    (hb : ∀ x ∈ b.all, PlainP x) :
    ∀ x ∈ (a.bind fun x => b.map fun y => .serial x y).all, PlainP x := by
  intro x hx
  simp only [Alt.all_bind, Alt.all_map, List.mem_flatMap, List.mem_map] at hx
  obtain ⟨l, hl, r, hr, rfl⟩ := hx
  exact ⟨ha l hl, hb r hr⟩

theorem PExp.alts_plain (U : Uni) : ∀ (e : PExp), ∀ x ∈ (e.alts U).all, PlainP x
  | .word w => by simp [PExp.alts, Alt.all, PlainP]
  | .conn _ _ _ ru l r => by
    intro x hx
    simp only [PExp.alts, Alt.all, List.mem_append] at hx
    rcases hx with h | h
    · exact PExp.alts_plain U l x h
    · exact PExp.alts_plain U r x h
  | .serial l r => Alt.all_plain_bind (PExp.alts_plain U l) (PExp.alts_plain U r)

/-- Nodes that are neither variables nor bindings. -/
def Inert : Node → Prop
  | .conn _ _ _ => True
  | .app _ _ => True
  | .name _ => True
  | .serial _ _ => True
  | _ => False

theorem plain_inert : ∀ {p : Node}, PlainP p → ∀ x ∈ pre p, Inert x
  | .name _, _ => by simp [pre, Inert]
  | .serial l r, h => by
    intro x hx
    simp only [pre, List.mem_cons, List.mem_append] at hx
    rcases hx with rfl | hx | hx
    · trivial
    · exact plain_inert h.1 x hx
    · exact plain_inert h.2 x hx

/-- The nodes of a connection of predications to the given arguments. -/
theorem stmt_nodes {t : Alt Node} (ht : ∀ x ∈ t.all, PlainP x) (as : List (Option Node)) :
    ∀ x ∈ pre (t.map fun p => .app p as).stmt, Inert x ∨ x ∈ preL as := by
  induction t with
  | one p =>
    intro x hx
    simp only [Alt.map, Alt.stmt, pre, List.mem_cons, List.mem_append] at hx
    rcases hx with rfl | hx | hx
    · exact .inl trivial
    · exact .inl (plain_inert (ht p (by simp [Alt.all])) x hx)
    · exact .inr hx
  | join c l r ihl ihr =>
    intro x hx
    simp only [Alt.map, Alt.stmt, pre, List.mem_cons, List.mem_append] at hx
    rcases hx with rfl | hx | hx
    · exact .inl trivial
    · exact ihl (fun y hy => ht y (by simp [Alt.all, hy])) x hx
    · exact ihr (fun y hy => ht y (by simp [Alt.all, hy])) x hx

theorem inert_bindIds {l : List Node} (h : ∀ x ∈ l, Inert x ∨ ∃ v, x = .var v) : bindIds l = [] := by
  unfold bindIds
  rw [List.filterMap_eq_nil_iff]
  intro x hx
  rcases h x hx with h | ⟨v, rfl⟩
  · cases x <;> simp_all [Inert]
  · rfl

theorem says_is {U : Uni} {E : Nat → Option Nat} (p : PExp) {as : List (Option Nat)}
    {bs : List (Option Node)} (h : List.Forall₂ (RelO (ArgIs E)) as bs) :
    Is E (p.says U as) ((p.alts U).map fun x => .app x bs).stmt := by
  unfold PExp.says
  induction p.alts U with
  | one x => exact ⟨rfl, h⟩
  | join c l r ihl ihr => exact ⟨rfl, ihl, ihr⟩

theorem argIs_mono {E E' : Nat → Option Nat} (h : ∀ i b, E i = some b → E' i = some b) {s : Nat} {n : Node}
    (hn : ArgIs E s n) : ArgIs E' s n := by
  unfold ArgIs at hn ⊢
  split at hn
  · exact ⟨h _ _ hn.1, hn.2⟩
  · exact hn.elim

theorem relO_mono {α β : Type} {R R' : α → β → Prop} (h : ∀ a b, R a b → R' a b) {a : Option α}
    {b : Option β} (hr : RelO R a b) : RelO R' a b := by
  cases a <;> cases b <;> simp_all [RelO]

/-- The numbers of the bindings. -/
def bnums (l : List Node) : List Nat := l.filterMap fun
  | .bind _ _ n _ _ _ => some n
  | _ => none

theorem bnums_append (l m : List Node) : bnums (l ++ m) = bnums l ++ bnums m := by simp [bnums]
theorem bnums_cons_bind (q id n f r s) (l : List Node) :
    bnums (.bind q id n f r s :: l) = n :: bnums l := by simp [bnums]
theorem bnums_cons_conn (c x y) (l : List Node) : bnums (.conn c x y :: l) = bnums l := by simp [bnums]

theorem is_mono : ∀ {t : T} {n : Node} {E E' : Nat → Option Nat}, Is E t n →
    (∀ i b, E i = some b → E' i = some b) →
    (∀ i b, E' i = some b → E i = some b ∨ b ∉ bnums (pre n)) → Is E' t n := by
  intro t
  induction t with
  | bind q s r b ihr ihb =>
    intro n E E' h h1 h2
    match n, h with
    | .bind q' id m f (some r') b', h =>
      obtain ⟨rfl, hf, hr, hb⟩ := h
      simp only [pre, preO, bnums_cons_bind, bnums_append, List.mem_cons,
        List.mem_append, not_or] at h2
      have hup : ∀ i b, upd E s (some m) i = some b → upd E' s (some m) i = some b := by
        intro i b; unfold upd; split
        · exact fun h => h
        · exact h1 i b
      refine ⟨rfl, ?_, ihr hr hup ?_, ihb hb hup ?_⟩
      · intro i hi
        rcases h2 i m hi with h | h
        · exact hf i h
        · exact h.1 rfl
      · intro i b; unfold upd; split
        · exact .inl
        · intro hi; exact (h2 i b hi).imp_right fun h => h.2.1
      · intro i b; unfold upd; split
        · exact .inl
        · intro hi; exact (h2 i b hi).imp_right fun h => h.2.2
  | conn c l r ihl ihr =>
    intro n E E' h h1 h2
    match n, h with
    | .conn c' l' r', h =>
      simp only [pre, bnums_cons_conn, bnums_append,
        List.mem_append, not_or] at h2
      exact ⟨h.1, ihl h.2.1 h1 fun i b hi => (h2 i b hi).imp_right (·.1),
        ihr h.2.2 h1 fun i b hi => (h2 i b hi).imp_right (·.2)⟩
  | app p as =>
    intro n E E' h h1 h2
    match n, h with
    | .app p' as', h =>
      exact ⟨h.1, h.2.imp fun _ _ => relO_mono fun _ _ => argIs_mono h1⟩

end Verif.Logic
