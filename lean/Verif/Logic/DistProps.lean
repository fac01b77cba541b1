/-
C40: predications of connected and serial predicates.
-/
import Verif.Logic.InterpProps

namespace Verif.Logic
open Verif.Tone (Str)

/-- Spec: alternatives joined by connectives. -/
inductive Alt (α : Type) where
  | one (a : α)
  | join (c : Conn) (l r : Alt α)

def Alt.map {α β : Type} (g : α → β) : Alt α → Alt β
  | .one a => .one (g a)
  | .join c l r => .join c (l.map g) (r.map g)

/-- Every alternative replaced by alternatives. -/
def Alt.bind {α β : Type} : Alt α → (α → Alt β) → Alt β
  | .one a, g => g a
  | .join c l r, g => .join c (l.bind g) (r.bind g)

def Alt.all {α : Type} : Alt α → List α
  | .one a => [a]
  | .join _ l r => l.all ++ r.all

/-- The connected statement. -/
def Alt.stmt : Alt Node → Node
  | .one s => s
  | .join c l r => .conn c l.stmt r.stmt

/-- Predicates made of words by connectives (infix or, with to, prefix; as predicates or as content)
and by putting them in series. -/
inductive PExp where
  | word (w : AST.Word)
  | conn (content : Bool) (to0 to1 : Option AST.Word) (ru : AST.Word) (l r : PExp)
  | serial (l r : PExp)

/-- Its syntax tree. -/
def PExp.ast : PExp → AST.Node
  | .word w => .word .predicate w
  | .conn c t0 t1 ru l r => .cop (if c then .content else .predicate) t0 t1 ru l.ast r.ast
  | .serial l r => .serial l.ast r.ast

/-- Its words are names of predicates and its connectives are ru, ra or ri. -/
def PExp.Ok (U : Uni) : PExp → Prop
  | .word w => splitVar U w.T = none ∧ isHoa U w.T = false
  | .conn _ _ _ ru l r => (∃ c, connector U ru.T = some c) ∧ l.Ok U ∧ r.Ok U
  | .serial l r => l.Ok U ∧ r.Ok U

/-- Spec: the alternatives of a predicate; for a serial predicate each alternative on the left with
each one on the right. -/
def PExp.alts (U : Uni) : PExp → Alt Node
  | .word w => .one (.name (wordPred U w.T))
  | .conn _ _ _ ru l r => .join ((connector U ru.T).getD .and) (l.alts U) (r.alts U)
  | .serial l r => (l.alts U).bind fun x => (r.alts U).map fun y => .serial x y

def PExp.depth : PExp → Nat
  | .word _ => 1
  | .conn _ _ _ _ l r => max l.depth r.depth + 1
  | .serial l r => max l.depth r.depth + 1

def PTree.alt : PTree → Alt Node
  | .leaf p => .one p
  | .conn c l r => .join c l.alt r.alt

theorem serialRight_alt (l : Node) : ∀ t : PTree,
    (serialRight l t).alt = t.alt.map fun y => .serial l y
  | .leaf r => rfl
  | .conn c r1 r2 => by
    simp only [serialRight, PTree.alt, Alt.map, serialRight_alt l r1, serialRight_alt l r2]

theorem serialLeft_alt (r : PTree) : ∀ t : PTree,
    (serialLeft r t).alt = t.alt.bind fun x => r.alt.map fun y => .serial x y
  | .leaf l => by simp only [serialLeft, PTree.alt, Alt.bind, serialRight_alt]
  | .conn c l1 l2 => by
    simp only [serialLeft, PTree.alt, Alt.bind, serialLeft_alt r l1, serialLeft_alt r l2]

theorem PExp.isPredicate (e : PExp) : isPredicate e.ast = true := by
  cases e with
  | word => rfl
  | conn c => cases c <;> rfl
  | serial => rfl

theorem predicate_alts (U : Uni) (e : PExp) (h : e.Ok U) (k : Nat) (hk : e.depth ≤ k) (s : St) :
    ∃ t, (fns U k).predicate e.ast s = .ok (t, s) ∧ t.alt = e.alts U := by
  induction e generalizing k with
  | word w =>
    obtain ⟨k, rfl⟩ : ∃ j, k = j + 1 := ⟨k - 1, by simp [PExp.depth] at hk; omega⟩
    refine ⟨.leaf (.name (wordPred U w.T)), ?_, rfl⟩
    simp only [fns, step, predicateF, PExp.ast, h.1, h.2]
    rfl
  | conn c t0 t1 ru l r ihl ihr =>
    obtain ⟨k, rfl⟩ : ∃ j, k = j + 1 := ⟨k - 1, by simp [PExp.depth] at hk; omega⟩
    obtain ⟨⟨d, hd⟩, hl, hr⟩ := h
    simp only [PExp.depth] at hk
    obtain ⟨tl, hl1, hl2⟩ := ihl hl k (by omega)
    obtain ⟨tr, hr1, hr2⟩ := ihr hr k (by omega)
    refine ⟨.conn d tl tr, ?_, by simp [PTree.alt, PExp.alts, hd, hl2, hr2]⟩
    have hstep : (do
        let c ← orMsg (connector U ru.T)
        assert Verif.Logic.isPredicate l.ast
        let l ← (fns U k).predicate l.ast
        assert Verif.Logic.isPredicate r.ast
        let r ← (fns U k).predicate r.ast
        return PTree.conn c l r : M PTree) s = .ok (.conn d tl tr, s) := by
      rw [hd]
      show M.bind (orMsg (some d)) _ s = _
      simp only [assert, PExp.isPredicate, if_true]
      simp only [orMsg, M.bind, bind, pure, M.pure, hl1, hr1]
    cases c <;> exact hstep
  | serial l r ihl ihr =>
    obtain ⟨k, rfl⟩ : ∃ j, k = j + 1 := ⟨k - 1, by simp [PExp.depth] at hk; omega⟩
    simp only [PExp.depth] at hk
    obtain ⟨tl, hl1, hl2⟩ := ihl h.1 k (by omega)
    obtain ⟨tr, hr1, hr2⟩ := ihr h.2 k (by omega)
    refine ⟨serialLeft tr tl, ?_, by simp only [serialLeft_alt, PExp.alts, hl2, hr2]⟩
    simp only [fns, step, predicateF, PExp.ast, assert, PExp.isPredicate, if_true]
    simp only [M.bind, bind, pure, M.pure, hl1, hr1]

theorem distribute_alt (args : Args) (as : List (Option Node)) (h : orderArguments args = some as)
    (t : PTree) (s : St) :
    distribute args t s = .ok ((t.alt.map fun p => .app p as).stmt, s) := by
  induction t generalizing s with
  | leaf p =>
    unfold distribute
    rw [h]
    rfl
  | conn c l r ihl ihr =>
    unfold distribute
    simp only [bind, M.bind, ihl, ihr, pure, M.pure]
    rfl

/-- C40: the predication of any connected and serial predicate is the connection of the predications
of its alternatives, all with the same arguments; interpreting it has no other effect. -/
theorem C40_distributes (U : Uni) (e : PExp) (he : e.Ok U) (args : Args) (as : List (Option Node))
    (ha : orderArguments args = some as) (k : Nat) (hk : e.depth ≤ k) (s : St) :
    predication (fns U k) e.ast args s = .ok (((e.alts U).map fun p => .app p as).stmt, s) := by
  obtain ⟨t, ht, halt⟩ := predicate_alts U e he k hk s
  unfold predication
  simp only [bind, M.bind, ht, distribute_alt args as ha, halt]

theorem Alt.all_map {α β : Type} (g : α → β) (t : Alt α) : (t.map g).all = t.all.map g := by
  induction t with
  | one => rfl
  | join c l r ihl ihr => simp [Alt.map, Alt.all, ihl, ihr]

theorem Alt.all_bind {α β : Type} (t : Alt α) (g : α → Alt β) :
    (t.bind g).all = t.all.flatMap fun a => (g a).all := by
  induction t with
  | one => simp [Alt.bind, Alt.all]
  | join c l r ihl ihr => simp [Alt.bind, Alt.all, ihl, ihr]

/-- The predicates of the predications that a connected statement consists of. -/
def preds : Node → List Node
  | .app p _ => [p]
  | .conn _ l r => preds l ++ preds r
  | _ => []

theorem preds_stmt (as : List (Option Node)) (t : Alt Node) :
    preds (t.map fun p => .app p as).stmt = t.all := by
  induction t with
  | one => rfl
  | join c l r ihl ihr => simp [Alt.map, Alt.stmt, Alt.all, preds, ihl, ihr]

/-- C40: the predications made of a serial predicate are made of all pairs of the predicates that its
parts alone would give, so their number is the product. -/
theorem C40_serial_pairs (U : Uni) (l r : PExp) (hl : l.Ok U) (hr : r.Ok U) (args : Args)
    (as : List (Option Node)) (ha : orderArguments args = some as) (k : Nat)
    (hk : max l.depth r.depth + 1 ≤ k) (s : St) :
    ∃ t tl tr, predication (fns U k) (.serial l.ast r.ast) args s = .ok (t, s) ∧
      predication (fns U k) l.ast args s = .ok (tl, s) ∧
      predication (fns U k) r.ast args s = .ok (tr, s) ∧
      preds t = (preds tl).flatMap (fun x => (preds tr).map fun y => .serial x y) ∧
      (preds t).length = (preds tl).length * (preds tr).length := by
  refine ⟨_, _, _, C40_distributes U (.serial l r) ⟨hl, hr⟩ args as ha k hk s,
    C40_distributes U l hl args as ha k (by omega) s,
    C40_distributes U r hr args as ha k (by omega) s, ?_⟩
  simp only [preds_stmt]
  have h : ((PExp.serial l r).alts U).all =
      (l.alts U).all.flatMap fun x => (r.alts U).all.map fun y => .serial x y := by
    simp only [PExp.alts, Alt.all_bind, Alt.all_map]
  refine ⟨h, ?_⟩
  rw [h]
  induction (l.alts U).all with
  | nil => simp
  | cons x xs ih =>
    rw [List.flatMap_cons, List.length_append, ih, List.length_map, List.length_cons,
      Nat.add_mul, Nat.one_mul, Nat.add_comm]

/-- "noqgi ru noqsi" before "chuq ra haq" -/
def exPExp : PExp :=
  .serial (.conn false none none (.mk "ru".toList 0 0 none) (.word (.mk "noqgi".toList 0 0 none))
      (.word (.mk "noqsi".toList 0 0 none)))
    (.conn false none none (.mk "ra".toList 0 0 none) (.word (.mk "chuq".toList 0 0 none))
      (.word (.mk "haq".toList 0 0 none)))

example : exPExp.Ok asciiUni := by
  refine ⟨⟨⟨.and, by decide +kernel⟩, ⟨?_, ?_⟩, ?_, ?_⟩, ⟨.or, by decide +kernel⟩, ⟨?_, ?_⟩, ?_, ?_⟩ <;>
    decide +kernel

example : (exPExp.alts asciiUni).all.length = 4 := by decide +kernel
example : orderArguments ([(.quote [] false, 0)] : Args) = some [some (.quote [] false)] := rfl

end Verif.Logic
