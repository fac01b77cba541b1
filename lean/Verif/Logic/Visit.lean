/-
`Node.Visit` (/repo/logic/visit.go) and property C33.
-/
import Verif.Logic.Basic

namespace Verif.Logic

variable {σ : Type}

mutual
/-- visit.go:5-49 `Visit`: the callback is a state transformer. -/
def visit (f : σ → Node → σ) : Node → σ → σ
  | n@(.bind _ _ _ _ r s), st => visit f s (visitO f r (f st n))
  | n@(.conn _ l r), st => visit f r (visit f l (f st n))
  | n@(.app p as), st => visitL f as (visit f p (f st n))
  | n@(.var _), st => f st n
  | n@(.plural as), st => visitL f as (f st n)
  | n@(.quote _ _), st => f st n
  | n@(.name _), st => f st n
  | n@(.abs s), st => visit f s (f st n)
  | n@(.serial l r), st => visit f r (visit f l (f st n))
  | n@(.swap p _), st => visit f p (f st n)
/-- visit.go:51-57 `visit` on one node that may be nil. -/
def visitO (f : σ → Node → σ) : Option Node → σ → σ
  | none, st => st
  | some n, st => visit f n st
/-- visit.go:18-20, 27-29: the loop over arguments. -/
def visitL (f : σ → Node → σ) : List (Option Node) → σ → σ
  | [], st => st
  | a :: as, st => visitL f as (visitO f a st)
end

/-! ## Specification -/

/-- The non-nil children of a node, left to right: the node-valued fields of the structs of
logic.go:60-161 in order of declaration, with the predicate before its arguments. -/
def kids : Node → List Node
  | .bind _ _ _ _ r s => r.toList ++ [s]
  | .conn _ l r => [l, r]
  | .app p as => p :: as.filterMap id
  | .var _ => []
  | .plural as => as.filterMap id
  | .quote _ _ => []
  | .name _ => []
  | .abs s => [s]
  | .serial l r => [l, r]
  | .swap p _ => [p]

/-- Occurrences: the node reached from a node by a path of child indices. -/
def at? : Node → List Nat → Option Node
  | n, [] => some n
  | n, i :: p => match (kids n)[i]? with
    | some k => at? k p
    | none => none

/-- Document order of occurrences: an ancestor comes first, then left before right. -/
def before : List Nat → List Nat → Prop
  | [], [] => False
  | [], _ :: _ => True
  | _ :: _, [] => False
  | i :: p, j :: q => i < j ∨ (i = j ∧ before p q)

/-- The sequence of nodes on which `Visit` calls its function. -/
def trace (n : Node) : List Node := visit (fun l m => l ++ [m]) n []

/-! ## Lemmas -/

mutual
/-- The nodes below and including a node in pre-order. -/
def pre : Node → List Node
  | n@(.bind _ _ _ _ r s) => n :: (preO r ++ pre s)
  | n@(.conn _ l r) => n :: (pre l ++ pre r)
  | n@(.app p as) => n :: (pre p ++ preL as)
  | n@(.var _) => [n]
  | n@(.plural as) => n :: preL as
  | n@(.quote _ _) => [n]
  | n@(.name _) => [n]
  | n@(.abs s) => n :: pre s
  | n@(.serial l r) => n :: (pre l ++ pre r)
  | n@(.swap p _) => n :: pre p
def preO : Option Node → List Node
  | none => []
  | some n => pre n
def preL : List (Option Node) → List Node
  | [] => []
  | a :: as => preO a ++ preL as
end

mutual
theorem visit_eq (f : σ → Node → σ) : ∀ (n : Node) (st : σ), visit f n st = (pre n).foldl f st
  | .bind _ _ _ _ r s, st => by
    simp [visit, pre, List.foldl_append, visit_eq f s, visitO_eq f r]
  | .conn _ l r, st => by simp [visit, pre, visit_eq f l, visit_eq f r]
  | .app p as, st => by simp [visit, pre, visit_eq f p, visitL_eq f as]
  | .var _, st => by simp [visit, pre]
  | .plural as, st => by simp [visit, pre, visitL_eq f as]
  | .quote _ _, st => by simp [visit, pre]
  | .name _, st => by simp [visit, pre]
  | .abs s, st => by simp [visit, pre, visit_eq f s]
  | .serial l r, st => by simp [visit, pre, visit_eq f l, visit_eq f r]
  | .swap p _, st => by simp [visit, pre, visit_eq f p]
theorem visitO_eq (f : σ → Node → σ) : ∀ (o : Option Node) (st : σ),
    visitO f o st = (preO o).foldl f st
  | none, st => rfl
  | some n, st => by simp [visitO, preO, visit_eq f n]
theorem visitL_eq (f : σ → Node → σ) : ∀ (l : List (Option Node)) (st : σ),
    visitL f l st = (preL l).foldl f st
  | [], st => rfl
  | a :: as, st => by simp [visitL, preL, visitO_eq f a, visitL_eq f as]
end

theorem preL_eq (l : List (Option Node)) : preL l = (l.filterMap id).flatMap pre := by
  induction l with
  | nil => rfl
  | cons a as ih => cases a <;> simp [preL, preO, ih]

theorem pre_eq (n : Node) : pre n = n :: (kids n).flatMap pre := by
  cases n with
  | bind q id n f r s => cases r <;> simp [pre, preO, kids]
  | _ => simp [pre, kids, preL_eq]

theorem trace_eq (n : Node) : trace n = pre n := by
  have : ∀ (l a : List Node), l.foldl (fun l m => l ++ [m]) a = a ++ l := by
    intro l; induction l with
    | nil => simp
    | cons x l ih => intro a; simp [ih]
  simp [trace, visit_eq, this]

/-- Induction along children. -/
theorem kids_induct {P : Node → Prop} (h : ∀ n, (∀ k ∈ kids n, P k) → P n) : ∀ n, P n := by
  apply Node.induct
  · intro q id n f r s hr hs; apply h; intro k hk
    simp only [kids, List.mem_append, Option.mem_toList, List.mem_singleton] at hk
    rcases hk with hk | rfl
    · exact hr k hk
    · exact hs
  · intro c l r hl hr; apply h; intro k hk; simp [kids] at hk; rcases hk with rfl | rfl <;> assumption
  · intro p as hp has; apply h; intro k hk
    simp [kids] at hk; rcases hk with rfl | hk
    · exact hp
    · exact has k hk
  · intro v; apply h; intro k hk; simp [kids] at hk
  · intro as has; apply h; intro k hk; simp [kids] at hk; exact has k hk
  · intro t f; apply h; intro k hk; simp [kids] at hk
  · intro t; apply h; intro k hk; simp [kids] at hk
  · intro s hs; apply h; intro k hk; simp [kids] at hk; subst hk; exact hs
  · intro l r hl hr; apply h; intro k hk; simp [kids] at hk; rcases hk with rfl | rfl <;> assumption
  · intro p k hp; apply h; intro k hk; simp [kids] at hk; subst hk; exact hp

/-- All paths of occurrences, in pre-order. -/
def paths (n : Node) : List (List Nat) :=
  -- fuel-free definition through the size of the pre-order list
  go (pre n).length n
where
  go : Nat → Node → List (List Nat)
    | 0, _ => []
    | k + 1, n => [] :: (List.range (kids n).length).flatMap fun i =>
        match (kids n)[i]? with
        | some c => (go k c).map (i :: ·)
        | none => []

theorem pre_length_lt {n k : Node} (h : k ∈ kids n) : (pre k).length < (pre n).length := by
  rw [pre_eq n]
  have := List.Sublist.length_le (List.sublist_flatten_of_mem (List.mem_map_of_mem (f := pre) h))
  simp only [List.length_cons, List.flatMap]
  omega

theorem go_mem : ∀ (k : Nat) (n : Node), (pre n).length ≤ k → ∀ p,
    p ∈ paths.go k n ↔ (at? n p).isSome := by
  intro k
  induction k with
  | zero => intro n h; rw [pre_eq] at h; simp at h
  | succ k ih =>
    intro n h p
    cases p with
    | nil => simp [paths.go, at?]
    | cons i p =>
      simp only [paths.go, List.mem_cons, reduceCtorEq, List.mem_flatMap, List.mem_range, false_or,
        at?]
      constructor
      · rintro ⟨j, hj, hm⟩
        rw [List.getElem?_eq_getElem hj] at hm
        simp only [List.mem_map, List.cons.injEq] at hm
        obtain ⟨q, hq, rfl, rfl⟩ := hm
        rw [List.getElem?_eq_getElem hj]
        have := pre_length_lt (List.getElem_mem hj)
        exact (ih _ (by omega) _).1 hq
      · intro hs
        cases hk : (kids n)[i]? with
        | none => simp [hk] at hs
        | some c =>
          simp only [hk] at hs
          obtain ⟨hi, hc⟩ := List.getElem?_eq_some_iff.1 hk
          refine ⟨i, hi, ?_⟩
          have := pre_length_lt (List.mem_of_getElem? hk)
          simp only [hk, List.mem_map, List.cons.injEq, true_and, exists_eq_right]
          exact (ih _ (by omega) _).2 hs

theorem go_sorted : ∀ (k : Nat) (n : Node), (paths.go k n).Pairwise before := by
  intro k
  induction k with
  | zero => intro n; simp [paths.go]
  | succ k ih =>
    intro n
    simp only [paths.go, List.pairwise_cons]
    constructor
    · intro p hp
      simp only [List.mem_flatMap, List.mem_range] at hp
      obtain ⟨i, hi, hp⟩ := hp
      rw [List.getElem?_eq_getElem hi] at hp
      simp only [List.mem_map] at hp
      obtain ⟨q, _, rfl⟩ := hp
      trivial
    · rw [List.pairwise_flatMap]
      constructor
      · intro i hi
        cases hk : (kids n)[i]? with
        | none => simp
        | some c =>
          simp only [List.pairwise_map]
          exact (ih c).imp fun h => Or.inr ⟨rfl, h⟩
      · refine (List.pairwise_lt_range (n := (kids n).length)).imp ?_
        intro i j hij p hp q hq
        cases hi : (kids n)[i]? with
        | none => simp [hi] at hp
        | some c =>
          cases hj : (kids n)[j]? with
          | none => simp [hj] at hq
          | some d =>
            simp only [hi, List.mem_map] at hp
            simp only [hj, List.mem_map] at hq
            obtain ⟨_, _, rfl⟩ := hp
            obtain ⟨_, _, rfl⟩ := hq
            exact Or.inl hij

theorem flatMap_range_get {α β : Type} (l : List α) (g : α → List β) :
    ((List.range l.length).flatMap fun i => match l[i]? with
      | some c => g c
      | none => []) = l.flatMap g := by
  induction l with
  | nil => rfl
  | cons a l ih =>
    rw [List.length_cons, List.range_succ_eq_map]
    simp only [List.flatMap_cons, List.flatMap_map, List.getElem?_cons_zero,
      List.getElem?_cons_succ]
    rw [ih]

theorem go_trace : ∀ (k : Nat) (n : Node), (pre n).length ≤ k →
    (paths.go k n).filterMap (at? n) = pre n := by
  intro k
  induction k with
  | zero => intro n h; rw [pre_eq] at h; simp at h
  | succ k ih =>
    intro n h
    rw [pre_eq n]
    simp only [paths.go, List.filterMap_cons, at?, List.cons.injEq, true_and]
    rw [List.filterMap_flatMap, ← flatMap_range_get (kids n) pre]
    congr 1
    funext i
    cases hk : (kids n)[i]? with
    | none => simp
    | some c =>
      have := pre_length_lt (List.mem_of_getElem? hk)
      simp only [List.filterMap_map]
      rw [← ih c (by omega)]
      congr 1
      funext p
      simp [at?, hk]

/-! ## C33 -/

/-- C33: there is an enumeration of all occurrences of nodes, each exactly once, in document order
(parents before children, left before right), along which `Visit` calls its function; the state
reached is the fold of the function along it. -/
theorem C33_visit (n : Node) :
    ∃ ps : List (List Nat),
      ps.Pairwise before ∧ (∀ p, p ∈ ps ↔ (at? n p).isSome) ∧
      (∀ (σ : Type) (f : σ → Node → σ) (st : σ),
        visit f n st = (ps.filterMap (at? n)).foldl f st) :=
  ⟨paths n, go_sorted _ _, go_mem _ n (Nat.le_refl _), fun _ f st => by
    rw [visit_eq, paths, go_trace _ n (Nat.le_refl _)]⟩

/-- Document order is irreflexive, so no occurrence is visited twice. -/
theorem before_irrefl : ∀ p, ¬ before p p
  | [] => fun h => h
  | _ :: p => fun h => by
    rcases h with h | ⟨_, h⟩
    · omega
    · exact before_irrefl p h

/-- C33: the number of calls is the number of occurrences, each visited once. -/
theorem C33_once (n : Node) (ps : List (List Nat)) (h : ps.Pairwise before)
    (hp : ∀ p, p ∈ ps ↔ (at? n p).isSome) :
    ps.Nodup ∧ (trace n).length = ps.length := by
  have hd : ∀ qs : List (List Nat), qs.Pairwise before → qs.Nodup := fun qs hq =>
    List.Pairwise.imp (fun {a b} (hab : before a b) (he : a = b) =>
      before_irrefl a (by rw [← he] at hab; exact hab)) hq
  refine ⟨hd _ h, ?_⟩
  have hperm : ps.Perm (paths n) :=
    (List.perm_ext_iff_of_nodup (hd _ h) (hd _ (go_sorted _ n))).2 fun p => by
      rw [hp]; exact (go_mem _ n (Nat.le_refl _) p).symm
  rw [hperm.length_eq, trace_eq, ← go_trace _ n (Nat.le_refl _)]
  have : ∀ l : List (List Nat), (∀ p ∈ l, (at? n p).isSome) →
      (l.filterMap (at? n)).length = l.length := by
    intro l hl
    induction l with
    | nil => rfl
    | cons p l ih =>
      have h1 := hl p (List.mem_cons_self ..)
      obtain ⟨m, hm⟩ := Option.isSome_iff_exists.1 h1
      simp [hm, ih fun q hq => hl q (List.mem_cons_of_mem _ hq)]
  exact this _ fun p hp => (go_mem _ n (Nat.le_refl _) p).1 hp

/-- C33: every node is announced before anything inside it, and siblings in order. -/
theorem C33_preorder (n : Node) : trace n = n :: (kids n).flatMap trace := by
  rw [trace_eq, pre_eq]
  congr 2
  funext k
  exact (trace_eq k).symm

/-- `[ιX : poq(X)] mai(X, ·, ⌊X, ·⌉)` -/
def exTree : Node :=
  let x : Node := .var ⟨.mk 0, 0, some 0, false⟩
  .bind .the 0 0 false (some (.app (.name ['p']) [some x]))
    (.app (.name ['m']) [some x, none, some (.plural [some x, none])])

example : (trace exTree).length = 9 := by decide
example : ((at? exTree [1, 2, 0]).isSome, (at? exTree [1, 3]).isSome) = (true, false) := by decide

end Verif.Logic
