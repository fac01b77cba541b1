/-
C64: exactly which failures are leaves after `DedupFails`.
-/
import Verif.Peg.Dedup

namespace Verif.Peg

variable {W : Type}

theorem ddWalkL_nil (ks : List (Fail W)) (T : List Nat) : (ddWalkL ks T).1 = [] ↔ ∀ k ∈ ks, k.id ∈ T := by
  induction ks with
  | nil => simp [ddWalkL]
  | cons k ks ih =>
    obtain ⟨i, n, p, w, ks'⟩ := k
    by_cases hi : i ∈ T
    · have e : ddWalk (.mk i n p w ks') T = (none, T) := by simp [ddWalk, hi]
      simp [ddWalkL, e, ih, Fail.id, hi]
    · simp [ddWalkL, ddWalk, Fail.id, hi]

/-- Every node that the walk keeps is the first of its address in `l`, and it is a leaf if and only if all its kids come before. -/
def Leaves (S : List Nat) (l r : List (Fail W)) : Prop :=
  ∀ y ∈ nodesL r, ∃ pre x post, l = pre ++ x :: post ∧ y.shape = x.shape ∧ x.id ∉ S ∧ x.id ∉ pre.map Fail.id ∧
    (y.kids = [] ↔ ∀ k ∈ x.kids, k.id ∈ S ∨ k.id ∈ pre.map Fail.id)

theorem Leaves.append {S S' : List Nat} {l l' r r' : List (Fail W)} (h : Leaves S l r) (h' : Leaves S' l' r')
    (hs : ∀ i, i ∈ S' ↔ i ∈ S ∨ i ∈ l.map Fail.id) : Leaves S (l ++ l') (r ++ r') := by
  intro y hy
  rw [nodesL_append, List.mem_append] at hy
  rcases hy with hy | hy
  · obtain ⟨pre, x, post, h1, h2, h3, h4, h5⟩ := h y hy
    exact ⟨pre, x, post ++ l', by simp [h1], h2, h3, h4, h5⟩
  · obtain ⟨pre, x, post, h1, h2, h3, h4, h5⟩ := h' y hy
    rw [hs] at h3
    refine ⟨l ++ pre, x, post, by simp [h1], h2, fun h => h3 (.inl h), ?_, h5.trans ?_⟩
    · rw [List.map_append, List.mem_append]
      rintro (h | h)
      · exact h3 (.inr h)
      · exact h4 h
    · refine forall_congr' fun k => forall_congr' fun _ => ?_
      rw [hs, List.map_append, List.mem_append, or_assoc]

theorem leaves_list {f : Fail W} (hc : Consistent f) (N : Nat) (ks : List (Fail W)) (hN : ∀ k ∈ ks, size k ≤ N)
    (ih : ∀ k ∈ ks, ∀ S, Sub f k → Over f S N → Leaves S (nodes k) (ddWalk k S).1.toList) :
    ∀ S, (∀ k ∈ ks, Sub f k) → Over f S N → Leaves S (nodesL ks) (ddWalkL ks S).1 := by
  induction ks with
  | nil => intro S _ _ y hy; simp [ddWalkL, nodesL] at hy
  | cons k ks IH =>
    intro S hk ho
    have p := dd_node hc k S N (hk k (by simp)) (hN k (by simp)) ho
    have h1 := ih k (by simp) S (hk k (by simp)) ho
    have h2 := IH (fun k h => hN k (by simp [h])) (fun k h => ih k (by simp [h])) (ddWalk k S).2 (fun k h => hk k (by simp [h]))
      (ho.post hc (nodes_closed (hk k (by simp))) p)
    simp only [ddWalkL, nodesL]
    exact h1.append h2 p.seen

theorem leaves_node {f : Fail W} (hc : Consistent f) : ∀ n : Fail W, ∀ S N, Sub f n → size n ≤ N → Over f S N →
    Leaves S (nodes n) (ddWalk n S).1.toList := by
  intro n
  induction n using Fail.induct with
  | h i nm p w ks ih =>
    intro S N hs hN ho
    by_cases hi : i ∈ S
    · have e : ddWalk (.mk i nm p w ks) S = (none, S) := by simp [ddWalk, hi]
      rw [e]
      intro y hy
      simp [nodesL] at hy
    · have e : ddWalk (.mk i nm p w ks) S =
          (some (.mk i nm p w (ddWalkL ks (i :: S)).1), (ddWalkL ks (i :: S)).2) := by simp [ddWalk, hi]
      have ho' : Over f (i :: S) (sizeL ks) := by
        intro x hx hxs
        rcases List.mem_cons.1 hxs with h | h
        · have := hc _ _ hx hs h
          subst this
          exact .inr (by simp only [size]; omega)
        · rcases ho x hx h with h | h
          · exact .inl fun y hy => by simp [h y hy]
          · refine .inr ?_
            simp only [size] at hN
            omega
      have P := leaves_list hc (sizeL ks) ks (fun k hk => size_lt hk)
        (fun k hk S' hk' ho => ih k hk S' _ hk' (size_lt hk) ho) (i :: S) (fun k hk => hs.trans (.kid hk (.refl _))) ho'
      rw [e]
      intro y hy
      simp only [Option.toList, nodesL, List.append_nil, nodes, List.mem_cons] at hy
      rcases hy with rfl | hy
      · refine ⟨[], .mk i nm p w ks, nodesL ks, by simp [nodes], rfl, hi, by simp, ?_⟩
        simp only [Fail.kids, List.map_nil, List.not_mem_nil, or_false, ddWalkL_nil]
        refine forall_congr' fun k => forall_congr' fun hk => ?_
        rw [List.mem_cons]
        refine ⟨fun h => h.resolve_left fun h => ?_, .inr⟩
        have h1 := hc k (.mk i nm p w ks) (hs.trans (.kid hk (.refl _))) hs h
        have h2 : size k ≤ sizeL ks := size_lt hk
        rw [h1] at h2
        simp only [size] at h2
        omega
      · obtain ⟨pre, x, post, h1, h2, h3, h4, h5⟩ := P y hy
        rw [List.mem_cons, not_or] at h3
        refine ⟨.mk i nm p w ks :: pre, x, post, by simp [nodes, h1], h2, h3.2, ?_, h5.trans ?_⟩
        · rw [List.map_cons, List.mem_cons, not_or]
          exact ⟨h3.1, h4⟩
        · refine forall_congr' fun k => forall_congr' fun _ => ?_
          simp only [List.map_cons, List.mem_cons, Fail.id]
          constructor
          · rintro ((h | h) | h)
            · exact .inr (.inl h)
            · exact .inl h
            · exact .inr (.inr h)
          · rintro (h | h | h)
            · exact .inl (.inr h)
            · exact .inl (.inl h)
            · exact .inr h

theorem first_unique {l l' m m' : List (Fail W)} {x y : Fail W} (h : l ++ x :: m = l' ++ y :: m') (e : x.id = y.id)
    (hl : x.id ∉ l.map Fail.id) (hl' : y.id ∉ l'.map Fail.id) : l = l' ∧ x = y := by
  induction l generalizing l' with
  | nil =>
    cases l' with
    | nil => simp at h; exact ⟨rfl, h.1⟩
    | cons b l' =>
      simp only [List.nil_append, List.cons_append, List.cons.injEq] at h
      simp [← h.1, e] at hl'
  | cons a l ih =>
    cases l' with
    | nil =>
      simp only [List.nil_append, List.cons_append, List.cons.injEq] at h
      simp [h.1, e] at hl
    | cons b l' =>
      simp only [List.cons_append, List.cons.injEq] at h
      simp only [List.map_cons, List.mem_cons, not_or] at hl hl'
      obtain ⟨h1, h2⟩ := ih h.2 hl.2 hl'.2
      exact ⟨by rw [h.1, h1], h2⟩

/-- C64. Exactly which failures are leaves afterwards: those all of whose kids are printed before the failure itself is first printed.
(`pre` are the failures before the first occurrence of `x`.) -/
theorem C64_leaves_exact (f : Fail W) (hc : Consistent f) (pre post : List (Fail W)) (x : Fail W) (h : nodes f = pre ++ x :: post)
    (hx : x.id ∉ pre.map Fail.id) :
    ∃ y, Sub (dedupFails f) y ∧ y.shape = x.shape ∧ (y.kids = [] ↔ ∀ k ∈ x.kids, k.id ∈ pre.map Fail.id) := by
  have hs : Sub f x := (mem_nodes f x).1 (by simp [h])
  obtain ⟨y, hy, e⟩ := (C64_once f hc).2 x hs
  have L := leaves_node hc f [] (size f) (.refl f) (Nat.le_refl _) (fun x _ h => by cases h)
  obtain ⟨i, n, p, w, ks⟩ := f
  have ed : ddWalk (.mk i n p w ks) [] = (some (.mk i n p w (ddWalkL ks [i]).1), (ddWalkL ks [i]).2) := by simp [ddWalk]
  have hr : (ddWalk (.mk i n p w ks) []).1.toList = [dedupFails (.mk i n p w ks)] := by simp [dedupFails, ed]
  rw [hr] at L
  obtain ⟨pre', x', post', h1, h2, _, h4, h5⟩ := L y (by simpa [nodesL] using (mem_nodes _ _).2 hy)
  have h6 : x.id = x'.id := congrArg Prod.fst (e.symm.trans h2)
  obtain ⟨rfl, rfl⟩ := first_unique (h.symm.trans h1) h6 hx h4
  refine ⟨y, hy, e, ?_⟩
  simpa using h5

/-- In the tree of the example in `Dedup` the node 4 keeps a kid; without it, it becomes a leaf. -/
example : (nodes (dedupFails exShared)).map (fun x => (x.id, x.kids.length)) = [(0, 2), (1, 1), (2, 1), (3, 0), (4, 1), (5, 0)] := by
  decide +kernel
def exLeaf : Fail Char :=
  let s := .mk 2 (some 7) 1 none [.mk 3 none 4 (some 'a') []]
  .mk 0 (some 0) 0 none [.mk 1 (some 5) 0 none [s], .mk 4 (some 6) 1 none [s]]
example : (nodes exLeaf).map Fail.id = [0, 1, 2, 3, 4, 2, 3] ∧
    (nodes (dedupFails exLeaf)).map (fun x => (x.id, x.kids.length)) = [(0, 2), (1, 1), (2, 1), (3, 0), (4, 0)] := by
  decide +kernel

end Verif.Peg
