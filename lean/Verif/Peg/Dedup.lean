/-
/repo/vendor/github.com/eaburns/peggy/peg/fail.go:100-118 `DedupFails`: model and property C64.
-/
import Verif.Peg.Fail

namespace Verif.Peg

variable {W : Type}

mutual
/-- fail.go:102-116, the closure `walk`, with the map `seen`. The result is the node with its new kids, or
`none` if `walk` returns false. The new kids are assigned to the node itself, which other nodes may
refer to; but they lose the reference when they are walked, since the node was seen. -/
def ddWalk : Fail W → List Nat → Option (Fail W) × List Nat
  | .mk i n p w ks, seen =>
    if seen.contains i then (none, seen)
    else (some (.mk i n p w (ddWalkL ks (i :: seen)).1), (ddWalkL ks (i :: seen)).2)
/-- fail.go:109-113, the loop over the kids. -/
def ddWalkL : List (Fail W) → List Nat → List (Fail W) × List Nat
  | [], seen => ([], seen)
  | k :: ks, seen =>
    ((ddWalk k seen).1.toList ++ (ddWalkL ks (ddWalk k seen).2).1, (ddWalkL ks (ddWalk k seen).2).2)
end

/-- fail.go:100-118 `DedupFails`: the tree afterwards. -/
def dedupFails (f : Fail W) : Fail W := (ddWalk f []).1.getD f

/-! ### Specification -/

mutual
/-- The nodes of a tree, a node before the nodes below it, from left to right. A node that is reached in
several ways is listed several times. -/
def nodes : Fail W → List (Fail W)
  | .mk i n p w ks => .mk i n p w ks :: nodesL ks
def nodesL : List (Fail W) → List (Fail W)
  | [] => []
  | k :: ks => nodes k ++ nodesL ks
end

/-- A node without its kids. -/
def Fail.shape (f : Fail W) : Nat × Option Nat × Nat × Option W := (f.id, f.name, f.pos, f.want)

/-- The kids of a node are not before the node. -/
def Forward (f : Fail W) : Prop := ∀ x k, Sub f x → k ∈ x.kids → x.pos ≤ k.pos

/-! ### Proofs -/

theorem mem_nodes (f : Fail W) : ∀ x, x ∈ nodes f ↔ Sub f x := by
  induction f using Fail.induct with
  | h i n p w ks ih =>
    have hL : ∀ (l : List (Fail W)) x, x ∈ nodesL l ↔ ∃ k ∈ l, x ∈ nodes k := by
      intro l x
      induction l with
      | nil => simp [nodesL]
      | cons a l ihl => simp [nodesL, ihl]
    intro x
    rw [nodes, List.mem_cons, hL]
    constructor
    · rintro (rfl | ⟨k, hk, hx⟩)
      · exact .refl _
      · exact .kid hk ((ih k hk x).1 hx)
    · intro h
      cases h with
      | refl => exact .inl rfl
      | kid hk hx => exact .inr ⟨_, hk, (ih _ hk x).2 hx⟩

/-- First occurrences that were not seen. -/
def unseen (S : List Nat) (l : List (Fail W)) : List (Fail W) := (firsts l).filter fun y => !S.contains y.id

theorem unseen_append (S : List Nat) (a b : List (Fail W)) (S' : List Nat) (h : ∀ i, i ∈ S' ↔ i ∈ S ∨ i ∈ a.map Fail.id) :
    unseen S (a ++ b) = unseen S a ++ unseen S' b := by
  unfold unseen
  rw [firsts_append, List.filter_append, List.filter_filter]
  congr 1
  apply List.filter_congr
  intro y _
  rw [Bool.eq_iff_iff]
  have := h y.id
  simp only [List.mem_map] at this
  simp only [Bool.and_eq_true, Bool.not_eq_true', List.contains_eq_mem, decide_eq_false_iff_not, List.all_eq_true, decide_eq_true_eq,
    this, ne_eq, not_or, not_exists, not_and]
  exact and_congr_right fun _ => ⟨fun h x hx e => h x hx e.symm, fun h x hx e => h x hx e.symm⟩

/-- Seen nodes are finished or bigger than `N`. -/
def Over (f : Fail W) (S : List Nat) (N : Nat) : Prop :=
  ∀ x, Sub f x → x.id ∈ S → (∀ y ∈ nodes x, y.id ∈ S) ∨ N < size x

/-- What a walk achieves. -/
structure DPost (S S' : List Nat) (l : List (Fail W)) (r : List (Fail W)) : Prop where
  seen : ∀ i, i ∈ S' ↔ i ∈ S ∨ i ∈ l.map Fail.id
  out : (nodesL r).map Fail.shape = (unseen S l).map Fail.shape

theorem Over.post {f : Fail W} {S S' : List Nat} {l r : List (Fail W)} {N : Nat} (hc : Consistent f)
    (hl : ∀ y ∈ l, Sub f y ∧ ∀ z ∈ nodes y, z ∈ l) (h : Over f S N) (p : DPost S S' l r) : Over f S' N := by
  intro x hx hs
  rcases (p.seen _).1 hs with h1 | h1
  · rcases h x hx h1 with h2 | h2
    · exact .inl fun y hy => (p.seen _).2 (.inl (h2 y hy))
    · exact .inr h2
  · obtain ⟨y, hy, e⟩ := List.mem_map.1 h1
    have := hc _ _ (hl y hy).1 hx e
    subst this
    exact .inl fun z hz => (p.seen _).2 (.inr (List.mem_map.2 ⟨z, (hl y hy).2 z hz, rfl⟩))

theorem nodes_closed {f n : Fail W} (h : Sub f n) : ∀ y ∈ nodes n, Sub f y ∧ ∀ z ∈ nodes y, z ∈ nodes n := by
  intro y hy
  rw [mem_nodes] at hy
  exact ⟨h.trans hy, fun z hz => (mem_nodes _ _).2 (hy.trans ((mem_nodes _ _).1 hz))⟩

theorem nodesL_append (a b : List (Fail W)) : nodesL (a ++ b) = nodesL a ++ nodesL b := by
  induction a with
  | nil => rfl
  | cons x a ih => simp [nodesL, ih]

theorem dd_list {f : Fail W} (hc : Consistent f) (N : Nat) (ks : List (Fail W))
    (ih : ∀ k ∈ ks, ∀ S, Sub f k → Over f S N → DPost S (ddWalk k S).2 (nodes k) (ddWalk k S).1.toList) :
    ∀ S, (∀ k ∈ ks, Sub f k) → Over f S N → DPost S (ddWalkL ks S).2 (nodesL ks) (ddWalkL ks S).1 := by
  induction ks with
  | nil => intro S _ _; exact ⟨by simp [ddWalkL, nodesL], by simp [ddWalkL, nodesL, unseen, firsts]⟩
  | cons k ks IH =>
    intro S hk ho
    have p1 := ih k (by simp) S (hk k (by simp)) ho
    have p2 := IH (fun k h => ih k (by simp [h])) (ddWalk k S).2 (fun k h => hk k (by simp [h]))
      (ho.post hc (nodes_closed (hk k (by simp))) p1)
    refine ⟨fun i => ?_, ?_⟩
    · simp only [ddWalkL, nodesL, List.map_append, List.mem_append]
      rw [p2.seen, p1.seen]
      exact or_assoc
    · simp only [ddWalkL, nodesL]
      rw [nodesL_append, List.map_append, p1.out, p2.out, unseen_append S _ _ _ p1.seen, List.map_append]

theorem dd_node {f : Fail W} (hc : Consistent f) : ∀ n : Fail W, ∀ S N, Sub f n → size n ≤ N → Over f S N →
    DPost S (ddWalk n S).2 (nodes n) (ddWalk n S).1.toList := by
  intro n
  induction n using Fail.induct with
  | h i nm p w ks ih =>
    intro S N hs hN ho
    by_cases hi : i ∈ S
    · have h1 : ∀ y ∈ nodes (.mk i nm p w ks), y.id ∈ S := by
        rcases ho _ hs hi with h | h
        · exact h
        · omega
      have e : ddWalk (.mk i nm p w ks) S = (none, S) := by simp [ddWalk, hi]
      rw [e]
      refine ⟨fun j => ⟨.inl, ?_⟩, ?_⟩
      · rintro (h | h)
        · exact h
        · obtain ⟨y, hy, rfl⟩ := List.mem_map.1 h
          exact h1 y hy
      · have : unseen S (nodes (.mk i nm p w ks)) = [] := by
          unfold unseen
          rw [List.filter_eq_nil_iff]
          intro y hy
          simp [h1 y (mem_firsts hy)]
        rw [this]
        rfl
    · have e : ddWalk (.mk i nm p w ks) S =
          (some (.mk i nm p w (ddWalkL ks (i :: S)).1), (ddWalkL ks (i :: S)).2) := by simp [ddWalk, hi]
      have ho' : Over f (i :: S) (sizeL ks) := by
        intro x hx hxs
        rcases List.mem_cons.1 hxs with h | h
        · have := hc _ _ hx hs h
          subst this
          exact .inr (by simp only [size]; omega)
        · rcases ho x hx h with h | h
          · exact .inl fun y hy => by simp [h y hy]
          · refine .inr ?_
            simp only [size] at hN
            omega
      have P := dd_list hc (sizeL ks) ks (fun k hk S' hk' ho => ih k hk S' _ hk' (size_lt hk) ho) (i :: S)
        (fun k hk => hs.trans (.kid hk (.refl _))) ho'
      rw [e]
      refine ⟨fun j => ?_, ?_⟩
      · rw [P.seen]
        simp only [nodes, List.map_cons, List.mem_cons, Fail.id]
        constructor
        · rintro ((h | h) | h)
          · exact .inr (.inl h)
          · exact .inl h
          · exact .inr (.inr h)
        · rintro (h | h | h)
          · exact .inl (.inr h)
          · exact .inl (.inl h)
          · exact .inr h
      · simp only [Option.toList, nodesL, nodes, List.append_nil, List.map_cons, P.out]
        have : unseen S (.mk i nm p w ks :: nodesL ks) = .mk i nm p w ks :: unseen (i :: S) (nodesL ks) := by
          have h1 := unseen_append S [.mk i nm p w ks] (nodesL ks) (i :: S) (by simp [Fail.id, or_comm])
          rw [List.singleton_append] at h1
          rw [h1]
          have h2 : unseen S [.mk i nm p w ks] = [.mk i nm p w ks] := by simp [unseen, firsts, Fail.id, hi]
          rw [h2]
          rfl
        rw [this]
        rfl

/-- C64. `DedupFails` leaves exactly the first occurrence of every node, in the order in which they are
printed: nodes are compared by address, name, position and what was wanted. -/
theorem C64_firsts (f : Fail W) (hc : Consistent f) :
    (nodes (dedupFails f)).map Fail.shape = (firsts (nodes f)).map Fail.shape := by
  have P := dd_node hc f [] (size f) (.refl f) (Nat.le_refl _) (fun x _ h => by cases h)
  obtain ⟨i, n, p, w, ks⟩ := f
  have e : ddWalk (.mk i n p w ks) [] = (some (.mk i n p w (ddWalkL ks [i]).1), (ddWalkL ks [i]).2) := by simp [ddWalk]
  have h := P.out
  rw [e] at h
  have : unseen [] (nodes (.mk i n p w ks)) = firsts (nodes (.mk i n p w ks)) := by
    unfold unseen
    exact List.filter_eq_self.2 (by simp)
  rw [this] at h
  rw [dedupFails, e, ← h]
  simp [nodesL]

theorem firsts_ids (l : List (Fail W)) : ((firsts l).map Fail.id).Nodup ∧ ∀ x ∈ l, x.id ∈ (firsts l).map Fail.id := by
  induction l with
  | nil => simp [firsts]
  | cons a l ih =>
    simp only [firsts, List.map_cons, List.nodup_cons]
    refine ⟨⟨?_, ?_⟩, ?_⟩
    · intro h
      obtain ⟨y, hy, e⟩ := List.mem_map.1 h
      simp only [List.mem_filter, decide_eq_true_eq] at hy
      exact hy.2 e
    · exact (List.Sublist.map _ List.filter_sublist).nodup ih.1
    · intro x hx
      rcases List.mem_cons.1 hx with rfl | hx
      · simp
      · by_cases e : x.id = a.id
        · simp [e]
        · obtain ⟨y, hy, e'⟩ := List.mem_map.1 (ih.2 x hx)
          refine List.mem_cons_of_mem _ (List.mem_map.2 ⟨y, ?_, e'⟩)
          simp [hy, e', e]

/-- C64. Afterwards no node is reached twice, so every failure is printed once; and every failure that was
there still is. -/
theorem C64_once (f : Fail W) (hc : Consistent f) :
    ((nodes (dedupFails f)).map Fail.id).Nodup ∧ ∀ x, Sub f x → ∃ y, Sub (dedupFails f) y ∧ y.shape = x.shape := by
  have h := C64_firsts f hc
  have hid : (nodes (dedupFails f)).map Fail.id = (firsts (nodes f)).map Fail.id := by
    have := congrArg (List.map Prod.fst) h
    simpa [List.map_map, Function.comp_def, Fail.shape] using this
  refine ⟨by rw [hid]; exact (firsts_ids _).1, fun x hx => ?_⟩
  obtain ⟨y, hy, e⟩ := List.mem_map.1 ((firsts_ids (nodes f)).2 x ((mem_nodes f x).2 hx))
  have := hc y x ((mem_nodes f y).1 (mem_firsts hy)) hx e
  subst this
  have : y.shape ∈ (nodes (dedupFails f)).map Fail.shape := by
    rw [h]
    exact List.mem_map.2 ⟨y, hy, rfl⟩
  obtain ⟨z, hz, e⟩ := List.mem_map.1 this
  exact ⟨z, (mem_nodes _ z).1 hz, e⟩

mutual
/-- Nodes after the walk come from nodes before it, with some of their kids. -/
inductive Thin : Fail W → Fail W → Prop
  | mk {i n p w ks ks'} : ThinL ks ks' → Thin (.mk i n p w ks) (.mk i n p w ks')
inductive ThinL : List (Fail W) → List (Fail W) → Prop
  | nil : ThinL [] []
  | skip {k ks ks'} : ThinL ks ks' → ThinL (k :: ks) ks'
  | keep {k k' ks ks'} : Thin k k' → ThinL ks ks' → ThinL (k :: ks) (k' :: ks')
end

theorem Thin.shape {f f' : Fail W} (h : Thin f f') : f'.shape = f.shape := by cases h; rfl

theorem ThinL.kids : ∀ {ks ks' : List (Fail W)}, ThinL ks ks' → ∀ k' ∈ ks', ∃ k ∈ ks, Thin k k'
  | _, _, .nil, k', hk => by cases hk
  | _, _, .skip h, k', hk => by
    obtain ⟨k, h1, h2⟩ := h.kids k' hk
    exact ⟨k, List.mem_cons_of_mem _ h1, h2⟩
  | _, _, .keep ht h, k', hk => by
    rcases List.mem_cons.1 hk with rfl | hk
    · exact ⟨_, List.mem_cons_self .., ht⟩
    · obtain ⟨k, h1, h2⟩ := h.kids k' hk
      exact ⟨k, List.mem_cons_of_mem _ h1, h2⟩

theorem Thin.kids {f f' : Fail W} (h : Thin f f') : ∀ k' ∈ f'.kids, ∃ k ∈ f.kids, Thin k k' := by
  cases h with
  | mk h => exact h.kids

theorem dd_thin (n : Fail W) : ∀ S r, (ddWalk n S).1 = some r → Thin n r := by
  induction n using Fail.induct with
  | h i nm p w ks ih =>
    have hL : ∀ (l : List (Fail W)), (∀ k ∈ l, k ∈ ks) → ∀ S, ThinL l (ddWalkL l S).1 := by
      intro l
      induction l with
      | nil => intro _ S; exact .nil
      | cons k l IH =>
        intro hl S
        have h2 := IH (fun x hx => hl x (by simp [hx])) (ddWalk k S).2
        simp only [ddWalkL]
        cases hr : (ddWalk k S).1 with
        | none => exact .skip h2
        | some k' => exact .keep (ih k (hl k (by simp)) S k' hr) h2
    intro S r h
    simp only [ddWalk] at h
    split at h
    · cases h
    · injection h with h
      subst h
      exact .mk (hL ks (fun _ h => h) _)

theorem dedup_thin (f : Fail W) : Thin f (dedupFails f) := by
  obtain ⟨i, n, p, w, ks⟩ := f
  have e : ddWalk (.mk i n p w ks) [] = (some (.mk i n p w (ddWalkL ks [i]).1), (ddWalkL ks [i]).2) := by simp [ddWalk]
  have h := dd_thin (.mk i n p w ks) [] (.mk i n p w (ddWalkL ks [i]).1) (by rw [e])
  simpa [dedupFails, e] using h

theorem Thin.sub {f f' : Fail W} (h : Thin f f') {x' : Fail W} (hx : Sub f' x') : ∃ x, Sub f x ∧ Thin x x' := by
  induction hx generalizing f with
  | refl => exact ⟨f, .refl f, h⟩
  | kid hk _ ih =>
    obtain ⟨k, hk', ht⟩ := h.kids _ hk
    obtain ⟨x, hx, hxt⟩ := ih ht
    exact ⟨x, .kid hk' hx, hxt⟩

/-- C64. A failure is printed below one that it was below before. -/
theorem C64_below (f x' k' : Fail W) (hx : Sub (dedupFails f) x') (hk : k' ∈ x'.kids) :
    ∃ x k, Sub f x ∧ k ∈ x.kids ∧ x'.shape = x.shape ∧ k'.shape = k.shape := by
  obtain ⟨x, hx, ht⟩ := (dedup_thin f).sub hx
  obtain ⟨k, hk, ht'⟩ := ht.kids _ hk
  exact ⟨x, k, hx, hk, ht.shape, ht'.shape⟩

/-- C64. What was a leaf still is. Partial: more nodes become leaves, namely those whose kids were all printed
before, and they may be at the greatest position, where `LeafFails` finds them (`C64_refuted`). -/
theorem C64_leaves_partial (f : Fail W) (hc : Consistent f) (x : Fail W) (hx : Sub f x) (hk : x.kids = []) :
    ∃ y, Sub (dedupFails f) y ∧ y.shape = x.shape ∧ y.kids = [] := by
  obtain ⟨y, hy, e⟩ := (C64_once f hc).2 x hx
  obtain ⟨z, hz, ht⟩ := (dedup_thin f).sub hy
  have hzx : z = x := by
    refine hc z x hz hx ?_
    have := ht.shape
    rw [e] at this
    exact (congrArg Prod.fst this).symm
  subst hzx
  refine ⟨y, hy, e, List.eq_nil_iff_forall_not_mem.2 fun k hk' => ?_⟩
  obtain ⟨k', h1, _⟩ := ht.kids k hk'
  rw [hk] at h1
  cases h1

theorem pos_of_shape {x y : Fail W} (h : x.shape = y.shape) : x.pos = y.pos := by
  simp only [Fail.shape, Prod.mk.injEq] at h
  exact h.2.2.1

/-- If kids are never before their nodes, the offset of a tree is the greatest position of a node. -/
theorem Forward.offset {f : Fail W} (h : Forward f) : (∀ x, Sub f x → (x.pos : Int) ≤ byteOffset f) ∧
    ∃ x, Sub f x ∧ (x.pos : Int) = byteOffset f := by
  have hl : ∀ g : Fail W, ∀ x ∈ leaves g, Sub g x := by
    intro g
    induction g using Fail.induct with
    | h i n p w ks ih =>
      intro x hx
      cases ks with
      | nil =>
        simp only [leaves, List.mem_singleton] at hx
        subst hx
        exact .refl _
      | cons k ks =>
        have : leaves (.mk i n p w (k :: ks)) = (k :: ks).flatMap leaves := by simp [leaves, leavesL_eq]
        rw [this, List.mem_flatMap] at hx
        obtain ⟨k', hk', hx⟩ := hx
        exact .kid hk' (ih k' hk' x hx)
  refine ⟨fun x hx => ?_, ?_⟩
  · have key : ∀ g : Fail W, Forward g → ∃ y ∈ leaves g, g.pos ≤ y.pos := by
      intro g
      induction g using Fail.induct with
      | h i n p w ks ih =>
        intro hg
        cases ks with
        | nil => exact ⟨_, by simp [leaves], Nat.le_refl _⟩
        | cons k ks =>
          have hk : k ∈ (Fail.mk i n p w (k :: ks)).kids := by simp [Fail.kids]
          obtain ⟨y, hy, e⟩ := ih k (by simp) (fun x k' hx hk' => hg x k' (.kid hk hx) hk')
          refine ⟨y, by simp [leaves, hy], Nat.le_trans (hg _ k (.refl _) hk) e⟩
    obtain ⟨y, hy, e⟩ := key x fun z k hz hk => h z k (hx.trans hz) hk
    have : y ∈ leaves f := by
      clear e h key
      induction hx with
      | refl => exact hy
      | @kid f k x hk _ ih =>
        obtain ⟨i, n, p, w, ks⟩ := f
        simp only [Fail.kids] at hk
        have := ih hy
        cases ks with
        | nil => cases hk
        | cons k0 ks =>
          have e : leaves (.mk i n p w (k0 :: ks)) = (k0 :: ks).flatMap leaves := by simp [leaves, leavesL_eq]
          rw [e, List.mem_flatMap]
          exact ⟨k, hk, this⟩
    have := le_maxPos this
    rw [C24_byteOffset]
    omega
  · obtain ⟨x, hx, e⟩ := maxPos_attained (leaves_ne_nil f)
    exact ⟨x, hl f x hx, by rw [e, C24_byteOffset]⟩

/-- C64. `DedupFails` does not move the error: `ByteOffset` is the same before and after it, if no failure is
before the one above it. -/
theorem C64_offset (f : Fail W) (hc : Consistent f) (hf : Forward f) : byteOffset (dedupFails f) = byteOffset f := by
  have hf' : Forward (dedupFails f) := by
    intro x' k' hx hk
    obtain ⟨x, k, hx, hk, e, e'⟩ := C64_below f x' k' hx hk
    rw [pos_of_shape e, pos_of_shape e']
    exact hf x k hx hk
  obtain ⟨h1, x, hx, e⟩ := hf.offset
  obtain ⟨h1', x', hx', e'⟩ := hf'.offset
  obtain ⟨y, hy, es⟩ := (C64_once f hc).2 x hx
  obtain ⟨z, hz, ht⟩ := (dedup_thin f).sub hx'
  have a := h1' y hy
  rw [pos_of_shape es, e] at a
  have b := h1 z hz
  rw [← pos_of_shape ht.shape, e'] at b
  omega

/-- A tree in which a node is reached in two ways: the first way stays. -/
def exShared : Fail Char :=
  let s := .mk 2 (some 7) 1 none [.mk 3 none 4 (some 'a') []]
  .mk 0 (some 0) 0 none [.mk 1 (some 5) 0 none [s], s, .mk 4 (some 6) 1 none [s, .mk 5 none 4 (some 'b') []]]

example : (nodes exShared).map Fail.id = [0, 1, 2, 3, 2, 3, 4, 2, 3, 5] ∧
    (nodes (dedupFails exShared)).map Fail.id = [0, 1, 2, 3, 4, 5] ∧ byteOffset exShared = 4 := by decide +kernel

end Verif.Peg
