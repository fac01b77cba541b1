/- Failure trees: /repo/vendor/github.com/eaburns/peggy/peg/fail.go LeafFails, DedupFails and
/repo/ast/parser.go byteOffset: model and property C24. -/
import Verif.Peg.Text

namespace Verif.Peg
open Verif.Tone (Str)

/-- peg.go:33-61 `Fail`. Failure trees share nodes (the packrat fail table); `id` is the address. The name is
the number of the rule, and `W` is what may be wanted; `none` is the empty string. -/
inductive Fail (W : Type) where
  | mk (id : Nat) (name : Option Nat) (pos : Nat) (want : Option W) (kids : List (Fail W))

variable {W : Type}

namespace Fail
def id : Fail W → Nat | mk i _ _ _ _ => i
def name : Fail W → Option Nat | mk _ n _ _ _ => n
def pos : Fail W → Nat | mk _ _ p _ _ => p
def want : Fail W → Option W | mk _ _ _ w _ => w
def kids : Fail W → List (Fail W) | mk _ _ _ _ k => k
end Fail

/-- The variables of LeafFails. `pos` is -1 before the first leaf. -/
structure LF (W : Type) where
  seen : List Nat := []
  pos : Int := -1
  fails : List (Fail W) := []

mutual
/-- fail.go:73-92, the closure `walk`. -/
def lfWalk : Fail W → LF W → LF W
  | .mk i n p w ks, s =>
    if s.seen.contains i then s
    else
      let s := { s with seen := i :: s.seen }
      match ks with
      | [] =>
        if (p : Int) > s.pos then { s with pos := p, fails := [.mk i n p w []] }
        else if (p : Int) = s.pos then { s with fails := s.fails ++ [.mk i n p w []] }
        else s
      | k :: ks => lfWalkL ks (lfWalk k s)
/-- fail.go:89-91, the loop over the kids. -/
def lfWalkL : List (Fail W) → LF W → LF W
  | [], s => s
  | k :: ks, s => lfWalkL ks (lfWalk k s)
end

/-- fail.go:68-95 `LeafFails`. -/
def leafFails (f : Fail W) : List (Fail W) := (lfWalk f {}).fails

mutual
/-- ast/parser.go:27-38 `byteOffset`. -/
def byteOffset : Fail W → Int
  | .mk _ _ p _ ks => match ks with
    | [] => p
    | k :: ks => boLoop ks (max (byteOffset k) (-1))
/-- parser.go:32-36, the loop. -/
def boLoop : List (Fail W) → Int → Int
  | [], m => m
  | k :: ks, m => boLoop ks (if byteOffset k > m then byteOffset k else m)
end

/-! ### Specification -/

mutual
/-- The leaves from left to right. -/
def leaves : Fail W → List (Fail W)
  | .mk i n p w ks => match ks with
    | [] => [.mk i n p w []]
    | k :: ks => leaves k ++ leavesL ks
def leavesL : List (Fail W) → List (Fail W)
  | [] => []
  | k :: ks => leaves k ++ leavesL ks
end

/-- `x` is a node of the tree `f`. -/
inductive Sub : Fail W → Fail W → Prop
  | refl (f) : Sub f f
  | kid {f k x} : k ∈ f.kids → Sub k x → Sub f x

/-- Addresses identify nodes. -/
def Consistent (f : Fail W) : Prop := ∀ x y, Sub f x → Sub f y → x.id = y.id → x = y

/-- Keep the first occurrence of each node. -/
def firsts : List (Fail W) → List (Fail W)
  | [] => []
  | x :: l => x :: (firsts l).filter fun y => y.id ≠ x.id

/-- The greatest position of a list of leaves. -/
def maxPos : List (Fail W) → Int
  | [] => -1
  | x :: l => max (x.pos : Int) (maxPos l)

/-! ### Proofs -/

mutual
/-- A measure: a node is bigger than the nodes below it. -/
def size : Fail W → Nat
  | .mk _ _ _ _ ks => 1 + sizeL ks
def sizeL : List (Fail W) → Nat
  | [] => 0
  | k :: ks => size k + sizeL ks
end

theorem leavesL_eq (l : List (Fail W)) : leavesL l = l.flatMap leaves := by
  induction l with
  | nil => simp [leavesL]
  | cons a l ih => simp [leavesL, ih]

theorem Fail.induct {P : Fail W → Prop} (h : ∀ i n p w ks, (∀ k ∈ ks, P k) → P (.mk i n p w ks)) :
    ∀ f, P f := fun f =>
  Fail.rec (motive_1 := P) (motive_2 := fun l => ∀ k ∈ l, P k) h (by simp)
    (by intro a l ha hl k hk
        rcases List.mem_cons.1 hk with rfl | hk
        · exact ha
        · exact hl k hk) f

theorem size_lt {k : Fail W} {ks : List (Fail W)} (h : k ∈ ks) : size k ≤ sizeL ks := by
  induction ks with
  | nil => simp at h
  | cons a l ih =>
    simp only [sizeL]
    rcases List.mem_cons.1 h with rfl | h
    · omega
    · have := ih h; omega

theorem firsts_append (a b : List (Fail W)) :
    firsts (a ++ b) = firsts a ++ (firsts b).filter fun y => a.all fun x => y.id ≠ x.id := by
  induction a with
  | nil => simp only [List.nil_append, firsts, List.all_nil]; exact (List.filter_eq_self.2 (by simp)).symm
  | cons x a ih =>
    simp only [List.cons_append, firsts, ih, List.filter_append, List.filter_filter, List.all_cons]

theorem mem_firsts {x : Fail W} {l : List (Fail W)} (h : x ∈ firsts l) : x ∈ l := by
  induction l with
  | nil => simp [firsts] at h
  | cons a l ih =>
    simp only [firsts, List.mem_cons, List.mem_filter] at h
    rcases h with rfl | h
    · simp
    · simp [ih h.1]

theorem maxPos_ge (l : List (Fail W)) : -1 ≤ maxPos l := by
  induction l with
  | nil => simp [maxPos]
  | cons a l ih => simp only [maxPos]; omega

theorem maxPos_append (a b : List (Fail W)) : maxPos (a ++ b) = max (maxPos a) (maxPos b) := by
  induction a with
  | nil => have := maxPos_ge b; simp only [List.nil_append, maxPos]; omega
  | cons x a ih => simp only [List.cons_append, maxPos, ih]; omega

theorem le_maxPos {x : Fail W} {l : List (Fail W)} (h : x ∈ l) : (x.pos : Int) ≤ maxPos l := by
  induction l with
  | nil => simp at h
  | cons a l ih =>
    simp only [maxPos]
    rcases List.mem_cons.1 h with rfl | h
    · omega
    · have := ih h; omega

theorem maxPos_subset {a b : List (Fail W)} (h : ∀ x ∈ b, x ∈ a) : maxPos b ≤ maxPos a := by
  induction b with
  | nil => exact maxPos_ge a
  | cons x b ih =>
    have h1 := le_maxPos (h x (by simp))
    have h2 := ih fun y hy => h y (by simp [hy])
    simp only [maxPos]; omega

/-- The leaves at the greatest position, first occurrences. -/
def deepest (l : List (Fail W)) : List (Fail W) := firsts (l.filter fun x => (x.pos : Int) = maxPos l)

theorem deepest_absorb {a b : List (Fail W)} (h : ∀ x ∈ b, x ∈ a) : deepest (a ++ b) = deepest a := by
  have hm : maxPos (a ++ b) = maxPos a := by
    rw [maxPos_append]; have := maxPos_subset h; omega
  unfold deepest
  rw [hm, List.filter_append, firsts_append]
  have : (firsts (b.filter fun x => (x.pos : Int) = maxPos a)).filter (fun y =>
      (a.filter fun x => (x.pos : Int) = maxPos a).all fun x => y.id ≠ x.id) = [] := by
    rw [List.filter_eq_nil_iff]
    intro y hy hall
    have hy' := mem_firsts hy
    simp only [List.mem_filter] at hy'
    have := (List.all_eq_true.1 hall) y (by simp [List.mem_filter, h y hy'.1]; simpa using hy'.2)
    simp at this
  rw [this, List.append_nil]

/-- State and processed leaves correspond. -/
structure Inv (f : Fail W) (L : List (Fail W)) (s : LF W) : Prop where
  pos : s.pos = maxPos L
  fails : s.fails = deepest L
  seen : ∀ x ∈ L, x.id ∈ s.seen
  sub : ∀ x ∈ L, Sub f x

/-- Seen nodes are finished or bigger than `N`. -/
def Done (f : Fail W) (L : List (Fail W)) (s : LF W) (N : Nat) : Prop :=
  ∀ x, Sub f x → x.id ∈ s.seen → (∀ y ∈ leaves x, y ∈ L) ∨ N < size x

/-- What a walk over leaves `M` achieves. -/
structure Post (f : Fail W) (L M : List (Fail W)) (s s' : LF W) : Prop where
  inv : Inv f (L ++ M) s'
  grow : ∀ x, Sub f x → x.id ∈ s'.seen → (∀ y ∈ leaves x, y ∈ L ++ M) ∨ x.id ∈ s.seen

theorem Sub.trans {a b c : Fail W} (h : Sub a b) (h' : Sub b c) : Sub a c := by
  induction h with
  | refl => exact h'
  | kid hk _ ih => exact .kid hk (ih h')

theorem Done.post {f : Fail W} {L M s s' N} (h : Done f L s N) (p : Post f L M s s') : Done f (L ++ M) s' N := by
  intro x hx hs
  rcases p.grow x hx hs with h1 | h1
  · exact .inl h1
  · rcases h x hx h1 with h2 | h2
    · exact .inl fun y hy => by simp [h2 y hy]
    · exact .inr h2

theorem walk_list {f : Fail W} (N : Nat) (ks : List (Fail W))
    (ih : ∀ k ∈ ks, ∀ L s, Sub f k → Inv f L s → Done f L s N → Post f L (leaves k) s (lfWalk k s)) :
    ∀ L s, (∀ k ∈ ks, Sub f k) → Inv f L s → Done f L s N → Post f L (leavesL ks) s (lfWalkL ks s) := by
  induction ks with
  | nil =>
    intro L s _ hi _
    exact ⟨by simpa [leavesL, lfWalkL] using hi, fun x _ h => .inr h⟩
  | cons k ks ihl =>
    intro L s hsub hi hd
    have p1 := ih k (by simp) L s (hsub k (by simp)) hi hd
    have p2 := ihl (fun k hk => ih k (by simp [hk])) (L ++ leaves k) (lfWalk k s)
      (fun k hk => hsub k (by simp [hk])) p1.inv (hd.post p1)
    refine ⟨by simpa [leavesL, lfWalkL] using p2.inv, fun x hx hs => ?_⟩
    simp only [lfWalkL] at hs
    rcases p2.grow x hx hs with h | h
    · exact .inl (by simpa [leavesL] using h)
    · rcases p1.grow x hx h with h | h
      · refine .inl fun y hy => ?_
        have := h y hy
        simp only [List.mem_append, leavesL] at this ⊢
        rcases this with h | h <;> simp [h]
      · exact .inr h

theorem walk_node {f : Fail W} (hc : Consistent f) : ∀ n : Fail W, ∀ L s N, Sub f n → size n ≤ N →
    Inv f L s → Done f L s N → Post f L (leaves n) s (lfWalk n s) := by
  refine Fail.induct ?_
  intro i nm p w ks ih L s N hsub hN hi hd
  by_cases hseen : s.seen.contains i
  · have hsub' : ∀ y ∈ leaves (.mk i nm p w ks), y ∈ L := by
      rcases hd _ hsub (List.contains_iff_mem.1 hseen) with h | h
      · exact h
      · omega
    have e : lfWalk (.mk i nm p w ks) s = s := by rw [lfWalk, if_pos hseen]
    rw [e]
    refine ⟨⟨?_, ?_, ?_, ?_⟩, fun x _ h => .inr h⟩
    · rw [hi.pos, maxPos_append]; have := maxPos_subset hsub'; omega
    · rw [hi.fails, deepest_absorb hsub']
    · intro x hx
      rcases List.mem_append.1 hx with h | h
      · exact hi.seen x h
      · exact hi.seen x (hsub' x h)
    · intro x hx
      rcases List.mem_append.1 hx with h | h
      · exact hi.sub x h
      · exact hi.sub x (hsub' x h)
  · cases ks with
    | nil =>
      have hnot : i ∉ s.seen := by simpa using hseen
      have hnew : ∀ x ∈ L, (Fail.mk i nm p w []).id ≠ x.id := fun x hx he => hnot (by
        have := hi.seen x hx; rw [← he] at this; exact this)
      have e : lfWalk (.mk i nm p w []) s =
          (if (p : Int) > s.pos then { s with seen := i :: s.seen, pos := p, fails := [.mk i nm p w []] }
          else if (p : Int) = s.pos then
            { s with seen := i :: s.seen, fails := s.fails ++ [.mk i nm p w []] }
          else { s with seen := i :: s.seen }) := by
        simp only [lfWalk, hseen]; rfl
      have hl : leaves (.mk i nm p w []) = [.mk i nm p w []] := by simp [leaves]
      rw [e, hl]
      have hseen' : (if (p : Int) > s.pos then { s with seen := i :: s.seen, pos := p, fails := [.mk i nm p w []] }
          else if (p : Int) = s.pos then
            { s with seen := i :: s.seen, fails := s.fails ++ [.mk i nm p w []] }
          else { s with seen := i :: s.seen } : LF W).seen = i :: s.seen := by
        split
        · rfl
        · split <;> rfl
      have hp : (Fail.mk i nm p w []).pos = p := rfl
      have hmax : maxPos (L ++ [.mk i nm p w []]) = max (maxPos L) p := by
        rw [maxPos_append]; have := maxPos_ge L; simp only [maxPos, hp]; omega
      refine ⟨⟨?_, ?_, ?_, ?_⟩, ?_⟩
      · rw [hmax, ← hi.pos]
        split
        · simp only; omega
        · split <;> simp only <;> omega
      · unfold deepest
        rw [hmax, List.filter_append, firsts_append, ← hi.pos]
        have hpos := hi.pos
        have hfails := hi.fails
        unfold deepest at hfails
        split
        · rename_i hgt
          have hmx : max s.pos (p : Int) = p := by omega
          have h1 : (L.filter fun x => (x.pos : Int) = max s.pos p) = [] := by
            rw [List.filter_eq_nil_iff]
            intro x hx
            have := le_maxPos hx
            simp; omega
          rw [h1, hmx]
          simp [firsts, hp]
        · split
          · rename_i h1 h2
            have hmx : max s.pos (p : Int) = s.pos := by omega
            rw [hmx]
            have h3 : ([Fail.mk i nm p w []].filter fun x => (x.pos : Int) = s.pos) = [.mk i nm p w []] := by
              simp [hp, h2]
            rw [h3, hfails, ← hpos]
            simp only [firsts, List.filter_nil, List.filter_cons]
            have h4 : ((L.filter fun x => (x.pos : Int) = s.pos).all
                fun x => (Fail.mk i nm p w []).id ≠ x.id) = true := by
              rw [List.all_eq_true]
              intro x hx
              have := hnew x (List.mem_filter.1 hx).1
              simpa using this
            rw [if_pos h4]
          · rename_i h1 h2
            have hmx : max s.pos (p : Int) = s.pos := by omega
            rw [hmx]
            have h3 : ([Fail.mk i nm p w []].filter fun x => (x.pos : Int) = s.pos) = [] := by
              simp [hp, h2]
            rw [h3, hfails, ← hpos]
            simp [firsts]
      · rw [hseen']
        intro x hx
        rcases List.mem_append.1 hx with h | h
        · simp [hi.seen x h]
        · simp at h; subst h; exact List.mem_cons_self ..
      · intro x hx
        rcases List.mem_append.1 hx with h | h
        · exact hi.sub x h
        · simp at h; subst h; exact hsub
      · rw [hseen']
        intro x hx hs
        rcases List.mem_cons.1 hs with h | h
        · have : x = .mk i nm p w [] := hc _ _ hx hsub h
          subst this
          exact .inl fun y hy => by rw [hl] at hy; simp [hy]
        · exact .inr h
    | cons k ks =>
      have e : lfWalk (.mk i nm p w (k :: ks)) s =
          lfWalkL (k :: ks) { s with seen := i :: s.seen } := by
        simp only [lfWalk, hseen, lfWalkL]; rfl
      have hl : leaves (.mk i nm p w (k :: ks)) = leavesL (k :: ks) := by simp [leaves, leavesL]
      rw [e, hl]
      have hsz : size (.mk i nm p w (k :: ks)) = 1 + sizeL (k :: ks) := by simp [size]
      have hi' : Inv f L { s with seen := i :: s.seen } :=
        ⟨hi.pos, hi.fails, fun x hx => by simp [hi.seen x hx], hi.sub⟩
      have hd' : Done f L { s with seen := i :: s.seen } (sizeL (k :: ks)) := by
        intro x hx hs
        rcases List.mem_cons.1 hs with h | h
        · have : x = .mk i nm p w (k :: ks) := hc _ _ hx hsub h
          subst this
          right; omega
        · rcases hd x hx h with h | h
          · exact .inl h
          · right; omega
      have p' := walk_list (sizeL (k :: ks)) (k :: ks)
        (fun k' hk L s hs hi hd => ih k' hk L s _ hs (size_lt hk) hi hd) L _
        (fun k' hk => hsub.trans (.kid hk (.refl _))) hi' hd'
      refine ⟨p'.inv, fun x hx hs => ?_⟩
      rcases p'.grow x hx hs with h | h
      · exact .inl h
      · rcases List.mem_cons.1 h with h | h
        · have : x = .mk i nm p w (k :: ks) := hc _ _ hx hsub h
          subst this
          exact .inl fun y hy => by rw [hl] at hy; exact List.mem_append_right _ hy
        · exact .inr h

theorem maxPos_leaves (f : Fail W) : byteOffset f = maxPos (leaves f) := by
  have nonneg : ∀ f : Fail W, 0 ≤ byteOffset f ∧ byteOffset f = maxPos (leaves f) := by
    refine Fail.induct ?_
    intro i n p w ks ih
    cases ks with
    | nil =>
      simp only [byteOffset, leaves, maxPos]
      have : (Fail.mk i n p w []).pos = p := rfl
      rw [this]; omega
    | cons k ks =>
      have key : ∀ (l : List (Fail W)) m, (∀ x ∈ l, 0 ≤ byteOffset x ∧ byteOffset x = maxPos (leaves x)) →
          -1 ≤ m → boLoop l m = max m (maxPos (leavesL l)) := by
        intro l
        induction l with
        | nil => intro m _ hm; simp only [boLoop, leavesL, maxPos]; omega
        | cons a l ihl =>
          intro m h hm
          have ha := h a (by simp)
          rw [boLoop, ihl _ (fun x hx => h x (by simp [hx])) (by split <;> omega), leavesL,
            maxPos_append, ← ha.2]
          split <;> omega
      have h1 := ih k (by simp)
      have h2 := key ks (max (byteOffset k) (-1)) (fun x hx => ih x (by simp [hx])) (by omega)
      simp only [byteOffset, leaves, maxPos_append]
      rw [h2, ← h1.2]
      omega
  exact (nonneg f).2

/-- C24: `LeafFails` returns the leaves at the greatest position, the first occurrence of each, from
left to right; for failure trees with sharing. -/
theorem C24_leafFails (f : Fail W) (hc : Consistent f) :
    leafFails f = firsts ((leaves f).filter fun x => (x.pos : Int) = maxPos (leaves f)) := by
  have h := walk_node hc f [] {} (size f) (.refl f) (Nat.le_refl _) ⟨rfl, rfl, by simp, by simp⟩
    (fun x _ h => by simp at h)
  simpa [deepest, leafFails] using h.inv.fails

/-- C24: `ByteOffset` is that greatest position. -/
theorem C24_byteOffset (f : Fail W) : byteOffset f = maxPos (leaves f) := maxPos_leaves f

theorem leaves_ne_nil : ∀ f : Fail W, leaves f ≠ [] := by
  refine Fail.induct ?_
  intro i n p w ks ih
  cases ks with
  | nil => simp [leaves]
  | cons k ks => simp [leaves, ih k (by simp)]

theorem maxPos_attained : ∀ {l : List (Fail W)}, l ≠ [] → ∃ x ∈ l, (x.pos : Int) = maxPos l := by
  intro l
  induction l with
  | nil => intro h; exact absurd rfl h
  | cons a l ih =>
    intro _
    cases l with
    | nil => exact ⟨a, by simp, by simp only [maxPos]; omega⟩
    | cons b l =>
      obtain ⟨x, hx, he⟩ := ih (by simp)
      by_cases h : (a.pos : Int) ≥ maxPos (b :: l)
      · exact ⟨a, by simp, by rw [maxPos]; omega⟩
      · exact ⟨x, by simp [hx], by rw [maxPos]; omega⟩

/-- C24: there is always a deepest leaf, so SimpleError's `leaves[0]` (fail.go:36) exists, and its
position is `ByteOffset`. -/
theorem C24_first_leaf (f : Fail W) (hc : Consistent f) :
    ∃ x l, leafFails f = x :: l ∧ (x.pos : Int) = byteOffset f := by
  rw [C24_leafFails f hc, C24_byteOffset]
  obtain ⟨y, hy, he⟩ := maxPos_attained (leaves_ne_nil f)
  cases hl : (leaves f).filter fun x => (x.pos : Int) = maxPos (leaves f) with
  | nil =>
    rw [List.filter_eq_nil_iff] at hl
    exact absurd (by simpa using he) (hl y hy)
  | cons x l =>
    refine ⟨x, _, rfl, ?_⟩
    have : x ∈ (leaves f).filter fun x => (x.pos : Int) = maxPos (leaves f) := by rw [hl]; simp
    simpa using (List.mem_filter.1 this).2

/-- A tree with a shared leaf. -/
def exFail : Fail String :=
  let a := Fail.mk 1 none 3 (some "ru") []
  let b := Fail.mk 2 none 2 (some "ra") []
  let c := Fail.mk 3 none 3 (some "ro") []
  .mk 0 (some 7) 0 none [.mk 4 (some 8) 0 none [a, b], .mk 5 (some 9) 0 none [a, c]]

example : (leafFails exFail).map (·.id) = [1, 3] ∧ byteOffset exFail = 3 := by decide +kernel

end Verif.Peg
