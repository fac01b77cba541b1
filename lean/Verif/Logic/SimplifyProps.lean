/-
Properties C28 (implicit hoa) and C29 (variable numbering).
-/
import Verif.Logic.Simplify
import Mathlib.Data.List.Induction

namespace Verif.Logic

/-! ## C28: specification -/

/-- A variable with number `k` occurs somewhere in the tree. -/
def mentions (k : Nat) (n : Node) : Prop := ∃ v, Node.var v ∈ trace n ∧ v.n = k

/-- `Direct r p`: the statement `p` is reached from the restriction `r` through connections only. -/
inductive Direct : Node → Node → Prop
  | here (r : Node) : Direct r r
  | left {c l r p} : Direct l p → Direct (.conn c l r) p
  | right {c l r p} : Direct r p → Direct (.conn c l r) p

open Classical in
mutual
/-- The tree in which every argument-less predication that is directly in the restriction of a
binding, and whose predicate does not mention the bound variable, gets that variable as its only
argument; nothing else is changed. `b` is the binding in whose restriction we directly are. -/
noncomputable def withHoa (b : Option (Nat × Nat)) : Node → Node
  | .bind q id n f r s => .bind q id n f (withHoaO id n r) (withHoa none s)
  | .conn c l r => .conn c (withHoa b l) (withHoa b r)
  | .app p [] => match b with
    | some b => if mentions b.2 p then .app (withHoa none p) []
      else .app (withHoa none p) [some (.var (hoaVar b))]
    | none => .app (withHoa none p) []
  | .app p (a :: as) => .app (withHoa none p) (withHoaA a :: withHoaL as)
  | .var v => .var v
  | .plural as => .plural (withHoaL as)
  | .quote t f => .quote t f
  | .name s => .name s
  | .abs s => .abs (withHoa none s)
  | .serial l r => .serial (withHoa none l) (withHoa none r)
  | .swap p k => .swap (withHoa none p) k
noncomputable def withHoaO (id n : Nat) : Option Node → Option Node
  | none => none
  | some r => some (withHoa (some (id, n)) r)
noncomputable def withHoaA : Option Node → Option Node
  | none => none
  | some a => some (withHoa none a)
noncomputable def withHoaL : List (Option Node) → List (Option Node)
  | [] => []
  | a :: as => withHoaA a :: withHoaL as
end

/-! ## C28: proofs -/

theorem mem_merge (l r : List Int) (x : Int) : x ∈ merge sortInts l r ↔ x ∈ l ∨ x ∈ r :=
  C27_merge sortInts sortInts_perm sortInts_sorted l r x

/-- Numbers of the variables in a list of nodes. -/
def nums (l : List Node) : List Nat := l.filterMap fun
  | .var v => some v.n
  | _ => none

theorem mem_nums {l : List Node} {k : Nat} : k ∈ nums l ↔ ∃ v, Node.var v ∈ l ∧ v.n = k := by
  simp only [nums, List.mem_filterMap]
  constructor
  · rintro ⟨a, ha, h⟩
    cases a <;> simp at h
    exact ⟨_, ha, h⟩
  · rintro ⟨v, hv, h⟩
    exact ⟨_, hv, by simp [h]⟩

theorem mentions_iff {k : Nat} {n : Node} : mentions k n ↔ k ∈ nums (pre n) := by
  rw [mem_nums, mentions, trace_eq]

@[simp] theorem nums_append (l m : List Node) : nums (l ++ m) = nums l ++ nums m := by
  simp [nums]
@[simp] theorem nums_nil : nums [] = [] := rfl

mutual
theorem addHoa_eq (b : Option (Nat × Nat)) : ∀ n : Node, (addHoa b n).1 = withHoa b n ∧
    ∀ x, x ∈ (addHoa b n).2 ↔ ∃ k : Nat, x = k ∧ k ∈ nums (pre n)
  | .bind q id n f r s => by
    have hr := addHoaO_eq id n r
    have hs := addHoa_eq none s
    constructor
    · simp [addHoa, withHoa, hr.1, hs.1]
    · intro x
      simp only [addHoa, pre, mem_merge, hr.2, hs.2]
      simp [nums]
      grind
  | .conn c l r => by
    have hl := addHoa_eq b l
    have hr := addHoa_eq b r
    constructor
    · simp [addHoa, withHoa, hl.1, hr.1]
    · intro x
      simp only [addHoa, pre, mem_merge, hr.2, hl.2]
      simp [nums]
      grind
  | .app p [] => by
    have hp := addHoa_eq none p
    have happ : ∀ b : Nat × Nat, addHoa (some b) (.app p []) =
        if (addHoa none p).2.contains (b.2 : Int) = true then (.app (addHoa none p).1 [], (addHoa none p).2)
        else (.app (addHoa none p).1 [some (.var (hoaVar b))], (addHoa none p).2) := fun b => rfl
    have hu : ∀ b : Option (Nat × Nat), (addHoa b (.app p [])).2 = (addHoa none p).2 := by
      intro b
      cases b with
      | none => rfl
      | some b =>
        rw [happ]
        by_cases h : (addHoa none p).2.contains (b.2 : Int) = true
        · rw [if_pos h]
        · rw [if_neg h]
    constructor
    · cases b with
      | none => simp [addHoa, withHoa, hp.1, addHoaL]
      | some b =>
        rw [happ]
        simp only [withHoa]
        have : (addHoa none p).2.contains (b.2 : Int) = true ↔ mentions b.2 p := by
          rw [List.contains_iff_mem, hp.2, mentions_iff]
          constructor
          · rintro ⟨k, hk, h⟩
            rwa [Int.ofNat.inj hk]
          · intro h; exact ⟨_, rfl, h⟩
        by_cases hm : mentions b.2 p
        · rw [if_pos (this.2 hm), if_pos hm, ← hp.1]
        · rw [if_neg (fun h => hm (this.1 h)), if_neg hm, ← hp.1]
    · intro x
      rw [hu, hp.2]
      simp [pre, preL, nums]
  | .app p (a :: as) => by
    have hp := addHoa_eq none p
    have ha := addHoaL_eq (a :: as) (addHoa none p).2
    have hlen : (addHoaL (a :: as) (addHoa none p).2).1.length > 0 := by
      rw [ha.1]; simp [withHoaL]
    have he : addHoa b (.app p (a :: as)) =
        (.app (addHoa none p).1 (addHoaL (a :: as) (addHoa none p).2).1,
          (addHoaL (a :: as) (addHoa none p).2).2) := by
      simp only [addHoa]
      cases b with
      | none => rfl
      | some b => simp only []; rw [if_pos hlen]
    rw [he]
    constructor
    · simp only [withHoa, hp.1, ha.1, withHoaL]
    · intro x
      simp only [ha.2, hp.2, pre]
      simp [nums]
      grind
  | .var v => by
    simp only [addHoa, withHoa, pre, nums]
    refine ⟨trivial, ?_⟩
    simp
  | .plural as => by
    have ha := addHoaL_eq as []
    constructor
    · simp [addHoa, withHoa, ha.1]
    · intro x
      simp only [addHoa, ha.2, pre]
      simp [nums]
  | .quote t f => by simp [addHoa, withHoa, pre, nums]
  | .name s => by simp [addHoa, withHoa, pre, nums]
  | .abs s => by
    have hs := addHoa_eq none s
    constructor
    · simp [addHoa, withHoa, hs.1]
    · intro x
      simp only [addHoa, hs.2, pre]
      simp [nums]
  | .serial l r => by
    have hl := addHoa_eq none l
    have hr := addHoa_eq none r
    constructor
    · simp [addHoa, withHoa, hl.1, hr.1]
    · intro x
      simp only [addHoa, pre, mem_merge, hr.2, hl.2]
      simp [nums]
      grind
  | .swap p k => by
    have hs := addHoa_eq none p
    constructor
    · simp [addHoa, withHoa, hs.1]
    · intro x
      simp only [addHoa, hs.2, pre]
      simp [nums]
theorem addHoaO_eq (id n : Nat) : ∀ r : Option Node, (addHoaO id n r).1 = withHoaO id n r ∧
    ∀ x, x ∈ (addHoaO id n r).2 ↔ ∃ k : Nat, x = k ∧ k ∈ nums (preO r)
  | none => by simp [addHoaO, withHoaO, preO]
  | some r => by
    have hr := addHoa_eq (some (id, n)) r
    simp [addHoaO, withHoaO, preO, hr.1, hr.2]
theorem addHoaL_eq : ∀ (as : List (Option Node)) (u : List Int), (addHoaL as u).1 = withHoaL as ∧
    ∀ x, x ∈ (addHoaL as u).2 ↔ x ∈ u ∨ ∃ k : Nat, x = k ∧ k ∈ nums (preL as)
  | [], u => by simp [addHoaL, withHoaL, preL]
  | none :: as, u => by
    have ha := addHoaL_eq as u
    simp [addHoaL, withHoaL, withHoaA, preL, preO, ha.1, ha.2]
  | some a :: as, u => by
    have h := addHoa_eq none a
    have ha := addHoaL_eq as (merge sortInts u (addHoa none a).2)
    refine ⟨by simp [addHoaL, withHoaL, withHoaA, h.1, ha.1], fun x => ?_⟩
    simp only [addHoaL, ha.2, mem_merge, h.2, preL, preO, nums_append, List.mem_append]
    grind
end

/-- C28: `addHoa` computes the specified tree. -/
theorem C28_addHoa (t : Node) : (addHoa none t).1 = withHoa none t := (addHoa_eq none t).1

mutual
theorem withHoa_mono (k : Nat) : ∀ (n : Node) (b : Option (Nat × Nat)), k ∈ nums (pre n) → k ∈ nums (pre (withHoa b n))
  | .bind q id n f r s, b => by
    have hs := withHoa_mono k s none
    have hr := withHoaO_mono k r id n
    simp [withHoa, pre, nums] at *; grind
  | .conn c l r, b => by
    have hs := withHoa_mono k l b
    have hr := withHoa_mono k r b
    simp [withHoa, pre, nums] at *; grind
  | .app p [], b => by
    have hs := withHoa_mono k p none
    intro h
    have : k ∈ nums (pre p) := by simpa [pre, preL, nums] using h
    have h2 := hs this
    unfold withHoa
    cases b with
    | none => simpa [pre, preL, nums] using h2
    | some b =>
      simp only
      split
      · simpa [pre, preL, nums] using h2
      · have : k ∈ nums (pre (withHoa none p) ++ preL [some (.var (hoaVar b))]) := by
          rw [nums_append]; exact List.mem_append_left _ h2
        simpa [pre, nums] using this
  | .app p (a :: as), b => by
    have hs := withHoa_mono k p none
    have hr := withHoaA_mono k a
    have ha := withHoaL_mono k as
    simp [withHoa, pre, preL, nums] at *; grind
  | .var v, b => by simp [withHoa]
  | .plural as, b => by
    have ha := withHoaL_mono k as
    simp [withHoa, pre, nums] at *; grind
  | .quote t f, b => by simp [withHoa]
  | .name s, b => by simp [withHoa]
  | .abs s, b => by
    have ha := withHoa_mono k s none
    simp [withHoa, pre, nums] at *; grind
  | .serial l r, b => by
    have hs := withHoa_mono k l none
    have hr := withHoa_mono k r none
    simp [withHoa, pre, nums] at *; grind
  | .swap p _, b => by
    have ha := withHoa_mono k p none
    simp [withHoa, pre, nums] at *; grind
theorem withHoaO_mono (k : Nat) : ∀ (r : Option Node) (id n : Nat),
    k ∈ nums (preO r) → k ∈ nums (preO (withHoaO id n r))
  | none, _, _ => by simp [withHoaO]
  | some r, id, n => by
    have := withHoa_mono k r (some (id, n))
    simpa [withHoaO, preO] using this
theorem withHoaA_mono (k : Nat) : ∀ (r : Option Node), k ∈ nums (preO r) → k ∈ nums (preO (withHoaA r))
  | none => by simp [withHoaA]
  | some r => by
    have := withHoa_mono k r none
    simpa [withHoaA, preO] using this
theorem withHoaL_mono (k : Nat) : ∀ (r : List (Option Node)), k ∈ nums (preL r) → k ∈ nums (preL (withHoaL r))
  | [] => by simp [withHoaL]
  | a :: as => by
    have h1 := withHoaA_mono k a
    have h2 := withHoaL_mono k as
    simp only [withHoaL, preL, nums_append, List.mem_append]
    grind
end

theorem mentions_mono {k : Nat} {n : Node} (b : Option (Nat × Nat)) (h : mentions k n) :
    mentions k (withHoa b n) := mentions_iff.2 (withHoa_mono k n b (mentions_iff.1 h))

mutual
theorem withHoa_idem : ∀ (n : Node) (b : Option (Nat × Nat)), withHoa b (withHoa b n) = withHoa b n
  | .bind q id n f r s, b => by simp [withHoa, withHoaO_idem r, withHoa_idem s]
  | .conn c l r, b => by simp [withHoa, withHoa_idem l, withHoa_idem r]
  | .app p [], b => by
    have hp := withHoa_idem p none
    cases b with
    | none => simp [withHoa, hp]
    | some b =>
      simp only [withHoa]
      by_cases h : mentions b.2 p
      · rw [if_pos h]; simp only [withHoa]; rw [if_pos (mentions_mono none h), hp]
      · rw [if_neg h]; simp only [withHoa, hp, withHoaA, withHoaL]
  | .app p (a :: as), b => by
    simp [withHoa, withHoa_idem p none, withHoaA_idem a, withHoaL_idem as]
  | .var v, b => by simp [withHoa]
  | .plural as, b => by simp [withHoa, withHoaL_idem as]
  | .quote t f, b => by simp [withHoa]
  | .name s, b => by simp [withHoa]
  | .abs s, b => by simp [withHoa, withHoa_idem s]
  | .serial l r, b => by simp [withHoa, withHoa_idem l, withHoa_idem r]
  | .swap p _, b => by simp [withHoa, withHoa_idem p]
theorem withHoaO_idem : ∀ (r : Option Node) (id n : Nat),
    withHoaO id n (withHoaO id n r) = withHoaO id n r
  | none, _, _ => by simp [withHoaO]
  | some r, id, n => by simp [withHoaO, withHoa_idem r]
theorem withHoaA_idem : ∀ (r : Option Node), withHoaA (withHoaA r) = withHoaA r
  | none => by simp [withHoaA]
  | some r => by simp [withHoaA, withHoa_idem r]
theorem withHoaL_idem : ∀ (r : List (Option Node)), withHoaL (withHoaL r) = withHoaL r
  | [] => by simp [withHoaL]
  | a :: as => by simp [withHoaL, withHoaA_idem a, withHoaL_idem as]
end

/-- C28: adding implicit hoa twice changes nothing more. -/
theorem C28_idempotent (t : Node) :
    (addHoa none (addHoa none t).1).1 = (addHoa none t).1 := by
  simp only [C28_addHoa, withHoa_idem]

theorem withHoa_direct (b : Nat × Nat) (r : Node) : ∀ p : Node,
    Direct (withHoa (some b) r) (.app p []) → mentions b.2 p := by
  induction r using Node.induct with
  | bind q id n f r s _ _ => intro p h; simp only [withHoa] at h; cases h
  | conn c l r hl hr =>
    intro p h
    simp only [withHoa] at h
    cases h with
    | left h => exact hl p h
    | right h => exact hr p h
  | app q as _ _ =>
    intro p h
    cases as with
    | nil =>
      simp only [withHoa] at h
      by_cases hm : mentions b.2 q
      · rw [if_pos hm] at h
        cases h
        exact mentions_mono none hm
      · rw [if_neg hm] at h; cases h
    | cons a as => simp only [withHoa] at h; cases h
  | _ => intros p h; simp only [withHoa] at h; cases h

/-- Every binding in a list of nodes has the C28 property. -/
def BareOk (l : List Node) : Prop :=
  ∀ q id n f r s, Node.bind q id n f (some r) s ∈ l → ∀ p, Direct r (.app p []) → mentions n p

theorem BareOk_append {l m : List Node} (h1 : BareOk l) (h2 : BareOk m) : BareOk (l ++ m) := by
  intro q id n f r s h p hp
  rcases List.mem_append.1 h with h | h
  exacts [h1 _ _ _ _ _ _ h p hp, h2 _ _ _ _ _ _ h p hp]

theorem BareOk_cons {x : Node} {l : List Node} (h1 : ∀ q id n f r s, x ≠ .bind q id n f (some r) s)
    (h2 : BareOk l) : BareOk (x :: l) := by
  intro q id n f r s h p hp
  rcases List.mem_cons.1 h with h | h
  exacts [absurd h.symm (h1 _ _ _ _ _ _), h2 _ _ _ _ _ _ h p hp]

mutual
theorem withHoa_bare : ∀ (n : Node) (b : Option (Nat × Nat)), BareOk (pre (withHoa b n))
  | .bind q id n f none s, b => by
    simp only [withHoa, withHoaO, pre, preO, List.nil_append]
    exact BareOk_cons (by simp) (withHoa_bare s none)
  | .bind q id n f (some r) s, b => by
    simp only [withHoa, withHoaO, pre, preO]
    have h := BareOk_append (withHoa_bare r (some (id, n))) (withHoa_bare s none)
    intro q' id' n' f' r' s' hm p hp
    rcases List.mem_cons.1 hm with hm | hm
    · cases hm; exact withHoa_direct _ _ p hp
    · exact h _ _ _ _ _ _ hm p hp
  | .conn c l r, b => by
    simp only [withHoa, pre]
    exact BareOk_cons (by simp) (BareOk_append (withHoa_bare l b) (withHoa_bare r b))
  | .app p [], b => by
    have hp := withHoa_bare p none
    have h0 : BareOk [] := by intro q id n f r s h; simp at h
    have h1 : ∀ v, BareOk [Node.var v] := fun v => BareOk_cons (by simp) h0
    unfold withHoa
    cases b with
    | none => simp only [pre, preL]; exact BareOk_cons (by simp) (BareOk_append hp h0)
    | some b =>
      simp only
      split
      · simp only [pre, preL]; exact BareOk_cons (by simp) (BareOk_append hp h0)
      · simp only [pre, preL, preO]
        exact BareOk_cons (by simp) (BareOk_append hp (BareOk_append (h1 _) h0))
  | .app p (a :: as), b => by
    simp only [withHoa, pre, preL]
    exact BareOk_cons (by simp) (BareOk_append (withHoa_bare p none)
      (BareOk_append (withHoaA_bare a) (withHoaL_bare as)))
  | .var v, b => by
    simp only [withHoa, pre]; intro q id n f r s h; simp at h
  | .plural as, b => by
    simp only [withHoa, pre]; exact BareOk_cons (by simp) (withHoaL_bare as)
  | .quote t f, b => by
    simp only [withHoa, pre]; intro q id n f r s h; simp at h
  | .name s, b => by
    simp only [withHoa, pre]; intro q id n f r s h; simp at h
  | .abs s, b => by
    simp only [withHoa, pre]; exact BareOk_cons (by simp) (withHoa_bare s none)
  | .serial l r, b => by
    simp only [withHoa, pre]
    exact BareOk_cons (by simp) (BareOk_append (withHoa_bare l none) (withHoa_bare r none))
  | .swap p _, b => by
    simp only [withHoa, pre]; exact BareOk_cons (by simp) (withHoa_bare p none)
theorem withHoaA_bare : ∀ (n : Option Node), BareOk (preO (withHoaA n))
  | none => by simp only [withHoaA, preO]; intro q id n f r s h; simp at h
  | some a => by simp only [withHoaA, preO]; exact withHoa_bare a none
theorem withHoaL_bare : ∀ (n : List (Option Node)), BareOk (preL (withHoaL n))
  | [] => by simp only [withHoaL, preL]; intro q id n f r s h; simp at h
  | a :: as => by
    simp only [withHoaL, preL]; exact BareOk_append (withHoaA_bare a) (withHoaL_bare as)
end

/-- C28: afterwards, in every binding of the tree, an argument-less predication directly in the
restriction mentions the bound variable. -/
theorem C28_complete (t : Node) (q id n f r s) (h : Node.bind q id n f (some r) s ∈ trace (addHoa none t).1)
    (p : Node) (hp : Direct r (.app p [])) : mentions n p := by
  rw [C28_addHoa, trace_eq] at h
  exact withHoa_bare t none q id n f r s h p hp

/-- `[ιX : poq() ∧ mai(X)] de()`: only `poq()` gets the variable. -/
example :
    let x : Node := .var ⟨.mk 0, 7, some 7, false⟩
    (addHoa none (.bind .the 7 7 false
        (some (.conn .and (.app (.name ['p']) []) (.app (.name ['m']) [some x])))
        (.app (.name ['d']) []))).1 =
      .bind .the 7 7 false
        (some (.conn .and (.app (.name ['p']) [some (.var (hoaVar (7, 7)))])
          (.app (.name ['m']) [some x])))
        (.app (.name ['d']) []) := rfl

/-! ## C29: specification -/

mutual
/-- Every variable with a definition occurs inside the restriction or scope of that binding; `env`
are the bindings around. -/
def Scoped (env : List Nat) : Node → Prop
  | .bind _ id _ _ r s => ScopedO (id :: env) r ∧ Scoped (id :: env) s
  | .conn _ l r => Scoped env l ∧ Scoped env r
  | .app p as => Scoped env p ∧ ScopedL env as
  | .var v => ∀ id, v.dfn = some id → id ∈ env
  | .plural as => ScopedL env as
  | .quote _ _ => True
  | .name _ => True
  | .abs s => Scoped env s
  | .serial l r => Scoped env l ∧ Scoped env r
  | .swap p _ => Scoped env p
def ScopedO (env : List Nat) : Option Node → Prop
  | none => True
  | some n => Scoped env n
def ScopedL (env : List Nat) : List (Option Node) → Prop
  | [] => True
  | a :: as => ScopedO env a ∧ ScopedL env as
end

/-- The addresses of the bindings, in pre-order. -/
def bindIds (l : List Node) : List Nat := l.filterMap fun
  | .bind _ id _ _ _ _ => some id
  | _ => none

/-- The addresses of the free variables, in pre-order. -/
def freeAddrs (l : List Node) : List VAddr := l.filterMap fun
  | .var v => if v.dfn = none then some v.addr else none
  | _ => none

/-- No binding and no free variable is shared, and a variable struct has one content. -/
structure Unshared (t : Node) : Prop where
  binds : (bindIds (trace t)).Nodup
  frees : (freeAddrs (trace t)).Nodup
  same : ∀ v w, Node.var v ∈ trace t → Node.var w ∈ trace t → v.addr = w.addr → v.dfn = w.dfn

/-- The number of a binding or free variable. -/
def number : Node → Option Nat
  | .bind _ _ n _ _ _ => some n
  | .var v => if v.dfn = none then some v.n else none
  | _ => none

/-! ## C29: proofs -/

/-- Bound variables come after their binding. -/
def After (seen : List Nat) (l : List Node) : Prop :=
  ∀ A v B, l = A ++ .var v :: B → ∀ id, v.dfn = some id → id ∈ seen ∨ id ∈ bindIds A

theorem bindIds_append (l m : List Node) : bindIds (l ++ m) = bindIds l ++ bindIds m := by
  simp [bindIds]

theorem After_append {seen : List Nat} {l m : List Node} (h1 : After seen l)
    (h2 : After (seen ++ bindIds l) m) : After seen (l ++ m) := by
  intro A v B h id hid
  rcases List.append_eq_append_iff.1 h with ⟨C, hA, hm⟩ | ⟨C, hl, hB⟩
  · have := h2 C v B hm id hid
    rw [hA, bindIds_append]
    simp only [List.mem_append] at this ⊢
    tauto
  · cases C with
    | nil =>
      simp only [List.append_nil, List.nil_append] at hl hB
      have := h2 [] v B hB.symm id hid
      simp only [bindIds, List.mem_append, List.filterMap_nil, List.not_mem_nil, or_false] at this
      rw [← hl]; exact this
    | cons c C =>
      simp only [List.cons_append, List.cons.injEq] at hB
      obtain ⟨rfl, _⟩ := hB
      exact h1 A v C hl id hid

theorem After_cons {seen : List Nat} {x : Node} {l : List Node} (hx : ∀ v, x ≠ .var v)
    (h : After (seen ++ bindIds [x]) l) : After seen (x :: l) := by
  rw [← List.singleton_append]
  refine After_append ?_ h
  intro A v B hA
  rcases A with _ | ⟨a, _ | ⟨b, A⟩⟩ <;> simp at hA
  exact absurd hA.1 (hx v)

theorem After_nil (seen : List Nat) : After seen [] := by
  intro A v B h; simp at h

theorem After_mono {seen seen' : List Nat} {l : List Node} (hs : seen ⊆ seen') (h : After seen l) :
    After seen' l := by
  intro A v B hl id hid
  rcases h A v B hl id hid with h | h
  exacts [Or.inl (hs h), Or.inr h]

mutual
theorem Scoped_after : ∀ (n : Node) (env : List Nat), Scoped env n → After env (pre n)
  | .bind q id n f r s, env, h => by
    simp only [Scoped] at h
    have hr := ScopedO_after r _ h.1
    have hs := Scoped_after s _ h.2
    simp only [pre]
    refine After_cons (by simp) (After_append (After_mono ?_ hr) (After_mono ?_ hs)) <;>
      (intro x; simp [bindIds]; tauto)
  | .conn c l r, env, h => by
    simp only [Scoped] at h
    simp only [pre]
    exact After_cons (by simp) (After_append (After_mono (by simp) (Scoped_after l _ h.1))
      (After_mono (by intro x; simp; tauto) (Scoped_after r _ h.2)))
  | .app p as, env, h => by
    simp only [Scoped] at h
    simp only [pre]
    exact After_cons (by simp) (After_append (After_mono (by simp) (Scoped_after p _ h.1))
      (After_mono (by intro x; simp; tauto) (ScopedL_after as _ h.2)))
  | .var v, env, h => by
    simp only [pre]
    intro A w B hA id hid
    rcases A with _ | ⟨a, _ | ⟨b, A⟩⟩ <;> simp at hA
    obtain ⟨rfl, _⟩ := hA
    exact Or.inl (h id hid)
  | .plural as, env, h => by
    simp only [pre]
    exact After_cons (by simp) (After_mono (by simp) (ScopedL_after as _ h))
  | .quote t f, env, _ => by simp only [pre]; exact After_cons (by simp) (After_nil _)
  | .name s, env, _ => by simp only [pre]; exact After_cons (by simp) (After_nil _)
  | .abs s, env, h => by
    simp only [pre]
    exact After_cons (by simp) (After_mono (by simp) (Scoped_after s _ h))
  | .serial l r, env, h => by
    simp only [Scoped] at h
    simp only [pre]
    exact After_cons (by simp) (After_append (After_mono (by simp) (Scoped_after l _ h.1))
      (After_mono (by intro x; simp; tauto) (Scoped_after r _ h.2)))
  | .swap p _, env, h => by
    simp only [pre]
    exact After_cons (by simp) (After_mono (by simp) (Scoped_after p _ h))
theorem ScopedO_after : ∀ (n : Option Node) (env : List Nat), ScopedO env n → After env (preO n)
  | none, env, _ => After_nil _
  | some n, env, h => Scoped_after n env h
theorem ScopedL_after : ∀ (n : List (Option Node)) (env : List Nat), ScopedL env n → After env (preL n)
  | [], env, _ => After_nil _
  | a :: as, env, h => by
    simp only [ScopedL] at h
    simp only [preL]
    exact After_append (ScopedO_after a _ h.1)
      (After_mono (by intro x; simp; tauto) (ScopedL_after as _ h.2))
end

mutual
theorem pre_renum (bN : Nat → Nat) (vN : VAddr → Nat) :
    ∀ n : Node, pre (renum bN vN n) = (pre n).map (renum bN vN)
  | .bind q id n f r s => by simp [renum, pre, pre_renum bN vN s, preO_renum bN vN r]
  | .conn c l r => by simp [renum, pre, pre_renum bN vN l, pre_renum bN vN r]
  | .app p as => by simp [renum, pre, pre_renum bN vN p, preL_renum bN vN as]
  | .var v => by simp [renum, pre]
  | .plural as => by simp [renum, pre, preL_renum bN vN as]
  | .quote t f => by simp [renum, pre]
  | .name s => by simp [renum, pre]
  | .abs s => by simp [renum, pre, pre_renum bN vN s]
  | .serial l r => by simp [renum, pre, pre_renum bN vN l, pre_renum bN vN r]
  | .swap p _ => by simp [renum, pre, pre_renum bN vN p]
theorem preO_renum (bN : Nat → Nat) (vN : VAddr → Nat) :
    ∀ n : Option Node, preO (renumO bN vN n) = (preO n).map (renum bN vN)
  | none => rfl
  | some n => by simp [renumO, preO, pre_renum bN vN n]
theorem preL_renum (bN : Nat → Nat) (vN : VAddr → Nat) :
    ∀ n : List (Option Node), preL (renumL bN vN n) = (preL n).map (renum bN vN)
  | [] => rfl
  | a :: as => by simp [renumL, preL, preO_renum bN vN a, preL_renum bN vN as]
end

/-- Is this a node that gets a number of its own? -/
def numbered : Node → Bool
  | .bind _ _ _ _ _ _ => true
  | .var v => v.dfn.isNone
  | _ => false

def cnt (l : List Node) : Nat := (l.filter numbered).length

theorem cnt_append (l m : List Node) : cnt (l ++ m) = cnt l + cnt m := by simp [cnt]

/-- Invariant of `sequenceVarNums` after the nodes `A`. -/
structure SeqInv (A : List Node) (s : Seq) : Prop where
  i : s.i = cnt A
  binds : ∀ B C q id n f r sc, A = B ++ .bind q id n f r sc :: C → s.bN id = cnt B
  frees : ∀ B C v, A = B ++ .var v :: C → v.dfn = none → s.vN v.addr = cnt B
  bound : ∀ v id, .var v ∈ A → v.dfn = some id → s.vN v.addr = s.bN id

theorem snoc_split {α : Type} {A B C : List α} {x y : α} (h : A ++ [x] = B ++ y :: C) :
    (C = [] ∧ A = B ∧ x = y) ∨ ∃ D, C = D ++ [x] ∧ A = B ++ y :: D := by
  rcases List.eq_nil_or_concat C with rfl | ⟨D, z, rfl⟩
  · have := List.append_inj' h rfl
    simp at this
    exact Or.inl ⟨rfl, this.1, this.2⟩
  · have h' : A ++ [x] = (B ++ y :: D) ++ [z] := by simpa using h
    have := List.append_inj' h' rfl
    simp at this
    exact Or.inr ⟨D, by simp [this.2], this.1⟩

theorem seq_inv (old : Nat → Nat) (A : List Node) (hb : (bindIds A).Nodup) (hf : (freeAddrs A).Nodup)
    (hs : ∀ v w, Node.var v ∈ A → Node.var w ∈ A → v.addr = w.addr → v.dfn = w.dfn)
    (ha : After [] A) :
    SeqInv A (A.foldl seqStep { i := 0, bN := old, vN := fun _ => 0 }) := by
  induction A using List.reverseRecOn with
  | nil => constructor <;> simp [cnt]
  | append_singleton A x ih =>
    have hb1 : (bindIds A).Nodup := by
      rw [bindIds_append] at hb; exact (List.nodup_append.1 hb).1
    have hf1 : (freeAddrs A).Nodup := by
      have : freeAddrs (A ++ [x]) = freeAddrs A ++ freeAddrs [x] := by simp [freeAddrs]
      rw [this] at hf; exact (List.nodup_append.1 hf).1
    have hs1 : ∀ v w, Node.var v ∈ A → Node.var w ∈ A → v.addr = w.addr → v.dfn = w.dfn :=
      fun v w hv hw => hs v w (List.mem_append_left _ hv) (List.mem_append_left _ hw)
    have ha1 : After [] A := fun B v C h id hid => by
      have := ha B v (C ++ [x]) (by simp [h]) id hid
      exact this
    have ih := ih hb1 hf1 hs1 ha1
    rw [List.foldl_append, List.foldl_cons, List.foldl_nil]
    generalize A.foldl seqStep { i := 0, bN := old, vN := fun _ => 0 } = s at ih
    have skip : numbered x = false → (∀ v, x ≠ .var v) → SeqInv (A ++ [x]) s := by
      intro hn hv
      constructor
      · rw [cnt_append, ih.i]; simp [cnt, hn]
      · intro B C q id n f r sc h
        rcases snoc_split h with ⟨_, _, rfl⟩ | ⟨D, _, hD⟩
        · simp [numbered] at hn
        · exact ih.binds B D q id n f r sc hD
      · intro B C v h
        rcases snoc_split h with ⟨_, _, rfl⟩ | ⟨D, _, hD⟩
        · exact absurd rfl (hv v)
        · exact ih.frees B D v hD
      · intro v id h
        rcases List.mem_append.1 h with h | h
        · exact ih.bound v id h
        · exact absurd (List.mem_singleton.1 h).symm (hv v)
    cases x with
    | bind q id n f r sc =>
      have hnew : id ∉ bindIds A := by
        rw [bindIds_append] at hb
        exact fun h => (List.nodup_append.1 hb).2.2 id h id (by simp [bindIds]) rfl
      constructor
      · show s.i + 1 = _
        rw [cnt_append, ih.i]; rfl
      · intro B C q' id' n' f' r' sc' h
        rcases snoc_split h with ⟨_, rfl, hx⟩ | ⟨D, _, hD⟩
        · cases hx; simp [seqStep, upd, ih.i]
        · have hne : id' ≠ id := by
            rintro rfl
            exact hnew (by rw [hD, bindIds_append]; simp [bindIds])
          simp only [seqStep, upd, if_neg hne]
          exact ih.binds B D q' id' n' f' r' sc' hD
      · intro B C v h
        rcases snoc_split h with ⟨_, _, hx⟩ | ⟨D, _, hD⟩
        · cases hx
        · exact ih.frees B D v hD
      · intro v id' h hid
        rcases List.mem_append.1 h with hA | h
        · have hne : id' ≠ id := by
            rintro rfl
            obtain ⟨B, C, hBC⟩ := List.append_of_mem hA
            have := ha1 B v C hBC id' hid
            simp only [List.not_mem_nil, false_or] at this
            exact hnew (by rw [hBC, bindIds_append]; exact List.mem_append_left _ this)
          simp only [seqStep, upd, if_neg hne]
          exact ih.bound v id' hA hid
        · cases List.mem_singleton.1 h
    | var v =>
      cases hd : v.dfn with
      | some id =>
        have hmem := ha A v [] rfl id hd
        simp only [List.not_mem_nil, false_or] at hmem
        constructor
        · simp [seqStep, hd, cnt_append, ih.i]; simp [cnt, numbered, hd]
        · intro B C q' id' n' f' r' sc' h
          rcases snoc_split h with ⟨_, rfl, hx⟩ | ⟨D, _, hD⟩
          · cases hx
          · simp only [seqStep, hd]
            exact ih.binds B D q' id' n' f' r' sc' hD
        · intro B C w h hw
          rcases snoc_split h with ⟨_, _, hx⟩ | ⟨D, _, hD⟩
          · cases hx; rw [hd] at hw; cases hw
          · have hwm : Node.var w ∈ A := by rw [hD]; simp
            have hne : w.addr ≠ v.addr := by
              intro he
              have := hs w v (List.mem_append_left _ hwm) (by simp) he
              rw [hw, hd] at this; cases this
            simp only [seqStep, hd, upd, if_neg hne]
            exact ih.frees B D w hD hw
        · intro w id' h hid
          simp only [seqStep, hd, upd]
          split
          · next he =>
            have := hs w v h (by simp) he
            rw [hid, hd] at this
            cases this; rfl
          · next he =>
            rcases List.mem_append.1 h with h | h
            · exact ih.bound w id' h hid
            · cases List.mem_singleton.1 h; exact absurd rfl he
      | none =>
        have hnew : v.addr ∉ freeAddrs A := by
          have he : freeAddrs (A ++ [.var v]) = freeAddrs A ++ [v.addr] := by
            simp [freeAddrs, hd]
          rw [he] at hf
          exact fun h => (List.nodup_append.1 hf).2.2 _ h _ (by simp) rfl
        constructor
        · simp [seqStep, hd, cnt_append, ih.i]; simp [cnt, numbered, hd]
        · intro B C q' id' n' f' r' sc' h
          rcases snoc_split h with ⟨_, rfl, hx⟩ | ⟨D, _, hD⟩
          · cases hx
          · simp only [seqStep, hd]
            exact ih.binds B D q' id' n' f' r' sc' hD
        · intro B C w h hw
          rcases snoc_split h with ⟨_, rfl, hx⟩ | ⟨D, _, hD⟩
          · cases hx; simp [seqStep, hd, upd, ih.i]
          · have hne : w.addr ≠ v.addr := by
              intro he
              apply hnew
              rw [hD]
              simp [freeAddrs, hw, he]
            simp only [seqStep, hd, upd, if_neg hne]
            exact ih.frees B D w hD hw
        · intro w id' h hid
          have hne : w.addr ≠ v.addr := by
            intro he
            have := hs w v h (by simp) he
            rw [hid, hd] at this; cases this
          simp only [seqStep, hd, upd, if_neg hne]
          rcases List.mem_append.1 h with h | h
          · exact ih.bound w id' h hid
          · cases List.mem_singleton.1 h; exact absurd rfl hne
    | conn c l r => exact skip rfl (by simp)
    | app p as => exact skip rfl (by simp)
    | plural as => exact skip rfl (by simp)
    | quote t f => exact skip rfl (by simp)
    | name s => exact skip rfl (by simp)
    | abs s => exact skip rfl (by simp)
    | serial l r => exact skip rfl (by simp)
    | swap p k => exact skip rfl (by simp)

theorem range_of_splits (g : Node → Node) (l : List Node) (hn : ∀ x ∈ l, (number (g x)).isSome = numbered x)
    (h : ∀ A x B, l = A ++ x :: B → numbered x = true → number (g x) = some (cnt A)) :
    (l.map g).filterMap number = List.range (cnt l) := by
  induction l using List.reverseRecOn with
  | nil => rfl
  | append_singleton l x ih =>
    have ih := ih (fun y hy => hn y (List.mem_append_left _ hy))
      (fun A y B hA hy => h A y (B ++ [x]) (by simp [hA]) hy)
    simp only [List.map_append, List.filterMap_append, ih, cnt_append, List.map_cons, List.map_nil]
    have hx := hn x (by simp)
    cases hnx : numbered x with
    | true =>
      have := h l x [] rfl hnx
      simp [this, cnt, hnx, List.range_succ]
    | false =>
      rw [hnx] at hx
      cases hg : number (g x) with
      | some y => simp [hg] at hx
      | none => simp [hg, cnt, hnx]

/-- C29: the numbers of bindings and free variables in pre-order are 0, 1, 2, …. -/
theorem C29_contiguous (old : Nat → Nat) (t : Node) (hu : Unshared t) (hs : Scoped [] t) :
    (trace (sequenceVarNums old t)).filterMap number =
      List.range ((trace (sequenceVarNums old t)).filterMap number).length := by
  have inv := seq_inv old (trace t) hu.binds hu.frees hu.same
    (by rw [trace_eq]; exact Scoped_after t [] hs)
  have key : (trace (sequenceVarNums old t)).filterMap number = List.range (cnt (trace t)) := by
    rw [trace_eq, sequenceVarNums, pre_renum, seqRun, visit_eq, ← trace_eq]
    generalize List.foldl seqStep { i := 0, bN := old, vN := fun _ => 0 } (trace t) = s at inv
    apply range_of_splits
    · intro x _; cases x <;> simp [renum, number, numbered]
      next v _ => cases v.dfn <;> simp
    · intro A x B hA hx
      cases x <;> simp [numbered] at hx
      · simp only [renum, number]; rw [inv.binds A B _ _ _ _ _ _ hA]
      · simp only [renum, number, hx, if_true]; rw [inv.frees A B _ hA hx]
  rw [key, List.length_range]

/-- C29: every bound variable carries the number of its binding. -/
theorem C29_bound (old : Nat → Nat) (t : Node) (hu : Unshared t) (hs : Scoped [] t)
    (v : Var) (q id n f r s) (hv : Node.var v ∈ trace (sequenceVarNums old t)) (hd : v.dfn = some id)
    (hb : Node.bind q id n f r s ∈ trace (sequenceVarNums old t)) : v.n = n := by
  have inv := seq_inv old (trace t) hu.binds hu.frees hu.same
    (by rw [trace_eq]; exact Scoped_after t [] hs)
  rw [trace_eq, sequenceVarNums, pre_renum, seqRun, visit_eq, ← trace_eq] at hv hb
  generalize List.foldl seqStep { i := 0, bN := old, vN := fun _ => 0 } (trace t) = st at inv hv hb
  obtain ⟨x, hx, hxv⟩ := List.mem_map.1 hv
  obtain ⟨y, hy, hyb⟩ := List.mem_map.1 hb
  cases x <;> simp [renum] at hxv
  cases y <;> simp [renum] at hyb
  subst hxv
  obtain ⟨_, rfl, hn, _⟩ := hyb
  rw [← hn]
  exact inv.bound _ _ hx hd

/-- C29: the binding of every bound variable is in the tree, and distinct bindings have distinct
numbers, also distinct from those of free variables. -/
theorem C29_distinct (old : Nat → Nat) (t : Node) (hu : Unshared t) (hs : Scoped [] t) :
    ((trace (sequenceVarNums old t)).filterMap number).Nodup ∧
    ∀ v id, Node.var v ∈ trace (sequenceVarNums old t) → v.dfn = some id →
      ∃ q n f r s, Node.bind q id n f r s ∈ trace (sequenceVarNums old t) := by
  constructor
  · rw [C29_contiguous old t hu hs]; exact List.nodup_range
  · intro v id hv hd
    rw [trace_eq, sequenceVarNums, pre_renum] at hv ⊢
    obtain ⟨x, hx, hxv⟩ := List.mem_map.1 hv
    cases x <;> simp [renum] at hxv
    subst hxv
    obtain ⟨A, B, hAB⟩ := List.append_of_mem hx
    have := Scoped_after t [] hs A _ B hAB id hd
    simp only [List.not_mem_nil, false_or, bindIds, List.mem_filterMap] at this
    obtain ⟨y, hy, hyid⟩ := this
    cases y <;> simp at hyid
    subst hyid
    have hmem : _ ∈ pre t := hAB ▸ List.mem_append_left _ hy
    have := List.mem_map_of_mem (f := renum (seqRun old t).bN (seqRun old t).vN) hmem
    exact ⟨_, _, _, _, _, by simpa only [renum] using this⟩

mutual
/-- The tree without numbers. -/
def unnum : Node → Node
  | .bind q id _ f r s => .bind q id 0 f (unnumO r) (unnum s)
  | .conn c l r => .conn c (unnum l) (unnum r)
  | .app p as => .app (unnum p) (unnumL as)
  | .var v => .var { v with n := 0 }
  | .plural as => .plural (unnumL as)
  | .quote t f => .quote t f
  | .name s => .name s
  | .abs s => .abs (unnum s)
  | .serial l r => .serial (unnum l) (unnum r)
  | .swap p k => .swap (unnum p) k
def unnumO : Option Node → Option Node
  | none => none
  | some n => some (unnum n)
def unnumL : List (Option Node) → List (Option Node)
  | [] => []
  | a :: as => unnumO a :: unnumL as
end

mutual
theorem unnum_renum (bN : Nat → Nat) (vN : VAddr → Nat) : ∀ n, unnum (renum bN vN n) = unnum n
  | .bind q id n f r s => by simp [renum, unnum, unnum_renum bN vN s, unnumO_renum bN vN r]
  | .conn c l r => by simp [renum, unnum, unnum_renum bN vN l, unnum_renum bN vN r]
  | .app p as => by simp [renum, unnum, unnum_renum bN vN p, unnumL_renum bN vN as]
  | .var v => by simp [renum, unnum]
  | .plural as => by simp [renum, unnum, unnumL_renum bN vN as]
  | .quote t f => by simp [renum, unnum]
  | .name s => by simp [renum, unnum]
  | .abs s => by simp [renum, unnum, unnum_renum bN vN s]
  | .serial l r => by simp [renum, unnum, unnum_renum bN vN l, unnum_renum bN vN r]
  | .swap p _ => by simp [renum, unnum, unnum_renum bN vN p]
theorem unnumO_renum (bN : Nat → Nat) (vN : VAddr → Nat) : ∀ n, unnumO (renumO bN vN n) = unnumO n
  | none => rfl
  | some n => by simp [renumO, unnumO, unnum_renum bN vN n]
theorem unnumL_renum (bN : Nat → Nat) (vN : VAddr → Nat) : ∀ n, unnumL (renumL bN vN n) = unnumL n
  | [] => rfl
  | a :: as => by simp [renumL, unnumL, unnumO_renum bN vN a, unnumL_renum bN vN as]
end

/-- C29: numbering changes nothing but the numbers. -/
theorem C29_only_numbers (old : Nat → Nat) (t : Node) : unnum (sequenceVarNums old t) = unnum t :=
  unnum_renum _ _ t

/-- `[ιX : poq(X)] mai(X, U) ∧ de(U')` with numbers 7, 3, 3. -/
def exSeq : Node :=
  let x : Node := .var ⟨.mk 0, 7, some 7, false⟩
  .bind .the 7 7 false (some (.app (.name ['p']) [some x]))
    (.conn .and (.app (.name ['m']) [some x, some (.var ⟨.mk 1, 3, none, false⟩)])
      (.app (.name ['d']) [some (.var ⟨.mk 2, 3, none, false⟩)]))

example : Unshared exSeq ∧ Scoped [] exSeq := by
  refine ⟨⟨by decide, by decide, ?_⟩, ?_⟩
  · have : ∀ v, Node.var v ∈ trace exSeq → v = ⟨.mk 0, 7, some 7, false⟩ ∨ v = ⟨.mk 1, 3, none, false⟩ ∨
        v = ⟨.mk 2, 3, none, false⟩ := by
      intro v hv
      rw [trace_eq] at hv
      simp [exSeq, pre, preO, preL] at hv
      tauto
    intro v w hv hw
    rcases this v hv with rfl | rfl | rfl <;> rcases this w hw with rfl | rfl | rfl <;> simp
  · simp [exSeq, Scoped, ScopedO, ScopedL]

example : (trace (sequenceVarNums id exSeq)).filterMap number = [0, 1, 2] := by decide

/-- Without the hypothesis on sharing, numbers have gaps: a free variable that stands in two places
(`mai? ru pai? do/`) is numbered twice. -/
theorem C29_shared_gap :
    let u : Node := .var ⟨.mk 0, 3, none, false⟩
    let t : Node := .conn .and (.app (.name ['m']) [some u]) (.app (.name ['p']) [some u])
    (trace (sequenceVarNums id t)).filterMap number = [1, 1] := by decide

end Verif.Logic
