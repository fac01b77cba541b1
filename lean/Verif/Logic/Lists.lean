/-
Slice manipulations of the logic package: `orderArguments` (C26), `merge` (C27) and the argument
exchange of `swap` (C41).
-/
import Mathlib.Data.List.Perm.Subperm
import Mathlib.Data.List.GetD

namespace Verif.Logic

/-! ## orderArguments -/

section Order
variable {α : Type}

/-- interp.go:288-293: the length of the result. -/
def orderLen (args : List (α × Nat)) : Nat :=
  args.foldl (fun n a => if a.2 > n then a.2 else n) args.length

/-- interp.go:295-299: `largs[a.pos-1] = a.Argument`; `none` is an index out of range. -/
def orderPlace : List (α × Nat) → List (Option α) → Option (List (Option α))
  | [], l => some l
  | (a, p) :: as, l =>
    if p > 0 then
      if p - 1 < l.length then orderPlace as (l.set (p - 1) (some a)) else none
    else orderPlace as l

/-- interp.go:305-307: `for largs[i] != nil { i++ }`; `none` is an index out of range. The fuel is
the length of the list; it cannot run out before the index leaves the list. -/
def orderSkip (l : List (Option α)) : Nat → Nat → Option Nat
  | 0, _ => none
  | fuel + 1, i => match l[i]? with
    | none => none
    | some none => some i
    | some (some _) => orderSkip l fuel (i + 1)

/-- interp.go:300-309: the arguments without place. -/
def orderFill : List (α × Nat) → Nat → List (Option α) → Option (List (Option α))
  | [], _, l => some l
  | (a, p) :: as, i, l =>
    if p > 0 then orderFill as i l
    else match orderSkip l (l.length + 1) i with
      | none => none
      | some j => orderFill as j (l.set j (some a))

/-- interp.go:287-311 `orderArguments`; an argument is paired with its `pos`. `none` is a panic. -/
def orderArguments (args : List (α × Nat)) : Option (List (Option α)) :=
  match orderPlace args (List.replicate (orderLen args) none) with
  | none => none
  | some l => orderFill args 0 l

/-! ### Specification -/

/-- The argument that claims place `p` (counting from 1): the last one wins. -/
def claims (args : List (α × Nat)) (p : Nat) : Option α :=
  ((args.filter (·.2 == p)).map (·.1)).getLast?

/-- The arguments without a place. -/
def unplaced (args : List (α × Nat)) : List α := (args.filter (·.2 == 0)).map (·.1)

/-- The places, counting from 0, that nobody claims. -/
def freePlaces (args : List (α × Nat)) (n : Nat) : List Nat :=
  (List.range n).filter fun i => (claims args (i + 1)).isNone

/-! ### Proofs -/

/-- Fill the holes of a list from the left. -/
def pour : List (Option α) → List α → List (Option α)
  | l, [] => l
  | [], _ :: _ => []
  | some a :: l, x :: xs => some a :: pour l (x :: xs)
  | none :: l, x :: xs => some x :: pour l xs

@[simp] theorem pour_nil (l : List (Option α)) : pour l [] = l := by cases l <;> rfl

theorem foldl_max_ge (args : List (α × Nat)) (n : Nat) :
    n ≤ args.foldl (fun n a => if a.2 > n then a.2 else n) n ∧
    ∀ a ∈ args, a.2 ≤ args.foldl (fun n a => if a.2 > n then a.2 else n) n := by
  induction args generalizing n with
  | nil => simp
  | cons a as ih =>
    simp only [List.foldl_cons, List.mem_cons]
    have := ih (if a.2 > n then a.2 else n)
    constructor
    · refine Nat.le_trans ?_ this.1; split <;> omega
    · rintro b (rfl | hb)
      · refine Nat.le_trans ?_ this.1; split <;> omega
      · exact this.2 b hb

theorem foldl_max_eq (args : List (α × Nat)) (n m : Nat) (hn : n ≤ m)
    (h : ∀ a ∈ args, a.2 ≤ m) :
    args.foldl (fun n a => if a.2 > n then a.2 else n) n ≤ m := by
  induction args generalizing n with
  | nil => simpa
  | cons a as ih =>
    simp only [List.foldl_cons]
    apply ih
    · have := h a (List.mem_cons_self ..); split <;> omega
    · intro b hb; exact h b (List.mem_cons_of_mem _ hb)

theorem orderPlace_eq (args : List (α × Nat)) : ∀ (l : List (Option α)),
    (∀ a ∈ args, a.2 ≤ l.length) →
    ∃ r, orderPlace args l = some r ∧ r.length = l.length ∧
      ∀ i, i < l.length → r[i]? = some ((claims args (i + 1)).or (l[i]?.getD none)) := by
  induction args with
  | nil =>
    intro l _
    refine ⟨l, rfl, rfl, fun i hi => ?_⟩
    simp [claims, hi]
  | cons a as ih =>
    obtain ⟨a, p⟩ := a
    intro l h
    have hc : ∀ i, claims ((a, p) :: as) (i + 1) =
        if p = i + 1 then (claims as (i + 1)).or (some a) else claims as (i + 1) := by
      intro i
      simp only [claims, List.filter_cons]
      by_cases hp : p = i + 1
      · simp [hp, List.getLast?_cons]
      · simp [hp]
    have hp := h (a, p) (List.mem_cons_self ..)
    simp only at hp
    unfold orderPlace
    by_cases h0 : p > 0
    · rw [if_pos h0, if_pos (by omega)]
      obtain ⟨r, hr, hl, hi⟩ := ih (l.set (p - 1) (some a)) (by
        intro b hb; simpa using h b (List.mem_cons_of_mem _ hb))
      refine ⟨r, hr, by simpa using hl, fun i hlt => ?_⟩
      rw [hi i (by simpa using hlt), hc]
      by_cases hpi : p = i + 1
      · subst hpi
        simp only [if_true, Nat.add_sub_cancel, List.getElem?_set_self hlt, Option.getD_some]
        cases claims as (i + 1) <;> simp
      · rw [if_neg hpi, List.getElem?_set_ne (by omega)]
    · rw [if_neg h0]
      obtain ⟨r, hr, hl, hi⟩ := ih l fun b hb => h b (List.mem_cons_of_mem _ hb)
      refine ⟨r, hr, hl, fun i hlt => ?_⟩
      rw [hi i hlt, hc, if_neg (by omega)]

/-- Number of holes. -/
def holes (l : List (Option α)) : Nat := (l.filter (·.isNone)).length

theorem orderSkip_eq (l : List (Option α)) : ∀ (d m : List (Option α)) (fuel : Nat),
    l = d ++ m → (∀ x ∈ d, x.isSome) → m.length < fuel → 0 < holes m →
    ∃ u v, m = u ++ none :: v ∧ (∀ x ∈ u, x.isSome) ∧
      orderSkip l fuel d.length = some (d ++ u).length := by
  intro d m
  induction m generalizing d with
  | nil => intro fuel _ _ _ h; simp [holes] at h
  | cons x m ih =>
    intro fuel hl hd hf hh
    obtain ⟨fuel, rfl⟩ : ∃ k, fuel = k + 1 := ⟨fuel - 1, by omega⟩
    have hx : l[d.length]? = some x := by subst hl; simp
    cases x with
    | none => exact ⟨[], m, rfl, by simp, by simp [orderSkip, hx]⟩
    | some a =>
      obtain ⟨u, v, hm, hu, hs⟩ := ih (d ++ [some a]) fuel (by simp [hl])
        (by intro x hx; simp at hx; rcases hx with hx | rfl; exacts [hd x hx, rfl])
        (by simpa using hf) (by simpa [holes] using hh)
      refine ⟨some a :: u, v, by simp [hm], ?_, ?_⟩
      · intro x hx; simp at hx; rcases hx with rfl | hx; exacts [rfl, hu x hx]
      · simp only [orderSkip, hx]
        rw [show d.length + 1 = (d ++ [some a]).length by simp, hs]
        simp

theorem pour_append (u v : List (Option α)) (hu : ∀ x ∈ u, x.isSome) (xs : List α) :
    pour (u ++ v) xs = u ++ pour v xs := by
  induction u with
  | nil => rfl
  | cons a u ih =>
    obtain ⟨a, rfl⟩ := Option.isSome_iff_exists.1 (hu a (List.mem_cons_self ..))
    have := ih fun x hx => hu x (List.mem_cons_of_mem _ hx)
    cases xs with
    | nil => simp
    | cons x xs => simp [pour, this]

theorem orderFill_eq (args : List (α × Nat)) : ∀ (d m : List (Option α)),
    (∀ x ∈ d, x.isSome) → (unplaced args).length ≤ holes m →
    orderFill args d.length (d ++ m) = some (d ++ pour m (unplaced args)) := by
  induction args with
  | nil => intro d m _ _; simp [orderFill, unplaced]
  | cons a as ih =>
    obtain ⟨a, p⟩ := a
    intro d m hd hh
    unfold orderFill
    by_cases h0 : p > 0
    · have hu : unplaced ((a, p) :: as) = unplaced as := by
        simp [unplaced, show ¬ p = 0 by omega]
      rw [if_pos h0, hu, ih d m hd (by rwa [hu] at hh)]
    · have hp : p = 0 := by omega
      subst hp
      have hu : unplaced ((a, 0) :: as) = a :: unplaced as := by simp [unplaced]
      rw [hu] at hh ⊢
      simp only [List.length_cons] at hh
      obtain ⟨u, v, hm, hus, hs⟩ := orderSkip_eq (d ++ m) d m ((d ++ m).length + 1) rfl hd
        (by simp; omega) (by omega)
      simp only [Nat.lt_irrefl, if_false, gt_iff_lt, hs]
      subst hm
      have hset : (d ++ (u ++ none :: v)).set (d ++ u).length (some a) = d ++ (u ++ some a :: v) := by
        rw [← List.append_assoc, List.set_append_right _ _ (Nat.le_refl _)]
        simp
      have hlen : (d ++ (u ++ some a :: v)) = (d ++ u) ++ (some a :: v) := by simp
      rw [hset, hlen, ih (d ++ u) (some a :: v)]
      · rw [List.append_assoc, ← pour_append u _ hus]
        congr 2
        rw [pour_append u _ hus, pour_append u _ hus]
        congr 1
        cases hun : unplaced as with
        | nil => simp [pour]
        | cons b bs => simp [pour]
      · intro x hx
        simp at hx
        rcases hx with hx | hx
        exacts [hd x hx, hus x hx]
      · have : holes (u ++ none :: v) = holes v + 1 := by
          have hz : u.filter (·.isNone) = [] := by
            rw [List.filter_eq_nil_iff]
            intro x hx
            have := hus x hx
            clear hus hh hs hset hlen ih hd
            cases x with
            | none => cases this
            | some y => simp
          simp [holes, hz]
        have h2 : holes (some a :: v) = holes v := by simp [holes]
        omega

theorem pour_length (l : List (Option α)) (xs : List α) : (pour l xs).length = l.length := by
  fun_induction pour l xs <;> simp_all

theorem pour_some (l : List (Option α)) (xs : List α) (i : Nat) (a : α) (h : l[i]? = some (some a)) :
    (pour l xs)[i]? = some (some a) := by
  fun_induction pour l xs generalizing i with
  | case1 => exact h
  | case2 => simp at h
  | case3 b l x xs ih => cases i <;> simp_all
  | case4 l x xs ih => cases i <;> simp_all

theorem pour_free (l : List (Option α)) (xs : List α) (hh : xs.length ≤ holes l) :
    (((List.range l.length).filter fun i => (l[i]?.getD none).isNone).map
      fun i => (pour l xs)[i]?.getD none) =
    xs.map some ++ List.replicate (holes l - xs.length) none := by
  induction l generalizing xs with
  | nil => cases xs <;> simp_all [holes]
  | cons o l ih =>
    have hr : List.range (o :: l).length = 0 :: (List.range l.length).map (· + 1) := by
      rw [List.length_cons, List.range_succ_eq_map]
    rw [hr]
    cases o with
    | some a =>
      have hp : pour (some a :: l) xs = some a :: pour l xs := by cases xs <;> simp [pour]
      have := ih xs (by simpa [holes] using hh)
      simp only [hp, List.filter_cons, List.filter_map, List.map_map, List.getElem?_cons_zero,
        Option.getD_some, Option.isNone_some, Bool.false_eq_true, if_false]
      simpa [holes, Function.comp_def] using this
    | none =>
      cases xs with
      | nil =>
        have := ih [] (by simp)
        simp [Function.comp_def, holes, List.filter_map] at this ⊢
        rw [List.replicate_succ, this]
      | cons x xs =>
        have := ih xs (by simpa [holes] using hh)
        simp [Function.comp_def, holes, List.filter_map, pour] at this ⊢
        rw [this]

theorem claims_zero_sum (args : List (α × Nat)) (n : Nat)
    (hn : args.length ≤ n) :
    (unplaced args).length ≤ (freePlaces args n).length := by
  have key : ∀ (l : List (α × Nat)) (n : Nat),
      n ≤ (freePlaces l n).length + (l.filter (·.2 != 0)).length := by
    intro l n
    have h1 : ((List.range n).filter fun i => !(claims l (i + 1)).isNone).length ≤
        (l.filter (·.2 != 0)).length := by
      have : ((List.range n).filter fun i => !(claims l (i + 1)).isNone) ⊆
          (l.filter (·.2 != 0)).map (·.2 - 1) := by
        intro i hi
        simp only [List.mem_filter, claims] at hi
        obtain ⟨_, hi⟩ := hi
        cases hg : ((l.filter (·.2 == i + 1)).map (·.1)).getLast? with
        | none => simp [hg] at hi
        | some a =>
          have hmem := List.mem_of_getLast? hg
          simp only [List.mem_map, List.mem_filter] at hmem
          obtain ⟨b, ⟨hb, hb2⟩, _⟩ := hmem
          have : b.2 = i + 1 := by simpa using hb2
          simp only [List.mem_map, List.mem_filter]
          exact ⟨b, ⟨hb, by simp [this]⟩, by omega⟩
      have hnd : ((List.range n).filter fun i => !(claims l (i + 1)).isNone).Nodup :=
        (List.nodup_range (n := n)).filter _
      have := (List.subperm_of_subset hnd this).length_le
      simpa using this
    have h2 := List.length_eq_length_filter_add (l := List.range n)
      (fun i => (claims l (i + 1)).isNone)
    simp only [List.length_range] at h2
    simp only [freePlaces]
    omega
  have h := key args n
  have h3 := List.length_eq_length_filter_add (l := args) (·.2 == 0)
  have h4 : (args.filter fun x => !(x.2 == 0)).length = (args.filter (·.2 != 0)).length := by
    congr 1
  simp only [unplaced, List.length_map]
  omega

/-- C26: `orderArguments` never indexes out of range. The result is as long as needed; an argument
with a place is in that place, the last claimant winning; the places nobody claims hold, from left
to right, exactly the arguments without place in order, followed only by holes. -/
theorem C26_order (args : List (α × Nat)) :
    ∃ r, orderArguments args = some r ∧
      (args.length ≤ r.length ∧ (∀ a ∈ args, a.2 ≤ r.length) ∧
        ∀ m, args.length ≤ m → (∀ a ∈ args, a.2 ≤ m) → r.length ≤ m) ∧
      (∀ p a, claims args (p + 1) = some a → r[p]? = some (some a)) ∧
      ∃ k, (freePlaces args r.length).map (fun i => r[i]?.getD none) =
        (unplaced args).map some ++ List.replicate k none := by
  have hlen := foldl_max_ge args args.length
  obtain ⟨l, hl, hll, hi⟩ := orderPlace_eq args (List.replicate (orderLen args) none)
    (by simpa [orderLen] using hlen.2)
  simp only [List.length_replicate] at hll hi
  have hln : ∀ i, i < orderLen args → l[i]? = some (claims args (i + 1)) := by
    intro i h; rw [hi i h]; simp [h]
  have hfree : ((List.range l.length).filter fun i => (l[i]?.getD none).isNone) =
      freePlaces args l.length := by
    rw [freePlaces]
    apply List.filter_congr
    intro i hi
    rw [List.mem_range, hll] at hi
    rw [hln i hi]; rfl
  have hholes : holes l = (freePlaces args l.length).length := by
    rw [← hfree]
    clear hfree hln hi hll hl
    induction l with
    | nil => simp [holes]
    | cons o l ih =>
      rw [List.length_cons, List.range_succ_eq_map]
      simp only [List.filter_cons, List.filter_map, List.getElem?_cons_zero]
      cases o <;> simp [holes, Function.comp_def] at ih ⊢ <;> omega
  have hle : (unplaced args).length ≤ holes l := by
    rw [hholes, hll]
    exact claims_zero_sum args _ (by simpa [orderLen] using hlen.1)
  have hfill := orderFill_eq args [] l (by simp) hle
  simp only [List.length_nil, List.nil_append] at hfill
  refine ⟨pour l (unplaced args), by simp [orderArguments, hl, hfill], ?_, ?_, ?_⟩
  · rw [pour_length, hll]
    refine ⟨by simpa [orderLen] using hlen.1, by simpa [orderLen] using hlen.2, ?_⟩
    intro m h1 h2
    exact foldl_max_eq args _ m h1 h2
  · intro p a hp
    apply pour_some
    have hlt : p < orderLen args := by
      have hmem := List.mem_of_getLast? hp
      simp only [List.mem_map, List.mem_filter] at hmem
      obtain ⟨b, ⟨hb, hb2⟩, _⟩ := hmem
      have h1 : b.2 = p + 1 := by simpa using hb2
      have h2 := hlen.2 b hb
      simp only [orderLen]; omega
    rw [hln p hlt, hp]
  · refine ⟨holes l - (unplaced args).length, ?_⟩
    rw [pour_length, ← hfree]
    exact pour_free l _ hle

/-- `cu X` (place 3), plain Y, `fi Z` (place 1), plain W: Z Y X W. -/
example : orderArguments [('X', 3), ('Y', 0), ('Z', 1), ('W', 0)] =
    some [some 'Z', some 'Y', some 'X', some 'W'] := by decide

example : orderArguments [('X', 4), ('Y', 4), ('Z', 0)] =
    some [some 'Z', none, none, some 'Y'] := by decide

end Order

/-! ## merge -/

/-- simplify.go:94-99: the body of the loop at index `k`; the state is the slice and `j`. -/
def mergeStep (s : List Int × Nat) (k : Nat) : List Int × Nat :=
  if s.1.getD k 0 > s.1.getD s.2 0 then (s.1.set (s.2 + 1) (s.1.getD k 0), s.2 + 1) else s

/-- simplify.go:87-101 `merge`, for any implementation of `sort.Ints`. -/
def merge (sort : List Int → List Int) (l r : List Int) : List Int :=
  if l.length = 0 then r
  else
    let s := sort (l ++ r)
    ((List.range' 1 (s.length - 1)).foldl mergeStep (s, 0)).1

theorem merge_loop (o : List Int) (ho : o.Pairwise (· ≤ ·)) (_h0 : 0 < o.length) (n : Nat)
    (hn : n + 1 ≤ o.length) :
    let s := (List.range' 1 n).foldl mergeStep (o, 0)
    s.2 ≤ n ∧ s.1.length = o.length ∧
    (∀ i, n < i → s.1.getD i 0 = o.getD i 0) ∧
    (s.1.getD s.2 0 = o.getD n 0) ∧
    (∀ x, x ∈ s.1.take (s.2 + 1) ↔ x ∈ o.take (n + 1)) := by
  induction n with
  | zero => simp
  | succ n ih =>
    have ih := ih (by omega)
    rw [List.range'_1_concat, List.foldl_append]
    simp only [List.foldl_cons, List.foldl_nil]
    generalize (List.range' 1 n).foldl mergeStep (o, 0) = s at ih
    obtain ⟨l, j⟩ := s
    simp only at ih ⊢
    obtain ⟨hj, hl, hrest, hlast, hmem⟩ := ih
    have hle : o.getD n 0 ≤ o.getD (n + 1) 0 := by
      rw [List.getD_eq_getElem _ _ (by omega), List.getD_eq_getElem _ _ (by omega)]
      exact List.pairwise_iff_getElem.1 ho n (n + 1) (by omega) (by omega) (by omega)
    have htake : o.take (n + 2) = o.take (n + 1) ++ [o.getD (n + 1) 0] := by
      rw [List.take_add_one, List.getElem?_eq_getElem (by omega),
        List.getD_eq_getElem _ _ (by omega)]
      rfl
    simp only [mergeStep]
    rw [show 1 + n = n + 1 by omega, hrest (n + 1) (by omega), hlast]
    by_cases hgt : o.getD (n + 1) 0 > o.getD n 0
    · rw [if_pos hgt]
      simp only
      refine ⟨by omega, by simpa using hl, ?_, ?_, ?_⟩
      · intro i hi
        rw [← hrest i (by omega)]
        simp only [List.getD_eq_getElem?_getD]
        rw [List.getElem?_set_ne (by omega)]
      · simp only [List.getD_eq_getElem?_getD]
        rw [List.getElem?_set_self (by omega)]
        rfl
      · intro x
        rw [htake, List.mem_append, ← hmem, List.take_add_one, List.mem_append,
          List.getElem?_set_self (by omega), List.take_set_of_le (by omega)]
        simp
    · rw [if_neg hgt]
      simp only
      have heq : o.getD (n + 1) 0 = o.getD n 0 := by omega
      refine ⟨by omega, hl, fun i hi => hrest i (by omega), by rw [hlast, heq], ?_⟩
      intro x
      rw [hmem, htake, List.mem_append, heq]
      simp only [List.mem_singleton]
      constructor
      · exact Or.inl
      · rintro (h | rfl)
        · exact h
        · rw [List.getD_eq_getElem _ _ (by omega)]
          exact List.mem_take_iff_getElem.2 ⟨n, by omega, rfl⟩

theorem merge_sub (o : List Int) (n : Nat) (hn : n + 1 ≤ o.length) :
    let s := (List.range' 1 n).foldl mergeStep (o, 0)
    s.2 ≤ n ∧ s.1.length = o.length ∧ ∀ x, x ∈ s.1 → x ∈ o := by
  induction n with
  | zero => simp
  | succ n ih =>
    have ih := ih (by omega)
    rw [List.range'_1_concat, List.foldl_append]
    simp only [List.foldl_cons, List.foldl_nil]
    generalize (List.range' 1 n).foldl mergeStep (o, 0) = s at ih
    obtain ⟨l, j⟩ := s
    simp only at ih ⊢
    obtain ⟨hj, hl, hm⟩ := ih
    simp only [mergeStep]
    split
    · refine ⟨by simp only; omega, by simpa using hl, ?_⟩
      intro x hx
      rcases List.mem_or_eq_of_mem_set hx with h | h
      · exact hm x h
      · rw [h, List.getD_eq_getElem _ _ (by omega)]
        exact hm _ (List.getElem_mem _)
    · exact ⟨by simp only; omega, hl, hm⟩

/-- C27: whatever sorting routine is used, `merge` returns a slice with exactly the elements of the
two. -/
theorem C27_merge (sort : List Int → List Int) (hp : ∀ l, (sort l).Perm l)
    (hs : ∀ l, (sort l).Pairwise (· ≤ ·)) (l r : List Int) (x : Int) :
    x ∈ merge sort l r ↔ x ∈ l ∨ x ∈ r := by
  unfold merge
  split
  · next h => simp [List.length_eq_zero_iff.1 h]
  · next h =>
    have hl : (sort (l ++ r)).length = l.length + r.length := by simpa using (hp (l ++ r)).length_eq
    have h1 : (sort (l ++ r)).length - 1 + 1 ≤ (sort (l ++ r)).length := by omega
    have hloop := merge_loop (sort (l ++ r)) (hs _) (by omega) _ h1
    have hsub := merge_sub (sort (l ++ r)) _ h1
    simp only at hloop hsub ⊢
    rw [← List.mem_append, ← (hp (l ++ r)).mem_iff]
    constructor
    · exact hsub.2.2 x
    · intro hx
      refine List.mem_of_mem_take ((hloop.2.2.2.2 x).2 ?_)
      rw [List.take_of_length_le (by omega)]
      exact hx

/-- C27: the doc comment's "single sorted slice with no dups" is false of the code: the tail that
was moved over is not cut off. -/
theorem C27_merge_keeps_dups (sort : List Int → List Int) (hp : ∀ l, (sort l).Perm l)
    (hs : ∀ l, (sort l).Pairwise (· ≤ ·)) :
    merge sort [1] [1] = [1, 1] ∧ merge sort [1, 2] [1, 3] = [1, 2, 3, 3] := by
  have key : ∀ a b : List Int, b.Pairwise (· ≤ ·) → a.Perm b → sort a = b := fun a b hb hab =>
    ((hp a).trans hab).eq_of_pairwise (fun _ _ _ _ => Int.le_antisymm) (hs a) hb
  constructor
  · simp only [merge, key ([1] ++ [1]) [1, 1] (by decide) (by decide)]
    decide
  · simp only [merge, key ([1, 2] ++ [1, 3]) [1, 1, 2, 3] (by decide) (by decide)]
    decide

/-- Insertion sort, used where the model needs a concrete `sort.Ints`. -/
def insert (x : Int) : List Int → List Int
  | [] => [x]
  | y :: l => if x ≤ y then x :: y :: l else y :: insert x l
def sortInts (l : List Int) : List Int := l.foldr insert []

theorem insert_perm (x : Int) (l : List Int) : (insert x l).Perm (x :: l) := by
  induction l with
  | nil => exact List.Perm.refl _
  | cons y l ih =>
    unfold insert; split
    · exact List.Perm.refl _
    · exact (ih.cons y).trans (List.Perm.swap ..)

theorem sortInts_perm (l : List Int) : (sortInts l).Perm l := by
  induction l with
  | nil => exact List.Perm.refl _
  | cons y l ih => exact (insert_perm y _).trans (ih.cons y)

theorem insert_sorted (x : Int) (l : List Int) (h : l.Pairwise (· ≤ ·)) :
    (insert x l).Pairwise (· ≤ ·) := by
  induction l with
  | nil => simp [insert]
  | cons y l ih =>
    unfold insert; split
    · next hxy =>
      rw [List.pairwise_cons] at h ⊢
      refine ⟨?_, List.pairwise_cons.2 h⟩
      intro z hz
      rcases List.mem_cons.1 hz with rfl | hz
      · exact hxy
      · exact Int.le_trans hxy (h.1 z hz)
    · next hxy =>
      rw [List.pairwise_cons] at h ⊢
      refine ⟨?_, ih h.2⟩
      intro z hz
      rcases List.mem_cons.1 ((insert_perm x l).mem_iff.1 hz) with rfl | hz
      · omega
      · exact h.1 z hz

theorem sortInts_sorted (l : List Int) : (sortInts l).Pairwise (· ≤ ·) := by
  induction l with
  | nil => simp [sortInts]
  | cons y l ih => exact insert_sorted y _ ih

/-- The hypotheses on the sorting routine are met by merge sort. -/
example : (∀ l : List Int, (l.mergeSort (· ≤ ·)).Perm l) ∧
    ∀ l : List Int, (l.mergeSort (· ≤ ·)).Pairwise (· ≤ ·) :=
  ⟨fun l => List.mergeSort_perm l _, fun l => by
    simpa using List.pairwise_mergeSort (le := fun a b : Int => decide (a ≤ b))
      (by intro a b c; simp; omega) (by intro a b; simp; omega) l⟩

/-! ## swap -/

/-- simplify.go:200-206: the arguments after applying a swap with position `pos`. -/
def swapArgs {α : Type} (args : List (Option α)) (pos : Nat) : List (Option α) :=
  let args := if pos ≥ args.length then args ++ List.replicate (pos + 1 - args.length) none else args
  (args.set 0 (args.getD pos none)).set pos (args.getD 0 none)

variable {α : Type}

theorem swapArgs_get (args : List (Option α)) (pos i : Nat) :
    (swapArgs args pos).getD i none =
      if i = 0 then args.getD pos none else if i = pos then args.getD 0 none
      else args.getD i none := by
  have hpad : ∀ j, (if pos ≥ args.length then args ++ List.replicate (pos + 1 - args.length) none
      else args).getD j none = args.getD j none := by
    intro j
    split
    · simp only [List.getD_eq_getElem?_getD]
      by_cases hj : j < args.length
      · rw [List.getElem?_append_left hj]
      · rw [List.getElem?_append_right (by omega), List.getElem?_eq_none (l := args) (by omega)]
        rw [List.getElem?_replicate]
        split <;> rfl
    · rfl
  unfold swapArgs
  simp only [hpad]
  generalize hp : (if pos ≥ args.length then args ++ List.replicate (pos + 1 - args.length) none
      else args) = a at *
  have hlen : pos < a.length := by
    rw [← hp]; split
    · simp; omega
    · omega
  rw [List.getD_eq_getElem?_getD, List.getElem?_set]
  by_cases h1 : pos = i
  · subst h1
    simp only [if_true, List.length_set, hlen, Option.getD_some]
    by_cases h0 : pos = 0
    · simp [h0]
    · simp [h0]
  · rw [if_neg h1, List.getElem?_set]
    by_cases h0 : i = 0
    · subst h0
      simp [show 0 < a.length by omega]
    · rw [if_neg (fun h => h0 h.symm), if_neg h0, if_neg (fun h => h1 h.symm), ← hpad i,
        List.getD_eq_getElem?_getD]

theorem swapArgs_length (args : List (Option α)) (pos : Nat) :
    (swapArgs args pos).length = max args.length (pos + 1) := by
  unfold swapArgs
  simp only [List.length_set]
  split
  · simp; omega
  · omega

/-- C41: places 0 and `pos` are exchanged, other places keep their argument, and the list is as long
as needed to have both places. -/
theorem C41_swap (args : List (Option α)) (pos i : Nat) :
    (swapArgs args pos).length = max args.length (pos + 1) ∧
    ((swapArgs args pos).getD 0 none = args.getD pos none) ∧
    ((swapArgs args pos).getD pos none = args.getD 0 none) ∧
    (i ≠ 0 → i ≠ pos → (swapArgs args pos).getD i none = args.getD i none) := by
  refine ⟨swapArgs_length _ _, ?_, ?_, ?_⟩
  · rw [swapArgs_get, if_pos rfl]
  · rw [swapArgs_get]; split
    · next h => rw [h]
    · simp
  · intro h0 h1; rw [swapArgs_get, if_neg h0, if_neg h1]

theorem ext_getD {l m : List (Option α)} (hl : l.length = m.length)
    (h : ∀ i, l.getD i none = m.getD i none) : l = m := by
  apply List.ext_getElem hl
  intro i h1 h2
  have := h i
  rwa [List.getD_eq_getElem _ _ h1, List.getD_eq_getElem _ _ h2] at this

/-- C41: swapping twice restores the arguments up to trailing holes. -/
theorem C41_involution (args : List (Option α)) (pos : Nat) :
    ∃ k, swapArgs (swapArgs args pos) pos = args ++ List.replicate k none := by
  refine ⟨pos + 1 - args.length, ?_⟩
  apply ext_getD
  · rw [swapArgs_length, swapArgs_length]; simp; omega
  · intro i
    have hR : (args ++ List.replicate (pos + 1 - args.length) none).getD i none = args.getD i none := by
      simp only [List.getD_eq_getElem?_getD]
      by_cases hj : i < args.length
      · rw [List.getElem?_append_left hj]
      · rw [List.getElem?_append_right (by omega), List.getElem?_eq_none (l := args) (by omega),
          List.getElem?_replicate]
        split <;> rfl
    rw [hR, swapArgs_get]
    by_cases h0 : i = 0
    · subst h0
      rw [if_pos rfl, swapArgs_get]
      split
      · next h => rw [h]
      · rw [if_pos rfl]
    · rw [if_neg h0]
      by_cases h1 : i = pos
      · subst h1; rw [if_pos rfl, swapArgs_get, if_pos rfl]
      · rw [if_neg h1, swapArgs_get, if_neg h0, if_neg h1]

/-- C41: no argument is lost or duplicated. -/
theorem C41_perm (args : List (Option α)) (pos : Nat) :
    ((swapArgs args pos).filterMap id).Perm (args.filterMap id) := by
  have hpad : ((if pos ≥ args.length then args ++ List.replicate (pos + 1 - args.length) none
      else args).filterMap id) = args.filterMap id := by
    split
    · rw [List.filterMap_append]
      have : ∀ n, (List.replicate n (none : Option α)).filterMap id = [] := by
        intro n; induction n with
        | zero => rfl
        | succ n ih => simp
      rw [this, List.append_nil]
    · rfl
  rw [← hpad]
  unfold swapArgs
  generalize hp : (if pos ≥ args.length then args ++ List.replicate (pos + 1 - args.length) none
      else args) = a
  have hlen : pos < a.length := by
    rw [← hp]; split
    · simp; omega
    · omega
  simp only
  apply List.Perm.filterMap
  cases a with
  | nil => simp at hlen
  | cons x a =>
    cases pos with
    | zero => simp
    | succ pos =>
      simp only [List.length_cons, Nat.add_lt_add_iff_right] at hlen
      simp only [List.getD_cons_succ, List.set_cons_zero, List.getD_cons_zero, List.set_cons_succ]
      rw [List.getD_eq_getElem _ _ hlen]
      have : a = a.take pos ++ a[pos] :: a.drop (pos + 1) := by simp
      have hset : a.set pos x = a.take pos ++ x :: a.drop (pos + 1) := by
        rw [List.set_eq_take_append_cons_drop, if_pos hlen]
      rw [hset]
      conv => rhs; rw [this]
      have h1 : (a[pos] :: (a.take pos ++ x :: a.drop (pos + 1))).Perm
          (x :: a[pos] :: (a.take pos ++ a.drop (pos + 1))) :=
        ((List.perm_middle).cons _).trans (List.Perm.swap ..)
      exact h1.trans ((List.perm_middle).symm.cons _)

example : swapArgs [some 'x'] 1 = [none, some 'x'] ∧
    swapArgs [some 'x', some 'y', some 'z'] 2 = [some 'z', some 'y', some 'x'] := by decide

end Verif.Logic
