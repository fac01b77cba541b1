/-
Properties C30 (distinct variables have distinct names) and C32 (PrettyString).
-/
import Verif.Logic.Print
import Verif.Logic.SimplifyProps
import Mathlib.Data.List.Forall2
import Mathlib.Data.List.Nodup
import Mathlib.Data.List.Pairwise

namespace Verif.Logic
open Verif.Tone (Str)

/-! ## itoa -/

/-- The value of a decimal numeral. -/
def decimal (s : Str) : Nat := s.foldl (fun n c => 10 * n + (c.toNat - 48)) 0

theorem digit_toNat (n : Nat) : (digit n).toNat = 48 + n % 10 := by
  have h : ∀ k < 10, (Char.ofNat (48 + k)).toNat = 48 + k := by decide
  exact h _ (Nat.mod_lt _ (by omega))

theorem decimal_itoaF : ∀ k n, n < k → decimal (itoaF k n) = n := by
  intro k
  induction k with
  | zero => intro n h; omega
  | succ k ih =>
    intro n h
    unfold itoaF
    split
    · simp [decimal, digit_toNat]; omega
    · have := ih (n / 10) (by omega)
      simp only [decimal, List.foldl_append, List.foldl_cons, List.foldl_nil] at this ⊢
      rw [this, digit_toNat]; omega

theorem decimal_itoa (n : Nat) : decimal (itoa n) = n := decimal_itoaF _ _ (by omega)

theorem itoa_inj {m n : Nat} (h : itoa m = itoa n) : m = n := by
  rw [← decimal_itoa m, h, decimal_itoa]

/-- The character is a decimal digit. -/
def isDigit (c : Char) : Prop := 48 ≤ c.toNat ∧ c.toNat ≤ 57

theorem itoaF_digits : ∀ k n, ∀ c ∈ itoaF k n, isDigit c := by
  intro k
  induction k with
  | zero => intro n c h; simp [itoaF] at h
  | succ k ih =>
    intro n c h
    unfold itoaF at h
    have hd : isDigit (digit n) := by simp [isDigit, digit_toNat]; omega
    split at h
    · simp at h; rw [h]; exact hd
    · simp at h; rcases h with h | rfl
      exacts [ih _ c h, hd]

theorem itoa_digits (n : Nat) : ∀ c ∈ itoa n, isDigit c := itoaF_digits _ _

theorem itoa_ne_nil (n : Nat) : itoa n ≠ [] := by
  unfold itoa itoaF; split <;> simp

/-! ## The scan -/

structure ScanInv (s : Scan) : Prop where
  keys : (s.runes.map (·.1)).Nodup
  nodup : (s.runes.flatMap (·.2)).Nodup
  mem : ∀ v, v ∈ s.seen ↔ v ∈ s.runes.flatMap (·.2)
  seen : s.seen.Nodup
  max : ∀ v ∈ s.seen, (v : Int) ≤ s.max
  nonempty : ∀ g ∈ s.runes, g.2 ≠ []

theorem addTo_keys (r : Str) (v : Nat) (m : List (Str × List Nat)) :
    (addTo r v m).map (·.1) = if r ∈ m.map (·.1) then m.map (·.1) else m.map (·.1) ++ [r] := by
  induction m with
  | nil => simp [addTo]
  | cons g m ih =>
    obtain ⟨k, vs⟩ := g
    unfold addTo
    by_cases h : k = r
    · simp [h]
    · simp only [if_neg h, List.map_cons, ih, List.mem_cons]
      by_cases h2 : r ∈ m.map (·.1)
      · rw [if_pos h2, if_pos (Or.inr h2)]
      · rw [if_neg h2, if_neg (by rintro (h3 | h3); exacts [h h3.symm, h2 h3])]; rfl

theorem addTo_perm (r : Str) (v : Nat) (m : List (Str × List Nat)) :
    ((addTo r v m).flatMap (·.2)).Perm (v :: m.flatMap (·.2)) := by
  induction m with
  | nil => simp [addTo]
  | cons g m ih =>
    obtain ⟨k, vs⟩ := g
    unfold addTo
    split
    · simp only [List.flatMap_cons, List.append_assoc, List.singleton_append]
      exact List.perm_middle
    · simp only [List.flatMap_cons]
      exact (List.Perm.append_left vs ih).trans List.perm_middle

theorem mem_addTo {r : Str} {v : Nat} {m : List (Str × List Nat)} {g : Str × List Nat}
    (h : g ∈ addTo r v m) : g ∈ m ∨ (g.1 = r ∧ g.2 ≠ []) := by
  induction m with
  | nil => simp [addTo] at h; right; rw [h]; simp
  | cons a m ih =>
    obtain ⟨k, vs⟩ := a
    unfold addTo at h
    split at h
    · next he =>
      rcases List.mem_cons.1 h with h | h
      · right; rw [h]; exact ⟨he, by simp⟩
      · left; exact List.mem_cons_of_mem _ h
    · rcases List.mem_cons.1 h with h | h
      · left; rw [h]; simp
      · rcases ih h with h | h
        · left; exact List.mem_cons_of_mem _ h
        · right; exact h

theorem scan_inv (U : Uni) (defs : Nat → Option Node) (l : List Node) :
    ScanInv (l.foldl (scanStep U defs) { runes := [], seen := [], max := -1 }) ∧
    ∀ g ∈ (l.foldl (scanStep U defs) { runes := [], seen := [], max := -1 }).runes,
      ∃ v, Node.var v ∈ l ∧ g.1 = varRune U defs v := by
  induction l using List.reverseRecOn with
  | nil => exact ⟨by constructor <;> simp, by simp⟩
  | append_singleton l x ih =>
    rw [List.foldl_append, List.foldl_cons, List.foldl_nil]
    generalize l.foldl (scanStep U defs) { runes := [], seen := [], max := -1 } = s at ih
    obtain ⟨ih, hk⟩ := ih
    have hk' : ∀ g ∈ s.runes, ∃ v, Node.var v ∈ l ++ [x] ∧ g.1 = varRune U defs v := by
      intro g hg
      obtain ⟨v, hv, h⟩ := hk g hg
      exact ⟨v, List.mem_append_left _ hv, h⟩
    cases x with
    | var v =>
      simp only [scanStep]
      by_cases hs : s.seen.contains v.n = true
      · rw [if_pos hs]; exact ⟨ih, hk'⟩
      · rw [if_neg hs]
        have hns : v.n ∉ s.seen := fun h => hs (List.contains_iff_mem.2 h)
        refine ⟨⟨?_, ?_, ?_, ?_, ?_, ?_⟩, ?_⟩
        · simp only [addTo_keys]
          split
          · exact ih.keys
          · next h =>
            exact List.nodup_append.2 ⟨ih.keys, by simp, by
              intro a ha b hb hab
              simp at hb; subst hb; subst hab; exact h ha⟩
        · simp only
          rw [(addTo_perm _ _ _).nodup_iff, List.nodup_cons]
          exact ⟨fun h => hns ((ih.mem _).2 h), ih.nodup⟩
        · intro w
          simp only
          rw [(addTo_perm _ _ _).mem_iff, List.mem_cons, List.mem_cons, ih.mem]
        · exact List.nodup_cons.2 ⟨hns, ih.seen⟩
        · intro w hw
          simp only
          rcases List.mem_cons.1 hw with rfl | hw
          · split <;> omega
          · have := ih.max w hw; split <;> omega
        · intro g hg
          rcases mem_addTo hg with h | h
          exacts [ih.nonempty g h, h.2]
        · intro g hg
          rcases mem_addTo hg with h | h
          · exact hk' g h
          · exact ⟨v, by simp, h.1⟩
    | _ => exact ⟨ih, hk'⟩

/-! ## Names -/

/-- The name of the `i`th variable of a group of `len` variables with initial `r`. -/
def groupName (r : Str) (len i : Nat) : Str :=
  if r = ['X'] ∧ (len = 2 ∨ len = 3) then [['X'], ['Y'], ['Z']].getD i []
  else if len = 1 then r
  else r ++ itoa i

theorem nameMany_get (r : Str) : ∀ (vs : List Nat) (i : Nat) (names : List Str) (v : Nat),
    vs.Nodup → (∀ w ∈ vs, w < names.length) →
    (nameMany r vs i names)[v]? =
      if v ∈ vs then some (r ++ itoa (i + vs.idxOf v)) else names[v]? := by
  intro vs
  induction vs with
  | nil => intro i names v _ _; simp [nameMany]
  | cons a vs ih =>
    intro i names v hn hl
    rw [List.nodup_cons] at hn
    simp only [nameMany]
    rw [ih (i + 1) _ v hn.2 (by intro w hw; simpa using hl w (List.mem_cons_of_mem _ hw))]
    by_cases hv : v ∈ vs
    · have hne : a ≠ v := by rintro rfl; exact hn.1 hv
      rw [if_pos hv, if_pos (List.mem_cons_of_mem _ hv), List.idxOf_cons_ne _ hne]
      congr 3; omega
    · rw [if_neg hv]
      by_cases he : v = a
      · subst he
        rw [if_pos (List.mem_cons_self ..), List.getElem?_set_self (hl v (List.mem_cons_self ..)),
          List.idxOf_cons_self]; rfl
      · rw [if_neg (by simp [he, hv]), List.getElem?_set_ne (fun h => he h.symm)]

theorem nameMany_length (r : Str) : ∀ (vs : List Nat) (i : Nat) (names : List Str),
    (nameMany r vs i names).length = names.length := by
  intro vs
  induction vs with
  | nil => intros; rfl
  | cons a vs ih => intro i names; simp [nameMany, ih]

theorem nameGroup_length (names : List Str) (g : Str × List Nat) :
    (nameGroup names g).length = names.length := by
  unfold nameGroup
  split <;> simp [nameMany_length]

theorem nameGroup_get (names : List Str) (r : Str) (vs : List Nat) (v : Nat) (hn : vs.Nodup)
    (hl : ∀ w ∈ vs, w < names.length) (hne : vs ≠ []) :
    (nameGroup names (r, vs))[v]? =
      if v ∈ vs then some (groupName r vs.length (vs.idxOf v)) else names[v]? := by
  unfold nameGroup
  split
  · next h =>
    next a b c =>
    cases h
    simp only [List.mem_cons, forall_eq_or_imp, List.not_mem_nil, List.nodup_cons, not_or,
      or_false] at hn hl ⊢
    simp only [groupName, List.length_cons, List.length_nil]
    simp only [List.getElem?_set, List.length_set, List.idxOf_cons]
    by_cases h1 : a = v
    · subst h1; simp [hl]
    · by_cases h2 : b = v
      · subst h2; simp [hl, h1, beq_eq_false_iff_ne.2 h1]
      · by_cases h3 : c = v
        · subst h3; simp [hl, h1, h2, beq_eq_false_iff_ne.2 h1, beq_eq_false_iff_ne.2 h2]
        · simp [h1, h2, h3, Ne.symm h1, Ne.symm h2, Ne.symm h3]
  · next h =>
    next a b =>
    cases h
    simp only [List.mem_cons, forall_eq_or_imp, List.not_mem_nil, List.nodup_cons, not_or,
      or_false] at hn hl ⊢
    simp only [groupName, List.length_cons, List.length_nil]
    simp only [List.getElem?_set, List.length_set, List.idxOf_cons]
    by_cases h1 : a = v
    · subst h1; simp [hl]
    · by_cases h2 : b = v
      · subst h2; simp [hl, h1, beq_eq_false_iff_ne.2 h1]
      · simp [h1, h2, Ne.symm h1, Ne.symm h2]
  · next h =>
    next r' a =>
    cases h
    simp only [List.mem_cons, List.not_mem_nil, or_false] at hl ⊢
    simp only [groupName, List.length_cons, List.length_nil, List.getElem?_set]
    by_cases h1 : a = v
    · subst h1; simp [hl]
    · simp [h1, Ne.symm h1]
  · next r' vs' h3 h2 h1 h =>
    cases h
    rw [nameMany_get _ _ _ _ _ hn hl]
    have hg : ∀ i, groupName r vs.length i = r ++ itoa i := by
      intro i
      have hlen1 : vs.length ≠ 1 := by
        intro h; obtain ⟨a, rfl⟩ := List.length_eq_one_iff.1 h
        exact h1 a rfl
      have hX : ¬ (r = ['X'] ∧ (vs.length = 2 ∨ vs.length = 3)) := by
        rintro ⟨rfl, h | h⟩
        · obtain ⟨a, b, rfl⟩ := List.length_eq_two.1 h
          exact h2 a b rfl rfl
        · obtain ⟨a, b, c, rfl⟩ := List.length_eq_three.1 h
          exact h3 a b c rfl rfl
      rw [groupName, if_neg hX, if_neg hlen1]
    simp only [hg, Nat.zero_add]

theorem names_get (order : List (Str × List Nat)) : ∀ (names : List Str) (v : Nat),
    (order.flatMap (·.2)).Nodup → (∀ g ∈ order, ∀ w ∈ g.2, w < names.length) →
    (∀ g ∈ order, g.2 ≠ []) →
    (∀ g ∈ order, v ∈ g.2 → (order.foldl nameGroup names)[v]? =
      some (groupName g.1 g.2.length (g.2.idxOf v))) ∧
    ((∀ g ∈ order, v ∉ g.2) → (order.foldl nameGroup names)[v]? = names[v]?) := by
  induction order with
  | nil => intro names v _ _ _; simp
  | cons h order ih =>
    intro names v hn hl hne
    rw [List.flatMap_cons, List.nodup_append] at hn
    obtain ⟨hn1, hn2, hn3⟩ := hn
    have ih := ih (nameGroup names h) v hn2
      (by intro g hg w hw; rw [nameGroup_length]; exact hl g (List.mem_cons_of_mem _ hg) w hw)
      (fun g hg => hne g (List.mem_cons_of_mem _ hg))
    have hget := nameGroup_get names h.1 h.2 v hn1 (hl h (List.mem_cons_self ..))
      (hne h (List.mem_cons_self ..))
    simp only [List.foldl_cons]
    constructor
    · intro g hg hv
      rcases List.mem_cons.1 hg with rfl | hg
      · rw [ih.2 (by
          intro g' hg' hv'
          exact hn3 v hv v (List.mem_flatMap.2 ⟨g', hg', hv'⟩) rfl)]
        rw [hget, if_pos hv]
      · exact ih.1 g hg hv
    · intro hv
      rw [ih.2 (fun g hg => hv g (List.mem_cons_of_mem _ hg)), hget,
        if_neg (hv h (List.mem_cons_self ..))]

theorem foldl_nameGroup_length (order : List (Str × List Nat)) : ∀ names : List Str,
    (order.foldl nameGroup names).length = names.length := by
  induction order with
  | nil => intro; rfl
  | cons g o ih => intro names; rw [List.foldl_cons, ih, nameGroup_length]

/-- What the table of names contains, when there is one. -/
theorem varNames_spec (U : Uni) (defs : Nat → Option Node) (n : Node)
    (order : List (Str × List Nat)) (ho : order.Perm (scan U defs n).runes) (l : List Str)
    (h : varNames (scan U defs n) order = some l) :
    (∀ v, v < l.length ↔ v ∈ (scan U defs n).seen) ∧
    ∀ v, v < l.length → ∃ g ∈ (scan U defs n).runes, v ∈ g.2 ∧ g.2.length ≤ l.length ∧
      l[v]? = some (groupName g.1 g.2.length (g.2.idxOf v)) := by
  have inv := (scan_inv U defs (pre n)).1
  have hscan : (pre n).foldl (scanStep U defs) { runes := [], seen := [], max := -1 } =
      scan U defs n := by rw [scan, visit_eq]
  rw [hscan] at inv
  generalize scan U defs n = s at *
  unfold varNames at h
  split at h
  · cases h
  · next hmax =>
    simp only [Option.some.injEq] at h
    have hlen : l.length = s.seen.length := by rw [← h, foldl_nameGroup_length]; simp
    have hlt : ∀ v ∈ s.seen, v < s.seen.length := by
      intro v hv; have := inv.max v hv; omega
    have hsub : s.seen ⊆ List.range s.seen.length := fun v hv => List.mem_range.2 (hlt v hv)
    have hperm : s.seen.Perm (List.range s.seen.length) :=
      (List.subperm_of_subset inv.seen hsub).perm_of_length_le (by simp)
    have hiff : ∀ v, v < l.length ↔ v ∈ s.seen := by
      intro v; rw [hperm.mem_iff, List.mem_range, hlen]
    refine ⟨hiff, fun v hv => ?_⟩
    have hm := (inv.mem v).1 ((hiff v).1 hv)
    obtain ⟨g, hg, hvg⟩ := List.mem_flatMap.1 hm
    have hnames := names_get order (List.replicate s.seen.length []) v
      ((ho.flatMap_right _).nodup_iff.2 inv.nodup)
      (by
        intro g hg w hw
        rw [List.length_replicate]
        exact hlt w ((inv.mem w).2 (List.mem_flatMap.2 ⟨g, ho.mem_iff.1 hg, hw⟩)))
      (fun g hg => inv.nonempty g (ho.mem_iff.1 hg))
    refine ⟨g, hg, hvg, ?_, ?_⟩
    · rw [hlen]
      have hsp : g.2.Subperm s.seen := List.subperm_of_subset
        ((List.nodup_flatMap.1 inv.nodup).1 g hg)
        (fun w hw => (inv.mem w).2 (List.mem_flatMap.2 ⟨g, hg, hw⟩))
      exact hsp.length_le
    · rw [← h]; exact hnames.1 g (ho.mem_iff.2 hg) hvg

/-! ## C30 -/

/-- The initial consonants of Toaq words (toaq.peggy:441). -/
def initials : List Char := "bcdfghjklmnprst".toList

/-- Every predicate in the restrictions is an operator or starts like a Toaq word. -/
def ToaqNames (defs : Nat → Option Node) : Prop :=
  ∀ id r, defs id = some r → ∀ s, Node.name s ∈ trace r →
    isBinOp s = true ∨ ∃ c t, s = c :: t ∧ c ∈ initials

theorem leftPredication_mem : ∀ (r p : Node), leftPredication r = some p → ∀ x ∈ pre p, x ∈ pre r := by
  intro r
  induction r using Node.induct with
  | conn c l r hl hr =>
    intro p h x hx
    simp only [leftPredication] at h
    simp only [pre, List.mem_cons, List.mem_append]
    exact Or.inr (Or.inl (hl p h x hx))
  | app q as _ _ =>
    intro p h x hx
    simp only [leftPredication, Option.some.injEq] at h
    subst h
    simp only [pre, List.mem_cons, List.mem_append]
    exact Or.inr (Or.inl hx)
  | _ => intros p h; simp [leftPredication] at h

theorem leftPred_mem : ∀ (p : Node) (s : Str), leftPred p = some s → Node.name s ∈ pre p := by
  intro p
  induction p using Node.induct with
  | name t => intro s h; simp [leftPred] at h; simp [pre, h]
  | serial l r hl hr =>
    intro s h
    simp only [leftPred] at h
    simp only [pre, List.mem_cons, List.mem_append]
    split at h
    · next m hm =>
      split at h
      · exact Or.inr (Or.inr (hr s h))
      · cases h; exact Or.inr (Or.inl (hl _ hm))
    · cases h
  | _ => intros s h; simp [leftPred] at h

theorem varRune_toaq {U : Uni} (hU : U.Ok) {defs : Nat → Option Node} (hd : ToaqNames defs)
    (v : Var) : varRune U defs v = ['U'] ∨ varRune U defs v = ['X'] ∨
      ∃ c ∈ initials, varRune U defs v = [asciiUpper c] := by
  unfold varRune
  split
  · exact Or.inl rfl
  · split
    · exact Or.inr (Or.inl rfl)
    · next id _ _ r hr =>
      split
      · exact Or.inr (Or.inl rfl)
      · next p hp =>
        split
        · exact Or.inr (Or.inl rfl)
        · next s hs =>
          split
          · exact Or.inr (Or.inl rfl)
          · next hb =>
            have hmem := leftPredication_mem r p hp _ (leftPred_mem p s hs)
            rcases hd id r hr s (by rw [trace_eq]; exact hmem) with h | ⟨c, t, rfl, hc⟩
            · exact absurd h hb
            · refine Or.inr (Or.inr ⟨c, hc, ?_⟩)
              have : ∀ c ∈ initials, c.toNat < 128 := by decide
              simp [hU.upper c (this c hc)]

/-- Initials that keep names apart. -/
def GoodKey (r : Str) : Prop := ∃ c, r = [c] ∧ c ≠ 'Y' ∧ c ≠ 'Z' ∧ ¬ isDigit c

theorem varRune_good {U : Uni} (hU : U.Ok) {defs : Nat → Option Node} (hd : ToaqNames defs)
    (v : Var) : GoodKey (varRune U defs v) := by
  rcases varRune_toaq hU hd v with h | h | ⟨c, hc, h⟩
  · exact ⟨'U', h, by decide, by decide, by unfold isDigit; decide⟩
  · exact ⟨'X', h, by decide, by decide, by unfold isDigit; decide⟩
  · refine ⟨_, h, ?_⟩
    have : ∀ c ∈ initials, asciiUpper c ≠ 'Y' ∧ asciiUpper c ≠ 'Z' ∧
        ¬ (48 ≤ (asciiUpper c).toNat ∧ (asciiUpper c).toNat ≤ 57) := by decide
    exact this c hc

theorem groupName_inj {r r' : Str} {n n' i i' : Nat} (hr : GoodKey r) (hr' : GoodKey r')
    (hi : i < n) (hi' : i' < n') (hsame : r = r' → n = n')
    (h : groupName r n i = groupName r' n' i') : r = r' ∧ i = i' := by
  obtain ⟨c, rfl, hY, hZ, hc⟩ := hr
  obtain ⟨c', rfl, hY', hZ', hc'⟩ := hr'
  have hX3 : ∀ n i, i < n → (n = 2 ∨ n = 3) →
      ([['X'], ['Y'], ['Z']].getD i ([] : Str) = ['X'] ∧ i = 0) ∨
      ([['X'], ['Y'], ['Z']].getD i ([] : Str) = ['Y'] ∧ i = 1) ∨
      ([['X'], ['Y'], ['Z']].getD i ([] : Str) = ['Z'] ∧ i = 2) := by
    intro n i hi hn
    have : i = 0 ∨ i = 1 ∨ i = 2 := by omega
    rcases this with rfl | rfl | rfl <;> simp
  unfold groupName at h
  have hne := itoa_ne_nil
  by_cases h1 : [c] = ['X'] ∧ (n = 2 ∨ n = 3) <;> by_cases h2 : [c'] = ['X'] ∧ (n' = 2 ∨ n' = 3)
  · rw [if_pos h1, if_pos h2] at h
    refine ⟨by rw [h1.1, h2.1], ?_⟩
    rcases hX3 n i hi h1.2 with ⟨a, b⟩ | ⟨a, b⟩ | ⟨a, b⟩ <;>
      rcases hX3 n' i' hi' h2.2 with ⟨a', b'⟩ | ⟨a', b'⟩ | ⟨a', b'⟩ <;> rw [a, a'] at h <;>
      first | omega | (exfalso; revert h; decide)
  · rw [if_pos h1, if_neg h2] at h
    exfalso
    have hc : c = 'X' := by simpa using h1.1
    split at h
    · rcases hX3 n i hi h1.2 with ⟨a, b⟩ | ⟨a, b⟩ | ⟨a, b⟩ <;> rw [a] at h <;> simp at h
      · subst hc; subst h
        have := hsame rfl
        exact h2 ⟨rfl, this ▸ h1.2⟩
      · exact hY' h.symm
      · exact hZ' h.symm
    · rcases hX3 n i hi h1.2 with ⟨a, b⟩ | ⟨a, b⟩ | ⟨a, b⟩ <;> rw [a] at h <;> simp at h <;>
        exact hne _ h.2
  · rw [if_neg h1, if_pos h2] at h
    exfalso
    have hc : c' = 'X' := by simpa using h2.1
    split at h
    · rcases hX3 n' i' hi' h2.2 with ⟨a, b⟩ | ⟨a, b⟩ | ⟨a, b⟩ <;> rw [a] at h <;> simp at h
      · subst hc; subst h
        have := hsame rfl
        exact h1 ⟨rfl, this ▸ h2.2⟩
      · exact hY h
      · exact hZ h
    · rcases hX3 n' i' hi' h2.2 with ⟨a, b⟩ | ⟨a, b⟩ | ⟨a, b⟩ <;> rw [a] at h <;> simp at h <;>
        exact hne _ h.2
  · rw [if_neg h1, if_neg h2] at h
    split at h <;> split at h
    · simp at h; exact ⟨by rw [h], by omega⟩
    · simp at h; exact absurd h.2 (hne _)
    · simp at h; exact absurd h.2 (hne _)
    · simp at h; exact ⟨by rw [h.1], itoa_inj h.2⟩

theorem groupName_ne_X {r : Str} {n i v : Nat} (hr : GoodKey r) (hi : i < n) (hv : n ≤ v)
    (h : groupName r n i = 'X' :: itoa v) : False := by
  obtain ⟨c, rfl, hY, hZ, hc⟩ := hr
  unfold groupName at h
  have hne := itoa_ne_nil v
  split at h
  · next hx =>
    have : i = 0 ∨ i = 1 ∨ i = 2 := by omega
    rcases this with rfl | rfl | rfl <;> simp at h
    exact hne h
  · split at h
    · simp at h; exact hne h.2
    · simp at h
      have := itoa_inj h.2
      omega

/-- C30: in the output of `String` (in any order of map iteration), with letter names or without,
two variable numbers get the same name only if they are the same number. -/
theorem C30_names (U : Uni) (hU : U.Ok) (defs : Nat → Option Node) (hd : ToaqNames defs) (n : Node)
    (order : List (Str × List Nat)) (ho : order.Perm (scan U defs n).runes) (v w : Nat)
    (h : varName (varNames (scan U defs n) order) v = varName (varNames (scan U defs n) order) w) :
    v = w := by
  have hkeys := (scan_inv U defs (pre n)).2
  have inv := (scan_inv U defs (pre n)).1
  have hscan : (pre n).foldl (scanStep U defs) { runes := [], seen := [], max := -1 } =
      scan U defs n := by rw [scan, visit_eq]
  rw [hscan] at hkeys inv
  have hgood : ∀ g ∈ (scan U defs n).runes, GoodKey g.1 := by
    intro g hg
    obtain ⟨x, _, hx⟩ := hkeys g hg
    rw [hx]; exact varRune_good hU hd x
  cases hn : varNames (scan U defs n) order with
  | none =>
    rw [hn] at h
    simp only [varName, List.cons.injEq, true_and] at h
    exact itoa_inj h
  | some l =>
    obtain ⟨hseen, hget⟩ := varNames_spec U defs n order ho l hn
    rw [hn] at h
    simp only [varName] at h
    by_cases hv : v < l.length <;> by_cases hw : w < l.length
    · obtain ⟨g, hg, hvg, _, hgv⟩ := hget v hv
      obtain ⟨g', hg', hwg, _, hgw⟩ := hget w hw
      rw [hgv, hgw] at h
      simp only at h
      have huniq : ∀ a ∈ (scan U defs n).runes, ∀ b ∈ (scan U defs n).runes, a.1 = b.1 → a = b := by
        intro a ha b hb hab
        exact List.inj_on_of_nodup_map inv.keys ha hb hab
      have hi := groupName_inj (hgood g hg) (hgood g' hg') (List.idxOf_lt_length_of_mem hvg)
        (List.idxOf_lt_length_of_mem hwg) (fun he => by rw [huniq g hg g' hg' he]) h
      have := huniq g hg g' hg' hi.1
      subst this
      exact (List.idxOf_inj hvg).1 hi.2
    · obtain ⟨g, hg, hvg, hle, hgv⟩ := hget v hv
      rw [hgv, List.getElem?_eq_none (by omega)] at h
      exact (groupName_ne_X (hgood g hg) (List.idxOf_lt_length_of_mem hvg) (by omega) h).elim
    · obtain ⟨g, hg, hwg, hle, hgw⟩ := hget w hw
      rw [hgw, List.getElem?_eq_none (by omega)] at h
      exact (groupName_ne_X (hgood g hg) (List.idxOf_lt_length_of_mem hwg) (by omega) h.symm).elim
    · rw [List.getElem?_eq_none (by omega), List.getElem?_eq_none (by omega)] at h
      simp only [List.cons.injEq, true_and] at h
      exact itoa_inj h

/-- C30: the names do not depend on the order of map iteration. -/
theorem C30_order (U : Uni) (defs : Nat → Option Node) (n : Node)
    (o₁ o₂ : List (Str × List Nat)) (h₁ : o₁.Perm (scan U defs n).runes)
    (h₂ : o₂.Perm (scan U defs n).runes) :
    varNames (scan U defs n) o₁ = varNames (scan U defs n) o₂ := by
  have inv := (scan_inv U defs (pre n)).1
  have hscan : (pre n).foldl (scanStep U defs) { runes := [], seen := [], max := -1 } =
      scan U defs n := by rw [scan, visit_eq]
  rw [hscan] at inv
  cases hn1 : varNames (scan U defs n) o₁ with
  | none =>
    unfold varNames at hn1 ⊢
    split at hn1
    · next h => rw [if_pos h]
    · cases hn1
  | some l₁ =>
    have hlt : ¬ (scan U defs n).max ≥ (scan U defs n).seen.length := by
      intro h; simp [varNames, h] at hn1
    obtain ⟨l₂, hn2⟩ : ∃ l₂, varNames (scan U defs n) o₂ = some l₂ := by
      simp [varNames, hlt]
    rw [hn2]
    obtain ⟨s1, g1⟩ := varNames_spec U defs n o₁ h₁ l₁ hn1
    obtain ⟨s2, g2⟩ := varNames_spec U defs n o₂ h₂ l₂ hn2
    congr 1
    apply List.ext_getElem?
    intro v
    by_cases hv : v < l₁.length
    · have hv2 : v < l₂.length := (s2 v).2 ((s1 v).1 hv)
      obtain ⟨a, ha, hva, _, e1⟩ := g1 v hv
      obtain ⟨b, hb, hvb, _, e2⟩ := g2 v hv2
      have : a = b := by
        by_contra hab
        have hp := (List.nodup_flatMap.1 inv.nodup).2
        have : Std.Symm (Function.onFun List.Disjoint fun x : Str × List Nat => x.2) :=
          ⟨fun x y h a hx hy => h hy hx⟩
        exact hp.forall ha hb hab hva hvb
      rw [e1, e2, this]
    · have hv2 : ¬ v < l₂.length := fun h => hv ((s1 v).2 ((s2 v).1 h))
      rw [List.getElem?_eq_none (by omega), List.getElem?_eq_none (by omega)]

/-- `∃X0 ∃X1 ∃X2 [ιX3 : zo(X3)] de(X0, X1, X2, X3)`: three bindings without restriction and one over
a word that starts with z. -/
def exCollide : Node :=
  let v (k : Nat) : Option Node := some (.var ⟨.mk k, k, some k, false⟩)
  .bind .some 0 0 false none <| .bind .some 1 1 false none <| .bind .some 2 2 false none <|
    .bind .the 3 3 false (some (.app (.name ['z', 'o']) [v 3])) <|
      .app (.name ['d', 'e']) [v 0, v 1, v 2, v 3]

def defsOf (n : Node) : Nat → Option Node := fun id => ((bindDefs n).lookup id).join

/-- C30 needs the hypothesis on predicate names: z is not an initial consonant of Toaq, and a
predicate starting with z makes two variables print as Z. -/
theorem C30_z_collides :
    printTop asciiUni false (defsOf exCollide) (scan asciiUni (defsOf exCollide) exCollide).runes
      exCollide = "∃X ∃Y ∃Z [ιZ : zo(Z)] de(X, Y, Z, Z).".toList := by decide +kernel

/-- `[ιM : mai(M)] ∃X de(X, M)` -/
def exNames : Node :=
  let v (k : Nat) : Option Node := some (.var ⟨.mk k, k, some k, false⟩)
  .bind .the 0 0 false (some (.app (.name ['m', 'a', 'i']) [v 0])) <|
    .bind .some 1 1 false none <| .app (.name ['d', 'e']) [v 1, v 0]

example : ToaqNames (defsOf exNames) := by
  intro id r h s hs
  have : id = 0 ∨ id ≠ 0 := by omega
  by_cases h0 : id = 0
  · subst h0
    have : defsOf exNames 0 = some (.app (.name ['m', 'a', 'i']) [some (.var ⟨.mk 0, 0, some 0, false⟩)]) := rfl
    rw [this] at h
    cases h
    rw [trace_eq] at hs
    simp [pre, preL, preO] at hs
    subst hs
    exact Or.inr ⟨'m', _, rfl, by decide⟩
  · by_cases h1 : id = 1
    · subst h1
      have : defsOf exNames 1 = none := rfl
      rw [this] at h; cases h
    · have : defsOf exNames id = none := by
        simp [defsOf, bindDefs, exNames, visit, visitO, visitL, List.lookup, beq_eq_false_iff_ne.2 h0,
          beq_eq_false_iff_ne.2 h1]
      rw [this] at h; cases h

example : printTop asciiUni false (defsOf exNames) (scan asciiUni (defsOf exNames) exNames).runes
    exNames = "[ιM : mai(M)] ∃X de(X, M).".toList := by decide +kernel

/-! ## C32 -/

/-- What is written: fixed text, a quantifier, or a variable. -/
inductive Piece
  | lit (s : Str)
  | quant (q : Quant)
  | var (n : Nat)

mutual
/-- The notation, as a sequence of pieces. Predicate names and quotes are fixed text. -/
def pieces : Node → List Piece
  | .bind q _ n _ none s => [.quant q, .var n, .lit [' ']] ++ pieces s
  | .bind q _ n _ (some r) s =>
    [.lit ['['], .quant q, .var n, .lit " : ".toList] ++ pieces r ++ [.lit "] ".toList] ++ pieces s
  | .conn c l r =>
    (if needParens c l then [.lit ['(']] ++ pieces l ++ [.lit [')']] else pieces l) ++
    [.lit ([' '] ++ c.str ++ [' '])] ++
    (if needParens c r then [.lit ['(']] ++ pieces r ++ [.lit [')']] else pieces r)
  | .app (.name p) [a, b] =>
    if isBinOp p then piecesO a ++ [.lit p] ++ piecesO b
    else [.lit p, .lit ['(']] ++ (piecesA a ++ [.lit ", ".toList] ++ piecesA b) ++ [.lit [')']]
  | .app p as => pieces p ++ [.lit ['(']] ++ piecesL as ++ [.lit [')']]
  | .var v => [.var v.n]
  | .plural as => [.lit ['⌊']] ++ piecesL as ++ [.lit ['⌉']]
  | .quote t full => if full then [.lit (['«'] ++ t ++ ['»'])] else [.lit (['‹'] ++ t ++ ['›'])]
  | .name s => [.lit s]
  | .abs s => [.lit ['{']] ++ pieces s ++ [.lit ['}']]
  | .serial l r => pieces l ++ [.lit ['∘']] ++ pieces r
  | .swap p _ => [.lit "(mu ".toList] ++ pieces p ++ [.lit [')']]
def piecesO : Option Node → List Piece
  | none => []
  | some n => pieces n
def piecesA : Option Node → List Piece
  | none => [.lit ['·']]
  | some n => pieces n
def piecesL : List (Option Node) → List Piece
  | [] => []
  | [a] => piecesA a
  | a :: b :: as => piecesA a ++ [.lit ", ".toList] ++ piecesL (b :: as)
end

/-- How `String` writes a piece. -/
def plainPiece (name : Nat → Str) : Piece → Str
  | .lit s => s
  | .quant q => q.str
  | .var n => name n

/-- How `PrettyString` writes a piece: ι is turned, and capital letters of variable names are
mathematical italic. -/
def prettyPiece (name : Nat → Str) : Piece → Str
  | .lit s => s
  | .quant .the => ['℩']
  | .quant q => q.str
  | .var n => (name n).map fun r =>
      if 'A' ≤ r ∧ r ≤ 'Z' then Char.ofNat (0x1D434 + (r.toNat - 'A'.toNat)) else r

/-- How the model's printer writes a piece. -/
def Printer.piece (pr : Printer) : Piece → Str
  | .lit s => s
  | .quant q => pr.quant q
  | .var n => pr.var n

mutual
theorem print_pieces (pr : Printer) : ∀ n : Node, print pr n = (pieces n).flatMap pr.piece
  | .bind q _ n _ none s => by simp [print, pieces, Printer.piece, print_pieces pr s]
  | .bind q _ n _ (some r) s => by
    simp [print, pieces, Printer.piece, print_pieces pr s, print_pieces pr r]
  | .conn c l r => by
    cases hl : needParens c l <;> cases hr : needParens c r <;>
    simp [print, pieces, Printer.piece, print_pieces pr l, print_pieces pr r, paren, hl, hr]
  | .app (.name p) [a, b] => by
    cases hp : isBinOp p <;>
    simp [print, pieces, Printer.piece, hp, printO_pieces pr a, printO_pieces pr b,
      printA_pieces pr a, printA_pieces pr b, printArgs]
  | .app (.name p) [] => by simp [print, pieces, Printer.piece, printArgs, piecesL]
  | .app (.name p) [a] => by
    simp [print, pieces, Printer.piece, printArgs, piecesL, printA_pieces pr a]
  | .app (.name p) (a :: b :: c :: as) => by
    have := printL_pieces pr (a :: b :: c :: as)
    simp [print, pieces, Printer.piece, this]
  | .app (.bind q i n f r s) as => by
    have h1 := print_pieces pr (.bind q i n f r s)
    have h2 := printL_pieces pr as
    rw [print, pieces]
    · simp [h1, h2, Printer.piece]
    all_goals simp
  | .app (.conn c l r) as => by
    have h1 := print_pieces pr (.conn c l r)
    have h2 := printL_pieces pr as
    rw [print, pieces]
    · simp [h1, h2, Printer.piece]
    all_goals simp
  | .app (.app p as') as => by
    have h1 := print_pieces pr (.app p as')
    have h2 := printL_pieces pr as
    rw [print, pieces]
    · simp [h1, h2, Printer.piece]
    all_goals simp
  | .app (.var v) as => by
    have h2 := printL_pieces pr as
    simp [print, pieces, Printer.piece, h2]
  | .app (.plural bs) as => by
    have h1 := print_pieces pr (.plural bs)
    have h2 := printL_pieces pr as
    rw [print, pieces]
    · simp [h1, h2, Printer.piece]
    all_goals simp
  | .app (.quote t f) as => by
    have h1 := print_pieces pr (.quote t f)
    have h2 := printL_pieces pr as
    rw [print, pieces]
    · simp [h1, h2, Printer.piece]
    all_goals simp
  | .app (.abs s) as => by
    have h1 := print_pieces pr (.abs s)
    have h2 := printL_pieces pr as
    rw [print, pieces]
    · simp [h1, h2, Printer.piece]
    all_goals simp
  | .app (.serial l r) as => by
    have h1 := print_pieces pr (.serial l r)
    have h2 := printL_pieces pr as
    rw [print, pieces]
    · simp [h1, h2, Printer.piece]
    all_goals simp
  | .app (.swap p k) as => by
    have h1 := print_pieces pr (.swap p k)
    have h2 := printL_pieces pr as
    rw [print, pieces]
    · simp [h1, h2, Printer.piece]
    all_goals simp
  | .var v => by simp [print, pieces, Printer.piece]
  | .plural as => by simp [print, pieces, Printer.piece, printL_pieces pr as]
  | .quote t full => by cases full <;> simp [print, pieces, Printer.piece]
  | .name s => by simp [print, pieces, Printer.piece]
  | .abs s => by simp [print, pieces, Printer.piece, print_pieces pr s]
  | .serial l r => by simp [print, pieces, Printer.piece, print_pieces pr l, print_pieces pr r]
  | .swap p _ => by simp [print, pieces, Printer.piece, print_pieces pr p]
theorem printO_pieces (pr : Printer) : ∀ n, printO pr n = (piecesO n).flatMap pr.piece
  | none => by simp [printO, piecesO]
  | some n => by simp [printO, piecesO, print_pieces pr n]
theorem printA_pieces (pr : Printer) : ∀ n, printArg pr n = (piecesA n).flatMap pr.piece
  | none => by simp [printArg, piecesA, Printer.piece]
  | some n => by simp [printArg, piecesA, print_pieces pr n]
theorem printL_pieces (pr : Printer) : ∀ n, printArgs pr n = (piecesL n).flatMap pr.piece
  | [] => by simp [printArgs, piecesL]
  | [a] => by simp [printArgs, piecesL, printA_pieces pr a]
  | a :: b :: as => by
    have := printL_pieces pr (b :: as)
    simp [printArgs, piecesL, printA_pieces pr a, this, Printer.piece]
end

theorem piece_plain (names : Option (List Str)) :
    (Printer.mk false names).piece = plainPiece (varName names) := by
  funext p; cases p <;> simp [Printer.piece, plainPiece, Printer.quant, Printer.var]

theorem piece_pretty (names : Option (List Str)) :
    (Printer.mk true names).piece = prettyPiece (varName names) := by
  funext p
  cases p with
  | lit s => rfl
  | quant q => cases q <;> rfl
  | var n =>
    show (varName names n).map italic = (varName names n).map _
    have h : italic = fun r => if 'A' ≤ r ∧ r ≤ 'Z' then
        Char.ofNat (0x1D434 + (r.toNat - 'A'.toNat)) else r := by
      funext r
      unfold italic
      rw [Nat.add_comm]
    rw [h]

/-- C32: `String` and `PrettyString` write the same sequence of pieces with the same variable names;
they differ only in how ι and the capital letters of variable names are written. -/
theorem C32_pretty (U : Uni) (defs : Nat → Option Node) (n : Node) (s t : Str)
    (hs : IsString U defs n s) (ht : IsPrettyString U defs n t) :
    ∃ (name : Nat → Str) (e : Str), (e = [] ∨ e = ['.']) ∧
      s = (pieces n).flatMap (plainPiece name) ++ e ∧
      t = (pieces n).flatMap (prettyPiece name) ++ e := by
  obtain ⟨o₁, h₁, rfl⟩ := hs
  obtain ⟨o₂, h₂, rfl⟩ := ht
  refine ⟨varName (varNames (scan U defs n) o₁),
    if (varNames (scan U defs n) o₁).isSome then ['.'] else [], ?_, ?_, ?_⟩
  · split <;> simp
  · unfold printTop
    cases h : varNames (scan U defs n) o₁ <;> simp [h, print_pieces, piece_plain]
  · unfold printTop
    rw [C30_order U defs n o₁ o₂ h₁ h₂]
    cases h : varNames (scan U defs n) o₂ <;> simp [h, print_pieces, piece_pretty]

/-- One rune of `String` and the rune of `PrettyString` at the same place. -/
def PrettyRune (r r' : Char) : Prop :=
  r' = r ∨ (r = 'ι' ∧ r' = '℩') ∨
  ('A' ≤ r ∧ r ≤ 'Z' ∧ r' = Char.ofNat (0x1D434 + (r.toNat - 'A'.toNat)))

/-- C32: the two strings have the same length, and rune by rune are equal, ι and turned ι, or a
capital letter and its italic form. -/
theorem C32_runes (U : Uni) (defs : Nat → Option Node) (n : Node) (s t : Str)
    (hs : IsString U defs n s) (ht : IsPrettyString U defs n t) : List.Forall₂ PrettyRune s t := by
  obtain ⟨name, e, _, rfl, rfl⟩ := C32_pretty U defs n s t hs ht
  have hrefl : ∀ l : Str, List.Forall₂ PrettyRune l l := fun l =>
    List.forall₂_same.2 fun _ _ => Or.inl rfl
  refine List.rel_append ?_ (hrefl e)
  induction pieces n with
  | nil => exact List.Forall₂.nil
  | cons p ps ih =>
    simp only [List.flatMap_cons]
    refine List.rel_append ?_ ih
    cases p with
    | lit s => exact hrefl s
    | quant q => cases q <;> simp [plainPiece, prettyPiece, Quant.str, PrettyRune]
    | var k =>
      simp only [plainPiece, prettyPiece]
      rw [List.forall₂_map_right_iff, List.forall₂_same]
      intro r _
      split
      · next h => exact Or.inr (Or.inr ⟨h.1, h.2, rfl⟩)
      · exact Or.inl rfl

example : printTop asciiUni true (defsOf exNames) (scan asciiUni (defsOf exNames) exNames).runes
    exNames = "[℩𝑀 : mai(𝑀)] ∃𝑋 de(𝑋, 𝑀).".toList := by decide +kernel

example : ∃ s t, IsString asciiUni (defsOf exNames) exNames s ∧
    IsPrettyString asciiUni (defsOf exNames) exNames t :=
  ⟨_, _, ⟨_, List.Perm.refl _, rfl⟩, ⟨_, List.Perm.refl _, rfl⟩⟩

end Verif.Logic
