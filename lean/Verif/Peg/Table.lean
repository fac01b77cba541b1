/- Finite maps from numbers, used for the memo tables of the parser. A map is a binary trie, so that
the kernel can run the parser on examples; only `get_set` and `get_empty` are used in proofs. -/
namespace Verif.Peg

inductive Map (α : Type)
  | nil
  | node (v : Option α) (l r : Map α)

namespace Map
variable {α : Type}

def get : Map α → Nat → Option α
  | nil, _ => none
  | node v l r, k => match k with
    | 0 => v
    | k+1 => if k % 2 = 0 then l.get (k / 2) else r.get (k / 2)

/-- `setF f m k a`: `f` bounds the depth. -/
def setF : Nat → Map α → Nat → α → Map α
  | 0, m, _, _ => m
  | f+1, m, k, a =>
    match m with
    | nil => match k with
      | 0 => node (some a) nil nil
      | k+1 => if k % 2 = 0 then node none (setF f nil (k / 2) a) nil else node none nil (setF f nil (k / 2) a)
    | node v l r => match k with
      | 0 => node (some a) l r
      | k+1 => if k % 2 = 0 then node v (setF f l (k / 2) a) r else node v l (setF f r (k / 2) a)

def set (m : Map α) (k : Nat) (a : α) : Map α := setF (k + 1) m k a

theorem get_setF : ∀ f m k (a : α) j, k < f → (setF f m k a).get j = if j = k then some a else m.get j := by
  intro f
  induction f with
  | zero => intro m k a j h; omega
  | succ f ih =>
    intro m k a j h
    cases m with
    | nil =>
      cases k with
      | zero => cases j with
        | zero => simp [setF, get]
        | succ j => simp [setF, get]
      | succ k =>
        simp only [setF]
        split
        · rename_i hk
          cases j with
          | zero => simp [get]
          | succ j =>
            simp only [get]
            split
            · rename_i hj
              rw [ih _ _ _ _ (by omega)]
              have : (j / 2 = k / 2) ↔ (j + 1 = k + 1) := by omega
              simp [this, get]
            · rename_i hj
              have : ¬ j = k := by omega
              simp [this]
        · rename_i hk
          cases j with
          | zero => simp [get]
          | succ j =>
            simp only [get]
            split
            · rename_i hj
              have : ¬ j = k := by omega
              simp [this]
            · rename_i hj
              rw [ih _ _ _ _ (by omega)]
              have : (j / 2 = k / 2) ↔ (j + 1 = k + 1) := by omega
              simp [this, get]
    | node v l r =>
      cases k with
      | zero => cases j with
        | zero => simp [setF, get]
        | succ j => simp [setF, get]
      | succ k =>
        simp only [setF]
        split
        · rename_i hk
          cases j with
          | zero => simp [get]
          | succ j =>
            simp only [get]
            split
            · rename_i hj
              rw [ih _ _ _ _ (by omega)]
              have : (j / 2 = k / 2) ↔ (j + 1 = k + 1) := by omega
              simp [this]
            · rename_i hj
              have : ¬ j = k := by omega
              simp [this]
        · rename_i hk
          cases j with
          | zero => simp [get]
          | succ j =>
            simp only [get]
            split
            · rename_i hj
              have : ¬ j = k := by omega
              simp [this]
            · rename_i hj
              rw [ih _ _ _ _ (by omega)]
              have : (j / 2 = k / 2) ↔ (j + 1 = k + 1) := by omega
              simp [this]

theorem get_set (m : Map α) (k : Nat) (a : α) (j : Nat) :
    (m.set k a).get j = if j = k then some a else m.get j := get_setF _ _ _ _ _ (Nat.lt_succ_self _)

end Map

/-- A table indexed by offset and rule. -/
structure Tab (α : Type) where
  m : Map (Map α)

namespace Tab
variable {α : Type}

def empty : Tab α := ⟨.nil⟩
def get (t : Tab α) (p r : Nat) : Option α := match t.m.get p with
  | none => none
  | some m => m.get r
def put (t : Tab α) (p r : Nat) (a : α) : Tab α := ⟨t.m.set p (((t.m.get p).getD .nil).set r a)⟩

@[simp] theorem get_empty (p r : Nat) : (empty : Tab α).get p r = none := rfl

theorem get_put (t : Tab α) (p r : Nat) (a : α) (q k : Nat) :
    (t.put p r a).get q k = if q = p ∧ k = r then some a else t.get q k := by
  unfold get put
  simp only [Map.get_set]
  by_cases h : q = p
  · subst h
    simp only [if_true, Map.get_set, true_and]
    split
    · rfl
    · cases t.m.get q <;> rfl
  · simp [h]

end Tab
end Verif.Peg
