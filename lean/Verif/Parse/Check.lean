/-
Checks of the grammar, by evaluation over the table of rules: no left recursion, no repetition of
expressions that may read nothing, and the types of the rules.
-/
import Verif.Parse.Grammar
import Verif.Peg.ExprProps

namespace Verif.Parse
open Verif.Peg

/-- Above the largest key all lookups are the same. -/
def Tr.bound {α : Type} : Tr α → Nat
  | .leaf _ => 0
  | .br k l r => max k (max l.bound r.bound)

theorem Tr.get_ge {α : Type} (t : Tr α) (n m : Nat) (hn : t.bound ≤ n) (hm : t.bound ≤ m) : t.get n = t.get m := by
  induction t with
  | leaf a => rfl
  | br k l r hl hr =>
    simp only [Tr.bound, Nat.max_le] at hn hm
    simp only [Tr.get]
    rw [if_neg (by omega), if_neg (by omega)]
    exact hr (by omega) (by omega)

/-- A property of all entries holds if it holds for the keys below 403. -/
theorem Tr.all {α : Type} (t : Tr α) (P : α → Prop) (hb : t.bound ≤ 402) (h : ∀ n, n < 403 → P (t.get n)) (n : Nat) :
    P (t.get n) := by
  by_cases hn : n < 403
  · exact h n hn
  · rw [t.get_ge n 402 (by omega) (by omega)]; exact h 402 (by omega)

/-- What is checked for every rule. -/
def ruleOk (r : Nat) : Bool :=
  let e := bodies.get r
  (!nul nulls.get e || nulls.get r) && lr nulls.get ranks.get (ranks.get r) e && reps nulls.get e &&
    decide (depth e ≤ depthBound) && decide (ranks.get r < rankBound) && checkRule types.get e (types.get r)

theorem rules_ok_table : (List.range 403).all ruleOk = true := by decide +kernel

theorem bounds : bodies.bound ≤ 402 ∧ nulls.bound ≤ 402 ∧ ranks.bound ≤ 402 ∧ types.bound ≤ 402 := by decide +kernel

theorem rule_ok (r : Nat) : ruleOk r = true := by
  have h := List.all_eq_true.1 rules_ok_table
  by_cases hr : r < 403
  · exact h r (List.mem_range.2 hr)
  · have h402 := h 402 (List.mem_range.2 (by decide))
    unfold ruleOk at h402 ⊢
    rw [bodies.get_ge r 402 (by have := bounds.1; omega) (by have := bounds.1; omega),
      nulls.get_ge r 402 (by have := bounds.2.1; omega) (by have := bounds.2.1; omega),
      ranks.get_ge r 402 (by have := bounds.2.2.1; omega) (by have := bounds.2.2.1; omega),
      types.get_ge r 402 (by have := bounds.2.2.2; omega) (by have := bounds.2.2.2; omega)]
    exact h402

theorem ranked : Ranked toaq nulls.get ranks.get rankBound depthBound where
  nul r h := by
    have := rule_ok r
    simp only [ruleOk, Bool.and_eq_true] at this
    have h' := this.1.1.1.1.1
    simp only [toaq] at h
    simpa [h] using h'
  lr r := by
    have := rule_ok r
    simp only [ruleOk, Bool.and_eq_true] at this
    exact this.1.1.1.1.2
  reps r := by
    have := rule_ok r
    simp only [ruleOk, Bool.and_eq_true] at this
    exact this.1.1.1.2
  depth r := by
    have := rule_ok r
    simp only [ruleOk, Bool.and_eq_true] at this
    exact of_decide_eq_true this.1.1.2
  rank r := by
    have := rule_ok r
    simp only [ruleOk, Bool.and_eq_true] at this
    exact of_decide_eq_true this.1.2

theorem typed (r : Nat) : checkRule types.get (toaq.body r) (types.get r) = true := by
  have := rule_ok r
  simp only [ruleOk, Bool.and_eq_true] at this
  exact this.2

end Verif.Parse
