/-
C67: the arguments of a syntax tree stand at different places of the text, hence no argument occurs twice.

The identity of an argument is the offset at which the action that makes it starts (`runAct`, case `predArg`).
-/
import Verif.Parse.TextProps
import Verif.Parse.WordLang
import Verif.Parse.Examples

namespace Verif.Parse
open Verif.AST Verif.AST.Spec Verif.Peg
open Verif.Tone (Str)

/-! ## Specification -/

mutual
/-- Spec: the identities of all arguments of a syntax tree, those in modifiers and in quoted text included. -/
def args : Node → List Nat
  | .text l d => argsO l ++ argsL d
  | .discourse d => argsL d
  | .sentence je st da => argsWO je ++ args st ++ argsWO da
  | .cop _ to0 to1 ru l r => argsWO to0 ++ argsWO to1 ++ argsW ru ++ args l ++ args r
  | .prenex ts bi => argsL ts ++ argsW bi
  | .prenexStmt ts bi st => argsL ts ++ argsW bi ++ args st
  | .predication _ p ts na => args p ++ argsTO ts ++ argsWO na
  | .prefixed mu p => argsW mu ++ args p
  | .serial l r => args l ++ args r
  | .word _ w => argsW w
  | .mi m ga ph => argsW m ++ args ph ++ argsWO ga
  | .po m ga a => argsW m ++ args a ++ argsWO ga
  | .mo m teo d => argsW m ++ argsL d ++ argsW teo
  | .lu _ l st => argsW l ++ args st
  | .linked g a => argsW g ++ args a
  | .terms ts => argsL ts
  | .predArg id focus quant p rel => id :: (argsWO focus ++ argsWO quant ++ args p ++ argsO rel)
  | .predAdverb p => args p
  | .prep p a => args p ++ args a
  | .paren kio ki d => argsW kio ++ argsL d ++ argsW ki
  | .incidental ju st => argsW ju ++ args st
  | .vocative hu a => argsW hu ++ args a
def argsW : Word → List Nat
  | .mk _ _ _ m => argsO m
def argsO : Option Node → List Nat
  | none => []
  | some n => args n
def argsWO : Option Word → List Nat
  | none => []
  | some w => argsW w
def argsTO : Option (List Node) → List Nat
  | none => []
  | some l => argsL l
def argsL : List Node → List Nat
  | [] => []
  | n :: ns => args n ++ argsL ns
end

namespace Places
open Verif.Parse.WordLang

/-! ## Modifiers -/

/-- How often an argument occurs in a list. -/
abbrev cnt (a : Nat) (l : List Nat) : Nat := l.count a

/-- Unfold the lists of arguments. -/
macro "argc" : tactic => `(tactic| (simp only [mod, modW, modO, args, argsW, argsO, argsWO, argsTO, argsL, cnt, List.count_append,
  List.count_cons, List.count_nil] at *))

theorem mod_le (a : Nat) (m : Node) :
    (∀ n, cnt a (args (mod m n)) ≤ cnt a (args n) + cnt a (args m)) ∧
    (∀ w, cnt a (argsW (modW m w)) ≤ cnt a (argsW w) + cnt a (args m)) := by
  have hL : ∀ l : List Node, (∀ x ∈ l, cnt a (args (mod m x)) ≤ cnt a (args x) + cnt a (args m)) →
      cnt a (argsL (modLast m l)) ≤ cnt a (argsL l) + cnt a (args m) := by
    intro l h
    induction l with
    | nil => simp [modLast, argsL]
    | cons x l ih =>
      cases l with
      | nil =>
        have := h x (by simp)
        simp only [modLast, argsL, List.append_nil]
        exact this
      | cons y l =>
        have := ih (fun z hz => h z (by simp [hz]))
        simp only [modLast, argsL, cnt, List.count_append] at this ⊢
        omega
  apply Node.induct
    (P := fun n => cnt a (args (mod m n)) ≤ cnt a (args n) + cnt a (args m))
    (Q := fun w => cnt a (argsW (modW m w)) ≤ cnt a (argsW w) + cnt a (args m))
  · intro t s e M hM
    cases M with
    | none => simp [modW, modO, argsW, argsO]
    | some x =>
      have := hM x rfl
      argc
      omega
  all_goals intros
  case text l d _ h =>
    have := hL d h
    argc; omega
  case discourse d h =>
    have := hL d h
    argc; omega
  case terms d h =>
    have := hL d h
    argc; omega
  case paren kio ki d _ _ h =>
    have := hL d h
    argc; omega
  case sentence je st da h1 h2 h3 =>
    cases da with
    | none => argc; omega
    | some w => have := h3 w rfl; argc; omega
  case predication k p ts na h1 h2 h3 =>
    cases na with
    | some w => have := h3 w rfl; argc; omega
    | none =>
      cases ts with
      | none => argc; omega
      | some l => have := hL l (h2 l rfl); argc; omega
  case mi x ga ph h1 h2 h3 =>
    cases ga with
    | some w => have := h2 w rfl; argc; omega
    | none => argc; omega
  case po x ga ph h1 h2 h3 =>
    cases ga with
    | some w => have := h2 w rfl; argc; omega
    | none => argc; omega
  case predArg id f q p rel h1 h2 h3 h4 =>
    cases rel with
    | some w => have := h4 w rfl; argc; omega
    | none => argc; omega
  all_goals (argc; omega)

/-! ## Values of actions -/

/-- The arguments in a value. -/
def vargs : Val → List Nat
  | .nil => []
  | .str _ => []
  | .word w => argsW w
  | .node n => args n
  | .nodes l => argsL l
  | .bar w r => argsW w ++ args r
  | .con a b => argsW a ++ argsW b
  | .cop1 l w r => args l ++ argsW w ++ args r
  | .part w d => argsW w ++ argsL d

def vargsL : List Val → List Nat
  | [] => []
  | v :: vs => vargs v ++ vargsL vs

/-- Whether the values in an expression start after its start: then no argument in it has its start as identity. -/
def late (lt nl : Nat → Bool) : Expr Act → Bool
  | .term _ => true
  | .ref r => lt r
  | .seq a b => late lt nl a && (late lt nl b || !nul nl a)
  | .alt a b => late lt nl a && late lt nl b
  | .opt a => late lt nl a
  | .plus a => late lt nl a
  | .star a => late lt nl a
  | .not _ => true
  | .and _ => true
  | .lab a => late lt nl a
  | .grp a => late lt nl a
  | .act f a => f != .predArg && late lt nl a

theorem v_nil : vargs .nil = [] := rfl
theorem v_str (s) : vargs (.str s) = [] := rfl
theorem v_word (w) : vargs (.word w) = argsW w := rfl
theorem v_node (w) : vargs (.node w) = args w := rfl
theorem v_nodes (w) : vargs (.nodes w) = argsL w := rfl
theorem v_bar (w r) : vargs (.bar w r) = argsW w ++ args r := rfl
theorem v_con (a b) : vargs (.con a b) = argsW a ++ argsW b := rfl
theorem v_cop1 (l w r) : vargs (.cop1 l w r) = args l ++ argsW w ++ args r := rfl
theorem v_part (w d) : vargs (.part w d) = argsW w ++ argsL d := rfl

theorem asNode_args {v : Val} {n : Node} (h : v.asNode = some n) : vargs v = args n := by
  cases v <;> simp [Val.asNode] at h
  subst h; rfl
theorem asWord_args {v : Val} {n : Word} (h : v.asWord = some n) : vargs v = argsW n := by
  cases v <;> simp [Val.asWord] at h
  subst h; rfl
theorem asNodeO_args {v : Val} {n : Option Node} (h : v.asNode? = some n) : vargs v = argsO n := by
  cases v <;> simp [Val.asNode?] at h <;> subst h <;> rfl
theorem asWordO_args {v : Val} {n : Option Word} (h : v.asWord? = some n) : vargs v = argsWO n := by
  cases v <;> simp [Val.asWord?] at h <;> subst h <;> rfl
theorem asNodes_args {v : Val} {n : List Node} (h : v.asNodes? = some n) : vargs v = argsL n := by
  cases v <;> simp [Val.asNodes?] at h <;> subst h <;> rfl

theorem modOpt_le (a : Nat) (o : Option Node) (n : Node) : cnt a (args (modOpt o n)) ≤ cnt a (args n) + cnt a (argsO o) := by
  cases o with
  | none => simp [modOpt]
  | some x => exact (mod_le a x).1 n

theorem modWOpt_le (a : Nat) (o : Option Node) (n : Word) : cnt a (argsW (modWOpt o n)) ≤ cnt a (argsW n) + cnt a (argsO o) := by
  cases o with
  | none => simp [modWOpt]
  | some x => exact (mod_le a x).2 n

theorem modLastOpt_le (a : Nat) (o : Option Node) (n : List Node) :
    cnt a (argsL (modLastOpt o n)) ≤ cnt a (argsL n) + cnt a (argsO o) := by
  cases o with
  | none => simp [modLastOpt]
  | some x =>
    have := (mod_le a x).1 (.terms n)
    simpa [mod, args, modLastOpt, argsO] using this

theorem modOpt_predication {o : Option Node} {n p : Node} {k ts na} (h : modOpt o n = .predication k p ts na) (a : Nat) :
    List.count a (args p) + List.count a (argsTO ts) + List.count a (argsWO na) ≤
      List.count a (args n) + List.count a (argsO o) := by
  have := modOpt_le a o n
  rw [h] at this
  simpa [args, cnt, Nat.add_assoc] using this

theorem modOpt_predArg {o : Option Node} {n p : Node} {id f q rel} (h : modOpt o n = .predArg id f q p rel) (a : Nat) :
    (if (id == a) = true then 1 else 0) + List.count a (argsWO f) + List.count a (argsWO q) + List.count a (args p) +
      List.count a (argsO rel) ≤ List.count a (args n) + List.count a (argsO o) := by
  have := modOpt_le a o n
  rw [h] at this
  simp only [args, cnt, List.count_append, List.count_cons] at this
  omega

/-- An action other than that of an argument makes no arguments. -/
theorem act_le {f : Act} {p q : Nat} {vs : List Val} {v : Val} (hf : f ≠ .predArg) (h : runAct f p q vs = .ok v) (a : Nat) :
    cnt a (vargs v) ≤ cnt a (vargsL vs) := by
  unfold runAct at h
  split at h <;> (first | (cases h; done) | (exact absurd rfl hf) | skip) <;>
    (repeat' split at h) <;> (first | (cases h; done) | skip) <;> injection h with h <;> subst h
  all_goals
    simp only [vargsL, v_nil, v_str, v_word, v_node, v_nodes, v_bar, v_con, v_cop1, v_part, args, argsL, argsTO, argsW, cnt, List.count_append, List.count_cons, List.count_nil]
    try have := modOpt_predication ‹modOpt _ _ = .predication _ _ _ _› a
    try have := modOpt_predArg ‹modOpt _ _ = .predArg _ _ _ _ _› a
    grind [→ asNode_args, → asWord_args, → asNodeO_args, → asWordO_args, → asNodes_args, modOpt_le, modWOpt_le,
      modLastOpt_le, argsO, argsWO, args, argsTO, argsW, argsL, v_nil]

theorem arg_le {p q : Nat} {vs : List Val} {v : Val} (h : runAct .predArg p q vs = .ok v) (a : Nat) :
    cnt a (vargs v) ≤ (if p = a then 1 else 0) + cnt a (vargsL vs) := by
  match vs, h with
  | [], h => simp [runAct] at h
  | [x], h =>
    simp only [runAct] at h
    split at h
    · rename_i n hn
      injection h with h
      subst h
      simp only [vargsL, v_node, args, argsWO, argsO, cnt, List.count_append, List.count_cons, List.count_nil, asNode_args hn]
      simp only [beq_iff_eq]
      omega
    · cases h
  | _ :: _ :: _, h => simp [runAct] at h

/-- 1 for the offsets from `p` to `q`. -/
def B (p q a : Nat) : Nat := if p ≤ a ∧ a < q then 1 else 0

theorem B_app {p m q : Nat} (h1 : p ≤ m) (h2 : m ≤ q) (a : Nat) : B p m a + B m q a = B p q a := by
  unfold B
  split <;> split <;> split <;> omega

theorem B_succ (p q a : Nat) : B (p + 1) q a ≤ B p q a := by
  unfold B
  split <;> split <;> omega

theorem cat_le (a : Nat) (v w : Val) : cnt a (vargs (cat v w)) ≤ cnt a (vargs v) + cnt a (vargs w) := by
  unfold cat
  split <;> simp [vargs]

theorem cons_le (a : Nat) (v w : Val) : cnt a (vargs (cons v w)) ≤ cnt a (vargs v) + cnt a (vargs w) := by
  unfold Verif.Parse.cons
  split <;> simp [vargs, argsL]

theorem vargsL_app (a : Nat) (vs ws : List Val) : cnt a (vargsL (vs ++ ws)) = cnt a (vargsL vs) + cnt a (vargsL ws) := by
  induction vs with
  | nil => simp [vargsL]
  | cons v vs ih =>
    simp only [List.cons_append, vargsL, cnt, List.count_append] at ih ⊢
    omega

/-- The rules that can start with an argument. -/
def early : List Nat := [0, 1, 2, 3, 4, 5, 6, 8, 9, 14, 15, 21, 22, 23, 24, 27, 28, 29, 30, 31, 32, 33, 35, 37, 38, 70, 226, 242,
  310, 312, 319, 320, 321, 322, 324, 375]

def lateR (r : Nat) : Bool := !early.contains (min r 402)

/-- The arguments of an argument start after it. -/
def argsOk (lt nl : Nat → Bool) : Expr Act → Bool
  | .term _ => true
  | .ref _ => true
  | .seq a b => argsOk lt nl a && argsOk lt nl b
  | .alt a b => argsOk lt nl a && argsOk lt nl b
  | .opt a => argsOk lt nl a
  | .plus a => argsOk lt nl a
  | .star a => argsOk lt nl a
  | .not _ => true
  | .and _ => true
  | .lab a => argsOk lt nl a
  | .grp a => argsOk lt nl a
  | .act f a => (f != .predArg || late lt nl a && !nul nl a) && argsOk lt nl a

def ruleArgs (r : Nat) : Bool :=
  (!lateR r || late lateR nulls.get (bodies.get r)) && argsOk lateR nulls.get (bodies.get r)

theorem rules_table : (List.range 403).all ruleArgs = true := by decide +kernel

theorem rules_args (r : Nat) : ruleArgs r = true := by
  have h := List.all_eq_true.1 rules_table
  by_cases hr : r < 403
  · exact h r (List.mem_range.2 hr)
  · have h402 := h 402 (List.mem_range.2 (by decide))
    have e : lateR r = lateR 402 := by simp only [lateR]; rw [Nat.min_eq_right (by omega)]; rfl
    unfold ruleArgs at h402 ⊢
    rw [bodies.get_ge r 402 (by have := bounds.1; omega) (by have := bounds.1; omega), e]
    exact h402

variable {U : Uni} {I : Input}

theorem ev_span {n e p q x} (hp : p ≤ I.len) (h : ev U toaq I (actAlg I) n e p = some (.ok q x)) :
    p ≤ q ∧ q ≤ I.len ∧ (nul nulls.get e = false → p < q) := by
  have h1 := ev_acc (U := U) (G := toaq) (I := I) (A := actAlg I) n e p 0
  rw [h] at h1
  obtain ⟨er, h1⟩ := h1
  have h2 := acc_bounds (U := U) (G := toaq) (I := I) n e p 0 _ hp h1
  exact ⟨(h2.1 q rfl).1, (h2.1 q rfl).2, fun hn => acc_progress (U := U) (G := toaq) (I := I) ranked.nul n e p 0 q er hp hn h1⟩

theorem ev_le : ∀ n e p q x, p ≤ I.len → argsOk lateR nulls.get e = true →
    ev U toaq I (actAlg I) n e p = some (.ok q x) →
    (∀ a, cnt a (vargs x.1) ≤ B p q a ∧ cnt a (vargsL x.2) ≤ B p q a) ∧
    (late lateR nulls.get e = true → ∀ a, cnt a (vargs x.1) ≤ B (p + 1) q a ∧ cnt a (vargsL x.2) ≤ B (p + 1) q a) := by
  intro n
  induction n with
  | zero => intro e p q x _ _ h; rw [ev_0] at h; cases h
  | succ n ih =>
    intro e p q x hp hk h
    have rep : ∀ {b m y m' z}, argsOk lateR nulls.get b = true → ev U toaq I (actAlg I) n b p = some (.ok m y) →
        ev U toaq I (actAlg I) n (.star b) m = some (.ok m' z) →
        (∀ a, cnt a (vargs (cons y.1 z.1)) ≤ B p m' a) ∧
        (late lateR nulls.get b = true → ∀ a, cnt a (vargs (cons y.1 z.1)) ≤ B (p + 1) m' a) := by
      intro b m y m' z hb hy hz
      have s1 := ev_span hp hy
      have s2 := ev_span s1.2.1 hz
      have h1 := ih _ _ _ _ hp hb hy
      have h2 := ih (.star b) _ _ _ s1.2.1 (by simpa [argsOk] using hb) hz
      constructor
      · intro a
        have e1 := (h1.1 a).1
        have e2 := (h2.1 a).1
        have e3 := cons_le a y.1 z.1
        have e4 := B_app s1.1 s2.1 a
        omega
      · intro hl a
        have e1 := (h1.2 hl a).1
        have e2 := (h2.2 (by simpa [late] using hl) a).1
        have e3 := cons_le a y.1 z.1
        have e4 : B (p + 1) m a + B (m + 1) m' a ≤ B (p + 1) m' a := by
          unfold B
          split <;> split <;> split <;> omega
        omega
    cases e with
    | term c =>
      obtain ⟨_, rfl⟩ := ev_term h
      simp [actAlg, vargs, vargsL]
    | ref r =>
      obtain ⟨y, hy, rfl⟩ := ev_ref h
      have hr := rules_args r
      simp only [ruleArgs, Bool.and_eq_true] at hr
      have h1 := ih _ _ _ _ hp hr.2 hy
      refine ⟨fun a => ⟨(h1.1 a).1, by simp [actAlg, vargsL]⟩, fun hl a => ⟨(h1.2 ?_ a).1, by simp [actAlg, vargsL]⟩⟩
      have h3 := hr.1
      simp only [late] at hl
      simpa [hl] using h3
    | seq a b =>
      obtain ⟨m, y, z, hy, hz, rfl⟩ := ev_seq h
      simp only [argsOk, Bool.and_eq_true] at hk
      have s1 := ev_span hp hy
      have s2 := ev_span s1.2.1 hz
      have h1 := ih _ _ _ _ hp hk.1 hy
      have h2 := ih _ _ _ _ s1.2.1 hk.2 hz
      constructor
      · intro a
        have e1 := h1.1 a
        have e2 := h2.1 a
        have e3 := cat_le a y.1 z.1
        have e4 := B_app s1.1 s2.1 a
        have e5 := vargsL_app a y.2 z.2
        simp only [actAlg]
        omega
      · intro hl a
        simp only [late, Bool.and_eq_true, Bool.or_eq_true, Bool.not_eq_true'] at hl
        have e1 := h1.2 hl.1 a
        have e3 := cat_le a y.1 z.1
        have e5 := vargsL_app a y.2 z.2
        simp only [actAlg]
        rcases hl.2 with hb | hb
        · have e2 := h2.2 hb a
          have e4 : B (p + 1) m a + B (m + 1) q a ≤ B (p + 1) q a := by
            unfold B
            split <;> split <;> split <;> omega
          omega
        · have e2 := h2.1 a
          have e4 := B_app (p := p + 1) (s1.2.2 hb) s2.1 a
          omega
    | alt a b =>
      simp only [argsOk, Bool.and_eq_true] at hk
      simp only [late, Bool.and_eq_true]
      rcases ev_alt h with h | h
      · have h1 := ih _ _ _ _ hp hk.1 h
        exact ⟨h1.1, fun hl => h1.2 hl.1⟩
      · have h1 := ih _ _ _ _ hp hk.2 h
        exact ⟨h1.1, fun hl => h1.2 hl.2⟩
    | opt a =>
      rcases ev_opt h with ⟨rfl, rfl⟩ | h
      · simp [actAlg, vargs, vargsL]
      · exact ih a _ _ _ hp hk h
    | plus a =>
      rw [ev_s] at h
      simp only [evStep] at h
      split at h
      · rename_i m y hy
        split at h
        · rename_i m' z hz
          injection h with h
          injection h with h1 h2
          subst h1 h2
          have := rep (by simpa [argsOk] using hk) hy hz
          exact ⟨fun a => ⟨this.1 a, by simp [actAlg, vargsL]⟩, fun hl a => ⟨this.2 hl a, by simp [actAlg, vargsL]⟩⟩
        · rename_i hne
          exact absurd h (hne _ _)
      · rename_i hne
        exact absurd h (hne _ _)
    | star a =>
      rw [ev_s] at h
      simp only [evStep] at h
      split at h
      · rename_i m y hy
        split at h
        · rename_i m' z hz
          injection h with h
          injection h with h1 h2
          subst h1 h2
          have := rep (by simpa [argsOk] using hk) hy hz
          exact ⟨fun a => ⟨this.1 a, by simp [actAlg, vargsL]⟩, fun hl a => ⟨this.2 hl a, by simp [actAlg, vargsL]⟩⟩
        · rename_i hne
          exact absurd h (hne _ _)
      · injection h with h
        injection h with h1 h2
        subst h1 h2
        simp [actAlg, vargs, vargsL]
      · rename_i hne _
        exact absurd h (hne _ _)
    | not a =>
      obtain ⟨_, rfl, _⟩ := ev_not h
      simp [actAlg, vargs, vargsL]
    | and a =>
      obtain ⟨_, rfl, _⟩ := ev_and h
      simp [actAlg, vargs, vargsL]
    | lab a =>
      obtain ⟨y, hy, rfl⟩ := ev_lab h
      have h1 := ih a _ _ _ hp hk hy
      refine ⟨fun a => ⟨(h1.1 a).1, ?_⟩, fun hl a => ⟨(h1.2 hl a).1, ?_⟩⟩
      · simpa [actAlg, vargsL] using (h1.1 a).1
      · simpa [actAlg, vargsL] using (h1.2 hl a).1
    | grp a =>
      obtain ⟨y, hy, rfl⟩ := ev_grp h
      exact ih a _ _ _ hp hk hy
    | act f b =>
      obtain ⟨y, hy, hr⟩ := ev_act h
      have hr' : ∃ v, runAct f p q y.2 = .ok v ∧ x = (v, []) := by
        simp only [actAlg] at hr
        split at hr
        · rename_i v hv
          injection hr with hr
          exact ⟨v, hv, hr.symm⟩
        · cases hr
      obtain ⟨v, hv, rfl⟩ := hr'
      simp only [argsOk, Bool.and_eq_true, Bool.or_eq_true, Bool.not_eq_true', bne_iff_ne, ne_eq] at hk
      have h1 := ih _ _ _ _ hp hk.2 hy
      simp only [late, Bool.and_eq_true, bne_iff_ne, ne_eq]
      refine ⟨fun a => ⟨?_, by simp [vargsL]⟩, fun hl a => ⟨?_, by simp [vargsL]⟩⟩
      · by_cases hf : f = .predArg
        · subst hf
          rcases hk.1 with hc | hc
          · exact absurd rfl hc
          · have e1 := (h1.2 hc.1 a).2
            have e2 := arg_le hv a
            have e3 := (ev_span hp hy).2.2 hc.2
            have e4 : (if p = a then 1 else 0) + B (p + 1) q a ≤ B p q a := by
              unfold B
              split <;> split <;> split <;> omega
            omega
        · have e1 := (h1.1 a).2
          have e2 := act_le hf hv a
          omega
      · have e1 := (h1.2 hl.2 a).2
        have e2 := act_le hl.1 hv a
        omega

end Places

/-- C67. In the syntax tree of a parsed text no argument occurs twice, and every argument starts in the text. -/
theorem C67_distinct {U : Uni} {b : Bytes} (cs : List Call) (n : Node) (h : Out.text n ∈ calls U b cs newParser) :
    (args n).Nodup ∧ ∀ i ∈ args n, i < b.length := by
  obtain ⟨q, l, hx⟩ := text_call h
  have h1 := (Places.ev_le _ _ _ _ _ (Nat.zero_le _) (by rfl) hx).1
  have h2 := (Places.ev_span (Nat.zero_le _) hx).2.1
  constructor
  · rw [List.nodup_iff_count]
    intro a
    have := (h1 a).1
    unfold Places.B at this
    simp only [Places.v_node, Places.cnt] at this
    split at this <;> omega
  · intro i hi
    have h3 := List.count_pos_iff.2 hi
    have := (h1 i).1
    unfold Places.B at this
    simp only [Places.v_node, Places.cnt] at this
    split at this
    · have : (Input.ofBytes b).len = b.length := rfl
      omega
    · omega

/-- The places of the arguments of a parsed text. -/
def outArgs : Out → List Nat
  | .text n => args n
  | _ => []

/-- An argument with another one in its relative clause, one in a parenthetical, one that is a content clause and the
one in it. -/
example : (run "Mai? suq/ giV ji/ kio Fa? poq/ ki gi^ suq/" [.text]).map outArgs = [[5, 14, 26, 34, 38]] := by
  decide +kernel

end Verif.Parse
