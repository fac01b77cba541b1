/-
C31: the output of `String` determines the tree, up to re-association of equal connectors and of
serial predicates. The proof gives a reader of logical notation and shows that it reads back what
`print` writes.
-/
import Verif.Logic.PrintProps
import Mathlib.Data.List.Forall2

namespace Verif.Logic.Rd
open Verif.Tone (Str)

/-! ## Specification -/

/-- Regrouping of chains of one connector and of serial predicates, anywhere in a tree. -/
inductive Regroup : Node → Node → Prop
  | refl (n) : Regroup n n
  | symm {n m} : Regroup n m → Regroup m n
  | trans {n m k} : Regroup n m → Regroup m k → Regroup n k
  | conn3 (c a b d) : Regroup (.conn c (.conn c a b) d) (.conn c a (.conn c b d))
  | serial3 (a b d) : Regroup (.serial (.serial a b) d) (.serial a (.serial b d))
  | restr {q id n f r r' s} : Regroup r r' → Regroup (.bind q id n f (some r) s) (.bind q id n f (some r') s)
  | scope {q id n f r s s'} : Regroup s s' → Regroup (.bind q id n f r s) (.bind q id n f r s')
  | conn {c l l' r r'} : Regroup l l' → Regroup r r' → Regroup (.conn c l r) (.conn c l' r')
  | head {p p' as} : Regroup p p' → Regroup (.app p as) (.app p' as)
  | arg {p as bs a a'} : Regroup a a' → Regroup (.app p (as ++ some a :: bs)) (.app p (as ++ some a' :: bs))
  | member {as bs a a'} : Regroup a a' → Regroup (.plural (as ++ some a :: bs)) (.plural (as ++ some a' :: bs))
  | abs {s s'} : Regroup s s' → Regroup (.abs s) (.abs s')
  | serial {l l' r r'} : Regroup l l' → Regroup r r' → Regroup (.serial l r) (.serial l' r')
  | swap {p p' k} : Regroup p p' → Regroup (.swap p k) (.swap p' k)

mutual
/-- The same tree, with variables of related numbers. What is not part of logical notation may
differ: focus, the identity of bindings and variables, and the place of a swap. -/
inductive Same (R : Nat → Nat → Prop) : Node → Node → Prop
  | bind {q id id' n n' f f' r r' s s'} : R n n' → SameO R r r' → Same R s s' →
      Same R (.bind q id n f r s) (.bind q id' n' f' r' s')
  | conn {c l l' r r'} : Same R l l' → Same R r r' → Same R (.conn c l r) (.conn c l' r')
  | app {p p' as as'} : Same R p p' → SameL R as as' → Same R (.app p as) (.app p' as')
  | var {v v' : Var} : R v.n v'.n → Same R (.var v) (.var v')
  | plural {as as'} : SameL R as as' → Same R (.plural as) (.plural as')
  | quote (t f) : Same R (.quote t f) (.quote t f)
  | name (s) : Same R (.name s) (.name s)
  | abs {s s'} : Same R s s' → Same R (.abs s) (.abs s')
  | serial {l l' r r'} : Same R l l' → Same R r r' → Same R (.serial l r) (.serial l' r')
  | swap {p p' k k'} : Same R p p' → Same R (.swap p k) (.swap p' k')
inductive SameO (R : Nat → Nat → Prop) : Option Node → Option Node → Prop
  | none : SameO R none none
  | some {n n'} : Same R n n' → SameO R (some n) (some n')
inductive SameL (R : Nat → Nat → Prop) : List (Option Node) → List (Option Node) → Prop
  | nil : SameL R [] []
  | cons {a a' as as'} : SameO R a a' → SameL R as as' → SameL R (a :: as) (a' :: as')
end

/-- The signs of logical notation; other runes are part of words. -/
def signs : Str := " ()[]{}⌊⌉«»‹›·,.:=≺∘∧∨?ιλ∀Λ∃∄¿℩".toList

def sign (c : Char) : Bool := signs.contains c

def small (c : Char) : Bool := 'a' ≤ c && c ≤ 'z'

/-- A word made of runes that are not signs, starting with a small Latin letter. -/
def SmallWord (s : Str) : Prop := (∀ c ∈ s, sign c = false) ∧ ∃ c, s.head? = some c ∧ small c = true

/-- A word made of runes that are not signs, starting with another rune. -/
def BigWord (s : Str) : Prop := (∀ c ∈ s, sign c = false) ∧ ∃ c, s.head? = some c ∧ small c = false

mutual
/-- The tree can be told from its notation: it is well sorted, the names of predicates are words in
small letters or the two operators, and a quotation does not contain its closing mark. -/
def Readable : Sort3 → Node → Prop
  | .stmt, .bind _ _ _ _ r s => ReadableO r ∧ Readable .stmt s
  | .stmt, .conn _ l r => Readable .stmt l ∧ Readable .stmt r
  | .stmt, .app p as => Readable .pred p ∧ ReadableL as
  | .arg, .var _ => True
  | .arg, .plural as => ReadableL as
  | .arg, .quote t full => (if full then '»' else '›') ∉ t
  | .arg, .abs s => Readable .stmt s
  | .pred, .name s => isBinOp s = true ∨ SmallWord s
  | .pred, .var _ => True
  | .pred, .abs s => Readable .stmt s
  | .pred, .serial l r => Readable .pred l ∧ Readable .pred r
  | .pred, .swap p _ => Readable .pred p
  | _, _ => False
def ReadableO : Option Node → Prop
  | none => True
  | some n => Readable .stmt n
def ReadableL : List (Option Node) → Prop
  | [] => True
  | none :: as => ReadableL as
  | some a :: as => Readable .arg a ∧ ReadableL as
end

/-! ## Grouping to the right -/

/-- `a c b`, where `a` and `b` are grouped to the right. -/
def joinC (c : Conn) : Node → Node → Node
  | .conn c' a b, r => if c' = c then .conn c a (joinC c b r) else .conn c (.conn c' a b) r
  | n, r => .conn c n r

def joinS : Node → Node → Node
  | .serial a b, r => .serial a (joinS b r)
  | n, r => .serial n r

mutual
def norm : Node → Node
  | .bind q id n f r s => .bind q id n f (normO r) (norm s)
  | .conn c l r => joinC c (norm l) (norm r)
  | .app p as => .app (norm p) (normL as)
  | .var v => .var v
  | .plural as => .plural (normL as)
  | .quote t f => .quote t f
  | .name s => .name s
  | .abs s => .abs (norm s)
  | .serial l r => joinS (norm l) (norm r)
  | .swap p k => .swap (norm p) k
def normO : Option Node → Option Node
  | none => none
  | some n => some (norm n)
def normL : List (Option Node) → List (Option Node)
  | [] => []
  | a :: as => normO a :: normL as
end

def isConn (c : Conn) : Node → Bool
  | .conn c' _ _ => c' = c
  | _ => false

def isSerial : Node → Bool
  | .serial _ _ => true
  | _ => false

mutual
/-- Grouped to the right. -/
def Normal : Node → Prop
  | .bind _ _ _ _ r s => NormalO r ∧ Normal s
  | .conn c l r => isConn c l = false ∧ Normal l ∧ Normal r
  | .app p as => Normal p ∧ NormalL as
  | .plural as => NormalL as
  | .abs s => Normal s
  | .serial l r => isSerial l = false ∧ Normal l ∧ Normal r
  | .swap p _ => Normal p
  | _ => True
def NormalO : Option Node → Prop
  | none => True
  | some n => Normal n
def NormalL : List (Option Node) → Prop
  | [] => True
  | a :: as => NormalO a ∧ NormalL as
end

theorem normal_joinC (c : Conn) : ∀ l r, Normal l → Normal r → Normal (joinC c l r) := by
  intro l
  induction l using Node.induct with
  | conn c' a b iha ihb =>
    intro r hl hr
    simp only [joinC]
    split
    · next h => subst h; simp only [Normal] at hl ⊢; exact ⟨hl.1, hl.2.1, ihb r hl.2.2 hr⟩
    · next h => simp only [Normal] at hl ⊢; exact ⟨by simp [isConn, h], hl, hr⟩
  | _ => intro r hl hr; simp_all [joinC, Normal, isConn]

theorem normal_joinS : ∀ l r, Normal l → Normal r → Normal (joinS l r) := by
  intro l
  induction l using Node.induct with
  | serial a b iha ihb =>
    intro r hl hr
    simp only [joinS, Normal] at hl ⊢
    exact ⟨hl.1, hl.2.1, ihb r hl.2.2 hr⟩
  | _ => intro r hl hr; simp_all [joinS, Normal, isSerial]

mutual
theorem normal_norm : ∀ n, Normal (norm n)
  | .bind q id n f r s => by simp only [norm, Normal]; exact ⟨normal_normO r, normal_norm s⟩
  | .conn c l r => by rw [norm]; exact normal_joinC _ _ _ (normal_norm l) (normal_norm r)
  | .app p as => by simp only [norm, Normal]; exact ⟨normal_norm p, normal_normL as⟩
  | .var _ => trivial
  | .plural as => by simp only [norm, Normal]; exact normal_normL as
  | .quote _ _ => trivial
  | .name _ => trivial
  | .abs s => by simp only [norm, Normal]; exact normal_norm s
  | .serial l r => by rw [norm]; exact normal_joinS _ _ (normal_norm l) (normal_norm r)
  | .swap p _ => by simp only [norm, Normal]; exact normal_norm p
theorem normal_normO : ∀ n, NormalO (normO n)
  | none => trivial
  | some n => normal_norm n
theorem normal_normL : ∀ as, NormalL (normL as)
  | [] => trivial
  | a :: as => by simp only [normL, NormalL]; exact ⟨normal_normO a, normal_normL as⟩
end

theorem readable_joinC (c : Conn) : ∀ l r, Readable .stmt l → Readable .stmt r →
    Readable .stmt (joinC c l r) := by
  intro l
  induction l using Node.induct with
  | conn c' a b iha ihb =>
    intro r hl hr
    simp only [joinC]
    split
    · simp only [Readable] at hl ⊢; exact ⟨hl.1, ihb r hl.2 hr⟩
    · simp only [Readable] at hl ⊢; exact ⟨hl, hr⟩
  | _ => intro r hl hr; simp_all [joinC, Readable]

theorem readable_joinS : ∀ l r, Readable .pred l → Readable .pred r →
    Readable .pred (joinS l r) := by
  intro l
  induction l using Node.induct with
  | serial a b iha ihb =>
    intro r hl hr
    simp only [joinS, Readable] at hl ⊢
    exact ⟨hl.1, ihb r hl.2 hr⟩
  | _ => intro r hl hr; simp_all [joinS, Readable]

mutual
theorem readable_norm : ∀ n k, Readable k n → Readable k (norm n)
  | .bind q id n f r s, k, h => by
    cases k <;> simp only [norm, Readable] at h ⊢
    exact ⟨readable_normO r h.1, readable_norm s _ h.2⟩
  | .conn c l r, k, h => by
    cases k <;> simp only [norm, Readable] at h ⊢
    exact readable_joinC _ _ _ (readable_norm l _ h.1) (readable_norm r _ h.2)
  | .app p as, k, h => by
    cases k <;> simp only [norm, Readable] at h ⊢
    exact ⟨readable_norm p _ h.1, readable_normL as h.2⟩
  | .var _, _, h => h
  | .plural as, k, h => by
    cases k <;> simp only [norm, Readable] at h ⊢
    exact readable_normL as h
  | .quote _ _, _, h => h
  | .name _, _, h => h
  | .abs s, k, h => by
    cases k <;> simp only [norm, Readable] at h ⊢
    all_goals exact readable_norm s _ h
  | .serial l r, k, h => by
    cases k <;> simp only [norm, Readable] at h ⊢
    exact readable_joinS _ _ (readable_norm l _ h.1) (readable_norm r _ h.2)
  | .swap p _, k, h => by
    cases k <;> simp only [norm, Readable] at h ⊢
    exact readable_norm p _ h
theorem readable_normO : ∀ n, ReadableO n → ReadableO (normO n)
  | none, _ => trivial
  | some n, h => by
    simp only [normO, ReadableO] at h ⊢
    exact readable_norm n _ h
theorem readable_normL : ∀ as, ReadableL as → ReadableL (normL as)
  | [], _ => trivial
  | none :: as, h => by
    simp only [normL, normO, ReadableL] at h ⊢
    exact readable_normL as h
  | some a :: as, h => by
    simp only [normL, normO, ReadableL] at h ⊢
    exact ⟨readable_norm a _ h.1, readable_normL as h.2⟩
end

theorem regroup_joinC (c : Conn) : ∀ l r, Regroup (.conn c l r) (joinC c l r) := by
  intro l
  induction l using Node.induct with
  | conn c' a b iha ihb =>
    intro r
    simp only [joinC]
    split
    · next h => subst h; exact (Regroup.conn3 _ _ _ _).trans (.conn (.refl _) (ihb r))
    · exact .refl _
  | _ => intro r; exact .refl _

theorem regroup_joinS : ∀ l r, Regroup (.serial l r) (joinS l r) := by
  intro l
  induction l using Node.induct with
  | serial a b iha ihb => intro r; exact (Regroup.serial3 _ _ _).trans (.serial (.refl _) (ihb r))
  | _ => intro r; exact .refl _

theorem regroup_args {p : Node} {as : List (Option Node)} : ∀ pre : List (Option Node),
    (∀ a, some a ∈ as → Regroup a (norm a)) → Regroup (.app p (pre ++ as)) (.app p (pre ++ normL as)) := by
  induction as with
  | nil => intro pre _; exact .refl _
  | cons a as ih =>
    intro pre h
    have h1 := ih (pre ++ [normO a]) fun b hb => h b (by simp [hb])
    simp only [List.append_assoc, List.singleton_append] at h1
    refine .trans ?_ (by simpa [normL] using h1)
    cases a with
    | none => exact .refl _
    | some a => exact .arg (h a (by simp))

theorem regroup_members {as : List (Option Node)} : ∀ pre : List (Option Node),
    (∀ a, some a ∈ as → Regroup a (norm a)) → Regroup (.plural (pre ++ as)) (.plural (pre ++ normL as)) := by
  induction as with
  | nil => intro pre _; exact .refl _
  | cons a as ih =>
    intro pre h
    have h1 := ih (pre ++ [normO a]) fun b hb => h b (by simp [hb])
    simp only [List.append_assoc, List.singleton_append] at h1
    refine .trans ?_ (by simpa [normL] using h1)
    cases a with
    | none => exact .refl _
    | some a => exact .member (h a (by simp))

theorem regroup_norm (n : Node) : Regroup n (norm n) := by
  induction n using Node.induct with
  | bind q id n f r s ihr ihs =>
    rw [norm]
    cases r with
    | none => exact .scope ihs
    | some r => exact (Regroup.restr (ihr r rfl)).trans (.scope ihs)
  | conn c l r ihl ihr => exact (Regroup.conn ihl ihr).trans (regroup_joinC _ _ _)
  | app p as ihp ihas => exact (Regroup.head ihp).trans (regroup_args [] ihas)
  | var => exact .refl _
  | plural as ih => exact regroup_members [] ih
  | quote => exact .refl _
  | name => exact .refl _
  | abs s ih => exact .abs ih
  | serial l r ihl ihr => exact (Regroup.serial ihl ihr).trans (regroup_joinS _ _)
  | swap p k ih => exact .swap ih

/-! ## Regrouping is not seen in the notation -/

theorem print_app (pr : Printer) (p : Node) (as : List (Option Node)) (h : ∀ s a b, p = .name s → as = [a, b] → isBinOp s = false) :
    print pr (.app p as) = print pr p ++ ['('] ++ printArgs pr as ++ [')'] := by
  by_cases h1 : ∃ s a b, p = .name s ∧ as = [a, b]
  · obtain ⟨s, a, b, rfl, rfl⟩ := h1
    simp [print, h s a b rfl rfl]
  · exact print.eq_5 pr p as fun s a b hs hab => h1 ⟨s, a, b, hs, hab⟩

theorem print_args_set (pr : Printer) (as bs : List (Option Node)) (a a' : Node) (h : print pr a = print pr a') :
    printArgs pr (as ++ some a :: bs) = printArgs pr (as ++ some a' :: bs) := by
  induction as with
  | nil => cases bs <;> simp [printArgs, printArg, h]
  | cons x as ih =>
    cases as with
    | nil => simp only [List.cons_append, List.nil_append, printArgs] at ih ⊢; rw [ih]
    | cons y as => simp only [List.cons_append, printArgs] at ih ⊢; rw [ih]

/-- What the printer looks at in a part of a tree. -/
structure Looks (pr : Printer) (n m : Node) : Prop where
  print : print pr n = print pr m
  parens : ∀ c, needParens c n = needParens c m
  name : ∀ s, n = .name s ↔ m = .name s

theorem regroup_looks (pr : Printer) {n m : Node} (h : Regroup n m) : Looks pr n m := by
  induction h with
  | refl n => exact ⟨rfl, fun _ => rfl, fun _ => Iff.rfl⟩
  | symm _ ih => exact ⟨ih.print.symm, fun c => (ih.parens c).symm, fun s => (ih.name s).symm⟩
  | trans _ _ ih1 ih2 => exact ⟨ih1.print.trans ih2.print, fun c => (ih1.parens c).trans (ih2.parens c),
      fun s => (ih1.name s).trans (ih2.name s)⟩
  | conn3 c a b d => exact ⟨by simp [print, needParens, paren], fun _ => rfl, by simp⟩
  | serial3 a b d => exact ⟨by simp [print], fun _ => rfl, by simp⟩
  | restr _ ih => exact ⟨by simp [print, ih.print], fun _ => rfl, by simp⟩
  | @scope q id n f r s s' _ ih => exact ⟨by cases r <;> simp [print, ih.print], fun _ => rfl, by simp⟩
  | conn _ _ ih1 ih2 => exact ⟨by simp [print, ih1.print, ih2.print, ih1.parens, ih2.parens], fun _ => rfl, by simp⟩
  | @head p p' as _ ih =>
    refine ⟨?_, fun _ => rfl, by simp⟩
    by_cases h : ∃ s, p = .name s
    · obtain ⟨s, rfl⟩ := h
      rw [(ih.name s).1 rfl]
    · rw [print_app _ _ _ fun s _ _ hs => absurd ⟨s, hs⟩ h,
        print_app _ _ _ fun s _ _ hs => absurd ⟨s, (ih.name s).2 hs⟩ h, ih.print]
  | @arg p as bs a a' _ ih =>
    refine ⟨?_, fun _ => rfl, by simp⟩
    by_cases h : ∃ s x y, p = .name s ∧ as ++ some a :: bs = [x, y] ∧ isBinOp s = true
    · obtain ⟨s, x, y, rfl, h1, h2⟩ := h
      match as, bs, h1 with
      | [], [y], h1 => simp [print, h2, printO, ih.print]
      | [x], [], h1 => simp [print, h2, printO, ih.print]
      | _ :: _ :: _, _, h1 => simp at h1
    · have h' : ¬ ∃ s x y, p = .name s ∧ as ++ some a' :: bs = [x, y] ∧ isBinOp s = true := by
        rintro ⟨s, x, y, hs, hxy, hb⟩
        apply h
        match as, bs, hxy with
        | [], [y], _ => exact ⟨s, _, _, hs, rfl, hb⟩
        | [x], [], _ => exact ⟨s, _, _, hs, rfl, hb⟩
        | _ :: _ :: _, _, h1 => simp at h1
      rw [print_app _ _ _ fun s x y h1 h2 => by by_contra h3; exact h ⟨s, x, y, h1, h2, by simpa using h3⟩,
        print_app _ _ _ fun s x y h1 h2 => by by_contra h3; exact h' ⟨s, x, y, h1, h2, by simpa using h3⟩,
        print_args_set _ _ _ _ _ ih.print]
  | member _ ih => exact ⟨by simp [print, print_args_set _ _ _ _ _ ih.print], fun _ => rfl, by simp⟩
  | abs _ ih => exact ⟨by simp [print, ih.print], fun _ => rfl, by simp⟩
  | serial _ _ ih1 ih2 => exact ⟨by simp [print, ih1.print, ih2.print], fun _ => rfl, by simp⟩
  | swap _ ih => exact ⟨by simp [print, ih.print], fun _ => rfl, by simp⟩

/-! ## A reader of the notation -/

/-- A tree with the names of variables in place of their numbers, and without what is not written. -/
inductive Sk
  | bind (q : Quant) (x : Str) (r : Option Sk) (s : Sk)
  | conn (c : Conn) (l r : Sk)
  | app (p : Sk) (as : List (Option Sk))
  | var (x : Str)
  | plural (as : List (Option Sk))
  | quote (t : Str) (full : Bool)
  | name (s : Str)
  | abs (s : Sk)
  | serial (l r : Sk)
  | swap (p : Sk)

mutual
def sk (nm : Nat → Str) : Node → Sk
  | .bind q _ n _ r s => .bind q (nm n) (skO nm r) (sk nm s)
  | .conn c l r => .conn c (sk nm l) (sk nm r)
  | .app p as => .app (sk nm p) (skL nm as)
  | .var v => .var (nm v.n)
  | .plural as => .plural (skL nm as)
  | .quote t f => .quote t f
  | .name s => .name s
  | .abs s => .abs (sk nm s)
  | .serial l r => .serial (sk nm l) (sk nm r)
  | .swap p _ => .swap (sk nm p)
def skO (nm : Nat → Str) : Option Node → Option Sk
  | none => none
  | some n => some (sk nm n)
def skL (nm : Nat → Str) : List (Option Node) → List (Option Sk)
  | [] => []
  | a :: as => skO nm a :: skL nm as
end

def rdQuant : Char → Option Quant
  | 'ι' => some .the | '℩' => some .the | 'λ' => some .lambda | '∀' => some .each | 'Λ' => some .all
  | '∃' => some .some | '∄' => some .none | '¿' => some .hi | _ => none

def rdConn : Char → Option Conn
  | '∧' => some .and | '∨' => some .or | '?' => some .ri | _ => none

def rdOp : Char → Option Str
  | '=' => some equalName | '≺' => some amongName | _ => none

/-- The longest initial part without signs, and the rest. -/
def rdWord (s : Str) : Str × Str := (s.takeWhile fun c => !sign c, s.dropWhile fun c => !sign c)

/-- An argument may start with this rune. -/
def starts (c : Char) : Bool := c = '{' || c = '⌊' || c = '«' || c = '‹' || !sign c

structure Reader where
  stmt : Str → Option (Sk × Str)
  chain : Str → Option (Sk × Str)
  operand : Str → Option (Sk × Str)
  app : Str → Option (Sk × Str)
  pred : Str → Option (Sk × Str)
  atom : Str → Option (Sk × Str)
  args : Str → Option (List (Option Sk) × Str)

section
variable (f : Reader)

def rdBind (q : Quant) (s : Str) : Option (Sk × Str) :=
  match rdWord s with
  | (x, ' ' :: s) => match f.stmt s with
    | some (b, s) => some (.bind q x none b, s)
    | none => none
  | _ => none

def rdRestr (q : Quant) (s : Str) : Option (Sk × Str) :=
  match rdWord s with
  | (x, ' ' :: ':' :: ' ' :: s) => match f.stmt s with
    | some (r, ']' :: ' ' :: s) => match f.stmt s with
      | some (b, s) => some (.bind q x (some r) b, s)
      | none => none
    | _ => none
  | _ => none

def rdStmt : Str → Option (Sk × Str)
  | [] => none
  | '[' :: [] => none
  | '[' :: c :: s => match rdQuant c with
    | some q => rdRestr f q s
    | none => none
  | c :: s => match rdQuant c with
    | some q => rdBind f q s
    | none => f.chain (c :: s)

def rdChain (s : Str) : Option (Sk × Str) :=
  match f.operand s with
  | none => none
  | some (a, s) => match s with
    | ' ' :: c :: ' ' :: t => match rdConn c with
      | some c => match f.chain t with
        | some (b, t) => some (.conn c a b, t)
        | none => none
      | none => some (a, s)
    | _ => some (a, s)

def rdOperand (s : Str) : Option (Sk × Str) :=
  match s with
  | '(' :: t => match f.stmt t with
    | some (x, ')' :: t) => some (x, t)
    | _ => f.app s
  | _ => f.app s

def rdHeaded (s : Str) : Option (Sk × Str) :=
  match f.pred s with
  | some (p, '(' :: s) => match f.args s with
    | some (as, ')' :: s) => some (.app p as, s)
    | _ => none
  | _ => none

def rdBin (a : Option Sk) (o : Str) (s : Str) : Option (Sk × Str) :=
  if s.head?.any starts then
    match f.atom s with
    | some (b, s) => some (.app (.name o) [a, some b], s)
    | none => none
  else some (.app (.name o) [a, none], s)

def rdApp : Str → Option (Sk × Str)
  | [] => none
  | c :: s => match rdOp c with
    | some o => match s with
      | '(' :: _ => rdHeaded f (c :: s)
      | '∘' :: _ => rdHeaded f (c :: s)
      | _ => rdBin f none o s
    | none => match f.atom (c :: s) with
      | some (a, d :: t) => match rdOp d with
        | some o => rdBin f (some a) o t
        | none => rdHeaded f (c :: s)
      | _ => none

def rdSerial (a : Sk) (s : Str) : Option (Sk × Str) :=
  match s with
  | '∘' :: t => match f.pred t with
    | some (b, t) => some (.serial a b, t)
    | none => none
  | _ => some (a, s)

def rdPred : Str → Option (Sk × Str)
  | [] => none
  | c :: s => match rdOp c with
    | some o => rdSerial f (.name o) s
    | none => match f.atom (c :: s) with
      | some (a, t) => rdSerial f a t
      | none => none

def rdAtom : Str → Option (Sk × Str)
  | '{' :: s => match f.stmt s with
    | some (x, '}' :: s) => some (.abs x, s)
    | _ => none
  | '⌊' :: s => match f.args s with
    | some (as, '⌉' :: s) => some (.plural as, s)
    | _ => none
  | '«' :: s => match s.takeWhile (fun c => c ≠ '»'), s.dropWhile (fun c => c ≠ '»') with
    | t, _ :: s => some (.quote t true, s)
    | _, [] => none
  | '‹' :: s => match s.takeWhile (fun c => c ≠ '›'), s.dropWhile (fun c => c ≠ '›') with
    | t, _ :: s => some (.quote t false, s)
    | _, [] => none
  | '(' :: 'm' :: 'u' :: ' ' :: s => match f.pred s with
    | some (p, ')' :: s) => some (.swap p, s)
    | _ => none
  | c :: s => if sign c then none else
    some (if small c then .name (rdWord (c :: s)).1 else .var (rdWord (c :: s)).1, (rdWord (c :: s)).2)
  | [] => none

def rdMore (a : Option Sk) (s : Str) : Option (List (Option Sk) × Str) :=
  match s with
  | ',' :: ' ' :: t => match f.args t with
    | some (as, t) => some (a :: as, t)
    | none => none
  | _ => some ([a], s)

def rdArgs (s : Str) : Option (List (Option Sk) × Str) :=
  match s with
  | '·' :: t => rdMore f none t
  | _ => if s.head?.any starts then
      match f.atom s with
      | some (a, t) => rdMore f (some a) t
      | none => none
    else some ([], s)

end

def rd : Nat → Reader
  | 0 => ⟨fun _ => none, fun _ => none, fun _ => none, fun _ => none, fun _ => none, fun _ => none, fun _ => none⟩
  | k + 1 => ⟨rdStmt (rd k), rdChain (rd k), rdOperand (rd k), rdApp (rd k), rdPred (rd k), rdAtom (rd k),
      rdArgs (rd k)⟩

/-- What is read of `s`, with enough fuel. -/
def Reads {α : Type} (sel : Reader → Str → Option (α × Str)) (s : Str) (x : α) (r : Str) : Prop :=
  ∃ k0, ∀ k, k0 ≤ k → sel (rd k) s = some (x, r)

theorem Reads.step {α : Type} {sel : Reader → Str → Option (α × Str)} {s : Str} {x : α} {r : Str}
    (h : ∃ k0, ∀ k, k0 ≤ k → sel (rd (k + 1)) s = some (x, r)) : Reads sel s x r := by
  obtain ⟨k0, h⟩ := h
  exact ⟨k0 + 1, fun k hk => by obtain ⟨k', rfl⟩ : ∃ k', k = k' + 1 := ⟨k - 1, by omega⟩; exact h k' (by omega)⟩

/-! ## The reader reads what is printed -/

def SignHead (r : Str) : Prop := ∀ c, r.head? = some c → sign c = true

/-- What follows a predication. -/
def EndA (r : Str) : Prop := ∀ c, r.head? = some c → c ∈ [' ', ')', ']', '}', '.']

/-- What follows a statement. -/
def End (r : Str) : Prop := ∀ c, r.head? = some c → c ∈ [')', ']', '}', '.']

theorem End.endA {r : Str} (h : End r) : EndA r := fun c hc => List.mem_cons_of_mem _ (h c hc)

theorem EndA.sign {r : Str} (h : EndA r) : SignHead r := by
  intro c hc
  exact (by decide : ∀ c ∈ [' ', ')', ']', '}', '.'], Rd.sign c = true) c (h c hc)

theorem signHead_cons {c : Char} {r : Str} (h : sign c = true) : SignHead (c :: r) := by
  intro d hd; cases hd; exact h

theorem span_append {p : Char → Bool} : ∀ (w r : Str), (∀ c ∈ w, p c = true) →
    (∀ c, r.head? = some c → p c = false) → (w ++ r).takeWhile p = w ∧ (w ++ r).dropWhile p = r := by
  intro w r hw hr
  have h1 : r.takeWhile p = [] := by
    cases r with
    | nil => rfl
    | cons c r => simp [hr c rfl]
  have h2 : r.dropWhile p = r := by
    cases r with
    | nil => rfl
    | cons c r => simp [hr c rfl]
  rw [List.takeWhile_append_of_pos hw, List.dropWhile_append_of_pos hw, h1, h2, List.append_nil]
  exact ⟨rfl, rfl⟩

theorem rdWord_append {w r : Str} (hw : ∀ c ∈ w, sign c = false) (hr : SignHead r) : rdWord (w ++ r) = (w, r) :=
  have := span_append (p := fun c => !sign c) w r (by simpa using hw) (fun c hc => by simp [hr c hc])
  Prod.ext this.1 this.2

theorem quant_one (pr : Printer) (q : Quant) : ∃ c, pr.quant q = [c] ∧ rdQuant c = some q ∧ c ≠ '[' := by
  unfold Printer.quant
  split
  · next h => simp at h; rw [h.2]; exact ⟨_, rfl, rfl, by decide⟩
  · cases q <;> exact ⟨_, rfl, rfl, by decide⟩

theorem conn_one (c : Conn) : ∃ d, c.str = [d] ∧ rdConn d = some c := by
  cases c <;> exact ⟨_, rfl, rfl⟩

theorem op_one {s : Str} (h : isBinOp s = true) : ∃ c, s = [c] ∧ rdOp c = some s := by
  simp only [isBinOp, Bool.or_eq_true, decide_eq_true_eq] at h
  rcases h with rfl | rfl
  · exact ⟨_, rfl, rfl⟩
  · exact ⟨_, rfl, rfl⟩

theorem op_cases {c : Char} {o : Str} (h : rdOp c = some o) : c = '=' ∨ c = '≺' := by
  unfold rdOp at h
  split at h <;> simp_all

theorem quant_cases {c : Char} {q : Quant} (h : rdQuant c = some q) : c ∈ "ι℩λ∀Λ∃∄¿".toList := by
  unfold rdQuant at h
  split at h <;> first | (cases h; done) | decide

theorem starts_cases {c : Char} (h : starts c = true) : c ∈ ['{', '⌊', '«', '‹'] ∨ sign c = false := by
  simp only [starts, Bool.or_eq_true, decide_eq_true_eq, Bool.not_eq_true'] at h
  simp only [List.mem_cons, List.not_mem_nil, or_false]
  tauto

theorem starts_ne {c d : Char} (h : starts c = true) (hd : starts d = false) : c ≠ d := by
  rintro rfl; rw [h] at hd; cases hd

theorem starts_op {c : Char} (h : starts c = true) : rdOp c = none := by
  cases ho : rdOp c with
  | none => rfl
  | some o =>
    rcases op_cases ho with rfl | rfl
    · exact absurd h (by decide)
    · exact absurd h (by decide)

/-- A statement without binding starts with such a rune. -/
def headS (c : Char) : Prop := starts c = true ∨ c = '(' ∨ c = '=' ∨ c = '≺'

theorem headS_quant {c : Char} (h : headS c) : rdQuant c = none ∧ c ≠ '[' := by
  constructor
  · cases hq : rdQuant c with
    | none => rfl
    | some q =>
      have hc := quant_cases hq
      have : ∀ c ∈ "ι℩λ∀Λ∃∄¿".toList, starts c = false ∧ c ≠ '(' ∧ c ≠ '=' ∧ c ≠ '≺' := by decide
      have := this c hc
      unfold headS at h
      simp_all
  · rintro rfl
    unfold headS at h
    revert h
    decide

/-- Predicates that are read in one piece. -/
def single : Node → Bool
  | .name s => !isBinOp s
  | .var _ => true
  | .abs _ => true
  | .swap _ _ => true
  | _ => false

def isSwap : Node → Bool
  | .swap _ _ => true
  | _ => false

theorem head_big {s : Str} (h : BigWord s) : ∃ c t, s = c :: t ∧ starts c = true := by
  obtain ⟨h1, c, hc, _⟩ := h
  cases s with
  | nil => cases hc
  | cons d t => exact ⟨d, t, rfl, by simp [starts, h1 d (by simp)]⟩

theorem head_small {s : Str} (h : SmallWord s) : ∃ c t, s = c :: t ∧ starts c = true := by
  obtain ⟨h1, c, hc, _⟩ := h
  cases s with
  | nil => cases hc
  | cons d t => exact ⟨d, t, rfl, by simp [starts, h1 d (by simp)]⟩

section
variable (pr : Printer) (hv : ∀ i, BigWord (pr.var i))
include hv

theorem head_arg {n : Node} (h : Readable .arg n) :
    ∃ c t, print pr n = c :: t ∧ starts c = true := by
  cases n <;> simp only [Readable] at h
  · exact head_big (hv _)
  · exact ⟨_, _, rfl, by decide⟩
  · next t f => cases f <;> exact ⟨_, _, rfl, by decide⟩
  · exact ⟨_, _, rfl, by decide⟩

theorem head_single {n : Node} (h : Readable .pred n) (hs : single n = true)
    (hw : isSwap n = false) : ∃ c t, print pr n = c :: t ∧ starts c = true := by
  cases n <;> simp [single, isSwap] at hs hw
  · exact head_big (hv _)
  · next s =>
    simp only [Readable, hs, Bool.false_eq_true, false_or] at h
    exact head_small h
  · exact ⟨_, _, rfl, by decide⟩

theorem head_pred : ∀ n, Readable .pred n → ∃ c t, print pr n = c :: t ∧ headS c := by
  intro n
  induction n using Node.induct with
  | serial l r ihl ihr =>
    intro h
    obtain ⟨c, t, h1, h2⟩ := ihl h.1
    exact ⟨c, _, by rw [print, h1]; rfl, h2⟩
  | swap p k => intro _; exact ⟨'(', _, rfl, .inr (.inl rfl)⟩
  | name s =>
    intro h
    simp only [Readable] at h
    rcases h with h | h
    · obtain ⟨c, hc, ho⟩ := op_one h
      exact ⟨c, [], by rw [print, hc], by rcases op_cases ho with rfl | rfl <;> simp [headS]⟩
    · obtain ⟨c, t, h1, h2⟩ := head_small h
      exact ⟨c, t, h1, .inl h2⟩
  | var v => intro h; obtain ⟨c, t, h1, h2⟩ := head_big (hv v.n); exact ⟨c, t, h1, .inl h2⟩
  | abs s => intro h; exact ⟨'{', _, rfl, .inl (by decide)⟩
  | _ => intro h; cases h

theorem head_app (p : Node) (as : List (Option Node)) (h : Readable .stmt (.app p as)) :
    ∃ c t, print pr (.app p as) = c :: t ∧ headS c := by
  simp only [Readable] at h
  by_cases hb : ∃ s a b, p = .name s ∧ as = [a, b] ∧ isBinOp s = true
  · obtain ⟨s, a, b, rfl, rfl, hb⟩ := hb
    simp only [print, hb, if_true]
    cases a with
    | none =>
      obtain ⟨c, hc, ho⟩ := op_one hb
      exact ⟨c, _, by simp [printO, hc]; rfl, by rcases op_cases ho with rfl | rfl <;> simp [headS]⟩
    | some a =>
      simp only [ReadableL] at h
      obtain ⟨c, t, h1, h2⟩ := head_arg pr hv h.2.1
      exact ⟨c, _, by simp [printO, h1]; rfl, .inl h2⟩
  · obtain ⟨c, t, h1, h2⟩ := head_pred pr hv p h.1
    rw [print_app _ _ _ fun s a b h1 h2 => by by_contra h3; exact hb ⟨s, a, b, h1, h2, by simpa using h3⟩]
    exact ⟨c, _, by rw [h1]; rfl, h2⟩

def isBind : Node → Bool
  | .bind .. => true
  | _ => false

theorem head_chain (n : Node) (h : Readable .stmt n) (hn : isBind n = false) :
    ∃ c t, print pr n = c :: t ∧ headS c := by
  induction n using Node.induct with
  | conn c l r ihl ihr =>
    simp only [Readable] at h
    rw [print]
    cases hp : needParens c l with
    | true => exact ⟨'(', _, rfl, .inr (.inl rfl)⟩
    | false =>
      have : isBind l = false := by cases l <;> simp [needParens, isBind] at hp ⊢
      obtain ⟨d, t, h1, h2⟩ := ihl h.1 this
      exact ⟨d, _, by simp only [paren, h1]; rfl, h2⟩
  | app p as => exact head_app pr hv p as h
  | bind => cases hn
  | _ => cases h

end

theorem rd_stmt (k : Nat) : (rd (k + 1)).stmt = rdStmt (rd k) := rfl
theorem rd_chain (k : Nat) : (rd (k + 1)).chain = rdChain (rd k) := rfl
theorem rd_operand (k : Nat) : (rd (k + 1)).operand = rdOperand (rd k) := rfl
theorem rd_app (k : Nat) : (rd (k + 1)).app = rdApp (rd k) := rfl
theorem rd_pred (k : Nat) : (rd (k + 1)).pred = rdPred (rd k) := rfl
theorem rd_atom (k : Nat) : (rd (k + 1)).atom = rdAtom (rd k) := rfl
theorem rd_args (k : Nat) : (rd (k + 1)).args = rdArgs (rd k) := rfl

/-- A reading of `mu …` as a statement fails, so `(mu …)` is read as a swap. -/
theorem mu_none (k : Nat) (s : Str) : (rd k).stmt ('m' :: 'u' :: ' ' :: s) = none := by
  have hw : rdWord ('m' :: 'u' :: ' ' :: s) = (['m', 'u'], ' ' :: s) :=
    rdWord_append (w := ['m', 'u']) (by decide) (signHead_cons (by decide))
  have hatom : ∀ k, (rd k).atom ('m' :: 'u' :: ' ' :: s) = none ∨
      (rd k).atom ('m' :: 'u' :: ' ' :: s) = some (.name ['m', 'u'], ' ' :: s) := by
    intro k
    cases k with
    | zero => exact .inl rfl
    | succ k =>
      right
      rw [rd_atom]
      simp only [rdAtom]
      rfl
  have hpred : ∀ k, (rd k).pred ('m' :: 'u' :: ' ' :: s) = none ∨
      (rd k).pred ('m' :: 'u' :: ' ' :: s) = some (.name ['m', 'u'], ' ' :: s) := by
    intro k
    cases k with
    | zero => exact .inl rfl
    | succ k =>
      rw [rd_pred]
      rcases hatom k with h | h <;> simp [rdPred, rdOp, h, rdSerial]
  have happ : ∀ k, (rd k).app ('m' :: 'u' :: ' ' :: s) = none := by
    intro k
    cases k with
    | zero => rfl
    | succ k =>
      rw [rd_app]
      rcases hatom k with h | h
      · simp [rdApp, rdOp, h]
      · rcases hpred k with h2 | h2 <;> simp [rdApp, rdOp, h, rdHeaded, h2]
  have hop : ∀ k, (rd k).operand ('m' :: 'u' :: ' ' :: s) = none := by
    intro k
    cases k with
    | zero => rfl
    | succ k => rw [rd_operand]; simp [rdOperand, happ]
  have hch : ∀ k, (rd k).chain ('m' :: 'u' :: ' ' :: s) = none := by
    intro k
    cases k with
    | zero => rfl
    | succ k => rw [rd_chain]; simp [rdChain, hop]
  cases k with
  | zero => rfl
  | succ k => rw [rd_stmt]; simp [rdStmt, rdQuant, hch]

theorem reads_stmt_of_chain {c : Char} {t r : Str} {x : Sk} (hc : headS c) (h : Reads Reader.chain (c :: t) x r) :
    Reads Reader.stmt (c :: t) x r := by
  obtain ⟨k0, h⟩ := h
  refine Reads.step ⟨k0, fun k hk => ?_⟩
  rw [rd_stmt]
  have hq := headS_quant hc
  unfold rdStmt
  split
  · next h => cases h
  · next h => cases h; exact absurd rfl hq.2
  · next h => cases h; exact absurd rfl hq.2
  · next h => cases h; rw [hq.1]; exact h k hk

theorem reads_paren {s r : Str} {x : Sk} (h : Reads Reader.stmt (s ++ ')' :: r) x (')' :: r)) :
    Reads Reader.operand ('(' :: s ++ [')'] ++ r) x r := by
  obtain ⟨k0, h⟩ := h
  refine Reads.step ⟨k0, fun k hk => ?_⟩
  rw [rd_operand]
  have := h k hk
  simp only [List.cons_append, List.append_assoc, List.nil_append] at this ⊢
  simp [rdOperand, this]

theorem reads_operand_of_app {s r : Str} {x : Sk} (h : Reads Reader.app s x r)
    (hs : ∀ t, s = '(' :: t → ∃ u, t = 'm' :: 'u' :: ' ' :: u) : Reads Reader.operand s x r := by
  obtain ⟨k0, h⟩ := h
  refine Reads.step ⟨k0, fun k hk => ?_⟩
  rw [rd_operand]
  unfold rdOperand
  split
  · next t =>
    obtain ⟨u, rfl⟩ := hs t rfl
    rw [mu_none]
    exact h k hk
  · exact h k hk

theorem reads_chain_end {s r : Str} {x : Sk} (h : Reads Reader.operand s x r) (hr : End r) :
    Reads Reader.chain s x r := by
  obtain ⟨k0, h⟩ := h
  refine Reads.step ⟨k0, fun k hk => ?_⟩
  rw [rd_chain]
  simp only [rdChain, h k hk]
  split
  · next c t => exact absurd (hr ' ' rfl) (by decide)
  · rfl

theorem reads_chain_conn {c : Conn} {s u r : Str} {x y : Sk} (h : Reads Reader.operand s x ([' '] ++ c.str ++ [' '] ++ u))
    (hu : Reads Reader.chain u y r) : Reads Reader.chain s (.conn c x y) r := by
  obtain ⟨k0, h⟩ := h
  obtain ⟨k1, hu⟩ := hu
  refine Reads.step ⟨k0 + k1, fun k hk => ?_⟩
  rw [rd_chain]
  obtain ⟨d, hd, hc⟩ := conn_one c
  simp only [rdChain, h k (by omega), hd, List.cons_append, List.nil_append, hc, hu k (by omega)]

/-- An atom is read. -/
theorem reads_word {w r : Str} (hw : ∀ c ∈ w, sign c = false) (hr : SignHead r) {c : Char} {t : Str} (hc : w = c :: t) :
    Reads Reader.atom (w ++ r) (if small c then .name w else .var w) r := by
  refine Reads.step ⟨0, fun k _ => ?_⟩
  rw [rd_atom]
  have h1 := rdWord_append hw hr
  subst hc
  have hs : sign c = false := hw c (by simp)
  have h2 : ∀ d, sign d = true → c ≠ d := by rintro d hd rfl; rw [hs] at hd; cases hd
  simp only [List.cons_append] at h1 ⊢
  unfold rdAtom
  split
  · next h => cases h; exact absurd rfl (h2 '{' (by decide))
  · next h => cases h; exact absurd rfl (h2 '⌊' (by decide))
  · next h => cases h; exact absurd rfl (h2 '«' (by decide))
  · next h => cases h; exact absurd rfl (h2 '‹' (by decide))
  · next h => simp only [List.cons.injEq] at h; exact absurd h.1 (h2 '(' (by decide))
  · next h => cases h; simp [hs, h1]
  · next h => cases h

theorem reads_big {w r : Str} (hw : BigWord w) (hr : SignHead r) : Reads Reader.atom (w ++ r) (.var w) r := by
  obtain ⟨h1, c, hc, h2⟩ := hw
  obtain ⟨t, rfl⟩ : ∃ t, w = c :: t := by cases w <;> simp_all
  simpa [h2] using reads_word h1 hr rfl

theorem reads_small {w r : Str} (hw : SmallWord w) (hr : SignHead r) : Reads Reader.atom (w ++ r) (.name w) r := by
  obtain ⟨h1, c, hc, h2⟩ := hw
  obtain ⟨t, rfl⟩ : ∃ t, w = c :: t := by cases w <;> simp_all
  simpa [h2] using reads_word h1 hr rfl

theorem reads_quote {t r : Str} {full : Bool} (h : (if full then '»' else '›') ∉ t) (pr : Printer) :
    Reads Reader.atom (print pr (.quote t full) ++ r) (.quote t full) r := by
  refine Reads.step ⟨0, fun k _ => ?_⟩
  rw [rd_atom]
  cases full
  · have h1 := span_append (p := fun c => c ≠ '›') t ('›' :: r) (by intro c hc; simp; rintro rfl; exact h hc)
      (by intro c hc; cases hc; simp)
    simp only [print, Bool.false_eq_true, if_false, List.cons_append, List.nil_append, List.append_assoc, rdAtom, h1]
  · have h1 := span_append (p := fun c => c ≠ '»') t ('»' :: r) (by intro c hc; simp; rintro rfl; exact h hc)
      (by intro c hc; cases hc; simp)
    simp only [print, if_true, List.cons_append, List.nil_append, List.append_assoc, rdAtom, h1]

theorem reads_abs {s r : Str} {x : Sk} (h : Reads Reader.stmt (s ++ '}' :: r) x ('}' :: r)) :
    Reads Reader.atom (['{'] ++ s ++ ['}'] ++ r) (.abs x) r := by
  obtain ⟨k0, h⟩ := h
  refine Reads.step ⟨k0, fun k hk => ?_⟩
  rw [rd_atom]
  have := h k hk
  simp [rdAtom, this]

theorem reads_plural {s r : Str} {x : List (Option Sk)} (h : Reads Reader.args (s ++ '⌉' :: r) x ('⌉' :: r)) :
    Reads Reader.atom (['⌊'] ++ s ++ ['⌉'] ++ r) (.plural x) r := by
  obtain ⟨k0, h⟩ := h
  refine Reads.step ⟨k0, fun k hk => ?_⟩
  rw [rd_atom]
  have := h k hk
  simp [rdAtom, this]

theorem reads_swap {s r : Str} {x : Sk} (h : Reads Reader.pred (s ++ ')' :: r) x (')' :: r)) :
    Reads Reader.atom (['(', 'm', 'u', ' '] ++ s ++ [')'] ++ r) (.swap x) r := by
  obtain ⟨k0, h⟩ := h
  refine Reads.step ⟨k0, fun k hk => ?_⟩
  rw [rd_atom]
  have := h k hk
  simp [rdAtom, this]

section
variable (pr : Printer) (hv : ∀ i, BigWord (pr.var i))
include hv

theorem print_item {n : Node} (h : Readable .pred n) (hs : isSerial n = false) :
    (∃ c o, n = .name o ∧ o = [c] ∧ rdOp c = some o) ∨
    (single n = true ∧ ∃ c t, print pr n = c :: t ∧ rdOp c = none) := by
  by_cases hn : single n = true
  · right
    refine ⟨hn, ?_⟩
    cases hw : isSwap n with
    | false =>
      obtain ⟨c, t, h1, h2⟩ := head_single pr hv h hn hw
      exact ⟨c, t, h1, starts_op h2⟩
    | true =>
      cases n <;> simp [isSwap] at hw
      exact ⟨'(', _, rfl, rfl⟩
  · left
    cases n <;> simp_all [single, isSerial, Readable]
    next s =>
    obtain ⟨c, rfl, ho⟩ := op_one hn
    exact ⟨c, rfl, ho⟩

theorem pred_item {n : Node} (h : Readable .pred n) (hs : isSerial n = false) {r : Str}
    (hat : single n = true → Reads Reader.atom (print pr n ++ r) (sk pr.var n) r) :
    ∃ k0, ∀ k, k0 ≤ k → (rd (k + 1)).pred (print pr n ++ r) = rdSerial (rd k) (sk pr.var n) r := by
  rcases print_item pr hv h hs with ⟨c, o, rfl, rfl, ho⟩ | ⟨h1, c, t, h2, h3⟩
  · exact ⟨0, fun k _ => by rw [rd_pred]; simp [print, rdPred, ho, sk]⟩
  · obtain ⟨k0, hat⟩ := hat h1
    refine ⟨k0, fun k hk => ?_⟩
    have := hat k hk
    rw [h2, List.cons_append] at this ⊢
    rw [rd_pred]
    simp [rdPred, h3, this]

theorem app_headed {n : Node} (h : Readable .pred n) (hs : isSerial n = false) {d : Char} {r : Str}
    (hd : d = '(' ∨ d = '∘')
    (hat : single n = true → Reads Reader.atom (print pr n ++ d :: r) (sk pr.var n) (d :: r)) :
    ∃ k0, ∀ k, k0 ≤ k → (rd (k + 1)).app (print pr n ++ d :: r) = rdHeaded (rd k) (print pr n ++ d :: r) := by
  have hd' : rdOp d = none := by rcases hd with rfl | rfl <;> rfl
  rcases print_item pr hv h hs with ⟨c, o, rfl, rfl, ho⟩ | ⟨h1, c, t, h2, h3⟩
  · refine ⟨0, fun k _ => ?_⟩
    rw [rd_app]
    rcases hd with rfl | rfl <;> simp [print, rdApp, ho]
  · obtain ⟨k0, hat⟩ := hat h1
    refine ⟨k0, fun k hk => ?_⟩
    have := hat k hk
    rw [h2, List.cons_append] at this ⊢
    rw [rd_app]
    simp [rdApp, h3, this, hd']

/-- The first part of a predicate. -/
def first : Node → Node
  | .serial l _ => l
  | n => n

theorem reads_headed {p : Node} (h : Readable .pred p) (hn : Normal p) {s r : Str}
    {as : List (Option Sk)}
    (hat : ∀ r, SignHead r → single (first p) = true → Reads Reader.atom (print pr (first p) ++ r) (sk pr.var (first p)) r)
    (hp : ∀ r, Reads Reader.pred (print pr p ++ '(' :: r) (sk pr.var p) ('(' :: r))
    (has : Reads Reader.args (s ++ ')' :: r) as (')' :: r)) :
    Reads Reader.app (print pr p ++ ['('] ++ s ++ [')'] ++ r) (.app (sk pr.var p) as) r := by
  have key : ∃ k0, ∀ k, k0 ≤ k → (rd (k + 1)).app (print pr p ++ '(' :: (s ++ ')' :: r)) =
      rdHeaded (rd k) (print pr p ++ '(' :: (s ++ ')' :: r)) := by
    cases hser : isSerial p with
    | false =>
      have hf : first p = p := by cases p <;> simp [isSerial, first] at hser ⊢
      rw [hf] at hat
      exact app_headed pr hv h hser (.inl rfl) (hat _ (signHead_cons (by decide)))
    | true =>
      cases p <;> simp [isSerial] at hser
      next l q =>
      simp only [Readable, Normal] at h hn
      have := app_headed pr hv (r := print pr q ++ '(' :: (s ++ ')' :: r)) h.1 hn.1 (.inr rfl) (hat _ (signHead_cons (by decide)))
      simpa [print] using this
  obtain ⟨k0, h0⟩ := key
  obtain ⟨k1, h1⟩ := hp (s ++ ')' :: r)
  obtain ⟨k2, h2⟩ := has
  refine Reads.step ⟨k0 + k1 + k2, fun k hk => ?_⟩
  have e : print pr p ++ ['('] ++ s ++ [')'] ++ r = print pr p ++ '(' :: (s ++ ')' :: r) := by simp
  rw [e, h0 k (by omega)]
  simp [rdHeaded, h1 k (by omega), h2 k (by omega)]

omit hv in
theorem endA_starts {r : Str} (hr : EndA r) : r.head?.any starts = false := by
  cases r with
  | nil => rfl
  | cons c r =>
    have := hr c rfl
    revert this
    simp only [List.head?_cons, Option.any_some]
    exact fun h => (by decide : ∀ c ∈ [' ', ')', ']', '}', '.'], starts c = false) c h

theorem reads_bin {o : Str} {a : Option Sk} {b : Option Node} {r : Str} (hr : EndA r)
    (hb : ∀ n, b = some n → Readable .arg n)
    (hat : ∀ n, b = some n → Reads Reader.atom (print pr n ++ r) (sk pr.var n) r) :
    ∃ k0, ∀ k, k0 ≤ k → rdBin (rd k) a o (printO pr b ++ r) = some (.app (.name o) [a, skO pr.var b], r) := by
  cases b with
  | none => exact ⟨0, fun k _ => by simp [rdBin, printO, endA_starts hr, skO]⟩
  | some n =>
    obtain ⟨k0, hat⟩ := hat n rfl
    refine ⟨k0, fun k hk => ?_⟩
    obtain ⟨c, t, h1, h2⟩ := head_arg pr hv (hb n rfl)
    have := hat k hk
    rw [h1, List.cons_append] at this
    simp [rdBin, printO, h1, h2, this, skO]

theorem reads_binop {o : Str} (ho : isBinOp o = true) {a b : Option Node} {r : Str} (hr : EndA r)
    (ha : ∀ n, a = some n → Readable .arg n) (hb : ∀ n, b = some n → Readable .arg n)
    (hata : ∀ n r, a = some n → SignHead r → Reads Reader.atom (print pr n ++ r) (sk pr.var n) r)
    (hatb : ∀ n, b = some n → Reads Reader.atom (print pr n ++ r) (sk pr.var n) r) :
    Reads Reader.app (printO pr a ++ o ++ printO pr b ++ r) (.app (.name o) [skO pr.var a, skO pr.var b]) r := by
  obtain ⟨c, rfl, hc⟩ := op_one ho
  have hsc : sign c = true := by rcases op_cases hc with rfl | rfl <;> decide
  cases a with
  | none =>
    obtain ⟨k0, h0⟩ := reads_bin pr hv (a := none) (o := [c]) hr hb hatb
    refine Reads.step ⟨k0, fun k hk => ?_⟩
    have h := h0 k hk
    rw [rd_app]
    simp only [printO, List.nil_append, List.cons_append, rdApp, hc, skO]
    have hne : ∀ d t, printO pr b ++ r = d :: t → d ≠ '(' ∧ d ≠ '∘' := by
      intro d t hd
      cases b with
      | none =>
        simp only [printO, List.nil_append] at hd
        subst hd
        have := hr d rfl
        constructor <;> rintro rfl
        · exact absurd this (by decide)
        · exact absurd this (by decide)
      | some n =>
        obtain ⟨c', t', h1, h2⟩ := head_arg pr hv (hb n rfl)
        simp only [printO, h1, List.cons_append, List.cons.injEq] at hd
        rw [← hd.1]
        exact ⟨starts_ne h2 (by decide), starts_ne h2 (by decide)⟩
    split
    · next h => exact absurd rfl (hne _ _ h).1
    · next h => exact absurd rfl (hne _ _ h).2
    · exact h
  | some n =>
    obtain ⟨k0, h0⟩ := reads_bin pr hv (a := some (sk pr.var n)) (o := [c]) hr hb hatb
    obtain ⟨k1, h1⟩ := hata n (c :: (printO pr b ++ r)) rfl (signHead_cons hsc)
    refine Reads.step ⟨k0 + k1, fun k hk => ?_⟩
    obtain ⟨d, t, h3, h4⟩ := head_arg pr hv (ha n rfl)
    have h5 := h1 k (by omega)
    have h6 := h0 k (by omega)
    rw [h3, List.cons_append] at h5
    rw [rd_app]
    simp only [printO, h3, List.cons_append, List.nil_append, List.append_assoc, rdApp, starts_op h4, h5, hc, h6, skO]

theorem reads_args : ∀ (as : List (Option Node)), ReadableL as →
    (∀ n, some n ∈ as → ∀ r, SignHead r → Reads Reader.atom (print pr n ++ r) (sk pr.var n) r) →
    ∀ d r, d = ')' ∨ d = '⌉' → Reads Reader.args (printArgs pr as ++ d :: r) (skL pr.var as) (d :: r)
  | [], _, _, d, r, hd => by
    refine Reads.step ⟨0, fun k _ => ?_⟩
    rw [rd_args]
    rcases hd with rfl | rfl
    · simp [printArgs, rdArgs, skL, (by decide : starts ')' = false)]
    · simp [printArgs, rdArgs, skL, (by decide : starts '⌉' = false)]
  | a :: as, h, hat, d, r, hd => by
    have hds : sign d = true := by rcases hd with rfl | rfl <;> decide
    have hdc : d ≠ ',' := by rcases hd with rfl | rfl <;> decide
    -- the rest of the list
    have hmore : ∃ u, printArgs pr (a :: as) ++ d :: r = printArg pr a ++ u ∧ SignHead u ∧
        ∃ k0, ∀ k, k0 ≤ k → rdMore (rd k) (skO pr.var a) u = some (skL pr.var (a :: as), d :: r) := by
      cases as with
      | nil =>
        refine ⟨d :: r, by simp [printArgs], signHead_cons hds, 0, fun k _ => ?_⟩
        unfold rdMore
        split
        · next h => simp only [List.cons.injEq] at h; exact absurd h.1 hdc
        · simp [skL]
      | cons b as =>
        have h' : ReadableL (b :: as) := by
          cases a with
          | none => simpa only [ReadableL] using h
          | some a => simp only [ReadableL] at h ⊢; exact h.2
        obtain ⟨k0, ih⟩ := reads_args (b :: as) h' (fun n hn => hat n (List.mem_cons_of_mem _ hn)) d r hd
        refine ⟨',' :: ' ' :: (printArgs pr (b :: as) ++ d :: r), by simp [printArgs], signHead_cons (by decide), k0, fun k hk => ?_⟩
        simp only [rdMore, ih k hk, skL]
    obtain ⟨u, h1, h2, k0, h3⟩ := hmore
    rw [h1]
    cases a with
    | none =>
      refine Reads.step ⟨k0, fun k hk => ?_⟩
      rw [rd_args]
      simp only [printArg, List.cons_append, List.nil_append, rdArgs]
      exact h3 k hk
    | some n =>
      obtain ⟨k1, h4⟩ := hat n (by simp) u h2
      refine Reads.step ⟨k0 + k1, fun k hk => ?_⟩
      have h5 := h4 k (by omega)
      simp only [ReadableL] at h
      obtain ⟨c, t, h6, h7⟩ := head_arg pr hv h.1
      have hc : c ≠ '·' := starts_ne h7 (by decide)
      rw [rd_args]
      rw [h6, List.cons_append] at h5
      simp only [printArg, h6, List.cons_append]
      unfold rdArgs
      split
      · next h => simp only [List.cons.injEq] at h; exact absurd h.1 hc
      · simp only [List.head?_cons, Option.any_some, h7, if_true, h5]
        exact h3 k (by omega)

def isApp : Node → Bool
  | .app _ _ => true
  | _ => false

/-- A tree is read back. -/
structure Back (pr : Printer) (n : Node) : Prop where
  stmt : Readable .stmt n → Normal n → ∀ r, End r → Reads Reader.stmt (print pr n ++ r) (sk pr.var n) r
  chain : Readable .stmt n → Normal n → isBind n = false → ∀ r, End r →
    Reads Reader.chain (print pr n ++ r) (sk pr.var n) r
  app : Readable .stmt n → Normal n → isApp n = true → ∀ r, EndA r →
    Reads Reader.operand (print pr n ++ r) (sk pr.var n) r
  atom : (Readable .arg n ∨ Readable .pred n ∧ single n = true) → Normal n → ∀ r, SignHead r →
    Reads Reader.atom (print pr n ++ r) (sk pr.var n) r
  pred : Readable .pred n → Normal n → ∀ d r, d = '(' ∨ d = ')' →
    Reads Reader.pred (print pr n ++ d :: r) (sk pr.var n) (d :: r)
  first : Readable .pred n → Normal n → single (first n) = true → ∀ r, SignHead r →
    Reads Reader.atom (print pr (first n) ++ r) (sk pr.var (Rd.first n)) r

theorem head_paren : ∀ p, Readable .pred p → ∀ u, print pr p = '(' :: u →
    ∃ v, u = 'm' :: 'u' :: ' ' :: v := by
  intro p
  induction p using Node.induct with
  | serial l r ihl ihr =>
    intro h u hu
    simp only [Readable] at h
    obtain ⟨c, t, h1, _⟩ := head_pred pr hv l h.1
    rw [print, h1] at hu
    simp only [List.cons_append, List.cons.injEq] at hu
    obtain ⟨v, hv⟩ := ihl h.1 t (by rw [h1, hu.1])
    exact ⟨v ++ '∘' :: print pr r, by rw [← hu.2, hv]; simp⟩
  | swap p k => intro _ u hu; rw [print] at hu; cases hu; exact ⟨_, rfl⟩
  | name s =>
    intro h u hu
    exfalso
    simp only [print] at hu
    subst hu
    simp only [Readable] at h
    rcases h with h | h
    · exact absurd h (by simp [isBinOp, equalName, amongName])
    · exact absurd (h.1 '(' (by simp)) (by decide)
  | var v =>
    intro h u hu
    exfalso
    simp only [print] at hu
    have h := hv v.n
    rw [hu] at h
    exact absurd (h.1 '(' (by simp)) (by decide)
  | abs s => intro _ u hu; rw [print] at hu; cases hu
  | _ => intro h; cases h

omit hv in
theorem normalL_mem {as : List (Option Node)} (h : NormalL as) {n : Node} (hn : some n ∈ as) : Normal n := by
  induction as with
  | nil => cases hn
  | cons a as ih =>
    simp only [NormalL] at h
    rcases List.mem_cons.1 hn with rfl | hn
    · exact h.1
    · exact ih h.2 hn

omit hv in
theorem readableL_mem {as : List (Option Node)} (h : ReadableL as) {n : Node} (hn : some n ∈ as) :
    Readable .arg n := by
  induction as with
  | nil => cases hn
  | cons a as ih =>
    cases a with
    | none =>
      simp only [ReadableL] at h
      rcases List.mem_cons.1 hn with h' | hn
      · cases h'
      · exact ih h hn
    | some a =>
      simp only [ReadableL] at h
      rcases List.mem_cons.1 hn with h' | hn
      · cases h'; exact h.1
      · exact ih h.2 hn

theorem back_pred {n : Node} (hat : Readable .pred n → single n = true → Normal n → ∀ r, SignHead r →
    Reads Reader.atom (print pr n ++ r) (sk pr.var n) r) (hs : isSerial n = false) :
    Readable .pred n → Normal n → ∀ d r, d = '(' ∨ d = ')' →
    Reads Reader.pred (print pr n ++ d :: r) (sk pr.var n) (d :: r) := by
  intro h hn d r hd
  have hds : sign d = true := by rcases hd with rfl | rfl <;> decide
  obtain ⟨k0, h0⟩ := pred_item pr hv h hs (r := d :: r) fun h1 => hat h h1 hn _ (signHead_cons hds)
  refine Reads.step ⟨k0, fun k hk => ?_⟩
  rw [h0 k hk]
  rcases hd with rfl | rfl <;> simp [rdSerial]

omit hv in
theorem reads_bind (q : Quant) {x s r : Str} {b : Sk} (hx : BigWord x) (h : Reads Reader.stmt (s ++ r) b r) :
    Reads Reader.stmt (pr.quant q ++ x ++ [' '] ++ s ++ r) (.bind q x none b) r := by
  obtain ⟨k0, h⟩ := h
  obtain ⟨c, hc, hq, hne⟩ := quant_one pr q
  refine Reads.step ⟨k0, fun k hk => ?_⟩
  have h1 := h k hk
  have h2 : rdWord (x ++ ' ' :: (s ++ r)) = (x, ' ' :: (s ++ r)) := rdWord_append hx.1 (signHead_cons (by decide))
  rw [rd_stmt]
  simp only [hc, List.cons_append, List.nil_append, List.append_assoc]
  unfold rdStmt
  split
  · next h => cases h
  · next h => simp only [List.cons.injEq] at h; exact absurd h.1 hne
  · next h => simp only [List.cons.injEq] at h; exact absurd h.1 hne
  · next h => cases h; simp [hq, rdBind, h2, h1]

omit hv in
theorem reads_restr (q : Quant) {x s u r : Str} {a b : Sk} (hx : BigWord x)
    (ha : ∀ r, End r → Reads Reader.stmt (u ++ r) a r) (h : Reads Reader.stmt (s ++ r) b r) :
    Reads Reader.stmt (['['] ++ pr.quant q ++ x ++ [' ', ':', ' '] ++ u ++ [']', ' '] ++ s ++ r) (.bind q x (some a) b) r := by
  obtain ⟨k0, h⟩ := h
  obtain ⟨k1, ha⟩ := ha (']' :: ' ' :: (s ++ r)) (by intro c hc; cases hc; decide)
  obtain ⟨c, hc, hq, hne⟩ := quant_one pr q
  refine Reads.step ⟨k0 + k1, fun k hk => ?_⟩
  have h1 := h k (by omega)
  have h3 := ha k (by omega)
  have h2 : rdWord (x ++ ' ' :: ':' :: ' ' :: (u ++ ']' :: ' ' :: (s ++ r))) = (x, ' ' :: ':' :: ' ' :: (u ++ ']' :: ' ' :: (s ++ r))) :=
    rdWord_append hx.1 (signHead_cons (by decide))
  rw [rd_stmt]
  simp only [hc, List.cons_append, List.nil_append, List.append_assoc]
  simp [rdStmt, hq, rdRestr, h2, h3, h1]

omit hv in
theorem end_close (c : Char) (h : c ∈ [')', ']', '}', '.']) (r : Str) : End (c :: r) := by
  intro d hd; cases hd; exact h

theorem back (n : Node) : Back pr n := by
  induction n using Node.induct with
  | bind q id n f r s ihr ihs =>
    refine ⟨?_, (by intro _ _ h; cases h), (by intro _ _ h; cases h), by simp [Readable], by simp [Readable], by simp [Readable]⟩
    intro h hn t ht
    simp only [Readable, Normal] at h hn
    cases r with
    | none =>
      rw [print]
      exact reads_bind pr q (hv n) (ihs.stmt h.2 hn.2 t ht)
    | some r =>
      rw [print]
      exact reads_restr pr q (hv n) (fun t ht => (ihr r rfl).stmt h.1 hn.1 t ht) (ihs.stmt h.2 hn.2 t ht)
  | conn c l r ihl ihr =>
    have hchain : Readable .stmt (.conn c l r) → Normal (.conn c l r) → ∀ t, End t →
        Reads Reader.chain (print pr (.conn c l r) ++ t) (sk pr.var (.conn c l r)) t := by
      intro h hn t ht
      simp only [Readable, Normal] at h hn
      have hL : ∀ u, EndA u → Reads Reader.operand (paren (needParens c l) (print pr l) ++ u) (sk pr.var l) u := by
        intro u hu
        cases hp : needParens c l with
        | true => exact reads_paren (ihl.stmt h.1 hn.2.1 _ (end_close _ (by decide) _))
        | false =>
          refine ihl.app h.1 hn.2.1 ?_ u hu
          cases l <;> simp_all [needParens, isApp, isConn]
      have hR : Reads Reader.chain (paren (needParens c r) (print pr r) ++ t) (sk pr.var r) t := by
        cases hp : needParens c r with
        | true => exact reads_chain_end (reads_paren (ihr.stmt h.2 hn.2.2 _ (end_close _ (by decide) _))) ht
        | false =>
          refine ihr.chain h.2 hn.2.2 ?_ t ht
          cases r <;> simp_all [needParens, isBind]
      have := reads_chain_conn (c := c) (hL _ (by intro d hd; cases hd; decide)) hR
      rw [print, sk]
      simpa using this
    refine ⟨fun h hn t ht => ?_, fun h hn _ => hchain h hn, (by intro _ _ h; cases h), by simp [Readable], by simp [Readable], by simp [Readable]⟩
    obtain ⟨d, u, h1, h2⟩ := head_chain pr hv _ h rfl
    have := hchain h hn t ht
    rw [h1, List.cons_append] at this ⊢
    exact reads_stmt_of_chain h2 this
  | app p as ihp ihas =>
    have happ : Readable .stmt (.app p as) → Normal (.app p as) → ∀ t, EndA t →
        Reads Reader.operand (print pr (.app p as) ++ t) (sk pr.var (.app p as)) t := by
      intro h hn t ht
      have h' := h
      simp only [Readable, Normal] at h hn
      have hat : ∀ n, some n ∈ as → ∀ r, SignHead r → Reads Reader.atom (print pr n ++ r) (sk pr.var n) r :=
        fun n hm => (ihas n hm).atom (.inl (readableL_mem h.2 hm)) (normalL_mem hn.2 hm)
      by_cases hb : ∃ s a b, p = .name s ∧ as = [a, b] ∧ isBinOp s = true
      · obtain ⟨s, a, b, rfl, rfl, hb⟩ := hb
        apply reads_operand_of_app
        · rw [print, if_pos hb]
          exact reads_binop pr hv hb ht (fun n hm => readableL_mem h.2 (by simp [hm])) (fun n hm => readableL_mem h.2 (by simp [hm]))
            (fun n r hm hr => hat n (by simp [hm]) r hr) (fun n hm => hat n (by simp [hm]) t ht.sign)
        · intro u hu
          exfalso
          rw [print, if_pos hb] at hu
          obtain ⟨c, rfl, hc⟩ := op_one hb
          cases a with
          | none =>
            simp only [printO, List.nil_append, List.cons_append, List.cons.injEq] at hu
            rw [hu.1] at hc
            cases hc
          | some a =>
            obtain ⟨d, v, h1, h2⟩ := head_arg pr hv (readableL_mem h.2 (n := a) (by simp))
            simp only [printO, h1, List.cons_append, List.cons.injEq] at hu
            exact starts_ne h2 (by decide) hu.1
      · have hpa := print_app pr p as fun s a b h1 h2 => by by_contra h3; exact hb ⟨s, a, b, h1, h2, by simpa using h3⟩
        apply reads_operand_of_app
        · rw [hpa, sk]
          apply reads_headed pr hv h.1 hn.1 _ (fun r => ihp.pred h.1 hn.1 _ r (.inl rfl)) (reads_args pr hv as h.2 hat _ _ (.inl rfl))
          intro r hr hs
          exact ihp.first h.1 hn.1 hs r hr
        · intro u hu
          rw [hpa] at hu
          obtain ⟨c, v, h1, _⟩ := head_pred pr hv p h.1
          rw [h1] at hu
          simp only [List.cons_append, List.cons.injEq] at hu
          obtain ⟨w, hw⟩ := head_paren pr hv p h.1 v (by rw [h1, hu.1])
          rw [← hu.2, hw]
          exact ⟨_, rfl⟩
    have hchain : Readable .stmt (.app p as) → Normal (.app p as) → ∀ t, End t →
        Reads Reader.chain (print pr (.app p as) ++ t) (sk pr.var (.app p as)) t :=
      fun h hn t ht => reads_chain_end (happ h hn t ht.endA) ht
    refine ⟨fun h hn t ht => ?_, fun h hn _ => hchain h hn, fun h hn _ => happ h hn, by simp [Readable], by simp [Readable], by simp [Readable]⟩
    obtain ⟨d, u, h1, h2⟩ := head_chain pr hv _ h rfl
    have := hchain h hn t ht
    rw [h1, List.cons_append] at this ⊢
    exact reads_stmt_of_chain h2 this
  | var v =>
    have hat : ∀ r, SignHead r → Reads Reader.atom (print pr (.var v) ++ r) (sk pr.var (.var v)) r :=
      fun r hr => reads_big (hv v.n) hr
    exact ⟨by simp [Readable], by simp [Readable], by simp [Readable], fun _ _ => hat,
      back_pred pr hv (fun _ _ _ => hat) rfl, fun _ _ _ => hat⟩
  | plural as ih =>
    refine ⟨by simp [Readable], by simp [Readable], by simp [Readable], ?_, by simp [Readable], by simp [Readable]⟩
    intro h hn r hr
    simp only [Readable, single, Bool.false_eq_true, and_false, or_false, Normal] at h hn
    rw [print, sk]
    exact reads_plural (reads_args pr hv as h (fun n hm => (ih n hm).atom (.inl (readableL_mem h hm)) (normalL_mem hn hm)) _ _ (.inr rfl))
  | quote t f =>
    refine ⟨by simp [Readable], by simp [Readable], by simp [Readable], ?_, by simp [Readable], by simp [Readable]⟩
    intro h hn r hr
    simp only [Readable, single, Bool.false_eq_true, and_false, or_false] at h
    exact reads_quote h pr
  | name s =>
    have hat : Readable .pred (.name s) → single (.name s) = true → ∀ r, SignHead r →
        Reads Reader.atom (print pr (.name s) ++ r) (sk pr.var (.name s)) r := by
      intro h hs r hr
      simp only [single, Bool.not_eq_true'] at hs
      simp only [Readable, hs, Bool.false_eq_true, false_or] at h
      exact reads_small h hr
    refine ⟨by simp [Readable], by simp [Readable], by simp [Readable], ?_, back_pred pr hv (fun h hs _ => hat h hs) rfl,
      fun h _ hs => hat h hs⟩
    intro h _
    simp only [Readable, false_or] at h
    exact hat (by simpa [Readable] using h.1) h.2
  | abs s ih =>
    have hat : Readable .stmt s → Normal s → ∀ r, SignHead r →
        Reads Reader.atom (print pr (.abs s) ++ r) (sk pr.var (.abs s)) r := by
      intro h hn r hr
      rw [print, sk]
      exact reads_abs (ih.stmt h hn _ (end_close _ (by decide) _))
    exact ⟨by simp [Readable], by simp [Readable], by simp [Readable], fun h hn => hat (by simpa [Readable, single] using h) (by simpa [Normal] using hn),
      back_pred pr hv (fun h _ hn => hat (by simpa [Readable] using h) (by simpa [Normal] using hn)) rfl,
      fun h hn _ => hat (by simpa [Readable] using h) (by simpa [Normal] using hn)⟩
  | serial l r ihl ihr =>
    refine ⟨by simp [Readable], by simp [Readable], by simp [Readable], by simp [Readable, single], ?_,
      fun h hn hs => by simp only [Readable, Normal] at h hn; exact ihl.atom (.inr ⟨h.1, hs⟩) hn.2.1⟩
    intro h hn d t hd
    simp only [Readable, Normal] at h hn
    obtain ⟨k0, h0⟩ := pred_item pr hv h.1 hn.1 (r := '∘' :: (print pr r ++ d :: t)) fun h1 =>
      ihl.atom (.inr ⟨h.1, h1⟩) hn.2.1 _ (signHead_cons (by decide))
    obtain ⟨k1, h1⟩ := ihr.pred h.2 hn.2.2 d t hd
    refine Reads.step ⟨k0 + k1, fun k hk => ?_⟩
    have := h0 k (by omega)
    rw [print, sk]
    simp only [List.append_assoc, List.cons_append, List.nil_append] at this ⊢
    rw [this]
    simp [rdSerial, h1 k (by omega)]
  | swap p k ih =>
    have hat : Readable .pred p → Normal p → ∀ r, SignHead r →
        Reads Reader.atom (print pr (.swap p k) ++ r) (sk pr.var (.swap p k)) r := by
      intro h hn r hr
      rw [print, sk]
      exact reads_swap (ih.pred h hn _ _ (.inr rfl))
    exact ⟨by simp [Readable], by simp [Readable], by simp [Readable], fun h hn => hat (by simpa [Readable, single] using h) (by simpa [Normal] using hn),
      back_pred pr hv (fun h _ hn => hat (by simpa [Readable] using h) (by simpa [Normal] using hn)) rfl,
      fun h hn _ => hat (by simpa [Readable] using h) (by simpa [Normal] using hn)⟩

end

mutual
theorem same_of_sk {nm nm' : Nat → Str} : ∀ n m, sk nm n = sk nm' m → Same (fun i j => nm i = nm' j) n m
  | .bind q id n f r s, m, h => by
    cases m <;> simp only [sk, Sk.bind.injEq, reduceCtorEq] at h
    obtain ⟨rfl, h1, h2, h3⟩ := h
    exact .bind h1 (sameO_of_sk _ _ h2) (same_of_sk _ _ h3)
  | .conn c l r, m, h => by
    cases m <;> simp only [sk, Sk.conn.injEq, reduceCtorEq] at h
    obtain ⟨rfl, h1, h2⟩ := h
    exact .conn (same_of_sk _ _ h1) (same_of_sk _ _ h2)
  | .app p as, m, h => by
    cases m <;> simp only [sk, Sk.app.injEq, reduceCtorEq] at h
    exact .app (same_of_sk _ _ h.1) (sameL_of_sk _ _ h.2)
  | .var v, m, h => by
    cases m <;> simp only [sk, Sk.var.injEq, reduceCtorEq] at h
    exact .var h
  | .plural as, m, h => by
    cases m <;> simp only [sk, Sk.plural.injEq, reduceCtorEq] at h
    exact .plural (sameL_of_sk _ _ h)
  | .quote t f, m, h => by
    cases m <;> simp only [sk, Sk.quote.injEq, reduceCtorEq] at h
    obtain ⟨rfl, rfl⟩ := h
    exact .quote _ _
  | .name s, m, h => by
    cases m <;> simp only [sk, Sk.name.injEq, reduceCtorEq] at h
    subst h
    exact .name _
  | .abs s, m, h => by
    cases m <;> simp only [sk, Sk.abs.injEq, reduceCtorEq] at h
    exact .abs (same_of_sk _ _ h)
  | .serial l r, m, h => by
    cases m <;> simp only [sk, Sk.serial.injEq, reduceCtorEq] at h
    exact .serial (same_of_sk _ _ h.1) (same_of_sk _ _ h.2)
  | .swap p k, m, h => by
    cases m <;> simp only [sk, Sk.swap.injEq, reduceCtorEq] at h
    exact .swap (same_of_sk _ _ h)
theorem sameO_of_sk {nm nm' : Nat → Str} : ∀ n m, skO nm n = skO nm' m → SameO (fun i j => nm i = nm' j) n m
  | none, none, _ => .none
  | none, some _, h => by simp [skO] at h
  | some _, none, h => by simp [skO] at h
  | some n, some m, h => .some (same_of_sk n m (by simpa [skO] using h))
theorem sameL_of_sk {nm nm' : Nat → Str} : ∀ n m, skL nm n = skL nm' m → SameL (fun i j => nm i = nm' j) n m
  | [], [], _ => .nil
  | [], _ :: _, h => by simp [skL] at h
  | _ :: _, [], h => by simp [skL] at h
  | a :: as, b :: bs, h => by
    simp only [skL, List.cons.injEq] at h
    exact .cons (sameO_of_sk a b h.1) (sameL_of_sk as bs h.2)
end

/-- Two readable trees with the same notation, also followed by something, are the same up to
regrouping and the numbering of variables; and so is what follows. -/
theorem print_inj (pr pr' : Printer) (hv : ∀ i, BigWord (pr.var i)) (hv' : ∀ i, BigWord (pr'.var i)) {n m : Node}
    (hn : Readable .stmt n) (hm : Readable .stmt m)
    {r r' : Str} (hr : End r) (hr' : End r') (h : print pr n ++ r = print pr' m ++ r') :
    Same (fun i j => pr.var i = pr'.var j) (norm n) (norm m) ∧ r = r' := by
  obtain ⟨k0, h0⟩ := (back pr hv (norm n)).stmt (readable_norm n _ hn) (normal_norm n) r hr
  obtain ⟨k1, h1⟩ := (back pr' hv' (norm m)).stmt (readable_norm m _ hm) (normal_norm m) r' hr'
  rw [← (regroup_looks pr (regroup_norm n)).print] at h0
  rw [← (regroup_looks pr' (regroup_norm m)).print] at h1
  have h2 := h0 (k0 + k1) (by omega)
  rw [h, h1 (k0 + k1) (by omega)] at h2
  simp only [Option.some.injEq, Prod.mk.injEq] at h2
  exact ⟨same_of_sk _ _ h2.1.symm, h2.2.symm⟩

/-! ## Names -/

def upperOrDigit (c : Char) : Bool := ('A' ≤ c && c ≤ 'Z') || ('0' ≤ c && c ≤ '9')

/-- The names that variables get. -/
def NameOk (x : Str) : Prop := ∃ c t, x = c :: t ∧ 'A' ≤ c ∧ c ≤ 'Z' ∧ ∀ d ∈ t, upperOrDigit d = true

theorem itoa_upper (i : Nat) : ∀ d ∈ itoa i, upperOrDigit d = true := by
  intro d hd
  have := itoa_digits i d hd
  unfold isDigit at this
  simp only [upperOrDigit, Bool.or_eq_true, Bool.and_eq_true, decide_eq_true_eq]
  right
  constructor
  · show (48 : Nat) ≤ d.toNat; omega
  · show d.toNat ≤ 57; omega

theorem nameOk_X (i : Nat) : NameOk ('X' :: itoa i) := ⟨'X', _, rfl, by decide, by decide, itoa_upper i⟩

theorem varRune_upper {U : Uni} (hU : U.Ok) {defs : Nat → Option Node} (hd : ToaqNames defs) (v : Var) :
    ∃ c, varRune U defs v = [c] ∧ 'A' ≤ c ∧ c ≤ 'Z' := by
  rcases varRune_toaq hU hd v with h | h | ⟨c, hc, h⟩
  · exact ⟨'U', h, by decide⟩
  · exact ⟨'X', h, by decide⟩
  · exact ⟨_, h, (by decide : ∀ c ∈ initials, 'A' ≤ asciiUpper c ∧ asciiUpper c ≤ 'Z') c hc⟩

theorem nameOk_varName {U : Uni} (hU : U.Ok) {defs : Nat → Option Node} (hd : ToaqNames defs) (n : Node)
    {order : List (Str × List Nat)} (ho : order.Perm (scan U defs n).runes) (v : Nat) :
    NameOk (varName (varNames (scan U defs n) order) v) := by
  have hkeys := (scan_inv U defs (pre n)).2
  have hscan : (pre n).foldl (scanStep U defs) { runes := [], seen := [], max := -1 } =
      scan U defs n := by rw [scan, visit_eq]
  rw [hscan] at hkeys
  cases hn : varNames (scan U defs n) order with
  | none => exact nameOk_X v
  | some l =>
    obtain ⟨_, hget⟩ := varNames_spec U defs n order ho l hn
    by_cases hv : v < l.length
    · obtain ⟨g, hg, hvg, _, hgv⟩ := hget v hv
      obtain ⟨x, _, hx⟩ := hkeys g hg
      obtain ⟨c, hc, h1, h2⟩ := varRune_upper hU hd x
      rw [varName, hgv, hx, hc]
      have hi := List.idxOf_lt_length_of_mem hvg
      simp only [groupName]
      split
      · next h =>
        have : g.2.idxOf v = 0 ∨ g.2.idxOf v = 1 ∨ g.2.idxOf v = 2 := by omega
        rcases this with h | h | h <;> rw [h]
        · exact ⟨'X', [], rfl, by decide, by decide, by simp⟩
        · exact ⟨'Y', [], rfl, by decide, by decide, by simp⟩
        · exact ⟨'Z', [], rfl, by decide, by decide, by simp⟩
      · split
        · exact ⟨c, [], rfl, h1, h2, by simp⟩
        · exact ⟨c, _, rfl, h1, h2, itoa_upper _⟩
    · rw [varName, List.getElem?_eq_none (by omega)]
      exact nameOk_X v

theorem upper_list : ∀ c, upperOrDigit c = true → c ∈ "ABCDEFGHIJKLMNOPQRSTUVWXYZ0123456789".toList := by
  intro c hc
  have key : ∀ k < 128, upperOrDigit (Char.ofNat k) = true →
      Char.ofNat k ∈ "ABCDEFGHIJKLMNOPQRSTUVWXYZ0123456789".toList := by decide +kernel
  have hlt : c.toNat < 128 := by
    simp only [upperOrDigit, Bool.or_eq_true, Bool.and_eq_true, decide_eq_true_eq] at hc
    rcases hc with ⟨_, h⟩ | ⟨_, h⟩
    · have : c.toNat ≤ 90 := h
      omega
    · have : c.toNat ≤ 57 := h
      omega
  have := key c.toNat hlt
  rw [Char.ofNat_toNat] at this
  exact this hc

theorem upper_word : ∀ c ∈ "ABCDEFGHIJKLMNOPQRSTUVWXYZ0123456789".toList,
    sign c = false ∧ sign (italic c) = false ∧ small c = false ∧ small (italic c) = false := by decide +kernel

theorem italic_inj : ∀ c ∈ "ABCDEFGHIJKLMNOPQRSTUVWXYZ0123456789".toList,
    ∀ d ∈ "ABCDEFGHIJKLMNOPQRSTUVWXYZ0123456789".toList, italic c = italic d → c = d := by decide +kernel

theorem NameOk.all {x : Str} (h : NameOk x) : x ≠ [] ∧ ∀ c ∈ x, c ∈ "ABCDEFGHIJKLMNOPQRSTUVWXYZ0123456789".toList := by
  obtain ⟨c, t, rfl, h1, h2, h3⟩ := h
  refine ⟨by simp, fun d hd => upper_list d ?_⟩
  rcases List.mem_cons.1 hd with rfl | hd
  · simp [upperOrDigit, h1, h2]
  · exact h3 d hd

theorem NameOk.big {x : Str} (h : NameOk x) : BigWord x ∧ BigWord (x.map italic) := by
  obtain ⟨h1, h2⟩ := h.all
  cases x with
  | nil => exact absurd rfl h1
  | cons c t =>
    refine ⟨⟨fun d hd => (upper_word d (h2 d hd)).1, c, rfl, (upper_word c (h2 c (by simp))).2.2.1⟩,
      ⟨fun d hd => ?_, _, rfl, (upper_word c (h2 c (by simp))).2.2.2⟩⟩
    obtain ⟨e, he, rfl⟩ := List.mem_map.1 hd
    exact (upper_word e (h2 e he)).2.1

theorem NameOk.italic_inj {x y : Str} (hx : NameOk x) (hy : NameOk y) (h : x.map italic = y.map italic) : x = y := by
  have hx := hx.all.2
  have hy := hy.all.2
  clear * - hx hy h
  induction x generalizing y with
  | nil => cases y <;> simp_all
  | cons c x ih =>
    cases y with
    | nil => simp at h
    | cons d y =>
      simp only [List.map_cons, List.cons.injEq] at h
      rw [Rd.italic_inj c (hx c (by simp)) d (hy d (by simp)) h.1,
        ih h.2 (fun e he => hx e (by simp [he])) (fun e he => hy e (by simp [he]))]

/-! ## C31 -/

/-- Every number is related to at most one number on the other side. -/
structure OneToOne (R : Nat → Nat → Prop) : Prop where
  right : ∀ {i j j'}, R i j → R i j' → j = j'
  left : ∀ {i i' j}, R i j → R i' j → i = i'

/-- The trees differ at most in the grouping of chains and in the numbers of the variables. -/
def Alike (R : Nat → Nat → Prop) (n m : Node) : Prop := ∃ n' m', Regroup n n' ∧ Regroup m m' ∧ Same R n' m'

theorem alike_of_top {U : Uni} (hU : U.Ok) (pretty : Bool) {defs defs' : Nat → Option Node} (hd : ToaqNames defs)
    (hd' : ToaqNames defs') {n m : Node} (hn : Readable .stmt n) (hm : Readable .stmt m)
    {o o' : List (Str × List Nat)} (ho : o.Perm (scan U defs n).runes) (ho' : o'.Perm (scan U defs' m).runes)
    (h : printTop U pretty defs o n = printTop U pretty defs' o' m) : ∃ R, OneToOne R ∧ Alike R n m := by
  have h1 := nameOk_varName hU hd n ho
  have h2 := nameOk_varName hU hd' m ho'
  have i1 := C30_names U hU defs hd n o ho
  have i2 := C30_names U hU defs' hd' m o' ho'
  unfold printTop at h
  simp only at h
  have e1 : ∀ (x : Option (List Str)) (k : Node), ∃ r, End r ∧ (match x with
      | none => print { pretty, names := x } k
      | some _ => print { pretty, names := x } k ++ ['.']) = print { pretty, names := x } k ++ r := by
    intro x k
    cases x with
    | none => exact ⟨[], by simp [End], by simp⟩
    | some _ => exact ⟨['.'], by simp [End], rfl⟩
  generalize varNames (scan U defs n) o = x at *
  generalize varNames (scan U defs' m) o' = y at *
  obtain ⟨r1, hr1, e1'⟩ := e1 x n
  obtain ⟨r2, hr2, e2'⟩ := e1 y m
  have h := e1'.symm.trans (h.trans e2')
  have hv : ∀ (z : Option (List Str)), (∀ i, NameOk (varName z i)) → ∀ i, BigWord (({ pretty, names := z } : Printer).var i) := by
    intro z hz i
    cases pretty
    · exact (hz i).big.1
    · exact (hz i).big.2
  have := (print_inj _ _ (hv x h1) (hv y h2) hn hm hr1 hr2 h).1
  refine ⟨_, ⟨?_, ?_⟩, _, _, regroup_norm n, regroup_norm m, this⟩
  · intro i j j' ha hb
    have hb := ha.symm.trans hb
    cases pretty
    · exact i2 _ _ hb
    · exact i2 _ _ ((h2 _).italic_inj (h2 _) hb)
  · intro i i' j ha hb
    have hb := ha.trans hb.symm
    cases pretty
    · exact i1 _ _ hb
    · exact i1 _ _ ((h1 _).italic_inj (h1 _) hb)

/-- C31: if `String` writes two trees alike, they differ at most in the grouping of chains of one
connector or of serial predicates and in the numbers of the variables. -/
theorem C31_string (U : Uni) (hU : U.Ok) (defs defs' : Nat → Option Node) (hd : ToaqNames defs) (hd' : ToaqNames defs')
    (n m : Node) (hn : Readable .stmt n) (hm : Readable .stmt m) (s : Str) (h : IsString U defs n s)
    (h' : IsString U defs' m s) : ∃ R, OneToOne R ∧ Alike R n m := by
  obtain ⟨o, ho, rfl⟩ := h
  obtain ⟨o', ho', h⟩ := h'
  exact alike_of_top hU false hd hd' hn hm ho ho' h

/-- C31 for `PrettyString`. -/
theorem C31_pretty (U : Uni) (hU : U.Ok) (defs defs' : Nat → Option Node) (hd : ToaqNames defs) (hd' : ToaqNames defs')
    (n m : Node) (hn : Readable .stmt n) (hm : Readable .stmt m) (s : Str) (h : IsPrettyString U defs n s)
    (h' : IsPrettyString U defs' m s) : ∃ R, OneToOne R ∧ Alike R n m := by
  obtain ⟨o, ho, rfl⟩ := h
  obtain ⟨o', ho', h⟩ := h'
  exact alike_of_top hU true hd hd' hn hm ho ho' h

/-- A function of nodes that only looks at variables and bindings. -/
structure Local {α : Type} (f : Node → Option α) : Prop where
  bind : ∀ q id n fo r s r' s', f (.bind q id n fo r s) = f (.bind q id n fo r' s')
  conn : ∀ c l r, f (.conn c l r) = none
  app : ∀ p as, f (.app p as) = none
  plural : ∀ as, f (.plural as) = none
  abs : ∀ s, f (.abs s) = none
  serial : ∀ l r, f (.serial l r) = none
  swap : ∀ p k, f (.swap p k) = none

theorem preL_append : ∀ as bs : List (Option Node), preL (as ++ bs) = preL as ++ preL bs
  | [], bs => by simp [preL]
  | a :: as, bs => by simp [preL, preL_append as bs]

theorem regroup_local {α : Type} {f : Node → Option α} (hf : Local f) {n m : Node} (h : Regroup n m) :
    (pre n).filterMap f = (pre m).filterMap f := by
  induction h with
  | refl => rfl
  | symm _ ih => exact ih.symm
  | trans _ _ h1 h2 => exact h1.trans h2
  | conn3 => simp [pre, hf.conn]
  | serial3 => simp [pre, hf.serial]
  | @restr q id n fo r r' s _ ih =>
    simp only [pre, preO, List.filterMap_cons, List.filterMap_append, ih, hf.bind q id n fo (some r) s (some r') s]
  | @scope q id n fo r s s' _ ih =>
    simp only [pre, List.filterMap_cons, List.filterMap_append, ih, hf.bind q id n fo r s r s']
  | conn _ _ h1 h2 => simp [pre, hf.conn, h1, h2]
  | head _ ih => simp [pre, hf.app, ih]
  | arg _ ih => simp [pre, hf.app, preL_append, preL, preO, ih]
  | member _ ih => simp [pre, hf.plural, preL_append, preL, preO, ih]
  | abs _ ih => simp [pre, hf.abs, ih]
  | serial _ _ h1 h2 => simp [pre, hf.serial, h1, h2]
  | swap _ ih => simp [pre, hf.swap, ih]

def varOf : Node → Option Var
  | .var v => some v
  | _ => none

theorem local_varOf : Local varOf := ⟨fun _ _ _ _ _ _ _ _ => rfl, fun _ _ _ => rfl, fun _ _ => rfl, fun _ => rfl,
  fun _ => rfl, fun _ _ => rfl, fun _ _ => rfl⟩

theorem scan_vars (U : Uni) (defs : Nat → Option Node) (l : List Node) (s : Scan) :
    l.foldl (scanStep U defs) s = ((l.filterMap varOf).map Node.var).foldl (scanStep U defs) s := by
  induction l generalizing s with
  | nil => rfl
  | cons x l ih => cases x <;> simp only [List.foldl_cons, List.filterMap_cons, List.map_cons, varOf, scanStep, ih]

/-- C31: regrouping is not seen in the output of `String` and `PrettyString`. -/
theorem C31_regroup (U : Uni) (defs : Nat → Option Node) (n m : Node) (h : Regroup n m) (s : Str) :
    (IsString U defs n s ↔ IsString U defs m s) ∧ (IsPrettyString U defs n s ↔ IsPrettyString U defs m s) := by
  have hs : scan U defs n = scan U defs m := by
    rw [scan, scan, visit_eq, visit_eq, scan_vars, scan_vars U defs (pre m), regroup_local local_varOf h]
  have ht : ∀ pretty o, printTop U pretty defs o n = printTop U pretty defs o m := by
    intro pretty o
    unfold printTop
    simp only [hs]
    split <;> rw [(regroup_looks _ h).print]
  simp only [IsString, IsPrettyString, hs, ht, and_self]

/-- The numbers of the bindings and variables, in order. -/
def numOf : Node → Option Nat
  | .bind _ _ n _ _ _ => some n
  | .var v => some v.n
  | _ => none

theorem local_numOf : Local numOf := ⟨fun _ _ _ _ _ _ _ _ => rfl, fun _ _ _ => rfl, fun _ _ => rfl, fun _ => rfl,
  fun _ => rfl, fun _ _ => rfl, fun _ _ => rfl⟩

/-- Every number is less than `k`, or the first of its kind and the next natural number. -/
def InOrder : Nat → List Nat → Prop
  | _, [] => True
  | k, x :: xs => x < k ∧ InOrder k xs ∨ x = k ∧ InOrder (k + 1) xs

/-- Spec: the bindings and variables are numbered 0, 1, 2, … in order of first occurrence. -/
def Numbered (n : Node) : Prop := InOrder 0 ((trace n).filterMap numOf)

theorem inOrder_eq {R : Nat → Nat → Prop} (hR : OneToOne R) : ∀ (xs ys : List Nat) (k : Nat), List.Forall₂ R xs ys →
    (∀ i < k, R i i) → InOrder k xs → InOrder k ys → xs = ys
  | _, _, _, .nil, _, _, _ => rfl
  | x :: xs, y :: ys, k, .cons h hs, hk, hx, hy => by
    simp only [InOrder] at hx hy
    rcases hx with ⟨hx, hxs⟩ | ⟨rfl, hxs⟩
    · have : y = x := hR.right h (hk x hx)
      subst this
      rcases hy with ⟨_, hys⟩ | ⟨rfl, _⟩
      · rw [inOrder_eq hR xs ys k hs hk hxs hys]
      · omega
    · rcases hy with ⟨hy, _⟩ | ⟨rfl, hys⟩
      · have := hR.left h (hk y hy)
        omega
      · rw [inOrder_eq hR xs ys _ hs (fun i hi => by
          rcases Nat.lt_succ_iff_lt_or_eq.1 hi with hi | rfl
          · exact hk i hi
          · exact h) hxs hys]

mutual
theorem same_nums {R : Nat → Nat → Prop} : ∀ {n m}, Same R n m → List.Forall₂ R ((pre n).filterMap numOf) ((pre m).filterMap numOf)
  | _, _, .bind h1 h2 h3 => by
    simp only [pre, List.filterMap_cons, numOf, List.filterMap_append]
    exact .cons h1 (List.rel_append (sameO_nums h2) (same_nums h3))
  | _, _, .conn h1 h2 => by
    simp only [pre, List.filterMap_cons, numOf, List.filterMap_append]
    exact List.rel_append (same_nums h1) (same_nums h2)
  | _, _, .app h1 h2 => by
    simp only [pre, List.filterMap_cons, numOf, List.filterMap_append]
    exact List.rel_append (same_nums h1) (sameL_nums h2)
  | _, _, .var h => .cons h .nil
  | _, _, .plural h => by
    simp only [pre, List.filterMap_cons, numOf]
    exact sameL_nums h
  | _, _, .quote _ _ => .nil
  | _, _, .name _ => .nil
  | _, _, .abs h => by
    simp only [pre, List.filterMap_cons, numOf]
    exact same_nums h
  | _, _, .serial h1 h2 => by
    simp only [pre, List.filterMap_cons, numOf, List.filterMap_append]
    exact List.rel_append (same_nums h1) (same_nums h2)
  | _, _, .swap h => by
    simp only [pre, List.filterMap_cons, numOf]
    exact same_nums h
theorem sameO_nums {R : Nat → Nat → Prop} : ∀ {n m}, SameO R n m → List.Forall₂ R ((preO n).filterMap numOf) ((preO m).filterMap numOf)
  | _, _, .none => .nil
  | _, _, .some h => same_nums h
theorem sameL_nums {R : Nat → Nat → Prop} : ∀ {n m}, SameL R n m → List.Forall₂ R ((preL n).filterMap numOf) ((preL m).filterMap numOf)
  | _, _, .nil => .nil
  | _, _, .cons h1 h2 => by
    simp only [preL, List.filterMap_append]
    exact List.rel_append (sameO_nums h1) (sameL_nums h2)
end

mutual
theorem same_eq {R : Nat → Nat → Prop} : ∀ {n m}, Same R n m → (pre n).filterMap numOf = (pre m).filterMap numOf →
    Same Eq n m
  | _, _, .bind h1 h2 h3, e => by
    simp only [pre, List.filterMap_cons, numOf, List.filterMap_append, List.cons.injEq] at e
    obtain ⟨e1, e2⟩ := List.append_inj e.2 (sameO_nums h2).length_eq
    exact .bind e.1 (sameO_eq h2 e1) (same_eq h3 e2)
  | _, _, .conn h1 h2, e => by
    simp only [pre, List.filterMap_cons, numOf, List.filterMap_append] at e
    obtain ⟨e1, e2⟩ := List.append_inj e (same_nums h1).length_eq
    exact .conn (same_eq h1 e1) (same_eq h2 e2)
  | _, _, .app h1 h2, e => by
    simp only [pre, List.filterMap_cons, numOf, List.filterMap_append] at e
    obtain ⟨e1, e2⟩ := List.append_inj e (same_nums h1).length_eq
    exact .app (same_eq h1 e1) (sameL_eq h2 e2)
  | _, _, .var h, e => .var (by simpa [pre, numOf] using e)
  | _, _, .plural h, e => by
    simp only [pre, List.filterMap_cons, numOf] at e
    exact .plural (sameL_eq h e)
  | _, _, .quote a b, _ => .quote a b
  | _, _, .name a, _ => .name a
  | _, _, .abs h, e => by
    simp only [pre, List.filterMap_cons, numOf] at e
    exact .abs (same_eq h e)
  | _, _, .serial h1 h2, e => by
    simp only [pre, List.filterMap_cons, numOf, List.filterMap_append] at e
    obtain ⟨e1, e2⟩ := List.append_inj e (same_nums h1).length_eq
    exact .serial (same_eq h1 e1) (same_eq h2 e2)
  | _, _, .swap h, e => by
    simp only [pre, List.filterMap_cons, numOf] at e
    exact .swap (same_eq h e)
theorem sameO_eq {R : Nat → Nat → Prop} : ∀ {n m}, SameO R n m → (preO n).filterMap numOf = (preO m).filterMap numOf →
    SameO Eq n m
  | _, _, .none, _ => .none
  | _, _, .some h, e => .some (same_eq h e)
theorem sameL_eq {R : Nat → Nat → Prop} : ∀ {n m}, SameL R n m → (preL n).filterMap numOf = (preL m).filterMap numOf →
    SameL Eq n m
  | _, _, .nil, _ => .nil
  | _, _, .cons h1 h2, e => by
    simp only [preL, List.filterMap_append] at e
    obtain ⟨e1, e2⟩ := List.append_inj e (sameO_nums h1).length_eq
    exact .cons (sameO_eq h1 e1) (sameL_eq h2 e2)
end

theorem Alike.numbered {R : Nat → Nat → Prop} (hR : OneToOne R) {n m : Node} (h : Alike R n m) (hn : Numbered n)
    (hm : Numbered m) : Alike Eq n m := by
  obtain ⟨n', m', h1, h2, h3⟩ := h
  refine ⟨n', m', h1, h2, same_eq h3 ?_⟩
  rw [Numbered, trace_eq] at hn hm
  rw [regroup_local local_numOf h1] at hn
  rw [regroup_local local_numOf h2] at hm
  exact inOrder_eq hR _ _ 0 (same_nums h3) (fun i hi => absurd hi (by omega)) hn hm

/-- C31: trees numbered in order that `String` or `PrettyString` writes alike differ in nothing but the
grouping of chains. -/
theorem C31_numbered (U : Uni) (hU : U.Ok) (defs defs' : Nat → Option Node) (hd : ToaqNames defs)
    (hd' : ToaqNames defs') (n m : Node) (hn : Readable .stmt n) (hm : Readable .stmt m) (kn : Numbered n)
    (km : Numbered m) (s : Str) (h : IsString U defs n s ∧ IsString U defs' m s ∨
      IsPrettyString U defs n s ∧ IsPrettyString U defs' m s) : Alike Eq n m := by
  rcases h with ⟨h, h'⟩ | ⟨h, h'⟩
  · obtain ⟨R, hR, h⟩ := C31_string U hU defs defs' hd hd' n m hn hm s h h'
    exact h.numbered hR kn km
  · obtain ⟨R, hR, h⟩ := C31_pretty U hU defs defs' hd hd' n m hn hm s h h'
    exact h.numbered hR kn km

theorem inOrder_splits (g : Node → Node) (l : List Node) (h : ∀ A x B, l = A ++ x :: B →
    if numbered x then numOf (g x) = some (cnt A) else ∀ k, numOf (g x) = some k → k < cnt A) :
    ∀ B A, l = A ++ B → InOrder (cnt A) ((B.map g).filterMap numOf)
  | [], A, _ => trivial
  | x :: B, A, hl => by
    have hx := h A x B hl
    have ih := inOrder_splits g l h B (A ++ [x]) (by simp [hl])
    rw [cnt_append] at ih
    cases hnx : numbered x with
    | true =>
      simp only [hnx, if_true] at hx
      simp only [List.map_cons, List.filterMap_cons, hx, InOrder]
      exact Or.inr ⟨trivial, by simpa [cnt, hnx] using ih⟩
    | false =>
      simp only [hnx, Bool.false_eq_true, if_false] at hx
      have ih : InOrder (cnt A) ((B.map g).filterMap numOf) := by simpa [cnt, hnx] using ih
      simp only [List.map_cons, List.filterMap_cons]
      split
      · exact ih
      · next k hk => exact Or.inl ⟨hx k hk, ih⟩

/-- What `sequenceVarNums` returns is numbered in order (C31 applies to the output of `Interpret`). -/
theorem C31_sequence (old : Nat → Nat) (t : Node) (hu : Unshared t) (hs : Scoped [] t) :
    Numbered (sequenceVarNums old t) := by
  have ha := Scoped_after t [] hs
  rw [← trace_eq] at ha
  have inv := seq_inv old (trace t) hu.binds hu.frees hu.same ha
  rw [Numbered, trace_eq, sequenceVarNums, pre_renum, seqRun, visit_eq, ← trace_eq]
  generalize List.foldl seqStep { i := 0, bN := old, vN := fun _ => 0 } (trace t) = s at inv
  refine inOrder_splits _ (trace t) ?_ (trace t) [] rfl
  intro A x B hA
  cases x with
  | bind q id n f r sc => simp [numbered, renum, numOf, inv.binds A B _ _ _ _ _ _ hA]
  | var v =>
    cases hd : v.dfn with
    | none => simp [numbered, hd, renum, numOf, inv.frees A B _ hA hd]
    | some id =>
      simp only [numbered, hd, renum, numOf, Option.isNone_some, Bool.false_eq_true, if_false, Option.some.injEq]
      rintro k rfl
      rw [inv.bound v id (by rw [hA]; simp) hd]
      have := ha A v B hA id hd
      simp only [List.not_mem_nil, false_or, bindIds, List.mem_filterMap] at this
      obtain ⟨y, hy, hyid⟩ := this
      cases y <;> simp at hyid
      subst hyid
      obtain ⟨C, D, rfl⟩ := List.append_of_mem hy
      rw [inv.binds C (D ++ .var v :: B) _ _ _ _ _ _ (by rw [hA, List.append_assoc, List.cons_append]), cnt_append]
      simp [cnt, numbered]
  | conn | app | plural | quote | name | abs | serial | swap => simp [numbered, renum, numOf]

/-! ## Quotations with a closing mark -/

def quoteOf : Node → Option Str
  | .quote t _ => some t
  | _ => none

theorem local_quoteOf : Local quoteOf := ⟨fun _ _ _ _ _ _ _ _ => rfl, fun _ _ _ => rfl, fun _ _ => rfl, fun _ => rfl,
  fun _ => rfl, fun _ _ => rfl, fun _ _ => rfl⟩

mutual
theorem same_quotes {R : Nat → Nat → Prop} : ∀ {n m}, Same R n m → (pre n).filterMap quoteOf = (pre m).filterMap quoteOf
  | _, _, .bind _ h2 h3 => by
    simp only [pre, List.filterMap_cons, quoteOf, List.filterMap_append, sameO_quotes h2, same_quotes h3]
  | _, _, .conn h1 h2 => by
    simp only [pre, List.filterMap_cons, quoteOf, List.filterMap_append, same_quotes h1, same_quotes h2]
  | _, _, .app h1 h2 => by
    simp only [pre, List.filterMap_cons, quoteOf, List.filterMap_append, same_quotes h1, sameL_quotes h2]
  | _, _, .var h => rfl
  | _, _, .plural h => by simp only [pre, List.filterMap_cons, quoteOf, sameL_quotes h]
  | _, _, .quote _ _ => rfl
  | _, _, .name _ => rfl
  | _, _, .abs h => by simp only [pre, List.filterMap_cons, quoteOf, same_quotes h]
  | _, _, .serial h1 h2 => by
    simp only [pre, List.filterMap_cons, quoteOf, List.filterMap_append, same_quotes h1, same_quotes h2]
  | _, _, .swap h => by simp only [pre, List.filterMap_cons, quoteOf, same_quotes h]
theorem sameO_quotes {R : Nat → Nat → Prop} : ∀ {n m}, SameO R n m → (preO n).filterMap quoteOf = (preO m).filterMap quoteOf
  | _, _, .none => rfl
  | _, _, .some h => same_quotes h
theorem sameL_quotes {R : Nat → Nat → Prop} : ∀ {n m}, SameL R n m → (preL n).filterMap quoteOf = (preL m).filterMap quoteOf
  | _, _, .nil => rfl
  | _, _, .cons h1 h2 => by simp only [preL, List.filterMap_append, sameO_quotes h1, sameL_quotes h2]
end

/-- `String` does not escape the closing mark of a quotation: one quotation of `jai», «de` as the argument
of `kuq` is written like two quotations. So C31 does not hold for such quotations (which `mo` can make,
because quotation marks are punctuation in Toaq text). -/
theorem C31_refuted (U : Uni) : ∃ n m s, sorted .stmt n = true ∧ sorted .stmt m = true ∧
    IsString U (defsOf n) n s ∧ IsString U (defsOf m) m s ∧ ¬ ∃ R, Alike R n m := by
  refine ⟨.app (.name "kuq".toList) [some (.quote "jai», «de".toList true)],
    .app (.name "kuq".toList) [some (.quote "jai".toList true), some (.quote "de".toList true)],
    "kuq(«jai», «de»).".toList, rfl, rfl, ⟨[], List.Perm.refl _, ?_⟩, ⟨[], List.Perm.refl _, ?_⟩, ?_⟩
  · rfl
  · rfl
  · rintro ⟨R, n', m', h1, h2, h3⟩
    have e1 := regroup_local local_quoteOf h1
    have e2 := regroup_local local_quoteOf h2
    rw [same_quotes h3, ← e2] at e1
    simp only [pre, preL, preO, List.filterMap_cons, List.filterMap_append, List.filterMap_nil, quoteOf] at e1
    simp at e1

/-! ## Examples -/

/-- `a c b c' d` of three names. -/
def exChain (c c' : Conn) (left : Bool) : Node :=
  let a : Node := .app (.name ['d', 'e']) []
  let b : Node := .app (.name ['j', 'i']) [some (.quote ['t', 'o'] false), none]
  let d : Node := .app (.serial (.name ['m', 'i']) (.name ['f', 'a'])) [some (.abs a)]
  if left then .conn c' (.conn c a b) d else .conn c a (.conn c' b d)

theorem exChain_readable (c c' : Conn) (left : Bool) : Readable .stmt (exChain c c' left) := by
  have h : ∀ s ∈ ["de".toList, "ji".toList, "mi".toList, "fa".toList], SmallWord s := by
    intro s hs
    simp only [String.toList, List.mem_cons, List.not_mem_nil, or_false] at hs
    rcases hs with rfl | rfl | rfl | rfl <;> exact ⟨by decide, _, rfl, by decide⟩
  cases left <;> simp [exChain, Readable, ReadableL] <;> grind

/-- The hypotheses are met by trees with bindings, and by chains of connectors. -/
example : Readable .stmt exNames ∧ Numbered exNames := by
  refine ⟨⟨?_, ?_⟩, show InOrder 0 [0, 0, 1, 1, 0] by simp [InOrder]⟩ <;>
    simp [Readable, ReadableO, ReadableL]
  · exact Or.inr ⟨by decide, _, rfl, by decide⟩
  · exact Or.inr ⟨by decide, _, rfl, by decide⟩

/-- Chains of one connector are alike however they are grouped… -/
example : Regroup (exChain .and .and true) (exChain .and .and false) ∧
    print { pretty := false, names := none } (exChain .and .and true) =
      "de() ∧ ji(‹to›, ·) ∧ mi∘fa({de()})".toList :=
  ⟨.conn3 _ _ _ _, by decide +kernel⟩

/-- … but the grouping of different connectors is written. -/
example : print { pretty := false, names := none } (exChain .and .or true) ≠
    print { pretty := false, names := none } (exChain .and .or false) := by decide +kernel

end Verif.Logic.Rd
