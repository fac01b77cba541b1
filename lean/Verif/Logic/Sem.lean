/-
C55: what logic trees mean, in any model, and when simplification may be expected to keep the meaning.
-/
import Verif.Logic.SimplifyProps

namespace Verif.Logic
open Verif.Tone (Str)

/-! ## Models -/

/-- A model: things `D`, meanings of statements `B` and meanings of predicates `P`, and what each
construct does with them. `b0`, `p0`, `d0` are the values of nodes where they do not belong. -/
structure Model where
  D : Type
  B : Type
  P : Type
  name : Str → P
  serial : P → P → P
  swap : P → Nat → P
  absP : B → P
  varP : D → P
  app : P → List (Option D) → B
  quote : Str → Bool → D
  plural : List D → D
  absD : B → D
  conn : Conn → B → B → B
  bind : Quant → Option (D → B) → (D → B) → B
  b0 : B
  p0 : P
  d0 : D

namespace Model
variable (M : Model)

mutual
/-- The value of a statement, given the values of variables by number. -/
def stmt : Node → (Nat → M.D) → M.B
  | .bind q _ n _ r s, ρ => M.bind q (restr r n ρ) fun d => stmt s (upd ρ n d)
  | .conn c l r, ρ => M.conn c (stmt l ρ) (stmt r ρ)
  | .app p as, ρ => M.app (pred p ρ) (args as ρ)
  | _, _ => M.b0
def restr : Option Node → Nat → (Nat → M.D) → Option (M.D → M.B)
  | none, _, _ => none
  | some r, n, ρ => some fun d => stmt r (upd ρ n d)
def pred : Node → (Nat → M.D) → M.P
  | .name s, _ => M.name s
  | .serial l r, ρ => M.serial (pred l ρ) (pred r ρ)
  | .swap p k, ρ => M.swap (pred p ρ) k
  | .abs s, ρ => M.absP (stmt s ρ)
  | .var v, ρ => M.varP (ρ v.n)
  | _, _ => M.p0
def arg : Node → (Nat → M.D) → M.D
  | .var v, ρ => ρ v.n
  | .plural as, ρ => M.plural (plur as ρ)
  | .quote t f, _ => M.quote t f
  | .abs s, ρ => M.absD (stmt s ρ)
  | _, _ => M.d0
def args : List (Option Node) → (Nat → M.D) → List (Option M.D)
  | [], _ => []
  | a :: as, ρ => argO a ρ :: args as ρ
def argO : Option Node → (Nat → M.D) → Option M.D
  | none, _ => none
  | some a, ρ => some (arg a ρ)
/-- Missing arguments of a plurality are no part of it. -/
def plur : List (Option Node) → (Nat → M.D) → List M.D
  | [], _ => []
  | a :: as, ρ => (argO a ρ).toList ++ plur as ρ
end

/-- A function of `k` things as an abstraction with `k` λs. -/
def lams : Nat → (List M.D → M.B) → M.B
  | 0, f => f []
  | k + 1, f => M.bind .lambda none fun d => lams k fun ds => f (d :: ds)

/-- `bs` are the arguments `as` with the first and the one in place `k` exchanged. -/
def Exchanged {α : Type} (k : Nat) (as bs : List (Option α)) : Prop :=
  bs.length = max as.length (k + 1) ∧ bs.getD 0 none = as.getD k none ∧ bs.getD k none = as.getD 0 none ∧
  ∀ i, i ≠ 0 → i ≠ k → bs.getD i none = as.getD i none

/-- The laws by which simplification is justified: "the x that is e" and "every x that is e" is e; an
abstraction with as many λs as arguments is applied by putting the arguments for the variables; a swap
exchanges arguments; a plurality in a plurality is flattened. -/
structure Laws : Prop where
  eqL : ∀ q e (f : M.D → M.B), q = .the ∨ q = .all →
    M.bind q (some fun x => M.app (M.name ['=']) [some x, some e]) f = f e
  eqR : ∀ q e (f : M.D → M.B), q = .the ∨ q = .all →
    M.bind q (some fun x => M.app (M.name ['=']) [some e, some x]) f = f e
  beta : ∀ (f : List M.D → M.B) ds, ds ≠ [] → M.app (M.absP (M.lams ds.length f)) (ds.map some) = f ds
  swap : ∀ p k as bs, Exchanged k as bs → M.app (M.swap p k) as = M.app p bs
  flat : ∀ xs ys zs, M.plural (xs ++ M.plural ys :: zs) = M.plural (xs ++ ys ++ zs)

end Model

/-! ### A model that obeys the laws -/

section Std
variable {A : Type}

def stdName (name : Str → List (Option (List A)) → Prop) (s : Str) (as : List (Option (List A)))
    (es : List (List A)) : Prop :=
  if s = ['='] then ∃ x, as = [some x, some x] else name s (as ++ es.map some)

def stdBind (q : Quant) (r : Option (List A → List (List A) → Prop)) (f : List A → List (List A) → Prop)
    (es : List (List A)) : Prop :=
  match q, r with
  | .lambda, none => match es with
    | [] => False
    | d :: ds => f d ds
  | .the, some r => ∃ x, (∀ y, r y [] ↔ y = x) ∧ f x es
  | .some, some r => ∃ x, r x [] ∧ f x es
  | .some, none => ∃ x, f x es
  | .none, some r => ¬ ∃ x, r x [] ∧ f x es
  | .none, none => ¬ ∃ x, f x es
  | _, some r => ∀ x, r x [] → f x es
  | _, none => ∀ x, f x es

theorem stdBind_eq (q : Quant) (r : List A → List (List A) → Prop) (f : List A → List (List A) → Prop) (e : List A)
    (hq : q = .the ∨ q = .all) (hr : ∀ x, r x [] ↔ x = e) : stdBind q (some r) f = f e := by
  funext es
  apply propext
  rcases hq with rfl | rfl <;> simp only [stdBind, hr]
  · constructor
    · rintro ⟨x, hx, hf⟩
      rw [← (hx x).2 rfl]; exact hf
    · intro h; exact ⟨e, fun _ => Iff.rfl, h⟩
  · constructor
    · intro h; exact h e rfl
    · rintro h x rfl; exact h

theorem stdName_eq (name : Str → List (Option (List A)) → Prop) (x y : List A) (es : List (List A)) :
    stdName name ['='] [some x, some y] es ↔ x = y := by
  simp only [stdName, if_true, List.cons.injEq, Option.some.injEq, and_true]
  constructor
  · rintro ⟨z, rfl, rfl⟩; rfl
  · rintro rfl; exact ⟨_, rfl, rfl⟩

def stdAbsP (b : List (List A) → Prop) (as : List (Option (List A))) (es : List (List A)) : Prop :=
  (∀ a ∈ as, a ≠ none) ∧ b (as.filterMap id ++ es)

theorem stdAbsP_some (b : List (List A) → Prop) (ds es : List (List A)) :
    stdAbsP b (ds.map some) es ↔ b (ds ++ es) := by
  have : (ds.map some).filterMap id = ds := by
    induction ds with
    | nil => rfl
    | cons d ds ih => simp
  simp [stdAbsP]

/-- Things are lists of atoms, statements are relations of any number of things, and true if they hold
of none. -/
def std (name : Str → List (Option (List A)) → Prop) (quote : Str → A) (absD : (List (List A) → Prop) → A) : Model where
  D := List A
  B := List (List A) → Prop
  P := List (Option (List A)) → List (List A) → Prop
  name := stdName name
  serial p q := fun as es => p as es ∧ q as es
  swap p k := fun as => p (swapArgs as k)
  absP := stdAbsP
  varP _ := fun _ _ => False
  app p as := p as
  quote t _ := [quote t]
  plural := List.flatten
  absD b := [absD b]
  conn c p q := match c with
    | .and => fun es => p es ∧ q es
    | .or => fun es => p es ∨ q es
    | .ri => fun es => ¬ (p es ↔ q es)
  bind := stdBind
  b0 := fun _ => False
  p0 := fun _ _ => False
  d0 := []

theorem std_lams (name quote absD) : ∀ (k : Nat) (f : List (List A) → List (List A) → Prop) (ds es : List (List A)),
    ds.length = k → (std name quote absD).lams k f (ds ++ es) = f ds es
  | 0, f, ds, es, h => by
    obtain rfl := List.length_eq_zero_iff.1 h
    rfl
  | k + 1, f, [], es, h => by cases h
  | k + 1, f, d :: ds, es, h =>
    std_lams name quote absD k (fun ds => f (d :: ds)) ds es (by simpa using h)

theorem exchanged_eq {as bs : List (Option (List A))} {k : Nat} (h : Model.Exchanged k as bs) : swapArgs as k = bs := by
  have h' := C41_swap as k
  apply ext_getD
  · rw [(h' 0).1, h.1]
  · intro i
    by_cases h0 : i = 0
    · subst h0; rw [(h' 0).2.1, h.2.1]
    · by_cases hk : i = k
      · subst hk; rw [(h' 0).2.2.1, h.2.2.1]
      · rw [(h' i).2.2.2 h0 hk, h.2.2.2 i h0 hk]

theorem std_beta (name quote absD) (f : List (List A) → List (List A) → Prop) (ds : List (List A)) :
    stdAbsP ((std name quote absD).lams ds.length f) (ds.map some) = f ds := by
  funext es
  exact (propext (stdAbsP_some _ ds es)).trans (std_lams name quote absD _ f ds es rfl)

theorem std_laws (name : Str → List (Option (List A)) → Prop) (quote absD) : (std name quote absD).Laws where
  eqL q e f hq := stdBind_eq q _ f e hq fun x => stdName_eq name x e []
  eqR q e f hq := stdBind_eq q _ f e hq fun x => (stdName_eq name e x []).trans eq_comm
  beta f ds _ := std_beta name quote absD f ds
  swap p k as bs h := congrArg p (exchanged_eq h)
  flat := by
    intro xs ys zs
    have : ∀ xs ys zs : List (List A), List.flatten (xs ++ ys.flatten :: zs) = List.flatten (xs ++ ys ++ zs) := by
      intros; simp
    exact this xs ys zs

end Std

/-! ## Trees that can be simplified -/

mutual
/-- Every variable that is not one of `X` is bound where it stands, and no binding hides a variable. The
number of a binding is its address. -/
def Fits (X : Nat → Prop) : Node → Prop
  | .bind _ id n _ r s => id = n ∧ ¬ X n ∧ FitsO (fun x => X x ∨ x = n) r ∧ Fits (fun x => X x ∨ x = n) s
  | .conn _ l r => Fits X l ∧ Fits X r
  | .app p as => Fits X p ∧ FitsL X as
  | .var v => X v.n
  | .plural as => FitsL X as
  | .quote _ _ => True
  | .name _ => True
  | .abs s => Fits X s
  | .serial l r => Fits X l ∧ Fits X r
  | .swap p _ => Fits X p
def FitsO (X : Nat → Prop) : Option Node → Prop
  | none => True
  | some n => Fits X n
def FitsL (X : Nat → Prop) : List (Option Node) → Prop
  | [] => True
  | a :: as => FitsO X a ∧ FitsL X as
end

/-- The variables of the leading λs. -/
def lamNums : Node → List Nat
  | .bind .lambda _ n _ none s => n :: lamNums s
  | _ => []

/-- Predicates without variables and abstractions. -/
def Bare : Node → Prop
  | .name _ => True
  | .serial l r => Bare l ∧ Bare r
  | _ => False

/-- Not simplified to an equation. -/
def Tame : Node → Prop
  | .bind _ _ _ _ _ s => Tame s
  | .app (.name p) _ => p ≠ ['=']
  | .app (.abs b) _ => Tame b
  | .app (.swap (.name p) _) _ => p ≠ ['=']
  | _ => True

/-- An equation of the variable `x` and something in which `x` does not occur. -/
def Own (x : Nat) (r : Node) : Prop :=
  ∃ v e, v.n = x ∧ ¬ mentions x e ∧
    (r = .app (.name ['=']) [some (.var v), some e] ∨ r = .app (.name ['=']) [some e, some (.var v)])

mutual
/-- A statement whose variables in the place of predicates are among `V`; a predication of an abstraction has
all its arguments and the variables of the abstraction are not among `V`; λ without restriction
is only in front of the statement of an abstraction (or of this statement, if `front`); an equation that
restricts a variable is about that variable. -/
def StmtOk (V : List Nat) : Bool → Node → Prop
  | front, .bind q _ n _ r s =>
    (q = .lambda → r = none → front = true) ∧ RestrOk V n r ∧
    StmtOk V (front && (q = .lambda && r.isNone)) s
  | _, .conn _ l r => StmtOk V false l ∧ StmtOk V false r
  | _, .app p as => HeadOk V p as ∧ ArgsOk V as
  | _, _ => False
def RestrOk (V : List Nat) : Nat → Option Node → Prop
  | _, none => True
  | x, some r => StmtOk V false r ∧ (Tame r ∨ Own x r)
/-- Predicates of predications. -/
def HeadOk (V : List Nat) : Node → List (Option Node) → Prop
  | .var v, _ => v.n ∈ V
  | .abs b, as => (∀ a ∈ as, a ≠ none) ∧ (∀ x ∈ lamNums b, x ∉ V) ∧ StmtOk V true b
  | .swap p _, _ => Bare p
  | .name _, _ => True
  | .serial l r, _ => PredOk V l ∧ PredOk V r
  | _, _ => False
/-- Parts of serial predicates. -/
def PredOk (V : List Nat) : Node → Prop
  | .name _ => True
  | .serial l r => PredOk V l ∧ PredOk V r
  | .swap p _ => Bare p
  | .abs s => StmtOk V true s
  | _ => False
def ArgOk (V : List Nat) : Node → Prop
  | .var _ => True
  | .plural as => ArgsOk V as
  | .quote _ _ => True
  | .abs s => StmtOk V true s
  | _ => False
def ArgsOk (V : List Nat) : List (Option Node) → Prop
  | [] => True
  | a :: as => ArgO V a ∧ ArgsOk V as
def ArgO (V : List Nat) : Option Node → Prop
  | none => True
  | some a => ArgOk V a
end

end Verif.Logic
