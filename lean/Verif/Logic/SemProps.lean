/-
C55: simplification preserves meaning.
-/
import Verif.Logic.Sem
import Verif.Logic.Meaning

namespace Verif.Logic
open Verif.Tone (Str)

/-! ## Numbers in trees -/

/-- Numbers of the bindings of a tree. -/
def BN (n : Node) : List Nat := bnums (pre n)
def BNO (n : Option Node) : List Nat := bnums (preO n)
def BNL (n : List (Option Node)) : List Nat := bnums (preL n)
/-- Numbers of the variables of a tree. -/
def VN (n : Node) : List Nat := nums (pre n)
def VNO (n : Option Node) : List Nat := nums (preO n)
def VNL (n : List (Option Node)) : List Nat := nums (preL n)

section
variable (q : Quant) (id n k : Nat) (f : Bool) (r : Option Node) (s l m : Node) (c : Conn) (as : List (Option Node)) (v : Var)
  (t : Str) (a : Option Node)

@[simp] theorem BN_bind : BN (.bind q id n f r s) = n :: (BNO r ++ BN s) := by simp [BN, BNO, pre, bnums]
@[simp] theorem BN_conn : BN (.conn c l m) = BN l ++ BN m := by simp [BN, pre, bnums]
@[simp] theorem BN_app : BN (.app l as) = BN l ++ BNL as := by simp [BN, BNL, pre, bnums]
@[simp] theorem BN_var : BN (.var v) = [] := by simp [BN, pre, bnums]
@[simp] theorem BN_plural : BN (.plural as) = BNL as := by simp [BN, BNL, pre, bnums]
@[simp] theorem BN_quote : BN (.quote t f) = [] := by simp [BN, pre, bnums]
@[simp] theorem BN_name : BN (.name t) = [] := by simp [BN, pre, bnums]
@[simp] theorem BN_abs : BN (.abs s) = BN s := by simp [BN, pre, bnums]
@[simp] theorem BN_serial : BN (.serial l m) = BN l ++ BN m := by simp [BN, pre, bnums]
@[simp] theorem BN_swap : BN (.swap l k) = BN l := by simp [BN, pre, bnums]
@[simp] theorem BNO_none : BNO none = [] := rfl
@[simp] theorem BNO_some : BNO (some s) = BN s := rfl
@[simp] theorem BNL_nil : BNL [] = [] := rfl
@[simp] theorem BNL_cons : BNL (a :: as) = BNO a ++ BNL as := by simp [BNL, BNO, preL, bnums]

@[simp] theorem VN_bind : VN (.bind q id n f r s) = VNO r ++ VN s := by simp [VN, VNO, pre, nums]
@[simp] theorem VN_conn : VN (.conn c l m) = VN l ++ VN m := by simp [VN, pre, nums]
@[simp] theorem VN_app : VN (.app l as) = VN l ++ VNL as := by simp [VN, VNL, pre, nums]
@[simp] theorem VN_var : VN (.var v) = [v.n] := by simp [VN, pre, nums]
@[simp] theorem VN_plural : VN (.plural as) = VNL as := by simp [VN, VNL, pre, nums]
@[simp] theorem VN_quote : VN (.quote t f) = [] := by simp [VN, pre, nums]
@[simp] theorem VN_name : VN (.name t) = [] := by simp [VN, pre, nums]
@[simp] theorem VN_abs : VN (.abs s) = VN s := by simp [VN, pre, nums]
@[simp] theorem VN_serial : VN (.serial l m) = VN l ++ VN m := by simp [VN, pre, nums]
@[simp] theorem VN_swap : VN (.swap l k) = VN l := by simp [VN, pre, nums]
@[simp] theorem VNO_none : VNO none = [] := rfl
@[simp] theorem VNO_some : VNO (some s) = VN s := rfl
@[simp] theorem VNL_nil : VNL [] = [] := rfl
@[simp] theorem VNL_cons : VNL (a :: as) = VNO a ++ VNL as := by simp [VNL, VNO, preL, nums]
end

theorem mem_BNL {b : Nat} : ∀ {as : List (Option Node)}, b ∈ BNL as ↔ ∃ x, some x ∈ as ∧ b ∈ BN x
  | [] => by simp
  | none :: as => by simp [mem_BNL (as := as)]
  | some a :: as => by simp [mem_BNL (as := as)]

theorem mem_VNL {b : Nat} : ∀ {as : List (Option Node)}, b ∈ VNL as ↔ ∃ x, some x ∈ as ∧ b ∈ VN x
  | [] => by simp
  | none :: as => by simp [mem_VNL (as := as)]
  | some a :: as => by simp [mem_VNL (as := as)]

theorem fitsO_iff {X : Nat → Prop} {r : Option Node} : FitsO X r ↔ ∀ x, r = some x → Fits X x := by
  cases r <;> simp [FitsO]

theorem fitsL_iff {X : Nat → Prop} : ∀ {as : List (Option Node)}, FitsL X as ↔ ∀ x, some x ∈ as → Fits X x
  | [] => by simp [FitsL]
  | none :: as => by simp [FitsL, FitsO, fitsL_iff (as := as)]
  | some a :: as => by simp [FitsL, FitsO, fitsL_iff (as := as)]

theorem mem_BNO {b : Nat} {r : Option Node} : b ∈ BNO r ↔ ∃ x, r = some x ∧ b ∈ BN x := by cases r <;> simp
theorem mem_VNO {b : Nat} {r : Option Node} : b ∈ VNO r ↔ ∃ x, r = some x ∧ b ∈ VN x := by cases r <;> simp

theorem fits_binders (n : Node) : ∀ {X : Nat → Prop}, Fits X n → ∀ b ∈ BN n, ¬ X b := by
  induction n using Node.induct with
  | bind q id m f r s ihr ihs =>
    intro X h b hb
    simp only [Fits, fitsO_iff] at h
    simp only [BN_bind, List.mem_cons, List.mem_append, mem_BNO] at hb
    rcases hb with rfl | ⟨x, rfl, hb⟩ | hb
    · exact h.2.1
    · exact fun hx => ihr x rfl (h.2.2.1 x rfl) b hb (.inl hx)
    · exact fun hx => ihs h.2.2.2 b hb (.inl hx)
  | conn c l r ihl ihr =>
    intro X h b hb
    simp only [Fits] at h
    simp only [BN_conn, List.mem_append] at hb
    rcases hb with hb | hb
    exacts [ihl h.1 b hb, ihr h.2 b hb]
  | app p as ihp iha =>
    intro X h b hb
    simp only [Fits, fitsL_iff] at h
    simp only [BN_app, List.mem_append, mem_BNL] at hb
    rcases hb with hb | ⟨x, hx, hb⟩
    exacts [ihp h.1 b hb, iha x hx (h.2 x hx) b hb]
  | var v => intro X h b hb; simp at hb
  | plural as iha =>
    intro X h b hb
    simp only [Fits, fitsL_iff] at h
    simp only [BN_plural, mem_BNL] at hb
    obtain ⟨x, hx, hb⟩ := hb
    exact iha x hx (h x hx) b hb
  | quote t f => intro X h b hb; simp at hb
  | name s => intro X h b hb; simp at hb
  | abs s ih => intro X h b hb; simp only [Fits] at h; simp only [BN_abs] at hb; exact ih h b hb
  | serial l r ihl ihr =>
    intro X h b hb
    simp only [Fits] at h
    simp only [BN_serial, List.mem_append] at hb
    rcases hb with hb | hb
    exacts [ihl h.1 b hb, ihr h.2 b hb]
  | swap p k ih => intro X h b hb; simp only [Fits] at h; simp only [BN_swap] at hb; exact ih h b hb

theorem fits_change (n : Node) : ∀ {X Y : Nat → Prop}, Fits X n → (∀ x ∈ VN n, X x → Y x) →
    (∀ b ∈ BN n, ¬ Y b) → Fits Y n := by
  induction n using Node.induct with
  | bind q id m f r s ihr ihs =>
    intro X Y h h1 h2
    simp only [Fits, fitsO_iff] at h ⊢
    simp only [BN_bind, List.mem_cons, List.mem_append, mem_BNO] at h2
    simp only [VN_bind, List.mem_append, mem_VNO] at h1
    refine ⟨h.1, h2 m (.inl rfl), ?_, ?_⟩
    · rintro x rfl
      refine ihr x rfl (h.2.2.1 x rfl) (fun y hy => Or.imp_left (h1 y (.inl ⟨x, rfl, hy⟩))) ?_
      rintro b hb (hy | rfl)
      · exact h2 b (.inr (.inl ⟨x, rfl, hb⟩)) hy
      · exact fits_binders x (h.2.2.1 x rfl) b hb (.inr rfl)
    · refine ihs h.2.2.2 (fun y hy => Or.imp_left (h1 y (.inr hy))) ?_
      rintro b hb (hy | rfl)
      · exact h2 b (.inr (.inr hb)) hy
      · exact fits_binders s h.2.2.2 b hb (.inr rfl)
  | conn c l r ihl ihr =>
    intro X Y h h1 h2
    simp only [Fits] at h ⊢
    simp only [BN_conn, VN_conn, List.mem_append] at h1 h2
    exact ⟨ihl h.1 (fun x hx => h1 x (.inl hx)) (fun x hx => h2 x (.inl hx)),
      ihr h.2 (fun x hx => h1 x (.inr hx)) (fun x hx => h2 x (.inr hx))⟩
  | app p as ihp iha =>
    intro X Y h h1 h2
    simp only [Fits, fitsL_iff] at h ⊢
    simp only [BN_app, VN_app, List.mem_append, mem_BNL, mem_VNL] at h1 h2
    exact ⟨ihp h.1 (fun x hx => h1 x (.inl hx)) (fun x hx => h2 x (.inl hx)),
      fun x hx => iha x hx (h.2 x hx) (fun y hy => h1 y (.inr ⟨x, hx, hy⟩)) (fun y hy => h2 y (.inr ⟨x, hx, hy⟩))⟩
  | var v => intro X Y h h1 h2; simp only [Fits] at h ⊢; exact h1 _ (by simp) h
  | plural as iha =>
    intro X Y h h1 h2
    simp only [Fits, fitsL_iff] at h ⊢
    simp only [BN_plural, VN_plural, mem_BNL, mem_VNL] at h1 h2
    exact fun x hx => iha x hx (h x hx) (fun y hy => h1 y ⟨x, hx, hy⟩) (fun y hy => h2 y ⟨x, hx, hy⟩)
  | quote t f => intros; simp [Fits]
  | name s => intros; simp [Fits]
  | abs s ih => intro X Y h h1 h2; simp only [Fits] at h ⊢; exact ih h (by simpa using h1) (by simpa using h2)
  | serial l r ihl ihr =>
    intro X Y h h1 h2
    simp only [Fits] at h ⊢
    simp only [BN_serial, VN_serial, List.mem_append] at h1 h2
    exact ⟨ihl h.1 (fun x hx => h1 x (.inl hx)) (fun x hx => h2 x (.inl hx)),
      ihr h.2 (fun x hx => h1 x (.inr hx)) (fun x hx => h2 x (.inr hx))⟩
  | swap p k ih => intro X Y h h1 h2; simp only [Fits] at h ⊢; exact ih h (by simpa using h1) (by simpa using h2)

theorem fits_iff {n : Node} {X Y : Nat → Prop} (h : ∀ x, X x ↔ Y x) : Fits X n → Fits Y n := by
  have : X = Y := funext fun x => propext (h x)
  rw [this]; exact fun h => h

/-! ## Values depend on free variables only -/

section
variable (M : Model)

theorem args_congr {ρ σ : Nat → M.D} : ∀ {as : List (Option Node)}, (∀ x, some x ∈ as → M.arg x ρ = M.arg x σ) →
    M.args as ρ = M.args as σ ∧ M.plur as ρ = M.plur as σ
  | [], _ => by simp [Model.args, Model.plur]
  | none :: as, h => by
    have := args_congr (as := as) fun x hx => h x (by simp [hx])
    simp [Model.args, Model.plur, Model.argO, this]
  | some a :: as, h => by
    have := args_congr (as := as) fun x hx => h x (by simp [hx])
    have h1 := h a (by simp)
    simp [Model.args, Model.plur, Model.argO, this, h1]

theorem den_congr (n : Node) : ∀ {X : Nat → Prop} {ρ σ : Nat → M.D}, Fits X n → (∀ x, X x → ρ x = σ x) →
    M.stmt n ρ = M.stmt n σ ∧ M.arg n ρ = M.arg n σ ∧ M.pred n ρ = M.pred n σ := by
  induction n using Node.induct with
  | bind q id m f r s ihr ihs =>
    intro X ρ σ h hρ
    simp only [Fits, fitsO_iff] at h
    have hup : ∀ d x, (X x ∨ x = m) → upd ρ m d x = upd σ m d x := by
      intro d x hx
      unfold upd
      split
      · rfl
      · next hne => exact hρ x (hx.resolve_right hne)
    refine ⟨?_, rfl, rfl⟩
    simp only [Model.stmt]
    have h1 : (fun d => M.stmt s (upd ρ m d)) = fun d => M.stmt s (upd σ m d) := by
      funext d; exact (ihs h.2.2.2 (hup d)).1
    rw [h1]
    cases r with
    | none => rfl
    | some r =>
      have h2 : (fun d => M.stmt r (upd ρ m d)) = fun d => M.stmt r (upd σ m d) := by
        funext d; exact (ihr r rfl (h.2.2.1 r rfl) (hup d)).1
      simp only [Model.restr, h2]
  | conn c l r ihl ihr =>
    intro X ρ σ h hρ
    simp only [Fits] at h
    exact ⟨by simp only [Model.stmt, (ihl h.1 hρ).1, (ihr h.2 hρ).1], rfl, rfl⟩
  | app p as ihp iha =>
    intro X ρ σ h hρ
    simp only [Fits, fitsL_iff] at h
    exact ⟨by simp only [Model.stmt, (ihp h.1 hρ).2.2,
      (args_congr M fun x hx => (iha x hx (h.2 x hx) hρ).2.1).1], rfl, rfl⟩
  | var v =>
    intro X ρ σ h hρ
    simp only [Fits] at h
    exact ⟨rfl, by simp only [Model.arg, hρ _ h], by simp only [Model.pred, hρ _ h]⟩
  | plural as iha =>
    intro X ρ σ h hρ
    simp only [Fits, fitsL_iff] at h
    exact ⟨rfl, by simp only [Model.arg, (args_congr M fun x hx => (iha x hx (h x hx) hρ).2.1).2], rfl⟩
  | quote t f => intros; exact ⟨rfl, rfl, rfl⟩
  | name s => intros; exact ⟨rfl, rfl, rfl⟩
  | abs s ih =>
    intro X ρ σ h hρ
    simp only [Fits] at h
    exact ⟨rfl, by simp only [Model.arg, (ih h hρ).1], by simp only [Model.pred, (ih h hρ).1]⟩
  | serial l r ihl ihr =>
    intro X ρ σ h hρ
    simp only [Fits] at h
    exact ⟨rfl, rfl, by simp only [Model.pred, (ihl h.1 hρ).2.2, (ihr h.2 hρ).2.2]⟩
  | swap p k ih =>
    intro X ρ σ h hρ
    simp only [Fits] at h
    exact ⟨rfl, rfl, by simp only [Model.pred, (ih h hρ).2.2]⟩

end

/-! ## Simplified trees stay as they are -/

def isPlural : Node → Bool
  | .plural _ => true
  | _ => false

mutual
/-- Nothing left to simplify. -/
def SetS (V : List Nat) : Node → Prop
  | .bind q _ _ _ r s => SetR V r ∧ (∀ st : SState, st.predVars = V → subOf st q r = none) ∧ SetS V s
  | .conn _ l r => SetS V l ∧ SetS V r
  | .app p as => SetH V p as ∧ SetL V as
  | _ => False
def SetR (V : List Nat) : Option Node → Prop
  | none => True
  | some r => SetS V r
def SetH (V : List Nat) : Node → List (Option Node) → Prop
  | .swap _ _, _ => False
  | .abs b, as => SetS V b ∧ (lambdas b = 0 ∨ (as.filter (·.isSome)).length ≠ lambdas b)
  | .serial l r, _ => SetP V l ∧ SetP V r
  | _, _ => True
def SetP (V : List Nat) : Node → Prop
  | .abs b => SetS V b
  | .serial l r => SetP V l ∧ SetP V r
  | .swap p _ => SetP V p
  | _ => True
def SetA (V : List Nat) : Node → Prop
  | .plural as => SetPl V as
  | .abs b => SetS V b
  | _ => True
def SetL (V : List Nat) : List (Option Node) → Prop
  | [] => True
  | none :: as => SetL V as
  | some a :: as => SetA V a ∧ SetL V as
def SetPl (V : List Nat) : List (Option Node) → Prop
  | [] => True
  | none :: _ => False
  | some a :: as => isPlural a = false ∧ SetA V a ∧ SetPl V as
end

/-- Simplification only adds to the records of restrictions and keeps the variables used as predicates. -/
def Grows (st st' : SState) : Prop := st'.predVars = st.predVars ∧ ∀ d ∈ st.defs, d ∈ st'.defs

theorem Grows.refl (st : SState) : Grows st st := ⟨rfl, fun _ h => h⟩
theorem Grows.trans {a b c : SState} (h : Grows a b) (h' : Grows b c) : Grows a c :=
  ⟨h'.1.trans h.1, fun d hd => h'.2 d (h.2 d hd)⟩

theorem simp_grows (k : Nat) :
    (∀ n st r st', simpS k n st = some (r, st') → Grows st st') ∧
    (∀ n st r st', simpR k n st = some (r, st') → Grows st st') ∧
    (∀ n st r st', simpArgs k n st = some (r, st') → Grows st st') ∧
    (∀ n st r st', simpA k n st = some (r, st') → Grows st st') ∧
    (∀ n st r st', simpPlural k n st = some (r, st') → Grows st st') ∧
    (∀ n st r st', simpP k n st = some (r, st') → Grows st st') := by
  induction k with
  | zero =>
    refine ⟨?_, ?_, ?_, ?_, ?_, ?_⟩ <;> intro n st r st' h
    · rw [simpS] at h; cases h
    · rw [simpR] at h; cases h
    · rw [simpArgs] at h; cases h
    · rw [simpA] at h; cases h
    · rw [simpPlural] at h; cases h
    · rw [simpP] at h; cases h
  | succ k ih =>
    obtain ⟨hS, hR, hL, hA, hPl, hP⟩ := ih
    refine ⟨?_, ?_, ?_, ?_, ?_, ?_⟩
    · intro n st res st' h
      cases n with
      | bind q id n f r s =>
        rw [simpS] at h
        split at h
        · cases h
        · next r' st1 h1 =>
          have g1 := hR _ _ _ _ h1
          have g2 : Grows st1 { st1 with defs := (id, r') :: st1.defs } := ⟨rfl, fun d hd => by simp [hd]⟩
          have g3 := g1.trans g2
          dsimp only at h
          split at h
          · exact g3.trans (⟨(hS _ _ _ _ h).1, (hS _ _ _ _ h).2⟩)
          · split at h
            · cases h
            · next h2 => cases h; exact g3.trans (hS _ _ _ _ h2)
      | conn c l r =>
        rw [simpS] at h
        split at h
        · cases h
        · next h1 =>
          split at h
          · cases h
          · next h2 => cases h; exact (hS _ _ _ _ h1).trans (hS _ _ _ _ h2)
      | app p as =>
        rw [simpS] at h
        split at h
        · cases h
        · next h1 =>
          refine (hL _ _ _ _ h1).trans ?_
          split at h
          · exact hS _ _ _ _ h
          · dsimp only at h
            split at h
            · split at h
              · cases h
              · next h2 => cases h; exact hP _ _ _ _ h2
            · exact ⟨(hS _ _ _ _ h).1, (hS _ _ _ _ h).2⟩
          · split at h
            · cases h
            · next h2 => cases h; exact hP _ _ _ _ h2
      | _ => rw [simpS] at h <;> first | (cases h; exact Grows.refl _) | simp
    · intro n st r st' h
      cases n with
      | none => rw [simpR] at h; cases h; exact Grows.refl _
      | some n =>
        rw [simpR] at h
        split at h
        · cases h
        · next h1 => cases h; exact hS _ _ _ _ h1
    · intro n st r st' h
      match n with
      | [] => rw [simpArgs] at h; cases h; exact Grows.refl _
      | none :: as =>
        rw [simpArgs] at h
        split at h
        · cases h
        · next h1 => cases h; exact hL _ _ _ _ h1
      | some a :: as =>
        rw [simpArgs] at h
        split at h
        · cases h
        · next h1 =>
          split at h
          · cases h
          · next h2 => cases h; exact (hA _ _ _ _ h1).trans (hL _ _ _ _ h2)
    · intro n st r st' h
      cases n with
      | var v =>
        rw [simpA] at h
        split at h <;> cases h <;> exact Grows.refl _
      | plural as =>
        rw [simpA] at h
        split at h
        · cases h
        · next h1 => cases h; exact hPl _ _ _ _ h1
      | abs s =>
        rw [simpA] at h
        split at h
        · cases h
        · next h1 => cases h; exact hS _ _ _ _ h1
      | _ => rw [simpA] at h <;> first | (cases h; exact Grows.refl _) | simp
    · intro n st r st' h
      match n with
      | [] => rw [simpPlural] at h; cases h; exact Grows.refl _
      | none :: as => rw [simpPlural] at h; exact hPl _ _ _ _ h
      | some a :: as =>
        rw [simpPlural] at h
        split at h
        · cases h
        · next h1 =>
          split at h
          · cases h
          · next h2 =>
            split at h <;> cases h <;> exact (hA _ _ _ _ h1).trans (hPl _ _ _ _ h2)
    · intro n st r st' h
      cases n with
      | abs s =>
        rw [simpP] at h
        split at h
        · cases h
        · next h1 => cases h; exact hS _ _ _ _ h1
      | serial l r =>
        rw [simpP] at h
        split at h
        · cases h
        · next h1 =>
          split at h
          · cases h
          · next h2 => cases h; exact (hP _ _ _ _ h1).trans (hP _ _ _ _ h2)
      | swap p pos =>
        rw [simpP] at h
        split at h
        · cases h
        · next h1 => cases h; exact hP _ _ _ _ h1
      | _ => rw [simpP] at h <;> first | (cases h; exact Grows.refl _) | simp

/-- A simplified tree none of whose variables is replaced is simplified to itself. -/
theorem simp_again (V : List Nat) (k : Nat) :
    (∀ n st r st', SetS V n → st.predVars = V → (∀ x ∈ VN n, st.sub.lookup x = none) → simpS k n st = some (r, st') →
      r = n ∧ st'.sub = st.sub) ∧
    (∀ n st r st', SetR V n → st.predVars = V → (∀ x ∈ VNO n, st.sub.lookup x = none) → simpR k n st = some (r, st') →
      r = n ∧ st'.sub = st.sub) ∧
    (∀ n st r st', SetL V n → st.predVars = V → (∀ x ∈ VNL n, st.sub.lookup x = none) → simpArgs k n st = some (r, st') →
      r = n ∧ st'.sub = st.sub) ∧
    (∀ n st r st', SetA V n → st.predVars = V → (∀ x ∈ VN n, st.sub.lookup x = none) → simpA k n st = some (r, st') →
      r = some n ∧ st'.sub = st.sub) ∧
    (∀ n st r st', SetPl V n → st.predVars = V → (∀ x ∈ VNL n, st.sub.lookup x = none) → simpPlural k n st = some (r, st') →
      r = n ∧ st'.sub = st.sub) ∧
    (∀ n st r st', SetP V n → st.predVars = V → (∀ x ∈ VN n, st.sub.lookup x = none) → simpP k n st = some (r, st') →
      r = n ∧ st'.sub = st.sub) := by
  induction k with
  | zero =>
    refine ⟨?_, ?_, ?_, ?_, ?_, ?_⟩ <;> intro n st r st' _ _ _ h
    · rw [simpS] at h; cases h
    · rw [simpR] at h; cases h
    · rw [simpArgs] at h; cases h
    · rw [simpA] at h; cases h
    · rw [simpPlural] at h; cases h
    · rw [simpP] at h; cases h
  | succ k ih =>
    obtain ⟨hS, hR, hL, hA, hPl, hP⟩ := ih
    obtain ⟨gS, gR, gL, gA, gPl, gP⟩ := simp_grows k
    refine ⟨?_, ?_, ?_, ?_, ?_, ?_⟩
    · intro n st res st' hn hv hl h
      cases n with
      | bind q id n f r s =>
        simp only [SetS] at hn
        simp only [VN_bind, List.mem_append] at hl
        rw [simpS] at h
        split at h
        · cases h
        · next r' st1 h1 =>
          obtain ⟨rfl, e1⟩ := hR _ _ _ _ hn.1 hv (fun x hx => hl x (.inl hx)) h1
          have g1 := gR _ _ _ _ h1
          dsimp only at h
          rw [hn.2.1 { st1 with defs := (id, r') :: st1.defs } (g1.1.trans hv)] at h
          dsimp only at h
          split at h
          · cases h
          · next h2 =>
            cases h
            obtain ⟨rfl, e2⟩ := hS _ { st1 with defs := (id, r') :: st1.defs } _ _ hn.2.2 (g1.1.trans hv)
              (fun x hx => by dsimp only; rw [e1]; exact hl x (.inr hx)) h2
            exact ⟨rfl, e2.trans e1⟩
      | conn c l r =>
        simp only [SetS] at hn
        simp only [VN_conn, List.mem_append] at hl
        rw [simpS] at h
        split at h
        · cases h
        · next h1 =>
          split at h
          · cases h
          · next h2 =>
            cases h
            obtain ⟨rfl, e1⟩ := hS _ _ _ _ hn.1 hv (fun x hx => hl x (.inl hx)) h1
            obtain ⟨rfl, e2⟩ := hS _ _ _ _ hn.2 ((gS _ _ _ _ h1).1.trans hv)
              (fun x hx => by rw [e1]; exact hl x (.inr hx)) h2
            exact ⟨rfl, e2.trans e1⟩
      | app p as =>
        simp only [SetS] at hn
        simp only [VN_app, List.mem_append] at hl
        rw [simpS] at h
        split at h
        · cases h
        · next as' st1 h1 =>
          obtain ⟨rfl, e1⟩ := hL _ _ _ _ hn.2 hv (fun x hx => hl x (.inr hx)) h1
          have g1 := gL _ _ _ _ h1
          cases p with
          | swap p pos => simp [SetH] at hn
          | abs b =>
            simp only [SetH] at hn
            dsimp only at h
            rw [if_pos hn.1.2] at h
            split at h
            · cases h
            · next h2 =>
              cases h
              obtain ⟨rfl, e2⟩ := hP _ _ _ _ (by simpa [SetP] using hn.1.1) (g1.1.trans hv)
                (fun x hx => by rw [e1]; exact hl x (.inl hx)) h2
              exact ⟨rfl, e2.trans e1⟩
          | serial l r =>
            simp only [SetH] at hn
            dsimp only at h
            split at h
            · cases h
            · next h2 =>
              cases h
              obtain ⟨rfl, e2⟩ := hP _ _ _ _ (by simpa [SetP] using hn.1) (g1.1.trans hv)
                (fun x hx => by rw [e1]; exact hl x (.inl hx)) h2
              exact ⟨rfl, e2.trans e1⟩
          | _ =>
            dsimp only at h
            split at h
            · cases h
            · next h2 =>
              cases h
              obtain ⟨rfl, e2⟩ := hP _ _ _ _ (by simp [SetP]) (g1.1.trans hv)
                (fun x hx => by rw [e1]; exact hl x (.inl hx)) h2
              exact ⟨rfl, e2.trans e1⟩
      | _ => simp [SetS] at hn
    · intro n st r st' hn hv hl h
      cases n with
      | none => rw [simpR] at h; cases h; exact ⟨rfl, rfl⟩
      | some n =>
        rw [simpR] at h
        split at h
        · cases h
        · next h1 =>
          cases h
          obtain ⟨rfl, e1⟩ := hS _ _ _ _ hn hv hl h1
          exact ⟨rfl, e1⟩
    · intro n st r st' hn hv hl h
      match n with
      | [] => rw [simpArgs] at h; cases h; exact ⟨rfl, rfl⟩
      | none :: as =>
        rw [simpArgs] at h
        split at h
        · cases h
        · next h1 =>
          cases h
          obtain ⟨rfl, e1⟩ := hL _ _ _ _ (by simpa [SetL] using hn) hv (by simpa using hl) h1
          exact ⟨rfl, e1⟩
      | some a :: as =>
        simp only [SetL] at hn
        simp only [VNL_cons, VNO_some, List.mem_append] at hl
        rw [simpArgs] at h
        split at h
        · cases h
        · next h1 =>
          split at h
          · cases h
          · next h2 =>
            cases h
            obtain ⟨rfl, e1⟩ := hA _ _ _ _ hn.1 hv (fun x hx => hl x (.inl hx)) h1
            obtain ⟨rfl, e2⟩ := hL _ _ _ _ hn.2 ((gA _ _ _ _ h1).1.trans hv)
              (fun x hx => by rw [e1]; exact hl x (.inr hx)) h2
            exact ⟨rfl, e2.trans e1⟩
    · intro n st r st' hn hv hl h
      cases n with
      | var v =>
        rw [simpA, hl v.n (by simp)] at h
        cases h; exact ⟨rfl, rfl⟩
      | plural as =>
        simp only [SetA] at hn
        rw [simpA] at h
        split at h
        · cases h
        · next h1 =>
          cases h
          obtain ⟨rfl, e1⟩ := hPl _ _ _ _ hn hv (by simpa using hl) h1
          exact ⟨rfl, e1⟩
      | abs s =>
        simp only [SetA] at hn
        rw [simpA] at h
        split at h
        · cases h
        · next h1 =>
          cases h
          obtain ⟨rfl, e1⟩ := hS _ _ _ _ hn hv (by simpa using hl) h1
          exact ⟨rfl, e1⟩
      | _ => rw [simpA] at h <;> first | (cases h; exact ⟨rfl, rfl⟩) | simp
    · intro n st r st' hn hv hl h
      match n with
      | [] => rw [simpPlural] at h; cases h; exact ⟨rfl, rfl⟩
      | none :: as => simp [SetPl] at hn
      | some a :: as =>
        simp only [SetPl] at hn
        simp only [VNL_cons, VNO_some, List.mem_append] at hl
        rw [simpPlural] at h
        split at h
        · cases h
        · next h1 =>
          obtain ⟨rfl, e1⟩ := hA _ _ _ _ hn.2.1 hv (fun x hx => hl x (.inl hx)) h1
          split at h
          · cases h
          · next h2 =>
            obtain ⟨rfl, e2⟩ := hPl _ _ _ _ hn.2.2 ((gA _ _ _ _ h1).1.trans hv)
              (fun x hx => by rw [e1]; exact hl x (.inr hx)) h2
            have := hn.1
            cases a <;> simp [isPlural] at this <;> cases h <;> exact ⟨rfl, e2.trans e1⟩
    · intro n st r st' hn hv hl h
      cases n with
      | abs s =>
        simp only [SetP] at hn
        rw [simpP] at h
        split at h
        · cases h
        · next h1 =>
          cases h
          obtain ⟨rfl, e1⟩ := hS _ _ _ _ hn hv (by simpa using hl) h1
          exact ⟨rfl, e1⟩
      | serial l r =>
        simp only [SetP] at hn
        simp only [VN_serial, List.mem_append] at hl
        rw [simpP] at h
        split at h
        · cases h
        · next h1 =>
          split at h
          · cases h
          · next h2 =>
            cases h
            obtain ⟨rfl, e1⟩ := hP _ _ _ _ hn.1 hv (fun x hx => hl x (.inl hx)) h1
            obtain ⟨rfl, e2⟩ := hP _ _ _ _ hn.2 ((gP _ _ _ _ h1).1.trans hv)
              (fun x hx => by rw [e1]; exact hl x (.inr hx)) h2
            exact ⟨rfl, e2.trans e1⟩
      | swap p pos =>
        simp only [SetP] at hn
        rw [simpP] at h
        split at h
        · cases h
        · next h1 =>
          cases h
          obtain ⟨rfl, e1⟩ := hP _ _ _ _ hn hv (by simpa using hl) h1
          exact ⟨rfl, e1⟩
      | _ => rw [simpP] at h <;> first | (cases h; exact ⟨rfl, rfl⟩) | simp

end Verif.Logic
