/-
C56: lemmas about logic trees and states of the interpreter.
-/
import Verif.Logic.Den
import Verif.Logic.InterpTerm
import Verif.Logic.Meaning
import Mathlib.Tactic.Tauto

namespace Verif.Logic.Den
open Verif.Tone (Str)

/-! ## Trees -/

mutual
/-- Variables point to bindings of their number, the bindings are in `B` and free variables in `X`. -/
def Tr (B X : Nat → Prop) : Node → Prop
  | .bind _ id n _ r s => id = n ∧ B n ∧ TrO B (fun x => X x ∨ x = n) r ∧ Tr B (fun x => X x ∨ x = n) s
  | .conn _ l r => Tr B X l ∧ Tr B X r
  | .app p as => Tr B X p ∧ TrL B X as
  | .var v => v.dfn = some v.n ∧ X v.n
  | .plural as => TrL B X as
  | .quote _ _ => True
  | .name _ => True
  | .abs s => Tr B X s
  | .serial l r => Tr B X l ∧ Tr B X r
  | .swap p _ => Tr B X p
def TrO (B X : Nat → Prop) : Option Node → Prop
  | none => True
  | some n => Tr B X n
def TrL (B X : Nat → Prop) : List (Option Node) → Prop
  | [] => True
  | a :: as => TrO B X a ∧ TrL B X as
end

mutual
/-- `x` occurs free. -/
def Fr (x : Nat) : Node → Prop
  | .bind _ _ n _ r s => x ≠ n ∧ (FrO x r ∨ Fr x s)
  | .conn _ l r => Fr x l ∨ Fr x r
  | .app p as => Fr x p ∨ FrL x as
  | .var v => v.n = x
  | .plural as => FrL x as
  | .quote _ _ => False
  | .name _ => False
  | .abs s => Fr x s
  | .serial l r => Fr x l ∨ Fr x r
  | .swap p _ => Fr x p
def FrO (x : Nat) : Option Node → Prop
  | none => False
  | some n => Fr x n
def FrL (x : Nat) : List (Option Node) → Prop
  | [] => False
  | a :: as => FrO x a ∨ FrL x as
end

theorem TrL_iff {B X : Nat → Prop} : ∀ {as : List (Option Node)}, TrL B X as ↔ ∀ x, some x ∈ as → Tr B X x
  | [] => by simp [TrL]
  | none :: as => by simp [TrL, TrO, TrL_iff (as := as)]
  | some a :: as => by simp [TrL, TrO, TrL_iff (as := as)]

theorem FrL_iff {x : Nat} : ∀ {as : List (Option Node)}, FrL x as ↔ ∃ a, some a ∈ as ∧ Fr x a
  | [] => by simp [FrL]
  | none :: as => by simp [FrL, FrO, FrL_iff (as := as)]
  | some a :: as => by simp [FrL, FrO, FrL_iff (as := as)]

theorem TrO_iff {B X : Nat → Prop} {r : Option Node} : TrO B X r ↔ ∀ x, r = some x → Tr B X x := by
  cases r <;> simp [TrO]

theorem FrO_iff {x : Nat} {r : Option Node} : FrO x r ↔ ∃ a, r = some a ∧ Fr x a := by
  cases r <;> simp [FrO]

theorem Tr.mono {n : Node} : ∀ {B B' X X' : Nat → Prop}, Tr B X n → (∀ x, B x → B' x) → (∀ x, X x → X' x) →
    Tr B' X' n := by
  induction n using Node.induct with
  | bind q id n f r s ihr ihs =>
    intro B B' X X' h hB hX
    obtain ⟨h1, h2, h3, h4⟩ := h
    have hX' : ∀ x, (X x ∨ x = n) → (X' x ∨ x = n) := fun x h => h.imp (hX x) fun h => h
    refine ⟨h1, hB _ h2, ?_, ihs h4 hB hX'⟩
    rw [TrO_iff] at h3 ⊢
    exact fun x hx => ihr x hx (h3 x hx) hB hX'
  | conn c l r ihl ihr => intro B B' X X' h hB hX; exact ⟨ihl h.1 hB hX, ihr h.2 hB hX⟩
  | app p as ihp ihas =>
    intro B B' X X' h hB hX
    refine ⟨ihp h.1 hB hX, ?_⟩
    have h2 := h.2
    rw [TrL_iff] at h2 ⊢
    exact fun x hx => ihas x hx (h2 x hx) hB hX
  | var v => intro B B' X X' h hB hX; exact ⟨h.1, hX _ h.2⟩
  | plural as ih =>
    intro B B' X X' h hB hX
    simp only [Tr] at h ⊢
    rw [TrL_iff] at h ⊢
    exact fun x hx => ih x hx (h x hx) hB hX
  | quote t f => intros; trivial
  | name s => intros; trivial
  | abs s ih => intro B B' X X' h hB hX; exact ih (B := B) (X := X) h hB hX
  | serial l r ihl ihr => intro B B' X X' h hB hX; exact ⟨ihl h.1 hB hX, ihr h.2 hB hX⟩
  | swap p k ih => intro B B' X X' h hB hX; exact ih (B := B) (X := X) h hB hX

theorem Tr.free {n : Node} : ∀ {B X : Nat → Prop} {x : Nat}, Tr B X n → Fr x n → X x := by
  induction n using Node.induct with
  | bind q id n f r s ihr ihs =>
    intro B X x h hf
    obtain ⟨h1, h2, h3, h4⟩ := h
    obtain ⟨hn, hf⟩ := hf
    rcases hf with hf | hf
    · rw [FrO_iff] at hf
      obtain ⟨a, ha, hf⟩ := hf
      exact (ihr a ha (TrO_iff.1 h3 a ha) hf).resolve_right hn
    · exact (ihs h4 hf).resolve_right hn
  | conn c l r ihl ihr => intro B X x h hf; exact hf.elim (ihl h.1) (ihr h.2)
  | app p as ihp ihas =>
    intro B X x h hf
    rcases hf with hf | hf
    · exact ihp h.1 hf
    · obtain ⟨a, ha, hf⟩ := FrL_iff.1 hf
      exact ihas a ha (TrL_iff.1 h.2 a ha) hf
  | var v => intro B X x h hf; exact hf ▸ h.2
  | plural as ih =>
    intro B X x h hf
    obtain ⟨a, ha, hf⟩ := FrL_iff.1 hf
    exact ih a ha (TrL_iff.1 h a ha) hf
  | quote t f => intro _ _ _ _ h; exact h.elim
  | name s => intro _ _ _ _ h; exact h.elim
  | abs s ih => intro B X x h hf; exact ih (B := B) h hf
  | serial l r ihl ihr => intro B X x h hf; exact hf.elim (ihl h.1) (ihr h.2)
  | swap p k ih => intro B X x h hf; exact ih (B := B) h hf

theorem Tr.restrict {n : Node} : ∀ {B X Y : Nat → Prop}, Tr B X n → (∀ x, Fr x n → Y x) → Tr B Y n := by
  induction n using Node.induct with
  | bind q id n f r s ihr ihs =>
    intro B X Y h hY
    obtain ⟨h1, h2, h3, h4⟩ := h
    have key : ∀ x, (FrO x r ∨ Fr x s) → (Y x ∨ x = n) := by
      intro x hx
      by_cases hn : x = n
      · exact .inr hn
      · exact .inl (hY x ⟨hn, hx⟩)
    refine ⟨h1, h2, ?_, ihs h4 fun x hx => key x (.inr hx)⟩
    rw [TrO_iff] at h3 ⊢
    exact fun a ha => ihr a ha (h3 a ha) fun x hx => key x (.inl (FrO_iff.2 ⟨a, ha, hx⟩))
  | conn c l r ihl ihr =>
    intro B X Y h hY; exact ⟨ihl h.1 fun x hx => hY x (.inl hx), ihr h.2 fun x hx => hY x (.inr hx)⟩
  | app p as ihp ihas =>
    intro B X Y h hY
    refine ⟨ihp h.1 fun x hx => hY x (.inl hx), ?_⟩
    have h2 := h.2
    rw [TrL_iff] at h2 ⊢
    exact fun a ha => ihas a ha (h2 a ha) fun x hx => hY x (.inr (FrL_iff.2 ⟨a, ha, hx⟩))
  | var v => intro B X Y h hY; exact ⟨h.1, hY _ rfl⟩
  | plural as ih =>
    intro B X Y h hY
    simp only [Tr] at h ⊢
    rw [TrL_iff] at h ⊢
    exact fun a ha => ih a ha (h a ha) fun x hx => hY x (FrL_iff.2 ⟨a, ha, hx⟩)
  | quote t f => intros; trivial
  | name s => intros; trivial
  | abs s ih => intro B X Y h hY; exact ih (B := B) (X := X) h hY
  | serial l r ihl ihr =>
    intro B X Y h hY; exact ⟨ihl h.1 fun x hx => hY x (.inl hx), ihr h.2 fun x hx => hY x (.inr hx)⟩
  | swap p k ih => intro B X Y h hY; exact ih (B := B) (X := X) h hY

/-- Values only depend on the free variables. -/
theorem val_congr {M : Model} (n : Node) : ∀ {B X : Nat → Prop} {ρ σ : Nat → M.D}, Tr B X n → (∀ x, X x → ρ x = σ x) →
    M.stmt n ρ = M.stmt n σ ∧ M.pred n ρ = M.pred n σ ∧ M.arg n ρ = M.arg n σ := by
  have hargs : ∀ {X : Nat → Prop} {ρ σ : Nat → M.D} (as : List (Option Node)),
      (∀ x, some x ∈ as → M.arg x ρ = M.arg x σ) → M.args as ρ = M.args as σ ∧ M.plur as ρ = M.plur as σ := by
    intro X ρ σ as
    induction as with
    | nil => intro _; exact ⟨rfl, rfl⟩
    | cons a as ih =>
      intro h
      have ih := ih fun x hx => h x (by simp [hx])
      cases a with
      | none => simp [Model.args, Model.plur, Model.argO, ih]
      | some a => simp [Model.args, Model.plur, Model.argO, ih, h a (by simp)]
  induction n using Node.induct with
  | bind q id n f r s ihr ihs =>
    intro B X ρ σ h hX
    obtain ⟨h1, h2, h3, h4⟩ := h
    have hX' : ∀ d x, (X x ∨ x = n) → upd ρ n d x = upd σ n d x := by
      intro d x hx
      unfold upd
      by_cases hn : x = n
      · simp [hn]
      · simp [hn, hX x (hx.resolve_right hn)]
    refine ⟨?_, rfl, rfl⟩
    have hs : (fun d => M.stmt s (upd ρ n d)) = fun d => M.stmt s (upd σ n d) :=
      funext fun d => (ihs h4 (hX' d)).1
    have hr : M.restr r n ρ = M.restr r n σ := by
      cases r with
      | none => rfl
      | some r =>
        simp only [Model.restr, Option.some.injEq]
        exact funext fun d => (ihr r rfl h3 (hX' d)).1
    simp only [Model.stmt, hs, hr]
  | conn c l r ihl ihr =>
    intro B X ρ σ h hX
    exact ⟨by simp only [Model.stmt, (ihl h.1 hX).1, (ihr h.2 hX).1], rfl, rfl⟩
  | app p as ihp ihas =>
    intro B X ρ σ h hX
    have h2 := TrL_iff.1 h.2
    refine ⟨?_, rfl, rfl⟩
    simp only [Model.stmt, (ihp h.1 hX).2.1, (hargs (X := X) as fun x hx => (ihas x hx (h2 x hx) hX).2.2).1]
  | var v =>
    intro B X ρ σ h hX
    simp only [Model.stmt, Model.pred, Model.arg, hX _ h.2]
    simp
  | plural as ih =>
    intro B X ρ σ h hX
    have h2 := TrL_iff.1 h
    refine ⟨rfl, rfl, ?_⟩
    simp only [Model.arg, (hargs (X := X) as fun x hx => (ih x hx (h2 x hx) hX).2.2).2]
  | quote t f => intros; exact ⟨rfl, rfl, rfl⟩
  | name s => intros; exact ⟨rfl, rfl, rfl⟩
  | abs s ih =>
    intro B X ρ σ h hX
    have := (ih (B := B) h hX).1
    exact ⟨rfl, by simp only [Model.pred, this], by simp only [Model.arg, this]⟩
  | serial l r ihl ihr =>
    intro B X ρ σ h hX
    exact ⟨rfl, by simp only [Model.pred, (ihl h.1 hX).2.1, (ihr h.2 hX).2.1], rfl⟩
  | swap p k ih =>
    intro B X ρ σ h hX
    have := (ih (B := B) h hX).2.1
    exact ⟨rfl, by simp only [Model.pred, this], rfl⟩

/-! ## hasFreeVars -/

/-- What the callback of `hasFreeVars` does with some nodes. -/
def FreeRun (s : St) (B X : Nat → Prop) (l : List Node) (F : Nat → Prop) : Prop :=
  ∀ a : Bool × List Nat, (∀ x, X x → x ∈ a.2 ∨ ¬ B x) →
    (((l.foldl (freeStep s) a).1 = true ↔ a.1 = true ∨ ∃ x, F x ∧ s.quant x ≠ .the ∧ x ∉ a.2) ∧
    (∀ x ∈ a.2, x ∈ (l.foldl (freeStep s) a).2) ∧ (∀ x ∈ (l.foldl (freeStep s) a).2, x ∈ a.2 ∨ B x))

theorem FreeRun.nil (s : St) (B X : Nat → Prop) (F : Nat → Prop) (hF : ∀ x, ¬ F x) : FreeRun s B X [] F := by
  intro a _
  simp [hF]
  tauto

theorem FreeRun.append {s : St} {B X : Nat → Prop} {l m : List Node} {F G H : Nat → Prop} (h : FreeRun s B X l F)
    (h' : FreeRun s B X m G) (hG : ∀ x, G x → X x) (hH : ∀ x, H x ↔ F x ∨ G x) : FreeRun s B X (l ++ m) H := by
  intro a ha
  obtain ⟨h1, h2, h3⟩ := h a ha
  obtain ⟨g1, g2, g3⟩ := h' (l.foldl (freeStep s) a) (fun x hx => (ha x hx).imp (h2 x) id)
  rw [List.foldl_append]
  refine ⟨?_, fun x hx => g2 x (h2 x hx), fun x hx => ?_⟩
  · rw [g1, h1]
    constructor
    · rintro ((h | ⟨x, hx, hq, hn⟩) | ⟨x, hx, hq, hn⟩)
      · exact .inl h
      · exact .inr ⟨x, (hH x).2 (.inl hx), hq, hn⟩
      · exact .inr ⟨x, (hH x).2 (.inr hx), hq, fun h => hn (h2 x h)⟩
    · rintro (h | ⟨x, hx, hq, hn⟩)
      · exact .inl (.inl h)
      · rcases (hH x).1 hx with hx | hx
        · exact .inl (.inr ⟨x, hx, hq, hn⟩)
        · refine .inr ⟨x, hx, hq, fun h => ?_⟩
          rcases h3 x h with h | h
          · exact hn h
          · exact ((ha x (hG x hx)).resolve_left hn) h
  · rcases g3 x hx with hx | hx
    · exact h3 x hx
    · exact .inr hx

theorem FreeRun.skip {s : St} {B X : Nat → Prop} {l : List Node} {F : Nat → Prop} {n : Node}
    (hn : ∀ a, freeStep s a n = a) (h : FreeRun s B X l F) : FreeRun s B X (n :: l) F := by
  intro a ha
  rw [List.foldl_cons, hn]
  exact h a ha

theorem free_run {s : St} (hc : s.cleared = []) (n : Node) : ∀ {B X : Nat → Prop}, Tr B X n →
    FreeRun s B X (pre n) (fun x => Fr x n) := by
  have list : ∀ {B X : Nat → Prop} (as : List (Option Node)),
      (∀ x, some x ∈ as → ∀ {B X : Nat → Prop}, Tr B X x → FreeRun s B X (pre x) (fun y => Fr y x)) → TrL B X as →
      FreeRun s B X (preL as) (fun x => FrL x as) := by
    intro B X as
    induction as with
    | nil => intro _ _; exact .nil _ _ _ _ (by simp [FrL])
    | cons a as ih =>
      intro h ht
      have ih := ih (fun x hx => h x (by simp [hx])) ht.2
      cases a with
      | none => exact fun b hb => by simpa [preL, preO, FrL, FrO] using ih b hb
      | some a =>
        refine (h a (by simp) (B := B) (X := X) ht.1).append ih ?_ fun x => Iff.rfl
        intro x hx
        obtain ⟨a', ha', hx⟩ := FrL_iff.1 hx
        exact (TrL_iff.1 ht.2 a' ha').free hx
  induction n using Node.induct with
  | bind q id n f r s' ihr ihs =>
    intro B X h a ha
    obtain ⟨rfl, h2, h3, h4⟩ := h
    have hr : FreeRun s B (fun x => X x ∨ x = id) (preO r) (fun x => FrO x r) := by
      cases r with
      | none => exact .nil _ _ _ _ (by simp [FrO])
      | some r => exact ihr r rfl h3
    have := hr.append (ihs h4) (fun x hx => h4.free hx) (H := fun x => FrO x r ∨ Fr x s') fun x => Iff.rfl
    obtain ⟨g1, g2, g3⟩ := this (a.1, id :: a.2) (by
      rintro x (hx | rfl)
      · exact (ha x hx).imp (fun h => by simp [h]) fun h => h
      · exact .inl (by simp))
    have he : List.foldl (freeStep s) a (pre (.bind q id id f r s')) =
        List.foldl (freeStep s) (a.1, id :: a.2) (preO r ++ pre s') := rfl
    rw [he]
    refine ⟨?_, fun x hx => g2 x (by simp [hx]), fun x hx => ?_⟩
    · rw [g1]
      constructor
      · rintro (h | ⟨x, hx, hq, hn⟩)
        · exact .inl h
        · simp only [List.mem_cons, not_or] at hn
          exact .inr ⟨x, ⟨hn.1, hx⟩, hq, hn.2⟩
      · rintro (h | ⟨x, hx, hq, hn⟩)
        · exact .inl h
        · exact .inr ⟨x, hx.2, hq, by simp [hn, hx.1]⟩
    · rcases g3 x hx with hx | hx
      · rcases List.mem_cons.1 hx with rfl | hx
        · exact .inr h2
        · exact .inl hx
      · exact .inr hx
  | conn c l r ihl ihr =>
    intro B X h
    exact .skip (fun _ => rfl) ((ihl h.1).append (ihr h.2) (fun x hx => h.2.free hx) fun x => Iff.rfl)
  | app p as ihp ihas =>
    intro B X h
    refine .skip (fun _ => rfl) ((ihp h.1).append (list as ihas h.2) (fun x hx => ?_) fun x => Iff.rfl)
    obtain ⟨a', ha', hx⟩ := FrL_iff.1 hx
    exact (TrL_iff.1 h.2 a' ha').free hx
  | var v =>
    intro B X h a ha
    have hr : s.read v = v := by simp [St.read, hc]
    simp only [pre, List.foldl_cons, List.foldl_nil, freeStep, hr, h.1, Fr]
    by_cases hq : s.quant v.n ≠ .the ∧ ¬ a.2.contains v.n
    · rw [if_pos hq]
      refine ⟨?_, fun x hx => hx, fun x hx => .inl hx⟩
      simp only [true_iff]
      exact .inr ⟨v.n, rfl, hq.1, by simpa using hq.2⟩
    · rw [if_neg hq]
      refine ⟨?_, fun x hx => hx, fun x hx => .inl hx⟩
      constructor
      · exact .inl
      · rintro (h | ⟨x, rfl, hq', hn⟩)
        · exact h
        · exact absurd ⟨hq', by simpa using hn⟩ hq
  | plural as ih => intro B X h; exact .skip (fun _ => rfl) (list as ih h)
  | quote t f => intro B X h; exact .skip (fun _ => rfl) (.nil _ _ _ _ (by simp [Fr]))
  | name x => intro B X h; exact .skip (fun _ => rfl) (.nil _ _ _ _ (by simp [Fr]))
  | abs s' ih => intro B X h; exact .skip (fun _ => rfl) (ih (B := B) (X := X) h)
  | serial l r ihl ihr =>
    intro B X h
    exact .skip (fun _ => rfl) ((ihl h.1).append (ihr h.2) (fun x hx => h.2.free hx) fun x => Iff.rfl)
  | swap p k ih => intro B X h; exact .skip (fun _ => rfl) (ih (B := B) (X := X) h)

theorem hasFree_iff {s : St} (hc : s.cleared = []) {n : Node} {B X : Nat → Prop} (h : Tr B X n)
    (hB : ∀ x, X x → ¬ B x) : hasFreeVars s n = true ↔ ∃ x, Fr x n ∧ s.quant x ≠ .the := by
  have := (free_run hc n h (false, []) fun x hx => .inr (hB x hx)).1
  rw [hasFreeVars, visit_eq, this]
  simp

theorem hasFreeB_iff {s : St} (hc : s.cleared = []) {n : Node} {B X : Nat → Prop} {b : Nat}
    (h : Tr B (fun x => X x ∨ x = b) n) (hB : ∀ x, X x → ¬ B x) :
    hasFreeVarsB s b (some n) = true ↔ ∃ x, Fr x n ∧ s.quant x ≠ .the ∧ x ≠ b := by
  have := (free_run hc n h (false, [b]) (by
    rintro x (hx | rfl)
    · exact .inr (hB x hx)
    · exact .inl (by simp))).1
  rw [hasFreeVarsB, visitO_eq]
  rw [show preO (some n) = pre n from rfl, this]
  simp

end Verif.Logic.Den
