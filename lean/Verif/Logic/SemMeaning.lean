/-
C55: simplification preserves meaning: the theorems.
-/
import Verif.Logic.SemSimp
import Verif.Logic.MeaningProps

namespace Verif.Logic
open Verif.Tone (Str)

/-! ## Numbering -/

theorem den_renum (M : Model) {bN : Nat → Nat} {vN : VAddr → Nat} (n : Node) : ∀ {X : Nat → Prop} {ρ σ : Nat → M.D}, Fits X n →
    (∀ v, Node.var v ∈ pre n → vN v.addr = bN v.n) → (∀ x, X x → σ (bN x) = ρ x) →
    (∀ x y, (X x ∨ x ∈ BN n) → (X y ∨ y ∈ BN n) → bN x = bN y → x = y) →
    M.stmt (renum bN vN n) σ = M.stmt n ρ ∧ M.arg (renum bN vN n) σ = M.arg n ρ ∧
    M.pred (renum bN vN n) σ = M.pred n ρ := by
  have args : ∀ (as : List (Option Node)) (σ ρ : Nat → M.D),
      (∀ x, some x ∈ as → M.arg (renum bN vN x) σ = M.arg x ρ) →
      M.args (renumL bN vN as) σ = M.args as ρ ∧ M.plur (renumL bN vN as) σ = M.plur as ρ := by
    intro as σ ρ h
    induction as with
    | nil => simp only [renumL, Model.args, Model.plur, and_self]
    | cons a as ih =>
      have ih := ih fun x hx => h x (by simp [hx])
      cases a with
      | none => simp only [renumL, renumO, Model.args, Model.plur, Model.argO, ih, and_self]
      | some a =>
        have := h a (by simp)
        simp only [renumL, renumO, Model.args, Model.plur, Model.argO, ih, this, and_self]
  induction n using Node.induct with
  | bind q id m f r s ihr ihs =>
    intro X ρ σ h hv hσ hinj
    simp only [Fits, fitsO_iff] at h
    obtain ⟨rfl, hX, hr, hs⟩ := h
    have hup : ∀ d x, (X x ∨ x = id) → upd σ (bN id) d (bN x) = upd ρ id d x := by
      intro d x hx
      unfold upd
      by_cases he : x = id
      · simp [he]
      · have hx' := hx.resolve_right he
        have : bN x ≠ bN id := fun h => he (hinj x id (.inl hx') (.inr (by simp)) h)
        simp [he, this, hσ x hx']
    refine ⟨?_, rfl, rfl⟩
    simp only [renum, Model.stmt]
    have h1 : (fun d => M.stmt (renum bN vN s) (upd σ (bN id) d)) = fun d => M.stmt s (upd ρ id d) := by
      funext d
      refine (ihs hs (fun v hx => hv v (by simp [pre, hx])) (hup d) ?_).1
      intro x y hx hy
      exact hinj x y (by simp only [BN_bind, List.mem_cons, List.mem_append]; tauto)
        (by simp only [BN_bind, List.mem_cons, List.mem_append]; tauto)
    rw [h1]
    cases r with
    | none => rfl
    | some r =>
      have h2 : (fun d => M.stmt (renum bN vN r) (upd σ (bN id) d)) = fun d => M.stmt r (upd ρ id d) := by
        funext d
        refine (ihr r rfl (hr r rfl) (fun v hx => hv v (by simp [pre, preO, hx])) (hup d) ?_).1
        intro x y hx hy
        exact hinj x y (by simp only [BN_bind, BNO_some, List.mem_cons, List.mem_append]; tauto)
          (by simp only [BN_bind, BNO_some, List.mem_cons, List.mem_append]; tauto)
      simp only [renumO, Model.restr, h2]
  | conn c l r ihl ihr =>
    intro X ρ σ h hv hσ hinj
    simp only [Fits] at h
    have h1 := (ihl h.1 (fun v hx => hv v (by simp [pre, hx])) hσ fun x y hx hy =>
      hinj x y (by simp only [BN_conn, List.mem_append]; tauto) (by simp only [BN_conn, List.mem_append]; tauto)).1
    have h2 := (ihr h.2 (fun v hx => hv v (by simp [pre, hx])) hσ fun x y hx hy =>
      hinj x y (by simp only [BN_conn, List.mem_append]; tauto) (by simp only [BN_conn, List.mem_append]; tauto)).1
    exact ⟨by simp only [renum, Model.stmt, h1, h2], rfl, rfl⟩
  | app p as ihp iha =>
    intro X ρ σ h hv hσ hinj
    simp only [Fits, fitsL_iff] at h
    have h1 := (ihp h.1 (fun v hx => hv v (by simp [pre, hx])) hσ fun x y hx hy =>
      hinj x y (by simp only [BN_app, List.mem_append]; tauto) (by simp only [BN_app, List.mem_append]; tauto)).2.2
    have h2 := args as σ ρ fun a ha => (iha a ha (h.2 a ha)
      (fun v hx => hv v (by simp only [pre, List.mem_cons, List.mem_append, preL_eq, List.mem_flatMap, List.mem_filterMap]; exact .inr (.inr ⟨a, ⟨some a, ha, rfl⟩, hx⟩))) hσ fun x y hx hy =>
      hinj x y (by simp only [BN_app, List.mem_append, mem_BNL]; exact hx.imp_right fun h => .inr ⟨a, ha, h⟩)
        (by simp only [BN_app, List.mem_append, mem_BNL]; exact hy.imp_right fun h => .inr ⟨a, ha, h⟩)).2.1
    exact ⟨by simp only [renum, Model.stmt, h1, h2.1], rfl, rfl⟩
  | var v =>
    intro X ρ σ h hv hσ hinj
    simp only [Fits] at h
    have hv := hv v (by simp [pre])
    exact ⟨rfl, by simp only [renum, Model.arg, hv, hσ _ h], by simp only [renum, Model.pred, hv, hσ _ h]⟩
  | plural as iha =>
    intro X ρ σ h hv hσ hinj
    simp only [Fits, fitsL_iff] at h
    have h2 := args as σ ρ fun a ha => (iha a ha (h a ha)
      (fun v hx => hv v (by simp only [pre, List.mem_cons, preL_eq, List.mem_flatMap, List.mem_filterMap]; exact .inr ⟨a, ⟨some a, ha, rfl⟩, hx⟩)) hσ fun x y hx hy =>
      hinj x y (by simp only [BN_plural, mem_BNL]; exact hx.imp_right fun h => ⟨a, ha, h⟩)
        (by simp only [BN_plural, mem_BNL]; exact hy.imp_right fun h => ⟨a, ha, h⟩)).2.1
    exact ⟨rfl, by simp only [renum, Model.arg, h2.2], rfl⟩
  | quote t f => intros; exact ⟨rfl, rfl, rfl⟩
  | name s => intros; exact ⟨rfl, rfl, rfl⟩
  | abs s ih =>
    intro X ρ σ h hv hσ hinj
    simp only [Fits] at h
    have h1 := (ih h (fun v hx => hv v (by simp [pre, hx])) hσ (by simpa using hinj)).1
    exact ⟨rfl, by simp only [renum, Model.arg, h1], by simp only [renum, Model.pred, h1]⟩
  | serial l r ihl ihr =>
    intro X ρ σ h hv hσ hinj
    simp only [Fits] at h
    have h1 := (ihl h.1 (fun v hx => hv v (by simp [pre, hx])) hσ fun x y hx hy =>
      hinj x y (by simp only [BN_serial, List.mem_append]; tauto) (by simp only [BN_serial, List.mem_append]; tauto)).2.2
    have h2 := (ihr h.2 (fun v hx => hv v (by simp [pre, hx])) hσ fun x y hx hy =>
      hinj x y (by simp only [BN_serial, List.mem_append]; tauto) (by simp only [BN_serial, List.mem_append]; tauto)).2.2
    exact ⟨rfl, rfl, by simp only [renum, Model.pred, h1, h2]⟩
  | swap p k ih =>
    intro X ρ σ h hv hσ hinj
    simp only [Fits] at h
    have h1 := (ih h (fun v hx => hv v (by simp [pre, hx])) hσ (by simpa using hinj)).2.2
    exact ⟨rfl, rfl, by simp only [renum, Model.pred, h1]⟩

/-! ## Variables of the result are variables of the source -/

/-- All variables of a tree satisfy `W`. -/
def AV (W : Var → Prop) (n : Node) : Prop := ∀ v, Node.var v ∈ pre n → W v
def AVO (W : Var → Prop) (n : Option Node) : Prop := ∀ x, n = some x → AV W x
def AVL (W : Var → Prop) (as : List (Option Node)) : Prop := ∀ x, some x ∈ as → AV W x
def AVS (W : Var → Prop) (st : SState) : Prop := ∀ x a, (x, a) ∈ st.sub → AVO W a

variable {W : Var → Prop}

theorem AV_bind {q id n f r s} : AV W (.bind q id n f r s) ↔ AVO W r ∧ AV W s := by
  constructor
  · intro h
    exact ⟨by rintro x rfl v hv; exact h v (by simp [pre, preO, hv]), fun v hv => h v (by simp [pre, hv])⟩
  · rintro ⟨h1, h2⟩ v hv
    simp only [pre, List.mem_cons, reduceCtorEq, false_or, List.mem_append] at hv
    rcases hv with hv | hv
    · cases r with
      | none => simp [preO] at hv
      | some r => exact h1 r rfl v hv
    · exact h2 v hv

theorem AV_conn {c l r} : AV W (.conn c l r) ↔ AV W l ∧ AV W r := by
  simp only [AV, pre, List.mem_cons, reduceCtorEq, false_or, List.mem_append]
  exact ⟨fun h => ⟨fun v hv => h v (.inl hv), fun v hv => h v (.inr hv)⟩, fun h v hv => hv.elim (h.1 v) (h.2 v)⟩

theorem AV_serial {l r} : AV W (.serial l r) ↔ AV W l ∧ AV W r := by
  simp only [AV, pre, List.mem_cons, reduceCtorEq, false_or, List.mem_append]
  exact ⟨fun h => ⟨fun v hv => h v (.inl hv), fun v hv => h v (.inr hv)⟩, fun h v hv => hv.elim (h.1 v) (h.2 v)⟩

theorem AV_preL {as : List (Option Node)} : (∀ v, Node.var v ∈ preL as → W v) ↔ AVL W as := by
  simp only [preL_eq, List.mem_flatMap, List.mem_filterMap, id]
  exact ⟨fun h x hx v hv => h v ⟨x, ⟨_, hx, rfl⟩, hv⟩, fun h v ⟨x, ⟨y, hy, hx⟩, hv⟩ => h x (hx ▸ hy) v hv⟩

theorem AV_app {p as} : AV W (.app p as) ↔ AV W p ∧ AVL W as := by
  rw [← AV_preL]
  simp only [AV, pre, List.mem_cons, reduceCtorEq, false_or, List.mem_append]
  exact ⟨fun h => ⟨fun v hv => h v (.inl hv), fun v hv => h v (.inr hv)⟩, fun h v hv => hv.elim (h.1 v) (h.2 v)⟩

theorem AV_plural {as} : AV W (.plural as) ↔ AVL W as := by
  rw [← AV_preL]; simp [AV, pre]

theorem AV_abs {s} : AV W (.abs s) ↔ AV W s := by simp [AV, pre]
theorem AV_swap {p k} : AV W (.swap p k) ↔ AV W p := by simp [AV, pre]

theorem AVL_cons {a as} : AVL W (a :: as) ↔ AVO W a ∧ AVL W as := by
  constructor
  · intro h; exact ⟨fun x hx => h x (by simp [hx]), fun x hx => h x (by simp [hx])⟩
  · rintro ⟨h1, h2⟩ x hx
    rcases List.mem_cons.1 hx with hx | hx
    · exact h1 x hx.symm
    · exact h2 x hx

theorem mem_lookup_sub {x : Nat} {a : Option Node} : ∀ {l : List (Nat × Option Node)}, l.lookup x = some a → (x, a) ∈ l
  | [], h => by cases h
  | (y, b) :: l, h => by
    by_cases hxy : x = y
    · subst hxy; simp at h; simp [h]
    · rw [Sem.lookup_cons_ne hxy] at h
      exact List.mem_cons_of_mem _ (mem_lookup_sub h)

theorem AV_lambdaBind (k : Nat) : ∀ {b : Node} {as : List (Option Node)} {sub : List (Nat × Option Node)}, AV W b → AVL W as →
    (∀ x a, (x, a) ∈ sub → AVO W a) → AV W (lambdaBind k b as sub).1 ∧
    ∀ x a, (x, a) ∈ (lambdaBind k b as sub).2 → AVO W a := by
  induction k with
  | zero => intro b as sub h1 h2 h3; simp only [lambdaBind]; exact ⟨h1, h3⟩
  | succ k ih =>
    intro b as sub h1 h2 h3
    cases b with
    | bind q id n f r s =>
      cases as with
      | nil => simp only [lambdaBind]; exact ⟨h1, h3⟩
      | cons a as =>
        rw [AVL_cons] at h2
        simp only [lambdaBind]
        refine ih (AV_bind.1 h1).2 h2.2 ?_
        intro x c hc
        rcases List.mem_cons.1 hc with hc | hc
        · cases hc; exact h2.1
        · exact h3 x c hc
    | _ => rw [lambdaBind] <;> first | exact ⟨h1, h3⟩ | simp

theorem simp_vars (k : Nat) :
    (∀ n st r st', AV W n → AVS W st → simpS k n st = some (r, st') → AV W r ∧ AVS W st') ∧
    (∀ n st r st', AVO W n → AVS W st → simpR k n st = some (r, st') → AVO W r ∧ AVS W st') ∧
    (∀ n st r st', AVL W n → AVS W st → simpArgs k n st = some (r, st') → AVL W r ∧ AVS W st') ∧
    (∀ n st r st', AV W n → AVS W st → simpA k n st = some (r, st') → AVO W r ∧ AVS W st') ∧
    (∀ n st r st', AVL W n → AVS W st → simpPlural k n st = some (r, st') → AVL W r ∧ AVS W st') ∧
    (∀ n st r st', AV W n → AVS W st → simpP k n st = some (r, st') → AV W r ∧ AVS W st') := by
  induction k with
  | zero =>
    refine ⟨?_, ?_, ?_, ?_, ?_, ?_⟩ <;> intro n st r st' _ _ h
    · rw [simpS] at h; cases h
    · rw [simpR] at h; cases h
    · rw [simpArgs] at h; cases h
    · rw [simpA] at h; cases h
    · rw [simpPlural] at h; cases h
    · rw [simpP] at h; cases h
  | succ k ih =>
    obtain ⟨hS, hR, hL, hA, hPl, hP⟩ := ih
    refine ⟨?_, ?_, ?_, ?_, ?_, ?_⟩
    · intro n st res st' hn hst h
      cases n with
      | bind q id n f r s =>
        rw [AV_bind] at hn
        rw [simpS] at h
        split at h
        · cases h
        · next r' st1 h1 =>
          have g1 := hR _ _ _ _ hn.1 hst h1
          dsimp only at h
          split at h
          · next e he =>
            refine hS _ _ _ _ hn.2 ?_ h
            intro x a hxa
            rcases List.mem_cons.1 hxa with hxa | hxa
            · cases hxa
              obtain ⟨-, -, -, v, -, hf⟩ := Sem.subOf_form (x := e.1) (e := e.2) he
              rintro y ⟨⟩
              rcases hf with rfl | rfl
              · exact (AV_app.1 (g1.1 _ rfl)).2 _ (by simp)
              · exact (AV_app.1 (g1.1 _ rfl)).2 _ (by simp)
            · exact g1.2 x a hxa
          · split at h
            · cases h
            · next h2 =>
              cases h
              have g2 := hS _ { st1 with defs := (id, r') :: st1.defs } _ _ hn.2 g1.2 h2
              exact ⟨AV_bind.2 ⟨g1.1, g2.1⟩, g2.2⟩
      | conn c l r =>
        rw [AV_conn] at hn
        rw [simpS] at h
        split at h
        · cases h
        · next h1 =>
          have g1 := hS _ _ _ _ hn.1 hst h1
          split at h
          · cases h
          · next h2 =>
            cases h
            have g2 := hS _ _ _ _ hn.2 g1.2 h2
            exact ⟨AV_conn.2 ⟨g1.1, g2.1⟩, g2.2⟩
      | app p as =>
        rw [AV_app] at hn
        rw [simpS] at h
        split at h
        · cases h
        · next h1 =>
          have g1 := hL _ _ _ _ hn.2 hst h1
          split at h
          · refine hS _ _ _ _ (AV_app.2 ⟨AV_swap.1 hn.1, fun x hx => g1.1 x (Sem.mem_swapArgs hx)⟩) g1.2 h
          · dsimp only at h
            split at h
            · split at h
              · cases h
              · next h2 =>
                cases h
                have g2 := hP _ _ _ _ hn.1 g1.2 h2
                exact ⟨AV_app.2 ⟨g2.1, g1.1⟩, g2.2⟩
            · next b _ =>
              have g2 := AV_lambdaBind (W := W) (lambdas b) (AV_abs.1 hn.1) g1.1 g1.2
              refine hS _ _ _ _ g2.1 ?_ h
              exact g2.2
          · split at h
            · cases h
            · next h2 =>
              cases h
              have g2 := hP _ _ _ _ hn.1 g1.2 h2
              exact ⟨AV_app.2 ⟨g2.1, g1.1⟩, g2.2⟩
      | _ => rw [simpS] at h <;> first | (cases h; exact ⟨hn, hst⟩) | simp
    · intro n st r st' hn hst h
      cases n with
      | none => rw [simpR] at h; cases h; exact ⟨hn, hst⟩
      | some n =>
        rw [simpR] at h
        split at h
        · cases h
        · next h1 =>
          cases h
          have g1 := hS _ _ _ _ (hn n rfl) hst h1
          exact ⟨by rintro x ⟨⟩; exact g1.1, g1.2⟩
    · intro n st r st' hn hst h
      match n with
      | [] => rw [simpArgs] at h; cases h; exact ⟨hn, hst⟩
      | none :: as =>
        rw [AVL_cons] at hn
        rw [simpArgs] at h
        split at h
        · cases h
        · next h1 =>
          cases h
          have g1 := hL _ _ _ _ hn.2 hst h1
          exact ⟨AVL_cons.2 ⟨hn.1, g1.1⟩, g1.2⟩
      | some a :: as =>
        rw [AVL_cons] at hn
        rw [simpArgs] at h
        split at h
        · cases h
        · next h1 =>
          have g1 := hA _ _ _ _ (hn.1 a rfl) hst h1
          split at h
          · cases h
          · next h2 =>
            cases h
            have g2 := hL _ _ _ _ hn.2 g1.2 h2
            exact ⟨AVL_cons.2 ⟨g1.1, g2.1⟩, g2.2⟩
    · intro n st r st' hn hst h
      cases n with
      | var v =>
        rw [simpA] at h
        split at h
        · next a ha => cases h; exact ⟨hst _ _ (mem_lookup_sub ha), hst⟩
        · cases h; exact ⟨by rintro x ⟨⟩; exact hn, hst⟩
      | plural as =>
        rw [simpA] at h
        split at h
        · cases h
        · next h1 =>
          cases h
          have g1 := hPl _ _ _ _ (AV_plural.1 hn) hst h1
          exact ⟨by rintro x ⟨⟩; exact AV_plural.2 g1.1, g1.2⟩
      | abs s =>
        rw [simpA] at h
        split at h
        · cases h
        · next h1 =>
          cases h
          have g1 := hS _ _ _ _ (AV_abs.1 hn) hst h1
          exact ⟨by rintro x ⟨⟩; exact AV_abs.2 g1.1, g1.2⟩
      | _ =>
        rw [simpA] at h
        · cases h; exact ⟨by rintro x ⟨⟩; exact hn, hst⟩
        all_goals simp
    · intro n st r st' hn hst h
      match n with
      | [] => rw [simpPlural] at h; cases h; exact ⟨hn, hst⟩
      | none :: as =>
        rw [AVL_cons] at hn
        rw [simpPlural] at h; exact hPl _ _ _ _ hn.2 hst h
      | some a :: as =>
        rw [AVL_cons] at hn
        rw [simpPlural] at h
        split at h
        · cases h
        · next h1 =>
          have g1 := hA _ _ _ _ (hn.1 a rfl) hst h1
          split at h
          · cases h
          · next h2 =>
            have g2 := hPl _ _ _ _ hn.2 g1.2 h2
            split at h
            · next bs =>
              cases h
              refine ⟨fun x hx => ?_, g2.2⟩
              rcases List.mem_append.1 hx with hx | hx
              · exact AV_plural.1 (g1.1 _ rfl) x hx
              · exact g2.1 x hx
            · cases h; exact ⟨AVL_cons.2 ⟨g1.1, g2.1⟩, g2.2⟩
    · intro n st r st' hn hst h
      cases n with
      | abs s =>
        rw [simpP] at h
        split at h
        · cases h
        · next h1 =>
          cases h
          have g1 := hS _ _ _ _ (AV_abs.1 hn) hst h1
          exact ⟨AV_abs.2 g1.1, g1.2⟩
      | serial l r =>
        rw [AV_serial] at hn
        rw [simpP] at h
        split at h
        · cases h
        · next h1 =>
          have g1 := hP _ _ _ _ hn.1 hst h1
          split at h
          · cases h
          · next h2 =>
            cases h
            have g2 := hP _ _ _ _ hn.2 g1.2 h2
            exact ⟨AV_serial.2 ⟨g1.1, g2.1⟩, g2.2⟩
      | swap p pos =>
        rw [simpP] at h
        split at h
        · cases h
        · next h1 =>
          cases h
          have g1 := hP _ _ _ _ (AV_swap.1 hn) hst h1
          exact ⟨AV_swap.2 g1.1, g1.2⟩
      | _ => rw [simpP] at h <;> first | (cases h; exact ⟨hn, hst⟩) | simp

/-! ## The theorems -/

/-- Spec: the number `x` is that of a variable used as predicate in the statement `n`. -/
def Heads (n : Node) (x : Nat) : Prop := ∃ v as, Node.app (.var v) as ∈ pre n ∧ v.n = x

theorem mem_predVars {n : Node} {x : Nat} : x ∈ predVars n ↔ Heads n x := by
  have key : ∀ (l : List Node) (acc : List Nat), x ∈ l.foldl (fun l m => match m with
      | .app (.var v) _ => v.n :: l
      | _ => l) acc ↔ x ∈ acc ∨ ∃ v as, Node.app (.var v) as ∈ l ∧ v.n = x := by
    intro l
    induction l with
    | nil => simp
    | cons a l ih =>
      intro acc
      rw [List.foldl_cons, ih]
      split
      · rename_i v as
        simp only [List.mem_cons, Node.app.injEq, Node.var.injEq]
        constructor
        · rintro ((rfl | h) | ⟨w, bs, h1, h2⟩)
          · exact .inr ⟨v, as, .inl ⟨rfl, rfl⟩, rfl⟩
          · exact .inl h
          · exact .inr ⟨w, bs, .inr h1, h2⟩
        · rintro (h | ⟨w, bs, ⟨rfl, rfl⟩ | h1, h2⟩)
          · exact .inl (.inr h)
          · exact .inl (.inl h2.symm)
          · exact .inr ⟨w, bs, h1, h2⟩
      · rename_i hne
        refine or_congr Iff.rfl ⟨fun ⟨w, bs, h1, h2⟩ => ⟨w, bs, List.mem_cons_of_mem _ h1, h2⟩, ?_⟩
        rintro ⟨w, bs, h1, h2⟩
        rcases List.mem_cons.1 h1 with h1 | h1
        · exact absurd h1.symm (hne w bs)
        · exact ⟨w, bs, h1, h2⟩
  rw [predVars, visit_eq]
  exact (key _ _).trans (by simp [Heads])

/-- Where the theorems apply: a statement whose free variables are `X`, with distinct bindings, that
`StmtOk` admits for the variables used as predicates. -/
structure Fit (X : Nat → Prop) (n : Node) : Prop where
  fits : Fits X n
  ok : ∀ V : List Nat, (∀ x, x ∈ V ↔ Heads n x) → StmtOk V true n
  distinct : (bnums (pre n)).Nodup

/-- C55: in every model in which the laws hold, the simplified statement has the value of the statement, and
no variable has been freed. -/
theorem C55_statement_partial (M : Model) (hM : M.Laws) (X : Nat → Prop) (n n' : Node) (hn : Fit X n) (k : Nat)
    (d : List (Nat × Option Node)) (st' : SState)
    (h : simpS k n { sub := [], predVars := predVars n, defs := d } = some (n', st')) :
    (∀ ρ, M.stmt n' ρ = M.stmt n ρ) ∧ Fits X n' := by
  have hc : Sem.Ctx (predVars n) X (fun _ => False) { sub := [], predVars := predVars n, defs := d } (BN n) :=
    ⟨rfl, fun _ _ => rfl, fun _ h => h.elim, fun _ _ => rfl, hn.distinct,
      fun b hb h => fits_binders n hn.fits b hb (h.resolve_right fun h => h)⟩
  obtain ⟨-, h2, -, -, h5, -⟩ := (Sem.post hM (predVars n) k).1 n _ n' st' X (fun _ => False) true (hn.ok _ fun _ => mem_predVars)
    (fits_iff (by simp) hn.fits) hc h
  exact ⟨fun ρ => h5 ρ, h2⟩

theorem fits_scoped (n : Node) : ∀ {X : Nat → Prop} {env : List Nat}, Fits X n → AV (fun v => v.dfn = some v.n) n →
    (∀ x, X x → x ∈ env) → Scoped env n := by
  have list : ∀ (env : List Nat) (as : List (Option Node)), (∀ x, some x ∈ as → Scoped env x) → ScopedL env as := by
    intro env as h
    induction as with
    | nil => trivial
    | cons a as ih =>
      refine ⟨?_, ih fun x hx => h x (by simp [hx])⟩
      cases a with
      | none => trivial
      | some a => exact h a (by simp)
  induction n using Node.induct with
  | bind q id m f r s ihr ihs =>
    intro X env h hv hx
    simp only [Fits, fitsO_iff] at h
    obtain ⟨rfl, -, hr, hs⟩ := h
    rw [AV_bind] at hv
    have hx' : ∀ x, (X x ∨ x = id) → x ∈ id :: env := by
      rintro x (h | rfl)
      · exact List.mem_cons_of_mem _ (hx x h)
      · simp
    refine ⟨?_, ihs hs hv.2 hx'⟩
    cases r with
    | none => trivial
    | some r => exact ihr r rfl (hr r rfl) (hv.1 r rfl) hx'
  | conn c l r ihl ihr =>
    intro X env h hv hx
    rw [AV_conn] at hv
    exact ⟨ihl h.1 hv.1 hx, ihr h.2 hv.2 hx⟩
  | app p as ihp iha =>
    intro X env h hv hx
    simp only [Fits, fitsL_iff] at h
    rw [AV_app] at hv
    exact ⟨ihp h.1 hv.1 hx, list env as fun x hxa => iha x hxa (h.2 x hxa) (hv.2 x hxa) hx⟩
  | var v =>
    intro X env h hv hx id hid
    rw [hv v (by simp [pre])] at hid
    cases hid
    exact hx _ h
  | plural as iha =>
    intro X env h hv hx
    simp only [Fits, fitsL_iff] at h
    rw [AV_plural] at hv
    exact list env as fun x hxa => iha x hxa (h x hxa) (hv x hxa) hx
  | quote t f => intros; trivial
  | name s => intros; trivial
  | abs s ih => intro X env h hv hx; exact ih h (AV_abs.1 hv) hx
  | serial l r ihl ihr =>
    intro X env h hv hx
    rw [AV_serial] at hv
    exact ⟨ihl h.1 hv.1 hx, ihr h.2 hv.2 hx⟩
  | swap p k ih => intro X env h hv hx; exact ih h (AV_swap.1 hv) hx

theorem fits_own (n : Node) : ∀ {X : Nat → Prop}, Fits X n → ∀ q id m f r b, Node.bind q id m f r b ∈ pre n → id = m := by
  induction n using Node.induct with
  | bind q id m f r s ihr ihs =>
    intro X h q' id' m' f' r' b' hb
    simp only [Fits, fitsO_iff] at h
    simp only [pre, List.mem_cons, List.mem_append] at hb
    rcases hb with hb | hb | hb
    · cases hb; exact h.1
    · cases r with
      | none => simp [preO] at hb
      | some r => exact ihr r rfl (h.2.2.1 r rfl) _ _ _ _ _ _ hb
    · exact ihs h.2.2.2 _ _ _ _ _ _ hb
  | conn c l r ihl ihr =>
    intro X h q' id' m' f' r' b' hb
    simp only [pre, List.mem_cons, List.mem_append, reduceCtorEq, false_or] at hb
    rcases hb with hb | hb
    exacts [ihl h.1 _ _ _ _ _ _ hb, ihr h.2 _ _ _ _ _ _ hb]
  | app p as ihp iha =>
    intro X h q' id' m' f' r' b' hb
    simp only [Fits, fitsL_iff] at h
    simp only [pre, List.mem_cons, List.mem_append, reduceCtorEq, false_or, preL_eq, List.mem_flatMap, List.mem_filterMap, id] at hb
    rcases hb with hb | ⟨x, ⟨y, hy, rfl⟩, hb⟩
    exacts [ihp h.1 _ _ _ _ _ _ hb, iha x hy (h.2 x hy) _ _ _ _ _ _ hb]
  | var v => intro X h q' id' m' f' r' b' hb; simp [pre] at hb
  | plural as iha =>
    intro X h q' id' m' f' r' b' hb
    simp only [Fits, fitsL_iff] at h
    simp only [pre, List.mem_cons, reduceCtorEq, false_or, preL_eq, List.mem_flatMap, List.mem_filterMap, id] at hb
    obtain ⟨x, ⟨y, hy, rfl⟩, hb⟩ := hb
    exact iha x hy (h x hy) _ _ _ _ _ _ hb
  | quote t f => intro X h q' id' m' f' r' b' hb; simp [pre] at hb
  | name s => intro X h q' id' m' f' r' b' hb; simp [pre] at hb
  | abs s ih =>
    intro X h q' id' m' f' r' b' hb
    simp only [pre, List.mem_cons, reduceCtorEq, false_or] at hb
    exact ih h _ _ _ _ _ _ hb
  | serial l r ihl ihr =>
    intro X h q' id' m' f' r' b' hb
    simp only [pre, List.mem_cons, List.mem_append, reduceCtorEq, false_or] at hb
    rcases hb with hb | hb
    exacts [ihl h.1 _ _ _ _ _ _ hb, ihr h.2 _ _ _ _ _ _ hb]
  | swap p k ih =>
    intro X h q' id' m' f' r' b' hb
    simp only [pre, List.mem_cons, reduceCtorEq, false_or] at hb
    exact ih h _ _ _ _ _ _ hb

/-- Every variable is bound and its number is the address of its binding; variables with one address are
one. -/
structure Closed (n : Node) : Prop where
  fits : Fits (fun _ => False) n
  bound : ∀ v, Node.var v ∈ trace n → v.dfn = some v.n
  same : ∀ v w, Node.var v ∈ trace n → Node.var w ∈ trace n → v.addr = w.addr → v.n = w.n

/-- C55: numbering the variables of a closed tree with distinct bindings changes its value in no
model. -/
theorem C55_numbering (M : Model) (t : Node) (hc : Closed t) (hd : (bnums (pre t)).Nodup) (ρ σ : Nat → M.D) :
    M.stmt (sequenceVarNums id t) σ = M.stmt t ρ := by
  have hvar : ∀ v, Node.var v ∈ pre t → v.dfn = some v.n := fun v hv => hc.bound v (by rw [trace_eq]; exact hv)
  have hsc : Scoped [] t := fits_scoped t hc.fits hvar (by simp)
  have hown := fits_own t hc.fits
  have hfree : freeAddrs (pre t) = [] := by
    unfold freeAddrs
    rw [List.filterMap_eq_nil_iff]
    intro x hx
    cases x <;> try rfl
    next v => simp [hvar v hx]
  have hsame : ∀ v w, Node.var v ∈ pre t → Node.var w ∈ pre t → v.addr = w.addr → v.dfn = w.dfn := by
    intro v w hv hw he
    rw [hvar v hv, hvar w hw, hc.same v w (by rw [trace_eq]; exact hv) (by rw [trace_eq]; exact hw) he]
  have hu : Unshared t := by
    constructor
    · rw [trace_eq, bindIds_eq hown]; exact hd
    · rw [trace_eq, hfree]; exact .nil
    · rw [trace_eq]; exact hsame
  have inv := seq_inv id (pre t) (by rw [bindIds_eq hown]; exact hd) (by rw [hfree]; exact .nil) hsame
    (Scoped_after t [] hsc)
  have hrun : seqRun id t = (pre t).foldl seqStep { i := 0, bN := id, vN := fun _ => 0 } := by
    rw [seqRun, visit_eq]
  rw [← hrun] at inv
  have hdist := (C29_distinct id t hu hsc).1
  rw [trace_eq, sequenceVarNums, pre_renum] at hdist
  have hmap : ∀ l : List Node, (∀ v, Node.var v ∈ l → v.dfn = some v.n) →
      (l.map (renum (seqRun id t).bN (seqRun id t).vN)).filterMap number = (bindIds l).map (seqRun id t).bN := by
    intro l
    induction l with
    | nil => intro _; rfl
    | cons x l ih =>
      intro h
      have ih := ih fun v hv => h v (by simp [hv])
      rw [List.map_cons, List.filterMap_cons, ih]
      cases x <;> try rfl
      next v => simp [renum, number, h v (by simp), bindIds]
  rw [hmap _ hvar, bindIds_eq hown] at hdist
  refine (den_renum M t hc.fits (fun v hv => inv.bound v v.n hv (hvar v hv)) (fun _ h => h.elim) ?_).1
  intro x y hx hy
  exact List.inj_on_of_nodup_map hdist (hx.resolve_left fun h => h) (hy.resolve_left fun h => h)

/-- C55: in every model in which the laws hold, what `simplify` makes of a closed statement has the value of the
statement (after the arguments `hóa` are added), if it copies no binding. -/
theorem C55_simplify_partial (M : Model) (hM : M.Laws) (n m r : Node) (k : Nat) (d : List (Nat × Option Node))
    (hm : m = (addHoa none n).1) (hf : Fit (fun _ => False) m) (hc : Closed m)
    (hone : ∀ t st, simpS k m { sub := [], predVars := predVars m, defs := bindDefs m } = some (t, st) →
      (bnums (pre t)).Nodup)
    (h : simplify k n = some (r, d)) (ρ σ : Nat → M.D) : M.stmt r σ = M.stmt m ρ := by
  subst hm
  unfold simplify at h
  dsimp only at h
  split at h
  · cases h
  · next t st' ht =>
    cases h
    have h1 := C55_statement_partial M hM _ _ t hf k _ st' ht
    have h2 := (simp_vars (W := fun v => Node.var v ∈ pre (addHoa none n).1) k).1 _ _ _ _ (fun v hv => hv)
      (by intro x a hx; cases hx) ht
    rw [← h1.1 ρ]
    refine C55_numbering M t ⟨h1.2, ?_, ?_⟩ (hone t st' ht) ρ σ
    · intro v hv
      rw [trace_eq] at hv
      exact hc.bound v (by rw [trace_eq]; exact h2.1 v hv)
    · intro v w hv hw
      rw [trace_eq] at hv hw
      exact hc.same v w (by rw [trace_eq]; exact h2.1 v hv) (by rw [trace_eq]; exact h2.1 w hw)

/-! ## Cases -/

/-- A variable of the binding `n`. -/
def xv (a n : Nat) : Option Node := some (.var ⟨.mk a, n, some n, false⟩)

/-- `[ι X : X = «q»] [∀ Y : poq(Y)] mai(Y, {{X, Y}}) ∧ (λ Z. gi(Z, X))(Y)`. -/
def exFit : Node :=
  .bind .the 0 0 false (some (.app (.name ['=']) [xv 0 0, some (.quote ['q'] false)]))
    (.bind .all 1 1 false (some (.app (.name ['p']) [xv 1 1]))
      (.conn .and
        (.app (.name ['m']) [xv 2 1, some (.plural [some (.plural [xv 3 0, xv 4 1])])])
        (.app (.abs (.bind .lambda 2 2 false none (.app (.name ['g']) [xv 5 2, xv 6 0]))) [xv 7 1])))

/-- `[∀ Y : poq(Y)] mai(Y, {«q», Y}) ∧ gi(Y, «q»)`. -/
def exFit' : Node :=
  .bind .all 1 1 false (some (.app (.name ['p']) [xv 1 1]))
    (.conn .and
      (.app (.name ['m']) [xv 2 1, some (.plural [some (.quote ['q'] false), xv 4 1])])
      (.app (.name ['g']) [xv 7 1, some (.quote ['q'] false)]))

theorem exFit_fit : Fit (fun _ => False) exFit := by
  refine ⟨?_, ?_, by decide +kernel⟩
  · simp [exFit, xv, Fits, FitsO, FitsL]
  · intro V hV
    have h : V = [] := List.eq_nil_iff_forall_not_mem.2 fun x hx => by
      obtain ⟨v, as, h, -⟩ := (hV x).1 hx
      simp [exFit, xv, pre, preO, preL] at h
    subst h
    simp [exFit, xv, StmtOk, RestrOk, HeadOk, ArgsOk, ArgO, ArgOk, Tame, Own, mentions_iff, pre, nums]

theorem exFit_closed : Closed exFit := by
  refine ⟨exFit_fit.fits, ?_, ?_⟩
  · rw [trace_eq]
    simp [exFit, xv, pre, preO, preL]
  · rw [trace_eq]
    simp only [exFit, xv, pre, preO, preL, List.cons_append, List.nil_append, List.append_nil, List.mem_cons, List.not_mem_nil,
      or_false, reduceCtorEq, false_or, Node.var.injEq]
    intro v w hv hw
    rcases hv with rfl | rfl | rfl | rfl | rfl | rfl | rfl | rfl <;> rcases hw with rfl | rfl | rfl | rfl | rfl | rfl | rfl | rfl <;>
      simp

theorem exFit_run : ∃ st, simpS 20 exFit { sub := [], predVars := predVars exFit, defs := bindDefs exFit } = some (exFit', st) :=
  ⟨_, rfl⟩

example (M : Model) (hM : M.Laws) (ρ : Nat → M.D) : M.stmt exFit' ρ = M.stmt exFit ρ := by
  obtain ⟨st, h⟩ := exFit_run
  exact (C55_statement_partial M hM _ exFit exFit' exFit_fit 20 _ st h).1 ρ

example (M : Model) (hM : M.Laws) (ρ σ : Nat → M.D) : M.stmt (sequenceVarNums id exFit') σ = M.stmt exFit ρ := by
  have hh : (addHoa none exFit).1 = exFit := rfl
  obtain ⟨st, h⟩ := exFit_run
  refine C55_simplify_partial M hM exFit exFit _ 20
    (st.defs.map fun d => (d.1, renumO (seqRun id exFit').bN (seqRun id exFit').vN d.2)) hh.symm exFit_fit exFit_closed ?_ ?_ ρ σ
  · intro t st' ht
    rw [h] at ht
    cases ht
    decide +kernel
  · unfold simplify
    rw [hh]
    simp only [h]
    rfl

/-- `[ι X : X = «q»] X(X)`: `X` is used as predicate, so the binding stays. -/
def exHead : Node :=
  .bind .the 0 0 false (some (.app (.name ['=']) [xv 0 0, some (.quote ['q'] false)])) (.app (.var ⟨.mk 1, 0, some 0, false⟩) [xv 2 0])

theorem exHead_fit : Fit (fun _ => False) exHead := by
  refine ⟨?_, ?_, by decide +kernel⟩
  · simp [exHead, xv, Fits, FitsO, FitsL]
  · intro V hV
    have h : 0 ∈ V := (hV 0).2 ⟨⟨.mk 1, 0, some 0, false⟩, [xv 2 0], by simp [exHead, xv, pre, preO, preL], rfl⟩
    simp [exHead, xv, StmtOk, RestrOk, HeadOk, ArgsOk, ArgO, ArgOk, Tame, Own, mentions_iff, pre, nums, h]

example : ∃ st, simpS 20 exHead { sub := [], predVars := predVars exHead, defs := bindDefs exHead } = some (exHead, st) :=
  ⟨_, rfl⟩

/-- The model in which all names hold of everything and there is one atom. -/
def allTrue : Model := std (A := Unit) (fun _ _ => True) (fun _ => ()) (fun _ => ())

/-- C55 fails without the hypothesis that an abstraction has all its arguments: `(λ Z. gi(Z))(_, Y)`, which
says nothing true in `allTrue` because the argument is missing, becomes `gi(_)`, which does. The number of
arguments that are there is compared to the number of λs, but the first arguments are bound. -/
theorem C55_refuted_missing :
    ∃ (M : Model) (n n' : Node) (st' : SState), M.Laws ∧ Fits (fun _ => False) n ∧ (bnums (pre n)).Nodup ∧
      simpS 10 n { sub := [], predVars := predVars n, defs := [] } = some (n', st') ∧ ∃ ρ, M.stmt n' ρ ≠ M.stmt n ρ := by
  refine ⟨allTrue, .bind .some 0 0 false none
    (.app (.abs (.bind .lambda 1 1 false none (.app (.name ['g']) [xv 0 1]))) [none, xv 1 0]), _, _,
    std_laws _ _ _, ?_, by decide +kernel, rfl, fun _ => [], ?_⟩
  · simp [xv, Fits, FitsO, FitsL]
  · intro h
    have h1 : ∃ x : List Unit, stdName (A := Unit) (fun _ _ => True) ['g'] [none] [] :=
      ⟨[], by simp [stdName]⟩
    have h2 := (congrFun h []).mp h1
    obtain ⟨x, hx, -⟩ := h2
    exact hx none (List.Mem.head _) rfl

/-- C55 fails without the hypothesis that an equation that restricts a variable is about that variable:
`[∃ X] [ι Y : X = «q»] gi(Y)` loses the binding of `Y`. -/
theorem C55_refuted_own :
    ∃ (n n' : Node) (st' : SState), Fits (fun _ => False) n ∧ (bnums (pre n)).Nodup ∧
      simpS 10 n { sub := [], predVars := predVars n, defs := [] } = some (n', st') ∧ ¬ Fits (fun _ => False) n' := by
  refine ⟨.bind .some 0 0 false none (.bind .the 1 1 false (some (.app (.name ['=']) [xv 0 0, some (.quote ['q'] false)]))
    (.app (.name ['g']) [xv 1 1])), _, _, ?_, by decide +kernel, rfl, ?_⟩
  · simp [xv, Fits, FitsO, FitsL]
  · simp [Fits, FitsO, FitsL]

/-- C55 fails for variables inside serial predicates: `[ι X : X = «q»] (gi X)()` loses the binding of `X`,
but `X` is not replaced in the predicate. -/
theorem C55_refuted_serial :
    ∃ (n n' : Node) (st' : SState), Fits (fun _ => False) n ∧ (bnums (pre n)).Nodup ∧
      simpS 10 n { sub := [], predVars := predVars n, defs := [] } = some (n', st') ∧ ¬ Fits (fun _ => False) n' := by
  refine ⟨.bind .the 0 0 false (some (.app (.name ['=']) [xv 0 0, some (.quote ['q'] false)]))
    (.app (.serial (.name ['g']) (.var ⟨.mk 1, 0, some 0, false⟩)) []), _, _, ?_, by decide +kernel, rfl, ?_⟩
  · simp [xv, Fits, FitsO, FitsL]
  · simp [Fits, FitsL]

end Verif.Logic
