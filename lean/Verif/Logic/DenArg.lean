/-
C56: arguments.
-/
import Verif.Logic.DenRes

namespace Verif.Logic.Den
open Verif.Tone (Str)

section
variable (U : Uni)

/-- An argument that is not a choice between arguments. -/
def Single : AST.Node → Prop
  | .predArg .. => True
  | .cop .argument _ _ ru _ _ => isRoi U ru = true
  | _ => False

/-- The variable an argument introduces. -/
def bindsA : AST.Node → Option Str
  | .predArg _ _ quant p _ => match form U p with
    | .var x => if quant.isSome then some x else none
    | _ => none
  | _ => none

def depA (dep : Dep) : AST.Node → Dep
  | .predArg _ _ quant p _ => match form U p with
    | .var x => if quant.isSome then upd dep (some x) (varies U quant) else dep
    | _ => dep
  | _ => dep

def flagA (dep : Dep) : AST.Node → Bool
  | .predArg _ _ quant p rel => match form U p with
    | .var x => if quant.isSome then !varies U quant else rel.isNone && !dep (some x)
    | .hoa => quant.isNone && rel.isNone && !dep none
    | .plain => false
  | _ => true

variable {U}

theorem okArg_single {A : Nat → AST.Node} {α : AST.Node} (h : Single U α) {dep : Dep} {k : Dep → Bool → Prop} :
    okArg U A dep k α ↔ okArg U A dep (fun _ _ => True) α ∧ k (depA U dep α) (flagA U dep α) := by
  unfold Single at h
  split at h
  · next id focus quant p rel =>
    simp only [okArg, depA, flagA]
    cases hf : form U p with
    | var x => cases quant <;> simp <;> tauto
    | hoa => simp; tauto
    | plain => simp; tauto
  · next ru l r =>
    simp only [okArg, h, if_true, depA, flagA]
    simp
    tauto
  · cases h

theorem evArg_toks {α : AST.Node} (h : Single U α) (u : Bool) (E : List Ev) (t : Tok) :
    t ∈ toks (evArg U u E α) ↔ t ∈ toks (evArg U u [] α) ∨ (t ∈ toks E ∧ ∀ y, bindsA U α = some y → t ≠ some y) := by
  unfold Single at h
  split at h
  · next id focus quant p rel =>
    simp only [evArg, bindsA]
    cases hf : form U p with
    | var x =>
      cases quant with
      | some w => simp [without]
      | none => simp; tauto
    | hoa => simp; tauto
    | plain => simp
  · next ru l r =>
    simp [evArg, h, bindsA]
  · cases h

theorem evArg_args {α : AST.Node} (h : Single U α) (u u' : Bool) (E : List Ev) :
    argIds (evArg U u E α) = argIds (evArg U u' [] α) ++ argIds E := by
  have hif : ∀ (c : Prop) [Decidable c] (t : Tok), argIds (if c then [Ev.tok t] else []) = [] := by
    intro c _ t; split <;> rfl
  unfold Single at h
  split at h
  · next id focus quant p rel =>
    simp only [evArg]
    cases hf : form U p with
    | var x =>
      cases quant with
      | some w => simp
      | none => simp [hif]
    | hoa => simp [hif]
    | plain => simp
  · next ru l r =>
    simp [evArg, h]
  · cases h

theorem evArg_mono {α : AST.Node} (h : Single U α) {E : List Ev} {t : Tok} (ht : t ∈ toks (evArg U false E α)) (u : Bool) :
    t ∈ toks (evArg U u E α) := by
  cases u with
  | false => exact ht
  | true =>
    unfold Single at h
    split at h
    · next id focus quant p rel =>
      revert ht
      simp only [evArg]
      cases hf : form U p with
      | var x =>
        cases quant with
        | some w => simp
        | none => simp; tauto
      | hoa => simp; tauto
      | plain => simp
    · next ru l r =>
      revert ht
      simp [evArg, h]
    · cases h

theorem depA_ne {α : AST.Node} {dep : Dep} {t : Tok} (h : ∀ y, bindsA U α = some y → t ≠ some y) :
    depA U dep α t = dep t := by
  cases α <;> try rfl
  next id focus quant p rel =>
  simp only [bindsA, depA] at h ⊢
  cases hf : form U p with
  | var x =>
    simp only [hf] at h
    cases quant with
    | some w =>
      simp only [Option.isSome_some, if_true, Option.some.injEq, forall_eq'] at h
      simp only [Option.isSome_some, if_true]
      rw [upd, if_neg h]
    | none => simp
  | hoa => rfl
  | plain => rfl

theorem noBind_bindsA {α : AST.Node} (h : noBind U α = true) : bindsA U α = none := by
  unfold bindsA
  split
  · next id focus quant p rel =>
    rw [noBind] at h
    split
    · next x hx =>
      rw [hx] at h
      simp only [Option.isNone_iff_eq_none] at h
      simp [h]
    · rfl
  · rfl

theorem noBind_depA {α : AST.Node} (h : noBind U α = true) (dep : Dep) : depA U dep α = dep := by
  funext t
  exact depA_ne fun y hy => by rw [noBind_bindsA h] at hy; cases hy

end

/-- Names with the variable an argument introduces. -/
def pushed {D : Type} (bx : Option Str) (env : Tok → D) (d : D) : Tok → D :=
  match bx with
  | some y => upd env (some y) d
  | none => env

section
variable {M : Model} {U : Uni} {A : Nat → AST.Node}
variable {dep dep1 : Dep} {lk lk1 : Tok → Option Nat} {s s1 s2 : St} {V : List Var} {Z : Args} {E Et : List Ev} {n : Node}
  {Ids : List Nat} {u : Bool} {pos : Nat} {v : Var}
  {den : (Nat → M.D) → Env M → List (M.D × Nat) → M.B}

theorem vals_upd {ρ : Nat → M.D} {x : Nat} (hZ : ZOk s Z) (hx : s.n ≤ x) (d : M.D) : vals (upd ρ x d) Z = vals ρ Z := by
  unfold vals
  refine List.map_congr_left fun z hz => ?_
  obtain ⟨v, hv, hn⟩ := hZ z hz
  rw [hv]
  have : v.n ≠ x := by omega
  simp [Model.arg, upd, this]

/-- An argument whose binding is put around what follows. -/
theorem place_some {q : Quant} {fo : Bool} {r : Option Node} {bx : Option Str} {F : List Tok}
    {R : (Nat → M.D) → Env M → Option (M.D → M.B)}
    (hx1 : s.n ≤ v.n) (hx2 : v.n < s1.n) (hx3 : v.n ∉ ids s1.the) (he : Evo s s1 Ids) (hi : Inv M U A s1)
    (hlk : ∀ t, (∀ y, bx = some y → t ≠ some y) → lk1 t = lk t ∧ dep1 t = dep t)
    (hlkx : ∀ y, bx = some y → lk1 (some y) = some v.n)
    (htr : TrO (Bd s s1) (fun y => Xs lk s1 F [] y ∨ y = v.n) r)
    (hoc : ∀ t ∈ F, dep t = true → ∀ b, lk t = some b → FrO b r)
    (hv : ∀ (L ρ : Nat → M.D) env, Good L ρ s1.the s1.lifted → (∀ t ∈ F, ∀ b, lk t = some b → ρ b = env t) →
      M.restr r v.n ρ = R L env)
    (hc : Res M U A dep1 lk1 s1 s2 (V ++ if u then [v] else []) (Z ++ [(.var v, pos)]) E n den)
    (hV : ∀ w ∈ V, w.n < s.n) (hZ : u = true → ZOk s Z)
    (hig : u = false → ∀ L env as as', den L env as = den L env as')
    (ht : ∀ t, t ∈ toks Et ↔ t ∈ F ∨ (t ∈ toks E ∧ ∀ y, bx = some y → t ≠ some y)) (ha : argIds Et = Ids ++ argIds E)
    (hs : Sees dep lk s (toks Et)) :
    Res M U A dep lk s s2 V Z Et (.bind q v.n v.n fo r n)
      (fun L env as => M.bind q (R L env) fun d => den L (pushed bx env d) (as ++ [(d, pos)])) := by
  have hnd : v.n ∉ ids s2.the := by
    intro h
    rcases hc.evo.the_new h with h | h
    · exact hx3 h
    · omega
  have lkn : ∀ t ∈ toks Et, ∀ b, lk t = some b → b < s.n := by
    intro t ht b hb
    obtain ⟨b', h1, h2, -⟩ := hs t ht
    rw [hb] at h1
    cases h1
    exact h2
  -- names in what follows
  have names : ∀ t ∈ toks E, (∃ y, bx = some y ∧ t = some y) ∨ (t ∈ toks Et ∧ lk1 t = lk t ∧ dep1 t = dep t) := by
    intro t htE
    by_cases hy : ∀ y, bx = some y → t ≠ some y
    · exact .inr ⟨(ht t).2 (.inr ⟨htE, hy⟩), hlk t hy⟩
    · simp only [Classical.not_forall, Decidable.not_not] at hy
      obtain ⟨y, h1, h2⟩ := hy
      exact .inl ⟨y, h1, h2⟩
  refine ⟨by rw [ha]; exact he.trans hc.evo, hc.inv, ?_, ?_, ?_, ?_⟩
  · refine ⟨rfl, ⟨hx1, Nat.lt_of_lt_of_le hx2 hc.evo.n, hnd⟩, ?_, ?_⟩
    · rw [TrO_iff] at htr ⊢
      intro a ha
      refine (htr a ha).mono (fun b hb => hb.right hc.evo) fun x hx => ?_
      rcases hx with hx | hx
      · exact .inl (hx.mono (fun t h => (ht t).2 (.inl h)) (by simp) fun b => hc.evo.the_sub)
      · exact .inr hx
    · refine hc.tree.mono (fun b hb => hb.left he) fun x hx => ?_
      rcases hx with ⟨t, ht', hx⟩ | ⟨w, hw, rfl⟩ | hx
      · rcases names t ht' with ⟨y, h1, rfl⟩ | ⟨h1, h2, -⟩
        · rw [hlkx y h1] at hx
          cases hx
          exact .inr rfl
        · exact .inl (.inl ⟨t, h1, h2 ▸ hx⟩)
      · rcases List.mem_append.1 hw with hw | hw
        · exact .inl (.inr (.inl ⟨w, hw, rfl⟩))
        · cases u <;> simp at hw
          exact .inr (by rw [hw])
      · exact .inl (.inr (.inr hx))
  · intro t ht' hd b hb
    have hbn : b ≠ v.n := by have := lkn t ht' b hb; omega
    refine ⟨hbn, ?_⟩
    rcases (ht t).1 ht' with h | ⟨h, hy⟩
    · exact .inl (hoc t h hd b hb)
    · obtain ⟨h1, h2⟩ := hlk t hy
      exact .inr (hc.occ t h (h2 ▸ hd) b (h1 ▸ hb))
  · intro w hw hq
    have := hV w hw
    exact ⟨by omega, .inr (hc.occV w (by simp [hw]) (by rw [he.quant _ this]; exact hq))⟩
  · intro L ρ env hg henv
    rw [Model.stmt]
    have h1 := hv L ρ env (hg.evo hi hc.evo) fun t h => henv t ((ht t).2 (.inl h))
    rw [h1]
    congr 1
    funext d
    rw [hc.val L (upd ρ v.n d) (pushed bx env d) (hg.upd hc.inv hnd d) ?_]
    · cases hu : u with
      | false => exact hig hu _ _ _ _
      | true =>
        congr 1
        rw [vals, List.map_append, ← vals, vals_upd (hZ hu) hx1]
        simp [Model.arg, upd]
    · intro t ht' b hb
      rcases names t ht' with ⟨y, h1, rfl⟩ | ⟨h1, h2, -⟩
      · rw [hlkx y h1] at hb
        cases hb
        rw [h1]
        simp [pushed, upd]
      · rw [h2] at hb
        have hbn : b ≠ v.n := by have := lkn t h1 b hb; omega
        rw [upd, if_neg hbn, henv t h1 b hb]
        unfold pushed
        split
        · next y =>
          by_cases hty : t = some y
          · subst hty
            exact absurd (hlkx y rfl) (by rw [h2, hb]; simpa using hbn)
          · rw [upd, if_neg hty]
        · rfl

/-- An argument that is a name or bound around the text. -/
theorem place_none {W : List Tok} {D : (Nat → M.D) → Env M → M.D} (he : Evo s s1 Ids) (hi : Inv M U A s1)
    (hW : u = true → (∃ t ∈ W, lk t = some v.n) ∨ v.n ∈ ids s1.the)
    (hW' : ∀ t ∈ W, ∀ b, lk t = some b → u = true ∧ b = v.n)
    (hv : u = true → ∀ (L ρ : Nat → M.D) env, Good L ρ s1.the s1.lifted → (∀ t ∈ W, ∀ b, lk t = some b → ρ b = env t) →
      ρ v.n = D L env)
    (hig : u = false → ∀ L env as as', den L env as = den L env as')
    (hc : Res M U A dep lk s1 s2 (V ++ if u then [v] else []) (Z ++ [(.var v, pos)]) E n den) (hV : ∀ w ∈ V, w.n < s.n)
    (ht : ∀ t, t ∈ toks Et ↔ t ∈ W ∨ t ∈ toks E) (ha : argIds Et = Ids ++ argIds E) (hs : Sees dep lk s (toks Et)) :
    Res M U A dep lk s s2 V Z Et n (fun L env as => den L env (as ++ [(D L env, pos)])) := by
  refine ⟨by rw [ha]; exact he.trans hc.evo, hc.inv, ?_, ?_, ?_, ?_⟩
  · refine hc.tree.mono (fun b hb => hb.left he) fun x hx => ?_
    rcases hx with ⟨t, ht', hx⟩ | ⟨w, hw, rfl⟩ | hx
    · exact .inl ⟨t, (ht t).2 (.inr ht'), hx⟩
    · rcases List.mem_append.1 hw with hw | hw
      · exact .inr (.inl ⟨w, hw, rfl⟩)
      · cases hu : u with
        | false => simp [hu] at hw
        | true =>
          simp [hu] at hw
          subst hw
          rcases hW hu with ⟨t, h1, h2⟩ | h
          · exact .inl ⟨t, (ht t).2 (.inl h1), h2⟩
          · exact .inr (.inr (hc.evo.the_sub h))
    · exact .inr (.inr hx)
  · intro t ht' hd b hb
    rcases (ht t).1 ht' with h | h
    · obtain ⟨hu, rfl⟩ := hW' t h b hb
      obtain ⟨b', h1, h2, h3⟩ := hs t ht'
      rw [hb] at h1
      cases h1
      exact hc.occV v (by simp [hu]) (by rw [he.quant _ h2]; exact h3.1 hd)
    · exact hc.occ t h hd b hb
  · intro w hw hq
    exact hc.occV w (by simp [hw]) (by rw [he.quant _ (hV w hw)]; exact hq)
  · intro L ρ env hg henv
    rw [hc.val L ρ env hg fun t h => henv t ((ht t).2 (.inr h))]
    cases hu : u with
    | false => exact hig hu _ _ _ _
    | true =>
      have := hv hu L ρ env (hg.evo hi hc.evo) fun t h => henv t ((ht t).2 (.inl h))
      rw [vals, List.map_append, ← vals, ← this]
      rfl

variable (M U A)

/-- A run that made an argument. -/
structure ResA (dep : Dep) (s s1 : St) (α : AST.Node) (b : Option Pending) (v : Var) : Prop where
  evo : Evo s s1 (argIds (evArg U true [] α))
  inv : Inv M U A s1
  vars : s1.vars = match bindsA U α with | some x => (x, v.n) :: s.vars | none => s.vars
  new : ∀ x, bindsA U α = some x → (depA U dep α (some x) = true ↔ s1.quant v.n ≠ .the)
  acc : Sees dep (look s) s (toks (evArg U true [] α)) →
    v.dfn = some v.n ∧ v.n < s1.n ∧ (s1.quant v.n = .the → flagA U dep α = false → v.n ∈ ids s1.the)
  cont : ∀ s2 E V Z n u pos den, Sees dep (look s) s (toks (evArg U u E α)) → (∀ v ∈ V, v.n < s.n) → (u = true → ZOk s Z) →
    (u = false → ∀ L env as as', den L env as = den L env as') →
    Res M U A (depA U dep α) (look s1) s1 s2 (V ++ if u then [v] else []) (Z ++ [(.var v, pos)]) E n den →
    Res M U A dep (look s) s s2 V Z (evArg U u E α) (bindScope b n)
      (fun L env as => dArg U L env (fun env d => den L env (as ++ [(d, pos)])) α)

end

end Verif.Logic.Den
