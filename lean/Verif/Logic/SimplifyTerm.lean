/-
`simplify` terminates on every logic tree (part of C34).
-/
import Verif.Logic.Simplify

namespace Verif.Logic

/-! ## More fuel does not change the result -/

theorem simp_mono (k : Nat) :
    (∀ n st r, simpS k n st = some r → simpS (k + 1) n st = some r) ∧
    (∀ n st r, simpR k n st = some r → simpR (k + 1) n st = some r) ∧
    (∀ n st r, simpArgs k n st = some r → simpArgs (k + 1) n st = some r) ∧
    (∀ n st r, simpA k n st = some r → simpA (k + 1) n st = some r) ∧
    (∀ n st r, simpPlural k n st = some r → simpPlural (k + 1) n st = some r) ∧
    (∀ n st r, simpP k n st = some r → simpP (k + 1) n st = some r) := by
  induction k with
  | zero =>
    refine ⟨?_, ?_, ?_, ?_, ?_, ?_⟩ <;> intro n st r h
    · rw [simpS] at h; cases h
    · rw [simpR] at h; cases h
    · rw [simpArgs] at h; cases h
    · rw [simpA] at h; cases h
    · rw [simpPlural] at h; cases h
    · rw [simpP] at h; cases h
  | succ k ih =>
    obtain ⟨hS, hR, hL, hA, hPl, hP⟩ := ih
    refine ⟨?_, ?_, ?_, ?_, ?_, ?_⟩
    · intro n st r h
      cases n with
      | bind q id n f r s =>
        rw [simpS] at h ⊢
        cases h1 : simpR k r st with
        | none => simp [h1] at h
        | some p =>
          rw [hR _ _ _ h1]
          rw [h1] at h
          dsimp only at h ⊢
          split at h
          · exact hS _ _ _ h
          · next st' _ =>
            split at h
            · cases h
            · next h2 => rw [hS _ _ _ h2]; exact h
      | conn c l r =>
        rw [simpS] at h ⊢
        split at h
        · cases h
        · next h1 =>
          rw [hS _ _ _ h1]
          dsimp only
          split at h
          · cases h
          · next h2 => rw [hS _ _ _ h2]; exact h
      | app p as =>
        rw [simpS] at h ⊢
        split at h
        · cases h
        · next as' _ h1 =>
          rw [hL _ _ _ h1]
          dsimp only at h ⊢
          cases p with
          | swap p pos => exact hS _ _ _ h
          | abs b =>
            dsimp only at h ⊢
            by_cases hc : lambdas b = 0 ∨ (List.filter (fun x => x.isSome) as').length ≠ lambdas b
            · rw [if_pos hc] at h ⊢
              split at h
              · cases h
              · next h2 => rw [hP _ _ _ h2]; exact h
            · rw [if_neg hc] at h ⊢
              exact hS _ _ _ h
          | _ =>
            dsimp only at h ⊢
            split at h
            · cases h
            · next h2 => rw [hP _ _ _ h2]; exact h
      | _ => exact h
    · intro n st r h
      cases n with
      | none => exact h
      | some n =>
        rw [simpR] at h ⊢
        split at h
        · cases h
        · next h1 => rw [hS _ _ _ h1]; exact h
    · intro n st r h
      cases n with
      | nil => exact h
      | cons a as =>
        cases a with
        | none =>
          rw [simpArgs] at h ⊢
          split at h
          · cases h
          · next h1 => rw [hL _ _ _ h1]; exact h
        | some a =>
          rw [simpArgs] at h ⊢
          split at h
          · cases h
          · next h1 =>
            rw [hA _ _ _ h1]
            dsimp only
            split at h
            · cases h
            · next h2 => rw [hL _ _ _ h2]; exact h
    · intro n st r h
      cases n with
      | plural as =>
        rw [simpA] at h ⊢
        split at h
        · cases h
        · next h1 => rw [hPl _ _ _ h1]; exact h
      | abs s =>
        rw [simpA] at h ⊢
        split at h
        · cases h
        · next h1 => rw [hS _ _ _ h1]; exact h
      | _ => exact h
    · intro n st r h
      cases n with
      | nil => exact h
      | cons a as =>
        cases a with
        | none =>
          rw [simpPlural] at h ⊢
          exact hPl _ _ _ h
        | some a =>
          rw [simpPlural] at h ⊢
          split at h
          · cases h
          · next h1 =>
            rw [hA _ _ _ h1]
            dsimp only
            split at h
            · cases h
            · next h2 => rw [hPl _ _ _ h2]; exact h
    · intro n st r h
      cases n with
      | abs s =>
        rw [simpP] at h ⊢
        split at h
        · cases h
        · next h1 => rw [hS _ _ _ h1]; exact h
      | serial l r =>
        rw [simpP] at h ⊢
        split at h
        · cases h
        · next h1 =>
          rw [hP _ _ _ h1]
          dsimp only
          split at h
          · cases h
          · next h2 => rw [hP _ _ _ h2]; exact h
      | swap p pos =>
        rw [simpP] at h ⊢
        split at h
        · cases h
        · next h1 => rw [hP _ _ _ h1]; exact h
      | _ => exact h

theorem simp_mono_le {k k' : Nat} (h : k ≤ k') :
    (∀ n st r, simpS k n st = some r → simpS k' n st = some r) ∧
    (∀ n st r, simpR k n st = some r → simpR k' n st = some r) ∧
    (∀ n st r, simpArgs k n st = some r → simpArgs k' n st = some r) ∧
    (∀ n st r, simpA k n st = some r → simpA k' n st = some r) ∧
    (∀ n st r, simpPlural k n st = some r → simpPlural k' n st = some r) ∧
    (∀ n st r, simpP k n st = some r → simpP k' n st = some r) := by
  induction h with
  | refl => exact ⟨fun _ _ _ h => h, fun _ _ _ h => h, fun _ _ _ h => h, fun _ _ _ h => h,
      fun _ _ _ h => h, fun _ _ _ h => h⟩
  | step _ ih =>
    obtain ⟨a, b, c, d, e, f⟩ := ih
    obtain ⟨a', b', c', d', e', f'⟩ := simp_mono _
    exact ⟨fun _ _ _ h => a' _ _ _ (a _ _ _ h), fun _ _ _ h => b' _ _ _ (b _ _ _ h),
      fun _ _ _ h => c' _ _ _ (c _ _ _ h), fun _ _ _ h => d' _ _ _ (d _ _ _ h),
      fun _ _ _ h => e' _ _ _ (e _ _ _ h), fun _ _ _ h => f' _ _ _ (f _ _ _ h)⟩

/-! ## Clean trees: no predication has a swap at its head -/

def isSwap : Node → Bool
  | .swap _ _ => true
  | _ => false

mutual
def clean : Node → Bool
  | .bind _ _ _ _ r s => cleanO r && clean s
  | .conn _ l r => clean l && clean r
  | .app p as => !isSwap p && clean p && cleanL as
  | .var _ => true
  | .plural as => cleanL as
  | .quote _ _ => true
  | .name _ => true
  | .abs s => clean s
  | .serial l r => clean l && clean r
  | .swap p _ => clean p
def cleanO : Option Node → Bool
  | none => true
  | some n => clean n
def cleanL : List (Option Node) → Bool
  | [] => true
  | a :: as => cleanO a && cleanL as
end

theorem cleanL_iff (as : List (Option Node)) : cleanL as = true ↔ ∀ a ∈ as, cleanO a = true := by
  induction as with
  | nil => simp [cleanL]
  | cons a as ih => simp [cleanL, ih]

def cleanSt (st : SState) : Prop := ∀ e ∈ st.sub, cleanO e.2 = true

/-- Simplification ends, and the result is clean. -/
def TS (n : Node) : Prop := ∀ st, cleanSt st →
  ∃ k r, simpS k n st = some r ∧ clean r.1 = true ∧ cleanSt r.2
def TA (n : Node) : Prop := ∀ st, cleanSt st →
  ∃ k r, simpA k n st = some r ∧ cleanO r.1 = true ∧ cleanSt r.2
def TP (n : Node) : Prop := ∀ st, cleanSt st →
  ∃ k r, simpP k n st = some r ∧ clean r.1 = true ∧ (isSwap n = false → isSwap r.1 = false) ∧
    cleanSt r.2
/-- As the head of a predication. -/
def TH (n : Node) : Prop := ∀ as, (∀ a, some a ∈ as → TA a) → TS (.app n as)
/-- With λ-bindings removed. -/
def TL (n : Node) : Prop := ∀ k as sub, TS (lambdaBind k n as sub).1

theorem TArgs {as : List (Option Node)} (h : ∀ a, some a ∈ as → TA a) (st : SState)
    (hs : cleanSt st) :
    ∃ k r, simpArgs k as st = some r ∧ cleanL r.1 = true ∧ cleanSt r.2 := by
  induction as generalizing st with
  | nil => exact ⟨1, _, rfl, rfl, hs⟩
  | cons a as ih =>
    have h' : ∀ a, some a ∈ as → TA a := fun a ha => h a (by simp [ha])
    cases a with
    | none =>
      obtain ⟨k, r, h1, h2, h3⟩ := ih h' st hs
      refine ⟨k + 1, (none :: r.1, r.2), ?_, ?_, h3⟩
      · rw [simpArgs, h1]
      · simp [cleanL, cleanO, h2]
    | some a =>
      obtain ⟨k1, r1, h1, h2, h3⟩ := h a (by simp) st hs
      obtain ⟨k, r, h4, h5, h6⟩ := ih h' r1.2 h3
      refine ⟨max k1 k + 1, (r1.1 :: r.1, r.2), ?_, ?_, h6⟩
      · rw [simpArgs, (simp_mono_le (Nat.le_max_left k1 k)).2.2.2.1 _ _ _ h1]
        dsimp only
        rw [(simp_mono_le (Nat.le_max_right k1 k)).2.2.1 _ _ _ h4]
      · simp [cleanL, h2, h5]

/-- What a simplified member contributes to a plurality. -/
def flat : Option Node → List (Option Node)
  | some (.plural cs) => cs
  | b => [b]

theorem TPlural {as : List (Option Node)} (h : ∀ a, some a ∈ as → TA a) (st : SState)
    (hs : cleanSt st) :
    ∃ k r, simpPlural k as st = some r ∧ cleanL r.1 = true ∧ cleanSt r.2 := by
  induction as generalizing st with
  | nil => exact ⟨1, _, rfl, rfl, hs⟩
  | cons a as ih =>
    have h' : ∀ a, some a ∈ as → TA a := fun a ha => h a (by simp [ha])
    cases a with
    | none =>
      obtain ⟨k, r, h1, h2, h3⟩ := ih h' st hs
      exact ⟨k + 1, r, by rw [simpPlural, h1], h2, h3⟩
    | some a =>
      obtain ⟨k1, ⟨b, st1⟩, h1, h2, h3⟩ := h a (by simp) st hs
      obtain ⟨k, ⟨bs, st2⟩, h4, h5, h6⟩ := ih h' st1 h3
      have e : simpPlural (max k1 k + 1) (some a :: as) st = some (flat b ++ bs, st2) := by
        rw [simpPlural, (simp_mono_le (Nat.le_max_left k1 k)).2.2.2.1 _ _ _ h1]
        dsimp only
        rw [(simp_mono_le (Nat.le_max_right k1 k)).2.2.2.2.1 _ _ _ h4]
        dsimp only
        unfold flat
        split
        · rfl
        · next hb =>
          split
          · exact absurd rfl (hb _)
          · rfl
      refine ⟨max k1 k + 1, _, e, ?_, h6⟩
      simp only [cleanL_iff] at h5 ⊢
      intro x hx
      rcases List.mem_append.1 hx with hx | hx
      · unfold flat at hx
        split at hx
        · simp only [cleanO, clean, cleanL_iff] at h2
          exact h2 x hx
        · rw [List.mem_singleton] at hx
          rw [hx]; exact h2
      · exact h5 x hx

/-- A binding. -/
theorem TS_bind {q id n f r s} (hr : ∀ x, r = some x → TS x) (hs : TS s) : TS (.bind q id n f r s) := by
  intro st hst
  obtain ⟨k1, r1, h1, h2, h3⟩ : ∃ k r', simpR k r st = some r' ∧ cleanO r'.1 = true ∧ cleanSt r'.2 := by
    cases r with
    | none => exact ⟨1, _, rfl, rfl, hst⟩
    | some x =>
      obtain ⟨k, r', h1, h2, h3⟩ := hr x rfl st hst
      exact ⟨k + 1, (some r'.1, r'.2), by rw [simpR, h1], h2, h3⟩
  generalize hst' : ({ r1.2 with defs := (id, r1.1) :: r1.2.defs } : SState) = st'
  have hc' : cleanSt st' := by subst hst'; exact h3
  cases hsub : subOf st' q r1.1 with
  | some e =>
    have he : clean e.2 = true := by
      unfold subOf at hsub
      split at hsub
      · next heq =>
        rw [heq] at h2
        simp only [cleanO, clean, cleanL, Bool.and_eq_true] at h2
        split at hsub
        · cases hsub
        · dsimp only at hsub
          split at hsub
          · cases hsub
          · next v other hlr =>
            have ho : clean other = true := by
              split at hlr
              · cases hlr; exact h2.2.2.1
              · cases hlr; exact h2.2.1
              · cases hlr
            split at hsub
            · cases hsub
            · split at hsub <;> cases hsub <;> exact ho
      · cases hsub
    obtain ⟨k2, r2, h4, h5, h6⟩ := hs { st' with sub := (e.1, some e.2) :: st'.sub } (by
      intro x hx
      rcases List.mem_cons.1 hx with rfl | hx
      · exact he
      · exact hc' x hx)
    refine ⟨max k1 k2 + 1, r2, ?_, h5, h6⟩
    rw [simpS, (simp_mono_le (Nat.le_max_left k1 k2)).2.1 _ _ _ h1]
    subst hst'
    dsimp only
    rw [hsub]
    exact (simp_mono_le (Nat.le_max_right k1 k2)).1 _ _ _ h4
  | none =>
    obtain ⟨k2, r2, h4, h5, h6⟩ := hs st' hc'
    refine ⟨max k1 k2 + 1, (.bind q id n f r1.1 r2.1, r2.2), ?_, ?_, h6⟩
    · rw [simpS, (simp_mono_le (Nat.le_max_left k1 k2)).2.1 _ _ _ h1]
      dsimp only
      rw [hst', hsub]
      dsimp only
      rw [(simp_mono_le (Nat.le_max_right k1 k2)).1 _ _ _ h4]
    · simp [clean, h2, h5]

theorem swapArgs_clean {as : List (Option Node)} {pos : Nat} (h : cleanL as = true) :
    cleanL (swapArgs as pos) = true := by
  rw [cleanL_iff] at h ⊢
  have hg : ∀ (l : List (Option Node)), (∀ a ∈ l, cleanO a = true) → ∀ i,
      cleanO (l.getD i none) = true := by
    intro l hl i
    rw [List.getD_eq_getElem?_getD]
    cases e : l[i]? with
    | none => rfl
    | some a => exact hl a (List.mem_of_getElem? e)
  have hpad : ∀ a ∈ (if pos ≥ as.length then as ++ List.replicate (pos + 1 - as.length) none
      else as), cleanO a = true := by
    intro a ha
    split at ha
    · rcases List.mem_append.1 ha with ha | ha
      · exact h a ha
      · rw [(List.mem_replicate.1 ha).2]; rfl
    · exact h a ha
  intro a ha
  unfold swapArgs at ha
  dsimp only at ha
  rcases List.mem_or_eq_of_mem_set ha with ha | ha
  · rcases List.mem_or_eq_of_mem_set ha with ha | ha
    · exact hpad a ha
    · rw [ha]; exact hg _ hpad _
  · rw [ha]; exact hg _ hpad _

def isAbs : Node → Bool
  | .abs _ => true
  | _ => false

theorem simpS_app {p : Node} (h : isSwap p = false) (h' : isAbs p = false) (k : Nat)
    (as : List (Option Node)) (st : SState) : simpS (k + 1) (.app p as) st =
      match simpArgs k as st with
      | none => none
      | some (as, st) => match simpP k p st with
        | none => none
        | some (p', st) => some (.app p' as, st) := by
  rw [simpS]
  cases simpArgs k as st with
  | none => rfl
  | some r =>
    cases p with
    | swap _ _ => cases h
    | abs _ => cases h'
    | _ => rfl

/-- The head is neither a swap nor an abstraction that is applied. -/
theorem TH_other {p : Node} (hsw : isSwap p = false) (hab : isAbs p = false) (hp : TP p) :
    TH p := by
  intro as has st hst
  obtain ⟨k1, r1, h1, h2, h3⟩ := TArgs has st hst
  obtain ⟨k2, r2, h4, h5, h6, h7⟩ := hp r1.2 h3
  refine ⟨max k1 k2 + 1, (.app r2.1 r1.1, r2.2), ?_, ?_, h7⟩
  · rw [simpS_app hsw hab, (simp_mono_le (Nat.le_max_left k1 k2)).2.2.1 _ _ _ h1]
    dsimp only
    rw [(simp_mono_le (Nat.le_max_right k1 k2)).2.2.2.2.2 _ _ _ h4]
  · simp [clean, h6 hsw, h5, h2]

theorem lambdaBind_sub : ∀ (k : Nat) (n : Node) (as : List (Option Node))
    (sub : List (Nat × Option Node)), (∀ a ∈ as, cleanO a = true) →
    (∀ e ∈ sub, cleanO e.2 = true) → ∀ e ∈ (lambdaBind k n as sub).2, cleanO e.2 = true
  | 0, _, _, _, _, hs => by simpa [lambdaBind] using hs
  | k + 1, .bind q id n f r s, a :: as, sub, ha, hs => by
    refine lambdaBind_sub k s as ((n, a) :: sub) (fun a h => ha a (by simp [h])) ?_
    intro e he
    rcases List.mem_cons.1 he with rfl | he
    · exact ha _ (by simp)
    · exact hs e he
  | k + 1, n, [], sub, ha, hs => by cases n <;> exact hs
  | k + 1, .conn .., _ :: _, sub, ha, hs => hs
  | k + 1, .app .., _ :: _, sub, ha, hs => hs
  | k + 1, .var _, _ :: _, sub, ha, hs => hs
  | k + 1, .plural _, _ :: _, sub, ha, hs => hs
  | k + 1, .quote _ _, _ :: _, sub, ha, hs => hs
  | k + 1, .name _, _ :: _, sub, ha, hs => hs
  | k + 1, .abs _, _ :: _, sub, ha, hs => hs
  | k + 1, .serial _ _, _ :: _, sub, ha, hs => hs
  | k + 1, .swap _ _, _ :: _, sub, ha, hs => hs

theorem TH_abs {b : Node} (hb : TS b) (hl : TL b) : TH (.abs b) := by
  intro as has st hst
  obtain ⟨k1, r1, h1, h2, h3⟩ := TArgs has st hst
  by_cases hc : lambdas b = 0 ∨ (r1.1.filter (·.isSome)).length ≠ lambdas b
  · obtain ⟨k2, r2, h4, h5, h6⟩ := hb r1.2 h3
    refine ⟨max k1 (k2 + 1) + 1, (.app (.abs r2.1) r1.1, r2.2), ?_, ?_, h6⟩
    · rw [simpS, (simp_mono_le (Nat.le_max_left k1 (k2 + 1))).2.2.1 _ _ _ h1]
      dsimp only
      rw [if_pos hc, (simp_mono_le (Nat.le_max_right k1 (k2 + 1))).2.2.2.2.2 _ _ (.abs r2.1, r2.2)
        (by rw [simpP, h4])]
    · simp [clean, isSwap, h5, h2]
  · obtain ⟨k2, r2, h4, h5, h6⟩ := hl (lambdas b) r1.1 r1.2.sub
      { r1.2 with sub := (lambdaBind (lambdas b) b r1.1 r1.2.sub).2 }
      (lambdaBind_sub _ _ _ _ ((cleanL_iff _).1 h2) h3)
    refine ⟨max k1 k2 + 1, r2, ?_, h5, h6⟩
    rw [simpS, (simp_mono_le (Nat.le_max_left k1 k2)).2.2.1 _ _ _ h1]
    dsimp only
    rw [if_neg hc]
    exact (simp_mono_le (Nat.le_max_right k1 k2)).1 _ _ _ h4

theorem TH_swap {p : Node} {pos : Nat} (hclean : ∀ n, clean n = true → TA n) (hp : TH p) :
    TH (.swap p pos) := by
  intro as has st hst
  obtain ⟨k1, r1, h1, h2, h3⟩ := TArgs has st hst
  have := swapArgs_clean (pos := pos) h2
  obtain ⟨k2, r2, h4, h5, h6⟩ := hp (swapArgs r1.1 pos)
    (fun a ha => hclean a ((cleanL_iff _).1 this _ ha)) r1.2 h3
  refine ⟨max k1 k2 + 1, r2, ?_, h5, h6⟩
  rw [simpS, (simp_mono_le (Nat.le_max_left k1 k2)).2.2.1 _ _ _ h1]
  exact (simp_mono_le (Nat.le_max_right k1 k2)).1 _ _ _ h4

theorem TL_of_TS {n : Node} (h : TS n) (hn : ∀ q id m f r s, n ≠ .bind q id m f r s) : TL n := by
  intro k as sub
  cases k with
  | zero => exact h
  | succ k =>
    unfold lambdaBind
    split
    · exact h
    · exact absurd rfl (hn _ _ _ _ _ _)
    · exact h

/-- The node is clean or, if `G`, it may stand at a place of the given sort. -/
def Ok (G : Bool) (k : Sort3) (n : Node) : Prop := (G = true ∧ sorted k n = true) ∨ clean n = true

theorem okO {G : Bool} {k : Sort3} {r : Option Node}
    (h : (G = true ∧ sortedO k r = true) ∨ cleanO r = true) : ∀ x, r = some x → Ok G k x := by
  rintro x rfl
  simpa [sortedO, cleanO, Ok] using h

theorem okL {G : Bool} {as : List (Option Node)}
    (h : (G = true ∧ sortedL as = true) ∨ cleanL as = true) : ∀ x, some x ∈ as → Ok G .arg x := by
  induction as with
  | nil => simp
  | cons a as ih =>
    intro x hx
    simp only [sortedL, cleanL, Bool.and_eq_true] at h
    rcases List.mem_cons.1 hx with rfl | hx
    · rcases h with h | h
      · exact .inl ⟨h.1, h.2.1⟩
      · exact .inr h.1
    · refine ih ?_ x hx
      rcases h with h | h
      · exact .inl ⟨h.1, h.2.2⟩
      · exact .inr h.2

/-- All of the above, for a node that is clean or, if `G`, for any well-sorted node. -/
theorem simp_total (G : Bool) (hG : G = true → ∀ n, clean n = true → TA n) (n : Node) :
    (Ok G .stmt n → TS n ∧ TL n) ∧ (Ok G .arg n → TA n) ∧ (Ok G .pred n → TP n) ∧
      (Ok G .pred n → G = true ∨ isSwap n = false → TH n) := by
  have leafS : ∀ n : Node, (∀ k st, simpS (k + 1) n st = some (n, st)) → sorted .stmt n = false →
      Ok G .stmt n → TS n := by
    intro n h hs hc st hst
    refine ⟨1, _, h 0 st, ?_, hst⟩
    simpa [Ok, hs] using hc
  have leafA : ∀ n : Node, (∀ k st, simpA (k + 1) n st = some (some n, st)) →
      (sorted .arg n = true → clean n = true) → Ok G .arg n → TA n := by
    intro n h hs hc st hst
    refine ⟨1, _, h 0 st, ?_, hst⟩
    rcases hc with hc | hc
    · exact hs hc.2
    · exact hc
  have leafP : ∀ n : Node, (∀ k st, simpP (k + 1) n st = some (n, st)) →
      (sorted .pred n = true → clean n = true) → Ok G .pred n → TP n := by
    intro n h hs hc st hst
    refine ⟨1, _, h 0 st, ?_, id, hst⟩
    rcases hc with hc | hc
    · exact hs hc.2
    · exact hc
  have leafL : ∀ n : Node, (∀ q id m f r s, n ≠ .bind q id m f r s) → (Ok G .stmt n → TS n) →
      (Ok G .stmt n → TS n ∧ TL n) := fun n hn h hok => ⟨h hok, TL_of_TS (h hok) hn⟩
  have leafH : ∀ n : Node, isSwap n = false → isAbs n = false → (Ok G .pred n → TP n) →
      (Ok G .pred n → G = true ∨ isSwap n = false → TH n) :=
    fun n hn hn' h hok _ => TH_other hn hn' (h hok)
  induction n using Node.induct with
  | bind q id n f r s ihr ihs =>
    have hP : Ok G .pred (.bind q id n f r s) → TP (.bind q id n f r s) :=
      leafP _ (fun _ _ => rfl) (by simp [sorted])
    refine ⟨fun h => ?_, leafA _ (fun _ _ => rfl) (by simp [sorted]), hP,
      leafH _ rfl rfl hP⟩
    have h' : ((G = true ∧ sortedO .stmt r = true) ∨ cleanO r = true) ∧ Ok G .stmt s := by
      rcases h with ⟨g, h⟩ | h
      · simp only [sorted, Bool.and_eq_true] at h
        exact ⟨.inl ⟨g, h.1⟩, .inl ⟨g, h.2⟩⟩
      · simp only [clean, Bool.and_eq_true] at h
        exact ⟨.inr h.1, .inr h.2⟩
    have hr := fun x hx => ((ihr x hx).1 (okO h'.1 x hx)).1
    have hs := ihs.1 h'.2
    refine ⟨TS_bind hr hs.1, ?_⟩
    intro k as sub
    cases k with
    | zero => exact TS_bind hr hs.1
    | succ k =>
      cases as with
      | nil => exact TS_bind hr hs.1
      | cons a as => exact hs.2 k as _
  | conn c l r ihl ihr =>
    have hP : Ok G .pred (.conn c l r) → TP (.conn c l r) :=
      leafP _ (fun _ _ => rfl) (by simp [sorted])
    refine ⟨leafL _ (by simp) fun h => ?_, leafA _ (fun _ _ => rfl) (by simp [sorted]), hP,
      leafH _ rfl rfl hP⟩
    have h' : Ok G .stmt l ∧ Ok G .stmt r := by
      rcases h with ⟨g, h⟩ | h
      · simp only [sorted, Bool.and_eq_true] at h
        exact ⟨.inl ⟨g, h.1⟩, .inl ⟨g, h.2⟩⟩
      · simp only [clean, Bool.and_eq_true] at h
        exact ⟨.inr h.1, .inr h.2⟩
    intro st hst
    obtain ⟨k1, r1, h1, h2, h3⟩ := (ihl.1 h'.1).1 st hst
    obtain ⟨k2, r2, h4, h5, h6⟩ := (ihr.1 h'.2).1 r1.2 h3
    refine ⟨max k1 k2 + 1, (.conn c r1.1 r2.1, r2.2), ?_, by simp [clean, h2, h5], h6⟩
    rw [simpS, (simp_mono_le (Nat.le_max_left k1 k2)).1 _ _ _ h1]
    dsimp only
    rw [(simp_mono_le (Nat.le_max_right k1 k2)).1 _ _ _ h4]
  | app p as ihp ihas =>
    have hP : Ok G .pred (.app p as) → TP (.app p as) :=
      leafP _ (fun _ _ => rfl) (by simp [sorted])
    refine ⟨leafL _ (by simp) fun h => ?_, leafA _ (fun _ _ => rfl) (by simp [sorted]), hP,
      leafH _ rfl rfl hP⟩
    have h' : (G = true ∨ isSwap p = false) ∧ Ok G .pred p ∧
        ((G = true ∧ sortedL as = true) ∨ cleanL as = true) := by
      rcases h with ⟨g, h⟩ | h
      · simp only [sorted, Bool.and_eq_true] at h
        exact ⟨.inl g, .inl ⟨g, h.1⟩, .inl ⟨g, h.2⟩⟩
      · simp only [clean, Bool.and_eq_true, Bool.not_eq_true'] at h
        exact ⟨.inr h.1.1, .inr h.1.2, .inr h.2⟩
    exact ihp.2.2.2 h'.2.1 h'.1 as fun a ha => (ihas a ha).2.1 (okL h'.2.2 a ha)
  | var v =>
    have hP : Ok G .pred (.var v) → TP (.var v) := leafP _ (fun _ _ => rfl) (by simp [clean])
    refine ⟨leafL _ (by simp) (leafS _ (fun _ _ => rfl) rfl), fun _ st hst => ?_, hP,
      leafH _ rfl rfl hP⟩
    cases hl : st.sub.lookup v.n with
    | none => exact ⟨1, (some (.var v), st), by simp [simpA, hl], rfl, hst⟩
    | some a =>
      refine ⟨1, (a, st), by simp [simpA, hl], ?_, hst⟩
      obtain ⟨l1, l2, e, _⟩ := List.lookup_eq_some_iff.1 hl
      exact hst (v.n, a) (by rw [e]; simp)
  | plural as ihas =>
    have hP : Ok G .pred (.plural as) → TP (.plural as) :=
      leafP _ (fun _ _ => rfl) (by simp [sorted])
    refine ⟨leafL _ (by simp) (leafS _ (fun _ _ => rfl) rfl), fun h st hst => ?_, hP,
      leafH _ rfl rfl hP⟩
    have h' : (G = true ∧ sortedL as = true) ∨ cleanL as = true := by
      simpa only [Ok, sorted, clean] using h
    obtain ⟨k, r, h1, h2, h3⟩ := TPlural (fun a ha => (ihas a ha).2.1 (okL h' a ha)) st hst
    exact ⟨k + 1, (some (.plural r.1), r.2), by rw [simpA, h1], h2, h3⟩
  | quote t f =>
    have hP : Ok G .pred (.quote t f) → TP (.quote t f) := leafP _ (fun _ _ => rfl) (by simp [clean])
    exact ⟨leafL _ (by simp) (leafS _ (fun _ _ => rfl) rfl), leafA _ (fun _ _ => rfl) (by simp [clean]),
      hP, leafH _ rfl rfl hP⟩
  | name t =>
    have hP : Ok G .pred (.name t) → TP (.name t) := leafP _ (fun _ _ => rfl) (by simp [clean])
    exact ⟨leafL _ (by simp) (leafS _ (fun _ _ => rfl) rfl), leafA _ (fun _ _ => rfl) (by simp [clean]),
      hP, leafH _ rfl rfl hP⟩
  | abs b ih =>
    have hb : ∀ k, Ok G k (.abs b) → Ok G .stmt b := by
      intro k h
      rcases h with ⟨g, h⟩ | h
      · refine .inl ⟨g, ?_⟩
        cases k
        · cases h
        · exact h
        · exact h
      · exact .inr h
    refine ⟨leafL _ (by simp) (leafS _ (fun _ _ => rfl) rfl), fun h st hst => ?_,
      fun h st hst => ?_, fun h _ => TH_abs (ih.1 (hb _ h)).1 (ih.1 (hb _ h)).2⟩
    · obtain ⟨k, r, h1, h2, h3⟩ := (ih.1 (hb _ h)).1 st hst
      exact ⟨k + 1, (some (.abs r.1), r.2), by rw [simpA, h1], h2, h3⟩
    · obtain ⟨k, r, h1, h2, h3⟩ := (ih.1 (hb _ h)).1 st hst
      exact ⟨k + 1, (.abs r.1, r.2), by rw [simpP, h1], h2, fun _ => rfl, h3⟩
  | serial l r ihl ihr =>
    have hP : Ok G .pred (.serial l r) → TP (.serial l r) := by
      intro h st hst
      have h' : Ok G .pred l ∧ Ok G .pred r := by
        rcases h with ⟨g, h⟩ | h
        · simp only [sorted, Bool.and_eq_true] at h
          exact ⟨.inl ⟨g, h.1⟩, .inl ⟨g, h.2⟩⟩
        · simp only [clean, Bool.and_eq_true] at h
          exact ⟨.inr h.1, .inr h.2⟩
      obtain ⟨k1, r1, h1, h2, _, h3⟩ := ihl.2.2.1 h'.1 st hst
      obtain ⟨k2, r2, h4, h5, _, h6⟩ := ihr.2.2.1 h'.2 r1.2 h3
      refine ⟨max k1 k2 + 1, (.serial r1.1 r2.1, r2.2), ?_, by simp [clean, h2, h5], fun _ => rfl, h6⟩
      rw [simpP, (simp_mono_le (Nat.le_max_left k1 k2)).2.2.2.2.2 _ _ _ h1]
      dsimp only
      rw [(simp_mono_le (Nat.le_max_right k1 k2)).2.2.2.2.2 _ _ _ h4]
    exact ⟨leafL _ (by simp) (leafS _ (fun _ _ => rfl) rfl),
      leafA _ (fun _ _ => rfl) (by simp [sorted]), hP,
      leafH _ rfl rfl hP⟩
  | swap p pos ih =>
    have hp : Ok G .pred (.swap p pos) → Ok G .pred p := by
      intro h
      simpa [Ok, sorted, clean] using h
    refine ⟨leafL _ (by simp) (leafS _ (fun _ _ => rfl) rfl),
      leafA _ (fun _ _ => rfl) (by simp [sorted]), fun h st hst => ?_, fun h hg => ?_⟩
    · obtain ⟨k, r, h1, h2, _, h3⟩ := ih.2.2.1 (hp h) st hst
      exact ⟨k + 1, (.swap r.1 pos, r.2), by rw [simpP, h1], h2, fun h => by simp [isSwap] at h, h3⟩
    · have hg : G = true := by simpa [isSwap] using hg
      exact TH_swap (hG hg) (ih.2.2.2 (hp h) (.inl hg))

/-- Simplification of any well-sorted tree ends. -/
theorem simpS_total (n : Node) (hn : sorted .stmt n = true) (st : SState) (hst : st.sub = []) :
    ∃ k r, simpS k n st = some r := by
  have h0 := simp_total false (by simp)
  have h1 := (simp_total true fun _ n hn => (h0 n).2.1 (.inr hn)) n
  obtain ⟨k, r, h, _⟩ := (h1.1 (.inl ⟨rfl, hn⟩)).1 st (by simp [cleanSt, hst])
  exact ⟨k, r, h⟩

end Verif.Logic
