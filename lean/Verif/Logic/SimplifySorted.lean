/-
The passes of `simplify` keep the tree well-sorted (part of C50).
-/
import Verif.Logic.SimplifyTerm
import Verif.Logic.SimplifyProps
import Verif.Logic.InterpSorted

namespace Verif.Logic
open Verif.Tone (Str)

mutual
theorem sorted_renum (bN : Nat → Nat) (vN : VAddr → Nat) :
    ∀ (n : Node) (k : Sort3), sorted k (renum bN vN n) = sorted k n
  | .bind q id n f r s, k => by
    cases k <;> simp [renum, sorted, sortedO_renum bN vN r, sorted_renum bN vN s]
  | .conn c l r, k => by
    cases k <;> simp [renum, sorted, sorted_renum bN vN l, sorted_renum bN vN r]
  | .app p as, k => by
    cases k <;> simp [renum, sorted, sorted_renum bN vN p, sortedL_renum bN vN as]
  | .var v, k => by cases k <;> simp [renum, sorted]
  | .plural as, k => by cases k <;> simp [renum, sorted, sortedL_renum bN vN as]
  | .quote t f, k => by cases k <;> simp [renum]
  | .name x, k => by cases k <;> simp [renum]
  | .abs s, k => by cases k <;> simp [renum, sorted, sorted_renum bN vN s]
  | .serial l r, k => by
    cases k <;> simp [renum, sorted, sorted_renum bN vN l, sorted_renum bN vN r]
  | .swap p i, k => by cases k <;> simp [renum, sorted, sorted_renum bN vN p]
theorem sortedO_renum (bN : Nat → Nat) (vN : VAddr → Nat) :
    ∀ (n : Option Node) (k : Sort3), sortedO k (renumO bN vN n) = sortedO k n
  | none, k => by simp [renumO]
  | some n, k => by simp [renumO, sortedO, sorted_renum bN vN n]
theorem sortedL_renum (bN : Nat → Nat) (vN : VAddr → Nat) :
    ∀ (n : List (Option Node)), sortedL (renumL bN vN n) = sortedL n
  | [] => by simp [renumL]
  | n :: ns => by simp [renumL, sortedL, sortedO_renum bN vN n, sortedL_renum bN vN ns]
end

mutual
theorem sorted_readAll (σ : St) :
    ∀ (n : Node) (k : Sort3), sorted k (readAll σ n) = sorted k n
  | .bind q id n f r s, k => by
    cases k <;> simp [readAll, sorted, sortedO_readO σ r, sorted_readAll σ s]
  | .conn c l r, k => by
    cases k <;> simp [readAll, sorted, sorted_readAll σ l, sorted_readAll σ r]
  | .app p as, k => by
    cases k <;> simp [readAll, sorted, sorted_readAll σ p, sortedL_readL σ as]
  | .var v, k => by cases k <;> simp [readAll, sorted]
  | .plural as, k => by cases k <;> simp [readAll, sorted, sortedL_readL σ as]
  | .quote t f, k => by cases k <;> simp [readAll]
  | .name x, k => by cases k <;> simp [readAll]
  | .abs s, k => by cases k <;> simp [readAll, sorted, sorted_readAll σ s]
  | .serial l r, k => by
    cases k <;> simp [readAll, sorted, sorted_readAll σ l, sorted_readAll σ r]
  | .swap p i, k => by cases k <;> simp [readAll, sorted, sorted_readAll σ p]
theorem sortedO_readO (σ : St) :
    ∀ (n : Option Node) (k : Sort3), sortedO k (readO σ n) = sortedO k n
  | none, k => by simp [readO]
  | some n, k => by simp [readO, sortedO, sorted_readAll σ n]
theorem sortedL_readL (σ : St) :
    ∀ (n : List (Option Node)), sortedL (readL σ n) = sortedL n
  | [] => by simp [readL]
  | n :: ns => by simp [readL, sortedL, sortedO_readO σ n, sortedL_readL σ ns]
end

mutual
theorem sorted_withHoa : ∀ (n : Node) (b : Option (Nat × Nat)) (k : Sort3),
    sorted k (withHoa b n) = sorted k n
  | .bind q id n f r s, b, k => by
    cases k <;> simp [withHoa, sorted, sortedO_withHoa r, sorted_withHoa s]
  | .conn c l r, b, k => by
    cases k <;> simp [withHoa, sorted, sorted_withHoa l, sorted_withHoa r]
  | .app p [], none, k => by
    cases k <;> simp [withHoa, sorted, sorted_withHoa p]
  | .app p [], some b, k => by
    simp only [withHoa]
    split <;> cases k <;> simp [sorted, sortedL, sortedO, sorted_withHoa p]
  | .app p (a :: as), b, k => by
    cases k <;> simp [withHoa, sorted, sorted_withHoa p, sortedL, sortedA_withHoa a,
      sortedL_withHoa as]
  | .var v, b, k => by cases k <;> simp [withHoa]
  | .plural as, b, k => by cases k <;> simp [withHoa, sorted, sortedL_withHoa as]
  | .quote t f, b, k => by cases k <;> simp [withHoa]
  | .name x, b, k => by cases k <;> simp [withHoa]
  | .abs s, b, k => by cases k <;> simp [withHoa, sorted, sorted_withHoa s]
  | .serial l r, b, k => by
    cases k <;> simp [withHoa, sorted, sorted_withHoa l, sorted_withHoa r]
  | .swap p i, b, k => by cases k <;> simp [withHoa, sorted, sorted_withHoa p]
theorem sortedO_withHoa : ∀ (r : Option Node) (id n : Nat) (k : Sort3),
    sortedO k (withHoaO id n r) = sortedO k r
  | none, _, _, _ => by simp [withHoaO]
  | some r, id, n, k => by simp [withHoaO, sortedO, sorted_withHoa r]
theorem sortedA_withHoa : ∀ (r : Option Node) (k : Sort3),
    sortedO k (withHoaA r) = sortedO k r
  | none, _ => by simp [withHoaA]
  | some r, k => by simp [withHoaA, sortedO, sorted_withHoa r]
theorem sortedL_withHoa : ∀ (r : List (Option Node)), sortedL (withHoaL r) = sortedL r
  | [] => by simp [withHoaL]
  | a :: as => by simp [withHoaL, sortedL, sortedA_withHoa a, sortedL_withHoa as]
end

/-- What `sub` holds are arguments. -/
def SubSorted (st : SState) : Prop := ∀ e ∈ st.sub, sortedO .arg e.2 = true

theorem subSorted_lookup {l : List (Nat × Option Node)} (h : ∀ e ∈ l, sortedO .arg e.2 = true)
    {n : Nat} {a : Option Node} (ha : l.lookup n = some a) : sortedO .arg a = true := by
  induction l with
  | nil => cases ha
  | cons e l ih =>
    rw [List.lookup_cons] at ha
    split at ha
    · cases ha; exact h e (by simp)
    · exact ih (fun e he => h e (by simp [he])) ha

theorem subOf_sorted {s : SState} {q : Quant} {r : Option Node} {e : Nat × Node}
    (h : subOf s q r = some e) (hr : sortedO .stmt r = true) : sorted .arg e.2 = true := by
  unfold subOf at h
  split at h
  · next p left right =>
    simp only [sortedO, sorted, sortedL, Bool.and_true, Bool.true_and, Bool.and_eq_true] at hr
    split at h
    · cases h
    · dsimp only at h
      split at h
      · cases h
      · next v other hlr =>
        have ho : sorted .arg other = true := by
          split at hlr
          · cases hlr; exact hr.2
          · cases hlr; exact hr.1
          · cases hlr
        split at h
        · cases h
        · split at h <;> cases h <;> exact ho
  · cases h

theorem lambdaBind_sorted : ∀ (k : Nat) (n : Node) (as : List (Option Node))
    (sub : List (Nat × Option Node)), sorted .stmt n = true → sortedL as = true →
    (∀ e ∈ sub, sortedO .arg e.2 = true) →
    sorted .stmt (lambdaBind k n as sub).1 = true ∧
    ∀ e ∈ (lambdaBind k n as sub).2, sortedO .arg e.2 = true
  | 0, n, as, sub, h, ha, hsub => by simp only [lambdaBind]; exact ⟨h, hsub⟩
  | k + 1, n, as, sub, h, ha, hsub => by
    unfold lambdaBind
    split
    · next h' => cases h'
    · next h' =>
      cases h'
      simp only [sorted, sortedL, Bool.and_eq_true] at h ha
      refine lambdaBind_sorted k _ _ _ h.2 ha.2 ?_
      intro e he
      rcases List.mem_cons.1 he with rfl | he
      · exact ha.1
      · exact hsub e he
    · exact ⟨h, hsub⟩

theorem sortedL_append {as bs : List (Option Node)} :
    sortedL (as ++ bs) = (sortedL as && sortedL bs) := by
  induction as with
  | nil => simp [sortedL]
  | cons a as ih => simp [sortedL, ih, Bool.and_assoc]

theorem sortedL_mem {as : List (Option Node)} : sortedL as = true ↔ ∀ a ∈ as, sortedO .arg a = true := by
  induction as with
  | nil => simp [sortedL]
  | cons a as ih => simp [sortedL, ih]

theorem swapArgs_sorted {as : List (Option Node)} {pos : Nat} (h : sortedL as = true) :
    sortedL (swapArgs as pos) = true := by
  rw [sortedL_mem] at h ⊢
  have hg : ∀ (l : List (Option Node)), (∀ a ∈ l, sortedO .arg a = true) → ∀ i,
      sortedO .arg (l.getD i none) = true := by
    intro l hl i
    rw [List.getD_eq_getElem?_getD]
    cases e : l[i]? with
    | none => rfl
    | some a => exact hl a (List.mem_of_getElem? e)
  have hpad : ∀ a ∈ (if pos ≥ as.length then as ++ List.replicate (pos + 1 - as.length) none
      else as), sortedO .arg a = true := by
    intro a ha
    split at ha
    · rcases List.mem_append.1 ha with ha | ha
      · exact h a ha
      · rw [(List.mem_replicate.1 ha).2]; rfl
    · exact h a ha
  intro a ha
  unfold swapArgs at ha
  dsimp only at ha
  rcases List.mem_or_eq_of_mem_set ha with ha | ha
  · rcases List.mem_or_eq_of_mem_set ha with ha | ha
    · exact hpad a ha
    · rw [ha]; exact hg _ hpad _
  · rw [ha]; exact hg _ hpad _

/-- The simplifying functions keep sorts. -/
structure SimpSorted (k : Nat) : Prop where
  S : ∀ n st r, simpS k n st = some r → sorted .stmt n = true → SubSorted st →
    sorted .stmt r.1 = true ∧ SubSorted r.2
  R : ∀ n st r, simpR k n st = some r → sortedO .stmt n = true → SubSorted st →
    sortedO .stmt r.1 = true ∧ SubSorted r.2
  L : ∀ n st r, simpArgs k n st = some r → sortedL n = true → SubSorted st →
    sortedL r.1 = true ∧ SubSorted r.2
  A : ∀ n st r, simpA k n st = some r → sorted .arg n = true → SubSorted st →
    sortedO .arg r.1 = true ∧ SubSorted r.2
  Pl : ∀ n st r, simpPlural k n st = some r → sortedL n = true → SubSorted st →
    sortedL r.1 = true ∧ SubSorted r.2
  P : ∀ n st r, simpP k n st = some r → sorted .pred n = true → SubSorted st →
    sorted .pred r.1 = true ∧ SubSorted r.2

theorem simpSorted (k : Nat) : SimpSorted k := by
  induction k with
  | zero =>
    constructor <;> intro n st r h
    · rw [simpS] at h; cases h
    · rw [simpR] at h; cases h
    · rw [simpArgs] at h; cases h
    · rw [simpA] at h; cases h
    · rw [simpPlural] at h; cases h
    · rw [simpP] at h; cases h
  | succ k ih =>
    constructor
    · intro n st r h hn hst
      cases n with
      | bind q id n f r s =>
        simp only [sorted, Bool.and_eq_true] at hn
        rw [simpS] at h
        split at h
        · cases h
        · next r' st' h1 =>
          have g1 := ih.R _ _ _ h1 hn.1 hst
          dsimp only at h g1
          split at h
          · next e he =>
            refine ih.S _ _ _ h hn.2 ?_
            intro x hx
            rcases List.mem_cons.1 hx with rfl | hx
            · exact subOf_sorted he g1.1
            · exact g1.2 x hx
          · split at h
            · cases h
            · next h2 =>
              cases h
              have g2 := ih.S _ _ _ h2 hn.2 g1.2
              exact ⟨by simp [sorted, g1.1, g2.1], g2.2⟩
      | conn c l r =>
        simp only [sorted, Bool.and_eq_true] at hn
        rw [simpS] at h
        split at h
        · cases h
        · next h1 =>
          have g1 := ih.S _ _ _ h1 hn.1 hst
          split at h
          · cases h
          · next h2 =>
            cases h
            have g2 := ih.S _ _ _ h2 hn.2 g1.2
            exact ⟨by simp [sorted, g1.1, g2.1], g2.2⟩
      | app p as =>
        simp only [sorted, Bool.and_eq_true] at hn
        rw [simpS] at h
        split at h
        · cases h
        · next as' st' h1 =>
          have g1 := ih.L _ _ _ h1 hn.2 hst
          split at h
          · refine ih.S _ _ _ h ?_ g1.2
            simp only [sorted] at hn ⊢
            simp [hn.1, swapArgs_sorted g1.1]
          · dsimp only at h
            split at h
            · split at h
              · cases h
              · next h2 =>
                cases h
                have g2 := ih.P _ _ _ h2 hn.1 g1.2
                exact ⟨by simp [sorted, g2.1, g1.1], g2.2⟩
            · next b _ =>
              have hl := lambdaBind_sorted (lambdas b) b as' st'.sub hn.1 g1.1 g1.2
              exact ih.S _ _ _ h hl.1 hl.2
          · split at h
            · cases h
            · next h2 =>
              cases h
              have g2 := ih.P _ _ _ h2 hn.1 g1.2
              exact ⟨by simp [sorted, g2.1, g1.1], g2.2⟩
      | _ => simp [sorted] at hn
    · intro n st r h hn hst
      cases n with
      | none => rw [simpR] at h; cases h; exact ⟨rfl, hst⟩
      | some n =>
        rw [simpR] at h
        split at h
        · cases h
        · next h1 => cases h; exact ih.S _ _ _ h1 hn hst
    · intro n st r h hn hst
      match n with
      | [] => rw [simpArgs] at h; cases h; exact ⟨rfl, hst⟩
      | none :: as =>
        simp only [sortedL, Bool.and_eq_true] at hn
        rw [simpArgs] at h
        split at h
        · cases h
        · next h1 =>
          cases h
          have g := ih.L _ _ _ h1 hn.2 hst
          exact ⟨by simp [sortedL, sortedO, g.1], g.2⟩
      | some a :: as =>
        simp only [sortedL, sortedO, Bool.and_eq_true] at hn
        rw [simpArgs] at h
        split at h
        · cases h
        · next h1 =>
          have g1 := ih.A _ _ _ h1 hn.1 hst
          split at h
          · cases h
          · next h2 =>
            cases h
            have g2 := ih.L _ _ _ h2 hn.2 g1.2
            exact ⟨by simp [sortedL, g1.1, g2.1], g2.2⟩
    · intro n st r h hn hst
      cases n with
      | var v =>
        rw [simpA] at h
        split at h
        · next a ha => cases h; exact ⟨subSorted_lookup hst ha, hst⟩
        · cases h; exact ⟨rfl, hst⟩
      | plural as =>
        rw [simpA] at h
        split at h
        · cases h
        · next h1 =>
          cases h
          exact ih.Pl _ _ _ h1 hn hst
      | abs s =>
        rw [simpA] at h
        split at h
        · cases h
        · next h1 =>
          cases h
          exact ih.S _ _ _ h1 hn hst
      | quote t f =>
        simp only [simpA] at h
        cases h
        exact ⟨rfl, hst⟩
      | _ => simp [sorted] at hn
    · intro n st r h hn hst
      match n with
      | [] => rw [simpPlural] at h; cases h; exact ⟨rfl, hst⟩
      | none :: as =>
        simp only [sortedL, Bool.and_eq_true] at hn
        rw [simpPlural] at h
        exact ih.Pl _ _ _ h hn.2 hst
      | some a :: as =>
        simp only [sortedL, sortedO, Bool.and_eq_true] at hn
        rw [simpPlural] at h
        split at h
        · cases h
        · next h1 =>
          have g1 := ih.A _ _ _ h1 hn.1 hst
          split at h
          · cases h
          · next h2 =>
            have g2 := ih.Pl _ _ _ h2 hn.2 g1.2
            split at h
            · cases h
              refine ⟨?_, g2.2⟩
              have := g1.1
              simp only [sortedO, sorted] at this
              simp [sortedL_append, this, g2.1]
            · cases h
              exact ⟨by simp [sortedL, g1.1, g2.1], g2.2⟩
    · intro n st r h hn hst
      cases n with
      | abs s =>
        rw [simpP] at h
        split at h
        · cases h
        · next h1 =>
          cases h
          exact ih.S _ _ _ h1 hn hst
      | serial l r =>
        simp only [sorted, Bool.and_eq_true] at hn
        rw [simpP] at h
        split at h
        · cases h
        · next h1 =>
          have g1 := ih.P _ _ _ h1 hn.1 hst
          split at h
          · cases h
          · next h2 =>
            cases h
            have g2 := ih.P _ _ _ h2 hn.2 g1.2
            exact ⟨by simp [sorted, g1.1, g2.1], g2.2⟩
      | swap p i =>
        rw [simpP] at h
        split at h
        · cases h
        · next h1 =>
          cases h
          have g := ih.P _ _ _ h1 hn hst
          exact ⟨g.1, g.2⟩
      | name x => simp only [simpP] at h; cases h; exact ⟨rfl, hst⟩
      | var v => simp only [simpP] at h; cases h; exact ⟨rfl, hst⟩
      | _ => simp [sorted] at hn

/-- `simplify` keeps statements. -/
theorem sorted_simplify {k : Nat} {n : Node} {r : Node × List (Nat × Option Node)}
    (h : simplify k n = some r) (hn : sorted .stmt n = true) : sorted .stmt r.1 = true := by
  unfold simplify at h
  dsimp only at h
  split at h
  · cases h
  · next h1 =>
    cases h
    rw [sorted_renum]
    refine ((simpSorted k).S _ _ _ h1 ?_ (by simp [SubSorted])).1
    rw [(addHoa_eq none n).1, sorted_withHoa]
    exact hn

/-- `simplify` ends on every statement, whatever the fuel beyond some amount. -/
theorem simplify_total (n : Node) (hn : sorted .stmt n = true) :
    ∃ k0 r, ∀ k, k0 ≤ k → simplify k n = some r := by
  obtain ⟨k0, r, h⟩ := simpS_total (addHoa none n).1
    (by rw [(addHoa_eq none n).1, sorted_withHoa]; exact hn)
    { sub := [], predVars := predVars (addHoa none n).1, defs := bindDefs (addHoa none n).1 } rfl
  refine ⟨k0, (simplify k0 n).get (by unfold simplify; dsimp only; rw [h]; rfl), fun k hk => ?_⟩
  unfold simplify
  dsimp only
  simp only [(simp_mono_le hk).1 _ _ _ h, h, Option.get_some]

end Verif.Logic
