/-
C16, C19, C20: calls on a parser terminate, and the memo tables do not change their results.
-/
import Verif.Parse.Parser
import Verif.Parse.Check

namespace Verif.Parse
open Verif.AST Verif.Peg

variable (U : Uni) (b : Bytes)

theorem invX_mono {F E : Type} {U : Uni} {G : Gram F} {I : Input} {A : Alg F E}
    {d d' : Tab (Option Nat × Nat)} {t : Tab A.X} (h : InvX U G I A d t) (hd : d.le d') :
    InvX U G I A d' t := fun p r x hx => ⟨(h p r x hx).1, Tab.le_some hd (h p r x hx).2⟩

/-- The tables hold results of the functions without tables. -/
structure PInv (s : PS) : Prop where
  as : AccInv U toaq (.ofBytes b) s.as.tab
  node : InvX U toaq (.ofBytes b) (nodeAlg b) s.as.tab s.node
  act : InvX U toaq (.ofBytes b) (actAlg (.ofBytes b)) s.as.tab s.act

theorem pinv_new : PInv U b newParser := ⟨inv_empty _ _ _, invX_empty _ _ _ _ _, invX_empty _ _ _ _ _⟩

/-- The Accepts function of a rule. -/
theorem accM_run (r p : Nat) (hp : p ≤ b.length) (s : AS) (hs : AccInv U toaq (.ofBytes b) s.tab) :
    ∃ v s', accM U toaq (.ofBytes b) (fuel b) (.ref r) p 0 s = some (v, s') ∧
      acc U toaq (.ofBytes b) (fuel b) (.ref r) p 0 = some v ∧
      AccInv U toaq (.ofBytes b) s'.tab ∧ s.tab.le s'.tab ∧
      ∀ r' q, Vis U toaq (.ofBytes b) (.ref r) p r' q → s'.tab.get q r' ≠ none := by
  have h0 : acc U toaq (.ofBytes b) (fuel b) (.ref r) p 0 ≠ none := acc_total_ref U toaq (.ofBytes b) ranked r p 0 hp
  have h1 := accM_total U toaq (.ofBytes b) (fuel b) (.ref r) p 0 s hs h0
  cases h2 : accM U toaq (.ofBytes b) (fuel b) (.ref r) p 0 s with
  | none => exact absurd h2 h1
  | some w =>
    obtain ⟨v, s'⟩ := w
    have ok := accM_ok U toaq (.ofBytes b) _ _ _ _ _ _ _ h2 hs
    refine ⟨v, s', rfl, ?_, ok.inv, ok.le, ok.vis⟩
    cases h3 : acc U toaq (.ofBytes b) (fuel b) (.ref r) p 0 with
    | none => exact absurd h3 h0
    | some v' =>
      obtain ⟨m, hm⟩ := ok.res
      rw [acc_det U toaq (.ofBytes b) hm h3]

/-- The Node or Action function of a rule. -/
theorem evM_run (A : Alg Act Err) (r p : Nat) (hp : p ≤ b.length) (d : Tab (Option Nat × Nat))
    (hd : AccInv U toaq (.ofBytes b) d) (hv : ∀ r' q, Vis U toaq (.ofBytes b) (.ref r) p r' q → d.get q r' ≠ none)
    (t : Tab A.X) (ht : InvX U toaq (.ofBytes b) A d t) :
    ∃ v t', evM U toaq (.ofBytes b) A d (fuel b) (.ref r) p t = some (v, t') ∧
      ev U toaq (.ofBytes b) A (fuel b) (.ref r) p = some v ∧ InvX U toaq (.ofBytes b) A d t' := by
  have h0 : ev U toaq (.ofBytes b) A (fuel b) (.ref r) p ≠ none :=
    ev_total U toaq (.ofBytes b) A (acc_total_ref U toaq (.ofBytes b) ranked r p 0 hp)
  have h1 := evM_total U toaq (.ofBytes b) A d hd (fuel b) (.ref r) p t ht hv h0
  cases h2 : evM U toaq (.ofBytes b) A d (fuel b) (.ref r) p t with
  | none => exact absurd h2 h1
  | some w =>
    obtain ⟨v, t'⟩ := w
    obtain ⟨⟨m, hm⟩, hi⟩ := evM_ok U toaq (.ofBytes b) A d hd _ _ _ _ _ _ h2 ht hv
    refine ⟨v, t', rfl, ?_, hi⟩
    cases h3 : ev U toaq (.ofBytes b) A (fuel b) (.ref r) p with
    | none => exact absurd h3 h0
    | some v' => rw [ev_det U toaq (.ofBytes b) A hm h3]

theorem call_fresh (c : Call) (s : PS) (hs : PInv U b s) :
    (call U b c s).1 = fresh U b c ∧ PInv U b (call U b c s).2 := by
  cases c with
  | tree =>
    obtain ⟨v, s', h1, h2, h3, h4, h5⟩ := accM_run U b rFull 0 (Nat.zero_le _) s.as hs.as
    simp only [call, callTree, fresh, h1, h2]
    rcases v with ⟨_ | q, e⟩
    · exact ⟨rfl, h3, invX_mono hs.node h4, invX_mono hs.act h4⟩
    · obtain ⟨v, t', h6, h7, h8⟩ := evM_run U b (nodeAlg b) rFull 0 (Nat.zero_le _) s'.tab h3 h5 s.node (invX_mono hs.node h4)
      simp only [h6, h7]
      rcases v with ⟨q', _ | ⟨t, _ | ⟨t2, l⟩⟩⟩ | _ | e
      · exact ⟨rfl, h3, h8, invX_mono hs.act h4⟩
      · exact ⟨rfl, h3, invX_empty _ _ _ _ _, invX_mono hs.act h4⟩
      · exact ⟨rfl, h3, h8, invX_mono hs.act h4⟩
      · exact ⟨rfl, h3, h8, invX_mono hs.act h4⟩
      · exact ⟨rfl, h3, h8, invX_mono hs.act h4⟩
  | text =>
    obtain ⟨v, s', h1, h2, h3, h4, h5⟩ := accM_run U b rFull 0 (Nat.zero_le _) s.as hs.as
    simp only [call, callText, fresh, h1, h2]
    rcases v with ⟨_ | q, e⟩
    · exact ⟨rfl, h3, invX_mono hs.node h4, invX_mono hs.act h4⟩
    · obtain ⟨v, t', h6, h7, h8⟩ := evM_run U b (actAlg (.ofBytes b)) rFull 0 (Nat.zero_le _) s'.tab h3 h5 s.act (invX_mono hs.act h4)
      simp only [h6, h7]
      rcases v with ⟨q', ⟨v, l⟩⟩ | _ | e
      · cases v <;> first
          | exact ⟨rfl, h3, invX_mono hs.node h4, invX_empty _ _ _ _ _⟩
          | exact ⟨rfl, h3, invX_mono hs.node h4, h8⟩
      · exact ⟨rfl, h3, invX_mono hs.node h4, h8⟩
      · exact ⟨rfl, h3, invX_mono hs.node h4, h8⟩
  | word offs =>
    simp only [call, callWord, fresh]
    split
    · rename_i ho
      obtain ⟨v, s', h1, h2, h3, h4, h5⟩ := accM_run U b rWord offs.toNat (by omega) s.as hs.as
      simp only [h1, h2]
      rcases v with ⟨_ | q, e⟩
      · exact ⟨rfl, h3, invX_mono hs.node h4, invX_mono hs.act h4⟩
      · obtain ⟨v, t', h6, h7, h8⟩ := evM_run U b (actAlg (.ofBytes b)) rWord offs.toNat (by omega) s'.tab h3 h5 s.act (invX_mono hs.act h4)
        simp only [h6, h7]
        rcases v with ⟨q', ⟨v, l⟩⟩ | _ | e
        · cases v <;> first
            | exact ⟨rfl, h3, invX_empty _ _ _ _ _, h8⟩
            | exact ⟨rfl, h3, invX_mono hs.node h4, h8⟩
        · exact ⟨rfl, h3, invX_mono hs.node h4, h8⟩
        · exact ⟨rfl, h3, invX_mono hs.node h4, h8⟩
    · exact ⟨rfl, hs⟩

theorem calls_fresh (cs : List Call) (s : PS) (hs : PInv U b s) : calls U b cs s = cs.map (fresh U b) := by
  induction cs generalizing s with
  | nil => rfl
  | cons c cs ih =>
    obtain ⟨h1, h2⟩ := call_fresh U b c s hs
    simp only [calls, List.map, h1, ih _ h2]

/-- C20. Whatever was called before on the same parser, a call does what it does without memo
tables. -/
theorem C20_memo_transparent (cs : List Call) : calls U b cs newParser = cs.map (fresh U b) :=
  calls_fresh U b cs newParser (pinv_new U b)

/-- C16. No call on a parser needs a call depth above a fixed multiple of the length of the text, whatever was called before. -/
theorem C16_terminates (cs : List Call) (o : Out) (h : o ∈ calls U b cs newParser) : o ≠ .diverge := by
  rw [C20_memo_transparent] at h
  obtain ⟨c, _, rfl⟩ := List.mem_map.1 h
  have hacc : ∀ r p, p ≤ b.length → acc U toaq (.ofBytes b) (fuel b) (.ref r) p 0 ≠ none :=
    fun r p hp => acc_total_ref U toaq (.ofBytes b) ranked r p 0 hp
  have hev : ∀ (A : Alg Act Err) r p, p ≤ b.length → ev U toaq (.ofBytes b) A (fuel b) (.ref r) p ≠ none :=
    fun A r p hp => ev_total U toaq (.ofBytes b) A (hacc r p hp)
  cases c with
  | tree =>
    simp only [fresh]
    split
    · rename_i h; exact absurd h (hacc _ _ (Nat.zero_le _))
    · simp
    · split
      · simp
      · simp
      · rename_i h; exact absurd h (hev _ _ _ (Nat.zero_le _))
  | text =>
    simp only [fresh]
    split
    · rename_i h; exact absurd h (hacc _ _ (Nat.zero_le _))
    · simp
    · split
      · simp
      · simp
      · rename_i h; exact absurd h (hev _ _ _ (Nat.zero_le _))
  | word offs =>
    simp only [fresh]
    split
    · split
      · rename_i h; exact absurd h (hacc _ _ (by omega))
      · simp
      · split
        · simp
        · simp
        · rename_i h; exact absurd h (hev _ _ _ (by omega))
    · simp

/-- The bound is 2193 nested calls per byte. -/
theorem fuel_eq : fuel b = (b.length + 1) * 2193 := by simp [fuel, enough, rankBound, depthBound]

/-- In a run of rule `r` at offset `p`, rule `r'` is called before anything is read, directly or by rules called
before anything is read. -/
inductive Leads (I : Input) : Nat → Nat → Nat → Prop
  | call {r p r'} : Vis U toaq I (toaq.body r) p r' p → Leads I p r r'
  | trans {r p r' r''} : Leads I p r r' → Leads I p r' r'' → Leads I p r r''

theorem vis_le {I : Input} {e : Expr Act} {p r q} (h : Vis U toaq I e p r q) (hp : p ≤ I.len) : p ≤ q := by
  have step : ∀ {a : Expr Act} {p m}, p ≤ I.len → Recog U toaq I a p (some m) → p ≤ m ∧ m ≤ I.len := by
    intro a p m hp ⟨n, e, e', h⟩
    exact (acc_bounds U toaq I n a p e _ hp h).1 m rfl
  induction h with
  | ref => exact Nat.le_refl _
  | seqL _ ih | altL _ ih | opt _ ih | plusL _ ih | starL _ ih | not _ ih | and _ ih | lab _ ih | grp _ ih
  | act _ ih | altR _ _ ih => exact ih hp
  | seqR hr _ ih | plusR hr _ ih | starR hr _ ih =>
    have h1 := step hp hr
    exact Nat.le_trans h1.1 (ih h1.2)

theorem vis_rank {I : Input} {e : Expr Act} {p r q k} (h : Vis U toaq I e p r q) (hp : p ≤ I.len) (hq : q = p)
    (hl : lr nulls.get ranks.get k e = true) : ranks.get r < k := by
  have step : ∀ {a : Expr Act} {p m}, p ≤ I.len → Recog U toaq I a p (some m) →
      m ≤ I.len ∧ (p < m ∨ m = p ∧ nul nulls.get a = true) := by
    intro a p m hp ⟨n, e, e', h⟩
    have h1 := (acc_bounds U toaq I n a p e _ hp h).1 m rfl
    refine ⟨h1.2, ?_⟩
    cases hn : nul nulls.get a with
    | true => simp only [and_true]; omega
    | false => exact .inl (acc_progress U toaq I ranked.nul n a p e m e' hp hn h)
  induction h with
  | ref => simpa [lr] using hl
  | seqL _ ih | altL _ ih =>
    simp only [lr, Bool.and_eq_true] at hl
    exact ih hp hq hl.1
  | altR _ _ ih =>
    simp only [lr, Bool.and_eq_true] at hl
    exact ih hp hq hl.2
  | opt _ ih | plusL _ ih | starL _ ih | not _ ih | and _ ih | lab _ ih | grp _ ih | act _ ih => exact ih hp hq hl
  | seqR hr hv ih =>
    obtain ⟨hm, h1 | ⟨rfl, h1⟩⟩ := step hp hr
    · have := vis_le U hv hm; omega
    · simp only [lr, Bool.and_eq_true, h1, Bool.not_true, Bool.false_or] at hl
      exact ih hm hq hl.2
  | plusR hr hv ih | starR hr hv ih =>
    obtain ⟨hm, h1 | ⟨rfl, h1⟩⟩ := step hp hr
    · have := vis_le U hv hm; omega
    · exact ih hm hq hl

/-- C16. No rule calls itself, directly or indirectly, before reading something. -/
theorem C16_no_left_recursion (I : Input) (p r : Nat) (hp : p ≤ I.len) : ¬ Leads U I p r r := by
  have key : ∀ {r r'}, Leads U I p r r' → ranks.get r' < ranks.get r := by
    intro r r' h
    induction h with
    | call hv => exact vis_rank U hv hp rfl (ranked.lr _)
    | trans _ _ h1 h2 => have := h1 hp; have := h2 hp; omega
  intro h
  exact Nat.lt_irrefl _ (key h)

/-- C19. On one parser, in any order of calls, `Tree` returns an error if and only if `Text` does, and
it is the same error. -/
theorem C19_tree_text_agree (cs : List Call) (i j : Nat) (hi : cs[i]? = some .tree) (hj : cs[j]? = some .text) (e : Nat) :
    (calls U b cs newParser)[i]? = some (.err e) ↔ (calls U b cs newParser)[j]? = some (.err e) := by
  rw [C20_memo_transparent, List.getElem?_map, List.getElem?_map, hi, hj]
  simp only [Option.map_some, Option.some.injEq, fresh]
  cases acc U toaq (.ofBytes b) (fuel b) (.ref rFull) 0 0 with
  | none => simp
  | some v =>
    rcases v with ⟨_ | q, e'⟩
    · simp
    · simp only
      constructor <;> intro h <;> split at h <;> simp at h

end Verif.Parse
