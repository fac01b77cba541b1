/-
`DedupFails` on the errors of the parser (C64): addresses identify the nodes of their trees, and no
failure is before the one above it.
-/
import Verif.Peg.Dedup
import Verif.Parse.ErrEnd

namespace Verif.Peg
variable {F : Type} {U : Uni} {G : Gram F} {I : Input} {d : Tab (Option Nat × Nat)} {last err : Nat}

/-- Entries of the table are nodes for their offsets. -/
def TabF (t : Tab (Fail (Want F))) : Prop := ∀ p r f, t.get p r = some f → f.pos = p ∧ Forward f

theorem forward_leaf (i n p w) : Forward (.mk i n p w [] : Fail (Want F)) := by
  intro x k hx hk
  cases hx with
  | refl => cases hk
  | kid h _ => cases h

theorem forward_mk {i n p w} {ks : List (Fail (Want F))} (h : ∀ k ∈ ks, p ≤ k.pos ∧ Forward k) : Forward (.mk i n p w ks) := by
  intro x k hx hk
  cases hx with
  | refl => exact (h k hk).1
  | kid h' hx => exact (h _ h').2 x k hx hk

theorem ruleFail_forward {r p : Nat} {o : Option Nat} {kids : List (Fail (Want F))} {i : Nat} (h : ∀ k ∈ kids, p ≤ k.pos ∧ Forward k) :
    (ruleFail G r p o kids i).pos = p ∧ Forward (ruleFail G r p o kids i) := by
  unfold ruleFail
  split
  · exact ⟨rfl, forward_leaf _ _ _ _⟩
  · exact ⟨rfl, forward_mk h⟩

theorem put_tabF {t : Tab (Fail (Want F))} {p r : Nat} {f : Fail (Want F)} (h : TabF t) (hf : f.pos = p ∧ Forward f) :
    TabF (t.put p r f) := by
  intro p' r' g hg
  rw [Tab.get_put] at hg
  split at hg
  · rename_i e
    injection hg with hg
    subst hg
    exact ⟨by rw [hf.1]; exact (e.1).symm, hf.2⟩
  · exact h p' r' g hg

theorem addLeaf_forward {x p : Nat} {w : Want F} {ks : List (Fail (Want F))} {s : FS F} (hx : p ≤ x) :
    (∀ k ∈ (addLeaf err x w ks s).1, k ∈ ks ∨ (p ≤ k.pos ∧ Forward k)) ∧ (addLeaf err x w ks s).2.tab = s.tab := by
  unfold addLeaf
  split
  · refine ⟨fun k hk => ?_, rfl⟩
    rcases List.mem_append.1 hk with hk | hk
    · exact .inl hk
    · rw [List.mem_singleton.1 hk]
      exact .inr ⟨hx, forward_leaf _ _ _ _⟩
  · exact ⟨fun k hk => .inl hk, rfl⟩

theorem tm_fail_ge {t : Term} {p x : Nat} (h : tm U I t p = .inr x) : p ≤ x := by
  cases t <;> simp only [tm] at h
  all_goals split at h
  all_goals repeat' split at h
  all_goals cases h
  all_goals omega

theorem memo_forward {r p : Nat} {s : FS F} {o : Option Nat} {f : Fail (Want F)} (h : failMemo d last err r p s = some (o, f))
    (ht : TabF s.tab) : f.counts = false ∨ (f.pos = p ∧ Forward f) := by
  unfold failMemo at h
  split at h
  · cases h; exact .inl rfl
  · cases hd : d.get p r with
    | none => rw [hd] at h; simp only at h; split at h <;> cases h; exact .inl rfl
    | some v =>
      obtain ⟨o', e⟩ := v
      rw [hd] at h
      simp only at h
      split at h
      · cases h; exact .inl rfl
      · cases hf : s.tab.get p r with
        | none => rw [hf] at h; cases h
        | some g => rw [hf] at h; cases h; exact .inr (ht _ _ _ hf)

theorem addKid_forward {f : Fail (Want F)} {ks : List (Fail (Want F))} {p : Nat} (h : f.counts = false ∨ (f.pos = p ∧ Forward f)) :
    ∀ k ∈ addKid f ks, k ∈ ks ∨ (p ≤ k.pos ∧ Forward k) := by
  intro k hk
  unfold addKid at hk
  split at hk
  · rename_i hc
    rcases List.mem_append.1 hk with hk | hk
    · exact .inl hk
    · rw [List.mem_singleton.1 hk]
      rcases h with h | h
      · rw [h] at hc; cases hc
      · exact .inr ⟨Nat.le_of_eq h.1.symm, h.2⟩
  · exact .inl hk

theorem FRun.forward (hd : AccInv U G I d) {nl : Nat → Bool} (H : ∀ r, nul nl (G.body r) = true → nl r = true) {e p ks s o ks' s'}
    (h : FRun U G I d last err e p ks s o ks' s') : p ≤ I.len → TabF s.tab →
    (∀ k ∈ ks', k ∈ ks ∨ (p ≤ k.pos ∧ Forward k)) ∧ TabF s'.tab := by
  induction h with
  | termOk ht => exact fun _ h => ⟨fun k hk => .inl hk, h⟩
  | termNo ht =>
    intro _ h
    obtain ⟨h1, h2⟩ := addLeaf_forward (tm_fail_ge ht)
    exact ⟨h1, h2 ▸ h⟩
  | memo hm => exact fun _ h => ⟨addKid_forward (memo_forward hm h), h⟩
  | body hm _ ih =>
    intro hp h
    obtain ⟨h1, h2⟩ := ih hp h
    have h3 := fun o i r => ruleFail_forward (G := G) (r := r) (o := o) (i := i) fun k hk => (h1 k hk).resolve_left (by simp)
    exact ⟨addKid_forward (.inr (h3 _ _ _)), put_tabF h2 (h3 _ _ _)⟩
  | seqNo _ ih | altL _ ih | optOk _ ih | optNo _ ih | plusNo _ ih | starNo _ ih | lab _ ih | grp _ ih | act _ ih => exact ih
  | altR _ _ ih ih' =>
    intro hp h
    obtain ⟨h1, h2⟩ := ih hp h
    obtain ⟨h3, h4⟩ := ih' hp h2
    exact ⟨fun k hk => (h3 k hk).elim (h1 k) .inr, h4⟩
  | seqOk ha _ ih ih' | plusOk ha _ ih ih' | starOk ha _ ih ih' =>
    intro hp h
    obtain ⟨h1, h2⟩ := ih hp h
    have hb := FRun.bounds hd H ha hp _ rfl
    obtain ⟨h3, h4⟩ := ih' hb.2.1 h2
    exact ⟨fun k hk => (h3 k hk).elim (h1 k) fun h => .inr ⟨Nat.le_trans hb.1 h.1, h.2⟩, h4⟩
  | notNo _ ih | andNo _ ih =>
    intro hp h
    obtain ⟨_, h2⟩ := ih hp h
    obtain ⟨h3, h4⟩ := addLeaf_forward (Nat.le_refl _)
    exact ⟨h3, h4 ▸ h2⟩
  | notOk _ ih | andOk _ ih => exact fun hp h => ⟨fun k hk => .inl hk, (ih hp h).2⟩

theorem failRule_forward (hd : AccInv U G I d) {nl : Nat → Bool} (H : ∀ r, nul nl (G.body r) = true → nl r = true)
    {n r p s f s'} (h : failRule U G I d last err n r p s = some (f, s')) (hp : p ≤ I.len) (ht : TabF s.tab) :
    Forward f ∧ TabF s'.tab := by
  unfold failRule at h
  split at h
  · rename_i o g hm
    simp only [Option.some.injEq, Prod.mk.injEq] at h
    obtain ⟨rfl, rfl⟩ := h
    refine ⟨?_, ht⟩
    unfold failMemo at hm
    split at hm
    · cases hm; exact forward_leaf _ _ _ _
    · cases hd' : d.get p r with
      | none => rw [hd'] at hm; simp only at hm; split at hm <;> cases hm; exact forward_leaf _ _ _ _
      | some v =>
        obtain ⟨o', e⟩ := v
        rw [hd'] at hm
        simp only at hm
        split at hm
        · cases hm; exact forward_leaf _ _ _ _
        · cases hf : s.tab.get p r with
          | none => rw [hf] at hm; cases hm
          | some g => rw [hf] at hm; cases hm; exact (ht _ _ _ hf).2
  · split at h
    · cases h
    · rename_i o kids s1 hx
      simp only [Option.some.injEq, Prod.mk.injEq] at h
      obtain ⟨rfl, rfl⟩ := h
      obtain ⟨h1, h2⟩ := FRun.forward hd H (failM_run _ _ _ _ _ _ _ _ _ _ _ _ _ _ hx) hp ht
      have h3 := ruleFail_forward (G := G) (r := r) (o := o) (i := s1.next) fun k hk => (h1 k hk).resolve_left (fun h => by cases h)
      exact ⟨h3.2, put_tabF h2 h3⟩

end Verif.Peg

namespace Verif.Parse
open Verif.AST Verif.Peg
variable {U : Uni} {b : Bytes}

/-- What holds of the parser between calls. -/
structure DInv (U : Uni) (b : Bytes) (s : EP) : Prop where
  einv : EInv U b s
  tab : TabF s.fs.tab

theorem dinv_new : DInv U b newEP := ⟨einv_new, fun p r f h => by simp [newEP] at h⟩

theorem callE_forward (c : Call) (s : EP) (hs : DInv U b s) : DInv U b (callE U b c s).2.2 ∧
    ∀ e, (callE U b c s).2.1 = some e → Consistent e.tree ∧ Forward e.tree := by
  have hE := (callE_ok c s hs.einv).1
  have hp := (call_fresh U b c s.ps hs.einv.ps).2
  obtain ⟨P, h1, h2⟩ := hs.einv.pool
  unfold callE at hE ⊢
  split
  · rename_i k ps hcall
    rw [hcall] at hp hE
    simp only at hE
    cases hf : failRule U toaq (.ofBytes b) ps.as.tab ps.as.last k (fuel b) rFull 0 s.fs with
    | none =>
      rw [hf] at hE
      exact ⟨⟨hE, hs.tab⟩, fun e he => by cases he⟩
    | some v =>
      obtain ⟨f, fs⟩ := v
      rw [hf] at hE
      obtain ⟨P', i1, i2, i3⟩ := failRule_pool (bnd_closed hp.as) bnd_makes hf .zero h1 h2
      have hF := failRule_forward hp.as ranked.nul hf (Nat.zero_le _) hs.tab
      refine ⟨⟨hE, hF.2⟩, fun e he => ?_⟩
      simp only [Option.map_eq_some_iff] at he
      obtain ⟨r, _, rfl⟩ := he
      refine ⟨?_, hF.1⟩
      rcases i3 with rfl | i3
      · exact noFail_consistent _
      · exact i1.consistent i3
  · rename_i o ps hne hcall
    rw [hcall] at hp
    exact ⟨⟨⟨hp, P, h1, h2⟩, hs.tab⟩, fun e he => by cases he⟩

/-- C64. The trees of all errors, whatever was called before, are as `C64_firsts`, `C64_once` and
`C64_offset` require: so in what is printed of an error every failure occurs once, and the offset of the
error is the same. -/
theorem C64_errors (U : Uni) (b : Bytes) (cs : List Call) (o : Out) (e : SynErr) (h : (o, some e) ∈ callsE U b cs newEP) :
    Consistent e.tree ∧ Forward e.tree ∧ ((nodes (dedupFails e.tree)).map Fail.id).Nodup ∧
    (nodes (dedupFails e.tree)).map Fail.shape = (firsts (nodes e.tree)).map Fail.shape ∧
    byteOffset (dedupFails e.tree) = byteOffset e.tree := by
  suffices H : ∀ s, DInv U b s → ∀ cs, (o, some e) ∈ callsE U b cs s → Consistent e.tree ∧ Forward e.tree by
    obtain ⟨h1, h2⟩ := H newEP dinv_new cs h
    exact ⟨h1, h2, (C64_once _ h1).1, C64_firsts _ h1, C64_offset _ h1 h2⟩
  intro s hs cs
  induction cs generalizing s with
  | nil => intro h; cases h
  | cons c cs ih =>
    intro h
    obtain ⟨h1, h2⟩ := callE_forward c s hs
    rcases List.mem_cons.1 h with h | h
    · injection h with _ h
      exact h2 e h.symm
    · exact ih _ h1 h

/-- Numbers of nodes and of deepest leaves, before and after `DedupFails`. -/
def counts (x : Out × Option SynErr) : Option (Nat × Nat × Nat × Nat) := x.2.map fun e =>
  ((nodes e.tree).length, (nodes (dedupFails e.tree)).length, (leafFails e.tree).length, (leafFails (dedupFails e.tree)).length)

example : (runE "jai? x" [.tree]).map counts = [some (305, 28, 1, 3)] := by decide +kernel

/-- C64 is violated as to what was wanted: for this text one thing was wanted where the error is, and after
`DedupFails` the tree says that there are two more failures there, which want nothing. -/
theorem C64_refuted : ∃ (U : Uni) (b : Bytes) (o : Out) (e : SynErr), callsE U b [.tree] newEP = [(o, some e)] ∧
    (leafFails e.tree).length = 1 ∧ (leafFails (dedupFails e.tree)).length = 3 := by
  have h : (runE "jai? x" [.tree]).map counts = [some (305, 28, 1, 3)] := by decide +kernel
  obtain ⟨⟨o, e⟩, h1, h2⟩ := List.map_eq_singleton_iff.1 h
  cases e with
  | none => cases h2
  | some e =>
    simp only [counts, Option.map_some, Option.some.injEq, Prod.mk.injEq] at h2
    exact ⟨_, _, o, e, h1, h2.2.2.1, h2.2.2.2⟩

end Verif.Parse
