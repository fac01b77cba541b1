/-
Errors at the end of the text, and errors of `Word`.
-/
import Verif.Parse.ErrProps
import Verif.Peg.FailMisc
import Verif.Parse.Examples

namespace Verif.Parse
open Verif.AST Verif.Peg
open Verif.Tone (Str)

variable {U : Uni} {b : Bytes}

/-! ### Checks of the grammar -/

/-- The rules other than `full_text`. -/
def notFull (r : Nat) : Bool := r != 0

/-- The rules other than `full_text`, `text`, `word_end` (132, only called in lookaheads) and `EOF`. -/
def inner (r : Nat) : Bool := r != 0 && r != 1 && r != 132 && r != 224

def ruleE (r : Nat) : Bool :=
  refsIn notFull (bodies.get r) && (!inner r || refsOut inner (bodies.get r)) &&
  (!nameds.get r || nearR toaq 3 r) && (!nameds.get r || !inner r || !nulls.get r)

theorem ruleE_table : (List.range 403).all ruleE = true := by decide +kernel

theorem boundsE : nameds.bound ≤ 402 := by decide +kernel

theorem nearR_ge (n r : Nat) (hr : ¬ r < 403) : nearR toaq n r = nearR toaq n 402 := by
  cases n with
  | zero => rfl
  | succ n =>
    change near _ (bodies.get r) = near _ (bodies.get 402)
    rw [bodies.get_ge r 402 (by have := bounds.1; omega) (by have := bounds.1; omega)]

theorem ruleE_ok (r : Nat) : ruleE r = true := by
  have h := List.all_eq_true.1 ruleE_table
  by_cases hr : r < 403
  · exact h r (List.mem_range.2 hr)
  · have h402 := h 402 (List.mem_range.2 (by decide))
    have hi : inner r = inner 402 := by
      have : inner 402 = true := by decide
      rw [this]
      simp [inner]
      omega
    unfold ruleE at h402 ⊢
    rw [nearR_ge _ _ hr, hi, bodies.get_ge r 402 (by have := bounds.1; omega) (by have := bounds.1; omega),
      nulls.get_ge r 402 (by have := bounds.2.1; omega) (by have := bounds.2.1; omega),
      nameds.get_ge r 402 (by have := boundsE; omega) (by have := boundsE; omega)]
    exact h402

theorem refs_notFull (r : Nat) : refsIn notFull (toaq.body r) = true := by
  have := ruleE_ok r
  simp only [ruleE, Bool.and_eq_true] at this
  exact this.1.1.1

theorem refs_inner (r : Nat) (h : inner r = true) : refsOut inner (toaq.body r) = true := by
  have := ruleE_ok r
  simp only [ruleE, Bool.and_eq_true] at this
  have h' := this.1.1.2
  rw [h] at h'
  exact h'

theorem named_near (r : Nat) (h : toaq.named r = true) : nearR toaq 3 r = true := by
  have := ruleE_ok r
  simp only [ruleE, Bool.and_eq_true] at this
  have h' : nameds.get r = true := h
  simpa [h'] using this.1.2

theorem named_nul (r : Nat) (h : toaq.named r = true) (hi : inner r = true) : nulls.get r = false := by
  have := ruleE_ok r
  simp only [ruleE, Bool.and_eq_true] at this
  have h' : nameds.get r = true := h
  simpa [h', hi] using this.2

theorem body0 : toaq.body 0 = .act .keep (.seq (.lab (.ref 1)) (.ref 224)) := by decide +kernel
theorem body1 : toaq.body 1 =
    .act .text (.seq (.lab (.opt (.ref 73))) (.seq (.lab (.opt (.ref 2))) (.opt (.ref 224)))) := by decide +kernel
theorem body224 : toaq.body 224 = .not (.term .any) := by decide +kernel
theorem named0 : toaq.named 0 = false := by decide +kernel
theorem named1 : toaq.named 1 = false := by decide +kernel
theorem named224 : toaq.named 224 = true := by decide +kernel

/-! ### What the Accepts functions of `full_text` do -/

/-- `EOF`. -/
theorem eof_acc {m p er v} (h : acc U toaq (.ofBytes b) m (.ref 224) p er = some v) :
    v.2 = max er (p + 1) ∧ (∀ q, v.1 = some q → q = p) ∧ (b.length ≤ p → v.1 = some p) := by
  cases m with
  | zero => cases h
  | succ m =>
    rw [acc_s] at h
    simp only [accStep, body224, named224] at h
    cases m with
    | zero => simp only [acc_0] at h; cases h
    | succ m =>
      rw [acc_s] at h
      simp only [accStep] at h
      cases m with
      | zero => simp only [acc_0] at h; cases h
      | succ m =>
        rw [acc_s] at h
        simp only [accStep] at h
        cases ht : tm U (.ofBytes b) .any p with
        | inl q =>
          rw [ht] at h
          cases h
          refine ⟨by simp only; omega, fun q hq => (by cases hq), fun hp => ?_⟩
          have hr : (Input.ofBytes b).rune p = none := by
            unfold Input.rune; rw [if_neg (by change ¬ p < b.length; omega)]
          simp [tm, hr] at ht
        | inr x =>
          rw [ht] at h
          simp only [if_true] at h
          cases h
          exact ⟨by simp, fun q hq => by cases hq; rfl, fun _ => rfl⟩

/-- What `text` does. -/
theorem text_acc {m v} (h : acc U toaq (.ofBytes b) m (.ref 1) 0 0 = some v) :
    ∃ n1 o1 e1 n2 o2 e2, acc U toaq (.ofBytes b) n1 (.ref 73) 0 0 = some (o1, e1) ∧
      acc U toaq (.ofBytes b) n2 (.ref 2) (o1.getD 0) e1 = some (o2, e2) ∧
      v = (some (o2.getD (o1.getD 0)), max e2 (o2.getD (o1.getD 0) + 1)) := by
  obtain ⟨o, e⟩ := v
  obtain ⟨m', e', h', hc⟩ := acc_ref_body h
  have he : e = e' := by
    rcases hc with hc | hc
    · rw [named1] at hc; simp at hc
    · exact hc.2
  subst he
  rw [body1] at h'
  obtain ⟨_, h'⟩ := acc_act_inv h'
  rcases acc_seq_inv h' with ⟨_, e1, h1, hv⟩ | ⟨k, q1, e1, h1, h2⟩
  · obtain ⟨_, h1⟩ := acc_lab_inv h1
    obtain ⟨_, _, _, h1⟩ := acc_opt_inv h1
    cases h1
  · obtain ⟨_, h1⟩ := acc_lab_inv h1
    obtain ⟨n1, o1, h1, hq1⟩ := acc_opt_inv h1
    simp only [Option.some.injEq] at hq1
    subst hq1
    rcases acc_seq_inv h2 with ⟨_, e2, h2, hv⟩ | ⟨k, q2, e2, h2, h3⟩
    · obtain ⟨_, h2⟩ := acc_lab_inv h2
      obtain ⟨_, _, _, h2⟩ := acc_opt_inv h2
      cases h2
    · obtain ⟨_, h2⟩ := acc_lab_inv h2
      obtain ⟨n2, o2, h2, hq2⟩ := acc_opt_inv h2
      simp only [Option.some.injEq] at hq2
      subst hq2
      obtain ⟨n3, o3, h3, hq3⟩ := acc_opt_inv h3
      obtain ⟨i1, i2, _⟩ := eof_acc h3
      simp only at i1 i2 hq3
      refine ⟨n1, o1, e1, n2, o2, e2, h1, h2, ?_⟩
      rw [hq3, i1]
      cases o3 with
      | none => rfl
      | some q => rw [i2 q rfl]; rfl

/-- What `full_text` does when it fails. -/
theorem full_acc {m E} (h : acc U toaq (.ofBytes b) m (.ref 0) 0 0 = some (none, E)) :
    ∃ n v q, acc U toaq (.ofBytes b) n (.ref 1) 0 0 = some v ∧ v.1 = some q ∧ E = max v.2 (q + 1) ∧ q < b.length := by
  obtain ⟨m', e', h', hc⟩ := acc_ref_body h
  have he : E = e' := by
    rcases hc with hc | hc
    · rw [named0] at hc; simp at hc
    · exact hc.2
  subst he
  rw [body0] at h'
  obtain ⟨_, h'⟩ := acc_act_inv h'
  rcases acc_seq_inv h' with ⟨_, e1, h1, hv⟩ | ⟨k, q, e1, h1, h2⟩
  · obtain ⟨_, h1⟩ := acc_lab_inv h1
    obtain ⟨_, _, _, _, _, _, _, _, h1⟩ := text_acc h1
    cases h1
  · obtain ⟨n, h1⟩ := acc_lab_inv h1
    obtain ⟨i1, _, i3⟩ := eof_acc h2
    refine ⟨n, _, q, h1, rfl, i1, ?_⟩
    by_cases hq : q < b.length
    · exact hq
    · have := i3 (by omega); cases this

/-! ### What the Fail functions of `full_text` do -/

/-- A node in the tree of an error at the end of the text. -/
def NodeEnd (U : Uni) (b : Bytes) (f : Fail (Want Act)) : Prop :=
  Bnd (.ofBytes b) f.pos ∧ ∀ w, f.want = some w → Unmet U b f.pos w ∧
    (f.pos = b.length ∨ (f.pos < b.length ∧ runeEnd (.ofBytes b) f.pos = b.length ∧ ∃ r, w = .name r))

theorem end_makes {d : Tab (Option Nat × Nat)} {last : Nat} (hd : AccInv U toaq (.ofBytes b) d)
    (hl : b.length + 1 ≤ last) :
    Makes U toaq (.ofBytes b) d last (b.length + 1)
      (fun e p => Known U toaq (.ofBytes b) d e p ∧ Bnd (.ofBytes b) p) (NodeEnd U b) where
  term h ht he := by
    have hb := (tm_bnd h.2).2 _ ht
    refine ⟨hb, fun w hw => ?_⟩
    cases hw
    exact ⟨lacks_of_tm ht, .inl (by have := hb.le; change _ ≤ b.length at this; simp only [Fail.pos]; omega)⟩
  not h hr he := by
    refine ⟨h.2, fun w hw => ?_⟩
    cases hw
    refine ⟨⟨_, hr.agree hd hl ((known_closed (err := b.length + 1) hd hl).not h.1)⟩, .inl ?_⟩
    have := h.2.le; change _ ≤ b.length at this; simp only [Fail.pos]; omega
  and h hr he := by
    refine ⟨h.2, fun w hw => ?_⟩
    cases hw
    refine ⟨hr.agree hd hl ((known_closed (err := b.length + 1) hd hl).and h.1), .inl ?_⟩
    have := h.2.le; change _ ≤ b.length at this; simp only [Fail.pos]; omega
  rule := by
    intro r p s o kids s' i h hm hr
    refine ⟨by rw [ruleFail_pos]; exact h.2, fun w hw => ?_⟩
    obtain ⟨rfl, rfl, hn⟩ := ruleFail_want hw
    rw [ruleFail_pos]
    refine ⟨(hr.agree hd hl ((known_closed (err := b.length + 1) hd hl).ref h.1 hm)).ref, ?_⟩
    have hp : p ≤ b.length := h.2.le
    cases hgd : d.get p r with
    | none => exact absurd hgd (h.1.2 _ _ (.ref r p))
    | some w =>
      obtain ⟨o', e⟩ := w
      obtain ⟨⟨n, hn'⟩, _⟩ := hd _ _ _ hgd
      have hee := failMemo_body (by omega) hgd hm
      have ho : o' = none := by
        have h1 : Recog U toaq (.ofBytes b) (.ref r) p o' := ⟨n, 0, e, hn'⟩
        have h2 := (hr.agree hd hl ((known_closed (err := b.length + 1) hd hl).ref h.1 hm)).ref
        exact h1.det U toaq (.ofBytes b) h2
      subst ho
      have := nearR_ok p 3 r (named_near r hn) _ _ _ hn'
      by_cases hpl : p = b.length
      · exact .inl hpl
      · refine .inr ⟨by omega, ?_, r, rfl⟩
        have hx : runeEnd (.ofBytes b) p ≤ b.length := by
          unfold runeEnd
          split
          · rename_i c w hw
            exact (rune_bnd h.2 hw).le
          · exact hp
        omega

/-- The tree of a failed `full_text` that read up to the end of the text is not empty. -/
theorem full_grows {d : Tab (Option Nat × Nat)} {last n : Nat} (hd : AccInv U toaq (.ofBytes b) d)
    (hl : b.length + 1 ≤ last) (hk : Known U toaq (.ofBytes b) d (.ref 0) 0)
    (ha : acc U toaq (.ofBytes b) n (.ref 0) 0 0 = some (none, b.length + 1)) {i : Nat} {ks o kids s'}
    (h : FRun U toaq (.ofBytes b) d last (b.length + 1) (.ref 0) 0 ks ⟨.empty, i⟩ o kids s') : ks.length < kids.length := by
  have hV := known_closed (err := b.length + 1) hd hl
  have hN : ∀ r, inner r = true → toaq.named r = true → ∀ p q, p ≤ (Input.ofBytes b).len →
      Recog U toaq (.ofBytes b) (.ref r) p (some q) → p + 1 < b.length + 1 := by
    rintro r hi hn p q hp ⟨m, e, e', hm⟩
    have := acc_progress U toaq (.ofBytes b) ranked.nul m (.ref r) p e q e' hp (named_nul r hn hi) hm
    have hq := ((acc_bounds U toaq (.ofBytes b) _ _ _ _ _ hp hm).1 q rfl).2
    change q ≤ b.length at hq
    omega
  have grow : ∀ {e p ks s o ks' s'}, FRun U toaq (.ofBytes b) d last (b.length + 1) e p ks s o ks' s' →
      Known U toaq (.ofBytes b) d e p → TabG d (b.length + 1) inner s.tab → TabG d (b.length + 1) inner s'.tab ∧
      (refsOut inner e = true → ∀ m er v, acc U toaq (.ofBytes b) m e p er = some v → er < b.length + 1 → b.length + 1 ≤ v.2 →
        ks.length < ks'.length) := fun h => FRun.grows hd hl inner refs_inner (Nat.succ_pos _) hN h
  obtain ⟨n1, v, q, hv, hvq, hE, hq⟩ := full_acc ha
  obtain ⟨n2, o1, e1, n3, o2, e2, h1, h2, h3⟩ := text_acc hv
  have he2 : b.length + 1 ≤ e2 := by
    rw [h3] at hvq hE
    simp only [Option.some.injEq] at hvq hE
    omega
  have hT : TabG (F := Act) d (b.length + 1) inner .empty := by
    intro p r f o e h; simp at h
  -- `full_text`
  cases h with
  | memo hm =>
    rename_i f
    exfalso
    cases hgd : d.get 0 0 with
    | none => exact absurd hgd (hk.2 _ _ (.ref 0 0))
    | some w =>
      obtain ⟨o', e⟩ := w
      obtain ⟨⟨n', hn'⟩, _⟩ := hd _ _ _ hgd
      have := acc_det U toaq (.ofBytes b) ha hn'
      cases this
      obtain ⟨_, hf⟩ := failMemo_known (by omega) hgd hm
      rcases hf with ⟨hf, _⟩ | ⟨_, hf⟩
      · omega
      · simp at hf
  | body hm hb =>
    have hk1 := hV.ref hk hm
    rw [body0] at hb hk1
    refine (addKid_len _ _).2 (ruleFail_counts (.inr ⟨named0, ?_⟩))
    cases hb with
    | act hb =>
    have hk2 := hV.act hk1
    -- the call of `text`
    have text : ∀ {o ks' s'}, FRun U toaq (.ofBytes b) d last (b.length + 1) (.lab (.ref 1)) 0 [] ⟨.empty, i⟩ o ks' s' →
        0 < ks'.length := by
      intro o ks' s' ht
      have hk3 := hV.lab (hV.seqL hk2)
      cases ht with
      | lab ht =>
      cases ht with
      | memo hm =>
        exfalso
        cases hgd : d.get 0 1 with
        | none => exact absurd hgd (hk3.2 _ _ (.ref 1 0))
        | some w =>
          obtain ⟨o', e⟩ := w
          obtain ⟨⟨n', hn'⟩, _⟩ := hd _ _ _ hgd
          have := acc_det U toaq (.ofBytes b) hv hn'
          subst this
          obtain ⟨_, hf⟩ := failMemo_known (by omega) hgd hm
          rcases hf with ⟨hf, _⟩ | ⟨_, hf⟩
          · injection h3 with h3 h4
            omega
          · simp at hf
      | body hm hb =>
        have hk4 := hV.ref hk3 hm
        rw [body1] at hb hk4
        refine Nat.lt_of_le_of_lt (Nat.zero_le _) ((addKid_len _ _).2 (ruleFail_counts (.inr ⟨named1, ?_⟩)))
        cases hb with
        | act hb =>
        have hk5 := hV.act hk4
        -- the first part
        have p1 : ∀ {o ks' s'}, FRun U toaq (.ofBytes b) d last (b.length + 1) (.lab (.opt (.ref 73))) 0 [] ⟨.empty, i⟩ o ks' s' →
            o = some (o1.getD 0) ∧ TabG d (b.length + 1) inner s'.tab ∧ (b.length + 1 ≤ e1 → 0 < ks'.length) := by
          intro o ks' s' hx
          have ag := hx.agree hd hl (hV.seqL hk5)
          refine ⟨?_, (grow hx (hV.seqL hk5) hT).1, fun he => ?_⟩
          · have : Recog U toaq (.ofBytes b) (.ref 73) 0 o1 := ⟨n2, 0, e1, h1⟩
            cases o1 with
            | none => exact ag.det U toaq (.ofBytes b) this.optNo.lab
            | some q => exact ag.det U toaq (.ofBytes b) this.optOk.lab
          · have hk6 := hV.opt (hV.lab (hV.seqL hk5))
            cases hx with
            | lab hx =>
            cases hx with
            | optOk hx => exact (grow hx hk6 hT).2 (by decide) _ _ _ h1 (Nat.succ_pos _) he
            | optNo hx => exact (grow hx hk6 hT).2 (by decide) _ _ _ h1 (Nat.succ_pos _) he
        -- the second part
        have p2 : ∀ {ks s o ks' s'}, Known U toaq (.ofBytes b) d (.lab (.opt (.ref 2))) (o1.getD 0) →
            TabG d (b.length + 1) inner s.tab → e1 < b.length + 1 →
            FRun U toaq (.ofBytes b) d last (b.length + 1) (.lab (.opt (.ref 2))) (o1.getD 0) ks s o ks' s' →
            ks.length < ks'.length := by
          intro ks s o ks' s' hk6 ht he hx
          have hk7 := hV.opt (hV.lab hk6)
          cases hx with
          | lab hx =>
          cases hx with
          | optOk hx => exact (grow hx hk7 ht).2 (by decide) _ _ _ h2 he he2
          | optNo hx => exact (grow hx hk7 ht).2 (by decide) _ _ _ h2 he he2
        cases hb with
        | seqNo hb => have := (p1 hb).1; cases this
        | seqOk hb hc =>
          obtain ⟨i1, i2, i3⟩ := p1 hb
          cases i1
          have hk6 := hV.seqR hk5 hb
          by_cases he : b.length + 1 ≤ e1
          · exact Nat.lt_of_lt_of_le (i3 he) hc.len
          · cases hc with
            | seqNo hc => exact Nat.lt_of_le_of_lt (Nat.zero_le _) (p2 (hV.seqL hk6) i2 (by omega) hc)
            | seqOk hc hd' =>
              exact Nat.lt_of_lt_of_le (Nat.lt_of_le_of_lt (Nat.zero_le _) (p2 (hV.seqL hk6) i2 (by omega) hc)) hd'.len
    cases hb with
    | seqNo hb => exact text hb
    | seqOk hb hc => exact Nat.lt_of_lt_of_le (text hb) hc.len

/-! ### Parsers before the first `Text` or `Tree` -/

/-- No rule but those in words was run, and no error tree was built. -/
structure WInv (U : Uni) (b : Bytes) (s : EP) : Prop where
  ps : PInv U b s.ps
  none : s.ps.as.tab.get 0 0 = none
  fs : s.fs.tab = .empty

theorem winv_new : WInv U b newEP := ⟨pinv_new U b, rfl, rfl⟩

theorem word_tab {p : Nat} {s s' : AS} {v} (h : accM U toaq (.ofBytes b) (fuel b) (.ref rWord) p 0 s = some (v, s'))
    (hs : s.tab.get 0 0 = none) : s'.tab.get 0 0 = none := by
  cases hg : s'.tab.get 0 0 with
  | none => rfl
  | some w =>
    rcases accM_refs notFull (fun r _ => refs_notFull r) _ _ _ _ _ _ _ h (by decide) 0 0 (by rw [hg]; simp) with h' | h'
    · exact absurd hs h'
    · cases h'

theorem word_call (offs : Int) (s : PS) (hs : s.as.tab.get 0 0 = none) :
    (call U b (.word offs) s).2.as.tab.get 0 0 = none ∧
    ∀ k, (call U b (.word offs) s).1 = .err k → PInv U b s → 0 < k := by
  simp only [call, callWord]
  split
  · rename_i ho
    split
    · exact ⟨hs, fun k hk => by cases hk⟩
    · rename_i e as ha
      refine ⟨word_tab ha hs, fun k hk hi => ?_⟩
      cases hk
      have hp : offs.toNat ≤ b.length := by omega
      obtain ⟨v, s', h1, h2, _⟩ := accM_run U b rWord offs.toNat hp s.as hi.as
      rw [ha] at h1
      cases h1
      have := acc_fail_err _ _ _ _ _ hp h2
      omega
    · rename_i as ha
      have ht := word_tab ha hs
      split
      · exact ⟨ht, fun k hk => by cases hk⟩
      · exact ⟨ht, fun k hk => by cases hk⟩
      · exact ⟨hs, fun k hk => by cases hk⟩
  · exact ⟨hs, fun k hk => by cases hk⟩

theorem word_callE (offs : Int) (s : EP) (hs : WInv U b s) :
    WInv U b (callE U b (.word offs) s).2.2 ∧
    ∀ k, (callE U b (.word offs) s).1 = .err k → ∃ e i, (callE U b (.word offs) s).2.1 = some e ∧ e.tree = noFail i := by
  have hp := (call_fresh U b (.word offs) s.ps hs.ps).2
  obtain ⟨h1, h2⟩ := word_call (U := U) (b := b) offs s.ps hs.none
  unfold callE
  split
  · rename_i k ps hcall
    rw [hcall] at hp h1 h2
    have hk := h2 k rfl hs.ps
    have hf : failRule U toaq (.ofBytes b) ps.as.tab ps.as.last k (fuel b) rFull 0 s.fs =
        some (noFail s.fs.next, ⟨s.fs.tab, s.fs.next + 1⟩) := by
      have hm : failMemo ps.as.tab ps.as.last k rFull 0 s.fs = some (none, noFail s.fs.next) := by
        unfold failMemo
        split
        · rfl
        · have h1' : ps.as.tab.get 0 rFull = none := h1
          rw [h1']
      unfold failRule
      rw [hm]
    rw [hf]
    refine ⟨⟨hp, h1, hs.fs⟩, fun k' _ => ?_⟩
    have : ∃ r, simpleError b (noFail (F := Act) s.fs.next) = some r := by
      have hP : Pool (NodeOk U b) (fun _ => False) 0 :=
        ⟨fun _ h => h.elim, fun _ h => h.elim, fun _ _ h => h.elim, fun _ h => h.elim⟩
      obtain ⟨r, hr, _⟩ := report_ok hP (.inl rfl)
      exact ⟨r, hr⟩
    obtain ⟨r, hr⟩ := this
    exact ⟨⟨noFail s.fs.next, r⟩, s.fs.next, by simp only [hr, Option.map_some], rfl⟩
  · rename_i o ps hne hcall
    rw [hcall] at hp h1
    refine ⟨⟨hp, h1, hs.fs⟩, fun k hk => ?_⟩
    simp only at hk
    exact (hne k hk).elim

theorem failRule_run {F : Type} {U : Uni} {G : Gram F} {I : Input} {d : Tab (Option Nat × Nat)} {last err n r p : Nat}
    {s s' : FS F} {f : Fail (Want F)} (h : failRule U G I d last err n r p s = some (f, s')) :
    ∃ o s'', FRun U G I d last err (.ref r) p [] s o (addKid f []) s'' := by
  unfold failRule at h
  cases hm : failMemo d last err r p s with
  | some v =>
    rw [hm] at h
    obtain ⟨o, g⟩ := v
    cases h
    exact ⟨o, _, .memo hm⟩
  | none =>
    rw [hm] at h
    simp only at h
    cases hx : failM U G I d last err n (G.body r) p [] s with
    | none => rw [hx] at h; cases h
    | some v =>
      obtain ⟨⟨o, kids⟩, s1⟩ := v
      rw [hx] at h
      cases h
      exact ⟨o, _, .body hm (failM_run U G I d last err _ _ _ _ _ _ _ _ hx)⟩

theorem full_call (c : Call) (hc : c = .text ∨ c = .tree) (s : PS) (hs : PInv U b s) (hn : s.as.tab.get 0 0 = none) {k : Nat}
    {ps : PS} (h : call U b c s = (.err k, ps)) : ps.as.last = k ∧ acc U toaq (.ofBytes b) (fuel b) (.ref 0) 0 0 = some (none, k) ∧
      Known U toaq (.ofBytes b) ps.as.tab (.ref 0) 0 := by
  obtain ⟨v, s', h1, h2, h3, h4, h5⟩ := accM_run U b rFull 0 (Nat.zero_le _) s.as hs.as
  have hv : (v = (none, k)) ∧ ps.as = s' := by
    rcases hc with rfl | rfl
    · simp only [call, callText, h1] at h
      obtain ⟨_ | q, e⟩ := v
      · cases h; exact ⟨rfl, rfl⟩
      · simp only at h
        split at h <;> cases h
    · simp only [call, callTree, h1] at h
      obtain ⟨_ | q, e⟩ := v
      · cases h; exact ⟨rfl, rfl⟩
      · simp only at h
        split at h <;> cases h
  obtain ⟨rfl, rfl⟩ := hv
  refine ⟨?_, h2, Nat.zero_le _, fun r q hr => h5 r q hr⟩
  obtain ⟨n, hn'⟩ : ∃ n, fuel b = n + 1 := by
    cases hf : fuel b with
    | zero => rw [hf] at h1; cases h1
    | succ n => exact ⟨n, rfl⟩
  rw [hn'] at h1
  change accStepM U toaq (.ofBytes b) (accM U toaq (.ofBytes b) n) _ _ _ _ = _ at h1
  have hn0 : s.as.tab.get 0 rFull = none := hn
  simp only [accStepM, hn0] at h1
  cases hx : accM U toaq (.ofBytes b) n (toaq.body rFull) 0 0 s.as with
  | none => rw [hx] at h1; cases h1
  | some w =>
    rw [hx] at h1
    obtain ⟨⟨_ | q, e'⟩, s1⟩ := w
    · simp only [Option.some.injEq, Prod.mk.injEq] at h1
      rw [← h1.2, ← h1.1.2]
      simp [AS.memoize]
    · simp at h1

/-- `Text` and `Tree` on such a parser. -/
theorem end_callE (c : Call) (hc : c = .text ∨ c = .tree) (s : EP) (hs : WInv U b s)
    (h : (callE U b c s).1 = .err (b.length + 1)) : ∃ e x, (callE U b c s).2.1 = some e ∧ byteOffset e.tree = (x : Nat) ∧
      e.report.loc.byte = x ∧
      (x = b.length ∨ (x < b.length ∧ runeEnd (.ofBytes b) x = b.length)) ∧
      e.report.want ≠ [] ∧ ∀ w ∈ e.report.want, ∃ v, w = some v ∧ Unmet U b x v ∧ (x < b.length → ∃ r, v = .name r) := by
  have hpool : EInv U b s := by
    refine ⟨hs.ps, fun _ => False, ⟨fun _ h => h.elim, fun _ h => h.elim, fun _ _ h => h.elim, fun _ h => h.elim⟩, ?_⟩
    intro p r f hf; rw [hs.fs] at hf; simp at hf
  obtain ⟨-, -, hok⟩ := callE_ok c s hpool
  obtain ⟨e, he, hok⟩ := hok _ h
  have hp := (call_fresh U b c s.ps hs.ps).2
  cases hcall : call U b c s.ps with
  | mk out ps =>
  rw [hcall] at hp
  have hout : out = .err (b.length + 1) := by
    have := (callE_ok c s hpool).2.1
    rw [h, hcall] at this
    exact this.symm
  subst hout
  obtain ⟨hlast, hacc, hknown⟩ := full_call c hc s.ps hs.ps hs.none hcall
  have hl : b.length + 1 ≤ ps.as.last := by omega
  cases hf : failRule U toaq (.ofBytes b) ps.as.tab ps.as.last (b.length + 1) (fuel b) rFull 0 s.fs with
  | none => unfold callE at he; rw [hcall] at he; simp only [hf] at he; cases he
  | some v =>
    obtain ⟨f, fs⟩ := v
    have hef : e.tree = f := by
      unfold callE at he
      rw [hcall] at he
      simp only [hf] at he
      cases hse : simpleError b f with
      | none => rw [hse] at he; cases he
      | some r => rw [hse] at he; cases he; rfl
    have hfs : s.fs = ⟨.empty, s.fs.next⟩ := by rw [← hs.fs]
    obtain ⟨o, s'', hrun⟩ := failRule_run hf
    rw [hfs] at hrun
    have hcnt : f.counts = true := by
      have := full_grows hp.as hl hknown hacc hrun
      unfold addKid at this
      split at this
      · assumption
      · simp at this
    have hP0 : Pool (NodeEnd U b) (fun _ => False) s.fs.next :=
      ⟨fun _ h => h.elim, fun _ h => h.elim, fun _ _ h => h.elim, fun _ h => h.elim⟩
    obtain ⟨P', i1, _, i3⟩ := failRule_pool ((known_closed hp.as hl).both (bnd_closed hp.as)) (end_makes hp.as hl) hf
      ⟨hknown, .zero⟩ hP0 (by intro p r f hf; rw [hs.fs] at hf; simp at hf)
    have hPf : P' f := by
      rcases i3 with i3 | i3
      · rw [i3, noFail_counts] at hcnt; cases hcnt
      · exact i3
    have hleaf : ∀ l ∈ leaves f, NodeEnd U b l ∧ ∃ w, l.want = some w := by
      intro l hl'
      obtain ⟨j1, j2⟩ := i1.leaf hPf hl'
      refine ⟨j1, ?_⟩
      rcases j2 with rfl | j2
      · have hk0 := (leaf_sub _ _ hl').2.1
        unfold Fail.counts at hcnt
        rw [hk0] at hcnt
        simpa [Option.isSome_iff_exists] using hcnt
      · exact Option.isSome_iff_exists.1 j2
    obtain ⟨x, l, k1, k2⟩ := C24_first_leaf f (i1.consistent hPf)
    have hx : x ∈ leaves f := by
      have : x ∈ leafFails f := by rw [k1]; exact List.mem_cons_self ..
      rw [C24_leafFails f (i1.consistent hPf)] at this
      exact (List.mem_filter.1 (mem_firsts this)).1
    subst hef
    obtain ⟨x', hx1, hx2, ⟨pre, post, _, _, hloc⟩, _⟩ := hok.offset
    have hxx : x' = x.pos := by rw [← k2] at hx1; omega
    subst hxx
    have hw := hok.wants
    rw [C24_byteOffset, ← C24_leafFails e.tree (i1.consistent hPf), k1] at hw
    have hpos : x.pos = b.length ∨ (x.pos < b.length ∧ runeEnd (.ofBytes b) x.pos = b.length) := by
      obtain ⟨w, hw⟩ := (hleaf x hx).2
      rcases ((hleaf x hx).1.2 w hw).2 with h' | h'
      · exact .inl h'
      · exact .inr ⟨h'.1, h'.2.1⟩
    refine ⟨e, x.pos, he, hx1, by rw [hloc], hpos, by rw [hw]; simp, ?_⟩
    intro w hwm
    rw [hw] at hwm
    obtain ⟨y, hy, rfl⟩ := List.mem_map.1 hwm
    have hy' : y ∈ leafFails e.tree := by rw [k1]; exact hy
    rw [C24_leafFails e.tree (i1.consistent hPf)] at hy'
    obtain ⟨hy1, hy2⟩ := List.mem_filter.1 (mem_firsts hy')
    have hyp : y.pos = x.pos := by
      have hy3 := of_decide_eq_true hy2
      have : byteOffset e.tree = (x.pos : Int) := hx1
      rw [C24_byteOffset] at this
      omega
    obtain ⟨v, hv⟩ := (hleaf y hy1).2
    obtain ⟨m1, m2⟩ := (hleaf y hy1).1.2 v hv
    refine ⟨v, hv, hyp ▸ m1, fun hlt => ?_⟩
    rcases m2 with m2 | m2
    · omega
    · exact m2.2.2

/-! ### Histories -/

theorem words_then : ∀ (ws : List Int) (s : EP), WInv U b s →
    (∀ k e, (Out.err k, e) ∈ callsE U b (ws.map Call.word) s → ∃ r i, e = some r ∧ r.tree = noFail i) ∧
    ∃ s', WInv U b s' ∧ ∀ cs, callsE U b (ws.map Call.word ++ cs) s = callsE U b (ws.map Call.word) s ++ callsE U b cs s' := by
  intro ws
  induction ws with
  | nil => intro s hs; exact ⟨fun k e h => (by cases h), s, hs, fun cs => rfl⟩
  | cons w ws ih =>
    intro s hs
    obtain ⟨h1, h2⟩ := word_callE w s hs
    obtain ⟨i1, s', i2, i3⟩ := ih _ h1
    refine ⟨fun k e h => ?_, s', i2, fun cs => ?_⟩
    · rcases List.mem_cons.1 h with h | h
      · injection h with ha hb
        obtain ⟨r, i, hr⟩ := h2 k ha.symm
        exact ⟨r, i, hb ▸ hr.1, hr.2⟩
      · exact i1 k e h
    · simp only [List.map, List.cons_append, callsE, i3]

/-- C57, a text that ends too early: if the furthest that the parser got is the end of the text, the error says so. It
is located at the end of the text, or at its last rune if a rule with a name (a tone, a space) was expected
there; it lists at least one expectation, and none that is met.

Missing: errors inside the text. There `_failMemo` (toaq.go:477-497) compares offsets with `lastFail`, the offset of
the last rule that ended, and drops what lies behind it; see `C57_refuted`. Calls of `Word` before are covered; for what they
return themselves see `C57_refuted_word`. -/
theorem C57_end_partial (U : Uni) (b : Bytes) (ws : List Int) (c : Call) (hc : c = .text ∨ c = .tree)
    (l : List (Out × Option SynErr)) (e : Option SynErr)
    (h : callsE U b (ws.map Call.word ++ [c]) newEP = l ++ [(Out.err (b.length + 1), e)]) :
    ∃ r x, e = some r ∧ byteOffset r.tree = (x : Nat) ∧ r.report.loc.byte = x ∧
      (x = b.length ∨ (x < b.length ∧ runeEnd (.ofBytes b) x = b.length)) ∧
      r.report.want ≠ [] ∧ ∀ w ∈ r.report.want, ∃ v, w = some v ∧ Unmet U b x v ∧ (x < b.length → ∃ n, v = .name n) := by
  obtain ⟨_, s', h1, h2⟩ := words_then (U := U) (b := b) ws newEP winv_new
  rw [h2] at h
  have := List.append_inj_right' h rfl
  simp only [callsE, List.cons.injEq, Prod.mk.injEq, and_true] at this
  obtain ⟨r, x, hr, hx⟩ := end_callE c hc s' h1 this.1
  exact ⟨r, x, this.2 ▸ hr, hx⟩

/-- C57 fails for `Word`: on a parser on which only `Word` was called, an error says nothing. It is located at offset 0 and
its list of expectations is one that wants nothing. (`parse` calls the Fail function of `full_text`, whatever
rule failed; parser.go:97.) -/
theorem C57_refuted_word (U : Uni) (b : Bytes) (ws : List Int) (k : Nat) (e : Option SynErr)
    (h : (Out.err k, e) ∈ callsE U b (ws.map Call.word) newEP) :
    ∃ r, e = some r ∧ byteOffset r.tree = 0 ∧ r.report.want = [none] ∧ r.report.loc.byte = 0 := by
  obtain ⟨h1, _⟩ := words_then (U := U) (b := b) ws newEP winv_new
  obtain ⟨r, i, hr, ht⟩ := h1 k e h
  obtain ⟨r', hr', hok⟩ := C57_reported U b _ k e h
  rw [hr] at hr'
  cases hr'
  have hb : byteOffset r.tree = 0 := by rw [ht]; rfl
  refine ⟨r, hr, hb, ?_, ?_⟩
  · rw [hok.wants, hb, ht, noFail_leaves]; rfl
  · obtain ⟨x, hx, _, ⟨_, _, _, _, hl⟩, _⟩ := hok.offset
    rw [hb] at hx
    rw [hl]
    simp only
    omega

/-! ### Cases -/

/-- What an error says: the error offset of the outcome, the offset and the expectations (rules by number, terminals as
0, lookaheads as 1, nothing as 2). -/
def says : Out × Option SynErr → Option (Nat × Int × List Nat)
  | (.err k, some e) => some (k, byteOffset e.tree, e.report.want.map fun
    | some (.name r) => 1000 + r
    | some (.term _) => 0
    | some _ => 1
    | none => 2)
  | _ => none

def runE (s : String) (cs : List Call) : List (Out × Option SynErr) := callsE asciiUni (utf8 s.toList) cs newEP

theorem says_err {l : List (Out × Option SynErr)} {k x ws} (h : l.map says = [some (k, x, ws)]) :
    ∃ e, l = [(.err k, some e)] ∧ byteOffset e.tree = x ∧ (ws = [2] → e.report.want = [none]) := by
  obtain ⟨a, rfl, h0⟩ := List.map_eq_singleton_iff.1 h
  clear h
  rename says a = _ => h
  unfold says at h
  split at h
  · rename_i k' e'
    injection h with h
    injection h with h3 h
    injection h with h4 h5
    subst h3
    refine ⟨e', rfl, h4, fun hw => ?_⟩
    subst hw
    obtain ⟨w, hr, hw⟩ := List.map_eq_singleton_iff.1 h5
    rw [hr]
    split at hw
    · omega
    · cases hw
    · cases hw
    · rfl
  · cases h

/-- "gi? j" ends too early: an initial was read, and vowels are expected. The theorem applies, also after calls of `Word` that
fail. -/
example : ∃ l e, callsE asciiUni (utf8 "gi? j".toList) ([4, 3].map Call.word ++ [.text]) newEP =
    l ++ [(Out.err ((utf8 "gi? j".toList).length + 1), some e)] ∧ byteOffset e.tree = 5 := by
  have h : (runE "gi? j" [.word 4, .word 3, .text]).map says =
      [some (2, 0, [2]), some (1, 0, [2]), some (6, 5, List.replicate 35 0)] := by decide +kernel
  have hm : ∀ l : List (Out × Option SynErr), l.map says =
      [some (2, 0, [2]), some (1, 0, [2]), some (6, 5, List.replicate 35 0)] →
      ∃ l' e, l = l' ++ [(Out.err 6, some e)] ∧ byteOffset e.tree = 5 := by
    intro l hl
    obtain ⟨x, l1, rfl, _, hl⟩ := List.map_eq_cons_iff.1 hl
    obtain ⟨y, l2, rfl, _, hl⟩ := List.map_eq_cons_iff.1 hl
    obtain ⟨e, h1, h2, _⟩ := says_err hl
    exact ⟨[x, y], e, by rw [h1]; rfl, h2⟩
  obtain ⟨l, e, h1, h2⟩ := hm _ h
  exact ⟨l, e, h1, h2⟩

/-- `Word` at the end of "gi? j" fails: an error that says nothing, although the parser got to offset 5. -/
example : (runE "gi? j" [.word 4]).map says = [some (2, 0, [2])] := by decide +kernel

/-- A failed `Word` after a failed `Text` returns the error of `Text`; the error of a text that is rejected in the middle. -/
example : (runE "gi? j" [.text, .word 4]).map says =
    [some (6, 5, List.replicate 35 0), some (2, 5, List.replicate 35 0)] := by decide +kernel

/-- A named rule at the last rune: after "gi?" comes a space, and "x" begins no word. -/
example : (runE "gi? x" [.text]).map says = [some (6, 4, [1221])] := by decide +kernel

/-- C57 is violated inside texts: "to ru?" is rejected after offset 5 was reached, but the error
is located at offset 0 and expects nothing. -/
theorem C57_refuted : ∃ (U : Uni) (b : Bytes) (e : SynErr), callsE U b [.text] newEP = [(.err 6, some e)] ∧
    byteOffset e.tree = 0 ∧ e.report.want = [none] := by
  have h : (runE "to ru?" [.text]).map says = [some (6, 0, [2])] := by decide +kernel
  obtain ⟨e, h1, h2, h3⟩ := says_err h
  exact ⟨_, _, e, h1, h2, h3 rfl⟩

end Verif.Parse
