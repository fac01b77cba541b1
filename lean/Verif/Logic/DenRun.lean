/-
C56: what the interpreter makes of texts.
-/
import Verif.Logic.DenPrep

namespace Verif.Logic.Den
open Verif.Tone (Str)

section
variable {M : Model} {U : Uni} {A : Nat → AST.Node} {f : Fns}
variable {dep : Dep} {lk : Tok → Option Nat} {i : Bool} {s s1 s2 s3 : St} {bi : Str} {st : AST.Node} {Z : Args} {ts : List AST.Node}
  {t α : AST.Node}

/-- Adverbs and prepositions are not arguments. -/
theorem other_cases (ht : isPreposition t = true ∨ isAdverb t = true) : (¬ ∃ go a, t = .linked go a) ∧
    (¬ ∃ a b c ls rs, t = .cop .termSet a b c (.terms ls) (.terms rs)) ∧ branch U t = false := by
  refine ⟨?_, ?_, ?_⟩
  · rintro ⟨go, a, rfl⟩; simp [isPreposition, isAdverb] at ht
  · rintro ⟨_, _, _, _, _, rfl⟩; simp [isPreposition, isAdverb] at ht
  · unfold isPreposition isAdverb at ht
    rcases ht with ht | ht
    · split at ht
      · simp [branch, branchA]
      · simp [branch, branchA]
      · cases ht
    · split at ht
      · simp [branch, branchA]
      · simp [branch, branchA]
      · cases ht

theorem other_ev (ht : isPreposition t = true ∨ isAdverb t = true) : evTail U bi st (t :: ts) =
    if isPreposition t then evTail U bi st ts ++ evPrep U t else evTail U bi st ts ++ evAdv U t := by
  obtain ⟨h1, h2, -⟩ := other_cases (U := U) ht
  rw [evTail, evTerms]
  · split
    · rfl
    · next h =>
      have : isAdverb t = true := by simpa [h] using ht
      simp [this]
  · intro go a h; exact h1 ⟨go, a, h⟩
  · intro a b c l r h; exact h2 ⟨a, b, c, l, r, h⟩

theorem other_d (ht : isPreposition t = true ∨ isAdverb t = true) (L : Nat → M.D) (env : Env M) (as : List (M.D × Nat))
    (k : Env M → List (M.D × Nat) → M.B) : dTerms U L env as k (t :: ts) =
    if isPreposition t then dPrep U L env (M.absD (dTerms U L env as k ts)) t else dAdv U L env (M.absD (dTerms U L env as k ts)) t := by
  obtain ⟨h1, h2, -⟩ := other_cases (U := U) ht
  rw [dTerms]
  · split
    · rfl
    · next h =>
      have : isAdverb t = true := by simpa [h] using ht
      simp [this]
  · intro go a h; exact h1 ⟨go, a, h⟩
  · intro a b c l r h; exact h2 ⟨a, b, c, l, r, h⟩

theorem TailOk.other (h : TailOk M U A dep i s Z bi st (t :: ts)) (ht : isPreposition t = true ∨ isAdverb t = true) :
    TailOk M U A dep i s Z bi st ts ∧ i = false ∧ ClosedOr dep (evTail U bi st ts) ∧
      if isPreposition t then branches U ts = false ∧ okPrep U A dep t else okAdv U A dep t := by
  obtain ⟨h1, h2, -⟩ := other_cases (U := U) ht
  have hok := h.ok
  have hs := h.sees
  rw [other_ev ht] at hs
  unfold okTail at hok
  rw [okTerms_other h1 h2, if_pos ht] at hok
  obtain ⟨hi, hc, hok, hp⟩ := hok
  refine ⟨⟨h.inv, h.z, h.v, fun hu => ?_, hok, hs.sub fun x hx => ?_⟩, hi, hc, by simpa using hp⟩
  · have := h.pl hu
    rwa [plTerms] at this
    · intro go a h; exact h1 ⟨go, a, h⟩
    · intro a b c l r h; exact h2 ⟨a, b, c, l, r, h⟩
  · split
    · rw [toks_append]; exact List.mem_append_left _ hx
    · rw [toks_append]; exact List.mem_append_left _ hx

variable (H : FDen M U A f)

include H

theorem run_end (h : TailOk M U A dep i s Z bi st []) :
    Post (f.statement (if hasText U bi ['p', 'a'] then Z else []) st) s Any fun r s' => ResT M U A dep s s' Z bi st [] r := by
  have hok := h.ok
  have hs := h.sees
  have hpl := h.pl
  have hv := h.v
  have hz := h.z
  unfold okTail at hok
  rw [okTerms] at hok
  rw [evTail, evTerms] at hs
  simp only [plTerms, List.nil_append] at hpl
  cases hp : hasText U bi ['p', 'a'] with
  | true =>
    have hu : isU U bi st = uses U st := by simp [isU, hp]
    rw [hu] at hv hz hpl
    rw [hp, Bool.true_and] at hok
    simp only [if_true]
    refine (H.statement Z st s dep i h.inv hz hv hpl hok hs).mono fun r s' h' => ?_
    rw [ResT, hu, evTail, evTerms]
    refine h'.2.dn fun L env ρ => ?_
    simp [dTerms, endK, hp]
  | false =>
    have hu : isU U bi st = false := by simp [isU, hp]
    rw [hp, Bool.false_and] at hok
    simp only [Bool.false_eq_true, if_false]
    refine (H.statement [] st s dep false h.inv (fun _ z hz => by cases hz) (by cases uses U st <;> exact fun z hz => by cases hz)
      (fun _ => PlOk.nil _) hok hs).mono fun r s' h' => ?_
    have h2 := h'.2
    have e : usesV (uses U st) [] = [] := by cases uses U st <;> rfl
    rw [e] at h2
    rw [ResT, hu, evTail, evTerms]
    have : Res M U A dep (look s) s s' (usesV false Z) [] (evStmt U st) r (fun L env as => dTerms U L env as (endK U bi st L) []) := by
      refine h2.dn fun L env ρ => ?_
      simp [dTerms, endK, hp, vals]
    exact this.args fun L env as as' => tail_ign hu L env as as'

/-- An adverb said of what follows. -/
theorem adv_here (hM : M.Laws) {sub : Node} {v w : Var} {x y : Nat} (ha : isAdverb t = true) (hT : TailOk M U A dep i s Z bi st (t :: ts))
    (h : ResT M U A dep s s1 Z bi st ts sub) (hvs : s1.vars = s.vars) (h3 : Two s1 s3) (hx : x = s1.n) (hy : y = s1.n + 1) (hv : v.n = y)
    (hvd : v.dfn = some y) (hw : w.n = x) (hwd : w.dfn = some x) :
    Post (f.adverb t (.var w)) s3 Any fun n s' => ResT M U A dep s s' Z bi st (t :: ts) (.bind .all x x false (some (content sub y v w)) n) := by
  obtain ⟨hT', hi, hc, hok⟩ := hT.other (.inr ha)
  have hnp : isPreposition t = false := by
    unfold isAdverb at ha
    split at ha
    · rfl
    · rfl
    · cases ha
  rw [hnp] at hok
  simp only [Bool.false_eq_true, if_false] at hok
  have hs := hT.sees
  rw [other_ev (.inr ha), hnp, if_neg (by simp)] at hs
  have hE := h.evo.trans h3.evo
  have hn := h.evo.n
  have hlk : look s3 = look s := (look_eq h3.hoa h3.vars).trans (look_eq h.evo.hoa hvs)
  refine (H.adverb t w s3 dep (h3.inv h.inv) ?_ hok ?_).mono fun n s4 h4 => ?_
  · intro z hz
    simp at hz
    subst hz
    exact ⟨by rw [hwd, hw], by rw [h3.n]; omega, by simp⟩
  · rw [hlk]
    exact (hs.evo hE).sub (by rw [toks_append]; exact fun x hx => List.mem_append_right _ hx)
  · rw [hlk] at h4
    rw [ResT, other_ev (.inr ha), hnp, if_neg (by simp)]
    refine Res.inPlace hM h h3.evo h3.n h3.the hx hy hv hvd hw hwd h4.2 hs (fun _ h => h) ?_ (fun _ h => .inl h) hT.v.lt ?_
    · intro z hz
      simp at hz
      subst hz
      exact .inr hw
    · intro L env ρ
      rw [other_d (.inr ha), hnp]
      simp [vals, fst1, Model.arg, upd, hw]

/-- An adverb said of something that does not vary. -/
theorem adv_lift {sub : Node} {v w : Var} {x y : Nat} (ha : isAdverb t = true) (hT : TailOk M U A dep i s Z bi st (t :: ts))
    (h : ResT M U A dep s s1 Z bi st ts sub) (hvs : s1.vars = s.vars) (h2 : Two s1 s2) (hf : hasFreeVars s2 sub = false)
    (hx : x = s1.n) (hy : y = s1.n + 1) (hv : v.n = y) (hvd : v.dfn = some y) (hw : w.n = x) (hwd : w.dfn = some x)
    (ht3 : s3.the = s1.the ++ [⟨.the, x, false, some (content sub y v w)⟩]) (hn3 : s3.n = s1.n + 2) (hl3 : s3.lifted = s1.lifted)
    (hc3 : s3.cleared = s1.cleared) (hh3 : s3.hoa = s1.hoa) (hi3 : s3.hi = s1.hi) (hv3 : s3.vars = s1.vars)
    (hq : ∀ b < s1.n, s3.quant b = s1.quant b) (hqx : s3.quant x = .the) :
    Post (f.adverb t (.var w)) s3 Any fun n s' => ResT M U A dep s s' Z bi st (t :: ts) n := by
  obtain ⟨hT', hi, hc, hok⟩ := hT.other (.inr ha)
  have hnp : isPreposition t = false := by
    unfold isAdverb at ha
    split at ha
    · rfl
    · rfl
    · cases ha
  rw [hnp] at hok
  simp only [Bool.false_eq_true, if_false] at hok
  have hs := hT.sees
  rw [other_ev (.inr ha), hnp, if_neg (by simp)] at hs
  obtain ⟨c1, c2, c3⟩ := closed_sub h hT'.sees (hi ▸ hT'.v) hc (h2.cleared.trans h.inv.cleared) h2.quant hf
  have hI3 := h.inv.lift_content ht3 hl3 hc3 hn3 hx hy hq hqx hv hvd hw hwd c3
  have hE3 : Evo s1 s3 [] := Evo.lift_content ht3 hx hl3 hn3 hq hh3 hi3
  have hE := h.evo.trans hE3
  have hlk : look s3 = look s := (look_eq hh3 hv3).trans (look_eq h.evo.hoa hvs)
  refine (H.adverb t w s3 dep hI3 ?_ hok ?_).mono fun n s4 h4 => ?_
  · intro z hz
    simp at hz
    subst hz
    exact ⟨by rw [hwd, hw], by omega, by simp⟩
  · rw [hlk]
    exact (hs.evo hE).sub (by rw [toks_append]; exact fun x hx => List.mem_append_right _ hx)
  · rw [hlk] at h4
    rw [ResT, other_ev (.inr ha), hnp, if_neg (by simp)]
    refine Res.lift h hI3 hE3 ht3 hl3 hx c1 c2 h4.2 ?_ ?_
    · intro z hz
      simp at hz
      subst hz
      exact hw
    · intro L env ρ hρ
      rw [other_d (.inr ha), hnp]
      simp [vals, fst1, Model.arg, hw, hρ]

/-- A preposition said of something that does not vary. -/
theorem prep_lift {sub : Node} {v w : Var} {x y : Nat} (ha : isPreposition t = true) (hT : TailOk M U A dep i s Z bi st (t :: ts))
    (h : ResT M U A dep s s1 Z bi st ts sub) (hvs : s1.vars = s.vars) (hf : hasFreeVars s1 sub = false)
    (hx : x = s1.n) (hy : y = s1.n + 1) (hv : v.n = y) (hvd : v.dfn = some y) (hw : w.n = x) (hwd : w.dfn = some x)
    (ht3 : s3.the = s1.the ++ [⟨.the, x, false, some (content sub y v w)⟩]) (hn3 : s3.n = s1.n + 2) (hl3 : s3.lifted = s1.lifted)
    (hc3 : s3.cleared = s1.cleared) (hh3 : s3.hoa = s1.hoa) (hi3 : s3.hi = s1.hi) (hv3 : s3.vars = s1.vars)
    (hq : ∀ b < s1.n, s3.quant b = s1.quant b) (hqx : s3.quant x = .the) :
    Post (f.preposition t (.var (.var w))) s3 Any fun n s' => ResT M U A dep s s' Z bi st (t :: ts) n.1 := by
  obtain ⟨hT', hi, hc, hok⟩ := hT.other (.inl ha)
  rw [ha] at hok
  simp only [if_true] at hok
  have hs := hT.sees
  rw [other_ev (.inl ha), if_pos ha] at hs
  obtain ⟨c1, c2, c3⟩ := closed_sub h hT'.sees (hi ▸ hT'.v) hc h.inv.cleared (fun _ _ => rfl) hf
  have hI3 := h.inv.lift_content ht3 hl3 hc3 hn3 hx hy hq hqx hv hvd hw hwd c3
  have hE3 : Evo s1 s3 [] := Evo.lift_content ht3 hx hl3 hn3 hq hh3 hi3
  have hE := h.evo.trans hE3
  have hlk : look s3 = look s := (look_eq hh3 hv3).trans (look_eq h.evo.hoa hvs)
  refine (H.prepV t w s3 dep hI3 ?_ hok.2 ?_).mono fun n s4 h4 => ?_
  · intro z hz
    simp at hz
    subst hz
    exact ⟨by rw [hwd, hw], by omega, by simp⟩
  · rw [hlk]
    exact (hs.evo hE).sub (by rw [toks_append]; exact fun x hx => List.mem_append_right _ hx)
  · rw [hlk] at h4
    rw [ResT, other_ev (.inl ha), if_pos ha]
    refine Res.lift h hI3 hE3 ht3 hl3 hx c1 c2 h4.2 ?_ ?_
    · intro z hz
      simp at hz
      subst hz
      exact hw
    · intro L env ρ hρ
      rw [other_d (.inl ha), if_pos ha]
      simp [vals, fst1, Model.arg, hw, hρ]

/-- A preposition said of what follows. -/
theorem prep_here {sub : Node} (ha : isPreposition t = true) (hT : TailOk M U A dep i s Z bi st (t :: ts))
    (h : ResT M U A dep s s1 Z bi st ts sub) (hvs : s1.vars = s.vars) :
    Post (f.preposition t (.tail Z bi st ts)) s1 Any fun n s' => n.2 = ts ∧ ResT M U A dep s s' Z bi st (t :: ts) n.1 := by
  obtain ⟨hT', hi, hc, hok⟩ := hT.other (.inl ha)
  rw [ha] at hok
  simp only [if_true] at hok
  have hs := hT.sees
  rw [other_ev (.inl ha), if_pos ha] at hs
  have hlk : look s1 = look s := look_eq h.evo.hoa hvs
  have hk : ∀ j ∈ argIds (evTail U bi st ts), j ∈ keys s1 := by
    intro j hj
    rw [h.evo.keys]
    exact mem_addNew.2 (.inr hj)
  refine (H.prepT t Z bi st ts s1 dep i (hT'.evo h.evo h.inv hvs) hok.1 hk hok.2 ?_).mono fun n s4 h4 => ?_
  · rw [hlk]
    exact (hs.evo h.evo).sub (by rw [toks_append]; exact fun x hx => List.mem_append_right _ hx)
  · obtain ⟨-, h5, h4⟩ := h4
    refine ⟨h5, ?_⟩
    rw [hlk] at h4
    rw [ResT, other_ev (.inl ha), if_pos ha]
    have hE := h.evo.trans h4.evo
    refine ⟨?_, h4.inv, h4.tree.mono (fun b hb => hb.left h.evo) fun _ h => h, h4.occ, ?_, ?_⟩
    · refine { hE with keys := hE.keys.trans ?_ }
      simp only [argIds_append, addNew_append]
      congr 1
      exact addNew_sub fun j hj => mem_addNew.2 (.inr hj)
    · intro z hz hq
      exact h4.occV z hz (by rw [h.evo.quant _ (hT.v.lt z hz)]; exact hq)
    · intro L ρ env hg he
      rw [other_d (.inl ha), if_pos ha]
      exact h4.val L ρ env hg he

theorem run_prenexS (hM : M.Laws) (h : TailOk M U A dep i s Z bi st ts) : Post (prenexSF U f Z bi st ts) s Any fun r s' =>
    s'.vars = s.vars ∧ ResT M U A dep s s' Z bi st ts r.1 ∧ (branches U ts = false → r.2 = ts) ∧
      (branches U ts.tail = false → r.2.tail = ts.tail) := by
  unfold prenexSF
  rw [post_keepVars]
  split
  · postz
    refine (run_end H h).mono fun r s' h' => ?_
    exact Res.keep h' _
  · next t rest =>
    split
    · -- sets of terms
      split
      · next t0 t1 ru ls rs =>
        postz
        intro c hc
        refine (run_sets H hc h).mono fun ln s1 h1 => h1.mono fun rn s2 h2 => ?_
        exact h2
      · postz
    · -- connected arguments
      next t0 t1 ru l r =>
      have hp : Puts U (.cop .argument t0 t1 ru l r) (.cop .argument t0 t1 ru l r) 0 := .bare trivial
      postz
      refine ⟨fun hr => ?_, fun hr => ?_⟩
      · have hα : Single U (.cop .argument t0 t1 ru l r) := hr
        have hok := h.ok
        unfold okTail at hok
        rw [hp.ok, okArg_single hα] at hok
        have hs := h.sees
        rw [evTail, hp.ev] at hs
        refine (H.roi _ t0 t1 ru l r s dep rfl hr h.inv hok.2.2.1 ?_).mono fun y s1 h1 => ?_
        · have : ∀ u E, evArg U u E (.cop .argument t0 t1 ru l r) = evArg U true (evArg U true [] r) l ++ E := by
            intro u E
            simp only [evArg]
            rw [if_pos (show isRoi U ru = true from hr)]
          rw [this] at hs ⊢
          exact hs.sub (by simp; tauto)
        · obtain ⟨v, hv, h1⟩ := h1
          rw [hv]
          refine (run_arg H hp hα h h1).mono fun n s2 h2 => ?_
          refine ⟨h2.1, fun hb => ?_, fun hb => h2.2 hb⟩
          rw [branches, Bool.or_eq_false_iff] at hb
          rw [h2.2 hb.2]
      · intro hl hr' c hc
        refine (run_args H hp (tl := l) (tr := r) (fun h => .bare h) (fun h => .bare h) (fun h => absurd rfl h) (fun h => absurd rfl h)
          ?_ ?_ (by simpa [isRoi] using hr) hc h).mono fun ln s1 h1 => h1.mono fun rn s2 h2 => ?_
        · intro h; rcases h.cases with ⟨_, _, _, _, _, rfl⟩ | ⟨_, _, _, _, _, rfl⟩ <;> simp [plTerms]
        · intro h; rcases h.cases with ⟨_, _, _, _, _, rfl⟩ | ⟨_, _, _, _, _, rfl⟩ <;> simp [plTerms]
        · exact ⟨h2.1, fun hb => (by rw [h2.2.1] at hb; cases hb), fun _ => h2.2.2⟩
    · next id fo quant p rel =>
      have hp : Puts U (.predArg id fo quant p rel) (.predArg id fo quant p rel) 0 := .bare trivial
      have hα : Single U (.predArg id fo quant p rel) := trivial
      have hok := h.ok
      unfold okTail at hok
      rw [hp.ok, okArg_single hα] at hok
      have hs := h.sees
      rw [evTail, hp.ev] at hs
      postz
      refine (H.predArg id fo quant p rel s dep h.inv hok.2.2.1 ?_).mono fun y s1 h1 => ?_
      · exact hs.sub fun t ht => (evArg_toks hα _ _ t).2 (.inl (evArg_mono hα ht _))
      · obtain ⟨v, hv, h1⟩ := h1
        rw [hv]
        refine (run_arg H hp hα h h1).mono fun n s2 h2 => ?_
        refine ⟨Res.refocus h2.1, fun hb => ?_, fun hb => h2.2 hb⟩
        rw [branches, Bool.or_eq_false_iff] at hb
        rw [h2.2 hb.2]
    · next go arg =>
      have hp : Puts U (.linked go arg) arg (placeOf U go) := .link go
      have hok := h.ok
      unfold okTail at hok
      rw [hp.ok] at hok
      have hs := h.sees
      rw [evTail, hp.ev] at hs
      split
      · next t0 t1 ru l r =>
        postz
        refine ⟨fun hr => ?_, fun hr => ?_⟩
        · have hα : Single U (.cop .argument t0 t1 ru l r) := hr
          rw [okArg_single hα] at hok
          refine (H.roi _ t0 t1 ru l r s dep rfl hr h.inv hok.2.2.1 ?_).mono fun y s1 h1 => ?_
          · have : ∀ u E, evArg U u E (.cop .argument t0 t1 ru l r) = evArg U true (evArg U true [] r) l ++ E := by
              intro u E
              simp only [evArg]
              rw [if_pos (show isRoi U ru = true from hr)]
            rw [this] at hs ⊢
            exact hs.sub (by simp; tauto)
          · obtain ⟨v, hv, h1⟩ := h1
            rw [hv]
            intro pos hpos
            have e : placeOf U go = pos := by simp [placeOf, hpos]
            rw [e] at hp
            refine (run_arg H hp hα h h1).mono fun n s2 h2 => ?_
            refine ⟨h2.1, fun hb => ?_, fun hb => h2.2 hb⟩
            rw [branches, Bool.or_eq_false_iff] at hb
            rw [h2.2 hb.2]
        · intro hl hr' c hc
          have hne : ∀ α, AST.Node.linked go α ≠ α := by
            intro α h
            have := congrArg sizeOf h
            simp at this
          refine (run_args H hp (tl := .linked go l) (tr := .linked go r) (fun _ => .link go) (fun _ => .link go) (fun _ => hne _) (fun _ => hne _)
            (fun _ => by simp [plTerms]) (fun _ => by simp [plTerms]) (by simpa [isRoi] using hr) hc h).mono fun ln s1 h1 => h1.mono fun rn s2 h2 => ?_
          exact ⟨h2.1, fun hb => (by rw [h2.2.1] at hb; cases hb), fun _ => h2.2.2⟩
      · next id fo quant p rel =>
        have hα : Single U (.predArg id fo quant p rel) := trivial
        rw [okArg_single hα] at hok
        postz
        refine (H.predArg id fo quant p rel s dep h.inv hok.2.2.1 ?_).mono fun y s1 h1 => ?_
        · exact hs.sub fun t ht => (evArg_toks hα _ _ t).2 (.inl (evArg_mono hα ht _))
        · obtain ⟨v, hv, h1⟩ := h1
          rw [hv]
          intro pos hpos
          have e : placeOf U go = pos := by simp [placeOf, hpos]
          rw [e] at hp
          refine (run_arg H hp hα h h1).mono fun n s2 h2 => ?_
          refine ⟨h2.1, fun hb => ?_, fun hb => h2.2 hb⟩
          rw [branches, Bool.or_eq_false_iff] at hb
          rw [h2.2 hb.2]
      · postz
    · postz
      refine ⟨fun hp => ?_, fun hp ha => ?_⟩
      · obtain ⟨hT, -, -, hbr⟩ := h.other (.inl hp)
        rw [hp] at hbr
        obtain ⟨-, -, hbt⟩ := other_cases (U := U) (.inl hp)
        refine (H.prenexS Z bi st rest s dep i hT).mono fun sub s1 h1 => ?_
        obtain ⟨hv1, h1, h2, -⟩ := h1
        have e : sub.2 = rest := h2 (by simpa using hbr.1)
        rw [e]
        refine ⟨fun hf => ?_, fun hf => ?_⟩
        · refine (prep_here H hp h h1 hv1).mono fun n s4 h4 => ?_
          refine ⟨Res.keep h4.2 _, fun _ => by rw [h4.1], fun _ => h4.1⟩
        · have hf' : hasFreeVars s1 sub.1 = false := by simpa using hf
          refine (prep_lift H (v := ⟨.mk (s1.nv + 1), s1.n + 1, some (s1.n + 1), false⟩) hp h h1 hv1 hf' rfl rfl (by rfl) (by rfl) (by rfl) (by rfl) (by rfl) (by rfl) (by rfl) (by rfl) (by rfl) (by rfl)
            (by rfl) ?_ ?_).mono fun n s4 h4 => ?_
          · exact quant_more [(s1.n + 1, Quant.lambda), (s1.n, Quant.the)] rfl (by simp)
          · have : (s1.n == s1.n + 1) = false := by simp
            simp [St.quant, List.lookup, this]
          · exact ⟨Res.keep h4 _, fun _ => rfl, fun _ => rfl⟩
      · obtain ⟨hT, -, -, -⟩ := h.other (.inr ha)
        obtain ⟨-, -, hbt⟩ := other_cases (U := U) (.inr ha)
        refine (H.prenexS Z bi st rest s dep i hT).mono fun sub s1 h1 => ?_
        obtain ⟨hv1, h1, h2, -⟩ := h1
        have h3 : Two s1 { s1 with n := s1.n + 1 + 1, nv := s1.nv + 1 + 1, quants := (s1.n + 1, Quant.lambda) :: (s1.n, Quant.all) :: s1.quants } :=
          ⟨rfl, quant_more [(s1.n + 1, Quant.lambda), (s1.n, Quant.all)] rfl (by simp), rfl, rfl, rfl, rfl, rfl, rfl⟩
        refine ⟨fun hf => ?_, fun hf => ?_⟩
        · refine (adv_here H hM (v := ⟨.mk (s1.nv + 1), s1.n + 1, some (s1.n + 1), false⟩) ha h h1 hv1 h3 rfl rfl (by rfl) (by rfl) (by rfl) (by rfl)).mono fun n s4 h4 => ?_
          refine ⟨Res.keep h4 _, fun hb => ?_, fun hb => h2 hb⟩
          rw [branches, Bool.or_eq_false_iff] at hb
          rw [h2 hb.2]
        · refine (adv_lift H (v := ⟨.mk (s1.nv + 1), s1.n + 1, some (s1.n + 1), false⟩) ha h h1 hv1 h3 (by simpa using hf) rfl rfl (by rfl) (by rfl) (by rfl) (by rfl) (by rfl) (by rfl) (by rfl) (by rfl) (by rfl) (by rfl)
            (by rfl) ?_ ?_).mono fun n s4 h4 => ?_
          · exact quant_more [(s1.n, Quant.the), (s1.n + 1, Quant.lambda), (s1.n, Quant.all)] rfl (by simp)
          · simp [St.quant, List.lookup]
          · refine ⟨Res.keep h4 _, fun hb => ?_, fun hb => h2 hb⟩
            rw [branches, Bool.or_eq_false_iff] at hb
            rw [h2 hb.2]

theorem fden_step (hM : M.Laws) : FDen M U A (step U f) where
  statement Z n _ _ i h1 h2 h3 h4 h5 h6 := run_statement H Z n i h1 h2 h3 h4 h5 h6
  predicate n _ _ h1 h2 h3 := run_predicate H n h1 h2 h3
  poArg name v α _ _ h1 h2 h3 h4 := run_poArg H name v α h1 h2 h3 h4
  prenexS _ _ _ _ _ _ _ h := run_prenexS H hM h
  prepV n v _ _ h1 h2 h3 h4 := run_prepV H n v h1 h2 h3 h4
  prepT n _ _ _ _ _ _ _ h1 h2 h3 h4 h5 := run_prepT H n h1 h2 h3 h4 h5
  predPrepV p v α _ _ h1 h2 h3 h4 := run_predPrepV H p v α h1 h2 h3 h4
  predPrepT p α _ _ _ _ _ _ _ h1 h2 h3 h4 h5 := run_predPrepT H hM p α h1 h2 h3 h4 h5
  adverb n v _ _ h1 h2 h3 h4 := run_adverb H n v h1 h2 h3 h4
  roi n1 t0 t1 ru l r _ _ h0 h1 h2 h3 h4 := run_roi H n1 t0 t1 ru l r h0 h1 h2 h3 h4
  roiL v l r _ _ h1 h2 h3 h4 h5 h6 := run_roiL H v l r h1 h2 h3 h4 h5 h6
  roiR v w r _ _ h1 h2 h3 h4 h5 := run_roiR H v w r h1 h2 h3 h4 h5
  predArg id fo quant p rel _ _ h1 h2 h3 := run_predArg H id fo quant p rel h1 h2 h3
  relClause b n _ _ h1 h2 h3 := run_relClause H b n h1 h2 h3

omit H in
theorem fden_fns (hM : M.Laws) : ∀ k, FDen M U A (fns U k)
  | 0 => fden_zero M U A
  | k + 1 => fden_step (fden_fns hM k) hM

end

end Verif.Logic.Den
