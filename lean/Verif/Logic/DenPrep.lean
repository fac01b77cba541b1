/-
C56: prepositions.
-/
import Verif.Logic.DenContent

namespace Verif.Logic.Den
open Verif.Tone (Str)

section
variable {M : Model} {U : Uni} {A : Nat → AST.Node} {f : Fns}
variable {dep : Dep} {lk : Tok → Option Nat} {i : Bool} {s s1 s2 s3 t : St} {bi : Str} {st : AST.Node} {Z : Args} {ts : List AST.Node}
  {α : AST.Node}

theorem quant_more (l : List (Nat × Quant)) (h : t.quants = l ++ s.quants) (hl : ∀ p ∈ l, s.n ≤ p.1) :
    ∀ b < s.n, t.quant b = s.quant b := by
  intro b hb
  have : l.lookup b = none := by
    rw [List.lookup_eq_none_iff]
    intro p hp
    have := hl p hp
    simp
    omega
  rw [St.quant, St.quant, h, List.lookup_append, this, Option.none_or]

/-- Two more bindings. -/
structure Two (s t : St) : Prop where
  n : t.n = s.n + 2
  quant : ∀ b < s.n, t.quant b = s.quant b
  lifted : t.lifted = s.lifted
  the : t.the = s.the
  hoa : t.hoa = s.hoa
  hi : t.hi = s.hi
  vars : t.vars = s.vars
  cleared : t.cleared = s.cleared

theorem Two.evo (h : Two s t) : Evo s t [] := Evo.same h.the h.lifted (by rw [h.n]; omega) h.quant h.hoa h.hi
theorem Two.inv (h : Two s t) (hi : Inv M U A s) : Inv M U A t := hi.same h.cleared h.the h.lifted (by rw [h.n]; omega) h.quant

theorem pair_ZOk {v w : Var} (hv : v.n < s.n) (hw : w.n < s.n) : ZOk s [(.var v, 0), (.var w, 0)] := by
  intro z hz
  simp at hz
  rcases hz with rfl | rfl
  · exact ⟨v, rfl, hv⟩
  · exact ⟨w, rfl, hw⟩

theorem pair_PlOk (a b : Node) : PlOk [(a, 0), (b, 0)] [] :=
  (((PlOk.nil []).snoc (p := 0) (a := a) (by simp)).snoc (p := 0) (a := b) (by simp))

theorem dArg_noBind (hα : Single U α) (hb : noBind U α = true) (L : Nat → M.D) (env : Env M) (K : Env M → M.D → M.B) :
    dArg U L env K α = dArg U L env (fun _ d => K env d) α := by
  unfold Single at hα
  split at hα
  · next id fo quant p rel =>
    rw [noBind] at hb
    simp only [dArg]
    cases hf : form U p with
    | var x =>
      rw [hf] at hb
      simp at hb
      simp [hb]
    | hoa => simp
    | plain => simp
  · next ru l r => simp only [dArg, hα, if_true]
  · cases hα

/-- The content of what follows, in a preposition. -/
theorem prep_res (hM : M.Laws) (p : AST.Node) {w v a0 : Var} {b : Option Pending} {s4 : St} {sub r : Node} {x y : Nat} (hα : Single U α)
    (hb : noBind U α = true)
    (hT : TailOk M U A dep i s Z bi st ts) (hk : ∀ j ∈ argIds (evTail U bi st ts), j ∈ keys s)
    (hs : Sees dep (look s) s (toks (evArg U true (evPred U p) α))) (hA : ResA M U A dep s s1 α b w)
    (h : Res M U A dep (look s1) s1 s2 (usesV (isU U bi st) Z) Z (evTail U bi st ts) sub (fun L env as => dTerms U L env as (endK U bi st L) ts))
    (h3 : Two s2 s3) (hx : x = s2.n) (hy : y = s2.n + 1) (hv : v.n = y) (hvd : v.dfn = some y) (hw : a0.n = x) (hwd : a0.dfn = some x)
    (h1 : w.dfn = some w.n) (h2 : w.n < s1.n) (hlk : look s1 = look s) (hsr : Sees dep (look s1) s1 (toks (evPred U p)))
    (h4 : Res M U A dep (look s1) s3 s4 (vsOf [(.var a0, 0), (.var w, 0)]) [(.var a0, 0), (.var w, 0)] (evPred U p) r
      (fun L env as => dPred U L env p fun P => M.app P (placed as))) :
    Res M U A dep (look s) s s4 (usesV (isU U bi st) Z) Z (evTail U bi st ts ++ evArg U true (evPred U p) α)
      (bindScope b (.bind .all x x false (some (content sub y v a0)) r))
        (fun L env as => dArg U L env (fun _ d => dPred U L env p fun P =>
          M.app P [some (M.absD (dTerms U L env as (endK U bi st L) ts)), some d]) α) := by
  have hn2 := h.evo.n
  have key : ∀ Z', ZOk s Z' → (∀ L env (ρ : Nat → M.D), dTerms U L env (vals ρ Z') (endK U bi st L) ts = dTerms U L env (vals ρ Z) (endK U bi st L) ts) →
      Res M U A dep (look s) s s4 (usesV (isU U bi st) Z) Z' (evTail U bi st ts ++ evArg U true (evPred U p) α)
        (bindScope b (.bind .all x x false (some (content sub y v a0)) r))
        (fun L env as => dArg U L env (fun _ d => dPred U L env p fun P =>
          M.app P [some (M.absD (dTerms U L env as (endK U bi st L) ts)), some d]) α) := by
    intro Z' hZ' hd'
    have hst : Sees dep (look s) s (toks (evTail U bi st ts)) := hT.sees
    have hin := Res.inPlace hM h h3.evo h3.n h3.the hx hy hv hvd hw hwd h4 (V3 := usesV (isU U bi st) Z ++ [w]) (Z3 := Z' ++ [(.var w, 0)])
      (den3 := fun L env as => dPred U L env p fun P => M.app P [some (M.absD (dTerms U L env as.dropLast (endK U bi st L) ts)),
        some ((as.getLast?.map (·.1)).getD M.d0)]) ?_ (by simp; tauto) ?_ ?_ ?_ ?_
    · have := hA.cont s4 _ (usesV (isU U bi st) Z) Z' _ true 0 _ ?_ hT.v.lt (fun _ => hZ') (by simp) (by rw [noBind_depA hb]; exact hin)
      · refine (this.dn fun L env ρ => ?_).ev ?_ ?_
        · rw [dArg_noBind hα hb]
          simp
        · intro t
          rw [toks_append, List.mem_append, evArg_toks hα, evArg_toks hα _ (evPred U p), toks_append, List.mem_append]
          simp [noBind_bindsA hb]
          tauto
        · rw [evArg_args hα true true, argIds_append, argIds_append, evArg_args hα true true (evPred U p), addNew_append, addNew_append,
            addNew_append, addNew_append]
          rw [addNew_sub (m := argIds (evTail U bi st ts)) (l := addNew (keys s) _) (fun j hj => mem_addNew.2 (.inl (hk j hj))), addNew_sub hk]
      · intro t ht
        rw [evArg_toks hα, toks_append, List.mem_append] at ht
        rcases ht with ht | ⟨ht | ht, hy⟩
        · exact hs t ((evArg_toks hα _ _ _).2 (.inl ht))
        · exact hst t ht
        · exact hs t ((evArg_toks hα _ _ _).2 (.inr ⟨ht, hy⟩))
    · rw [toks_append]
      intro t ht
      rcases List.mem_append.1 ht with ht | ht
      · rw [hlk]; exact hst.evo hA.evo t ht
      · exact hsr t ht
    · intro z hz
      simp [vsOf] at hz
      rcases hz with rfl | rfl
      · exact .inr hw
      · simp
    · intro z hz
      rcases List.mem_append.1 hz with hz | hz
      · exact .inl hz
      · simp at hz
        subst hz
        simp [vsOf]
    · intro z hz
      rcases List.mem_append.1 hz with hz | hz
      · exact Nat.lt_of_lt_of_le (hT.v.lt z hz) hA.evo.n
      · simp at hz
        subst hz
        exact h2
    · intro L env ρ
      have hwx : w.n ≠ x := by omega
      simp only [vals, List.map_cons, List.map_nil, List.map_append, Model.arg, upd, hw, if_true, if_neg hwx]
      rw [List.dropLast_concat, List.getLast?_concat]
      simp only [Option.map_some, Option.getD_some]
      rw [← vals, ← vals, hd']
      rfl
  rcases Bool.eq_false_or_eq_true (isU U bi st) with hu | hu
  · exact key Z (hT.z hu) fun _ _ _ => rfl
  · have := key [] (by intro z hz; cases hz) fun L env ρ => tail_ign hu L env _ _
    refine this.args fun L env as as' => ?_
    simp only [tail_ign hu L env as as']

variable (H : FDen M U A f)

include H

/-- A preposition said of a variable. -/
theorem prepEnd_var (p : AST.Node) {v w : Var} {b : Option Pending} (hα : Single U α) (hb : noBind U α = true)
    (hv : VOk s [v] true) (ho : okArg U A dep (fun dep _ => okPred U A dep p) α)
    (hs : Sees dep (look s) s (toks (evArg U true (evPred U p) α))) (hA : ResA M U A dep s s1 α b w) :
    Post (predPrepEnd f p (.var (.var v)) b (.var w)) s1 Any fun r s' =>
      Res M U A dep (look s) s s' [v] [(.var v, 0)] (evArg U true (evPred U p) α) r.1
        (fun L env as => dArg U L env (fun env d => dPred U L env p fun P => M.app P [some (fst1 as), some d]) α) := by
  unfold predPrepEnd
  simp only
  postz
  have hok := (okArg_single hα).1 ho
  rw [noBind_depA hb] at hok
  obtain ⟨h1, h2, -⟩ := hA.acc (hs.sub fun t ht => (evArg_toks hα _ _ t).2 (.inl ht))
  have hsr := sees_rest hα hs hA (by rw [noBind_bindsA hb]; simp)
  rw [noBind_depA hb] at hsr
  refine (run_predication H p (Z := [(.var v, 0), (.var w, 0)]) (i := true) hA.inv
    (pair_ZOk ((hv.evo hA.evo).lt v (by simp)) h2) ((hv.evo hA.evo).cons h1 h2) (pair_PlOk _ _) hok.2 hsr).mono fun r s' h => ?_
  have := hA.cont s' (evPred U p) [v] [(.var v, 0)] r true 0 _ hs hv.lt (fun _ => by
    intro z hz
    simp at hz
    subst hz
    exact ⟨v, rfl, hv.lt _ (by simp)⟩) (by simp) (by rw [noBind_depA hb]; exact h.2)
  refine this.dn fun L env ρ => ?_
  rfl

/-- A preposition said of what follows. -/
theorem prepEnd_tail (hM : M.Laws) (p : AST.Node) {w : Var} {b : Option Pending} (hα : Single U α) (hb : noBind U α = true)
    (hT : TailOk M U A dep i s Z bi st ts) (hbr : branches U ts = false) (hk : ∀ j ∈ argIds (evTail U bi st ts), j ∈ keys s)
    (ho : okArg U A dep (fun dep _ => okPred U A dep p) α)
    (hs : Sees dep (look s) s (toks (evArg U true (evPred U p) α))) (hA : ResA M U A dep s s1 α b w) :
    Post (predPrepEnd f p (.tail Z bi st ts) b (.var w)) s1 Any fun r s' => r.2 = ts ∧
      Res M U A dep (look s) s s' (usesV (isU U bi st) Z) Z (evTail U bi st ts ++ evArg U true (evPred U p) α) r.1
        (fun L env as => dArg U L env (fun _ d => dPred U L env p fun P =>
          M.app P [some (M.absD (dTerms U L env as (endK U bi st L) ts)), some d]) α) := by
  unfold predPrepEnd
  simp only
  postz
  have hok := (okArg_single hα).1 ho
  rw [noBind_depA hb] at hok
  obtain ⟨h1, h2, -⟩ := hA.acc (hs.sub fun t ht => (evArg_toks hα _ _ t).2 (.inl ht))
  have hsr := sees_rest hα hs hA (by rw [noBind_bindsA hb]; simp)
  rw [noBind_depA hb] at hsr
  obtain ⟨hva, hlk⟩ := look_nobind hA hb
  have hT1 := hT.evo hA.evo hA.inv hva
  refine (H.prenexS _ _ _ _ _ _ _ hT1).mono fun sub s2 h => ?_
  obtain ⟨hv2, h, hr2, -⟩ := h
  have h3 : Two s2 { s2 with n := s2.n + 1 + 1, nv := s2.nv + 1 + 1, quants := (s2.n + 1, Quant.lambda) :: (s2.n, Quant.all) :: s2.quants } :=
    ⟨rfl, quant_more [(s2.n + 1, Quant.lambda), (s2.n, Quant.all)] rfl (by simp), rfl, rfl, rfl, rfl, rfl, rfl⟩
  have hlk3 := (look_eq h3.hoa h3.vars).trans (look_eq h.evo.hoa hv2)
  have hn2 := h.evo.n
  have hEr := h.evo.trans h3.evo
  refine (run_predication H p (dep := dep) (i := true) (h3.inv h.inv)
    (pair_ZOk (by simp only; omega) (by simp only; omega)) ?_ (pair_PlOk _ _) hok.2
    (by rw [hlk3]; exact hsr.evo hEr)).mono fun r s4 h4 => ?_
  · intro z hz
    simp [vsOf] at hz
    rcases hz with rfl | rfl
    · exact ⟨rfl, by simp only; omega, by simp⟩
    · exact ⟨h1, by simp only; omega, by simp⟩
  refine ⟨hr2 hbr, ?_⟩
  rw [hlk3] at h4
  exact prep_res hM p hα hb hT hk hs hA h h3 rfl rfl rfl rfl rfl rfl h1 h2 hlk hsr h4.2

omit H in
theorem prep_single {p : AST.Node} (h : branchA U α = false) (ho : okArg U A dep (fun dep _ => okPred U A dep p) α) : Single U α := by
  rcases (okArg_isArg ho).cases with ⟨_, _, _, _, _, rfl⟩ | ⟨_, _, _, _, _, rfl⟩
  · trivial
  · show isRoi U _ = true
    simpa [branchA] using h

theorem run_predPrepV (p : AST.Node) (v : Var) (α : AST.Node) (hi : Inv M U A s) (hv : VOk s [v] true) (ho : okPrep U A dep (.prep p α))
    (hs : Sees dep (look s) s (toks (evPrep U (.prep p α)))) :
    Post (predPrepF U f p (.var (.var v)) α) s Any fun r s' => s'.vars = s.vars ∧
      Res M U A dep (look s) s s' [v] [(.var v, 0)] (evPrep U (.prep p α)) r.1 (fun L env as => dPrep U L env (fst1 as) (.prep p α)) := by
  rw [okPrep] at ho
  obtain ⟨hb, hbr, ho⟩ := ho
  have hα := prep_single hbr ho
  simp only [evPrep] at hs ⊢
  have hs0 := hs.sub fun t ht => (evArg_toks hα true (evPred U p) t).2 (.inl ht)
  have hok := ((okArg_single hα).1 ho).1
  unfold predPrepF
  rw [post_keepVars]
  split
  · next id fo quant p' rel =>
    postz
    refine (H.predArg id fo quant p' rel s dep hi hok (hs0.sub fun t ht => evArg_mono hα ht true)).mono fun y s1 h => ?_
    obtain ⟨w, hw, h⟩ := h
    rw [hw]
    refine (prepEnd_var H p hα hb hv ho hs h).mono fun r s2 h2 => ?_
    refine (h2.keep _).dn fun L env ρ => ?_
    rw [dPrep]
  · next t0 t1 ru l r =>
    have hr : isRoi U ru = true := hα
    unfold isRoi at hr
    postz
    refine ⟨fun _ => ?_, fun h => absurd hr h⟩
    refine (H.roi _ t0 t1 ru l r s dep rfl hα hi hok hs0).mono fun y s1 h => ?_
    obtain ⟨w, hw, h⟩ := h
    rw [hw]
    refine (prepEnd_var H p hα hb hv ho hs h).mono fun r s2 h2 => ?_
    refine (h2.keep _).dn fun L env ρ => ?_
    rw [dPrep]
  · postz

theorem run_predPrepT (hM : M.Laws) (p : AST.Node) (α : AST.Node) (hT : TailOk M U A dep i s Z bi st ts) (hbt : branches U ts = false)
    (hk : ∀ j ∈ argIds (evTail U bi st ts), j ∈ keys s) (ho : okPrep U A dep (.prep p α))
    (hs : Sees dep (look s) s (toks (evPrep U (.prep p α)))) :
    Post (predPrepF U f p (.tail Z bi st ts) α) s Any fun r s' => s'.vars = s.vars ∧ r.2 = ts ∧
      Res M U A dep (look s) s s' (usesV (isU U bi st) Z) Z (evTail U bi st ts ++ evPrep U (.prep p α)) r.1
        (fun L env as => dPrep U L env (M.absD (dTerms U L env as (endK U bi st L) ts)) (.prep p α)) := by
  have hi := hT.inv
  rw [okPrep] at ho
  obtain ⟨hb, hbr, ho⟩ := ho
  have hα := prep_single hbr ho
  simp only [evPrep] at hs ⊢
  have hs0 := hs.sub fun t ht => (evArg_toks hα true (evPred U p) t).2 (.inl ht)
  have hok := ((okArg_single hα).1 ho).1
  unfold predPrepF
  rw [post_keepVars]
  split
  · next id fo quant p' rel =>
    postz
    refine (H.predArg id fo quant p' rel s dep hi hok (hs0.sub fun t ht => evArg_mono hα ht true)).mono fun y s1 h => ?_
    obtain ⟨w, hw, h⟩ := h
    rw [hw]
    refine (prepEnd_tail H hM p hα hb hT hbt hk ho hs h).mono fun r s2 h2 => ⟨h2.1, ?_⟩
    refine (h2.2.keep _).dn fun L env ρ => ?_
    rw [dPrep]
    exact (dArg_noBind hα hb L env (fun env' d => dPred U L env' p fun P =>
      M.app P [some (M.absD (dTerms U L env (vals ρ Z) (endK U bi st L) ts)), some d])).symm
  · next t0 t1 ru l r =>
    have hr : isRoi U ru = true := hα
    unfold isRoi at hr
    postz
    refine ⟨fun _ => ?_, fun h => absurd hr h⟩
    refine (H.roi _ t0 t1 ru l r s dep rfl hα hi hok hs0).mono fun y s1 h => ?_
    obtain ⟨w, hw, h⟩ := h
    rw [hw]
    refine (prepEnd_tail H hM p hα hb hT hbt hk ho hs h).mono fun r s2 h2 => ⟨h2.1, ?_⟩
    refine (h2.2.keep _).dn fun L env ρ => ?_
    rw [dPrep]
    exact (dArg_noBind hα hb L env (fun env' d => dPred U L env' p fun P =>
      M.app P [some (M.absD (dTerms U L env (vals ρ Z) (endK U bi st L) ts)), some d])).symm
  · postz

theorem run_prepV (n : AST.Node) (v : Var) (hi : Inv M U A s) (hv : VOk s [v] true) (ho : okPrep U A dep n)
    (hs : Sees dep (look s) s (toks (evPrep U n))) :
    Post (prepositionF U f n (.var (.var v))) s Any fun r s' => s'.vars = s.vars ∧
      Res M U A dep (look s) s s' [v] [(.var v, 0)] (evPrep U n) r.1 (fun L env as => dPrep U L env (fst1 as) n) := by
  unfold prepositionF
  rw [post_keepVars]
  split
  · next p a =>
    refine (H.predPrepV p v a s dep hi hv ho hs).mono fun r s1 h => ⟨rfl, h.2.keep _⟩
  · next t0 t1 ru l r =>
    rw [okPrep] at ho
    rw [evPrep] at hs ⊢
    postz
    intro c hc hl
    refine (H.prepV l v s dep hi hv ho.1 (hs.sub (by simp; tauto))).mono fun ln s1 h1 hr => ?_
    have hlk : look s1 = look s := look_eq h1.2.evo.hoa h1.1
    refine (H.prepV r v s1 dep h1.2.inv (hv.evo h1.2.evo) ho.2 ?_).mono fun rn s2 h2 => ?_
    · rw [hlk]
      exact (hs.evo h1.2.evo).sub (by simp; tauto)
    · rw [hlk] at h2
      refine (Res.keep ((h1.2.conn (c := c) h2.2 (fun _ h => h) (fun _ h => h) (by simp) (fun w hw => (hv w hw).2.1)).dn
        fun L env ρ => ?_) _)
      rw [dPrep]
      simp [connOf, hc]
  · postz

theorem run_prepT (n : AST.Node) (hT : TailOk M U A dep i s Z bi st ts) (hbt : branches U ts = false)
    (hk : ∀ j ∈ argIds (evTail U bi st ts), j ∈ keys s) (ho : okPrep U A dep n)
    (hs : Sees dep (look s) s (toks (evPrep U n))) :
    Post (prepositionF U f n (.tail Z bi st ts)) s Any fun r s' => s'.vars = s.vars ∧ r.2 = ts ∧
      Res M U A dep (look s) s s' (usesV (isU U bi st) Z) Z (evTail U bi st ts ++ evPrep U n) r.1
        (fun L env as => dPrep U L env (M.absD (dTerms U L env as (endK U bi st L) ts)) n) := by
  unfold prepositionF
  rw [post_keepVars]
  split
  · next p a =>
    refine (H.predPrepT p a Z bi st ts s dep i hT hbt hk ho hs).mono fun r s1 h => ⟨rfl, h.2.1, h.2.2.keep _⟩
  · next t0 t1 ru l r =>
    rw [okPrep] at ho
    rw [evPrep] at hs ⊢
    postz
    intro c hc hl
    refine (H.prepT l Z bi st ts s dep i hT hbt hk ho.1 (hs.sub (by simp; tauto))).mono fun ln s1 h1 hr => ?_
    obtain ⟨hv1, ht1, h1⟩ := h1
    have hlk : look s1 = look s := look_eq h1.evo.hoa hv1
    simp only [Arg0.setTerms, ht1]
    refine (H.prepT r Z bi st ts s1 dep i (hT.evo h1.evo h1.inv hv1) hbt ?_ ho.2 ?_).mono fun rn s2 h2 => ?_
    · intro j hj
      rw [h1.evo.keys]
      exact mem_addNew.2 (.inl (hk j hj))
    · rw [hlk]
      exact (hs.evo h1.evo).sub (by simp; tauto)
    · rw [hlk] at h2
      refine ⟨h2.2.1, ?_⟩
      refine (Res.keep (((h1.conn (c := c) h2.2.2 (fun _ h => h) (fun _ h => h) (by simp) hT.v.lt).dn
        fun L env ρ => ?_).ev ?_ ?_) _)
      · rw [dPrep]
        simp [connOf, hc]
      · intro t
        simp only [toks_append, List.mem_append]
        tauto
      · simp only [argIds_append, addNew_append]
        rw [addNew_sub hk, addNew_sub fun j hj => mem_addNew.2 (.inl (hk j hj))]
  · postz

end

end Verif.Logic.Den
