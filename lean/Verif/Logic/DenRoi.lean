/-
C56: roi and po.
-/
import Verif.Logic.DenStmt

namespace Verif.Logic.Den
open Verif.Tone (Str)

section
variable {M : Model} {U : Uni} {A : Nat → AST.Node} {f : Fns}
variable {dep : Dep} {lk : Tok → Option Nat} {s s1 s2 : St}

theorem VOk.cons {V : List Var} {v : Var} (h : VOk s V true) (h1 : v.dfn = some v.n) (h2 : v.n < s.n) : VOk s (V ++ [v]) true := by
  intro w hw
  rcases List.mem_append.1 hw with hw | hw
  · exact h w hw
  · simp at hw
    subst hw
    exact ⟨h1, h2, by simp⟩

theorem VOk.lt {V : List Var} {i : Bool} (h : VOk s V i) : ∀ v ∈ V, v.n < s.n := fun v hv => (h v hv).2.1

theorem leaf_po {v w : Var} (name : Str) (hi : Inv M U A s) (hv : VOk s [v, w] true) :
    Res M U A dep lk s s [v, w] [(.var v, 0), (.var w, 0)] [] (.app (.name name) [some (.var v), some (.var w)])
      (fun _ _ as => M.app (M.name name) [some (fst1 as), some (fst1 as.tail)]) where
  evo := Evo.refl s
  inv := hi
  tree := ⟨trivial, ⟨(hv v (by simp)).1, .inr (.inl ⟨v, by simp, rfl⟩)⟩, ⟨(hv w (by simp)).1, .inr (.inl ⟨w, by simp, rfl⟩)⟩, trivial⟩
  occ t ht := by simp at ht
  occV x hx _ := by
    simp at hx
    rcases hx with rfl | rfl
    · exact .inr (.inl rfl)
    · exact .inr (.inr (.inl rfl))
  val L ρ env hg he := rfl

theorem leaf_roi {x v w : Var} (hi : Inv M U A s) (hv : VOk s [x, v, w] true) :
    Res M U A dep lk s s [x, v, w] [(.var x, 0), (.var v, 0), (.var w, 0)] []
      (.app (.name equalName) [some (.var x), some (.plural [some (.var v), some (.var w)])])
      (fun _ _ as => M.app (M.name equalName) [some (fst1 as), some (M.plural [fst1 as.tail, fst1 as.tail.tail])]) where
  evo := Evo.refl s
  inv := hi
  tree := ⟨trivial, ⟨(hv x (by simp)).1, .inr (.inl ⟨x, by simp, rfl⟩)⟩, ⟨⟨(hv v (by simp)).1, .inr (.inl ⟨v, by simp, rfl⟩)⟩,
    ⟨(hv w (by simp)).1, .inr (.inl ⟨w, by simp, rfl⟩)⟩, trivial⟩, trivial⟩
  occ t ht := by simp at ht
  occV y hy _ := by
    simp at hy
    rcases hy with rfl | rfl | rfl
    · exact .inr (.inl rfl)
    · exact .inr (.inr (.inl (.inl rfl)))
    · exact .inr (.inr (.inl (.inr (.inl rfl))))
  val L ρ env hg he := rfl

/-- What follows an argument sees the names. -/
theorem sees_rest {α : AST.Node} (hα : Single U α) {u : Bool} {E : List Ev} {b : Option Pending} {v : Var}
    (hs : Sees dep (look s) s (toks (evArg U u E α))) (h : ResA M U A dep s s1 α b v) (hv : ∀ y, bindsA U α = some y → v.n < s1.n) :
    Sees (depA U dep α) (look s1) s1 (toks E) := by
  intro t ht
  by_cases hy : ∀ y, bindsA U α = some y → t ≠ some y
  · obtain ⟨c, h1, h2, h3⟩ := hs t ((evArg_toks hα u E t).2 (.inr ⟨ht, hy⟩))
    refine ⟨c, ?_, Nat.lt_of_lt_of_le h2 h.evo.n, by rw [depA_ne hy, h.evo.quant c h2]; exact h3⟩
    rw [← h1]
    cases t with
    | none => simp only [look, h.evo.hoa]
    | some x =>
      simp only [look, h.vars]
      cases hb : bindsA U α with
      | none => rfl
      | some y =>
        have hxy : x ≠ y := by
          rintro rfl
          exact hy x hb rfl
        have : (x == y) = false := by simpa using hxy
        simp [List.lookup, this]
  · simp only [Classical.not_forall, Decidable.not_not] at hy
    obtain ⟨y, hb, rfl⟩ := hy
    refine ⟨v.n, ?_, hv y hb, h.new y hb⟩
    simp [look, h.vars, hb]

theorem look_nobind {α : AST.Node} {b : Option Pending} {v : Var} (h : ResA M U A dep s s1 α b v) (hb : noBind U α = true) :
    s1.vars = s.vars ∧ look s1 = look s := by
  have : s1.vars = s.vars := by have := h.vars; rwa [noBind_bindsA hb] at this
  exact ⟨this, look_eq h.evo.hoa this⟩

/-- po, of an argument. -/
theorem po_end {α : AST.Node} {name : Str} {v0 v : Var} {b : Option Pending}
    (hv0 : VOk s [v0] true) (hs : Sees dep (look s) s (toks (evArg U true [] α))) (h : ResA M U A dep s s1 α b v) :
    Res M U A dep (look s) s s1 [v0] [(.var v0, 0)] (evArg U true [] α) (bindScope b (.app (.name name) [some (.var v0), some (.var v)]))
      (fun L env as => dArg U L env (fun _ e => M.app (M.name name) [some (fst1 as), some e]) α) := by
  obtain ⟨h1, h2, -⟩ := h.acc hs
  have := h.cont s1 [] [v0] [(.var v0, 0)] _ true 0 _ hs hv0.lt (fun _ => by
    intro z hz
    simp at hz
    subst hz
    exact ⟨v0, rfl, hv0.lt _ (by simp)⟩) (by simp) (leaf_po name h.inv ((hv0.evo h.evo).cons h1 h2))
  refine this.dn fun L env ρ => ?_
  rfl

theorem roi_end {α : AST.Node} {x w v : Var} {b : Option Pending}
    (hv0 : VOk s [x, w] true) (hs : Sees dep (look s) s (toks (evArg U true [] α))) (h : ResA M U A dep s s1 α b v) :
    Res M U A dep (look s) s s1 [x, w] [(.var x, 0), (.var w, 0)] (evArg U true [] α)
      (bindScope b (.app (.name equalName) [some (.var x), some (.plural [some (.var w), some (.var v)])]))
      (fun L env as => dArg U L env (fun _ b =>
          M.app (M.name equalName) [some (fst1 as), some (M.plural [fst1 as.tail, b])]) α) := by
  obtain ⟨h1, h2, -⟩ := h.acc hs
  have := h.cont s1 [] [x, w] [(.var x, 0), (.var w, 0)] _ true 0 _ hs hv0.lt (fun _ => by
    intro z hz
    simp at hz
    rcases hz with rfl | rfl
    · exact ⟨x, rfl, hv0.lt _ (by simp)⟩
    · exact ⟨w, rfl, hv0.lt _ (by simp)⟩) (by simp) (leaf_roi h.inv ((hv0.evo h.evo).cons h1 h2))
  refine this.dn fun L env ρ => ?_
  rfl

theorem roiL_end {l r : AST.Node} {x v : Var} {b : Option Pending} {n : Node} (hb : noBind U l = true)
    (hv0 : VOk s [x] true) (hs : Sees dep (look s) s (toks (evArg U true (evArg U true [] r) l))) (h : ResA M U A dep s s1 l b v)
    (hr : Res M U A dep (look s1) s1 s2 [x, v] [(.var x, 0), (.var v, 0)] (evArg U true [] r) n
        (fun L env as => dArg U L env (fun _ b =>
          M.app (M.name equalName) [some (fst1 as), some (M.plural [fst1 as.tail, b])]) r)) :
    Res M U A dep (look s) s s2 [x] [(.var x, 0)] (evArg U true (evArg U true [] r) l) (bindScope b n)
        (fun L env as => dArg U L env (fun env a => dArg U L env (fun _ b =>
          M.app (M.name equalName) [some (fst1 as), some (M.plural [a, b])]) r) l) := by
  have := h.cont s2 (evArg U true [] r) [x] [(.var x, 0)] _ true 0 _ hs hv0.lt (fun _ => by
    intro z hz
    simp at hz
    subst hz
    exact ⟨x, rfl, hv0.lt _ (by simp)⟩) (by simp) (by rw [noBind_depA hb]; exact hr)
  refine this.dn fun L env ρ => ?_
  rfl

variable (H : FDen M U A f)

include H

theorem run_poArg (name : Str) (v : Var) (α : AST.Node) (hi : Inv M U A s) (hv : VOk s [v] true)
    (ho : okArg U A dep (fun _ _ => True) α) (hs : Sees dep (look s) s (toks (evArg U true [] α))) :
    Post (poArgF U f (.name name) (.var v) α) s Any fun r s' =>
    s'.vars = s.vars ∧ Res M U A dep (look s) s s' [v] [(.var v, 0)] (evArg U true [] α) r
      (fun L env as => dArg U L env (fun _ e => M.app (M.name name) [some (fst1 as), some e]) α) := by
  unfold poArgF
  rw [post_keepVars]
  split
  · next id fo quant p rel =>
    postz
    refine (H.predArg id fo quant p rel s dep hi ho ?_).mono fun y s1 h => ?_
    · exact hs.sub fun t ht => evArg_mono (α := .predArg id fo quant p rel) trivial ht true
    · obtain ⟨w, hw, h⟩ := h
      rw [hw]
      refine ((po_end (name := name) hv hs h).keep _)
  · next t0 t1 ru l r =>
    cases hr : isRoi U ru with
    | true =>
      have hr' : hasText U ru.T ['r', 'o', 'i'] = true := hr
      simp only [hr', if_true]
      postz
      refine (H.roi _ t0 t1 ru l r s dep rfl hr hi ho hs).mono fun y s1 h => ?_
      obtain ⟨w, hw, h⟩ := h
      rw [hw]
      refine ((po_end (name := name) hv hs h).keep _)
    | false =>
      have hr' : hasText U ru.T ['r', 'o', 'i'] = false := hr
      simp only [hr', Bool.false_eq_true, if_false]
      simp only [okArg, hr, Bool.false_eq_true, if_false] at ho
      simp only [evArg, hr, Bool.false_eq_true, if_false] at hs ⊢
      postz
      intro c hc _
      refine (H.poArg name v l s dep hi hv ho.1 (hs.sub (by simp; tauto))).mono fun n1 s1 h1 _ => ?_
      have hlk : look s1 = look s := look_eq h1.2.evo.hoa h1.1
      refine (H.poArg name v r s1 dep h1.2.inv (hv.evo h1.2.evo) ho.2 ?_).mono fun n2 s2 h2 => ?_
      · rw [hlk]; exact (hs.evo h1.2.evo).sub (by simp; tauto)
      · rw [hlk] at h2
        have hc' : connOf U ru = c := by simp [connOf, hc]
        have := h1.2.conn (V := [v]) (c := c) h2.2 (by simp) (by simp) (by simp) hv.lt
        refine (this.keep _).dn fun L env ρ => ?_
        simp only [dArg, hr, hc', Bool.false_eq_true, if_false]
  · postz

theorem run_roiR (v w : Var) (r : AST.Node) (hi : Inv M U A s) (hv : VOk s [v, w] true) (hb : noBind U r = true)
    (ho : okArg U A dep (fun _ _ => True) r) (hs : Sees dep (look s) s (toks (evArg U true [] r))) :
    Post (roiRF U f (.var v) (.var w) r) s Any fun n s' => s'.vars = s.vars ∧
      Res M U A dep (look s) s s' [v, w] [(.var v, 0), (.var w, 0)] (evArg U true [] r) n
        (fun L env as => dArg U L env (fun _ b =>
          M.app (M.name equalName) [some (fst1 as), some (M.plural [fst1 as.tail, b])]) r) := by
  unfold roiRF
  simp only
  split
  · next t0 t1 ru l r =>
    cases hr : isRoi U ru with
    | true =>
      have hr' : hasText U ru.T ['r', 'o', 'i'] = true := hr
      simp only [hr', if_true]
      postz
      refine (H.roi _ t0 t1 ru l r s dep rfl hr hi ho hs).mono fun y s1 h => ?_
      obtain ⟨z, hz, h⟩ := h
      rw [hz]
      exact ⟨(look_nobind h hb).1, roi_end hv hs h⟩
    | false =>
      have hr' : hasText U ru.T ['r', 'o', 'i'] = false := hr
      simp only [hr', Bool.false_eq_true, if_false]
      simp only [okArg, hr, Bool.false_eq_true, if_false] at ho
      simp only [evArg, hr, Bool.false_eq_true, if_false] at hs ⊢
      simp only [noBind, Bool.and_eq_true] at hb
      postz
      intro c hc _
      refine (H.roiR v w l s dep hi hv hb.1 ho.1 (hs.sub (by simp; tauto))).mono fun n1 s1 h1 _ => ?_
      have hlk : look s1 = look s := look_eq h1.2.evo.hoa h1.1
      refine (H.roiR v w r s1 dep h1.2.inv (hv.evo h1.2.evo) hb.2 ho.2 ?_).mono fun n2 s2 h2 => ?_
      · rw [hlk]; exact (hs.evo h1.2.evo).sub (by simp; tauto)
      · rw [hlk] at h2
        have hc' : connOf U ru = c := by simp [connOf, hc]
        refine ⟨h2.1.trans h1.1, ?_⟩
        have := h1.2.conn (V := [v, w]) (c := c) h2.2 (by simp) (by simp) (by simp) hv.lt
        refine this.dn fun L env ρ => ?_
        simp only [dArg, hr, hc', Bool.false_eq_true, if_false]
  · next id fo quant p rel =>
    postz
    refine (H.predArg id fo quant p rel s dep hi ho ?_).mono fun y s1 h => ?_
    · exact hs.sub fun t ht => evArg_mono (α := .predArg id fo quant p rel) trivial ht true
    · obtain ⟨z, hz, h⟩ := h
      rw [hz]
      exact ⟨(look_nobind h hb).1, roi_end hv hs h⟩
  · postz

/-- After the left side of roi. -/
theorem roiL_rest {l r : AST.Node} (hl : Single U l) {x v : Var} {b : Option Pending} (hb : noBind U l = true) (hbr : noBind U r = true)
    (ho : okArg U A dep (fun _ _ => True) r) (hv : VOk s [x] true)
    (hs : Sees dep (look s) s (toks (evArg U true (evArg U true [] r) l))) (h : ResA M U A dep s s1 l b v) :
    Post (f.roiR (.var x) (.var v) r) s1 Any fun n s' => s'.vars = s.vars ∧
      Res M U A dep (look s) s s' [x] [(.var x, 0)] (evArg U true (evArg U true [] r) l) (bindScope b n)
        (fun L env as => dArg U L env (fun env a => dArg U L env (fun _ b =>
          M.app (M.name equalName) [some (fst1 as), some (M.plural [a, b])]) r) l) := by
  obtain ⟨h1, h2, -⟩ := h.acc (hs.sub fun t ht => (evArg_toks hl true _ t).2 (.inl ht))
  obtain ⟨h3, h4⟩ := look_nobind h hb
  have hs' := sees_rest hl hs h fun _ _ => h2
  rw [noBind_depA hb] at hs'
  refine (H.roiR x v r s1 dep h.inv ((hv.evo h.evo).cons h1 h2) hbr ho hs').mono fun n s2 hn => ?_
  exact ⟨hn.1.trans h3, roiL_end hb hv hs h hn.2⟩

theorem run_roiL (v : Var) (l r : AST.Node) (hi : Inv M U A s) (hv : VOk s [v] true) (hbl : noBind U l = true) (hb : noBind U r = true)
    (ho : okArg U A dep (fun dep _ => okArg U A dep (fun _ _ => True) r) l)
    (hs : Sees dep (look s) s (toks (evArg U true (evArg U true [] r) l))) :
    Post (roiLF U f (.var v) l r) s Any fun n s' => s'.vars = s.vars ∧
      Res M U A dep (look s) s s' [v] [(.var v, 0)] (evArg U true (evArg U true [] r) l) n
        (fun L env as => dArg U L env (fun env a => dArg U L env (fun _ b =>
          M.app (M.name equalName) [some (fst1 as), some (M.plural [a, b])]) r) l) := by
  unfold roiLF
  split
  · next t0 t1 ru l1 l2 =>
    cases hr : isRoi U ru with
    | true =>
      have hr' : hasText U ru.T ['r', 'o', 'i'] = true := hr
      simp only [hr', if_true]
      have hS : Single U (.cop .argument t0 t1 ru l1 l2) := hr
      rw [okArg_single hS, noBind_depA hbl] at ho
      postz
      refine (H.roi _ t0 t1 ru l1 l2 s dep rfl hr hi ho.1 (hs.sub fun t ht => (evArg_toks hS true _ t).2 (.inl ht))).mono fun y s1 h => ?_
      obtain ⟨z, hz, h⟩ := h
      rw [hz]
      exact (roiL_rest H hS hbl hb ho.2 hv hs h)
    | false =>
      have hr' : hasText U ru.T ['r', 'o', 'i'] = false := hr
      simp only [hr', Bool.false_eq_true, if_false]
      simp only [okArg, hr, Bool.false_eq_true, if_false] at ho
      rw [evArg, hr] at hs ⊢
      simp only [Bool.false_eq_true, if_false] at hs ⊢
      simp only [noBind, Bool.and_eq_true] at hbl
      postz
      intro c hc _
      refine (H.roiL v l1 r s dep hi hv hbl.1 hb ho.1 (hs.sub (by simp; tauto))).mono fun n1 s1 h1 _ => ?_
      have hlk : look s1 = look s := look_eq h1.2.evo.hoa h1.1
      refine (H.roiL v l2 r s1 dep h1.2.inv (hv.evo h1.2.evo) hbl.2 hb ho.2 ?_).mono fun n2 s2 h2 => ?_
      · rw [hlk]; exact (hs.evo h1.2.evo).sub (by simp; tauto)
      · rw [hlk] at h2
        have hc' : connOf U ru = c := by simp [connOf, hc]
        refine ⟨h2.1.trans h1.1, ?_⟩
        have := h1.2.conn (V := [v]) (c := c) h2.2 (by simp) (by simp) (by simp) hv.lt
        refine this.dn fun L env ρ => ?_
        rw [dArg, hr, hc']
        simp only [Bool.false_eq_true, if_false]
  · next id fo quant p rel =>
    have hS : Single U (.predArg id fo quant p rel) := trivial
    rw [okArg_single hS, noBind_depA hbl] at ho
    postz
    refine (H.predArg id fo quant p rel s dep hi ho.1 ?_).mono fun y s1 h => ?_
    · exact hs.sub fun t ht => (evArg_toks hS true _ t).2 (.inl (evArg_mono hS ht true))
    · obtain ⟨z, hz, h⟩ := h
      rw [hz]
      exact (roiL_rest H hS hbl hb ho.2 hv hs h)
  · postz

theorem run_roi (n1 : AST.Node) (t0 t1 : Option AST.Word) (ru : AST.Word) (l r : AST.Node)
    (hn1 : n1 = AST.Node.cop .argument t0 t1 ru l r) (hr : isRoi U ru = true) (hi : Inv M U A s)
    (ho : okArg U A dep (fun _ _ => True) n1) (hs : Sees dep (look s) s (toks (evArg U true [] n1))) :
    Post (roiF f l r) s Any fun x s' => ∃ v, x.2 = .var v ∧ ResA M U A dep s s' n1 (some x.1) v := by
  have hev : ∀ u E, evArg U u E n1 = evArg U true (evArg U true [] r) l ++ E := by
    intro u E
    rw [hn1, evArg, hr, if_pos rfl]
  rw [hev, List.append_nil] at hs
  have ho' := ho
  rw [hn1, okArg, hr, if_pos rfl] at ho'
  obtain ⟨hbl, hbr, ho', -⟩ := ho'
  unfold roiF
  postz
  generalize hs0 : ({ s with n := s.n + 1, quants := (s.n, .the) :: s.quants, nv := s.nv + 1 } : St) = s0
  have hF : Fresh s s0 .the := by subst hs0; constructor <;> rfl
  have hq := (quant_new s .the s0 hF.quants).2
  intro _ _
  refine (H.roiL ⟨.mk s.nv, s.n, some s.n, false⟩ l r s0 dep (hF.inv hi) ?_ hbl hbr ho' ?_).mono fun n s1 h => ?_
  · intro v hv
    simp at hv
    subst hv
    exact ⟨rfl, by rw [hF.n]; simp, by simp⟩
  · rw [hF.look]; exact hs.evo hF.evo
  · obtain ⟨hv, h⟩ := h
    rw [hF.look] at h
    refine ⟨_, rfl, ?_⟩
    have hrr := h.rr (x := s.n) (E' := evArg U true (evArg U true [] r) l) (lk := look s) (dep := dep) (S := fun _ => False)
      (ext := fun env _ => env) (zs := fun d => [(d, 0)]) (by simp) (by simp) (by simp) (by simp) rfl (by simp) (by simp) (fun ρ => rfl)
    have hn := hF.n
    have hn' := h.evo.n
    refine resA_place (v := ⟨.mk s.nv, s.n, some s.n, false⟩) (by rw [hn1]; rfl) hev ?_ hrr hF.evo (Nat.le_refl _)
      (by show s.n < s1.n; omega) ?_ rfl ?_ h.inv rfl rfl rfl (hv.trans hF.vars) ?_
    · intro L env k
      rw [hn1, dArg, hr, if_pos rfl]
      rfl
    · intro hm
      rcases h.evo.the_new hm with h' | h'
      · rw [hF.the] at h'; exact hi.fresh (Nat.le_refl _) h'
      · simp only at h'; omega
    · have := hF.evo.trans h.evo
      rwa [List.nil_append] at this
    · intro _
      rw [hn1]
      rfl

end

end Verif.Logic.Den
