/-
C56: statements, predicates, relative clauses and adverbs.
-/
import Verif.Logic.DenPred

namespace Verif.Logic.Den
open Verif.Tone (Str)

section
variable {M : Model} {U : Uni} {A : Nat → AST.Node} {f : Fns}
variable {dep : Dep} {lk : Tok → Option Nat} {s s1 s2 : St}
variable (H : FDen M U A f)

include H

/-- A subordinate statement. -/
theorem run_sub {n : AST.Node} (hi : Inv M U A s) (ho : okStmt U A dep false n)
    (hs : Sees dep (look s) s (toks (evStmt U n))) :
    Post (subStatement f n) s Any fun r s' => s'.vars = s.vars ∧
      Res M U A dep (look s) s s' [] [] (evStmt U n) r (fun L env _ => dStmt U L env n []) := by
  unfold subStatement
  postz
  have hu : usesV (uses U n) [] = [] := by unfold usesV; split <;> rfl
  refine (H.statement [] n { s with hi := [] :: s.hi } dep false (hi.congr rfl rfl rfl rfl rfl) (fun _ => by simp [ZOk])
    (by rw [hu]; simp [VOk]) (fun _ => PlOk.nil _) ho hs).mono fun r s' h => ?_
  obtain ⟨hv, h⟩ := h
  rw [hu] at h
  have hh : s'.hi = [] :: s.hi := h.evo.hi
  simp only [hh, List.headD_cons, List.reverse_nil, bindHi]
  refine ⟨hv, Res.dn (h.frame rfl rfl rfl rfl rfl rfl rfl rfl rfl h.evo.hoa rfl) fun L env ρ => ?_⟩
  rfl

omit H in
theorem pushHoa_congr (b : Option Nat) (s : St) : (pushHoa b s).n = s.n ∧ (pushHoa b s).quants = s.quants ∧
    (pushHoa b s).lifted = s.lifted ∧ (pushHoa b s).the = s.the ∧ (pushHoa b s).vars = s.vars ∧
    (pushHoa b s).cleared = s.cleared ∧ (pushHoa b s).hi = s.hi := by
  cases b <;> exact ⟨rfl, rfl, rfl, rfl, rfl, rfl, rfl⟩

omit H in
theorem post_hoa {α : Type} (b : Option Nat) (m : Logic.M α) (P : α → St → Prop)
    (h : Post m (pushHoa b s) Any fun a s' => s'.hoa = (pushHoa b s).hoa ∧ ∀ t : St, t = { s' with hoa := s.hoa } → P a t) :
    Post (inHoa b m) s Any P := by
  rw [post_inHoa]
  cases b with
  | none =>
    refine Post.mono h fun a s' h' => h'.2 s' ?_
    have := h'.1
    simp only [pushHoa] at this
    rw [← this]
  | some b =>
    refine Post.mono h fun a s' h' => h'.2 _ ?_
    have := h'.1
    simp only [pushHoa] at this
    rw [this]
    rfl

theorem run_relClause (b : Option Nat) (n : AST.Node) (hi : Inv M U A s) (ho : okRel U A dep n)
    (hs : Sees dep (look (pushHoa b s)) s (toks (evRel U n))) :
    Post (relClauseF U f b n) s Any fun r s' => s'.vars = s.vars ∧
      Res M U A dep (look (pushHoa b s)) s s' [] [] (evRel U n) r (fun L env _ => dRel U L env n) := by
  unfold relClauseF
  rw [post_keepVars]
  apply post_hoa
  obtain ⟨e1, e2, e3, e4, e5, e6, e7⟩ := pushHoa_congr b s
  have hi0 : Inv M U A (pushHoa b s) := hi.congr e1 e2 e3 e4 e6
  have hE : Evo s { pushHoa b s with hoa := s.hoa } [] := by cases b <;> exact Evo.refl s
  have hs0 : Sees dep (look (pushHoa b s)) (pushHoa b s) (toks (evRel U n)) := by
    intro t ht
    obtain ⟨x, h1, h2, h3⟩ := hs t ht
    exact ⟨x, h1, by rw [e1]; exact h2, by rw [h3]; simp only [St.quant, e2]⟩
  have fin : ∀ (r : Node) (s' : St) (den : (Nat → M.D) → Env M → List (M.D × Nat) → M.B),
      Res M U A dep (look (pushHoa b s)) (pushHoa b s) s' [] [] (evRel U n) r den →
      s'.hoa = (pushHoa b s).hoa ∧ ∀ t : St, t = { s' with hoa := s.hoa } →
        Res M U A dep (look (pushHoa b s)) s { t with vars := s.vars } [] [] (evRel U n) r den := by
    intro r s' den h
    refine ⟨h.evo.hoa, ?_⟩
    rintro t rfl
    exact h.frame e1.symm e2.symm e3.symm e4.symm rfl rfl rfl rfl rfl rfl (h.evo.hi.trans e7)
  unfold okRel at ho
  split at ho
  · next p ts na =>
    simp only
    refine (run_sub H (dep := dep) (n := .predication .raw p ts na) hi0 ?_ ?_).mono fun r s' h => ?_
    · rw [okStmt]; exact ho
    · rw [evStmt, ← evRel]; exact hs0
    · refine (fin r s' _ ?_).imp_right fun h t ht => ⟨trivial, h t ht⟩
      have := h.2
      rw [evStmt] at this
      rw [evRel]
      refine this.dn fun L env ρ => ?_
      rw [dStmt, dRel]
  · next lu st =>
    simp only
    refine (run_sub H (dep := dep) (n := st) hi0 ho ?_).mono fun r s' h => ?_
    · rw [evRel] at hs0; exact hs0
    · refine (fin r s' _ ?_).imp_right fun h t ht => ⟨trivial, h t ht⟩
      rw [evRel]
      refine h.2.dn fun L env ρ => ?_
      rw [dRel]
  · next ru l r =>
    simp only
    postz
    intro c hc hl
    rw [evRel] at hs0 hs
    refine (H.relClause none l (pushHoa b s) dep hi0 ho.1 (hs0.sub (by simp; tauto))).mono fun ln s1 h1 hr => ?_
    have hlk : look (pushHoa none s1) = look (pushHoa b s) := by
      show look s1 = _
      exact look_eq h1.2.evo.hoa h1.1
    refine (H.relClause none r s1 dep h1.2.inv ho.2 ?_).mono fun rn s2 h2 => ?_
    · rw [hlk]
      exact (hs0.evo h1.2.evo).sub (by simp; tauto)
    · refine fin _ s2 _ ?_
      rw [hlk] at h2
      rw [evRel]
      refine (h1.2.conn (c := c) h2.2 (by simp) (by simp) (by simp) (by simp)).dn fun L env ρ => ?_
      rw [dRel]
      simp [connOf, hc]
  · cases ho

theorem run_adverb (n : AST.Node) (v : Var) (hi : Inv M U A s) (hv : VOk s [v] true) (ho : okAdv U A dep n)
    (hs : Sees dep (look s) s (toks (evAdv U n))) :
    Post (adverbF U f n (.var v)) s Any fun r s' => s'.vars = s.vars ∧
      Res M U A dep (look s) s s' [v] [(.var v, 0)] (evAdv U n) r (fun L env as => dAdv U L env (fst1 as) n) := by
  unfold adverbF
  rw [post_keepVars]
  unfold okAdv at ho
  split at ho
  · next p =>
    simp only
    refine (run_predication H (dep := dep) (i := true) p (Z := [(.var v, 0)]) hi ?_ hv ?_ ho hs).mono fun r s' h => ?_
    · intro z hz
      simp at hz
      subst hz
      exact ⟨v, rfl, (hv v (by simp)).2.1⟩
    · exact (PlOk.nil []).snoc (by simp)
    · refine ⟨trivial, (h.2.keep _).dn fun L env ρ => ?_⟩
      rw [dAdv]
      rfl
  · next ru l r =>
    simp only
    postz
    intro c hc hl
    rw [evAdv] at hs
    refine (H.adverb l v s dep hi hv ho.1 (hs.sub (by simp; tauto))).mono fun ln s1 h1 hr => ?_
    have hlk : look s1 = look s := look_eq h1.2.evo.hoa h1.1
    refine (H.adverb r v s1 dep h1.2.inv (hv.evo h1.2.evo) ho.2 ?_).mono fun rn s2 h2 => ?_
    · rw [hlk]
      exact (hs.evo h1.2.evo).sub (by simp; tauto)
    · rw [hlk] at h2
      rw [evAdv]
      refine (Res.keep ((h1.2.conn (c := c) h2.2 (fun _ h => h) (fun _ h => h) (by simp) (fun w hw => (hv w hw).2.1)).dn
        fun L env ρ => ?_) _)
      rw [dAdv]
      simp [connOf, hc]
  · cases ho

theorem run_statement (Z : Args) (n : AST.Node) (i : Bool) (hi : Inv M U A s) (hZ : uses U n = true → ZOk s Z)
    (hV : VOk s (usesV (uses U n) Z) i) (hp : uses U n = true → PlOk Z (plStmt U n)) (ho : okStmt U A dep i n)
    (hs : Sees dep (look s) s (toks (evStmt U n))) :
    Post (statementF U f Z n) s Any fun r s' => s'.vars = s.vars ∧
      Res M U A dep (look s) s s' (usesV (uses U n) Z) Z (evStmt U n) r (fun L env as => dStmt U L env n as) := by
  unfold statementF
  rw [post_keepVars]
  unfold okStmt at ho
  split at ho
  · next ts bi st =>
    simp only
    postz
    refine (H.prenexS Z bi.T st ts s dep i ⟨hi, ?_, ?_, ?_, ?_, ?_⟩).mono fun r s' h => ?_
    · intro hu; exact hZ (by rw [uses]; exact hu)
    · rw [uses] at hV; exact hV
    · intro hu
      have hpa : isPa U bi = true := by
        have := hu; unfold isU at this; simp at this; exact this.1
      have := hp (by rw [uses]; exact hu)
      rw [plStmt, if_pos hpa] at this
      exact this
    · exact ho
    · rw [evStmt] at hs; exact hs
    · refine Res.keep ?_ _
      have h2 := h.2.1
      unfold ResT at h2
      rw [uses, evStmt]
      refine h2.dn fun L env ρ => ?_
      rw [dStmt]
      rfl
  · next p ts na =>
    cases ts with
    | none =>
      simp only
      refine (run_predication H (dep := dep) (i := i) p (Z := Z) hi (hZ rfl) hV ?_ ?_ ?_).mono fun r s' h => ?_
      · have := hp rfl
        rw [plStmt, plOTerms] at this
        exact this
      · rw [okOTerms] at ho; exact ho
      · rw [evStmt, evOTerms] at hs; exact hs
      · refine ⟨trivial, Res.keep ?_ _⟩
        have := h.2
        rw [evStmt, evOTerms]
        refine this.dn fun L env ρ => ?_
        rw [dStmt, dOTerms]
    | some ts =>
      simp only
      have hpa : isPa U (.mk ['p', 'a'] 0 0 none) = true := pa_pa U
      have hu : uses U (.prenexStmt ts (.mk ['p', 'a'] 0 0 none) (.predication .raw p none na)) = true := by
        rw [uses, hpa]; rfl
      have hu' : uses U (.predication .raw p (some ts) na) = true := rfl
      have hev : evStmt U (.prenexStmt ts (.mk ['p', 'a'] 0 0 none) (.predication .raw p none na)) =
          evStmt U (.predication .raw p (some ts) na) := by
        rw [evStmt, evStmt, evStmt, hpa, evOTerms, evOTerms]; rfl
      refine (H.statement Z (.prenexStmt ts (.mk ['p', 'a'] 0 0 none) (.predication .raw p none na)) s dep i hi (fun _ => hZ hu')
        (by rw [hu]; exact hV) ?_ ?_ (by rw [hev]; exact hs)).mono fun r s' h => ?_
      · intro _
        have := hp hu'
        rw [plStmt, plOTerms] at this
        rw [plStmt, if_pos hpa, plStmt, plOTerms, List.append_nil]
        exact this
      · rw [okStmt, hpa]
        rw [okOTerms] at ho
        simp only [uses, Bool.and_true, plStmt, plOTerms, evStmt, evOTerms, okStmt, okOTerms]
        exact ho
      · refine ⟨trivial, Res.keep ?_ _⟩
        have := h.2
        rw [hu, hev] at this
        refine this.dn fun L env ρ => ?_
        rw [dStmt, dStmt, hpa, dOTerms]
        simp only [if_true, dStmt, dOTerms]
  · next ru l r =>
    simp only
    postz
    intro c hc hl
    rw [evStmt] at hs
    rw [uses] at hZ hV hp
    rw [plStmt] at hp
    have subV : ∀ {u u' : Bool}, (u = true → u' = true) → ∀ v ∈ usesV u Z, v ∈ usesV u' Z := by
      intro u u' h v hv
      cases u with
      | false => simp [usesV] at hv
      | true => rw [h rfl]; exact hv
    have h1V : ∀ v ∈ usesV (uses U l) Z, v ∈ usesV (uses U l || uses U r) Z := subV (by simp; tauto)
    have h2V : ∀ v ∈ usesV (uses U r) Z, v ∈ usesV (uses U l || uses U r) Z := subV (by simp; tauto)
    refine (H.statement Z l s dep i hi (fun h => hZ (by simp [h])) (fun v hv => hV v (h1V v hv))
      (fun h => (hp (by simp [h])).sub (by simp; tauto)) ho.1 (hs.sub (by simp; tauto))).mono fun ln s1 h1 hr => ?_
    have hlk : look s1 = look s := look_eq h1.2.evo.hoa h1.1
    refine (H.statement Z r s1 dep i h1.2.inv (fun h => (hZ (by simp [h])).evo h1.2.evo)
      (fun v hv => (hV.evo h1.2.evo) v (h2V v hv)) (fun h => (hp (by simp [h])).sub (by simp; tauto)) ho.2 ?_).mono fun rn s2 h2 => ?_
    · rw [hlk]
      exact (hs.evo h1.2.evo).sub (by simp; tauto)
    · rw [hlk] at h2
      rw [evStmt, uses]
      refine Res.keep ((h1.2.conn (c := c) h2.2 h1V h2V ?_ (fun w hw => (hV w hw).2.1)).dn fun L env ρ => ?_) _
      · intro v hv
        cases hul : uses U l with
        | true => exact .inl (mem_usesV hv)
        | false =>
          rw [hul] at hv
          exact .inr hv
      · rw [dStmt]
        simp [connOf, hc]
  · cases ho

/-! ### Predicates -/

omit H in
theorem resP_var {t : Tok} {v : Var} (he : Evo s s1 []) (hi : Inv M U A s1) (hl : lk t = some v.n) (hd : v.dfn = some v.n) :
    ResP M U A dep lk s s1 [.tok t] (.leaf (.var v)) (fun _ env k => k (M.varP (env t))) where
  evo := he
  inv := hi
  tree := ⟨hd, .inl ⟨t, by simp, hl⟩⟩
  occ t' ht' _ b hb := by
    simp at ht'
    subst ht'
    rw [hl] at hb
    cases hb
    exact rfl
  val L ρ env k _ he := by
    have := he t (by simp) _ hl
    simp [valP, Model.pred, this]

omit H in
theorem resP_closed {p : Node} {P : M.P} (he : Evo s s1 []) (hi : Inv M U A s1) (ht : Tr (Bd s s1) (fun _ => False) p)
    (hv : ∀ ρ, M.pred p ρ = P) : ResP M U A dep lk s s1 [] (.leaf p) (fun _ _ k => k P) where
  evo := he
  inv := hi
  tree := Tr.mono ht (fun _ h => h) (fun _ h => h.elim)
  occ t' ht' := by simp at ht'
  val L ρ env k _ he := by simp [valP, hv]

omit H in
theorem trP_serial {B X : Nat → Prop} {r : PTree} (hr : TrP B X r) : ∀ {l : PTree}, TrP B X l → TrP B X (serialLeft r l)
  | .leaf p, hl => by
    rw [serialLeft]
    induction r with
    | leaf q => exact ⟨hl, hr⟩
    | conn c r1 r2 ih1 ih2 => exact ⟨ih1 hr.1, ih2 hr.2⟩
  | .conn c l1 l2, hl => ⟨trP_serial hr hl.1, trP_serial hr hl.2⟩

omit H in
theorem frP_right {x : Nat} {p : Node} : ∀ {r : PTree}, (Fr x p ∨ FrP x r) → FrP x (serialRight p r)
  | .leaf q, h => h
  | .conn c r1 r2, h => by
    rcases h with h | h | h
    · exact .inl (frP_right (.inl h))
    · exact .inl (frP_right (.inr h))
    · exact .inr (frP_right (.inr h))

omit H in
theorem frP_serial {x : Nat} {r : PTree} : ∀ {l : PTree}, (FrP x l ∨ FrP x r) → FrP x (serialLeft r l)
  | .leaf p, h => frP_right h
  | .conn c l1 l2, h => by
    rcases h with (h | h) | h
    · exact .inl (frP_serial (.inl h))
    · exact .inr (frP_serial (.inl h))
    · exact .inl (frP_serial (.inr h))

omit H in
theorem valP_right (ρ : Nat → M.D) (p : Node) (k : M.P → M.B) : ∀ r : PTree,
    valP ρ (serialRight p r) k = valP ρ r fun Q => k (M.serial (M.pred p ρ) Q)
  | .leaf q => rfl
  | .conn c r1 r2 => by rw [serialRight, valP, valP_right ρ p k r1, valP_right ρ p k r2]; rfl

omit H in
theorem valP_serial (ρ : Nat → M.D) (r : PTree) (k : M.P → M.B) : ∀ l : PTree,
    valP ρ (serialLeft r l) k = valP ρ l fun P => valP ρ r fun Q => k (M.serial P Q)
  | .leaf p => valP_right ρ p k r
  | .conn c l1 l2 => by rw [serialLeft, valP, valP_serial ρ r k l1, valP_serial ρ r k l2]; rfl

omit H in
theorem ResP.two {E1 E2 : List Ev} {t1 t2 t : PTree} {d1 d2 : (Nat → M.D) → Env M → (M.P → M.B) → M.B}
    {d : (Nat → M.D) → Env M → (M.P → M.B) → M.B} (h1 : ResP M U A dep lk s s1 E1 t1 d1) (h2 : ResP M U A dep lk s1 s2 E2 t2 d2)
    (ht : TrP (Bd s s2) (Xs lk s2 (toks (E1 ++ E2)) []) t1 → TrP (Bd s s2) (Xs lk s2 (toks (E1 ++ E2)) []) t2 →
      TrP (Bd s s2) (Xs lk s2 (toks (E1 ++ E2)) []) t)
    (hf : ∀ x, (FrP x t1 ∨ FrP x t2) → FrP x t)
    (hv : ∀ ρ L env k, (∀ k, valP ρ t1 k = d1 L env k) → (∀ k, valP ρ t2 k = d2 L env k) → valP ρ t k = d L env k) :
    ResP M U A dep lk s s2 (E1 ++ E2) t d where
  evo := by rw [argIds_append]; exact h1.evo.trans h2.evo
  inv := h2.inv
  tree := ht (h1.tree.mono (fun b hb => hb.right h2.evo) fun x hx => hx.mono (by simp; tauto) (by simp) fun b => h2.evo.the_sub)
    (h2.tree.mono (fun b hb => hb.left h1.evo) fun x hx => hx.mono (by simp; tauto) (by simp) fun b hb => hb)
  occ t ht hd b hb := by
    rw [toks_append, List.mem_append] at ht
    exact hf b (ht.imp (fun h => h1.occ t h hd b hb) fun h => h2.occ t h hd b hb)
  val L ρ env k hg he := hv ρ L env k
    (fun k => h1.val L ρ env k (hg.evo h1.inv h2.evo) fun t ht => he t (by simp at ht; simp [ht]))
    fun k => h2.val L ρ env k hg fun t ht => he t (by simp at ht; simp [ht])

omit H in
/-- A description as a predicate. -/
theorem RR.lam {s0 : St} {x : Nat} {E : List Ev} {n : Node} {d : (Nat → M.D) → Env M → M.D → M.B}
    (h : RR M U A dep lk s0 s1 x E n d) (h0 : Evo s s0 []) (hx : s.n ≤ x) (hx1 : x < s1.n) (hx2 : x ∉ ids s1.the)
    (hs : ∀ t ∈ toks E, ∀ b, lk t = some b → b ≠ x) :
    ResP M U A dep lk s s1 E (.leaf (.abs (.bind .lambda x x false none n)))
      (fun L env k => k (M.absP (M.bind .lambda none (d L env)))) where
  evo := by
    have := h0.trans h.evo
    rwa [List.nil_append] at this
  inv := h.inv
  tree := ⟨rfl, ⟨hx, hx1, hx2⟩, trivial, h.tree.mono (fun b hb => hb.left h0) fun _ hy => hy⟩
  occ t ht hd b hb := ⟨hs t ht b hb, .inr (h.occ t ht hd b hb)⟩
  val L ρ env k hg he := by
    have := h.restr hx2 hs L ρ env hg he
    rw [Model.restr, Option.some.injEq] at this
    rw [valP, Model.pred, Model.stmt, Model.restr, this]

omit H in
theorem Res.abs {E : List Ev} {n : Node} {den : (Nat → M.D) → Env M → List (M.D × Nat) → M.B}
    (h : Res M U A dep lk s s1 [] [] E n den) :
    ResP M U A dep lk s s1 E (.leaf (.abs n)) (fun L env k => k (M.absP (den L env []))) where
  evo := h.evo
  inv := h.inv
  tree := h.tree
  occ := h.occ
  val L ρ env k hg he := by
    rw [valP, Model.pred, h.val L ρ env hg he]
    rfl

omit H in
/-- A statement as what a content clause is about. -/
theorem Res.content {E : List Ev} {n : Node} {den : (Nat → M.D) → Env M → List (M.D × Nat) → M.B} {v : Var} {q : Quant}
    (h : Res M U A dep lk s s1 [] [] E n den) (hF : Fresh s1 s2 q) (hv : v.n = s1.n) (hd : v.dfn = some v.n)
    (hs : Sees dep lk s (toks E)) :
    ResP M U A dep lk s s2 E (.leaf (.abs (.bind .lambda v.n v.n false none
      (.app (.name equalName) [some (.var v), some (.abs n)]))))
      (fun L env k => k (isThat (M.name equalName) (M.absD (den L env [])))) := by
  have hrr : RR M U A dep lk s s2 v.n E (.app (.name equalName) [some (.var v), some (.abs n)])
      (fun L env d => M.app (M.name equalName) [some d, some (M.absD (den L env []))]) := by
    refine ⟨?_, hF.inv h.inv, ⟨trivial, ⟨hd, .inr rfl⟩, ?_, trivial⟩, ?_, ?_⟩
    · have := h.evo.trans hF.evo
      rwa [List.append_nil] at this
    · exact h.tree.mono (fun b hb => hb.right hF.evo) fun x hx => .inl (hx.mono (fun _ h => h) (fun _ h => h)
        fun b => hF.evo.the_sub)
    · intro t ht hd b hb
      exact .inr (.inr (.inl (h.occ t ht hd b hb)))
    · intro L ρ env hg he
      simp only [Model.stmt, Model.pred, Model.args, Model.argO, Model.arg]
      rw [h.val L ρ env (hg.evo h.inv hF.evo) he]
      rfl
  refine hrr.lam (Evo.refl s) (by have := h.evo.n; omega) (by rw [hF.n]; omega) ?_ ?_
  · rw [hF.the]
    exact h.inv.fresh (by omega)
  · intro t ht b hb
    obtain ⟨b', h1, h2, -⟩ := hs t ht
    rw [hb] at h1
    cases h1
    have := h.evo.n
    omega

omit H in
theorem resP_quote {p : Node} {q : Quant} {v : Var} {t : Str} {fl : Bool} (hi : Inv M U A s) (hF : Fresh s s1 q) (hv : v.n = s.n)
    (hd : v.dfn = some v.n) (hp : Tr (fun _ => False) (fun _ => False) p) :
    ResP M U A dep lk s s1 [] (.leaf (.abs (.bind .lambda v.n v.n false none (.app p [some (.var v), some (.quote t fl)]))))
      (fun _ _ k => k (isThat (M.pred p fun _ => M.d0) (M.quote t fl))) := by
  refine resP_closed hF.evo (hF.inv hi) ⟨rfl, ⟨by omega, by rw [hF.n]; omega, ?_⟩, trivial, ?_⟩ ?_
  · rw [hF.the]
    exact hi.fresh (by omega)
  · exact ⟨hp.mono (fun _ h => h.elim) (fun _ h => h.elim), ⟨hd, .inr rfl⟩, trivial, trivial⟩
  · intro ρ
    simp only [Model.pred, Model.stmt, Model.restr, isThat, Model.args, Model.argO, Model.arg]
    congr 2
    funext d
    rw [(val_congr p (ρ := upd ρ v.n d) (σ := fun _ => M.d0) hp (fun _ h => h.elim)).2.1]
    simp [upd]

omit H in
theorem miPred_closed {w : Str} {p : Node} (h : miPred U w = some p) : Tr (fun _ => False) (fun _ => False) p := by
  unfold miPred at h
  simp only [switchText] at h
  split at h
  · cases h; trivial
  · split at h
    · cases h; trivial
    · cases h

theorem run_predicate (n : AST.Node) (hi : Inv M U A s) (ho : okPred U A dep n)
    (hs : Sees dep (look s) s (toks (evPred U n))) :
    Post (predicateF U f n) s Any fun t s' => s'.vars = s.vars ∧ ResP M U A dep (look s) s s' (evPred U n) t
      (fun L env k => dPred U L env n k) := by
  have look2 : ∀ {s1 : St} {E : List Nat}, s1.vars = s.vars → Evo s s1 E → look s1 = look s := fun h h' => look_eq h'.hoa h
  unfold predicateF
  split
  · next w =>
    cases hw : splitVar U w.T with
    | some y =>
      obtain ⟨w1, x⟩ := y
      have hf : form U (.word .predicate w) = .var x := by simp [form, varPred, hw]
      have hev : evPred U (.word .predicate w) = [.tok (some x)] := by rw [evPred, hf]
      rw [hev] at hs ⊢
      obtain ⟨b, h1, h2, h3⟩ := hs (some x) (by simp)
      simp only
      postz
      refine ⟨fun b' hb' => ?_, fun hb' => ?_⟩
      · simp only [look, hb'] at h1
        cases h1
        have := resP_var (M := M) (U := U) (A := A) (dep := dep) (lk := look s) (t := some x) (s := s)
          (s1 := { s with nv := s.nv + 1 }) (v := ⟨.mk s.nv, b, some b, false⟩)
          (Evo.same rfl rfl (Nat.le_refl _) (fun _ _ => rfl) rfl rfl) (hi.congr rfl rfl rfl rfl rfl) hb' rfl
        refine { this with val := fun L ρ env k hg he => ?_ }
        rw [this.val L ρ env k hg he, dPred, hf]
      · simp [look, hb'] at h1
    | none =>
      simp only
      cases hh : isHoa U w.T with
      | true =>
        have hf : form U (.word .predicate w) = .hoa := by simp [form, varPred, hw, hoaPred, hh]
        have hev : evPred U (.word .predicate w) = [.tok none] := by rw [evPred, hf]
        rw [hev] at hs ⊢
        obtain ⟨b, h1, h2, h3⟩ := hs none (by simp)
        simp only [if_true]
        postz
        split
        · next h => simp [look, h] at h1
        · next b' bs h =>
          postz
          have hb' : look s none = some b' := by simp [look, h]
          have := resP_var (M := M) (U := U) (A := A) (dep := dep) (lk := look s) (t := none) (s := s)
            (s1 := { s with nv := s.nv + 1 }) (v := ⟨.mk s.nv, b', some b', false⟩)
            (Evo.same rfl rfl (Nat.le_refl _) (fun _ _ => rfl) rfl rfl) (hi.congr rfl rfl rfl rfl rfl) hb' rfl
          refine { this with val := fun L ρ env k hg he => ?_ }
          rw [this.val L ρ env k hg he, dPred, hf]
      | false =>
        have hf : form U (.word .predicate w) = .plain := by simp [form, varPred, hw, hoaPred, hh]
        have hev : evPred U (.word .predicate w) = [] := by rw [evPred, hf]
        rw [hev] at hs ⊢
        simp only [Bool.false_eq_true, if_false]
        postz
        have := resP_closed (M := M) (U := U) (A := A) (dep := dep) (lk := look s) (p := .name (wordPred U w.T)) (Evo.refl s) hi
          trivial (P := M.name (wordPred U w.T)) fun ρ => by rw [Model.pred]
        refine { this with val := fun L ρ env k hg he => ?_ }
        rw [this.val L ρ env k hg he, dPred, hf]
  · next l r =>
    rw [evPred] at hs ⊢
    rw [okPred] at ho
    postz
    intro hl
    refine (H.predicate l s dep hi ho.1 (hs.sub (by simp; tauto))).mono fun tl s1 h1 hr => ?_
    have hlk := look2 h1.1 h1.2.evo
    refine (H.predicate r s1 dep h1.2.inv ho.2 ?_).mono fun tr s2 h2 => ?_
    · rw [hlk]; exact (hs.evo h1.2.evo).sub (by simp; tauto)
    · rw [hlk] at h2
      refine ⟨h2.1.trans h1.1, h1.2.two h2.2 (fun a b => trP_serial b a) (fun x h => frP_serial h) ?_⟩
      intro ρ L env k e1 e2
      rw [valP_serial, e1, dPred]
      congr 1
      funext P
      rw [e2]
  · next m ke ph =>
    have hev : evPred U (.mi m ke ph) = [] := by simp [evPred]
    rw [hev] at hs ⊢
    postz
    intro p hp
    have := resP_quote (M := M) (U := U) (A := A) (dep := dep) (lk := look s) (s := s)
      (s1 := { s with n := s.n + 1, quants := (s.n, .lambda) :: s.quants, nv := s.nv + 1 }) (v := ⟨.mk s.nv, s.n, some s.n, false⟩)
      (t := nodeText U ph) (fl := false) hi ⟨rfl, rfl, rfl, rfl, rfl, rfl, rfl, rfl⟩ rfl rfl (miPred_closed hp)
    refine { this with val := fun L ρ env k hg he => ?_ }
    rw [this.val L ρ env k hg he, dPred, hp]
    rfl
  · next m ke a =>
    rw [evPred] at hs ⊢
    rw [okPred] at ho
    postz
    intro name hname
    generalize hs0 : ({ s with n := s.n + 1, quants := (s.n, .lambda) :: s.quants, nv := s.nv + 1 } : St) = s0
    have hF : Fresh s s0 .lambda := by subst hs0; constructor <;> rfl
    have hq := (quant_new s .lambda s0 hF.quants).2
    refine (H.poArg name ⟨.mk s.nv, s.n, some s.n, false⟩ a s0 dep (hF.inv hi) ?_ ho ?_).mono fun r s1 h => ?_
    · intro v hv
      simp at hv
      subst hv
      exact ⟨rfl, by rw [hF.n]; simp, by simp⟩
    · rw [hF.look]; exact hs.evo hF.evo
    · obtain ⟨hv, h⟩ := h
      rw [hF.look] at h
      have hlt : ∀ t ∈ toks (evArg U true [] a), ∀ b, look s t = some b → b ≠ s.n := by
        intro t ht b hb
        obtain ⟨b', h1, h2, -⟩ := hs t ht
        rw [hb] at h1
        cases h1
        omega
      have hrr := h.rr (x := s.n) (E' := evArg U true [] a) (lk := look s) (dep := dep) (S := fun _ => False) (ext := fun env _ => env)
        (zs := fun d => [(d, 0)]) (by simp) (by simp) (by simp) (by simp) rfl (by simp) (by simp) (fun ρ => rfl)
      have := hrr.lam hF.evo (Nat.le_refl _) (by have := h.evo.n; have := hF.n; omega) ?_ hlt
      · refine ⟨hv.trans hF.vars, { this with val := fun L ρ env k hg he => ?_ }⟩
        rw [this.val L ρ env k hg he, dPred, hname]
        rfl
      · intro hm
        rcases h.evo.the_new hm with h' | h'
        · rw [hF.the] at h'; exact hi.fresh (Nat.le_refl _) h'
        · have := hF.n; omega
  · next m ke d =>
    have hev : evPred U (.mo m ke d) = [] := by simp [evPred]
    rw [hev] at hs ⊢
    postz
    have := resP_quote (M := M) (U := U) (A := A) (dep := dep) (lk := look s) (s := s) (p := .name equalName)
      (s1 := { s with n := s.n + 1, quants := (s.n, .lambda) :: s.quants, nv := s.nv + 1 }) (v := ⟨.mk s.nv, s.n, some s.n, false⟩)
      (t := nodeText U (.discourse d)) (fl := true) hi ⟨rfl, rfl, rfl, rfl, rfl, rfl, rfl, rfl⟩ rfl rfl trivial
    refine { this with val := fun L ρ env k hg he => ?_ }
    rw [this.val L ρ env k hg he, dPred]
    rfl
  · next lu st =>
    rw [okPred] at ho
    rw [evPred] at hs ⊢
    cases hl : isLu U lu with
    | true =>
      have hl' : hasText U lu.T ['l', 'u'] = true := hl
      rw [hl, if_pos rfl] at hs ho
      rw [if_pos rfl]
      simp only [hl', if_true]
      rw [post_bind, post_newBinding, post_bind]
      apply post_hoa
      generalize hs0 : ({ s with n := s.n + 1, quants := (s.n, .lambda) :: s.quants } : St) = s0
      have hF : Fresh s s0 .lambda := by subst hs0; constructor <;> rfl
      have hq := (quant_new s .lambda s0 hF.quants).2
      have hi1 : Inv M U A (pushHoa (some s.n) s0) := (hF.inv hi).congr rfl rfl rfl rfl rfl
      have hlk : ∀ t, t ≠ none → look (pushHoa (some s.n) s0) t = look s t := by
        intro t ht
        rw [← hF.look]
        cases t with
        | none => exact absurd rfl ht
        | some y => rfl
      refine (run_sub H (dep := upd dep none true) hi1 ho ?_).mono fun r s1 h => ?_
      · intro t ht
        by_cases hn : t = none
        · subst hn
          exact ⟨s.n, rfl, by show s.n < s0.n; rw [hF.n]; omega, by
            show _ ↔ s0.quant s.n ≠ .the
            rw [hq]; simp [upd]⟩
        · obtain ⟨b, h1, h2, h3⟩ := hs.evo hF.evo t ((mem_toks_without _ _ _).2 ⟨ht, hn⟩)
          exact ⟨b, by rw [hlk t hn]; exact h1, h2, by simp only [upd, hn, if_false]; exact h3⟩
      · obtain ⟨hv, h⟩ := h
        refine ⟨h.evo.hoa, ?_⟩
        rintro t rfl
        postz
        have h' : Res M U A (upd dep none true) (look (pushHoa (some s.n) s0)) s0 { s1 with hoa := s0.hoa } [] [] (evStmt U st) r
            (fun L env _ => dStmt U L env st []) :=
          h.frame rfl rfl rfl rfl rfl rfl rfl rfl rfl rfl h.evo.hi
        have hrr := h'.rr (x := s.n) (E' := without none (evStmt U st)) (lk := look s) (dep := dep) (S := fun t => t = none)
          (ext := fun env d => upd env none d) (zs := fun _ => []) (by simp) (fun t => mem_toks_without t none _) (by rintro t rfl; rfl)
          (fun t ht => ⟨hlk t ht, by simp [upd, ht]⟩) (argIds_without _ _) (by rintro env d t rfl; simp [upd])
          (by intro env d t ht; simp [upd, ht]) (fun ρ => rfl)
        have hlt : ∀ t ∈ toks (without none (evStmt U st)), ∀ b, look s t = some b → b ≠ s.n := by
          intro t ht b hb
          obtain ⟨b', h1, h2, -⟩ := hs t ht
          rw [hb] at h1
          cases h1
          omega
        have := hrr.lam hF.evo (Nat.le_refl _) (by have := h.evo.n; have := hF.n; show s.n < s1.n; simp only [pushHoa] at *; omega) ?_ hlt
        · refine ⟨hv.trans hF.vars, { this with val := fun L ρ env k hg he => ?_ }⟩
          refine (this.val L ρ env k hg he).trans ?_
          rw [dPred, hl]
          rfl
        · intro hm
          rcases h'.evo.the_new hm with h'' | h''
          · rw [hF.the] at h''; exact hi.fresh (Nat.le_refl _) h''
          · have := hF.n; omega
    | false =>
      have hl' : hasText U lu.T ['l', 'u'] = false := hl
      rw [hl] at hs ho
      simp only [Bool.false_eq_true, if_false] at hs ho ⊢
      simp only [hl', Bool.false_eq_true, if_false]
      rw [post_bind]
      refine (run_sub H hi ho hs).mono fun r s1 h => ?_
      rw [post_pure]
      refine ⟨h.1, { h.2.abs with val := fun L ρ env k hg he => ?_ }⟩
      rw [h.2.abs.val L ρ env k hg he, dPred, hl]
      rfl
  · next ru l r =>
    rw [evPred] at hs ⊢
    rw [okPred] at ho
    postz
    intro c hc hl
    refine (H.predicate l s dep hi ho.1 (hs.sub (by simp; tauto))).mono fun tl s1 h1 hr => ?_
    have hlk := look2 h1.1 h1.2.evo
    refine (H.predicate r s1 dep h1.2.inv ho.2 ?_).mono fun tr s2 h2 => ?_
    · rw [hlk]; exact (hs.evo h1.2.evo).sub (by simp; tauto)
    · rw [hlk] at h2
      refine ⟨h2.1.trans h1.1, h1.2.two h2.2 (fun a b => ⟨a, b⟩) (fun x h => h) ?_⟩
      intro ρ L env k e1 e2
      rw [valP, e1, e2, dPred]
      simp [connOf, hc]
  · next ru l r =>
    rw [evPred] at hs ⊢
    rw [okPred] at ho
    postz
    intro c hc hl
    refine (H.predicate l s dep hi ho.1 (hs.sub (by simp; tauto))).mono fun tl s1 h1 hr => ?_
    have hlk := look2 h1.1 h1.2.evo
    refine (H.predicate r s1 dep h1.2.inv ho.2 ?_).mono fun tr s2 h2 => ?_
    · rw [hlk]; exact (hs.evo h1.2.evo).sub (by simp; tauto)
    · rw [hlk] at h2
      refine ⟨h2.1.trans h1.1, h1.2.two h2.2 (fun a b => ⟨a, b⟩) (fun x h => h) ?_⟩
      intro ρ L env k e1 e2
      rw [valP, e1, e2, dPred]
      simp [connOf, hc]
  · next st =>
    rw [evPred] at hs ⊢
    rw [okPred] at ho
    rw [post_bind]
    refine (run_sub H (n := st) hi ho hs).mono fun r s1 h => ?_
    simp only [makeContentPred, makeLambda]
    postz
    have := h.2.content (s2 := { s1 with n := s1.n + 1, quants := (s1.n, .lambda) :: s1.quants, nv := s1.nv + 1 })
      (v := ⟨.mk s1.nv, s1.n, some s1.n, false⟩) ⟨rfl, rfl, rfl, rfl, rfl, rfl, rfl, rfl⟩ rfl rfl hs
    refine ⟨h.1, { this with val := fun L ρ env k hg he => ?_ }⟩
    rw [this.val L ρ env k hg he, dPred]
  · next p ts na =>
    rw [evPred] at hs ⊢
    rw [okPred] at ho
    have e1 : evOTerms U (evPred U p) ts = evStmt U (.predication .raw p ts na) := by rw [evStmt]
    rw [e1] at hs ⊢
    replace ho : okStmt U A dep false (.predication .raw p ts na) := by rw [okStmt]; exact ho
    rw [post_bind]
    refine (run_sub H (n := .predication .raw p ts na) hi ho hs).mono fun r s1 h => ?_
    simp only [makeContentPred, makeLambda]
    postz
    have := h.2.content (s2 := { s1 with n := s1.n + 1, quants := (s1.n, .lambda) :: s1.quants, nv := s1.nv + 1 })
      (v := ⟨.mk s1.nv, s1.n, some s1.n, false⟩) ⟨rfl, rfl, rfl, rfl, rfl, rfl, rfl, rfl⟩ rfl rfl hs
    refine ⟨h.1, { this with val := fun L ρ env k hg he => ?_ }⟩
    rw [this.val L ρ env k hg he, dPred]
    simp only [dStmt]
  · postz

end

end Verif.Logic.Den
