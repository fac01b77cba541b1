/-
C56: what is shown of each method of the interpreter, and the methods that make descriptions.
-/
import Verif.Logic.DenArg

namespace Verif.Logic.Den
open Verif.Tone (Str)

/-- The first of the values. -/
def fst1 {M : Model} (as : List (M.D × Nat)) : M.D := (as.head?.map (·.1)).getD M.d0

def pushHoa : Option Nat → St → St
  | none, s => s
  | some b, s => { s with hoa := b :: s.hoa }

/-- Is what is put before a statement talked about? -/
def isU (U : Uni) (bi : Str) (st : AST.Node) : Bool := hasText U bi ['p', 'a'] && uses U st

/-- What follows the terms of a prenex. -/
def endK {M : Model} (U : Uni) (bi : Str) (st : AST.Node) (L : Nat → M.D) (env : Env M) (as : List (M.D × Nat)) : M.B :=
  dStmt U L env st (if hasText U bi ['p', 'a'] then as else [])

section
variable (M : Model) (U : Uni) (A : Nat → AST.Node)

def okTail (dep : Dep) (i : Bool) (bi : Str) (st : AST.Node) (ts : List AST.Node) : Prop :=
  okTerms U A dep i (isU U bi st) false (plStmt U st) (evStmt U st) (fun dep i => okStmt U A dep (hasText U bi ['p', 'a'] && i) st) ts

abbrev evTail (bi : Str) (st : AST.Node) (ts : List AST.Node) : List Ev := evTerms U (isU U bi st) (evStmt U st) ts

/-- The conditions under which prenexes are interpreted. -/
structure TailOk (dep : Dep) (i : Bool) (s : St) (Z : Args) (bi : Str) (st : AST.Node) (ts : List AST.Node) : Prop where
  inv : Inv M U A s
  z : isU U bi st = true → ZOk s Z
  v : VOk s (usesV (isU U bi st) Z) i
  pl : isU U bi st = true → PlOk Z (plTerms U ts ++ plStmt U st)
  ok : okTail U A dep i bi st ts
  sees : Sees dep (look s) s (toks (evTail U bi st ts))

/-- What comes of them. -/
def ResT (dep : Dep) (s s' : St) (Z : Args) (bi : Str) (st : AST.Node) (ts : List AST.Node) (n : Node) : Prop :=
  Res M U A dep (look s) s s' (usesV (isU U bi st) Z) Z (evTail U bi st ts) n
    (fun L env as => dTerms U L env as (endK U bi st L) ts)

structure FDen (f : Fns) : Prop where
  statement : ∀ Z n s dep i, Inv M U A s → (uses U n = true → ZOk s Z) → VOk s (usesV (uses U n) Z) i → (uses U n = true → PlOk Z (plStmt U n)) →
    okStmt U A dep i n → Sees dep (look s) s (toks (evStmt U n)) → Post (f.statement Z n) s Any fun r s' =>
    s'.vars = s.vars ∧ Res M U A dep (look s) s s' (usesV (uses U n) Z) Z (evStmt U n) r
      (fun L env as => dStmt U L env n as)
  predicate : ∀ n s dep, Inv M U A s → okPred U A dep n → Sees dep (look s) s (toks (evPred U n)) →
    Post (f.predicate n) s Any fun t s' => s'.vars = s.vars ∧ ResP M U A dep (look s) s s' (evPred U n) t
      (fun L env k => dPred U L env n k)
  poArg : ∀ name v α s dep, Inv M U A s → VOk s [v] true → okArg U A dep (fun _ _ => True) α →
    Sees dep (look s) s (toks (evArg U true [] α)) → Post (f.poArg (.name name) (.var v) α) s Any fun r s' =>
    s'.vars = s.vars ∧ Res M U A dep (look s) s s' [v] [(.var v, 0)] (evArg U true [] α) r
      (fun L env as => dArg U L env (fun _ e => M.app (M.name name) [some (fst1 as), some e]) α)
  prenexS : ∀ Z bi st ts s dep i, TailOk M U A dep i s Z bi st ts → Post (f.prenexS Z bi st ts) s Any fun r s' =>
    s'.vars = s.vars ∧ ResT M U A dep s s' Z bi st ts r.1 ∧ (branches U ts = false → r.2 = ts) ∧
      (branches U ts.tail = false → r.2.tail = ts.tail)
  prepV : ∀ n v s dep, Inv M U A s → VOk s [v] true → okPrep U A dep n → Sees dep (look s) s (toks (evPrep U n)) →
    Post (f.preposition n (.var (.var v))) s Any fun r s' => s'.vars = s.vars ∧
      Res M U A dep (look s) s s' [v] [(.var v, 0)] (evPrep U n) r.1 (fun L env as => dPrep U L env (fst1 as) n)
  prepT : ∀ n Z bi st ts s dep i, TailOk M U A dep i s Z bi st ts → branches U ts = false →
    (∀ j ∈ argIds (evTail U bi st ts), j ∈ keys s) → okPrep U A dep n → Sees dep (look s) s (toks (evPrep U n)) →
    Post (f.preposition n (.tail Z bi st ts)) s Any fun r s' => s'.vars = s.vars ∧ r.2 = ts ∧
      Res M U A dep (look s) s s' (usesV (isU U bi st) Z) Z (evTail U bi st ts ++ evPrep U n) r.1
        (fun L env as => dPrep U L env (M.absD (dTerms U L env as (endK U bi st L) ts)) n)
  predPrepV : ∀ p v α s dep, Inv M U A s → VOk s [v] true → okPrep U A dep (.prep p α) →
    Sees dep (look s) s (toks (evPrep U (.prep p α))) →
    Post (f.predPrep p (.var (.var v)) α) s Any fun r s' => s'.vars = s.vars ∧
      Res M U A dep (look s) s s' [v] [(.var v, 0)] (evPrep U (.prep p α)) r.1 (fun L env as => dPrep U L env (fst1 as) (.prep p α))
  predPrepT : ∀ p α Z bi st ts s dep i, TailOk M U A dep i s Z bi st ts → branches U ts = false →
    (∀ j ∈ argIds (evTail U bi st ts), j ∈ keys s) → okPrep U A dep (.prep p α) →
    Sees dep (look s) s (toks (evPrep U (.prep p α))) →
    Post (f.predPrep p (.tail Z bi st ts) α) s Any fun r s' => s'.vars = s.vars ∧ r.2 = ts ∧
      Res M U A dep (look s) s s' (usesV (isU U bi st) Z) Z (evTail U bi st ts ++ evPrep U (.prep p α)) r.1
        (fun L env as => dPrep U L env (M.absD (dTerms U L env as (endK U bi st L) ts)) (.prep p α))
  adverb : ∀ n v s dep, Inv M U A s → VOk s [v] true → okAdv U A dep n → Sees dep (look s) s (toks (evAdv U n)) →
    Post (f.adverb n (.var v)) s Any fun r s' => s'.vars = s.vars ∧
      Res M U A dep (look s) s s' [v] [(.var v, 0)] (evAdv U n) r (fun L env as => dAdv U L env (fst1 as) n)
  roi : ∀ n1 t0 t1 ru l r s dep, n1 = AST.Node.cop .argument t0 t1 ru l r → isRoi U ru = true → Inv M U A s →
    okArg U A dep (fun _ _ => True) n1 → Sees dep (look s) s (toks (evArg U true [] n1)) →
    Post (f.roi l r) s Any fun x s' => ∃ v, x.2 = .var v ∧ ResA M U A dep s s' n1 (some x.1) v
  roiL : ∀ v l r s dep, Inv M U A s → VOk s [v] true → noBind U l = true → noBind U r = true →
    okArg U A dep (fun dep _ => okArg U A dep (fun _ _ => True) r) l →
    Sees dep (look s) s (toks (evArg U true (evArg U true [] r) l)) →
    Post (f.roiL (.var v) l r) s Any fun n s' => s'.vars = s.vars ∧
      Res M U A dep (look s) s s' [v] [(.var v, 0)] (evArg U true (evArg U true [] r) l) n
        (fun L env as => dArg U L env (fun env a => dArg U L env (fun _ b =>
          M.app (M.name equalName) [some (fst1 as), some (M.plural [a, b])]) r) l)
  roiR : ∀ v w r s dep, Inv M U A s → VOk s [v, w] true → noBind U r = true → okArg U A dep (fun _ _ => True) r →
    Sees dep (look s) s (toks (evArg U true [] r)) →
    Post (f.roiR (.var v) (.var w) r) s Any fun n s' => s'.vars = s.vars ∧
      Res M U A dep (look s) s s' [v, w] [(.var v, 0), (.var w, 0)] (evArg U true [] r) n
        (fun L env as => dArg U L env (fun _ b =>
          M.app (M.name equalName) [some (fst1 as), some (M.plural [fst1 as.tail, b])]) r)
  predArg : ∀ id fo quant p rel s dep, Inv M U A s → okArg U A dep (fun _ _ => True) (.predArg id fo quant p rel) →
    Sees dep (look s) s (toks (evArg U false [] (.predArg id fo quant p rel))) →
    Post (f.predArg (.predArg id fo quant p rel)) s Any fun x s' => ∃ v, x.2 = .var v ∧
      ResA M U A dep s s' (.predArg id fo quant p rel) x.1 v
  relClause : ∀ b n s dep, Inv M U A s → okRel U A dep n → Sees dep (look (pushHoa b s)) s (toks (evRel U n)) →
    Post (f.relClause b n) s Any fun r s' => s'.vars = s.vars ∧
      Res M U A dep (look (pushHoa b s)) s s' [] [] (evRel U n) r (fun L env _ => dRel U L env n)

theorem fden_zero : FDen M U A noFns := by
  constructor <;> intros <;> trivial

end

/-! ## Descriptions -/

section
variable (M : Model) (U : Uni) (A : Nat → AST.Node)

/-- A run from `s` to `s'` made a description of `x`. -/
structure RR (dep : Dep) (lk : Tok → Option Nat) (s s' : St) (x : Nat) (E : List Ev) (r : Node)
    (den : (Nat → M.D) → Env M → M.D → M.B) : Prop where
  evo : Evo s s' (argIds E)
  inv : Inv M U A s'
  tree : Tr (Bd s s') (fun y => Xs lk s' (toks E) [] y ∨ y = x) r
  occ : ∀ t ∈ toks E, dep t = true → ∀ b, lk t = some b → Fr b r
  val : ∀ (L ρ : Nat → M.D) env, Good L ρ s'.the s'.lifted → (∀ t ∈ toks E, ∀ b, lk t = some b → ρ b = env t) →
    M.stmt r ρ = den L env (ρ x)

end

section
variable {M : Model} {U : Uni} {A : Nat → AST.Node}
variable {dep dep' : Dep} {lk lk' : Tok → Option Nat} {s s' s'' s1 s2 : St} {V : List Var} {Z : Args} {E E' E1 E2 Et : List Ev}
  {n r r1 r2 : Node} {x : Nat} {Ids : List Nat} {u : Bool} {pos : Nat} {v : Var}

theorem Res.rr {den : (Nat → M.D) → Env M → List (M.D × Nat) → M.B} {S : Tok → Prop} {ext : Env M → M.D → Env M}
    {zs : M.D → List (M.D × Nat)}
    (h : Res M U A dep' lk' s s' V Z E n den) (hV : ∀ v ∈ V, v.n = x)
    (hE : ∀ t, t ∈ toks E' ↔ t ∈ toks E ∧ ¬ S t) (hS : ∀ t, S t → lk' t = some x)
    (hn : ∀ t, ¬ S t → lk' t = lk t ∧ dep' t = dep t)
    (hA : argIds E' = argIds E) (he1 : ∀ env d t, S t → ext env d t = d) (he2 : ∀ env d t, ¬ S t → ext env d t = env t)
    (hz : ∀ ρ : Nat → M.D, vals ρ Z = zs (ρ x)) :
    RR M U A dep lk s s' x E' n (fun L env d => den L (ext env d) (zs d)) where
  evo := by rw [hA]; exact h.evo
  inv := h.inv
  tree := by
    refine h.tree.mono (fun _ h => h) fun y hy => ?_
    rcases hy with ⟨t, ht, hy⟩ | ⟨v, hv, rfl⟩ | hy
    · by_cases hSt : S t
      · rw [hS t hSt] at hy
        cases hy
        exact .inr rfl
      · exact .inl (.inl ⟨t, (hE t).2 ⟨ht, hSt⟩, (hn t hSt).1 ▸ hy⟩)
    · exact .inr (hV v hv)
    · exact .inl (.inr (.inr hy))
  occ t ht hd b hb := by
    obtain ⟨h1, h2⟩ := (hE t).1 ht
    obtain ⟨h3, h4⟩ := hn t h2
    exact h.occ t h1 (h4 ▸ hd) b (h3 ▸ hb)
  val L ρ env hg henv := by
    rw [h.val L ρ (ext env (ρ x)) hg, hz]
    intro t ht b hb
    by_cases hSt : S t
    · rw [hS t hSt] at hb
      cases hb
      rw [he1 _ _ _ hSt]
    · rw [he2 _ _ _ hSt]
      exact henv t ((hE t).2 ⟨ht, hSt⟩) b ((hn t hSt).1 ▸ hb)

theorem RR.and {d1 d2 : (Nat → M.D) → Env M → M.D → M.B} (h1 : RR M U A dep lk s s' x E1 r1 d1)
    (h2 : RR M U A dep lk s' s'' x E2 r2 d2) :
    RR M U A dep lk s s'' x (E1 ++ E2) (.conn .and r1 r2) (fun L env d => M.conn .and (d1 L env d) (d2 L env d)) where
  evo := by rw [argIds_append]; exact h1.evo.trans h2.evo
  inv := h2.inv
  tree := ⟨h1.tree.mono (fun b hb => hb.right h2.evo) fun x hx => hx.imp (fun h => h.mono (by simp; tauto) (by simp)
      fun b => h2.evo.the_sub) fun h => h,
    h2.tree.mono (fun b hb => hb.left h1.evo) fun x hx => hx.imp (fun h => h.mono (by simp; tauto) (by simp)
      fun b hb => hb) fun h => h⟩
  occ t ht hd b hb := by
    rw [toks_append, List.mem_append] at ht
    exact ht.imp (fun h => h1.occ t h hd b hb) fun h => h2.occ t h hd b hb
  val L ρ env hg he := by
    rw [Model.stmt, h1.val L ρ env (hg.evo h1.inv h2.evo) fun t ht => he t (by simp at ht; simp [ht]),
      h2.val L ρ env hg fun t ht => he t (by simp at ht; simp [ht])]

theorem RR.before {s0 : St} {d : (Nat → M.D) → Env M → M.D → M.B} (h : RR M U A dep lk s s' x E r d) (he : Evo s0 s []) :
    RR M U A dep lk s0 s' x E r d :=
  { h with
    evo := by have := he.trans h.evo; rwa [List.nil_append] at this
    tree := h.tree.mono (fun _ hb => hb.left he) fun _ hx => hx }

/-- The values of a description. -/
theorem RR.restr {d : (Nat → M.D) → Env M → M.D → M.B} (h : RR M U A dep lk s s' x E r d) (hx : x ∉ ids s'.the)
    (hl : ∀ t ∈ toks E, ∀ b, lk t = some b → b ≠ x) (L ρ : Nat → M.D) (env : Env M) (hg : Good L ρ s'.the s'.lifted)
    (he : ∀ t ∈ toks E, ∀ b, lk t = some b → ρ b = env t) : M.restr (some r) x ρ = some (d L env) := by
  rw [Model.restr]
  congr 1
  funext e
  rw [h.val L (upd ρ x e) env (hg.upd h.inv hx e)]
  · simp [upd]
  · intro t ht b hb
    rw [upd, if_neg (hl t ht b hb), he t ht b hb]

/-- Among the things a name stands for. -/
theorem among_rr {ay ax : Var} {t : Tok} (hi : Inv M U A s) (hy : ay.dfn = some ay.n)
    (hx : ax.dfn = some ax.n) (hl : lk t = some ax.n) :
    RR M U A dep lk s s ay.n [.tok t] (.app (.name amongName) [some (.var ay), some (.var ax)])
      (fun _ env d => M.app (M.name amongName) [some d, some (env t)]) where
  evo := Evo.refl s
  inv := hi
  tree := ⟨trivial, ⟨⟨hy, .inr rfl⟩, ⟨⟨hx, .inl (.inl ⟨t, by simp, hl⟩)⟩, trivial⟩⟩⟩
  occ t' ht' _ b hb := by
    simp at ht'
    subst ht'
    rw [hl] at hb
    cases hb
    exact .inr (.inr (.inl rfl))
  val L ρ env hg he := by
    have := he t (by simp) _ hl
    simp [Model.stmt, Model.pred, Model.args, Model.argO, Model.arg, this]

end

end Verif.Logic.Den
