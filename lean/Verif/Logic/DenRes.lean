/-
C56: what is to be shown of each run of the interpreter.
-/
import Verif.Logic.DenState
import Verif.Logic.MeaningRun

namespace Verif.Logic.Den
open Verif.Tone (Str)

/-! ## Places -/

/-- No place is claimed twice, or also in `pl`. -/
def PlOk (Z : Args) (pl : List Nat) : Prop :=
  ∀ Z1 z Z2, Z = Z1 ++ z :: Z2 → z.2 ≠ 0 → z.2 ∉ Z2.map (·.2) ++ pl

theorem PlOk.nil (pl : List Nat) : PlOk [] pl := by
  intro Z1 z Z2 h; simp at h

theorem PlOk.sub {Z : Args} {pl pl' : List Nat} (h : PlOk Z pl) (hp : ∀ x ∈ pl', x ∈ pl) : PlOk Z pl' := by
  intro Z1 z Z2 hz h0 hm
  refine h Z1 z Z2 hz h0 ?_
  rw [List.mem_append] at hm ⊢
  exact hm.imp (fun h => h) (hp _)

theorem PlOk.snoc {Z : Args} {pl : List Nat} {a : Node} {p : Nat} (h : PlOk Z pl)
    (hp : p ≠ 0 → p ∉ pl ∧ p ∉ Z.map (·.2)) : PlOk (Z ++ [(a, p)]) pl := by
  intro Z1 z Z2 hz h0 hm
  rcases List.eq_nil_or_concat Z2 with rfl | ⟨Z3, y, rfl⟩
  · have := List.append_inj' hz rfl
    obtain ⟨rfl, h2⟩ := this
    cases h2
    simp only [List.map_nil, List.nil_append] at hm
    exact (hp h0).1 hm
  · rw [List.concat_eq_append] at hz hm
    rw [← List.cons_append, ← List.append_assoc] at hz
    obtain ⟨rfl, h2⟩ := List.append_inj' hz rfl
    cases h2
    refine h Z1 z Z3 rfl h0 ?_
    simp only [List.map_append, List.map_cons, List.map_nil, List.append_assoc, List.mem_append, List.mem_cons,
      List.not_mem_nil, or_false] at hm ⊢
    rcases hm with hm | hm | hm
    · exact .inl hm
    · refine absurd ?_ (hp (hm ▸ h0)).2
      simp [← hm]
    · exact .inr hm

theorem PlOk.link {Z : Args} {pl : List Nat} {a : Node} {p : Nat} (h : PlOk Z (p :: pl)) (hp : p ∉ pl) :
    PlOk (Z ++ [(a, p)]) pl := by
  refine (h.sub fun x hx => by simp [hx]).snoc fun h0 => ⟨hp, fun hm => ?_⟩
  obtain ⟨z, hz, rfl⟩ := List.mem_map.1 hm
  obtain ⟨Z1, Z2, rfl⟩ := List.append_of_mem hz
  exact h Z1 z Z2 rfl h0 (by simp)

/-- Every argument has its place. -/
theorem order_all {Z : Args} (h : PlOk Z []) {as : List (Option Node)} (ho : orderArguments Z = some as) :
    ∀ z ∈ Z, some z.1 ∈ as := by
  intro z hz
  obtain ⟨r, hr, -, hp, k, hf⟩ := C26_order Z
  rw [ho] at hr
  cases hr
  by_cases h0 : z.2 = 0
  · have hm : some z.1 ∈ (freePlaces Z as.length).map (fun i => as[i]?.getD none) := by
      rw [hf, List.mem_append]
      refine .inl (List.mem_map.2 ⟨z.1, ?_, rfl⟩)
      rw [unplaced, List.mem_map]
      exact ⟨z, List.mem_filter.2 ⟨hz, by simp [h0]⟩, rfl⟩
    obtain ⟨i, -, hi⟩ := List.mem_map.1 hm
    cases hg : as[i]? with
    | none => rw [hg] at hi; cases hi
    | some x =>
      rw [hg] at hi
      simp only [Option.getD_some] at hi
      rw [← hi]
      exact List.mem_of_getElem? hg
  · obtain ⟨Z1, Z2, rfl⟩ := List.append_of_mem hz
    have hn := h Z1 z Z2 rfl h0
    obtain ⟨p, hp'⟩ := Nat.exists_eq_succ_of_ne_zero h0
    have hc : claims (Z1 ++ z :: Z2) (p + 1) = some z.1 := by
      have : Z2.filter (fun x => x.2 == p + 1) = [] := by
        rw [List.filter_eq_nil_iff]
        intro x hx hx2
        simp only [beq_iff_eq] at hx2
        refine hn ?_
        rw [List.append_nil]
        exact List.mem_map.2 ⟨x, hx, by omega⟩
      rw [claims, List.filter_append, List.filter_cons_of_pos (by simpa using hp'), this]
      simp
    exact List.mem_of_getElem? (hp p z.1 hc)

/-- The variables among the arguments. -/
def vsOf (Z : Args) : List Var := Z.filterMap fun z => match z.1 with | .var v => some v | _ => none
def usesV (u : Bool) (Z : Args) : List Var := if u then vsOf Z else []

theorem vsOf_snoc (Z : Args) (v : Var) (p : Nat) : vsOf (Z ++ [(.var v, p)]) = vsOf Z ++ [v] := by simp [vsOf]
theorem usesV_snoc (u : Bool) (Z : Args) (v : Var) (p : Nat) :
    usesV u (Z ++ [(.var v, p)]) = usesV u Z ++ if u then [v] else [] := by
  cases u <;> simp [usesV, vsOf_snoc]

theorem mem_vsOf {v : Var} {Z : Args} (h : v ∈ vsOf Z) : ∃ z ∈ Z, z.1 = .var v := by
  rw [vsOf, List.mem_filterMap] at h
  obtain ⟨z, hz, h⟩ := h
  refine ⟨z, hz, ?_⟩
  obtain ⟨n, p⟩ := z
  cases n <;> simp at h
  simp [h]

theorem vsOf_mem {v : Var} {Z : Args} {z : Node × Nat} (h : z ∈ Z) (hz : z.1 = .var v) : v ∈ vsOf Z := by
  rw [vsOf, List.mem_filterMap]
  exact ⟨z, h, by simp [hz]⟩

theorem mem_usesV {u : Bool} {v : Var} {Z : Args} (h : v ∈ usesV u Z) : v ∈ vsOf Z := by
  cases u
  · simp [usesV] at h
  · exact h

/-! ## Runs that make statements -/

section
variable {M : Model} (U : Uni) (A : Nat → AST.Node)

variable (M)

/-- A run from `s` to `s'` made the statement `n`, which talks about the variables `V`, mentions `E`, and says
what `den` says. -/
structure Res (dep : Dep) (lk : Tok → Option Nat) (s s' : St) (V : List Var) (Z : Args) (E : List Ev) (n : Node)
    (den : (Nat → M.D) → Env M → List (M.D × Nat) → M.B) : Prop where
  evo : Evo s s' (argIds E)
  inv : Inv M U A s'
  tree : Tr (Bd s s') (Xs lk s' (toks E) V) n
  occ : ∀ t ∈ toks E, dep t = true → ∀ b, lk t = some b → Fr b n
  occV : ∀ v ∈ V, s.quant v.n ≠ .the → Fr v.n n
  val : ∀ (L ρ : Nat → M.D) env, Good L ρ s'.the s'.lifted → (∀ t ∈ toks E, ∀ b, lk t = some b → ρ b = env t) →
    M.stmt n ρ = den L env (vals ρ Z)

variable {M U A}
variable {dep : Dep} {lk : Tok → Option Nat} {s s' s'' : St} {V V' : List Var} {Z : Args} {E E' : List Ev} {n n' : Node}
  {den den' : (Nat → M.D) → Env M → List (M.D × Nat) → M.B}

theorem Res.dn (h : Res M U A dep lk s s' V Z E n den) (hd : ∀ L env ρ, den L env (vals ρ Z) = den' L env (vals ρ Z)) :
    Res M U A dep lk s s' V Z E n den' :=
  { h with val := fun L ρ env hg he => (h.val L ρ env hg he).trans (hd _ _ _) }

theorem Xs.iff_E {lk : Tok → Option Nat} {F F' : List Tok} (h : ∀ t, t ∈ F ↔ t ∈ F') (x : Nat) :
    Xs lk s F V x ↔ Xs lk s F' V x := by
  simp only [Xs, h]

/-- Another way of listing what is mentioned. -/
theorem Res.ev (h : Res M U A dep lk s s' V Z E n den) (ht : ∀ t, t ∈ toks E ↔ t ∈ toks E')
    (ha : addNew (keys s) (argIds E) = addNew (keys s) (argIds E')) : Res M U A dep lk s s' V Z E' n den where
  evo := { h.evo with keys := h.evo.keys.trans ha }
  inv := h.inv
  tree := h.tree.mono (fun _ h => h) fun x hx => (Xs.iff_E ht x).1 hx
  occ t h' := h.occ t ((ht t).2 h')
  occV := h.occV
  val L ρ env hg he := h.val L ρ env hg fun t h' => he t ((ht t).1 h')

/-- Only the stacks of names changed at the end. -/
theorem Evo.congr {E : List Nat} {s s' t : St} (h : Evo s s' E) (hn : t.n = s'.n) (hh : t.hoa = s'.hoa) (hi : t.hi = s'.hi)
    (hq : t.quants = s'.quants) (hl : t.lifted = s'.lifted) (ht : t.the = s'.the) : Evo s t E := by
  obtain ⟨a, b, c, d, e, f, g⟩ := h
  exact ⟨hn ▸ a, hh.trans b, hi.trans c, fun x hx => by rw [← d x hx]; simp only [St.quant, hq], by rw [Den.keys, hl]; exact e,
    by rw [hl, hn]; exact f, by rw [ht, hn]; exact g⟩

theorem Evo.congr_left {E : List Nat} {s s' t : St} (h : Evo s s' E) (hn : t.n = s.n) (hh : t.hoa = s.hoa) (hi : t.hi = s.hi)
    (hq : t.quants = s.quants) (hl : t.lifted = s.lifted) (ht : t.the = s.the) : Evo t s' E := by
  obtain ⟨a, b, c, d, e, f, g⟩ := h
  have hq' : t.quant = s.quant := by funext x; simp only [St.quant, hq]
  exact ⟨hn ▸ a, b.trans hh.symm, c.trans hi.symm, fun x hx => by rw [hq']; exact d x (hn ▸ hx),
    by rw [e]; simp only [Den.keys, hl], by rw [hl, hn]; exact f, by rw [ht, hn]; exact g⟩

theorem Inv.congr {s t : St} (h : Inv M U A s) (hn : t.n = s.n)
    (hq : t.quants = s.quants) (hl : t.lifted = s.lifted) (ht : t.the = s.the) (hc : t.cleared = s.cleared) : Inv M U A t :=
  h.same hc ht hl (by omega) fun b _ => by simp only [St.quant, hq]

theorem Res.congr {t : St} (h : Res M U A dep lk s s' V Z E n den) (hn : t.n = s'.n) (hh : t.hoa = s'.hoa)
    (hi : t.hi = s'.hi) (hq : t.quants = s'.quants) (hl : t.lifted = s'.lifted) (ht : t.the = s'.the)
    (hc : t.cleared = s'.cleared) : Res M U A dep lk s t V Z E n den where
  evo := h.evo.congr hn hh hi hq hl ht
  inv := h.inv.congr hn hq hl ht hc
  tree := h.tree.mono (fun b hb => by rw [Bd, hn, ht]; exact hb) fun x hx => by rw [Xs, ht]; exact hx
  occ := h.occ
  occV := h.occV
  val L ρ env hg := h.val L ρ env (by rw [ht, hl] at hg; exact hg)

/-- Keeping the named variables. -/
theorem Res.keep (h : Res M U A dep lk s s' V Z E n den) (vs : List (Str × Nat)) :
    Res M U A dep lk s { s' with vars := vs } V Z E n den := h.congr rfl rfl rfl rfl rfl rfl rfl

/-- The run began earlier. -/
theorem Res.before {s0 : St} (h : Res M U A dep lk s s' V Z E n den) (he : Evo s0 s []) (hV : ∀ v ∈ V, v.n < s0.n) :
    Res M U A dep lk s0 s' V Z E n den :=
  { h with
    evo := (by have := he.trans h.evo; rwa [List.nil_append] at this)
    tree := h.tree.mono (fun _ hb => hb.left he) fun _ hx => hx
    occV := fun v hv hq => h.occV v hv (by rw [he.quant _ (hV v hv)]; exact hq) }

/-- Runs in states with other stacks. -/
theorem Res.frame {t t' : St} (h : Res M U A dep lk s s' V Z E n den) (hn : t.n = s.n) (hq : t.quants = s.quants)
    (hl : t.lifted = s.lifted) (ht : t.the = s.the) (hn' : t'.n = s'.n) (hq' : t'.quants = s'.quants)
    (hl' : t'.lifted = s'.lifted) (ht' : t'.the = s'.the) (hc' : t'.cleared = s'.cleared) (hh : t'.hoa = t.hoa)
    (hi : t'.hi = t.hi) : Res M U A dep lk t t' V Z E n den where
  evo := by
    obtain ⟨a, b, c, d, e, f, g⟩ := h.evo
    have h1 : t.quant = s.quant := by funext x; simp only [St.quant, hq]
    have h2 : t'.quant = s'.quant := by funext x; simp only [St.quant, hq']
    exact ⟨by omega, hh, hi, fun x hx => by rw [h1, h2]; exact d x (hn ▸ hx), by simpa only [Den.keys, hl, hl'] using e,
      by rw [hl, hl', hn, hn']; exact f, by rw [ht, ht', hn, hn']; exact g⟩
  inv := h.inv.congr hn' hq' hl' ht' hc'
  tree := h.tree.mono (fun b hb => by rw [Bd, hn, hn', ht']; exact hb) fun x hx => by rw [Xs, ht']; exact hx
  occ := h.occ
  occV v hv hq2 := h.occV v hv (by simpa only [St.quant, hq] using hq2)
  val L ρ env hg := h.val L ρ env (by rw [ht', hl'] at hg; exact hg)

/-- What is said does not depend on the arguments. -/
theorem Res.args {Z' : Args} (h : Res M U A dep lk s s' V Z E n den) (hig : ∀ L env as as', den L env as = den L env as') :
    Res M U A dep lk s s' V Z' E n den :=
  { h with val := fun L ρ env hg he => (h.val L ρ env hg he).trans (hig _ _ _ _) }

theorem Bd.not_Xs {F : List Tok} (hF : Sees dep lk s F) (hV : ∀ v ∈ V, v.n < s.n) {x : Nat} (h : Xs lk s' F V x) :
    ¬ Bd s s' x := by
  rintro ⟨h1, h2, h3⟩
  rcases h with ⟨t, ht, h⟩ | ⟨v, hv, rfl⟩ | h
  · obtain ⟨b, hb, hb2, -⟩ := hF t ht
    rw [h] at hb
    cases hb
    omega
  · have := hV v hv; omega
  · exact h3 h

theorem Res.conn {V1 V2 : List Var} {E1 E2 : List Ev} {c : Conn} (h1 : Res M U A dep lk s s' V1 Z E1 n den)
    (h2 : Res M U A dep lk s' s'' V2 Z E2 n' den') (hV1 : ∀ v ∈ V1, v ∈ V) (hV2 : ∀ v ∈ V2, v ∈ V)
    (hV : ∀ v ∈ V, v ∈ V1 ∨ v ∈ V2) (hlt : ∀ v ∈ V, v.n < s.n) :
    Res M U A dep lk s s'' V Z (E1 ++ E2) (.conn c n n') (fun L env as => M.conn c (den L env as) (den' L env as)) where
  evo := by rw [argIds_append]; exact h1.evo.trans h2.evo
  inv := h2.inv
  tree := ⟨h1.tree.mono (fun b hb => hb.right h2.evo) fun x hx => hx.mono (by simp; tauto) hV1 fun b => h2.evo.the_sub,
    h2.tree.mono (fun b hb => hb.left h1.evo) fun x hx => hx.mono (by simp; tauto) hV2 fun b hb => hb⟩
  occ t ht hd b hb := by
    rw [toks_append, List.mem_append] at ht
    exact ht.imp (fun h => h1.occ t h hd b hb) fun h => h2.occ t h hd b hb
  occV v hv hq := (hV v hv).imp (fun h => h1.occV v h hq) fun h =>
    h2.occV v h (by rw [h1.evo.quant _ (hlt v hv)]; exact hq)
  val L ρ env hg he := by
    rw [Model.stmt, h1.val L ρ env (hg.evo h1.inv h2.evo) fun t ht => he t (by simp at ht; simp [ht]),
      h2.val L ρ env hg fun t ht => he t (by simp at ht; simp [ht])]

end

/-! ## Predicates -/

/-- Put arguments to all predicates. -/
def mapT (as : List (Option Node)) : PTree → Node
  | .leaf p => .app p as
  | .conn c l r => .conn c (mapT as l) (mapT as r)

def TrP (B X : Nat → Prop) : PTree → Prop
  | .leaf p => Tr B X p
  | .conn _ l r => TrP B X l ∧ TrP B X r

def FrP (x : Nat) : PTree → Prop
  | .leaf p => Fr x p
  | .conn _ l r => FrP x l ∨ FrP x r

def valP {M : Model} (ρ : Nat → M.D) : PTree → (M.P → M.B) → M.B
  | .leaf p, k => k (M.pred p ρ)
  | .conn c l r, k => M.conn c (valP ρ l k) (valP ρ r k)

theorem TrP.mono {t : PTree} {B B' X X' : Nat → Prop} (h : TrP B X t) (hB : ∀ x, B x → B' x) (hX : ∀ x, X x → X' x) :
    TrP B' X' t := by
  induction t with
  | leaf p => exact Tr.mono h hB hX
  | conn c l r ihl ihr => exact ⟨ihl h.1, ihr h.2⟩

section
variable (M : Model) (U : Uni) (A : Nat → AST.Node)

structure ResP (dep : Dep) (lk : Tok → Option Nat) (s s' : St) (E : List Ev) (t : PTree)
    (den : (Nat → M.D) → Env M → (M.P → M.B) → M.B) : Prop where
  evo : Evo s s' (argIds E)
  inv : Inv M U A s'
  tree : TrP (Bd s s') (Xs lk s' (toks E) []) t
  occ : ∀ t' ∈ toks E, dep t' = true → ∀ b, lk t' = some b → FrP b t
  val : ∀ (L ρ : Nat → M.D) env k, Good L ρ s'.the s'.lifted → (∀ t ∈ toks E, ∀ b, lk t = some b → ρ b = env t) →
    valP ρ t k = den L env k

end

theorem tr_mapT {B X : Nat → Prop} {as : List (Option Node)} (ha : TrL B X as) {t : PTree} (h : TrP B X t) :
    Tr B X (mapT as t) := by
  induction t with
  | leaf p => exact ⟨h, ha⟩
  | conn c l r ihl ihr => exact ⟨ihl h.1, ihr h.2⟩

theorem fr_mapT {x : Nat} {as : List (Option Node)} {t : PTree} (h : FrP x t ∨ FrL x as) : Fr x (mapT as t) := by
  induction t with
  | leaf p => exact h
  | conn c l r ihl ihr =>
    rcases h with (h | h) | h
    · exact .inl (ihl (.inl h))
    · exact .inr (ihr (.inl h))
    · exact .inl (ihl (.inr h))

theorem val_mapT {M : Model} (as : List (Option Node)) (t : PTree) (ρ : Nat → M.D) :
    M.stmt (mapT as t) ρ = valP ρ t fun P => M.app P (M.args as ρ) := by
  induction t with
  | leaf p => rfl
  | conn c l r ihl ihr => rw [mapT, Model.stmt, ihl, ihr]; rfl

theorem post_dist (Z : Args) (t : PTree) (s : St) :
    Post (distribute Z t) s Any fun n s' => s' = s ∧ ∃ as, orderArguments Z = some as ∧ n = mapT as t := by
  induction t generalizing s with
  | leaf p =>
    unfold distribute
    postz
    intro as has
    exact ⟨as, has, rfl⟩
  | conn c l r ihl ihr =>
    unfold distribute
    postz
    refine (ihl s).mono fun l' s1 h1 => ?_
    obtain ⟨rfl, as, has, rfl⟩ := h1
    refine (ihr s1).mono fun r' s2 h2 => ?_
    obtain ⟨rfl, as', has', rfl⟩ := h2
    rw [has] at has'
    cases has'
    exact ⟨rfl, as, has, rfl⟩

/-- The values of arguments are in the places of the arguments. -/
theorem args_placed {M : Model} {Z : Args} {as : List (Option Node)} (h : orderArguments Z = some as) (ρ : Nat → M.D) :
    M.args as ρ = placed (vals ρ Z) := by
  obtain ⟨l, m, hl, hm, hlm⟩ := order_rel (R := fun (a : Node) (d : M.D) => M.arg a ρ = d) (as := Z) (bs := vals ρ Z) (by
    unfold vals
    clear h
    induction Z with
    | nil => exact .nil
    | cons z Z ih => exact .cons ⟨rfl, rfl⟩ ih)
  rw [h] at hl
  cases hl
  rw [placed, hm, Option.getD_some]
  clear hm h
  induction hlm with
  | nil => rfl
  | @cons a b as bs h1 h2 ih =>
    rw [Model.args, ih]
    congr 1
    cases a <;> cases b <;> simp_all [RelO, Model.argO]

section
variable {M : Model} {U : Uni} {A : Nat → AST.Node} {f : Fns}
variable {dep : Dep} {lk : Tok → Option Nat} {s s' s'' : St} {V V' : List Var} {Z : Args} {E E' : List Ev} {n n' : Node}

/-- A predication. -/
theorem ResP.dist {t : PTree} {den : (Nat → M.D) → Env M → (M.P → M.B) → M.B} (h : ResP M U A dep lk s s' E t den)
    (hZ : ZOk s Z) {i : Bool} (hV : VOk s (vsOf Z) i) (hp : PlOk Z []) {as : List (Option Node)}
    (has : orderArguments Z = some as) :
    Res M U A dep lk s s' (vsOf Z) Z E (mapT as t) (fun L env as => den L env fun P => M.app P (placed as)) where
  evo := h.evo
  inv := h.inv
  tree := by
    refine tr_mapT (TrL_iff.2 fun x hx => ?_) (h.tree.mono (fun _ hb => hb) fun x hx => hx.mono (fun _ h => h) (by simp)
      fun _ h => h)
    obtain ⟨p, hp⟩ := order_mem has x hx
    obtain ⟨v, hv, hn⟩ := hZ _ hp
    simp only at hv
    subst hv
    have hm : v ∈ vsOf Z := vsOf_mem hp rfl
    exact ⟨(hV v hm).1, .inr (.inl ⟨v, hm, rfl⟩)⟩
  occ t ht hd b hb := fr_mapT (.inl (h.occ t ht hd b hb))
  occV v hv _ := by
    obtain ⟨z, hz, hzv⟩ := mem_vsOf hv
    exact fr_mapT (.inr (FrL_iff.2 ⟨z.1, order_all hp has z hz, by rw [hzv]; rfl⟩))
  val L ρ env hg he := by
    rw [val_mapT, h.val L ρ env _ hg he, args_placed has]

end

/-! ## Statements that ignore what is put before them -/

section
variable {M : Model} {U : Uni} (L : Nat → M.D)

theorem dTerms_ign : ∀ (m : Nat) (ts : List AST.Node), sizeOf ts < m → ∀ (k : Env M → List (M.D × Nat) → M.B),
    (∀ env as as', k env as = k env as') → ∀ env as as', dTerms U L env as k ts = dTerms U L env as' k ts := by
  intro m
  induction m with
  | zero => intro ts h; omega
  | succ m ih =>
    intro ts hm k hk env as as'
    cases ts with
    | nil => exact hk _ _ _
    | cons t ts =>
      have hts : sizeOf ts < m := by simp at hm; omega
      have ht := ih ts hts k hk
      unfold dTerms
      split
      · rename_i heq; simp at heq
      · next heq =>
        cases heq
        congr 1
        funext env d
        exact ht _ _ _
      · next heq =>
        cases heq
        simp at hm
        congr 1
        · exact ih _ (by omega) _ (fun env as as' => ht env as as') _ _ _
        · exact ih _ (by omega) _ (fun env as as' => ht env as as') _ _ _
      · next heq =>
        cases heq
        rw [ht env as as']
        have : (fun (env : Env M) d => dTerms U L env (as ++ [(d, 0)]) k ts) =
            fun env d => dTerms U L env (as' ++ [(d, 0)]) k ts := by
          funext env d; exact ht _ _ _
        rw [this]

theorem dStmt_ign (n : AST.Node) : ∀ (m : Nat), sizeOf n < m → uses U n = false → ∀ env as as',
    dStmt U L env n as = dStmt U L env n as' := by
  intro m
  induction m generalizing n with
  | zero => intro h; omega
  | succ m ih =>
    intro hm hu env as as'
    unfold uses at hu
    split at hu
    · next ts bi st =>
      unfold dStmt
      refine dTerms_ign L _ ts (Nat.lt_succ_self _) _ (fun env as as' => ?_) env as as'
      rw [Bool.and_eq_false_iff] at hu
      rcases hu with hu | hu
      · simp [hu]
      · exact ih st (by simp at hm; omega) hu _ _ _
    · next l r =>
      rw [Bool.or_eq_false_iff] at hu
      unfold dStmt
      rw [ih l (by simp at hm; omega) hu.1 env as as', ih r (by simp at hm; omega) hu.2 env as as']
    · cases hu

end

end Verif.Logic.Den
