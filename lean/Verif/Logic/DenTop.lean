/-
C56: sentences and whole texts.
-/
import Verif.Logic.DenRun
import Mathlib.Data.List.Nodup

namespace Verif.Logic.Den
open Verif.Tone (Str)

section
variable {M : Model} {U : Uni} {A : Nat → AST.Node} {f : Fns}

theorem Inv.empty : Inv M U A ({} : St) where
  cleared := rfl
  the p h := by cases h
  nodup := List.Pairwise.nil
  lift x h := by cases h
  keysN := List.Pairwise.nil
  order := rfl
  pend X p Y h := by cases X <;> cases h
  inner i h := by cases h

/-! ## Sentences -/

theorem run_sentence (H : FDen M U A f) (n : AST.Node) (s : St) (hi : Inv M U A s) (ho : okSent U A n)
    (ht : toks (evSent U n) = []) :
    Post (sentence U f n) s Any fun r s' =>
      Res M U A (fun _ => false) (fun _ => none) s s' [] [] (evSent U n) r (fun L env _ => dSent U L env n) := by
  induction n using okSent.induct generalizing s with
  | case1 je st da =>
    simp only [sentence]
    refine (run_sub H hi ho (by rw [show toks (evStmt U st) = [] from ht]; simp [Sees])).mono fun r s' h => ?_
    have h := h.2
    have ht' : toks (evStmt U st) = [] := ht
    refine ⟨h.evo, h.inv, h.tree.mono (fun _ hb => hb) fun x hx => ?_, ?_, ?_, ?_⟩
    · rcases hx with ⟨t, h1, -⟩ | hx
      · rw [ht'] at h1; cases h1
      · exact .inr hx
    · intro t h1
      rw [ht] at h1
      cases h1
    · intro v hv; cases hv
    · intro L ρ env hg _
      refine h.val L ρ env hg ?_
      rw [ht']
      simp
  | case2 t0 t1 ru l r ihl ihr =>
    have ht : toks (evSent U l ++ evSent U r) = [] := ht
    rw [toks_append, List.append_eq_nil_iff] at ht
    simp only [sentence]
    split
    · postz
      intro _
      refine (ihl s hi ho.1 ht.1).mono fun n1 s1 h1 => ?_
      intro _
      refine (ihr s1 h1.inv ho.2 ht.2).mono fun n2 s2 h2 => ?_
      exact h1.conn h2 (by simp) (by simp) (by simp) (by simp)
    · postz
  | case3 n h1 h2 => 
    unfold okSent at ho
    split at ho
    · exact absurd rfl (h1 _ _ _)
    · exact absurd rfl (h2 _ _ _ _ _)
    · exact ho.elim

/-- What is said by sentences that come after others. -/
theorem dSents_env (L : Nat → M.D) (b : M.B) (ns : List AST.Node) : dSents U L b ns =
    ns.foldl (fun b n => M.conn .and b (dSent U L (fun _ => M.d0) n)) b := by
  induction ns generalizing b with
  | nil => rfl
  | cons n ns ih => exact ih _

/-- The sentences of a text. -/
def sents (d : List AST.Node) : List AST.Node := d.filter fun n => !isFragment n

theorem run_rest (H : FDen M U A f) (d : List AST.Node) (s0 s : St) (n : Node) (E : List Ev) (den : (Nat → M.D) → M.B)
    (h : Res M U A (fun _ => false) (fun _ => none) s0 s [] [] E n (fun L _ _ => den L))
    (ho : ∀ k ∈ sents d, okSent U A k) (ht : ∀ k ∈ sents d, toks (evSent U k) = []) :
    Post (discourseLoop U f d (some n)) s Any fun r s' => ∃ n', r = some n' ∧
      Res M U A (fun _ => false) (fun _ => none) s0 s' [] [] (E ++ (sents d).flatMap (evSent U)) n'
        (fun L _ _ => dSents U L (den L) (sents d)) := by
  induction d generalizing s n E den with
  | nil =>
    simp only [discourseLoop]
    postz
    refine ⟨_, rfl, ?_⟩
    simp only [sents, List.filter_nil, List.flatMap_nil, List.append_nil]
    exact h
  | cons k d ih =>
    simp only [discourseLoop]
    split
    · next hk =>
      have : sents (k :: d) = sents d := by simp [sents, hk]
      rw [this] at ho ht ⊢
      exact ih s n E den h ho ht
    · next hk =>
      have hs : sents (k :: d) = k :: sents d := by simp [sents, hk]
      rw [hs] at ho ht ⊢
      split
      · postz
        have hk2 := ht k (by simp)
        refine (run_sentence H k s h.inv (ho k (by simp)) hk2).mono fun n2 s2 h2 => ?_
        have h2' : Res M U A (fun _ => false) (fun _ => none) s s2 [] [] (evSent U k) n2
            (fun L _ _ => dSent U L (fun _ => M.d0) k) :=
          { h2 with val := fun L ρ env hg _ => h2.val L ρ (fun _ => M.d0) hg (by rw [hk2]; simp) }
        have h3 := h.conn (V := []) (c := .and) h2' (by simp) (by simp) (by simp) (by simp)
        refine (ih s2 _ _ _ h3 (fun k hk => ho k (by simp [hk])) (fun k hk => ht k (by simp [hk]))).mono fun r s' h => ?_
        obtain ⟨n', h1, h2⟩ := h
        refine ⟨n', h1, ?_⟩
        rw [List.append_assoc] at h2
        exact h2
      · postz

theorem run_first (H : FDen M U A f) (d : List AST.Node) (k : AST.Node) (ks : List AST.Node) (hd : sents d = k :: ks)
    (ho : ∀ k ∈ sents d, okSent U A k) (ht : ∀ k ∈ sents d, toks (evSent U k) = []) :
    Post (discourseLoop U f d none) {} Any fun r s' => ∃ n, r = some n ∧
      Res M U A (fun _ => false) (fun _ => none) {} s' [] [] ((k :: ks).flatMap (evSent U)) n
        (fun L _ _ => dSents U L (dSent U L (fun _ => M.d0) k) ks) := by
  induction d with
  | nil => cases hd
  | cons x d ih =>
    simp only [discourseLoop]
    split
    · next hk =>
      have : sents (x :: d) = sents d := by simp [sents, hk]
      rw [this] at ho ht hd
      exact ih hd ho ht
    · next hk =>
      have hs : sents (x :: d) = x :: sents d := by simp [sents, hk]
      rw [hs] at ho ht hd
      obtain ⟨rfl, rfl⟩ := List.cons.inj hd
      split
      · postz
        have hk2 := ht x (by simp)
        refine (run_sentence H x {} Inv.empty (ho x (by simp)) hk2).mono fun n2 s2 h2 => ?_
        have h2' : Res M U A (fun _ => false) (fun _ => none) {} s2 [] [] (evSent U x) n2
            (fun L _ _ => dSent U L (fun _ => M.d0) x) :=
          { h2 with val := fun L ρ env hg _ => h2.val L ρ (fun _ => M.d0) hg (by rw [hk2]; simp) }
        exact run_rest H d {} s2 n2 _ _ h2' (fun k hk => ho k (by simp [hk])) (fun k hk => ht k (by simp [hk]))
      · postz

/-! ## Reading back -/

theorem readL_id {s : St} {as : List (Option Node)} (h : ∀ x, some x ∈ as → readAll s x = x) : readL s as = as := by
  induction as with
  | nil => rfl
  | cons a as ih =>
    cases a with
    | none => simp only [readL, readO, ih fun x hx => h x (by simp [hx])]
    | some a => simp only [readL, readO, ih (fun x hx => h x (by simp [hx])), h a (by simp)]

theorem readAll_id {s : St} (hc : s.cleared = []) (n : Node) : readAll s n = n := by
  induction n using Node.induct with
  | bind q id m f r st ihr ihs =>
    cases r with
    | none => simp only [readAll, readO, ihs]
    | some r => simp only [readAll, readO, ihs, ihr r rfl]
  | conn c l r ihl ihr => simp only [readAll, ihl, ihr]
  | app p as ihp iha => simp only [readAll, ihp, readL_id iha]
  | var v => simp [readAll, St.read, hc]
  | plural as iha => simp only [readAll, readL_id iha]
  | quote t f => rfl
  | name x => rfl
  | abs st ih => simp only [readAll, ih]
  | serial l r ihl ihr => simp only [readAll, ihl, ihr]
  | swap p k ih => simp only [readAll, ih]

/-! ## The definite arguments around the text -/

/-- Contents do not change when a variable bound later does. -/
theorem good_adv {L ρ : Nat → M.D} {X : List Pending} {T : List (Nat × Nat)} {x : Nat} (hg : Good L ρ X T)
    (hp : x ∉ ids X) (hX : ∀ X1 q X2, X = X1 ++ q :: X2 → PendOk M U A T X1 q) (d : M.D) :
    ∀ q ∈ X, (∀ id, T.lookup id ≠ some q.id) → ∀ sub y v w, q.restr = some (Den.content sub y v w) →
      upd ρ x d q.id = M.absD (M.stmt sub (upd ρ x d)) := by
  intro q hq hn sub y v w hr
  have hb : q.id ≠ x := by rintro rfl; exact hp (mem_ids.2 ⟨q, hq, rfl⟩)
  obtain ⟨X1, X2, rfl⟩ := List.append_of_mem hq
  obtain ⟨r, h1, h2⟩ := (hX X1 q X2 rfl).restr
  rcases h2 with ⟨id, h2, -⟩ | ⟨-, sub', y', v', w', h2, -, -, -, -, -, -, ht⟩
  · exact absurd h2 (hn id)
  · rw [hr] at h1
    cases h1
    rw [Den.content, Den.content] at h2
    cases h2
    rw [(val_congr sub (ρ := upd ρ x d) (σ := ρ) ht ?_).1]
    · simpa [upd, hb] using hg.adv q hq hn sub y v w hr
    · intro z hz
      have : z ≠ x := by rintro rfl; exact hp (by simp [hz])
      simp [upd, this]

theorem good_arg {L ρ : Nat → M.D} {X : List Pending} {T : List (Nat × Nat)} {p : Pending} {i : Nat} (hg : Good L ρ X T)
    (hp : p.id ∉ ids X) (hi : T.lookup i = some p.id) (hinj : ∀ j, T.lookup j = some p.id → j = i)
    (hX : ∀ X1 q X2, X = X1 ++ q :: X2 → PendOk M U A T X1 q) (d : M.D) :
    Good (upd L i d) (upd ρ p.id d) X T ∧ Good (upd L i d) (upd ρ p.id d) (X ++ [p]) T := by
  have ha : ∀ id b, T.lookup id = some b → b ∈ ids X → upd ρ p.id d b = upd L i d id := by
    intro id b h1 h2
    have hb : b ≠ p.id := by rintro rfl; exact hp h2
    have hid : id ≠ i := by rintro rfl; rw [h1] at hi; cases hi; exact hb rfl
    simp [upd, hb, hid, hg.arg id b h1 h2]
  have hadv := good_adv hg hp hX d
  refine ⟨⟨ha, hadv⟩, ⟨?_, ?_⟩⟩
  · intro id b h1 h2
    rw [ids_append, List.mem_append] at h2
    rcases h2 with h2 | h2
    · exact ha id b h1 h2
    · simp only [ids, List.map_cons, List.map_nil, List.mem_singleton] at h2
      subst h2
      rw [hinj id h1]
      simp [upd]
  · intro q hq hn
    rw [List.mem_append, List.mem_singleton] at hq
    rcases hq with hq | rfl
    · exact hadv q hq hn
    · exact absurd hi (hn i)

theorem good_content {L ρ : Nat → M.D} {X : List Pending} {T : List (Nat × Nat)} {p : Pending} {sub : Node} {y : Nat}
    {v w : Var} (hg : Good L ρ X T) (hp : p.id ∉ ids X) (hn : ∀ id, T.lookup id ≠ some p.id)
    (hr : p.restr = some (Den.content sub y v w)) (ht : Tr (fun _ => True) (fun x => x ∈ ids X) sub)
    (hX : ∀ X1 q X2, X = X1 ++ q :: X2 → PendOk M U A T X1 q) :
    Good L (upd ρ p.id (M.absD (M.stmt sub ρ))) (X ++ [p]) T := by
  refine ⟨?_, ?_⟩
  · intro id b h1 h2
    have hb : b ≠ p.id := by rintro rfl; exact hn id h1
    rw [ids_append, List.mem_append] at h2
    rcases h2 with h2 | h2
    · simp [upd, hb, hg.arg id b h1 h2]
    · simp only [ids, List.map_cons, List.map_nil, List.mem_singleton] at h2
      exact absurd h2 hb
  · intro q hq hn'
    rw [List.mem_append, List.mem_singleton] at hq
    rcases hq with hq | rfl
    · exact good_adv hg hp hX _ q hq hn'
    · intro sub' y' v' w' hr'
      rw [hr, Den.content, Den.content] at hr'
      cases hr'
      rw [(val_congr sub (ρ := upd ρ q.id _) (σ := ρ) ht ?_).1]
      · simp [upd]
      · intro z hz
        have : z ≠ q.id := by rintro rfl; exact hp hz
        simp [upd, this]

/-- The argument with this variable. -/
def argOf (T : List (Nat × Nat)) (b : Nat) : Option Nat := (T.find? fun x => x.2 = b).map (·.1)

theorem argOf_eq {T : List (Nat × Nat)} (hn : (T.map (·.2)).Nodup) {i b : Nat} (h : (i, b) ∈ T) : argOf T b = some i := by
  induction T with
  | nil => cases h
  | cons x T ih =>
    simp only [List.map_cons, List.nodup_cons] at hn
    rcases List.mem_cons.1 h with rfl | h
    · simp [argOf]
    · have : x.2 ≠ b := by rintro rfl; exact hn.1 (List.mem_map.2 ⟨_, h, rfl⟩)
      have := ih hn.2 h
      simpa [argOf, *] using this

theorem argOf_none {T : List (Nat × Nat)} {b : Nat} (h : b ∉ T.map (·.2)) : argOf T b = none := by
  simp only [argOf, Option.map_eq_none_iff, List.find?_eq_none, decide_eq_true_eq]
  rintro x hx rfl
  exact h (List.mem_map.2 ⟨x, hx, rfl⟩)

theorem argOf_all {T : List (Nat × Nat)} (hn : (T.map (·.2)).Nodup) :
    (T.map (·.2)).reverse.filterMap (argOf T) = (T.map (·.1)).reverse := by
  rw [List.filterMap_reverse, List.filterMap_map]
  congr 1
  rw [← List.filterMap_eq_map]
  refine List.filterMap_congr fun x hx => ?_
  exact argOf_eq hn hx

theorem filterMap_filter {α β : Type} (g : α → Option β) (q : α → Bool) (h : ∀ x, q x = false → g x = none) (l : List α) :
    (l.filter q).filterMap g = l.filterMap g := by
  induction l with
  | nil => rfl
  | cons a l ih =>
    cases hq : q a
    · rw [List.filter_cons_of_neg (by simp [hq]), List.filterMap_cons_none (h a hq), ih]
    · rw [List.filter_cons_of_pos hq]
      simp only [List.filterMap_cons, ih]

theorem Inv.vals_nodup {s : St} (h : Inv M U A s) : (s.lifted.map (·.2)).Nodup := by
  have := h.nodup.filter (fun b => decide (b ∈ s.lifted.map (·.2)))
  rw [h.order] at this
  exact List.nodup_reverse.1 this

theorem Inv.all_args {s : St} (h : Inv M U A s) : (ids s.the).filterMap (argOf s.lifted) = Den.keys s := by
  rw [← filterMap_filter (argOf s.lifted) (fun b => decide (b ∈ s.lifted.map (·.2))) (fun x hx => argOf_none (by simpa using hx)),
    h.order, argOf_all h.vals_nodup]
  rfl

theorem lift_val (hM : M.Laws) {s : St} (h : Inv M U A s) (k : (Nat → M.D) → M.B) (n : Node)
    (hn : ∀ L ρ, Good L ρ s.the s.lifted → M.stmt n ρ = k L) :
    ∀ (Y X : List Pending), s.the = X ++ Y → ∀ L ρ, Good L ρ X s.lifted →
      M.stmt (bindThe Y n) ρ = dLift U A k ((ids Y).filterMap (argOf s.lifted)) L
  | [], X, hX, L, ρ, hg => hn L ρ (by rw [hX, List.append_nil]; exact hg)
  | p :: Y, X, hX, L, ρ, hg => by
    have hp := h.pend X p Y hX
    have hnd := h.nodup
    rw [hX, ids_append, List.nodup_append] at hnd
    have hpX : p.id ∉ ids X := fun hm => hnd.2.2 _ hm p.id (by simp [ids]) rfl
    have hXs : ∀ X1 q X2, X = X1 ++ q :: X2 → PendOk M U A s.lifted X1 q := fun X1 q X2 e =>
      h.pend X1 q (X2 ++ p :: Y) (by rw [hX, e, List.append_assoc]; rfl)
    have hX' : s.the = (X ++ [p]) ++ Y := by rw [hX]; simp
    obtain ⟨r, hr, h2⟩ := hp.restr
    show M.stmt (.bind p.q p.id p.id p.focus p.restr (bindThe Y n)) ρ = _
    rcases h2 with ⟨i, hi, -, -, hv⟩ | ⟨hno, sub, y, v, w, rfl, hv, -, hw, -, hy, hyp, ht⟩
    · have ha : argOf s.lifted p.id = some i := argOf_eq h.vals_nodup (mem_lookup hi)
      have hinj : ∀ j, s.lifted.lookup j = some p.id → j = i := by
        intro j hj
        have := argOf_eq h.vals_nodup (mem_lookup hj)
        rw [ha] at this
        cases this
        rfl
      have hids : (ids (p :: Y)).filterMap (argOf s.lifted) = i :: (ids Y).filterMap (argOf s.lifted) := by
        show (p.id :: ids Y).filterMap _ = _
        rw [List.filterMap_cons_some ha]
      rw [hids, hp.q, hr, Model.stmt, Model.restr, dLift]
      congr 1
      · congr 1
        funext d
        rw [hv _ _ (good_arg hg hpX hi hinj hXs d).1]
        simp [upd]
      · funext d
        exact lift_val hM h k n hn Y _ hX' _ _ (good_arg hg hpX hi hinj hXs d).2
    · have ha : argOf s.lifted p.id = none := by
        refine argOf_none fun hm => ?_
        obtain ⟨⟨i, b⟩, hx, hb⟩ := List.mem_map.1 hm
        simp only at hb
        subst hb
        exact hno i (lookup_mem h.keysN hx)
      have hids : (ids (p :: Y)).filterMap (argOf s.lifted) = (ids Y).filterMap (argOf s.lifted) := by
        show (p.id :: ids Y).filterMap _ = _
        rw [List.filterMap_cons_none ha]
      rw [hids, hr, bind_content hM ht hy hpX hv hw (.inl hp.q)]
      exact lift_val hM h k n hn Y _ hX' _ _ (good_content hg hpX hno hr ht hXs)

/-! ## Scopes -/

theorem tr_scoped (n : Node) : ∀ {B X : Nat → Prop} {env : List Nat}, Tr B X n → (∀ x, X x → x ∈ env) → Scoped env n := by
  have list : ∀ (env : List Nat) (as : List (Option Node)), (∀ x, some x ∈ as → Scoped env x) → ScopedL env as := by
    intro env as h
    induction as with
    | nil => trivial
    | cons a as ih =>
      refine ⟨?_, ih fun x hx => h x (by simp [hx])⟩
      cases a with
      | none => trivial
      | some a => exact h a (by simp)
  induction n using Node.induct with
  | bind q id m f r s ihr ihs =>
    intro B X env h hx
    obtain ⟨rfl, -, h1, h2⟩ := h
    have hx' : ∀ x, (X x ∨ x = id) → x ∈ id :: env := fun x h => by
      rcases h with h | rfl
      · exact List.mem_cons_of_mem _ (hx x h)
      · simp
    refine ⟨?_, ihs h2 hx'⟩
    cases r with
    | none => trivial
    | some r => exact ihr r rfl h1 hx'
  | conn c l r ihl ihr => intro B X env h hx; exact ⟨ihl h.1 hx, ihr h.2 hx⟩
  | app p as ihp iha =>
    intro B X env h hx
    exact ⟨ihp h.1 hx, list env as fun x hxa => iha x hxa (TrL_iff.1 h.2 x hxa) hx⟩
  | var v =>
    intro B X env h hx id hid
    rw [h.1] at hid
    cases hid
    exact hx _ h.2
  | plural as iha => intro B X env h hx; exact list env as fun x hxa => iha x hxa (TrL_iff.1 h x hxa) hx
  | quote t f => intros; trivial
  | name s => intros; trivial
  | abs s ih => intro B X env h hx; exact ih h hx
  | serial l r ihl ihr => intro B X env h hx; exact ⟨ihl h.1 hx, ihr h.2 hx⟩
  | swap p k ih => intro B X env h hx; exact ih h hx

theorem the_scoped {s : St} (h : Inv M U A s) (n : Node) {B : Nat → Prop} (hn : Tr B (fun x => x ∈ ids s.the) n) :
    ∀ (Y X : List Pending), s.the = X ++ Y → ∀ env, (∀ x ∈ ids X, x ∈ env) → Scoped env (bindThe Y n)
  | [], X, hX, env, he => tr_scoped n hn fun x hx => he x (by rw [hX, List.append_nil] at hx; exact hx)
  | p :: Y, X, hX, env, he => by
    have hp := h.pend X p Y hX
    have he' : ∀ x ∈ ids X, x ∈ p.id :: env := fun x hx => List.mem_cons_of_mem _ (he x hx)
    refine ⟨?_, the_scoped h n hn Y (X ++ [p]) (by rw [hX]; simp) (p.id :: env) fun x hx => ?_⟩
    · obtain ⟨r, hr, h2⟩ := hp.restr
      rw [hr]
      rcases h2 with ⟨i, hi, -, ht, -⟩ | ⟨hno, sub, y, v, w, rfl, hv, hv', hw, hw', hy, hyp, ht⟩
      · refine tr_scoped r ht fun x hx => ?_
        rcases hx with hx | rfl
        · exact he' x hx
        · simp
      · refine ⟨⟨trivial, trivial, ⟨?_, ?_, trivial⟩⟩, ?_, trivial⟩
        · intro id hid
          rw [hv'] at hid
          cases hid
          simp
        · exact tr_scoped sub ht fun x hx => List.mem_cons_of_mem _ (he' x hx)
        · intro id hid
          rw [hw'] at hid
          cases hid
          simp
    · rw [ids_append, List.mem_append] at hx
      rcases hx with hx | hx
      · exact he' x hx
      · simp [ids] at hx; simp [hx]

/-! ## Texts -/

theorem discourse_den (hM : M.Laws) (k : Nat) (d : List AST.Node) (S : AST.Node) (Ss : List AST.Node)
    (hd : sents d = S :: Ss) (ho : ∀ T ∈ S :: Ss, okSent U A T) (ht : ∀ T ∈ S :: Ss, toks (evSent U T) = [])
    (n : Node) (h : discourse U (fns U k) d = .ok (some n)) :
    (∀ ρ, M.stmt n ρ = dText U M A S Ss) ∧ Scoped [] n := by
  have hp := run_first (fden_fns (U := U) (A := A) hM k) d S Ss hd (by rw [hd]; exact ho) (by rw [hd]; exact ht)
  unfold discourse at h
  unfold Post at hp
  revert hp h
  cases discourseLoop U (fns U k) d none {} with
  | error e => intro h; cases h
  | ok r =>
    obtain ⟨r, s⟩ := r
    cases r with
    | none => intro h; cases h
    | some n0 =>
      intro h hp
      obtain ⟨n', h1, hR⟩ := hp
      cases h1
      cases h
      rw [readAll_id hR.inv.cleared]
      have htk : toks ((S :: Ss).flatMap (evSent U)) = [] := by
        rw [toks, List.filterMap_flatMap, List.flatMap_eq_nil_iff]
        exact ht
      refine ⟨fun ρ => ?_, ?_⟩
      · rw [lift_val hM hR.inv (fun L => dSents U L (dSent U L (fun _ => M.d0) S) Ss) n0 (fun L ρ hg =>
          hR.val L ρ (fun _ => M.d0) hg (by rw [htk]; simp)) s.the [] rfl (fun _ => M.d0) ρ ⟨by simp [ids], by simp⟩,
          hR.inv.all_args, hR.evo.keys]
        rfl
      · refine the_scoped hR.inv n0 (hR.tree.mono (fun _ h => h) fun x hx => ?_) s.the [] rfl [] (by simp [ids])
        rcases hx with ⟨t, h1, -⟩ | ⟨v, hv, -⟩ | hx
        · rw [htk] at h1; cases h1
        · cases hv
        · exact hx

end

end Verif.Logic.Den
