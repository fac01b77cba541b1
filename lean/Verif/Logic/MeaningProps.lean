/-
C54: sentences and whole plain texts; C37 and C49 for them.
-/
import Verif.Logic.MeaningRun
import Mathlib.Data.List.Nodup

namespace Verif.Logic
open Verif.Tone (Str)

/-! ## Bindings around a statement -/

/-- The numbers in scope under some bindings. -/
def under (E : Nat → Option Nat) (xs : List (SArg × Nat)) : Nat → Option Nat :=
  xs.foldl (fun E x => upd E x.1.id (some x.2)) E

theorem under_or {xs : List (SArg × Nat)} : ∀ {E : Nat → Option Nat} {i b : Nat}, under E xs i = some b →
    E i = some b ∨ ∃ x ∈ xs, x.1.id = i ∧ x.2 = b := by
  induction xs with
  | nil => intro E i b h; exact .inl h
  | cons x xs ih =>
    intro E i b h
    rcases ih (E := upd E x.1.id (some x.2)) h with h | ⟨y, hy, h⟩
    · unfold upd at h
      split at h
      · next he => cases h; exact .inr ⟨x, by simp, he.symm, rfl⟩
      · exact .inl h
    · exact .inr ⟨y, by simp [hy], h⟩

theorem under_not {xs : List (SArg × Nat)} : ∀ {E : Nat → Option Nat} {i : Nat}, i ∉ xs.map (·.1.id) →
    under E xs i = E i := by
  induction xs with
  | nil => intro E i _; rfl
  | cons x xs ih =>
    intro E i h
    simp only [List.map_cons, List.mem_cons, not_or] at h
    refine (ih (E := upd E x.1.id (some x.2)) h.2).trans ?_
    simp [upd, h.1]

theorem under_mem {xs : List (SArg × Nat)} (hn : (xs.map (·.1.id)).Nodup) {x : SArg × Nat} (hx : x ∈ xs) :
    ∀ {E : Nat → Option Nat}, under E xs x.1.id = some x.2 := by
  induction xs with
  | nil => cases hx
  | cons y xs ih =>
    intro E
    simp only [List.map_cons, List.nodup_cons] at hn
    rcases List.mem_cons.1 hx with rfl | hx
    · refine (under_not (E := upd E x.1.id (some x.2)) hn.1).trans ?_
      simp [upd]
    · exact ih hn.2 hx

def wrap (ps : List Pending) (n : Node) : Node := ps.foldr (fun p n => bindScope (some p) n) n

theorem wrap_is {U : Uni} {V : List Var} (ho : ∀ v ∈ V, v.dfn = some v.n) {xs : List (SArg × Nat)}
    {ps : List Pending} (h : List.Forall₂ (PIs U V) xs ps) {t : T} {n : Node} :
    ∀ {E : Nat → Option Nat}, Is (under E xs) t n → (∀ x ∈ xs, ∀ i, E i ≠ some x.2) → (xs.map (·.2)).Nodup →
      Is E ((xs.map (·.1)).foldr (SArg.binds U) t) (wrap ps n) := by
  induction h with
  | nil => exact fun h _ _ => h
  | @cons x p xs ps hp _ ih =>
    intro E hi hf hn
    simp only [List.map_cons, List.nodup_cons] at hn
    obtain ⟨v, hv, hvn, hr⟩ := hp.restr
    simp only [List.map_cons, List.foldr_cons, SArg.binds, wrap, bindScope, hr, hp.q, hp.id]
    refine ⟨rfl, hf x (by simp), ?_, ih hi ?_ hn.2⟩
    · refine says_is _ (.cons ⟨?_, ?_⟩ .nil)
      · simp [upd, hvn]
      · rw [ho v hv]; simp
    · intro y hy i
      unfold upd
      split
      · intro he
        injection he with he
        exact hn.1 (he ▸ List.mem_map_of_mem hy)
      · exact hf y (by simp [hy]) i

theorem pis_nodes {U : Uni} {V : List Var} {x : SArg × Nat} {p : Pending} (hp : PIs U V x p) :
    ∀ y ∈ preO p.restr, Inert y ∨ ∃ v ∈ V, v.n = x.2 ∧ y = .var v := by
  intro y hy
  obtain ⟨v, hv, hvn, hr⟩ := hp.restr
  rw [hr] at hy
  rcases stmt_nodes (x.1.p.alts_plain U) _ y hy with h | h
  · exact .inl h
  · simp only [preL, preO, pre, List.append_nil, List.mem_singleton] at h
    exact .inr ⟨v, hv, hvn, h⟩

theorem inert_bnums {l : List Node} (h : ∀ x ∈ l, Inert x ∨ ∃ v, x = .var v) : bnums l = [] := by
  unfold bnums
  rw [List.filterMap_eq_nil_iff]
  intro x hx
  rcases h x hx with h | ⟨v, rfl⟩
  · cases x <;> simp_all [Inert]
  · rfl

/-- The facts about a tree that wrapping keeps. -/
structure Sound (V : List Var) (n : Node) : Prop where
  vars : ∀ v, Node.var v ∈ pre n → v ∈ V
  own : ∀ q id m f r b, Node.bind q id m f r b ∈ pre n → id = m

theorem Sound.mono {V V' : List Var} {n : Node} (h : Sound V n) (hv : V ⊆ V') : Sound V' n :=
  ⟨fun v hm => hv (h.vars v hm), h.own⟩

theorem Sound.conn {V : List Var} {c : Conn} {n m : Node} (h : Sound V n) (h' : Sound V m) : Sound V (.conn c n m) := by
  constructor
  · intro v hv
    simp only [pre, List.mem_cons, List.mem_append, reduceCtorEq, false_or] at hv
    exact hv.elim (h.vars v) (h'.vars v)
  · intro q id k f r b hv
    simp only [pre, List.mem_cons, List.mem_append, reduceCtorEq, false_or] at hv
    exact hv.elim (h.own _ _ _ _ _ _) (h'.own _ _ _ _ _ _)

theorem wrap_sound {U : Uni} {V : List Var} {xs : List (SArg × Nat)} {ps : List Pending}
    (h : List.Forall₂ (PIs U V) xs ps) {n : Node} (hn : Sound V n) :
    Sound V (wrap ps n) ∧ bnums (pre (wrap ps n)) = xs.map (·.2) ++ bnums (pre n) := by
  induction h with
  | nil => exact ⟨hn, rfl⟩
  | @cons x p xs ps hp _ ih =>
    have hnodes := pis_nodes hp
    have hb0 := inert_bnums (l := preO p.restr) fun y hy => (hnodes y hy).imp_right fun ⟨v, _, _, h⟩ => ⟨v, h⟩
    refine ⟨⟨?_, ?_⟩, ?_⟩
    · intro v hv
      simp only [wrap, List.foldr_cons, bindScope, pre, List.mem_cons, List.mem_append, reduceCtorEq, false_or] at hv
      rcases hv with hv | hv
      · rcases hnodes _ hv with h | ⟨w, hw, -, h⟩
        · exact h.elim
        · cases h; exact hw
      · exact ih.1.vars v hv
    · intro q id m f r b hv
      simp only [wrap, List.foldr_cons, bindScope, pre, List.mem_cons, List.mem_append] at hv
      rcases hv with hv | hv | hv
      · cases hv; rfl
      · rcases hnodes _ hv with h | ⟨w, hw, -, h⟩
        · exact h.elim
        · cases h
      · exact ih.1.own _ _ _ _ _ _ hv
    · simp only [wrap, List.foldr_cons, bindScope, pre, bnums_cons_bind, bnums_append, hb0, List.nil_append,
        List.map_cons, List.cons_append, hp.id]
      exact congrArg _ ih.2

theorem bindHi_eq {U : Uni} {V : List Var} {s : St} (hc : s.cleared = []) (ho : ∀ v ∈ V, v.dfn = some v.n) :
    ∀ (ps : List Pending) (sc : List Nat) (n : Node), (∀ p ∈ ps, ∃ x, PIs U V x p) →
      bindHi ps sc n s = (ps.foldl (fun n p => bindScope (some p) n) n, s)
  | [], _, _, _ => rfl
  | p :: ps, sc, n, h => by
    obtain ⟨x, hx⟩ := h p (by simp)
    have hcl : clearHi (p.id :: sc) p s = s := by
      unfold clearHi
      have hnodes := pis_nodes hx
      revert hnodes
      cases p.restr with
      | none => intro _; rfl
      | some r =>
        intro hnodes
        simp only [visitO]
        apply visit_id
        intro y hy
        rcases hnodes y hy with h | ⟨v, hv, hvn, rfl⟩
        · cases y <;> simp_all [Inert, clearStep]
        · simp [clearStep, St.read, hc, ho v hv, hvn, hx.id]
    rw [bindHi, hcl, bindHi_eq hc ho ps _ _ fun q hq => h q (by simp [hq])]
    rfl

theorem forall₂_right {α β : Type} {R : α → β → Prop} {l : List α} {m : List β} (h : List.Forall₂ R l m) :
    ∀ y ∈ m, ∃ x, R x y := by
  induction h with
  | nil => intro y hy; cases hy
  | @cons x q xs qs h _ ih =>
    intro y hy
    rcases List.mem_cons.1 hy with rfl | hy
    · exact ⟨x, h⟩
    · exact ih y hy

/-! ## Sentences -/

/-- The state between sentences. -/
structure Between (U : Uni) (s : St) (V : List Var) (tl : List (SArg × Nat)) : Prop where
  addr : (V.map Var.addr).Nodup
  lt : ∀ v ∈ V, ∃ k, k < s.nv ∧ v.addr = .mk k
  own : ∀ v ∈ V, v.dfn = some v.n
  the : List.Forall₂ (PIs U V) tl s.the
  num : ∀ x ∈ tl, x.2 < s.n
  cleared : s.cleared = []

theorem nodup_news {N : List (SArg × Nat)} {l m : List SArg} (h : N.map (·.1) = l) (hp : l.Sublist m)
    (hm : (m.map SArg.id).Nodup) : (N.map (·.1.id)).Nodup := by
  have : N.map (·.1.id) = (N.map (·.1)).map SArg.id := by simp
  rw [this, h]
  exact hm.sublist (hp.map _)

/-- The order is a permutation of the arguments. -/
theorem termsOrder_perm {rest rest' : List SArg} (h : rest.Perm rest') : ∀ ts : List STerm,
    (termsOrder rest ts).Perm (argsOf ts ++ rest')
  | [] => h
  | t :: ts => by
    simp only [termsOrder, argsOf, List.flatMap_cons, List.append_assoc]
    have ih := termsOrder_perm h ts
    have h1 : (t.arg.args.take 1 ++ (termsOrder rest ts ++ t.arg.args.drop 1)).Perm
        (t.arg.args.take 1 ++ (t.arg.args.drop 1 ++ termsOrder rest ts)) :=
      List.Perm.append_left _ List.perm_append_comm
    rw [← List.append_assoc (List.take 1 t.arg.args) (List.drop 1 t.arg.args), List.take_append_drop] at h1
    exact h1.trans (List.Perm.append_left _ ih)

theorem order_perm : ∀ S : SStmt, S.order.Perm S.args
  | .base _ _ => .refl _
  | .pred p ts na => by
    have := termsOrder_perm (.refl []) ts
    simpa [SStmt.order, SStmt.args, argsOf] using this
  | .prenex _ _ ts st => termsOrder_perm (order_perm st) ts
  | .conn _ _ _ _ l r => (order_perm l).append (order_perm r)

theorem sent_run {U : Uni} (hU : U.Ok) (S : SSent) (hS : S.st.Ok U) {s : St} {V : List Var} {tl : List (SArg × Nat)}
    (hb : Between U s V tl) (hnd : (S.st.args.map SArg.id).Nodup) (hst : Stage true s S.st.args) :
    ∃ n s' V' tn, Runs (fun k => sentence U (fns U k) S.ast) s n s' ∧ V ⊆ V' ∧ Between U s' V' (tl ++ tn) ∧
      tn.map (·.1) = S.st.order.filter (·.q = .the) ∧ s.n ≤ s'.n ∧
      (∀ i, i ∉ S.st.args.map SArg.id → s'.lifted.lookup i = s.lifted.lookup i) ∧
      Is (under (fun _ => none) tn) (S.mean U) n ∧ Sound V' n ∧
      (bnums (pre n) ++ tn.map (·.2)).Nodup ∧ ∀ x ∈ bnums (pre n) ++ tn.map (·.2), s.n ≤ x ∧ x < s'.n := by
  have hpre : Pre U (S.st.args.map SArg.id) { s with hi := [] :: s.hi } V tl [] [] [] S.st.args := by
    refine ⟨⟨hb.addr, hb.lt, hb.own, hb.the, ⟨[], s.hi, rfl, .nil⟩, by simpa using hb.num, ?_, hb.cleared⟩,
      by simp, by simp, by simp, by simp, hnd, fun a ha => List.mem_map_of_mem ha⟩
    intro i hi b hl
    obtain ⟨a, ha, rfl⟩ := List.mem_map.1 hi
    have := hst a ha
    simp only [if_true] at this
    rw [this] at hl
    cases hl
  obtain ⟨n, s1, V1, N, hr, ho⟩ := stmt_run hU S.st hS true _ V tl [] [] [] hpre hst
  obtain ⟨top, rest, hhi, hps⟩ := ho.mid.hi
  simp only [List.nil_append] at hps
  have hin := forall₂_right hps
  have hbh := bindHi_eq (U := U) (s := s1) ho.mid.cleared ho.mid.own top.reverse (s1.vars.map (·.2)) n
    (by simpa using hin)
  rw [List.foldl_reverse] at hbh
  have hsnd : Sound V1 n := ⟨ho.node.vars, ho.node.own⟩
  obtain ⟨hws, hwb⟩ := wrap_sound hps hsnd
  have hnews : N.map (·.1) = S.st.order.filter SArg.lifts := by simpa [sel] using ho.news
  have hNd : (N.map (·.1.id)).Nodup :=
    nodup_news hnews List.filter_sublist (((order_perm S.st).map _).nodup_iff.2 hnd)
  have hfilt : ∀ (P : SArg → Bool) (h : ∀ a, P a = true → a.lifts = true),
      (N.filter fun x => P x.1).map (·.1) = S.st.order.filter P := by
    intro P h
    have : (N.filter fun x => P x.1).map (·.1) = (N.map (·.1)).filter P := by
      rw [List.filter_map]; rfl
    rw [this, hnews, List.filter_filter]
    congr 1
    funext a
    cases hP : P a with
    | false => simp
    | true => simp [h a hP]
  have hthe := hfilt (fun a => a.q = .the) (by intro a h; simp at h; simp [SArg.lifts, h])
  have hhif := hfilt (fun a => a.q = .hi) (by intro a h; simp at h; simp [SArg.lifts, h])
  have hNsub : ∀ x ∈ N, x.1 ∈ S.st.args := fun x hx => by
    have : x.1 ∈ N.map (·.1) := List.mem_map_of_mem hx
    rw [hnews] at this
    exact mem_order (List.mem_filter.1 this).1
  have hnn := ho.node.nodup
  have hrg := ho.node.range
  have hsubmap : ∀ P : SArg × Nat → Bool, ((N.filter P).map (·.2)).Sublist (N.map (·.2)) :=
    fun P => List.filter_sublist.map _
  have hdisj : ∀ x ∈ N.filter isThe, ∀ y ∈ N.filter isHi, x.2 ≠ y.2 := by
    have hn2 : (N.map (·.2)).Nodup := (List.nodup_append.1 hnn).2.1
    intro x hx y hy he
    obtain ⟨hx1, hx2⟩ := List.mem_filter.1 hx
    obtain ⟨hy1, hy2⟩ := List.mem_filter.1 hy
    have : x = y := List.inj_on_of_nodup_map hn2 hx1 hy1 he
    subst this
    simp only [isThe, isHi, decide_eq_true_eq] at hx2 hy2
    rw [hx2] at hy2
    cases hy2
  refine ⟨wrap top n, { s1 with hi := s.hi }, V1, N.filter isThe, ?_, ho.sub, ?_, hthe, ho.evo.n, ?_, ?_, hws, ?_, ?_⟩
  · obtain ⟨k0, hk⟩ := hr
    refine ⟨k0, fun k h => ?_⟩
    show subordinate ((fns U k).statement [] S.st.ast) s = _
    have hk' := hk k h
    have hz : zArgs [] = [] := rfl
    rw [hz] at hk'
    simp only [subordinate, hk', hhi, List.headD_cons, hbh]
    rfl
  · exact ⟨ho.mid.addr, ho.mid.lt, ho.mid.own, ho.mid.the, fun x hx => ho.mid.num x (List.mem_append_left _ hx),
      ho.mid.cleared⟩
  · intro i hi
    refine (ho.evo.keep i ?_ :)
    intro hc
    obtain ⟨x, hx, rfl⟩ := List.mem_map.1 hc
    exact hi (List.mem_map_of_mem (hNsub x hx))
  · have key : Is (under (under (fun _ => none) (N.filter isThe)) (N.filter isHi)) (S.st.mean U []) n := by
      have hu1 : ∀ x ∈ N, under (under (fun _ => none) (N.filter isThe)) (N.filter isHi) x.1.id = some x.2 := by
        intro x hx
        have hlf : x.1.lifts = true := by
          have : x.1 ∈ N.map (·.1) := List.mem_map_of_mem hx
          rw [hnews] at this
          exact (List.mem_filter.1 this).2
        by_cases hq : x.1.q = .hi
        · exact under_mem (hNd.sublist (List.filter_sublist.map _))
            (List.mem_filter.2 ⟨hx, by simp [isHi, hq]⟩)
        · have hq' : x.1.q = .the := by simpa [SArg.lifts, hq] using hlf
          rw [under_not]
          · exact under_mem (hNd.sublist (List.filter_sublist.map _))
              (List.mem_filter.2 ⟨hx, by simp [isThe, hq']⟩)
          · intro hc
            obtain ⟨y, hy, he⟩ := List.mem_map.1 hc
            obtain ⟨hy1, hy2⟩ := List.mem_filter.1 hy
            have : y = x := List.inj_on_of_nodup_map hNd hy1 hx he
            subst this
            simp [isHi, hq] at hy2
      have hsc : ∀ x ∈ N, scope [] (S.st.args.map SArg.id) s1 x.1.id = some x.2 := by
        intro x hx
        show (if x.1.id ∈ S.st.args.map SArg.id then s1.lifted.lookup x.1.id else none) = _
        rw [if_pos (List.mem_map_of_mem (hNsub x hx)), ho.evo.got x hx]
      refine is_mono ho.node.is ?_ ?_
      · intro i b h
        have h : (if i ∈ S.st.args.map SArg.id then s1.lifted.lookup i else none) = some b := h
        split at h
        · next hi =>
          by_cases hm : i ∈ N.map (·.1.id)
          · obtain ⟨x, hx, rfl⟩ := List.mem_map.1 hm
            rw [ho.evo.got x hx] at h
            cases h
            exact hu1 x hx
          · have hk := ho.evo.keep i hm
            obtain ⟨a, ha, rfl⟩ := List.mem_map.1 hi
            have hf := hst a ha
            simp only [if_true] at hf
            rw [hk] at h
            have h : s.lifted.lookup a.id = some b := h
            rw [hf] at h
            cases h
        · cases h
      · intro i b h
        left
        rcases under_or h with h | ⟨x, hx, rfl, rfl⟩
        · rcases under_or h with h | ⟨x, hx, rfl, rfl⟩
          · cases h
          · exact hsc x (List.mem_filter.1 hx).1
        · exact hsc x (List.mem_filter.1 hx).1
    have := wrap_is ho.mid.own hps key (fun x hx i hi => by
      rcases under_or hi with h | ⟨y, hy, -, he⟩
      · cases h
      · exact hdisj y hy x hx he)
      ((List.nodup_append.1 hnn).2.1.sublist (hsubmap _))
    have e : (N.filter isHi).map (·.1) = S.st.order.filter (·.q = .hi) := hhif
    rw [e] at this
    exact this
  · rw [hwb]
    simp only [List.nodup_append, List.mem_append] at hnn ⊢
    refine ⟨⟨hnn.2.1.sublist (hsubmap _), hnn.1, ?_⟩, hnn.2.1.sublist (hsubmap _), ?_⟩
    · intro a ha b hb he
      exact hnn.2.2 b hb a ((hsubmap _).subset ha) he.symm
    · rintro a (ha | ha) b hb
      · obtain ⟨x, hx, rfl⟩ := List.mem_map.1 ha
        obtain ⟨y, hy, rfl⟩ := List.mem_map.1 hb
        exact fun he => hdisj y hy x hx he.symm
      · exact hnn.2.2 a ha b ((hsubmap _).subset hb)
  · intro x hx
    rw [hwb] at hx
    refine hrg x ?_
    simp only [List.mem_append] at hx ⊢
    rcases hx with (hx | hx) | hx
    · exact .inr ((hsubmap _).subset hx)
    · exact .inl hx
    · exact .inr ((hsubmap _).subset hx)

/-! ## Texts -/

theorem under_append (E : Nat → Option Nat) (xs ys : List (SArg × Nat)) :
    under E (xs ++ ys) = under (under E xs) ys := by simp [under]

/-- What is known of the sentences so far. -/
structure Sofar (U : Uni) (s : St) (V : List Var) (tl : List (SArg × Nat)) (t : T) (n : Node) : Prop where
  betw : Between U s V tl
  is : Is (under (fun _ => none) tl) t n
  sound : Sound V n
  nodup : (bnums (pre n) ++ tl.map (·.2)).Nodup
  lt : ∀ x ∈ bnums (pre n) ++ tl.map (·.2), x < s.n

theorem isSentence_ast (S : SSent) : isSentence S.ast = true ∧ isFragment S.ast = false := ⟨rfl, rfl⟩

theorem loop_run {U : Uni} (hU : U.Ok) : ∀ (ss : List SSent) (s : St) (V : List Var) (tl : List (SArg × Nat))
    (t : T) (n : Node), (∀ S ∈ ss, S.st.Ok U) → Sofar U s V tl t n →
    (tl.map (·.1.id) ++ (ss.flatMap fun S => S.st.args).map SArg.id).Nodup →
    Stage true s (ss.flatMap fun S => S.st.args) →
    ∃ n' s' V' tl', Runs (fun k => discourseLoop U (fns U k) (ss.map SSent.ast) (some n)) s (some n') s' ∧
      Sofar U s' V' tl' (ss.foldl (fun t S => .conn .and t (S.mean U)) t) n' ∧
      tl'.map (·.1) = tl.map (·.1) ++ (ss.flatMap fun S => S.st.order).filter (·.q = .the) := by
  intro ss
  induction ss with
  | nil => intro s V tl t n _ h _ _; exact ⟨n, s, V, tl, Runs.ret, h, by simp⟩
  | cons S ss ih =>
    intro s V tl t n hok h hnd hst
    simp only [List.flatMap_cons, List.map_append] at hnd hst
    have hnd' := hnd
    rw [List.nodup_append, List.nodup_append] at hnd'
    obtain ⟨htl, ⟨hS, hss, hSs⟩, hdis⟩ := hnd'
    obtain ⟨n1, s1, V1, tn, hr, hV, hb, htn, hle, hkeep, his, hsd, hnn, hrg⟩ :=
      sent_run hU S (hok S (by simp)) h.betw hS hst.left
    have htnids : ∀ x ∈ tn, x.1 ∈ S.st.args := fun x hx => by
      have : x.1 ∈ tn.map (·.1) := List.mem_map_of_mem hx
      rw [htn] at this
      exact mem_order (List.mem_filter.1 this).1
    have hbn := h.nodup
    have hlt := h.lt
    simp only [List.nodup_append, List.mem_append] at hbn hlt hnn hrg
    have hsofar : Sofar U s1 V1 (tl ++ tn) (.conn .and t (S.mean U)) (.conn .and n n1) := by
      refine ⟨hb, ⟨rfl, ?_, ?_⟩, (h.sound.mono hV).conn hsd, ?_, ?_⟩
      · rw [under_append]
        refine is_mono h.is ?_ ?_
        · intro i b hi
          rw [under_not, hi]
          intro hc
          obtain ⟨x, hx, rfl⟩ := List.mem_map.1 hc
          rcases under_or hi with h | ⟨y, hy, he, -⟩
          · cases h
          · exact hdis _ (List.mem_map_of_mem hy) _ (List.mem_append_left _ (List.mem_map_of_mem (htnids x hx))) he
        · intro i b hi
          refine (under_or hi).imp_right ?_
          rintro ⟨x, hx, -, rfl⟩ hc
          have := hrg x.2 (.inr (List.mem_map_of_mem hx))
          have := hlt _ (.inl hc)
          omega
      · rw [under_append]
        refine is_mono his ?_ ?_
        · intro i b hi
          rcases under_or hi with h | ⟨y, hy, rfl, rfl⟩
          · cases h
          · apply under_mem _ hy
            have : tn.map (·.1.id) = (tn.map (·.1)).map SArg.id := by simp
            rw [this, htn]
            exact (((order_perm S.st).map SArg.id).nodup_iff.2 hS).sublist (List.filter_sublist.map _)
        · intro i b hi
          by_cases hm : i ∈ tn.map (·.1.id)
          · left
            obtain ⟨x, hx, rfl⟩ := List.mem_map.1 hm
            have hn : (tn.map (·.1.id)).Nodup := by
              have : tn.map (·.1.id) = (tn.map (·.1)).map SArg.id := by simp
              rw [this, htn]
              exact (((order_perm S.st).map SArg.id).nodup_iff.2 hS).sublist (List.filter_sublist.map _)
            rw [under_mem hn hx] at hi
            rw [under_mem hn hx, hi]
          · right
            intro hc
            rw [under_not hm] at hi
            rcases under_or hi with h | ⟨x, hx, -, rfl⟩
            · cases h
            · have := hrg _ (.inl hc)
              have := hlt _ (.inr (List.mem_map_of_mem hx))
              omega
      · simp only [pre, bnums_cons_conn, bnums_append, List.map_append, List.nodup_append, List.mem_append]
        refine ⟨⟨hbn.1, hnn.1, ?_⟩, ⟨hbn.2.1, hnn.2.1, ?_⟩, ?_⟩
        · intro a ha b hb'
          have := hlt a (.inl ha)
          have := hrg b (.inl hb')
          omega
        · intro a ha b hb'
          have := hlt a (.inr ha)
          have := hrg b (.inr hb')
          omega
        · rintro a (ha | ha) b (hb' | hb')
          · exact hbn.2.2 a ha b hb'
          · have := hlt a (.inl ha)
            have := hrg b (.inr hb')
            omega
          · have := hrg a (.inl ha)
            have := hlt b (.inr hb')
            omega
          · exact hnn.2.2 a ha b hb'
      · simp only [pre, bnums_cons_conn, bnums_append, List.map_append, List.mem_append]
        rintro x ((hx | hx) | hx | hx)
        · have := hlt x (.inl hx); omega
        · exact (hrg x (.inl hx)).2
        · have := hlt x (.inr hx); omega
        · exact (hrg x (.inr hx)).2
    obtain ⟨n', s', V', tl', hr', hso, htl'⟩ := ih s1 V1 (tl ++ tn) _ _ (fun T hT => hok T (by simp [hT])) hsofar
      (by
        have hperm : (tn.map (·.1.id)).Sublist (S.st.order.map SArg.id) := by
          have : tn.map (·.1.id) = (tn.map (·.1)).map SArg.id := by simp
          rw [this, htn]
          exact List.filter_sublist.map _
        rw [List.map_append, List.append_assoc]
        have hp : (tl.map (·.1.id) ++ (S.st.order.map SArg.id ++ (ss.flatMap fun S => S.st.args).map SArg.id)).Nodup := by
          refine (List.Perm.nodup_iff ?_).2 hnd
          exact List.Perm.append_left _ (List.Perm.append_right _ ((order_perm S.st).map _))
        exact hp.sublist ((List.Sublist.refl _).append (hperm.append (List.Sublist.refl _))))
      (by
        intro a ha
        have := hst.right a ha
        simp only [if_true] at this ⊢
        rw [hkeep, this]
        intro hc
        exact hSs _ hc _ (List.mem_map_of_mem ha) rfl)
    refine ⟨n', s', V', tl', ?_, hso, ?_⟩
    · simp only [List.map_cons, discourseLoop, (isSentence_ast S).1, (isSentence_ast S).2, Bool.false_eq_true,
        if_false, if_true]
      exact Runs.bind hr hr'
    · rw [htl']
      simp [htn]

mutual
theorem readAll_id {s : St} (h : s.cleared = []) : ∀ n : Node, readAll s n = n
  | .bind q id n f r st => by rw [readAll, readO_id h r, readAll_id h st]
  | .conn c l r => by rw [readAll, readAll_id h l, readAll_id h r]
  | .app p as => by rw [readAll, readAll_id h p, readL_id h as]
  | .var v => by simp [readAll, St.read, h]
  | .plural as => by rw [readAll, readL_id h as]
  | .quote t f => rfl
  | .name x => rfl
  | .abs st => by rw [readAll, readAll_id h st]
  | .serial l r => by rw [readAll, readAll_id h l, readAll_id h r]
  | .swap p k => by rw [readAll, readAll_id h p]
theorem readO_id {s : St} (h : s.cleared = []) : ∀ n : Option Node, readO s n = n
  | none => rfl
  | some n => by rw [readO, readAll_id h n]
theorem readL_id {s : St} (h : s.cleared = []) : ∀ n : List (Option Node), readL s n = n
  | [] => rfl
  | a :: as => by rw [readL, readO_id h a, readL_id h as]
end

/-- All arguments of a text. -/
def textArgs (ss : List SSent) : List SArg := ss.flatMap fun S => S.st.args

theorem disc_run {U : Uni} (hU : U.Ok) (S : SSent) (ss : List SSent) (hok : ∀ T ∈ S :: ss, T.st.Ok U)
    (hnd : ((textArgs (S :: ss)).map SArg.id).Nodup) :
    ∃ k0 n V, (∀ k, k0 ≤ k → discourse U (fns U k) ((S :: ss).map SSent.ast) = .ok (some n)) ∧
      Is (fun _ => none) (textMean U S ss) n ∧ Sound V n ∧ (V.map Var.addr).Nodup ∧
      (∀ v ∈ V, v.dfn = some v.n) ∧ (bnums (pre n)).Nodup := by
  simp only [textArgs, List.flatMap_cons, List.map_append] at hnd
  obtain ⟨n1, s1, V1, tn, hr, hV, hb, htn, hle, hkeep, his, hsd, hnn, hrg⟩ :=
    sent_run hU S (hok S (by simp)) (s := {}) (V := []) (tl := [])
      ⟨by simp, by simp, by simp, .nil, by simp, rfl⟩ (List.nodup_append.1 hnd).1 (by intro a _; rfl)
  obtain ⟨n', s', V', tl', hr', hso, htl'⟩ := loop_run hU ss s1 V1 tn (S.mean U) n1 (fun T hT => hok T (by simp [hT]))
    ⟨by simpa using hb, his, hsd, hnn, fun x hx => (hrg x hx).2⟩
    (by
      have hperm : (tn.map (·.1.id)).Sublist (S.st.order.map SArg.id) := by
        have : tn.map (·.1.id) = (tn.map (·.1)).map SArg.id := by simp
        rw [this, htn]
        exact List.filter_sublist.map _
      have hp : (S.st.order.map SArg.id ++ (ss.flatMap fun S => S.st.args).map SArg.id).Nodup := by
        refine (List.Perm.nodup_iff ?_).2 hnd
        exact List.Perm.append_right _ ((order_perm S.st).map _)
      exact hp.sublist (hperm.append (List.Sublist.refl _)))
    (by
      intro a ha
      simp only [if_true]
      rw [hkeep]
      · rfl
      · intro hc
        exact (List.nodup_append.1 hnd).2.2 _ hc _ (List.mem_map_of_mem ha) rfl)
  have hrun : Runs (fun k => discourseLoop U (fns U k) ((S :: ss).map SSent.ast) none) {} (some n') s' := by
    simp only [List.map_cons, discourseLoop, (isSentence_ast S).1, (isSentence_ast S).2, Bool.false_eq_true,
        if_false, if_true]
    exact Runs.bind hr hr'
  obtain ⟨k0, hk⟩ := hrun
  obtain ⟨hws, hwb⟩ := wrap_sound hso.betw.the hso.sound
  have hn2 := List.nodup_append.1 hso.nodup
  refine ⟨k0, wrap s'.the n', V', ?_, ?_, hws, hso.betw.addr, hso.betw.own, ?_⟩
  · intro k h
    unfold discourse
    have hk' : discourseLoop U (fns U k) ((S :: ss).map SSent.ast) none {} = .ok (some n', s') := hk k h
    simp only [hk', readAll_id hso.betw.cleared]
    rfl
  · have := wrap_is hso.betw.own hso.betw.the hso.is (by intros; simp) hn2.2.1
    rw [htl', htn, ← List.filter_append] at this
    exact this
  · rw [hwb, List.nodup_append]
    exact ⟨hn2.2.1, hn2.1, fun a ha b hb he => hn2.2.2 b hb a ha he.symm⟩

/-! ## Simplification finds nothing to do -/

/-- Restrictions: connected predications of one variable. -/
def One : Node → Prop
  | .conn _ l r => One l ∧ One r
  | .app p as => PlainP p ∧ ∃ v, as = [some (.var v)]
  | _ => False

def Simple : Node → Prop
  | .bind _ _ _ _ r s => (∃ x, r = some x ∧ One x) ∧ Simple s
  | .conn _ l r => Simple l ∧ Simple r
  | .app p as => PlainP p ∧ ∀ a ∈ as, a = none ∨ ∃ v, a = some (.var v)
  | _ => False

def T.One : T → Prop
  | .conn _ l r => l.One ∧ r.One
  | .app p as => PlainP p ∧ ∃ v, as = [some v]
  | _ => False

def T.Simple : T → Prop
  | .bind _ _ r s => r.One ∧ s.Simple
  | .conn _ l r => l.Simple ∧ r.Simple
  | .app p _ => PlainP p

theorem T.One.simple : ∀ {t : T}, t.One → t.Simple
  | .conn _ _ _, h => ⟨h.1.simple, h.2.simple⟩
  | .app _ _, h => h.1

theorem says_one (U : Uni) (p : PExp) (a : Nat) : (p.says U [some a]).One := by
  unfold PExp.says
  have h := PExp.alts_plain U p
  revert h
  induction p.alts U with
  | one x => intro h; exact ⟨h x (by simp [Alt.all]), _, rfl⟩
  | join c l r ihl ihr =>
    intro h
    exact ⟨ihl fun x hx => h x (by simp [Alt.all, hx]), ihr fun x hx => h x (by simp [Alt.all, hx])⟩

theorem says_simple (U : Uni) (p : PExp) (as : List (Option Nat)) : (p.says U as).Simple := by
  unfold PExp.says
  have h := PExp.alts_plain U p
  revert h
  induction p.alts U with
  | one x => intro h; exact h x (by simp [Alt.all])
  | join c l r ihl ihr =>
    intro h
    exact ⟨ihl fun x hx => h x (by simp [Alt.all, hx]), ihr fun x hx => h x (by simp [Alt.all, hx])⟩

theorem over_simple {U : Uni} {a : SArg} {t : T} (h : t.Simple) : (a.over U t).Simple := by
  unfold SArg.over
  split
  · exact h
  · exact ⟨says_one U _ _, h⟩

theorem dist_simple {f : SArg → T} (h : ∀ a, (f a).Simple) : ∀ c : CArg, (c.dist f).Simple
  | .one a => h a
  | .join _ _ _ _ l r => ⟨dist_simple h l, dist_simple h r⟩

theorem termsMean_simple {U : Uni} {k : List (Nat × Nat) → T} (h : ∀ acc, (k acc).Simple) :
    ∀ (ts : List STerm) (acc : List (Nat × Nat)), (termsMean U k ts acc).Simple
  | [], acc => h acc
  | _ :: ts, _ => dist_simple (fun _ => over_simple (termsMean_simple h ts _)) _

theorem mean_simple (U : Uni) : ∀ (S : SStmt) (acc : List (Nat × Nat)), (S.mean U acc).Simple
  | .base _ _, _ => says_simple U _ _
  | .pred _ _ _, _ => termsMean_simple (fun _ => says_simple U _ _) _ _
  | .prenex _ _ _ st, _ => termsMean_simple (fun _ => mean_simple U st _) _ _
  | .conn _ _ _ _ l r, _ => ⟨mean_simple U l _, mean_simple U r _⟩

theorem binds_simple {U : Uni} {t : T} (h : t.Simple) : ∀ as : List SArg, (as.foldr (SArg.binds U) t).Simple
  | [] => h
  | _ :: as => ⟨says_one U _ _, binds_simple h as⟩

theorem textMean_simple (U : Uni) (s : SSent) (ss : List SSent) : (textMean U s ss).Simple := by
  unfold textMean joinAll
  apply binds_simple
  have : ∀ (ss : List SSent) (t : T), t.Simple → (ss.foldl (fun t s => .conn .and t (s.mean U)) t).Simple := by
    intro ss
    induction ss with
    | nil => intro t h; exact h
    | cons s ss ih => intro t h; exact ih _ ⟨h, binds_simple (mean_simple U _ _) _⟩
  exact this ss _ (binds_simple (mean_simple U _ _) _)

theorem one_of_is : ∀ {t : T} {n : Node} {E : Nat → Option Nat}, Is E t n → t.One → One n
  | .conn _ _ _, .conn _ _ _, _, h, h' => ⟨one_of_is h.2.1 h'.1, one_of_is h.2.2 h'.2⟩
  | .app p as, .app p' as', E, h, h' => by
    obtain ⟨rfl, h⟩ := h
    obtain ⟨hp, v, rfl⟩ := h'
    refine ⟨hp, ?_⟩
    match as', h with
    | [some (.var v)], .cons h .nil => exact ⟨v, rfl⟩

theorem simple_of_is : ∀ {t : T} {n : Node} {E : Nat → Option Nat}, Is E t n → t.Simple → Simple n
  | .bind _ _ _ _, .bind _ _ _ _ (some _) _, _, h, h' =>
    ⟨⟨_, rfl, one_of_is h.2.2.1 h'.1⟩, simple_of_is h.2.2.2 h'.2⟩
  | .conn _ _ _, .conn _ _ _, _, h, h' => ⟨simple_of_is h.2.1 h'.1, simple_of_is h.2.2 h'.2⟩
  | .app p as, .app p' as', E, h, h' => by
    obtain ⟨rfl, h⟩ := h
    refine ⟨h', ?_⟩
    clear h'
    induction h with
    | nil => simp
    | @cons a b _ _ h _ ih =>
      intro x hx
      rcases List.mem_cons.1 hx with rfl | hx
      · match a, x, h with
        | none, none, _ => exact .inl rfl
        | some _, some (.var v), _ => exact .inr ⟨v, rfl⟩
      · exact ih x hx

theorem plain_hoa : ∀ {p : Node}, PlainP p → withHoa none p = p
  | .name _, _ => by simp [withHoa]
  | .serial l r, h => by simp [withHoa, plain_hoa h.1, plain_hoa h.2]

theorem args_hoa : ∀ {as : List (Option Node)}, (∀ a ∈ as, a = none ∨ ∃ v, a = some (.var v)) → withHoaL as = as
  | [], _ => rfl
  | a :: as, h => by
    have h1 := args_hoa (as := as) fun a ha => h a (by simp [ha])
    rcases h a (by simp) with rfl | ⟨v, rfl⟩
    · simp [withHoaL, withHoaA, h1]
    · simp [withHoaL, withHoaA, h1, withHoa]

theorem one_hoa : ∀ {r : Node} (b : Option (Nat × Nat)), One r → withHoa b r = r
  | .conn _ _ _, b, h => by rw [withHoa, one_hoa b h.1, one_hoa b h.2]
  | .app p as, b, h => by
    obtain ⟨hp, v, rfl⟩ := h
    simp [withHoa, withHoaA, withHoaL, plain_hoa hp]

theorem simple_hoa : ∀ {n : Node}, Simple n → withHoa none n = n
  | .bind _ _ _ _ r s, h => by
    obtain ⟨⟨x, rfl, hx⟩, hs⟩ := h
    rw [withHoa, withHoaO, one_hoa _ hx, simple_hoa hs]
  | .conn _ _ _, h => by rw [withHoa, simple_hoa h.1, simple_hoa h.2]
  | .app p [], h => by simp [withHoa, plain_hoa h.1]
  | .app p (a :: as), h => by
    have := args_hoa h.2
    rw [withHoaL, List.cons.injEq] at this
    rw [withHoa, plain_hoa h.1, this.1, this.2]

/-- Simplification does not change it. -/
def Fixed (n : Node) : Prop :=
  ∃ k0, ∀ k, k0 ≤ k → ∀ st : SState, st.sub = [] → ∃ st', simpS k n st = some (n, st') ∧ st'.sub = []

theorem plain_fixed : ∀ {p : Node}, PlainP p → ∃ k0, ∀ k, k0 ≤ k → ∀ st, simpP k p st = some (p, st)
  | .name _, _ => ⟨1, fun k hk st => by
    obtain ⟨k, rfl⟩ : ∃ j, k = j + 1 := ⟨k - 1, by omega⟩
    simp [simpP]⟩
  | .serial l r, h => by
    obtain ⟨a, ha⟩ := plain_fixed h.1
    obtain ⟨b, hb⟩ := plain_fixed h.2
    refine ⟨a + b + 1, fun k hk st => ?_⟩
    obtain ⟨k, rfl⟩ : ∃ j, k = j + 1 := ⟨k - 1, by omega⟩
    simp [simpP, ha k (by omega), hb k (by omega)]

theorem args_fixed : ∀ {as : List (Option Node)}, (∀ a ∈ as, a = none ∨ ∃ v, a = some (.var v)) →
    ∀ k, as.length + 2 ≤ k → ∀ st : SState, st.sub = [] → simpArgs k as st = some (as, st)
  | [], _, k, hk, st, _ => by
    obtain ⟨k, rfl⟩ : ∃ j, k = j + 1 := ⟨k - 1, by omega⟩
    simp [simpArgs]
  | a :: as, h, k, hk, st, hst => by
    simp only [List.length_cons] at hk
    obtain ⟨k, rfl⟩ : ∃ j, k = j + 2 := ⟨k - 2, by omega⟩
    have h1 := args_fixed (as := as) (fun a ha => h a (by simp [ha])) (k + 1) (by omega) st hst
    rcases h a (by simp) with rfl | ⟨v, rfl⟩
    · simp [simpArgs, h1]
    · simp [simpArgs, h1, simpA, hst]

theorem app_fixed {p : Node} {as : List (Option Node)} (hp : PlainP p)
    (h : ∀ a ∈ as, a = none ∨ ∃ v, a = some (.var v)) : Fixed (.app p as) := by
  obtain ⟨k0, hk0⟩ := plain_fixed hp
  refine ⟨k0 + as.length + 3, fun k hk st hst => ⟨st, ?_, hst⟩⟩
  obtain ⟨k, rfl⟩ : ∃ j, k = j + 1 := ⟨k - 1, by omega⟩
  have h1 := args_fixed h k (by omega) st hst
  have h2 := hk0 k (by omega) st
  cases p <;> simp only [PlainP] at hp
  · simp [simpS, h1, h2]
  · simp [simpS, h1, h2]

theorem conn_fixed {c : Conn} {l r : Node} (hl : Fixed l) (hr : Fixed r) : Fixed (.conn c l r) := by
  obtain ⟨a, ha⟩ := hl
  obtain ⟨b, hb⟩ := hr
  refine ⟨a + b + 1, fun k hk st hst => ?_⟩
  obtain ⟨k, rfl⟩ : ∃ j, k = j + 1 := ⟨k - 1, by omega⟩
  obtain ⟨s1, h1, g1⟩ := ha k (by omega) st hst
  obtain ⟨s2, h2, g2⟩ := hb k (by omega) s1 g1
  exact ⟨s2, by simp [simpS, h1, h2], g2⟩

theorem one_fixed : ∀ {r : Node}, One r → Fixed r
  | .conn _ _ _, h => conn_fixed (one_fixed h.1) (one_fixed h.2)
  | .app p as, h => by
    obtain ⟨hp, v, rfl⟩ := h
    exact app_fixed hp (by simp)

theorem one_sub {st : SState} {q : Quant} : ∀ {r : Node}, One r → subOf st q (some r) = none
  | .conn _ _ _, _ => by simp [subOf]
  | .app p as, h => by
    obtain ⟨hp, v, rfl⟩ := h
    simp [subOf]

theorem simple_fixed : ∀ {n : Node}, Simple n → Fixed n
  | .bind _ id _ _ r s, h => by
    obtain ⟨⟨x, rfl, hx⟩, hs⟩ := h
    obtain ⟨a, ha⟩ := one_fixed hx
    obtain ⟨b, hb⟩ := simple_fixed hs
    refine ⟨a + b + 2, fun k hk st hst => ?_⟩
    obtain ⟨k, rfl⟩ : ∃ j, k = j + 2 := ⟨k - 2, by omega⟩
    obtain ⟨s1, h1, g1⟩ := ha k (by omega) st hst
    obtain ⟨s2, h2, g2⟩ := hb (k + 1) (by omega) { s1 with defs := (id, some x) :: s1.defs } g1
    exact ⟨s2, by simp [simpS, simpR, h1, one_sub hx, h2], g2⟩
  | .conn _ _ _, h => conn_fixed (simple_fixed h.1) (simple_fixed h.2)
  | .app _ _, h => app_fixed h.1 h.2

/-! ## Renumbering -/

theorem renum_plain {bN : Nat → Nat} {vN : VAddr → Nat} : ∀ {p : Node}, PlainP p → renum bN vN p = p
  | .name _, _ => rfl
  | .serial l r, h => by rw [renum, renum_plain h.1, renum_plain h.2]

theorem renumL_eq {bN : Nat → Nat} {vN : VAddr → Nat} : ∀ as, renumL bN vN as = as.map (renumO bN vN)
  | [] => rfl
  | a :: as => by rw [renumL, renumL_eq as]; rfl

theorem is_renum {bN : Nat → Nat} {vN : VAddr → Nat} {D : List Nat}
    (hinj : ∀ x ∈ D, ∀ y ∈ D, bN x = bN y → x = y) :
    ∀ {t : T} {n : Node} {E E' : Nat → Option Nat}, Is E t n → t.Simple →
    (∀ v, Node.var v ∈ pre n → vN v.addr = bN v.n) →
    (∀ q id m f r b, Node.bind q id m f r b ∈ pre n → id = m ∧ m ∈ D) →
    (∀ i, E' i = (E i).map bN) → (∀ i b, E i = some b → b ∈ D) → Is E' t (renum bN vN n)
  | .bind q s r b, .bind q' id m f (some r') b', E, E', h, hs, hv, hb, hE, hD => by
    obtain ⟨rfl, hm, hr, hbb⟩ := h
    obtain ⟨hid, hmD⟩ := hb q' id m f (some r') b' (by simp [pre])
    subst hid
    have hE' : ∀ i, upd E' s (some (bN id)) i = (upd E s (some id) i).map bN := by
      intro i; unfold upd; split
      · rfl
      · exact hE i
    have hD' : ∀ i b, upd E s (some id) i = some b → b ∈ D := by
      intro i b; unfold upd; split
      · rintro ⟨⟩; exact hmD
      · exact hD i b
    refine ⟨rfl, ?_, is_renum hinj hr hs.1.simple (fun v hx => hv v ?_) (fun q id m f r b hx => hb q id m f r b ?_)
      hE' hD', is_renum hinj hbb hs.2 (fun v hx => hv v ?_) (fun q id m f r b hx => hb q id m f r b ?_) hE' hD'⟩
    · intro i hi
      rw [hE] at hi
      obtain ⟨x, hx, he⟩ := Option.map_eq_some_iff.1 hi
      have := hinj _ (hD _ _ hx) _ hmD he
      subst this
      exact hm i hx
    all_goals simp [pre, preO, hx]
  | .conn _ _ _, .conn _ _ _, E, E', h, hs, hv, hb, hE, hD =>
    ⟨h.1, is_renum hinj h.2.1 hs.1 (fun v hx => hv v (by simp [pre, hx]))
      (fun q id m f r b hx => hb q id m f r b (by simp [pre, hx])) hE hD,
      is_renum hinj h.2.2 hs.2 (fun v hx => hv v (by simp [pre, hx]))
      (fun q id m f r b hx => hb q id m f r b (by simp [pre, hx])) hE hD⟩
  | .app p as, .app p' as', E, E', h, hs, hv, hb, hE, hD => by
    obtain ⟨rfl, h⟩ := h
    refine ⟨renum_plain hs, ?_⟩
    rw [renumL_eq]
    have hv' : ∀ v, Node.var v ∈ preL as' → vN v.addr = bN v.n := fun v hx => hv v (by simp [pre, hx])
    clear hv hb hs
    induction h with
    | nil => exact .nil
    | @cons a x _ _ h _ ih =>
      refine .cons ?_ (ih fun v hx => hv' v (by simp [preL, hx]))
      match a, x, h with
      | none, none, _ => trivial
      | some i, some (.var v), h =>
        have := hv' v (by simp [preL, preO, pre])
        exact ⟨by show E' i = some (vN v.addr); rw [hE, h.1, this]; rfl, h.2⟩

theorem plain_scoped : ∀ {p : Node} {env : List Nat}, PlainP p → Scoped env p
  | .name _, _, _ => by simp [Scoped]
  | .serial l r, _, h => by simp only [Scoped]; exact ⟨plain_scoped h.1, plain_scoped h.2⟩

theorem is_scoped : ∀ {t : T} {n : Node} {E : Nat → Option Nat} {env : List Nat}, Is E t n → t.Simple →
    (∀ v, Node.var v ∈ pre n → v.dfn = some v.n) →
    (∀ q id m f r b, Node.bind q id m f r b ∈ pre n → id = m) →
    (∀ i b, E i = some b → b ∈ env) → Scoped env n
  | .bind q s r b, .bind q' id m f (some r') b', E, env, h, hs, hv, hb, hE => by
    have hid : id = m := hb q' id m f (some r') b' (by simp [pre])
    subst hid
    have hE' : ∀ i b, upd E s (some id) i = some b → b ∈ id :: env := by
      intro i b; unfold upd; split
      · rintro ⟨⟩; simp
      · intro h; exact List.mem_cons_of_mem _ (hE i b h)
    simp only [Scoped, ScopedO]
    exact ⟨is_scoped h.2.2.1 hs.1.simple (fun v hx => hv v (by simp [pre, preO, hx]))
      (fun q id m f r b hx => hb q id m f r b (by simp [pre, preO, hx])) hE',
      is_scoped h.2.2.2 hs.2 (fun v hx => hv v (by simp [pre, preO, hx]))
      (fun q id m f r b hx => hb q id m f r b (by simp [pre, preO, hx])) hE'⟩
  | .conn _ _ _, .conn _ _ _, E, env, h, hs, hv, hb, hE => by
    simp only [Scoped]
    exact ⟨is_scoped h.2.1 hs.1 (fun v hx => hv v (by simp [pre, hx]))
      (fun q id m f r b hx => hb q id m f r b (by simp [pre, hx])) hE,
      is_scoped h.2.2 hs.2 (fun v hx => hv v (by simp [pre, hx]))
      (fun q id m f r b hx => hb q id m f r b (by simp [pre, hx])) hE⟩
  | .app p as, .app p' as', E, env, h, hs, hv, hb, hE => by
    obtain ⟨rfl, h⟩ := h
    simp only [Scoped]
    refine ⟨plain_scoped hs, ?_⟩
    have hv' : ∀ v, Node.var v ∈ preL as' → v.dfn = some v.n := fun v hx => hv v (by simp [pre, hx])
    clear hv hb hs
    induction h with
    | nil => simp [ScopedL]
    | @cons a x _ _ h _ ih =>
      simp only [ScopedL]
      refine ⟨?_, ih fun v hx => hv' v (by simp [preL, hx])⟩
      match a, x, h with
      | none, none, _ => simp [ScopedO]
      | some i, some (.var v), h =>
        simp only [ScopedO, Scoped]
        intro id hid
        rw [hv' v (by simp [preL, preO, pre])] at hid
        cases hid
        exact hE i _ h.1

theorem bindIds_eq {l : List Node} (h : ∀ q id m f r b, Node.bind q id m f r b ∈ l → id = m) : bindIds l = bnums l := by
  induction l with
  | nil => rfl
  | cons x l ih =>
    have ih := ih fun q id m f r b hx => h q id m f r b (by simp [hx])
    unfold bindIds bnums at *
    rw [List.filterMap_cons, List.filterMap_cons, ih]
    cases x <;> try rfl
    next q id m f r b => rw [h q id m f r b (by simp)]

mutual
theorem scoped_renum {bN : Nat → Nat} {vN : VAddr → Nat} : ∀ {env : List Nat} {n : Node}, Scoped env n →
    Scoped env (renum bN vN n)
  | env, .bind _ _ _ _ r s, h => by
    simp only [renum, Scoped] at h ⊢; exact ⟨scopedO_renum h.1, scoped_renum h.2⟩
  | env, .conn _ _ _, h => by simp only [renum, Scoped] at h ⊢; exact ⟨scoped_renum h.1, scoped_renum h.2⟩
  | env, .app _ _, h => by simp only [renum, Scoped] at h ⊢; exact ⟨scoped_renum h.1, scopedL_renum h.2⟩
  | env, .var _, h => by simp only [renum, Scoped] at h ⊢; exact h
  | env, .plural _, h => by simp only [renum, Scoped] at h ⊢; exact scopedL_renum h
  | env, .quote _ _, h => by simp only [renum, Scoped]
  | env, .name _, h => by simp only [renum, Scoped]
  | env, .abs _, h => by simp only [renum, Scoped] at h ⊢; exact scoped_renum h
  | env, .serial _ _, h => by simp only [renum, Scoped] at h ⊢; exact ⟨scoped_renum h.1, scoped_renum h.2⟩
  | env, .swap _ _, h => by simp only [renum, Scoped] at h ⊢; exact scoped_renum h
theorem scopedO_renum {bN : Nat → Nat} {vN : VAddr → Nat} : ∀ {env : List Nat} {n : Option Node}, ScopedO env n →
    ScopedO env (renumO bN vN n)
  | env, none, h => by simp only [renumO, ScopedO]
  | env, some n, h => by simp only [renumO, ScopedO] at h ⊢; exact scoped_renum h
theorem scopedL_renum {bN : Nat → Nat} {vN : VAddr → Nat} : ∀ {env : List Nat} {n : List (Option Node)}, ScopedL env n →
    ScopedL env (renumL bN vN n)
  | env, [], h => by simp only [renumL, ScopedL]
  | env, a :: as, h => by simp only [renumL, ScopedL] at h ⊢; exact ⟨scopedO_renum h.1, scopedL_renum h.2⟩
end

/-- What `simplify` does to the tree of a plain text. -/
theorem simplify_run {t : T} {n : Node} {V : List Var} (hs : t.Simple) (his : Is (fun _ => none) t n) (hn : Sound V n)
    (hV : (V.map Var.addr).Nodup) (hown : ∀ v ∈ V, v.dfn = some v.n) (hnd : (bnums (pre n)).Nodup) :
    ∃ k0 r, ∀ k, k0 ≤ k → ∃ d, simplify k n = some (r, d) ∧ Is (fun _ => none) t r ∧ Scoped [] r ∧
      (trace r).filterMap number = List.range ((trace r).filterMap number).length := by
  have hsn := simple_of_is his hs
  obtain ⟨k0, hk⟩ := simple_fixed hsn
  have hvar : ∀ v, Node.var v ∈ pre n → v.dfn = some v.n := fun v hv => hown v (hn.vars v hv)
  have hsc : Scoped [] n := is_scoped his hs hvar hn.own (by simp)
  have hfree : freeAddrs (pre n) = [] := by
    unfold freeAddrs
    rw [List.filterMap_eq_nil_iff]
    intro x hx
    cases x <;> try rfl
    next v => simp [hvar v hx]
  have hsame : ∀ v w, Node.var v ∈ pre n → Node.var w ∈ pre n → v.addr = w.addr → v.dfn = w.dfn := by
    intro v w hv hw he
    rw [List.inj_on_of_nodup_map hV (hn.vars v hv) (hn.vars w hw) he]
  have hu : Unshared n := by
    constructor
    · rw [trace_eq, bindIds_eq hn.own]; exact hnd
    · rw [trace_eq, hfree]; exact .nil
    · rw [trace_eq]; exact hsame
  have inv := seq_inv id (pre n) (by rw [bindIds_eq hn.own]; exact hnd) (by rw [hfree]; exact .nil) hsame
    (Scoped_after n [] hsc)
  have hrun : seqRun id n = (pre n).foldl seqStep { i := 0, bN := id, vN := fun _ => 0 } := by
    rw [seqRun, visit_eq]
  rw [← hrun] at inv
  have hdist := (C29_distinct id n hu hsc).1
  rw [trace_eq, sequenceVarNums, pre_renum] at hdist
  have hmap : ∀ l : List Node, (∀ v, Node.var v ∈ l → v.dfn = some v.n) →
      (l.map (renum (seqRun id n).bN (seqRun id n).vN)).filterMap number = (bindIds l).map (seqRun id n).bN := by
    intro l
    induction l with
    | nil => intro _; rfl
    | cons x l ih =>
      intro h
      have ih := ih fun v hv => h v (by simp [hv])
      rw [List.map_cons, List.filterMap_cons, ih]
      cases x <;> try rfl
      next v => simp [renum, number, h v (by simp), bindIds]
  rw [hmap _ hvar, bindIds_eq hn.own] at hdist
  have hcont := C29_contiguous id n hu hsc
  refine ⟨k0, sequenceVarNums id n, fun k h => ?_⟩
  obtain ⟨st', h1, -⟩ := hk k h { sub := [], predVars := predVars n, defs := bindDefs n } rfl
  refine ⟨st'.defs.map fun d => (d.1, renumO (seqRun id n).bN (seqRun id n).vN d.2), ?_, ?_, ?_, hcont⟩
  · unfold simplify
    rw [C28_addHoa, simple_hoa hsn]
    simp only [h1]
    rfl
  · refine is_renum (D := bnums (pre n)) (fun x hx y hy => List.inj_on_of_nodup_map hdist hx hy) his hs ?_ ?_
      (fun i => rfl) (by simp)
    · intro v hv
      rw [inv.bound v v.n hv (hvar v hv)]
    · intro q id m f r b hb
      refine ⟨hn.own q id m f r b hb, ?_⟩
      unfold bnums
      rw [List.mem_filterMap]
      exact ⟨_, hb, rfl⟩
  · exact scoped_renum hsc

/-! ## The theorems -/

theorem text_run (U : Uni) (hU : U.Ok) (S : SSent) (ss : List SSent) (hok : ∀ T ∈ S :: ss, T.st.Ok U)
    (hnd : ((textArgs (S :: ss)).map SArg.id).Nodup) (d : List AST.Node)
    (hd : (d.filter fun n => !isFragment n) = (S :: ss).map SSent.ast) :
    ∃ k0 r, ∀ k, k0 ≤ k → ∃ defs, interpret U k d = .ok (some (r, defs)) ∧
      Is (fun _ => none) (textMean U S ss) r ∧ Scoped [] r ∧
      (trace r).filterMap number = List.range ((trace r).filterMap number).length := by
  obtain ⟨k1, n, V, h1, his, hn, hV, hown, hbn⟩ := disc_run hU S ss hok hnd
  obtain ⟨k2, r, h2⟩ := simplify_run (textMean_simple U S ss) his hn hV hown hbn
  refine ⟨max k1 k2, r, fun k hk => ?_⟩
  obtain ⟨defs, h3, h4⟩ := h2 k (by omega)
  refine ⟨defs, ?_, h4⟩
  rw [C35_fragments_ignored, hd, interpret]
  simp only [h1 k (by omega), h3]

/-- C54: the interpretation of a plain text, with any fragments between its sentences, has the specified
meaning. (`k` is the fuel of the model; any large value gives the same result.) -/
theorem C54_meaning (U : Uni) (hU : U.Ok) (S : SSent) (ss : List SSent) (hok : ∀ T ∈ S :: ss, T.st.Ok U)
    (hnd : ((textArgs (S :: ss)).map SArg.id).Nodup) (d : List AST.Node)
    (hd : (d.filter fun n => !isFragment n) = (S :: ss).map SSent.ast) :
    ∃ k0 r, ∀ k, k0 ≤ k → ∃ defs, interpret U k d = .ok (some (r, defs)) ∧
      Is (fun _ => none) (textMean U S ss) r := by
  obtain ⟨k0, r, h⟩ := text_run U hU S ss hok hnd d hd
  exact ⟨k0, r, fun k hk => (h k hk).imp fun _ h => ⟨h.1, h.2.1⟩⟩

/-- C29 in the interpretation of a plain text: the bindings are numbered 0, 1, 2, … in order. -/
theorem C29_plain (U : Uni) (hU : U.Ok) (S : SSent) (ss : List SSent) (hok : ∀ T ∈ S :: ss, T.st.Ok U)
    (hnd : ((textArgs (S :: ss)).map SArg.id).Nodup) (d : List AST.Node)
    (hd : (d.filter fun n => !isFragment n) = (S :: ss).map SSent.ast) :
    ∃ k0 r, ∀ k, k0 ≤ k → ∃ defs, interpret U k d = .ok (some (r, defs)) ∧
      (trace r).filterMap number = List.range ((trace r).filterMap number).length := by
  obtain ⟨k0, r, h⟩ := text_run U hU S ss hok hnd d hd
  exact ⟨k0, r, fun k hk => (h k hk).imp fun _ h => ⟨h.1, h.2.2.2⟩⟩

/-- C37 for plain texts. Full statement: the same for all texts, which is false (`C37_refuted`). -/
theorem C37_partial (U : Uni) (hU : U.Ok) (S : SSent) (ss : List SSent) (hok : ∀ T ∈ S :: ss, T.st.Ok U)
    (hnd : ((textArgs (S :: ss)).map SArg.id).Nodup) (d : List AST.Node)
    (hd : (d.filter fun n => !isFragment n) = (S :: ss).map SSent.ast) :
    ∃ k0 r, ∀ k, k0 ≤ k → ∃ defs, interpret U k d = .ok (some (r, defs)) ∧ Scoped [] r := by
  obtain ⟨k0, r, h⟩ := text_run U hU S ss hok hnd d hd
  exact ⟨k0, r, fun k hk => (h k hk).imp fun _ h => ⟨h.1, h.2.2.1⟩⟩

/-- Spec: `m` is a part of the statement `n`, not within a restriction. -/
inductive Part (m : Node) : Node → Prop
  | here : Part m m
  | scope {q id n f r s} : Part m s → Part m (.bind q id n f r s)
  | left {c l r} : Part m l → Part m (.conn c l r)
  | right {c l r} : Part m r → Part m (.conn c l r)

inductive PartT (t : T) : T → Prop
  | here : PartT t t
  | scope {q i r s} : PartT t s → PartT t (.bind q i r s)
  | left {c l r} : PartT t l → PartT t (.conn c l r)
  | right {c l r} : PartT t r → PartT t (.conn c l r)

theorem part_of_is {t u : T} (h : PartT t u) : ∀ {E : Nat → Option Nat} {n : Node}, Is E u n →
    ∃ E' m, Part m n ∧ Is E' t m := by
  induction h with
  | here => intro E n h; exact ⟨E, n, .here, h⟩
  | scope _ ih =>
    intro E n h
    match n, h with
    | .bind _ _ _ _ (some _) _, h => obtain ⟨E', m, h1, h2⟩ := ih h.2.2.2; exact ⟨E', m, .scope h1, h2⟩
  | left _ ih =>
    intro E n h
    match n, h with
    | .conn _ _ _, h => obtain ⟨E', m, h1, h2⟩ := ih h.2.1; exact ⟨E', m, .left h1, h2⟩
  | right _ ih =>
    intro E n h
    match n, h with
    | .conn _ _ _, h => obtain ⟨E', m, h1, h2⟩ := ih h.2.2; exact ⟨E', m, .right h1, h2⟩

theorem part_dist {f : SArg → T} {t : T} {a : SArg} (h : PartT t (f a)) : ∀ {c : CArg}, a ∈ c.args → PartT t (c.dist f)
  | .one b, ha => by
    simp only [CArg.args, List.mem_singleton] at ha
    exact ha ▸ h
  | .join _ _ _ _ l r, ha => by
    simp only [CArg.args, List.mem_append] at ha
    rcases ha with ha | ha
    · exact .left (part_dist h ha)
    · exact .right (part_dist h ha)

theorem part_terms {U : Uni} {k : List (Nat × Nat) → T} {choice : List SArg} {ts : List STerm}
    (h : List.Forall₂ (fun a t => a ∈ t.arg.args) choice ts) : ∀ acc : List (Nat × Nat),
    PartT (k (acc ++ List.zipWith (fun a t => (a.id, t.pos)) choice ts)) (termsMean U k ts acc) := by
  induction h with
  | nil => intro acc; simpa [termsMean] using PartT.here
  | @cons a t as ts h _ ih =>
    intro acc
    refine part_dist ?_ h
    have := ih (acc ++ [(a.id, t.pos)])
    unfold SArg.over
    simp only [List.zipWith_cons_cons]
    simp only [List.append_assoc, List.singleton_append] at this
    split
    · exact this
    · exact .scope this

theorem part_binds {U : Uni} {t u : T} (h : PartT t u) : ∀ as : List SArg, PartT t (as.foldr (SArg.binds U) u)
  | [] => h
  | _ :: as => .scope (part_binds h as)

theorem part_text {U : Uni} {t : T} {S : SSent} {ss : List SSent} {R : SSent} (hR : R ∈ S :: ss)
    (h : PartT t (R.mean U)) : PartT t (textMean U S ss) := by
  apply part_binds
  unfold joinAll
  have key : ∀ (ss : List SSent) (u : T), (PartT t u ∨ R ∈ ss) →
      PartT t (ss.foldl (fun t s => .conn .and t (s.mean U)) u) := by
    intro ss
    induction ss with
    | nil => rintro u (h | h); exacts [h, absurd h (by simp)]
    | cons s ss ih =>
      rintro u (hu | hm)
      · exact ih _ (.inl (.left hu))
      · rcases List.mem_cons.1 hm with rfl | hm
        · exact ih _ (.inl (.right h))
        · exact ih _ (.inr hm)
  rcases List.mem_cons.1 hR with rfl | hR
  · exact key ss _ (.inl h)
  · exact key ss _ (.inr hR)

/-- C49 for plain texts, where at most one term of each list is connected: whatever alternatives one
chooses for the terms of a predication, the interpretation contains the predication of the predicate to the chosen
arguments in their places. Full statement: the same with any number of connected terms, which is false
(`C49_refuted`). -/
theorem C49_partial (U : Uni) (hU : U.Ok) (S : SSent) (ss : List SSent) (hok : ∀ T ∈ S :: ss, T.st.Ok U)
    (hnd : ((textArgs (S :: ss)).map SArg.id).Nodup) (d : List AST.Node)
    (hd : (d.filter fun n => !isFragment n) = (S :: ss).map SSent.ast) :
    ∃ k0 r, ∀ k, k0 ≤ k → ∃ defs, interpret U k d = .ok (some (r, defs)) ∧
      ∀ R ∈ S :: ss, ∀ p ts na, R.st = .pred p ts na →
      ∀ choice, List.Forall₂ (fun a t => a ∈ t.arg.args) choice ts →
      ∃ as E m, orderArguments (List.zipWith (fun (a : SArg) (t : STerm) => (a.id, t.pos)) choice ts) = some as ∧
        Part m r ∧ Is E (p.says U as) m := by
  obtain ⟨k0, r, h⟩ := text_run U hU S ss hok hnd d hd
  refine ⟨k0, r, fun k hk => (h k hk).imp fun _ h => ⟨h.1, ?_⟩⟩
  intro R hR p ts na hst choice hc
  obtain ⟨as, has, -⟩ := C26_order (List.zipWith (fun (a : SArg) (t : STerm) => (a.id, t.pos)) choice ts)
  have hp : PartT (p.says U as) (R.st.mean U []) := by
    rw [hst]
    have := part_terms (U := U) (k := fun acc => p.says U ((orderArguments acc).getD [])) hc []
    simp only [List.nil_append, has, Option.getD_some] at this
    exact this
  obtain ⟨E, m, h1, h2⟩ := part_of_is (part_text hR (part_binds hp _)) h.2.1
  exact ⟨as, E, m, has, h1, h2⟩

/-! ### A text -/

section Example

/-- "sa poq/ pa mai? ji/ ra hi suq/" and "jai? go ke ji/ da". -/
private def wd (s : String) : AST.Word := .mk s.toList 0 0 none
private def ar (i : Nat) (q : Quant) (w : Option String) (p : String) : SArg := ⟨i, none, w.map wd, q, .word (wd p)⟩

private def exS : SSent := ⟨none, .prenex true (wd "pa") [⟨none, .one (ar 0 .some "sa" "poq")⟩]
  (.pred (.word (wd "mai")) [⟨none, .join .or none none (wd "ra") (.one (ar 1 .the none "ji")) (.one (ar 2 .hi "hi" "suq"))⟩] none), none⟩
private def exS2 : SSent := ⟨none, .pred (.word (wd "jai")) [⟨some (wd "go", 2), .one (ar 3 .the "ke" "ji")⟩] none, some (wd "da")⟩

example : ∀ T ∈ [exS, exS2], T.st.Ok asciiUni := by
  have r : ∀ {w b}, hasText asciiUni w b = true → Reads asciiUni w b := fun h => (C38_hasText _ _ _).1 h
  intro T hT
  simp only [List.mem_cons, List.not_mem_nil, or_false] at hT
  rcases hT with rfl | rfl
  · refine ⟨⟨fun _ => r (by decide +kernel), fun _ => rfl⟩, ?_, ?_, ?_, ?_, ?_⟩
    · simp only [List.mem_singleton, forall_eq]
      exact ⟨by simp, .inr ⟨wd "sa", "sa".toList, rfl, rfl, r (by decide +kernel)⟩, by decide +kernel, by decide +kernel⟩
    · simp [Single]
    · exact ⟨by decide +kernel, by decide +kernel⟩
    · simp only [List.mem_singleton, forall_eq]
      exact ⟨by simp, r (by decide +kernel), ⟨.inl ⟨rfl, rfl⟩, by decide +kernel, by decide +kernel⟩,
        .inr ⟨wd "hi", "hi".toList, rfl, rfl, r (by decide +kernel)⟩, by decide +kernel, by decide +kernel⟩
    · simp [Single]
  · refine ⟨⟨by decide +kernel, by decide +kernel⟩, ?_, ?_⟩
    · simp only [List.mem_singleton, forall_eq]
      refine ⟨?_, .inr ⟨wd "ke", "ke".toList, rfl, rfl, r (by decide +kernel)⟩, by decide +kernel, by decide +kernel⟩
      rintro g ⟨⟩
      exact ⟨"go".toList, rfl, r (by decide +kernel)⟩
    · simp [Single]

example : ((textArgs [exS, exS2]).map SArg.id).Nodup := by decide

example : textMean asciiUni exS [exS2] =
    .bind .the 1 (.app (.name "ji".toList) [some 1]) (.bind .the 3 (.app (.name "ji".toList) [some 3]) (.conn .and
      (.bind .hi 2 (.app (.name "suq".toList) [some 2]) (.bind .some 0 (.app (.name "poq".toList) [some 0])
        (.conn .or (.app (.name "mai".toList) [some 0, some 1]) (.app (.name "mai".toList) [some 0, some 2]))))
      (.app (.name "jai".toList) [none, some 3]))) := by
  have h1 : wordPred asciiUni "ji".toList = "ji".toList := by decide +kernel
  have h2 : wordPred asciiUni "suq".toList = "suq".toList := by decide +kernel
  have h3 : wordPred asciiUni "poq".toList = "poq".toList := by decide +kernel
  have h4 : wordPred asciiUni "mai".toList = "mai".toList := by decide +kernel
  have h5 : wordPred asciiUni "jai".toList = "jai".toList := by decide +kernel
  rw [← h1, ← h2, ← h3, ← h4, ← h5]
  rfl

end Example

end Verif.Logic
