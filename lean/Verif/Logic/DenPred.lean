/-
C56: arguments described by predicates, variables and hoa.
-/
import Verif.Logic.DenSpec

namespace Verif.Logic.Den
open Verif.Tone (Str)

section
variable {M : Model} {U : Uni} {A : Nat → AST.Node} {f : Fns}
variable {dep : Dep} {s s1 s2 : St}

theorem quant_new (s : St) (q : Quant) (t : St) (h : t.quants = (s.n, q) :: s.quants) :
    (∀ b < s.n, t.quant b = s.quant b) ∧ t.quant s.n = q := by
  constructor
  · intro b hb
    have : (b == s.n) = false := by simp; omega
    simp [St.quant, h, List.lookup, this]
  · simp [St.quant, h]

theorem Evo.newB {s t : St} (hn : t.n = s.n + 1) (hq : ∀ b < s.n, t.quant b = s.quant b)
    (hl : t.lifted = s.lifted) (ht : t.the = s.the) (hh : t.hoa = s.hoa) (hi : t.hi = s.hi) : Evo s t [] :=
  Evo.same ht hl (by omega) hq hh hi

theorem Evo.requant {Ids : List Nat} {x : Nat} {q : Quant} (h : Evo s s1 Ids) (hx : s.n ≤ x) :
    Evo s { s1 with quants := (x, q) :: s1.quants } Ids := by
  obtain ⟨a, b, c, d, e, g, i⟩ := h
  refine ⟨a, b, c, fun y hy => ?_, e, g, i⟩
  have : (y == x) = false := by simp; omega
  rw [← d y hy]
  simp [St.quant, List.lookup, this]

theorem Inv.requant {x : Nat} {q : Quant} (h : Inv M U A s) (hx : x ∉ ids s.the) :
    Inv M U A { s with quants := (x, q) :: s.quants } where
  cleared := h.cleared
  the p hp := by
    have := h.the p hp
    have hne : (p.id == x) = false := by
      simp only [beq_eq_false_iff_ne]
      rintro rfl
      exact hx (mem_ids.2 ⟨p, hp, rfl⟩)
    refine ⟨this.1, ?_⟩
    rw [← this.2]
    simp [St.quant, List.lookup, hne]
  nodup := h.nodup
  lift := h.lift
  keysN := h.keysN
  order := h.order
  pend := h.pend
  inner := h.inner

theorem PendOk.grow {T : List (Nat × Nat)} {X : List Pending} {p : Pending} {i x : Nat} (h : PendOk M U A T X p)
    (hi : i ∉ T.map (·.1)) (hx : x ∉ ids X) (hp : p.id ≠ x) : PendOk M U A ((i, x) :: T) X p := by
  have h1 : ∀ j b, T.lookup j = some b → ((i, x) :: T).lookup j = some b := by
    intro j b hb
    have : j ≠ i := by
      rintro rfl
      exact hi (List.mem_map.2 ⟨_, mem_lookup hb, rfl⟩)
    have : (j == i) = false := by simpa using this
    simp [List.lookup, this, hb]
  have h2 : ∀ j b, ((i, x) :: T).lookup j = some b → b ≠ x → T.lookup j = some b := by
    intro j b hb hbx
    by_cases hj : j = i
    · subst hj
      simp [List.lookup] at hb
      exact absurd hb.symm hbx
    · have : (j == i) = false := by simpa using hj
      simpa [List.lookup, this] using hb
  obtain ⟨hq, r, hr, h⟩ := h
  refine ⟨hq, r, hr, ?_⟩
  rcases h with ⟨id, h3, h4, h5, h6⟩ | ⟨h3, h4⟩
  · refine .inl ⟨id, h1 _ _ h3, h4, h5, fun L ρ hg => h6 L ρ ?_⟩
    refine hg.sub (fun _ h => h) h1 fun j b hb hbX => h2 j b hb ?_
    rintro rfl
    exact hx hbX
  · exact .inr ⟨fun j hj => h3 j (h2 j _ hj hp), h4⟩

theorem reverse_eq_snoc_filter {l : List Nat} {T : List Nat} {x : Nat} (hx : x ∉ l) (h : l.filter (fun b => b ∈ T) = T.reverse) :
    (l ++ [x]).filter (fun b => b ∈ x :: T) = (x :: T).reverse := by
  rw [List.filter_append, List.reverse_cons, ← h]
  congr 1
  · refine List.filter_congr fun b hb => ?_
    have : b ≠ x := by rintro rfl; exact hx hb
    simp [this]
  · simp

/-- A definite argument is bound around the text. -/
theorem Inv.lift_arg {i x : Nat} {r : Node} (h : Inv M U A s) (hx : x ∉ ids s.the) (hxn : x < s.n)
    (hq : s.quant x = .the) (hi : i ∉ keys s) {E : List Ev} (hl : Lifted U A i E) (hE : ∀ j ∈ argIds E, j ∈ keys s)
    (ht : Tr (fun _ => True) (fun y => y ∈ ids s.the ∨ y = x) r)
    (hv : ∀ L ρ : Nat → M.D, Good L ρ s.the s.lifted → M.stmt r ρ = restrOf U L (ρ x) (A i)) :
    Inv M U A { s with lifted := (i, x) :: s.lifted, the := s.the ++ [⟨.the, x, false, some r⟩] } := by
  have hi' : i ∉ s.lifted.map (·.1) := by simpa [keys] using hi
  have hk : keys { s with lifted := (i, x) :: s.lifted, the := s.the ++ [⟨.the, x, false, some r⟩] } = keys s ++ [i] := by
    simp [keys]
  refine ⟨h.cleared, ?_, ?_, ?_, ?_, ?_, ?_, ?_⟩
  · intro p hp
    rcases List.mem_append.1 hp with hp | hp
    · exact h.the p hp
    · rw [List.mem_singleton] at hp; subst hp; exact ⟨hxn, hq⟩
  · show (ids (s.the ++ _)).Nodup
    rw [ids_append, List.nodup_append]
    refine ⟨h.nodup, by simp [ids], ?_⟩
    intro a ha b hb
    simp [ids] at hb
    subst hb
    rintro rfl
    exact hx ha
  · intro y hy
    show _ ∈ ids (s.the ++ _)
    rw [ids_append, List.mem_append]
    rcases List.mem_cons.1 hy with rfl | hy
    · exact .inr (by simp [ids])
    · exact .inl (h.lift y hy)
  · simp only [List.map_cons, List.nodup_cons]
    exact ⟨hi', h.keysN⟩
  · show (ids (s.the ++ _)).filter _ = _
    rw [ids_append]
    exact reverse_eq_snoc_filter hx h.order
  · intro X p Y hp
    simp only at hp
    rcases List.eq_nil_or_concat Y with rfl | ⟨Y', y, rfl⟩
    · obtain ⟨rfl, h2⟩ := List.append_inj' hp rfl
      cases h2
      refine ⟨rfl, r, rfl, .inl ⟨i, by simp [List.lookup], ⟨E, hl⟩, ht, fun L ρ hg => hv L ρ ?_⟩⟩
      refine hg.sub (fun _ h => h) ?_ ?_
      · intro j b hb
        have : j ≠ i := by
          rintro rfl
          exact hi' (List.mem_map.2 ⟨_, mem_lookup hb, rfl⟩)
        have : (j == i) = false := by simpa using this
        simp [List.lookup, this, hb]
      · intro j b hb hbX
        by_cases hj : j = i
        · subst hj
          simp [List.lookup] at hb
          subst hb
          exact absurd hbX hx
        · have : (j == i) = false := by simpa using hj
          simpa [List.lookup, this] using hb
    · rw [List.concat_eq_append, ← List.cons_append, ← List.append_assoc] at hp
      obtain ⟨h1, h2⟩ := List.append_inj' hp rfl
      refine (h.pend X p Y' h1).grow hi' ?_ ?_
      · intro hm; apply hx; rw [h1, ids_append]; exact List.mem_append_left _ hm
      · rintro rfl; apply hx; rw [h1, ids_append]; exact List.mem_append_right _ (by simp [ids])
  · intro j hj
    rw [hk] at hj ⊢
    rcases List.mem_append.1 hj with hj | hj
    · obtain ⟨E', h1, h2⟩ := h.inner j hj
      exact ⟨E', h1, fun k hk' => List.mem_append_left _ (h2 k hk')⟩
    · rw [List.mem_singleton] at hj
      subst hj
      exact ⟨E, hl, fun k hk' => List.mem_append_left _ (hE k hk')⟩

theorem Evo.lift_arg {Ids : List Nat} {i x : Nat} {p : Pending} (h : Evo s s1 Ids) (hp : p.id = x) (hx : s.n ≤ x) (hx1 : x < s1.n)
    (hi : i ∉ Den.keys s1) : Evo s { s1 with lifted := (i, x) :: s1.lifted, the := s1.the ++ [p] } (Ids ++ [i]) := by
  have h0 := h.keys
  obtain ⟨a, b, c, d, e, ⟨N, hN, hN'⟩, ⟨P, hP, hP'⟩⟩ := h
  refine ⟨a, b, c, d, ?_, ⟨(i, x) :: N, by simp [hN], ?_⟩, ⟨P ++ [p], by simp [hP], ?_⟩⟩
  · rw [addNew_append, ← h0]
    rw [addNew, if_neg hi]
    simp [Den.keys, addNew]
  · intro y hy
    rcases List.mem_cons.1 hy with rfl | hy
    · refine ⟨hx, hx1, fun hm => hi ?_⟩
      rw [h0, mem_addNew]
      left
      simpa [Den.keys] using hm
    · exact hN' y hy
  · intro y hy
    rcases List.mem_append.1 hy with hy | hy
    · exact hP' y hy
    · rw [List.mem_singleton] at hy; subst hy; exact ⟨hp ▸ hx, hp ▸ hx1⟩

variable (H : FDen M U A f)
include H

theorem run_predication (p : AST.Node) {Z : Args} {i : Bool} (hi : Inv M U A s) (hZ : ZOk s Z) (hV : VOk s (vsOf Z) i)
    (hp : PlOk Z []) (ho : okPred U A dep p) (hs : Sees dep (look s) s (toks (evPred U p))) :
    Post (predication f p Z) s Any fun r s' => s'.vars = s.vars ∧
      Res M U A dep (look s) s s' (vsOf Z) Z (evPred U p) r
        (fun L env as => dPred U L env p fun P => M.app P (placed as)) := by
  unfold predication
  postz
  refine (H.predicate p s dep hi ho hs).mono fun t s1 h1 => ?_
  refine (post_dist Z t s1).mono fun n s2 h2 => ?_
  obtain ⟨rfl, as, has, rfl⟩ := h2
  exact ⟨h1.1, h1.2.dist hZ hV hp has⟩

omit H in
theorem placed_one (d : M.D) : placed [(d, 0)] = [some d] := rfl

omit H in
theorem closed_cases {s0 : St} {E : List Ev} {r : Node} {x : Nat} {d : (Nat → M.D) → Env M → M.D → M.B}
    (h : RR M U A dep (look s) s0 s1 x E r d) (hs : Sees dep (look s) s (toks E)) (h0 : Evo s s0 [])
    (hx' : s.n ≤ x) (hc : ClosedOr dep E) : hasFreeVarsB s1 x (some r) = true ↔ toks E ≠ [] := by
  have hE := h0.trans h.evo
  rw [hasFreeB_iff h.inv.cleared (X := Xs (look s) s1 (toks E) []) h.tree]
  · constructor
    · rintro ⟨y, hy, hq, hyx⟩ hn
      rcases (h.tree.free hy) with (⟨t, ht, -⟩ | ⟨v, hv, -⟩ | hy) | hy
      · rw [hn] at ht; cases ht
      · cases hv
      · obtain ⟨p, hp, rfl⟩ := mem_ids.1 hy
        exact hq (h.inv.the p hp).2
      · exact hyx hy
    · intro hn
      rcases hc with hc | ⟨t, ht, hd⟩
      · exact absurd hc hn
      · obtain ⟨b, h1, h2, h3⟩ := hs t ht
        exact ⟨b, h.occ t ht hd b h1, by rw [hE.quant b h2]; exact h3.1 hd, by omega⟩
  · intro y hy
    exact Bd.not_Xs (s := s0) (dep := dep) (lk := look s) (V := []) (F := toks E) (by
      intro t ht
      obtain ⟨b, h1, h2, h3⟩ := hs t ht
      exact ⟨b, h1, Nat.lt_of_lt_of_le h2 h0.n, by rw [h0.quant b h2]; exact h3⟩) (by simp) hy

/-- A relative clause. -/
theorem run_rel {r : AST.Node} {x : Nat} {c : Bool} (hi : Inv M U A s) (hx : x < s.n) (hc : c = true ↔ s.quant x ≠ .the)
    (ho : okRel U A (upd dep none c) r) (hs : Sees dep (look s) s (toks (without none (evRel U r)))) :
    Post (f.relClause (some x) r) s Any fun rc s' => s'.vars = s.vars ∧
      RR M U A dep (look s) s s' x (without none (evRel U r)) rc (fun L env d => dRel U L (upd env none d) r) := by
  refine (H.relClause (some x) r s (upd dep none c) hi ho ?_).mono fun rc s' h => ?_
  · intro t ht
    by_cases h : t = none
    · subst h
      exact ⟨x, rfl, hx, by simpa [upd] using hc⟩
    · obtain ⟨b, h1, h2, h3⟩ := hs t ((mem_toks_without _ _ _).2 ⟨ht, h⟩)
      refine ⟨b, ?_, h2, by simpa [upd, h] using h3⟩
      cases t with
      | none => exact absurd rfl h
      | some y => exact h1
  · refine ⟨h.1, ?_⟩
    refine h.2.rr (S := fun t => t = none) (ext := fun env d => upd env none d) (zs := fun _ => []) (by simp)
      (fun t => mem_toks_without t none _) ?_ ?_ (argIds_without _ _) ?_ ?_ ?_
    · rintro t rfl; rfl
    · intro t ht
      refine ⟨?_, by simp [upd, ht]⟩
      cases t with
      | none => exact absurd rfl ht
      | some y => rfl
    · rintro env d t rfl; simp [upd]
    · intro env d t ht; simp [upd, ht]
    · intro ρ; rfl

/-- A description with a relative clause. -/
theorem run_andRel {s0 : St} {rel : Option AST.Node} {x : Nat} {c : Bool} {E : List Ev} {st : Node}
    {d : (Nat → M.D) → Env M → M.D → M.B} (h : RR M U A dep (look s) s0 s x E st d) (hx : x < s.n)
    (hc : c = true ↔ s.quant x ≠ .the) (ho : okORel U A (upd dep none c) rel)
    (hs : Sees dep (look s) s (toks (evORel U rel))) :
    Post (andRel f x st rel) s Any fun rc s' => s'.vars = s.vars ∧
      RR M U A dep (look s) s0 s' x (E ++ evORel U rel) rc (fun L env e => andO (d L env e) (dORel U L (upd env none e) rel)) := by
  cases rel with
  | none =>
    unfold andRel
    postz
    rw [evORel, List.append_nil]
    exact h
  | some r =>
    unfold andRel
    postz
    refine (run_rel H h.inv hx hc (by simpa [okORel] using ho) (by simpa [evORel] using hs)).mono fun rc s' h' => ?_
    exact ⟨h'.1, h.and h'.2⟩

omit H in
/-- A fresh binding. -/
structure Fresh (s s0 : St) (q : Quant) : Prop where
  n : s0.n = s.n + 1
  quants : s0.quants = (s.n, q) :: s.quants
  lifted : s0.lifted = s.lifted
  the : s0.the = s.the
  hoa : s0.hoa = s.hoa
  hi : s0.hi = s.hi
  vars : s0.vars = s.vars
  cleared : s0.cleared = s.cleared

omit H in
theorem Fresh.evo {s0 : St} {q : Quant} (h : Fresh s s0 q) : Evo s s0 [] :=
  Evo.newB h.n (quant_new s q s0 h.quants).1 h.lifted h.the h.hoa h.hi

omit H in
theorem Fresh.inv {s0 : St} {q : Quant} (h : Fresh s s0 q) (hi : Inv M U A s) : Inv M U A s0 :=
  hi.same h.cleared h.the h.lifted (by have := h.n; omega) (quant_new s q s0 h.quants).1

omit H in
theorem Fresh.look {s0 : St} {q : Quant} (h : Fresh s s0 q) : look s0 = look s := by
  funext t
  cases t <;> simp [Den.look, h.hoa, h.vars]

omit H in
theorem Inv.fresh (hi : Inv M U A s) {x : Nat} (hx : s.n ≤ x) : x ∉ ids s.the := by
  intro h
  obtain ⟨p, hp, rfl⟩ := mem_ids.1 h
  have := (hi.the p hp).1
  omega

omit H in
theorem look_eq {s s' : St} (hh : s'.hoa = s.hoa) (hv : s'.vars = s.vars) : look s' = look s := by
  funext t
  cases t <;> simp [look, hh, hv]

/-- The description of an argument. -/
theorem run_descr {s0 : St} {q : Quant} {p : AST.Node} {rel : Option AST.Node} {v : Var} {c : Bool} (hF : Fresh s s0 q)
    (hv : v.n = s.n) (hd : v.dfn = some v.n) (hc : c = true ↔ q ≠ .the) (hi : Inv M U A s) (ho : okPred U A dep p)
    (ho' : okORel U A (upd dep none c) rel) (hs : Sees dep (look s) s (toks (evPred U p ++ evORel U rel))) :
    Post (predication f p [(.var v, 0)] >>= fun st => andRel f v.n st rel) s0 Any fun r s' => s'.vars = s.vars ∧
      RR M U A dep (look s) s0 s' v.n (evPred U p ++ evORel U rel) r (fun L env d =>
        andO (dPred U L env p fun P => M.app P [some d]) (dORel U L (upd env none d) rel)) := by
  have hq := (quant_new s q s0 hF.quants).2
  have hlt : v.n < s0.n := by rw [hv, hF.n]; omega
  postz
  have hs0 := hs.evo hF.evo
  refine (run_predication H (dep := dep) p (s := s0) (i := true) (hF.inv hi) ?_ ?_ ?_ ho ?_).mono fun st s1 h1 => ?_
  · intro z hz
    rw [List.mem_singleton] at hz
    subst hz
    exact ⟨v, rfl, hlt⟩
  · intro w hw
    simp [vsOf] at hw
    subst hw
    exact ⟨hd, hlt, by simp⟩
  · exact (PlOk.nil []).snoc (by simp)
  · rw [hF.look]
    exact hs0.sub (by simp; tauto)
  · have hvars : s1.vars = s.vars := h1.1.trans hF.vars
    have hlk : look s1 = look s := look_eq (h1.2.evo.hoa.trans hF.hoa) hvars
    have hrr : RR M U A dep (look s1) s0 s1 v.n (evPred U p) st (fun L env d => dPred U L env p fun P => M.app P [some d]) := by
      rw [hlk, ← hF.look]
      refine h1.2.rr (S := fun _ => False) (ext := fun env _ => env) (zs := fun d => [(d, 0)]) ?_ (by simp) (by simp)
        (by simp) rfl (by simp) (by simp) ?_
      · intro w hw
        simp [vsOf] at hw
        rw [hw]
      · intro ρ; rfl
    refine (run_andRel H hrr (Nat.lt_of_lt_of_le hlt h1.2.evo.n) (c := c) ?_ ho' ?_).mono fun r s2 h2 => ?_
    · rw [h1.2.evo.quant _ hlt, hv, hq]
      exact hc
    · rw [hlk]
      exact (hs0.evo h1.2.evo).sub (by simp; tauto)
    · rw [hlk] at h2
      exact ⟨h2.1.trans hvars, h2.2⟩

omit H in
/-- An argument whose binding is put in place. -/
theorem resA_place {α : AST.Node} {E0 : List Ev} {q : Quant} {fo : Bool} {s0 s3 : St} {v : Var} {r : Node}
    {d : (Nat → M.D) → Env M → M.D → M.B} (hb : bindsA U α = none)
    (hev : ∀ u E, evArg U u E α = E0 ++ E)
    (hd : ∀ (L : Nat → M.D) env k, dArg U L env k α = M.bind q (some (d L env)) fun d => k env d)
    (hr : RR M U A dep (look s) s0 s2 v.n E0 r d) (h0 : Evo s s0 []) (hv : s.n ≤ v.n) (hv1 : v.n < s2.n)
    (hv2 : v.n ∉ ids s2.the) (hdfn : v.dfn = some v.n) (hE : Evo s s3 (argIds E0)) (hi : Inv M U A s3)
    (hn : s3.n = s2.n) (ht : s3.the = s2.the) (hl : s3.lifted = s2.lifted) (hvars : s3.vars = s.vars)
    (hq : s3.quant v.n = .the → flagA U dep α = true) : ResA M U A dep s s3 α (some ⟨q, v.n, fo, some r⟩) v where
  evo := by rw [hev]; simpa using hE
  inv := hi
  vars := by rw [hb]; exact hvars
  new x hx := by rw [hb] at hx; cases hx
  acc _ := ⟨hdfn, by omega, fun h h' => absurd (hq h) (by simp [h'])⟩
  cont s4 E V Z n u pos den hs hV hZ hig hc := by
    have hlk : look s3 = look s := look_eq hE.hoa hvars
    have hdep : depA U dep α = dep := by
      funext t
      exact depA_ne fun y hy => by rw [hb] at hy; cases hy
    rw [hlk, hdep] at hc
    have hlt : ∀ t ∈ toks E0, ∀ b, look s t = some b → b < s.n := by
      intro t ht b hb
      obtain ⟨b', h1, h2, -⟩ := hs t (by rw [hev]; simp at ht ⊢; exact .inl ht)
      rw [hb] at h1
      cases h1
      exact h2
    have := place_some (q := q) (fo := fo) (r := some r) (bx := none) (F := toks E0) (R := fun L env => some (d L env))
      (dep1 := dep) (lk1 := look s) (lk := look s) (dep := dep) (s := s) (s1 := s3) (v := v) (Et := E0 ++ E) hv (by omega) (by rw [ht]; exact hv2)
      hE hi (by simp) (by simp) ?_ ?_ ?_ hc hV hZ hig (by simp) (by simp) (by rw [← hev u]; exact hs)
    · rw [hev]
      refine this.dn fun L env ρ => ?_
      rw [hd]
      rfl
    · exact hr.tree.mono (fun b hb => by have := hb.left h0; rw [Bd, ht, hn]; exact this)
        fun y hy => hy.imp (fun h => by rw [Xs, ht]; exact h) fun h => h
    · intro t ht hd b hb
      exact hr.occ t ht hd b hb
    · intro L ρ env hg he
      rw [ht, hl] at hg
      exact hr.restr hv2 (fun t ht b hb => by have := hlt t ht b hb; omega) L ρ env hg he

theorem run_plainArg {id : Nat} {fo quant : Option AST.Word} {p : AST.Node} {rel : Option AST.Node} (hf : form U p = .plain)
    (hi : Inv M U A s) (hn : s.lifted.lookup id = none) (ho : okArg U A dep (fun _ _ => True) (.predArg id fo quant p rel))
    (hs : Sees dep (look s) s (toks (evPred U p ++ evORel U rel))) :
    Post (plainArg U f id fo quant p rel) s Any fun x s' => ∃ v, x.2 = .var v ∧
      ResA M U A dep s s' (.predArg id fo quant p rel) x.1 v := by
  simp only [okArg, hf] at ho
  obtain ⟨hA, hhi, hop, hor, hcl, hid, -⟩ := ho
  unfold plainArg
  postz
  intro q hq
  have hqo : quantOf U quant = q := by simp [quantOf, hq]
  rw [hqo] at hhi hcl
  generalize hs0 : ({ s with n := s.n + 1, quants := (s.n, q) :: s.quants, nv := s.nv + 1 } : St) = s0
  have hF : Fresh s s0 q := by subst hs0; constructor <;> rfl
  generalize hvv : (⟨.mk s.nv, s.n, some s.n, fo.isSome⟩ : Var) = v
  have hvn : s.n = v.n := by subst hvv; rfl
  have hvd : v.dfn = some v.n := by subst hvv; rfl
  have hrun := run_descr H (p := p) (rel := rel) (c := varies U quant) hF hvn.symm hvd (by simp [varies, hqo]) hi hop hor hs
  rw [post_bind] at hrun
  simp only [hvn]
  refine hrun.mono fun st s1 h1 => h1.mono fun r s2 h2 => ?_
  clear hrun h1
  obtain ⟨hvars, hr⟩ := h2
  have hE : Evo s s2 (argIds (evPred U p ++ evORel U rel)) := by
    have := hF.evo.trans hr.evo
    rwa [List.nil_append] at this
  have hv2 : v.n ∉ ids s2.the := by
    intro h
    rcases hr.evo.the_new h with h | h
    · exact (hF.the ▸ hi.fresh (by omega)) h
    · have := hF.n; omega
  have hv1 : v.n < s2.n := by have := hr.evo.n; have := hF.n; omega
  have hquant : s2.quant v.n = q := by
    rw [hr.evo.quant _ (by have := hF.n; omega), ← hvn]
    exact (quant_new s q s0 hF.quants).2
  refine ⟨fun hthe => ?_, fun hthe => ⟨fun h => absurd h hhi, fun _ => ?_⟩⟩
  · subst hthe
    have hcl := hcl rfl
    have hcc := closed_cases hr hs hF.evo (by omega) hcl
    constructor
    · intro hfree
      have hne := hcc.1 hfree
      refine ⟨v, rfl, ?_⟩
      refine resA_place (E0 := evPred U p ++ evORel U rel) (s2 := s2) (by simp [bindsA, hf]) ?_ ?_ hr hF.evo (by omega) hv1 hv2 hvd
        (hE.requant (by omega)) (hr.inv.requant hv2) rfl rfl rfl hvars (fun h => by simp [St.quant] at h)
      · intro u E
        have hne' : ¬ toks (evPred U p ++ evORel U rel) = [] := hne
        simp only [evArg, hf, evPlain, hqo, hne', and_false, if_false]
      · intro L env k
        have hne' : ¬ toks (evPred U p ++ evORel U rel) = [] := hne
        simp only [dArg, hf, hqo, hne', and_false, if_false, inPlace, if_true]
    · intro hfree
      have hnil : toks (evPred U p ++ evORel U rel) = [] := by
        by_contra h
        exact hfree (hcc.2 h)
      have hL : Lifted U A id (evPred U p ++ evORel U rel) := ⟨fo, quant, p, rel, hA, hf, hqo, rfl, hnil⟩
      have hk : keys s2 = addNew (keys s) (argIds (evPred U p ++ evORel U rel)) := hE.keys
      have hidk : id ∉ keys s2 := by
        rw [hk, mem_addNew]
        rintro (h | h)
        · exact (lookup_none.1 hn) (by simpa [keys] using h)
        · exact hid h
      have hI := hr.inv.lift_arg (r := r) hv2 hv1 hquant hidk hL (by intro j hj; rw [hk, mem_addNew]; exact .inr hj) ?_ ?_
      rotate_left
      · refine (hr.tree.mono (fun _ _ => trivial) fun y hy => ?_)
        rcases hy with (⟨t, ht, -⟩ | ⟨w, hw, -⟩ | hy) | hy
        · rw [hnil] at ht; cases ht
        · cases hw
        · exact .inl hy
        · exact .inr hy
      · intro L ρ hg
        rw [hr.val L ρ (fun _ => M.d0) hg (by rw [hnil]; simp), hA]
        rfl
      have hE' := hE.lift_arg (p := ⟨.the, v.n, false, some r⟩) (i := id) rfl (by show s.n ≤ v.n; omega) hv1 hidk
      have hev : ∀ u E, evArg U u E (.predArg id fo quant p rel) = (evPred U p ++ evORel U rel) ++ [.arg id] ++ E := by
        intro u E
        simp only [evArg, hf, evPlain, hqo, hnil, and_true, if_true]
      have hbn : bindsA U (.predArg id fo quant p rel) = none := by simp [bindsA, hf]
      refine ⟨v, rfl, ?_, hI, ?_, ?_, ?_, ?_⟩
      · rw [hev]
        simpa using hE'
      · rw [hbn]; exact hvars
      · intro x hx; rw [hbn] at hx; cases hx
      · intro _
        refine ⟨hvd, hv1, fun _ _ => ?_⟩
        show _ ∈ ids (s2.the ++ _)
        rw [ids_append]
        simp [ids]
      · intro s4 E V Z n u pos den hs4 hV hZ hig hc
        have hdep : depA U dep (.predArg id fo quant p rel) = dep := by
          funext t
          exact depA_ne fun y hy => by rw [hbn] at hy; cases hy
        rw [hdep, look_eq (s := s) hE'.hoa hvars] at hc
        have := place_none (W := []) (D := fun L _ => L id) hE' hI (fun _ => .inr ?_) (by simp) ?_ hig hc hV
          (Et := evArg U u E (.predArg id fo quant p rel)) ?_ ?_ hs4
        · refine this.dn fun L env ρ => ?_
          simp only [dArg, hf, hqo, hnil, and_true, if_true]
        · show _ ∈ ids (s2.the ++ _)
          rw [ids_append]
          simp [ids]
        · intro _ L ρ env hg _
          refine hg.arg id v.n (by simp [List.lookup]) ?_
          rw [ids_append]
          simp [ids]
        · intro t
          rw [hev, toks_append, toks_append, hnil]
          simp
        · rw [hev]; simp [argIds]
  · refine ⟨v, rfl, ?_⟩
    refine resA_place (E0 := evPred U p ++ evORel U rel) (s2 := s2) (by simp [bindsA, hf]) ?_ ?_ hr hF.evo (by omega) hv1 hv2 hvd
      hE hr.inv rfl rfl rfl hvars (fun h => absurd h (by rw [hquant]; exact hthe))
    · intro u E
      simp only [evArg, hf, evPlain, hqo, hthe, false_and, if_false]
    · intro L env k
      simp only [dArg, hf, hqo, hthe, false_and, if_false, inPlace]

omit H in
/-- An argument that has been bound around the text before. -/
theorem run_cached {id b : Nat} {fo quant : Option AST.Word} {p : AST.Node} {rel : Option AST.Node} (hi : Inv M U A s)
    (hn : s.lifted.lookup id = some b) (hA : A id = .predArg id fo quant p rel) (s1 : St) (v : Var)
    (hE1 : Evo s s1 []) (hi1 : Inv M U A s1) (hvars : s1.vars = s.vars) (hv : v.n = b) (hvd : v.dfn = some b) :
    ResA M U A dep s s1 (.predArg id fo quant p rel) none v := by
  have hmem := mem_lookup hn
  have hid : id ∈ keys s := by
    rw [keys, List.mem_reverse]
    exact List.mem_map.2 ⟨_, hmem, rfl⟩
  obtain ⟨E0, ⟨fo', quant', p', rel', hA', hf, hqo, rfl, hnil⟩, hin⟩ := hi.inner id hid
  rw [hA] at hA'
  cases hA'
  have hev : ∀ u E, evArg U u E (.predArg id fo quant p rel) = (evPred U p ++ evORel U rel) ++ [.arg id] ++ E := by
    intro u E
    simp only [evArg, hf, evPlain, hqo]
    rw [if_pos ⟨trivial, hnil⟩]
  have hbn : bindsA U (.predArg id fo quant p rel) = none := by simp [bindsA, hf]
  have hbt : v.n ∈ ids s1.the := hE1.the_sub (hv ▸ hi.lift _ hmem)
  have hE : Evo s s1 (argIds (evPred U p ++ evORel U rel) ++ [id]) :=
    { hE1 with keys := (by
        rw [hE1.keys, addNew_sub (by simp), addNew_sub]
        intro i hi'
        rcases List.mem_append.1 hi' with h | h
        · exact hin i h
        · rw [List.mem_singleton] at h; exact h ▸ hid) }
  refine ⟨?_, hi1, by rw [hbn]; exact hvars, ?_, ?_, ?_⟩
  · rw [hev]
    simpa using hE
  · intro x hx; rw [hbn] at hx; cases hx
  · intro _
    refine ⟨by rw [hvd, hv], ?_, fun _ _ => hbt⟩
    obtain ⟨q, hq, h⟩ := mem_ids.1 hbt
    rw [← h]
    exact (hi1.the q hq).1
  · intro s4 E V Z n u pos den hs4 hV hZ hig hc
    have hdep : depA U dep (.predArg id fo quant p rel) = dep := by
      funext t
      exact depA_ne fun y hy => by rw [hbn] at hy; cases hy
    rw [hdep, look_eq (s := s) hE1.hoa hvars] at hc
    have := place_none (W := []) (D := fun L _ => L id) hE hi1 (fun _ => .inr hbt) (by simp) ?_ hig hc hV
      (Et := evArg U u E (.predArg id fo quant p rel)) ?_ ?_ hs4
    · refine this.dn fun L env ρ => ?_
      simp only [dArg, hf, hqo]
      rw [if_pos ⟨trivial, hnil⟩]
    · intro _ L ρ env hg _
      exact hg.arg id v.n (by rw [hv]; exact hE1.lookup hn) hbt
    · intro t
      rw [hev, toks_append, toks_append, hnil]
      simp
    · rw [hev]; simp [argIds]

omit H in
/-- An argument that is a name. -/
theorem resA_bare {α : AST.Node} {t : Tok} (hb : bindsA U α = none) (hfl : flagA U dep α = !dep t)
    (hev : ∀ u E, evArg U u E α = (if u then [.tok t] else []) ++ E)
    (hd : ∀ (L : Nat → M.D) env k, dArg U L env k α = k env (env t)) (hE : Evo s s1 []) (hi : Inv M U A s1)
    (hvars : s1.vars = s.vars) {v : Var} (hv : ∀ b, look s t = some b → v.n = b ∧ v.dfn = some b) :
    ResA M U A dep s s1 α none v where
  evo := by rw [hev]; simpa using hE
  inv := hi
  vars := by rw [hb]; exact hvars
  new x hx := by rw [hb] at hx; cases hx
  acc hs := by
    obtain ⟨b, h1, h2, h3⟩ := hs t (by rw [hev]; simp)
    obtain ⟨h4, h5⟩ := hv b h1
    refine ⟨by rw [h5, h4], by have := hE.n; omega, fun hq hf => ?_⟩
    rw [hfl] at hf
    have : dep t = true := by simpa using hf
    rw [h4, hE.quant b h2] at hq
    exact absurd hq (h3.1 this)
  cont s4 E V Z n u pos den hs hV hZ hig hc := by
    have hdep : depA U dep α = dep := by
      funext t
      exact depA_ne fun y hy => by rw [hb] at hy; cases hy
    rw [hdep, look_eq (s := s) hE.hoa hvars] at hc
    have := place_none (W := if u then [t] else []) (D := fun _ env => env t) (Et := evArg U u E α) hE hi ?_ ?_ ?_ hig hc hV ?_ ?_ hs
    · refine this.dn fun L env ρ => ?_
      rw [hd]
    · rintro rfl
      obtain ⟨b, h1, -, -⟩ := hs t (by rw [hev]; simp)
      exact .inl ⟨t, by simp, by rw [h1, (hv b h1).1]⟩
    · intro t' ht' b hb
      cases u with
      | false => simp at ht'
      | true =>
        simp at ht'
        subst ht'
        exact ⟨rfl, (hv b hb).1.symm⟩
    · rintro rfl L ρ env _ he
      obtain ⟨b, h1, -, -⟩ := hs t (by rw [hev]; simp)
      rw [(hv b h1).1]
      exact he t (by simp) b h1
    · intro t'
      rw [hev]
      cases u <;> simp
    · rw [hev]
      cases u <;> simp [argIds]

/-- An argument among those a name stands for. -/
theorem run_among {α : AST.Node} {t : Tok} {rel : Option AST.Node} {s0 : St} {ax ay : Var} (hb : bindsA U α = none)
    (hev : ∀ u E, evArg U u E α = [.tok t] ++ evORel U rel ++ E)
    (hd : ∀ (L : Nat → M.D) env k, dArg U L env k α = M.bind .all (some fun d =>
      andO (M.app (M.name amongName) [some d, some (env t)]) (dORel U L (upd env none d) rel)) fun d => k env d)
    (hi : Inv M U A s) (hF : Fresh s s0 .all) (hy : ay.n = s.n) (hyd : ay.dfn = some ay.n) (hx : look s t = some ax.n)
    (hxd : ax.dfn = some ax.n) (ho : okORel U A (upd dep none true) rel)
    (hs : Sees dep (look s) s (toks ([.tok t] ++ evORel U rel))) :
    Post (andRel f ay.n (.app (.name amongName) [some (.var ay), some (.var ax)]) rel) s0 Any fun r s' =>
      ResA M U A dep s s' α (some ⟨.all, ay.n, false, some r⟩) ay := by
  have hlt : ay.n < s0.n := by rw [hy, hF.n]; omega
  have hlk := hF.look
  have hrr := among_rr (M := M) (U := U) (A := A) (dep := dep) (s := s0) (lk := look s0) (t := t) (hF.inv hi) hyd hxd (by rw [hlk, hx])
  have hqn := (quant_new s .all s0 hF.quants).2
  refine (run_andRel H (c := true) hrr hlt ?_ ho ?_).mono fun r s1 h => ?_
  · rw [hy, hqn]; simp
  · rw [hlk]
    exact (hs.evo hF.evo).sub (by simp; tauto)
  · rw [hlk] at h
    have hE : Evo s s1 (argIds ([.tok t] ++ evORel U rel)) := by
      have := hF.evo.trans h.2.evo
      rwa [List.nil_append] at this
    refine resA_place (E0 := [.tok t] ++ evORel U rel) hb hev hd h.2 hF.evo (by omega) (by have := h.2.evo.n; omega) ?_ hyd
      hE h.2.inv rfl rfl rfl (h.1.trans hF.vars) ?_
    · intro hm
      rcases h.2.evo.the_new hm with h' | h'
      · rw [hF.the] at h'
        exact hi.fresh (by omega) h'
      · omega
    · intro h'; rw [h.2.evo.quant _ hlt, hy, hqn] at h'; cases h'

theorem run_newVar {id : Nat} {fo : Option AST.Word} {w : AST.Word} {p : AST.Node} {rel : Option AST.Node} {x : Str}
    (hf : form U p = .var x) (hi : Inv M U A s) (ho : okArg U A dep (fun _ _ => True) (.predArg id fo (some w) p rel))
    (hs : Sees dep (look s) s (toks (without (some x) (evORel U rel)))) :
    Post (varArg U f x (some w) rel) s Any fun y s' => ∃ v, y.2 = .var v ∧
      ResA M U A dep s s' (.predArg id fo (some w) p rel) y.1 v := by
  simp only [okArg, hf, Option.isSome_some, if_true] at ho
  obtain ⟨-, hor, -⟩ := ho
  unfold varArg
  postz
  intro q hq
  have hqo : quantOf U (some w) = q := by simp [quantOf, hq]
  generalize hs0 : ({ s with n := s.n + 1, quants := (s.n, q) :: s.quants, vars := (x, s.n) :: s.vars, nv := s.nv + 1 } : St) = s0
  have hE0 : Evo s s0 [] := by
    subst hs0
    exact Evo.newB rfl (quant_new s q _ rfl).1 rfl rfl rfl rfl
  have hi0 : Inv M U A s0 := by
    subst hs0
    exact hi.same rfl rfl rfl (by simp) (quant_new s q _ rfl).1
  have hq0 : s0.quant s.n = q := by
    subst hs0
    exact (quant_new s q _ rfl).2
  have hn0 : s0.n = s.n + 1 := by subst hs0; rfl
  have hv0 : s0.vars = (x, s.n) :: s.vars := by subst hs0; rfl
  have ht0 : s0.the = s.the := by subst hs0; rfl
  have hvar : varies U (some w) = true ↔ q ≠ .the := by simp [varies, hqo]
  -- the restriction
  have key : Post (relOnly f s.n rel) s0 Any fun r s' => s'.vars = s0.vars ∧ Evo s s' (argIds (evORel U rel)) ∧ Inv M U A s' ∧
      s.n ∉ ids s'.the ∧ s.n < s'.n ∧ s'.quant s.n = q ∧
      TrO (Bd s s') (fun y => Xs (look s) s' (toks (without (some x) (evORel U rel))) [] y ∨ y = s.n) r ∧
      (∀ t ∈ toks (without (some x) (evORel U rel)), dep t = true → ∀ b, look s t = some b → FrO b r) ∧
      (∀ (L ρ : Nat → M.D) env, Good L ρ s'.the s'.lifted →
        (∀ t ∈ toks (without (some x) (evORel U rel)), ∀ b, look s t = some b → ρ b = env t) →
        M.restr r s.n ρ = dBRel U L env x rel) := by
    cases rel with
    | none =>
      unfold relOnly
      postz
      refine ⟨hE0, hi0, by rw [ht0]; exact hi.fresh (Nat.le_refl _), by omega, hq0, trivial, by simp [evORel, without], ?_⟩
      intro L ρ env _ _
      rw [dBRel]; rfl
    | some r =>
      unfold relOnly
      postz
      simp only [evORel, okORel] at hs hor ⊢
      have hlk : ∀ t, t ≠ none → t ≠ some x → look (pushHoa (some s.n) s0) t = look s t := by
        intro t h1 h2
        cases t with
        | none => exact absurd rfl h1
        | some y =>
          have : (y == x) = false := by simpa using h2
          simp [pushHoa, look, hv0, List.lookup, this]
      have hlkx : ∀ t, (t = none ∨ t = some x) → look (pushHoa (some s.n) s0) t = some s.n := by
        rintro t (rfl | rfl)
        · rfl
        · simp [pushHoa, look, hv0]
      refine (H.relClause (some s.n) r s0 _ hi0 hor ?_).mono fun rc s1 h => ?_
      · intro t ht
        by_cases h1 : t = none ∨ t = some x
        · refine ⟨s.n, hlkx t h1, by omega, ?_⟩
          rw [hq0, ← hvar]
          rcases h1 with rfl | rfl <;> simp [upd]
        · have h1 : t ≠ none ∧ t ≠ some x := by tauto
          obtain ⟨b, h3, h4, h5⟩ := hs t ((mem_toks_without _ _ _).2 ⟨(mem_toks_without _ _ _).2 ⟨ht, h1.1⟩, h1.2⟩)
          refine ⟨b, by rw [hlk t h1.1 h1.2]; exact h3, by omega, ?_⟩
          rw [hE0.quant b h4, ← h5]
          simp [upd, h1]
      · obtain ⟨hvars, h⟩ := h
        have hrr : RR M U A dep (look s) s0 s1 s.n (without (some x) (without none (evRel U r))) rc
            (fun L env d => dRel U L (upd (upd env (some x) d) none d) r) := by
          refine h.rr (S := fun t => t = none ∨ t = some x) (ext := fun env d => upd (upd env (some x) d) none d)
            (zs := fun _ => []) (by simp) ?_ hlkx ?_ (by simp) ?_ ?_ ?_
          · intro t
            rw [mem_toks_without, mem_toks_without]
            tauto
          · intro t h1
            have h1 : t ≠ none ∧ t ≠ some x := by tauto
            exact ⟨hlk t h1.1 h1.2, by simp [upd, h1]⟩
          · rintro env d t (rfl | rfl) <;> simp [upd]
          · intro env d t h1
            have h1 : t ≠ none ∧ t ≠ some x := by tauto
            simp [upd, h1]
          · intro ρ; rfl
        have hE := hE0.trans hrr.evo
        rw [List.nil_append, argIds_without] at hE
        have hnt : s.n ∉ ids s1.the := by
          intro hm
          rcases h.evo.the_new hm with h' | h'
          · rw [ht0] at h'
            exact hi.fresh (Nat.le_refl _) h'
          · omega
        have hb := hrr.before hE0
        refine ⟨hvars, hE, h.inv, hnt, by have := h.evo.n; omega, by rw [h.evo.quant _ (by omega), hq0], hb.tree, hb.occ, ?_⟩
        intro L ρ env hg he
        rw [hb.restr hnt ?_ L ρ env hg he, dBRel]
        intro t ht b hbb
        obtain ⟨b', h3, h4, -⟩ := hs t ht
        rw [hbb] at h3
        cases h3
        omega
  refine key.mono fun r s1 h => ?_
  obtain ⟨hvars, hE, hi1, hnt, hlt, hq1, htr, hoc, hval⟩ := h
  have hb : bindsA U (.predArg id fo (some w) p rel) = some x := by simp [bindsA, hf]
  have hdep : depA U dep (.predArg id fo (some w) p rel) = upd dep (some x) (varies U (some w)) := by simp [depA, hf]
  have hev : ∀ u E, evArg U u E (.predArg id fo (some w) p rel) = without (some x) (evORel U rel ++ E) := by
    intro u E
    simp [evArg, hf]
  refine ⟨_, rfl, ?_, hi1, ?_, ?_, ?_, ?_⟩
  · rw [hev]; simpa using hE
  · rw [hb, hvars, hv0]
  · intro y hy
    rw [hb] at hy
    cases hy
    rw [hdep, hq1, ← hvar]
    simp [upd]
  · intro _
    refine ⟨rfl, hlt, fun h1 h2 => ?_⟩
    simp only at h1
    rw [hq1] at h1
    simp only [flagA, hf, Option.isSome_some, if_true, Bool.not_eq_false'] at h2
    exact absurd h1 (hvar.1 h2)
  · intro s4 E V Z n u pos den hs4 hV hZ hig hc
    rw [hdep] at hc
    have := place_some (q := q) (fo := false) (r := r) (bx := some x) (F := toks (without (some x) (evORel U rel)))
      (R := fun L env => dBRel U L env x rel) (lk := look s) (dep := dep) (s := s) (s1 := s1)
      (Et := evArg U u E (.predArg id fo (some w) p rel)) (Nat.le_refl _) hlt hnt
      hE hi1 ?_ ?_ htr hoc hval hc hV hZ hig ?_ ?_ hs4
    · refine this.dn fun L env ρ => ?_
      simp only [dArg, hf, Option.isSome_some, if_true, hqo, pushed]
    · intro t ht
      have := ht x rfl
      refine ⟨?_, by simp [upd, this]⟩
      cases t with
      | none => simp [look, hE.hoa]
      | some y =>
        have : (y == x) = false := by simpa using this
        simp [look, hvars, hv0, List.lookup, this]
    · rintro y hy
      cases hy
      simp [look, hvars, hv0]
    · intro t
      rw [hev]
      simp only [mem_toks_without, toks_append, List.mem_append, Option.some.injEq, forall_eq']
      tauto
    · rw [hev]; simp

theorem run_varArg {id : Nat} {fo quant : Option AST.Word} {p : AST.Node} {rel : Option AST.Node} {x : Str}
    (hf : form U p = .var x) (hi : Inv M U A s) (ho : okArg U A dep (fun _ _ => True) (.predArg id fo quant p rel))
    (hs : Sees dep (look s) s (toks (evArg U false [] (.predArg id fo quant p rel)))) :
    Post (varArg U f x quant rel) s Any fun y s' => ∃ v, y.2 = .var v ∧
      ResA M U A dep s s' (.predArg id fo quant p rel) y.1 v := by
  cases quant with
  | some w => exact run_newVar H hf hi ho (by simpa [evArg, hf] using hs)
  | none =>
    have hb : bindsA U (.predArg id fo none p rel) = none := by simp [bindsA, hf]
    simp only [okArg, hf, Option.isSome_none, Bool.false_eq_true, if_false] at ho
    obtain ⟨-, hor, -⟩ := ho
    unfold varArg
    cases rel with
    | none =>
      have hev : ∀ u E, evArg U u E (.predArg id fo none p none) = (if u then [.tok (some x)] else []) ++ E := by
        intro u E
        simp [evArg, hf, evORel]
      have hd : ∀ (L : Nat → M.D) env k, dArg U L env k (.predArg id fo none p none) = k env (env (some x)) := by
        intro L env k
        simp [dArg, hf]
      postz
      refine ⟨fun b hl => ?_, fun hl => ?_⟩
      · refine ⟨_, rfl, ?_⟩
        refine resA_bare (t := some x) (dep := dep) hb (by simp [flagA, hf]) hev hd ?_ ?_ (by rfl) ?_
        · exact Evo.same rfl rfl (Nat.le_refl _) (fun _ _ => rfl) rfl rfl
        · exact hi.congr rfl rfl rfl rfl rfl
        intro b' hb'
        simp only [look, hl] at hb'
        cases hb'
        exact ⟨rfl, rfl⟩
      · refine ⟨_, rfl, ?_⟩
        refine resA_bare (t := some x) (dep := dep) hb (by simp [flagA, hf]) hev hd ?_ ?_ (by rfl) ?_
        · exact Evo.same rfl rfl (Nat.le_succ _) (fun _ _ => rfl) rfl rfl
        · exact hi.same rfl rfl rfl (Nat.le_succ _) (fun _ _ => rfl)
        intro b' hb'
        simp only [look, hl] at hb'
        cases hb'
    | some r =>
      have hev : ∀ u E, evArg U u E (.predArg id fo none p (some r)) = [.tok (some x)] ++ evORel U (some r) ++ E := by
        intro u E
        simp [evArg, hf]
      rw [hev] at hs
      obtain ⟨b, hb1, hb2, hb3⟩ := hs (some x) (by simp)
      simp only [look] at hb1
      postz
      refine ⟨fun b' hl => ?_, fun hl => ?_⟩
      · rw [hb1] at hl
        cases hl
        have := run_among H (α := .predArg id fo none p (some r)) (t := some x) (rel := some r) (dep := dep) (s := s)
          (s0 := { s with n := s.n + 1, quants := (s.n, .all) :: s.quants, nv := s.nv + 1 + 1 })
          (ax := ⟨.mk s.nv, b, some b, false⟩) (ay := ⟨.mk (s.nv + 1), s.n, some s.n, false⟩)
          hb hev ?_ hi ⟨rfl, rfl, rfl, rfl, rfl, rfl, rfl, rfl⟩ rfl rfl hb1 rfl hor (by simpa using hs)
        · unfold andRel at this
          rw [post_bind] at this
          refine this.mono fun rc s1 h => ?_
          exact ⟨_, rfl, h⟩
        · intro L env k
          simp [dArg, hf]
      · rw [hb1] at hl
        cases hl

theorem run_hoaArg {id : Nat} {fo quant : Option AST.Word} {p : AST.Node} {rel : Option AST.Node}
    (hf : form U p = .hoa) (hi : Inv M U A s) (ho : okArg U A dep (fun _ _ => True) (.predArg id fo quant p rel))
    (hs : Sees dep (look s) s (toks (evArg U false [] (.predArg id fo quant p rel)))) :
    Post (hoaArg f quant rel) s Any fun y s' => ∃ v, y.2 = .var v ∧
      ResA M U A dep s s' (.predArg id fo quant p rel) y.1 v := by
  have hb : bindsA U (.predArg id fo quant p rel) = none := by simp [bindsA, hf]
  simp only [okArg, hf] at ho
  obtain ⟨-, hor, -⟩ := ho
  unfold hoaArg
  by_cases hc : quant = none ∧ rel = none
  · obtain ⟨rfl, rfl⟩ := hc
    have hev : ∀ u E, evArg U u E (.predArg id fo none p none) = (if u then [.tok none] else []) ++ E := by
      intro u E
      simp [evArg, hf, evORel]
    have hd : ∀ (L : Nat → M.D) env k, dArg U L env k (.predArg id fo none p none) = k env (env none) := by
      intro L env k
      simp [dArg, hf]
    cases hl : s.hoa with
    | cons b bs =>
      postz
      simp only [hl]
      postz
      refine ⟨_, rfl, ?_⟩
      refine resA_bare (t := none) (dep := dep) hb (by simp [flagA, hf]) hev hd ?_ ?_ (by rfl) ?_
      · exact Evo.same rfl rfl (Nat.le_refl _) (fun _ _ => rfl) rfl rfl
      · exact hi.congr rfl rfl rfl rfl rfl
      intro b' hb'
      simp only [look, hl] at hb'
      cases hb'
      exact ⟨rfl, rfl⟩
    | nil =>
      postz
      simp only [hl]
      postz
      refine ⟨_, rfl, ?_⟩
      refine resA_bare (t := none) (dep := dep) hb (by simp [flagA, hf]) hev hd ?_ ?_ (by rfl) ?_
      · exact Evo.same rfl rfl (Nat.le_succ _) (fun _ _ => rfl) rfl rfl
      · exact hi.same rfl rfl rfl (Nat.le_succ _) (fun _ _ => rfl)
      intro b' hb'
      simp only [look, hl] at hb'
      cases hb'
  · have hc' : quant.isSome = true ∨ rel.isSome = true := by
      rw [Option.isSome_iff_ne_none, Option.isSome_iff_ne_none]
      tauto
    have hc2 : ¬ (quant.isNone = true ∧ rel.isNone = true) := by
      rw [Option.isNone_iff_eq_none, Option.isNone_iff_eq_none]; exact hc
    have hev : ∀ u E, evArg U u E (.predArg id fo quant p rel) = [.tok none] ++ evORel U rel ++ E := by
      intro u E
      simp only [evArg, hf, hc', or_true, if_true]
    rw [hev] at hs
    obtain ⟨b, hb1, hb2, hb3⟩ := hs none (by simp)
    cases hl : s.hoa with
    | nil => simp [look, hl] at hb1
    | cons b' bs =>
      have hbb : b' = b := by simpa [look, hl] using hb1
      subst hbb
      have := run_among H (α := .predArg id fo quant p rel) (t := none) (rel := rel) (dep := dep) (s := s)
        (s0 := { s with n := s.n + 1, quants := (s.n, .all) :: s.quants, nv := s.nv + 1 + 1 })
        (ax := ⟨.mk s.nv, b', some b', false⟩) (ay := ⟨.mk (s.nv + 1), s.n, some s.n, false⟩)
        hb hev ?_ hi ⟨rfl, rfl, rfl, rfl, rfl, rfl, rfl, rfl⟩ rfl rfl hb1 rfl hor (by simpa using hs)
      · cases rel with
        | none =>
          cases quant with
          | none => exact absurd ⟨rfl, rfl⟩ hc
          | some w =>
            postz
            simp only [hl]
            postz
            unfold andRel at this
            rw [post_pure] at this
            exact ⟨_, rfl, this⟩
        | some r =>
          unfold andRel at this
          rw [post_bind] at this
          cases quant with
          | none =>
            postz
            simp only [hl]
            postz
            refine this.mono fun rc s1 h => ?_
            exact ⟨_, rfl, h⟩
          | some w =>
            postz
            simp only [hl]
            postz
            refine this.mono fun rc s1 h => ?_
            exact ⟨_, rfl, h⟩
      · intro L env k
        simp only [dArg, hf]
        rw [if_neg hc2]

theorem run_predArg (id : Nat) (fo quant : Option AST.Word) (p : AST.Node) (rel : Option AST.Node)
    (hi : Inv M U A s) (ho : okArg U A dep (fun _ _ => True) (.predArg id fo quant p rel))
    (hs : Sees dep (look s) s (toks (evArg U false [] (.predArg id fo quant p rel)))) :
    Post (predArgF U f (.predArg id fo quant p rel)) s Any fun y s' => ∃ v, y.2 = .var v ∧
      ResA M U A dep s s' (.predArg id fo quant p rel) y.1 v := by
  unfold predArgF
  rw [post_bind, post_get]
  cases hn : s.lifted.lookup id with
  | some b =>
    postz
    refine ⟨_, rfl, ?_⟩
    refine run_cached hi hn ?_ _ _ (Evo.same rfl rfl (Nat.le_refl _) (fun _ _ => rfl) rfl rfl)
          (hi.congr rfl rfl rfl rfl rfl) rfl rfl rfl
    simp only [okArg] at ho
    exact ho.1
  | none =>
    cases hv : varPred U p with
    | some x => exact run_varArg H (by simp [form, hv]) hi ho hs
    | none =>
      cases hh : hoaPred U p with
      | true => exact run_hoaArg H (by simp [form, hv, hh]) hi ho hs
      | false =>
        have hf : form U p = .plain := by simp [form, hv, hh]
        refine run_plainArg H hf hi hn ho (hs.sub fun t ht => ?_)
        simp only [evArg, hf, evPlain]
        split <;> simpa using ht

end

end Verif.Logic.Den
