/-
C54: the interpreter on the arguments, terms and statements of plain texts.
-/
import Verif.Logic.Meaning

namespace Verif.Logic
open Verif.Tone (Str)

/-- The numbers of the bindings in scope: those around and the lifted ones. -/
def scope (A : List (Nat × Nat)) (X : List Nat) (s : St) : Nat → Option Nat := fun i =>
  match A.lookup i with
  | some b => some b
  | none => if i ∈ X then s.lifted.lookup i else none

/-- A lifted binding is that of an argument. -/
structure PIs (U : Uni) (V : List Var) (x : SArg × Nat) (p : Pending) : Prop where
  q : p.q = x.1.q
  id : p.id = x.2
  restr : ∃ v ∈ V, v.n = x.2 ∧
    p.restr = some ((x.1.p.alts U).map fun y => .app y [some (.var v)]).stmt

theorem PIs.mono {U : Uni} {V V' : List Var} (h : V ⊆ V') {x : SArg × Nat} {p : Pending}
    (hp : PIs U V x p) : PIs U V' x p := by
  obtain ⟨v, hv, h1⟩ := hp.restr
  exact ⟨hp.q, hp.id, v, h hv, h1⟩

/-- The state in the middle of a sentence. `V` are the variables, `tl` and `hl` the lifted arguments. -/
structure Mid (U : Uni) (X : List Nat) (s : St) (V : List Var) (tl hl : List (SArg × Nat)) : Prop where
  addr : (V.map Var.addr).Nodup
  lt : ∀ v ∈ V, ∃ k, k < s.nv ∧ v.addr = .mk k
  own : ∀ v ∈ V, v.dfn = some v.n
  the : List.Forall₂ (PIs U V) tl s.the
  hi : ∃ top rest, s.hi = top :: rest ∧ List.Forall₂ (PIs U V) hl top
  num : ∀ x ∈ tl ++ hl, x.2 < s.n
  back : ∀ i ∈ X, ∀ b, s.lifted.lookup i = some b → ∃ x ∈ tl ++ hl, x.1.id = i ∧ x.2 = b
  cleared : s.cleared = []

/-- What a step may do to the state. `N` are the arguments it lifts. -/
structure Evo (s s' : St) (N : List (SArg × Nat)) : Prop where
  n : s.n ≤ s'.n
  vars : s'.vars = s.vars
  tail : s'.hi.tail = s.hi.tail
  keep : ∀ i, i ∉ N.map (·.1.id) → s'.lifted.lookup i = s.lifted.lookup i
  new : ∀ x ∈ N, s.lifted.lookup x.1.id = none
  got : ∀ x ∈ N, s'.lifted.lookup x.1.id = some x.2

theorem Evo.trans {s s' s'' : St} {N N' : List (SArg × Nat)} (h : Evo s s' N) (h' : Evo s' s'' N') :
    Evo s s'' (N ++ N') where
  n := Nat.le_trans h.n h'.n
  vars := h'.vars.trans h.vars
  tail := h'.tail.trans h.tail
  keep i hi := by
    simp only [List.map_append, List.mem_append, not_or] at hi
    rw [h'.keep i hi.2, h.keep i hi.1]
  new x hx := by
    rcases List.mem_append.1 hx with hx | hx
    · exact h.new x hx
    · by_cases hm : x.1.id ∈ N.map (·.1.id)
      · obtain ⟨y, hy, he⟩ := List.mem_map.1 hm
        have h1 := h.got y hy
        rw [he, h'.new x hx] at h1
        cases h1
      · rw [← h.keep _ hm]; exact h'.new x hx
  got x hx := by
    rcases List.mem_append.1 hx with hx | hx
    · rw [h'.keep, h.got x hx]
      intro hm
      obtain ⟨y, hy, he⟩ := List.mem_map.1 hm
      have h1 := h'.new y hy
      rw [he, h.got x hx] at h1
      cases h1
    · exact h'.got x hx

theorem Evo.mono {s s' : St} {N : List (SArg × Nat)} (h : Evo s s' N) {i b : Nat}
    (hi : s.lifted.lookup i = some b) : s'.lifted.lookup i = some b := by
  rw [h.keep, hi]
  intro hm
  obtain ⟨y, hy, he⟩ := List.mem_map.1 hm
  have h1 := h.new y hy
  rw [he, hi] at h1
  cases h1

/-- The arguments have all been lifted, those that are to be lifted, or none has. -/
def Stage (f : Bool) (s : St) (l : List SArg) : Prop :=
  ∀ a ∈ l, if f then s.lifted.lookup a.id = none
    else if a.lifts = true then (s.lifted.lookup a.id).isSome = true else s.lifted.lookup a.id = none

theorem Stage.evo {f : Bool} {s s' : St} {l : List SArg} {N : List (SArg × Nat)} (h : Stage f s l)
    (he : Evo s s' N) (hd : ∀ a ∈ l, a.id ∉ N.map (·.1.id)) : Stage f s' l := by
  intro a ha
  rw [he.keep a.id (hd a ha)]
  exact h a ha

theorem Stage.left {f : Bool} {s : St} {l m : List SArg} (h : Stage f s (l ++ m)) : Stage f s l :=
  fun a ha => h a (by simp [ha])
theorem Stage.right {f : Bool} {s : St} {l m : List SArg} (h : Stage f s (l ++ m)) : Stage f s m :=
  fun a ha => h a (by simp [ha])
theorem Stage.app {f : Bool} {s : St} {l m : List SArg} (h : Stage f s l) (h' : Stage f s m) :
    Stage f s (l ++ m) := fun a ha => by
  rcases List.mem_append.1 ha with h1 | h1
  · exact h a h1
  · exact h' a h1

/-- The arguments lifted at a stage. -/
def sel (f : Bool) (l : List SArg) : List SArg := if f then l.filter SArg.lifts else []

theorem sel_append (f : Bool) (l m : List SArg) : sel f (l ++ m) = sel f l ++ sel f m := by
  unfold sel; split <;> simp

theorem mem_sel {f : Bool} {l : List SArg} {a : SArg} (h : a ∈ sel f l) : a ∈ l := by
  unfold sel at h; split at h
  · exact (List.mem_filter.1 h).1
  · cases h

def isThe (x : SArg × Nat) : Bool := x.1.q = .the
def isHi (x : SArg × Nat) : Bool := x.1.q = .hi

/-! ## One argument -/

theorem visit_id {σ : Type} {g : σ → Node → σ} {st : σ} {n : Node} (h : ∀ x ∈ pre n, g st x = st) :
    visit g n st = st := by
  rw [visit_eq]
  revert h
  generalize pre n = l
  intro h
  induction l with
  | nil => rfl
  | cons x l ih =>
    rw [List.foldl_cons, h x (by simp)]
    exact ih fun y hy => h y (by simp [hy])

theorem quant_ok {U : Uni} (hU : U.Ok) {a : SArg} (h : a.Ok U) :
    quantifier U (a.quant.map (·.T)) = some a.q := by
  rcases h.1 with ⟨h1, h2⟩ | ⟨w, b, h1, h2, h3⟩
  · rw [h1, h2]; rfl
  · rw [h1]
    exact (C38_quantifier U hU w.T a.q).2 ⟨b, h2, h3⟩

theorem PExp.no_var {U : Uni} {p : PExp} (h : p.Ok U) : varPred U p.ast = none ∧ hoaPred U p.ast = false := by
  cases p with
  | word w => simp [PExp.ast, varPred, hoaPred, h.1, h.2]
  | conn c t0 t1 ru l r => cases c <;> exact ⟨rfl, rfl⟩
  | serial => exact ⟨rfl, rfl⟩

theorem restr_free {s : St} (hc : s.cleared = []) {U : Uni} (p : PExp) (v : Var) (b : Nat) (hv : v.dfn = some b) :
    hasFreeVarsB s b (some ((p.alts U).map fun y => .app y [some (.var v)]).stmt) = false := by
  unfold hasFreeVarsB
  simp only [visitO]
  rw [visit_id]
  intro x hx
  rcases stmt_nodes (p.alts_plain U) _ x hx with h | h
  · cases x <;> simp_all [Inert, freeStep]
  · simp only [preL, preO, pre, List.append_nil, List.mem_singleton] at h
    subst h
    simp [freeStep, St.read, hc, hv]

section Arg
variable {U : Uni} {X : List Nat} {s : St} {V : List Var} {tl hl : List (SArg × Nat)}

/-- The state with one more variable. -/
theorem Mid.var (h : Mid U X s V tl hl) (n : Nat) (f : Bool) (qs : List (Nat × Quant)) (m : Nat) (hm : s.n ≤ m) :
    Mid U X { s with n := m, quants := qs, nv := s.nv + 1 } (V ++ [⟨.mk s.nv, n, some n, f⟩]) tl hl where
  addr := by
    simp only [List.map_append, List.map_cons, List.map_nil]
    rw [List.nodup_append]
    refine ⟨h.addr, by simp, ?_⟩
    intro a ha b hb
    simp only [List.mem_singleton] at hb
    subst hb
    obtain ⟨v, hv, rfl⟩ := List.mem_map.1 ha
    obtain ⟨k, hk, he⟩ := h.lt v hv
    rw [he]
    intro hc
    cases hc
    omega
  lt v hv := by
    rcases List.mem_append.1 hv with hv | hv
    · obtain ⟨k, hk, he⟩ := h.lt v hv
      exact ⟨k, Nat.lt_succ_of_lt hk, he⟩
    · simp only [List.mem_singleton] at hv
      subst hv
      exact ⟨s.nv, Nat.lt_succ_self _, rfl⟩
  own v hv := by
    rcases List.mem_append.1 hv with hv | hv
    · exact h.own v hv
    · simp only [List.mem_singleton] at hv
      subst hv
      rfl
  the := h.the.imp fun _ _ => PIs.mono (by simp)
  hi := by
    obtain ⟨top, rest, h1, h2⟩ := h.hi
    exact ⟨top, rest, h1, h2.imp fun _ _ => PIs.mono (by simp)⟩
  num x hx := Nat.lt_of_lt_of_le (h.num x hx) hm
  back := h.back
  cleared := h.cleared

theorem Mid.liftThe (h : Mid U X s V tl hl) {a : SArg} {b : Nat} {pd : Pending} (hp : PIs U V (a, b) pd)
    (hb : b < s.n) : Mid U X { s with lifted := (a.id, b) :: s.lifted, the := s.the ++ [pd] } V
      (tl ++ [(a, b)]) hl where
  addr := h.addr
  lt := h.lt
  own := h.own
  the := List.rel_append h.the (.cons hp .nil)
  hi := h.hi
  num x hx := by
    simp only [List.mem_append, List.mem_singleton] at hx
    rcases hx with (hx | rfl) | hx
    · exact h.num x (by simp [hx])
    · exact hb
    · exact h.num x (by simp [hx])
  back i hi c hc := by
    simp only [List.lookup_cons] at hc
    split at hc
    · cases hc
      exact ⟨(a, b), by simp, by simp_all, rfl⟩
    · obtain ⟨x, hx, h1⟩ := h.back i hi c hc
      refine ⟨x, ?_, h1⟩
      rcases List.mem_append.1 hx with h | h <;> simp [h]
  cleared := h.cleared

theorem Mid.liftHi (h : Mid U X s V tl hl) {a : SArg} {b : Nat} {pd : Pending} (hp : PIs U V (a, b) pd)
    (hb : b < s.n) {top : List Pending} {his : List (List Pending)} (hh : s.hi = top :: his) :
    Mid U X { s with lifted := (a.id, b) :: s.lifted, hi := (top ++ [pd]) :: his } V
      tl (hl ++ [(a, b)]) where
  addr := h.addr
  lt := h.lt
  own := h.own
  the := h.the
  hi := by
    obtain ⟨t, r, h1, h2⟩ := h.hi
    rw [hh] at h1
    cases h1
    exact ⟨_, _, rfl, List.rel_append h2 (.cons hp .nil)⟩
  num x hx := by
    simp only [List.mem_append, List.mem_singleton] at hx
    rcases hx with hx | hx | rfl
    · exact h.num x (by simp [hx])
    · exact h.num x (by simp [hx])
    · exact hb
  back i hi c hc := by
    simp only [List.lookup_cons] at hc
    split at hc
    · cases hc
      exact ⟨(a, b), by simp, by simp_all, rfl⟩
    · obtain ⟨x, hx, h1⟩ := h.back i hi c hc
      refine ⟨x, ?_, h1⟩
      rcases List.mem_append.1 hx with h | h <;> simp [h]
  cleared := h.cleared

theorem evo_lift {s' : St} {a : SArg} {b : Nat} (hl : s.lifted.lookup a.id = none) (hn : s.n ≤ s'.n)
    (hv : s'.vars = s.vars) (ht : s'.hi.tail = s.hi.tail) (he : s'.lifted = (a.id, b) :: s.lifted) :
    Evo s s' [(a, b)] where
  n := hn
  vars := hv
  tail := ht
  keep i hi := by
    simp only [List.map_cons, List.map_nil, List.mem_singleton] at hi
    have : (i == a.id) = false := by simpa using hi
    rw [he, List.lookup_cons, this]
  new x hx := by simp only [List.mem_singleton] at hx; subst hx; exact hl
  got x hx := by simp only [List.mem_singleton] at hx; subst hx; simp [he]

theorem evo_none {s' : St} (hn : s.n ≤ s'.n) (hv : s'.vars = s.vars) (ht : s'.hi.tail = s.hi.tail)
    (he : s'.lifted = s.lifted) : Evo s s' [] where
  n := hn
  vars := hv
  tail := ht
  keep i _ := by rw [he]
  new x hx := by cases hx
  got x hx := by cases hx

/-- What interpreting an argument does. -/
structure ArgOut (U : Uni) (X : List Nat) (s : St) (V : List Var) (tl hl : List (SArg × Nat)) (f : Bool)
    (a : SArg) (p : Option Pending) (v : Var) (s' : St) (V' : List Var) (N : List (SArg × Nat)) : Prop where
  run : Runs (fun k => (fns U k).predArg a.ast) s (p, .var v) s'
  sub : V ⊆ V'
  mem : v ∈ V'
  news : N.map (·.1) = sel f [a]
  mid : Mid U X s' V' (tl ++ N.filter isThe) (hl ++ N.filter isHi)
  evo : Evo s s' N
  done : Stage false s' [a]
  nodup : (N.map (·.2)).Nodup
  range : ∀ x ∈ N, s.n ≤ x.2 ∧ x.2 < s'.n
  lift : a.lifts = true → p = none ∧ s'.lifted.lookup a.id = some v.n
  local_ : a.lifts = false → N = [] ∧ v.n = s.n ∧ s.n < s'.n ∧ ∃ pd, p = some pd ∧ PIs U V' (a, v.n) pd

theorem order_one {α : Type} (x : α) : orderArguments [(x, 0)] = some [some x] := rfl

theorem plain_run (hU : U.Ok) (a : SArg) (ha : a.Ok U) (hc : s.cleared = [])
    (hl : s.lifted.lookup a.id = none) {r : Option Pending × Node} {s' : St}
    (h : let v : Var := ⟨.mk s.nv, s.n, some s.n, a.focus.isSome⟩
      let R := ((a.p.alts U).map fun y => .app y [some (.var v)]).stmt
      let s1 : St := { s with n := s.n + 1, quants := (s.n, a.q) :: s.quants, nv := s.nv + 1 }
      (if a.q = .the then do
          modify fun s => { s with
            lifted := (a.id, s1.n - 1) :: s.lifted, the := s.the ++ [⟨.the, s1.n - 1, false, some R⟩] }
          return (none, .var v)
        else if a.q = .hi then do
          let s ← get
          match s.hi with
          | [] => fail .rt
          | top :: his => do
            modify fun s => { s with
              lifted := (a.id, s1.n - 1) :: s.lifted, hi := (top ++ [⟨.hi, s1.n - 1, false, some R⟩]) :: his }
            return (none, .var v)
        else return (some ⟨a.q, s1.n - 1, false, some R⟩, .var v) : M (Option Pending × Node)) s1 =
        .ok (r, s')) :
    Runs (fun k => (fns U k).predArg a.ast) s r s' := by
  apply Runs.predArg
  unfold SArg.ast predArgF
  refine Runs.bind (Runs.const rfl) ?_
  simp only [hl, (PExp.no_var ha.2).1, (PExp.no_var ha.2).2, Bool.false_eq_true, if_false]
  unfold plainArg
  rw [quant_ok hU ha]
  refine Runs.bind (Runs.const rfl) ?_
  refine Runs.bind (Runs.const rfl) ?_
  refine Runs.bind (Runs.const rfl) ?_
  refine Runs.bind (Runs.predication ha.2 (order_one _)) ?_
  refine Runs.bind (Runs.const rfl) ?_
  refine Runs.const ?_
  simp only [Nat.add_sub_cancel] at h
  rw [← h]
  split
  · have hf := restr_free (s := { s with n := s.n + 1, quants := (s.n, a.q) :: s.quants, nv := s.nv + 1 })
      hc (U := U) a.p ⟨.mk s.nv, s.n, some s.n, a.focus.isSome⟩ s.n rfl
    simp only [bind, M.bind, get, hf]
    rfl
  · rfl

theorem arg_out (hU : U.Ok) (a : SArg) (ha : a.Ok U) (f : Bool) (hm : Mid U X s V tl hl) (hs : Stage f s [a]) :
    ∃ p v s' V' N, ArgOut U X s V tl hl f a p v s' V' N := by
  have hs := hs a (by simp)
  by_cases hlk : s.lifted.lookup a.id = none
  · -- a new binding
    have hmv := hm.var s.n a.focus.isSome ((s.n, a.q) :: s.quants) (s.n + 1) (by omega)
    have hrun := @plain_run U s hU a ha hm.cleared hlk
    revert hmv hrun
    generalize hvv : (⟨.mk s.nv, s.n, some s.n, a.focus.isSome⟩ : Var) = v
    intro hmv hrun
    have hvn : v.n = s.n := by rw [← hvv]
    have hpd : ∀ q, q = a.q → PIs U (V ++ [v]) (a, s.n)
        ⟨q, s.n, false, some ((a.p.alts U).map fun y => .app y [some (.var v)]).stmt⟩ :=
      fun q h => ⟨h, rfl, v, by simp, hvn, rfl⟩
    have hf : a.lifts = true → f = true := by
      intro h
      cases f with
      | true => rfl
      | false => simp [h, hlk] at hs
    by_cases hq : a.q = .the
    · have hf := hf (by simp [SArg.lifts, hq])
      subst hf
      refine ⟨none, v, { s with
          n := s.n + 1, quants := (s.n, a.q) :: s.quants, nv := s.nv + 1,
          lifted := (a.id, s.n) :: s.lifted, the := s.the ++ [⟨.the, s.n, false, some ((a.p.alts U).map fun y => .app y [some (.var v)]).stmt⟩] },
        V ++ [v], [(a, s.n)], hrun (by simp only [hq, if_true]; rfl), by simp, by simp,
        by simp [sel, SArg.lifts, hq], ?_, evo_lift hlk (Nat.le_succ _) rfl rfl rfl, ?_, by simp, ?_, ?_, ?_⟩
      · have h1 : [(a, s.n)].filter isThe = [(a, s.n)] := by simp [isThe, hq]
        have h2 : [(a, s.n)].filter isHi = [] := by simp [isHi, hq]
        rw [h1, h2, List.append_nil]
        exact hmv.liftThe (hpd .the hq.symm) (Nat.lt_succ_self _)
      · intro b hb
        simp only [List.mem_singleton] at hb
        subst hb
        simp [SArg.lifts, hq]
      · simp
      · intro _; simp [hvn]
      · simp [SArg.lifts, hq]
    · by_cases hq' : a.q = .hi
      · have hf := hf (by simp [SArg.lifts, hq'])
        subst hf
        obtain ⟨top, rest, hh, -⟩ := hm.hi
        refine ⟨none, v, { s with
            n := s.n + 1, quants := (s.n, a.q) :: s.quants, nv := s.nv + 1,
            lifted := (a.id, s.n) :: s.lifted, hi := (top ++ [⟨.hi, s.n, false, some ((a.p.alts U).map fun y => .app y [some (.var v)]).stmt⟩]) :: rest },
          V ++ [v], [(a, s.n)], hrun (by
            simp only [if_neg hq, if_pos hq', bind, M.bind, get, hh]; rfl), by simp, by simp,
          by simp [sel, SArg.lifts, hq'], ?_, evo_lift hlk (Nat.le_succ _) rfl (by rw [hh]; rfl) rfl, ?_,
          by simp, ?_, ?_, ?_⟩
        · have h1 : [(a, s.n)].filter isThe = [] := by simp [isThe, hq]
          have h2 : [(a, s.n)].filter isHi = [(a, s.n)] := by simp [isHi, hq']
          rw [h1, h2, List.append_nil]
          exact hmv.liftHi (hpd .hi hq'.symm) (Nat.lt_succ_self _) hh
        · intro b hb
          simp only [List.mem_singleton] at hb
          subst hb
          simp [SArg.lifts, hq']
        · simp
        · intro _; simp [hvn]
        · simp [SArg.lifts, hq']
      · have hlf : a.lifts = false := by simp [SArg.lifts, hq, hq']
        refine ⟨_, v, { s with n := s.n + 1, quants := (s.n, a.q) :: s.quants, nv := s.nv + 1 },
          V ++ [v], [], hrun (by simp only [hq, hq', if_false]; rfl), by simp, by simp,
          by simp [sel, hlf], ?_, evo_none (Nat.le_succ _) rfl rfl rfl, ?_, by simp, by simp, by simp [hlf], ?_⟩
        · simpa using hmv
        · intro b hb
          simp only [List.mem_singleton] at hb
          subst hb
          simp [hlf, hlk]
        · intro _
          exact ⟨rfl, hvn, Nat.lt_succ_self _, _, rfl, by rw [hvn]; exact hpd _ rfl⟩
  · -- lifted before
    have hf : f = false := by
      cases f with
      | true => simp [hlk] at hs
      | false => rfl
    subst hf
    have hlf : a.lifts = true := by
      cases h : a.lifts with
      | true => rfl
      | false => simp [h, hlk] at hs
    obtain ⟨b, hb⟩ := Option.ne_none_iff_exists'.1 hlk
    refine ⟨none, ⟨.mk s.nv, b, some b, false⟩, { s with nv := s.nv + 1 }, V ++ [⟨.mk s.nv, b, some b, false⟩], [],
      ?_, by simp, by simp, by simp [sel], ?_, evo_none (Nat.le_refl _) rfl rfl rfl, ?_, by simp, by simp,
      by simp [hb], by simp [hlf]⟩
    · apply Runs.predArg
      unfold SArg.ast predArgF
      refine Runs.bind (Runs.const rfl) ?_
      simp only [hb]
      exact Runs.const rfl
    · simpa using hm.var b false s.quants s.n (Nat.le_refl _)
    · intro b hb
      simp only [List.mem_singleton] at hb
      subst hb
      simp [hlf, hb]

end Arg

/-! ## Combining -/

/-- The arguments so far: where they come from, the variable and the place. -/
abbrev Zs := List (Nat × Var × Nat)
def zArgs (z : Zs) : Args := z.map fun x => (.var x.2.1, x.2.2)
def zSrc (z : Zs) : List (Nat × Nat) := z.map fun x => (x.1, x.2.2)

/-- What is known before interpreting something with the given arguments in it. -/
structure Pre (U : Uni) (X : List Nat) (s : St) (V : List Var) (tl hl : List (SArg × Nat))
    (A : List (Nat × Nat)) (z : Zs) (args : List SArg) : Prop where
  mid : Mid U X s V tl hl
  aval : ∀ x ∈ A, x.2 < s.n
  akey : ∀ x ∈ A, x.1 ∉ args.map SArg.id
  zkey : ∀ x ∈ z, x.1 ∉ args.map SArg.id
  zval : ∀ x ∈ z, x.2.1 ∈ V ∧ scope A X s x.1 = some x.2.1.n
  nodup : (args.map SArg.id).Nodup
  inX : ∀ a ∈ args, a.id ∈ X

/-- The statement that results. -/
structure NodeOk (X : List Nat) (A : List (Nat × Nat)) (s s' : St) (V' : List Var) (N : List (SArg × Nat))
    (t : T) (n : Node) : Prop where
  is : Is (scope A X s') t n
  vars : ∀ v, Node.var v ∈ pre n → v ∈ V'
  own : ∀ q id m f r b, Node.bind q id m f r b ∈ pre n → id = m
  nodup : (bnums (pre n) ++ N.map (·.2)).Nodup
  range : ∀ x ∈ bnums (pre n) ++ N.map (·.2), s.n ≤ x ∧ x < s'.n

/-- What is known after. -/
structure Out (U : Uni) (X : List Nat) (s : St) (V : List Var) (tl hl : List (SArg × Nat))
    (A : List (Nat × Nat)) (news args : List SArg) (t : T) (n : Node) (s' : St) (V' : List Var)
    (N : List (SArg × Nat)) : Prop where
  sub : V ⊆ V'
  news : N.map (·.1) = news
  mid : Mid U X s' V' (tl ++ N.filter isThe) (hl ++ N.filter isHi)
  evo : Evo s s' N
  done : Stage false s' args
  node : NodeOk X A s s' V' N t n

section Combine
variable {U : Uni} {X : List Nat} {s s' s'' : St} {V V' V'' : List Var} {tl hl : List (SArg × Nat)}
  {A : List (Nat × Nat)} {z : Zs} {N N' : List (SArg × Nat)}

theorem scope_mono (he : Evo s s' N) {i b : Nat} (h : scope A X s i = some b) : scope A X s' i = some b := by
  unfold scope at h ⊢
  split at h
  · exact h
  · split at h
    · next hx => rw [if_pos hx]; exact he.mono h
    · cases h

theorem scope_new (he : Evo s s' N) {i b : Nat} (h : scope A X s' i = some b) :
    scope A X s i = some b ∨ b ∈ N.map (·.2) := by
  unfold scope at h ⊢
  split at h
  · exact .inl h
  · split at h
    · next hx =>
      rw [if_pos hx]
      by_cases hm : i ∈ N.map (·.1.id)
      · obtain ⟨x, hxN, rfl⟩ := List.mem_map.1 hm
        rw [he.got x hxN] at h
        cases h
        exact .inr (List.mem_map_of_mem hxN)
      · rw [he.keep i hm] at h
        exact .inl h
    · cases h

theorem mem_of_lookup : ∀ {l : List (Nat × Nat)} {i b : Nat}, l.lookup i = some b → (i, b) ∈ l
  | (j, c) :: l, i, b, h => by
    rw [List.lookup_cons] at h
    split at h
    · next he =>
      cases h
      simp at he
      simp [he]
    · exact List.mem_cons_of_mem _ (mem_of_lookup h)

theorem scope_lt (hp : Mid U X s V tl hl) (ha : ∀ x ∈ A, x.2 < s.n) {i b : Nat} (h : scope A X s i = some b) :
    b < s.n := by
  unfold scope at h
  split at h
  · next b' hl =>
    cases h
    have := mem_of_lookup hl
    exact ha _ this
  · split at h
    · next hx =>
      obtain ⟨x, hx, -, rfl⟩ := hp.back i hx b h
      exact hp.num x hx
    · cases h

theorem scope_cons (i b : Nat) : scope ((i, b) :: A) X s = upd (scope A X s) i (some b) := by
  funext j
  unfold scope upd
  rw [List.lookup_cons]
  by_cases h : j = i
  · simp [h]
  · have : (j == i) = false := by simpa using h
    rw [this, if_neg h]

theorem Pre.weaken {args args' : List SArg} (h : Pre U X s V tl hl A z args) (hs : args'.Sublist args)
    {tl' hl' : List (SArg × Nat)} (hv : V ⊆ V') (he : Evo s s' N) (hm : Mid U X s' V' tl' hl') :
    Pre U X s' V' tl' hl' A z args' where
  mid := hm
  aval x hx := Nat.lt_of_lt_of_le (h.aval x hx) he.n
  akey x hx hc := h.akey x hx ((hs.map _).subset hc)
  zkey x hx hc := h.zkey x hx ((hs.map _).subset hc)
  zval x hx := ⟨hv (h.zval x hx).1, scope_mono he (h.zval x hx).2⟩
  nodup := h.nodup.sublist (hs.map _)
  inX a ha := h.inX a (hs.subset ha)

theorem Pre.restrict {args args' : List SArg} (h : Pre U X s V tl hl A z args) (hs : args'.Sublist args) :
    Pre U X s V tl hl A z args' where
  mid := h.mid
  aval := h.aval
  akey x hx hc := h.akey x hx ((hs.map _).subset hc)
  zkey x hx hc := h.zkey x hx ((hs.map _).subset hc)
  zval := h.zval
  nodup := h.nodup.sublist (hs.map _)
  inX a ha := h.inX a (hs.subset ha)

/-- Two statements, one after the other, connected. -/
theorem out_conn {c : Conn} {news news' args args' args'' : List SArg} {t t' : T} {n n' : Node}
    (h : Out U X s V tl hl A news args t n s' V' N)
    (h' : Out U X s' V' (tl ++ N.filter isThe) (hl ++ N.filter isHi) A news' args' t' n' s'' V'' N')
    (hd : Stage false s'' args'') :
    Out U X s V tl hl A (news ++ news') args'' (.conn c t t') (.conn c n n') s'' V'' (N ++ N') where
  sub := fun _ hx => h'.sub (h.sub hx)
  news := by rw [List.map_append, h.news, h'.news]
  mid := by
    have := h'.mid
    rwa [List.append_assoc, List.append_assoc, ← List.filter_append, ← List.filter_append] at this
  evo := h.evo.trans h'.evo
  done := hd
  node := by
    have b1 := h.node.range
    have b2 := h'.node.range
    have n1 := h.node.nodup
    have n2 := h'.node.nodup
    simp only [List.nodup_append, List.mem_append] at b1 b2 n1 n2
    have e1 := h.evo.n
    have e2 := h'.evo.n
    refine ⟨⟨rfl, ?_, h'.node.is⟩, ?_, ?_, ?_, ?_⟩
    · refine is_mono h.node.is (fun i b => scope_mono h'.evo) fun i b hb => ?_
      refine (scope_new h'.evo hb).imp_right fun hm hc => ?_
      have := b1 b (.inl hc)
      have := b2 b (.inr hm)
      omega
    · intro v hv
      simp only [pre, List.mem_cons, List.mem_append, reduceCtorEq, false_or] at hv
      rcases hv with hv | hv
      · exact h'.sub (h.node.vars v hv)
      · exact h'.node.vars v hv
    · intro q id m f r b hv
      simp only [pre, List.mem_cons, List.mem_append, reduceCtorEq, false_or] at hv
      rcases hv with hv | hv
      · exact h.node.own _ _ _ _ _ _ hv
      · exact h'.node.own _ _ _ _ _ _ hv
    · simp only [pre, bnums_cons_conn, bnums_append, List.map_append, List.nodup_append, List.mem_append]
      refine ⟨⟨n1.1, n2.1, ?_⟩, ⟨n1.2.1, n2.2.1, ?_⟩, ?_⟩
      · intro a ha b hb
        have := b1 a (.inl ha)
        have := b2 b (.inl hb)
        omega
      · intro a ha b hb
        have := b1 a (.inr ha)
        have := b2 b (.inr hb)
        omega
      · rintro a (ha | ha) b (hb | hb)
        · exact n1.2.2 a ha b hb
        · have := b1 a (.inl ha)
          have := b2 b (.inr hb)
          omega
        · have := b2 a (.inl ha)
          have := b1 b (.inr hb)
          omega
        · exact n2.2.2 a ha b hb
    · simp only [pre, bnums_cons_conn, bnums_append, List.map_append, List.mem_append]
      rintro x ((hx | hx) | hx | hx)
      · have := b1 x (.inl hx); omega
      · have := b2 x (.inl hx); omega
      · have := b1 x (.inr hx); omega
      · have := b2 x (.inr hx); omega

/-- An argument and what comes after it. -/
theorem out_arg {f : Bool} {a : SArg} {p : Option Pending} {v : Var} {news' args' args'' : List SArg} {t' : T}
    {n' : Node} (hA : ∀ x ∈ A, x.2 < s.n) (h : ArgOut U X s V tl hl f a p v s' V' N)
    (h' : Out U X s' V' (tl ++ N.filter isThe) (hl ++ N.filter isHi)
      (if a.lifts = true then A else (a.id, v.n) :: A) news' args' t' n' s'' V'' N')
    (hd : Stage false s'' args'') (g : Pending → Pending)
    (hg : ∀ x, (g x).q = x.q ∧ (g x).id = x.id ∧ (g x).restr = x.restr) (hm : Mid U X s V tl hl) :
    Out U X s V tl hl A (sel f [a] ++ news') args'' (a.over U t') (bindScope (p.map g) n') s'' V'' (N ++ N') where
  sub := fun _ hx => h'.sub (h.sub hx)
  news := by rw [List.map_append, h.news, h'.news]
  mid := by
    have := h'.mid
    rwa [List.append_assoc, List.append_assoc, ← List.filter_append, ← List.filter_append] at this
  evo := h.evo.trans h'.evo
  done := hd
  node := by
    have b1 := h.range
    have b2 := h'.node.range
    have n1 := h.nodup
    have n2 := h'.node.nodup
    simp only [List.nodup_append, List.mem_append] at b2 n2
    have e1 := h.evo.n
    have e2 := h'.evo.n
    cases hlf : a.lifts with
    | true =>
      obtain ⟨rfl, -⟩ := h.lift hlf
      have hn := h'.node
      rw [if_pos hlf] at hn
      simp only [SArg.over, hlf, if_true, Option.map_none, bindScope]
      refine ⟨hn.is, hn.vars, hn.own, ?_, ?_⟩
      · simp only [List.map_append, List.nodup_append, List.mem_append]
        refine ⟨n2.1, ⟨n1, n2.2.1, ?_⟩, ?_⟩
        · intro x hx y hy
          obtain ⟨x', hx', rfl⟩ := List.mem_map.1 hx
          have := b1 x' hx'
          have := b2 y (.inr hy)
          omega
        · rintro x hx y (hy | hy)
          · obtain ⟨y', hy', rfl⟩ := List.mem_map.1 hy
            have := b1 y' hy'
            have := b2 x (.inl hx)
            omega
          · exact n2.2.2 x hx y hy
      · simp only [List.map_append, List.mem_append]
        rintro x (hx | hx | hx)
        · have := b2 x (.inl hx); omega
        · obtain ⟨x', hx', rfl⟩ := List.mem_map.1 hx
          have := b1 x' hx'; omega
        · have := b2 x (.inr hx); omega
    | false =>
      obtain ⟨rfl, hvn, hlt, pd, rfl, hpd⟩ := h.local_ hlf
      have hn := h'.node
      rw [if_neg (by simp [hlf])] at hn
      simp only [SArg.over, hlf, Bool.false_eq_true, if_false, Option.map_some, bindScope, List.nil_append]
      obtain ⟨w, hw, hwn, hr⟩ := hpd.restr
      obtain ⟨g1, g2, g3⟩ := hg pd
      rw [g1, g2, g3, hpd.q, hpd.id, hr]
      have hnodes := stmt_nodes (a.p.alts_plain U) [some (.var w)]
      have hb0 : bnums (pre ((a.p.alts U).map fun y => .app y [some (.var w)]).stmt) = [] := by
        unfold bnums
        rw [List.filterMap_eq_nil_iff]
        intro x hx
        rcases hnodes x hx with h | h
        · cases x <;> simp_all [Inert]
        · simp only [preL, preO, pre, List.append_nil, List.mem_singleton] at h
          rw [h]
      simp only at hwn
      refine ⟨⟨rfl, ?_, ?_, ?_⟩, ?_, ?_, ?_, ?_⟩
      · intro i hi
        rcases scope_new h'.evo hi with h1 | h1
        · rcases scope_new h.evo h1 with h1 | h1
          · have := scope_lt hm hA h1
            omega
          · simp at h1
        · have := b2 _ (.inr h1)
          omega
      · refine says_is _ (.cons ?_ .nil)
        refine ⟨by simp [upd, hwn], ?_⟩
        rw [h.mid.own w hw]
        simp
      · rw [← scope_cons]; exact hn.is
      · intro u hu
        simp only [pre, preO, List.mem_cons, List.mem_append, reduceCtorEq, false_or] at hu
        rcases hu with hu | hu
        · rcases hnodes _ hu with h1 | h1
          · exact h1.elim
          · simp only [preL, preO, pre, List.append_nil, List.mem_singleton, Node.var.injEq] at h1
            subst h1
            exact h'.sub hw
        · exact hn.vars u hu
      · intro q id m f r b hu
        simp only [pre, preO, List.mem_cons, List.mem_append] at hu
        rcases hu with hu | hu | hu
        · cases hu; rfl
        · rcases hnodes _ hu with h1 | h1
          · exact h1.elim
          · simp [preL, preO, pre] at h1
        · exact hn.own _ _ _ _ _ _ hu
      · simp only [pre, preO, bnums_cons_bind, bnums_append, hb0, List.nil_append, List.cons_append,
          List.nodup_cons]
        refine ⟨fun hc => ?_, h'.node.nodup⟩
        have := b2 _ (List.mem_append.1 hc)
        omega
      · simp only [pre, preO, bnums_cons_bind, bnums_append, hb0, List.nil_append, List.cons_append,
          List.mem_cons]
        rintro x (rfl | hx)
        · omega
        · have := b2 x (List.mem_append.1 hx)
          omega

end Combine

/-! ## Runs of terms -/

section TermRuns
variable {U : Uni} {s s1 s2 : St} {args : Args} {bi : Str} {st : AST.Node} {rest : List AST.Node}

theorem CArg.isArgument (c : CArg) : isArgument c.ast = true ∧ isTerm c.ast = true := by
  cases c <;> exact ⟨rfl, rfl⟩

theorem SStmt.isStatement (c : SStmt) : isStatement c.ast = true := by cases c <;> rfl

theorem Runs.assert {p : AST.Node → Bool} {n : AST.Node} (h : p n = true) :
    Runs (fun _ => Verif.Logic.assert p n) s () s := by
  refine Runs.const ?_
  unfold Verif.Logic.assert
  rw [if_pos h]
  rfl

theorem conn_not_roi (hU : U.Ok) {ru : Str} {c : Conn} (h : Reads U ru (connWord c)) :
    hasText U ru ['r', 'o', 'i'] = false ∧ connector U ru = some c := by
  refine ⟨?_, (C38_connector U hU ru c).2 h⟩
  cases hh : hasText U ru ['r', 'o', 'i'] with
  | false => rfl
  | true =>
    have := C38_exclusive U hU ru (connWord c) ['r', 'o', 'i'] (by cases c <;> unfold lowerAscii <;> decide)
      (by unfold lowerAscii; decide) ((C38_hasText U ru _).2 h) hh
    cases c <;> cases this

theorem head_run (hU : U.Ok) {a : SArg} {pl : Option (AST.Word × Nat)} (hpl : (STerm.mk pl (.one a)).Ok U)
    {p : Option Pending} {v : Var} {n : Node} {ts' : List AST.Node}
    (h1 : Runs (fun k => (fns U k).predArg a.ast) s (p, .var v) s1)
    (h2 : Runs (fun k => (fns U k).prenexS (args ++ [(.var v, (STerm.mk pl (.one a)).pos)]) bi st rest) s1 (n, ts') s2)
    (hv : s2.vars = s.vars) :
    ∃ g : Pending → Pending, (∀ x, (g x).q = x.q ∧ (g x).id = x.id ∧ (g x).restr = x.restr) ∧
      Runs (fun k => (fns U k).prenexS args bi st ((STerm.mk pl (.one a)).ast :: rest)) s
        (bindScope (p.map g) n, (STerm.mk pl (.one a)).ast :: ts') s2 := by
  cases pl with
  | none =>
    refine ⟨fun b => if a.focus.isSome ∧ ¬ hasText U bi ['p', 'a'] then { b with focus := true } else b,
      fun x => by split <;> exact ⟨rfl, rfl, rfl⟩, ?_⟩
    apply Runs.prenexS
    unfold prenexSF
    refine Runs.keepVars ?_ hv
    exact Runs.bind h1 (Runs.bind h2 Runs.ret)
  | some g =>
    refine ⟨fun b => b, fun x => ⟨rfl, rfl, rfl⟩, ?_⟩
    apply Runs.prenexS
    unfold prenexSF
    refine Runs.keepVars ?_ hv
    have hpos : goPos U g.1.T = some g.2 := (C38_place U hU g.1.T g.2).2 (hpl.1 g rfl)
    rw [Option.map_id']
    refine Runs.bind h1 (Runs.bind (a := g.2) (Runs.const ?_) (Runs.bind h2 Runs.ret))
    rw [hpos]
    rfl

theorem join_run (hU : U.Ok) {pl : Option (AST.Word × Nat)} {c : Conn} {t0 t1 : Option AST.Word} {ru : AST.Word}
    {l r : CArg} (hc : Reads U ru.T (connWord c)) {n1 n2 : Node} {ts1 ts2 : List AST.Node}
    (h1 : Runs (fun k => (fns U k).prenexS args bi st ((STerm.mk pl l).ast :: rest)) s (n1, ts1) s1)
    (ht : ts1.tail = rest)
    (h2 : Runs (fun k => (fns U k).prenexS args bi st ((STerm.mk pl r).ast :: rest)) s1 (n2, ts2) s2)
    (hv : s2.vars = s.vars) :
    Runs (fun k => (fns U k).prenexS args bi st ((STerm.mk pl (.join c t0 t1 ru l r)).ast :: rest)) s
      (.conn c n1 n2, ts2) s2 := by
  obtain ⟨hroi, hcc⟩ := conn_not_roi hU hc
  apply Runs.prenexS
  unfold prenexSF
  refine Runs.keepVars ?_ hv
  subst ht
  cases pl with
  | none =>
    simp only [STerm.ast, CArg.ast, hroi, Bool.false_eq_true, if_false, hcc]
    exact Runs.bind (Runs.assert l.isArgument.2) (Runs.bind (Runs.assert r.isArgument.2)
      (Runs.bind (Runs.const rfl) (Runs.bind h1 (Runs.bind h2 Runs.ret))))
  | some g =>
    simp only [STerm.ast, CArg.ast, hroi, Bool.false_eq_true, if_false, hcc]
    exact Runs.bind (Runs.assert l.isArgument.1) (Runs.bind (Runs.assert r.isArgument.1)
      (Runs.bind (Runs.const rfl) (Runs.bind h1 (Runs.bind h2 Runs.ret))))

end TermRuns

/-! ## Statements -/

def argsOf (ts : List STerm) : List SArg := ts.flatMap fun t => t.arg.args

/-- Interpreting a statement gives its meaning. -/
def StmtRun (U : Uni) (X : List Nat) (S : SStmt) : Prop :=
  ∀ (f : Bool) (s : St) (V : List Var) (tl hl : List (SArg × Nat)) (A : List (Nat × Nat)) (z : Zs),
    Pre U X s V tl hl A z S.args → Stage f s S.args → ∃ n s' V' N,
      Runs (fun k => (fns U k).statement (zArgs z) S.ast) s n s' ∧
      Out U X s V tl hl A (sel f S.order) S.args (S.mean U (zSrc z)) n s' V' N

/-- Interpreting a statement with terms in front of it gives their meaning. -/
def TermsRun (U : Uni) (X : List Nat) (bi : Str) (pa : Bool) (S : SStmt) (ts : List STerm) : Prop :=
  ∀ (f : Bool) (s : St) (V : List Var) (tl hl : List (SArg × Nat)) (A : List (Nat × Nat)) (z : Zs),
    Pre U X s V tl hl A z (argsOf ts ++ S.args) → Stage f s (argsOf ts ++ S.args) → ∃ n ts' s' V' N,
      Runs (fun k => (fns U k).prenexS (zArgs z) bi S.ast (ts.map STerm.ast)) s (n, ts') s' ∧
      Out U X s V tl hl A (sel f (termsOrder S.order ts)) (argsOf ts ++ S.args)
        (termsMean U (fun acc => S.mean U (if pa then acc else [])) ts (zSrc z)) n s' V' N ∧
      ((∀ t ∈ ts, t.arg.isOne = true) → ts' = ts.map STerm.ast) ∧
      ((∀ t ∈ ts.tail, t.arg.isOne = true) → ts'.tail = ts.tail.map STerm.ast)

/-- The same for a list with a first term, which may be at another stage than the rest. -/
def TermRun (U : Uni) (X : List Nat) (bi : Str) (pa : Bool) (S : SStmt) (pl : Option (AST.Word × Nat)) (c : CArg)
    (ts : List STerm) : Prop :=
  ∀ (f f' : Bool) (s : St) (V : List Var) (tl hl : List (SArg × Nat)) (A : List (Nat × Nat)) (z : Zs),
    Pre U X s V tl hl A z (c.args ++ (argsOf ts ++ S.args)) → Stage f s c.args →
    Stage f' s (argsOf ts ++ S.args) → ∃ n ts' s' V' N,
      Runs (fun k => (fns U k).prenexS (zArgs z) bi S.ast ((STerm.mk pl c).ast :: ts.map STerm.ast)) s (n, ts') s' ∧
      Out U X s V tl hl A
        (sel f (c.args.take 1) ++ sel f' (termsOrder S.order ts) ++ sel f (c.args.drop 1))
        (c.args ++ (argsOf ts ++ S.args))
        (c.dist fun a => a.over U (termsMean U (fun acc => S.mean U (if pa then acc else [])) ts
          (zSrc z ++ [(a.id, (STerm.mk pl c).pos)]))) n s' V' N ∧
      (((c.isOne = true) ∧ ∀ t ∈ ts, t.arg.isOne = true) → ts' = (STerm.mk pl c).ast :: ts.map STerm.ast) ∧
      ((∀ t ∈ ts, t.arg.isOne = true) → ts'.tail = ts.map STerm.ast)

theorem CArg.args_ne (c : CArg) : c.args ≠ [] := by
  induction c with
  | one => simp [CArg.args]
  | join c t0 t1 ru l r ihl _ => simp [CArg.args, ihl]

theorem mem_termsOrder {rest : List SArg} {a : SArg} : ∀ {ts : List STerm}, a ∈ termsOrder rest ts →
    a ∈ argsOf ts ∨ a ∈ rest
  | [], h => .inr h
  | t :: ts, h => by
    simp only [termsOrder, List.mem_append] at h
    simp only [argsOf, List.flatMap_cons, List.mem_append]
    rcases h with (h | h) | h
    · exact .inl (.inl (List.mem_of_mem_take h))
    · rcases mem_termsOrder h with h | h
      · exact .inl (.inr h)
      · exact .inr h
    · exact .inl (.inl (List.mem_of_mem_drop h))

theorem mem_order {a : SArg} : ∀ {S : SStmt}, a ∈ S.order → a ∈ S.args
  | .base _ _, h => h
  | .pred p ts na, h => by
    rcases mem_termsOrder h with h | h
    · exact h
    · cases h
  | .prenex _ _ ts st, h => by
    rcases mem_termsOrder h with h | h
    · exact List.mem_append_left _ h
    · exact List.mem_append_right _ (mem_order h)
  | .conn _ _ _ _ l r, h => by
    rcases List.mem_append.1 h with h | h
    · exact List.mem_append_left _ (mem_order h)
    · exact List.mem_append_right _ (mem_order h)

section Stmt
variable {U : Uni} {X : List Nat}

theorem z_rel {s : St} {A : List (Nat × Nat)} {V : List Var} {z : Zs} (ho : ∀ v ∈ V, v.dfn = some v.n)
    (hz : ∀ x ∈ z, x.2.1 ∈ V ∧ scope A X s x.1 = some x.2.1.n) :
    RelA (fun i n => ArgIs (scope A X s) i n ∧ ∃ v ∈ V, n = .var v) (zSrc z) (zArgs z) := by
  induction z with
  | nil => exact .nil
  | cons x z ih =>
    refine .cons ⟨⟨⟨(hz x (by simp)).2, ?_⟩, _, (hz x (by simp)).1, rfl⟩, rfl⟩ (ih fun y hy => hz y (by simp [hy]))
    rw [ho _ (hz x (by simp)).1]
    simp

/-- What lifting touches. -/
theorem news_ids {N : List (SArg × Nat)} {f : Bool} {l : List SArg} (h : N.map (·.1) = sel f l) {i : Nat}
    (hi : i ∈ N.map (·.1.id)) : i ∈ l.map SArg.id := by
  obtain ⟨x, hx, rfl⟩ := List.mem_map.1 hi
  exact List.mem_map_of_mem (mem_sel (h ▸ List.mem_map_of_mem (f := Prod.fst) hx))

theorem stmt_base (p : PExp) (hp : p.Ok U) (na : Option AST.Word) : StmtRun U X (.base p na) := by
  intro f s V tl hl A z hpre hst
  obtain ⟨as, bs, h1, h2, h3⟩ := order_rel (z_rel hpre.mid.own hpre.zval)
  refine ⟨((p.alts U).map fun x => .app x bs).stmt, s, V, [], ?_, List.Subset.refl _, ?_, ?_, ?_, ?_, ?_⟩
  · apply Runs.statement
    unfold statementF
    exact Runs.keepVars (Runs.predication hp h2) rfl
  · unfold sel; split <;> rfl
  · simpa using hpre.mid
  · exact evo_none (Nat.le_refl _) rfl rfl rfl
  · intro a ha; cases ha
  · have hn := stmt_nodes (p.alts_plain U) bs
    have hb : ∀ x ∈ preL bs, ∃ v ∈ V, x = .var v := by
      clear h1 h2 hn
      induction h3 with
      | nil => intro x hx; cases hx
      | @cons a b as bs h _ ih =>
        intro x hx
        simp only [preL, List.mem_append] at hx
        rcases hx with hx | hx
        · cases b with
          | none => cases hx
          | some b =>
            cases a with
            | none => exact h.elim
            | some a =>
              obtain ⟨-, v, hv, rfl⟩ := h
              simp only [preO, pre, List.mem_singleton] at hx
              exact ⟨v, hv, hx⟩
        · exact ih x hx
    have hb0 : bnums (pre ((p.alts U).map fun y => .app y bs).stmt) = [] := by
      unfold bnums
      rw [List.filterMap_eq_nil_iff]
      intro x hx
      rcases hn x hx with h | h
      · cases x <;> simp_all [Inert]
      · obtain ⟨v, -, rfl⟩ := hb x h; rfl
    refine ⟨?_, ?_, ?_, ?_, ?_⟩
    · have := says_is (U := U) p (h3.imp fun _ _ => relO_mono fun _ _ h => h.1)
      simp only [SStmt.mean]
      rw [h1]
      exact this
    · intro v hv
      rcases hn _ hv with h | h
      · exact h.elim
      · obtain ⟨w, hw, he⟩ := hb _ h
        cases he
        exact hw
    · intro q id m f r b hv
      rcases hn _ hv with h | h
      · exact h.elim
      · obtain ⟨w, hw, he⟩ := hb _ h
        cases he
    · rw [hb0]; simp
    · rw [hb0]; simp

theorem stmt_conn (hU : U.Ok) {c : Conn} {t0 t1 : Option AST.Word} {ru : AST.Word} {l r : SStmt}
    (hc : Reads U ru.T (connWord c)) (hl : StmtRun U X l) (hr : StmtRun U X r) :
    StmtRun U X (.conn c t0 t1 ru l r) := by
  intro f s V tl hl' A z hpre hst
  have hst : Stage f s (l.args ++ r.args) := hst
  have hpre : Pre U X s V tl hl' A z (l.args ++ r.args) := hpre
  have hdis : ∀ a ∈ r.args, a.id ∉ l.args.map SArg.id := by
    have := hpre.nodup
    rw [List.map_append, List.nodup_append] at this
    exact fun a ha hc => this.2.2 _ hc _ (List.mem_map_of_mem ha) rfl
  have hdis' : ∀ a ∈ l.args, a.id ∉ r.args.map SArg.id := by
    have := hpre.nodup
    rw [List.map_append, List.nodup_append] at this
    exact fun a ha hc => this.2.2 _ (List.mem_map_of_mem ha) _ hc rfl
  obtain ⟨n1, s1, V1, N1, hr1, ho1⟩ := hl f s V tl hl' A z (hpre.restrict (List.sublist_append_left _ _)) hst.left
  have hids1 : ∀ i, i ∈ N1.map (·.1.id) → i ∈ l.args.map SArg.id := fun i hi => by
    obtain ⟨x, hx, rfl⟩ := List.mem_map.1 (news_ids ho1.news hi)
    exact List.mem_map_of_mem (mem_order hx)
  obtain ⟨n2, s2, V2, N2, hr2, ho2⟩ := hr f s1 V1 _ _ A z
    (hpre.weaken (List.sublist_append_right _ _) ho1.sub ho1.evo ho1.mid)
    (hst.right.evo ho1.evo fun a ha hc => hdis a ha (hids1 _ hc))
  have hids2 : ∀ i, i ∈ N2.map (·.1.id) → i ∈ r.args.map SArg.id := fun i hi => by
    obtain ⟨x, hx, rfl⟩ := List.mem_map.1 (news_ids ho2.news hi)
    exact List.mem_map_of_mem (mem_order hx)
  refine ⟨.conn c n1 n2, s2, V2, N1 ++ N2, ?_, ?_⟩
  · apply Runs.statement
    unfold statementF
    refine Runs.keepVars ?_ (ho2.evo.vars.trans ho1.evo.vars)
    simp only [SStmt.ast, (conn_not_roi hU hc).2]
    exact Runs.bind (Runs.const rfl) (Runs.bind (Runs.assert l.isStatement) (Runs.bind hr1
      (Runs.bind (Runs.assert r.isStatement) (Runs.bind hr2 Runs.ret))))
  · have := out_conn (c := c) ho1 ho2 (args'' := l.args ++ r.args)
      ((ho1.done.evo ho2.evo fun a ha hc => hdis' a ha (hids2 _ hc)).app ho2.done)
    simp only [SStmt.order, sel_append]
    exact this

/-! ### Terms -/

variable {bi : Str} {pa : Bool} {S : SStmt}

theorem terms_nil (hpa : hasText U bi ['p', 'a'] = pa) (hS : StmtRun U X S) : TermsRun U X bi pa S [] := by
  intro f s V tl hl A z hpre hst
  have hpre : Pre U X s V tl hl A z S.args := hpre
  have hz : Pre U X s V tl hl A (if pa then z else []) S.args := by
    cases pa with
    | true => exact hpre
    | false => exact ⟨hpre.mid, hpre.aval, hpre.akey, by simp, by simp, hpre.nodup, hpre.inX⟩
  obtain ⟨n, s', V', N, hr, ho⟩ := hS f s V tl hl A _ hz hst
  refine ⟨n, [], s', V', N, ?_, ?_, by simp, by simp⟩
  · apply Runs.prenexS
    unfold prenexSF
    refine Runs.keepVars ?_ ho.evo.vars
    simp only [hpa, List.map_nil]
    refine Runs.bind (a := n) (s' := s') ?_ Runs.ret
    cases pa <;> exact hr
  · cases pa <;> exact ho

theorem term_one (hU : U.Ok) {a : SArg} {pl : Option (AST.Word × Nat)} {ts : List STerm}
    (ha : (STerm.mk pl (.one a)).Ok U) (H : TermsRun U X bi pa S ts) : TermRun U X bi pa S pl (.one a) ts := by
  intro f f' s V tl hl A z hpre hst hst'
  have hpre : Pre U X s V tl hl A z ([a] ++ (argsOf ts ++ S.args)) := hpre
  obtain ⟨p, v, s1, V1, N1, h1⟩ := arg_out hU a ha.2 f hpre.mid hst
  have hnd := hpre.nodup
  simp only [List.singleton_append, List.map_cons, List.nodup_cons] at hnd
  have hN1 : ∀ i ∈ N1.map (·.1.id), i = a.id := fun i hi => by
    have := news_ids h1.news hi
    simpa using this
  have hlk : a.lifts = true → A.lookup a.id = none := by
    intro _
    rw [List.lookup_eq_none_iff]
    intro x hx
    have := hpre.akey x hx
    simp only [List.singleton_append, List.map_cons, List.mem_cons, not_or] at this
    simpa using fun h => this.1 h.symm
  have hpre1 : Pre U X s1 V1 (tl ++ N1.filter isThe) (hl ++ N1.filter isHi)
      (if a.lifts = true then A else (a.id, v.n) :: A) (z ++ [(a.id, v, (STerm.mk pl (.one a)).pos)])
      (argsOf ts ++ S.args) := by
    have hw := hpre.weaken (List.sublist_append_right [a] _) h1.sub h1.evo h1.mid
    refine ⟨h1.mid, ?_, ?_, ?_, ?_, hw.nodup, hw.inX⟩
    · split
      · exact hw.aval
      · next hlf =>
        intro x hx
        rcases List.mem_cons.1 hx with rfl | hx
        · have := h1.local_ (by simpa using hlf)
          simp only
          omega
        · exact hw.aval x hx
    · split
      · exact hw.akey
      · intro x hx
        rcases List.mem_cons.1 hx with rfl | hx
        · exact hnd.1
        · exact hw.akey x hx
    · intro x hx
      rcases List.mem_append.1 hx with hx | hx
      · exact hw.zkey x hx
      · simp only [List.mem_singleton] at hx
        subst hx
        exact hnd.1
    · intro x hx
      rcases List.mem_append.1 hx with hx | hx
      · refine ⟨(hw.zval x hx).1, ?_⟩
        split
        · exact (hw.zval x hx).2
        · rw [scope_cons]
          unfold upd
          rw [if_neg]
          · exact (hw.zval x hx).2
          · have := hpre.zkey x hx
            simp only [List.singleton_append, List.map_cons, List.mem_cons, not_or] at this
            exact this.1
      · simp only [List.mem_singleton] at hx
        subst hx
        refine ⟨h1.mem, ?_⟩
        split
        · next hlf =>
          unfold scope
          simp only [hlk hlf, (h1.lift hlf).2]
          exact if_pos (hpre.inX a (by simp))
        · rw [scope_cons]
          simp [upd]
  obtain ⟨n, ts', s2, V2, N2, hr, ho, ht1, ht2⟩ := H f' s1 V1 _ _ _ _ hpre1
    (hst'.evo h1.evo fun b hb hc => hnd.1 (by rw [← hN1 _ hc]; exact List.mem_map_of_mem hb))
  have hN2 : ∀ i ∈ N2.map (·.1.id), i ∈ (argsOf ts ++ S.args).map SArg.id := fun i hi => by
    obtain ⟨x, hx, rfl⟩ := List.mem_map.1 (news_ids ho.news hi)
    refine List.mem_map_of_mem (List.mem_append.2 ?_)
    exact (mem_termsOrder hx).imp_right mem_order
  have hr' : Runs (fun k => (fns U k).prenexS (zArgs z ++ [(.var v, (STerm.mk pl (.one a)).pos)]) bi S.ast
      (ts.map STerm.ast)) s1 (n, ts') s2 := by
    simpa [zArgs] using hr
  obtain ⟨g, hg, hrun⟩ := head_run hU ha h1.run hr' (ho.evo.vars.trans h1.evo.vars)
  refine ⟨_, _, s2, V2, N1 ++ N2, hrun, ?_, fun h => by rw [ht1 h.2], fun h => ht1 h⟩
  have := out_arg hpre.aval h1 ho (args'' := [a] ++ (argsOf ts ++ S.args))
    (Stage.app (h1.done.evo ho.evo fun b hb hc => by
      simp only [List.mem_singleton] at hb
      subst hb
      exact hnd.1 (hN2 _ hc)) ho.done) g hg hpre.mid
  simpa [CArg.args, CArg.dist, sel, zSrc] using this

theorem term_join (hU : U.Ok) {c : Conn} {t0 t1 : Option AST.Word} {ru : AST.Word} {l r : CArg}
    {pl : Option (AST.Word × Nat)} {ts : List STerm} (hc : Reads U ru.T (connWord c))
    (hone : ∀ t ∈ ts, t.arg.isOne = true) (hl : TermRun U X bi pa S pl l ts) (hr : TermRun U X bi pa S pl r ts) :
    TermRun U X bi pa S pl (.join c t0 t1 ru l r) ts := by
  intro f f' s V tl hl' A z hpre hst hst'
  have hst : Stage f s (l.args ++ r.args) := hst
  have hpre : Pre U X s V tl hl' A z ((l.args ++ r.args) ++ (argsOf ts ++ S.args)) := hpre
  have hnd := hpre.nodup
  simp only [List.map_append (l₁ := l.args ++ r.args), List.map_append (l₁ := l.args), List.nodup_append] at hnd
  have e1 : (l.args ++ (argsOf ts ++ S.args)).Sublist ((l.args ++ r.args) ++ (argsOf ts ++ S.args)) :=
    (List.sublist_append_left _ _).append (List.Sublist.refl _)
  have e2 : (r.args ++ (argsOf ts ++ S.args)).Sublist ((l.args ++ r.args) ++ (argsOf ts ++ S.args)) :=
    (List.sublist_append_right _ _).append (List.Sublist.refl _)
  obtain ⟨n1, ts1, s1, V1, N1, hr1, ho1, -, ht1⟩ := hl f f' s V tl hl' A z (hpre.restrict e1) hst.left hst'
  have hN1 : ∀ i ∈ N1.map (·.1.id), i ∈ (l.args ++ (argsOf ts ++ S.args)).map SArg.id := fun i hi => by
    obtain ⟨x, hx, rfl⟩ := List.mem_map.1 hi
    have : x.1 ∈ N1.map (·.1) := List.mem_map_of_mem hx
    rw [ho1.news] at this
    refine List.mem_map_of_mem ?_
    simp only [List.mem_append] at this ⊢
    rcases this with (h | h) | h
    · exact .inl (List.mem_of_mem_take (mem_sel h))
    · exact .inr ((mem_termsOrder (mem_sel h)).imp_right mem_order)
    · exact .inl (List.mem_of_mem_drop (mem_sel h))
  obtain ⟨n2, ts2, s2, V2, N2, hr2, ho2, -, ht2⟩ := hr f false s1 V1 _ _ A z
    (hpre.weaken e2 ho1.sub ho1.evo ho1.mid)
    (hst.right.evo ho1.evo fun a ha hcc => by
      have := hN1 _ hcc
      rw [List.map_append, List.mem_append] at this
      rcases this with h | h
      · exact hnd.1.2.2 _ h _ (List.mem_map_of_mem ha) rfl
      · exact hnd.2.2 _ (List.mem_append_right _ (List.mem_map_of_mem ha)) _ h rfl)
    ho1.done.right
  have hN2 : ∀ i ∈ N2.map (·.1.id), i ∈ r.args.map SArg.id := fun i hi => by
    obtain ⟨x, hx, rfl⟩ := List.mem_map.1 hi
    have : x.1 ∈ N2.map (·.1) := List.mem_map_of_mem hx
    rw [ho2.news] at this
    refine List.mem_map_of_mem ?_
    simp only [List.mem_append] at this
    rcases this with (h | h) | h
    · exact List.mem_of_mem_take (mem_sel h)
    · simp [sel] at h
    · exact List.mem_of_mem_drop (mem_sel h)
  refine ⟨.conn c n1 n2, ts2, s2, V2, N1 ++ N2,
    join_run hU hc hr1 (ht1 hone) hr2 (ho2.evo.vars.trans ho1.evo.vars), ?_, ?_, fun h => ht2 h⟩
  · have := out_conn (c := c) ho1 ho2 (args'' := (l.args ++ r.args) ++ (argsOf ts ++ S.args))
      (by
        rw [List.append_assoc]
        refine Stage.app ?_ ho2.done
        refine ho1.done.left.evo ho2.evo fun a ha hcc => ?_
        exact hnd.1.2.2 _ (List.mem_map_of_mem ha) _ (hN2 _ hcc) rfl)
    have hnews : sel f (l.args.take 1) ++ sel f' (termsOrder S.order ts) ++ sel f (l.args.drop 1) ++
        (sel f (r.args.take 1) ++ sel false (termsOrder S.order ts) ++ sel f (r.args.drop 1)) =
        sel f ((l.args ++ r.args).take 1) ++ sel f' (termsOrder S.order ts) ++ sel f ((l.args ++ r.args).drop 1) := by
      have h0 : sel false (termsOrder S.order ts) = [] := rfl
      rw [h0, List.append_nil, ← sel_append f (r.args.take 1), List.take_append_drop]
      obtain ⟨x, xs, hx⟩ := List.exists_cons_of_ne_nil l.args_ne
      rw [hx]
      simp only [List.cons_append, List.take_succ_cons, List.take_zero, List.drop_succ_cons, List.drop_zero,
        sel_append, List.append_assoc]
    rw [hnews] at this
    exact this
  · intro h
    simp [CArg.isOne] at h

theorem term_run (hU : U.Ok) {pl : Option (AST.Word × Nat)} {ts : List STerm} (H : TermsRun U X bi pa S ts) :
    ∀ c : CArg, (STerm.mk pl c).Ok U → (c.isOne = true ∨ ∀ t ∈ ts, t.arg.isOne = true) →
      TermRun U X bi pa S pl c ts := by
  intro c
  induction c with
  | one a => exact fun h _ => term_one hU h H
  | join c t0 t1 ru l r ihl ihr =>
    intro h hone
    have hone : ∀ t ∈ ts, t.arg.isOne = true := by simpa [CArg.isOne] using hone
    exact term_join hU h.2.1 hone (ihl ⟨h.1, h.2.2.1⟩ (.inr hone)) (ihr ⟨h.1, h.2.2.2⟩ (.inr hone))

theorem terms_run (hU : U.Ok) (hpa : hasText U bi ['p', 'a'] = pa) (hS : StmtRun U X S) :
    ∀ ts : List STerm, (∀ t ∈ ts, t.Ok U) → Single ts → TermsRun U X bi pa S ts
  | [], _, _ => terms_nil hpa hS
  | t :: ts, ht, h1 => by
    have H := term_run (pl := t.place) hU (terms_run hU hpa hS ts (fun u hu => ht u (by simp [hu])) h1.2) t.arg
      (ht t (by simp)) h1.1
    intro f s V tl hl A z hpre hst
    have e : argsOf (t :: ts) ++ S.args = t.arg.args ++ (argsOf ts ++ S.args) := by
      simp [argsOf]
    rw [e] at hpre hst
    obtain ⟨n, ts', s', V', N, hr, ho, hx, hy⟩ := H f f s V tl hl A z hpre hst.left hst.right
    refine ⟨n, ts', s', V', N, hr, ?_, ?_, hy⟩
    · rw [e]
      simpa only [termsOrder, sel_append, termsMean] using ho
    · intro h
      exact hx ⟨h t (by simp), fun u hu => h u (by simp [hu])⟩

theorem pa_text {w : Str} {pa : Bool} (h : pa = true ↔ Reads U w "pa".toList) :
    hasText U w ['p', 'a'] = pa := by
  cases hh : hasText U w ['p', 'a'] with
  | true => exact (h.2 ((C38_hasText U w _).1 hh)).symm
  | false =>
    cases pa with
    | false => rfl
    | true =>
      have := (C38_hasText U w _).2 (h.1 rfl)
      rw [← hh, ← this]
      rfl

theorem pa_pa (U : Uni) : hasText U ['p', 'a'] ['p', 'a'] = true := by
  have h : untone ['p', 'a'] = ['p', 'a'] := by decide
  rw [hasText, h]
  simp [sameText]

theorem stmt_run (hU : U.Ok) : ∀ S : SStmt, S.Ok U → StmtRun U X S := by
  intro S
  induction S with
  | base p na => exact fun h => stmt_base p h na
  | pred p ts na =>
    intro h f s V tl hl A z hpre hst
    have H := terms_run (X := X) (pa := true) (bi := ['p', 'a']) hU (pa_pa U) (stmt_base p h.1 na) ts h.2.1 h.2.2
    have e : argsOf ts ++ (SStmt.base p na).args = argsOf ts := List.append_nil _
    have hpre : Pre U X s V tl hl A z (argsOf ts) := hpre
    have hst : Stage f s (argsOf ts) := hst
    rw [← e] at hpre hst
    obtain ⟨n, ts', s', V', N, hr, ho, -, -⟩ := H f s V tl hl A z hpre hst
    refine ⟨n, s', V', N, ?_, ?_⟩
    · apply Runs.statement
      unfold statementF
      refine Runs.keepVars ?_ ho.evo.vars
      simp only [SStmt.ast]
      apply Runs.statement
      unfold statementF
      refine Runs.keepVars ?_ ho.evo.vars
      exact Runs.bind hr Runs.ret
    · rw [e] at ho
      exact ho
  | prenex pa w ts st ih =>
    intro h f s V tl hl A z hpre hst
    have H := terms_run (X := X) hU (pa_text h.1) (ih h.2.2.2) ts h.2.1 h.2.2.1
    obtain ⟨n, ts', s', V', N, hr, ho, -, -⟩ := H f s V tl hl A z hpre hst
    refine ⟨n, s', V', N, ?_, ho⟩
    apply Runs.statement
    unfold statementF
    refine Runs.keepVars ?_ ho.evo.vars
    exact Runs.bind hr Runs.ret
  | conn c t0 t1 ru l r ihl ihr => exact fun h => stmt_conn hU h.1 (ihl h.2.1) (ihr h.2.2)

end Stmt

end Verif.Logic
