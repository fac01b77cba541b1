/-
C56: prenexes.
-/
import Verif.Logic.DenTerms

namespace Verif.Logic.Den
open Verif.Tone (Str)

section
variable {M : Model} {U : Uni} {A : Nat → AST.Node} {f : Fns}
variable {dep : Dep} {lk : Tok → Option Nat} {i : Bool} {s s1 s2 s3 : St} {bi : Str} {st : AST.Node} {Z : Args} {ts : List AST.Node}
  {t α : AST.Node} {pos : Nat}

/-- What is not talked about does not matter. -/
theorem tail_ign (h : isU U bi st = false) (L : Nat → M.D) (env : Env M) (as as' : List (M.D × Nat)) :
    dTerms U L env as (endK U bi st L) ts = dTerms U L env as' (endK U bi st L) ts := by
  refine dTerms_ign L _ ts (Nat.lt_succ_self _) _ (fun env as as' => ?_) env as as'
  unfold endK
  rw [isU, Bool.and_eq_false_iff] at h
  rcases h with h | h
  · simp [h]
  · exact dStmt_ign L st _ (Nat.lt_succ_self _) h _ _ _

theorem Res.refocus {V : List Var} {E : List Ev} {n : Node} {den : (Nat → M.D) → Env M → List (M.D × Nat) → M.B}
    {b : Option Pending} {c : Prop} [Decidable c] (h : Res M U A dep lk s s1 V Z E (bindScope b n) den) :
    Res M U A dep lk s s1 V Z E (bindScope (b.map fun b => if c then { b with focus := true } else b) n) den := by
  cases b with
  | none => exact h
  | some b =>
    simp only [Option.map]
    split
    · exact ⟨h.evo, h.inv, h.tree, h.occ, h.occV, h.val⟩
    · exact h

theorem TailOk.evo (h : TailOk M U A dep i s Z bi st ts) {E : List Nat} (he : Evo s s1 E) (hi : Inv M U A s1) (hv : s1.vars = s.vars) :
    TailOk M U A dep i s1 Z bi st ts where
  inv := hi
  z hu := (h.z hu).evo he
  v := h.v.evo he
  pl := h.pl
  ok := h.ok
  sees := by
    rw [look_eq he.hoa hv]
    exact h.sees.evo he

variable (H : FDen M U A f)

/-- What follows an argument. -/
theorem tail_arg (hp : Puts U t α pos) (hα : Single U α) {b : Option Pending} {v : Var} (h : TailOk M U A dep i s Z bi st (t :: ts))
    (hA : ResA M U A dep s s1 α b v) :
    TailOk M U A (depA U dep α) (i || flagA U dep α) s1 (Z ++ [(.var v, pos)]) bi st ts := by
  have hs := h.sees
  rw [evTail, hp.ev] at hs
  have hacc : isU U bi st = true ∨ bindsA U α ≠ none → v.dfn = some v.n ∧ v.n < s1.n ∧
      (s1.quant v.n = .the → flagA U dep α = false → v.n ∈ ids s1.the) := by
    intro hc
    refine hA.acc ?_
    have hs' := hs.sub fun t ht => (evArg_toks hα _ _ t).2 (.inl ht)
    rcases hc with hc | hc
    · rwa [hc] at hs'
    · obtain ⟨x, hx⟩ := Option.ne_none_iff_exists'.1 hc
      rwa [evArg_binds hx _ true] at hs'
  have hok := h.ok
  unfold okTail at hok
  rw [hp.ok] at hok
  obtain ⟨-, hpl, hok⟩ := hok
  rw [okArg_single hα] at hok
  refine ⟨hA.inv, ?_, ?_, ?_, hok.2, sees_rest hα hs hA ?_⟩
  · intro hu z hz
    rcases List.mem_append.1 hz with hz | hz
    · exact (h.z hu).evo hA.evo z hz
    · simp at hz
      subst hz
      exact ⟨v, rfl, (hacc (.inl hu)).2.1⟩
  · rw [usesV_snoc]
    intro w hw
    rcases List.mem_append.1 hw with hw | hw
    · exact (h.v.evo hA.evo).imp (j := i || flagA U dep α) (by simp; tauto) w hw
    · cases hu : isU U bi st with
      | false => simp [hu] at hw
      | true =>
        simp [hu] at hw
        subst hw
        obtain ⟨h1, h2, h3⟩ := hacc (.inl hu)
        exact ⟨h1, h2, fun hq hi => h3 hq (by simp at hi; exact hi.2)⟩
  · intro hu
    exact hp.pl ts (h.pl hu) (hpl hu)
  · intro y hy
    exact (hacc (.inr (by simp [hy]))).2.1

include H

/-- An argument that is a term. -/
theorem run_arg (hp : Puts U t α pos) (hα : Single U α) {b : Option Pending} {v : Var} (h : TailOk M U A dep i s Z bi st (t :: ts))
    (hA : ResA M U A dep s s1 α b v) :
    Post (f.prenexS (Z ++ [(.var v, pos)]) bi st ts) s1 Any fun r s' =>
      ResT M U A dep s { s' with vars := s.vars } Z bi st (t :: ts) (bindScope b r.1) ∧ (branches U ts = false → r.2 = ts) := by
  refine (H.prenexS _ bi st ts s1 _ _ (tail_arg hp hα h hA)).mono fun r s2 h2 => ?_
  obtain ⟨-, h2, h3, -⟩ := h2
  refine ⟨?_, h3⟩
  have hs := h.sees
  rw [evTail, hp.ev] at hs
  rw [ResT, usesV_snoc] at h2
  have := hA.cont s2 _ (usesV (isU U bi st) Z) Z r.1 (isU U bi st) pos _ hs h.v.lt h.z
    (fun hu L env as as' => tail_ign hu L env as as') h2
  rw [ResT, evTail, hp.ev]
  refine (this.keep _).dn fun L env ρ => ?_
  rw [hp.d]

omit H in
theorem TailOk.side {t' α' : AST.Node} (h : TailOk M U A dep i s Z bi st (t :: ts)) (hp : Puts U t α pos) (hp' : Puts U t' α' pos)
    (ht : t' ≠ α' → t ≠ α) (hpl : plTerms U (t' :: ts) = plTerms U (t :: ts)) (hbr : branches U ts = false)
    (hok : okArg U A dep (fun dep j => okTail U A dep (i || j) bi st ts) α')
    (hev : ∀ x ∈ toks (evArg U (isU U bi st) (evTail U bi st ts) α'), x ∈ toks (evArg U (isU U bi st) (evTail U bi st ts) α)) :
    TailOk M U A dep i s Z bi st (t' :: ts) where
  inv := h.inv
  z := h.z
  v := h.v
  pl hu := by rw [hpl]; exact h.pl hu
  ok := by
    have := h.ok
    unfold okTail at this ⊢
    rw [hp.ok] at this
    rw [hp'.ok]
    exact ⟨fun _ => by simp [hbr], fun hu hx => this.2.1 hu (hx.imp (fun h => h) ht), hok⟩
  sees := by
    have := h.sees
    rw [evTail, hp.ev] at this
    rw [evTail, hp'.ev]
    exact this.sub hev

/-- A choice between arguments that is a term. -/
theorem run_args {t0 t1 : Option AST.Word} {ru : AST.Word} {l r tl tr : AST.Node} {c : Conn}
    (hp : Puts U t (.cop .argument t0 t1 ru l r) pos) (hpl : IsArg l → Puts U tl l pos) (hpr : IsArg r → Puts U tr r pos)
    (hl1 : tl ≠ l → t ≠ .cop .argument t0 t1 ru l r) (hr1 : tr ≠ r → t ≠ .cop .argument t0 t1 ru l r)
    (hl2 : IsArg l → plTerms U (tl :: ts) = plTerms U (t :: ts)) (hr2 : IsArg r → plTerms U (tr :: ts) = plTerms U (t :: ts))
    (hru : isRoi U ru = false) (hc : connector U ru.T = some c) (h : TailOk M U A dep i s Z bi st (t :: ts)) :
    Post (f.prenexS Z bi st (tl :: ts)) s Any fun ln s' =>
      Post (f.prenexS Z bi st (tr :: ln.2.tail)) s' Any fun rn s'' =>
      ResT M U A dep s { s'' with vars := s.vars } Z bi st (t :: ts) (.conn c ln.1 rn.1) ∧ branches U (t :: ts) = true ∧ rn.2.tail = ts := by
  have hok := h.ok
  unfold okTail at hok
  rw [hp.ok] at hok
  obtain ⟨hbr, hpos, hok⟩ := hok
  have hbr' : branches U ts = false := by
    have := hbr (by simp [branchA, hru])
    simpa using this
  simp only [okArg, hru, Bool.false_eq_true, if_false] at hok
  have hal := okArg_isArg hok.1
  have har := okArg_isArg hok.2
  have hev : ∀ E, evArg U (isU U bi st) E (.cop .argument t0 t1 ru l r) = evArg U (isU U bi st) E l ++ evArg U (isU U bi st) E r := by
    intro E
    simp only [evArg, hru, Bool.false_eq_true, if_false]
  refine (H.prenexS Z bi st _ s dep i (h.side hp (hpl hal) hl1 (hl2 hal) hbr' hok.1 (by rw [hev, toks_append]; exact fun x hx => List.mem_append_left _ hx))).mono fun ln s1 h1 => ?_
  obtain ⟨hv1, h1, -, h4⟩ := h1
  have e : ln.2.tail = ts := h4 hbr'
  rw [e]
  have h' := h.evo h1.evo h1.inv hv1
  refine (H.prenexS Z bi st _ s1 dep i (h'.side hp (hpr har) hr1 (hr2 har) hbr' hok.2 (by rw [hev, toks_append]; exact fun x hx => List.mem_append_right _ hx))).mono fun rn s2 h2 => ?_
  obtain ⟨hv2, h2, -, h5⟩ := h2
  refine ⟨?_, by simp [branches, hp.branch, branchA, hru], h5 hbr'⟩
  rw [ResT, look_eq h1.evo.hoa hv1] at h2
  rw [ResT] at h1
  have := h1.conn (V := usesV (isU U bi st) Z) (c := c) h2 (fun v h => h) (fun v h => h) (fun v h => .inl h) h.v.lt
  rw [ResT, evTail, hp.ev, hev]
  rw [evTail, evTail, (hpl hal).ev, (hpr har).ev] at this
  refine (this.keep _).dn fun L env ρ => ?_
  rw [(hpl hal).d, (hpr har).d, hp.d, dArg, hru]
  simp [connOf, hc]

/-- A choice between sets of terms. -/
theorem run_sets {t0 t1 : Option AST.Word} {ru : AST.Word} {ls rs : List AST.Node} {c : Conn} (hc : connector U ru.T = some c)
    (h : TailOk M U A dep i s Z bi st (.cop .termSet t0 t1 ru (.terms ls) (.terms rs) :: ts)) :
    Post (f.prenexS Z bi st (ls ++ ts)) s Any fun ln s' =>
      Post (f.prenexS Z bi st (rs ++ ts)) s' Any fun rn s'' =>
      ResT M U A dep s { s'' with vars := s.vars } Z bi st (.cop .termSet t0 t1 ru (.terms ls) (.terms rs) :: ts) (.conn c ln.1 rn.1) := by
  have hok := h.ok
  unfold okTail at hok
  rw [okTerms] at hok
  have hev : evTail U bi st (.cop .termSet t0 t1 ru (.terms ls) (.terms rs) :: ts) = evTail U bi st (ls ++ ts) ++ evTail U bi st (rs ++ ts) := by
    rw [evTail, evTerms, ← evTerms_append, ← evTerms_append]
  have hs := h.sees
  rw [hev] at hs
  have hl : TailOk M U A dep i s Z bi st (ls ++ ts) := by
    refine ⟨h.inv, h.z, h.v, fun hu => (h.pl hu).sub ?_, ?_, hs.sub (by simp; tauto)⟩
    · rw [plTerms, plTerms_append]; intro x; simp only [List.mem_append]; tauto
    · unfold okTail; rw [okTerms_append]; exact hok.1
  have hr : TailOk M U A dep i s Z bi st (rs ++ ts) := by
    refine ⟨h.inv, h.z, h.v, fun hu => (h.pl hu).sub ?_, ?_, hs.sub (by simp; tauto)⟩
    · rw [plTerms, plTerms_append]; intro x; simp only [List.mem_append]; tauto
    · unfold okTail; rw [okTerms_append]; exact hok.2
  refine (H.prenexS Z bi st _ s dep i hl).mono fun ln s1 h1 => ?_
  obtain ⟨hv1, h1, -⟩ := h1
  refine (H.prenexS Z bi st _ s1 dep i (hr.evo h1.evo h1.inv hv1)).mono fun rn s2 h2 => ?_
  obtain ⟨hv2, h2, -⟩ := h2
  rw [ResT, look_eq h1.evo.hoa hv1] at h2
  rw [ResT] at h1
  have := h1.conn (V := usesV (isU U bi st) Z) (c := c) h2 (fun v h => h) (fun v h => h) (fun v h => .inl h) h.v.lt
  rw [ResT, hev]
  refine (this.keep _).dn fun L env ρ => ?_
  rw [dTerms_append, dTerms_append, dTerms]
  simp [connOf, hc]

end

end Verif.Logic.Den
