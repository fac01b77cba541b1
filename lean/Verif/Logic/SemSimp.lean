/-
C55: simplification preserves meaning: the induction over the runs of the simplifier.
-/
import Mathlib.Data.List.Forall2
import Verif.Logic.SemProps

namespace Verif.Logic.Sem
open Verif.Tone (Str)

theorem fits_vars (n : Node) : ∀ {X : Nat → Prop}, Fits X n → ∀ x ∈ VN n, X x ∨ x ∈ BN n := by
  intro X h x hx
  induction n using Node.induct generalizing X with
  | bind q id m f r s ihr ihs =>
    simp only [Fits, fitsO_iff] at h
    simp only [BN_bind, List.mem_cons, List.mem_append, mem_BNO]
    simp only [VN_bind, List.mem_append, mem_VNO] at hx
    rcases hx with ⟨y, rfl, hx⟩ | hx
    · rcases ihr y rfl (h.2.2.1 y rfl) hx with (h1 | h1) | h1
      · exact .inl h1
      · exact .inr (.inl h1)
      · exact .inr (.inr (.inl ⟨y, rfl, h1⟩))
    · rcases ihs h.2.2.2 hx with (h1 | h1) | h1
      · exact .inl h1
      · exact .inr (.inl h1)
      · exact .inr (.inr (.inr h1))
  | conn c l r ihl ihr =>
    simp only [Fits] at h
    simp only [BN_conn, VN_conn, List.mem_append] at hx ⊢
    rcases hx with hx | hx
    · exact (ihl h.1 hx).imp_right .inl
    · exact (ihr h.2 hx).imp_right .inr
  | app p as ihp iha =>
    simp only [Fits, fitsL_iff] at h
    simp only [BN_app, VN_app, List.mem_append, mem_BNL, mem_VNL] at hx ⊢
    rcases hx with hx | ⟨y, hy, hx⟩
    · exact (ihp h.1 hx).imp_right .inl
    · exact (iha y hy (h.2 y hy) hx).imp_right fun h => .inr ⟨y, hy, h⟩
  | var v => simp only [VN_var, List.mem_singleton] at hx; subst hx; exact .inl h
  | plural as iha =>
    simp only [Fits, fitsL_iff] at h
    simp only [BN_plural, VN_plural, mem_BNL, mem_VNL] at hx ⊢
    obtain ⟨y, hy, hx⟩ := hx
    exact (iha y hy (h y hy) hx).imp_right fun h => ⟨y, hy, h⟩
  | quote t f => simp at hx
  | name s => simp at hx
  | abs s ih => simp only [BN_abs, VN_abs, Fits] at hx h ⊢; exact ih h hx
  | serial l r ihl ihr =>
    simp only [Fits] at h
    simp only [BN_serial, VN_serial, List.mem_append] at hx ⊢
    rcases hx with hx | hx
    · exact (ihl h.1 hx).imp_right .inl
    · exact (ihr h.2 hx).imp_right .inr
  | swap p k ih => simp only [BN_swap, VN_swap, Fits] at hx h ⊢; exact ih h hx

/-! ## Invariants -/

/-- The values of variables when some of them are replaced. -/
def ext (M : Model) (sub : List (Nat × Option Node)) (ρ : Nat → M.D) (x : Nat) : M.D :=
  match sub.lookup x with
  | some (some e) => M.arg e ρ
  | _ => ρ x

/-- Before simplifying something with bindings `bs` whose free variables are `L` (not replaced) and `D`
(replaced). -/
structure Ctx (V : List Nat) (L D : Nat → Prop) (st : SState) (bs : List Nat) : Prop where
  pv : st.predVars = V
  live : ∀ m, L m → st.sub.lookup m = none
  drop : ∀ m, D m → m ∉ V ∧ ∃ e, st.sub.lookup m = some (some e) ∧ Fits L e ∧ SetA V e ∧
    ∀ b ∈ BN e, st.sub.lookup b = none ∧ b ∉ bs
  fresh : ∀ b ∈ bs, st.sub.lookup b = none
  nodup : bs.Nodup
  apart : ∀ b ∈ bs, ¬ (L b ∨ D b)

/-- A number in what replaces a variable. -/
def Ent (D : Nat → Prop) (st : SState) (g : Node → List Nat) (b : Nat) : Prop :=
  ∃ m e, D m ∧ st.sub.lookup m = some (some e) ∧ b ∈ g e

/-- After simplifying something with bindings `bs` and variables `vs` to something with `bs'` and `vs'`. -/
structure Out (D : Nat → Prop) (st : SState) (bs vs : List Nat) (st' : SState) (bs' vs' : List Nat) : Prop where
  keep : ∀ x, x ∉ bs → st'.sub.lookup x = st.sub.lookup x
  bind : ∀ b ∈ bs', (b ∈ bs ∨ Ent D st BN b) ∧ st'.sub.lookup b = none
  vars : ∀ v ∈ vs', v ∈ vs ∨ Ent D st VN v

variable {V : List Nat} {L D : Nat → Prop} {st st1 st2 : SState}

theorem Ctx.sub {bs bs' : List Nat} (h : Ctx V L D st bs) (hs : ∀ b ∈ bs', b ∈ bs) (hn : bs'.Nodup) : Ctx V L D st bs' where
  pv := h.pv
  live := h.live
  drop m hm := by
    obtain ⟨h1, e, h2, h3, h4, h5⟩ := h.drop m hm
    exact ⟨h1, e, h2, h3, h4, fun b hb => ⟨(h5 b hb).1, fun h => (h5 b hb).2 (hs b h)⟩⟩
  fresh b hb := h.fresh b (hs b hb)
  nodup := hn
  apart b hb := h.apart b (hs b hb)

theorem Ctx.left {bs1 bs2 : List Nat} (h : Ctx V L D st (bs1 ++ bs2)) : Ctx V L D st bs1 :=
  h.sub (fun b hb => by simp [hb]) (List.nodup_append.1 h.nodup).1

theorem Ctx.comm {bs1 bs2 : List Nat} (h : Ctx V L D st (bs1 ++ bs2)) : Ctx V L D st (bs2 ++ bs1) :=
  h.sub (fun b hb => by simp only [List.mem_append] at hb ⊢; exact hb.symm) (List.perm_append_comm.nodup_iff.1 h.nodup)

theorem Ctx.ent {bs : List Nat} (h : Ctx V L D st bs) {b : Nat} (he : Ent D st BN b) : st.sub.lookup b = none ∧ b ∉ bs := by
  obtain ⟨m, e, hm, hl, hb⟩ := he
  obtain ⟨-, e', hl', -, -, h5⟩ := h.drop m hm
  rw [hl] at hl'; cases hl'
  exact h5 b hb

theorem Ctx.next {bs1 bs2 vs bs1' vs' : List Nat} (h : Ctx V L D st (bs1 ++ bs2)) (o : Out D st bs1 vs st1 bs1' vs')
    (hp : st1.predVars = st.predVars) : Ctx V L D st1 bs2 where
  pv := hp.trans h.pv
  live m hm := by
    rw [o.keep m fun hb => h.apart m (by simp [hb]) (.inl hm)]
    exact h.live m hm
  drop m hm := by
    obtain ⟨h1, e, h2, h3, h4, h5⟩ := h.drop m hm
    refine ⟨h1, e, ?_, h3, h4, fun b hb => ⟨?_, fun h => (h5 b hb).2 (by simp [h])⟩⟩
    · rw [o.keep m fun hb => h.apart m (by simp [hb]) (.inr hm)]; exact h2
    · rw [o.keep b fun h => (h5 b hb).2 (by simp [h])]; exact (h5 b hb).1
  fresh b hb := by
    rw [o.keep b fun hb' => (List.nodup_append.1 h.nodup).2.2 b hb' b hb rfl]
    exact h.fresh b (by simp [hb])
  nodup := (List.nodup_append.1 h.nodup).2.1
  apart b hb := h.apart b (by simp [hb])

theorem Out.ent {bs1 bs2 vs bs1' vs' : List Nat} (h : Ctx V L D st (bs1 ++ bs2)) (o : Out D st bs1 vs st1 bs1' vs')
    {g : Node → List Nat} {b : Nat} (he : Ent D st1 g b) : Ent D st g b := by
  obtain ⟨m, e, hm, hl, hb⟩ := he
  rw [o.keep m fun hb => h.apart m (by simp [hb]) (.inr hm)] at hl
  exact ⟨m, e, hm, hl, hb⟩

theorem Out.append {bs1 bs2 vs1 vs2 bs1' vs1' bs2' vs2' : List Nat} (h : Ctx V L D st (bs1 ++ bs2))
    (o : Out D st bs1 vs1 st1 bs1' vs1') (o' : Out D st1 bs2 vs2 st2 bs2' vs2') :
    Out D st (bs1 ++ bs2) (vs1 ++ vs2) st2 (bs1' ++ bs2') (vs1' ++ vs2') where
  keep x hx := by
    simp only [List.mem_append, not_or] at hx
    rw [o'.keep x hx.2, o.keep x hx.1]
  bind b hb := by
    rw [List.mem_append] at hb ⊢
    rcases hb with hb | hb
    · obtain ⟨h1, h2⟩ := o.bind b hb
      have : b ∉ bs2 := by
        rcases h1 with h1 | h1
        · exact fun hb' => (List.nodup_append.1 h.nodup).2.2 b h1 b hb' rfl
        · exact fun hb' => (h.ent h1).2 (by simp [hb'])
      exact ⟨h1.imp_left .inl, by rw [o'.keep b this]; exact h2⟩
    · obtain ⟨h1, h2⟩ := o'.bind b hb
      exact ⟨h1.elim (fun h => .inl (.inr h)) fun he => .inr (o.ent h he), h2⟩
  vars v hv := by
    rw [List.mem_append] at hv ⊢
    rcases hv with hv | hv
    · exact (o.vars v hv).imp_left .inl
    · exact (o'.vars v hv).elim (fun h => .inl (.inr h)) fun he => .inr (o.ent h he)

theorem Out.swapped {bs1 bs2 vs1 vs2 bs1' vs1' bs2' vs2' : List Nat} (h : Ctx V L D st (bs1 ++ bs2))
    (o : Out D st bs2 vs2 st1 bs2' vs2') (o' : Out D st1 bs1 vs1 st2 bs1' vs1') :
    Out D st (bs1 ++ bs2) (vs1 ++ vs2) st2 (bs1' ++ bs2') (vs1' ++ vs2') := by
  have := o.append h.comm o'
  refine ⟨?_, ?_, ?_⟩
  · intro x hx; exact this.keep x (by simpa [or_comm] using hx)
  · intro b hb
    have := this.bind b (by simpa [or_comm] using hb)
    exact ⟨this.1.imp_left (by simp [or_comm]), this.2⟩
  · intro b hb
    have := this.vars b (by simpa [or_comm] using hb)
    exact this.imp_left (by simp [or_comm])

theorem Out.id {bs vs : List Nat} (h : Ctx V L D st bs) : Out D st bs vs st bs vs :=
  ⟨fun _ _ => rfl, fun b hb => ⟨.inl hb, h.fresh b hb⟩, fun _ hv => .inl hv⟩

theorem Ctx.under {m : Nat} {bs : List Nat} (h : Ctx V L D st (m :: bs)) : Ctx V (fun x => L x ∨ x = m) D st bs where
  pv := h.pv
  live x hx := by
    rcases hx with hx | rfl
    · exact h.live x hx
    · exact h.fresh x (by simp)
  drop x hx := by
    obtain ⟨h1, e, h2, h3, h4, h5⟩ := h.drop x hx
    refine ⟨h1, e, h2, fits_change e h3 (fun _ _ => .inl) ?_, h4, fun b hb => ⟨(h5 b hb).1, fun h => (h5 b hb).2 (by simp [h])⟩⟩
    rintro b hb (hl | rfl)
    · exact fits_binders e h3 b hb hl
    · exact (h5 b hb).2 (by simp)
  fresh b hb := h.fresh b (by simp [hb])
  nodup := (List.nodup_cons.1 h.nodup).2
  apart b hb hx := by
    rcases hx with (hx | rfl) | hx
    · exact h.apart b (by simp [hb]) (.inl hx)
    · exact (List.nodup_cons.1 h.nodup).1 hb
    · exact h.apart b (by simp [hb]) (.inr hx)

theorem Out.under {m : Nat} {bs vs bs' vs' : List Nat} (h : Ctx V L D st (m :: bs)) (o : Out D st bs vs st1 bs' vs') :
    Out D st (m :: bs) vs st1 (m :: bs') vs' where
  keep x hx := o.keep x fun hb => hx (by simp [hb])
  bind b hb := by
    rcases List.mem_cons.1 hb with rfl | hb
    · refine ⟨.inl (by simp), ?_⟩
      rw [o.keep b (List.nodup_cons.1 h.nodup).1]
      exact h.fresh b (by simp)
    · exact ⟨(o.bind b hb).1.imp_left fun h => by simp [h], (o.bind b hb).2⟩
  vars := o.vars

theorem lookup_cons_self {m : Nat} {a : Option Node} {l : List (Nat × Option Node)} : ((m, a) :: l).lookup m = some a := by
  simp

theorem lookup_cons_ne {m x : Nat} {a : Option Node} {l : List (Nat × Option Node)} (h : x ≠ m) :
    ((m, a) :: l).lookup x = l.lookup x := by
  have : (x == m) = false := by simpa using h
  simp [List.lookup, this]

theorem Ctx.add {m : Nat} {e : Node} {bs : List Nat} (h : Ctx V L D st (m :: bs)) (hf : Fits L e) (hs : SetA V e) (hm : m ∉ V)
    (he : ∀ b ∈ BN e, st.sub.lookup b = none ∧ b ∉ m :: bs) (h2 : st2.sub = (m, some e) :: st.sub)
    (hp : st2.predVars = st.predVars) : Ctx V L (fun x => D x ∨ x = m) st2 bs where
  pv := hp.trans h.pv
  live x hx := by
    have : x ≠ m := by rintro rfl; exact h.apart x (by simp) (.inl hx)
    rw [h2, lookup_cons_ne this]; exact h.live x hx
  drop x hx := by
    rcases hx with hx | rfl
    · obtain ⟨h1, e', h3, h4, h5, h6⟩ := h.drop x hx
      have : x ≠ m := by rintro rfl; exact h.apart x (by simp) (.inr hx)
      refine ⟨h1, e', by rw [h2, lookup_cons_ne this]; exact h3, h4, h5, fun b hb => ?_⟩
      have := h6 b hb
      simp only [List.mem_cons, not_or] at this
      exact ⟨by rw [h2, lookup_cons_ne this.2.1]; exact this.1, this.2.2⟩
    · refine ⟨hm, e, by rw [h2, lookup_cons_self], hf, hs, fun b hb => ?_⟩
      have := he b hb
      simp only [List.mem_cons, not_or] at this
      exact ⟨by rw [h2, lookup_cons_ne this.2.1]; exact this.1, this.2.2⟩
  fresh b hb := by
    have : b ≠ m := by rintro rfl; exact (List.nodup_cons.1 h.nodup).1 hb
    rw [h2, lookup_cons_ne this]; exact h.fresh b (by simp [hb])
  nodup := (List.nodup_cons.1 h.nodup).2
  apart b hb hx := by
    rcases hx with hx | hx | rfl
    · exact h.apart b (by simp [hb]) (.inl hx)
    · exact h.apart b (by simp [hb]) (.inr hx)
    · exact (List.nodup_cons.1 h.nodup).1 hb

theorem Ent.add {m : Nat} {e : Node} {bs : List Nat} (h : Ctx V L D st (m :: bs)) (h2 : st2.sub = (m, some e) :: st.sub)
    {g : Node → List Nat} {b : Nat} (he : Ent (fun x => D x ∨ x = m) st2 g b) : b ∈ g e ∨ Ent D st g b := by
  obtain ⟨x, e', hx, hl, hb⟩ := he
  rcases hx with hx | rfl
  · have : x ≠ m := by rintro rfl; exact h.apart x (by simp) (.inr hx)
    rw [h2, lookup_cons_ne this] at hl
    exact .inr ⟨x, e', hx, hl, hb⟩
  · rw [h2, lookup_cons_self] at hl
    cases hl; exact .inl hb

/-! ### Values -/

section
variable (M : Model)

theorem ext_eq (sub sub' : List (Nat × Option Node)) (ρ : Nat → M.D) (x : Nat) (h : sub'.lookup x = sub.lookup x) :
    ext M sub' ρ x = ext M sub ρ x := by unfold ext; rw [h]

theorem ext_next {bs1 bs2 vs bs1' vs' : List Nat} (h : Ctx V L D st (bs1 ++ bs2)) (o : Out D st bs1 vs st1 bs1' vs')
    (ρ : Nat → M.D) (x : Nat) (hx : L x ∨ D x) : ext M st1.sub ρ x = ext M st.sub ρ x :=
  ext_eq M _ _ _ _ (o.keep x fun hb => h.apart x (by simp [hb]) hx)

theorem ext_under {m : Nat} {bs : List Nat} (h : Ctx V L D st (m :: bs)) (ρ : Nat → M.D) (d : M.D) (x : Nat)
    (hx : (L x ∨ x = m) ∨ D x) : upd (ext M st.sub ρ) m d x = ext M st.sub (upd ρ m d) x := by
  unfold upd
  rcases hx with (hx | rfl) | hx
  · have : x ≠ m := by rintro rfl; exact h.apart x (by simp) (.inl hx)
    simp only [ext, h.live x hx, if_neg this]
  · simp only [ext, h.fresh x (by simp), if_true]
  · have : x ≠ m := by rintro rfl; exact h.apart x (by simp) (.inr hx)
    obtain ⟨-, e, hl, hf, -⟩ := h.drop x hx
    simp only [ext, hl, if_neg this]
    refine (den_congr M e hf fun y hy => ?_).2.1
    have : y ≠ m := by rintro rfl; exact h.apart y (by simp) (.inl hy)
    simp [this]

theorem upd_same (ρ : Nat → M.D) (m : Nat) (d : M.D) : upd ρ m d m = d := by simp [upd]

theorem ext_add (sub : List (Nat × Option Node)) (m : Nat) (e : Node) (ρ : Nat → M.D) :
    upd (ext M sub ρ) m (M.arg e ρ) = ext M ((m, some e) :: sub) ρ := by
  funext x
  unfold upd
  by_cases h : x = m
  · subst h; simp only [if_true, ext, lookup_cons_self]
  · rw [if_neg h]; exact (ext_eq M _ _ _ _ (lookup_cons_ne h)).symm

/-- The values `ds` for the variables `ns`. -/
def updAll (σ : Nat → M.D) : List Nat → List M.D → Nat → M.D
  | n :: ns, d :: ds => updAll (upd σ n d) ns ds
  | _, _ => σ

/-- The statement behind the λs. -/
def body : Node → Node
  | .bind .lambda _ _ _ none s => body s
  | n => n

theorem lams_stmt (b : Node) (σ : Nat → M.D) :
    M.stmt b σ = M.lams (lambdas b) fun ds => M.stmt (body b) (updAll M σ (lamNums b) ds) := by
  induction b using Node.induct generalizing σ with
  | bind q id n f r s ihr ihs =>
    by_cases h : q = .lambda ∧ r = none
    · obtain ⟨rfl, rfl⟩ := h
      simp only [lambdas, Model.lams, body, lamNums, updAll, Model.stmt, Model.restr]
      congr 1
      funext d
      exact ihs _
    · have h1 : lambdas (.bind q id n f r s) = 0 := by
        cases q <;> cases r <;> simp_all [lambdas]
      have h2 : body (.bind q id n f r s) = .bind q id n f r s := by
        cases q <;> cases r <;> simp_all [body]
      have h3 : lamNums (.bind q id n f r s) = [] := by
        cases q <;> cases r <;> simp_all [lamNums]
      rw [h1, h2, h3]; rfl
  | _ => rfl

theorem updAll_ext (ρ : Nat → M.D) : ∀ (as : List Node) (b : Node) (sub : List (Nat × Option Node)), lambdas b = as.length →
    (lambdaBind as.length b (as.map some) sub).1 = body b ∧
    updAll M (ext M sub ρ) (lamNums b) (as.map (M.arg · ρ)) = ext M (lambdaBind as.length b (as.map some) sub).2 ρ
  | [], b, sub, h => by
    have h1 : body b = b ∧ lamNums b = [] := by
      cases b with
      | bind q id n f r s => cases q <;> cases r <;> simp_all [body, lambdas, lamNums]
      | _ => exact ⟨rfl, rfl⟩
    refine ⟨h1.1.symm, ?_⟩
    rw [h1.2]; rfl
  | a :: as, b, sub, h => by
    cases b with
    | bind q id n f r s =>
      cases q <;> cases r <;> try (simp [lambdas] at h; done)
      simp only [lambdas, List.length_cons, Nat.add_right_cancel_iff] at h
      have := updAll_ext ρ as s ((n, some a) :: sub) h
      simp only [List.length_cons, List.map_cons, lambdaBind, lamNums, updAll, body]
      refine ⟨this.1, ?_⟩
      rw [ext_add]; exact this.2
    | _ => simp [lambdas] at h

end

/-! ### β -/

theorem beta_ctx : ∀ (as : List Node) (b : Node) (st st2 : SState) (D : Nat → Prop), StmtOk V true b →
    lambdas b = as.length → Fits (fun x => L x ∨ D x) b → Ctx V L D st (BN b) → (∀ x ∈ lamNums b, x ∉ V) →
    (∀ a ∈ as, Fits L a ∧ SetA V a ∧ ∀ c ∈ BN a, st.sub.lookup c = none ∧ c ∉ BN b) →
    st2.sub = (lambdaBind as.length b (as.map some) st.sub).2 → st2.predVars = st.predVars →
    ∃ D', Ctx V L D' st2 (BN (body b)) ∧ Fits (fun x => L x ∨ D' x) (body b) ∧ StmtOk V true (body b) ∧
      lambdas (body b) = 0 ∧ (∀ x ∈ BN (body b), x ∈ BN b) ∧ (∀ x ∈ VN (body b), x ∈ VN b) ∧ (Tame b → Tame (body b)) ∧
      (∀ x, x ∉ BN b → st2.sub.lookup x = st.sub.lookup x) ∧
      (∀ (g : Node → List Nat) c, Ent D' st2 g c → (∃ a ∈ as, c ∈ g a) ∨ Ent D st g c)
  | [], b, st, st2, D, ho, hl, hf, hc, hv, ha, hs, hp => by
    have h1 : body b = b := by
      cases b with
      | bind q id n f r s => cases q <;> cases r <;> simp_all [body, lambdas]
      | _ => rfl
    simp only [List.length_nil, lambdaBind] at hs
    rw [h1]
    refine ⟨D, ?_, hf, ho, by simpa using hl, fun _ h => h, fun _ h => h, fun h => h, fun x _ => by rw [hs], ?_⟩
    · exact ⟨hp.trans hc.pv, hs ▸ hc.live, hs ▸ hc.drop, hs ▸ hc.fresh, hc.nodup, hc.apart⟩
    · rintro g c ⟨m, e, h1, h2, h3⟩
      exact .inr ⟨m, e, h1, hs ▸ h2, h3⟩
  | a :: as, b, st, st2, D, ho, hl, hf, hc, hv, ha, hs, hp => by
    cases b with
    | bind q id n f r s =>
      cases q <;> cases r <;> try (simp [lambdas] at hl; done)
      simp only [lambdas, List.length_cons, Nat.add_right_cancel_iff] at hl
      simp only [List.length_cons, List.map_cons, lambdaBind] at hs
      simp only [BN_bind, BNO_none, List.nil_append, lamNums] at hc hv ha
      simp only [StmtOk, Option.isNone_none, decide_true, Bool.and_true] at ho
      simp only [Fits] at hf
      have ha1 := ha a (by simp)
      have hc1 : Ctx V L (fun x => D x ∨ x = n) { st with sub := (n, some a) :: st.sub } (BN s) :=
        hc.add ha1.1 ha1.2.1 (hv n (by simp)) ha1.2.2 rfl rfl
      obtain ⟨D', i1, i2, i3, i4, i5, i6, i7, i8, i9⟩ := beta_ctx as s { st with sub := (n, some a) :: st.sub } st2 _ ho.2.2 hl
        (fits_iff (fun x => by simp [or_assoc]) hf.2.2.2) hc1 (fun x hx => hv x (by simp [hx]))
        (fun b hb => by
          obtain ⟨h1, h2, h3⟩ := ha b (by simp [hb])
          refine ⟨h1, h2, fun c hc => ?_⟩
          have := h3 c hc
          simp only [List.mem_cons, not_or] at this
          exact ⟨by rw [lookup_cons_ne this.2.1]; exact this.1, this.2.2⟩) hs hp
      refine ⟨D', i1, i2, i3, i4, fun x hx => ?_, fun x hx => ?_, i7, fun x hx => ?_, fun g c he => ?_⟩
      · simp [i5 x hx]
      · simp [i6 x hx]
      · simp only [BN_bind, BNO_none, List.nil_append, List.mem_cons, not_or] at hx
        rw [i8 x hx.2, lookup_cons_ne hx.1]
      · rcases i9 g c he with ⟨a', h1, h2⟩ | h1
        · exact .inl ⟨a', by simp [h1], h2⟩
        · rcases Ent.add hc rfl h1 with h1 | h1
          · exact .inl ⟨a, by simp, h1⟩
          · exact .inr h1
    | _ => simp [lambdas] at hl

/-! ### Substitution -/

theorem subOf_form {st : SState} {q : Quant} {r : Option Node} {x : Nat} {e : Node} (h : subOf st q r = some (x, e)) :
    (q = .the ∨ q = .all) ∧ x ∉ st.predVars ∧ (∀ w, e ≠ .var w) ∧ ∃ v, v.n = x ∧
      (r = some (.app (.name ['=']) [some (.var v), some e]) ∨ r = some (.app (.name ['=']) [some e, some (.var v)])) := by
  unfold subOf at h
  split at h
  · next p left right =>
    split at h
    · cases h
    · next hc =>
      simp only [not_or, not_and, Decidable.not_not] at hc
      have hp : p = ['='] := hc.2
      subst hp
      have hq : q = .the ∨ q = .all := by
        by_cases h1 : q = .the
        · exact .inl h1
        · exact .inr (hc.1 h1)
      dsimp only at h
      split at h
      · cases h
      · next v other hlr =>
        split at h
        · cases h
        · next hpv =>
          have hx : x = v.n ∧ e = other ∧ ∀ w, e ≠ .var w := by
            split at h <;> cases h <;> simp
          obtain ⟨rfl, rfl, h3⟩ := hx
          refine ⟨hq, by simpa using hpv, h3, v, rfl, ?_⟩
          split at hlr
          · cases hlr; exact .inl rfl
          · cases hlr; exact .inr rfl
          · cases hlr
  · cases h

theorem subOf_own {st : SState} {q : Quant} {r : Node} {m x : Nat} {e : Node} (ho : Own m r)
    (h : subOf st q (some r) = some (x, e)) : x = m ∧ m ∉ VN e := by
  obtain ⟨-, -, h3, v, hv, h4⟩ := subOf_form h
  obtain ⟨w, e', hw, hm, h5⟩ := ho
  rw [mentions_iff] at hm
  rcases h4 with h4 | h4 <;> cases h4 <;> rcases h5 with h5 | h5 <;> cases h5
  · exact ⟨hv.symm.trans hw, hm⟩
  · exact absurd rfl (h3 w)
  · exact absurd rfl (h3 w)
  · exact ⟨hv.symm.trans hw, hm⟩

/-- Not an equation. -/
def NotEq (n : Node) : Prop := ∀ as, n ≠ .app (.name ['=']) as

theorem subOf_notEq {st : SState} {q : Quant} {r : Node} {e : Nat × Node} (hn : NotEq r) (h : subOf st q (some r) = some e) :
    False := by
  obtain ⟨-, -, -, v, hv, h4⟩ := subOf_form (x := e.1) (e := e.2) h
  rcases h4 with h4 | h4 <;> cases h4 <;> exact hn _ rfl

theorem subOf_pv {st st' : SState} (h : st.predVars = st'.predVars) (q : Quant) (r : Option Node) :
    subOf st q r = subOf st' q r := by
  unfold subOf; rw [h]

theorem stmtOk_lambdas {n : Node} (h : StmtOk V false n) : lambdas n = 0 := by
  cases n with
  | bind q id n f r s =>
    simp only [StmtOk] at h
    cases q <;> cases r <;> simp_all [lambdas]
  | _ => rfl

theorem simpBare (k : Nat) : ∀ {p : Node} {st st' : SState} {p' : Node}, Bare p → simpP k p st = some (p', st') →
    p' = p ∧ st' = st := by
  induction k with
  | zero => intro p st st' p' _ h; rw [simpP] at h; cases h
  | succ k ih =>
    intro p st st' p' hb h
    cases p with
    | name s => rw [simpP] at h <;> first | (cases h; exact ⟨rfl, rfl⟩) | simp
    | serial l r =>
      simp only [Bare] at hb
      rw [simpP] at h
      split at h
      · cases h
      · next h1 =>
        split at h
        · cases h
        · next h2 =>
          cases h
          obtain ⟨rfl, rfl⟩ := ih hb.1 h1
          obtain ⟨rfl, rfl⟩ := ih hb.2 h2
          exact ⟨rfl, rfl⟩
    | _ => simp [Bare] at hb

theorem bare_fits {X : Nat → Prop} : ∀ {p : Node}, Bare p → Fits X p ∧ SetP V p ∧ BN p = [] ∧ VN p = []
  | .name _, _ => by simp [Fits, SetP]
  | .serial l r, h => by
    simp only [Bare] at h
    have h1 := bare_fits (X := X) h.1
    have h2 := bare_fits (X := X) h.2
    simp [Fits, SetP, h1, h2]

/-! ### The induction -/

/-- How an argument and its simplification are related. -/
def ArgRel (L D : Nat → Prop) (st : SState) (a a' : Option Node) : Prop :=
  (a = none → a' = none) ∧ (a ≠ none → a' ≠ none) ∧ (∀ v, a = some (.var v) → L v.n → a' = some (.var v)) ∧
  ∀ x ∈ VNO a', x ∈ VNO a ∨ Ent D st VN x

def PostS (M : Model) (V : List Nat) (k : Nat) : Prop :=
  ∀ n st n' st' L D front, StmtOk V front n → Fits (fun x => L x ∨ D x) n → Ctx V L D st (BN n) →
    simpS k n st = some (n', st') →
    Out D st (BN n) (VN n) st' (BN n') (VN n') ∧ Fits L n' ∧ SetS V n' ∧ lambdas n' = lambdas n ∧
    (∀ ρ, M.stmt n' ρ = M.stmt n (ext M st.sub ρ)) ∧ (Tame n → NotEq n') ∧
    ∀ x, L x → (¬ Ent D st VN x) → Own x n → Own x n'

def PostR (M : Model) (V : List Nat) (k : Nat) : Prop :=
  ∀ r st r' st' L D, (∀ x, r = some x → StmtOk V false x) → FitsO (fun x => L x ∨ D x) r → Ctx V L D st (BNO r) →
    simpR k r st = some (r', st') →
    Out D st (BNO r) (VNO r) st' (BNO r') (VNO r') ∧ FitsO L r' ∧ SetR V r' ∧ (r' = none ↔ r = none) ∧
    (∀ x x', r = some x → r' = some x' → (∀ ρ, M.stmt x' ρ = M.stmt x (ext M st.sub ρ)) ∧
      (Tame x → NotEq x') ∧ ∀ y, L y → (¬ Ent D st VN y) → Own y x → Own y x')

def PostL (M : Model) (V : List Nat) (k : Nat) : Prop :=
  ∀ as st as' st' L D, ArgsOk V as → FitsL (fun x => L x ∨ D x) as → Ctx V L D st (BNL as) →
    simpArgs k as st = some (as', st') →
    Out D st (BNL as) (VNL as) st' (BNL as') (VNL as') ∧ FitsL L as' ∧ SetL V as' ∧
    List.Forall₂ (ArgRel L D st) as as' ∧ (∀ ρ, M.args as' ρ = M.args as (ext M st.sub ρ))

def PostA (M : Model) (V : List Nat) (k : Nat) : Prop :=
  ∀ a st a' st' L D, ArgOk V a → Fits (fun x => L x ∨ D x) a → Ctx V L D st (BN a) →
    simpA k a st = some (a', st') → ∃ x, a' = some x ∧
    Out D st (BN a) (VN a) st' (BN x) (VN x) ∧ Fits L x ∧ SetA V x ∧ (∀ v, a = .var v → L v.n → x = a) ∧
    (∀ ρ, M.arg x ρ = M.arg a (ext M st.sub ρ))

def PostPl (M : Model) (V : List Nat) (k : Nat) : Prop :=
  ∀ as st as' st' L D, ArgsOk V as → FitsL (fun x => L x ∨ D x) as → Ctx V L D st (BNL as) →
    simpPlural k as st = some (as', st') →
    Out D st (BNL as) (VNL as) st' (BNL as') (VNL as') ∧ FitsL L as' ∧ SetPl V as' ∧
    (∀ ρ xs, M.plural (xs ++ M.plur as' ρ) = M.plural (xs ++ M.plur as (ext M st.sub ρ)))

def PostP (M : Model) (V : List Nat) (k : Nat) : Prop :=
  ∀ p st p' st' L D, PredOk V p → Fits (fun x => L x ∨ D x) p → Ctx V L D st (BN p) →
    simpP k p st = some (p', st') →
    Out D st (BN p) (VN p) st' (BN p') (VN p') ∧ Fits L p' ∧ SetP V p' ∧
    (∀ ρ, M.pred p' ρ = M.pred p (ext M st.sub ρ)) ∧ (∀ b, p = .abs b → ∃ b', p' = .abs b' ∧ lambdas b' = lambdas b) ∧
    (∀ l r, p = .serial l r → ∃ l' r', p' = .serial l' r')

variable {M : Model}

theorem postR {k : Nat} (hS : PostS M V k) : PostR M V (k + 1) := by
  intro r st r' st' L D hok hf hc h
  cases r with
  | none =>
    rw [simpR] at h; cases h
    exact ⟨Out.id hc, trivial, trivial, Iff.rfl, fun x x' h => by cases h⟩
  | some r =>
    rw [simpR] at h
    split at h
    · cases h
    · next h1 =>
      cases h
      obtain ⟨i1, i2, i3, i4, i5, i6, i7⟩ := hS _ _ _ _ L D false (hok r rfl) hf hc h1
      refine ⟨i1, i2, i3, by simp, ?_⟩
      rintro x x' ⟨⟩ ⟨⟩
      exact ⟨i5, i6, i7⟩

theorem postL {k : Nat} (hL : PostL M V k) (hA : PostA M V k) : PostL M V (k + 1) := by
  obtain ⟨gS, gR, gL, gA, gPl, gP⟩ := simp_grows k
  intro as st as' st' L D hok hf hc h
  match as with
  | [] =>
    rw [simpArgs] at h; cases h
    exact ⟨Out.id hc, trivial, trivial, .nil, fun _ => rfl⟩
  | none :: as =>
    simp only [ArgsOk] at hok
    simp only [FitsL] at hf
    simp only [BNL_cons, BNO_none, List.nil_append] at hc
    rw [simpArgs] at h
    split at h
    · cases h
    · next h1 =>
      cases h
      obtain ⟨i1, i2, i3, i4, i5⟩ := hL _ _ _ _ L D hok.2 hf.2 hc h1
      refine ⟨by simpa using i1, ⟨trivial, i2⟩, by simpa [SetL] using i3, .cons ?_ i4, fun ρ => ?_⟩
      · exact ⟨fun h => h, fun h => h, by simp, by simp⟩
      · simp only [Model.args, Model.argO, i5]
  | some a :: as =>
    simp only [ArgsOk, ArgO] at hok
    simp only [FitsL, FitsO] at hf
    simp only [BNL_cons, BNO_some] at hc
    rw [simpArgs] at h
    split at h
    · cases h
    · next st1 h1 =>
      obtain ⟨x, rfl, j1, j2, j3, j4, j5⟩ := hA _ _ _ _ L D hok.1 hf.1 hc.left h1
      have hc1 := hc.next j1 (gA _ _ _ _ h1).1
      split at h
      · cases h
      · next h2 =>
        cases h
        obtain ⟨i1, i2, i3, i4, i5⟩ := hL _ _ _ _ L D hok.2 hf.2 hc1 h2
        refine ⟨by simpa using j1.append hc i1, ⟨j2, i2⟩, ⟨j3, i3⟩, .cons ⟨by simp, by simp, ?_, ?_⟩ ?_, fun ρ => ?_⟩
        · rintro v ⟨⟩ hv
          exact congrArg some (j4 v rfl hv)
        · exact j1.vars
        · refine i4.imp ?_
          rintro a b ⟨k1, k2, k3, k4⟩
          exact ⟨k1, k2, k3, fun x hx => (k4 x hx).imp_right (j1.ent hc)⟩
        · simp only [Model.args, Model.argO, i5, j5]
          congr 1
          refine (args_congr M fun y hy => ?_).1
          exact (den_congr M y (fitsL_iff.1 hf.2 y hy) (ext_next M hc j1 ρ)).2.1

theorem postA {k : Nat} (hS : PostS M V k) (hPl : PostPl M V k) : PostA M V (k + 1) := by
  intro a st a' st' L D hok hf hc h
  cases a with
  | var v =>
    simp only [Fits] at hf
    rw [simpA] at h
    rcases hf with hv | hv
    · rw [hc.live _ hv] at h
      cases h
      refine ⟨_, rfl, Out.id hc, hv, by simp [SetA], fun _ _ _ => rfl, fun ρ => ?_⟩
      simp only [Model.arg, ext, hc.live _ hv]
    · obtain ⟨h1, e, h2, h3, h4, h5⟩ := hc.drop _ hv
      rw [h2] at h
      cases h
      refine ⟨e, rfl, ⟨fun _ _ => rfl, ?_, ?_⟩, h3, h4, ?_, ?_⟩
      · exact fun b hb => ⟨.inr ⟨_, e, hv, h2, hb⟩, (h5 b hb).1⟩
      · exact fun x hx => .inr ⟨_, e, hv, h2, hx⟩
      · rintro w ⟨⟩ hw
        rw [hc.live _ hw] at h2; cases h2
      · intro ρ
        simp only [Model.arg, ext, h2]
  | plural as =>
    simp only [ArgOk] at hok
    simp only [Fits] at hf
    simp only [BN_plural] at hc
    rw [simpA] at h
    split at h
    · cases h
    · next h1 =>
      cases h
      obtain ⟨i1, i2, i3, i4⟩ := hPl _ _ _ _ L D hok hf hc h1
      refine ⟨_, rfl, by simpa using i1, i2, i3, by simp, fun ρ => ?_⟩
      simpa only [Model.arg, List.nil_append] using i4 ρ []
  | abs s =>
    simp only [ArgOk] at hok
    simp only [Fits] at hf
    simp only [BN_abs] at hc
    rw [simpA] at h
    split at h
    · cases h
    · next h1 =>
      cases h
      obtain ⟨i1, i2, i3, i4, i5, -⟩ := hS _ _ _ _ L D true hok hf hc h1
      refine ⟨_, rfl, by simpa using i1, i2, i3, by simp, fun ρ => ?_⟩
      simp only [Model.arg, i5]
  | quote t f =>
    rw [simpA] at h
    · cases h
      exact ⟨_, rfl, Out.id hc, trivial, by simp [SetA], fun _ _ _ => rfl, fun ρ => rfl⟩
    all_goals simp
  | _ => simp [ArgOk] at hok

theorem BNL_append (as bs : List (Option Node)) : BNL (as ++ bs) = BNL as ++ BNL bs := by
  induction as with
  | nil => rfl
  | cons a as ih => simp [ih]

theorem VNL_append (as bs : List (Option Node)) : VNL (as ++ bs) = VNL as ++ VNL bs := by
  induction as with
  | nil => rfl
  | cons a as ih => simp [ih]

theorem plur_append (as bs : List (Option Node)) (ρ : Nat → M.D) : M.plur (as ++ bs) ρ = M.plur as ρ ++ M.plur bs ρ := by
  induction as with
  | nil => rfl
  | cons a as ih => simp [Model.plur, ih]

theorem setPl_append : ∀ {as bs : List (Option Node)}, SetPl V as → SetPl V bs → SetPl V (as ++ bs)
  | [], bs, _, h => h
  | none :: as, bs, h, _ => by simp [SetPl] at h
  | some a :: as, bs, h, h' => by
    simp only [SetPl, List.cons_append] at h ⊢
    exact ⟨h.1, h.2.1, setPl_append h.2.2 h'⟩

theorem postPl {k : Nat} (hM : M.Laws) (hA : PostA M V k) (hPl : PostPl M V k) : PostPl M V (k + 1) := by
  obtain ⟨gS, gR, gL, gA, gPl, gP⟩ := simp_grows k
  intro as st as' st' L D hok hf hc h
  match as with
  | [] =>
    rw [simpPlural] at h; cases h
    exact ⟨Out.id hc, trivial, trivial, fun _ _ => rfl⟩
  | none :: as =>
    simp only [ArgsOk] at hok
    simp only [FitsL] at hf
    simp only [BNL_cons, BNO_none, List.nil_append] at hc
    rw [simpPlural] at h
    obtain ⟨i1, i2, i3, i4⟩ := hPl _ _ _ _ L D hok.2 hf.2 hc h
    refine ⟨by simpa using i1, i2, i3, fun ρ xs => ?_⟩
    simp only [i4, Model.plur, Model.argO, Option.toList, List.nil_append]
  | some a :: as =>
    simp only [ArgsOk, ArgO] at hok
    simp only [FitsL, FitsO] at hf
    simp only [BNL_cons, BNO_some] at hc
    rw [simpPlural] at h
    split at h
    · cases h
    · next st1 h1 =>
      obtain ⟨x, rfl, j1, j2, j3, j4, j5⟩ := hA _ _ _ _ L D hok.1 hf.1 hc.left h1
      have hc1 := hc.next j1 (gA _ _ _ _ h1).1
      split at h
      · cases h
      · next as1 st2 h2 =>
        obtain ⟨i1, i2, i3, i4⟩ := hPl _ _ _ _ L D hok.2 hf.2 hc1 h2
        have e1 : ∀ ρ, M.plur as (ext M st1.sub ρ) = M.plur as (ext M st.sub ρ) := fun ρ =>
          (args_congr M fun y hy => (den_congr M y (fitsL_iff.1 hf.2 y hy) (ext_next M hc j1 ρ)).2.1).2
        by_cases hx : ∃ bs, x = .plural bs
        · obtain ⟨bs, rfl⟩ := hx
          cases h
          refine ⟨?_, ?_, setPl_append (by simpa [SetA] using j3) i3, fun ρ xs => ?_⟩
          · simpa [BNL_append, VNL_append] using j1.append hc i1
          · rw [fitsL_iff]
            intro y hy
            rcases List.mem_append.1 hy with hy | hy
            · exact fitsL_iff.1 (by simpa [Fits] using j2) y hy
            · exact fitsL_iff.1 i2 y hy
          · rw [plur_append, ← List.append_assoc, i4, e1, ← hM.flat]
            have := j5 ρ
            simp only [Model.arg] at this
            simp only [Model.plur, Model.argO, Option.toList, this, List.singleton_append]
        · have hp : isPlural x = false := by
            cases x <;> simp [isPlural] at hx ⊢
          have h' : (some x :: as1, st2) = (as', st') := by
            cases x <;> simp [isPlural] at hp <;> simpa using h
          cases h'
          refine ⟨by simpa using j1.append hc i1, ⟨j2, i2⟩, ⟨hp, j3, i3⟩, fun ρ xs => ?_⟩
          have := i4 ρ (xs ++ [M.arg x ρ])
          rw [e1] at this
          simpa only [Model.plur, Model.argO, Option.toList, List.singleton_append, List.append_assoc, ← j5] using this

theorem postP {k : Nat} (hS : PostS M V k) (hP : PostP M V k) : PostP M V (k + 1) := by
  obtain ⟨gS, gR, gL, gA, gPl, gP⟩ := simp_grows k
  intro p st p' st' L D hok hf hc h
  cases p with
  | name s =>
    rw [simpP] at h
    · cases h; exact ⟨Out.id hc, trivial, by simp [SetP], fun _ => rfl, by simp, by simp⟩
    all_goals simp
  | abs s =>
    simp only [PredOk] at hok
    simp only [Fits] at hf
    simp only [BN_abs] at hc
    rw [simpP] at h
    split at h
    · cases h
    · next h1 =>
      cases h
      obtain ⟨i1, i2, i3, i4, i5, -⟩ := hS _ _ _ _ L D true hok hf hc h1
      refine ⟨by simpa using i1, i2, i3, fun ρ => ?_, ?_, by simp⟩
      · simp only [Model.pred, i5]
      · rintro _ ⟨⟩; exact ⟨_, rfl, i4⟩
  | serial l r =>
    simp only [PredOk] at hok
    simp only [Fits] at hf
    simp only [BN_serial] at hc
    rw [simpP] at h
    split at h
    · cases h
    · next h1 =>
      obtain ⟨i1, i2, i3, i4, -⟩ := hP _ _ _ _ L D hok.1 hf.1 hc.left h1
      have hc1 := hc.next i1 (gP _ _ _ _ h1).1
      split at h
      · cases h
      · next h2 =>
        cases h
        obtain ⟨j1, j2, j3, j4, -⟩ := hP _ _ _ _ L D hok.2 hf.2 hc1 h2
        refine ⟨by simpa using i1.append hc j1, ⟨i2, j2⟩, ⟨i3, j3⟩, fun ρ => ?_, by simp, by simp⟩
        simp only [Model.pred, i4, j4]
        rw [(den_congr M r hf.2 (ext_next M hc i1 ρ)).2.2]
  | swap p pos =>
    simp only [PredOk] at hok
    rw [simpP] at h
    split at h
    · cases h
    · next h1 =>
      obtain ⟨rfl, rfl⟩ := simpBare _ hok h1
      cases h
      have := bare_fits (X := L) (V := V) hok
      refine ⟨Out.id hc, this.1, this.2.1, fun ρ => ?_, by simp, by simp⟩
      simp only [Model.pred]
      rw [(den_congr M _ (bare_fits (X := fun _ => False) (V := V) hok).1 (fun _ h => h.elim)).2.2]
  | _ => simp [PredOk] at hok

/-! ### Predications -/

theorem somes : ∀ {as : List (Option Node)}, (∀ a ∈ as, a ≠ none) → ∃ l : List Node, as = l.map some
  | [], _ => ⟨[], rfl⟩
  | none :: as, h => absurd rfl (h none (by simp))
  | some a :: as, h => by
    obtain ⟨l, rfl⟩ := somes (as := as) fun x hx => h x (by simp [hx])
    exact ⟨a :: l, rfl⟩

theorem args_somes (l : List Node) (ρ : Nat → M.D) : M.args (l.map some) ρ = (l.map (M.arg · ρ)).map some := by
  induction l with
  | nil => rfl
  | cons a l ih => simp only [List.map_cons, Model.args, Model.argO, ih]

theorem filter_somes (l : List Node) : ((l.map some).filter (·.isSome)).length = l.length := by
  induction l with
  | nil => rfl
  | cons a l ih => simpa using ih

theorem args_getD (as : List (Option Node)) (ρ : Nat → M.D) (i : Nat) : (M.args as ρ).getD i none = M.argO (as.getD i none) ρ := by
  induction as generalizing i with
  | nil => simp [Model.args, Model.argO]
  | cons a as ih =>
    cases i with
    | zero => simp [Model.args]
    | succ i => simpa [Model.args] using ih i

theorem args_length (as : List (Option Node)) (ρ : Nat → M.D) : (M.args as ρ).length = as.length := by
  induction as with
  | nil => rfl
  | cons a as ih => simp [Model.args, ih]

theorem exchanged_args (as : List (Option Node)) (k : Nat) (ρ : Nat → M.D) :
    Model.Exchanged k (M.args as ρ) (M.args (swapArgs as k) ρ) := by
  have h := C41_swap as k
  refine ⟨?_, ?_, ?_, ?_⟩
  · rw [args_length, args_length, (h 0).1]
  · rw [args_getD, args_getD, (h 0).2.1]
  · rw [args_getD, args_getD, (h 0).2.2.1]
  · intro i h0 hk
    rw [args_getD, args_getD, (h i).2.2.2 h0 hk]

theorem mem_swapArgs {as : List (Option Node)} {k : Nat} {x : Node} (h : some x ∈ swapArgs as k) : some x ∈ as := by
  obtain ⟨i, hi, he⟩ := List.getElem_of_mem h
  have hg : (swapArgs as k).getD i none = some x := by rw [List.getD_eq_getElem _ _ hi, he]
  have mem : ∀ j, as.getD j none = some x → some x ∈ as := by
    intro j hj
    by_cases hl : j < as.length
    · rw [List.getD_eq_getElem _ _ hl] at hj
      exact hj ▸ List.getElem_mem hl
    · rw [List.getD_eq_default _ _ (by omega)] at hj; cases hj
  have hs := C41_swap as k
  by_cases h0 : i = 0
  · subst h0; exact mem k (by rw [← (hs 0).2.1]; exact hg)
  · by_cases hk : i = k
    · subst hk; exact mem 0 (by rw [← (hs 0).2.2.1]; exact hg)
    · exact mem i (by rw [← (hs i).2.2.2 h0 hk]; exact hg)

theorem setL_iff : ∀ {as : List (Option Node)}, SetL V as ↔ ∀ x, some x ∈ as → SetA V x
  | [] => by simp [SetL]
  | none :: as => by simp [SetL, setL_iff (as := as)]
  | some a :: as => by simp [SetL, setL_iff (as := as)]

theorem Out.shrink {bs vs bs' vs' bs'' vs'' : List Nat} {st3 : SState} (o : Out D st bs vs st2 bs' vs') (hs : st3.sub = st2.sub)
    (hb : ∀ b ∈ bs'', b ∈ bs') (hv : ∀ v ∈ vs'', v ∈ vs') : Out D st bs vs st3 bs'' vs'' :=
  ⟨fun x hx => by rw [hs]; exact o.keep x hx, fun b h => by rw [hs]; exact o.bind b (hb b h), fun v h => o.vars v (hv v h)⟩

theorem Out.widen {bs vs bs' vs' bs0 vs0 : List Nat} (o : Out D st bs vs st2 bs' vs')
    (hb : ∀ b ∈ bs, b ∈ bs0) (hv : ∀ v ∈ vs, v ∈ vs0) : Out D st bs0 vs0 st2 bs' vs' :=
  ⟨fun x hx => o.keep x fun h => hx (hb x h), fun b h => ⟨(o.bind b h).1.imp_left (hb b), (o.bind b h).2⟩,
    fun v h => (o.vars v h).imp_left (hv v)⟩

theorem own_args {x : Nat} {as as' : List (Option Node)} (hx : L x) (he : ¬ Ent D st VN x)
    (h : List.Forall₂ (ArgRel L D st) as as') (ho : Own x (.app (.name ['=']) as)) : Own x (.app (.name ['=']) as') := by
  obtain ⟨v, e, rfl, hm, ho⟩ := ho
  rw [mentions_iff] at hm
  have key : ∀ e', ArgRel L D st (some e) e' → ∃ e'', e' = some e'' ∧ ¬ mentions v.n e'' := by
    rintro e' ⟨-, h2, -, h4⟩
    cases e' with
    | none => exact absurd rfl (h2 (by simp))
    | some e' =>
      refine ⟨e', rfl, fun h => ?_⟩
      rw [mentions_iff] at h
      rcases h4 _ h with h | h
      · exact hm h
      · exact he h
  rcases ho with ho | ho
  · cases ho
    obtain ⟨b1, l1, h1, h2, rfl⟩ := List.forall₂_cons_left_iff.1 h
    obtain ⟨b2, l2, h3, h4, rfl⟩ := List.forall₂_cons_left_iff.1 h2
    cases h4
    obtain rfl := h1.2.2.1 v rfl hx
    obtain ⟨e'', rfl, hm'⟩ := key _ h3
    exact ⟨v, e'', rfl, hm', .inl rfl⟩
  · cases ho
    obtain ⟨b1, l1, h1, h2, rfl⟩ := List.forall₂_cons_left_iff.1 h
    obtain ⟨b2, l2, h3, h4, rfl⟩ := List.forall₂_cons_left_iff.1 h2
    cases h4
    obtain rfl := h3.2.2.1 v rfl hx
    obtain ⟨e'', rfl, hm'⟩ := key _ h1
    exact ⟨v, e'', rfl, hm', .inr rfl⟩

theorem postApp {k : Nat} (hM : M.Laws) (hS : PostS M V k) (hL : PostL M V k) (hP : PostP M V k)
    (p : Node) (as : List (Option Node)) (st st' : SState) (n' : Node) (L D : Nat → Prop)
    (hok : HeadOk V p as ∧ ArgsOk V as) (hf : Fits (fun x => L x ∨ D x) p ∧ FitsL (fun x => L x ∨ D x) as)
    (hc : Ctx V L D st (BN p ++ BNL as)) (h : simpS (k + 1) (.app p as) st = some (n', st')) :
    Out D st (BN p ++ BNL as) (VN p ++ VNL as) st' (BN n') (VN n') ∧ Fits L n' ∧ SetS V n' ∧ lambdas n' = 0 ∧
    (∀ ρ, M.stmt n' ρ = M.app (M.pred p (ext M st.sub ρ)) (M.args as (ext M st.sub ρ))) ∧ (Tame (.app p as) → NotEq n') ∧
    ∀ x, L x → (¬ Ent D st VN x) → Own x (.app p as) → Own x n' := by
  obtain ⟨gS, gR, gL, gA, gPl, gP⟩ := simp_grows k
  rw [simpS] at h
  split at h
  · cases h
  · next as1 st1 h1 =>
    obtain ⟨i1, i2, i3, i4, i5⟩ := hL _ _ _ _ L D hok.2 hf.2 hc.comm.left h1
    have g1 := gL _ _ _ _ h1
    have hc1 := hc.comm.next i1 g1.1
    have e1 : ∀ ρ, M.pred p (ext M st1.sub ρ) = M.pred p (ext M st.sub ρ) := fun ρ =>
      (den_congr M p hf.1 (ext_next M hc.comm i1 ρ)).2.2
    cases p with
    | swap p pos =>
      simp only [HeadOk] at hok
      have hb := bare_fits (X := L) (V := V) hok.1
      dsimp only at h
      cases k with
      | zero => rw [simpS] at h; cases h
      | succ k =>
        have hlk : ∀ x ∈ VNL (swapArgs as1 pos), st1.sub.lookup x = none := by
          intro x hx
          obtain ⟨y, hy, hx⟩ := mem_VNL.1 hx
          have hy := mem_swapArgs hy
          rcases fits_vars y (fitsL_iff.1 i2 y hy) x hx with h | h
          · exact hc1.live x h
          · exact (i1.bind x (mem_BNL.2 ⟨y, hy, h⟩)).2
        rw [simpS] at h
        split at h
        · cases h
        · next as2 st2 h2 =>
          obtain ⟨rfl, e2⟩ := (simp_again V k).2.2.1 _ _ _ _
            (setL_iff.2 fun x hx => setL_iff.1 i3 x (mem_swapArgs hx)) hc1.pv hlk h2
          have h3 : n' = .app p (swapArgs as1 pos) ∧ st' = st2 := by
            cases p with
            | name s =>
              dsimp only at h
              split at h
              · cases h
              · next h4 =>
                obtain ⟨rfl, rfl⟩ := simpBare _ (p := .name s) trivial h4
                cases h; exact ⟨rfl, rfl⟩
            | serial l r =>
              dsimp only at h
              split at h
              · cases h
              · next h4 =>
                obtain ⟨rfl, rfl⟩ := simpBare _ (p := .serial l r) hok.1 h4
                cases h; exact ⟨rfl, rfl⟩
            | _ => simp [Bare] at hok
          obtain ⟨rfl, rfl⟩ := h3
          refine ⟨?_, ⟨hb.1, ?_⟩, ⟨?_, ?_⟩, rfl, ?_, ?_, ?_⟩
          · refine (i1.widen (fun b h => List.mem_append_right _ h) (fun b h => List.mem_append_right _ h)).shrink e2 ?_ ?_
            · intro b hb'
              simp only [BN_app, hb.2.2.1, List.nil_append, mem_BNL] at hb' ⊢
              obtain ⟨y, hy, hb'⟩ := hb'
              exact ⟨y, mem_swapArgs hy, hb'⟩
            · intro b hb'
              simp only [VN_app, hb.2.2.2, List.nil_append, mem_VNL] at hb' ⊢
              obtain ⟨y, hy, hb'⟩ := hb'
              exact ⟨y, mem_swapArgs hy, hb'⟩
          · exact fitsL_iff.2 fun x hx => fitsL_iff.1 i2 x (mem_swapArgs hx)
          · cases p with
            | name s => trivial
            | serial l r => exact hb.2.1
            | _ => simp [Bare] at hok
          · exact setL_iff.2 fun x hx => setL_iff.1 i3 x (mem_swapArgs hx)
          · intro ρ
            simp only [Model.pred, Model.stmt]
            rw [(den_congr M p (σ := ext M st.sub ρ) (bare_fits (X := fun _ => False) (V := V) hok.1).1 (fun _ h => h.elim)).2.2,
              ← i5]
            exact (hM.swap _ pos _ _ (exchanged_args as1 pos ρ)).symm
          · intro ht as'
            cases p with
            | name s =>
              simp only [Tame] at ht
              rintro ⟨⟩; exact ht rfl
            | serial l r => simp
            | _ => simp [Bare] at hok
          · rintro x - - ⟨v, e, -, -, h | h⟩ <;> cases h
    | abs b =>
      simp only [HeadOk] at hok
      obtain ⟨⟨hnn, hlv, hob⟩, -⟩ := hok
      simp only [Fits] at hf
      have hnn1 : ∀ a ∈ as1, a ≠ none := by
        clear h h1 i1 i2 i3 i5 hc1 hc hf
        induction i4 with
        | nil => simp
        | cons hr _ ih =>
          intro a ha
          rcases List.mem_cons.1 ha with rfl | ha
          · exact hr.2.1 (hnn _ (by simp))
          · exact ih (fun a ha => hnn a (by simp [ha])) a ha
      obtain ⟨l, rfl⟩ := somes hnn1
      dsimp only at h
      rw [filter_somes] at h
      split at h
      · next hcond =>
        split at h
        · cases h
        · next h2 =>
          cases h
          obtain ⟨j1, j2, j3, j4, j5, -⟩ := hP _ _ _ _ L D (by simpa [PredOk] using hob) (by simpa [Fits] using hf.1) hc1 h2
          obtain ⟨b', rfl, hlb⟩ := j5 b rfl
          refine ⟨?_, ⟨j2, i2⟩, ⟨⟨j3, ?_⟩, i3⟩, rfl, fun ρ => ?_, fun _ _ => by simp, ?_⟩
          · simpa using i1.swapped hc j1
          · rw [filter_somes, hlb]; exact hcond
          · simp only [Model.stmt, j4, i5, e1]
          · rintro x - - ⟨v, e, -, -, h | h⟩ <;> cases h
      · next hcond =>
        simp only [not_or, Decidable.not_not] at hcond
        obtain ⟨hl0, hll⟩ := hcond
        simp only [← hll] at h
        simp only [BN_abs] at hc hc1
        have hargs : ∀ a ∈ l, Fits L a ∧ SetA V a ∧ ∀ c ∈ BN a, st1.sub.lookup c = none ∧ c ∉ BN b := by
          intro a ha
          have ha' : some a ∈ l.map some := by simpa using ha
          refine ⟨fitsL_iff.1 i2 a ha', setL_iff.1 i3 a ha', fun c hcb => ?_⟩
          obtain ⟨k1, k2⟩ := i1.bind c (mem_BNL.2 ⟨a, ha', hcb⟩)
          refine ⟨k2, fun hb => ?_⟩
          rcases k1 with k1 | k1
          · exact (List.nodup_append.1 hc.nodup).2.2 c hb c k1 rfl
          · exact (hc.ent k1).2 (by simp [hb])
        obtain ⟨D', b1, b2, b3, b4, b5, b6, b7, b8, b9⟩ := beta_ctx l b st1
          { st1 with sub := (lambdaBind l.length b (l.map some) st1.sub).2 } D hob hll.symm hf.1 hc1 hlv hargs rfl rfl
        have hu := fun ρ => updAll_ext M ρ l b st1.sub hll.symm
        have hbody : (lambdaBind l.length b (l.map some) st1.sub).1 = body b := by
          have hu := updAll_ext (std (A := Unit) (fun _ _ => True) (fun _ => ()) (fun _ => ())) (fun _ => []) l b st1.sub hll.symm
          exact hu.1
        rw [hbody] at h
        obtain ⟨j1, j2, j3, j4, j5, j6, -⟩ := hS _ _ _ _ L D' true b3 b2 b1 h
        refine ⟨⟨?_, ?_, ?_⟩, j2, j3, j4.trans b4, fun ρ => ?_, fun ht => j6 (b7 (by simpa [Tame] using ht)), ?_⟩
        · intro x hx
          simp only [BN_abs, List.mem_append, not_or] at hx
          rw [j1.keep x fun h => hx.1 (b5 x h), b8 x hx.1, i1.keep x hx.2]
        · intro c hcb
          obtain ⟨k1, k2⟩ := j1.bind c hcb
          refine ⟨?_, k2⟩
          simp only [BN_abs, List.mem_append]
          rcases k1 with k1 | k1
          · exact .inl (.inl (b5 c k1))
          · rcases b9 _ _ k1 with ⟨a, ha, hca⟩ | k1
            · exact (i1.bind c (mem_BNL.2 ⟨a, by simpa using ha, hca⟩)).1.imp_left .inr
            · exact .inr (i1.ent hc.comm k1)
        · intro c hcb
          simp only [VN_abs, List.mem_append]
          rcases j1.vars c hcb with k1 | k1
          · exact .inl (.inl (b6 c k1))
          · rcases b9 _ _ k1 with ⟨a, ha, hca⟩ | k1
            · exact (i1.vars c (mem_VNL.2 ⟨a, by simpa using ha, hca⟩)).imp_left .inr
            · exact .inr (i1.ent hc.comm k1)
        · rw [j5, ← i5, ← e1, args_somes]
          simp only [Model.pred]
          rw [lams_stmt M b, ← hll]
          have hne : l.map (M.arg · ρ) ≠ [] := by
            intro h0
            have := congrArg List.length h0
            simp only [List.length_map, List.length_nil] at this
            omega
          have hbt := hM.beta (fun ds => M.stmt (body b) (updAll M (ext M st1.sub ρ) (lamNums b) ds)) (l.map (M.arg · ρ)) hne
          rw [List.length_map] at hbt
          rw [hbt, (hu ρ).2]
        · rintro x - - ⟨v, e, -, -, h | h⟩ <;> cases h
    | name s =>
      dsimp only at h
      split at h
      · cases h
      · next h2 =>
        obtain ⟨rfl, rfl⟩ := simpBare _ (p := .name s) trivial h2
        cases h
        refine ⟨by simpa using i1, ⟨trivial, i2⟩, ⟨trivial, i3⟩, rfl, fun ρ => ?_, fun ht as' => ?_, fun x hx he ho => ?_⟩
        · simp only [Model.stmt, Model.pred, i5]
        · simp only [Tame] at ht
          rintro ⟨⟩; exact ht rfl
        · have hs : s = ['='] := by
            obtain ⟨v, e, -, -, h | h⟩ := ho <;> cases h <;> rfl
          subst hs
          exact own_args hx he i4 ho
    | serial l r =>
      simp only [HeadOk] at hok
      dsimp only at h
      split at h
      · cases h
      · next h2 =>
        cases h
        obtain ⟨j1, j2, j3, j4, -, j5⟩ := hP _ _ _ _ L D (by simpa [PredOk] using hok.1) hf.1 hc1 h2
        obtain ⟨l', r', rfl⟩ := j5 l r rfl
        refine ⟨?_, ⟨j2, i2⟩, ⟨j3, i3⟩, rfl, fun ρ => ?_, fun _ _ => by simp, ?_⟩
        · simpa using i1.swapped hc j1
        · simp only [Model.stmt, j4, i5, e1]
        · rintro x - - ⟨v, e, -, -, h | h⟩ <;> cases h
    | var v =>
      simp only [HeadOk] at hok
      simp only [Fits] at hf
      have hv : L v.n := by
        rcases hf.1 with hv | hv
        · exact hv
        · exact absurd hok.1 (hc.drop _ hv).1
      dsimp only at h
      split at h
      · cases h
      · next h2 =>
        cases k with
        | zero => rw [simpP] at h2; cases h2
        | succ k =>
          rw [simpP] at h2
          · cases h2
            cases h
            refine ⟨?_, ⟨hv, i2⟩, ⟨trivial, i3⟩, rfl, fun ρ => ?_, fun _ _ => by simp, ?_⟩
            · simpa only [BN_app, VN_app] using i1.swapped hc (Out.id (vs := VN (.var v)) hc1)
            · simp only [Model.stmt, Model.pred, i5, ext, hc.live _ hv]
            · rintro x - - ⟨v, e, -, -, h | h⟩ <;> cases h
          all_goals simp
    | _ => simp [HeadOk] at hok

theorem postS {k : Nat} (hM : M.Laws) (hS : PostS M V k) (hR : PostR M V k) (hL : PostL M V k) (hP : PostP M V k) :
    PostS M V (k + 1) := by
  obtain ⟨gS, gR, gL, gA, gPl, gP⟩ := simp_grows k
  intro n st n' st' L D front hok hf hc h
  cases n with
  | app p as =>
    simp only [StmtOk] at hok
    simp only [Fits] at hf
    simp only [BN_app] at hc
    simpa only [BN_app, VN_app, lambdas, Model.stmt] using postApp hM hS hL hP p as st st' n' L D hok hf hc h
  | conn c l r =>
    simp only [StmtOk] at hok
    simp only [Fits] at hf
    simp only [BN_conn] at hc
    rw [simpS] at h
    split at h
    · cases h
    · next h1 =>
      obtain ⟨i1, i2, i3, i4, i5, -⟩ := hS _ _ _ _ L D false hok.1 hf.1 hc.left h1
      have hc1 := hc.next i1 (gS _ _ _ _ h1).1
      split at h
      · cases h
      · next h2 =>
        cases h
        obtain ⟨j1, j2, j3, j4, j5, -⟩ := hS _ _ _ _ L D false hok.2 hf.2 hc1 h2
        refine ⟨by simpa using i1.append hc j1, ⟨i2, j2⟩, ⟨i3, j3⟩, rfl, fun ρ => ?_, fun _ _ => by simp, ?_⟩
        · simp only [Model.stmt, i5, j5]
          rw [(den_congr M r hf.2 (ext_next M hc i1 ρ)).1]
        · rintro x - - ⟨v, e, -, -, h | h⟩ <;> cases h
  | bind q id m f r s =>
    simp only [StmtOk] at hok
    simp only [Fits] at hf
    simp only [BN_bind] at hc
    obtain ⟨hq, hor, hos⟩ := hok
    obtain ⟨rfl, hm, hfr, hfs⟩ := hf
    rw [simpS] at h
    split at h
    · cases h
    · next r' st1 h1 =>
      have hcu := hc.under
      have hnd := List.nodup_cons.1 hc.nodup
      obtain ⟨i1, i2, i3, i4, i5⟩ := hR _ _ _ _ (fun x => L x ∨ x = id) D (fun x hx => by subst hx; exact hor.1)
        (by simpa [or_right_comm] using hfr) hcu.left h1
      have g1 := gR _ _ _ _ h1
      dsimp only at h
      split at h
      · next e hsub =>
        obtain ⟨x, e⟩ := e
        dsimp only at h
        obtain ⟨hq', hpv, -, v, hv, hform⟩ := subOf_form hsub
        cases r with
        | none => rw [i4.2 rfl] at hform; rcases hform with h | h <;> cases h
        | some r =>
        cases r' with
        | none => rcases hform with h | h <;> cases h
        | some r' =>
        obtain ⟨i5a, i5b, i5c⟩ := i5 r r' rfl rfl
        simp only [RestrOk] at hor
        simp only [FitsO, SetR, VNO_some, BNO_some] at i1 i2 i3 hfr hc hcu
        have hent : ¬ Ent D st VN id := by
          rintro ⟨m, e, hm, hl, hb⟩
          obtain ⟨-, e', hl', h3, -, h5⟩ := hc.drop m hm
          rw [hl] at hl'; cases hl'
          rcases fits_vars e h3 id hb with h | h
          · exact hc.apart id (by simp) (.inl h)
          · exact (h5 id h).2 (by simp)
        have hown : Own id r' := by
          rcases hor.2 with ht | ho
          · exact (subOf_notEq (i5b ht) hsub).elim
          · exact i5c id (.inr rfl) hent ho
        obtain ⟨rfl, hne⟩ := subOf_own hown hsub
        have hpv' : x ∉ V := by rw [← hc.pv, ← g1.1]; exact hpv
        have hsete : SetA V e := by
          rcases hform with hr | hr <;> cases hr <;> simp only [SetS, SetL] at i3 <;> first | exact i3.2.2.1 | exact i3.2.1
        have hfe : Fits (fun y => L y ∨ y = x) e := by
          rcases hform with hr | hr <;> cases hr <;> simp only [Fits, FitsL, FitsO] at i2 <;> first | exact i2.2.2.1 | exact i2.2.1
        have hbe : ∀ b ∈ BN e, b ∈ BN r' := by
          rcases hform with hr | hr <;> cases hr <;> intro b hb <;> simp [hb]
        have hve : ∀ b ∈ VN e, b ∈ VN r' := by
          rcases hform with hr | hr <;> cases hr <;> intro b hb <;> simp [hb]
        have hfe' : Fits L e := fits_change e hfe
          (fun y hy h => h.elim (fun h => h) fun h => absurd (h ▸ hy) hne) (fun b hb h => fits_binders e hfe b hb (.inl h))
        have hc0 : Ctx V L D st (BN r ++ x :: BN s) := hc.sub (by simp [or_left_comm]) (List.perm_middle.nodup_iff.2 hc.nodup)
        have hc1 := hc0.next i1 g1.1
        have hnd0 := List.nodup_append.1 hc0.nodup
        have hbe' : ∀ b ∈ BN e, st1.sub.lookup b = none ∧ b ∉ x :: BN s := by
          intro b hb
          obtain ⟨k1, k2⟩ := i1.bind b (hbe b hb)
          refine ⟨k2, fun hb' => ?_⟩
          rcases k1 with k1 | k1
          · exact hnd0.2.2 b k1 b hb' rfl
          · exact (hc0.ent k1).2 (List.mem_append_right _ hb')
        obtain ⟨st2, hst2⟩ : ∃ st2 : SState, st2 = ⟨(x, some e) :: st1.sub, st1.predVars, (x, some r') :: st1.defs⟩ := ⟨_, rfl⟩
        rw [← hst2] at h
        have hsub2 : st2.sub = (x, some e) :: st1.sub := by rw [hst2]
        have hc2 := hc1.add hfe' hsete hpv' hbe' hsub2 (by rw [hst2])
        obtain ⟨j1, j2, j3, j4, j5, j6, -⟩ := hS _ _ _ _ L (fun y => D y ∨ y = x) _ hos
          (fits_iff (fun y => by simp [or_assoc]) hfs) hc2 h
        refine ⟨⟨?_, ?_, ?_⟩, j2, j3, ?_, fun ρ => ?_, fun ht => j6 (by simpa [Tame] using ht), ?_⟩
        · intro y hy
          simp only [BN_bind, BNO_some, List.mem_cons, List.mem_append, not_or] at hy
          rw [j1.keep y hy.2.2, hsub2, lookup_cons_ne hy.1, i1.keep y hy.2.1]
        · intro b hb
          obtain ⟨k1, k2⟩ := j1.bind b hb
          refine ⟨?_, k2⟩
          simp only [BN_bind, BNO_some, List.mem_cons, List.mem_append]
          rcases k1 with k1 | k1
          · exact .inl (.inr (.inr k1))
          · rcases Ent.add hc1 hsub2 k1 with k1 | k1
            · exact (i1.bind b (hbe b k1)).1.imp_left fun h => .inr (.inl h)
            · exact .inr (i1.ent hc0 k1)
        · intro b hb
          simp only [VN_bind, VNO_some, List.mem_append]
          rcases j1.vars b hb with k1 | k1
          · exact .inl (.inr k1)
          · rcases Ent.add hc1 hsub2 k1 with k1 | k1
            · exact (i1.vars b (hve b k1)).imp_left .inl
            · exact .inr (i1.ent hc0 k1)
        · rw [j4]
          have : StmtOk V false s := by simpa using hos
          rw [stmtOk_lambdas this]
          cases q <;> rfl
        · have hr : ∀ d, M.stmt r (upd (ext M st.sub ρ) x d) = M.stmt r' (upd ρ x d) := by
            intro d
            rw [i5a]
            exact (den_congr M r hfr fun y hy => ext_under M hc ρ d y (by simpa [or_right_comm] using hy)).1
          have he : ∀ d, M.arg e (upd ρ x d) = M.arg e ρ := fun d =>
            (den_congr M e hfe' fun y hy => by
              have : y ≠ x := by rintro rfl; exact hc.apart y (by simp) (.inl hy)
              simp [upd, this]).2.1
          have hs : M.stmt n' ρ = M.stmt s (upd (ext M st.sub ρ) x (M.arg e ρ)) := by
            rw [j5, hsub2, ← ext_add]
            refine (den_congr M s hfs fun y hy => ?_).1
            unfold upd
            split
            · rfl
            · next hyx => exact ext_next M hc0 i1 ρ y (hy.resolve_right hyx)
          rw [hs]
          simp only [Model.stmt, Model.restr, hr]
          rcases hform with hr' | hr' <;> cases hr' <;>
            simp only [Model.stmt, Model.pred, Model.args, Model.argO, Model.arg, he, hv, upd_same]
          · exact (hM.eqL q (M.arg e ρ) (fun d => M.stmt s (upd (ext M st.sub ρ) x d)) hq').symm
          · exact (hM.eqR q (M.arg e ρ) (fun d => M.stmt s (upd (ext M st.sub ρ) x d)) hq').symm
        · rintro x - - ⟨v, e, -, -, h | h⟩ <;> cases h
      · next hsub =>
        split at h
        · cases h
        · next s' st2 h2 =>
          cases h
          have i1' : Out D st (BNO r) (VNO r) { st1 with defs := (id, r') :: st1.defs } (BNO r') (VNO r') :=
            ⟨i1.keep, i1.bind, i1.vars⟩
          obtain ⟨j1, j2, j3, j4, j5, -⟩ := hS _ { st1 with defs := (id, r') :: st1.defs } _ _ (fun x => L x ∨ x = id) D _ hos
            (by simpa [or_right_comm] using hfs) (hcu.next i1' g1.1) h2
          refine ⟨?_, ⟨rfl, fun h => hm (.inl h), i2, j2⟩, ⟨i3, fun st3 h3 => ?_, j3⟩, ?_, fun ρ => ?_, fun _ _ => by simp, ?_⟩
          · simpa using (i1'.append hcu j1).under hc
          · rw [← hsub]; exact subOf_pv (by rw [h3, ← hc.pv]; exact g1.1.symm) _ _
          · cases q <;> cases r <;> cases r' <;> simp_all [lambdas]
          · simp only [Model.stmt]
            have hs : (fun d => M.stmt s' (upd ρ id d)) = fun d => M.stmt s (upd (ext M st.sub ρ) id d) := by
              funext d
              rw [j5]
              refine (den_congr M s hfs fun x hx => ?_).1
              rw [ext_next M hcu i1' _ x (by simpa [or_right_comm] using hx)]
              exact (ext_under M hc ρ d x (by simpa [or_right_comm] using hx)).symm
            rw [hs]
            congr 1
            cases r with
            | none => rw [i4.2 rfl]; rfl
            | some r =>
              cases r' with
              | none => exact absurd (i4.1 rfl) (by simp)
              | some r' =>
                simp only [Model.restr, Option.some.injEq]
                funext d
                rw [(i5 r r' rfl rfl).1]
                refine (den_congr M r hfr fun x hx => ?_).1
                exact (ext_under M hc ρ d x (by simpa [or_right_comm] using hx)).symm
          · rintro x - - ⟨v, e, -, -, h | h⟩ <;> cases h
  | _ => simp [StmtOk] at hok

theorem post (hM : M.Laws) (V : List Nat) (k : Nat) :
    PostS M V k ∧ PostR M V k ∧ PostL M V k ∧ PostA M V k ∧ PostPl M V k ∧ PostP M V k := by
  induction k with
  | zero =>
    refine ⟨?_, ?_, ?_, ?_, ?_, ?_⟩
    · intro n st n' st' L D front _ _ _ h; rw [simpS] at h; cases h
    · intro n st n' st' L D _ _ _ h; rw [simpR] at h; cases h
    · intro n st n' st' L D _ _ _ h; rw [simpArgs] at h; cases h
    · intro n st n' st' L D _ _ _ h; rw [simpA] at h; cases h
    · intro n st n' st' L D _ _ _ h; rw [simpPlural] at h; cases h
    · intro n st n' st' L D _ _ _ h; rw [simpP] at h; cases h
  | succ k ih =>
    obtain ⟨hS, hR, hL, hA, hPl, hP⟩ := ih
    exact ⟨postS hM hS hR hL hP, postR hS, postL hL hA, postA hS hPl, postPl hM hA hPl, postP hS hP⟩

end Verif.Logic.Sem
