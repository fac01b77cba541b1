/-
C56: what adverbs and prepositions are said of.
-/
import Verif.Logic.DenPrenex

namespace Verif.Logic.Den
open Verif.Tone (Str)

section
variable {M : Model} {U : Uni} {A : Nat → AST.Node}
variable {dep : Dep} {lk : Tok → Option Nat} {s s1 s3 s4 t : St} {V V2 V3 : List Var} {Z Z2 Z3 : Args} {E Ea : List Ev} {n sub : Node}
  {x y : Nat} {v w : Var}

theorem content_val (hM : M.Laws) {B X : Nat → Prop} (ht : Tr B X sub) (hy : ¬ X y) (hv : v.n = y) (ρ : Nat → M.D) :
    M.stmt (Den.content sub y v w) ρ = M.app (M.name equalName) [some (ρ w.n), some (M.absD (M.stmt sub ρ))] := by
  have hb := hM.beta (fun ds => M.app (M.name equalName) [some (ds.headD M.d0), some (M.absD (M.stmt sub ρ))]) [ρ w.n] (by simp)
  simp only [List.length_cons, List.length_nil, Model.lams, List.map_cons, List.map_nil, List.headD_cons] at hb
  rw [← hb]
  simp only [content, Model.stmt, Model.pred, Model.args, Model.argO, Model.arg, Model.restr, hv]
  congr 3
  funext d
  rw [(val_congr sub (ρ := upd ρ y d) (σ := ρ) ht ?_).1]
  · simp [upd]
  · intro z hz
    have : z ≠ y := by rintro rfl; exact hy hz
    simp [upd, this]

theorem bind_content (hM : M.Laws) {B X : Nat → Prop} (ht : Tr B X sub) (hy : ¬ X y) (hx : ¬ X x) (hv : v.n = y) (hw : w.n = x)
    {q : Quant} (hq : q = .the ∨ q = .all) (fo : Bool) (ρ : Nat → M.D) :
    M.stmt (.bind q x x fo (some (Den.content sub y v w)) n) ρ = M.stmt n (upd ρ x (M.absD (M.stmt sub ρ))) := by
  rw [Model.stmt, Model.restr, ← hM.eqL q (M.absD (M.stmt sub ρ)) (fun d => M.stmt n (upd ρ x d)) hq]
  congr 2
  funext d
  rw [content_val hM ht hy hv, (val_congr sub (ρ := upd ρ x d) (σ := ρ) ht ?_).1]
  · simp [upd, hw, equalName]
  · intro z hz
    have : z ≠ x := by rintro rfl; exact hx hz
    simp [upd, this]

/-- The content of what follows is bound in its place. -/
theorem Res.inPlace (hM : M.Laws) {den den2 den3 : (Nat → M.D) → Env M → List (M.D × Nat) → M.B}
    (h : Res M U A dep lk s s1 V Z E sub den) (hE : Evo s1 s3 []) (hn3 : s3.n = s1.n + 2) (ht3 : s3.the = s1.the)
    (hx : x = s1.n) (hy : y = s1.n + 1) (hv : v.n = y) (hvd : v.dfn = some y) (hw : w.n = x) (hwd : w.dfn = some x)
    (h2 : Res M U A dep lk s3 s4 V2 Z2 Ea n den2) (hs : Sees dep lk s (toks (E ++ Ea)))
    (hV : ∀ z ∈ V, z ∈ V3) (hV2 : ∀ z ∈ V2, z ∈ V3 ∨ z.n = x) (hV3 : ∀ z ∈ V3, z ∈ V ∨ z ∈ V2) (hlt : ∀ z ∈ V3, z.n < s.n)
    (hd : ∀ L env ρ, den2 L env (vals (upd ρ x (M.absD (den L env (vals ρ Z)))) Z2) = den3 L env (vals ρ Z3)) :
    Res M U A dep lk s s4 V3 Z3 (E ++ Ea) (.bind .all x x false (some (Den.content sub y v w)) n) den3 := by
  have hn1 := h.evo.n
  have hn4 := h2.evo.n
  have hfr : ∀ z, s1.n ≤ z → z < s3.n → z ∉ ids s4.the := by
    intro z hz hz' hm
    rcases h2.evo.the_new hm with h' | h'
    · rw [ht3] at h'; exact h.inv.fresh hz h'
    · omega
  have hX : ∀ z, s1.n ≤ z → ¬ Xs lk s1 (toks E) V z := by
    intro z hz hx
    rcases hx with ⟨t, ht, hx⟩ | ⟨u, hu, rfl⟩ | hx
    · obtain ⟨b, h1, h2, -⟩ := hs t (by simp at ht; simp [ht])
      rw [hx] at h1
      cases h1
      omega
    · have := hlt u (hV u hu)
      omega
    · exact h.inv.fresh hz hx
  have hE1 : Evo s s3 (argIds E) := by
    have := h.evo.trans hE
    rwa [List.append_nil] at this
  refine ⟨by rw [argIds_append]; exact hE1.trans h2.evo, h2.inv, ?_, ?_, ?_, ?_⟩
  · refine ⟨rfl, ⟨by omega, by omega, hfr x (by omega) (by omega)⟩, ?_, ?_⟩
    · refine ⟨⟨rfl, ⟨by omega, by omega, hfr y (by omega) (by omega)⟩, trivial, ⟨trivial, ⟨?_, ?_⟩, ?_, trivial⟩⟩, ⟨?_, ?_⟩, trivial⟩
      · rw [hvd, hv]
      · exact .inr hv
      · refine h.tree.mono (fun b hb => (hb.right hE).right h2.evo) fun z hz => .inl (.inl (hz.mono (by simp; tauto) hV
          fun b hb => h2.evo.the_sub (hE.the_sub hb)))
      · rw [hwd, hw]
      · exact .inr hw
    · refine h2.tree.mono (fun b hb => hb.left hE1) fun z hz => ?_
      rcases hz with ⟨t, ht, hz⟩ | ⟨u, hu, rfl⟩ | hz
      · exact .inl (.inl ⟨t, by simp at ht; simp [ht], hz⟩)
      · exact (hV2 u hu).imp (fun h => .inr (.inl ⟨u, h, rfl⟩)) fun h => h
      · exact .inl (.inr (.inr hz))
  · intro t ht hdep b hb
    obtain ⟨b', e1, e2, -⟩ := hs t ht
    rw [hb] at e1
    cases e1
    refine ⟨by omega, ?_⟩
    rw [toks_append, List.mem_append] at ht
    refine ht.imp (fun h' => .inl ⟨by omega, .inr (.inr (.inr (.inl (h.occ t h' hdep b hb))))⟩) fun h' => h2.occ t h' hdep b hb
  · intro z hz hq
    have := hlt z hz
    refine ⟨by omega, ?_⟩
    refine (hV3 z hz).imp (fun h' => .inl ⟨by omega, .inr (.inr (.inr (.inl (h.occV z h' hq))))⟩) fun h' => h2.occV z h' ?_
    rw [hE1.quant _ this]; exact hq
  · intro L ρ env hg he
    rw [bind_content hM h.tree (hX y (by omega)) (hX x (by omega)) hv hw (.inr rfl),
      h.val L ρ env ((hg.evo h2.inv (Evo.refl s4)).evo h.inv (hE.trans h2.evo)) fun t ht => he t (by simp at ht; simp [ht])]
    rw [h2.val L _ env (hg.upd h2.inv (hfr x (by omega) (by omega)) _), hd]
    intro t ht b hb
    obtain ⟨b', e1, e2, -⟩ := hs t (by simp at ht; simp [ht])
    rw [hb] at e1
    cases e1
    have : b ≠ x := by omega
    rw [upd, if_neg this]
    exact he t (by simp at ht; simp [ht]) b hb

/-- What follows has nothing that varies. -/
theorem closed_sub {den : (Nat → M.D) → Env M → List (M.D × Nat) → M.B} (h : Res M U A dep lk s s1 V Z E sub den)
    (hs : Sees dep lk s (toks E)) (hV : VOk s V false) (hc : ClosedOr dep E) (ht : t.cleared = [])
    (hq : ∀ b < s1.n, t.quant b = s1.quant b) (hf : hasFreeVars t sub = false) :
    toks E = [] ∧ (∀ v ∈ V, s.quant v.n = .the) ∧ Tr (fun _ => True) (fun x => x ∈ ids s1.the) sub := by
  have hn := h.evo.n
  have key : ∀ x, x < s.n → Fr x sub → s.quant x = .the := by
    intro x hx hfr
    by_contra hne
    have := (hasFree_iff ht h.tree fun x hx => Bd.not_Xs hs hV.lt hx).2 ⟨x, hfr, by rw [hq x (by omega), h.evo.quant x hx]; exact hne⟩
    rw [hf] at this
    cases this
  have h1 : toks E = [] := by
    rcases hc with hc | ⟨t, ht, hd⟩
    · exact hc
    · obtain ⟨b, e1, e2, e3⟩ := hs t ht
      exact absurd (key b e2 (h.occ t ht hd b e1)) (e3.1 hd)
  have h2 : ∀ v ∈ V, s.quant v.n = .the := by
    intro v hv
    by_contra hne
    exact hne (key v.n (hV.lt v hv) (h.occV v hv hne))
  refine ⟨h1, h2, h.tree.mono (fun _ _ => trivial) fun x hx => ?_⟩
  rcases hx with ⟨t, ht, -⟩ | ⟨v, hv, rfl⟩ | hx
  · rw [h1] at ht; cases ht
  · exact h.evo.the_sub ((hV v hv).2.2 (h2 v hv) rfl)
  · exact hx

/-- A content is bound around the text. -/
theorem Inv.lift_content (h : Inv M U A s) (ht : t.the = s.the ++ [⟨.the, x, false, some (Den.content sub y v w)⟩])
    (hl : t.lifted = s.lifted) (hc : t.cleared = s.cleared) (hn : t.n = s.n + 2) (hx : x = s.n) (hy : y = s.n + 1)
    (hq : ∀ b < s.n, t.quant b = s.quant b) (hqx : t.quant x = .the) (hv : v.n = y) (hvd : v.dfn = some y) (hw : w.n = x)
    (hwd : w.dfn = some x) (htr : Tr (fun _ => True) (fun z => z ∈ ids s.the) sub) : Inv M U A t := by
  have hlk : ∀ i b, s.lifted.lookup i = some b → b < s.n := by
    intro i b hb
    obtain ⟨p, hp, e⟩ := mem_ids.1 (h.lift _ (mem_lookup hb))
    simp only at e
    rw [← e]
    exact (h.the p hp).1
  have hk : keys t = keys s := by rw [keys, hl]; rfl
  refine ⟨hc.trans h.cleared, ?_, ?_, ?_, ?_, ?_, ?_, ?_⟩
  · intro p hp
    rw [ht] at hp
    rcases List.mem_append.1 hp with hp | hp
    · obtain ⟨h1, h2⟩ := h.the p hp
      exact ⟨by omega, (hq _ h1).trans h2⟩
    · simp at hp
      subst hp
      exact ⟨by simp only; omega, hqx⟩
  · rw [ht, ids_append, List.nodup_append]
    refine ⟨h.nodup, by simp [ids], ?_⟩
    intro a ha b hb
    simp [ids] at hb
    subst hb
    rintro rfl
    exact h.fresh (by omega) ha
  · intro z hz
    rw [ht, ids_append]
    exact List.mem_append_left _ (h.lift z (hl ▸ hz))
  · rw [hl]; exact h.keysN
  · rw [ht, hl, ids_append, List.filter_append, h.order]
    have : x ∉ s.lifted.map (·.2) := by
      intro hm
      obtain ⟨z, hz, e⟩ := List.mem_map.1 hm
      have := h.lift z hz
      rw [e] at this
      exact h.fresh (by omega) this
    simp [ids]
    simpa using this
  · intro X p Y hp
    rw [hl]
    rw [ht] at hp
    rcases List.eq_nil_or_concat Y with rfl | ⟨Y', z, rfl⟩
    · obtain ⟨rfl, h2⟩ := List.append_inj' hp rfl
      cases h2
      refine ⟨rfl, _, rfl, .inr ⟨fun i hi => ?_, sub, y, v, w, rfl, hv, hvd, hw, hwd, h.fresh (by omega), by simp only; omega, htr⟩⟩
      have := hlk _ _ hi
      simp only at this
      omega
    · rw [List.concat_eq_append, ← List.cons_append, ← List.append_assoc] at hp
      obtain ⟨h1, h2⟩ := List.append_inj' hp rfl
      exact h.pend X p Y' h1
  · intro i hi
    rw [hk] at hi ⊢
    exact h.inner i hi

theorem Evo.lift_content {p : Pending} (ht : t.the = s.the ++ [p]) (hp : p.id = s.n)
    (hl : t.lifted = s.lifted) (hn : t.n = s.n + 2) (hq : ∀ b < s.n, t.quant b = s.quant b) (hh : t.hoa = s.hoa) (hi : t.hi = s.hi) :
    Evo s t [] :=
  ⟨by omega, hh, hi, hq, by rw [Den.keys, hl]; rfl, ⟨[], by simp [hl], by simp⟩, ⟨[p], ht, by simp; omega⟩⟩

/-- The content of what follows is bound around the text. -/
theorem Res.lift {den den2 den3 : (Nat → M.D) → Env M → List (M.D × Nat) → M.B}
    (h : Res M U A dep lk s s1 V Z E sub den) (hi3 : Inv M U A s3) (hE : Evo s1 s3 [])
    (ht3 : s3.the = s1.the ++ [⟨.the, x, false, some (Den.content sub y v w)⟩]) (hl3 : s3.lifted = s1.lifted)
    (hx : x = s1.n) (h1 : toks E = []) (hV : ∀ v ∈ V, s.quant v.n = .the)
    (h2 : Res M U A dep lk s3 s4 V2 Z2 Ea n den2) (hV2 : ∀ z ∈ V2, z.n = x)
    (hd : ∀ L env ρ, ρ x = M.absD (den L env (vals ρ Z)) → den2 L env (vals ρ Z2) = den3 L env (vals ρ Z)) :
    Res M U A dep lk s s4 V Z (E ++ Ea) n den3 := by
  have hE1 : Evo s s3 (argIds E) := by
    have := h.evo.trans hE
    rwa [List.append_nil] at this
  have hx3 : x ∈ ids s3.the := by rw [ht3, ids_append]; simp [ids]
  refine ⟨by rw [argIds_append]; exact hE1.trans h2.evo, h2.inv, ?_, ?_, ?_, ?_⟩
  · refine h2.tree.mono (fun b hb => hb.left hE1) fun z hz => ?_
    rcases hz with ⟨t, ht, hz⟩ | ⟨u, hu, rfl⟩ | hz
    · exact .inl ⟨t, by simp at ht; simp [ht], hz⟩
    · exact .inr (.inr (h2.evo.the_sub (by rw [hV2 u hu]; exact hx3)))
    · exact .inr (.inr hz)
  · intro t ht hdep b hb
    rw [toks_append, List.mem_append, h1] at ht
    exact ht.elim (by simp) fun h' => h2.occ t h' hdep b hb
  · intro z hz hq
    exact absurd (hV z hz) hq
  · intro L ρ env hg he
    have hg3 := hg.evo hi3 h2.evo
    have hg1 := hg3.evo h.inv hE
    rw [h2.val L ρ env hg fun t ht => he t (by simp at ht; simp [ht])]
    refine hd L env ρ ?_
    rw [← h.val L ρ env hg1 (by rw [h1]; simp)]
    refine hg3.adv ⟨.the, x, false, some (Den.content sub y v w)⟩ (by rw [ht3]; simp) ?_ sub y v w rfl
    intro i hi
    rw [hl3] at hi
    have := h.inv.lift _ (mem_lookup hi)
    exact h.inv.fresh (by simp only; omega) this

end

end Verif.Logic.Den
