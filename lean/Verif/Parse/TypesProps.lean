/-
Soundness of the types of `Verif.Parse.Types`: what a value of a type is, in terms of the text.
-/
import Verif.Parse.Types
import Verif.Peg.ExprProps

namespace Verif.Parse
open Verif.AST Verif.AST.Spec Verif.Peg
open Verif.Tone (Str)

variable (U : Uni) (I : Input)

/-- The words `l` cover the text from `p` to `q` in some order and are spelled like the text; the words `ol`
are in the order of the text. -/
structure TileP (p q : Nat) (ol l : List Tok) : Prop where
  perm : ∃ L, L.Perm l ∧ Tiles p q L
  order : Asc p q ol
  good : ∀ t ∈ l, GoodTok I t

theorem TileP.nil (p : Nat) : TileP I p p [] [] := ⟨⟨[], .nil, rfl⟩, Nat.le_refl p, by simp⟩

variable {I}

theorem TileP.app {p m q a b l l'} (h : TileP I p m a l) (h' : TileP I m q b l') :
    TileP I p q (a ++ b) (l ++ l') := by
  obtain ⟨L, h1, h2⟩ := h.perm
  obtain ⟨L', h3, h4⟩ := h'.perm
  refine ⟨⟨L ++ L', h1.append h3, h2.append h4⟩, h.order.app h'.order, fun t ht => ?_⟩
  · rcases List.mem_append.1 ht with ht | ht
    · exact h.good t ht
    · exact h'.good t ht

theorem TileP.of {p q a b l l'} (h : TileP I p q a l) (hb : a = b) (hl : l = l') :
    TileP I p q b l' := by
  subst hl hb
  exact h

theorem TileP.drop {p q a b l} (h : TileP I p q (a ++ b) l) : TileP I p q a l := ⟨h.perm, h.order.left, h.good⟩

theorem TileP.le {p q a l} (h : TileP I p q a l) : p ≤ q := by
  obtain ⟨L, _, h2⟩ := h.perm
  exact h2.le

variable (I)

def NP (p q : Nat) (n : Node) : Prop := wsIn n = true ∧ TileP I p q (ord n) (words n)
def WP (p q : Nat) (w : Word) : Prop := wsW w = true ∧ TileP I p q (ordW w) (wordsW w)
/-- An optional modifier. -/
def OM (p q : Nat) : Option Node → Prop
  | none => p = q
  | some x => accepts .mod (tag x) = true ∧ NP I p q x
def OW (p q : Nat) : Option Word → Prop
  | none => p = q
  | some w => WP I p q w
def LP (s : Srt) (p q : Nat) (l : List Node) : Prop :=
  l.isEmpty = false ∧ wsL s l = true ∧ TileP I p q (ordL l) (wordsL l)
/-- A string that renders the text from `p` to `q`, which is not empty. -/
def SP (p q : Nat) (s : Str) : Prop := p < q ∧ ∃ cs, Spans I p q cs ∧ Renders s cs

/-- The values of a type for the text from `p` to `q`. -/
def Mean : Ty → Nat → Nat → Val → Prop
  | .nul, p, q, v => v = .nil ∧ p = q
  | .unit, _, _, _ => True
  | .chr cs, p, q, v => ∃ c ∈ cs, v = .str [c] ∧ p < I.len ∧ ∃ w, I.next p = (c, w) ∧ q = p + w
  | .one cs, p, q, v => ∃ c ∈ cs, v = .str [c] ∧ SP I p q [c]
  | .sy cs, p, q, v => ∃ c ∈ cs, ∃ s, v = .str (c :: s) ∧ SP I p q (c :: s)
  | .raw, p, q, v => ∃ cs, v = .str cs ∧ p < q ∧ Spans I p q cs ∧ 'i' ∉ cs
  | .str, p, q, v => ∃ s, v = .str s ∧ SP I p q s
  | .word, p, q, v => ∃ w, v = .word w ∧ WP I p q w
  | .bare, p, q, v => ∃ w, v = .word w ∧ WP I p q w ∧ w.M = none
  | .opt t, p, q, v => (v = .nil ∧ p = q) ∨ Mean t p q v
  | .nd s, p, q, v => ∃ n, v = .node n ∧ accepts s (tag n) = true ∧ NP I p q n
  | .nodes, p, q, v => ∃ l, v = .nodes l ∧ LP I .elem p q l
  | .bar s, p, q, v => ∃ w r, v = .bar w r ∧ wsW w = true ∧ accepts s (tag r) = true ∧ wsIn r = true ∧
      TileP I p q (ordW w ++ ord r) (wordsW w ++ words r)
  | .con, p, q, v => ∃ a b m, v = .con a b ∧ WP I p m a ∧ WP I m q b
  | .cop1 s s', p, q, v => ∃ l w r, v = .cop1 l w r ∧ (accepts s (tag l) = true ∧ wsIn l = true) ∧ wsW w = true ∧
      (accepts s' (tag r) = true ∧ wsIn r = true) ∧
      TileP I p q (ord l ++ (ordW w ++ ord r)) (words l ++ (wordsW w ++ words r))
  | .cop s s', p, q, v => ∃ to0 to1 ru l r, v = .node (.cop .raw to0 to1 ru l r) ∧
      (to0.isSome = to1.isSome ∧ wsWO to0 = true ∧ wsWO to1 = true ∧ wsW ru = true) ∧
      (accepts s (tag l) = true ∧ wsIn l = true) ∧ (accepts s' (tag r) = true ∧ wsIn r = true) ∧
      TileP I p q (ord (.cop .raw to0 to1 ru l r)) (words (.cop .raw to0 to1 ru l r))
  | .lu, p, q, v => ∃ w st, v = .node (.lu .raw w st) ∧ wsW w = true ∧
      (accepts .statement (tag st) = true ∧ wsIn st = true) ∧
      TileP I p q (ord (.lu .raw w st)) (words (.lu .raw w st))
  | .part, p, q, v => ∃ w d, v = .part w d ∧ ∃ m, WP I p m w ∧ LP I .elem m q d
  | .miOpen, p, q, v => ∃ m ph, v = .node (.mi m none ph) ∧ ∃ k, WP I p k m ∧ accepts .phrase (tag ph) = true ∧ NP I k q ph
  | .poOpen, p, q, v => ∃ m a, v = .node (.po m none a) ∧ ∃ k, WP I p k m ∧ accepts .argument (tag a) = true ∧ NP I k q a
  | .predn, p, q, v => ∃ x ts, v = .node (.predication .raw x ts none) ∧ NP I p q (.predication .raw x ts none)
  | .sent3, p, q, v => ∃ st da, v = .node (.sentence none st da) ∧ NP I p q (.sentence none st da)
  | .pa k, p, q, v => ∃ id f qu x rel, v = .node (.predArg id f qu x rel) ∧ NP I p q (.predArg id f qu x rel) ∧
      (k < 1 → rel = none) ∧ (k < 2 → qu = none) ∧ (k < 3 → f = none)
  | .spaced, p, q, v => ∃ s m o, v = .word (.mk s p q o) ∧ SP I p m s ∧
      ((o = none ∧ m = q) ∨ ∃ n, o = some n ∧ accepts .space (tag n) = true ∧ NP I m q n)

/-! ### Subtypes -/

variable {I}

theorem mem_allTags (t : Tag) : t ∈ allTags := by
  cases t <;> first | decide | (rename_i k; cases k <;> decide)

theorem subS_accepts {s s' : Srt} {t : Tag} (h : subS s s' = true) (ht : accepts s t = true) : accepts s' t = true := by
  have := List.all_eq_true.1 h t (mem_allTags t)
  simpa [ht] using this

theorem inc_mem {cs ds : List Char} {c : Char} (h : inc cs ds = true) (hc : c ∈ cs) : c ∈ ds := by
  have := List.all_eq_true.1 h c hc
  simpa using this

theorem noI_mem {cs : List Char} {c : Char} (h : noI cs = true) (hc : c ∈ cs) : c ≠ 'i' := by
  rintro rfl
  simp [noI, hc] at h

theorem chr_span {p q c w} (h1 : p < I.len) (h2 : I.next p = (c, w)) (hq : q = p + w) :
    p < q ∧ Spans I p q [c] := by
  subst hq
  have hs : Spans I p (p + w) [c] := .cons h1 h2 (.nil _)
  exact ⟨hs.lt, hs⟩

theorem chr_SP {p q c w} (hc : c ≠ 'i') (h1 : p < I.len) (h2 : I.next p = (c, w)) (hq : q = p + w) : SP I p q [c] :=
  ⟨(chr_span h1 h2 hq).1, [c], (chr_span h1 h2 hq).2, .char c hc⟩

theorem sub0_mean {a b : Ty} {p q v} (h : sub0 a b = true) (hv : Mean I a p q v) : Mean I b p q v := by
  unfold sub0 at h
  split at h
  · trivial
  · obtain ⟨c, hc, h1⟩ := hv
    exact ⟨c, inc_mem h hc, h1⟩
  · simp only [Bool.and_eq_true] at h
    obtain ⟨c, hc, rfl, h1, w, h2, h3⟩ := hv
    exact ⟨c, inc_mem h.2 hc, rfl, chr_SP (noI_mem h.1 hc) h1 h2 h3⟩
  · simp only [Bool.and_eq_true] at h
    obtain ⟨c, hc, rfl, h1, w, h2, h3⟩ := hv
    exact ⟨c, inc_mem h.2 hc, [], rfl, chr_SP (noI_mem h.1 hc) h1 h2 h3⟩
  · obtain ⟨c, hc, rfl, h1, w, h2, h3⟩ := hv
    have := noI_mem h hc
    exact ⟨[c], rfl, (chr_span h1 h2 h3).1, (chr_span h1 h2 h3).2, by simpa using fun e => this e.symm⟩
  · obtain ⟨c, hc, rfl, h1, w, h2, h3⟩ := hv
    exact ⟨[c], rfl, chr_SP (noI_mem h hc) h1 h2 h3⟩
  · obtain ⟨c, hc, h1⟩ := hv
    exact ⟨c, inc_mem h hc, h1⟩
  · obtain ⟨c, hc, rfl, h1⟩ := hv
    exact ⟨c, inc_mem h hc, [], rfl, h1⟩
  · obtain ⟨c, hc, rfl, h1⟩ := hv
    exact ⟨[c], rfl, h1⟩
  · obtain ⟨c, hc, s, rfl, h1⟩ := hv
    exact ⟨c, inc_mem h hc, s, rfl, h1⟩
  · obtain ⟨c, hc, s, rfl, h1⟩ := hv
    exact ⟨c :: s, rfl, h1⟩
  · obtain ⟨cs, rfl, h1, h2, h3⟩ := hv
    exact ⟨cs, rfl, h1, cs, h2, .verbatim h3⟩
  · obtain ⟨w, rfl, h1, _⟩ := hv
    exact ⟨w, rfl, h1⟩
  · obtain ⟨n, rfl, h1, h2⟩ := hv
    exact ⟨n, rfl, subS_accepts h h1, h2⟩
  · rename_i i j
    have hij : i ≤ j := by simpa using h
    obtain ⟨id, f, qu, x, rel, rfl, h1, h2, h3, h4⟩ := hv
    exact ⟨id, f, qu, x, rel, rfl, h1, fun _ => h2 (by omega), fun _ => h3 (by omega), fun _ => h4 (by omega)⟩
  · obtain ⟨id, f, qu, x, rel, rfl, h1, _⟩ := hv
    exact ⟨_, rfl, h, h1⟩
  · obtain ⟨st, da, rfl, h1⟩ := hv
    exact ⟨_, rfl, h, h1⟩
  · have := eq_of_beq h
    subst this
    exact hv

theorem sub_mean {a b : Ty} {p q v} (h : sub a b = true) (hv : Mean I a p q v) : Mean I b p q v := by
  unfold sub at h
  split at h
  · split at h
    · exact .inl hv
    · rcases hv with hv | hv
      · exact .inl hv
      · exact .inr (sub0_mean h hv)
    · exact .inr (sub0_mean h hv)
  · exact sub0_mean h hv

theorem firstOk_mean {a b : Ty} {p q v} (hv : Mean I a p q v ∨ Mean I b p q v) (l : List Ty) :
    Mean I (firstOk a b l) p q v := by
  induction l with
  | nil => trivial
  | cons t ts ih =>
    simp only [firstOk]
    split
    · rename_i h
      simp only [Bool.and_eq_true] at h
      rcases hv with hv | hv
      · exact sub_mean h.1 hv
      · exact sub_mean h.2 hv
    · exact ih

theorem join_mean {a b : Ty} {p q v} (hv : Mean I a p q v ∨ Mean I b p q v) : Mean I (join a b) p q v :=
  firstOk_mean hv _

theorem SP.append {p m q a b} (h : SP I p m a) (h' : SP I m q b) : SP I p q (a ++ b) := by
  obtain ⟨h1, cs, h2, h3⟩ := h
  obtain ⟨h4, ds, h5, h6⟩ := h'
  exact ⟨by omega, cs ++ ds, h2.append h5, h3.append h6⟩

theorem cat_nil (v : Val) : cat v .nil = v := by cases v <;> rfl

theorem headOf_mean {a : Ty} {cs p q v} (h : headOf a = some cs) (hv : Mean I a p q v) : Mean I (.sy cs) p q v := by
  unfold headOf at h
  split at h
  · split at h
    · injection h with h
      subst h
      rename_i hn
      refine sub_mean (a := .chr _) ?_ hv
      simp only [sub, sub0, hn, Bool.true_and]
      exact List.all_eq_true.2 fun c hc => by simpa using hc
    · cases h
  · injection h with h
    subst h
    refine sub_mean (a := .one _) ?_ hv
    simp only [sub, sub0]
    exact List.all_eq_true.2 fun c hc => by simpa using hc
  · injection h with h
    subst h
    exact hv
  · cases h

theorem seqTy_mean {a b : Ty} {p m q x y} (h : Mean I a p m x) (h' : Mean I b m q y) :
    Mean I (seqTy a b) p q (cat x y) := by
  unfold seqTy
  split
  · rename_i ha
    have := eq_of_beq ha
    subst this
    obtain ⟨rfl, rfl⟩ := h
    cases y <;> exact h'
  · split
    · rename_i _ hb
      have := eq_of_beq hb
      subst this
      obtain ⟨rfl, rfl⟩ := h'
      rw [cat_nil]
      exact h
    · split
      · rename_i hs
        simp only [Bool.and_eq_true] at hs
        have hb := sub_mean hs.2 h'
        obtain ⟨ds, rfl, h4, h5, h6⟩ := hb
        split
        · rename_i cs hc
          obtain ⟨c, hc, s, rfl, h1⟩ := headOf_mean hc h
          exact ⟨c, hc, s ++ ds, rfl, h1.append ⟨h4, ds, h5, .verbatim h6⟩⟩
        · obtain ⟨cs, rfl, h1, h2, h3⟩ := sub_mean hs.1 h
          exact ⟨cs ++ ds, rfl, by omega, h2.append h5, by simp [h3, h6]⟩
      · split
        · rename_i hs
          simp only [Bool.and_eq_true] at hs
          obtain ⟨t, rfl, h2⟩ := sub_mean hs.2 h'
          split
          · rename_i cs hc
            obtain ⟨c, hc, s, rfl, h1⟩ := headOf_mean hc h
            exact ⟨c, hc, s ++ t, rfl, h1.append h2⟩
          · obtain ⟨s, rfl, h1⟩ := sub_mean hs.1 h
            exact ⟨s ++ t, rfl, h1.append h2⟩
        · trivial

theorem repTy_mean {a : Ty} {p m q x y} (h : Mean I a p m x)
    (h' : (y = .nil ∧ m = q) ∨ Mean I (repTy a) m q y) : Mean I (repTy a) p q (cons x y) := by
  unfold repTy at h' ⊢
  split
  · rename_i s
    simp only at h'
    split
    · rename_i hs
      rw [if_pos hs] at h'
      obtain ⟨n, rfl, h1, h2, h3⟩ := h
      have h1' := subS_accepts hs h1
      rcases h' with ⟨rfl, rfl⟩ | ⟨l, rfl, h4, h5, h6⟩
      · exact ⟨[n], rfl, rfl, by simp [wsL, h1', h2], h3.of (by simp [ordL]) (by simp [wordsL])⟩
      · exact ⟨n :: l, rfl, rfl, by simp [wsL, h1', h2, h5], (h3.app h6).of (by simp [ordL]) (by simp [wordsL])⟩
    · trivial
  · rename_i hne
    split at h'
    · exact absurd rfl (hne _)
    split
    · rename_i hs
      rw [if_pos hs] at h'
      obtain ⟨cs, rfl, h1, h2, h3⟩ := sub_mean hs h
      rcases h' with ⟨rfl, rfl⟩ | ⟨ds, rfl, h4, h5, h6⟩
      · exact ⟨cs, rfl, h1, h2, h3⟩
      · exact ⟨cs ++ ds, rfl, by omega, h2.append h5, by simp [h3, h6]⟩
    · rename_i hs
      rw [if_neg hs] at h'
      split
      · rename_i hs
        rw [if_pos hs] at h'
        obtain ⟨s, rfl, h1⟩ := sub_mean hs h
        rcases h' with ⟨rfl, rfl⟩ | ⟨t, rfl, h4⟩
        · exact ⟨s, rfl, h1⟩
        · exact ⟨s ++ t, rfl, h1.append h4⟩
      · trivial

theorem optTy_mean {a : Ty} {p q v} (h : (v = .nil ∧ p = q) ∨ Mean I a p q v) : Mean I (optTy a) p q v := by
  unfold optTy
  split
  · rcases h with h | h <;> exact h
  · rcases h with h | h
    · exact .inl h
    · exact h
  · exact h

theorem leafTy_mean {t p q} (hU : U.punct 'i' = false) (h : tm U I t p = .inl q) :
    Mean I (leafTy t) p q (.str [(I.next p).1]) := by
  unfold leafTy
  unfold tm at h
  split at h
  · rename_i cs p
    split at h
    · rename_i c w hr
      split at h
      · rename_i hc
        unfold Input.rune at hr
        split at hr
        · rename_i hp
          injection hr with hr
          injection h with h
          refine ⟨c, by simpa using hc, by rw [hr], hp, w, hr, h.symm⟩
        · cases hr
      · cases h
    · cases h
  · rename_i d p
    split at h
    · rename_i c w hr
      split at h
      · rename_i hc
        unfold Input.rune at hr
        split at hr
        · rename_i hp
          injection hr with hr
          injection h with h
          refine ⟨c, by simp [hc], by rw [hr], hp, w, hr, h.symm⟩
        · cases hr
      · cases h
    · cases h
  · trivial
  · split at h
    · rename_i c w hr
      split at h
      · split at h
        · rename_i hc
          unfold Input.rune at hr
          split at hr
          · rename_i hp
            injection hr with hr
            injection h with h
            have := chr_span hp hr h.symm
            refine ⟨[c], by rw [hr], this.1, this.2, ?_⟩
            intro hi
            have : c = 'i' := by simpa [eq_comm] using hi
            subst this
            rw [hU] at hc
            cases hc
          · cases hr
        · cases h
      · cases h
    · cases h

end Verif.Parse
