/-
C57: every rejected text gets an error with a location in the text, and what the error says is true.
-/
import Verif.Parse.Errors
import Verif.Parse.ParserProps
import Verif.Peg.FailEnd

namespace Verif.Parse
open Verif.AST Verif.Peg
open Verif.Tone (Str)

/-! ### Specification -/

/-- The runes that a terminal stands for. -/
def _root_.Verif.Peg.Term.has (U : Uni) : Term → Char → Prop
  | .cls cs, c => c ∈ cs
  | .lit d, c => c = d
  | .any, c => c ≠ bad
  | .punct, c => c ≠ bad ∧ U.punct c = true

/-- At `x` there is no rune that the terminal stands for. For punctuation, where the rune is read before it is
tested, `x` may also be the end of the rune. -/
def Lacks (U : Uni) (I : Input) (t : Term) (x : Nat) : Prop :=
  (∀ c w, I.rune x = some (c, w) → ¬ t.has U c) ∨
  (t = .punct ∧ ∃ p c w, I.rune p = some (c, w) ∧ p + w = x ∧ ¬ t.has U c)

/-- An expectation at `x` is not met: the terminal, rule or lookahead is not there. -/
def Unmet (U : Uni) (b : Bytes) (x : Nat) : Want Act → Prop
  | .term t => Lacks U (.ofBytes b) t x
  | .name r => Recog U toaq (.ofBytes b) (.ref r) x none
  | .and e => Recog U toaq (.ofBytes b) e x none
  | .not e => ∃ q, Recog U toaq (.ofBytes b) e x (some q)

/-- `loc` is the location of a rune boundary `x` of the text: the line is one more than the number of
newlines before it, the column one more than the number of runes after the last of them. -/
def Located (b : Bytes) (x : Nat) (loc : Loc) : Prop := ∃ pre post, runes b = pre ++ post ∧ width pre = x ∧
  loc = ⟨x, pre.length, 1 + newlines pre, 1 + lastLine pre⟩

/-! ### Runes -/

theorem runesF_eq : ∀ n m b, b.length ≤ n → b.length ≤ m → runesF n b = runesF m b := by
  intro n
  induction n with
  | zero =>
    intro m b hn hm
    have : b = [] := List.length_eq_zero_iff.1 (by omega)
    subst this
    cases m <;> rfl
  | succ n ih =>
    intro m b hn hm
    cases m with
    | zero =>
      have : b = [] := List.length_eq_zero_iff.1 (by omega)
      subst this; rfl
    | succ m =>
      simp only [runesF]
      split
      · rfl
      · rename_i h
        have := (decode_width b h).1
        have h1 : (b.drop (decode b).2).length ≤ n := by rw [List.length_drop]; omega
        have h2 : (b.drop (decode b).2).length ≤ m := by rw [List.length_drop]; omega
        rw [ih m _ h1 h2]

theorem runes_cons (b : Bytes) (h : b ≠ []) :
    runes b = ⟨(decode b).1, (decode b).2, (decode_width b h).1⟩ :: runes (b.drop (decode b).2) := by
  have h1 : runes b = runesF (b.length + 1) b := runesF_eq _ _ _ (Nat.le_refl _) (Nat.le_succ _)
  rw [h1, runesF, dif_neg h]
  congr 1
  exact runesF_eq _ _ _ (by rw [List.length_drop]; omega) (Nat.le_refl _)

theorem bnd_runes (b : Bytes) {p : Nat} (h : Bnd (.ofBytes b) p) :
    ∃ pre, runes b = pre ++ runes (b.drop p) ∧ width pre = p := by
  induction h with
  | zero => exact ⟨[], by simp, rfl⟩
  | @step p _ hp ih =>
    obtain ⟨pre, h1, h2⟩ := ih
    have hne : b.drop p ≠ [] := by
      intro h0; rw [List.drop_eq_nil_iff] at h0
      have : p < b.length := hp
      omega
    rw [runes_cons _ hne] at h1
    refine ⟨pre ++ [⟨(decode (b.drop p)).1, (decode (b.drop p)).2, (decode_width _ hne).1⟩], ?_, ?_⟩
    · rw [h1, List.drop_drop]; simp [Input.ofBytes]
    · simp [h2, Input.ofBytes]

theorem located_of_bnd (b : Bytes) {p : Nat} (h : Bnd (.ofBytes b) p) :
    ∃ loc, location (runes b) p = some loc ∧ Located b p loc := by
  obtain ⟨pre, h1, h2⟩ := bnd_runes b h
  refine ⟨_, ?_, pre, _, h1, h2, rfl⟩
  have := C25_location pre (runes (b.drop p))
  rw [← h1, h2] at this
  exact this

theorem lacks_of_tm {U : Uni} {I : Input} {t : Term} {p x : Nat} (h : tm U I t p = .inr x) : Lacks U I t x := by
  cases hr : I.rune p with
  | none =>
    have : x = p := by cases t <;> simp [tm, hr] at h <;> exact h.symm
    subst this
    exact .inl fun c w h' => by rw [hr] at h'; cases h'
  | some v =>
    obtain ⟨c, w⟩ := v
    have key : x = p → ¬ t.has U c → Lacks U I t x := by
      rintro rfl hn
      exact .inl fun c' w' h' => by rw [hr] at h'; cases h'; exact hn
    cases t with
    | cls cs =>
      simp only [tm, hr] at h
      split at h
      · cases h
      · rename_i hc; cases h; exact key rfl (by simpa [Term.has] using hc)
    | lit d =>
      simp only [tm, hr] at h
      split at h
      · cases h
      · rename_i hc; cases h; exact key rfl (by simpa [Term.has] using hc)
    | any =>
      simp only [tm, hr] at h
      split at h
      · cases h
      · rename_i hc; cases h; exact key rfl (by simpa [Term.has] using hc)
    | punct =>
      simp only [tm, hr] at h
      split at h
      · split at h
        · cases h
        · rename_i hc; cases h; exact .inr ⟨rfl, p, c, w, hr, rfl, by simp [Term.has, hc]⟩
      · rename_i hc; cases h; exact key rfl (fun h => hc h.1)

/-! ### Histories -/

variable (U : Uni) (b : Bytes)

/-- What is true of every node, in every history. -/
def NodeOk (f : Fail (Want Act)) : Prop :=
  Bnd (.ofBytes b) f.pos ∧ ∀ t, f.want = some (.term t) → Lacks U (.ofBytes b) t f.pos

variable {U b}

theorem bnd_closed {d : Tab (Option Nat × Nat)} {last err : Nat} (hd : AccInv U toaq (.ofBytes b) d) :
    Closed U toaq (.ofBytes b) d last err (fun _ p => Bnd (.ofBytes b) p) where
  ref h _ := h
  seqL h := h
  seqR h hr := hr.bnd hd h _ rfl
  altL h := h
  altR h _ := h
  opt h := h
  plusL h := h
  plusR h hr := hr.bnd hd h _ rfl
  starL h := h
  starR h hr := hr.bnd hd h _ rfl
  not h := h
  and h := h
  lab h := h
  grp h := h
  act h := h

theorem ruleFail_pos {F : Type} {G : Gram F} (r p o) (kids : List (Fail (Want F))) (i : Nat) :
    (ruleFail G r p o kids i).pos = p := by unfold ruleFail; split <;> rfl

theorem ruleFail_want {F : Type} {G : Gram F} {r p : Nat} {o : Option Nat} {kids : List (Fail (Want F))} {i : Nat}
    {w : Want F} (h : (ruleFail G r p o kids i).want = some w) : w = .name r ∧ o = none ∧ G.named r = true := by
  unfold ruleFail at h
  split at h
  · rename_i hn
    simp only [Fail.want] at h
    split at h
    · cases h; rename_i ho; exact ⟨rfl, by simpa using ho, hn⟩
    · cases h
  · cases h

theorem bnd_makes {d : Tab (Option Nat × Nat)} {last err : Nat} :
    Makes U toaq (.ofBytes b) d last err (fun _ p => Bnd (.ofBytes b) p) (NodeOk U b) where
  term h ht _ := ⟨(tm_bnd h).2 _ ht, fun t ht' => by cases ht'; exact lacks_of_tm ht⟩
  not h _ _ := ⟨h, fun t ht' => by cases ht'⟩
  and h _ _ := ⟨h, fun t ht' => by cases ht'⟩
  rule h _ _ := ⟨by rw [ruleFail_pos]; exact h, fun t ht => by have := (ruleFail_want ht).1; cases this⟩

/-- The state of a parser in a history. -/
structure EInv (U : Uni) (b : Bytes) (s : EP) : Prop where
  ps : PInv U b s.ps
  pool : ∃ P, Pool (NodeOk U b) P s.fs.next ∧ TabIn s.fs.tab P

theorem einv_new : EInv U b newEP := by
  refine ⟨pinv_new U b, fun _ => False, ⟨?_, ?_, ?_, ?_⟩, ?_⟩
  · exact fun _ h => h.elim
  · exact fun _ h => h.elim
  · exact fun _ _ h => h.elim
  · exact fun _ h => h.elim
  · intro p r f h; simp [newEP] at h

/-- The tree of an error, and its message. -/
structure ErrOk (U : Uni) (b : Bytes) (e : SynErr) : Prop where
  /-- the offset is in the text and at a rune boundary -/
  offset : ∃ x : Nat, byteOffset e.tree = x ∧ x ≤ b.length ∧ Located b x e.report.loc ∧
    e.report.got = (if x < b.length then some (slice b x (min (x + 10) b.length)) else none)
  /-- the message lists the wants of the leaves at that offset -/
  wants : e.report.want = (firsts ((leaves e.tree).filter fun l => (l.pos : Int) = byteOffset e.tree)).map Fail.want
  /-- nothing is expected that is there, as far as terminals are concerned -/
  unmet : ∀ l ∈ leaves e.tree, ∀ t, l.want = some (.term t) → Lacks U (.ofBytes b) t l.pos
  /-- the leaves want something, except when the tree has nothing but its root -/
  leaf : ∀ l ∈ leaves e.tree, l.want ≠ none ∨ l = e.tree

theorem noFail_leaves (i : Nat) : leaves (noFail (F := Act) i) = [noFail i] := by simp [noFail, leaves]

theorem noFail_consistent (i : Nat) : Consistent (noFail (F := Act) i) := by
  have : ∀ {f x : Fail (Want Act)}, Sub f x → f = noFail i → x = noFail i := by
    intro f x h
    induction h with
    | refl => exact fun h => h
    | kid hk _ _ => rintro rfl; cases hk
  intro x y hx hy _
  rw [this hx rfl, this hy rfl]

theorem report_ok {P : Fail (Want Act) → Prop} {n i : Nat} {f : Fail (Want Act)} (hP : Pool (NodeOk U b) P n)
    (hf : f = noFail i ∨ P f) : ∃ r, simpleError b f = some r ∧ ErrOk U b ⟨f, r⟩ := by
  have hc : Consistent f := by
    rcases hf with rfl | hf
    · exact noFail_consistent _
    · exact hP.consistent hf
  have hl : ∀ l ∈ leaves f, NodeOk U b l ∧ (l.want ≠ none ∨ l = f) := by
    intro l hl
    rcases hf with rfl | hf
    · rw [noFail_leaves, List.mem_singleton] at hl
      subst hl
      exact ⟨⟨.zero, fun t h => by cases h⟩, .inr rfl⟩
    · obtain ⟨h1, h2⟩ := hP.leaf hf hl
      refine ⟨h1, ?_⟩
      rcases h2 with h2 | h2
      · exact .inr h2
      · exact .inl (by intro h0; rw [h0] at h2; cases h2)
  obtain ⟨x, l, h1, h2⟩ := C24_first_leaf f hc
  have hx : x ∈ leaves f := by
    have : x ∈ leafFails f := by rw [h1]; exact List.mem_cons_self ..
    rw [C24_leafFails f hc] at this
    exact (List.mem_filter.1 (mem_firsts this)).1
  obtain ⟨loc, h3, h4⟩ := located_of_bnd b (hl x hx).1.1
  have hse : simpleError b f = some ⟨loc, (x :: l).map Fail.want,
      if x.pos < b.length then some (slice b x.pos (min (x.pos + 10) b.length)) else none⟩ := by
    unfold simpleError
    rw [h1]
    simp only [h3, Option.map_some]
  refine ⟨_, hse, ⟨x.pos, h2.symm, (hl x hx).1.1.le, h4, rfl⟩, ?_, fun l' hl' => (hl l' hl').1.2, fun l' hl' => (hl l' hl').2⟩
  simp only
  rw [C24_byteOffset, ← C24_leafFails f hc, h1]

theorem callE_ok (c : Call) (s : EP) (hs : EInv U b s) :
    EInv U b (callE U b c s).2.2 ∧ (callE U b c s).1 = (call U b c s.ps).1 ∧
    (∀ k, (callE U b c s).1 = .err k → ∃ e, (callE U b c s).2.1 = some e ∧ ErrOk U b e) := by
  have hp := (call_fresh U b c s.ps hs.ps).2
  obtain ⟨P, h1, h2⟩ := hs.pool
  unfold callE
  split
  · rename_i k ps hcall
    rw [hcall] at hp ⊢
    have ht := failRule_total U toaq (.ofBytes b) ps.as.tab ps.as.last k hp.as ranked rFull 0 s.fs (Nat.zero_le _)
    change failRule U toaq (.ofBytes b) ps.as.tab ps.as.last k (fuel b) rFull 0 s.fs ≠ none at ht
    cases hf : failRule U toaq (.ofBytes b) ps.as.tab ps.as.last k (fuel b) rFull 0 s.fs with
    | none => exact absurd hf ht
    | some v =>
      obtain ⟨f, fs⟩ := v
      obtain ⟨P', i1, i2, i3⟩ := failRule_pool (bnd_closed hp.as) bnd_makes hf .zero h1 h2
      obtain ⟨r, j1, j2⟩ := report_ok i1 i3
      refine ⟨⟨hp, P', i1, i2⟩, rfl, fun k' _ => ⟨_, ?_, j2⟩⟩
      simp only [j1, Option.map_some]
  · rename_i o ps hne hcall
    rw [hcall] at hp ⊢
    refine ⟨⟨hp, P, h1, h2⟩, rfl, fun k hk => ?_⟩
    simp only at hk
    exact (hne k hk).elim

theorem callsE_ok : ∀ (cs : List Call) (s : EP), EInv U b s → (callsE U b cs s).map Prod.fst = calls U b cs s.ps ∧
    ∀ k e, (Out.err k, e) ∈ callsE U b cs s → ∃ r, e = some r ∧ ErrOk U b r := by
  intro cs
  induction cs with
  | nil => intro s _; exact ⟨rfl, fun k e h => by cases h⟩
  | cons c cs ih =>
    intro s hs
    obtain ⟨h1, h2, h3⟩ := callE_ok c s hs
    obtain ⟨i1, i2⟩ := ih _ h1
    have hps : (callE U b c s).2.2.ps = (call U b c s.ps).2 := by
      unfold callE
      split
      · rename_i hcall
        rw [hcall]
        split <;> rfl
      · rename_i hcall; rw [hcall]
    refine ⟨?_, ?_⟩
    · simp only [callsE, calls, List.map, h2, i1, hps]
    · intro k e he
      rcases List.mem_cons.1 he with he | he
      · injection he with he1 he2
        obtain ⟨r, hr⟩ := h3 k he1.symm
        exact ⟨r, he2 ▸ hr.1, hr.2⟩
      · exact i2 k e he

/-- The outcomes with errors are those without. -/
theorem C57_outcomes (U : Uni) (b : Bytes) (cs : List Call) :
    (callsE U b cs newEP).map Prod.fst = calls U b cs newParser := (callsE_ok cs newEP einv_new).1

/-- C57. Whatever was called before, a call that rejects the text returns an error: no panic, no endless loop. -/
theorem C57_reported (U : Uni) (b : Bytes) (cs : List Call) (k : Nat) (e : Option SynErr)
    (h : (Out.err k, e) ∈ callsE U b cs newEP) : ∃ r, e = some r ∧ ErrOk U b r :=
  (callsE_ok cs newEP einv_new).2 k e h

end Verif.Parse
