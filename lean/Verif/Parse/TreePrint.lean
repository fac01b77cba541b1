/-
How parse trees are printed (C63): /repo/vendor/github.com/eaburns/peggy/peg/pretty.go on the trees that
`Tree` returns. It is what the server answers in the field Parse (server.go:65) and the first thing that
the command-line tool prints (main.go:51).
-/
import Verif.Peg.Pretty
import Verif.Peg.EvInv
import Verif.Parse.Names
import Verif.Parse.TreeProps
import Verif.Parse.Examples

namespace Verif.Parse
open Verif.AST Verif.Peg
open Verif.Tone (Str)

mutual
/-- A `*peg.Node` as the printer sees it (pretty.go:22-25). -/
def PNode.pt : PNode → PT
  | .mk name text kids => .mk (match name with
      | some r => ruleName r
      | none => []) none text (ptL kids)
def ptL : List PNode → List PT
  | [] => []
  | k :: ks => k.pt :: ptL ks
end

theorem ptL_map (l : List PNode) : ptL l = l.map PNode.pt := by
  induction l with
  | nil => rfl
  | cons a l ih => simp [ptL, ih]

/-- `peg.Pretty` of a parse tree. -/
def prettyTree (t : PNode) : Bytes := pretty t.pt

/-! ### The trees of the parser -/

/-- Leaves are single runes; other texts are concatenations of texts of kids; rules are rules. -/
inductive Runes : PNode → Prop
  | leaf {t} : OneRune t → Runes (.mk none t [])
  | node {name kids} : (∀ r, name = some r → r < 403) → (∀ k ∈ kids, Runes k) →
      Runes (.mk name (kids.map PNode.text).flatten kids)

/-- The terminal does not match U+FFFD. -/
def notBad : Term → Bool
  | .cls cs => !cs.contains bad
  | .lit c => c != bad
  | _ => true

def isRule (r : Nat) : Bool := decide (r < 403)

theorem runes_table : (List.range 403).all (fun r => chk notBad isRule (bodies.get r)) = true := by decide +kernel

theorem runes_body (r : Nat) : chk notBad isRule (toaq.body r) = true := by
  refine Tr.all bodies (fun e => chk notBad isRule e = true) bounds.1 (fun n hn => ?_) r
  exact List.all_eq_true.1 runes_table n (List.mem_range.2 hn)

/-- What decoding reads, it reads whatever follows. -/
theorem decode_take (b : Bytes) (h : (decode b).1 ≠ bad) (x : Bytes) :
    decode (b.take (decode b).2 ++ x) = decode b := by
  match b with
  | [] => exact absurd rfl h
  | b0 :: bs =>
    by_cases h1 : b0 < 0x80
    · simp [decode, h1]
    by_cases h2 : b0 < 0xC2
    · simp [decode, h1, h2] at h
    by_cases h3 : b0 < 0xE0
    · match bs with
      | [] => simp [decode, h1, h2, h3] at h
      | b1 :: bs =>
        by_cases hs : second b0 b1
        · simp [decode, h1, h2, h3, hs]
        · simp [decode, h1, h2, h3, hs] at h
    by_cases h4 : b0 < 0xF0
    · match bs with
      | [] => simp [decode, h1, h2, h3, h4] at h
      | [_] => simp [decode, h1, h2, h3, h4] at h
      | b1 :: b2 :: bs =>
        by_cases hs : (second b0 b1 && cont b2) = true
        · simp [decode, h1, h2, h3, h4, hs]
        · simp [decode, h1, h2, h3, h4, hs] at h
    by_cases h5 : b0 < 0xF5
    · match bs with
      | [] => simp [decode, h1, h2, h3, h4, h5] at h
      | [_] => simp [decode, h1, h2, h3, h4, h5] at h
      | [_, _] => simp [decode, h1, h2, h3, h4, h5] at h
      | b1 :: b2 :: b3 :: bs =>
        by_cases hs : (second b0 b1 && cont b2 && cont b3) = true
        · simp [decode, h1, h2, h3, h4, h5, hs]
        · simp [decode, h1, h2, h3, h4, h5, hs] at h
    · simp [decode, h1, h2, h3, h4, h5] at h

theorem OneRune.of_decode {b : Bytes} (h : (decode b).1 ≠ bad) : OneRune (b.take (decode b).2) := by
  have hb : b ≠ [] := by rintro rfl; exact h rfl
  have hw := decode_width b hb
  refine ⟨(decode b).1, ?_, fun x => ?_⟩
  · intro e
    rw [List.take_eq_nil_iff] at e
    rcases e with e | e
    · omega
    · exact hb e
  · rw [decode_take b h, List.length_take, Nat.min_eq_left hw.2]

variable (U : Uni) (b : Bytes)

theorem tm_rune {t : Term} {p q : Nat} (he : notBad t = true) (h : tm U (.ofBytes b) t p = .inl q) :
    OneRune (slice b p q) := by
  have key : ∀ c w, (Input.ofBytes b).rune p = some (c, w) → c ≠ bad → OneRune (slice b p (p + w)) := by
    intro c w hr hc
    unfold Input.rune at hr
    split at hr
    · injection hr with hr
      have hr : decode (b.drop p) = (c, w) := hr
      have : slice b p (p + w) = (b.drop p).take (decode (b.drop p)).2 := by rw [hr]; simp [slice]
      rw [this]
      exact OneRune.of_decode (by rw [hr]; exact hc)
    · cases hr
  cases t <;> simp only [tm] at h
  all_goals split at h
  all_goals first | cases h | skip
  all_goals rename_i c w hr
  · split at h
    · injection h with h
      subst h
      refine key c w hr ?_
      rintro rfl
      rename_i hc
      simp_all [notBad]
    · cases h
  · split at h
    · injection h with h
      subst h
      refine key c w hr ?_
      rintro rfl
      rename_i hc
      simp_all [notBad]
    · cases h
  · split at h
    · injection h with h
      subst h
      exact key c w hr (by assumption)
    · cases h
  · split at h
    · split at h
      · injection h with h
        subst h
        exact key c w hr (by assumption)
      · cases h
    · cases h

/-- The nodes cover the text from one offset to another. -/
def Covers (p q : Nat) (x : List PNode) : Prop := Cover b p q x ∧ ∀ k ∈ x, Runes k

theorem node_kept : Kept U (.ofBytes b) (nodeAlg b) notBad isRule
    (Covers b) where
  leaf ht h := by
    refine ⟨Cover.leaf b (Nat.le_of_lt (tm_lt U _ h).1), fun k hk => ?_⟩
    rw [List.mem_singleton.1 hk]
    exact .leaf (tm_rune U b ht h)
  nil p := ⟨Cover.nil b p, fun k hk => by cases hk⟩
  seq h h' := ⟨Cover.append b h.1 h'.1, fun k hk => (List.mem_append.1 hk).elim (h.2 k) (h'.2 k)⟩
  rep0 p := ⟨Cover.nil b p, fun k hk => by cases hk⟩
  rep h h' := ⟨Cover.append b h.1 h'.1, fun k hk => (List.mem_append.1 hk).elim (h.2 k) (h'.2 k)⟩
  lab h := h
  grp {p q x} h := by
    refine ⟨Cover.up b none h.1, fun k hk => ?_⟩
    rw [List.mem_singleton.1 hk, ← h.1.2.1]
    exact .node (fun r hr => by cases hr) h.2
  act h e := by
    injection e with e
    exact e ▸ h
  rule {r p q x} hr h := by
    refine ⟨Cover.up b (some r) h.1, fun k hk => ?_⟩
    rw [List.mem_singleton.1 hk, ← h.1.2.1]
    exact .node (fun r' e => by injection e with e; subst e; exact of_decide_eq_true hr) h.2

/-- The trees that `Tree` returns. -/
theorem tree_runes (cs : List Call) (t : PNode) (h : Out.tree t ∈ calls U b cs newParser) : Runes t := by
  rw [C20_memo_transparent] at h
  obtain ⟨c, _, h⟩ := List.mem_map.1 h
  cases c with
  | tree =>
    simp only [fresh] at h
    split at h
    · cases h
    · cases h
    · split at h
      · rename_i hx
        injection h with h
        subst h
        exact (ev_kept U toaq _ _ (node_kept U b) runes_body _ _ _ _ _ (by rfl) hx).2 _ (List.mem_singleton.2 rfl)
      · cases h
      · cases h
  | text =>
    simp only [fresh] at h
    repeat' split at h
    all_goals cases h
  | word o =>
    simp only [fresh] at h
    repeat' split at h
    all_goals cases h

/-! ### Names -/

theorem names_ok : ruleNames.length = 403 ∧ ruleNames.all nameOk = true := by decide +kernel

/-- The bytes as one number. -/
def num (n : Bytes) : Nat := n.foldl (fun a c => a * 256 + c) 0

theorem nums_nodup : (ruleNames.map num).Nodup := by decide +kernel

/-- Different rules have different names. -/
theorem names_nodup : ruleNames.Nodup := List.Pairwise.of_map num (fun _ _ h e => h (congrArg num e)) nums_nodup

theorem ruleName_get {r : Nat} (h : r < 403) : ruleName r = ruleNames[r]'(by rw [names_ok.1]; exact h) := by
  rw [ruleName, List.getD_eq_getElem?_getD, List.getElem?_eq_getElem (by rw [names_ok.1]; exact h)]
  rfl

theorem ruleName_ok {r : Nat} (h : r < 403) : nameOk (ruleName r) = true := by
  rw [ruleName_get h]
  exact List.all_eq_true.1 names_ok.2 _ (List.getElem_mem _)

theorem ruleName_inj {r r' : Nat} (h : r < 403) (h' : r' < 403) (e : ruleName r = ruleName r') : r = r' := by
  rw [ruleName_get h, ruleName_get h'] at e
  exact (List.getElem_inj names_nodup).1 e

/-! ### Printing is faithful -/

/-- Induction over parse trees. -/
theorem PNode.induct {P : PNode → Prop} (mk : ∀ n t ks, (∀ k ∈ ks, P k) → P (.mk n t ks)) : ∀ t, P t := fun t =>
  PNode.rec (motive_1 := P) (motive_2 := fun l => ∀ k ∈ l, P k) mk (by intro k h; cases h)
    (by intro a l ha hl k h; rcases List.mem_cons.1 h with h | h
        · exact h ▸ ha
        · exact hl k h) t

theorem pt_text (t : PNode) : t.pt.text = t.text := by cases t; rfl

theorem Runes.readable {t : PNode} (h : Runes t) : Readable t.pt := by
  induction h with
  | leaf h => exact .leaf h
  | @node name kids hn _ ih =>
    show Readable (.mk _ none _ (ptL kids))
    rw [ptL_map]
    have : (kids.map PNode.text).flatten = ((kids.map PNode.pt).map PT.text).flatten := by
      rw [List.map_map]
      congr 1
      exact List.map_congr_left fun k _ => (pt_text k).symm
    rw [this]
    refine .node ?_ fun k hk => ?_
    · cases name with
      | none => exact .inl rfl
      | some r => exact .inr (ruleName_ok (hn r rfl))
    · obtain ⟨k, hk', rfl⟩ := List.mem_map.1 hk
      exact ih k hk'

theorem Runes.kids {n t ks} (h : Runes (.mk n t ks)) : ∀ k ∈ ks, Runes k := by
  cases h with
  | leaf _ => simp
  | node _ h => exact h

theorem Runes.name {n t ks} (h : Runes (.mk n t ks)) : ∀ r, n = some r → r < 403 := by
  cases h with
  | leaf _ => simp
  | node h _ => exact h

/-- Names and texts determine the rules. -/
theorem pt_inj (t : PNode) : ∀ t', Runes t → Runes t' → t.pt = t'.pt → t = t' := by
  induction t using PNode.induct with
  | mk n x ks ih =>
    intro t' h h' e
    obtain ⟨n', x', ks'⟩ := t'
    simp only [PNode.pt, PT.mk.injEq, ptL_map, true_and] at e
    obtain ⟨e1, rfl, e2⟩ := e
    have hn : n = n' := by
      cases n with
      | none => cases n' with
        | none => rfl
        | some r =>
          have := ruleName_ok (h'.name r rfl)
          simp only at e1
          rw [← e1] at this
          cases this
      | some r => cases n' with
        | none =>
          have := ruleName_ok (h.name r rfl)
          simp only at e1
          rw [e1] at this
          cases this
        | some r' => rw [ruleName_inj (h.name r rfl) (h'.name r' rfl) e1]
    have hk : ks = ks' := by
      have hL := h.kids
      have hL' := h'.kids
      clear h h' e1 hn
      induction ks generalizing ks' with
      | nil => cases ks' with
        | nil => rfl
        | cons k' ks' => cases e2
      | cons k ks IH => cases ks' with
        | nil => cases e2
        | cons k' ks' =>
          simp only [List.map_cons, List.cons.injEq] at e2
          rw [ih k (by simp) k' (hL k (by simp)) (hL' k' (by simp)) e2.1,
            IH (fun k hk => ih k (by simp [hk])) ks' e2.2 (fun k hk => hL k (by simp [hk])) (fun k hk => hL' k (by simp [hk]))]
    rw [hn, hk]

/-- C63. What is printed of a parse tree determines the tree, for every two texts that are accepted: rules,
structure, and the text of every node. Quotation marks, braces and newlines in the text, which are printed
as they are, do not make the print ambiguous. -/
theorem C63_printed_tree (U U' : Uni) (b b' : Bytes) (cs cs' : List Call) (t t' : PNode)
    (h : Out.tree t ∈ calls U b cs newParser) (h' : Out.tree t' ∈ calls U' b' cs' newParser)
    (e : prettyTree t = prettyTree t') : t = t' :=
  pt_inj t t' (tree_runes U b cs t h) (tree_runes U' b' cs' t' h')
    (pretty_inj (tree_runes U b cs t h).readable (tree_runes U' b' cs' t' h').readable e)

/-- C63. And so two texts with the same print are the same as far as the parser reads them. -/
theorem C63_printed_text (U U' : Uni) (b b' : Bytes) (cs cs' : List Call) (t t' : PNode)
    (h : Out.tree t ∈ calls U b cs newParser) (h' : Out.tree t' ∈ calls U' b' cs' newParser)
    (e : prettyTree t = prettyTree t') : ∃ q q', Consumed b q ∧ Consumed b' q' ∧ b.take q = b'.take q' := by
  obtain ⟨_, q, hq, e1⟩ := C22_tree_text U b cs t h
  obtain ⟨_, q', hq', e2⟩ := C22_tree_text U' b' cs' t' h'
  exact ⟨q, q', hq, hq', by rw [← e1, ← e2, C63_printed_tree U U' b b' cs cs' t t' h h' e]⟩

/-! ### Examples -/

/-- What is printed of the tree of a text. -/
def printed (s : String) : List Bytes := (calls asciiUni (utf8 s.toList) [.tree] newParser).map fun
  | .tree t => prettyTree t
  | _ => []

/-- A text with quotation marks, that are printed as they are: `punctuation{"""}`. -/
example : (printed "\"fa?\"").map (fun x => decide (utf8 "punctuation{\"\"\"}".toList <:+: x)) = [true] := by decide +kernel

/-- The tones of these texts are written in two ways; the trees and what is printed of them differ. -/
example : printed "fa?" ≠ printed "fả" := by decide +kernel
example : (run "fa?" [.tree]).map Out.kind = [.tree] ∧ (run "fả" [.tree]).map Out.kind = [.tree] := by decide +kernel

/-- For other trees the print is ambiguous: two leaves, and one leaf with a text of many runes. -/
example : pretty (.mk [] none [] [.mk [] none (utf8 "a\",\n\t\"b".toList) [], .mk [] none [] []]) =
    pretty (.mk [] none [] [.mk [] none (utf8 "a".toList) [], .mk [] none (utf8 "b".toList) [], .mk [] none [] []]) := by
  decide +kernel

end Verif.Parse
