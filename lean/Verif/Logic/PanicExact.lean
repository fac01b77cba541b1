/-
C36, exactly: on a syntax tree of the shape that the parser builds, with the particles that the grammar allows,
`Interpret` panics if and only if the interpreter comes to a connection that it does not know. It comes to all
connections of a sentence that are not in quoted text or in modifiers, except for two places, which are errors of
the interpreter too: the relative clause of a hoa that nothing binds, and the right sides of connected arguments of a
preposition.
-/
import Verif.Logic.ParsedPanic

namespace Verif.Logic
open Verif.Tone (Str)
open Verif.Parse (ws wsIn wsL wsO wsTO accepts acceptsO leftOf rightOf tag Srt Tag)

/-! ## Specification -/

/-- Spec: the predicate hoa. -/
def IsHoa (U : Uni) : AST.Node → Prop
  | .word .predicate w => ∃ w', FirstUntoned w.T w' ∧ w'.map U.lower = "hoa".toList
  | _ => False

mutual
/-- Spec: the interpreter knows all connections of the part of a sentence to which it comes. `h`: the part is in a
clause in which hoa is bound, that is, a relative clause or a predicate with lu. Nothing of quoted text and modifiers
is interpreted. -/
def Meets (U : Uni) : Prop → AST.Node → Prop
  | _, .text _ _ => True
  | _, .discourse _ => True
  | h, .sentence _ st _ => Meets U h st
  | h, .cop k _ _ ru l r => Joined U k ru.T l r ∧ Meets U h l ∧ Meets U h r
  | _, .prenex _ _ => True
  | h, .prenexStmt ts _ st => MeetsL U h ts ∧ Meets U h st
  | h, .predication _ p ts _ => Meets U h p ∧ MeetsT U h ts
  | _, .prefixed _ _ => True
  | h, .serial l r => Meets U h l ∧ Meets U h r
  | _, .word _ _ => True
  | _, .mi _ _ _ => True
  | h, .po _ _ a => Meets U h a
  | _, .mo _ _ _ => True
  | h, .lu k w st => Meets U (h ∨ k = .predicate ∧ Reads U w.T "lu".toList) st
  | h, .linked _ a => Meets U h a
  | h, .terms ts => MeetsL U h ts
  | h, .predArg _ _ _ p rel => Meets U h p ∧ (h ∨ ¬ IsHoa U p → MeetsO U True rel)
  | h, .predAdverb p => Meets U h p
  | h, .prep p a => Meets U h p ∧ MeetsP U h a
  | _, .paren _ _ _ => True
  | _, .incidental _ _ => True
  | _, .vocative _ _ => True
/-- Spec: the argument of a preposition. Of connected arguments the interpreter takes the left one twice. -/
def MeetsP (U : Uni) : Prop → AST.Node → Prop
  | h, .cop k _ _ ru l r => Joined U k ru.T l r ∧ (Reads U ru.T "roi".toList → Meets U h l ∧ Meets U h r) ∧
      (¬ Reads U ru.T "roi".toList → MeetsP U h l)
  | h, .predArg _ _ _ p rel => Meets U h p ∧ (h ∨ ¬ IsHoa U p → MeetsO U True rel)
  | _, _ => True
def MeetsO (U : Uni) : Prop → Option AST.Node → Prop
  | _, none => True
  | h, some n => Meets U h n
def MeetsT (U : Uni) : Prop → Option (List AST.Node) → Prop
  | _, none => True
  | h, some l => MeetsL U h l
def MeetsL (U : Uni) : Prop → List AST.Node → Prop
  | _, [] => True
  | h, n :: ns => Meets U h n ∧ MeetsL U h ns
end

mutual
/-- Spec: the particles are words that the interpreter knows. -/
def Words (U : Uni) : AST.Node → Prop
  | .text _ _ => True
  | .discourse _ => True
  | .sentence _ st _ => Words U st
  | .cop _ _ _ _ l r => Words U l ∧ Words U r
  | .prenex _ _ => True
  | .prenexStmt ts _ st => WordsL U ts ∧ Words U st
  | .predication _ p ts _ => Words U p ∧ WordsT U ts
  | .prefixed _ _ => True
  | .serial l r => Words U l ∧ Words U r
  | .word _ _ => True
  | .mi m _ _ => Reads U m.T "mi".toList ∨ Reads U m.T "shu".toList
  | .po m _ a => (Reads U m.T "po".toList ∨ Reads U m.T "jei".toList) ∧ Words U a
  | .mo _ _ _ => True
  | .lu _ _ st => Words U st
  | .linked g a => Place U g.T ∧ Words U a
  | .terms ts => WordsL U ts
  | .predArg _ _ q p rel => (∀ w, q = some w → Quantifier U w.T) ∧ Words U p ∧ WordsO U rel
  | .predAdverb p => Words U p
  | .prep p a => Words U p ∧ Words U a
  | .paren _ _ _ => True
  | .incidental _ _ => True
  | .vocative _ _ => True
def WordsO (U : Uni) : Option AST.Node → Prop
  | none => True
  | some n => Words U n
def WordsT (U : Uni) : Option (List AST.Node) → Prop
  | none => True
  | some l => WordsL U l
def WordsL (U : Uni) : List AST.Node → Prop
  | [] => True
  | n :: ns => Words U n ∧ WordsL U ns
end

/-- Spec: the sides of a connection are not of its kind. The grammar has a statement on the right side of connected content clauses, and
it may have one on the right side of connected relative clauses, and an argument on the left side of connected predicates. -/
def Mismatch (k : AST.CopKind) (l r : AST.Node) : Prop :=
  match k with
  | .content => True
  | .relative => accepts .relative (tag r) = false
  | .predicate => accepts .predicate (tag l) = false
  | _ => False

/-- Spec: the connective is not one that the interpreter knows between such nodes. -/
def Unknown (U : Uni) (k : AST.CopKind) (w : Str) : Prop :=
  match k with
  | .sentence => ¬ Reads U w "ru".toList
  | .argument => ¬ (Connective U w ∨ Reads U w "roi".toList)
  | _ => ¬ Connective U w

mutual
/-- Spec: there is such a connection in the node, not in quoted text or in a modifier. -/
def HasCop (Q : AST.CopKind → Str → AST.Node → AST.Node → Prop) : AST.Node → Prop
  | .text _ _ => False
  | .discourse _ => False
  | .sentence _ st _ => HasCop Q st
  | .cop k _ _ ru l r => Q k ru.T l r ∨ HasCop Q l ∨ HasCop Q r
  | .prenex _ _ => False
  | .prenexStmt ts _ st => HasCopL Q ts ∨ HasCop Q st
  | .predication _ p ts _ => HasCop Q p ∨ HasCopT Q ts
  | .prefixed _ _ => False
  | .serial l r => HasCop Q l ∨ HasCop Q r
  | .word _ _ => False
  | .mi _ _ _ => False
  | .po _ _ a => HasCop Q a
  | .mo _ _ _ => False
  | .lu _ _ st => HasCop Q st
  | .linked _ a => HasCop Q a
  | .terms ts => HasCopL Q ts
  | .predArg _ _ _ p rel => HasCop Q p ∨ HasCopO Q rel
  | .predAdverb p => HasCop Q p
  | .prep p a => HasCop Q p ∨ HasCop Q a
  | .paren _ _ _ => False
  | .incidental _ _ => False
  | .vocative _ _ => False
def HasCopO (Q : AST.CopKind → Str → AST.Node → AST.Node → Prop) : Option AST.Node → Prop
  | none => False
  | some n => HasCop Q n
def HasCopT (Q : AST.CopKind → Str → AST.Node → AST.Node → Prop) : Option (List AST.Node) → Prop
  | none => False
  | some l => HasCopL Q l
def HasCopL (Q : AST.CopKind → Str → AST.Node → AST.Node → Prop) : List AST.Node → Prop
  | [] => False
  | n :: ns => HasCop Q n ∨ HasCopL Q ns
end

mutual
/-- Spec: the identities of the arguments that are not in quoted text or in modifiers. -/
def argIds : AST.Node → List Nat
  | .text _ _ => []
  | .discourse _ => []
  | .sentence _ st _ => argIds st
  | .cop _ _ _ _ l r => argIds l ++ argIds r
  | .prenex _ _ => []
  | .prenexStmt ts _ st => argIdsL ts ++ argIds st
  | .predication _ p ts _ => argIds p ++ argIdsT ts
  | .prefixed _ _ => []
  | .serial l r => argIds l ++ argIds r
  | .word _ _ => []
  | .mi _ _ _ => []
  | .po _ _ a => argIds a
  | .mo _ _ _ => []
  | .lu _ _ st => argIds st
  | .linked _ a => argIds a
  | .terms ts => argIdsL ts
  | .predArg id _ _ p rel => id :: (argIds p ++ argIdsO rel)
  | .predAdverb p => argIds p
  | .prep p a => argIds p ++ argIds a
  | .paren _ _ _ => []
  | .incidental _ _ => []
  | .vocative _ _ => []
def argIdsO : Option AST.Node → List Nat
  | none => []
  | some n => argIds n
def argIdsT : Option (List AST.Node) → List Nat
  | none => []
  | some l => argIdsL l
def argIdsL : List AST.Node → List Nat
  | [] => []
  | n :: ns => argIds n ++ argIdsL ns
end

namespace Exact

/-! ## Arguments -/

mutual
/-- The identities of the arguments, and whether their connections are known. -/
def marks (U : Uni) : Prop → AST.Node → List (Nat × Prop)
  | _, .text _ _ => []
  | _, .discourse _ => []
  | h, .sentence _ st _ => marks U h st
  | h, .cop _ _ _ _ l r => marks U h l ++ marks U h r
  | _, .prenex _ _ => []
  | h, .prenexStmt ts _ st => marksL U h ts ++ marks U h st
  | h, .predication _ p ts _ => marks U h p ++ marksT U h ts
  | _, .prefixed _ _ => []
  | h, .serial l r => marks U h l ++ marks U h r
  | _, .word _ _ => []
  | _, .mi _ _ _ => []
  | h, .po _ _ a => marks U h a
  | _, .mo _ _ _ => []
  | h, .lu k w st => marks U (h ∨ k = .predicate ∧ Reads U w.T "lu".toList) st
  | h, .linked _ a => marks U h a
  | h, .terms ts => marksL U h ts
  | h, .predArg id f q p rel => (id, Meets U h (.predArg id f q p rel)) :: (marks U h p ++ marksO U True rel)
  | h, .predAdverb p => marks U h p
  | h, .prep p a => marks U h p ++ marks U h a
  | _, .paren _ _ _ => []
  | _, .incidental _ _ => []
  | _, .vocative _ _ => []
def marksO (U : Uni) : Prop → Option AST.Node → List (Nat × Prop)
  | _, none => []
  | h, some n => marks U h n
def marksT (U : Uni) : Prop → Option (List AST.Node) → List (Nat × Prop)
  | _, none => []
  | h, some l => marksL U h l
def marksL (U : Uni) : Prop → List AST.Node → List (Nat × Prop)
  | _, [] => []
  | h, n :: ns => marks U h n ++ marksL U h ns
end

mutual
theorem marks_ids (U : Uni) : ∀ (h : Prop) (n : AST.Node), (marks U h n).map (·.1) = argIds n
  | _, .text _ _ => by simp [marks, argIds]
  | _, .discourse _ => by simp [marks, argIds]
  | h, .sentence _ st _ => by simp [marks, argIds, marks_ids U h st]
  | h, .cop _ _ _ _ l r => by simp [marks, argIds, marks_ids U h l, marks_ids U h r]
  | _, .prenex _ _ => by simp [marks, argIds]
  | h, .prenexStmt ts _ st => by simp [marks, argIds, marks_idsL U h ts, marks_ids U h st]
  | h, .predication _ p ts _ => by simp [marks, argIds, marks_ids U h p, marks_idsT U h ts]
  | _, .prefixed _ _ => by simp [marks, argIds]
  | h, .serial l r => by simp [marks, argIds, marks_ids U h l, marks_ids U h r]
  | _, .word _ _ => by simp [marks, argIds]
  | _, .mi _ _ _ => by simp [marks, argIds]
  | h, .po _ _ a => by simp [marks, argIds, marks_ids U h a]
  | _, .mo _ _ _ => by simp [marks, argIds]
  | h, .lu k w st => by simp only [marks, argIds, marks_ids U _ st]
  | h, .linked _ a => by simp [marks, argIds, marks_ids U h a]
  | h, .terms ts => by simp [marks, argIds, marks_idsL U h ts]
  | h, .predArg id f q p rel => by simp [marks, argIds, marks_ids U h p, marks_idsO U True rel]
  | h, .predAdverb p => by simp [marks, argIds, marks_ids U h p]
  | h, .prep p a => by simp [marks, argIds, marks_ids U h p, marks_ids U h a]
  | _, .paren _ _ _ => by simp [marks, argIds]
  | _, .incidental _ _ => by simp [marks, argIds]
  | _, .vocative _ _ => by simp [marks, argIds]
theorem marks_idsO (U : Uni) : ∀ (h : Prop) (n : Option AST.Node), (marksO U h n).map (·.1) = argIdsO n
  | _, none => by simp [marksO, argIdsO]
  | h, some n => by simp [marksO, argIdsO, marks_ids U h n]
theorem marks_idsT (U : Uni) : ∀ (h : Prop) (n : Option (List AST.Node)), (marksT U h n).map (·.1) = argIdsT n
  | _, none => by simp [marksT, argIdsT]
  | h, some n => by simp [marksT, argIdsT, marks_idsL U h n]
theorem marks_idsL (U : Uni) : ∀ (h : Prop) (n : List AST.Node), (marksL U h n).map (·.1) = argIdsL n
  | _, [] => by simp [marksL, argIdsL]
  | h, n :: ns => by simp [marksL, argIdsL, marks_ids U h n, marks_idsL U h ns]
end

/-- `P` tells of every argument whether its connections are known. -/
def Own (P : Nat → Prop) (l : List (Nat × Prop)) : Prop := ∀ x ∈ l, (P x.1 ↔ x.2)

theorem Own.app {P : Nat → Prop} {l l' : List (Nat × Prop)} : Own P (l ++ l') ↔ Own P l ∧ Own P l' := by
  simp only [Own, List.mem_append]
  exact ⟨fun h => ⟨fun x hx => h x (.inl hx), fun x hx => h x (.inr hx)⟩,
    fun h x hx => hx.elim (h.1 x) (h.2 x)⟩

theorem Own.cons {P : Nat → Prop} {x : Nat × Prop} {l' : List (Nat × Prop)} :
    Own P (x :: l') ↔ (P x.1 ↔ x.2) ∧ Own P l' := by
  simp only [Own, List.forall_mem_cons]

theorem fst_inj {α : Type} {l : List (Nat × α)} (h : (l.map (·.1)).Nodup) : ∀ {x y : Nat × α}, x ∈ l → y ∈ l →
    y.1 = x.1 → y = x := by
  induction l with
  | nil => intro x y hx; cases hx
  | cons a l ih =>
    intro x y hx hy h1
    simp only [List.map_cons, List.nodup_cons, List.mem_map, not_exists, not_and] at h
    rcases List.mem_cons.1 hx with hx | hx <;> rcases List.mem_cons.1 hy with hy | hy
    · rw [hx, hy]
    · exact absurd (hx ▸ h1) (h.1 y hy)
    · exact absurd (hy ▸ h1.symm) (h.1 x hx)
    · exact ih h.2 hx hy h1

theorem own_nodup {l : List (Nat × Prop)} (h : (l.map (·.1)).Nodup) :
    Own (fun i => ∃ x ∈ l, x.1 = i ∧ x.2) l := by
  intro x hx
  refine ⟨fun ⟨y, hy, h1, h2⟩ => ?_, fun h2 => ⟨x, hx, rfl, h2⟩⟩
  rw [← fst_inj h hx hy h1]; exact h2

mutual
/-- The particles are known; and `R` holds if a connection is of the wrong kind, and `S` if one has an unknown connective. -/
def Wx (R S : Prop) (U : Uni) : AST.Node → Prop
  | .text _ _ => True
  | .discourse _ => True
  | .sentence _ st _ => Wx R S U st
  | .cop k _ _ ru l r => (Mismatch k l r → R) ∧ (Unknown U k ru.T → S) ∧ Wx R S U l ∧ Wx R S U r
  | .prenex _ _ => True
  | .prenexStmt ts _ st => WxL R S U ts ∧ Wx R S U st
  | .predication _ p ts _ => Wx R S U p ∧ WxT R S U ts
  | .prefixed _ _ => True
  | .serial l r => Wx R S U l ∧ Wx R S U r
  | .word _ _ => True
  | .mi m _ _ => Reads U m.T "mi".toList ∨ Reads U m.T "shu".toList
  | .po m _ a => (Reads U m.T "po".toList ∨ Reads U m.T "jei".toList) ∧ Wx R S U a
  | .mo _ _ _ => True
  | .lu _ _ st => Wx R S U st
  | .linked g a => Place U g.T ∧ Wx R S U a
  | .terms ts => WxL R S U ts
  | .predArg _ _ q p rel => (∀ w, q = some w → Quantifier U w.T) ∧ Wx R S U p ∧ WxO R S U rel
  | .predAdverb p => Wx R S U p
  | .prep p a => Wx R S U p ∧ Wx R S U a
  | .paren _ _ _ => True
  | .incidental _ _ => True
  | .vocative _ _ => True
def WxO (R S : Prop) (U : Uni) : Option AST.Node → Prop
  | none => True
  | some n => Wx R S U n
def WxT (R S : Prop) (U : Uni) : Option (List AST.Node) → Prop
  | none => True
  | some l => WxL R S U l
def WxL (R S : Prop) (U : Uni) : List AST.Node → Prop
  | [] => True
  | n :: ns => Wx R S U n ∧ WxL R S U ns
end

mutual
theorem wx_of {R S : Prop} {U : Uni} : ∀ n : AST.Node, Words U n → (HasCop (fun k _ l r => Mismatch k l r) n → R) →
    (HasCop (fun k w _ _ => Unknown U k w) n → S) → Wx R S U n
  | .text _ _, _, _, _ => by rw [Wx]; trivial
  | .discourse _, _, _, _ => by rw [Wx]; trivial
  | .sentence _ st _, h, h1, h2 => by rw [Words] at h; rw [HasCop] at h1 h2; rw [Wx]; exact wx_of st h h1 h2
  | .cop k t0 t1 ru l r, h, h1, h2 => by
    rw [Words] at h; rw [HasCop] at h1 h2; rw [Wx]
    exact ⟨fun h => h1 (.inl h), fun h => h2 (.inl h), wx_of l h.1 (fun h => h1 (.inr (.inl h))) (fun h => h2 (.inr (.inl h))),
      wx_of r h.2 (fun h => h1 (.inr (.inr h))) (fun h => h2 (.inr (.inr h)))⟩
  | .prenex _ _, _, _, _ => by rw [Wx]; trivial
  | .prenexStmt ts _ st, h, h1, h2 => by
    rw [Words] at h; rw [HasCop] at h1 h2; rw [Wx]
    exact ⟨wx_ofL ts h.1 (fun h => h1 (.inl h)) (fun h => h2 (.inl h)), wx_of st h.2 (fun h => h1 (.inr h)) (fun h => h2 (.inr h))⟩
  | .predication _ p ts _, h, h1, h2 => by
    rw [Words] at h; rw [HasCop] at h1 h2; rw [Wx]
    exact ⟨wx_of p h.1 (fun h => h1 (.inl h)) (fun h => h2 (.inl h)), wx_ofT ts h.2 (fun h => h1 (.inr h)) (fun h => h2 (.inr h))⟩
  | .prefixed _ _, _, _, _ => by rw [Wx]; trivial
  | .serial l r, h, h1, h2 => by
    rw [Words] at h; rw [HasCop] at h1 h2; rw [Wx]
    exact ⟨wx_of l h.1 (fun h => h1 (.inl h)) (fun h => h2 (.inl h)), wx_of r h.2 (fun h => h1 (.inr h)) (fun h => h2 (.inr h))⟩
  | .word _ _, _, _, _ => by rw [Wx]; trivial
  | .mi _ _ _, h, _, _ => by rw [Words] at h; rw [Wx]; exact h
  | .po _ _ a, h, h1, h2 => by rw [Words] at h; rw [HasCop] at h1 h2; rw [Wx]; exact ⟨h.1, wx_of a h.2 h1 h2⟩
  | .mo _ _ _, _, _, _ => by rw [Wx]; trivial
  | .lu _ _ st, h, h1, h2 => by rw [Words] at h; rw [HasCop] at h1 h2; rw [Wx]; exact wx_of st h h1 h2
  | .linked _ a, h, h1, h2 => by rw [Words] at h; rw [HasCop] at h1 h2; rw [Wx]; exact ⟨h.1, wx_of a h.2 h1 h2⟩
  | .terms ts, h, h1, h2 => by rw [Words] at h; rw [HasCop] at h1 h2; rw [Wx]; exact wx_ofL ts h h1 h2
  | .predArg _ _ _ p rel, h, h1, h2 => by
    rw [Words] at h; rw [HasCop] at h1 h2; rw [Wx]
    exact ⟨h.1, wx_of p h.2.1 (fun h => h1 (.inl h)) (fun h => h2 (.inl h)), wx_ofO rel h.2.2 (fun h => h1 (.inr h)) (fun h => h2 (.inr h))⟩
  | .predAdverb p, h, h1, h2 => by rw [Words] at h; rw [HasCop] at h1 h2; rw [Wx]; exact wx_of p h h1 h2
  | .prep p a, h, h1, h2 => by
    rw [Words] at h; rw [HasCop] at h1 h2; rw [Wx]
    exact ⟨wx_of p h.1 (fun h => h1 (.inl h)) (fun h => h2 (.inl h)), wx_of a h.2 (fun h => h1 (.inr h)) (fun h => h2 (.inr h))⟩
  | .paren _ _ _, _, _, _ => by rw [Wx]; trivial
  | .incidental _ _, _, _, _ => by rw [Wx]; trivial
  | .vocative _ _, _, _, _ => by rw [Wx]; trivial
theorem wx_ofO {R S : Prop} {U : Uni} : ∀ n : Option AST.Node, WordsO U n → (HasCopO (fun k _ l r => Mismatch k l r) n → R) →
    (HasCopO (fun k w _ _ => Unknown U k w) n → S) → WxO R S U n
  | none, _, _, _ => by rw [WxO]; trivial
  | some n, h, h1, h2 => by rw [WordsO] at h; rw [HasCopO] at h1 h2; rw [WxO]; exact wx_of n h h1 h2
theorem wx_ofT {R S : Prop} {U : Uni} : ∀ n : Option (List AST.Node), WordsT U n → (HasCopT (fun k _ l r => Mismatch k l r) n → R) →
    (HasCopT (fun k w _ _ => Unknown U k w) n → S) → WxT R S U n
  | none, _, _, _ => by rw [WxT]; trivial
  | some n, h, h1, h2 => by rw [WordsT] at h; rw [HasCopT] at h1 h2; rw [WxT]; exact wx_ofL n h h1 h2
theorem wx_ofL {R S : Prop} {U : Uni} : ∀ n : List AST.Node, WordsL U n → (HasCopL (fun k _ l r => Mismatch k l r) n → R) →
    (HasCopL (fun k w _ _ => Unknown U k w) n → S) → WxL R S U n
  | [], _, _, _ => by rw [WxL]; trivial
  | n :: ns, h, h1, h2 => by
    rw [WordsL] at h; rw [HasCopL] at h1 h2; rw [WxL]
    exact ⟨wx_of n h.1 (fun h => h1 (.inl h)) (fun h => h2 (.inl h)), wx_ofL ns h.2 (fun h => h1 (.inr h)) (fun h => h2 (.inr h))⟩
end

/-- A node for a field of the kind, in a context. -/
def N (R S : Prop) (P : Nat → Prop) (U : Uni) (h : Prop) (s : Srt) (n : AST.Node) : Prop :=
  ws s n = true ∧ Wx R S U n ∧ Own P (marks U h n)

/-- Terms. -/
def NL (R S : Prop) (P : Nat → Prop) (U : Uni) (h : Prop) (l : List AST.Node) : Prop := ∀ n ∈ l, N R S P U h .term n

theorem meetsL_iff {U : Uni} {h : Prop} (l : List AST.Node) : MeetsL U h l ↔ ∀ n ∈ l, Meets U h n := by
  induction l with
  | nil => simp [MeetsL]
  | cons n l ih => simp [MeetsL, ih]

section
variable {R S : Prop} {U : Uni} {P : Nat → Prop} {h : Prop}

theorem NL_iff (l : List AST.Node) : NL R S P U h l ↔ wsL .term l = true ∧ WxL R S U l ∧ Own P (marksL U h l) := by
  induction l with
  | nil => simp [NL, wsL, WxL, marksL, Own]
  | cons n l ih =>
    rw [NL, List.forall_mem_cons]
    change _ ∧ NL R S P U h l ↔ _
    rw [ih]
    simp only [N, ws, wsL, WxL, marksL, Own.app, Bool.and_eq_true]
    exact ⟨fun ⟨⟨a, b, e⟩, c, d, f⟩ => ⟨⟨a, c⟩, ⟨b, d⟩, e, f⟩, fun ⟨⟨a, c⟩, ⟨b, d⟩, e, f⟩ => ⟨⟨a, b, e⟩, c, d, f⟩⟩

theorem NL.app {l l' : List AST.Node} (h1 : NL R S P U h l) (h' : NL R S P U h l') : NL R S P U h (l ++ l') := by
  intro n hn
  rcases List.mem_append.1 hn with hn | hn
  · exact h1 n hn
  · exact h' n hn

theorem NL.cons {n : AST.Node} {l : List AST.Node} (h1 : N R S P U h .term n) (h' : NL R S P U h l) : NL R S P U h (n :: l) := by
  intro m hm
  rcases List.mem_cons.1 hm with rfl | hm
  · exact h1
  · exact h' m hm

theorem NL.tail {l : List AST.Node} (h1 : NL R S P U h l) : NL R S P U h l.tail := fun n hn => h1 n (List.mem_of_mem_tail hn)

theorem NL.nil : NL R S P U h [] := by simp [NL]

theorem meetsL_app {l l' : List AST.Node} : MeetsL U h (l ++ l') ↔ MeetsL U h l ∧ MeetsL U h l' := by
  simp only [meetsL_iff, List.mem_append]
  exact ⟨fun h => ⟨fun x hx => h x (.inl hx), fun x hx => h x (.inr hx)⟩, fun h x hx => hx.elim (h.1 x) (h.2 x)⟩

theorem meetsL_tail {l : List AST.Node} (h1 : MeetsL U h l) : MeetsL U h l.tail := by
  rw [meetsL_iff] at *
  exact fun n hn => h1 n (List.mem_of_mem_tail hn)

theorem N.sub {s s' : Srt} {n : AST.Node} (h1 : N R S P U h s n) (hs : ∀ t, accepts s t = true → accepts s' t = true) :
    N R S P U h s' n := by
  obtain ⟨h1, h2⟩ := h1
  simp only [ws, Bool.and_eq_true] at h1
  exact ⟨by simp [ws, hs _ h1.1, h1.2], h2⟩

theorem N.acc {s : Srt} {n : AST.Node} (h1 : N R S P U h s n) : accepts s (tag n) = true := by
  have h1 := h1.1
  simp only [ws, Bool.and_eq_true] at h1
  exact h1.1

theorem N.as {s s' : Srt} {n : AST.Node} (h1 : N R S P U h s n) (ha : accepts s' (tag n) = true) : N R S P U h s' n := by
  obtain ⟨h1, h2⟩ := h1
  simp only [ws, Bool.and_eq_true] at h1
  exact ⟨by simp [ws, ha, h1.2], h2⟩

theorem N.cop {s : Srt} {k : AST.CopKind} {t0 t1 : Option AST.Word} {ru : AST.Word} {l r : AST.Node}
    (h1 : N R S P U h s (.cop k t0 t1 ru l r)) : ∃ sl sr, leftOf k = some sl ∧ rightOf k = some sr ∧
      N R S P U h sl l ∧ N R S P U h sr r ∧ (Mismatch k l r → R) ∧ (Unknown U k ru.T → S) := by
  obtain ⟨h1, h2, h3⟩ := h1
  simp only [ws, wsIn, Bool.and_eq_true, Wx, marks, Own.app] at h1 h2 h3
  cases hl : leftOf k with
  | none => simp [hl, acceptsO] at h1
  | some sl =>
    cases hr : rightOf k with
    | none => simp [hr, acceptsO] at h1
    | some sr =>
      rw [hl, hr] at h1
      exact ⟨sl, sr, rfl, rfl, ⟨by simp only [ws, Bool.and_eq_true]; exact h1.2.1.2, h2.2.2.1, h3.1⟩,
        ⟨by simp only [ws, Bool.and_eq_true]; exact h1.2.2, h2.2.2.2, h3.2⟩, h2.1, h2.2.1⟩

theorem N.arg_cases {n : AST.Node} (hn : N R S P U h .argument n) (h1 : ∀ i f q p r, n ≠ .predArg i f q p r)
    (h2 : ∀ t0 t1 ru l r, n ≠ .cop .argument t0 t1 ru l r) : False := by
  have ha := hn.acc
  cases n <;> simp [tag, accepts, Tag.isArgument] at ha
  case cop k _ _ _ _ _ => cases k <;> first | exact h2 _ _ _ _ _ rfl | simp at ha
  case predArg => exact h1 _ _ _ _ _ rfl

theorem N.predArg {s : Srt} {i : Nat} {fo q : Option AST.Word} {p : AST.Node} {r : Option AST.Node}
    (h1 : N R S P U h s (.predArg i fo q p r)) : N R S P U h .predArg (.predArg i fo q p r) := h1.as rfl

theorem N.term_cases {n : AST.Node} (hn : N R S P U h .term n)
    (h1 : ∀ t0 t1 ru l r, n ≠ .cop .termSet t0 t1 ru l r)
    (h2 : ∀ t0 t1 ru l r, n ≠ .cop .argument t0 t1 ru l r)
    (h3 : ∀ i f q p r, n ≠ .predArg i f q p r) (h4 : ∀ g a, n ≠ .linked g a) :
    (isPreposition n = true ∧ N R S P U h .prep n) ∨
      (isPreposition n = false ∧ isAdverb n = true ∧ N R S P U h .adverb n) := by
  have ha := hn.acc
  cases n <;> simp [tag, accepts, Tag.isArgument, Tag.isAdverb, Tag.isPrep] at ha
  case cop k _ _ _ _ _ =>
    cases k <;> simp at ha
    case termSet => exact absurd rfl (h1 _ _ _ _ _)
    case argument => exact absurd rfl (h2 _ _ _ _ _)
    case adverb => exact .inr ⟨rfl, rfl, hn.as rfl⟩
    case preposition => exact .inl ⟨rfl, hn.as rfl⟩
  case linked => exact absurd rfl (h4 _ _)
  case predArg => exact absurd rfl (h3 _ _ _ _ _)
  case predAdverb => exact .inr ⟨rfl, rfl, hn.as rfl⟩
  case prep => exact .inl ⟨rfl, hn.as rfl⟩

theorem N.terms {s : Srt} {l : List AST.Node} (h1 : N R S P U h s (.terms l)) : NL R S P U h l := by
  obtain ⟨h1, h2, h3⟩ := h1
  simp only [ws, wsIn, Bool.and_eq_true] at h1
  exact (NL_iff _).2 ⟨h1.2.2, h2, h3⟩

theorem N.linked {s : Srt} {g : AST.Word} {a : AST.Node} (h1 : N R S P U h s (.linked g a)) :
    Place U g.T ∧ N R S P U h .argument a ∧ ∀ b, N R S P U h .argument b → N R S P U h .term (.linked g b) := by
  obtain ⟨h1, h2, h3⟩ := h1
  simp only [ws, wsIn, Bool.and_eq_true] at h1
  refine ⟨h2.1, ⟨by simp only [ws, Bool.and_eq_true]; exact h1.2.2, h2.2, h3⟩, fun b hb => ⟨?_, ⟨h2.1, hb.2.1⟩, hb.2.2⟩⟩
  have hb1 := hb.1
  simp only [ws, wsIn, tag, accepts, Bool.and_eq_true] at hb1 ⊢
  exact ⟨rfl, h1.2.1, hb1⟩

theorem N.prep {s : Srt} {p a : AST.Node} (h1 : N R S P U h s (.prep p a)) : N R S P U h .predicate p ∧ N R S P U h .argument a := by
  obtain ⟨h1, h2, h3⟩ := h1
  simp only [ws, wsIn, Bool.and_eq_true] at h1
  simp only [marks, Own.app] at h3
  exact ⟨⟨by simp only [ws, Bool.and_eq_true]; exact h1.2.1, h2.1, h3.1⟩,
    ⟨by simp only [ws, Bool.and_eq_true]; exact h1.2.2, h2.2, h3.2⟩⟩

theorem N.lu {s : Srt} {k : AST.LuKind} {w : AST.Word} {st : AST.Node} (h1 : N R S P U h s (.lu k w st)) :
    N R S P U (h ∨ k = .predicate ∧ Reads U w.T "lu".toList) .statement st := by
  obtain ⟨h1, h2, h3⟩ := h1
  simp only [ws, wsIn, Bool.and_eq_true] at h1
  exact ⟨by simp only [ws, Bool.and_eq_true]; exact h1.2.2, h2, h3⟩

theorem N.raw {s : Srt} {k : AST.PredKind} {p : AST.Node} {ts : Option (List AST.Node)} {na : Option AST.Word}
    (h1 : N R S P U h s (.predication k p ts na)) : N R S P U h .statement (.predication .raw p ts na) := by
  obtain ⟨h1, h2, h3⟩ := h1
  simp only [ws, wsIn, Bool.and_eq_true] at h1
  exact ⟨by simp only [ws, wsIn, tag, Bool.and_eq_true]; exact ⟨rfl, h1.2⟩, h2, h3⟩

/-! ## Connections -/

theorem connective_iff (hU : U.Ok) {w : Str} : Connective U w ↔ connector U w ≠ none := by
  refine ⟨connective_some hU, fun hc => ?_⟩
  cases h1 : connector U w with
  | none => exact absurd h1 hc
  | some c => exact ⟨c, (C38_connector U hU w c).1 h1⟩

theorem connective_of (hU : U.Ok) {w : Str} {c : Conn} (hc : connector U w = some c) : Connective U w :=
  ⟨c, (C38_connector U hU w c).1 hc⟩

theorem isHoa_iff {p : AST.Node} : hoaPred U p = true ↔ IsHoa U p := by
  unfold hoaPred IsHoa
  split
  · exact C38_hoa U _
  · next hne =>
    refine ⟨fun h1 => (by cases h1), fun h1 => ?_⟩
    split at h1
    · exact absurd rfl (hne _)
    · exact h1.elim

theorem untone_d (s : Str) : ∃ s', untone ('d' :: s) = 'd' :: s' := by
  rcases firstUntoned_untone ('d' :: s) with ⟨_, h1⟩ | ⟨pre, v, post, _, h1, h2⟩
  · exact ⟨s, h1⟩
  · cases pre with
    | nil =>
      exfalso
      rcases h2 with ⟨_, h2⟩ | ⟨t, b, h2⟩
      · injection h2 with h2 _
        exact absurd h2 (by decide)
      · injection h2 with h2 _
        revert h2
        cases v <;> cases t <;> cases b <;> decide
    | cons c pre =>
      have : c = 'd' := by
        rcases h2 with ⟨_, h2⟩ | ⟨t, b, h2⟩ <;> injection h2 with h2 _ <;> exact h2.symm
      exact ⟨_, by rw [h1, this]; rfl⟩

theorem varPred_not_hoa (hU : U.Ok) {p : AST.Node} {x : Str} (hx : varPred U p = some x) : ¬ IsHoa U p := by
  intro hh
  rw [← isHoa_iff] at hh
  unfold varPred at hx
  split at hx
  · next w =>
    simp only [hoaPred, isHoa, decide_eq_true_eq] at hh
    simp only [Option.map_eq_some_iff] at hx
    obtain ⟨y, hy, _⟩ := hx
    unfold splitVar splitVarIn at hy
    split at hy
    · next r rest hw =>
      rw [hw] at hh
      obtain ⟨s', hs⟩ := untone_d (r :: rest)
      rw [hs, List.map_cons] at hh
      injection hh with hd _
      rw [hU.lower 'd' (by decide)] at hd
      exact absurd hd (by decide)
    · cases hy
  · cases hx

/-- Predicates are predicates, other left sides of connected predicates are not. -/
theorem leftPred_iff {n : AST.Node} (hn : accepts .leftPred (tag n) = true) :
    accepts .predicate (tag n) = true ↔ isPredicate n = true := by
  cases n <;> simp [tag, accepts, Tag.isPredicate, isPredicate] at hn ⊢
  case cop k _ _ _ _ _ => cases k <;> simp at hn ⊢
  case word k _ => cases k <;> simp at hn ⊢
  case lu k _ _ => cases k <;> simp at hn ⊢

theorem rightRel_iff {n : AST.Node} (hn : accepts .rightRel (tag n) = true) :
    accepts .relative (tag n) = true ↔ isRelative n = true := by
  cases n <;> simp [tag, accepts, Tag.isRelative, Tag.isStatement, isRelative] at hn ⊢
  case cop k _ _ _ _ _ => cases k <;> simp at hn ⊢
  case predication k _ _ _ => cases k <;> simp at hn ⊢
  case lu k _ _ => cases k <;> simp at hn ⊢

theorem statement_not_predicate {n : AST.Node} (hn : accepts .statement (tag n) = true) : isPredicate n = false := by
  cases n <;> simp [tag, accepts, Tag.isStatement, isPredicate] at hn ⊢
  case cop k _ _ _ _ _ => cases k <;> simp at hn ⊢
  case predication k _ _ _ => cases k <;> simp at hn ⊢

end

/-! ## Runs -/

/-- The run fails for want of fuel, or because the condition is not met; `R` holds if it fails with a run-time error and `S` if with a
string. -/
def Ex (R S A : Prop) (e : Err) : Prop := e = .fuel ∨ ¬ A ∧ (e = .rt → R) ∧ (e = .msg → S)

theorem Ex.of {R S A B : Prop} (h : B → A) (e : Err) : Ex R S A e → Ex R S B e := fun h' => h'.imp_right fun ha => ⟨fun hb => ha.1 (h hb), ha.2⟩

/-- A failure of a helper that needs the condition. -/
theorem ex_none {R S : Prop} {α : Type} {o : Option α} {A : Prop} (h : A → o ≠ none) (hs : o = none → S) : o = none → Ex R S A .msg :=
  fun h' => .inr ⟨fun ha => h ha h', fun h => (by cases h), fun _ => hs h'⟩

theorem ex_false {R S : Prop} {b : Bool} {A : Prop} (h : A → b = true) (hr : b = false → R) : b = false → Ex R S A .rt :=
  fun h' => .inr ⟨fun ha => (by rw [h ha] at h'; cases h'), fun _ => hr h', fun h => (by cases h)⟩

/-- A helper that does not fail. -/
theorem ex_some {R S : Prop} {α : Type} {o : Option α} {A : Prop} {e : Err} (h : o ≠ none) : o = none → Ex R S A e := fun h' => absurd h' h

theorem ex_true {R S : Prop} {b : Bool} {A : Prop} {e : Err} (h : b = true) : b = false → Ex R S A e := fun h' => by rw [h] at h'; cases h'

theorem imp_false {b b' : Bool} (h : b = true → b' = true) (h' : b' = false) : b = false := by
  cases b
  · rfl
  · rw [h rfl] at h'; cases h'

theorem unknown {S : Prop} {U : Uni} (hU : U.Ok) {w : Str} (h : ¬ Connective U w → S) : connector U w = none → S :=
  fun hn => h fun hc => connective_some hU hc hn

theorem unknownA {S : Prop} {U : Uni} (hU : U.Ok) {w : Str} (h : ¬ (Connective U w ∨ Reads U w "roi".toList) → S)
    (hr : ¬ hasText U w ['r', 'o', 'i'] = true) : connector U w = none → S :=
  fun hn => h fun hc => hc.elim (fun hc => connective_some hU hc hn) fun hc => hr ((C38_hasText U _ _).2 hc)

/-- What holds of the state: there is a scope for hi, the clauses of hoa are the given ones, and the arguments that
were lifted are known. -/
structure I (P : Nat → Prop) (hs : List Nat) (s : St) : Prop where
  hi : s.hi ≠ []
  hoa : s.hoa = hs
  lifted : ∀ x ∈ s.lifted, P x.1

variable {R S : Prop} {P : Nat → Prop} {U : Uni}

def Arg0.N (R S : Prop) (P : Nat → Prop) (U : Uni) (h : Prop) : Arg0 → Prop
  | .var _ => True
  | .tail _ _ st ts => Exact.N R S P U h .statement st ∧ NL R S P U h ts ∧ Meets U h st ∧ MeetsL U h ts

structure FEx (R S : Prop) (P : Nat → Prop) (U : Uni) (f : Fns) : Prop where
  statement : ∀ hs as n s, N R S P U (hs ≠ []) .statement n → I P hs s →
    Post (f.statement as n) s (Ex R S (Meets U (hs ≠ []) n)) fun _ s' => Meets U (hs ≠ []) n ∧ I P hs s'
  predicate : ∀ hs n s, N R S P U (hs ≠ []) .predicateOrContent n → I P hs s →
    Post (f.predicate n) s (Ex R S (Meets U (hs ≠ []) n)) fun _ s' => Meets U (hs ≠ []) n ∧ I P hs s'
  poArg : ∀ hs p a n s, N R S P U (hs ≠ []) .argument n → I P hs s →
    Post (f.poArg p a n) s (Ex R S (Meets U (hs ≠ []) n)) fun _ s' => Meets U (hs ≠ []) n ∧ I P hs s'
  prenexS : ∀ hs as bi st ts s, N R S P U (hs ≠ []) .statement st → NL R S P U (hs ≠ []) ts → I P hs s →
    Post (f.prenexS as bi st ts) s (Ex R S (Meets U (hs ≠ []) st ∧ MeetsL U (hs ≠ []) ts)) fun r s' =>
      Meets U (hs ≠ []) st ∧ MeetsL U (hs ≠ []) ts ∧ NL R S P U (hs ≠ []) r.2 ∧ MeetsL U (hs ≠ []) r.2 ∧ I P hs s'
  preposition : ∀ hs n a s, N R S P U (hs ≠ []) .prep n → Arg0.N R S P U (hs ≠ []) a → I P hs s →
    Post (f.preposition n a) s (Ex R S (Meets U (hs ≠ []) n)) fun r s' =>
      Meets U (hs ≠ []) n ∧ NL R S P U (hs ≠ []) r.2 ∧ MeetsL U (hs ≠ []) r.2 ∧ I P hs s'
  predPrep : ∀ hs p a n s, N R S P U (hs ≠ []) .predicate p → Arg0.N R S P U (hs ≠ []) a → N R S P U (hs ≠ []) .argument n → I P hs s →
    Post (f.predPrep p a n) s (Ex R S (Meets U (hs ≠ []) p ∧ MeetsP U (hs ≠ []) n)) fun r s' =>
      Meets U (hs ≠ []) p ∧ MeetsP U (hs ≠ []) n ∧ NL R S P U (hs ≠ []) r.2 ∧ MeetsL U (hs ≠ []) r.2 ∧ I P hs s'
  adverb : ∀ hs n a s, N R S P U (hs ≠ []) .adverb n → I P hs s →
    Post (f.adverb n a) s (Ex R S (Meets U (hs ≠ []) n)) fun _ s' => Meets U (hs ≠ []) n ∧ I P hs s'
  roi : ∀ hs l r s, N R S P U (hs ≠ []) .argument l → N R S P U (hs ≠ []) .argument r → I P hs s →
    Post (f.roi l r) s (Ex R S (Meets U (hs ≠ []) l ∧ Meets U (hs ≠ []) r)) fun _ s' =>
      Meets U (hs ≠ []) l ∧ Meets U (hs ≠ []) r ∧ I P hs s'
  roiL : ∀ hs x l r s, N R S P U (hs ≠ []) .argument l → N R S P U (hs ≠ []) .argument r → I P hs s →
    Post (f.roiL x l r) s (Ex R S (Meets U (hs ≠ []) l ∧ Meets U (hs ≠ []) r)) fun _ s' =>
      Meets U (hs ≠ []) l ∧ Meets U (hs ≠ []) r ∧ I P hs s'
  roiR : ∀ hs x l r s, N R S P U (hs ≠ []) .argument r → I P hs s →
    Post (f.roiR x l r) s (Ex R S (Meets U (hs ≠ []) r)) fun _ s' => Meets U (hs ≠ []) r ∧ I P hs s'
  predArg : ∀ hs n s, N R S P U (hs ≠ []) .predArg n → I P hs s →
    Post (f.predArg n) s (Ex R S (Meets U (hs ≠ []) n)) fun _ s' => Meets U (hs ≠ []) n ∧ I P hs s'
  relClause : ∀ hs b n s, N R S P U (hs ≠ [] ∨ b.isSome = true) .relative n → I P hs s →
    Post (f.relClause b n) s (Ex R S (Meets U (hs ≠ [] ∨ b.isSome = true) n)) fun _ s' =>
      Meets U (hs ≠ [] ∨ b.isSome = true) n ∧ I P hs s'

theorem fex_zero : FEx R S P U noFns := by
  constructor <;> intros <;> exact .inl rfl

theorem ex_distribute {A : Prop} {hs : List Nat} (as : Args) (t : PTree) (s : St) (h : I P hs s) :
    Post (distribute as t) s (Ex R S A) fun _ s' => I P hs s' := by
  induction t generalizing s with
  | leaf p =>
    unfold distribute
    postc
    obtain ⟨r, hr, _⟩ := C26_order as
    exact ⟨fun h => (by rw [hr] at h; cases h), fun _ _ => h⟩
  | conn c l r ihl ihr =>
    unfold distribute
    postc
    exact (ihl s h).mono fun _ s h1 => (ihr s h1).mono fun _ s h2 => h2

theorem clearHi_keep (scope : List Nat) (hi : Pending) (s : St) :
    (clearHi scope hi s).hoa = s.hoa ∧ (clearHi scope hi s).lifted = s.lifted := by
  unfold clearHi
  rw [visitO_eq]
  generalize preO hi.restr = l
  induction l generalizing s with
  | nil => exact ⟨rfl, rfl⟩
  | cons n l ih =>
    rw [List.foldl_cons]
    obtain ⟨h1, h2⟩ := ih (clearStep scope s n)
    have : (clearStep scope s n).hoa = s.hoa ∧ (clearStep scope s n).lifted = s.lifted := by
      unfold clearStep
      split
      · split <;> exact ⟨rfl, rfl⟩
      · exact ⟨rfl, rfl⟩
    exact ⟨h1.trans this.1, h2.trans this.2⟩

theorem bindHi_keep : ∀ (l : List Pending) (scope : List Nat) (st : Node) (s : St),
    (bindHi l scope st s).2.hoa = s.hoa ∧ (bindHi l scope st s).2.lifted = s.lifted
  | [], _, _, _ => ⟨rfl, rfl⟩
  | hi :: l, scope, st, s => by
    rw [bindHi]
    obtain ⟨h1, h2⟩ := bindHi_keep l (hi.id :: scope) (bindScope (some hi) st) (clearHi (hi.id :: scope) hi s)
    obtain ⟨h3, h4⟩ := clearHi_keep (hi.id :: scope) hi s
    exact ⟨h1.trans h3, h2.trans h4⟩

section
variable {f : Fns} (hU : U.Ok) (H : FEx R S P U f) {hs : List Nat}

section
include H

theorem ex_predication (p : AST.Node) (as : Args) (s : St) (hp : N R S P U (hs ≠ []) .predicateOrContent p)
    (hi : I P hs s) : Post (predication f p as) s (Ex R S (Meets U (hs ≠ []) p)) fun _ s' => Meets U (hs ≠ []) p ∧ I P hs s' := by
  unfold predication
  postc
  exact (H.predicate hs _ _ hp hi).mono fun t s ht => (ex_distribute as t s ht.2).mono fun _ _ h => ⟨ht.1, h⟩

/-- A subordinate statement needs no scope for hi and leaves that of its context. -/
theorem ex_subStatement (n : AST.Node) (s : St) (hn : N R S P U (hs ≠ []) .statement n) (hh : s.hoa = hs)
    (hl : ∀ x ∈ s.lifted, P x.1) :
    Post (subStatement f n) s (Ex R S (Meets U (hs ≠ []) n)) fun _ s' => Meets U (hs ≠ []) n ∧
      s'.hi = s.hi ∧ s'.hoa = hs ∧ ∀ x ∈ s'.lifted, P x.1 := by
  unfold subStatement
  postc
  refine (H.statement hs [] n { s with hi := [] :: s.hi } hn ⟨by simp, hh, hl⟩).mono fun r s' h => ⟨h.1, ?_⟩
  obtain ⟨h1, h2⟩ := bindHi_keep (s'.hi.headD []).reverse (s'.vars.map (·.2)) r s'
  refine ⟨h1.trans h.2.hoa, ?_⟩
  change ∀ x ∈ (bindHi (s'.hi.headD []).reverse (s'.vars.map (·.2)) r s').2.lifted, P x.1
  rw [h2]; exact h.2.lifted

theorem ex_sub (n : AST.Node) (s : St) (hn : N R S P U (hs ≠ []) .statement n) (hi : I P hs s) :
    Post (subStatement f n) s (Ex R S (Meets U (hs ≠ []) n)) fun _ s' => Meets U (hs ≠ []) n ∧ I P hs s' :=
  (ex_subStatement H n s hn hi.hoa hi.lifted).mono fun _ _ h => ⟨h.1, by rw [h.2.1]; exact hi.hi, h.2.2.1, h.2.2.2⟩

end

include hU H

theorem ex_statement (as : Args) (n : AST.Node) (s : St) (hn : N R S P U (hs ≠ []) .statement n) (hi : I P hs s) :
    Post (statementF U f as n) s (Ex R S (Meets U (hs ≠ []) n)) fun _ s' => Meets U (hs ≠ []) n ∧ I P hs s' := by
  unfold statementF
  postc
  split <;> postc
  · next ts bi st =>
    have h := hn
    simp only [N, ws, wsIn, Wx, marks, Own.app, Bool.and_eq_true] at h
    refine (H.prenexS hs _ _ _ _ _ ⟨?_, h.2.1.2, h.2.2.2⟩ ((NL_iff _).2 ⟨h.1.2.1.1.2, h.2.1.1, h.2.2.1⟩) hi).imp
      (Ex.of fun hm => ⟨hm.2, hm.1⟩) fun _ _ h => ⟨⟨h.2.1, h.1⟩, h.2.2.2.2.hi, h.2.2.2.2.hoa, h.2.2.2.2.lifted⟩
    simp only [ws, Bool.and_eq_true]; exact h.1.2.2
  · next p na =>
    have h := hn
    simp only [N, ws, wsIn, Wx, marks, Own.app, Bool.and_eq_true] at h
    refine (ex_predication H p as s (N.sub (s := .predicate) ⟨?_, h.2.1.1, h.2.2.1⟩ sub_pred) hi).imp
      (Ex.of fun hm => hm.1) fun _ _ h => ⟨⟨h.1, trivial⟩, h.2.hi, h.2.hoa, h.2.lifted⟩
    simp only [ws, Bool.and_eq_true]; exact h.1.2.1.1
  · next p ts na =>
    have h := hn
    simp only [N, ws, wsIn, wsTO, Wx, WxT, marks, marksT, Own.app, Bool.and_eq_true] at h
    refine (H.statement hs _ _ _ ⟨?_, ?_, ?_⟩ hi).imp (Ex.of fun hm => ⟨hm.2, hm.1, trivial⟩) fun _ _ h => ⟨⟨h.1.2.1, h.1.1⟩, h.2.hi, h.2.hoa, h.2.lifted⟩
    · simp only [ws, wsIn, wsTO, tag, Bool.and_eq_true]
      exact ⟨rfl, ⟨h.1.2.1.2, rfl⟩, rfl, ⟨h.1.2.1.1, trivial⟩, h.1.2.2⟩
    · exact ⟨h.2.1.2, h.2.1.1, trivial⟩
    · simp only [marks, marksT, Own.app]
      exact ⟨h.2.2.2, h.2.2.1, by simp [Own]⟩
  · next ru l r =>
    obtain ⟨sl, sr, e1, e2, gl, gr, mr, ms⟩ := hn.cop
    cases e1; cases e2
    refine ⟨ex_none (fun hm => connective_some hU hm.1) (unknown hU ms), fun c hc => ⟨ex_true (isStatement_of _ gl.acc), fun _ => ?_⟩⟩
    refine (H.statement hs _ _ _ gl hi).imp (Ex.of fun hm => hm.2.1) fun _ _ h1 => ⟨ex_true (isStatement_of _ gr.acc), fun _ => ?_⟩
    exact (H.statement hs _ _ _ gr h1.2).imp (Ex.of fun hm => hm.2.2) fun _ _ h2 =>
      ⟨⟨connective_of hU hc, h1.1, h2.1⟩, h2.2.hi, h2.2.hoa, h2.2.lifted⟩
  · next h1 h2 h3 h4 =>
    exfalso
    have ha := hn.acc
    cases n <;> simp [tag, accepts, Tag.isStatement] at ha
    case cop k _ _ _ _ _ => cases k <;> first | exact h4 _ _ _ _ _ rfl | simp at ha
    case prenexStmt => exact h1 _ _ _ rfl
    case predication k p ts na =>
      cases k <;> simp at ha
      cases ts with
      | none => exact h2 _ _ rfl
      | some ts => exact h3 _ _ _ rfl

theorem ex_predicate (n : AST.Node) (s : St) (hn : N R S P U (hs ≠ []) .predicateOrContent n) (hi : I P hs s) :
    Post (predicateF U f n) s (Ex R S (Meets U (hs ≠ []) n)) fun _ s' => Meets U (hs ≠ []) n ∧ I P hs s' := by
  unfold predicateF
  split <;> postc
  · split
    · postc
      exact ⟨fun _ _ => ⟨trivial, hi.hi, hi.hoa, hi.lifted⟩, fun _ => ⟨trivial, hi.hi, hi.hoa, hi.lifted⟩⟩
    · postc
      refine ⟨fun _ => ?_, fun _ => ⟨trivial, hi.hi, hi.hoa, hi.lifted⟩⟩
      split <;> postc <;> exact ⟨trivial, hi.hi, hi.hoa, hi.lifted⟩
  · next l r =>
    have h := hn
    simp only [N, ws, wsIn, Wx, marks, Own.app, Bool.and_eq_true] at h
    have gl : N R S P U (hs ≠ []) .predicateOrContent l := ⟨by simp only [ws, Bool.and_eq_true]; exact h.1.2.1, h.2.1.1, h.2.2.1⟩
    have gr : N R S P U (hs ≠ []) .predicateOrContent r :=
      N.sub (s := .predicate) ⟨by simp only [ws, Bool.and_eq_true]; exact h.1.2.2, h.2.1.2, h.2.2.2⟩ sub_pred
    refine ⟨ex_true (isPredicate_of _ gl.acc), fun _ => ?_⟩
    refine (H.predicate hs _ _ gl hi).imp (Ex.of fun hm => hm.1) fun _ _ h1 => ⟨ex_true (isPredicate_of _ gr.acc), fun _ => ?_⟩
    exact (H.predicate hs _ _ gr h1.2).imp (Ex.of fun hm => hm.2) fun _ _ h2 => ⟨⟨h1.1, h2.1⟩, h2.2⟩
  · have h := hn.2.1
    exact ⟨ex_some (mi_some hU h), fun _ _ => ⟨trivial, hi.hi, hi.hoa, hi.lifted⟩⟩
  · next m _ a =>
    have h := hn
    simp only [N, ws, wsIn, Wx, marks, Bool.and_eq_true] at h
    refine ⟨ex_some (po_some hU h.2.1.1), fun _ _ => ?_⟩
    exact Post.imp (H.poArg hs _ _ _ _ ⟨by simp only [ws, Bool.and_eq_true]; exact h.1.2.2, h.2.1.2, h.2.2⟩ ⟨hi.hi, hi.hoa, hi.lifted⟩)
      (Ex.of id) fun _ _ h => h
  · exact ⟨trivial, hi.hi, hi.hoa, hi.lifted⟩
  · next lu st =>
    have gs := hn.lu
    constructor <;> intro ht
    · have e : (hs ≠ [] ∨ (AST.LuKind.predicate = .predicate ∧ Reads U lu.T "lu".toList)) = (s.n :: hs ≠ []) :=
        (eq_true (.inr ⟨rfl, (C38_hasText U _ _).1 ht⟩)).trans (eq_true (by simp)).symm
      have em : Meets U (hs ≠ []) (.lu .predicate lu st) = Meets U (s.n :: hs ≠ []) st := by
        rw [Meets, e]
      rw [e] at gs
      refine Post.imp (ex_subStatement H st _ gs (by simp [hi.hoa]) hi.lifted) (Ex.of fun hm => em ▸ hm) fun _ s' h => ⟨em ▸ h.1, ?_, ?_, h.2.2.2⟩
      · rw [h.2.1]; exact hi.hi
      · show s'.hoa.tail = hs
        rw [h.2.2.1]; rfl
    · have e : (hs ≠ [] ∨ (AST.LuKind.predicate = .predicate ∧ Reads U lu.T "lu".toList)) = (hs ≠ []) :=
        propext ⟨fun h => h.elim id fun h => absurd ((C38_hasText U _ _).2 h.2) ht, .inl⟩
      have em : Meets U (hs ≠ []) (.lu .predicate lu st) = Meets U (hs ≠ []) st := by
        rw [Meets, e]
      rw [e] at gs
      exact Post.imp (ex_sub H st _ gs hi) (Ex.of fun hm => em ▸ hm) fun _ _ h => ⟨em ▸ h.1, h.2⟩
  · next ru l r =>
    obtain ⟨sl, sr, e1, e2, gl, gr, mr, ms⟩ := hn.cop
    cases e1; cases e2
    have gr := gr.sub sub_pred
    refine ⟨ex_none (fun hm => connective_some hU hm.1.1) (unknown hU ms), fun c hc => ⟨ex_false (fun hm => (leftPred_iff gl.acc).1 hm.1.2) (fun h => mr (imp_false (leftPred_iff gl.acc).1 h)), fun hl => ?_⟩⟩
    have ha := (leftPred_iff gl.acc).2 hl
    refine (H.predicate hs _ _ (gl.as (sub_pred _ ha)) hi).imp (Ex.of fun hm => hm.2.1) fun _ _ h1 => ⟨ex_true (isPredicate_of _ gr.acc), fun _ => ?_⟩
    exact (H.predicate hs _ _ gr h1.2).imp (Ex.of fun hm => hm.2.2) fun _ _ h2 => ⟨⟨⟨connective_of hU hc, ha⟩, h1.1, h2.1⟩, h2.2⟩
  · obtain ⟨sl, sr, e1, e2, gl, gr, mr, ms⟩ := hn.cop
    cases e1; cases e2
    have no : ∀ {A : Prop} {k t0 t1 ru l r}, k = AST.CopKind.content → Meets U (hs ≠ []) (.cop k t0 t1 ru l r) → A := by
      intro A k t0 t1 ru l r hk hm
      subst hk
      exact hm.1.elim
    refine ⟨ex_none (fun hm => no rfl hm) (unknown hU ms), fun c hc => ⟨ex_false (fun hm => no rfl hm) (fun _ => mr trivial), fun hl => ?_⟩⟩
    refine (H.predicate hs _ _ (gl.as (by simp only [accepts, Bool.or_eq_true]; exact .inr gl.acc)) hi).imp
      (Ex.of fun hm => no rfl hm) fun _ _ h1 => ⟨ex_false (fun hm => no rfl hm) (fun _ => mr trivial), fun hr => ?_⟩
    rw [statement_not_predicate gr.acc] at hr
    cases hr
  · next lu st =>
    have gs := hn.lu
    have e : (hs ≠ [] ∨ (AST.LuKind.content = .predicate ∧ Reads U lu.T "lu".toList)) = (hs ≠ []) :=
      propext ⟨fun h => h.elim id fun h => (by cases h.1), .inl⟩
    have em : Meets U (hs ≠ []) (.lu .content lu st) = Meets U (hs ≠ []) st := by
      rw [Meets, e]
    rw [e] at gs
    exact Post.imp (ex_sub H st _ gs hi) (Ex.of fun hm => em ▸ hm) fun _ _ h => ⟨em ▸ h.1, h.2.hi, h.2.hoa, h.2.lifted⟩
  · next p ts na =>
    exact Post.imp (ex_sub H _ _ hn.raw hi) (Ex.of fun hm => hm) fun _ _ h => ⟨h.1, h.2.hi, h.2.hoa, h.2.lifted⟩
  · next h1 h2 h3 h4 h5 h6 h7 h8 h9 h10 =>
    exfalso
    have ha := hn.acc
    cases n <;> simp [tag, accepts, Tag.isPredicate, Tag.isContent] at ha
    case cop k _ _ _ _ _ => cases k <;> first | exact h7 _ _ _ _ _ rfl | exact h8 _ _ _ _ _ rfl | simp at ha
    case predication k _ _ _ => cases k <;> first | exact h10 _ _ _ rfl | simp at ha
    case serial => exact h2 _ _ rfl
    case word k _ => cases k <;> first | exact h1 _ rfl | simp at ha
    case mi => exact h3 _ _ _ rfl
    case po => exact h4 _ _ _ rfl
    case mo => exact h5 _ _ _ rfl
    case lu k _ _ => cases k <;> first | exact h6 _ _ rfl | exact h9 _ _ rfl | simp at ha

omit hU H in
theorem roi_joined {ru : AST.Word} {l r : AST.Node} (h : hasText U ru.T ['r', 'o', 'i'] = true) :
    Joined U .argument ru.T l r := .inr ((C38_hasText U _ _).1 h)

omit H in
theorem conn_joined {ru : AST.Word} {l r : AST.Node} {c : Conn} (h : connector U ru.T = some c) :
    Joined U .argument ru.T l r := .inl (connective_of hU h)

theorem ex_poArg (p a : Node) (n : AST.Node) (s : St) (hn : N R S P U (hs ≠ []) .argument n) (hi : I P hs s) :
    Post (poArgF U f p a n) s (Ex R S (Meets U (hs ≠ []) n)) fun _ s' => Meets U (hs ≠ []) n ∧ I P hs s' := by
  unfold poArgF
  postc
  split <;> postc
  · exact Post.mono (H.predArg hs _ _ hn.predArg hi) fun x _ h => ⟨h.1, h.2.hi, h.2.hoa, h.2.lifted⟩
  · obtain ⟨sl, sr, e1, e2, gl, gr, mr, ms⟩ := hn.cop
    cases e1; cases e2
    constructor <;> intro hr
    · exact Post.imp (H.roi hs _ _ _ gl gr hi) (Ex.of fun hm => hm.2) fun x _ h =>
        ⟨⟨roi_joined hr, h.1, h.2.1⟩, h.2.2.hi, h.2.2.hoa, h.2.2.lifted⟩
    · refine ⟨ex_none (fun hm => hm.1.plain hU hr) (unknownA hU ms hr), fun c hc => ⟨ex_true (isArgument_of _ gl.acc), fun _ => ?_⟩⟩
      refine Post.imp (H.poArg hs _ _ _ _ gl hi) (Ex.of fun hm => hm.2.1) fun _ _ h1 => ⟨ex_true (isArgument_of _ gr.acc), fun _ => ?_⟩
      exact Post.imp (H.poArg hs _ _ _ _ gr h1.2) (Ex.of fun hm => hm.2.2) fun _ _ h2 =>
        ⟨⟨conn_joined hU hc, h1.1, h2.1⟩, h2.2.hi, h2.2.hoa, h2.2.lifted⟩
  · next h1 h2 => exact (hn.arg_cases h1 h2).elim

theorem ex_prenexS (as : Args) (bi : Str) (st : AST.Node) (ts : List AST.Node) (s : St)
    (hst : N R S P U (hs ≠ []) .statement st) (hts : NL R S P U (hs ≠ []) ts) (hi : I P hs s) :
    Post (prenexSF U f as bi st ts) s (Ex R S (Meets U (hs ≠ []) st ∧ MeetsL U (hs ≠ []) ts)) fun r s' =>
      Meets U (hs ≠ []) st ∧ MeetsL U (hs ≠ []) ts ∧ NL R S P U (hs ≠ []) r.2 ∧ MeetsL U (hs ≠ []) r.2 ∧ I P hs s' := by
  have fin : ∀ {s' s'' : St}, I P hs s' → s''.hi = s'.hi → s''.hoa = s'.hoa → s''.lifted = s'.lifted → I P hs s'' :=
    fun h h1 h2 h3 => ⟨by rw [h1]; exact h.hi, by rw [h2]; exact h.hoa, by rw [h3]; exact h.lifted⟩
  unfold prenexSF
  postc
  split
  · postc
    exact Post.imp (H.statement hs _ _ _ hst hi) (Ex.of fun hm => hm.1) fun _ _ h =>
      ⟨h.1, trivial, NL.nil, trivial, fin h.2 rfl rfl rfl⟩
  · next t rest =>
    have ht : N R S P U (hs ≠ []) .term t := hts t (by simp)
    have hrest : NL R S P U (hs ≠ []) rest := fun n hn => hts n (by simp [hn])
    split
    · next ru l r =>
      obtain ⟨sl, sr, e1, e2, gl, gr, mr, ms⟩ := ht.cop
      cases e1; cases e2
      split
      · postc
        refine ⟨ex_none (fun hm => connective_some hU hm.2.1.1) (unknown hU ms), fun c hc => ?_⟩
        refine Post.imp (H.prenexS hs _ _ _ _ _ hst (gl.terms.app hrest) hi)
          (Ex.of fun hm => ⟨hm.1, meetsL_app.2 ⟨hm.2.1.2.1, hm.2.2⟩⟩) fun _ _ h1 => ?_
        refine Post.imp (H.prenexS hs _ _ _ _ _ hst (gr.terms.app hrest) h1.2.2.2.2)
          (Ex.of fun hm => ⟨hm.1, meetsL_app.2 ⟨hm.2.1.2.2, hm.2.2⟩⟩) fun _ _ h2 => ?_
        have m1 := meetsL_app.1 h1.2.1
        have m2 := meetsL_app.1 h2.2.1
        exact ⟨h1.1, ⟨⟨connective_of hU hc, m1.1, m2.1⟩, m1.2⟩, hts, ⟨⟨connective_of hU hc, m1.1, m2.1⟩, m1.2⟩,
          fin h2.2.2.2.2 rfl rfl rfl⟩
      · next hne =>
        have h1 := gl.acc
        have h2 := gr.acc
        exfalso
        cases l <;> simp [tag, accepts] at h1
        cases r <;> simp [tag, accepts] at h2
        exact hne _ _ rfl rfl
    · next ru l r =>
      obtain ⟨sl, sr, e1, e2, gl, gr, mr, ms⟩ := ht.cop
      cases e1; cases e2
      postc
      constructor <;> intro hr
      · refine Post.imp (H.roi hs _ _ _ gl gr hi) (Ex.of fun hm => hm.2.1.2) fun _ _ h1 => ?_
        refine Post.imp (H.prenexS hs _ _ _ _ _ hst hrest h1.2.2) (Ex.of fun hm => ⟨hm.1, hm.2.2⟩) fun _ _ h2 => ?_
        exact ⟨h2.1, ⟨⟨roi_joined hr, h1.1, h1.2.1⟩, h2.2.1⟩, NL.cons ht h2.2.2.1,
          ⟨⟨roi_joined hr, h1.1, h1.2.1⟩, h2.2.2.2.1⟩, fin h2.2.2.2.2 rfl rfl rfl⟩
      · refine ⟨ex_true (isTerm_of _ (sub_arg _ gl.acc)), fun _ => ⟨ex_true (isTerm_of _ (sub_arg _ gr.acc)),
          fun _ => ⟨ex_none (fun hm => hm.2.1.1.plain hU hr) (unknownA hU ms hr), fun c hc => ?_⟩⟩⟩
        refine Post.imp (H.prenexS hs _ _ _ _ _ hst (NL.cons (gl.sub sub_arg) hrest) hi)
          (Ex.of fun hm => ⟨hm.1, hm.2.1.2.1, hm.2.2⟩) fun _ _ h1 => ?_
        refine Post.imp (H.prenexS hs _ _ _ _ _ hst (NL.cons (gr.sub sub_arg) h1.2.2.1.tail) h1.2.2.2.2)
          (Ex.of fun hm => ⟨hm.1, hm.2.1.2.2, meetsL_tail h1.2.2.2.1⟩) fun _ _ h2 => ?_
        exact ⟨h1.1, ⟨⟨conn_joined hU hc, h1.2.1.1, h2.2.1.1⟩, h1.2.1.2⟩, h2.2.2.1, h2.2.2.2.1, fin h2.2.2.2.2 rfl rfl rfl⟩
    · postc
      refine Post.imp (H.predArg hs _ _ ht.predArg hi) (Ex.of fun hm => hm.2.1) fun x _ h1 => ?_
      exact Post.imp (H.prenexS hs _ _ _ _ _ hst hrest h1.2) (Ex.of fun hm => ⟨hm.1, hm.2.2⟩) fun _ _ h2 =>
        ⟨h2.1, ⟨h1.1, h2.2.1⟩, NL.cons ht h2.2.2.1, ⟨h1.1, h2.2.2.2.1⟩, fin h2.2.2.2.2 rfl rfl rfl⟩
    · next go arg =>
      obtain ⟨hp, ga, hl⟩ := ht.linked
      split
      · next ru l r =>
        obtain ⟨sl, sr, e1, e2, gl, gr, mr, ms⟩ := ga.cop
        cases e1; cases e2
        postc
        constructor <;> intro hr
        · refine Post.imp (H.roi hs _ _ _ gl gr hi) (Ex.of fun hm => hm.2.1.2) fun _ _ h1 => ⟨ex_some (place_some hU hp), fun _ _ => ?_⟩
          refine Post.imp (H.prenexS hs _ _ _ _ _ hst hrest h1.2.2) (Ex.of fun hm => ⟨hm.1, hm.2.2⟩) fun _ _ h2 => ?_
          exact ⟨h2.1, ⟨⟨roi_joined hr, h1.1, h1.2.1⟩, h2.2.1⟩, NL.cons ht h2.2.2.1,
            ⟨⟨roi_joined hr, h1.1, h1.2.1⟩, h2.2.2.2.1⟩, fin h2.2.2.2.2 rfl rfl rfl⟩
        · refine ⟨ex_true (isArgument_of _ gl.acc), fun _ => ⟨ex_true (isArgument_of _ gr.acc),
            fun _ => ⟨ex_none (fun hm => hm.2.1.1.plain hU hr) (unknownA hU ms hr), fun c hc => ?_⟩⟩⟩
          refine Post.imp (H.prenexS hs _ _ _ _ _ hst (NL.cons (hl _ gl) hrest) hi)
            (Ex.of fun hm => ⟨hm.1, hm.2.1.2.1, hm.2.2⟩) fun _ _ h1 => ?_
          refine Post.imp (H.prenexS hs _ _ _ _ _ hst (NL.cons (hl _ gr) h1.2.2.1.tail) h1.2.2.2.2)
            (Ex.of fun hm => ⟨hm.1, hm.2.1.2.2, meetsL_tail h1.2.2.2.1⟩) fun _ _ h2 => ?_
          exact ⟨h1.1, ⟨⟨conn_joined hU hc, h1.2.1.1, h2.2.1.1⟩, h1.2.1.2⟩, h2.2.2.1, h2.2.2.2.1, fin h2.2.2.2.2 rfl rfl rfl⟩
      · postc
        refine Post.imp (H.predArg hs _ _ ga.predArg hi) (Ex.of fun hm => hm.2.1) fun x _ h1 => ⟨ex_some (place_some hU hp), fun _ _ => ?_⟩
        exact Post.imp (H.prenexS hs _ _ _ _ _ hst hrest h1.2) (Ex.of fun hm => ⟨hm.1, hm.2.2⟩) fun _ _ h2 =>
          ⟨h2.1, ⟨h1.1, h2.2.1⟩, NL.cons ht h2.2.2.1, ⟨h1.1, h2.2.2.2.1⟩, fin h2.2.2.2.2 rfl rfl rfl⟩
      · next h1 h2 => exact (ga.arg_cases h2 h1).elim
    · next h1 h2 h3 h4 =>
      postc
      rcases ht.term_cases h1 h2 h3 h4 with ⟨hp, gp⟩ | ⟨hp, ha, gp⟩
      · refine ⟨fun _ => ?_, fun h => absurd hp h⟩
        refine Post.imp (H.prenexS hs _ _ _ _ _ hst hrest hi) (Ex.of fun hm => ⟨hm.1, hm.2.2⟩) fun r s h => ?_
        constructor <;> intro _
        · exact Post.imp (H.preposition hs _ _ _ gp ⟨hst, h.2.2.1, h.1, h.2.2.2.1⟩ h.2.2.2.2) (Ex.of fun hm => hm.2.1) fun _ _ h' =>
            ⟨h.1, ⟨h'.1, h.2.1⟩, NL.cons ht h'.2.1, ⟨h'.1, h'.2.2.1⟩, fin h'.2.2.2 rfl rfl rfl⟩
        · exact Post.imp (H.preposition hs t (.var _) _ gp trivial (fin h.2.2.2.2 rfl rfl rfl)) (Ex.of fun hm => hm.2.1) fun _ _ h' =>
            ⟨h.1, ⟨h'.1, h.2.1⟩, NL.cons ht h.2.2.1, ⟨h'.1, h.2.2.2.1⟩, fin h'.2.2.2 rfl rfl rfl⟩
      · refine ⟨fun h => (by rw [hp] at h; cases h), fun _ => ⟨fun _ => ?_, fun h => absurd ha h⟩⟩
        refine Post.imp (H.prenexS hs _ _ _ _ _ hst hrest hi) (Ex.of fun hm => ⟨hm.1, hm.2.2⟩) fun r s h => ?_
        constructor <;> intro _
        · exact Post.imp (H.adverb hs _ _ _ gp (fin h.2.2.2.2 rfl rfl rfl)) (Ex.of fun hm => hm.2.1) fun _ _ h' =>
            ⟨h.1, ⟨h'.1, h.2.1⟩, NL.cons ht h.2.2.1, ⟨h'.1, h.2.2.2.1⟩, fin h'.2 rfl rfl rfl⟩
        · exact Post.imp (H.adverb hs _ _ _ gp (fin h.2.2.2.2 rfl rfl rfl)) (Ex.of fun hm => hm.2.1) fun _ _ h' =>
            ⟨h.1, ⟨h'.1, h.2.1⟩, NL.cons ht h.2.2.1, ⟨h'.1, h.2.2.2.1⟩, fin h'.2 rfl rfl rfl⟩

omit hU H in
theorem Arg0.N.set {h : Prop} {a : Arg0} {ts : List AST.Node} (ha : Arg0.N R S P U h a) (ht : NL R S P U h ts) (hm : MeetsL U h ts) :
    Arg0.N R S P U h (a.setTerms ts) := by
  cases a with
  | var => trivial
  | tail => exact ⟨ha.1, ht, ha.2.2.1, hm⟩

omit hU H in
theorem I.same {s s' : St} (h : I P hs s) (h1 : s'.hi = s.hi) (h2 : s'.hoa = s.hoa) (h3 : s'.lifted = s.lifted) : I P hs s' :=
  ⟨by rw [h1]; exact h.hi, by rw [h2]; exact h.hoa, by rw [h3]; exact h.lifted⟩

theorem ex_preposition (n : AST.Node) (a : Arg0) (s : St) (hn : N R S P U (hs ≠ []) .prep n) (ha : Arg0.N R S P U (hs ≠ []) a)
    (hi : I P hs s) : Post (prepositionF U f n a) s (Ex R S (Meets U (hs ≠ []) n)) fun r s' =>
      Meets U (hs ≠ []) n ∧ NL R S P U (hs ≠ []) r.2 ∧ MeetsL U (hs ≠ []) r.2 ∧ I P hs s' := by
  unfold prepositionF
  postc
  split <;> postc
  · exact Post.imp (H.predPrep hs _ _ _ _ hn.prep.1 ha hn.prep.2 hi) (Ex.of fun hm => hm) fun _ _ h =>
      ⟨⟨h.1, h.2.1⟩, h.2.2.1, h.2.2.2.1, h.2.2.2.2.same rfl rfl rfl⟩
  · obtain ⟨sl, sr, e1, e2, gl, gr, mr, ms⟩ := hn.cop
    cases e1; cases e2
    refine ⟨ex_none (fun hm => connective_some hU hm.1) (unknown hU ms), fun c hc => ⟨ex_true (isPreposition_of _ gl.acc), fun _ => ?_⟩⟩
    refine Post.imp (H.preposition hs _ _ _ gl ha hi) (Ex.of fun hm => hm.2.1) fun _ _ h1 => ⟨ex_true (isPreposition_of _ gr.acc), fun _ => ?_⟩
    exact Post.imp (H.preposition hs _ _ _ gr (ha.set h1.2.1 h1.2.2.1) h1.2.2.2) (Ex.of fun hm => hm.2.2) fun _ _ h2 =>
      ⟨⟨connective_of hU hc, h1.1, h2.1⟩, h2.2.1, h2.2.2.1, h2.2.2.2.same rfl rfl rfl⟩
  · next h1 h2 =>
    exfalso
    have ha := hn.acc
    cases n <;> simp [tag, accepts, Tag.isPrep] at ha
    case cop k _ _ _ _ _ => cases k <;> first | exact h2 _ _ _ _ _ rfl | simp at ha
    case prep => exact h1 _ _ rfl

omit hU in
theorem ex_predPrepEnd (p : AST.Node) (a : Arg0) (b : Option Pending) (x : Node) (s : St)
    (hp : N R S P U (hs ≠ []) .predicate p) (ha : Arg0.N R S P U (hs ≠ []) a) (hi : I P hs s) :
    Post (predPrepEnd f p a b x) s (Ex R S (Meets U (hs ≠ []) p)) fun r s' =>
      Meets U (hs ≠ []) p ∧ NL R S P U (hs ≠ []) r.2 ∧ MeetsL U (hs ≠ []) r.2 ∧ I P hs s' := by
  unfold predPrepEnd
  split <;> postc
  · exact Post.mono (ex_predication H _ _ _ (hp.sub sub_pred) hi) fun _ _ h => ⟨h.1, NL.nil, trivial, h.2⟩
  · refine Post.imp (H.prenexS hs _ _ _ _ _ ha.1 ha.2.1 hi) (fun _ h => h.elim .inl fun h => absurd ha.2.2 h.1) fun r _ h => ?_
    exact Post.mono (ex_predication H _ _ _ (hp.sub sub_pred) (h.2.2.2.2.same rfl rfl rfl)) fun _ _ h' =>
      ⟨h'.1, h.2.2.1, h.2.2.2.1, h'.2⟩

omit hU H in
theorem meetsP_of {h : Prop} {n : AST.Node} (hm : Meets U h n) (hc : ∀ k t0 t1 ru l r, n ≠ .cop k t0 t1 ru l r) :
    MeetsP U h n := by
  unfold MeetsP
  split
  · exact absurd rfl (hc _ _ _ _ _ _)
  · exact hm
  · trivial

theorem ex_predPrep (p : AST.Node) (a : Arg0) (n : AST.Node) (s : St) (hp : N R S P U (hs ≠ []) .predicate p)
    (ha : Arg0.N R S P U (hs ≠ []) a) (hn : N R S P U (hs ≠ []) .argument n) (hi : I P hs s) :
    Post (predPrepF U f p a n) s (Ex R S (Meets U (hs ≠ []) p ∧ MeetsP U (hs ≠ []) n)) fun r s' =>
      Meets U (hs ≠ []) p ∧ MeetsP U (hs ≠ []) n ∧ NL R S P U (hs ≠ []) r.2 ∧ MeetsL U (hs ≠ []) r.2 ∧ I P hs s' := by
  unfold predPrepF
  postc
  split <;> postc
  · refine Post.imp (H.predArg hs _ _ hn.predArg hi) (Ex.of fun hm => hm.2) fun _ _ h1 => ?_
    exact Post.imp (ex_predPrepEnd H _ _ _ _ _ hp ha h1.2) (Ex.of fun hm => hm.1) fun _ _ h =>
      ⟨h.1, h1.1, h.2.1, h.2.2.1, h.2.2.2.same rfl rfl rfl⟩
  · next ru l r =>
    obtain ⟨sl, sr, e1, e2, gl, gr, mr, ms⟩ := hn.cop
    cases e1; cases e2
    constructor <;> intro hr
    · have hr' := (C38_hasText U _ _).1 hr
      refine Post.imp (H.roi hs _ _ _ gl gr hi) (Ex.of fun hm => hm.2.2.1 hr') fun _ _ h1 => ?_
      exact Post.imp (ex_predPrepEnd H _ _ _ _ _ hp ha h1.2.2) (Ex.of fun hm => hm.1) fun _ _ h =>
        ⟨h.1, ⟨roi_joined hr, fun _ => ⟨h1.1, h1.2.1⟩, fun h0 => absurd hr' h0⟩, h.2.1, h.2.2.1, h.2.2.2.same rfl rfl rfl⟩
    · have hr' : ¬ Reads U ru.T "roi".toList := fun h => hr ((C38_hasText U _ _).2 h)
      refine ⟨ex_none (fun hm => hm.2.1.plain hU hr) (unknownA hU ms hr), fun c hc => ⟨ex_true (isArgument_of _ gl.acc), fun _ => ?_⟩⟩
      refine Post.imp (H.predPrep hs _ _ _ _ hp ha gl hi) (Ex.of fun hm => ⟨hm.1, hm.2.2.2 hr'⟩) fun _ _ h1 => ?_
      exact Post.imp (H.predPrep hs _ _ _ _ hp (ha.set h1.2.2.1 h1.2.2.2.1) gl h1.2.2.2.2) (Ex.of fun hm => ⟨hm.1, hm.2.2.2 hr'⟩)
        fun _ _ h2 => ⟨h1.1, ⟨conn_joined hU hc, fun h0 => absurd h0 hr', fun _ => h1.2.1⟩, h2.2.2.1, h2.2.2.2.1,
          h2.2.2.2.2.same rfl rfl rfl⟩
  · next h1 h2 => exact (hn.arg_cases h1 h2).elim

theorem ex_adverb (n : AST.Node) (a : Node) (s : St) (hn : N R S P U (hs ≠ []) .adverb n) (hi : I P hs s) :
    Post (adverbF U f n a) s (Ex R S (Meets U (hs ≠ []) n)) fun _ s' => Meets U (hs ≠ []) n ∧ I P hs s' := by
  unfold adverbF
  postc
  split <;> postc
  · next p =>
    have h := hn
    simp only [N, ws, wsIn, Wx, marks, Bool.and_eq_true] at h
    exact Post.imp (ex_predication H p _ _
      (N.sub (s := .predicate) ⟨by simp only [ws, Bool.and_eq_true]; exact h.1.2, h.2.1, h.2.2⟩ sub_pred) hi)
      (Ex.of fun hm => hm) fun _ _ h => ⟨h.1, h.2.same rfl rfl rfl⟩
  · obtain ⟨sl, sr, e1, e2, gl, gr, mr, ms⟩ := hn.cop
    cases e1; cases e2
    refine ⟨ex_none (fun hm => connective_some hU hm.1) (unknown hU ms), fun c hc => ⟨ex_true (isAdverb_of _ gl.acc), fun _ => ?_⟩⟩
    refine Post.imp (H.adverb hs _ _ _ gl hi) (Ex.of fun hm => hm.2.1) fun _ _ h1 => ⟨ex_true (isAdverb_of _ gr.acc), fun _ => ?_⟩
    exact Post.imp (H.adverb hs _ _ _ gr h1.2) (Ex.of fun hm => hm.2.2) fun _ _ h2 =>
      ⟨⟨connective_of hU hc, h1.1, h2.1⟩, h2.2.same rfl rfl rfl⟩
  · next h1 h2 =>
    exfalso
    have ha := hn.acc
    cases n <;> simp [tag, accepts, Tag.isAdverb] at ha
    case cop k _ _ _ _ _ => cases k <;> first | exact h2 _ _ _ _ _ rfl | simp at ha
    case predAdverb => exact h1 _ rfl

omit hU in
theorem ex_roi (l r : AST.Node) (s : St) (hl : N R S P U (hs ≠ []) .argument l) (hr : N R S P U (hs ≠ []) .argument r) (hi : I P hs s) :
    Post (roiF f l r) s (Ex R S (Meets U (hs ≠ []) l ∧ Meets U (hs ≠ []) r)) fun _ s' =>
      Meets U (hs ≠ []) l ∧ Meets U (hs ≠ []) r ∧ I P hs s' := by
  unfold roiF
  postc
  refine ⟨ex_true (isArgument_of _ hl.acc), fun _ => ⟨ex_true (isArgument_of _ hr.acc), fun _ => ?_⟩⟩
  exact Post.mono (H.roiL hs _ _ _ _ hl hr (hi.same rfl rfl rfl)) fun _ _ h => h

theorem ex_roiL (x : Node) (l r : AST.Node) (s : St) (hl : N R S P U (hs ≠ []) .argument l) (hr : N R S P U (hs ≠ []) .argument r)
    (hi : I P hs s) : Post (roiLF U f x l r) s (Ex R S (Meets U (hs ≠ []) l ∧ Meets U (hs ≠ []) r)) fun _ s' =>
      Meets U (hs ≠ []) l ∧ Meets U (hs ≠ []) r ∧ I P hs s' := by
  unfold roiLF
  split <;> postc
  · obtain ⟨sl, sr, e1, e2, gl, gr, mr, ms⟩ := hl.cop
    cases e1; cases e2
    constructor <;> intro ht
    · refine Post.imp (H.roi hs _ _ _ gl gr hi) (Ex.of fun hm => hm.1.2) fun _ _ h1 => ?_
      exact Post.imp (H.roiR hs _ _ _ _ hr h1.2.2) (Ex.of fun hm => hm.2) fun _ _ h2 =>
        ⟨⟨roi_joined ht, h1.1, h1.2.1⟩, h2.1, h2.2⟩
    · refine ⟨ex_none (fun hm => hm.1.1.plain hU ht) (unknownA hU ms ht), fun c hc => ⟨ex_true (isArgument_of _ gl.acc), fun _ => ?_⟩⟩
      refine Post.imp (H.roiL hs _ _ _ _ gl hr hi) (Ex.of fun hm => ⟨hm.1.2.1, hm.2⟩) fun _ _ h1 => ⟨ex_true (isArgument_of _ gr.acc), fun _ => ?_⟩
      exact Post.imp (H.roiL hs _ _ _ _ gr hr h1.2.2) (Ex.of fun hm => ⟨hm.1.2.2, hm.2⟩) fun _ _ h2 =>
        ⟨⟨conn_joined hU hc, h1.1, h2.1⟩, h2.2.1, h2.2.2⟩
  · refine Post.imp (H.predArg hs _ _ hl.predArg hi) (Ex.of fun hm => hm.1) fun _ _ h1 => ?_
    exact Post.imp (H.roiR hs _ _ _ _ hr h1.2) (Ex.of fun hm => hm.2) fun _ _ h2 => ⟨h1.1, h2.1, h2.2⟩
  · next h1 h2 => exact (hl.arg_cases h2 h1).elim

theorem ex_roiR (x l : Node) (r : AST.Node) (s : St) (hr : N R S P U (hs ≠ []) .argument r) (hi : I P hs s) :
    Post (roiRF U f x l r) s (Ex R S (Meets U (hs ≠ []) r)) fun _ s' => Meets U (hs ≠ []) r ∧ I P hs s' := by
  unfold roiRF
  split <;> postc
  · obtain ⟨sl, sr, e1, e2, gl, gr, mr, ms⟩ := hr.cop
    cases e1; cases e2
    constructor <;> intro ht
    · exact Post.imp (H.roi hs _ _ _ gl gr hi) (Ex.of fun hm => hm.2) fun _ _ h1 => ⟨⟨roi_joined ht, h1.1, h1.2.1⟩, h1.2.2⟩
    · refine ⟨ex_none (fun hm => hm.1.plain hU ht) (unknownA hU ms ht), fun c hc => ⟨ex_true (isArgument_of _ gl.acc), fun _ => ?_⟩⟩
      refine Post.imp (H.roiR hs _ _ _ _ gl hi) (Ex.of fun hm => hm.2.1) fun _ _ h1 => ⟨ex_true (isArgument_of _ gr.acc), fun _ => ?_⟩
      exact Post.imp (H.roiR hs _ _ _ _ gr h1.2) (Ex.of fun hm => hm.2.2) fun _ _ h2 =>
        ⟨⟨conn_joined hU hc, h1.1, h2.1⟩, h2.2⟩
  · exact Post.mono (H.predArg hs _ _ hr.predArg hi) fun _ _ h1 => h1
  · next h1 h2 => exact (hr.arg_cases h2 h1).elim

omit hU H in
/-- A relative clause that may be missing. -/
def NO (R S : Prop) (P : Nat → Prop) (U : Uni) (r : Option AST.Node) : Prop := ∀ n, r = some n → N R S P U True .relative n

omit hU in
/-- The relative clause of an argument, in which hoa is bound. -/
theorem ex_rel (x : Nat) (r : AST.Node) (s : St) (hr : N R S P U True .relative r) (hi : I P hs s) :
    Post (f.relClause (some x) r) s (Ex R S (Meets U True r)) fun _ s' => Meets U True r ∧ I P hs s' := by
  have e : (hs ≠ [] ∨ (some x).isSome = true) = True := eq_true (.inr rfl)
  have := H.relClause hs (some x) r s (by rw [e]; exact hr) hi
  rw [e] at this
  exact this

omit hU in
theorem ex_andRel (x : Nat) (st : Node) (r : Option AST.Node) (s : St) (hr : NO R S P U r) (hi : I P hs s) :
    Post (andRel f x st r) s (Ex R S (MeetsO U True r)) fun _ s' => MeetsO U True r ∧ I P hs s' := by
  unfold andRel
  cases r with
  | none => exact ⟨trivial, hi⟩
  | some r =>
    postc
    exact Post.mono (ex_rel H _ _ _ (hr r rfl) hi) fun _ _ h => h

omit hU in
theorem ex_relOnly (x : Nat) (r : Option AST.Node) (s : St) (hr : NO R S P U r) (hi : I P hs s) :
    Post (relOnly f x r) s (Ex R S (MeetsO U True r)) fun _ s' => MeetsO U True r ∧ I P hs s' := by
  unfold relOnly
  cases r with
  | none => exact ⟨trivial, hi⟩
  | some r =>
    postc
    exact Post.mono (ex_rel H _ _ _ (hr r rfl) hi) fun _ _ h => h

omit hU H in
theorem lookup_mem {l : List (Nat × Nat)} {i b : Nat} (h : l.lookup i = some b) : (i, b) ∈ l := by
  induction l with
  | nil => cases h
  | cons x l ih =>
    obtain ⟨j, c⟩ := x
    rw [List.lookup_cons] at h
    by_cases hj : i = j
    · subst hj
      simp at h
      simp [h]
    · have : (i == j) = false := by simpa using hj
      simp only [this] at h
      exact List.mem_cons_of_mem _ (ih h)

theorem ex_predArg (n : AST.Node) (s : St) (hn : N R S P U (hs ≠ []) .predArg n) (hi : I P hs s) :
    Post (predArgF U f n) s (Ex R S (Meets U (hs ≠ []) n)) fun _ s' => Meets U (hs ≠ []) n ∧ I P hs s' := by
  unfold predArgF
  split <;> postc
  · next id focus quant p rel =>
    have h := hn
    simp only [N, ws, wsIn, Wx, marks, Own.cons, Own.app, Bool.and_eq_true] at h
    obtain ⟨hws, hwd, hown, hop, hor⟩ := h
    have hp : N R S P U (hs ≠ []) .predicateOrContent p := ⟨by simp only [ws, Bool.and_eq_true]; exact hws.2.1.2, hwd.2.1, hop⟩
    have hq : quantifier U (quant.map (·.T)) ≠ none := by
      cases quant with
      | none => simp [C38_no_quantifier]
      | some w => exact quantifier_some hU (hwd.1 w rfl)
    have hr : NO R S P U rel := by
      intro r hr
      subst hr
      have h1 := hws.2.2
      simp only [wsO] at h1
      exact ⟨h1, hwd.2.2, hor⟩
    split
    · next b hb =>
      postc
      exact ⟨hown.1 (hi.lifted _ (lookup_mem hb)), hi.same rfl rfl rfl⟩
    · split
      · next x hx =>
        have nh := varPred_not_hoa hU hx
        have mp : Meets U (hs ≠ []) p := by
          unfold varPred at hx
          split at hx
          · trivial
          · cases hx
        have mm : MeetsO U True rel → Meets U (hs ≠ []) (.predArg id focus quant p rel) := fun h => ⟨mp, fun _ => h⟩
        unfold varArg
        split <;> postc
        · refine ⟨ex_some (hq), fun _ _ => ?_⟩
          exact Post.imp (ex_relOnly H _ _ _ hr (hi.same rfl rfl rfl)) (Ex.of fun hm => hm.2 (.inr nh)) fun _ _ h =>
            ⟨mm h.1, h.2⟩
        · cases rel with
          | none =>
            postc
            exact ⟨fun _ _ => ⟨mm trivial, hi.same rfl rfl rfl⟩, fun _ => ⟨mm trivial, hi.same rfl rfl rfl⟩⟩
          | some r =>
            postc
            exact ⟨fun _ _ => Post.imp (ex_rel H _ _ _ (hr r rfl) (hi.same rfl rfl rfl)) (Ex.of fun hm => hm.2 (.inr nh))
                fun _ _ h => ⟨mm h.1, h.2⟩,
              fun _ => Post.imp (ex_rel H _ _ _ (hr r rfl) (hi.same rfl rfl rfl)) (Ex.of fun hm => hm.2 (.inr nh))
                fun _ _ h => ⟨mm h.1, h.2⟩⟩
      · split
        · next hh =>
          have hh' := isHoa_iff.1 hh
          have mp : Meets U (hs ≠ []) p := by
            unfold hoaPred at hh
            split at hh
            · trivial
            · cases hh
          have mm : MeetsO U True rel → Meets U (hs ≠ []) (.predArg id focus quant p rel) := fun h => ⟨mp, fun _ => h⟩
          unfold hoaArg
          postc
          split <;> postc
          · next he =>
            refine ⟨⟨mp, fun h0 => ?_⟩, hi.same rfl rfl rfl⟩
            rcases h0 with h0 | h0
            · exact absurd (hi.hoa ▸ he) h0
            · exact absurd hh' h0
          · next d ds he =>
            have hne : hs ≠ [] := by rw [← hi.hoa, he]; simp
            split <;> postc
            · exact ⟨mm trivial, hi.same rfl rfl rfl⟩
            · split <;> postc
              · exact ⟨mm trivial, hi.same rfl rfl rfl⟩
              · exact Post.imp (ex_rel H _ _ _ (hr _ rfl) (hi.same rfl rfl rfl)) (Ex.of fun hm => hm.2 (.inl hne))
                  fun _ _ h => ⟨mm h.1, h.2⟩
        · next hh =>
          have nh : ¬ IsHoa U p := fun h => hh (isHoa_iff.2 h)
          unfold plainArg
          postc
          refine ⟨ex_some (hq), fun q _ => ?_⟩
          refine Post.imp (ex_predication H p _ _ hp (hi.same rfl rfl rfl)) (Ex.of fun hm => hm.1) fun _ _ h1 => ?_
          refine Post.imp (ex_andRel H _ _ _ _ hr h1.2) (Ex.of fun hm => hm.2 (.inr nh)) fun restr s' h2 => ?_
          have mm : Meets U (hs ≠ []) (.predArg id focus quant p rel) := ⟨h1.1, fun _ => h2.1⟩
          have hl : ∀ (y : Nat), ∀ x ∈ (id, y) :: s'.lifted, P x.1 := by
            intro y x hx
            rcases List.mem_cons.1 hx with rfl | hx
            · exact hown.2 mm
            · exact h2.2.lifted x hx
          refine ⟨fun _ => ⟨fun _ => ⟨mm, h2.2.same rfl rfl rfl⟩, fun _ => ⟨mm, h2.2.hi, h2.2.hoa, hl _⟩⟩,
            fun _ => ⟨fun _ => ?_, fun _ => ⟨mm, h2.2⟩⟩⟩
          split
          · next hnil => exact absurd hnil h2.2.hi
          · postc
            exact ⟨mm, by simp, h2.2.hoa, hl _⟩
  · next h1 =>
    exfalso
    have ha := hn.acc
    cases n <;> simp [tag, accepts] at ha
    exact h1 _ _ _ _ _ rfl

theorem ex_relBody (n : AST.Node) (s : St) (hn : N R S P U (hs ≠ []) .relative n) (hi : I P hs s) : Post (match n with
    | .predication .relative p ts na => subStatement f (.predication .raw p ts na)
    | .lu .relative _ st => subStatement f st
    | .cop .relative _ _ ru l r => do
      let c ← orMsg (connector U ru.T)
      assert isRelative l
      let l ← f.relClause none l
      assert isRelative r
      let r ← f.relClause none r
      return .conn c l r
    | _ => fail .msg) s (Ex R S (Meets U (hs ≠ []) n)) fun _ s' => Meets U (hs ≠ []) n ∧ I P hs s' := by
  have e0 : (hs ≠ [] ∨ (none : Option Nat).isSome = true) = (hs ≠ []) := by simp
  split <;> postc
  · next p ts na =>
    exact Post.imp (ex_sub H _ _ hn.raw hi) (Ex.of fun hm => hm) fun _ _ h => ⟨h.1, h.2⟩
  · next lu st =>
    have gs := hn.lu
    have e : (hs ≠ [] ∨ (AST.LuKind.relative = .predicate ∧ Reads U lu.T "lu".toList)) = (hs ≠ []) :=
      propext ⟨fun h => h.elim id fun h => (by cases h.1), .inl⟩
    have em : Meets U (hs ≠ []) (.lu .relative lu st) = Meets U (hs ≠ []) st := by
      rw [Meets, e]
    rw [e] at gs
    exact Post.imp (ex_sub H st _ gs hi) (Ex.of fun hm => em ▸ hm) fun _ _ h => ⟨em ▸ h.1, h.2⟩
  · next ru l r =>
    obtain ⟨sl, sr, e1, e2, gl, gr, mr, ms⟩ := hn.cop
    cases e1; cases e2
    refine ⟨ex_none (fun hm => connective_some hU hm.1.1) (unknown hU ms), fun c hc => ⟨ex_true (isRelative_of _ gl.acc), fun _ => ?_⟩⟩
    have hl := H.relClause hs none l s (by rw [e0]; exact gl) hi
    rw [e0] at hl
    refine Post.imp hl (Ex.of fun hm => hm.2.1) fun _ s1 h1 => ⟨ex_false (fun hm => (rightRel_iff gr.acc).1 hm.1.2) (fun h => mr (imp_false (rightRel_iff gr.acc).1 h)), fun hr => ?_⟩
    have ha := (rightRel_iff gr.acc).2 hr
    have hr := H.relClause hs none r s1 (by rw [e0]; exact gr.as ha) h1.2
    rw [e0] at hr
    exact Post.imp hr (Ex.of fun hm => hm.2.2) fun _ _ h2 => ⟨⟨⟨connective_of hU hc, ha⟩, h1.1, h2.1⟩, h2.2⟩
  · next h1 h2 h3 =>
    exfalso
    have ha := hn.acc
    cases n <;> simp [tag, accepts, Tag.isRelative] at ha
    case cop k _ _ _ _ _ => cases k <;> first | exact h3 _ _ _ _ _ rfl | simp at ha
    case predication k _ _ _ => cases k <;> first | exact h1 _ _ _ rfl | simp at ha
    case lu k _ _ => cases k <;> first | exact h2 _ _ rfl | simp at ha

theorem ex_relClause (b : Option Nat) (n : AST.Node) (s : St) (hn : N R S P U (hs ≠ [] ∨ b.isSome = true) .relative n)
    (hi : I P hs s) : Post (relClauseF U f b n) s (Ex R S (Meets U (hs ≠ [] ∨ b.isSome = true) n)) fun _ s' =>
      Meets U (hs ≠ [] ∨ b.isSome = true) n ∧ I P hs s' := by
  unfold relClauseF
  postc
  cases b with
  | none =>
    have e0 : (hs ≠ [] ∨ (none : Option Nat).isSome = true) = (hs ≠ []) := by simp
    rw [e0] at hn ⊢
    exact (ex_relBody hU H n _ hn hi).mono fun _ _ h => ⟨h.1, h.2.same rfl rfl rfl⟩
  | some b =>
    have e0 : (hs ≠ [] ∨ (some b).isSome = true) = (b :: hs ≠ []) :=
      (eq_true (.inr rfl)).trans (eq_true (by simp)).symm
    rw [e0] at hn ⊢
    refine Post.mono (ex_relBody hU H n _ hn ⟨hi.hi, by simp [hi.hoa], hi.lifted⟩) fun _ s' h => ⟨h.1, h.2.hi, ?_, h.2.lifted⟩
    show s'.hoa.tail = hs
    rw [h.2.hoa]; rfl

theorem fex_step : FEx R S P U (step U f) where
  statement _ := ex_statement hU H
  predicate _ := ex_predicate hU H
  poArg _ := ex_poArg hU H
  prenexS _ := ex_prenexS hU H
  preposition _ := ex_preposition hU H
  predPrep _ := ex_predPrep hU H
  adverb _ := ex_adverb hU H
  roi _ := ex_roi H
  roiL _ := ex_roiL hU H
  roiR _ := ex_roiR hU H
  predArg _ := ex_predArg hU H
  relClause _ := ex_relClause hU H

end

theorem fex_fns (hU : U.Ok) (k : Nat) : FEx R S P U (fns U k) := by
  induction k with
  | zero => exact fex_zero
  | succ k ih => exact fex_step hU ih

theorem ex_sentence {f : Fns} (H : FEx R S P U f) : ∀ (n : AST.Node) (s : St), N R S P U False .sentence n → s.hoa = [] →
    (∀ x ∈ s.lifted, P x.1) →
    Post (sentence U f n) s (Ex R S (Meets U False n)) fun _ s' => Meets U False n ∧ s'.hoa = [] ∧ ∀ x ∈ s'.lifted, P x.1
  | n, s, hn, hh, hl => by
    have e0 : ([] : List Nat) ≠ [] ↔ False := by simp
    unfold sentence
    split
    · next st _ =>
      have h := hn
      simp only [N, ws, wsIn, Wx, marks, Bool.and_eq_true] at h
      have hs := ex_subStatement (hs := []) H st s (by
        rw [propext e0]
        exact ⟨by simp only [ws, Bool.and_eq_true]; exact h.1.2.1.2, h.2.1, h.2.2⟩) hh hl
      rw [propext e0] at hs
      exact hs.imp (Ex.of fun hm => hm) fun _ _ h => ⟨h.1, h.2.2.1, h.2.2.2⟩
    · obtain ⟨sl, sr, e1, e2, gl, gr, mr, ms⟩ := hn.cop
      cases e1; cases e2
      postc
      refine ⟨fun ht => ?_, fun h => .inr ⟨fun hm => absurd ((C38_hasText U _ _).2 hm.1) h, fun h => (by cases h),
        fun _ => ms fun h' => h ((C38_hasText U _ _).2 h')⟩⟩
      refine ⟨ex_true (isSentence_of _ gl.acc), fun _ => ?_⟩
      refine Post.imp (ex_sentence H _ _ gl hh hl) (Ex.of fun hm => hm.2.1) fun _ _ h1 => ⟨ex_true (isSentence_of _ gr.acc), fun _ => ?_⟩
      exact Post.imp (ex_sentence H _ _ gr h1.2.1 h1.2.2) (Ex.of fun hm => hm.2.2) fun _ _ h2 =>
        ⟨⟨(C38_hasText U _ _).1 ht, h1.1, h2.1⟩, h2.2⟩
    · next h1 h2 =>
      exfalso
      have ha := hn.acc
      cases n <;> simp [tag, accepts, Tag.isSentence] at ha
      case cop k _ _ _ _ _ => cases k <;> first | exact h2 _ _ _ _ _ rfl | simp at ha
      case sentence => exact h1 _ _ _ rfl
  termination_by n => sizeOf n

theorem ex_discourseLoop {f : Fns} (H : FEx R S P U f) : ∀ (d : List AST.Node) (st : Option Node) (s : St),
    (∀ n ∈ d, ws .elem n = true ∧ (accepts .sentence (tag n) = true → Wx R S U n ∧ Own P (marks U False n))) → s.hoa = [] →
    (∀ x ∈ s.lifted, P x.1) →
    Post (discourseLoop U f d st) s (Ex R S (∀ n ∈ d, accepts .sentence (tag n) = true → Meets U False n)) fun _ _ =>
      ∀ n ∈ d, accepts .sentence (tag n) = true → Meets U False n
  | [], st, s, _, _, _ => fun n hn => by cases hn
  | k :: ks, st, s, h, hh, hl => by
    have hk := h k (by simp)
    have hks : ∀ n ∈ ks, _ := fun n hn => h n (by simp [hn])
    have hw := hk.1
    simp only [ws, Bool.and_eq_true] at hw
    have up : ∀ {A : AST.Node → Prop}, (∀ n ∈ k :: ks, accepts .sentence (tag n) = true → A n) →
        ∀ n ∈ ks, accepts .sentence (tag n) = true → A n := fun h n hn => h n (by simp [hn])
    unfold discourseLoop
    postc
    rcases elem_cases hw.1 with hf | ⟨hf, ha⟩
    · refine ⟨fun _ => (ex_discourseLoop H ks _ _ hks hh hl).imp (Ex.of up) fun _ _ h' n hn hs => ?_, fun h => absurd hf h⟩
      rcases List.mem_cons.1 hn with rfl | hn
      · exfalso
        cases n <;> simp [tag, accepts, Tag.isSentence] at hs
        case cop => rename AST.CopKind => k'; cases k' <;> first | (simp at hs; done) | simp [isFragment] at hf
        case sentence => simp [isFragment] at hf
      · exact h' n hn hs
    · refine ⟨fun h => absurd hf (by simp [h]), fun _ => ⟨fun _ => ?_, fun h => absurd (isSentence_of _ ha) h⟩⟩
      refine Post.imp (ex_sentence H k _ ⟨?_, hk.2 ha⟩ hh hl) (Ex.of fun hm => hm k (by simp) ha) fun _ _ h1 => ?_
      · simp only [ws, Bool.and_eq_true]; exact ⟨ha, hw.2⟩
      · refine (ex_discourseLoop H ks _ _ hks h1.2.1 h1.2.2).imp (Ex.of up) fun _ _ h2 n hn hs => ?_
        rcases List.mem_cons.1 hn with rfl | hn
        · exact h1.1
        · exact h2 n hn hs

end Exact

/-- Spec: the identities of the arguments of the sentences. -/
def sentenceIds (d : List AST.Node) : List Nat := d.flatMap fun n => if accepts .sentence (tag n) then argIds n else []

namespace Exact

/-- The identities of the arguments of the sentences, and whether their connections are known. -/
def allMarks (U : Uni) (d : List AST.Node) : List (Nat × Prop) :=
  d.flatMap fun n => if accepts .sentence (tag n) then marks U False n else []

theorem allMarks_ids (U : Uni) (d : List AST.Node) : (allMarks U d).map (·.1) = sentenceIds d := by
  induction d with
  | nil => rfl
  | cons n d ih =>
    simp only [allMarks, sentenceIds, List.flatMap_cons, List.map_append] at ih ⊢
    rw [ih]
    split
    · rw [marks_ids]
    · rfl

theorem mem_ws {s : Srt} : ∀ {d : List AST.Node}, wsL s d = true → ∀ n ∈ d, ws s n = true
  | [], _, n, hn => by cases hn
  | a :: d, hd, n, hn => by
    simp only [wsL, Bool.and_eq_true] at hd
    rcases List.mem_cons.1 hn with rfl | hn
    · simp only [ws, Bool.and_eq_true]; exact hd.1
    · exact mem_ws hd.2 n hn

theorem ex_interpret {U : Uni} (hU : U.Ok) {d : List AST.Node} (hd : wsL .elem d = true)
    (hw : ∀ n ∈ d, accepts .sentence (tag n) = true → Words U n) (hi : (sentenceIds d).Nodup) (k : Nat) :
    (∀ r, interpret U k d = .ok r → ∀ n ∈ d, accepts .sentence (tag n) = true → Meets U False n) ∧
    ∀ e, interpret U k d = .error e → e = .fuel ∨ (¬ ∀ n ∈ d, accepts .sentence (tag n) = true → Meets U False n) ∧
      (e = .rt → ∃ n ∈ d, accepts .sentence (tag n) = true ∧ HasCop (fun k _ l r => Mismatch k l r) n) ∧
      (e = .msg → ∃ n ∈ d, accepts .sentence (tag n) = true ∧ HasCop (fun k w _ _ => Unknown U k w) n) := by
  have ho : Own (fun i => ∃ x ∈ allMarks U d, x.1 = i ∧ x.2) (allMarks U d) :=
    own_nodup (by rw [allMarks_ids]; exact hi)
  have hp := ex_discourseLoop (fex_fns (P := fun i => ∃ x ∈ allMarks U d, x.1 = i ∧ x.2)
    (R := ∃ n ∈ d, accepts .sentence (tag n) = true ∧ HasCop (fun k _ l r => Mismatch k l r) n)
    (S := ∃ n ∈ d, accepts .sentence (tag n) = true ∧ HasCop (fun k w _ _ => Unknown U k w) n) hU k) d none {}
    (fun n hn => ⟨mem_ws hd n hn, fun hs => ⟨wx_of n (hw n hn hs) (fun h => ⟨n, hn, hs, h⟩) (fun h => ⟨n, hn, hs, h⟩), fun x hx => ho x (List.mem_flatMap.2 ⟨n, hn, by simp [hs, hx]⟩)⟩⟩)
    rfl (by intro x hx; cases hx)
  unfold Post at hp
  unfold interpret discourse
  split
  · next e' he =>
    split at he
    · next e'' hl =>
      rw [hl] at hp
      cases he
      exact ⟨fun r h => (by cases h), fun e h => (by cases h; exact hp)⟩
    · cases he
    · cases he
  · next he =>
    split at he
    · cases he
    · next hl =>
      rw [hl] at hp
      exact ⟨fun _ _ => hp, fun e h => (by cases h)⟩
    · next hl =>
      rw [hl] at hp
      exact ⟨fun _ _ => hp, fun e h => (by cases h)⟩
  · next he =>
    split at he
    · cases he
    · cases he
    · next hl =>
      rw [hl] at hp
      split
      · exact ⟨fun r h => (by cases h), fun e h => (by cases h; exact .inl rfl)⟩
      · exact ⟨fun _ _ => hp, fun e h => (by cases h)⟩

end Exact

/-- C36, exactly: a discourse of the shape that the parser builds, with the particles that the interpreter knows, and
whose arguments are different nodes, is interpreted without a panic if and only if the interpreter knows the
connections of the sentences to which it comes. -/
theorem C36_exact (U : Uni) (hU : U.Ok) (d : List AST.Node) (hd : wsL .elem d = true)
    (hw : ∀ n ∈ d, accepts .sentence (tag n) = true → Words U n) (hi : (sentenceIds d).Nodup) :
    (∃ r k0, ∀ k, k0 ≤ k → interpret U k d = .ok r) ↔
      ∀ n ∈ d, accepts .sentence (tag n) = true → Meets U False n := by
  constructor
  · rintro ⟨r, k, hr⟩
    exact (Exact.ex_interpret hU hd hw hi k).1 r (hr k (Nat.le_refl _))
  · intro hm
    obtain ⟨r, hr, k0, hk⟩ := C34_terminates U d
    cases r with
    | ok r => exact ⟨r, k0, hk⟩
    | error e =>
      rcases (Exact.ex_interpret hU hd hw hi k0).2 e (hk k0 (Nat.le_refl _)) with rfl | h
      · exact absurd rfl hr
      · exact absurd hm h.1

/-- C36, exactly, the other way round: there is a panic if and only if the interpreter comes to a connection that it
does not know. -/
theorem C36_exact_panic (U : Uni) (hU : U.Ok) (d : List AST.Node) (hd : wsL .elem d = true)
    (hw : ∀ n ∈ d, accepts .sentence (tag n) = true → Words U n) (hi : (sentenceIds d).Nodup) :
    (∃ e k0, e ≠ .fuel ∧ ∀ k, k0 ≤ k → interpret U k d = .error e) ↔
      ∃ n ∈ d, accepts .sentence (tag n) = true ∧ ¬ Meets U False n := by
  have h : (∃ e k0, e ≠ .fuel ∧ ∀ k, k0 ≤ k → interpret U k d = .error e) ↔
      ¬ ∃ r k0, ∀ k, k0 ≤ k → interpret U k d = .ok r := by
    constructor
    · rintro ⟨e, k0, _, he⟩ ⟨r, k1, hr⟩
      have h1 := he (max k0 k1) (Nat.le_max_left _ _)
      rw [hr _ (Nat.le_max_right _ _)] at h1
      cases h1
    · intro hn
      obtain ⟨r, hr, k0, hk⟩ := C34_terminates U d
      cases r with
      | ok r => exact absurd ⟨r, k0, hk⟩ hn
      | error e => exact ⟨e, k0, fun h => hr (by rw [h]), hk⟩
  rw [h, C36_exact U hU d hd hw hi]
  simp only [Classical.not_forall, exists_prop]

/-- C36, C43: which panic. If the interpreter panics with a run-time error, then some connection has sides that are not of its kind; if
with a string, then some connection has a connective that the interpreter does not know there. -/
theorem C36_kind (U : Uni) (hU : U.Ok) (d : List AST.Node) (hd : wsL .elem d = true)
    (hw : ∀ n ∈ d, accepts .sentence (tag n) = true → Words U n) (hi : (sentenceIds d).Nodup) (k : Nat) :
    (interpret U k d = .error .rt → ∃ n ∈ d, accepts .sentence (tag n) = true ∧ HasCop (fun k _ l r => Mismatch k l r) n) ∧
    (interpret U k d = .error .msg → ∃ n ∈ d, accepts .sentence (tag n) = true ∧ HasCop (fun k w _ _ => Unknown U k w) n) := by
  constructor <;> intro h
  · rcases (Exact.ex_interpret hU hd hw hi k).2 _ h with h | h
    · cases h
    · exact h.2.1 rfl
  · rcases (Exact.ex_interpret hU hd hw hi k).2 _ h with h | h
    · cases h
    · exact h.2.2 rfl

/- Texts that meet the hypotheses, and on which the two sides hold and fail, are in PanicParsed.lean: there the
hypotheses are shown for every parsed text. -/

end Verif.Logic
