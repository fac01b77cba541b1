/-
/repo/vendor/github.com/eaburns/peggy/peg/pretty.go: how parse trees and trees of failures are printed.

Errors of the writer are not modelled: `Pretty` writes to a buffer, which returns none.
-/
import Verif.Peg.Utf8

namespace Verif.Peg

/-- pretty.go:15-29 `nodeOrFail`: what the printer sees of a `*Node` or `*Fail`. `pos` is `some` for a
`*Fail` (pretty.go:73). -/
inductive PT
  | mk (name : Bytes) (pos : Option Nat) (text : Bytes) (kids : List PT)

def PT.name : PT → Bytes | .mk n _ _ _ => n
def PT.text : PT → Bytes | .mk _ _ t _ => t
def PT.kids : PT → List PT | .mk _ _ _ k => k

/-- The bytes `"`, `(`, `)`, `{`, `}`, `[`, `]`, `,`, newline and tab. -/
def qt : Nat := 34
def lp : Nat := 40
def rp : Nat := 41
def lb : Nat := 123
def rb : Nat := 125
def lk : Nat := 91
def rk : Nat := 93
def cm : Nat := 44
def nl : Nat := 10
def tb : Nat := 9

/-- `strconv.Itoa` of a number that is not negative. -/
def itoa (n : Nat) : Bytes := (Nat.toDigits 10 n).map Char.toNat

/-- pretty.go:55-70: a node without kids. -/
def leafText (name text : Bytes) : Bytes :=
  (if name.isEmpty then [] else name ++ [lp]) ++ (qt :: text ++ [qt]) ++ (if name.isEmpty then [] else [rp])

/-- pretty.go:71-78: what is written before the brace. -/
def headText (name : Bytes) (pos : Option Nat) : Bytes :=
  name ++ (match pos with
    | some p => lk :: itoa p ++ [rk]
    | none => [])

/-- pretty.go:89: a single kid that has no kids; it is written without a tab. -/
def oneLeaf : List PT → Option Bytes
  | [.mk n _ t []] => some (leafText n t)
  | _ => none

mutual
/-- pretty.go:51-114 `prettyWrite`. Lines 79-86 are never reached, since line 55 returned. -/
def prettyWrite (tab : Bytes) : PT → Bytes
  | .mk name pos text kids => tab ++
      if kids.isEmpty then leafText name text
      else headText name pos ++ lb :: (match oneLeaf kids with
        | some s => s ++ [rb]
        | none => prettyKids (tab ++ [tb]) kids ++ (nl :: tab ++ [rb]))
/-- pretty.go:98-108: the loop over the kids. -/
def prettyKids (tab : Bytes) : List PT → Bytes
  | [] => []
  | k :: ks => nl :: prettyWrite tab k ++ cm :: prettyKids tab ks
end

/-- pretty.go:40-44 `Pretty`. -/
def pretty (t : PT) : Bytes := prettyWrite [] t

/-! ### Trees that can be read back -/

/-- A text that is a single rune: decoding reads it, whatever follows. -/
def OneRune (t : Bytes) : Prop := ∃ c, t ≠ [] ∧ ∀ x, decode (t ++ x) = (c, t.length)

/-- Names of rules: not empty, and none of the signs of the notation. -/
def nameOk (n : Bytes) : Bool := !n.isEmpty && n.all fun c => c != qt && c != lp && c != lb && c != nl

/-- Trees as parsers make them: the leaves are single runes, other texts are concatenations of the texts of
the kids. -/
inductive Readable : PT → Prop
  | leaf {t} : OneRune t → Readable (.mk [] none t [])
  | node {name kids} : (name = [] ∨ nameOk name = true) → (∀ k ∈ kids, Readable k) →
      Readable (.mk name none (kids.map PT.text).flatten kids)

theorem Readable.kids {name pos text kids} (h : Readable (.mk name pos text kids)) : ∀ k ∈ kids, Readable k := by
  cases h with
  | leaf _ => simp
  | node _ h => exact h

/-- The text of a node without kids is nothing, or one rune if it has no name. -/
theorem Readable.childless {name pos text} (h : Readable (.mk name pos text [])) :
    (text = [] ∨ (name = [] ∧ OneRune text)) ∧ (name = [] ∨ nameOk name = true) ∧ pos = none := by
  generalize hk : ([] : List PT) = ks at h
  cases h with
  | leaf h => exact ⟨.inr ⟨rfl, h⟩, .inl rfl, rfl⟩
  | node hn _ => subst hk; exact ⟨.inl rfl, hn, rfl⟩

theorem Readable.inner {name pos text kids} (h : Readable (.mk name pos text kids)) (hk : kids ≠ []) :
    (name = [] ∨ nameOk name = true) ∧ pos = none ∧ text = (kids.map PT.text).flatten := by
  cases h with
  | leaf h => exact absurd rfl hk
  | node hn _ => exact ⟨hn, rfl, rfl⟩

/-- The string does not begin with `"`. -/
def NoQt (r : Bytes) : Prop := ∀ r', r ≠ qt :: r'

/-- Two texts of leaves, each followed by `"`, that begin the same string are the same. -/
theorem quoted_inj {t t' r r' : Bytes} (ht : t = [] ∨ OneRune t) (ht' : t' = [] ∨ OneRune t')
    (hr : NoQt r) (hr' : NoQt r') (h : t ++ qt :: r = t' ++ qt :: r') : t = t' ∧ r = r' := by
  have key : ∀ {t r r' : Bytes}, OneRune t → NoQt r → qt :: r = t ++ qt :: r' → False := by
    intro t r r' ⟨c, hne, hd⟩ hr h
    have h1 := hd (qt :: r')
    rw [← h] at h1
    have h2 : decode (qt :: r) = (Char.ofNat qt, 1) := by simp [decode, qt]
    rw [h2] at h1
    injection h1 with _ h1
    match t, hne, h1, h with
    | [a], _, _, h =>
      simp only [List.cons_append, List.nil_append, List.cons.injEq] at h
      exact hr _ h.2
  rcases ht with rfl | ht <;> rcases ht' with rfl | ht'
  · simpa using h
  · exact (key ht' hr h).elim
  · exact (key ht hr' h.symm).elim
  · obtain ⟨c, _, hd⟩ := ht
    obtain ⟨c', _, hd'⟩ := ht'
    have h1 := hd (qt :: r)
    rw [h, hd' (qt :: r')] at h1
    injection h1 with _ h1
    have := List.append_inj h h1.symm
    exact ⟨this.1, by simpa using this.2⟩

/-- A name followed by a sign that names do not contain. -/
theorem name_inj {n n' : Bytes} {a a' : Nat} {r r' : Bytes} {P : Nat → Prop} (hn : ∀ x ∈ n, ¬ P x) (hn' : ∀ x ∈ n', ¬ P x)
    (ha : P a) (ha' : P a') (h : n ++ a :: r = n' ++ a' :: r') : n = n' ∧ a = a' ∧ r = r' := by
  induction n generalizing n' with
  | nil => cases n' with
    | nil => simpa using h
    | cons x n' =>
      simp only [List.nil_append, List.cons_append, List.cons.injEq] at h
      exact absurd (h.1 ▸ ha) (hn' x (by simp))
  | cons x n ih => cases n' with
    | nil =>
      simp only [List.nil_append, List.cons_append, List.cons.injEq] at h
      exact absurd (h.1 ▸ ha') (hn x (by simp))
    | cons x' n' =>
      simp only [List.cons_append, List.cons.injEq] at h
      obtain ⟨h1, h2, h3⟩ := ih (fun y hy => hn y (by simp [hy])) (fun y hy => hn' y (by simp [hy])) h.2
      exact ⟨by rw [h.1, h1], h2, h3⟩

/-- The signs that follow a name. -/
def Sign (a : Nat) : Prop := a = qt ∨ a = lp ∨ a = lb

theorem nameOk_sign {n : Bytes} (h : n = [] ∨ nameOk n = true) : ∀ x ∈ n, ¬ Sign x := by
  rcases h with rfl | h
  · simp
  · intro x hx
    simp only [nameOk, Bool.and_eq_true, List.all_eq_true] at h
    have := h.2 x hx
    simp only [bne_iff_ne, ne_eq] at this
    unfold Sign
    grind

/-- What a node writes after the tab: a name, a sign and more. -/
def body (tab : Bytes) : PT → Nat × Bytes
  | .mk name pos text kids =>
      if kids.isEmpty then (if name.isEmpty then (qt, text ++ [qt]) else (lp, qt :: text ++ [qt, rp]))
      else (lb, match oneLeaf kids with
        | some s => s ++ [rb]
        | none => prettyKids (tab ++ [tb]) kids ++ (nl :: tab ++ [rb]))

theorem write_eq (tab : Bytes) {name text kids} : prettyWrite tab (.mk name none text kids) =
    tab ++ (name ++ (body tab (.mk name none text kids)).1 :: (body tab (.mk name none text kids)).2) := by
  rw [prettyWrite, body]
  by_cases hk : kids.isEmpty
  · by_cases hn : name.isEmpty
    · have : name = [] := by simpa using hn
      subst this
      simp [hk, leafText]
    · simp [hk, hn, leafText]
  · simp [hk, headText]

theorem body_sign (tab : Bytes) (t : PT) : Sign (body tab t).1 := by
  cases t
  rename_i name pos text kids
  by_cases hk : kids.isEmpty
  · by_cases hn : name.isEmpty
    · simp [body, Sign, hk, hn]
    · simp [body, Sign, hk, hn]
  · simp [body, Sign, hk]

/-- A node does not begin with a newline. -/
theorem leaf_nl {name text : Bytes} (h : name = [] ∨ nameOk name = true) (r r' : Bytes) :
    leafText name text ++ r ≠ nl :: r' := by
  rcases h with rfl | h
  · simp [leafText, qt, nl]
  · cases name with
    | nil => simp [leafText, qt, nl]
    | cons x n =>
      simp only [nameOk, Bool.and_eq_true, List.all_eq_true] at h
      have := h.2 x (by simp)
      simp only [bne_iff_ne, ne_eq] at this
      simp [leafText, this.2]

theorem oneLeaf_some {kids : List PT} {s : Bytes} (h : oneLeaf kids = some s) :
    ∃ n p t, kids = [.mk n p t []] ∧ s = leafText n t := by
  unfold oneLeaf at h
  split at h
  · rename_i n p t
    injection h with h
    exact ⟨n, p, t, rfl, h.symm⟩
  · cases h

/-- Names and texts of nodes without kids are read back. -/
theorem leaf_inj {n n' t t' r r' : Bytes} (h : Readable (.mk n none t [])) (h' : Readable (.mk n' none t' []))
    (hr : NoQt r) (hr' : NoQt r') (e : leafText n t ++ r = leafText n' t' ++ r') : n = n' ∧ t = t' ∧ r = r' := by
  have e1 := write_eq [] (name := n) (text := t) (kids := [])
  have e2 := write_eq [] (name := n') (text := t') (kids := [])
  have p1 : prettyWrite [] (.mk n none t []) = leafText n t := by simp [prettyWrite]
  have p2 : prettyWrite [] (.mk n' none t' []) = leafText n' t' := by simp [prettyWrite]
  rw [p1] at e1
  rw [p2] at e2
  rw [e1, e2] at e
  simp only [List.nil_append, List.append_assoc, List.cons_append] at e
  obtain ⟨c1, c2, _⟩ := h.childless
  obtain ⟨d1, d2, _⟩ := h'.childless
  obtain ⟨rfl, _, e⟩ := name_inj (nameOk_sign c2) (nameOk_sign d2) (body_sign _ _) (body_sign _ _) e
  by_cases hn : n.isEmpty
  · have : n = [] := by simpa using hn
    subst this
    simp only [body, List.isEmpty_nil, if_true, List.append_assoc, List.cons_append, List.nil_append] at e
    have := quoted_inj (c1.imp id (·.2)) (d1.imp id (·.2)) hr hr' e
    exact ⟨rfl, this⟩
  · have hne : n ≠ [] := by simpa using hn
    have : t = [] := c1.resolve_right fun x => hne x.1
    subst this
    have : t' = [] := d1.resolve_right fun x => hne x.1
    subst this
    simp [body, hn] at e
    exact ⟨rfl, rfl, e⟩

theorem noQt_cons {a : Nat} (h : a ≠ qt) (r : Bytes) : NoQt (a :: r) := by
  intro r' e
  injection e with e
  exact h e

/-- Induction over trees. -/
theorem PT.induct {P : PT → Prop} (mk : ∀ n p t ks, (∀ k ∈ ks, P k) → P (.mk n p t ks)) : ∀ t, P t := fun t =>
  PT.rec (motive_1 := P) (motive_2 := fun l => ∀ k ∈ l, P k) mk (by intro k h; cases h)
    (by intro a l ha hl k h; rcases List.mem_cons.1 h with h | h
        · exact h ▸ ha
        · exact hl k h) t

/-- What is printed determines the tree, whatever follows. -/
def Reads (t : PT) : Prop := ∀ (tab : Bytes) (t' : PT) (r r' : Bytes), Readable t → Readable t' → NoQt r → NoQt r' →
  prettyWrite tab t ++ r = prettyWrite tab t' ++ r' → t = t' ∧ r = r'

theorem kids_inj (tab : Bytes) (ks ks' : List PT) (r r' : Bytes) (ih : ∀ k ∈ ks, Reads k)
    (h : ∀ k ∈ ks, Readable k) (h' : ∀ k ∈ ks', Readable k)
    (e : prettyKids (tab ++ [tb]) ks ++ nl :: (tab ++ rb :: r) = prettyKids (tab ++ [tb]) ks' ++ nl :: (tab ++ rb :: r')) :
    ks = ks' ∧ r = r' := by
  have stop : ∀ (k : PT) (x y : Bytes), nl :: (tab ++ rb :: x) = nl :: (prettyWrite (tab ++ [tb]) k ++ y) → False := by
    intro k x y e
    cases k
    simp only [prettyWrite, List.cons.injEq, true_and, List.append_assoc, List.append_cancel_left_eq, List.cons_append, rb, tb] at e
    omega
  induction ks generalizing ks' with
  | nil => cases ks' with
    | nil => simpa [prettyKids] using e
    | cons k' ks' =>
      simp only [prettyKids, List.nil_append, List.cons_append, List.append_assoc] at e
      exact (stop _ _ _ e).elim
  | cons k ks IH => cases ks' with
    | nil =>
      simp only [prettyKids, List.nil_append, List.cons_append, List.append_assoc] at e
      exact (stop _ _ _ e.symm).elim
    | cons k' ks' =>
      simp only [prettyKids, List.cons_append, List.append_assoc, List.cons.injEq, true_and] at e
      obtain ⟨rfl, e1⟩ := ih k (by simp) _ _ _ _ (h k (by simp)) (h' k' (by simp)) (noQt_cons (by decide) _) (noQt_cons (by decide) _) e
      injection e1 with _ e1
      obtain ⟨rfl, e2⟩ := IH ks' (fun x hx => ih x (by simp [hx])) (fun x hx => h x (by simp [hx])) (fun x hx => h' x (by simp [hx])) e1
      exact ⟨rfl, e2⟩

theorem write_inj (t : PT) : Reads t := by
  induction t using PT.induct with
  | mk n p x ks ih =>
    intro tab t' r r' ht ht' hr hr' e
    obtain ⟨n', p', x', ks'⟩ := t'
    have hp : p = none := by cases ht <;> rfl
    have hp' : p' = none := by cases ht' <;> rfl
    subst hp hp'
    have hn : n = [] ∨ nameOk n = true := by
      cases ht with
      | leaf _ => exact .inl rfl
      | node h _ => exact h
    have hn' : n' = [] ∨ nameOk n' = true := by
      cases ht' with
      | leaf _ => exact .inl rfl
      | node h _ => exact h
    have e0 := e
    rw [write_eq, write_eq] at e
    simp only [List.append_assoc, List.append_cancel_left_eq, List.cons_append] at e
    obtain ⟨rfl, es, e⟩ := name_inj (nameOk_sign hn) (nameOk_sign hn') (body_sign _ _) (body_sign _ _) e
    cases hks : ks with
    | nil =>
      cases hks' : ks' with
      | nil =>
        subst hks hks'
        simp only [prettyWrite, List.isEmpty_nil, if_true, List.append_assoc, List.append_cancel_left_eq] at e0
        obtain ⟨_, rfl, h⟩ := leaf_inj ht ht' hr hr' e0
        exact ⟨rfl, h⟩
      | cons k' ks'' =>
        exfalso
        rw [hks, hks'] at es
        simp only [body, List.isEmpty_nil, if_true, List.isEmpty_cons, Bool.false_eq_true, if_false] at es
        split at es <;> simp [qt, lp, lb] at es
    | cons k ks1 =>
      cases hks' : ks' with
      | nil =>
        exfalso
        rw [hks, hks'] at es
        simp only [body, List.isEmpty_nil, if_true, List.isEmpty_cons, Bool.false_eq_true, if_false] at es
        split at es <;> simp [qt, lp, lb] at es
      | cons k' ks1' =>
        rw [← hks, ← hks']
        have h1 : ks.isEmpty = false := by rw [hks]; rfl
        have h1' : ks'.isEmpty = false := by rw [hks']; rfl
        simp only [body, h1, h1', Bool.false_eq_true, if_false] at e
        have tx := (ht.inner (by rw [hks]; simp)).2.2
        have tx' := (ht'.inner (by rw [hks']; simp)).2.2
        suffices h : ks = ks' ∧ r = r' by
          obtain ⟨rfl, h⟩ := h
          rw [tx, tx']
          exact ⟨rfl, h⟩
        cases ho : oneLeaf ks with
        | some s =>
          obtain ⟨m, q, y, ek, rfl⟩ := oneLeaf_some ho
          have hk := ht.kids (.mk m q y []) (by rw [ek]; simp)
          obtain ⟨_, hm, rfl⟩ := hk.childless
          cases ho' : oneLeaf ks' with
          | some s' =>
            obtain ⟨m', q', y', ek', rfl⟩ := oneLeaf_some ho'
            have hk' := ht'.kids (.mk m' q' y' []) (by rw [ek']; simp)
            obtain ⟨_, hm', rfl⟩ := hk'.childless
            rw [ho, ho'] at e
            simp only [List.append_assoc, List.cons_append, List.nil_append] at e
            obtain ⟨rfl, rfl, h⟩ := leaf_inj hk hk' (noQt_cons (by decide) _) (noQt_cons (by decide) _) e
            rw [ek, ek']
            exact ⟨rfl, by simpa using h⟩
          | none =>
            exfalso
            rw [ho, ho', hks'] at e
            simp only [prettyKids, List.append_assoc, List.cons_append] at e
            exact leaf_nl hm _ _ e
        | none =>
          cases ho' : oneLeaf ks' with
          | some s' =>
            exfalso
            obtain ⟨m', q', y', ek', rfl⟩ := oneLeaf_some ho'
            have hk' := ht'.kids (.mk m' q' y' []) (by rw [ek']; simp)
            rw [ho, ho', hks] at e
            simp only [prettyKids, List.append_assoc, List.cons_append] at e
            exact leaf_nl hk'.childless.2.1 _ _ e.symm
          | none =>
            rw [ho, ho'] at e
            simp only [List.append_assoc, List.cons_append, List.nil_append] at e
            exact kids_inj tab ks ks' r r' ih (fun k hk => ht.kids k hk) (fun k hk => ht'.kids k hk) e

/-- What is printed of a tree determines it. -/
theorem pretty_inj {t t' : PT} (ht : Readable t) (ht' : Readable t') (e : pretty t = pretty t') : t = t' :=
  (write_inj t [] t' [] [] ht ht' (by intro r h; cases h) (by intro r h; cases h) (by simpa [pretty] using e)).1

end Verif.Peg
