/- Property theorems about ast.BracesString: C13, C14. -/
import Verif.AST.Model
import Verif.AST.Spec

namespace Verif.AST
open Spec
open Verif.Tone (Str)

/-! ### Scanning -/

theorem scan_append (d : Nat) (a b : Str) : scan d (a ++ b) = (scan d a).bind fun d' => scan d' b := by
  induction a generalizing d with
  | nil => rfl
  | cons c a ih =>
    simp only [List.cons_append, scan]
    cases openIdx c with
    | some i => simp only; split <;> simp [ih]
    | none =>
      cases closeIdx c with
      | none => simp [ih]
      | some i =>
        cases d with
        | zero => rfl
        | succ d => simp only; split <;> simp [ih]

theorem scan_plain (d : Nat) (s : Str) (h : ∀ c ∈ s, isBracket c = false) : scan d s = some d := by
  induction s with
  | nil => rfl
  | cons c s ih =>
    have hc := h c (by simp)
    simp only [isBracket, Bool.or_eq_false_iff] at hc
    have h1 : openIdx c = none := by simpa using hc.1
    have h2 : closeIdx c = none := by simpa using hc.2
    simp [scan, h1, h2, ih fun c hc => h c (by simp [hc])]

/-- An item prints a well bracketed string at every level. -/
def Balanced (out : Nat → Str) : Prop := ∀ d, scan d (out (d % 4)) = some d

theorem scan_sepBySpace (d : Nat) (l : List Str) (h : ∀ s ∈ l, scan d s = some d) :
    scan d (sepBySpace l) = some d := by
  induction l with
  | nil => rfl
  | cons s l ih =>
    cases l with
    | nil => simpa [sepBySpace] using h s (by simp)
    | cons t l =>
      have h1 := h s (by simp)
      have h2 := ih fun s hs => h s (by simp [hs])
      rw [sepBySpace, scan_append, h1]
      simpa [scan, openIdx, closeIdx] using h2

theorem open_at (i : Nat) (h : i < 4) : openIdx (openBraces.getD i '?') = some i := by
  revert i; decide
theorem close_at (i : Nat) (h : i < 4) :
    openIdx (closeBraces.getD i '?') = none ∧ closeIdx (closeBraces.getD i '?') = some i := by
  revert i; decide

theorem balanced_braceKids (xs : List Item) (h : ∀ x ∈ xs, Balanced x.out) : Balanced (braceKids xs) := by
  intro d
  have hf : ∀ x ∈ xs.filter (·.present), Balanced x.out := fun x hx => h x (List.mem_filter.1 hx).1
  unfold braceKids
  simp only
  split
  · have hlt : d % 4 < 4 := Nat.mod_lt _ (by decide)
    have e : (d % 4 + 1) % openBraces.length = (d + 1) % 4 := by
      show (d % 4 + 1) % 4 = (d + 1) % 4
      omega
    rw [e]
    have hbody : scan (d + 1) (sepBySpace ((xs.filter (·.present)).map fun x => x.out ((d + 1) % 4))) =
        some (d + 1) := by
      apply scan_sepBySpace
      intro s hs
      obtain ⟨x, hx, rfl⟩ := List.mem_map.1 hs
      exact hf x hx (d + 1)
    rw [List.append_assoc, List.singleton_append]
    simp only [scan, open_at _ hlt, if_true]
    rw [scan_append, hbody]
    simp [scan, close_at _ hlt, -List.getD_eq_getElem?_getD]
  · apply scan_sepBySpace
    intro s hs
    obtain ⟨x, hx, rfl⟩ := List.mem_map.1 hs
    exact hf x hx d

theorem balanced_const (t : Str) (h : ∀ c ∈ t, isBracket c = false) : Balanced fun _ => t :=
  fun d => scan_plain d t h

/-! ### Pieces -/

theorem pieces_sep (acc a b : Str) (c : Char) (h : c = ' ' ∨ isBracket c = true) :
    pieces acc (a ++ c :: b) = pieces acc a ++ pieces [] b := by
  induction a generalizing acc with
  | nil => simp [pieces, h]
  | cons x a ih =>
    simp only [List.cons_append, pieces]
    split
    · rw [ih, List.append_assoc]
    · exact ih _

theorem pieces_plain (acc w : Str) (h : ∀ c ∈ w, c ≠ ' ' ∧ isBracket c = false) :
    pieces acc w = if acc ++ w = [] then [] else [acc ++ w] := by
  induction w generalizing acc with
  | nil => simp [pieces]
  | cons c w ih =>
    have hc := h c (by simp)
    simp [pieces, hc.1, hc.2, ih _ fun c hc => h c (by simp [hc])]

theorem pieces_word (w : Str) (h : plain w = true) : pieces [] w = [w] := by
  simp only [plain, Bool.and_eq_true, Bool.not_eq_true', List.all_eq_true] at h
  rw [pieces_plain]
  · have : w ≠ [] := by rintro rfl; simp at h
    simp [this]
  · intro c hc
    have := h.2 c hc
    simpa using this

/-- An item prints exactly the words `ws`, and none if it is dropped. -/
def Prints (x : Item) (ws : List Str) : Prop :=
  (x.present = false → ws = []) ∧ ∀ cur < 4, pieces [] (x.out cur) = ws

theorem pieces_sepBySpace (l : List Str) : pieces [] (sepBySpace l) = l.flatMap (pieces []) := by
  induction l with
  | nil => rfl
  | cons s l ih =>
    cases l with
    | nil => simp [sepBySpace]
    | cons t l =>
      rw [sepBySpace, pieces_sep _ _ _ _ (Or.inl rfl), ih]
      simp

/-- Items and what they print. -/
inductive PrintsAll : List Item → List Str → Prop
  | nil : PrintsAll [] []
  | cons {x ws xs wss} : Prints x ws → PrintsAll xs wss → PrintsAll (x :: xs) (ws ++ wss)

theorem printsAll_filter {xs ws} (h : PrintsAll xs ws) (cur : Nat) (hc : cur < 4) :
    ((xs.filter (·.present)).map fun x => x.out cur).flatMap (pieces []) = ws := by
  induction h with
  | nil => rfl
  | @cons x ws xs wss hx _ ih =>
    by_cases hp : x.present
    · simp only [List.filter_cons, hp, if_true, List.map_cons, List.flatMap_cons]
      rw [ih, hx.2 cur hc]
    · have := hx.1 (by simpa using hp)
      subst this
      simpa [List.filter_cons, hp] using ih

theorem bracket_open (i : Nat) (h : i < 4) : isBracket (openBraces.getD i '?') = true := by
  revert i; decide
theorem bracket_close (i : Nat) (h : i < 4) : isBracket (closeBraces.getD i '?') = true := by
  revert i; decide

theorem prints_braceKids {xs ws} (h : PrintsAll xs ws) : Prints (shown (braceKids xs)) ws := by
  refine ⟨by simp [shown], fun cur hcur => ?_⟩
  simp only [shown]
  unfold braceKids
  simp only
  split
  · have hlt : (cur + 1) % openBraces.length < 4 := Nat.mod_lt _ (by decide)
    rw [List.append_assoc, List.singleton_append]
    have h1 := pieces_sep [] [] (sepBySpace ((xs.filter (·.present)).map
      fun x => x.out ((cur + 1) % openBraces.length)) ++ [closeBraces.getD cur '?'])
      (openBraces.getD cur '?') (Or.inr (bracket_open cur hcur))
    simp only [List.nil_append] at h1
    rw [h1, pieces_sep _ _ [] _ (Or.inr (bracket_close cur hcur)), pieces_sepBySpace,
      printsAll_filter h _ hlt]
    simp [pieces]
  · rw [pieces_sepBySpace, printsAll_filter h _ hcur]

theorem prints_hidden : Prints hidden [] := ⟨fun _ => rfl, fun _ _ => rfl⟩
theorem prints_const (t : Str) (h : plain t = true) : Prints (shown fun _ => t) [t] :=
  ⟨by simp [shown], fun _ _ => pieces_word t h⟩

theorem PrintsAll.one {x ws} (h : Prints x ws) : PrintsAll [x] ws := by
  simpa using PrintsAll.cons h .nil
theorem PrintsAll.two {x y a b} (h : Prints x a) (h' : Prints y b) : PrintsAll [x, y] (a ++ b) :=
  .cons h (.one h')
theorem PrintsAll.three {x y z a b c} (h : Prints x a) (h' : Prints y b) (h'' : Prints z c) :
    PrintsAll [x, y, z] (a ++ b ++ c) := by
  simpa using PrintsAll.cons h (.two h' h'')
theorem PrintsAll.four {x y z u a b c d} (h : Prints x a) (h' : Prints y b) (h'' : Prints z c)
    (h3 : Prints u d) : PrintsAll [x, y, z, u] (a ++ b ++ c ++ d) := by
  simpa using PrintsAll.cons h (.three h' h'' h3)
theorem PrintsAll.five {x y z u v a b c d e} (h : Prints x a) (h' : Prints y b) (h'' : Prints z c)
    (h3 : Prints u d) (h4 : Prints v e) : PrintsAll [x, y, z, u, v] (a ++ b ++ c ++ d ++ e) := by
  simpa using PrintsAll.cons h (.four h' h'' h3 h4)

/-! ### The two properties -/

/-- No bracket characters. -/
def NoBr (l : List Tok) : Prop := ∀ w ∈ l, ∀ c ∈ w.t, isBracket c = false

theorem noBr_append {a b} : NoBr (a ++ b) ↔ NoBr a ∧ NoBr b := by
  simp only [NoBr, List.mem_append]
  exact ⟨fun h => ⟨fun w hw => h w (.inl hw), fun w hw => h w (.inr hw)⟩,
    fun h w hw => hw.elim (h.1 w) (h.2 w)⟩

theorem balanced_aux :
    (∀ n, NoBr (words n) → Balanced (braces n).out) ∧
    (∀ w, (NoBr (wordsW w) → Balanced (bracesW w).out) ∧
      (NoBr (wordsO w.M) → Balanced (bracesO w.M).out)) := by
  have hh : Balanced hidden.out := fun d => rfl
  have hL : ∀ l : List Node, (∀ n ∈ l, NoBr (words n) → Balanced (braces n).out) → NoBr (wordsL l) →
      ∀ x ∈ bracesL l, Balanced x.out := by
    intro l
    induction l with
    | nil => intro _ _ x hx; simp [bracesL] at hx
    | cons a l ih =>
      intro h hw x hx
      simp only [wordsL, noBr_append] at hw
      simp only [bracesL, List.mem_cons] at hx
      rcases hx with rfl | hx
      · exact h a (by simp) hw.1
      · exact ih (fun n hn => h n (by simp [hn])) hw.2 x hx
  have hO : ∀ o, (∀ n, o = some n → NoBr (words n) → Balanced (braces n).out) → NoBr (wordsO o) →
      Balanced (bracesO o).out := by
    intro o h hw
    cases o with
    | none => exact hh
    | some n => exact h n rfl hw
  have hWO : ∀ o, (∀ w, o = some w → (NoBr (wordsW w) → Balanced (bracesW w).out) ∧
      (NoBr (wordsO w.M) → Balanced (bracesO w.M).out)) → NoBr (wordsWO o) →
      Balanced (bracesWO o).out := by
    intro o h hw
    cases o with
    | none => exact hh
    | some n => exact (h n rfl).1 hw
  have hTO : ∀ o, (∀ l, o = some l → ∀ n ∈ l, NoBr (words n) → Balanced (braces n).out) →
      NoBr (wordsTO o) → Balanced (bracesTO o).out := by
    intro o h hw
    cases o with
    | none => exact hh
    | some l => exact balanced_braceKids _ (hL l (h l rfl) hw)
  have kids : ∀ xs : List Item, (∀ x ∈ xs, Balanced x.out) → Balanced (shown (braceKids xs)).out :=
    balanced_braceKids
  apply Node.induct (P := fun n => NoBr (words n) → Balanced (braces n).out)
    (Q := fun w => (NoBr (wordsW w) → Balanced (bracesW w).out) ∧
      (NoBr (wordsO w.M) → Balanced (bracesO w.M).out))
  · intro t s e m hm
    refine ⟨fun h => ?_, hO m hm⟩
    apply balanced_braceKids
    simp only [List.mem_cons, List.not_mem_nil, or_false, forall_eq_or_imp, forall_eq]
    exact ⟨balanced_const t (h ⟨t, s, e⟩ (by simp [wordsW])),
      hO m hm fun w hw => h w (by simp [wordsW, hw])⟩
  case cop =>
    intro k to0 to1 ru l r h1 h2 h3 h4 h5 h
    cases to0 with
    | none =>
      simp only [words, noBr_append] at h
      apply balanced_braceKids
      simp only [List.mem_cons, List.not_mem_nil, or_false, forall_eq_or_imp, forall_eq]
      exact ⟨h4 h.1.1, h3.1 h.1.2, h5 h.2⟩
    | some t =>
      simp only [words, noBr_append] at h
      apply balanced_braceKids
      simp only [List.mem_cons, List.not_mem_nil, or_false, forall_eq_or_imp, forall_eq]
      exact ⟨(h1 t rfl).1 h.1.1.1.1, h3.1 h.1.1.1.2, h4 h.1.1.2, hWO _ h2 h.1.2, h5 h.2⟩
  case word =>
    intro k w hw h
    obtain ⟨t, s, e, m⟩ := w
    cases k with
    | space => exact hw.2 fun w hw => h w (by simp [words, wordsW]; exact Or.inr hw)
    | _ => exact hw.1 h
  case predAdverb => intro p h1 h; exact h1 h
  case text =>
    intro l d h1 h2 h
    simp only [words, noBr_append] at h
    apply balanced_braceKids
    simp only [List.mem_cons, List.not_mem_nil, or_false, forall_eq_or_imp, forall_eq]
    exact ⟨hO _ h1 h.1, kids _ (hL _ h2 h.2)⟩
  case discourse => intro d h1 h; exact kids _ (hL _ h1 h)
  case terms => intro d h1 h; exact kids _ (hL _ h1 h)
  case sentence =>
    intro je st da h1 h2 h3 h
    simp only [words, noBr_append] at h
    apply balanced_braceKids
    simp only [List.mem_cons, List.not_mem_nil, or_false, forall_eq_or_imp, forall_eq]
    exact ⟨hWO _ h1 h.1.1, h2 h.1.2, hWO _ h3 h.2⟩
  case prenex =>
    intro ts bi h1 h2 h
    simp only [words, noBr_append] at h
    apply balanced_braceKids
    simp only [List.mem_cons, List.not_mem_nil, or_false, forall_eq_or_imp, forall_eq]
    exact ⟨kids _ (hL _ h1 h.1), h2.1 h.2⟩
  case prenexStmt =>
    intro ts bi st h1 h2 h3 h
    simp only [words, noBr_append] at h
    apply balanced_braceKids
    simp only [List.mem_cons, List.not_mem_nil, or_false, forall_eq_or_imp, forall_eq]
    refine ⟨kids _ ?_, h3 h.2⟩
    simp only [List.mem_cons, List.not_mem_nil, or_false, forall_eq_or_imp, forall_eq]
    exact ⟨kids _ (hL _ h1 h.1.1), h2.1 h.1.2⟩
  case predication =>
    intro k p ts na h1 h2 h3 h
    simp only [words, noBr_append] at h
    apply balanced_braceKids
    simp only [List.mem_cons, List.not_mem_nil, or_false, forall_eq_or_imp, forall_eq]
    exact ⟨h1 h.1.1, hTO _ h2 h.1.2, hWO _ h3 h.2⟩
  case serial =>
    intro l r h1 h2 h
    simp only [words, noBr_append] at h
    apply balanced_braceKids
    simp only [List.mem_cons, List.not_mem_nil, or_false, forall_eq_or_imp, forall_eq]
    exact ⟨h1 h.1, h2 h.2⟩
  case prep =>
    intro l r h1 h2 h
    simp only [words, noBr_append] at h
    apply balanced_braceKids
    simp only [List.mem_cons, List.not_mem_nil, or_false, forall_eq_or_imp, forall_eq]
    exact ⟨h1 h.1, h2 h.2⟩
  case mi =>
    intro m ga ph h1 h2 h3 h
    simp only [words, noBr_append] at h
    apply balanced_braceKids
    simp only [List.mem_cons, List.not_mem_nil, or_false, forall_eq_or_imp, forall_eq]
    exact ⟨h1.1 h.1.1, h3 h.1.2, hWO _ h2 h.2⟩
  case po =>
    intro m ga ph h1 h2 h3 h
    simp only [words, noBr_append] at h
    apply balanced_braceKids
    simp only [List.mem_cons, List.not_mem_nil, or_false, forall_eq_or_imp, forall_eq]
    exact ⟨h1.1 h.1.1, h3 h.1.2, hWO _ h2 h.2⟩
  case mo =>
    intro m teo d h1 h2 h3 h
    simp only [words, noBr_append] at h
    apply balanced_braceKids
    simp only [List.mem_cons, List.not_mem_nil, or_false, forall_eq_or_imp, forall_eq]
    exact ⟨h1.1 h.1.1, kids _ (hL _ h3 h.1.2), h2.1 h.2⟩
  case paren =>
    intro m teo d h1 h2 h3 h
    simp only [words, noBr_append] at h
    apply balanced_braceKids
    simp only [List.mem_cons, List.not_mem_nil, or_false, forall_eq_or_imp, forall_eq]
    exact ⟨h1.1 h.1.1, kids _ (hL _ h3 h.1.2), h2.1 h.2⟩
  case predArg =>
    intro id focus quant p rel h1 h2 h3 h4 h
    simp only [words, noBr_append] at h
    apply balanced_braceKids
    simp only [List.mem_cons, List.not_mem_nil, or_false, forall_eq_or_imp, forall_eq]
    exact ⟨hWO _ h1 h.1.1.1, hWO _ h2 h.1.1.2, h3 h.1.2, hO _ h4 h.2⟩
  case lu =>
    intro k w n h1 h2 h
    simp only [words, noBr_append] at h
    apply balanced_braceKids
    simp only [List.mem_cons, List.not_mem_nil, or_false, forall_eq_or_imp, forall_eq]
    exact ⟨h1.1 h.1, h2 h.2⟩
  all_goals
    intro w n h1 h2 h
    simp only [words, noBr_append] at h
    apply balanced_braceKids
    simp only [List.mem_cons, List.not_mem_nil, or_false, forall_eq_or_imp, forall_eq]
    exact ⟨h1.1 h.1, h2 h.2⟩

/-- C13: if no word contains a bracket, the brackets of `BracesString` are balanced and a bracket
at nesting depth `d` is of kind `d mod 4`. -/
theorem C13_balanced (n : Node) (h : ∀ w ∈ words n, ∀ c ∈ w.t, isBracket c = false) :
    scan 0 (bracesString n) = some 0 := balanced_aux.1 n h 0

example : (∀ w ∈ words sample, ∀ c ∈ w.t, isBracket c = false) ∧
    String.ofList (bracesString sample) = "(gỉ {jí ru súq} na)" := by decide +kernel

/-- All words can be told apart. -/
def AllPlain (l : List Str) : Prop := ∀ w ∈ l, plain w = true

theorem allPlain_append {a b} : AllPlain (a ++ b) ↔ AllPlain a ∧ AllPlain b := by
  simp only [AllPlain, List.mem_append]
  exact ⟨fun h => ⟨fun w hw => h w (.inl hw), fun w hw => h w (.inr hw)⟩,
    fun h w hw => hw.elim (h.1 w) (h.2 w)⟩

theorem prints_aux :
    (∀ n, AllPlain (visible n) → Prints (braces n) (visible n)) ∧
    (∀ w, (AllPlain (visibleW w) → Prints (bracesW w) (visibleW w)) ∧
      (AllPlain (visibleO w.M) → Prints (bracesO w.M) (visibleO w.M))) := by
  have hL : ∀ l : List Node, (∀ n ∈ l, AllPlain (visible n) → Prints (braces n) (visible n)) →
      AllPlain (visibleL l) → PrintsAll (bracesL l) (visibleL l) := by
    intro l
    induction l with
    | nil => intro _ _; exact .nil
    | cons a l ih =>
      intro h hw
      simp only [visibleL, allPlain_append] at hw
      exact .cons (h a (by simp) hw.1) (ih (fun n hn => h n (by simp [hn])) hw.2)
  have hO : ∀ o, (∀ n, o = some n → AllPlain (visible n) → Prints (braces n) (visible n)) →
      AllPlain (visibleO o) → Prints (bracesO o) (visibleO o) := by
    intro o h hw
    cases o with
    | none => exact prints_hidden
    | some n => exact h n rfl hw
  have hWO : ∀ o, (∀ w, o = some w → (AllPlain (visibleW w) → Prints (bracesW w) (visibleW w)) ∧
      (AllPlain (visibleO w.M) → Prints (bracesO w.M) (visibleO w.M))) → AllPlain (visibleWO o) →
      Prints (bracesWO o) (visibleWO o) := by
    intro o h hw
    cases o with
    | none => exact prints_hidden
    | some n => exact (h n rfl).1 hw
  have hTO : ∀ o, (∀ l, o = some l → ∀ n ∈ l, AllPlain (visible n) → Prints (braces n) (visible n)) →
      AllPlain (visibleTO o) → Prints (bracesTO o) (visibleTO o) := by
    intro o h hw
    cases o with
    | none => exact prints_hidden
    | some l => exact prints_braceKids (hL l (h l rfl) hw)
  apply Node.induct (P := fun n => AllPlain (visible n) → Prints (braces n) (visible n))
    (Q := fun w => (AllPlain (visibleW w) → Prints (bracesW w) (visibleW w)) ∧
      (AllPlain (visibleO w.M) → Prints (bracesO w.M) (visibleO w.M)))
  · intro t s e m hm
    refine ⟨fun h => ?_, hO m hm⟩
    have : visibleW (.mk t s e m) = [t] ++ visibleO m := rfl
    rw [this] at h ⊢
    rw [allPlain_append] at h
    exact prints_braceKids (.two (prints_const t (h.1 t (by simp))) (hO m hm h.2))
  case cop =>
    intro k to0 to1 ru l r h1 h2 h3 h4 h5 h
    cases to0 with
    | none =>
      simp only [visible, allPlain_append] at h
      exact prints_braceKids (.three (h4 h.1.1) (h3.1 h.1.2) (h5 h.2))
    | some t =>
      simp only [visible, allPlain_append] at h
      exact prints_braceKids (.five ((h1 t rfl).1 h.1.1.1.1) (h3.1 h.1.1.1.2) (h4 h.1.1.2)
        (hWO _ h2 h.1.2) (h5 h.2))
  case word =>
    intro k w hw h
    obtain ⟨t, s, e, m⟩ := w
    cases k with
    | space => exact hw.2 h
    | _ => exact hw.1 h
  case predAdverb =>
    intro p h1 h
    exact ⟨by simp [braces, shown], fun cur hc => (h1 h).2 cur hc⟩
  case text =>
    intro l d h1 h2 h
    simp only [visible, allPlain_append] at h
    exact prints_braceKids (.two (hO _ h1 h.1) (prints_braceKids (hL _ h2 h.2)))
  case discourse => intro d h1 h; exact prints_braceKids (hL _ h1 h)
  case terms => intro d h1 h; exact prints_braceKids (hL _ h1 h)
  case sentence =>
    intro je st da h1 h2 h3 h
    simp only [visible, allPlain_append] at h
    exact prints_braceKids (.three (hWO _ h1 h.1.1) (h2 h.1.2) (hWO _ h3 h.2))
  case prenex =>
    intro ts bi h1 h2 h
    simp only [visible, allPlain_append] at h
    exact prints_braceKids (.two (prints_braceKids (hL _ h1 h.1)) (h2.1 h.2))
  case prenexStmt =>
    intro ts bi st h1 h2 h3 h
    simp only [visible, allPlain_append] at h
    exact prints_braceKids (.two (prints_braceKids (.two (prints_braceKids (hL _ h1 h.1.1))
      (h2.1 h.1.2))) (h3 h.2))
  case predication =>
    intro k p ts na h1 h2 h3 h
    simp only [visible, allPlain_append] at h
    exact prints_braceKids (.three (h1 h.1.1) (hTO _ h2 h.1.2) (hWO _ h3 h.2))
  case serial =>
    intro l r h1 h2 h
    simp only [visible, allPlain_append] at h
    exact prints_braceKids (.two (h1 h.1) (h2 h.2))
  case prep =>
    intro l r h1 h2 h
    simp only [visible, allPlain_append] at h
    exact prints_braceKids (.two (h1 h.1) (h2 h.2))
  case mi =>
    intro m ga ph h1 h2 h3 h
    simp only [visible, allPlain_append] at h
    exact prints_braceKids (.three (h1.1 h.1.1) (h3 h.1.2) (hWO _ h2 h.2))
  case po =>
    intro m ga ph h1 h2 h3 h
    simp only [visible, allPlain_append] at h
    exact prints_braceKids (.three (h1.1 h.1.1) (h3 h.1.2) (hWO _ h2 h.2))
  case mo =>
    intro m teo d h1 h2 h3 h
    simp only [visible, allPlain_append] at h
    exact prints_braceKids (.three (h1.1 h.1.1) (prints_braceKids (hL _ h3 h.1.2)) (h2.1 h.2))
  case paren =>
    intro m teo d h1 h2 h3 h
    simp only [visible, allPlain_append] at h
    exact prints_braceKids (.three (h1.1 h.1.1) (prints_braceKids (hL _ h3 h.1.2)) (h2.1 h.2))
  case predArg =>
    intro id focus quant p rel h1 h2 h3 h4 h
    simp only [visible, allPlain_append] at h
    exact prints_braceKids (.four (hWO _ h1 h.1.1.1) (hWO _ h2 h.1.1.2) (h3 h.1.2) (hO _ h4 h.2))
  case lu =>
    intro k w n h1 h2 h
    simp only [visible, allPlain_append] at h
    exact prints_braceKids (.two (h1.1 h.1) (h2 h.2))
  all_goals
    intro w n h1 h2 h
    simp only [visible, allPlain_append] at h
    exact prints_braceKids (.two (h1.1 h.1) (h2 h.2))

/-- C14: split at spaces and brackets, `BracesString` shows exactly the words of the tree that are
not spaces, in text order. -/
theorem C14_words (n : Node) (h : ∀ w ∈ visible n, plain w = true) :
    pieces [] (bracesString n) = visible n := (prints_aux.1 n h).2 0 (by decide)

example : (∀ w ∈ visible sample, plain w = true) ∧
    (visible sample).map String.ofList = ["gỉ", "jí", "ru", "súq", "na"] := by decide +kernel

end Verif.AST
