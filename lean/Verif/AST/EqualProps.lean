/- Property theorems about ast.Equal and ast.ToASCII: C10, C12. -/
import Verif.AST.Model
import Verif.AST.Spec
import Verif.AST.VisitProps
import Verif.Tone.Props

namespace Verif.AST
open Spec
open Verif.Tone (Str)

/-- Forget byte offsets of a word. -/
def eraseW (w : Word) : Word := mapWordsW (fun w => { w with s := 0, e := 0 }) (fun _ => 0) w

theorem equal_iff_aux :
    (∀ a, noBare a = true → ∀ b, equal a b = true ↔ erase a = erase b) ∧
    (∀ a, allNW notBare a = true → ∀ b, wordEqual a b = true ↔ eraseW a = eraseW b) := by
  have hO : ∀ o, (∀ x, o = some x → noBare x = true → ∀ b, equal x b = true ↔ erase x = erase b) →
      allNO notBare o = true → ∀ b, equalO o b = true ↔
        mapWordsO (fun w => { w with s := 0, e := 0 }) (fun _ => 0) o =
        mapWordsO (fun w => { w with s := 0, e := 0 }) (fun _ => 0) b := by
    intro o h ho b
    cases o with
    | none => cases b <;> simp [equalO, mapWordsO]
    | some a =>
      cases b with
      | none => simp [equalO, mapWordsO]
      | some b => simpa [equalO, mapWordsO, erase] using h a rfl (by simpa [allNO, noBare] using ho) b
  have hWO : ∀ o, (∀ x, o = some x → allNW notBare x = true →
      ∀ b, wordEqual x b = true ↔ eraseW x = eraseW b) →
      allNWO notBare o = true → ∀ b, wordEqualO o b = true ↔
        mapWordsWO (fun w => { w with s := 0, e := 0 }) (fun _ => 0) o =
        mapWordsWO (fun w => { w with s := 0, e := 0 }) (fun _ => 0) b := by
    intro o h ho b
    cases o with
    | none => cases b <;> simp [wordEqualO, mapWordsWO]
    | some a =>
      cases b with
      | none => simp [wordEqualO, mapWordsWO]
      | some b => simpa [wordEqualO, mapWordsWO, eraseW] using h a rfl (by simpa [allNWO] using ho) b
  have hL : ∀ l : List Node, (∀ x ∈ l, noBare x = true → ∀ b, equal x b = true ↔ erase x = erase b) →
      allNL notBare l = true → ∀ b, equalL l b = true ↔
        mapWordsL (fun w => { w with s := 0, e := 0 }) (fun _ => 0) l =
        mapWordsL (fun w => { w with s := 0, e := 0 }) (fun _ => 0) b := by
    intro l
    induction l with
    | nil => intro _ _ b; cases b <;> simp [equalL, mapWordsL]
    | cons a l ih =>
      intro h hl b
      simp only [allNL, Bool.and_eq_true] at hl
      cases b with
      | nil => simp [equalL, mapWordsL]
      | cons b bs =>
        have h1 := h a (by simp) hl.1 b
        have h2 := ih (fun x hx => h x (by simp [hx])) hl.2 bs
        simp only [erase] at h1
        simp [equalL, mapWordsL, h1, h2]
  have hTO : ∀ o, (∀ l, o = some l → ∀ x ∈ l, noBare x = true → ∀ b, equal x b = true ↔ erase x = erase b) →
      allNTO notBare o = true → ∀ b, equalTO o b = true ↔
        mapWordsTO (fun w => { w with s := 0, e := 0 }) (fun _ => 0) o =
        mapWordsTO (fun w => { w with s := 0, e := 0 }) (fun _ => 0) b := by
    intro o h ho b
    cases o with
    | none => cases b <;> simp [equalTO, mapWordsTO]
    | some a =>
      cases b with
      | none => simp [equalTO, mapWordsTO]
      | some b => simpa [equalTO, mapWordsTO] using hL a (h a rfl) (by simpa [allNTO] using ho) b
  apply Node.induct (P := fun a => noBare a = true → ∀ b, equal a b = true ↔ erase a = erase b)
    (Q := fun a => allNW notBare a = true → ∀ b, wordEqual a b = true ↔ eraseW a = eraseW b)
  · rintro t s e m hm h ⟨t', s', e', m'⟩
    simp only [allNW] at h
    simp [wordEqual, eraseW, mapWordsW, hO m hm h]
    intro _
    exact decide_eq_true_iff
  · intro l d hl hd h b
    simp only [noBare, allN, notBare, Bool.and_eq_true] at h
    cases b <;> simp [equal, erase, mapWords, hO l hl h.2.1, hL d hd h.2.2]
  · intro d hd h b
    simp only [noBare, allN, notBare, Bool.and_eq_true] at h
    cases b <;> simp [equal, erase, mapWords, hL d hd h.2]
  · intro je st da h1 h2 h3 h b
    simp only [noBare, allN, notBare, Bool.and_eq_true] at h
    cases b <;> simp [equal, erase, mapWords, hWO _ h1 h.2.1.1, hWO _ h3 h.2.2]
    rename_i je' st' da'
    have := h2 h.2.1.2 st'
    simp only [erase] at this
    simp [this, and_comm, and_left_comm]
  · intro k to0 to1 ru l r h1 h2 h3 h4 h5 h b
    simp only [noBare, allN, Bool.and_eq_true] at h
    have hk : k ≠ .raw := by rintro rfl; simp [notBare] at h
    cases b <;> simp [equal, erase, mapWords, hk, hWO _ h1 h.2.1.1.1.1, hWO _ h2 h.2.1.1.1.2]
    have a3 := h3 h.2.1.1.2
    have a4 := h4 h.2.1.2
    have a5 := h5 h.2.2
    simp only [erase, eraseW] at a3 a4 a5
    simp [a3, a4, a5, and_assoc]
  · intro ts bi h1 h2 h b
    simp only [noBare, allN, notBare, Bool.and_eq_true] at h
    have a2 := h2 h.2.2
    simp only [eraseW] at a2
    cases b <;> simp [equal, erase, mapWords, hL _ h1 h.2.1, a2, and_comm]
  · intro ts bi st h1 h2 h3 h b
    simp only [noBare, allN, notBare, Bool.and_eq_true] at h
    have a2 := h2 h.2.1.2
    have a3 := h3 h.2.2
    simp only [eraseW, erase] at a2 a3
    cases b <;> simp [equal, erase, mapWords, hL _ h1 h.2.1.1, a2, a3, and_comm,
      and_left_comm]
  · intro k p ts na h1 h2 h3 h b
    simp only [noBare, allN, notBare, Bool.and_eq_true] at h
    have a1 := h1 h.2.1.1
    simp only [erase] at a1
    cases b <;> simp [equal, erase, mapWords, hTO _ h2 h.2.1.2, hWO _ h3 h.2.2, a1, and_comm,
      and_left_comm]
  · intro mu p h1 h2 h b
    simp only [noBare, allN, notBare, Bool.and_eq_true] at h
    have a1 := h1 h.2.1
    have a2 := h2 h.2.2
    simp only [erase, eraseW] at a1 a2
    cases b <;> simp [equal, erase, mapWords, a1, a2]
  · intro l r h1 h2 h b
    simp only [noBare, allN, notBare, Bool.and_eq_true] at h
    have a1 := h1 h.2.1
    have a2 := h2 h.2.2
    simp only [erase] at a1 a2
    cases b <;> simp [equal, erase, mapWords, a1, a2]
  · intro k w h1 h b
    simp only [noBare, allN, notBare, Bool.and_eq_true] at h
    have a1 := h1 h.2
    simp only [eraseW] at a1
    cases b <;> simp [equal, erase, mapWords, a1]
  · intro m ga ph h1 h2 h3 h b
    simp only [noBare, allN, notBare, Bool.and_eq_true] at h
    have a1 := h1 h.2.1.1
    have a3 := h3 h.2.2
    simp only [erase, eraseW] at a1 a3
    cases b <;> simp [equal, erase, mapWords, a1, a3, hWO _ h2 h.2.1.2, and_assoc]
  · intro m ga ph h1 h2 h3 h b
    simp only [noBare, allN, notBare, Bool.and_eq_true] at h
    have a1 := h1 h.2.1.1
    have a3 := h3 h.2.2
    simp only [erase, eraseW] at a1 a3
    cases b <;> simp [equal, erase, mapWords, a1, a3, hWO _ h2 h.2.1.2, and_assoc]
  · intro m teo d h1 h2 h3 h b
    simp only [noBare, allN, notBare, Bool.and_eq_true] at h
    have a1 := h1 h.2.1.1
    have a2 := h2 h.2.1.2
    simp only [eraseW] at a1 a2
    cases b <;> simp [equal, erase, mapWords, a1, a2, hL _ h3 h.2.2, and_assoc]
  · intro k l st h1 h2 h b
    simp only [noBare, allN, Bool.and_eq_true] at h
    have hk : k ≠ .raw := by rintro rfl; simp [notBare] at h
    have a1 := h1 h.2.1
    have a2 := h2 h.2.2
    simp only [erase, eraseW] at a1 a2
    cases b <;> simp [equal, erase, mapWords, hk, a1, a2]
  · intro g a h1 h2 h b
    simp only [noBare, allN, notBare, Bool.and_eq_true] at h
    have a1 := h1 h.2.1
    have a2 := h2 h.2.2
    simp only [erase, eraseW] at a1 a2
    cases b <;> simp [equal, erase, mapWords, a1, a2]
  · intro ts h1 h b
    simp only [noBare, allN, notBare, Bool.and_eq_true] at h
    cases b <;> simp [equal, erase, mapWords, hL _ h1 h.2]
  · intro id focus quant p rel h1 h2 h3 h4 h b
    simp only [noBare, allN, notBare, Bool.and_eq_true] at h
    have a3 := h3 h.2.1.2
    simp only [erase] at a3
    cases b <;> simp [equal, erase, mapWords, hWO _ h1 h.2.1.1.1, hWO _ h2 h.2.1.1.2, a3,
      hO _ h4 h.2.2, and_assoc]
  · intro p h1 h b
    simp only [noBare, allN, notBare, Bool.and_eq_true] at h
    have a1 := h1 h.2
    simp only [erase] at a1
    cases b <;> simp [equal, erase, mapWords, a1]
  · intro p a h1 h2 h b
    simp only [noBare, allN, notBare, Bool.and_eq_true] at h
    have a1 := h1 h.2.1
    have a2 := h2 h.2.2
    simp only [erase] at a1 a2
    cases b <;> simp [equal, erase, mapWords, a1, a2]
  · intro kio ki d h1 h2 h3 h b
    simp only [noBare, allN, notBare, Bool.and_eq_true] at h
    have a1 := h1 h.2.1.1
    have a2 := h2 h.2.1.2
    simp only [eraseW] at a1 a2
    cases b <;> simp [equal, erase, mapWords, a1, a2, hL _ h3 h.2.2, and_assoc, and_left_comm]
  · intro ju st h1 h2 h b
    simp only [noBare, allN, notBare, Bool.and_eq_true] at h
    have a1 := h1 h.2.1
    have a2 := h2 h.2.2
    simp only [erase, eraseW] at a1 a2
    cases b <;> simp [equal, erase, mapWords, a1, a2]
  · intro hu a h1 h2 h b
    simp only [noBare, allN, notBare, Bool.and_eq_true] at h
    have a1 := h1 h.2.1
    have a2 := h2 h.2.2
    simp only [erase, eraseW] at a1 a2
    cases b <;> simp [equal, erase, mapWords, a1, a2]

/-- C10: `Equal` holds exactly of trees that are the same up to byte offsets. -/
theorem C10_equal_iff (a b : Node) (h : noBare a = true) : equal a b = true ↔ erase a = erase b :=
  equal_iff_aux.1 a h b

theorem C10_refl (a : Node) (h : noBare a = true) : equal a a = true := (C10_equal_iff a a h).2 rfl

theorem C10_symm (a b : Node) (ha : noBare a = true) (hb : noBare b = true) :
    equal a b = equal b a := by
  rw [Bool.eq_iff_iff, C10_equal_iff a b ha, C10_equal_iff b a hb, eq_comm]

theorem C10_trans (a b c : Node) (ha : noBare a = true) (hb : noBare b = true)
    (h1 : equal a b = true) (h2 : equal b c = true) : equal a c = true :=
  (C10_equal_iff a c ha).2 (((C10_equal_iff a b ha).1 h1).trans ((C10_equal_iff b c hb).1 h2))

/-- Moving a tree to another place of the text. -/
def shiftBy (k : Nat) (n : Node) : Node :=
  mapWords (fun w => { w with s := w.s + k, e := w.e + k }) (· + k) n

theorem mapWords_comp (fw gw : Tok → Tok) (fi gi : Nat → Nat) :
    (∀ n, mapWords fw fi (mapWords gw gi n) = mapWords (fun w => fw (gw w)) (fun i => fi (gi i)) n) ∧
    (∀ w, mapWordsW fw fi (mapWordsW gw gi w) = mapWordsW (fun w => fw (gw w)) (fun i => fi (gi i)) w) := by
  have hL : ∀ l : List Node, (∀ x ∈ l, mapWords fw fi (mapWords gw gi x) =
      mapWords (fun w => fw (gw w)) (fun i => fi (gi i)) x) →
      mapWordsL fw fi (mapWordsL gw gi l) = mapWordsL (fun w => fw (gw w)) (fun i => fi (gi i)) l := by
    intro l
    induction l with
    | nil => intro _; simp [mapWordsL]
    | cons a l ih => intro h; simp [mapWordsL, h a (by simp), ih fun x hx => h x (by simp [hx])]
  have hO : ∀ o, (∀ x, o = some x → mapWords fw fi (mapWords gw gi x) =
      mapWords (fun w => fw (gw w)) (fun i => fi (gi i)) x) →
      mapWordsO fw fi (mapWordsO gw gi o) = mapWordsO (fun w => fw (gw w)) (fun i => fi (gi i)) o := by
    intro o h; cases o <;> simp_all [mapWordsO]
  have hWO : ∀ o, (∀ x, o = some x → mapWordsW fw fi (mapWordsW gw gi x) =
      mapWordsW (fun w => fw (gw w)) (fun i => fi (gi i)) x) →
      mapWordsWO fw fi (mapWordsWO gw gi o) = mapWordsWO (fun w => fw (gw w)) (fun i => fi (gi i)) o := by
    intro o h; cases o <;> simp_all [mapWordsWO]
  have hTO : ∀ o, (∀ l, o = some l → ∀ x ∈ l, mapWords fw fi (mapWords gw gi x) =
      mapWords (fun w => fw (gw w)) (fun i => fi (gi i)) x) →
      mapWordsTO fw fi (mapWordsTO gw gi o) = mapWordsTO (fun w => fw (gw w)) (fun i => fi (gi i)) o := by
    intro o h
    cases o with
    | none => rfl
    | some l => simp [mapWordsTO, hL l (h l rfl)]
  apply Node.induct
    (P := fun n => mapWords fw fi (mapWords gw gi n) = mapWords (fun w => fw (gw w)) (fun i => fi (gi i)) n)
    (Q := fun w => mapWordsW fw fi (mapWordsW gw gi w) =
      mapWordsW (fun w => fw (gw w)) (fun i => fi (gi i)) w)
  · intro t s e m hm; simp [mapWordsW, hO m hm]
  all_goals intros; simp_all [mapWords]

/-- C10: the comparison does not see positions. -/
theorem C10_shift (k : Nat) (n : Node) (h : noBare n = true) : equal n (shiftBy k n) = true := by
  rw [C10_equal_iff n _ h, erase, erase, shiftBy, (mapWords_comp _ _ _ _).1]

example : noBare sample = true ∧ equal sample (shiftBy 5 sample) = true ∧
    equal sample (toASCIINode sample) = false := by decide +kernel

/-! ### C12 -/

/-- A connective without opening particle has no second one (grammar: both come together). -/
def toPaired : Node → Bool
  | .cop _ none (some _) _ _ _ => false
  | _ => true

/-- C12: `ToASCII` changes the texts of the words with `tone.ToASCII` and nothing else. -/
theorem mapT_aux (f : Str → Str) :
    (∀ n, allN toPaired n = true →
      mapT f n = mapWords (fun w => { w with t := f w.t }) (fun i => i) n) ∧
    (∀ w, allNW toPaired w = true →
      mapTW f w = mapWordsW (fun w => { w with t := f w.t }) (fun i => i) w) := by
  have hL : ∀ l : List Node, (∀ x ∈ l, allN toPaired x = true →
      mapT f x = mapWords (fun w => { w with t := f w.t }) (fun i => i) x) → allNL toPaired l = true →
      mapTL f l = mapWordsL (fun w => { w with t := f w.t }) (fun i => i) l := by
    intro l
    induction l with
    | nil => intro _ _; simp [mapWordsL, mapTL]
    | cons a l ih =>
      intro h hl
      simp only [allNL, Bool.and_eq_true] at hl
      simp [mapWordsL, mapTL, h a (by simp) hl.1, ih (fun x hx => h x (by simp [hx])) hl.2]
  have hO : ∀ o, (∀ x, o = some x → allN toPaired x = true →
      mapT f x = mapWords (fun w => { w with t := f w.t }) (fun i => i) x) → allNO toPaired o = true →
      mapTO f o = mapWordsO (fun w => { w with t := f w.t }) (fun i => i) o := by
    intro o h ho
    cases o with
    | none => rfl
    | some x => simpa [mapTO, mapWordsO] using h x rfl (by simpa [allNO] using ho)
  have hWO : ∀ o, (∀ x, o = some x → allNW toPaired x = true →
      mapTW f x = mapWordsW (fun w => { w with t := f w.t }) (fun i => i) x) → allNWO toPaired o = true →
      mapTWO f o = mapWordsWO (fun w => { w with t := f w.t }) (fun i => i) o := by
    intro o h ho
    cases o with
    | none => rfl
    | some x => simpa [mapTWO, mapWordsWO] using h x rfl (by simpa [allNWO] using ho)
  have hTO : ∀ o, (∀ l, o = some l → ∀ x ∈ l, allN toPaired x = true →
      mapT f x = mapWords (fun w => { w with t := f w.t }) (fun i => i) x) → allNTO toPaired o = true →
      mapTTO f o = mapWordsTO (fun w => { w with t := f w.t }) (fun i => i) o := by
    intro o h ho
    cases o with
    | none => rfl
    | some l => simpa [mapTTO, mapWordsTO] using hL l (h l rfl) (by simpa [allNTO] using ho)
  apply Node.induct
    (P := fun n => allN toPaired n = true →
      mapT f n = mapWords (fun w => { w with t := f w.t }) (fun i => i) n)
    (Q := fun w => allNW toPaired w = true →
      mapTW f w = mapWordsW (fun w => { w with t := f w.t }) (fun i => i) w)
  · intro t s e m hm h; simp only [allNW] at h; simp [mapTW, mapWordsW, hO m hm h]
  case cop =>
    intro k to0 to1 ru l r h1 h2 h3 h4 h5 h
    simp only [allN, Bool.and_eq_true] at h
    have e1 := hWO _ h2 h.2.1.1.1.2
    have e0 := hWO _ h1 h.2.1.1.1.1
    cases to0 with
    | none =>
      cases to1 with
      | some x => simp [toPaired] at h
      | none => simp [mapT, mapWords, mapWordsWO, h3 h.2.1.1.2, h4 h.2.1.2, h5 h.2.2]
    | some x =>
      simp only [mapTWO, mapWordsWO, Option.some.injEq] at e0
      simp [mapT, mapWords, mapWordsWO, e1, e0, h3 h.2.1.1.2, h4 h.2.1.2, h5 h.2.2]
  all_goals
    intros
    rename_i h
    simp only [allN, Bool.and_eq_true] at h
    simp_all [mapT, mapWords]

/-- C12: on trees as the parser builds them, `ToASCII` changes the texts of the words, each with
`tone.ToASCII`, and keeps structure, modifiers and offsets. -/
theorem C12_toASCII (n : Node) (h : allN toPaired n = true) :
    toASCIINode n = mapWords (fun w => { w with t := Verif.Tone.toASCII w.t }) (fun i => i) n :=
  (mapT_aux _).1 n h

theorem words_mapWords (fw : Tok → Tok) (fi : Nat → Nat) :
    (∀ n, words (mapWords fw fi n) = (words n).map fw) ∧
    (∀ w, wordsW (mapWordsW fw fi w) = (wordsW w).map fw) := by
  have hL : ∀ l : List Node, (∀ x ∈ l, words (mapWords fw fi x) = (words x).map fw) →
      wordsL (mapWordsL fw fi l) = (wordsL l).map fw := by
    intro l
    induction l with
    | nil => intro _; simp [mapWordsL, wordsL]
    | cons a l ih => intro h; simp [mapWordsL, wordsL, h a (by simp), ih fun x hx => h x (by simp [hx])]
  have hO : ∀ o, (∀ x, o = some x → words (mapWords fw fi x) = (words x).map fw) →
      wordsO (mapWordsO fw fi o) = (wordsO o).map fw := by
    intro o h; cases o <;> simp_all [mapWordsO, wordsO]
  have hWO : ∀ o, (∀ x, o = some x → wordsW (mapWordsW fw fi x) = (wordsW x).map fw) →
      wordsWO (mapWordsWO fw fi o) = (wordsWO o).map fw := by
    intro o h; cases o <;> simp_all [mapWordsWO, wordsWO]
  have hTO : ∀ o, (∀ l, o = some l → ∀ x ∈ l, words (mapWords fw fi x) = (words x).map fw) →
      wordsTO (mapWordsTO fw fi o) = (wordsTO o).map fw := by
    intro o h
    cases o with
    | none => rfl
    | some l => simp [mapWordsTO, wordsTO, hL l (h l rfl)]
  apply Node.induct (P := fun n => words (mapWords fw fi n) = (words n).map fw)
    (Q := fun w => wordsW (mapWordsW fw fi w) = (wordsW w).map fw)
  · intro t s e m hm; simp [mapWordsW, wordsW, hO m hm]
  case cop =>
    intro k to0 to1 ru l r h1 h2 h3 h4 h5
    have := hWO _ h2
    cases to0 with
    | none => simp [mapWords, words, mapWordsWO, h3, h4, h5]
    | some x => simp [mapWords, words, mapWordsWO, h1 x rfl, this, h3, h4, h5]
  all_goals intros; simp_all [mapWords, words]

/-- C12: the words of the result, in order. -/
theorem C12_words (n : Node) (h : allN toPaired n = true) :
    words (toASCIINode n) = (words n).map fun w => { w with t := Verif.Tone.toASCII w.t } := by
  rw [C12_toASCII n h, (words_mapWords _ _).1]

example : allN toPaired sample = true ∧
    (words (toASCIINode sample)).map (fun w => String.ofList w.t) =
      ["gi?", " ", "ji/", " ", "ru", " ", "suq/", "na"] := by decide +kernel

end Verif.AST
