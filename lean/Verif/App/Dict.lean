/-
/repo/dict/dict.go, with the HTTP exchange and the JSON decoder as parameters (C45).
-/
import Verif.Tone.Props
import Verif.Unicode

namespace Verif.App
open Verif.Tone Verif.Tone.Spec

/-- dict.go:16-25 `Word` -/
structure DictWord where
  word : Str
  dfn : Str
  by_ : Str
  score : Int
deriving DecidableEq

/-- dict.go:35-39: the decoded response. -/
structure DictResponse where
  success : Bool
  entries : Option (List DictWord)
  error : Option Str

/-- How a call of `Load` ends. -/
inductive Loaded
  | words (m : Str → Option DictWord)
  | err (s : Str)
  /-- a nil pointer is dereferenced -/
  | panic

/-- dict.go:48 -/
def norm (U : Uni) (s : Str) : Str := (strip s).map U.lower

/-- dict.go:47-50: one iteration. -/
def addEntry (U : Uni) (m : Str → Option DictWord) (e : DictWord) : Str → Option DictWord :=
  let e := { e with word := norm U e.word }
  fun k => if k = e.word then some e else m k

/-- dict.go:28-52 `Load`; the exchange and the decoding give a response or an error. -/
def load (U : Uni) : Except Str DictResponse → Loaded
  | .error s => .err s
  | .ok r =>
    if !r.success then
      match r.error with
      | none => .panic
      | some s => .err ("Toadua returned error: ".toList ++ s)
    else
      match r.entries with
      | none => .panic
      | some es => .words (es.foldl (addEntry U) fun _ => none)

/-! ## C45 -/

theorem foldl_addEntry (U : Uni) (es : List DictWord) (m : Str → Option DictWord) (k : Str) :
    (es.foldl (addEntry U) m) k =
      match (es.filter fun e => decide (norm U e.word = k)).getLast? with
      | some e => some { e with word := k }
      | none => m k := by
  induction es generalizing m with
  | nil => simp
  | cons e es ih =>
    rw [List.foldl_cons, ih]
    by_cases h : norm U e.word = k
    · rw [List.filter_cons_of_pos (by simp [h])]
      cases hl : (es.filter fun e => decide (norm U e.word = k)).getLast? with
      | none =>
        rw [List.getLast?_eq_none_iff] at hl
        simp [hl, addEntry, h]
      | some x =>
        rw [List.getLast?_cons, hl]
        rfl
    · rw [List.filter_cons_of_neg (by simp [h])]
      split
      · rfl
      · simp only [addEntry]
        rw [if_neg (fun h' => h h'.symm)]

/-- C45: the entry found under a key is the last one whose headword has that normal form, with the
key for a headword; keys that are no such normal form have no entry. -/
theorem C45_last_wins (U : Uni) (r : DictResponse) (es : List DictWord) (hs : r.success = true)
    (he : r.entries = some es) :
    ∃ m, load U (.ok r) = .words m ∧ ∀ k, m k =
      ((es.filter fun e => decide (norm U e.word = k)).getLast?).map fun e => { e with word := k } := by
  refine ⟨_, by simp [load, hs, he]; rfl, fun k => ?_⟩
  rw [foldl_addEntry]
  split
  · next h => rw [h]; rfl
  · next h => rw [h]; rfl

/-- C45: every key is the word of its entry, lower case, and without tone markers; here lower case
means that `unicode.ToLower` changes nothing. -/
theorem C45_keys (U : Uni) (hl : ∀ c, U.lower (U.lower c) = U.lower c)
    (ht : ∀ c, U.lower c ∈ toneNameRunes → c ∈ toneNameRunes) (r : DictResponse)
    (m : Str → Option DictWord) (hm : load U (.ok r) = .words m) (k : Str) (e : DictWord)
    (h : m k = some e) :
    e.word = k ∧ k.map U.lower = k ∧ ∀ c ∈ k, c ∉ toneNameRunes := by
  unfold load at hm
  dsimp only at hm
  split at hm
  · split at hm <;> cases hm
  · split at hm
    · cases hm
    · next es _ =>
      cases hm
      rw [foldl_addEntry] at h
      split at h
      · next x hx =>
        cases h
        have hx := List.mem_of_getLast? hx
        simp only [List.mem_filter, decide_eq_true_eq] at hx
        obtain ⟨_, hk⟩ := hx
        refine ⟨rfl, ?_, ?_⟩
        · rw [← hk]
          simp [norm, hl]
        · rw [← hk]
          intro c hc hc'
          simp only [norm, List.mem_map] at hc
          obtain ⟨d, hd, rfl⟩ := hc
          exact C03_strip_no_marker _ d hd (ht d hc')
      · cases h

/-- C45: the key of a well-formed headword is made of its letters alone, so headwords that differ in
tones only share it. -/
theorem C45_word_key (U : Uni) (w : Word) (hw : Word.ok w) :
    norm U (Word.render w) = (Word.letters w).map U.lower := by
  rw [norm, C03_strip_word w hw]

/-- C45 is violated for other headwords: two toned vowels in one syllable keep their tones. -/
theorem C45_toned_key : norm asciiUni "jáé".toList = "jaé".toList := by decide +kernel

/-- An unsuccessful response without a message, or a successful one without data, crashes `Load`. -/
theorem C45_panics (U : Uni) (r : DictResponse) :
    (r.success = false ∧ r.error = none ∨ r.success = true ∧ r.entries = none) ↔
      load U (.ok r) = .panic := by
  obtain ⟨s, es, e⟩ := r
  cases s <;> cases es <;> cases e <;> simp [load]

example : ∃ m, load asciiUni (.ok ⟨true, some [⟨"hỏaq".toList, "a".toList, [], 0⟩,
    ⟨"Hóaq".toList, "b".toList, [], 0⟩, ⟨"mai".toList, [], [], 1⟩], none⟩) = .words m ∧
    (m "hoaq".toList).map (·.dfn) = some "b".toList := by
  refine ⟨_, rfl, ?_⟩
  decide +kernel

theorem asciiLower_high (c : Char) (h : ¬ c.toNat < 128) : asciiLower c = c := by
  unfold asciiLower
  rw [if_neg]
  rintro ⟨_, h2⟩
  have : c.toNat ≤ 'Z'.toNat := h2
  have : 'Z'.toNat = 90 := rfl
  omega

/-- The hypotheses of `C45_keys` hold for ASCII case mapping. -/
example : (∀ c, asciiUni.lower (asciiUni.lower c) = asciiUni.lower c) ∧
    ∀ c, asciiUni.lower c ∈ toneNameRunes → c ∈ toneNameRunes := by
  have h1 : ∀ n, n < 128 → asciiLower (asciiLower (Char.ofNat n)) = asciiLower (Char.ofNat n) ∧
      (asciiLower (Char.ofNat n) ∈ toneNameRunes → Char.ofNat n ∈ toneNameRunes) := by
    decide +kernel
  have h2 : ∀ c : Char, asciiLower (asciiLower c) = asciiLower c ∧
      (asciiLower c ∈ toneNameRunes → c ∈ toneNameRunes) := by
    intro c
    by_cases hc : c.toNat < 128
    · have h := h1 c.toNat hc
      rwa [Char.ofNat_toNat] at h
    · rw [asciiLower_high c hc, asciiLower_high c hc]
      exact ⟨rfl, id⟩
  exact ⟨fun c => (h2 c).1, fun c => (h2 c).2⟩

end Verif.App
