/-
C71: `Word` finds the words of a text that `Text` accepts.

The words of a syntax tree come from the rules for predicate words and particles (Prov.lean). `Word` has other rules: it reads
a predicate word with any tone (toaq.peggy:366-378), for which it is shown that there is a syllable with at most one tone at an
offset, so that the choice between the tones finds the one that the parser of the text found; and a particle as a neutral
syllable, for which it is shown that no syllable with a tone is there.
-/
import Verif.Parse.Prov
import Verif.Parse.Late

namespace Verif.Parse.Prov
open Verif.AST Verif.AST.Spec Verif.Peg Verif.Parse Verif.Parse.WordLang
open Verif.Tone (Str)

variable {U : Uni} {I : Input} {E : Type} {A : Alg Act E}

/-! ## Results at any depth -/

/-- The result of an expression at an offset. -/
def Gives (U : Uni) (I : Input) (A : Alg Act E) (e : Expr Act) (p : Nat) (r : Res E A.X) : Prop :=
  ∃ n, ev U toaq I A n e p = some r

theorem Gives.det {e p r s} (h : Gives U I A e p r) (h' : Gives U I A e p s) : r = s := by
  obtain ⟨n, h⟩ := h
  obtain ⟨m, h'⟩ := h'
  exact ev_det U toaq I A h h'

/-- Both results at the same depth. -/
theorem Gives.both {e p r f q s} (h : Gives U I A e p r) (h' : Gives U I A f q s) :
    ∃ n, ev U toaq I A n e p = some r ∧ ev U toaq I A n f q = some s := by
  obtain ⟨n, h⟩ := h
  obtain ⟨m, h'⟩ := h'
  exact ⟨max n m, ev_mono U toaq I A (Nat.le_max_left n m) h, ev_mono U toaq I A (Nat.le_max_right n m) h'⟩

theorem g_ref {r p q x} (h : Gives U I A (toaq.body r) p (.ok q x)) : Gives U I A (.ref r) p (.ok q (A.rule r p q x)) := by
  obtain ⟨n, h⟩ := h
  have h1 := ev_acc (U := U) (G := toaq) (I := I) (A := A) n (toaq.body r) p 0
  rw [h] at h1
  obtain ⟨e, h1⟩ := h1
  exact ⟨n + 1, by rw [ev_s]; simp only [evStep, h1, h]⟩

theorem g_seq {a b p m q x y} (h : Gives U I A a p (.ok m x)) (h' : Gives U I A b m (.ok q y)) :
    Gives U I A (.seq a b) p (.ok q (A.seq x y)) := by
  obtain ⟨n, h1, h2⟩ := h.both h'
  exact ⟨n + 1, by rw [ev_s]; simp only [evStep, h1, h2]⟩

theorem g_seq_fail {a b p m x} (h : Gives U I A a p (.ok m x)) (h' : Gives U I A b m .fail) :
    Gives U I A (.seq a b) p .fail := by
  obtain ⟨n, h1, h2⟩ := h.both h'
  exact ⟨n + 1, by rw [ev_s]; simp only [evStep, h1, h2]⟩

theorem g_seq_fail1 {a b p} (h : Gives U I A a p .fail) : Gives U I A (.seq a b) p .fail := by
  obtain ⟨n, h⟩ := h
  exact ⟨n + 1, by rw [ev_s]; simp only [evStep, h]⟩

theorem g_alt {a b p q x} (h : Gives U I A a p (.ok q x)) : Gives U I A (.alt a b) p (.ok q x) := by
  obtain ⟨n, h⟩ := h
  exact ⟨n + 1, by rw [ev_s]; simp only [evStep, h]⟩

theorem g_alt2 {a b p r} (h : Gives U I A a p .fail) (h' : Gives U I A b p r) : Gives U I A (.alt a b) p r := by
  obtain ⟨n, h1, h2⟩ := h.both h'
  exact ⟨n + 1, by rw [ev_s]; simp only [evStep, h1, h2]⟩

theorem g_not {a p} (h : Gives U I A a p .fail) : Gives U I A (.not a) p (.ok p A.nil) := by
  obtain ⟨n, h⟩ := h
  exact ⟨n + 1, by rw [ev_s]; simp only [evStep, h]⟩

theorem g_not_fail {a p q x} (h : Gives U I A a p (.ok q x)) : Gives U I A (.not a) p .fail := by
  obtain ⟨n, h⟩ := h
  exact ⟨n + 1, by rw [ev_s]; simp only [evStep, h]⟩

theorem g_and {a p q x} (h : Gives U I A a p (.ok q x)) : Gives U I A (.and a) p (.ok p A.nil) := by
  obtain ⟨n, h⟩ := h
  exact ⟨n + 1, by rw [ev_s]; simp only [evStep, h]⟩

theorem g_lab {a p q x} (h : Gives U I A a p (.ok q x)) : Gives U I A (.lab a) p (.ok q (A.lab x)) := by
  obtain ⟨n, h⟩ := h
  exact ⟨n + 1, by rw [ev_s]; simp only [evStep, h]⟩

theorem g_grp {a p q x} (h : Gives U I A a p (.ok q x)) : Gives U I A (.grp a) p (.ok q (A.grp p q x)) := by
  obtain ⟨n, h⟩ := h
  exact ⟨n + 1, by rw [ev_s]; simp only [evStep, h]⟩

/-! ## Rules that do not accept -/

/-- Values that do not matter. -/
def unitAlg : Alg Act Empty where
  X := Unit
  leaf _ _ := ()
  nil := ()
  seq _ _ := ()
  rep0 := ()
  rep _ _ := ()
  lab _ := ()
  grp _ _ _ := ()
  act _ _ _ _ := .ok ()
  rule _ _ _ _ := ()

/-- What is read does not depend on the values. -/
theorem to_unit {e p q x} (h : Gives U I A e p (.ok q x)) : Gives U I unitAlg e p (.ok q ()) := by
  obtain ⟨n, h⟩ := h
  have h1 := ev_acc (U := U) (G := toaq) (I := I) (A := A) n e p 0
  rw [h] at h1
  obtain ⟨er, h1⟩ := h1
  have h2 := ev_acc (U := U) (G := toaq) (I := I) (A := unitAlg) n e p 0
  refine ⟨n, ?_⟩
  rw [h1] at h2
  match h3 : ev U toaq I unitAlg n e p, h2 with
  | some (.ok q' _), h2 =>
    obtain ⟨_, h2⟩ := h2
    injection h2 with h2
    injection h2 with h2
    injection h2 with h2
    subst h2
    rfl
  | some .fail, h2 =>
    obtain ⟨_, h2⟩ := h2
    simp at h2
  | none, h2 => simp [Agree] at h2

/-- A rule either reads something or fails, whatever the values; but its actions can panic if it reads something. -/
theorem rule_cases (r : Nat) {p : Nat} (hp : p ≤ I.len) :
    (∃ q, Gives U I unitAlg (.ref r) p (.ok q ())) ∨ Gives U I A (.ref r) p .fail := by
  have h := acc_total_ref (U := U) (G := toaq) (I := I) ranked r p 0 hp
  match h1 : acc U toaq I (enough I.len rankBound depthBound) (.ref r) p 0 with
  | none => exact absurd h1 h
  | some (some q, e) =>
    left
    have h2 := ev_acc (U := U) (G := toaq) (I := I) (A := unitAlg) (enough I.len rankBound depthBound) (.ref r) p 0
    rw [h1] at h2
    match h3 : ev U toaq I unitAlg (enough I.len rankBound depthBound) (.ref r) p, h2 with
    | some (.ok q' _), _ => exact ⟨q', _, h3⟩
    | some .fail, h2 => obtain ⟨_, h2⟩ := h2; simp at h2
    | none, h2 => simp [Agree] at h2
  | some (none, e) =>
    right
    refine ⟨enough I.len rankBound depthBound, ?_⟩
    match hn : enough I.len rankBound depthBound with
    | 0 => rw [hn, acc_0] at h1; cases h1
    | n + 1 =>
      rw [hn, acc_s] at h1
      rw [ev_s]
      simp only [accStep, evStep] at h1 ⊢
      split at h1
      · cases h1
      · cases h1
      · rename_i h2
        simp only [h2]

/-! ## Syllables -/

/-- Letters without tone that can stand after the consonants of a syllable. -/
def plainRunes : List Char := ['a', 'A', 'e', 'E', 'ı', 'i', 'I', 'o', 'O', 'u', 'U', 'q', 'Q']

/-- The marks of a tone, and the vowels with it. -/
def toneSet : Nat → List Char
  | 294 => ['́', '/', '2', 'á', 'Á', 'ú', 'Ú', 'í', 'Í', 'ó', 'Ó', 'é', 'É']
  | 295 => ['̌', '̆', 'V', '3', 'ǎ', 'Ǎ', 'ă', 'Ă', 'ǔ', 'Ǔ', 'ŭ', 'Ŭ', 'ǐ', 'Ǐ', 'ĭ', 'Ĭ', 'ǒ', 'Ǒ', 'ŏ', 'Ŏ', 'ě', 'Ě', 'ĕ',
   'Ĕ']
  | 296 => ['̉', '?', '4', 'ả', 'Ả', 'ủ', 'Ủ', 'ỉ', 'Ỉ', 'ỏ', 'Ỏ', 'ẻ', 'Ẻ']
  | 297 => ['̂', '5', '^', 'â', 'Â', 'û', 'Û', 'î', 'Î', 'ô', 'Ô', 'ê', 'Ê']
  | 298 => ['̀', '\\', '6', 'à', 'À', 'ù', 'Ù', 'ì', 'Ì', 'ò', 'Ò', 'è', 'È']
  | 299 => ['̃', '~', '7', 'ã', 'Ã', 'ũ', 'Ũ', 'ĩ', 'Ĩ', 'õ', 'Õ', 'ẽ', 'Ẽ']
  | _ => []

/-- Letters without tone, then a mark of the tone. -/
def marked (T : List Char) : Seq → Bool
  | [] => false
  | k :: ks => (k.all fun c => T.contains c && inWord.contains c) || (k.all plainRunes.contains && marked T ks)

/-- The same, or a vowel with the tone first. -/
def hasTone (T : List Char) : Seq → Bool
  | [] => false
  | k :: ks => k.all T.contains || (k.all plainRunes.contains && marked T ks)

/-- A syllable with tone after the consonants (toaq.peggy:427). -/
def afterInitial (des tn : Nat) : Expr Act :=
  .grp (.alt (.ref des) (.act .addTone (.seq (.lab (.ref 134)) (.lab (.ref tn)))))

theorem toned_seqs : ((toneSyls.drop 1).all fun t => match lang 90 (afterInitial t.2.1 t.2.2) with
  | some ls => ls.all (hasTone (toneSet t.1))
  | none => false) = true := by decide +kernel

theorem plain_seqs : (match lang 90 (.ref 134) with
  | some ls => ls.all fun s => s.all (·.all plainRunes.contains) && !s.isEmpty
  | none => false) = true := by decide +kernel

theorem sets_apart : ((toneSyls.drop 1).all fun t => (plainRunes.all fun c => !(toneSet t.1).contains c) &&
    (toneSyls.drop 1).all fun t' => t.1 == t'.1 || (toneSet t.1).all fun c => !(toneSet t'.1).contains c) = true := by
  decide +kernel

theorem plain_inWord : (plainRunes.all inWord.contains) = true := by decide +kernel

theorem hasTone_marked {T s} (h : marked T s = true) : hasTone T s = true := by
  cases s with
  | nil => cases h
  | cons k ks =>
    simp only [marked, hasTone, Bool.or_eq_true, List.all_eq_true, Bool.and_eq_true] at h ⊢
    rcases h with h | h
    · exact .inl fun c hc => (h c hc).1
    · exact .inr h

theorem apart {T T' : List Char} (h1 : ∀ c ∈ T, c ∉ T') (h2 : ∀ c ∈ plainRunes, c ∉ T) (h3 : ∀ c ∈ plainRunes, c ∉ T') :
    ∀ {s s' p q q'}, Fits I s p q → Fits I s' p q' → hasTone T s = true → hasTone T' s' = true → False := by
  intro s
  induction s with
  | nil => intro s' p q q' _ _ h; cases h
  | cons k ks ih =>
    intro s' p q q' hf hf' h h'
    cases hf with
    | @cons _ _ c w _ _ a1 a2 a3 a4 =>
    cases hf' with
    | nil => cases h'
    | @cons _ _ c' w' k' ks' b1 b2 b3 b4 =>
    rw [a2] at b2
    injection b2 with b2 b5
    subst b2 b5
    simp only [hasTone, Bool.or_eq_true, List.all_eq_true, Bool.and_eq_true, List.contains_iff_mem] at h h'
    rcases h with h | h
    · rcases h' with h' | h'
      · exact h1 c (h c a3) (h' c b3)
      · exact h2 c (h'.1 c b3) (h c a3)
    · rcases h' with h' | h'
      · exact h3 c (h.1 c a3) (h' c b3)
      · exact ih a4 b4 (hasTone_marked h.2) (hasTone_marked h'.2)

theorem marked_ends {T : List Char} : ∀ {s s' p q q'}, (∀ c ∈ plainRunes, c ∉ T) → Fits I s p q → Fits I s' p q' →
    (s.all (·.all plainRunes.contains)) = true → Ends I q → marked T s' = true → False := by
  intro s
  induction s with
  | nil =>
    intro s' p q q' hT hf hf' h he h'
    cases hf
    cases hf' with
    | nil => cases h'
    | @cons _ _ c' w' k' ks' b1 b2 b3 b4 =>
    refine he b1 ?_
    rw [b2]
    simp only [marked, Bool.or_eq_true, List.all_eq_true, Bool.and_eq_true, List.contains_iff_mem] at h'
    rcases h' with h' | h'
    · exact (h' c' b3).2
    · simpa using List.all_eq_true.1 plain_inWord c' (h'.1 c' b3)
  | cons k ks ih =>
    intro s' p q q' hT hf hf' h he h'
    cases hf with
    | @cons _ _ c w _ _ a1 a2 a3 a4 =>
    cases hf' with
    | nil => cases h'
    | @cons _ _ c' w' k' ks' b1 b2 b3 b4 =>
    rw [a2] at b2
    injection b2 with b2 b5
    subst b2 b5
    simp only [List.all_cons, Bool.and_eq_true] at h
    simp only [marked, Bool.or_eq_true, List.all_eq_true (l := k'), Bool.and_eq_true, List.contains_iff_mem] at h'
    rcases h' with h' | h'
    · exact hT c (by simpa using List.all_eq_true.1 h.1 c a3) (h' c b3).1
    · exact ih hT a4 b4 h.2 he h'.2

theorem hasTone_ends {T : List Char} {s s' p q q'} (hT : ∀ c ∈ plainRunes, c ∉ T) (hf : Fits I s p q) (hf' : Fits I s' p q')
    (h : (s.all (·.all plainRunes.contains)) = true) (h0 : s ≠ []) (he : Ends I q) (h' : hasTone T s' = true) : False := by
  cases hf with
  | nil => exact h0 rfl
  | @cons _ _ c w k ks a1 a2 a3 a4 =>
  cases hf' with
  | nil => cases h'
  | @cons _ _ c' w' k' ks' b1 b2 b3 b4 =>
  rw [a2] at b2
  injection b2 with b2 b5
  subst b2 b5
  simp only [List.all_cons, Bool.and_eq_true] at h
  simp only [hasTone, Bool.or_eq_true, List.all_eq_true (l := k'), Bool.and_eq_true, List.contains_iff_mem] at h'
  rcases h' with h' | h'
  · exact hT c (by simpa using List.all_eq_true.1 h.1 c a3) (h' c b3)
  · exact marked_ends hT a4 b4 h.2 he h'.2

theorem Gives.of_seq {a b p q x} (h : Gives U I A (.seq a b) p (.ok q x)) :
    ∃ m y z, Gives U I A a p (.ok m y) ∧ Gives U I A b m (.ok q z) ∧ x = A.seq y z := by
  obtain ⟨n, h⟩ := h
  cases n with
  | zero => rw [ev_0] at h; cases h
  | succ n =>
    obtain ⟨m, y, z, h1, h2, h3⟩ := ev_seq h
    exact ⟨m, y, z, ⟨n, h1⟩, ⟨n, h2⟩, h3⟩

theorem Gives.of_ref {r p q x} (h : Gives U I A (.ref r) p (.ok q x)) :
    ∃ y, Gives U I A (toaq.body r) p (.ok q y) ∧ x = A.rule r p q y := by
  obtain ⟨n, h⟩ := h
  cases n with
  | zero => rw [ev_0] at h; cases h
  | succ n =>
    obtain ⟨y, h1, h2⟩ := ev_ref h
    exact ⟨y, ⟨n, h1⟩, h2⟩

theorem tone_body {y : Nat} (hy : y ∈ tones) : ∃ t ∈ toneSyls.drop 1, toaq.body y = .ref t.1 ∧ t.1 = y + 168 ∧
    toaq.body t.1 = .seq (.ref 133) (.seq (afterInitial t.2.1 t.2.2) (.and (.ref 132))) := by
  simp only [tones, List.mem_cons, List.not_mem_nil, or_false] at hy
  rcases hy with rfl | rfl | rfl | rfl | rfl | rfl
  · exact ⟨(294, 136, 161), by decide, rfl, rfl, rfl⟩
  · exact ⟨(295, 137, 169), by decide, rfl, rfl, rfl⟩
  · exact ⟨(296, 138, 176), by decide, rfl, rfl, rfl⟩
  · exact ⟨(297, 139, 183), by decide, rfl, rfl, rfl⟩
  · exact ⟨(298, 140, 190), by decide, rfl, rfl, rfl⟩
  · exact ⟨(299, 141, 197), by decide, rfl, rfl, rfl⟩

/-- A syllable with tone: the consonants, and then a class for each rune. -/
theorem toned_reads {y p q x} (hy : y ∈ tones) (h : Gives U I A (.ref y) p (.ok q x)) :
    ∃ m z s, Gives U I A (.ref 133) p (.ok m z) ∧ Fits I s m q ∧ hasTone (toneSet (y + 168)) s = true := by
  obtain ⟨⟨r, des, tn⟩, ht, h1, h2, h3⟩ := tone_body hy
  obtain ⟨y1, g1, _⟩ := h.of_ref
  rw [h1] at g1
  obtain ⟨y2, g2, _⟩ := g1.of_ref
  rw [h3] at g2
  obtain ⟨m, z, z', g3, g4, _⟩ := g2.of_seq
  obtain ⟨m', u, u', ⟨n, g5⟩, ⟨n', g6⟩, _⟩ := g4.of_seq
  have hc := List.all_eq_true.1 toned_seqs _ ht
  simp only at hc h2
  split at hc
  · rename_i ls hl
    obtain ⟨s, hs, hf⟩ := lang_ok _ _ _ _ _ _ _ hl g5
    cases n' with
    | zero => rw [ev_0] at g6; cases g6
    | succ n' =>
    obtain ⟨rfl, _⟩ := ev_and g6
    exact ⟨m, z, s, g3, hf, h2 ▸ List.all_eq_true.1 hc s hs⟩
  · cases hc

/-- A syllable without tone: the same, and no tone mark follows. -/
theorem neutral_syl (hP : Plain U) {p q x} (h : Gives U I A (.ref 123) p (.ok q x)) :
    ∃ m z s, Gives U I A (.ref 133) p (.ok m z) ∧ Fits I s m q ∧ (s.all (·.all plainRunes.contains)) = true ∧ s ≠ [] ∧ Ends I q := by
  obtain ⟨y1, g1, _⟩ := h.of_ref
  have hb : toaq.body 123 = .seq (.ref 133) (.seq (.ref 134) (.and (.ref 132))) := rfl
  rw [hb] at g1
  obtain ⟨m, z, z', g3, g4, _⟩ := g1.of_seq
  obtain ⟨m', u, u', ⟨n, g5⟩, ⟨n', g6⟩, _⟩ := g4.of_seq
  have hc := plain_seqs
  split at hc
  · rename_i ls hl
    obtain ⟨s, hs, hf⟩ := lang_ok _ _ _ _ _ _ _ hl g5
    cases n' with
    | zero => rw [ev_0] at g6; cases g6
    | succ n' =>
    obtain ⟨rfl, _, r, w, g7⟩ := ev_and g6
    have := List.all_eq_true.1 hc s hs
    simp only [Bool.and_eq_true, Bool.not_eq_true', List.isEmpty_eq_false_iff] at this
    exact ⟨m, z, s, g3, hf, this.1, this.2, boundary_ends hP g7⟩
  · cases hc

theorem sets {y y' : Nat} (hy : y ∈ tones) (hy' : y' ∈ tones) : (∀ c ∈ plainRunes, c ∉ toneSet (y + 168)) ∧
    (y ≠ y' → ∀ c ∈ toneSet (y + 168), c ∉ toneSet (y' + 168)) := by
  obtain ⟨t, ht, _, h2, _⟩ := tone_body hy
  obtain ⟨t', ht', _, h2', _⟩ := tone_body hy'
  have h := List.all_eq_true.1 sets_apart t ht
  simp only [Bool.and_eq_true] at h
  constructor
  · intro c hc
    have := List.all_eq_true.1 h.1 c hc
    rw [← h2]
    simpa using this
  · intro hn c hc
    have := List.all_eq_true.1 h.2 t' ht'
    simp only [Bool.or_eq_true, beq_iff_eq] at this
    rcases this with this | this
    · omega
    · have := List.all_eq_true.1 this c (by rw [h2]; exact hc)
      rw [← h2']
      simpa using this

/-- At an offset there is a syllable with at most one tone. -/
theorem one_tone {y y' p q q' x x'} (hy : y ∈ tones) (hy' : y' ∈ tones) (h : Gives U I A (.ref y) p (.ok q x))
    (h' : Gives U I A (.ref y') p (.ok q' x')) : y = y' := by
  by_cases hn : y = y'
  · exact hn
  · exfalso
    obtain ⟨m, z, s, g1, g2, g3⟩ := toned_reads hy h
    obtain ⟨m', z', s', g1', g2', g3'⟩ := toned_reads hy' h'
    have := g1.det g1'
    injection this with hm _
    subst hm
    exact apart ((sets hy hy').2 hn) (sets hy hy').1 (sets hy' hy).1 g2 g2' g3 g3'

theorem no_tone (hP : Plain U) {y p q q' x x'} (hy : y ∈ tones) (h : Gives U I A (.ref y) p (.ok q x))
    (h' : Gives U I A (.ref 123) p (.ok q' x')) : False := by
  obtain ⟨m, z, s, g1, g2, g3⟩ := toned_reads hy h
  obtain ⟨m', z', s', g1', g2', g3', g4, g5⟩ := neutral_syl hP h'
  have := g1.det g1'
  injection this with hm _
  subst hm
  exact hasTone_ends (sets hy hy).1 g2' g2 g3' g4 g5 g3

/-- The other rules for syllables fail. -/
theorem others_fail {y y' p q x} (hp : p ≤ I.len) (hy : y ∈ tones) (hy' : y' ∈ tones) (hn : y ≠ y')
    (h : Gives U I A (.ref y) p (.ok q x)) : Gives U I A (.ref y') p .fail := by
  rcases rule_cases (U := U) (A := A) y' hp with ⟨q', h'⟩ | h'
  · exact absurd (one_tone hy hy' (to_unit h) h') hn
  · exact h'

theorem tones_fail (hP : Plain U) {y p q x} (hp : p ≤ I.len) (hy : y ∈ tones)
    (h : Gives U I A (.ref 123) p (.ok q x)) : Gives U I A (.ref y) p .fail := by
  rcases rule_cases (U := U) (A := A) y hp with ⟨q', h'⟩ | h'
  · exact (no_tone hP hy h' (to_unit h)).elim
  · exact h'

/-! ## Words -/

theorem g_ref_fail {r p} (h : Gives U I A (toaq.body r) p .fail) : Gives U I A (.ref r) p .fail := by
  obtain ⟨n, h⟩ := h
  have h1 := ev_acc (U := U) (G := toaq) (I := I) (A := A) n (toaq.body r) p 0
  rw [h] at h1
  obtain ⟨e, h1⟩ := h1
  exact ⟨n + 1, by rw [ev_s]; simp only [evStep, h1]⟩

theorem Gives.of_alt {a b p q x} (h : Gives U I A (.alt a b) p (.ok q x)) :
    Gives U I A a p (.ok q x) ∨ (Gives U I A a p .fail ∧ Gives U I A b p (.ok q x)) := by
  obtain ⟨n, h⟩ := h
  cases n with
  | zero => rw [ev_0] at h; cases h
  | succ n =>
    rw [ev_s] at h
    simp only [evStep] at h
    split at h
    · rename_i h1
      exact .inr ⟨⟨n, h1⟩, ⟨n, h⟩⟩
    · exact .inl ⟨n, h⟩

theorem Gives.of_seq_fail {a b p m x} (h : Gives U I A (.seq a b) p .fail) (ha : Gives U I A a p (.ok m x)) :
    Gives U I A b m .fail := by
  obtain ⟨n, h⟩ := h
  cases n with
  | zero => rw [ev_0] at h; cases h
  | succ n =>
    rw [ev_s] at h
    simp only [evStep] at h
    split at h
    · rename_i m' y hy
      have := ha.det ⟨n, hy⟩
      injection this with h1 h2
      subst h1
      split at h
      · cases h
      · exact ⟨n, h⟩
    · have := ha.det ⟨n, h⟩
      cases this

/-- toaq.peggy:372-378 `initial_syllable`: a syllable with any tone. -/
theorem initial_ok {y p q x} (hp : p ≤ I.len) (hy : y ∈ tones) (h : Gives U I A (.ref y) p (.ok q x)) :
    Gives U I A (.ref 83) p (.ok q (A.rule 83 p q x)) := by
  refine g_ref ?_
  have hb : toaq.body 83 = .alt (.ref 126) (.alt (.ref 127) (.alt (.ref 128) (.alt (.ref 129) (.alt (.ref 130) (.ref 131))))) := rfl
  rw [hb]
  have f := fun (y' : Nat) (h1 : y' ∈ tones) (h2 : y ≠ y') => others_fail (A := A) hp hy h1 h2 h
  simp only [tones, List.mem_cons, List.not_mem_nil, or_false] at hy
  rcases hy with rfl | rfl | rfl | rfl | rfl | rfl
  · exact g_alt h
  · exact g_alt2 (f 126 (by decide) (by decide)) (g_alt h)
  · exact g_alt2 (f 126 (by decide) (by decide)) (g_alt2 (f 127 (by decide) (by decide)) (g_alt h))
  · exact g_alt2 (f 126 (by decide) (by decide)) (g_alt2 (f 127 (by decide) (by decide))
      (g_alt2 (f 128 (by decide) (by decide)) (g_alt h)))
  · exact g_alt2 (f 126 (by decide) (by decide)) (g_alt2 (f 127 (by decide) (by decide))
      (g_alt2 (f 128 (by decide) (by decide)) (g_alt2 (f 129 (by decide) (by decide)) (g_alt h))))
  · exact g_alt2 (f 126 (by decide) (by decide)) (g_alt2 (f 127 (by decide) (by decide))
      (g_alt2 (f 128 (by decide) (by decide)) (g_alt2 (f 129 (by decide) (by decide))
      (g_alt2 (f 130 (by decide) (by decide)) h))))

theorem initial_fail (hP : Plain U) {p q x} (hp : p ≤ I.len) (h : Gives U I A (.ref 123) p (.ok q x)) :
    Gives U I A (.ref 83) p .fail := by
  refine g_ref_fail ?_
  have hb : toaq.body 83 = .alt (.ref 126) (.alt (.ref 127) (.alt (.ref 128) (.alt (.ref 129) (.alt (.ref 130) (.ref 131))))) := rfl
  rw [hb]
  have f := fun (y' : Nat) (h1 : y' ∈ tones) => tones_fail (A := A) hP hp h1 h
  exact g_alt2 (f 126 (by decide)) (g_alt2 (f 127 (by decide)) (g_alt2 (f 128 (by decide)) (g_alt2 (f 129 (by decide))
      (g_alt2 (f 130 (by decide)) (f 131 (by decide))))))

/-- toaq.peggy:366-367 `non_function_word` reads predicate words. -/
theorem nonFunction_ok {y p q v} (hp : p ≤ I.len) (hy : y ∈ tones) (h : Gives U I (actAlg I) (predWord y) p (.ok q v)) :
    Gives U I (actAlg I) (.ref 80) p (.ok q (v.1, [])) := by
  have hb : toaq.body 80 = .alt (.seq (.ref 83) (.plus (.ref 125))) (.seq (.not (.ref 101)) (.ref 83)) := rfl
  obtain ⟨n, h⟩ := h
  cases n with
  | zero => rw [ev_0] at h; cases h
  | succ n =>
  obtain ⟨v', h, rfl⟩ := ev_grp h
  rcases Gives.of_alt ⟨n, h⟩ with hl | ⟨hl, hr⟩
  · obtain ⟨m, a, c, h1, h2, rfl⟩ := hl.of_seq
    have := g_ref (r := 80) (hb ▸ g_alt (g_seq (initial_ok hp hy h1) h2))
    exact this
  · obtain ⟨m, a, c, h1, h2, rfl⟩ := hr.of_seq
    obtain ⟨n', h1⟩ := h1
    cases n' with
    | zero => rw [ev_0] at h1; cases h1
    | succ n' =>
    obtain ⟨rfl, rfl, h3⟩ := ev_not h1
    have h4 := g_seq_fail (initial_ok hp hy h2) (hl.of_seq_fail h2)
    have := g_ref (r := 80) (hb ▸ g_alt2 h4 (g_seq (g_not ⟨n', h3⟩) (initial_ok hp hy h2)))
    exact this

/-- An alternative of rules. -/
def alts : List Nat → Expr Act
  | [] => .not (.not (.term .any))
  | [r] => .ref r
  | r :: rs => .alt (.ref r) (alts rs)

theorem alts_ok {p} : ∀ l : List Nat, (∀ r ∈ l, Gives U I A (.ref r) p .fail ∨ ∃ q x, Gives U I A (.ref r) p (.ok q x)) →
    (∃ r ∈ l, ∃ q x, Gives U I A (.ref r) p (.ok q x)) → ∃ q x, Gives U I A (alts l) p (.ok q x)
  | [], _, h => by obtain ⟨r, h, _⟩ := h; cases h
  | [r], _, h => by
    obtain ⟨r', h, q, x, hx⟩ := h
    simp only [List.mem_cons, List.not_mem_nil, or_false] at h
    subst h
    exact ⟨q, x, hx⟩
  | r :: s :: l, hl, h => by
    rcases hl r (by simp) with h0 | ⟨q, x, h0⟩
    · have : ∃ r ∈ s :: l, ∃ q x, Gives U I A (.ref r) p (.ok q x) := by
        obtain ⟨r', h1, q, x, hx⟩ := h
        rcases List.mem_cons.1 h1 with rfl | h1
        · have := hx.det h0
          cases this
        · exact ⟨r', h1, q, x, hx⟩
      obtain ⟨q, x, hx⟩ := alts_ok (s :: l) (fun r' hr => hl r' (List.mem_cons_of_mem _ hr)) this
      exact ⟨q, x, g_alt2 h0 hx⟩
    · exact ⟨q, x, g_alt h0⟩

/-- The rules for classes of particles in `function_word`. -/
def classRules : List Nat :=
  [102, 103, 105, 106, 107, 108, 109, 110, 111, 112, 113, 114, 115, 116, 104, 117, 118, 119, 120, 121, 122]

theorem class_calm : ((73 :: classRules).all fun r => calm lowRule (toaq.body r)) = true := by decide +kernel

/-- These rules do not panic. -/
theorem calm_rule (hU : U.punct 'i' = false) {r p} (hr : calm lowRule (toaq.body r) = true) (hp : p ≤ I.len) :
    Gives U I (actAlg I) (.ref r) p .fail ∨ ∃ q x, Gives U I (actAlg I) (.ref r) p (.ok q x) := by
  have h := acc_total_ref (U := U) (G := toaq) (I := I) ranked r p 0 hp
  have h1 := ev_total (A := actAlg I) U toaq I h
  match h2 : ev U toaq I (actAlg I) (enough I.len rankBound depthBound) (.ref r) p with
  | none => exact absurd h2 h1
  | some .fail => exact .inl ⟨_, h2⟩
  | some (.ok q x) => exact .inr ⟨q, x, _, h2⟩
  | some (.panic er) =>
    exfalso
    match hn : enough I.len rankBound depthBound with
    | 0 => rw [hn, ev_0] at h2; cases h2
    | n + 1 =>
      rw [hn, ev_s] at h2
      simp only [evStep] at h2
      split at h2
      · cases h2
      · cases h2
      · split at h2
        · cases h2
        · have ht := typed r
          unfold checkRule at ht
          split at ht
          · rename_i hi
            exact low_quiet hU hi hr h2
          · cases ht

theorem function_ok (hU : U.punct 'i' = false) {r p q x} (hp : p ≤ I.len) (hr : r ∈ classRules)
    (h : Gives U I (actAlg I) (.ref r) p (.ok q x)) : ∃ q x, Gives U I (actAlg I) (.ref 101) p (.ok q x) := by
  have hb : toaq.body 101 = alts classRules := rfl
  obtain ⟨q, x, hx⟩ := alts_ok (A := actAlg I) classRules (fun r' hr' => calm_rule hU
    (List.all_eq_true.1 class_calm r' (List.mem_cons_of_mem _ hr')) hp) ⟨r, hr, q, x, h⟩
  exact ⟨_, _, g_ref (hb ▸ hx)⟩

/-- toaq.peggy:357-361 what `word` reads before the space. -/
def wordBody : Expr Act := .grp (.alt (.ref 80) (.alt (.ref 82) (.ref 81)))

theorem pred_word {y p q v} (hp : p ≤ I.len) (hy : y ∈ tones) (h : Gives U I (actAlg I) (predWord y) p (.ok q v)) :
    Gives U I (actAlg I) wordBody p (.ok q (v.1, [])) := g_grp (g_alt (nonFunction_ok hp hy h))

theorem part_word (hU : U.punct 'i' = false) (hP : Plain U) {r p q q' x v} (hp : p ≤ I.len) (hr : r ∈ classRules)
    (h : Gives U I (actAlg I) (.ref r) p (.ok q' x)) (h' : Gives U I (actAlg I) (.ref 123) p (.ok q v)) :
    Gives U I (actAlg I) wordBody p (.ok q (v.1, [])) := by
  obtain ⟨m, z, hf⟩ := function_ok hU hp hr h
  have h83 := initial_fail hP hp h'
  have b80 : toaq.body 80 = .alt (.seq (.ref 83) (.plus (.ref 125))) (.seq (.not (.ref 101)) (.ref 83)) := rfl
  have h80 : Gives U I (actAlg I) (.ref 80) p .fail := g_ref_fail (b80 ▸ g_alt2 (g_seq_fail1 h83) (g_seq_fail1 (g_not_fail hf)))
  have b82 : toaq.body 82 = .seq (.not (.ref 123)) (.grp (.alt (.ref 114) (.alt (.ref 115) (.alt (.ref 116) (.ref 118))))) := rfl
  have h82 : Gives U I (actAlg I) (.ref 82) p .fail := g_ref_fail (b82 ▸ g_seq_fail1 (g_not_fail h'))
  have b81 : toaq.body 81 = .seq (.not (.ref 82)) (.seq (.and (.ref 101)) (.ref 123)) := rfl
  have h81 := g_ref (r := 81) (b81 ▸ g_seq (g_not h82) (g_seq (g_and hf) h'))
  exact g_grp (g_alt2 h80 (g_alt2 h82 h81))

/-- toaq.peggy:357-361 `word`: the word, and the space after it. -/
theorem word_ok (hU : U.punct 'i' = false) {p q t l} (hp : p ≤ I.len) (h : Gives U I (actAlg I) wordBody p (.ok q (.str t, l))) :
    ∃ e o, q ≤ e ∧ Gives U I (actAlg I) (.ref rWord) p (.ok e (.word (.mk t p e o), [])) ∧
      (e = q ∧ Gives U I (actAlg I) (.ref 73) q .fail ∨ ∃ x, Gives U I (actAlg I) (.ref 73) q (.ok e x)) := by
  have hb : toaq.body rWord = .act .wordMod (.seq (.lab wordBody) (.lab (.opt (.ref 73)))) := rfl
  obtain ⟨n, hn⟩ := h
  have hq := (Places.ev_span hp hn).2.1
  have hs : ∃ e v s, q ≤ e ∧ Gives U I (actAlg I) (.opt (.ref 73)) q (.ok e (v, [])) ∧ v.asNode? = some s ∧
      (e = q ∧ Gives U I (actAlg I) (.ref 73) q .fail ∨ ∃ x, Gives U I (actAlg I) (.ref 73) q (.ok e x)) := by
    rcases calm_rule hU (List.all_eq_true.1 class_calm 73 (by simp)) hq with ⟨m, h1⟩ | ⟨e, x, m, h1⟩
    · exact ⟨q, .nil, none, Nat.le_refl _, ⟨m + 1, by rw [ev_s]; simp only [evStep, h1]; rfl⟩, rfl, .inl ⟨rfl, m, h1⟩⟩
    · have he := (Places.ev_span hq h1).1
      obtain ⟨y, g1, rfl⟩ := Gives.of_ref ⟨m, h1⟩
      have b73 : toaq.body 73 = .act (.wordNode .space) (.lab (.plus (.ref 221))) := rfl
      rw [b73] at g1
      obtain ⟨m', g1⟩ := g1
      cases m' with
      | zero => rw [ev_0] at g1; cases g1
      | succ m' =>
      obtain ⟨z, g2, g3⟩ := ev_act g1
      cases m' with
      | zero => rw [ev_0] at g2; cases g2
      | succ m' =>
      obtain ⟨z', g4, rfl⟩ := ev_lab g2
      simp only [actAlg, runAct] at g3
      split at g3
      · rename_i v hv
        split at hv
        · injection hv with hv
          subst hv
          injection g3 with g3
          subst g3
          exact ⟨e, _, _, he, ⟨m + 1, by rw [ev_s]; simp only [evStep, h1]; rfl⟩, rfl, .inr ⟨_, m, h1⟩⟩
        · cases hv
      · cases g3
  obtain ⟨e, v, s, he, hv, hv', hd⟩ := hs
  obtain ⟨m, h1⟩ := g_seq (g_lab ⟨n, hn⟩) (g_lab hv)
  have h2 : Gives U I (actAlg I) (toaq.body rWord) p (.ok e (.word (modWOpt s (.mk t p e none)), [])) := by
    rw [hb]
    refine ⟨m + 1, ?_⟩
    rw [ev_s]
    simp only [evStep, h1]
    simp only [actAlg, List.cons_append, List.nil_append, runAct, Val.asStr, hv']
  refine ⟨e, (match s with | none => none | some s => modO s none), he, ?_, hd⟩
  have h3 := g_ref h2
  cases s with
  | none => exact h3
  | some s => exact h3

/-- The question marks after moq. -/
theorem question {p q x} (h : Gives U I A (.ref 223) p (.ok q x)) : p < I.len ∧ (I.next p).1 = '?' := by
  obtain ⟨y, ⟨n, hy⟩, _⟩ := h.of_ref
  have hb : toaq.body 223 = r223 := rfl
  rw [hb, r223] at hy
  cases n with
  | zero => rw [ev_0] at hy; cases hy
  | succ n =>
  obtain ⟨y, hy, _⟩ := ev_act hy
  cases n with
  | zero => rw [ev_0] at hy; cases hy
  | succ n =>
  obtain ⟨y, hy, _⟩ := ev_lab hy
  cases n with
  | zero => rw [ev_0] at hy; cases hy
  | succ n =>
  obtain ⟨y, hy, _⟩ := ev_grp hy
  cases n with
  | zero => rw [ev_0] at hy; cases hy
  | succ n =>
  obtain ⟨m, y, hy⟩ := ev_plus hy
  cases n with
  | zero => rw [ev_0] at hy; cases hy
  | succ n =>
  obtain ⟨ht, _⟩ := ev_term hy
  obtain ⟨c, w', h3, h4, h5, h6⟩ := tm_cls (.inr ⟨_, rfl, rfl⟩) ht
  exact ⟨h3, by rw [h4]; simpa using h5⟩

/-- A syllable of moq is a neutral syllable if no question mark follows. -/
theorem moq_neutral {p q v} (h : Gives U I (actAlg I) (.ref 124) p (.ok q v)) (hq : (I.next q).1 ≠ '?') :
    Gives U I (actAlg I) (.ref 123) p (.ok q v) := by
  obtain ⟨y1, g1, rfl⟩ := h.of_ref
  have hb : toaq.body 124 = .seq (.ref 133) (.seq (.ref 134) (.and (.grp (.alt (.seq (.ref 223) (.ref 132)) (.ref 132))))) := rfl
  rw [hb] at g1
  obtain ⟨m, z, z', g3, g4, rfl⟩ := g1.of_seq
  obtain ⟨m', u, u', g5, ⟨n', g6⟩, rfl⟩ := g4.of_seq
  cases n' with
  | zero => rw [ev_0] at g6; cases g6
  | succ n' =>
  obtain ⟨rfl, rfl, r, w, g7⟩ := ev_and g6
  cases n' with
  | zero => rw [ev_0] at g7; cases g7
  | succ n' =>
  obtain ⟨w', g7, _⟩ := ev_grp g7
  have hb' : toaq.body 123 = .seq (.ref 133) (.seq (.ref 134) (.and (.ref 132))) := rfl
  rcases Gives.of_alt ⟨n', g7⟩ with g8 | ⟨_, g8⟩
  · obtain ⟨_, _, _, g9, _⟩ := g8.of_seq
    exact absurd (question g9).2 hq
  · exact g_ref (r := 123) (hb' ▸ g_seq g3 (g_seq g5 (g_and g8)))

/-- Spec: the words that `Word` may read differently: the particles that carry the tone of a predicate, and moq with a
question mark after it. -/
def Special (I : Input) (w : Tok) : Prop :=
  Class.lu.Has w.t ∨ Class.mi.Has w.t ∨ Class.po.Has w.t ∨ Class.mo.Has w.t ∨
    (Plainly w.t "moq".toList ∧ (I.next w.e).1 = '?')

theorem toned_class {k : Class} {w : Tok} (hk : k.hasTone = true) (h : k.Has w.t) : Special I w := by
  cases k <;> simp [Class.hasTone] at hk
  · exact .inr (.inr (.inr (.inl h)))
  · exact .inl h
  · exact .inr (.inl h)
  · exact .inr (.inr (.inl h))

theorem pairs_moq : (pairs.all fun t => t.2.1 != 124 || t.2.2 == moqWords) = true := by decide +kernel

theorem class_rule {x k} (h : Classes.classOf x = some k) : x ∈ classRules := by
  unfold Classes.classOf at h
  split at h <;> first | (cases h; done) | decide

theorem src_word (hU : U.punct 'i' = false) (hP : Plain U) {a : Tok} (h : Src U I false a) (hs : ¬ Special I a) :
    a.s ≤ I.len ∧ ∃ l, Gives U I (actAlg I) wordBody a.s (.ok a.e (.str a.t, l)) := by
  cases h with
  | pred hp hy h => exact ⟨hp, [], pred_word hp hy ⟨_, h⟩⟩
  | @part n x y t s e l r u hp hc hx hy =>
    refine ⟨hp, [], ?_⟩
    obtain ⟨k, hk⟩ := Option.isSome_iff_exists.1 hc
    obtain ⟨t', ht, hh⟩ := Classes.wordClass_ok hU hP hk hx hy
    injection ht with ht
    subst ht
    unfold Classes.wordClass at hk
    split at hk
    · rename_i k' hk'
      split at hk
      · rename_i hcc
        injection hk with hk
        subst hk
        cases hT : k'.hasTone with
        | true => exact absurd (toned_class (w := ⟨t, s, e⟩) hT hh) hs
        | false =>
          simp only [Bool.and_eq_true, List.any_eq_true, beq_iff_eq, Classes.sylls, hT, Bool.false_eq_true, if_false] at hcc
          obtain ⟨hcc, ⟨x', y', ws⟩, hm, ⟨rfl, rfl⟩, _⟩ := hcc
          have hy' : y' = 123 ∨ y' = 124 := by simpa using hcc
          rcases hy' with rfl | rfl
          · exact part_word hU hP hp (class_rule hk') ⟨_, hx⟩ ⟨_, hy⟩
          · have hw := List.all_eq_true.1 pairs_moq _ hm
            simp only [bne_self_eq_false, Bool.false_or, beq_iff_eq] at hw
            subst hw
            obtain ⟨cs, h1, h2⟩ := pair_ok hP (List.all_eq_true.1 pairs_ok _ hm) (by simp) hx hy
            obtain ⟨t', h4, h5⟩ := WordVal.neutral_text hU (by simp) hy h1
            injection h4 with h4
            subst h4
            simp only [moqWords, List.mem_cons, List.not_mem_nil, or_false] at h2
            rw [h2] at h5
            by_cases hq : (I.next e).1 = '?'
            · exact absurd (.inr (.inr (.inr (.inr ⟨h5, hq⟩)))) hs
            · exact part_word hU hP hp (class_rule hk') ⟨_, hx⟩ (moq_neutral ⟨_, hy⟩ hq)
      · cases hk
    · cases hk

end Verif.Parse.Prov

namespace Verif.Parse
open Verif.AST Verif.AST.Spec Verif.Peg Verif.Parse.Prov
open Verif.Tone (Str)

/-- What `Word` returns at the offset of a word of a parsed text: the word, and the space that the rule for spaces reads
after it. -/
theorem at_word_call {U : Uni} {b : Bytes} (hU : U.Ok) (hP : Plain U) {w : Tok} (h1 : Src U (.ofBytes b) false w)
    (hs : ¬ Special (.ofBytes b) w) {cs' : List Call} {i : Nat} (hi : cs'[i]? = some (.word w.s)) :
    ∃ e o, (calls U b cs' newParser)[i]? = some (.word (.mk w.t w.s e o) (e - w.s)) ∧ w.s ≤ w.e ∧ w.e ≤ e ∧ w.e ≤ b.length ∧
      (e = w.e ∧ Gives U (.ofBytes b) (actAlg (.ofBytes b)) (.ref 73) w.e .fail ∨
        ∃ x, Gives U (.ofBytes b) (actAlg (.ofBytes b)) (.ref 73) w.e (.ok e x)) := by
  obtain ⟨hp, l', h2⟩ := src_word (punct_i hU) hP h1 hs
  obtain ⟨e, o, he, h3, hd⟩ := word_ok (punct_i hU) hp h2
  have hr := h2
  obtain ⟨n', hr⟩ := hr
  have hr := Places.ev_span hp hr
  refine ⟨e, o, ?_, hr.1, he, hr.2.1, hd⟩
  have hp' : w.s ≤ b.length := hp
  have ha := acc_total_ref (U := U) (G := toaq) (I := .ofBytes b) ranked rWord w.s 0 hp
  have hv := ev_total (A := actAlg (.ofBytes b)) U toaq (.ofBytes b) ha
  have hf : fuel b = enough (Input.ofBytes b).len rankBound depthBound := rfl
  rw [C20_memo_transparent, List.getElem?_map, hi]
  simp only [Option.map_some, Option.some.injEq, fresh, Int.natCast_nonneg, true_and, Int.ofNat_le, hp', if_true, Int.toNat_natCast]
  rw [hf]
  match h4 : ev U toaq (.ofBytes b) (actAlg (.ofBytes b)) (enough (Input.ofBytes b).len rankBound depthBound) (.ref rWord) w.s with
  | none => exact absurd h4 hv
  | some r =>
    have h5 := Gives.det ⟨_, h4⟩ h3
    subst h5
    have h6 := ev_acc (U := U) (G := toaq) (I := .ofBytes b) (A := actAlg (.ofBytes b)) (enough (Input.ofBytes b).len rankBound depthBound)
      (.ref rWord) w.s 0
    rw [h4] at h6
    obtain ⟨er, h6⟩ := h6
    simp only [h6]

/-- C71, but for the particles that carry the tone of a predicate, and moq with a question mark. `Word` at the offset of a word of a parsed text
returns a word with the same text and start; it ends there or, with the space attached to it, later. This is so after any
other calls. -/
theorem C71_word_at_partial {U : Uni} {b : Bytes} (hU : U.Ok) (hP : Plain U) (cs : List Call) (n : Node)
    (h : Out.text n ∈ calls U b cs newParser) (w : Tok) (hw : w ∈ toks false n) (hs : ¬ Special (.ofBytes b) w)
    (cs' : List Call) (i : Nat) (hi : cs'[i]? = some (.word w.s)) :
    ∃ e o k, (calls U b cs' newParser)[i]? = some (.word (.mk w.t w.s e o) k) ∧ w.e ≤ e := by
  obtain ⟨q, l, hx⟩ := text_call h
  have h1 := (ev_src _ _ _ _ _ (Nat.zero_le _) (by rfl) hx w).1 hw
  obtain ⟨e, o, h2, _, h3, _⟩ := at_word_call hU hP h1 hs hi
  exact ⟨e, o, _, h2, h3⟩

/-- The words of a syntax tree, or the word that `Word` returns. -/
def outToks : Out → List (String × Nat × Nat)
  | .text n => (toks false n).map fun w => (String.ofList w.t, w.s, w.e)
  | .word (.mk t s e _) _ => [(String.ofList t, s, e)]
  | _ => []

/-- A predicate in a parenthetical, a word with several syllables, a particle and moq. -/
example : (run "Mai? suq/ kio Sha?mu- ki moq" [.text, .word 14, .word 10, .word 25]).map outToks =
    [[("Mảı", 0, 4), ("súq", 5, 9), ("kıo", 10, 13), ("Shảmū", 14, 21), ("kı", 22, 24), ("moq", 25, 28)],
     [("Shảmū", 14, 22)], [("kıo", 10, 14)], [("moq", 25, 28)]] := by
  decide +kernel

/-- C71 does not hold for the particles that it leaves out: `Word` returns tío and jẻı without the tone if its mark
is at the end of the word, and nothing at all for moq with a question mark. -/
theorem C71_fails : (run "Fa? tio/ gi?" [.text, .word 4]).map outToks =
      [[("Fả", 0, 3), ("tío", 4, 8), ("gỉ", 9, 12)], [("tıo", 4, 7)]] ∧
    (run "Jei? ji/" [.text, .word 0]).map outToks = [[("Jẻı", 0, 4), ("jí", 5, 8)], [("Jeı", 0, 3)]] ∧
    (run "Gi? ji/ moq?" [.text, .word 8]).map Out.kind = [.text, .err] ∧
    (run "Gi? ji/ moq?" [.text, .word 8]).map outToks = [[("Gỉ", 0, 3), ("jí", 4, 7), ("moq", 8, 11)], []] := by
  decide +kernel

end Verif.Parse
