/-
C62: how tones are written does not change what a text means.
-/
import Verif.Logic.SpellText
import Verif.Parse.NoteTop

namespace Verif.Logic
open Verif.Tone (Str)
open Verif.AST Verif.AST.Spec
open Verif.Parse
open Verif.Peg (utf8 Input)

variable {U : Uni} {is : List Parse.Item} {ws ws' : List Str}

/-! ### Offsets do not change the meaning -/

mutual
theorem reQ_id (φ : Nat → Nat) : ∀ n : AST.Node, reQ id φ n = respell id φ n
  | .text l d => by simp only [reQ, respell, reO_id φ l, reL_id φ d]
  | .discourse d => by simp only [reQ, respell, reL_id φ d]
  | .sentence je st da => by simp only [reQ, respell, reWO_id φ je, reQ_id φ st, reWO_id φ da]
  | .cop k to0 to1 ru l r => by
    simp only [reQ, respell, reWO_id φ to0, reWO_id φ to1, reW_id φ ru, reQ_id φ l, reQ_id φ r]
  | .prenex ts bi => by simp only [reQ, respell, reL_id φ ts, reW_id φ bi]
  | .prenexStmt ts bi st => by simp only [reQ, respell, reL_id φ ts, reW_id φ bi, reQ_id φ st]
  | .predication k p ts na => by simp only [reQ, respell, reQ_id φ p, reTO_id φ ts, reWO_id φ na]
  | .prefixed mu p => by simp only [reQ, respell, reW_id φ mu, reQ_id φ p]
  | .serial l r => by simp only [reQ, respell, reQ_id φ l, reQ_id φ r]
  | .word k w => by simp only [reQ, respell, reW_id φ w]
  | .mi m ga ph => by simp only [reQ, respell, reW_id φ m, reWO_id φ ga]
  | .po m ga a => by simp only [reQ, respell, reW_id φ m, reWO_id φ ga, reQ_id φ a]
  | .mo m teo d => by simp only [reQ, respell, reW_id φ m, reW_id φ teo]
  | .lu k l st => by simp only [reQ, respell, reW_id φ l, reQ_id φ st]
  | .linked go a => by simp only [reQ, respell, reW_id φ go, reQ_id φ a]
  | .terms ts => by simp only [reQ, respell, reL_id φ ts]
  | .predArg i focus quant p rel => by
    simp only [reQ, respell, reWO_id φ focus, reWO_id φ quant, reQ_id φ p, reO_id φ rel]
  | .predAdverb p => by simp only [reQ, respell, reQ_id φ p]
  | .prep p a => by simp only [reQ, respell, reQ_id φ p, reQ_id φ a]
  | .paren kio ki d => by simp only [reQ, respell, reW_id φ kio, reW_id φ ki, reL_id φ d]
  | .incidental ju st => by simp only [reQ, respell, reW_id φ ju, reQ_id φ st]
  | .vocative hu a => by simp only [reQ, respell, reW_id φ hu, reQ_id φ a]
theorem reW_id (φ : Nat → Nat) : ∀ w : Word, reW id φ w = respellW id φ w
  | .mk t s e m => by simp only [reW, respellW, reO_id φ m]
theorem reO_id (φ : Nat → Nat) : ∀ o : Option AST.Node, reO id φ o = respellO id φ o
  | none => rfl
  | some n => by simp only [reO, respellO, reQ_id φ n]
theorem reWO_id (φ : Nat → Nat) : ∀ o : Option Word, reWO id φ o = respellWO id φ o
  | none => rfl
  | some w => by simp only [reWO, respellWO, reW_id φ w]
theorem reTO_id (φ : Nat → Nat) : ∀ o : Option (List AST.Node), reTO id φ o = respellTO id φ o
  | none => rfl
  | some l => by simp only [reTO, respellTO, reL_id φ l]
theorem reL_id (φ : Nat → Nat) : ∀ l : List AST.Node, reL id φ l = respellL id φ l
  | [] => rfl
  | n :: l => by simp only [reL, respellL, reQ_id φ n, reL_id φ l]
end

section
variable {f : Str → Str} {φ : Nat → Nat}

mutual
theorem respell_fix : ∀ (n : AST.Node), wsIn n = true → (∀ t ∈ words n, f t.t = t.t) →
    respell f φ n = respell id φ n
  | .text l d, hw, hg => by
    simp only [wsIn, words, Bool.and_eq_true, List.mem_append] at hw hg
    rw [respell, respell, respellO_fix l _ hw.1 (by grind), respellL_fix d _ hw.2 (by grind)]
  | .discourse d, hw, _ => by simp [wsIn] at hw
  | .sentence je st da, hw, hg => by
    simp only [wsIn, words, Bool.and_eq_true, List.mem_append] at hw hg
    rw [respell, respell, respellWO_fix je hw.1.1 (by grind), respell_fix st hw.1.2.2 (by grind),
      respellWO_fix da hw.2 (by grind)]
  | .cop k to0 to1 ru l r, hw, hg => by
    simp only [wsIn, Bool.and_eq_true, beq_iff_eq] at hw
    have hm := fun t h => hg t ((mem_cop hw.1.1.1.1.1 t).2 h)
    rw [respell, respell, respellWO_fix to0 hw.1.1.1.1.2 (by grind), respellWO_fix to1 hw.1.1.1.2 (by grind),
      respellW_fix ru hw.1.1.2 (by grind), respell_fix l hw.1.2.2 (by grind), respell_fix r hw.2.2 (by grind)]
  | .prenex ts bi, hw, hg => by
    simp only [wsIn, words, Bool.and_eq_true, List.mem_append] at hw hg
    rw [respell, respell, respellL_fix ts _ hw.1.2 (by grind), respellW_fix bi hw.2 (by grind)]
  | .prenexStmt ts bi st, hw, hg => by
    simp only [wsIn, words, Bool.and_eq_true, List.mem_append] at hw hg
    rw [respell, respell, respellL_fix ts _ hw.1.1.2 (by grind), respellW_fix bi hw.1.2 (by grind),
      respell_fix st hw.2.2 (by grind)]
  | .predication k p ts na, hw, hg => by
    simp only [wsIn, words, Bool.and_eq_true, List.mem_append] at hw hg
    rw [respell, respell, respell_fix p hw.1.1.2 (by grind), respellTO_fix ts hw.1.2 (by grind),
      respellWO_fix na hw.2 (by grind)]
  | .prefixed mu p, hw, _ => by simp [wsIn] at hw
  | .serial l r, hw, hg => by
    simp only [wsIn, words, Bool.and_eq_true, List.mem_append] at hw hg
    rw [respell, respell, respell_fix l hw.1.2 (by grind), respell_fix r hw.2.2 (by grind)]
  | .word k w, hw, hg => by
    simp only [wsIn, words, Bool.and_eq_true] at hw hg
    rw [respell, respell, respellW_fix w hw.2 hg]
  | .mi m ga ph, hw, hg => by
    simp only [wsIn, words, Bool.and_eq_true, List.mem_append] at hw hg
    rw [respell, respell, respellW_fix m hw.1.1 (by grind), respellWO_fix ga hw.1.2 (by grind),
      respell_fix ph hw.2.2 (by grind)]
  | .po m ga a, hw, hg => by
    simp only [wsIn, words, Bool.and_eq_true, List.mem_append] at hw hg
    rw [respell, respell, respellW_fix m hw.1.1 (by grind), respellWO_fix ga hw.1.2 (by grind),
      respell_fix a hw.2.2 (by grind)]
  | .mo m teo d, hw, hg => by
    simp only [wsIn, words, Bool.and_eq_true, List.mem_append] at hw hg
    rw [respell, respell, respellW_fix m hw.1.1 (by grind), respellW_fix teo hw.1.2 (by grind),
      respellL_fix d _ hw.2.2 (by grind)]
  | .lu k l st, hw, hg => by
    simp only [wsIn, words, Bool.and_eq_true, List.mem_append] at hw hg
    rw [respell, respell, respellW_fix l hw.1.2 (by grind), respell_fix st hw.2.2 (by grind)]
  | .linked go a, hw, hg => by
    simp only [wsIn, words, Bool.and_eq_true, List.mem_append] at hw hg
    rw [respell, respell, respellW_fix go hw.1 (by grind), respell_fix a hw.2.2 (by grind)]
  | .terms ts, hw, hg => by
    simp only [wsIn, words, Bool.and_eq_true] at hw hg
    rw [respell, respell, respellL_fix ts _ hw.2 hg]
  | .predArg id focus quant p rel, hw, hg => by
    simp only [wsIn, words, Bool.and_eq_true, List.mem_append] at hw hg
    rw [respell, respell, respellWO_fix focus hw.1.1.1 (by grind), respellWO_fix quant hw.1.1.2 (by grind),
      respell_fix p hw.1.2.2 (by grind), respellO_fix rel _ hw.2 (by grind)]
  | .predAdverb p, hw, hg => by
    simp only [wsIn, words, Bool.and_eq_true] at hw hg
    rw [respell, respell, respell_fix p hw.2 hg]
  | .prep p a, hw, hg => by
    simp only [wsIn, words, Bool.and_eq_true, List.mem_append] at hw hg
    rw [respell, respell, respell_fix p hw.1.2 (by grind), respell_fix a hw.2.2 (by grind)]
  | .paren kio ki d, hw, hg => by
    simp only [wsIn, words, Bool.and_eq_true, List.mem_append] at hw hg
    rw [respell, respell, respellW_fix kio hw.1.1 (by grind), respellW_fix ki hw.1.2 (by grind),
      respellL_fix d _ hw.2.2 (by grind)]
  | .incidental ju st, hw, hg => by
    simp only [wsIn, words, Bool.and_eq_true, List.mem_append] at hw hg
    rw [respell, respell, respellW_fix ju hw.1 (by grind), respell_fix st hw.2.2 (by grind)]
  | .vocative hu a, hw, hg => by
    simp only [wsIn, words, Bool.and_eq_true, List.mem_append] at hw hg
    rw [respell, respell, respellW_fix hu hw.1 (by grind), respell_fix a hw.2.2 (by grind)]
theorem respellW_fix : ∀ (w : Word), wsW w = true → (∀ t ∈ wordsW w, f t.t = t.t) →
    respellW f φ w = respellW id φ w
  | .mk t s e m, hw, hg => by
    simp only [wsW, wordsW, List.mem_cons] at hw hg
    have := hg ⟨t, s, e⟩ (.inl rfl)
    rw [respellW, respellW, respellO_fix m _ hw (by grind)]
    simp only at this
    rw [this]
    rfl
theorem respellO_fix : ∀ (o : Option AST.Node) (k : Srt), wsO k o = true →
    (∀ t ∈ wordsO o, f t.t = t.t) → respellO f φ o = respellO id φ o
  | none, _, _, _ => rfl
  | some n, _, hw, hg => by
    simp only [wsO, wordsO, Bool.and_eq_true] at hw hg
    rw [respellO, respellO, respell_fix n hw.2 hg]
theorem respellWO_fix : ∀ (o : Option Word), wsWO o = true →
    (∀ t ∈ wordsWO o, f t.t = t.t) → respellWO f φ o = respellWO id φ o
  | none, _, _ => rfl
  | some w, hw, hg => by rw [respellWO, respellWO, respellW_fix w hw hg]
theorem respellTO_fix : ∀ (o : Option (List AST.Node)), wsTO o = true →
    (∀ t ∈ wordsTO o, f t.t = t.t) → respellTO f φ o = respellTO id φ o
  | none, _, _ => rfl
  | some l, hw, hg => by
    simp only [wsTO, wordsTO, Bool.and_eq_true] at hw hg
    rw [respellTO, respellTO, respellL_fix l _ hw.2 hg]
theorem respellL_fix : ∀ (l : List AST.Node) (k : Srt), wsL k l = true →
    (∀ t ∈ wordsL l, f t.t = t.t) → respellL f φ l = respellL id φ l
  | [], _, _, _ => rfl
  | n :: l, k, hw, hg => by
    simp only [wsL, wordsL, Bool.and_eq_true, List.mem_append] at hw hg
    rw [respellL, respellL, respell_fix n hw.1.2 (by grind), respellL_fix l k hw.2 (by grind)]
end
end

theorem offsets_re {φ : Nat → Nat} (hi : ∀ p q, φ p = φ q → p = q) (h0 : φ 0 = 0) (d : List AST.Node) (k : Nat) :
    interpret U k (respellL id φ d) = interpret U k d := by
  have H : Re U id φ := ⟨fun _ => ⟨fun _ => rfl, rfl, rfl, rfl⟩, rfl, hi, h0⟩
  have := discourse_re H (fns_re H k) d
  rw [reL_id] at this
  unfold interpret
  rw [this]

/-! ### Words of texts in small letters -/

theorem spans_off (s : Str) {p q : Nat} {rs : Str} (h : Spans (.ofBytes (utf8 s)) p q rs) : ∀ k, k ≤ s.length → p = off s k →
    (∃ l, l ≤ s.length ∧ q = off s l) ∧ ∀ c ∈ rs, c ∈ s := by
  induction h with
  | nil p => intro k hk hp; exact ⟨⟨k, hk, hp⟩, nofun⟩
  | @cons p q c w cs hlt hn _ ih =>
    rintro k hk rfl
    have hk' : k < s.length := by
      refine Nat.lt_of_le_of_ne hk fun e => ?_
      subst e
      have h1 : off s s.length < (utf8 s).length := hlt
      rw [off_length] at h1
      omega
    have h1 := rune_off s k hk'
    unfold Input.rune at h1
    rw [if_pos hlt, hn] at h1
    simp only [Option.some.injEq, Prod.mk.injEq] at h1
    obtain ⟨h2, h3⟩ := ih (k + 1) hk' (by rw [h1.2, ← off_succ s k hk'])
    refine ⟨h2, fun x hx => ?_⟩
    rcases List.mem_cons.1 hx with rfl | hx
    · rw [h1.1]; exact List.getElem_mem ..
    · exact h3 x hx

theorem tiles_off (s : Str) : ∀ (l : List Tok) (p q k : Nat), Tiles p q l → k ≤ s.length → p = off s k →
    (∀ t ∈ l, ∃ rs, Spans (.ofBytes (utf8 s)) t.s t.e rs ∧ Renders t.t rs) →
    ∀ t ∈ l, ∃ rs, Renders t.t rs ∧ ∀ c ∈ rs, c ∈ s
  | [], _, _, _, _, _, _, _ => nofun
  | t :: l, p, q, k, ht, hk, hp, hs => by
    obtain ⟨h1, _, h2⟩ := ht
    obtain ⟨rs, h3, h4⟩ := hs t (List.mem_cons_self ..)
    obtain ⟨⟨j, hj, hq⟩, h5⟩ := spans_off s h3 k hk (h1.trans hp)
    intro x hx
    rcases List.mem_cons.1 hx with rfl | hx
    · exact ⟨rs, h4, h5⟩
    · exact tiles_off s l _ _ j h2 hj hq (fun t ht => hs t (List.mem_cons_of_mem _ ht)) x hx

/-- A text in small letters, without letters with the breve. -/
def Small (s : Str) : Prop := ∀ c ∈ s, c ≠ 'i' → foldBy spellPairs c = c

theorem toned_small : ∀ t ∈ tones, ∀ p ∈ plainVowels.zip t.1, foldBy spellPairs p.1 = p.1 → foldBy spellPairs p.2 = p.2 := by
  decide +kernel

theorem renders_small {t rs : Str} (h : Renders t rs) : (∀ c ∈ rs, c ≠ 'i' → foldBy spellPairs c = c) → ∀ c ∈ t, foldBy spellPairs c = c := by
  induction h with
  | nil => intro _; nofun
  | char c hc => intro hs x hx; exact hs x hx (by simp only [List.mem_singleton] at hx; exact hx ▸ hc)
  | dotless => intro _ x hx; simp only [List.mem_singleton] at hx; subst hx; decide +kernel
  | append _ _ h1 h2 =>
    intro hs x hx
    rcases List.mem_append.1 hx with hx | hx
    · exact h1 (fun c hc => hs c (List.mem_append_left _ hc)) x hx
    · exact h2 (fun c hc => hs c (List.mem_append_right _ hc)) x hx
  | @tone l s cs m d _ ht ih =>
    intro hs x hx
    have ih := ih fun c hc => hs c (List.mem_append_left _ hc)
    rcases List.mem_cons.1 hx with rfl | hx
    · obtain ⟨t, h1, _, h2⟩ := ht
      exact toned_small t h1 _ h2 (ih l (List.mem_cons_self ..))
    · exact ih x (List.mem_cons_of_mem _ hx)

theorem words_small {s : Str} (hU : U.Ok) (hs : Small s) {cs : List Call} {n : AST.Node}
    (h : Out.text n ∈ calls U (utf8 s) cs newParser) : ∀ t ∈ words n, t.t.map (foldBy spellPairs) = t.t := by
  intro t ht
  obtain ⟨q, _, L, hp, hl⟩ := C17_whole_text hU cs n h
  obtain ⟨rs, h1, h2⟩ := tiles_off s L 0 q 0 hl (Nat.zero_le _) rfl
    (fun t ht => by
      obtain ⟨_, rs, h1, h2, _⟩ := C23_normalised hU cs n h t (hp.mem_iff.1 ht)
      exact ⟨rs, h1, h2⟩) t (hp.mem_iff.2 ht)
  have := renders_small h1 fun c hc => hs c (h2 c hc)
  calc t.t.map (foldBy spellPairs) = t.t.map id := List.map_congr_left this
    _ = t.t := List.map_id _

/-! ### Offsets that count pieces -/

/-- Even numbers for the offsets of pieces, odd numbers for the others. -/
def pieceMarks (ws : List Str) (p : Nat) : Nat :=
  if p = Notes.at' ws.flatten (ws.drop (piecesBefore ws p)).flatten then 2 * piecesBefore ws p else 2 * p + 1

theorem pieceMarks_inj (ws : List Str) (p q : Nat) (h : pieceMarks ws p = pieceMarks ws q) : p = q := by
  unfold pieceMarks at h
  split at h <;> split at h
  · rename_i h1 h2
    rw [h1, h2, show piecesBefore ws p = piecesBefore ws q by omega]
  · omega
  · omega
  · omega

theorem pieceMarks_at (hne : ∀ w ∈ ws, w ≠ []) (k : Nat) :
    pieceMarks ws (Notes.at' ws.flatten (ws.drop k).flatten) = 2 * min k ws.length := by
  have h1 : piecesBefore ws (Notes.at' ws.flatten (ws.drop k).flatten) = min k ws.length := by
    rw [Notes.at_drop]; exact Notes.pieces_at ws k hne
  have h2 : ws.drop (min k ws.length) = ws.drop k := by
    by_cases h : k ≤ ws.length
    · rw [Nat.min_eq_left h]
    · rw [Nat.min_eq_right (by omega), List.drop_length, List.drop_eq_nil_of_le (by omega)]
  unfold pieceMarks
  rw [h1, h2, if_pos rfl]

/-! ### Trees that are the same up to offsets -/

theorem same_meaning (hU : U.Ok) {s s' : Str} (hs : Small s) (hs' : Small s') {cs cs' : List Call} {lead lead' : Option AST.Node}
    {d d' : List AST.Node} (hd : Out.text (.text lead d) ∈ calls U (utf8 s) cs newParser)
    (hd' : Out.text (.text lead' d') ∈ calls U (utf8 s') cs' newParser) {φ φ' : Nat → Nat} (hi : ∀ p q, φ p = φ q → p = q)
    (hi' : ∀ p q, φ' p = φ' q → p = q) (h0 : φ 0 = 0) (h0' : φ' 0 = 0)
    (h : respell (List.map (foldBy spellPairs)) φ (.text lead d) = respell (List.map (foldBy spellPairs)) φ' (.text lead' d')) (k : Nat) :
    interpret U k d = interpret U k d' := by
  have w1 := C51_well_sorted hU cs _ hd
  have w2 := C51_well_sorted hU cs' _ hd'
  simp only [Parse.ws, Bool.and_eq_true] at w1 w2
  rw [respell_fix _ w1.2 (words_small hU hs hd), respell_fix _ w2.2 (words_small hU hs' hd')] at h
  simp only [respell, Node.text.injEq] at h
  rw [← offsets_re hi h0 d k, h.2, offsets_re hi' h0' d' k]

/-- The dot of i. -/
theorem std_meaning (hU : U.Ok) (hL : LettersNotPunct U) (hs : Small ws.flatten) {cs : List Call} {lead : Option AST.Node}
    {d : List AST.Node} (hd : Out.text (.text lead d) ∈ calls U (utf8 ws.flatten) cs newParser) :
    ∃ lead' d', Out.text (.text lead' d') ∈ calls U (utf8 (Notes.std ws).flatten) [.text] newParser ∧
      ∀ k, interpret U k d = interpret U k d' := by
  have h := Notes.std_same ws
  have hl : ws.flatten.length = (Notes.std ws).flatten.length := by rw [Notes.std_flatten, List.length_map]
  have hs' : Small (Notes.std ws).flatten := by
    intro c hc _
    rw [Notes.std_flatten] at hc
    obtain ⟨c, _, rfl⟩ := List.mem_map.1 hc
    exact Tones.fold_fold c
  obtain ⟨q, l, h1⟩ := text_call hd
  have hf : ∃ n, fresh U (utf8 ws.flatten) .text = .text n := by
    rw [C20_memo_transparent] at hd
    obtain ⟨c, _, hc⟩ := List.mem_map.1 hd
    cases c with
    | text => exact ⟨_, hc⟩
    | tree => simp only [fresh] at hc; split at hc <;> first | cases hc | (split at hc <;> cases hc)
    | word o => simp only [fresh] at hc; repeat' split at hc <;> try cases hc
  obtain ⟨n, hn⟩ := hf
  have hsp := Notes.std_parse hL ws
  rw [hn] at hsp
  generalize hb : fresh U (utf8 (Notes.std ws).flatten) .text = o at hsp
  cases hsp with
  | @text _ n' _ =>
    have hd' : Out.text n' ∈ calls U (utf8 (Notes.std ws).flatten) [.text] newParser := by
      rw [C20_memo_transparent]; simp [hb]
    have hw := C51_well_sorted hU _ _ hd'
    cases n' with
    | text lead' d' =>
      refine ⟨lead', d', hd', fun k => ?_⟩
      obtain ⟨q', l', h2⟩ := text_call hd'
      have hv := ev_same spellPairs_ok hL h (act_sim spellPairs_ok fun _ _ => marks_same hl) rFull
        (p := 0) (p' := 0) ⟨0, Nat.zero_le _, rfl, rfl⟩ (Nat.zero_le _) (Nat.zero_le _)
      rw [h1, h2] at hv
      refine same_meaning hU hs hs' hd hd' (marks_inj ws.flatten) (marks_inj (Notes.std ws).flatten)
        (marks_off _ 0 (Nat.zero_le _)) (marks_off _ 0 (Nat.zero_le _)) ?_ k
      cases hv with
      | ok _ hx => simpa [respellV] using hx.1
    | _ => simp [Parse.ws, accepts, tag] at hw

theorem exact_meaning (hU : U.Ok) (hP : Plain U) (hL : LettersNotPunct U) (hg : ∀ i ∈ is, i.Good U) (E : Notes.Exact is ws)
    (E' : Notes.Exact is ws') (hs : Small ws.flatten) (hs' : Small ws'.flatten) {cs cs' : List Call} {lead lead' : Option AST.Node}
    {d d' : List AST.Node} (hd : Out.text (.text lead d) ∈ calls U (utf8 ws.flatten) cs newParser)
    (hd' : Out.text (.text lead' d') ∈ calls U (utf8 ws'.flatten) cs' newParser) (k : Nat) :
    interpret U k d = interpret U k d' := by
  have hφ : ∀ p p', Notes.RN ws ws' p p' → pieceMarks ws p = pieceMarks ws' p' := by
    rintro p p' ⟨k, rfl, rfl⟩
    rw [pieceMarks_at (E.ne hg), pieceMarks_at (E'.ne hg), E.length, E'.length]
  have S := Notes.leaf_sim hP hL E E' hg hφ
  have h0 : Notes.RN ws ws' 0 0 := ⟨0, by simp [Notes.at', off_zero], by simp [Notes.at', off_zero]⟩
  have hz : ∀ {ws : List Str}, Notes.Exact is ws → pieceMarks ws 0 = 0 := by
    intro ws E
    have := pieceMarks_at (E.ne hg) 0
    simpa [Notes.at', off_zero] using this
  obtain ⟨q, l, h1⟩ := text_call hd
  obtain ⟨q', l', h2⟩ := text_call hd'
  have hv := Peg.ev_leaves S (max (fuel (utf8 ws.flatten)) (fuel (utf8 ws'.flatten))) _ _ _ _ _ Notes.full_leafy h0
      (Peg.ev_mono U toaq _ _ (Nat.le_max_left _ _) h1) (Peg.ev_mono U toaq _ _ (Nat.le_max_right _ _) h2)
  refine same_meaning hU hs hs' hd hd' (pieceMarks_inj ws) (pieceMarks_inj ws') (hz E) (hz E') ?_ k
  cases hv with
  | ok _ hx => simpa [respellV] using hx.1

/-- C62: how tones are written does not change what a text means. Take two texts in small letters, without
letters with the breve, that write the same syllables with the same tones in any of the ways of C61, and both
parsed. Then `Interpret` returns the same statement for both, or panics for both.

What is missing: the syllables for which C61 is violated. Capitals are the subject of C59. -/
theorem C62_notation_partial (hU : U.Ok) (hP : Plain U) (hL : LettersNotPunct U) (hg : ∀ i ∈ is, i.Good U) (h : Written is ws)
    (h' : Written is ws') (hs : Small ws.flatten) (hs' : Small ws'.flatten) (cs cs' : List Call) (lead lead' : Option AST.Node)
    (d d' : List AST.Node) (hd : Out.text (.text lead d) ∈ calls U (utf8 ws.flatten) cs newParser)
    (hd' : Out.text (.text lead' d') ∈ calls U (utf8 ws'.flatten) cs' newParser) (k : Nat) :
    interpret U k d = interpret U k d' := by
  have st : ∀ ws : List Str, Small (Notes.std ws).flatten := by
    intro ws c hc _
    rw [Notes.std_flatten] at hc
    obtain ⟨c, _, rfl⟩ := List.mem_map.1 hc
    exact Tones.fold_fold c
  obtain ⟨_, _, h1, e1⟩ := std_meaning hU hL hs hd
  obtain ⟨_, _, h2, e2⟩ := std_meaning hU hL hs' hd'
  rw [e1, e2]
  exact exact_meaning hU hP hL hg h.exact h'.exact (st ws) (st ws') h1 h2 k

/-! ### Example -/

/-- A text with a quote, written in two ways. -/
def quoteItems : List Parse.Item :=
  [.syl .hook "k".toList "uq".toList, .sep ' ', .syl .acute "j".toList "ı".toList, .sep ' ', .syl .acute "m".toList "o".toList, .sep ' ',
   .syl .hook "m".toList "aı".toList, .sep ' ', .syl .acute "s".toList "uq".toList, .sep ' ', .syl .plain "t".toList "eo".toList, .sep '.']
@[inherit_doc quoteItems]
def quoteLeft : List Str := ["kủq", " ", "jí", " ", "mó", " ", "mải", " ", "súq", " ", "teo", "."].map (·.toList)
@[inherit_doc quoteItems]
def quoteRight : List Str := ["kuq?", " ", "ji/", " ", "mo\u0301", " ", "ma4i", " ", "suq/", " ", "teo", "."].map (·.toList)

theorem quote_written : Written quoteItems quoteLeft ∧ Written quoteItems quoteRight := by
  constructor <;>
  · repeat' apply Written.one
    all_goals first | exact Written.nil | decide +kernel
theorem quote_good : ∀ i ∈ quoteItems, i.Good asciiUni := by
  simp only [quoteItems, List.forall_mem_cons, List.not_mem_nil, false_implies, implies_true, and_true, Item.Good, Separator]
  refine ⟨?_, ?_, ?_, ?_, ?_, ?_, ?_, ?_, ?_, ?_, ?_, ?_⟩ <;> decide +kernel

example : ∃ lead d lead' d', Out.text (.text lead d) ∈ calls asciiUni (utf8 quoteLeft.flatten) [.text] newParser ∧
    Out.text (.text lead' d') ∈ calls asciiUni (utf8 quoteRight.flatten) [.text] newParser ∧
    ∀ k, interpret asciiUni k d = interpret asciiUni k d' := by
  obtain ⟨n, hn⟩ := text_of_kind (U := asciiUni) (b := utf8 quoteLeft.flatten) (by decide +kernel)
  obtain ⟨n', hn'⟩ := text_of_kind (U := asciiUni) (b := utf8 quoteRight.flatten) (by decide +kernel)
  have h : Out.text n ∈ calls asciiUni (utf8 quoteLeft.flatten) [.text] newParser := by rw [hn]; simp
  have h' : Out.text n' ∈ calls asciiUni (utf8 quoteRight.flatten) [.text] newParser := by rw [hn']; simp
  have t : ∀ {b : Peg.Bytes} {n : AST.Node}, Out.text n ∈ calls asciiUni b [.text] newParser → ∃ lead d, n = .text lead d := by
    intro b n h
    have hw := C51_well_sorted asciiUni_ok _ _ h
    cases n with
    | text lead d => exact ⟨lead, d, rfl⟩
    | _ => simp [Parse.ws, accepts, tag] at hw
  obtain ⟨lead, d, rfl⟩ := t h
  obtain ⟨lead', d', rfl⟩ := t h'
  exact ⟨lead, d, lead', d', h, h', fun k => C62_notation_partial asciiUni_ok (by unfold Plain; decide) letters_ascii quote_good
    quote_written.1 quote_written.2 (by unfold Small; decide +kernel) (by unfold Small; decide +kernel) _ _ _ _ _ _ h h' k⟩

/-- The meaning of both texts. -/
example : (calls asciiUni (utf8 quoteLeft.flatten) [.text] newParser).map (outPrint asciiUni 100) =
      [some "[ιJ : ji(J)] kuq(J, «mảı súq»).".toList] ∧
    (calls asciiUni (utf8 quoteRight.flatten) [.text] newParser).map (outPrint asciiUni 100) =
      [some "[ιJ : ji(J)] kuq(J, «mảı súq»).".toList] := by decide +kernel

end Verif.Logic
