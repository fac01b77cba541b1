/-
C17, C18, C23, C46, C51: the syntax tree that `Text` returns.
-/
import Verif.Parse.TreeProps
import Verif.Parse.Sound

namespace Verif.Parse
open Verif.AST Verif.AST.Spec Verif.Peg
open Verif.Tone (Str)

variable {U : Uni} {b : Bytes}

theorem punct_i (hU : U.Ok) : U.punct 'i' = false := by rw [hU.punct _ (by decide)]; decide

/-- A call of `Text` in a history is a call of the functions without tables. -/
theorem text_call {cs : List Call} {n : Node} (h : Out.text n ∈ calls U b cs newParser) :
    ∃ q l, ev U toaq (.ofBytes b) (actAlg (.ofBytes b)) (fuel b) (.ref rFull) 0 = some (.ok q (.node n, l)) := by
  rw [C20_memo_transparent] at h
  obtain ⟨c, _, h⟩ := List.mem_map.1 h
  cases c with
  | text =>
    simp only [fresh] at h
    split at h
    · cases h
    · cases h
    · split at h
      · rename_i q n' l hx
        injection h with h
        subst h
        exact ⟨q, l, hx⟩
      · cases h
      · cases h
  | tree =>
    simp only [fresh] at h
    repeat' split at h
    all_goals cases h
  | word o =>
    simp only [fresh] at h
    repeat' split at h
    all_goals cases h

theorem text_ok (hU : U.Ok) {cs : List Call} {n : Node} (h : Out.text n ∈ calls U b cs newParser) :
    ∃ q, Consumed b q ∧ tag n = .text ∧ NP (.ofBytes b) 0 q n := by
  obtain ⟨q, l, hx⟩ := text_call h
  have h1 := rule_sound (punct_i hU) hx
  have ht : types.get rFull = .nd .text := by rfl
  rw [ht] at h1
  obtain ⟨⟨n', h2, h3, h4⟩, _⟩ := h1
  injection h2 with h2
  subst h2
  exact ⟨q, full_consumed U b (Recog.of_ev hx), by simpa [accepts] using h3, h4⟩

/-- C17. When `Text` succeeds, the words of the syntax tree together cover everything up to the end of
the text or the first U+FFFD. -/
theorem C17_whole_text (hU : U.Ok) (cs : List Call) (n : Node) (h : Out.text n ∈ calls U b cs newParser) :
    ∃ q, Consumed b q ∧ ∃ L, L.Perm (words n) ∧ Tiles 0 q L := by
  obtain ⟨q, h1, _, _, h2⟩ := text_ok hU h
  exact ⟨q, h1, h2.perm⟩

/-- C18. The words of the syntax tree can be put in an order in which each starts where the previous one ends,
so nothing is lost or duplicated. But for the particles `ki` that close parentheticals, the words of the tree are
in the order of the text; a closing particle has no modifier and comes after its opening particle. Without
parentheticals all words are in order and each starts where the previous one ends. Partial: a closing particle
is not in its place when modifiers follow it, see `C18_parenthetical_reorders`. -/
theorem C18_words_tile_partial (hU : U.Ok) (cs : List Call) (n : Node) (h : Out.text n ∈ calls U b cs newParser) :
    ∃ q, Consumed b q ∧ (∃ L, L.Perm (words n) ∧ Tiles 0 q L) ∧ Asc 0 q (opens n) ∧ allN kiOk n = true ∧
      (noPar n = true → Tiles 0 q (words n)) := by
  obtain ⟨q, h1, _, _, h2⟩ := text_ok hU h
  have h3 := h2.order
  have h4 := ord_kiOk n h3.good
  rw [ord_opens n h3.good] at h3
  refine ⟨q, h1, h2.perm, h3, h4, fun hn => ?_⟩
  rw [opens_words n hn] at h3
  obtain ⟨L, h5, h6⟩ := h2.perm
  exact tiles_of_asc h5 h6 h3

/-- C23. The text of every word is the normalised spelling of the slice given by its offsets. In
particular the letters without tones are the same. -/
theorem C23_normalised (hU : U.Ok) (cs : List Call) (n : Node) (h : Out.text n ∈ calls U b cs newParser)
    (t : Tok) (ht : t ∈ words n) :
    t.s < t.e ∧ ∃ rs, Spans (.ofBytes b) t.s t.e rs ∧ Renders t.t rs ∧ letters t.t = letters rs := by
  obtain ⟨q, _, _, _, h2⟩ := text_ok hU h
  obtain ⟨h3, rs, h4, h5⟩ := h2.good t ht
  exact ⟨h3, rs, h4, h5, h5.letters⟩

/-- C51. The syntax tree is well sorted. -/
theorem C51_well_sorted (hU : U.Ok) (cs : List Call) (n : Node) (h : Out.text n ∈ calls U b cs newParser) :
    ws .text n = true := by
  obtain ⟨q, _, h1, h2, _⟩ := text_ok hU h
  simp [ws, h1, h2, accepts]

/-! ### Panics -/

theorem decode_digit {l : Bytes} {c : Char} (h : (decode l).1 = c) (hc : 0 < c.toNat) (hc' : c.toNat < 0x80) :
    c.toNat ∈ l := by
  have hofNat : ∀ n, (Char.ofNat n).toNat = n ∨ (Char.ofNat n).toNat = 0 := by
    intro n
    by_cases hv : n.isValidChar
    · left
      simp only [Char.ofNat, hv, dif_pos]
      rfl
    · right
      simp [Char.ofNat, hv]
  have hbad : bad.toNat = 0xFFFD := by decide
  unfold decode at h
  split at h
  · simp only at h; rw [← h, hbad] at hc'; omega
  · rename_i b0 bs
    split at h
    · rename_i hb
      simp only at h
      rcases hofNat b0 with h1 | h1
      · rw [h] at h1; rw [h1]; exact List.mem_cons_self
      · rw [h] at h1; omega
    · split at h
      · simp only at h; rw [← h, hbad] at hc'; omega
      · split at h
        · split at h
          · rename_i b1 _
            split at h
            · rename_i hs
              simp only at h
              rcases hofNat ((b0 - 0xC0) * 64 + (b1 - 0x80)) with h1 | h1 <;> rw [h] at h1 <;> omega
            · simp only at h; rw [← h, hbad] at hc'; omega
          · simp only at h; rw [← h, hbad] at hc'; omega
        · split at h
          · split at h
            · rename_i b1 b2 _
              split at h
              · rename_i hs
                simp only at h
                simp only [Bool.and_eq_true] at hs
                have h2 : b0 = 0xE0 → 0xA0 ≤ b1 := by
                  intro hb
                  have := hs.1
                  unfold second at this
                  rw [if_pos hb] at this
                  simp at this
                  exact this.1
                rcases hofNat ((b0 - 0xE0) * 4096 + (b1 - 0x80) * 64 + (b2 - 0x80)) with h1 | h1 <;> rw [h] at h1 <;> omega
              · simp only at h; rw [← h, hbad] at hc'; omega
            · simp only at h; rw [← h, hbad] at hc'; omega
          · split at h
            · split at h
              · rename_i b1 b2 b3 _
                split at h
                · rename_i hs
                  simp only at h
                  simp only [Bool.and_eq_true] at hs
                  have h2 : b0 = 0xF0 → 0x90 ≤ b1 := by
                    intro hb
                    have := hs.1.1
                    unfold second at this
                    rw [if_neg (by omega), if_neg (by omega), if_pos hb] at this
                    simp at this
                    exact this.1
                  rcases hofNat ((b0 - 0xF0) * 262144 + (b1 - 0x80) * 4096 + (b2 - 0x80) * 64 + (b3 - 0x80)) with h1 | h1 <;>
                    rw [h] at h1 <;> omega
                · simp only at h; rw [← h, hbad] at hc'; omega
              · simp only at h; rw [← h, hbad] at hc'; omega
            · simp only at h; rw [← h, hbad] at hc'; omega

theorem digit_byte (h : HasDigit (.ofBytes b)) : ∃ x ∈ b, 0x31 ≤ x ∧ x ≤ 0x37 := by
  obtain ⟨p, _, hm⟩ := h
  have hr : ∀ c ∈ "1234567".toList, 0x31 ≤ c.toNat ∧ c.toNat ≤ 0x37 := by decide
  have h1 := hr _ hm
  refine ⟨_, List.mem_of_mem_drop (decode_digit (l := b.drop p) rfl (by show 0 < (decode (b.drop p)).1.toNat; exact Nat.lt_of_lt_of_le (by decide) h1.1) (by exact Nat.lt_of_le_of_lt h1.2 (by decide))), h1⟩

/-- The kind of panic: an Action function panics only with an index out of range, and only on texts with a
digit from 1 to 7. -/
theorem panic_digit (hU : U.Ok) {r p n e}
    (h : ev U toaq (.ofBytes b) (actAlg (.ofBytes b)) n (.ref r) p = some (.panic e)) :
    e = .index ∧ ∃ x ∈ b, 0x31 ≤ x ∧ x ≤ 0x37 := by
  have h1 := rule_sound (punct_i hU) h
  exact ⟨h1.1, digit_byte h1.2⟩

/-! ### Words -/

/-- C23, for `Word`: the word starts at the given offset, its text is the normalised spelling of what is
there, and what follows up to its end is the space attached to it. So `E`, unlike that of the words
of a syntax tree, includes the space. -/
theorem C23_word_call (hU : U.Ok) (cs : List Call) (offs : Int) (i : Nat) (t : Str) (s e k : Nat) (o : Option Node)
    (hi : cs[i]? = some (.word offs)) (h : (calls U b cs newParser)[i]? = some (.word (.mk t s e o) k)) :
    (s : Int) = offs ∧ e = s + k ∧ ∃ m rs, Spans (.ofBytes b) s m rs ∧ Renders t rs ∧ s < m ∧ m ≤ e ∧
      (o = none → m = e) ∧ ∀ x, o = some x → ∃ L, L.Perm (words x) ∧ Tiles m e L := by
  rw [C20_memo_transparent, List.getElem?_map, hi] at h
  simp only [Option.map_some, Option.some.injEq, fresh] at h
  split at h
  · rename_i ho
    split at h
    · cases h
    · cases h
    · split at h
      · rename_i q w l hx
        injection h with h1 h2
        subst h1
        have h3 := rule_sound (punct_i hU) hx
        have ht : types.get rWord = .spaced := by rfl
        rw [ht] at h3
        obtain ⟨⟨t', m, o', h4, ⟨h5, rs, h6, h7⟩, h8⟩, _⟩ := h3
        injection h4 with h4
        injection h4 with e1 e2 e3 e4
        subst e1 e2 e3 e4
        refine ⟨by omega, ?_, m, rs, h6, h7, h5, ?_⟩
        · rcases h8 with ⟨_, rfl⟩ | ⟨n, _, _, _, h9⟩
          · omega
          · have := h9.le; omega
        · rcases h8 with ⟨rfl, rfl⟩ | ⟨n, rfl, h9, _, h10⟩
          · exact ⟨Nat.le_refl _, fun _ => rfl, fun x hx => by cases hx⟩
          · refine ⟨h10.le, fun h => absurd h (by simp), fun x hx => ?_⟩
            injection hx with hx
            subst hx
            exact h10.perm
      · cases h
      · cases h
  · cases h

end Verif.Parse
