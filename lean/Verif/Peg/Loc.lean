/- /repo/vendor/github.com/eaburns/peggy/peg/loc.go: model and property C25. -/
import Verif.Peg.Text

namespace Verif.Peg

/-- loc.go:12-17 `Loc`. -/
structure Loc where
  byte : Nat
  rune : Nat
  line : Nat
  col : Nat
deriving DecidableEq, Repr

/-- loc.go:24-33, the loop; the text argument is `text[loc.Byte:]`. At the end of the text
DecodeRuneInString returns width 0, so the loop would never end: `none`. -/
def locLoop (b : Nat) : Text → Loc → Option Loc
  | [], loc => if b > loc.byte then none else some loc
  | u :: t, loc =>
    if b > loc.byte then
      locLoop b t
        (if u.r = '\n' then ⟨loc.byte + u.w, loc.rune + 1, loc.line + 1, 1⟩
         else ⟨loc.byte + u.w, loc.rune + 1, loc.line, loc.col + 1⟩)
    else some loc

/-- loc.go:20-35 `Location`. -/
def location (t : Text) (b : Nat) : Option Loc := locLoop b t ⟨0, 0, 1, 1⟩

/-- Number of newlines. -/
def newlines (t : Text) : Nat := (t.filter fun u => u.r = '\n').length
/-- Number of runes after the last newline. -/
def lastLine (t : Text) : Nat := (t.reverse.takeWhile fun u => u.r ≠ '\n').length

theorem newlines_snoc (t : Text) (u : Rn) :
    newlines (t ++ [u]) = newlines t + if u.r = '\n' then 1 else 0 := by
  by_cases h : u.r = '\n' <;> simp [newlines, List.filter_append, h]

theorem lastLine_snoc (t : Text) (u : Rn) :
    lastLine (t ++ [u]) = if u.r = '\n' then 0 else lastLine t + 1 := by
  by_cases h : u.r = '\n' <;> simp [lastLine, h]

/-- The location of the end of a prefix. -/
def locOf (pre : Text) : Loc := ⟨width pre, pre.length, 1 + newlines pre, 1 + lastLine pre⟩

theorem locLoop_run (b : Nat) : ∀ (t pre mid : Text), t = mid →
    ∀ more, (∀ p q, mid = p ++ q → q ≠ [] → width (pre ++ p) < b) →
    locLoop b (t ++ more) (locOf pre) = locLoop b more (locOf (pre ++ mid)) := by
  intro t
  induction t with
  | nil => intro pre mid h more _; subst h; simp
  | cons u t ih =>
    intro pre mid h more hb
    subst h
    have h0 : b > (locOf pre).byte := by
      have := hb [] (u :: t) rfl (by simp)
      simpa [locOf] using this
    simp only [List.cons_append, locLoop, h0, if_true]
    have e : (if u.r = '\n' then (⟨(locOf pre).byte + u.w, (locOf pre).rune + 1, (locOf pre).line + 1, 1⟩ : Loc)
         else ⟨(locOf pre).byte + u.w, (locOf pre).rune + 1, (locOf pre).line, (locOf pre).col + 1⟩) =
         locOf (pre ++ [u]) := by
      by_cases hn : u.r = '\n'
      · simp [locOf, hn, newlines_snoc, lastLine_snoc, Nat.add_assoc]
      · simp [locOf, hn, newlines_snoc, lastLine_snoc, Nat.add_assoc]
    rw [e, ih (pre ++ [u]) t rfl more]
    · simp
    · intro p q hpq hq
      have := hb (u :: p) q (by simp [hpq]) hq
      simpa using this

theorem strict_prefix_width {p q : Text} (hq : q ≠ []) : width p < width (p ++ q) := by
  have := width_pos hq
  simp; omega

/-- C25: at a rune boundary: line, column and rune count are those of the text before it. -/
theorem C25_location (pre post : Text) :
    location (pre ++ post) (width pre) =
      some ⟨width pre, pre.length, 1 + newlines pre, 1 + lastLine pre⟩ := by
  have h := locLoop_run (width pre) pre [] pre rfl post (by
    intro p q h hq; subst h; simpa using width_pos hq)
  rw [location]
  have e : (⟨0, 0, 1, 1⟩ : Loc) = locOf [] := rfl
  rw [e, h]
  cases post <;> simp [locLoop, locOf]

/-- C25: inside a rune the location of the end of that rune is returned. -/
theorem C25_location_inside (pre post : Text) (u : Rn) (b : Nat) (h1 : width pre < b)
    (h2 : b ≤ width pre + u.w) :
    location (pre ++ u :: post) b = location (pre ++ u :: post) (width (pre ++ [u])) := by
  have h := locLoop_run b (pre ++ [u]) [] (pre ++ [u]) rfl post (by
    intro p q h hq
    have hle : width p ≤ width pre := by
      rcases List.append_eq_append_iff.1 h with ⟨a, ha, hb⟩ | ⟨a, ha, hb⟩
      · cases a with
        | nil => simp at ha; simp [ha]
        | cons x a =>
          simp only [List.cons_append, List.cons.injEq] at hb
          have h3 := hb.2
          have : a = [] ∧ q = [] := by simpa using h3.symm
          exact absurd this.2 hq
      · subst ha; simp
    simp; omega)
  have e1 : pre ++ u :: post = (pre ++ [u]) ++ post := by simp
  rw [e1, C25_location, location]
  have e : (⟨0, 0, 1, 1⟩ : Loc) = locOf [] := rfl
  rw [e, h]
  have hb : ¬ b > (locOf (pre ++ [u])).byte := by simp [locOf]; omega
  simp only [List.nil_append]
  cases post with
  | nil => simp only [locLoop, hb, if_false]; rfl
  | cons v post => simp only [locLoop, hb, if_false]; rfl

/-- C25: for an offset after the end of the text `Location` does not terminate. -/
theorem C25_location_after_end (t : Text) (b : Nat) (h : width t < b) : location t b = none := by
  have := locLoop_run b t [] t rfl [] (by
    intro p q h' hq; subst h'
    have := strict_prefix_width (p := p) hq
    simp only [List.nil_append]; omega)
  rw [location]
  have e : (⟨0, 0, 1, 1⟩ : Loc) = locOf [] := rfl
  rw [List.append_nil] at this
  rw [e, this]
  simp [locLoop, locOf, h]

example : location (ofStr "jí\nru  ka".toList) (width (ofStr "jí\nru ".toList)) = some ⟨7, 6, 2, 4⟩ := by
  decide +kernel

end Verif.Peg
