/-
Runs of the Node and Action functions that are known to end, and rules to build them.
-/
import Verif.Peg.ExprProps

namespace Verif.Peg

variable {F E : Type} {U : Uni} {G : Gram F} {I : Input} {A : Alg F E}

/-- The function of `e` succeeds at `p`, ending at `q` with value `x`. -/
def EvOk (U : Uni) (G : Gram F) (I : Input) (A : Alg F E) (e : Expr F) (p q : Nat) (x : A.X) : Prop :=
  ∃ n, ev U G I A n e p = some (.ok q x)

/-- The function of `e` fails at `p`. -/
def EvFail (U : Uni) (G : Gram F) (I : Input) (A : Alg F E) (e : Expr F) (p : Nat) : Prop :=
  ∃ n, ev U G I A n e p = some .fail

local notation "Ok" => EvOk U G I A
local notation "Fl" => EvFail U G I A

variable {e a b : Expr F} {p q r : Nat} {x y : A.X}

theorem EvOk.det (h : Ok e p q x) (h' : Ok e p r y) : q = r ∧ x = y := by
  obtain ⟨n, h⟩ := h; obtain ⟨m, h'⟩ := h'
  have := ev_det U G I A h h'
  injection this with h1 h2
  exact ⟨h1, h2⟩

theorem EvOk.recog (h : Ok e p q x) : Recog U G I e p (some q) := by
  obtain ⟨n, h⟩ := h
  have := ev_acc U G I A n e p 0
  rw [h] at this
  obtain ⟨er, this⟩ := this
  exact ⟨n, 0, er, this⟩

theorem EvFail.recog (h : Fl e p) : Recog U G I e p none := by
  obtain ⟨n, h⟩ := h
  have := ev_acc U G I A n e p 0
  rw [h] at this
  obtain ⟨er, this⟩ := this
  exact ⟨n, 0, er, this⟩

theorem ok_term {t : Term} (h : tm U I t p = .inl q) : Ok (.term t) p q (A.leaf p q) :=
  ⟨1, by rw [ev_s]; simp only [evStep, h]⟩

theorem fail_term {t : Term} {z : Nat} (h : tm U I t p = .inr z) : Fl (.term t) p :=
  ⟨1, by rw [ev_s]; simp only [evStep, h]⟩

theorem ok_ref {k : Nat} (h : Ok (G.body k) p q x) : Ok (.ref k) p q (A.rule k p q x) := by
  obtain ⟨n, h⟩ := h
  have h1 := ev_acc U G I A n (G.body k) p 0
  rw [h] at h1
  obtain ⟨er, h1⟩ := h1
  exact ⟨n + 1, by rw [ev_s]; simp only [evStep, h1, h]⟩

theorem fail_ref {k : Nat} (h : Fl (G.body k) p) : Fl (.ref k) p := by
  obtain ⟨n, h⟩ := h
  have h1 := ev_acc U G I A n (G.body k) p 0
  rw [h] at h1
  obtain ⟨er, h1⟩ := h1
  exact ⟨n + 1, by rw [ev_s]; simp only [evStep, h1]⟩

theorem ok_seq (h : Ok a p q x) (h' : Ok b q r y) : Ok (.seq a b) p r (A.seq x y) := by
  obtain ⟨n, h⟩ := h; obtain ⟨m, h'⟩ := h'
  refine ⟨max n m + 1, ?_⟩
  rw [ev_s]; simp only [evStep, ev_mono U G I A (Nat.le_max_left n m) h, ev_mono U G I A (Nat.le_max_right n m) h']

theorem fail_seq1 (h : Fl a p) : Fl (.seq a b) p := by
  obtain ⟨n, h⟩ := h
  exact ⟨n + 1, by rw [ev_s]; simp only [evStep, h]⟩

theorem fail_seq2 (h : Ok a p q x) (h' : Fl b q) : Fl (.seq a b) p := by
  obtain ⟨n, h⟩ := h; obtain ⟨m, h'⟩ := h'
  refine ⟨max n m + 1, ?_⟩
  rw [ev_s]; simp only [evStep, ev_mono U G I A (Nat.le_max_left n m) h, ev_mono U G I A (Nat.le_max_right n m) h']

theorem ok_alt1 (h : Ok a p q x) : Ok (.alt a b) p q x := by
  obtain ⟨n, h⟩ := h
  exact ⟨n + 1, by rw [ev_s]; simp only [evStep, h]⟩

theorem ok_alt2 (h : Fl a p) (h' : Ok b p q x) : Ok (.alt a b) p q x := by
  obtain ⟨n, h⟩ := h; obtain ⟨m, h'⟩ := h'
  refine ⟨max n m + 1, ?_⟩
  rw [ev_s]; simp only [evStep, ev_mono U G I A (Nat.le_max_left n m) h, ev_mono U G I A (Nat.le_max_right n m) h']

theorem fail_alt (h : Fl a p) (h' : Fl b p) : Fl (.alt a b) p := by
  obtain ⟨n, h⟩ := h; obtain ⟨m, h'⟩ := h'
  refine ⟨max n m + 1, ?_⟩
  rw [ev_s]; simp only [evStep, ev_mono U G I A (Nat.le_max_left n m) h, ev_mono U G I A (Nat.le_max_right n m) h']

theorem ok_opt1 (h : Ok a p q x) : Ok (.opt a) p q x := by
  obtain ⟨n, h⟩ := h
  exact ⟨n + 1, by rw [ev_s]; simp only [evStep, h]⟩

theorem ok_opt2 (h : Fl a p) : Ok (.opt a) p p A.nil := by
  obtain ⟨n, h⟩ := h
  exact ⟨n + 1, by rw [ev_s]; simp only [evStep, h]⟩

theorem ok_star0 (h : Fl a p) : Ok (.star a) p p A.rep0 := by
  obtain ⟨n, h⟩ := h
  exact ⟨n + 1, by rw [ev_s]; simp only [evStep, h]⟩

theorem ok_star1 (h : Ok a p q x) (h' : Ok (.star a) q r y) : Ok (.star a) p r (A.rep x y) := by
  obtain ⟨n, h⟩ := h; obtain ⟨m, h'⟩ := h'
  refine ⟨max n m + 1, ?_⟩
  rw [ev_s]; simp only [evStep, ev_mono U G I A (Nat.le_max_left n m) h, ev_mono U G I A (Nat.le_max_right n m) h']

theorem ok_plus (h : Ok a p q x) (h' : Ok (.star a) q r y) : Ok (.plus a) p r (A.rep x y) := by
  obtain ⟨n, h⟩ := h; obtain ⟨m, h'⟩ := h'
  refine ⟨max n m + 1, ?_⟩
  rw [ev_s]; simp only [evStep, ev_mono U G I A (Nat.le_max_left n m) h, ev_mono U G I A (Nat.le_max_right n m) h']

theorem fail_plus (h : Fl a p) : Fl (.plus a) p := by
  obtain ⟨n, h⟩ := h
  exact ⟨n + 1, by rw [ev_s]; simp only [evStep, h]⟩

theorem ok_not (h : Fl a p) : Ok (.not a) p p A.nil := by
  obtain ⟨n, h⟩ := h
  exact ⟨n + 1, by rw [ev_s]; simp only [evStep, h]⟩

theorem fail_not (h : Ok a p q x) : Fl (.not a) p := by
  obtain ⟨n, h⟩ := h
  exact ⟨n + 1, by rw [ev_s]; simp only [evStep, h]⟩

theorem ok_and (h : Ok a p q x) : Ok (.and a) p p A.nil := by
  obtain ⟨n, h⟩ := h
  exact ⟨n + 1, by rw [ev_s]; simp only [evStep, h]⟩

theorem fail_and (h : Fl a p) : Fl (.and a) p := by
  obtain ⟨n, h⟩ := h
  exact ⟨n + 1, by rw [ev_s]; simp only [evStep, h]⟩

theorem ok_lab (h : Ok a p q x) : Ok (.lab a) p q (A.lab x) := by
  obtain ⟨n, h⟩ := h
  exact ⟨n + 1, by rw [ev_s]; simp only [evStep, h]⟩

theorem fail_lab (h : Fl a p) : Fl (.lab a) p := by
  obtain ⟨n, h⟩ := h
  exact ⟨n + 1, by rw [ev_s]; simp only [evStep, h]⟩

theorem ok_grp (h : Ok a p q x) : Ok (.grp a) p q (A.grp p q x) := by
  obtain ⟨n, h⟩ := h
  exact ⟨n + 1, by rw [ev_s]; simp only [evStep, h]⟩

theorem fail_grp (h : Fl a p) : Fl (.grp a) p := by
  obtain ⟨n, h⟩ := h
  exact ⟨n + 1, by rw [ev_s]; simp only [evStep, h]⟩

theorem ok_act {f : F} (h : Ok a p q x) (h' : A.act f p q x = .ok y) : Ok (.act f a) p q y := by
  obtain ⟨n, h⟩ := h
  exact ⟨n + 1, by rw [ev_s]; simp only [evStep, h, h']⟩

theorem fail_act {f : F} (h : Fl a p) : Fl (.act f a) p := by
  obtain ⟨n, h⟩ := h
  exact ⟨n + 1, by rw [ev_s]; simp only [evStep, h]⟩

end Verif.Peg
