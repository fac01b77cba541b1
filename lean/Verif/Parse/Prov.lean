/-
Where the words of a syntax tree come from, for C71: all words of a parsed text other than spaces were made by the rules for
predicate words and for particles, from the text between their offsets.
-/
import Verif.Parse.TextProps
import Verif.Parse.ClassProps
import Verif.Parse.ArgPlaces

namespace Verif.Parse
open Verif.AST Verif.AST.Spec Verif.Peg
open Verif.Tone (Str)

/-! ## Specification -/

mutual
/-- Spec: the words of a syntax tree other than the spaces, or the spaces, in some order; those in modifiers and in quoted text
included. -/
def toks (sp : Bool) : Node → List Tok
  | .text l d => toksO sp l ++ toksL sp d
  | .discourse d => toksL sp d
  | .sentence je st da => toksWO sp je ++ toks sp st ++ toksWO sp da
  | .cop _ to0 to1 ru l r =>
    toksWO sp to0 ++ toksW sp ru ++ toks sp l ++ (if to0.isSome then toksWO sp to1 else []) ++ toks sp r
  | .prenex ts bi => toksL sp ts ++ toksW sp bi
  | .prenexStmt ts bi st => toksL sp ts ++ toksW sp bi ++ toks sp st
  | .predication _ p ts na => toks sp p ++ toksTO sp ts ++ toksWO sp na
  | .prefixed mu p => toksW sp mu ++ toks sp p
  | .serial l r => toks sp l ++ toks sp r
  | .word k (.mk t s e m) => (if decide (k = .space) = sp then [⟨t, s, e⟩] else []) ++ toksO sp m
  | .mi m ga ph => toksW sp m ++ toks sp ph ++ toksWO sp ga
  | .po m ga a => toksW sp m ++ toks sp a ++ toksWO sp ga
  | .mo m teo d => toksW sp m ++ toksL sp d ++ toksW sp teo
  | .lu _ l st => toksW sp l ++ toks sp st
  | .linked g a => toksW sp g ++ toks sp a
  | .terms ts => toksL sp ts
  | .predArg _ focus quant p rel => toksWO sp focus ++ toksWO sp quant ++ toks sp p ++ toksO sp rel
  | .predAdverb p => toks sp p
  | .prep p a => toks sp p ++ toks sp a
  | .paren kio ki d => toksW sp kio ++ toksL sp d ++ toksW sp ki
  | .incidental ju st => toksW sp ju ++ toks sp st
  | .vocative hu a => toksW sp hu ++ toks sp a
def toksW (sp : Bool) : Word → List Tok
  | .mk t s e m => (if sp then [] else [⟨t, s, e⟩]) ++ toksO sp m
def toksO (sp : Bool) : Option Node → List Tok
  | none => []
  | some n => toks sp n
def toksWO (sp : Bool) : Option Word → List Tok
  | none => []
  | some w => toksW sp w
def toksTO (sp : Bool) : Option (List Node) → List Tok
  | none => []
  | some l => toksL sp l
def toksL (sp : Bool) : List Node → List Tok
  | [] => []
  | n :: ns => toks sp n ++ toksL sp ns
end

namespace Prov
variable {sp : Bool}
open Verif.Parse.WordLang

/-! ## Modifiers -/

/-- How often a word occurs in a list. -/
abbrev cnt (a : Tok) (l : List Tok) : Nat := l.count a

/-- Unfold the lists of words. -/
macro "tokc" : tactic => `(tactic| (simp only [mod, modW, modO, toks, toksW, toksO, toksWO, toksTO, toksL, cnt, List.count_append,
  List.count_cons, List.count_nil] at *))

theorem mod_le (a : Tok) (m : Node) :
    (∀ n, cnt a (toks sp (mod m n)) ≤ cnt a (toks sp n) + cnt a (toks sp m)) ∧
    (∀ w, cnt a (toksW sp (modW m w)) ≤ cnt a (toksW sp w) + cnt a (toks sp m)) := by
  have hL : ∀ l : List Node, (∀ x ∈ l, cnt a (toks sp (mod m x)) ≤ cnt a (toks sp x) + cnt a (toks sp m)) →
      cnt a (toksL sp (modLast m l)) ≤ cnt a (toksL sp l) + cnt a (toks sp m) := by
    intro l h
    induction l with
    | nil => simp [modLast, toksL]
    | cons x l ih =>
      cases l with
      | nil =>
        have := h x (by simp)
        simp only [modLast, toksL, List.append_nil]
        exact this
      | cons y l =>
        have := ih (fun z hz => h z (by simp [hz]))
        simp only [modLast, toksL, cnt, List.count_append] at this ⊢
        omega
  apply Node.induct
    (P := fun n => cnt a (toks sp (mod m n)) ≤ cnt a (toks sp n) + cnt a (toks sp m))
    (Q := fun w => cnt a (toksW sp (modW m w)) ≤ cnt a (toksW sp w) + cnt a (toks sp m))
  · intro t s e M hM
    cases M with
    | none => tokc; omega
    | some x =>
      have := hM x rfl
      tokc
      omega
  all_goals intros
  case text l d _ h =>
    have := hL d h
    tokc; omega
  case discourse d h =>
    have := hL d h
    tokc; omega
  case terms d h =>
    have := hL d h
    tokc; omega
  case paren kio ki d _ _ h =>
    have := hL d h
    tokc; omega
  case sentence je st da h1 h2 h3 =>
    cases da with
    | none => tokc; omega
    | some w => have := h3 w rfl; tokc; omega
  case predication k p ts na h1 h2 h3 =>
    cases na with
    | some w => have := h3 w rfl; tokc; omega
    | none =>
      cases ts with
      | none => tokc; omega
      | some l => have := hL l (h2 l rfl); tokc; omega
  case mi x ga ph h1 h2 h3 =>
    cases ga with
    | some w => have := h2 w rfl; tokc; omega
    | none => tokc; omega
  case po x ga ph h1 h2 h3 =>
    cases ga with
    | some w => have := h2 w rfl; tokc; omega
    | none => tokc; omega
  case predArg id f q p rel h1 h2 h3 h4 =>
    cases rel with
    | some w => have := h4 w rfl; tokc; omega
    | none => tokc; omega
  case cop k to0 to1 ru l r _ _ _ _ _ => cases to0 <;> (tokc; omega)
  case word k w h =>
    obtain ⟨t, s, e, M⟩ := w
    have hk : toks sp (.word k (.mk t s e (modO m M))) = (if decide (k = .space) = sp then [⟨t, s, e⟩] else []) ++ toksO sp (modO m M) := by
      simp only [toks]
    have hk' : toks sp (.word k (.mk t s e M)) = (if decide (k = .space) = sp then [⟨t, s, e⟩] else []) ++ toksO sp M := by simp only [toks]
    simp only [mod, modW, toksW, cnt, hk, hk', List.count_append] at h ⊢
    omega
  all_goals (tokc; omega)

/-! ## Values of actions -/

/-- The words in a value. -/
def vtoks (sp : Bool) : Val → List Tok
  | .nil => []
  | .str _ => []
  | .word w => toksW sp w
  | .node n => toks sp n
  | .nodes l => toksL sp l
  | .bar w r => toksW sp w ++ toks sp r
  | .con a b => toksW sp a ++ toksW sp b
  | .cop1 l w r => toks sp l ++ toksW sp w ++ toks sp r
  | .part w d => toksW sp w ++ toksL sp d

def vtoksL (sp : Bool) : List Val → List Tok
  | [] => []
  | v :: vs => vtoks sp v ++ vtoksL sp vs

theorem v_nil : vtoks sp .nil = [] := rfl
theorem v_str (s) : vtoks sp (.str s) = [] := rfl
theorem v_word (w) : vtoks sp (.word w) = toksW sp w := rfl
theorem v_node (w) : vtoks sp (.node w) = toks sp w := rfl
theorem v_nodes (w) : vtoks sp (.nodes w) = toksL sp w := rfl
theorem v_bar (w r) : vtoks sp (.bar w r) = toksW sp w ++ toks sp r := rfl
theorem v_con (a b) : vtoks sp (.con a b) = toksW sp a ++ toksW sp b := rfl
theorem v_cop1 (l w r) : vtoks sp (.cop1 l w r) = toks sp l ++ toksW sp w ++ toks sp r := rfl
theorem v_part (w d) : vtoks sp (.part w d) = toksW sp w ++ toksL sp d := rfl

theorem asNode_toks {v : Val} {n : Node} (h : v.asNode = some n) : vtoks sp v = toks sp n := by
  cases v <;> simp [Val.asNode] at h
  subst h; rfl
theorem asWord_toks {v : Val} {n : Word} (h : v.asWord = some n) : vtoks sp v = toksW sp n := by
  cases v <;> simp [Val.asWord] at h
  subst h; rfl
theorem asNodeO_toks {v : Val} {n : Option Node} (h : v.asNode? = some n) : vtoks sp v = toksO sp n := by
  cases v <;> simp [Val.asNode?] at h <;> subst h <;> rfl
theorem asWordO_toks {v : Val} {n : Option Word} (h : v.asWord? = some n) : vtoks sp v = toksWO sp n := by
  cases v <;> simp [Val.asWord?] at h <;> subst h <;> rfl
theorem asNodes_toks {v : Val} {n : List Node} (h : v.asNodes? = some n) : vtoks sp v = toksL sp n := by
  cases v <;> simp [Val.asNodes?] at h <;> subst h <;> rfl

grind_pattern asNode_toks => v.asNode, some n, vtoks sp v
grind_pattern asWord_toks => v.asWord, some n, vtoks sp v
grind_pattern asNodeO_toks => v.asNode?, some n, vtoks sp v
grind_pattern asWordO_toks => v.asWord?, some n, vtoks sp v
grind_pattern asNodes_toks => v.asNodes?, some n, vtoks sp v

theorem modOpt_le (a : Tok) (o : Option Node) (n : Node) : cnt a (toks sp (modOpt o n)) ≤ cnt a (toks sp n) + cnt a (toksO sp o) := by
  cases o with
  | none => simp [modOpt]
  | some x => exact (mod_le a x).1 n

theorem modWOpt_le (a : Tok) (o : Option Node) (n : Word) : cnt a (toksW sp (modWOpt o n)) ≤ cnt a (toksW sp n) + cnt a (toksO sp o) := by
  cases o with
  | none => simp [modWOpt]
  | some x => exact (mod_le a x).2 n

theorem modLastOpt_le (a : Tok) (o : Option Node) (n : List Node) :
    cnt a (toksL sp (modLastOpt o n)) ≤ cnt a (toksL sp n) + cnt a (toksO sp o) := by
  cases o with
  | none => simp [modLastOpt]
  | some x =>
    have := (mod_le (sp := sp) a x).1 (.terms n)
    simpa [mod, toks, modLastOpt, toksO] using this

theorem modOpt_predication {o : Option Node} {n p : Node} {k ts na} (h : modOpt o n = .predication k p ts na) (a : Tok) :
    List.count a (toks sp p) + List.count a (toksTO sp ts) + List.count a (toksWO sp na) ≤
      List.count a (toks sp n) + List.count a (toksO sp o) := by
  have := modOpt_le (sp := sp) a o n
  rw [h] at this
  simpa [toks, cnt, Nat.add_assoc] using this

theorem modOpt_predArg {o : Option Node} {n p : Node} {id f q rel} (h : modOpt o n = .predArg id f q p rel) (a : Tok) :
    List.count a (toksWO sp f) + List.count a (toksWO sp q) + List.count a (toks sp p) +
      List.count a (toksO sp rel) ≤ List.count a (toks sp n) + List.count a (toksO sp o) := by
  have := modOpt_le (sp := sp) a o n
  rw [h] at this
  simp only [toks, cnt, List.count_append] at this
  omega

/-- The actions that make words. -/
def makes (sp : Bool) : Act → Bool
  | .word => !sp
  | .wordNode k => decide (decide (k = .space) = sp)
  | .wordMod => true
  | _ => false

/-- The other actions make no words. -/
theorem act_le {f : Act} {p q : Nat} {vs : List Val} {v : Val} (hf : makes sp f = false) (h : runAct f p q vs = .ok v) (a : Tok) :
    cnt a (vtoks sp v) ≤ cnt a (vtoksL sp vs) := by
  unfold runAct at h
  cases sp <;> split at h <;> (first | (cases h; done) | (cases hf; done) | skip) <;>
    (repeat' split at h) <;> (first | (cases h; done) | skip) <;> injection h with h <;> subst h
  all_goals
    simp only [vtoksL, v_nil, v_str, v_word, v_node, v_nodes, v_bar, v_con, v_cop1, v_part, toks, toksL, toksTO, cnt, List.count_append, List.count_nil]
    try have := fun sp => modOpt_predication (sp := sp) ‹modOpt _ _ = .predication _ _ _ _› a
    try have := fun sp => modOpt_predArg (sp := sp) ‹modOpt _ _ = .predArg _ _ _ _ _› a
    grind [modOpt_le, modWOpt_le,
      modLastOpt_le, toksO, toksWO, toks, toksTO, toksW, toksL, v_nil, makes]

theorem cat_le (a : Tok) (v w : Val) : cnt a (vtoks sp (cat v w)) ≤ cnt a (vtoks sp v) + cnt a (vtoks sp w) := by
  unfold cat
  split <;> simp [vtoks]

theorem cons_le (a : Tok) (v w : Val) : cnt a (vtoks sp (cons v w)) ≤ cnt a (vtoks sp v) + cnt a (vtoks sp w) := by
  unfold Verif.Parse.cons
  split <;> simp [vtoks, toksL]

theorem vtoksL_app (a : Tok) (vs ws : List Val) : cnt a (vtoksL sp (vs ++ ws)) = cnt a (vtoksL sp vs) + cnt a (vtoksL sp ws) := by
  induction vs with
  | nil => simp [vtoksL]
  | cons v vs ih =>
    simp only [List.cons_append, vtoksL, cnt, List.count_append] at ih ⊢
    omega


/-! ## Where words come from -/

/-- The rules for syllables with the tones of predicates. -/
def tones : List Nat := [126, 127, 128, 129, 130, 131]

/-- What `predicate_word<syllable>` reads (toaq.peggy:362-365). -/
def predWord (y : Nat) : Expr Act :=
  .grp (.alt (.seq (.ref y) (.plus (.ref 125))) (.seq (.not (.ref 101)) (.ref y)))

/-- What is read for a word that an action makes: a predicate word, or a particle. -/
def madeBy : Expr Act → Bool
  | .lab (.grp (.alt (.seq (.ref x) (.plus (.ref c))) (.seq (.not (.ref f)) (.ref y)))) =>
    x == y && c == 125 && f == 101 && tones.contains x
  | .seq (.and (.ref x)) (.lab (.ref y)) => (Classes.wordClass x y).isSome
  | _ => false

/-- What is read for a word or a space, and the action that makes it. -/
def made (sp : Bool) (e : Expr Act) : Act → Bool
  | .wordMod => false
  | f => !makes sp f || (if sp then decide (.act f e = r73) else madeBy e)

/-- moq and the question marks after it (toaq.peggy:395). -/
def moqSeq : Expr Act := .seq (.lab (.ref 97)) (.lab (.grp (.opt (.ref 223))))

/-- All words are made so, and question marks are read after moq only. -/
def prov (sp : Bool) : Expr Act → Bool
  | .term _ => true
  | .ref r => r != 79 && !(sp && r == 223)
  | .seq a b => decide (.seq a b = moqSeq) || (prov sp a && prov sp b)
  | .alt a b => prov sp a && prov sp b
  | .opt a => prov sp a
  | .plus a => prov sp a
  | .star a => prov sp a
  | .not _ => true
  | .and _ => true
  | .lab a => prov sp a
  | .grp a => prov sp a
  | .act f a => made sp a f && prov sp a

theorem rules_table : ∀ sp, (List.range 403).all (fun r => r == 79 || (sp && r == 223) || prov sp (bodies.get r)) = true := by decide +kernel

theorem rules_prov (r : Nat) (hn : r ≠ 79) (hq : ¬ (sp = true ∧ r = 223)) : prov sp (toaq.body r) = true := by
  have h := List.all_eq_true.1 (rules_table sp)
  by_cases hr : r < 403
  · have := h r (List.mem_range.2 hr)
    show prov sp (bodies.get r) = true
    simpa [hn, hq] using this
  · have h402 := h 402 (List.mem_range.2 (by decide))
    show prov sp (bodies.get r) = true
    rw [bodies.get_ge r 402 (by have := bounds.1; omega) (by have := bounds.1; omega)]
    simpa using h402

variable {U : Uni} {I : Input}

/-- The word is a predicate word or a particle of the text, the space is read by the rules for spaces and question marks. -/
inductive Src (U : Uni) (I : Input) : Bool → Tok → Prop
  | pred {n y t s e l} : s ≤ I.len → y ∈ tones → ev U toaq I (actAlg I) n (predWord y) s = some (.ok e (.str t, l)) → Src U I false ⟨t, s, e⟩
  | part {n x y t s e l r u} : s ≤ I.len → (Classes.wordClass x y).isSome → ev U toaq I (actAlg I) n (.ref x) s = some (.ok r u) →
    ev U toaq I (actAlg I) n (.ref y) s = some (.ok e (.str t, l)) → Src U I false ⟨t, s, e⟩
  | space {n t s e x} : ev U toaq I (actAlg I) n (toaq.body 73) s = some (.ok e x) → Src U I true ⟨t, s, e⟩
  | ques {n n' t s e x p y} : ev U toaq I (actAlg I) n (.ref 97) p = some (.ok s y) →
    ev U toaq I (actAlg I) n' (.ref 223) s = some (.ok e x) → Src U I true ⟨t, s, e⟩

theorem new_word {f : Act} {p q : Nat} {vs : List Val} {v : Val} (hf : makes sp f = true) (hm : f ≠ .wordMod)
    (h : runAct f p q vs = .ok v) : ∃ t, vs = [.str t] ∧ vtoks sp v = [⟨t, p, q⟩] := by
  cases f <;> simp [makes] at hf hm
  · match vs, h with
    | [], h => simp [runAct] at h
    | [x], h =>
      simp only [runAct] at h
      split at h
      · rename_i t ht
        injection h with h
        subst h
        refine ⟨t, ?_, by simp [vtoks, toksW, toksO, hf]⟩
        cases x <;> simp [Val.asStr] at ht
        rw [ht]
      · cases h
    | _ :: _ :: _, h => simp [runAct] at h
  · match vs, h with
    | [], h => simp [runAct] at h
    | [x], h =>
      simp only [runAct] at h
      split at h
      · rename_i t ht
        injection h with h
        subst h
        refine ⟨t, ?_, by simp [vtoks, toks, toksO, hf]⟩
        cases x <;> simp [Val.asStr] at ht
        rw [ht]
      · cases h
    | _ :: _ :: _, h => simp [runAct] at h

theorem madeBy_ok {n e p q y t} (hp : p ≤ I.len) (hm : madeBy e = true) (h : ev U toaq I (actAlg I) n e p = some (.ok q y)) (hy : y.2 = [.str t]) :
    Src U I false ⟨t, p, q⟩ := by
  unfold madeBy at hm
  split at hm
  · rename_i x c f z
    simp only [Bool.and_eq_true, beq_iff_eq] at hm
    obtain ⟨⟨⟨rfl, rfl⟩, rfl⟩, hx⟩ := hm
    cases n with
    | zero => rw [ev_0] at h; cases h
    | succ n =>
    obtain ⟨w, hw, rfl⟩ := ev_lab h
    obtain ⟨w, l⟩ := w
    simp only [actAlg, List.cons.injEq, and_true] at hy
    subst hy
    exact .pred hp (by simpa using hx) hw
  · rename_i x z
    cases n with
    | zero => rw [ev_0] at h; cases h
    | succ n =>
    obtain ⟨m, y1, y2, h1, h2, rfl⟩ := ev_seq h
    cases n with
    | zero => rw [ev_0] at h1; cases h1
    | succ n =>
    obtain ⟨rfl, rfl, r, u, h3⟩ := ev_and h1
    obtain ⟨⟨w, l⟩, hw, rfl⟩ := ev_lab h2
    simp only [actAlg, List.nil_append, List.cons.injEq, and_true] at hy
    subst hy
    exact .part hp hm h3 hw
  · cases hm

theorem cnt_mem {a : Tok} {l : List Tok} : a ∈ l ↔ 0 < cnt a l := (List.count_pos_iff).symm

/-- The question marks after moq. -/
theorem moq_src {n p m q y z} (hy : ev U toaq I (actAlg I) n (.lab (.ref 97)) p = some (.ok m y))
    (hz : ev U toaq I (actAlg I) n (.lab (.grp (.opt (.ref 223)))) m = some (.ok q z)) (a : Tok) :
    (a ∈ vtoks true z.1 → Src U I true a) ∧ (a ∈ vtoksL true z.2 → Src U I true a) := by
  have up : ∀ {n e p r}, ev U toaq I (actAlg I) n e p = some r → ev U toaq I (actAlg I) (n + 1) e p = some r :=
    fun h => ev_mono U toaq I (actAlg I) (Nat.le_succ _) h
  obtain ⟨y', hy1, _⟩ := ev_lab (up hy)
  obtain ⟨z1, hz1, rfl⟩ := ev_lab (up (up (up (up (up hz)))))
  obtain ⟨z2, hz2, hz0⟩ := ev_grp hz1
  have hz0 : z1 = z2 := hz0
  subst hz0
  have key : a ∈ vtoks true z1.1 → Src U I true a := by
    intro ha
    rcases ev_opt hz2 with ⟨_, rfl⟩ | hz3
    · simp [actAlg, vtoks] at ha
    · obtain ⟨x, hx, rfl⟩ := ev_ref hz3
      have hb : toaq.body 223 = .act (.wordNode .space) (.lab (.grp (.plus (.term (.lit '?'))))) := rfl
      rw [hb] at hx
      obtain ⟨u, hu, hr⟩ := ev_act hx
      simp only [actAlg] at hr
      split at hr
      · rename_i v hv
        injection hr with hr
        obtain ⟨t, _, h2⟩ := new_word (sp := true) (by decide) (by decide) hv
        subst hr
        simp only [actAlg, h2, List.mem_cons, List.not_mem_nil, or_false] at ha
        subst ha
        exact .ques hy1 hz3
      · cases hr
  exact ⟨key, by simpa [actAlg, vtoksL] using key⟩

theorem ev_src : ∀ n e p q x, p ≤ I.len → prov sp e = true → ev U toaq I (actAlg I) n e p = some (.ok q x) →
    ∀ a, (a ∈ vtoks sp x.1 → Src U I sp a) ∧ (a ∈ vtoksL sp x.2 → Src U I sp a) := by
  intro n
  induction n with
  | zero => intro e p q x _ _ h; rw [ev_0] at h; cases h
  | succ n ih =>
    intro e p q x hp hk h a
    have rep : ∀ {b m y m' z}, prov sp b = true → ev U toaq I (actAlg I) n b p = some (.ok m y) →
        ev U toaq I (actAlg I) n (.star b) m = some (.ok m' z) → a ∈ vtoks sp (cons y.1 z.1) → Src U I sp a := by
      intro b m y m' z hb hy hz ha
      have h1 := (ih _ _ _ _ hp hb hy a).1
      have h2 := (ih (.star b) _ _ _ (Places.ev_span hp hy).2.1 (by simpa [prov] using hb) hz a).1
      rw [cnt_mem] at h1 h2 ha
      have := cons_le (sp := sp) a y.1 z.1
      by_cases h0 : 0 < cnt a (vtoks sp y.1)
      · exact h1 h0
      · exact h2 (by omega)
    cases e with
    | term c =>
      obtain ⟨_, rfl⟩ := ev_term h
      simp [actAlg, vtoks, vtoksL]
    | ref r =>
      obtain ⟨y, hy, rfl⟩ := ev_ref h
      have hr := rules_prov (sp := sp) r (by simp [prov] at hk; exact hk.1) (by simp [prov] at hk; grind)
      exact ⟨(ih _ _ _ _ hp hr hy a).1, by simp [actAlg, vtoksL]⟩
    | seq c d =>
      obtain ⟨m, y, z, hy, hz, rfl⟩ := ev_seq h
      simp only [prov, Bool.or_eq_true, Bool.and_eq_true, decide_eq_true_eq] at hk
      have h12 : ((a ∈ vtoks sp y.1 → Src U I sp a) ∧ (a ∈ vtoksL sp y.2 → Src U I sp a)) ∧
          ((a ∈ vtoks sp z.1 → Src U I sp a) ∧ (a ∈ vtoksL sp z.2 → Src U I sp a)) := by
        rcases hk with hk | hk
        · injection hk with hk1 hk2
          subst hk1 hk2
          refine ⟨ih _ _ _ _ hp (by cases sp <;> rfl) hy a, ?_⟩
          cases sp with
          | false => exact ih _ _ _ _ (Places.ev_span hp hy).2.1 (by rfl) hz a
          | true => exact moq_src hy hz a
        · exact ⟨ih _ _ _ _ hp hk.1 hy a, ih _ _ _ _ (Places.ev_span hp hy).2.1 hk.2 hz a⟩
      have h1 := h12.1
      have h2 := h12.2
      simp only [actAlg, cnt_mem] at h1 h2 ⊢
      have e3 := cat_le (sp := sp) a y.1 z.1
      have e5 := vtoksL_app (sp := sp) a y.2 z.2
      constructor
      · intro ha
        by_cases h0 : 0 < cnt a (vtoks sp y.1)
        · exact h1.1 h0
        · exact h2.1 (by omega)
      · intro ha
        by_cases h0 : 0 < cnt a (vtoksL sp y.2)
        · exact h1.2 h0
        · exact h2.2 (by omega)
    | alt c d =>
      simp only [prov, Bool.and_eq_true] at hk
      rcases ev_alt h with h | h
      · exact ih _ _ _ _ hp hk.1 h a
      · exact ih _ _ _ _ hp hk.2 h a
    | opt c =>
      rcases ev_opt h with ⟨rfl, rfl⟩ | h
      · simp [actAlg, vtoks, vtoksL]
      · exact ih c _ _ _ hp hk h a
    | plus c =>
      rw [ev_s] at h
      simp only [evStep] at h
      split at h
      · rename_i m y hy
        split at h
        · rename_i m' z hz
          injection h with h
          injection h with h1 h2
          subst h1 h2
          exact ⟨rep (by simpa [prov] using hk) hy hz, by simp [actAlg, vtoksL]⟩
        · rename_i hne
          exact absurd h (hne _ _)
      · rename_i hne
        exact absurd h (hne _ _)
    | star c =>
      rw [ev_s] at h
      simp only [evStep] at h
      split at h
      · rename_i m y hy
        split at h
        · rename_i m' z hz
          injection h with h
          injection h with h1 h2
          subst h1 h2
          exact ⟨rep (by simpa [prov] using hk) hy hz, by simp [actAlg, vtoksL]⟩
        · rename_i hne
          exact absurd h (hne _ _)
      · injection h with h
        injection h with h1 h2
        subst h1 h2
        simp [actAlg, vtoks, vtoksL]
      · rename_i hne _
        exact absurd h (hne _ _)
    | not c =>
      obtain ⟨_, rfl, _⟩ := ev_not h
      simp [actAlg, vtoks, vtoksL]
    | and c =>
      obtain ⟨_, rfl, _⟩ := ev_and h
      simp [actAlg, vtoks, vtoksL]
    | lab c =>
      obtain ⟨y, hy, rfl⟩ := ev_lab h
      have h1 := ih c _ _ _ hp hk hy a
      exact ⟨h1.1, by simpa [actAlg, vtoksL] using h1.1⟩
    | grp c =>
      obtain ⟨y, hy, rfl⟩ := ev_grp h
      exact ih c _ _ _ hp hk hy a
    | act f c =>
      obtain ⟨y, hy, hr⟩ := ev_act h
      have hr' : ∃ v, runAct f p q y.2 = .ok v ∧ x = (v, []) := by
        simp only [actAlg] at hr
        split at hr
        · rename_i v hv
          injection hr with hr
          exact ⟨v, hv, hr.symm⟩
        · cases hr
      obtain ⟨v, hv, rfl⟩ := hr'
      simp only [prov, Bool.and_eq_true] at hk
      refine ⟨fun ha => ?_, by simp [vtoksL]⟩
      cases hf : makes sp f with
      | false =>
        have e1 := act_le (sp := sp) hf hv a
        refine (ih _ _ _ _ hp hk.2 hy a).2 ?_
        rw [cnt_mem] at ha ⊢
        simp only at ha
        omega
      | true =>
        have hm : f ≠ .wordMod ∧ (if sp then decide (.act f c = r73) else madeBy c) = true := by
          cases f <;> simp_all [made]
        obtain ⟨t, h1, h2⟩ := new_word hf hm.1 hv
        simp only [h2, List.mem_cons, List.not_mem_nil, or_false] at ha
        subst ha
        cases sp with
        | false => exact madeBy_ok hp hm.2 hy h1
        | true =>
          have h3 : .act f c = r73 := by simpa using hm.2
          exact .space (x := (v, [])) (n := n + 1) (by rw [h3] at h; exact h)

end Prov
end Verif.Parse
