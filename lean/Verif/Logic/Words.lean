/-
The helpers of /repo/logic/interp.go that look at the text of words: hasText, splitVar, wordPred,
connector, quantifier, goPos, poPred, miPred, toString.

Simplification: `strings.ToLower` is the rune-wise `unicode.ToLower`, which is what it computes on
valid UTF-8. A panic is `none`.
-/
import Verif.AST.Model
import Verif.Logic.Basic
import Verif.Logic.Simplify
import Verif.Unicode

namespace Verif.Logic
open Verif.Tone (Str)

/-- `tone.WithTone(s, tone.None)`, which never panics (C06). -/
def untone (s : Str) : Str := (Tone.withTone s Tone.noTone).getD s

/-- interp.go:1122-1128 (one side): ı is read as i, then lower-cased. -/
def fold (U : Uni) (c : Char) : Char := U.lower (if c = 'ı' then 'i' else c)

/-- interp.go:1119-1133: the loop of `hasText`. -/
def sameText (U : Uni) : Str → Str → Bool
  | a :: as, b :: bs => if fold U a ≠ fold U b then false else sameText U as bs
  | [], [] => true
  | _, _ => false

/-- interp.go:1117-1134 `hasText`. -/
def hasText (U : Uni) (w b : Str) : Bool := sameText U (untone w) b

/-- interp.go:1138-1154: `oLetters` and `oTones` zipped, for a given order of map iteration. -/
def oPairs (d : Tone.DMap) : List (Char × Char) :=
  d.flatMap fun trs => trs.2.flatMap fun arr =>
    if arr.1 ≠ 'o' ∧ arr.1 ≠ 'O' then [] else arr.2.map fun e => (e, trs.1)

/-- interp.go:1177 `strings.ContainsRune("aeiıouAEIOUqQ", after)`. -/
def endsNot (c : Char) : Bool := "aeiıouAEIOUqQ".toList.contains c

/-- interp.go:1159-1182 `splitVar`, for a given table of o letters. -/
def splitVarIn (U : Uni) (os : List (Char × Char)) : Str → Option (Char × Str)
  | 'd' :: r :: rest =>
    match os.find? (fun p => p.1 = r) with
    | none => none
    | some p => match rest with
      | after :: _ => if endsNot after then none
        else some (p.2, (['d', 'o'] ++ rest).map U.lower)
      | [] => some (p.2, (['d', 'o'] ++ rest).map U.lower)
  | _ => none

/-- interp.go:1159-1182 `splitVar`. -/
def splitVar (U : Uni) (s : Str) : Option (Char × Str) := splitVarIn U (oPairs Tone.diacritic) s

/-- interp.go:927-930 `isHoaPredicate` on the text of a `WordPredicate`. -/
def isHoa (U : Uni) (s : Str) : Bool := (untone s).map U.lower = ['h', 'o', 'a']

/-- interp.go:1004-1014: the loop of `wordPred`. -/
def wordPredRune (U : Uni) (r : Char) : Str :=
  if r = 'v' then [] else if r = 'ı' then ['i'] else if U.letter r then [r] else []

/-- interp.go:1001-1023 `wordPred`. -/
def wordPred (U : Uni) (s : Str) : Str :=
  let name := ((Tone.toASCII s).map U.lower).flatMap (wordPredRune U)
  if name = "mea".toList then amongName
  else if name = "jeqtu".toList then equalName
  else name

/-- The first alternative of a `switch` on `hasText`. -/
def switchText {α : Type} (U : Uni) (w : Str) : List (Str × α) → Option α
  | [] => none
  | (b, a) :: l => if hasText U w b then some a else switchText U w l

/-- interp.go:1025-1033 `poPred`. -/
def poPred (U : Uni) (w : Str) : Option Str :=
  switchText U w [(['p', 'o'], ['r', 'a', 'q']), (['j', 'e', 'i'], equalName)]

/-- interp.go:1035-1043 `miPred`. -/
def miPred (U : Uni) (w : Str) : Option Node :=
  switchText U w [(['m', 'i'], .swap (.name ['c', 'h', 'u', 'a']) 1), (['s', 'h', 'u'], .name equalName)]

/-- interp.go:1045-1061 `quantifier`. -/
def quantifier (U : Uni) : Option Str → Option Quant
  | none => some .the
  | some w => switchText U w [(['k', 'e'], .the), (['j', 'a'], .lambda), (['s', 'a'], .some),
      (['t', 'u'], .each), (['s', 'i', 'a'], .none), (['h', 'i'], .hi)]

/-- interp.go:1063-1075 `connector`. Both the "bad connector" and the "impossible" panic are
`none`. -/
def connector (U : Uni) (w : Str) : Option Conn :=
  switchText U w [(['r', 'u'], .and), (['r', 'a'], .or), (['r', 'i'], .ri)]

/-- interp.go:1077-1089 `goPos`. -/
def goPos (U : Uni) (w : Str) : Option Nat :=
  switchText U w [(['f', 'i'], 1), (['g', 'o'], 2), (['c', 'u'], 3), (['t', 'a'], 4)]

/-- interp.go:1186-1190: the visitor of `toString`, which appends the text of every `*Word`. -/
def textVisitor : AST.Visitor Str Unit
  | _, some (.word .raw w), s => (s ++ w.T, some ())
  | _, _, s => (s, some ())

/-- `strings.TrimSpace`. -/
def trimSpace (U : Uni) (s : Str) : Str :=
  ((s.dropWhile U.space).reverse.dropWhile U.space).reverse

/-- interp.go:1184-1192 `toString`. -/
def nodeText (U : Uni) (n : AST.Node) : Str := trimSpace U (AST.visit textVisitor n () [])

end Verif.Logic
