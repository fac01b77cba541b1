/-
The words for what was wanted, as the Fail functions write them (`peg.Fail{Pos: …, Want: …}` and
`failure.Want = …`). Generated by tools/gen_wants.py from /repo/ast/toaq.go; do not edit.
-/
import Verif.Peg.Utf8

namespace Verif.Parse
open Verif.Peg

/-- /repo/ast/toaq.go: `Want: …` in every Fail function, in the order of the source; the rules in the order of
toaq.go:10-414. -/
def wantTable : List (List Bytes) := [
  -- 
  [],
  -- 
  [],
  -- 
  [],
  -- 
  [],
  -- 
  [],
  -- 
  [],
  -- 
  [],
  -- 
  [],
  -- 
  [],
  -- 
  [],
  -- 
  [],
  -- 
  [],
  -- 
  [],
  -- 
  [],
  -- 
  [],
  -- 
  [],
  -- 
  [],
  -- 
  [],
  -- 
  [],
  -- 
  [],
  -- 
  [],
  -- 
  [],
  -- 
  [],
  -- 
  [],
  -- 
  [],
  -- 
  [],
  -- 
  [],
  -- 
  [],
  -- 
  [],
  -- 
  [],
  -- 
  [],
  -- 
  [],
  -- 
  [],
  -- 
  [],
  -- 
  [],
  -- 
  [],
  -- 
  [],
  -- 
  [],
  -- 
  [],
  -- 
  [],
  -- 
  [],
  -- 
  [],
  -- 
  [],
  -- 
  [],
  -- 
  [],
  -- 
  [],
  -- 
  [],
  -- 
  [],
  -- 
  [],
  -- 
  [],
  -- 
  [],
  -- 
  [],
  -- 
  [],
  -- 
  [],
  -- 
  [],
  -- 
  [],
  -- 
  [],
  -- 
  [],
  -- 
  [],
  -- 
  [],
  -- 
  [],
  -- 
  [],
  -- 
  [],
  -- 
  [],
  -- 
  [],
  -- 
  [],
  -- 
  [],
  -- 
  [],
  -- 
  [],
  -- 
  [],
  -- 
  [],
  -- 
  [],
  -- 
  [],
  -- 
  [],
  -- 
  [],
  -- 
  [],
  -- 
  [],
  -- 
  [],
  -- 
  [],
  -- 
  [],
  -- !function_word
  [[33, 102, 117, 110, 99, 116, 105, 111, 110, 95, 119, 111, 114, 100]],
  -- !toned_function_word &function_word
  [[33, 116, 111, 110, 101, 100, 95, 102, 117, 110, 99, 116, 105, 111, 110, 95, 119, 111, 114, 100],
   [38, 102, 117, 110, 99, 116, 105, 111, 110, 95, 119, 111, 114, 100]],
  -- !neutral_syllable
  [[33, 110, 101, 117, 116, 114, 97, 108, 95, 115, 121, 108, 108, 97, 98, 108, 101]],
  -- 
  [],
  -- &KU
  [[38, 75, 85]],
  -- &TEO
  [[38, 84, 69, 79]],
  -- &GA
  [[38, 71, 65]],
  -- &NA
  [[38, 78, 65]],
  -- &KEO
  [[38, 75, 69, 79]],
  -- &BI
  [[38, 66, 73]],
  -- &JU
  [[38, 74, 85]],
  -- &KIO
  [[38, 75, 73, 79]],
  -- &KI
  [[38, 75, 73]],
  -- &HU
  [[38, 72, 85]],
  -- &GO
  [[38, 71, 79]],
  -- &RA
  [[38, 82, 65]],
  -- &DA
  [[38, 68, 65]],
  -- &MOQ
  [[38, 77, 79, 81]],
  -- &TU
  [[38, 84, 85]],
  -- &BEI
  [[38, 66, 69, 73]],
  -- &TO
  [[38, 84, 79]],
  -- 
  [],
  -- &(tone? boundary)
  [[38, 40, 116, 111, 110, 101, 63, 32, 98, 111, 117, 110, 100, 97, 114, 121, 41]],
  -- &(tone? boundary)
  [[38, 40, 116, 111, 110, 101, 63, 32, 98, 111, 117, 110, 100, 97, 114, 121, 41]],
  -- &((questions/tone)? boundary)
  [[38, 40, 40, 113, 117, 101, 115, 116, 105, 111, 110, 115, 47, 116, 111, 110, 101, 41, 63, 32, 98, 111, 117, 110, 100, 97, 114, 121, 41]],
  -- &(tone? boundary)
  [[38, 40, 116, 111, 110, 101, 63, 32, 98, 111, 117, 110, 100, 97, 114, 121, 41]],
  -- &(tone? boundary)
  [[38, 40, 116, 111, 110, 101, 63, 32, 98, 111, 117, 110, 100, 97, 114, 121, 41]],
  -- &(tone? boundary)
  [[38, 40, 116, 111, 110, 101, 63, 32, 98, 111, 117, 110, 100, 97, 114, 121, 41]],
  -- &(tone? boundary)
  [[38, 40, 116, 111, 110, 101, 63, 32, 98, 111, 117, 110, 100, 97, 114, 121, 41]],
  -- &(tone? boundary)
  [[38, 40, 116, 111, 110, 101, 63, 32, 98, 111, 117, 110, 100, 97, 114, 121, 41]],
  -- &(tone? boundary)
  [[38, 40, 116, 111, 110, 101, 63, 32, 98, 111, 117, 110, 100, 97, 114, 121, 41]],
  -- &(tone? boundary)
  [[38, 40, 116, 111, 110, 101, 63, 32, 98, 111, 117, 110, 100, 97, 114, 121, 41]],
  -- &(tone? boundary)
  [[38, 40, 116, 111, 110, 101, 63, 32, 98, 111, 117, 110, 100, 97, 114, 121, 41]],
  -- &(tone? boundary)
  [[38, 40, 116, 111, 110, 101, 63, 32, 98, 111, 117, 110, 100, 97, 114, 121, 41]],
  -- &(tone? boundary)
  [[38, 40, 116, 111, 110, 101, 63, 32, 98, 111, 117, 110, 100, 97, 114, 121, 41]],
  -- &(tone? boundary)
  [[38, 40, 116, 111, 110, 101, 63, 32, 98, 111, 117, 110, 100, 97, 114, 121, 41]],
  -- &(tone? boundary)
  [[38, 40, 116, 111, 110, 101, 63, 32, 98, 111, 117, 110, 100, 97, 114, 121, 41]],
  -- &(tone? boundary)
  [[38, 40, 116, 111, 110, 101, 63, 32, 98, 111, 117, 110, 100, 97, 114, 121, 41]],
  -- &(tone? boundary)
  [[38, 40, 116, 111, 110, 101, 63, 32, 98, 111, 117, 110, 100, 97, 114, 121, 41]],
  -- &(tone? boundary)
  [[38, 40, 116, 111, 110, 101, 63, 32, 98, 111, 117, 110, 100, 97, 114, 121, 41]],
  -- &(tone? boundary)
  [[38, 40, 116, 111, 110, 101, 63, 32, 98, 111, 117, 110, 100, 97, 114, 121, 41]],
  -- &boundary
  [[38, 98, 111, 117, 110, 100, 97, 114, 121]],
  -- &(tone? boundary)
  [[38, 40, 116, 111, 110, 101, 63, 32, 98, 111, 117, 110, 100, 97, 114, 121, 41]],
  -- &boundary
  [[38, 98, 111, 117, 110, 100, 97, 114, 121]],
  -- &(questions boundary/boundary)
  [[38, 40, 113, 117, 101, 115, 116, 105, 111, 110, 115, 32, 98, 111, 117, 110, 100, 97, 114, 121, 47, 98, 111, 117, 110, 100, 97, 114, 121, 41]],
  -- 
  [],
  -- 
  [],
  -- 
  [],
  -- 
  [],
  -- 
  [],
  -- 
  [],
  -- 
  [],
  -- 
  [],
  -- 
  [],
  -- 
  [],
  -- 
  [],
  -- 
  [],
  -- 
  [],
  -- 
  [],
  -- 
  [],
  -- 
  [],
  -- 
  [],
  -- 
  [],
  -- 
  [],
  -- 
  [],
  -- 
  [],
  -- 
  [],
  -- 
  [],
  -- [āĀ]
  [[91, 196, 129, 196, 128, 93]],
  -- [ūŪ]
  [[91, 197, 171, 197, 170, 93]],
  -- [īĪ]
  [[91, 196, 171, 196, 170, 93]],
  -- [ōŌ]
  [[91, 197, 141, 197, 140, 93]],
  -- [ēĒ]
  [[91, 196, 147, 196, 146, 93]],
  -- "\u0304"
  [[34, 92, 117, 48, 51, 48, 52, 34]],
  -- [\-1]
  [[91, 92, 45, 49, 93]],
  -- [áÁ]
  [[91, 195, 161, 195, 129, 93]],
  -- [úÚ]
  [[91, 195, 186, 195, 154, 93]],
  -- [íÍ]
  [[91, 195, 173, 195, 141, 93]],
  -- [óÓ]
  [[91, 195, 179, 195, 147, 93]],
  -- [éÉ]
  [[91, 195, 169, 195, 137, 93]],
  -- "\u0301"
  [[34, 92, 117, 48, 51, 48, 49, 34]],
  -- [/2]
  [[91, 47, 50, 93]],
  -- [ǎǍăĂ]
  [[91, 199, 142, 199, 141, 196, 131, 196, 130, 93]],
  -- [ǔǓŭŬ]
  [[91, 199, 148, 199, 147, 197, 173, 197, 172, 93]],
  -- [ǐǏĭĬ]
  [[91, 199, 144, 199, 143, 196, 173, 196, 172, 93]],
  -- [ǒǑŏŎ]
  [[91, 199, 146, 199, 145, 197, 143, 197, 142, 93]],
  -- [ěĚĕĔ]
  [[91, 196, 155, 196, 154, 196, 149, 196, 148, 93]],
  -- "\u030c"
  [[34, 92, 117, 48, 51, 48, 99, 34]],
  -- "\u0306"
  [[34, 92, 117, 48, 51, 48, 54, 34]],
  -- [V3]
  [[91, 86, 51, 93]],
  -- [ảẢ]
  [[91, 225, 186, 163, 225, 186, 162, 93]],
  -- [ủỦ]
  [[91, 225, 187, 167, 225, 187, 166, 93]],
  -- [ỉỈ]
  [[91, 225, 187, 137, 225, 187, 136, 93]],
  -- [ỏỎ]
  [[91, 225, 187, 143, 225, 187, 142, 93]],
  -- [ẻẺ]
  [[91, 225, 186, 187, 225, 186, 186, 93]],
  -- "\u0309"
  [[34, 92, 117, 48, 51, 48, 57, 34]],
  -- [?4]
  [[91, 63, 52, 93]],
  -- [âÂ]
  [[91, 195, 162, 195, 130, 93]],
  -- [ûÛ]
  [[91, 195, 187, 195, 155, 93]],
  -- [îÎ]
  [[91, 195, 174, 195, 142, 93]],
  -- [ôÔ]
  [[91, 195, 180, 195, 148, 93]],
  -- [êÊ]
  [[91, 195, 170, 195, 138, 93]],
  -- "\u0302"
  [[34, 92, 117, 48, 51, 48, 50, 34]],
  -- [5\^]
  [[91, 53, 92, 94, 93]],
  -- [àÀ]
  [[91, 195, 160, 195, 128, 93]],
  -- [ùÙ]
  [[91, 195, 185, 195, 153, 93]],
  -- [ìÌ]
  [[91, 195, 172, 195, 140, 93]],
  -- [òÒ]
  [[91, 195, 178, 195, 146, 93]],
  -- [èÈ]
  [[91, 195, 168, 195, 136, 93]],
  -- "\u0300"
  [[34, 92, 117, 48, 51, 48, 48, 34]],
  -- [\\6]
  [[91, 92, 92, 54, 93]],
  -- [ãÃ]
  [[91, 195, 163, 195, 131, 93]],
  -- [ũŨ]
  [[91, 197, 169, 197, 168, 93]],
  -- [ĩĨ]
  [[91, 196, 169, 196, 168, 93]],
  -- [õÕ]
  [[91, 195, 181, 195, 149, 93]],
  -- [ẽẼ]
  [[91, 225, 186, 189, 225, 186, 188, 93]],
  -- "\u0303"
  [[34, 92, 117, 48, 51, 48, 51, 34]],
  -- [~7]
  [[91, 126, 55, 93]],
  -- [aA]
  [[91, 97, 65, 93]],
  -- [bB]
  [[91, 98, 66, 93]],
  -- [cC]
  [[91, 99, 67, 93]],
  -- [dD]
  [[91, 100, 68, 93]],
  -- [eE]
  [[91, 101, 69, 93]],
  -- [fF]
  [[91, 102, 70, 93]],
  -- [gG]
  [[91, 103, 71, 93]],
  -- [hH]
  [[91, 104, 72, 93]],
  -- [ıiI]
  [[91, 196, 177, 105, 73, 93]],
  -- [jJ]
  [[91, 106, 74, 93]],
  -- [kK]
  [[91, 107, 75, 93]],
  -- [lL]
  [[91, 108, 76, 93]],
  -- [mM]
  [[91, 109, 77, 93]],
  -- [nN]
  [[91, 110, 78, 93]],
  -- [oO]
  [[91, 111, 79, 93]],
  -- [pP]
  [[91, 112, 80, 93]],
  -- [qQ]
  [[91, 113, 81, 93]],
  -- [rR]
  [[91, 114, 82, 93]],
  -- [sS]
  [[91, 115, 83, 93]],
  -- [tT]
  [[91, 116, 84, 93]],
  -- [uU]
  [[91, 117, 85, 93]],
  -- [wW]
  [[91, 119, 87, 93]],
  -- [yY]
  [[91, 121, 89, 93]],
  -- [\t\n\r .,:!] [\t\n\r .,:!]
  [[91, 92, 116, 92, 110, 92, 114, 32, 46, 44, 58, 33, 93],
   [91, 92, 116, 92, 110, 92, 114, 32, 46, 44, 58, 33, 93]],
  -- !tone . &{ func() bool { r, _ := peg.DecodeRuneInString(p); return unicode.IsPunct(r) }() }
  [[33, 116, 111, 110, 101],
   [46],
   [38, 123, 32, 102, 117, 110, 99, 40, 41, 32, 98, 111, 111, 108, 32, 123, 32, 114, 44, 32, 95, 32, 58, 61, 32, 112, 101, 103, 46, 68, 101, 99, 111, 100, 101, 82, 117, 110, 101, 73, 110, 83, 116, 114, 105, 110, 103, 40, 112, 41, 59, 32, 114, 101, 116, 117, 114, 110, 32, 117, 110, 105, 99, 111, 100, 101, 46, 73, 115, 80, 117, 110, 99, 116, 40, 114, 41, 32, 125, 40, 41, 32, 125]],
  -- "?" "?"
  [[34, 63, 34],
   [34, 63, 34]],
  -- . !.
  [[46],
   [33, 46]],
  -- 
  [],
  -- 
  [],
  -- 
  [],
  -- 
  [],
  -- 
  [],
  -- 
  [],
  -- 
  [],
  -- 
  [],
  -- 
  [],
  -- 
  [],
  -- 
  [],
  -- !function_word
  [[33, 102, 117, 110, 99, 116, 105, 111, 110, 95, 119, 111, 114, 100]],
  -- 
  [],
  -- 
  [],
  -- 
  [],
  -- 
  [],
  -- 
  [],
  -- 
  [],
  -- 
  [],
  -- 
  [],
  -- 
  [],
  -- 
  [],
  -- 
  [],
  -- 
  [],
  -- 
  [],
  -- 
  [],
  -- !function_word
  [[33, 102, 117, 110, 99, 116, 105, 111, 110, 95, 119, 111, 114, 100]],
  -- 
  [],
  -- 
  [],
  -- 
  [],
  -- 
  [],
  -- 
  [],
  -- 
  [],
  -- 
  [],
  -- 
  [],
  -- 
  [],
  -- !function_word
  [[33, 102, 117, 110, 99, 116, 105, 111, 110, 95, 119, 111, 114, 100]],
  -- 
  [],
  -- 
  [],
  -- 
  [],
  -- 
  [],
  -- 
  [],
  -- 
  [],
  -- 
  [],
  -- 
  [],
  -- 
  [],
  -- !function_word
  [[33, 102, 117, 110, 99, 116, 105, 111, 110, 95, 119, 111, 114, 100]],
  -- 
  [],
  -- 
  [],
  -- 
  [],
  -- 
  [],
  -- 
  [],
  -- 
  [],
  -- 
  [],
  -- 
  [],
  -- 
  [],
  -- 
  [],
  -- 
  [],
  -- !function_word
  [[33, 102, 117, 110, 99, 116, 105, 111, 110, 95, 119, 111, 114, 100]],
  -- 
  [],
  -- 
  [],
  -- 
  [],
  -- 
  [],
  -- 
  [],
  -- 
  [],
  -- 
  [],
  -- 
  [],
  -- !function_word
  [[33, 102, 117, 110, 99, 116, 105, 111, 110, 95, 119, 111, 114, 100]],
  -- &boundary
  [[38, 98, 111, 117, 110, 100, 97, 114, 121]],
  -- &boundary
  [[38, 98, 111, 117, 110, 100, 97, 114, 121]],
  -- &boundary
  [[38, 98, 111, 117, 110, 100, 97, 114, 121]],
  -- &boundary
  [[38, 98, 111, 117, 110, 100, 97, 114, 121]],
  -- &boundary
  [[38, 98, 111, 117, 110, 100, 97, 114, 121]],
  -- &boundary
  [[38, 98, 111, 117, 110, 100, 97, 114, 121]],
  -- &boundary
  [[38, 98, 111, 117, 110, 100, 97, 114, 121]],
  -- 
  [],
  -- 
  [],
  -- 
  [],
  -- 
  [],
  -- 
  [],
  -- 
  [],
  -- 
  [],
  -- 
  [],
  -- 
  [],
  -- 
  [],
  -- 
  [],
  -- 
  [],
  -- 
  [],
  -- 
  [],
  -- 
  [],
  -- 
  [],
  -- 
  [],
  -- 
  [],
  -- 
  [],
  -- 
  [],
  -- 
  [],
  -- 
  [],
  -- 
  [],
  -- 
  [],
  -- 
  [],
  -- 
  [],
  -- 
  [],
  -- 
  [],
  -- 
  [],
  -- 
  [],
  -- 
  [],
  -- &LU
  [[38, 76, 85]],
  -- 
  [],
  -- 
  [],
  -- 
  [],
  -- 
  [],
  -- 
  [],
  -- 
  [],
  -- 
  [],
  -- 
  [],
  -- 
  [],
  -- 
  [],
  -- 
  [],
  -- 
  [],
  -- 
  [],
  -- 
  [],
  -- 
  [],
  -- 
  [],
  -- 
  [],
  -- 
  [],
  -- 
  [],
  -- 
  [],
  -- 
  [],
  -- 
  [],
  -- 
  [],
  -- 
  [],
  -- &LU
  [[38, 76, 85]],
  -- 
  [],
  -- 
  [],
  -- 
  [],
  -- 
  [],
  -- 
  [],
  -- 
  [],
  -- 
  [],
  -- 
  [],
  -- &LU
  [[38, 76, 85]],
  -- &MI
  [[38, 77, 73]],
  -- &PO
  [[38, 80, 79]],
  -- &MO
  [[38, 77, 79]],
  -- 
  [],
  -- 
  [],
  -- 
  [],
  -- 
  [],
  -- 
  [],
  -- 
  [],
  -- 
  [],
  -- &LU
  [[38, 76, 85]],
  -- &MI
  [[38, 77, 73]],
  -- &PO
  [[38, 80, 79]],
  -- &MO
  [[38, 77, 79]],
  -- 
  [],
  -- 
  [],
  -- &MI
  [[38, 77, 73]],
  -- &PO
  [[38, 80, 79]],
  -- &MO
  [[38, 77, 79]],
  -- 
  [],
  -- 
  [],
  -- &LU
  [[38, 76, 85]],
  -- &MI
  [[38, 77, 73]],
  -- &PO
  [[38, 80, 79]],
  -- &MO
  [[38, 77, 79]],
  -- 
  [],
  -- 
  [],
  -- 
  [],
  -- &LU
  [[38, 76, 85]],
  -- &MI
  [[38, 77, 73]],
  -- &PO
  [[38, 80, 79]],
  -- &MO
  [[38, 77, 79]],
  -- 
  [],
  -- &MI
  [[38, 77, 73]],
  -- &PO
  [[38, 80, 79]],
  -- &MO
  [[38, 77, 79]],
  -- 
  []]

/-- /repo/ast/toaq.go: `failure.Want = …`, the error names of rules. -/
def errorNames : List (Nat × Bytes) := [
  -- ◌̄
  (153, [226, 151, 140, 204, 132]),
  -- ◌́
  (160, [226, 151, 140, 204, 129]),
  -- ◌̌
  (167, [226, 151, 140, 204, 140]),
  -- ◌̆
  (168, [226, 151, 140, 204, 134]),
  -- ◌̉
  (175, [226, 151, 140, 204, 137]),
  -- ◌̂
  (182, [226, 151, 140, 204, 130]),
  -- ◌̀
  (189, [226, 151, 140, 204, 128]),
  -- ◌̃
  (196, [226, 151, 140, 204, 131]),
  -- space
  (221, [115, 112, 97, 99, 101]),
  -- EOF
  (224, [69, 79, 70])]

/-- The error name of a rule. -/
def errorName (r : Nat) : Bytes := (errorNames.lookup r).getD []

end Verif.Parse
