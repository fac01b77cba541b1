/-
The names of the rules, as the Node and Fail functions write them (`peg.Node{Name: …}`). Generated by
tools/gen_names.py from /repo/ast/toaq.go; do not edit.
-/
import Verif.Peg.Utf8

namespace Verif.Parse
open Verif.Peg

/-- /repo/ast/toaq.go: `node = &peg.Node{Name: …}` in every Node function, in the order of
toaq.go:10-414. -/
def ruleNames : List Bytes := [
  -- full_text
  [102, 117, 108, 108, 95, 116, 101, 120, 116],
  -- text
  [116, 101, 120, 116],
  -- discourse
  [100, 105, 115, 99, 111, 117, 114, 115, 101],
  -- fragment
  [102, 114, 97, 103, 109, 101, 110, 116],
  -- sentence
  [115, 101, 110, 116, 101, 110, 99, 101],
  -- sentence_1
  [115, 101, 110, 116, 101, 110, 99, 101, 95, 49],
  -- sentence_2
  [115, 101, 110, 116, 101, 110, 99, 101, 95, 50],
  -- sentence_prefix_spaces
  [115, 101, 110, 116, 101, 110, 99, 101, 95, 112, 114, 101, 102, 105, 120, 95, 115, 112, 97, 99, 101, 115],
  -- sentence_3
  [115, 101, 110, 116, 101, 110, 99, 101, 95, 51],
  -- statement
  [115, 116, 97, 116, 101, 109, 101, 110, 116],
  -- statement_1
  [115, 116, 97, 116, 101, 109, 101, 110, 116, 95, 49],
  -- statement_2
  [115, 116, 97, 116, 101, 109, 101, 110, 116, 95, 50],
  -- statement_3
  [115, 116, 97, 116, 101, 109, 101, 110, 116, 95, 51],
  -- predication
  [112, 114, 101, 100, 105, 99, 97, 116, 105, 111, 110],
  -- prenex_spaces
  [112, 114, 101, 110, 101, 120, 95, 115, 112, 97, 99, 101, 115],
  -- prenex
  [112, 114, 101, 110, 101, 120],
  -- predicate
  [112, 114, 101, 100, 105, 99, 97, 116, 101],
  -- predicate_1
  [112, 114, 101, 100, 105, 99, 97, 116, 101, 95, 49],
  -- predicate_2
  [112, 114, 101, 100, 105, 99, 97, 116, 101, 95, 50],
  -- predicate_3
  [112, 114, 101, 100, 105, 99, 97, 116, 101, 95, 51],
  -- serial_predicate
  [115, 101, 114, 105, 97, 108, 95, 112, 114, 101, 100, 105, 99, 97, 116, 101],
  -- terms
  [116, 101, 114, 109, 115],
  -- terms_2
  [116, 101, 114, 109, 115, 95, 50],
  -- term
  [116, 101, 114, 109],
  -- linked_argument
  [108, 105, 110, 107, 101, 100, 95, 97, 114, 103, 117, 109, 101, 110, 116],
  -- linking_word_spaces
  [108, 105, 110, 107, 105, 110, 103, 95, 119, 111, 114, 100, 95, 115, 112, 97, 99, 101, 115],
  -- termset
  [116, 101, 114, 109, 115, 101, 116],
  -- terms_II
  [116, 101, 114, 109, 115, 95, 73, 73],
  -- terms_III
  [116, 101, 114, 109, 115, 95, 73, 73, 73],
  -- terms_IV
  [116, 101, 114, 109, 115, 95, 73, 86],
  -- terms_V
  [116, 101, 114, 109, 115, 95, 86],
  -- argument
  [97, 114, 103, 117, 109, 101, 110, 116],
  -- arg_1
  [97, 114, 103, 95, 49],
  -- arg_2
  [97, 114, 103, 95, 50],
  -- focus_spaces
  [102, 111, 99, 117, 115, 95, 115, 112, 97, 99, 101, 115],
  -- arg_3
  [97, 114, 103, 95, 51],
  -- quantifier_spaces
  [113, 117, 97, 110, 116, 105, 102, 105, 101, 114, 95, 115, 112, 97, 99, 101, 115],
  -- arg_4
  [97, 114, 103, 95, 52],
  -- arg_5
  [97, 114, 103, 95, 53],
  -- arg_6
  [97, 114, 103, 95, 54],
  -- arg_7
  [97, 114, 103, 95, 55],
  -- relative_clause
  [114, 101, 108, 97, 116, 105, 118, 101, 95, 99, 108, 97, 117, 115, 101],
  -- relative_clause_1
  [114, 101, 108, 97, 116, 105, 118, 101, 95, 99, 108, 97, 117, 115, 101, 95, 49],
  -- relative_clause_2
  [114, 101, 108, 97, 116, 105, 118, 101, 95, 99, 108, 97, 117, 115, 101, 95, 50],
  -- relative_clause_3
  [114, 101, 108, 97, 116, 105, 118, 101, 95, 99, 108, 97, 117, 115, 101, 95, 51],
  -- relative_predication
  [114, 101, 108, 97, 116, 105, 118, 101, 95, 112, 114, 101, 100, 105, 99, 97, 116, 105, 111, 110],
  -- relative_predicate
  [114, 101, 108, 97, 116, 105, 118, 101, 95, 112, 114, 101, 100, 105, 99, 97, 116, 101],
  -- relative_predicate_1
  [114, 101, 108, 97, 116, 105, 118, 101, 95, 112, 114, 101, 100, 105, 99, 97, 116, 101, 95, 49],
  -- relative_predicate_2
  [114, 101, 108, 97, 116, 105, 118, 101, 95, 112, 114, 101, 100, 105, 99, 97, 116, 101, 95, 50],
  -- adverb
  [97, 100, 118, 101, 114, 98],
  -- adverb_1
  [97, 100, 118, 101, 114, 98, 95, 49],
  -- adverb_2
  [97, 100, 118, 101, 114, 98, 95, 50],
  -- adverb_3
  [97, 100, 118, 101, 114, 98, 95, 51],
  -- adverb_4
  [97, 100, 118, 101, 114, 98, 95, 52],
  -- prepositional_phrase
  [112, 114, 101, 112, 111, 115, 105, 116, 105, 111, 110, 97, 108, 95, 112, 104, 114, 97, 115, 101],
  -- prepositional_phrase_1
  [112, 114, 101, 112, 111, 115, 105, 116, 105, 111, 110, 97, 108, 95, 112, 104, 114, 97, 115, 101, 95, 49],
  -- prepositional_phrase_2
  [112, 114, 101, 112, 111, 115, 105, 116, 105, 111, 110, 97, 108, 95, 112, 104, 114, 97, 115, 101, 95, 50],
  -- preposition
  [112, 114, 101, 112, 111, 115, 105, 116, 105, 111, 110],
  -- preposition_1
  [112, 114, 101, 112, 111, 115, 105, 116, 105, 111, 110, 95, 49],
  -- preposition_2
  [112, 114, 101, 112, 111, 115, 105, 116, 105, 111, 110, 95, 50],
  -- preposition_3
  [112, 114, 101, 112, 111, 115, 105, 116, 105, 111, 110, 95, 51],
  -- preposition_4
  [112, 114, 101, 112, 111, 115, 105, 116, 105, 111, 110, 95, 52],
  -- content_clause
  [99, 111, 110, 116, 101, 110, 116, 95, 99, 108, 97, 117, 115, 101],
  -- content_clause_1
  [99, 111, 110, 116, 101, 110, 116, 95, 99, 108, 97, 117, 115, 101, 95, 49],
  -- content_statement
  [99, 111, 110, 116, 101, 110, 116, 95, 115, 116, 97, 116, 101, 109, 101, 110, 116],
  -- content_predication
  [99, 111, 110, 116, 101, 110, 116, 95, 112, 114, 101, 100, 105, 99, 97, 116, 105, 111, 110],
  -- content_predicate
  [99, 111, 110, 116, 101, 110, 116, 95, 112, 114, 101, 100, 105, 99, 97, 116, 101],
  -- content_predicate_1
  [99, 111, 110, 116, 101, 110, 116, 95, 112, 114, 101, 100, 105, 99, 97, 116, 101, 95, 49],
  -- content_predicate_2
  [99, 111, 110, 116, 101, 110, 116, 95, 112, 114, 101, 100, 105, 99, 97, 116, 101, 95, 50],
  -- forethought_connective
  [102, 111, 114, 101, 116, 104, 111, 117, 103, 104, 116, 95, 99, 111, 110, 110, 101, 99, 116, 105, 118, 101],
  -- MI_complement
  [77, 73, 95, 99, 111, 109, 112, 108, 101, 109, 101, 110, 116],
  -- _
  [95],
  -- space_or_freemod
  [115, 112, 97, 99, 101, 95, 111, 114, 95, 102, 114, 101, 101, 109, 111, 100],
  -- space_word
  [115, 112, 97, 99, 101, 95, 119, 111, 114, 100],
  -- freemod
  [102, 114, 101, 101, 109, 111, 100],
  -- parenthetical
  [112, 97, 114, 101, 110, 116, 104, 101, 116, 105, 99, 97, 108],
  -- parenthetical_1
  [112, 97, 114, 101, 110, 116, 104, 101, 116, 105, 99, 97, 108, 95, 49],
  -- incidental
  [105, 110, 99, 105, 100, 101, 110, 116, 97, 108],
  -- vocative
  [118, 111, 99, 97, 116, 105, 118, 101],
  -- word
  [119, 111, 114, 100],
  -- non_function_word
  [110, 111, 110, 95, 102, 117, 110, 99, 116, 105, 111, 110, 95, 119, 111, 114, 100],
  -- neutral_function_word
  [110, 101, 117, 116, 114, 97, 108, 95, 102, 117, 110, 99, 116, 105, 111, 110, 95, 119, 111, 114, 100],
  -- toned_function_word
  [116, 111, 110, 101, 100, 95, 102, 117, 110, 99, 116, 105, 111, 110, 95, 119, 111, 114, 100],
  -- initial_syllable
  [105, 110, 105, 116, 105, 97, 108, 95, 115, 121, 108, 108, 97, 98, 108, 101],
  -- focus
  [102, 111, 99, 117, 115],
  -- end_quote
  [101, 110, 100, 95, 113, 117, 111, 116, 101],
  -- end_predicatizer
  [101, 110, 100, 95, 112, 114, 101, 100, 105, 99, 97, 116, 105, 122, 101, 114],
  -- end_statement
  [101, 110, 100, 95, 115, 116, 97, 116, 101, 109, 101, 110, 116],
  -- sentence_prefix
  [115, 101, 110, 116, 101, 110, 99, 101, 95, 112, 114, 101, 102, 105, 120],
  -- end_prenex
  [101, 110, 100, 95, 112, 114, 101, 110, 101, 120],
  -- start_incidental
  [115, 116, 97, 114, 116, 95, 105, 110, 99, 105, 100, 101, 110, 116, 97, 108],
  -- start_parenthetical
  [115, 116, 97, 114, 116, 95, 112, 97, 114, 101, 110, 116, 104, 101, 116, 105, 99, 97, 108],
  -- end_parenthetical
  [101, 110, 100, 95, 112, 97, 114, 101, 110, 116, 104, 101, 116, 105, 99, 97, 108],
  -- vocative_marker
  [118, 111, 99, 97, 116, 105, 118, 101, 95, 109, 97, 114, 107, 101, 114],
  -- linking_word
  [108, 105, 110, 107, 105, 110, 103, 95, 119, 111, 114, 100],
  -- connective
  [99, 111, 110, 110, 101, 99, 116, 105, 118, 101],
  -- illocutionary
  [105, 108, 108, 111, 99, 117, 116, 105, 111, 110, 97, 114, 121],
  -- moq
  [109, 111, 113],
  -- quantifier
  [113, 117, 97, 110, 116, 105, 102, 105, 101, 114],
  -- interjection
  [105, 110, 116, 101, 114, 106, 101, 99, 116, 105, 111, 110],
  -- forethought_marker
  [102, 111, 114, 101, 116, 104, 111, 117, 103, 104, 116, 95, 109, 97, 114, 107, 101, 114],
  -- function_word
  [102, 117, 110, 99, 116, 105, 111, 110, 95, 119, 111, 114, 100],
  -- BI
  [66, 73],
  -- DA
  [68, 65],
  -- MOQ
  [77, 79, 81],
  -- GA
  [71, 65],
  -- GO
  [71, 79],
  -- BEI
  [66, 69, 73],
  -- HU
  [72, 85],
  -- JU
  [74, 85],
  -- KU
  [75, 85],
  -- KI
  [75, 73],
  -- KIO
  [75, 73, 79],
  -- KEO
  [75, 69, 79],
  -- LU
  [76, 85],
  -- MI
  [77, 73],
  -- MO
  [77, 79],
  -- NA
  [78, 65],
  -- PO
  [80, 79],
  -- RA
  [82, 65],
  -- TU
  [84, 85],
  -- TO
  [84, 79],
  -- TEO
  [84, 69, 79],
  -- neutral_syllable
  [110, 101, 117, 116, 114, 97, 108, 95, 115, 121, 108, 108, 97, 98, 108, 101],
  -- moq_syllable
  [109, 111, 113, 95, 115, 121, 108, 108, 97, 98, 108, 101],
  -- compound_syllable
  [99, 111, 109, 112, 111, 117, 110, 100, 95, 115, 121, 108, 108, 97, 98, 108, 101],
  -- arg_syllable
  [97, 114, 103, 95, 115, 121, 108, 108, 97, 98, 108, 101],
  -- relative_syllable
  [114, 101, 108, 97, 116, 105, 118, 101, 95, 115, 121, 108, 108, 97, 98, 108, 101],
  -- verb_syllable
  [118, 101, 114, 98, 95, 115, 121, 108, 108, 97, 98, 108, 101],
  -- content_syllable
  [99, 111, 110, 116, 101, 110, 116, 95, 115, 121, 108, 108, 97, 98, 108, 101],
  -- preposition_syllable
  [112, 114, 101, 112, 111, 115, 105, 116, 105, 111, 110, 95, 115, 121, 108, 108, 97, 98, 108, 101],
  -- adverb_syllable
  [97, 100, 118, 101, 114, 98, 95, 115, 121, 108, 108, 97, 98, 108, 101],
  -- boundary
  [98, 111, 117, 110, 100, 97, 114, 121],
  -- initial
  [105, 110, 105, 116, 105, 97, 108],
  -- neutral_desinence
  [110, 101, 117, 116, 114, 97, 108, 95, 100, 101, 115, 105, 110, 101, 110, 99, 101],
  -- compound_desinence
  [99, 111, 109, 112, 111, 117, 110, 100, 95, 100, 101, 115, 105, 110, 101, 110, 99, 101],
  -- arg_desinence
  [97, 114, 103, 95, 100, 101, 115, 105, 110, 101, 110, 99, 101],
  -- relative_desinence
  [114, 101, 108, 97, 116, 105, 118, 101, 95, 100, 101, 115, 105, 110, 101, 110, 99, 101],
  -- verb_desinence
  [118, 101, 114, 98, 95, 100, 101, 115, 105, 110, 101, 110, 99, 101],
  -- content_desinence
  [99, 111, 110, 116, 101, 110, 116, 95, 100, 101, 115, 105, 110, 101, 110, 99, 101],
  -- preposition_desinence
  [112, 114, 101, 112, 111, 115, 105, 116, 105, 111, 110, 95, 100, 101, 115, 105, 110, 101, 110, 99, 101],
  -- adverb_desinence
  [97, 100, 118, 101, 114, 98, 95, 100, 101, 115, 105, 110, 101, 110, 99, 101],
  -- tone
  [116, 111, 110, 101],
  -- A
  [65],
  -- U
  [85],
  -- I
  [73],
  -- O
  [79],
  -- E
  [69],
  -- ā
  [196, 129],
  -- ū
  [197, 171],
  -- ī
  [196, 171],
  -- ō
  [197, 141],
  -- ē
  [196, 147],
  -- macron_combiner
  [109, 97, 99, 114, 111, 110, 95, 99, 111, 109, 98, 105, 110, 101, 114],
  -- compound_tone
  [99, 111, 109, 112, 111, 117, 110, 100, 95, 116, 111, 110, 101],
  -- á
  [195, 161],
  -- ú
  [195, 186],
  -- í
  [195, 173],
  -- ó
  [195, 179],
  -- é
  [195, 169],
  -- acute_combiner
  [97, 99, 117, 116, 101, 95, 99, 111, 109, 98, 105, 110, 101, 114],
  -- arg_tone
  [97, 114, 103, 95, 116, 111, 110, 101],
  -- ǎ
  [199, 142],
  -- ǔ
  [199, 148],
  -- ǐ
  [199, 144],
  -- ǒ
  [199, 146],
  -- ě
  [196, 155],
  -- caron_combiner
  [99, 97, 114, 111, 110, 95, 99, 111, 109, 98, 105, 110, 101, 114],
  -- breve_combiner
  [98, 114, 101, 118, 101, 95, 99, 111, 109, 98, 105, 110, 101, 114],
  -- relative_tone
  [114, 101, 108, 97, 116, 105, 118, 101, 95, 116, 111, 110, 101],
  -- ả
  [225, 186, 163],
  -- ủ
  [225, 187, 167],
  -- ỉ
  [225, 187, 137],
  -- ỏ
  [225, 187, 143],
  -- ẻ
  [225, 186, 187],
  -- hook_combiner
  [104, 111, 111, 107, 95, 99, 111, 109, 98, 105, 110, 101, 114],
  -- verb_tone
  [118, 101, 114, 98, 95, 116, 111, 110, 101],
  -- â
  [195, 162],
  -- û
  [195, 187],
  -- î
  [195, 174],
  -- ô
  [195, 180],
  -- ê
  [195, 170],
  -- circumflex_combiner
  [99, 105, 114, 99, 117, 109, 102, 108, 101, 120, 95, 99, 111, 109, 98, 105, 110, 101, 114],
  -- content_tone
  [99, 111, 110, 116, 101, 110, 116, 95, 116, 111, 110, 101],
  -- à
  [195, 160],
  -- ù
  [195, 185],
  -- ì
  [195, 172],
  -- ò
  [195, 178],
  -- è
  [195, 168],
  -- grave_combiner
  [103, 114, 97, 118, 101, 95, 99, 111, 109, 98, 105, 110, 101, 114],
  -- preposition_tone
  [112, 114, 101, 112, 111, 115, 105, 116, 105, 111, 110, 95, 116, 111, 110, 101],
  -- ã
  [195, 163],
  -- ũ
  [197, 169],
  -- ĩ
  [196, 169],
  -- õ
  [195, 181],
  -- ẽ
  [225, 186, 189],
  -- tilde_combiner
  [116, 105, 108, 100, 101, 95, 99, 111, 109, 98, 105, 110, 101, 114],
  -- adverb_tone
  [97, 100, 118, 101, 114, 98, 95, 116, 111, 110, 101],
  -- a
  [97],
  -- b
  [98],
  -- c
  [99],
  -- d
  [100],
  -- e
  [101],
  -- f
  [102],
  -- g
  [103],
  -- h
  [104],
  -- i
  [105],
  -- j
  [106],
  -- k
  [107],
  -- l
  [108],
  -- m
  [109],
  -- n
  [110],
  -- o
  [111],
  -- p
  [112],
  -- q
  [113],
  -- r
  [114],
  -- s
  [115],
  -- t
  [116],
  -- u
  [117],
  -- w
  [119],
  -- y
  [121],
  -- space
  [115, 112, 97, 99, 101],
  -- punctuation
  [112, 117, 110, 99, 116, 117, 97, 116, 105, 111, 110],
  -- questions
  [113, 117, 101, 115, 116, 105, 111, 110, 115],
  -- EOF
  [69, 79, 70],
  -- afterthought_cop<relative_clause_1, relative_clause>
  [97, 102, 116, 101, 114, 116, 104, 111, 117, 103, 104, 116, 95, 99, 111, 112, 60, 114, 101, 108, 97, 116, 105, 118, 101, 95, 99, 108, 97, 117, 115, 101, 95, 49, 44, 32, 114, 101, 108, 97, 116, 105, 118, 101, 95, 99, 108, 97, 117, 115, 101, 62],
  -- afterthought_cop<sentence_1, sentence>
  [97, 102, 116, 101, 114, 116, 104, 111, 117, 103, 104, 116, 95, 99, 111, 112, 60, 115, 101, 110, 116, 101, 110, 99, 101, 95, 49, 44, 32, 115, 101, 110, 116, 101, 110, 99, 101, 62],
  -- forethought_cop<sentence, sentence>
  [102, 111, 114, 101, 116, 104, 111, 117, 103, 104, 116, 95, 99, 111, 112, 60, 115, 101, 110, 116, 101, 110, 99, 101, 44, 32, 115, 101, 110, 116, 101, 110, 99, 101, 62],
  -- afterthought_cop<statement_2, statement>
  [97, 102, 116, 101, 114, 116, 104, 111, 117, 103, 104, 116, 95, 99, 111, 112, 60, 115, 116, 97, 116, 101, 109, 101, 110, 116, 95, 50, 44, 32, 115, 116, 97, 116, 101, 109, 101, 110, 116, 62],
  -- forethought_cop<statement, statement>
  [102, 111, 114, 101, 116, 104, 111, 117, 103, 104, 116, 95, 99, 111, 112, 60, 115, 116, 97, 116, 101, 109, 101, 110, 116, 44, 32, 115, 116, 97, 116, 101, 109, 101, 110, 116, 62],
  -- afterthought_cop<predicate_2, predicate_1>
  [97, 102, 116, 101, 114, 116, 104, 111, 117, 103, 104, 116, 95, 99, 111, 112, 60, 112, 114, 101, 100, 105, 99, 97, 116, 101, 95, 50, 44, 32, 112, 114, 101, 100, 105, 99, 97, 116, 101, 95, 49, 62],
  -- forethought_cop_pred<predicate>
  [102, 111, 114, 101, 116, 104, 111, 117, 103, 104, 116, 95, 99, 111, 112, 95, 112, 114, 101, 100, 60, 112, 114, 101, 100, 105, 99, 97, 116, 101, 62],
  -- LU_predicate<verb_syllable>
  [76, 85, 95, 112, 114, 101, 100, 105, 99, 97, 116, 101, 60, 118, 101, 114, 98, 95, 115, 121, 108, 108, 97, 98, 108, 101, 62],
  -- MI_phrase<verb_syllable>
  [77, 73, 95, 112, 104, 114, 97, 115, 101, 60, 118, 101, 114, 98, 95, 115, 121, 108, 108, 97, 98, 108, 101, 62],
  -- PO_phrase<verb_syllable>
  [80, 79, 95, 112, 104, 114, 97, 115, 101, 60, 118, 101, 114, 98, 95, 115, 121, 108, 108, 97, 98, 108, 101, 62],
  -- MO_phrase<verb_syllable>
  [77, 79, 95, 112, 104, 114, 97, 115, 101, 60, 118, 101, 114, 98, 95, 115, 121, 108, 108, 97, 98, 108, 101, 62],
  -- predicate_word<verb_syllable>
  [112, 114, 101, 100, 105, 99, 97, 116, 101, 95, 119, 111, 114, 100, 60, 118, 101, 114, 98, 95, 115, 121, 108, 108, 97, 98, 108, 101, 62],
  -- serial<predicate_1>
  [115, 101, 114, 105, 97, 108, 60, 112, 114, 101, 100, 105, 99, 97, 116, 101, 95, 49, 62],
  -- forethought_cop<terms_V, terms_V>
  [102, 111, 114, 101, 116, 104, 111, 117, 103, 104, 116, 95, 99, 111, 112, 60, 116, 101, 114, 109, 115, 95, 86, 44, 32, 116, 101, 114, 109, 115, 95, 86, 62],
  -- forethought_cop<terms_IV, terms_IV>
  [102, 111, 114, 101, 116, 104, 111, 117, 103, 104, 116, 95, 99, 111, 112, 60, 116, 101, 114, 109, 115, 95, 73, 86, 44, 32, 116, 101, 114, 109, 115, 95, 73, 86, 62],
  -- forethought_cop<terms_III, terms_III>
  [102, 111, 114, 101, 116, 104, 111, 117, 103, 104, 116, 95, 99, 111, 112, 60, 116, 101, 114, 109, 115, 95, 73, 73, 73, 44, 32, 116, 101, 114, 109, 115, 95, 73, 73, 73, 62],
  -- forethought_cop<terms_II, terms_II>
  [102, 111, 114, 101, 116, 104, 111, 117, 103, 104, 116, 95, 99, 111, 112, 60, 116, 101, 114, 109, 115, 95, 73, 73, 44, 32, 116, 101, 114, 109, 115, 95, 73, 73, 62],
  -- afterthought_cop<arg_1, argument>
  [97, 102, 116, 101, 114, 116, 104, 111, 117, 103, 104, 116, 95, 99, 111, 112, 60, 97, 114, 103, 95, 49, 44, 32, 97, 114, 103, 117, 109, 101, 110, 116, 62],
  -- forethought_cop<argument, argument>
  [102, 111, 114, 101, 116, 104, 111, 117, 103, 104, 116, 95, 99, 111, 112, 60, 97, 114, 103, 117, 109, 101, 110, 116, 44, 32, 97, 114, 103, 117, 109, 101, 110, 116, 62],
  -- serial<arg_6>
  [115, 101, 114, 105, 97, 108, 60, 97, 114, 103, 95, 54, 62],
  -- afterthought_cop_pred<arg_7>
  [97, 102, 116, 101, 114, 116, 104, 111, 117, 103, 104, 116, 95, 99, 111, 112, 95, 112, 114, 101, 100, 60, 97, 114, 103, 95, 55, 62],
  -- forethought_cop_pred<arg_5>
  [102, 111, 114, 101, 116, 104, 111, 117, 103, 104, 116, 95, 99, 111, 112, 95, 112, 114, 101, 100, 60, 97, 114, 103, 95, 53, 62],
  -- LU_predicate<arg_syllable>
  [76, 85, 95, 112, 114, 101, 100, 105, 99, 97, 116, 101, 60, 97, 114, 103, 95, 115, 121, 108, 108, 97, 98, 108, 101, 62],
  -- MI_phrase<arg_syllable>
  [77, 73, 95, 112, 104, 114, 97, 115, 101, 60, 97, 114, 103, 95, 115, 121, 108, 108, 97, 98, 108, 101, 62],
  -- PO_phrase<arg_syllable>
  [80, 79, 95, 112, 104, 114, 97, 115, 101, 60, 97, 114, 103, 95, 115, 121, 108, 108, 97, 98, 108, 101, 62],
  -- MO_phrase<arg_syllable>
  [77, 79, 95, 112, 104, 114, 97, 115, 101, 60, 97, 114, 103, 95, 115, 121, 108, 108, 97, 98, 108, 101, 62],
  -- predicate_word<arg_syllable>
  [112, 114, 101, 100, 105, 99, 97, 116, 101, 95, 119, 111, 114, 100, 60, 97, 114, 103, 95, 115, 121, 108, 108, 97, 98, 108, 101, 62],
  -- LU_phrase<relative_syllable>
  [76, 85, 95, 112, 104, 114, 97, 115, 101, 60, 114, 101, 108, 97, 116, 105, 118, 101, 95, 115, 121, 108, 108, 97, 98, 108, 101, 62],
  -- forethought_cop<relative_clause, relative_clause>
  [102, 111, 114, 101, 116, 104, 111, 117, 103, 104, 116, 95, 99, 111, 112, 60, 114, 101, 108, 97, 116, 105, 118, 101, 95, 99, 108, 97, 117, 115, 101, 44, 32, 114, 101, 108, 97, 116, 105, 118, 101, 95, 99, 108, 97, 117, 115, 101, 62],
  -- afterthought_cop<relative_clause_3, statement>
  [97, 102, 116, 101, 114, 116, 104, 111, 117, 103, 104, 116, 95, 99, 111, 112, 60, 114, 101, 108, 97, 116, 105, 118, 101, 95, 99, 108, 97, 117, 115, 101, 95, 51, 44, 32, 115, 116, 97, 116, 101, 109, 101, 110, 116, 62],
  -- serial<relative_predicate_1>
  [115, 101, 114, 105, 97, 108, 60, 114, 101, 108, 97, 116, 105, 118, 101, 95, 112, 114, 101, 100, 105, 99, 97, 116, 101, 95, 49, 62],
  -- afterthought_cop_pred<relative_predicate_2>
  [97, 102, 116, 101, 114, 116, 104, 111, 117, 103, 104, 116, 95, 99, 111, 112, 95, 112, 114, 101, 100, 60, 114, 101, 108, 97, 116, 105, 118, 101, 95, 112, 114, 101, 100, 105, 99, 97, 116, 101, 95, 50, 62],
  -- forethought_cop_pred<relative_predicate>
  [102, 111, 114, 101, 116, 104, 111, 117, 103, 104, 116, 95, 99, 111, 112, 95, 112, 114, 101, 100, 60, 114, 101, 108, 97, 116, 105, 118, 101, 95, 112, 114, 101, 100, 105, 99, 97, 116, 101, 62],
  -- MI_phrase<relative_syllable>
  [77, 73, 95, 112, 104, 114, 97, 115, 101, 60, 114, 101, 108, 97, 116, 105, 118, 101, 95, 115, 121, 108, 108, 97, 98, 108, 101, 62],
  -- PO_phrase<relative_syllable>
  [80, 79, 95, 112, 104, 114, 97, 115, 101, 60, 114, 101, 108, 97, 116, 105, 118, 101, 95, 115, 121, 108, 108, 97, 98, 108, 101, 62],
  -- MO_phrase<relative_syllable>
  [77, 79, 95, 112, 104, 114, 97, 115, 101, 60, 114, 101, 108, 97, 116, 105, 118, 101, 95, 115, 121, 108, 108, 97, 98, 108, 101, 62],
  -- predicate_word<relative_syllable>
  [112, 114, 101, 100, 105, 99, 97, 116, 101, 95, 119, 111, 114, 100, 60, 114, 101, 108, 97, 116, 105, 118, 101, 95, 115, 121, 108, 108, 97, 98, 108, 101, 62],
  -- afterthought_cop<adverb_1, adverb>
  [97, 102, 116, 101, 114, 116, 104, 111, 117, 103, 104, 116, 95, 99, 111, 112, 60, 97, 100, 118, 101, 114, 98, 95, 49, 44, 32, 97, 100, 118, 101, 114, 98, 62],
  -- forethought_cop<adverb, adverb>
  [102, 111, 114, 101, 116, 104, 111, 117, 103, 104, 116, 95, 99, 111, 112, 60, 97, 100, 118, 101, 114, 98, 44, 32, 97, 100, 118, 101, 114, 98, 62],
  -- serial<adverb_3>
  [115, 101, 114, 105, 97, 108, 60, 97, 100, 118, 101, 114, 98, 95, 51, 62],
  -- afterthought_cop_pred<adverb_4>
  [97, 102, 116, 101, 114, 116, 104, 111, 117, 103, 104, 116, 95, 99, 111, 112, 95, 112, 114, 101, 100, 60, 97, 100, 118, 101, 114, 98, 95, 52, 62],
  -- forethought_cop_pred<adverb_3>
  [102, 111, 114, 101, 116, 104, 111, 117, 103, 104, 116, 95, 99, 111, 112, 95, 112, 114, 101, 100, 60, 97, 100, 118, 101, 114, 98, 95, 51, 62],
  -- LU_predicate<adverb_syllable>
  [76, 85, 95, 112, 114, 101, 100, 105, 99, 97, 116, 101, 60, 97, 100, 118, 101, 114, 98, 95, 115, 121, 108, 108, 97, 98, 108, 101, 62],
  -- MI_phrase<adverb_syllable>
  [77, 73, 95, 112, 104, 114, 97, 115, 101, 60, 97, 100, 118, 101, 114, 98, 95, 115, 121, 108, 108, 97, 98, 108, 101, 62],
  -- PO_phrase<adverb_syllable>
  [80, 79, 95, 112, 104, 114, 97, 115, 101, 60, 97, 100, 118, 101, 114, 98, 95, 115, 121, 108, 108, 97, 98, 108, 101, 62],
  -- MO_phrase<adverb_syllable>
  [77, 79, 95, 112, 104, 114, 97, 115, 101, 60, 97, 100, 118, 101, 114, 98, 95, 115, 121, 108, 108, 97, 98, 108, 101, 62],
  -- predicate_word<adverb_syllable>
  [112, 114, 101, 100, 105, 99, 97, 116, 101, 95, 119, 111, 114, 100, 60, 97, 100, 118, 101, 114, 98, 95, 115, 121, 108, 108, 97, 98, 108, 101, 62],
  -- afterthought_cop<prepositional_phrase_1, prepositional_phrase>
  [97, 102, 116, 101, 114, 116, 104, 111, 117, 103, 104, 116, 95, 99, 111, 112, 60, 112, 114, 101, 112, 111, 115, 105, 116, 105, 111, 110, 97, 108, 95, 112, 104, 114, 97, 115, 101, 95, 49, 44, 32, 112, 114, 101, 112, 111, 115, 105, 116, 105, 111, 110, 97, 108, 95, 112, 104, 114, 97, 115, 101, 62],
  -- forethought_cop<prepositional_phrase, prepositional_phrase>
  [102, 111, 114, 101, 116, 104, 111, 117, 103, 104, 116, 95, 99, 111, 112, 60, 112, 114, 101, 112, 111, 115, 105, 116, 105, 111, 110, 97, 108, 95, 112, 104, 114, 97, 115, 101, 44, 32, 112, 114, 101, 112, 111, 115, 105, 116, 105, 111, 110, 97, 108, 95, 112, 104, 114, 97, 115, 101, 62],
  -- afterthought_cop<preposition_1, preposition>
  [97, 102, 116, 101, 114, 116, 104, 111, 117, 103, 104, 116, 95, 99, 111, 112, 60, 112, 114, 101, 112, 111, 115, 105, 116, 105, 111, 110, 95, 49, 44, 32, 112, 114, 101, 112, 111, 115, 105, 116, 105, 111, 110, 62],
  -- forethought_cop<preposition, preposition>
  [102, 111, 114, 101, 116, 104, 111, 117, 103, 104, 116, 95, 99, 111, 112, 60, 112, 114, 101, 112, 111, 115, 105, 116, 105, 111, 110, 44, 32, 112, 114, 101, 112, 111, 115, 105, 116, 105, 111, 110, 62],
  -- serial<preposition_3>
  [115, 101, 114, 105, 97, 108, 60, 112, 114, 101, 112, 111, 115, 105, 116, 105, 111, 110, 95, 51, 62],
  -- afterthought_cop_pred<preposition_4>
  [97, 102, 116, 101, 114, 116, 104, 111, 117, 103, 104, 116, 95, 99, 111, 112, 95, 112, 114, 101, 100, 60, 112, 114, 101, 112, 111, 115, 105, 116, 105, 111, 110, 95, 52, 62],
  -- forethought_cop_pred<preposition>
  [102, 111, 114, 101, 116, 104, 111, 117, 103, 104, 116, 95, 99, 111, 112, 95, 112, 114, 101, 100, 60, 112, 114, 101, 112, 111, 115, 105, 116, 105, 111, 110, 62],
  -- LU_predicate<preposition_syllable>
  [76, 85, 95, 112, 114, 101, 100, 105, 99, 97, 116, 101, 60, 112, 114, 101, 112, 111, 115, 105, 116, 105, 111, 110, 95, 115, 121, 108, 108, 97, 98, 108, 101, 62],
  -- MI_phrase<preposition_syllable>
  [77, 73, 95, 112, 104, 114, 97, 115, 101, 60, 112, 114, 101, 112, 111, 115, 105, 116, 105, 111, 110, 95, 115, 121, 108, 108, 97, 98, 108, 101, 62],
  -- PO_phrase<preposition_syllable>
  [80, 79, 95, 112, 104, 114, 97, 115, 101, 60, 112, 114, 101, 112, 111, 115, 105, 116, 105, 111, 110, 95, 115, 121, 108, 108, 97, 98, 108, 101, 62],
  -- MO_phrase<preposition_syllable>
  [77, 79, 95, 112, 104, 114, 97, 115, 101, 60, 112, 114, 101, 112, 111, 115, 105, 116, 105, 111, 110, 95, 115, 121, 108, 108, 97, 98, 108, 101, 62],
  -- predicate_word<preposition_syllable>
  [112, 114, 101, 100, 105, 99, 97, 116, 101, 95, 119, 111, 114, 100, 60, 112, 114, 101, 112, 111, 115, 105, 116, 105, 111, 110, 95, 115, 121, 108, 108, 97, 98, 108, 101, 62],
  -- afterthought_cop<content_clause_1, statement>
  [97, 102, 116, 101, 114, 116, 104, 111, 117, 103, 104, 116, 95, 99, 111, 112, 60, 99, 111, 110, 116, 101, 110, 116, 95, 99, 108, 97, 117, 115, 101, 95, 49, 44, 32, 115, 116, 97, 116, 101, 109, 101, 110, 116, 62],
  -- LU_phrase<content_syllable>
  [76, 85, 95, 112, 104, 114, 97, 115, 101, 60, 99, 111, 110, 116, 101, 110, 116, 95, 115, 121, 108, 108, 97, 98, 108, 101, 62],
  -- serial<content_predicate_1>
  [115, 101, 114, 105, 97, 108, 60, 99, 111, 110, 116, 101, 110, 116, 95, 112, 114, 101, 100, 105, 99, 97, 116, 101, 95, 49, 62],
  -- afterthought_cop_pred<content_predicate_2>
  [97, 102, 116, 101, 114, 116, 104, 111, 117, 103, 104, 116, 95, 99, 111, 112, 95, 112, 114, 101, 100, 60, 99, 111, 110, 116, 101, 110, 116, 95, 112, 114, 101, 100, 105, 99, 97, 116, 101, 95, 50, 62],
  -- forethought_cop_pred<content_predicate_2>
  [102, 111, 114, 101, 116, 104, 111, 117, 103, 104, 116, 95, 99, 111, 112, 95, 112, 114, 101, 100, 60, 99, 111, 110, 116, 101, 110, 116, 95, 112, 114, 101, 100, 105, 99, 97, 116, 101, 95, 50, 62],
  -- MI_phrase<content_syllable>
  [77, 73, 95, 112, 104, 114, 97, 115, 101, 60, 99, 111, 110, 116, 101, 110, 116, 95, 115, 121, 108, 108, 97, 98, 108, 101, 62],
  -- PO_phrase<content_syllable>
  [80, 79, 95, 112, 104, 114, 97, 115, 101, 60, 99, 111, 110, 116, 101, 110, 116, 95, 115, 121, 108, 108, 97, 98, 108, 101, 62],
  -- MO_phrase<content_syllable>
  [77, 79, 95, 112, 104, 114, 97, 115, 101, 60, 99, 111, 110, 116, 101, 110, 116, 95, 115, 121, 108, 108, 97, 98, 108, 101, 62],
  -- predicate_word<content_syllable>
  [112, 114, 101, 100, 105, 99, 97, 116, 101, 95, 119, 111, 114, 100, 60, 99, 111, 110, 116, 101, 110, 116, 95, 115, 121, 108, 108, 97, 98, 108, 101, 62],
  -- syllable<compound_desinence, compound_tone>
  [115, 121, 108, 108, 97, 98, 108, 101, 60, 99, 111, 109, 112, 111, 117, 110, 100, 95, 100, 101, 115, 105, 110, 101, 110, 99, 101, 44, 32, 99, 111, 109, 112, 111, 117, 110, 100, 95, 116, 111, 110, 101, 62],
  -- syllable<arg_desinence, arg_tone>
  [115, 121, 108, 108, 97, 98, 108, 101, 60, 97, 114, 103, 95, 100, 101, 115, 105, 110, 101, 110, 99, 101, 44, 32, 97, 114, 103, 95, 116, 111, 110, 101, 62],
  -- syllable<relative_desinence, relative_tone>
  [115, 121, 108, 108, 97, 98, 108, 101, 60, 114, 101, 108, 97, 116, 105, 118, 101, 95, 100, 101, 115, 105, 110, 101, 110, 99, 101, 44, 32, 114, 101, 108, 97, 116, 105, 118, 101, 95, 116, 111, 110, 101, 62],
  -- syllable<verb_desinence, verb_tone>
  [115, 121, 108, 108, 97, 98, 108, 101, 60, 118, 101, 114, 98, 95, 100, 101, 115, 105, 110, 101, 110, 99, 101, 44, 32, 118, 101, 114, 98, 95, 116, 111, 110, 101, 62],
  -- syllable<content_desinence, content_tone>
  [115, 121, 108, 108, 97, 98, 108, 101, 60, 99, 111, 110, 116, 101, 110, 116, 95, 100, 101, 115, 105, 110, 101, 110, 99, 101, 44, 32, 99, 111, 110, 116, 101, 110, 116, 95, 116, 111, 110, 101, 62],
  -- syllable<preposition_desinence, preposition_tone>
  [115, 121, 108, 108, 97, 98, 108, 101, 60, 112, 114, 101, 112, 111, 115, 105, 116, 105, 111, 110, 95, 100, 101, 115, 105, 110, 101, 110, 99, 101, 44, 32, 112, 114, 101, 112, 111, 115, 105, 116, 105, 111, 110, 95, 116, 111, 110, 101, 62],
  -- syllable<adverb_desinence, adverb_tone>
  [115, 121, 108, 108, 97, 98, 108, 101, 60, 97, 100, 118, 101, 114, 98, 95, 100, 101, 115, 105, 110, 101, 110, 99, 101, 44, 32, 97, 100, 118, 101, 114, 98, 95, 116, 111, 110, 101, 62],
  -- desinence<a, u, i, o, e>
  [100, 101, 115, 105, 110, 101, 110, 99, 101, 60, 97, 44, 32, 117, 44, 32, 105, 44, 32, 111, 44, 32, 101, 62],
  -- desinence<ā, ū, ī, ō, ē>
  [100, 101, 115, 105, 110, 101, 110, 99, 101, 60, 196, 129, 44, 32, 197, 171, 44, 32, 196, 171, 44, 32, 197, 141, 44, 32, 196, 147, 62],
  -- desinence<á, ú, í, ó, é>
  [100, 101, 115, 105, 110, 101, 110, 99, 101, 60, 195, 161, 44, 32, 195, 186, 44, 32, 195, 173, 44, 32, 195, 179, 44, 32, 195, 169, 62],
  -- desinence<ǎ, ǔ, ǐ, ǒ, ě>
  [100, 101, 115, 105, 110, 101, 110, 99, 101, 60, 199, 142, 44, 32, 199, 148, 44, 32, 199, 144, 44, 32, 199, 146, 44, 32, 196, 155, 62],
  -- desinence<ả, ủ, ỉ, ỏ, ẻ>
  [100, 101, 115, 105, 110, 101, 110, 99, 101, 60, 225, 186, 163, 44, 32, 225, 187, 167, 44, 32, 225, 187, 137, 44, 32, 225, 187, 143, 44, 32, 225, 186, 187, 62],
  -- desinence<â, û, î, ô, ê>
  [100, 101, 115, 105, 110, 101, 110, 99, 101, 60, 195, 162, 44, 32, 195, 187, 44, 32, 195, 174, 44, 32, 195, 180, 44, 32, 195, 170, 62],
  -- desinence<à, ù, ì, ò, è>
  [100, 101, 115, 105, 110, 101, 110, 99, 101, 60, 195, 160, 44, 32, 195, 185, 44, 32, 195, 172, 44, 32, 195, 178, 44, 32, 195, 168, 62],
  -- desinence<ã, ũ, ĩ, õ, ẽ>
  [100, 101, 115, 105, 110, 101, 110, 99, 101, 60, 195, 163, 44, 32, 197, 169, 44, 32, 196, 169, 44, 32, 195, 181, 44, 32, 225, 186, 189, 62],
  -- cop_bar<relative_clause>
  [99, 111, 112, 95, 98, 97, 114, 60, 114, 101, 108, 97, 116, 105, 118, 101, 95, 99, 108, 97, 117, 115, 101, 62],
  -- cop_bar<sentence>
  [99, 111, 112, 95, 98, 97, 114, 60, 115, 101, 110, 116, 101, 110, 99, 101, 62],
  -- forethought_cop_1<sentence, sentence>
  [102, 111, 114, 101, 116, 104, 111, 117, 103, 104, 116, 95, 99, 111, 112, 95, 49, 60, 115, 101, 110, 116, 101, 110, 99, 101, 44, 32, 115, 101, 110, 116, 101, 110, 99, 101, 62],
  -- cop_bar<statement>
  [99, 111, 112, 95, 98, 97, 114, 60, 115, 116, 97, 116, 101, 109, 101, 110, 116, 62],
  -- forethought_cop_1<statement, statement>
  [102, 111, 114, 101, 116, 104, 111, 117, 103, 104, 116, 95, 99, 111, 112, 95, 49, 60, 115, 116, 97, 116, 101, 109, 101, 110, 116, 44, 32, 115, 116, 97, 116, 101, 109, 101, 110, 116, 62],
  -- cop_bar<predicate_1>
  [99, 111, 112, 95, 98, 97, 114, 60, 112, 114, 101, 100, 105, 99, 97, 116, 101, 95, 49, 62],
  -- forethought_cop<predicate, predicate>
  [102, 111, 114, 101, 116, 104, 111, 117, 103, 104, 116, 95, 99, 111, 112, 60, 112, 114, 101, 100, 105, 99, 97, 116, 101, 44, 32, 112, 114, 101, 100, 105, 99, 97, 116, 101, 62],
  -- LU_phrase<verb_syllable>
  [76, 85, 95, 112, 104, 114, 97, 115, 101, 60, 118, 101, 114, 98, 95, 115, 121, 108, 108, 97, 98, 108, 101, 62],
  -- MI_phrase_1<verb_syllable>
  [77, 73, 95, 112, 104, 114, 97, 115, 101, 95, 49, 60, 118, 101, 114, 98, 95, 115, 121, 108, 108, 97, 98, 108, 101, 62],
  -- PO_phrase_1<verb_syllable>
  [80, 79, 95, 112, 104, 114, 97, 115, 101, 95, 49, 60, 118, 101, 114, 98, 95, 115, 121, 108, 108, 97, 98, 108, 101, 62],
  -- MO_phrase_1<verb_syllable>
  [77, 79, 95, 112, 104, 114, 97, 115, 101, 95, 49, 60, 118, 101, 114, 98, 95, 115, 121, 108, 108, 97, 98, 108, 101, 62],
  -- forethought_cop_1<terms_V, terms_V>
  [102, 111, 114, 101, 116, 104, 111, 117, 103, 104, 116, 95, 99, 111, 112, 95, 49, 60, 116, 101, 114, 109, 115, 95, 86, 44, 32, 116, 101, 114, 109, 115, 95, 86, 62],
  -- forethought_cop_1<terms_IV, terms_IV>
  [102, 111, 114, 101, 116, 104, 111, 117, 103, 104, 116, 95, 99, 111, 112, 95, 49, 60, 116, 101, 114, 109, 115, 95, 73, 86, 44, 32, 116, 101, 114, 109, 115, 95, 73, 86, 62],
  -- forethought_cop_1<terms_III, terms_III>
  [102, 111, 114, 101, 116, 104, 111, 117, 103, 104, 116, 95, 99, 111, 112, 95, 49, 60, 116, 101, 114, 109, 115, 95, 73, 73, 73, 44, 32, 116, 101, 114, 109, 115, 95, 73, 73, 73, 62],
  -- forethought_cop_1<terms_II, terms_II>
  [102, 111, 114, 101, 116, 104, 111, 117, 103, 104, 116, 95, 99, 111, 112, 95, 49, 60, 116, 101, 114, 109, 115, 95, 73, 73, 44, 32, 116, 101, 114, 109, 115, 95, 73, 73, 62],
  -- cop_bar<argument>
  [99, 111, 112, 95, 98, 97, 114, 60, 97, 114, 103, 117, 109, 101, 110, 116, 62],
  -- forethought_cop_1<argument, argument>
  [102, 111, 114, 101, 116, 104, 111, 117, 103, 104, 116, 95, 99, 111, 112, 95, 49, 60, 97, 114, 103, 117, 109, 101, 110, 116, 44, 32, 97, 114, 103, 117, 109, 101, 110, 116, 62],
  -- afterthought_cop<arg_7, predicate>
  [97, 102, 116, 101, 114, 116, 104, 111, 117, 103, 104, 116, 95, 99, 111, 112, 60, 97, 114, 103, 95, 55, 44, 32, 112, 114, 101, 100, 105, 99, 97, 116, 101, 62],
  -- forethought_cop<arg_5, predicate>
  [102, 111, 114, 101, 116, 104, 111, 117, 103, 104, 116, 95, 99, 111, 112, 60, 97, 114, 103, 95, 53, 44, 32, 112, 114, 101, 100, 105, 99, 97, 116, 101, 62],
  -- LU_phrase<arg_syllable>
  [76, 85, 95, 112, 104, 114, 97, 115, 101, 60, 97, 114, 103, 95, 115, 121, 108, 108, 97, 98, 108, 101, 62],
  -- MI_phrase_1<arg_syllable>
  [77, 73, 95, 112, 104, 114, 97, 115, 101, 95, 49, 60, 97, 114, 103, 95, 115, 121, 108, 108, 97, 98, 108, 101, 62],
  -- PO_phrase_1<arg_syllable>
  [80, 79, 95, 112, 104, 114, 97, 115, 101, 95, 49, 60, 97, 114, 103, 95, 115, 121, 108, 108, 97, 98, 108, 101, 62],
  -- MO_phrase_1<arg_syllable>
  [77, 79, 95, 112, 104, 114, 97, 115, 101, 95, 49, 60, 97, 114, 103, 95, 115, 121, 108, 108, 97, 98, 108, 101, 62],
  -- LU_word<relative_syllable>
  [76, 85, 95, 119, 111, 114, 100, 60, 114, 101, 108, 97, 116, 105, 118, 101, 95, 115, 121, 108, 108, 97, 98, 108, 101, 62],
  -- forethought_cop_1<relative_clause, relative_clause>
  [102, 111, 114, 101, 116, 104, 111, 117, 103, 104, 116, 95, 99, 111, 112, 95, 49, 60, 114, 101, 108, 97, 116, 105, 118, 101, 95, 99, 108, 97, 117, 115, 101, 44, 32, 114, 101, 108, 97, 116, 105, 118, 101, 95, 99, 108, 97, 117, 115, 101, 62],
  -- afterthought_cop<relative_predicate_2, predicate>
  [97, 102, 116, 101, 114, 116, 104, 111, 117, 103, 104, 116, 95, 99, 111, 112, 60, 114, 101, 108, 97, 116, 105, 118, 101, 95, 112, 114, 101, 100, 105, 99, 97, 116, 101, 95, 50, 44, 32, 112, 114, 101, 100, 105, 99, 97, 116, 101, 62],
  -- forethought_cop<relative_predicate, predicate>
  [102, 111, 114, 101, 116, 104, 111, 117, 103, 104, 116, 95, 99, 111, 112, 60, 114, 101, 108, 97, 116, 105, 118, 101, 95, 112, 114, 101, 100, 105, 99, 97, 116, 101, 44, 32, 112, 114, 101, 100, 105, 99, 97, 116, 101, 62],
  -- MI_phrase_1<relative_syllable>
  [77, 73, 95, 112, 104, 114, 97, 115, 101, 95, 49, 60, 114, 101, 108, 97, 116, 105, 118, 101, 95, 115, 121, 108, 108, 97, 98, 108, 101, 62],
  -- PO_phrase_1<relative_syllable>
  [80, 79, 95, 112, 104, 114, 97, 115, 101, 95, 49, 60, 114, 101, 108, 97, 116, 105, 118, 101, 95, 115, 121, 108, 108, 97, 98, 108, 101, 62],
  -- MO_phrase_1<relative_syllable>
  [77, 79, 95, 112, 104, 114, 97, 115, 101, 95, 49, 60, 114, 101, 108, 97, 116, 105, 118, 101, 95, 115, 121, 108, 108, 97, 98, 108, 101, 62],
  -- cop_bar<adverb>
  [99, 111, 112, 95, 98, 97, 114, 60, 97, 100, 118, 101, 114, 98, 62],
  -- forethought_cop_1<adverb, adverb>
  [102, 111, 114, 101, 116, 104, 111, 117, 103, 104, 116, 95, 99, 111, 112, 95, 49, 60, 97, 100, 118, 101, 114, 98, 44, 32, 97, 100, 118, 101, 114, 98, 62],
  -- afterthought_cop<adverb_4, predicate>
  [97, 102, 116, 101, 114, 116, 104, 111, 117, 103, 104, 116, 95, 99, 111, 112, 60, 97, 100, 118, 101, 114, 98, 95, 52, 44, 32, 112, 114, 101, 100, 105, 99, 97, 116, 101, 62],
  -- forethought_cop<adverb_3, predicate>
  [102, 111, 114, 101, 116, 104, 111, 117, 103, 104, 116, 95, 99, 111, 112, 60, 97, 100, 118, 101, 114, 98, 95, 51, 44, 32, 112, 114, 101, 100, 105, 99, 97, 116, 101, 62],
  -- LU_phrase<adverb_syllable>
  [76, 85, 95, 112, 104, 114, 97, 115, 101, 60, 97, 100, 118, 101, 114, 98, 95, 115, 121, 108, 108, 97, 98, 108, 101, 62],
  -- MI_phrase_1<adverb_syllable>
  [77, 73, 95, 112, 104, 114, 97, 115, 101, 95, 49, 60, 97, 100, 118, 101, 114, 98, 95, 115, 121, 108, 108, 97, 98, 108, 101, 62],
  -- PO_phrase_1<adverb_syllable>
  [80, 79, 95, 112, 104, 114, 97, 115, 101, 95, 49, 60, 97, 100, 118, 101, 114, 98, 95, 115, 121, 108, 108, 97, 98, 108, 101, 62],
  -- MO_phrase_1<adverb_syllable>
  [77, 79, 95, 112, 104, 114, 97, 115, 101, 95, 49, 60, 97, 100, 118, 101, 114, 98, 95, 115, 121, 108, 108, 97, 98, 108, 101, 62],
  -- cop_bar<prepositional_phrase>
  [99, 111, 112, 95, 98, 97, 114, 60, 112, 114, 101, 112, 111, 115, 105, 116, 105, 111, 110, 97, 108, 95, 112, 104, 114, 97, 115, 101, 62],
  -- forethought_cop_1<prepositional_phrase, prepositional_phrase>
  [102, 111, 114, 101, 116, 104, 111, 117, 103, 104, 116, 95, 99, 111, 112, 95, 49, 60, 112, 114, 101, 112, 111, 115, 105, 116, 105, 111, 110, 97, 108, 95, 112, 104, 114, 97, 115, 101, 44, 32, 112, 114, 101, 112, 111, 115, 105, 116, 105, 111, 110, 97, 108, 95, 112, 104, 114, 97, 115, 101, 62],
  -- cop_bar<preposition>
  [99, 111, 112, 95, 98, 97, 114, 60, 112, 114, 101, 112, 111, 115, 105, 116, 105, 111, 110, 62],
  -- forethought_cop_1<preposition, preposition>
  [102, 111, 114, 101, 116, 104, 111, 117, 103, 104, 116, 95, 99, 111, 112, 95, 49, 60, 112, 114, 101, 112, 111, 115, 105, 116, 105, 111, 110, 44, 32, 112, 114, 101, 112, 111, 115, 105, 116, 105, 111, 110, 62],
  -- afterthought_cop<preposition_4, predicate>
  [97, 102, 116, 101, 114, 116, 104, 111, 117, 103, 104, 116, 95, 99, 111, 112, 60, 112, 114, 101, 112, 111, 115, 105, 116, 105, 111, 110, 95, 52, 44, 32, 112, 114, 101, 100, 105, 99, 97, 116, 101, 62],
  -- forethought_cop<preposition, predicate>
  [102, 111, 114, 101, 116, 104, 111, 117, 103, 104, 116, 95, 99, 111, 112, 60, 112, 114, 101, 112, 111, 115, 105, 116, 105, 111, 110, 44, 32, 112, 114, 101, 100, 105, 99, 97, 116, 101, 62],
  -- LU_phrase<preposition_syllable>
  [76, 85, 95, 112, 104, 114, 97, 115, 101, 60, 112, 114, 101, 112, 111, 115, 105, 116, 105, 111, 110, 95, 115, 121, 108, 108, 97, 98, 108, 101, 62],
  -- MI_phrase_1<preposition_syllable>
  [77, 73, 95, 112, 104, 114, 97, 115, 101, 95, 49, 60, 112, 114, 101, 112, 111, 115, 105, 116, 105, 111, 110, 95, 115, 121, 108, 108, 97, 98, 108, 101, 62],
  -- PO_phrase_1<preposition_syllable>
  [80, 79, 95, 112, 104, 114, 97, 115, 101, 95, 49, 60, 112, 114, 101, 112, 111, 115, 105, 116, 105, 111, 110, 95, 115, 121, 108, 108, 97, 98, 108, 101, 62],
  -- MO_phrase_1<preposition_syllable>
  [77, 79, 95, 112, 104, 114, 97, 115, 101, 95, 49, 60, 112, 114, 101, 112, 111, 115, 105, 116, 105, 111, 110, 95, 115, 121, 108, 108, 97, 98, 108, 101, 62],
  -- LU_word<content_syllable>
  [76, 85, 95, 119, 111, 114, 100, 60, 99, 111, 110, 116, 101, 110, 116, 95, 115, 121, 108, 108, 97, 98, 108, 101, 62],
  -- afterthought_cop<content_predicate_2, predicate>
  [97, 102, 116, 101, 114, 116, 104, 111, 117, 103, 104, 116, 95, 99, 111, 112, 60, 99, 111, 110, 116, 101, 110, 116, 95, 112, 114, 101, 100, 105, 99, 97, 116, 101, 95, 50, 44, 32, 112, 114, 101, 100, 105, 99, 97, 116, 101, 62],
  -- forethought_cop<content_predicate_2, predicate>
  [102, 111, 114, 101, 116, 104, 111, 117, 103, 104, 116, 95, 99, 111, 112, 60, 99, 111, 110, 116, 101, 110, 116, 95, 112, 114, 101, 100, 105, 99, 97, 116, 101, 95, 50, 44, 32, 112, 114, 101, 100, 105, 99, 97, 116, 101, 62],
  -- MI_phrase_1<content_syllable>
  [77, 73, 95, 112, 104, 114, 97, 115, 101, 95, 49, 60, 99, 111, 110, 116, 101, 110, 116, 95, 115, 121, 108, 108, 97, 98, 108, 101, 62],
  -- PO_phrase_1<content_syllable>
  [80, 79, 95, 112, 104, 114, 97, 115, 101, 95, 49, 60, 99, 111, 110, 116, 101, 110, 116, 95, 115, 121, 108, 108, 97, 98, 108, 101, 62],
  -- MO_phrase_1<content_syllable>
  [77, 79, 95, 112, 104, 114, 97, 115, 101, 95, 49, 60, 99, 111, 110, 116, 101, 110, 116, 95, 115, 121, 108, 108, 97, 98, 108, 101, 62],
  -- forethought_cop_bar<sentence>
  [102, 111, 114, 101, 116, 104, 111, 117, 103, 104, 116, 95, 99, 111, 112, 95, 98, 97, 114, 60, 115, 101, 110, 116, 101, 110, 99, 101, 62],
  -- forethought_cop_bar<statement>
  [102, 111, 114, 101, 116, 104, 111, 117, 103, 104, 116, 95, 99, 111, 112, 95, 98, 97, 114, 60, 115, 116, 97, 116, 101, 109, 101, 110, 116, 62],
  -- forethought_cop_1<predicate, predicate>
  [102, 111, 114, 101, 116, 104, 111, 117, 103, 104, 116, 95, 99, 111, 112, 95, 49, 60, 112, 114, 101, 100, 105, 99, 97, 116, 101, 44, 32, 112, 114, 101, 100, 105, 99, 97, 116, 101, 62],
  -- LU_word<verb_syllable>
  [76, 85, 95, 119, 111, 114, 100, 60, 118, 101, 114, 98, 95, 115, 121, 108, 108, 97, 98, 108, 101, 62],
  -- MI_word<verb_syllable>
  [77, 73, 95, 119, 111, 114, 100, 60, 118, 101, 114, 98, 95, 115, 121, 108, 108, 97, 98, 108, 101, 62],
  -- PO_word<verb_syllable>
  [80, 79, 95, 119, 111, 114, 100, 60, 118, 101, 114, 98, 95, 115, 121, 108, 108, 97, 98, 108, 101, 62],
  -- MO_word<verb_syllable>
  [77, 79, 95, 119, 111, 114, 100, 60, 118, 101, 114, 98, 95, 115, 121, 108, 108, 97, 98, 108, 101, 62],
  -- forethought_cop_bar<terms_V>
  [102, 111, 114, 101, 116, 104, 111, 117, 103, 104, 116, 95, 99, 111, 112, 95, 98, 97, 114, 60, 116, 101, 114, 109, 115, 95, 86, 62],
  -- forethought_cop_bar<terms_IV>
  [102, 111, 114, 101, 116, 104, 111, 117, 103, 104, 116, 95, 99, 111, 112, 95, 98, 97, 114, 60, 116, 101, 114, 109, 115, 95, 73, 86, 62],
  -- forethought_cop_bar<terms_III>
  [102, 111, 114, 101, 116, 104, 111, 117, 103, 104, 116, 95, 99, 111, 112, 95, 98, 97, 114, 60, 116, 101, 114, 109, 115, 95, 73, 73, 73, 62],
  -- forethought_cop_bar<terms_II>
  [102, 111, 114, 101, 116, 104, 111, 117, 103, 104, 116, 95, 99, 111, 112, 95, 98, 97, 114, 60, 116, 101, 114, 109, 115, 95, 73, 73, 62],
  -- forethought_cop_bar<argument>
  [102, 111, 114, 101, 116, 104, 111, 117, 103, 104, 116, 95, 99, 111, 112, 95, 98, 97, 114, 60, 97, 114, 103, 117, 109, 101, 110, 116, 62],
  -- cop_bar<predicate>
  [99, 111, 112, 95, 98, 97, 114, 60, 112, 114, 101, 100, 105, 99, 97, 116, 101, 62],
  -- forethought_cop_1<arg_5, predicate>
  [102, 111, 114, 101, 116, 104, 111, 117, 103, 104, 116, 95, 99, 111, 112, 95, 49, 60, 97, 114, 103, 95, 53, 44, 32, 112, 114, 101, 100, 105, 99, 97, 116, 101, 62],
  -- LU_word<arg_syllable>
  [76, 85, 95, 119, 111, 114, 100, 60, 97, 114, 103, 95, 115, 121, 108, 108, 97, 98, 108, 101, 62],
  -- MI_word<arg_syllable>
  [77, 73, 95, 119, 111, 114, 100, 60, 97, 114, 103, 95, 115, 121, 108, 108, 97, 98, 108, 101, 62],
  -- PO_word<arg_syllable>
  [80, 79, 95, 119, 111, 114, 100, 60, 97, 114, 103, 95, 115, 121, 108, 108, 97, 98, 108, 101, 62],
  -- MO_word<arg_syllable>
  [77, 79, 95, 119, 111, 114, 100, 60, 97, 114, 103, 95, 115, 121, 108, 108, 97, 98, 108, 101, 62],
  -- forethought_cop_bar<relative_clause>
  [102, 111, 114, 101, 116, 104, 111, 117, 103, 104, 116, 95, 99, 111, 112, 95, 98, 97, 114, 60, 114, 101, 108, 97, 116, 105, 118, 101, 95, 99, 108, 97, 117, 115, 101, 62],
  -- forethought_cop_1<relative_predicate, predicate>
  [102, 111, 114, 101, 116, 104, 111, 117, 103, 104, 116, 95, 99, 111, 112, 95, 49, 60, 114, 101, 108, 97, 116, 105, 118, 101, 95, 112, 114, 101, 100, 105, 99, 97, 116, 101, 44, 32, 112, 114, 101, 100, 105, 99, 97, 116, 101, 62],
  -- MI_word<relative_syllable>
  [77, 73, 95, 119, 111, 114, 100, 60, 114, 101, 108, 97, 116, 105, 118, 101, 95, 115, 121, 108, 108, 97, 98, 108, 101, 62],
  -- PO_word<relative_syllable>
  [80, 79, 95, 119, 111, 114, 100, 60, 114, 101, 108, 97, 116, 105, 118, 101, 95, 115, 121, 108, 108, 97, 98, 108, 101, 62],
  -- MO_word<relative_syllable>
  [77, 79, 95, 119, 111, 114, 100, 60, 114, 101, 108, 97, 116, 105, 118, 101, 95, 115, 121, 108, 108, 97, 98, 108, 101, 62],
  -- forethought_cop_bar<adverb>
  [102, 111, 114, 101, 116, 104, 111, 117, 103, 104, 116, 95, 99, 111, 112, 95, 98, 97, 114, 60, 97, 100, 118, 101, 114, 98, 62],
  -- forethought_cop_1<adverb_3, predicate>
  [102, 111, 114, 101, 116, 104, 111, 117, 103, 104, 116, 95, 99, 111, 112, 95, 49, 60, 97, 100, 118, 101, 114, 98, 95, 51, 44, 32, 112, 114, 101, 100, 105, 99, 97, 116, 101, 62],
  -- LU_word<adverb_syllable>
  [76, 85, 95, 119, 111, 114, 100, 60, 97, 100, 118, 101, 114, 98, 95, 115, 121, 108, 108, 97, 98, 108, 101, 62],
  -- MI_word<adverb_syllable>
  [77, 73, 95, 119, 111, 114, 100, 60, 97, 100, 118, 101, 114, 98, 95, 115, 121, 108, 108, 97, 98, 108, 101, 62],
  -- PO_word<adverb_syllable>
  [80, 79, 95, 119, 111, 114, 100, 60, 97, 100, 118, 101, 114, 98, 95, 115, 121, 108, 108, 97, 98, 108, 101, 62],
  -- MO_word<adverb_syllable>
  [77, 79, 95, 119, 111, 114, 100, 60, 97, 100, 118, 101, 114, 98, 95, 115, 121, 108, 108, 97, 98, 108, 101, 62],
  -- forethought_cop_bar<prepositional_phrase>
  [102, 111, 114, 101, 116, 104, 111, 117, 103, 104, 116, 95, 99, 111, 112, 95, 98, 97, 114, 60, 112, 114, 101, 112, 111, 115, 105, 116, 105, 111, 110, 97, 108, 95, 112, 104, 114, 97, 115, 101, 62],
  -- forethought_cop_bar<preposition>
  [102, 111, 114, 101, 116, 104, 111, 117, 103, 104, 116, 95, 99, 111, 112, 95, 98, 97, 114, 60, 112, 114, 101, 112, 111, 115, 105, 116, 105, 111, 110, 62],
  -- forethought_cop_1<preposition, predicate>
  [102, 111, 114, 101, 116, 104, 111, 117, 103, 104, 116, 95, 99, 111, 112, 95, 49, 60, 112, 114, 101, 112, 111, 115, 105, 116, 105, 111, 110, 44, 32, 112, 114, 101, 100, 105, 99, 97, 116, 101, 62],
  -- LU_word<preposition_syllable>
  [76, 85, 95, 119, 111, 114, 100, 60, 112, 114, 101, 112, 111, 115, 105, 116, 105, 111, 110, 95, 115, 121, 108, 108, 97, 98, 108, 101, 62],
  -- MI_word<preposition_syllable>
  [77, 73, 95, 119, 111, 114, 100, 60, 112, 114, 101, 112, 111, 115, 105, 116, 105, 111, 110, 95, 115, 121, 108, 108, 97, 98, 108, 101, 62],
  -- PO_word<preposition_syllable>
  [80, 79, 95, 119, 111, 114, 100, 60, 112, 114, 101, 112, 111, 115, 105, 116, 105, 111, 110, 95, 115, 121, 108, 108, 97, 98, 108, 101, 62],
  -- MO_word<preposition_syllable>
  [77, 79, 95, 119, 111, 114, 100, 60, 112, 114, 101, 112, 111, 115, 105, 116, 105, 111, 110, 95, 115, 121, 108, 108, 97, 98, 108, 101, 62],
  -- forethought_cop_1<content_predicate_2, predicate>
  [102, 111, 114, 101, 116, 104, 111, 117, 103, 104, 116, 95, 99, 111, 112, 95, 49, 60, 99, 111, 110, 116, 101, 110, 116, 95, 112, 114, 101, 100, 105, 99, 97, 116, 101, 95, 50, 44, 32, 112, 114, 101, 100, 105, 99, 97, 116, 101, 62],
  -- MI_word<content_syllable>
  [77, 73, 95, 119, 111, 114, 100, 60, 99, 111, 110, 116, 101, 110, 116, 95, 115, 121, 108, 108, 97, 98, 108, 101, 62],
  -- PO_word<content_syllable>
  [80, 79, 95, 119, 111, 114, 100, 60, 99, 111, 110, 116, 101, 110, 116, 95, 115, 121, 108, 108, 97, 98, 108, 101, 62],
  -- MO_word<content_syllable>
  [77, 79, 95, 119, 111, 114, 100, 60, 99, 111, 110, 116, 101, 110, 116, 95, 115, 121, 108, 108, 97, 98, 108, 101, 62],
  -- forethought_cop_bar<predicate>
  [102, 111, 114, 101, 116, 104, 111, 117, 103, 104, 116, 95, 99, 111, 112, 95, 98, 97, 114, 60, 112, 114, 101, 100, 105, 99, 97, 116, 101, 62]]

/-- /repo/ast/toaq.go: `failure = &peg.Fail{ Name: … }` in every Fail function. -/
def failNames : List Bytes := [
  -- full_text
  [102, 117, 108, 108, 95, 116, 101, 120, 116],
  -- text
  [116, 101, 120, 116],
  -- discourse
  [100, 105, 115, 99, 111, 117, 114, 115, 101],
  -- fragment
  [102, 114, 97, 103, 109, 101, 110, 116],
  -- sentence
  [115, 101, 110, 116, 101, 110, 99, 101],
  -- sentence_1
  [115, 101, 110, 116, 101, 110, 99, 101, 95, 49],
  -- sentence_2
  [115, 101, 110, 116, 101, 110, 99, 101, 95, 50],
  -- sentence_prefix_spaces
  [115, 101, 110, 116, 101, 110, 99, 101, 95, 112, 114, 101, 102, 105, 120, 95, 115, 112, 97, 99, 101, 115],
  -- sentence_3
  [115, 101, 110, 116, 101, 110, 99, 101, 95, 51],
  -- statement
  [115, 116, 97, 116, 101, 109, 101, 110, 116],
  -- statement_1
  [115, 116, 97, 116, 101, 109, 101, 110, 116, 95, 49],
  -- statement_2
  [115, 116, 97, 116, 101, 109, 101, 110, 116, 95, 50],
  -- statement_3
  [115, 116, 97, 116, 101, 109, 101, 110, 116, 95, 51],
  -- predication
  [112, 114, 101, 100, 105, 99, 97, 116, 105, 111, 110],
  -- prenex_spaces
  [112, 114, 101, 110, 101, 120, 95, 115, 112, 97, 99, 101, 115],
  -- prenex
  [112, 114, 101, 110, 101, 120],
  -- predicate
  [112, 114, 101, 100, 105, 99, 97, 116, 101],
  -- predicate_1
  [112, 114, 101, 100, 105, 99, 97, 116, 101, 95, 49],
  -- predicate_2
  [112, 114, 101, 100, 105, 99, 97, 116, 101, 95, 50],
  -- predicate_3
  [112, 114, 101, 100, 105, 99, 97, 116, 101, 95, 51],
  -- serial_predicate
  [115, 101, 114, 105, 97, 108, 95, 112, 114, 101, 100, 105, 99, 97, 116, 101],
  -- terms
  [116, 101, 114, 109, 115],
  -- terms_2
  [116, 101, 114, 109, 115, 95, 50],
  -- term
  [116, 101, 114, 109],
  -- linked_argument
  [108, 105, 110, 107, 101, 100, 95, 97, 114, 103, 117, 109, 101, 110, 116],
  -- linking_word_spaces
  [108, 105, 110, 107, 105, 110, 103, 95, 119, 111, 114, 100, 95, 115, 112, 97, 99, 101, 115],
  -- termset
  [116, 101, 114, 109, 115, 101, 116],
  -- terms_II
  [116, 101, 114, 109, 115, 95, 73, 73],
  -- terms_III
  [116, 101, 114, 109, 115, 95, 73, 73, 73],
  -- terms_IV
  [116, 101, 114, 109, 115, 95, 73, 86],
  -- terms_V
  [116, 101, 114, 109, 115, 95, 86],
  -- argument
  [97, 114, 103, 117, 109, 101, 110, 116],
  -- arg_1
  [97, 114, 103, 95, 49],
  -- arg_2
  [97, 114, 103, 95, 50],
  -- focus_spaces
  [102, 111, 99, 117, 115, 95, 115, 112, 97, 99, 101, 115],
  -- arg_3
  [97, 114, 103, 95, 51],
  -- quantifier_spaces
  [113, 117, 97, 110, 116, 105, 102, 105, 101, 114, 95, 115, 112, 97, 99, 101, 115],
  -- arg_4
  [97, 114, 103, 95, 52],
  -- arg_5
  [97, 114, 103, 95, 53],
  -- arg_6
  [97, 114, 103, 95, 54],
  -- arg_7
  [97, 114, 103, 95, 55],
  -- relative_clause
  [114, 101, 108, 97, 116, 105, 118, 101, 95, 99, 108, 97, 117, 115, 101],
  -- relative_clause_1
  [114, 101, 108, 97, 116, 105, 118, 101, 95, 99, 108, 97, 117, 115, 101, 95, 49],
  -- relative_clause_2
  [114, 101, 108, 97, 116, 105, 118, 101, 95, 99, 108, 97, 117, 115, 101, 95, 50],
  -- relative_clause_3
  [114, 101, 108, 97, 116, 105, 118, 101, 95, 99, 108, 97, 117, 115, 101, 95, 51],
  -- relative_predication
  [114, 101, 108, 97, 116, 105, 118, 101, 95, 112, 114, 101, 100, 105, 99, 97, 116, 105, 111, 110],
  -- relative_predicate
  [114, 101, 108, 97, 116, 105, 118, 101, 95, 112, 114, 101, 100, 105, 99, 97, 116, 101],
  -- relative_predicate_1
  [114, 101, 108, 97, 116, 105, 118, 101, 95, 112, 114, 101, 100, 105, 99, 97, 116, 101, 95, 49],
  -- relative_predicate_2
  [114, 101, 108, 97, 116, 105, 118, 101, 95, 112, 114, 101, 100, 105, 99, 97, 116, 101, 95, 50],
  -- adverb
  [97, 100, 118, 101, 114, 98],
  -- adverb_1
  [97, 100, 118, 101, 114, 98, 95, 49],
  -- adverb_2
  [97, 100, 118, 101, 114, 98, 95, 50],
  -- adverb_3
  [97, 100, 118, 101, 114, 98, 95, 51],
  -- adverb_4
  [97, 100, 118, 101, 114, 98, 95, 52],
  -- prepositional_phrase
  [112, 114, 101, 112, 111, 115, 105, 116, 105, 111, 110, 97, 108, 95, 112, 104, 114, 97, 115, 101],
  -- prepositional_phrase_1
  [112, 114, 101, 112, 111, 115, 105, 116, 105, 111, 110, 97, 108, 95, 112, 104, 114, 97, 115, 101, 95, 49],
  -- prepositional_phrase_2
  [112, 114, 101, 112, 111, 115, 105, 116, 105, 111, 110, 97, 108, 95, 112, 104, 114, 97, 115, 101, 95, 50],
  -- preposition
  [112, 114, 101, 112, 111, 115, 105, 116, 105, 111, 110],
  -- preposition_1
  [112, 114, 101, 112, 111, 115, 105, 116, 105, 111, 110, 95, 49],
  -- preposition_2
  [112, 114, 101, 112, 111, 115, 105, 116, 105, 111, 110, 95, 50],
  -- preposition_3
  [112, 114, 101, 112, 111, 115, 105, 116, 105, 111, 110, 95, 51],
  -- preposition_4
  [112, 114, 101, 112, 111, 115, 105, 116, 105, 111, 110, 95, 52],
  -- content_clause
  [99, 111, 110, 116, 101, 110, 116, 95, 99, 108, 97, 117, 115, 101],
  -- content_clause_1
  [99, 111, 110, 116, 101, 110, 116, 95, 99, 108, 97, 117, 115, 101, 95, 49],
  -- content_statement
  [99, 111, 110, 116, 101, 110, 116, 95, 115, 116, 97, 116, 101, 109, 101, 110, 116],
  -- content_predication
  [99, 111, 110, 116, 101, 110, 116, 95, 112, 114, 101, 100, 105, 99, 97, 116, 105, 111, 110],
  -- content_predicate
  [99, 111, 110, 116, 101, 110, 116, 95, 112, 114, 101, 100, 105, 99, 97, 116, 101],
  -- content_predicate_1
  [99, 111, 110, 116, 101, 110, 116, 95, 112, 114, 101, 100, 105, 99, 97, 116, 101, 95, 49],
  -- content_predicate_2
  [99, 111, 110, 116, 101, 110, 116, 95, 112, 114, 101, 100, 105, 99, 97, 116, 101, 95, 50],
  -- forethought_connective
  [102, 111, 114, 101, 116, 104, 111, 117, 103, 104, 116, 95, 99, 111, 110, 110, 101, 99, 116, 105, 118, 101],
  -- MI_complement
  [77, 73, 95, 99, 111, 109, 112, 108, 101, 109, 101, 110, 116],
  -- _
  [95],
  -- space_or_freemod
  [115, 112, 97, 99, 101, 95, 111, 114, 95, 102, 114, 101, 101, 109, 111, 100],
  -- space_word
  [115, 112, 97, 99, 101, 95, 119, 111, 114, 100],
  -- freemod
  [102, 114, 101, 101, 109, 111, 100],
  -- parenthetical
  [112, 97, 114, 101, 110, 116, 104, 101, 116, 105, 99, 97, 108],
  -- parenthetical_1
  [112, 97, 114, 101, 110, 116, 104, 101, 116, 105, 99, 97, 108, 95, 49],
  -- incidental
  [105, 110, 99, 105, 100, 101, 110, 116, 97, 108],
  -- vocative
  [118, 111, 99, 97, 116, 105, 118, 101],
  -- word
  [119, 111, 114, 100],
  -- non_function_word
  [110, 111, 110, 95, 102, 117, 110, 99, 116, 105, 111, 110, 95, 119, 111, 114, 100],
  -- neutral_function_word
  [110, 101, 117, 116, 114, 97, 108, 95, 102, 117, 110, 99, 116, 105, 111, 110, 95, 119, 111, 114, 100],
  -- toned_function_word
  [116, 111, 110, 101, 100, 95, 102, 117, 110, 99, 116, 105, 111, 110, 95, 119, 111, 114, 100],
  -- initial_syllable
  [105, 110, 105, 116, 105, 97, 108, 95, 115, 121, 108, 108, 97, 98, 108, 101],
  -- focus
  [102, 111, 99, 117, 115],
  -- end_quote
  [101, 110, 100, 95, 113, 117, 111, 116, 101],
  -- end_predicatizer
  [101, 110, 100, 95, 112, 114, 101, 100, 105, 99, 97, 116, 105, 122, 101, 114],
  -- end_statement
  [101, 110, 100, 95, 115, 116, 97, 116, 101, 109, 101, 110, 116],
  -- sentence_prefix
  [115, 101, 110, 116, 101, 110, 99, 101, 95, 112, 114, 101, 102, 105, 120],
  -- end_prenex
  [101, 110, 100, 95, 112, 114, 101, 110, 101, 120],
  -- start_incidental
  [115, 116, 97, 114, 116, 95, 105, 110, 99, 105, 100, 101, 110, 116, 97, 108],
  -- start_parenthetical
  [115, 116, 97, 114, 116, 95, 112, 97, 114, 101, 110, 116, 104, 101, 116, 105, 99, 97, 108],
  -- end_parenthetical
  [101, 110, 100, 95, 112, 97, 114, 101, 110, 116, 104, 101, 116, 105, 99, 97, 108],
  -- vocative_marker
  [118, 111, 99, 97, 116, 105, 118, 101, 95, 109, 97, 114, 107, 101, 114],
  -- linking_word
  [108, 105, 110, 107, 105, 110, 103, 95, 119, 111, 114, 100],
  -- connective
  [99, 111, 110, 110, 101, 99, 116, 105, 118, 101],
  -- illocutionary
  [105, 108, 108, 111, 99, 117, 116, 105, 111, 110, 97, 114, 121],
  -- moq
  [109, 111, 113],
  -- quantifier
  [113, 117, 97, 110, 116, 105, 102, 105, 101, 114],
  -- interjection
  [105, 110, 116, 101, 114, 106, 101, 99, 116, 105, 111, 110],
  -- forethought_marker
  [102, 111, 114, 101, 116, 104, 111, 117, 103, 104, 116, 95, 109, 97, 114, 107, 101, 114],
  -- function_word
  [102, 117, 110, 99, 116, 105, 111, 110, 95, 119, 111, 114, 100],
  -- BI
  [66, 73],
  -- DA
  [68, 65],
  -- MOQ
  [77, 79, 81],
  -- GA
  [71, 65],
  -- GO
  [71, 79],
  -- BEI
  [66, 69, 73],
  -- HU
  [72, 85],
  -- JU
  [74, 85],
  -- KU
  [75, 85],
  -- KI
  [75, 73],
  -- KIO
  [75, 73, 79],
  -- KEO
  [75, 69, 79],
  -- LU
  [76, 85],
  -- MI
  [77, 73],
  -- MO
  [77, 79],
  -- NA
  [78, 65],
  -- PO
  [80, 79],
  -- RA
  [82, 65],
  -- TU
  [84, 85],
  -- TO
  [84, 79],
  -- TEO
  [84, 69, 79],
  -- neutral_syllable
  [110, 101, 117, 116, 114, 97, 108, 95, 115, 121, 108, 108, 97, 98, 108, 101],
  -- moq_syllable
  [109, 111, 113, 95, 115, 121, 108, 108, 97, 98, 108, 101],
  -- compound_syllable
  [99, 111, 109, 112, 111, 117, 110, 100, 95, 115, 121, 108, 108, 97, 98, 108, 101],
  -- arg_syllable
  [97, 114, 103, 95, 115, 121, 108, 108, 97, 98, 108, 101],
  -- relative_syllable
  [114, 101, 108, 97, 116, 105, 118, 101, 95, 115, 121, 108, 108, 97, 98, 108, 101],
  -- verb_syllable
  [118, 101, 114, 98, 95, 115, 121, 108, 108, 97, 98, 108, 101],
  -- content_syllable
  [99, 111, 110, 116, 101, 110, 116, 95, 115, 121, 108, 108, 97, 98, 108, 101],
  -- preposition_syllable
  [112, 114, 101, 112, 111, 115, 105, 116, 105, 111, 110, 95, 115, 121, 108, 108, 97, 98, 108, 101],
  -- adverb_syllable
  [97, 100, 118, 101, 114, 98, 95, 115, 121, 108, 108, 97, 98, 108, 101],
  -- boundary
  [98, 111, 117, 110, 100, 97, 114, 121],
  -- initial
  [105, 110, 105, 116, 105, 97, 108],
  -- neutral_desinence
  [110, 101, 117, 116, 114, 97, 108, 95, 100, 101, 115, 105, 110, 101, 110, 99, 101],
  -- compound_desinence
  [99, 111, 109, 112, 111, 117, 110, 100, 95, 100, 101, 115, 105, 110, 101, 110, 99, 101],
  -- arg_desinence
  [97, 114, 103, 95, 100, 101, 115, 105, 110, 101, 110, 99, 101],
  -- relative_desinence
  [114, 101, 108, 97, 116, 105, 118, 101, 95, 100, 101, 115, 105, 110, 101, 110, 99, 101],
  -- verb_desinence
  [118, 101, 114, 98, 95, 100, 101, 115, 105, 110, 101, 110, 99, 101],
  -- content_desinence
  [99, 111, 110, 116, 101, 110, 116, 95, 100, 101, 115, 105, 110, 101, 110, 99, 101],
  -- preposition_desinence
  [112, 114, 101, 112, 111, 115, 105, 116, 105, 111, 110, 95, 100, 101, 115, 105, 110, 101, 110, 99, 101],
  -- adverb_desinence
  [97, 100, 118, 101, 114, 98, 95, 100, 101, 115, 105, 110, 101, 110, 99, 101],
  -- tone
  [116, 111, 110, 101],
  -- A
  [65],
  -- U
  [85],
  -- I
  [73],
  -- O
  [79],
  -- E
  [69],
  -- ā
  [196, 129],
  -- ū
  [197, 171],
  -- ī
  [196, 171],
  -- ō
  [197, 141],
  -- ē
  [196, 147],
  -- macron_combiner
  [109, 97, 99, 114, 111, 110, 95, 99, 111, 109, 98, 105, 110, 101, 114],
  -- compound_tone
  [99, 111, 109, 112, 111, 117, 110, 100, 95, 116, 111, 110, 101],
  -- á
  [195, 161],
  -- ú
  [195, 186],
  -- í
  [195, 173],
  -- ó
  [195, 179],
  -- é
  [195, 169],
  -- acute_combiner
  [97, 99, 117, 116, 101, 95, 99, 111, 109, 98, 105, 110, 101, 114],
  -- arg_tone
  [97, 114, 103, 95, 116, 111, 110, 101],
  -- ǎ
  [199, 142],
  -- ǔ
  [199, 148],
  -- ǐ
  [199, 144],
  -- ǒ
  [199, 146],
  -- ě
  [196, 155],
  -- caron_combiner
  [99, 97, 114, 111, 110, 95, 99, 111, 109, 98, 105, 110, 101, 114],
  -- breve_combiner
  [98, 114, 101, 118, 101, 95, 99, 111, 109, 98, 105, 110, 101, 114],
  -- relative_tone
  [114, 101, 108, 97, 116, 105, 118, 101, 95, 116, 111, 110, 101],
  -- ả
  [225, 186, 163],
  -- ủ
  [225, 187, 167],
  -- ỉ
  [225, 187, 137],
  -- ỏ
  [225, 187, 143],
  -- ẻ
  [225, 186, 187],
  -- hook_combiner
  [104, 111, 111, 107, 95, 99, 111, 109, 98, 105, 110, 101, 114],
  -- verb_tone
  [118, 101, 114, 98, 95, 116, 111, 110, 101],
  -- â
  [195, 162],
  -- û
  [195, 187],
  -- î
  [195, 174],
  -- ô
  [195, 180],
  -- ê
  [195, 170],
  -- circumflex_combiner
  [99, 105, 114, 99, 117, 109, 102, 108, 101, 120, 95, 99, 111, 109, 98, 105, 110, 101, 114],
  -- content_tone
  [99, 111, 110, 116, 101, 110, 116, 95, 116, 111, 110, 101],
  -- à
  [195, 160],
  -- ù
  [195, 185],
  -- ì
  [195, 172],
  -- ò
  [195, 178],
  -- è
  [195, 168],
  -- grave_combiner
  [103, 114, 97, 118, 101, 95, 99, 111, 109, 98, 105, 110, 101, 114],
  -- preposition_tone
  [112, 114, 101, 112, 111, 115, 105, 116, 105, 111, 110, 95, 116, 111, 110, 101],
  -- ã
  [195, 163],
  -- ũ
  [197, 169],
  -- ĩ
  [196, 169],
  -- õ
  [195, 181],
  -- ẽ
  [225, 186, 189],
  -- tilde_combiner
  [116, 105, 108, 100, 101, 95, 99, 111, 109, 98, 105, 110, 101, 114],
  -- adverb_tone
  [97, 100, 118, 101, 114, 98, 95, 116, 111, 110, 101],
  -- a
  [97],
  -- b
  [98],
  -- c
  [99],
  -- d
  [100],
  -- e
  [101],
  -- f
  [102],
  -- g
  [103],
  -- h
  [104],
  -- i
  [105],
  -- j
  [106],
  -- k
  [107],
  -- l
  [108],
  -- m
  [109],
  -- n
  [110],
  -- o
  [111],
  -- p
  [112],
  -- q
  [113],
  -- r
  [114],
  -- s
  [115],
  -- t
  [116],
  -- u
  [117],
  -- w
  [119],
  -- y
  [121],
  -- space
  [115, 112, 97, 99, 101],
  -- punctuation
  [112, 117, 110, 99, 116, 117, 97, 116, 105, 111, 110],
  -- questions
  [113, 117, 101, 115, 116, 105, 111, 110, 115],
  -- EOF
  [69, 79, 70],
  -- afterthought_cop__relative_clause_1__relative_clause
  [97, 102, 116, 101, 114, 116, 104, 111, 117, 103, 104, 116, 95, 99, 111, 112, 95, 95, 114, 101, 108, 97, 116, 105, 118, 101, 95, 99, 108, 97, 117, 115, 101, 95, 49, 95, 95, 114, 101, 108, 97, 116, 105, 118, 101, 95, 99, 108, 97, 117, 115, 101],
  -- afterthought_cop__sentence_1__sentence
  [97, 102, 116, 101, 114, 116, 104, 111, 117, 103, 104, 116, 95, 99, 111, 112, 95, 95, 115, 101, 110, 116, 101, 110, 99, 101, 95, 49, 95, 95, 115, 101, 110, 116, 101, 110, 99, 101],
  -- forethought_cop__sentence__sentence
  [102, 111, 114, 101, 116, 104, 111, 117, 103, 104, 116, 95, 99, 111, 112, 95, 95, 115, 101, 110, 116, 101, 110, 99, 101, 95, 95, 115, 101, 110, 116, 101, 110, 99, 101],
  -- afterthought_cop__statement_2__statement
  [97, 102, 116, 101, 114, 116, 104, 111, 117, 103, 104, 116, 95, 99, 111, 112, 95, 95, 115, 116, 97, 116, 101, 109, 101, 110, 116, 95, 50, 95, 95, 115, 116, 97, 116, 101, 109, 101, 110, 116],
  -- forethought_cop__statement__statement
  [102, 111, 114, 101, 116, 104, 111, 117, 103, 104, 116, 95, 99, 111, 112, 95, 95, 115, 116, 97, 116, 101, 109, 101, 110, 116, 95, 95, 115, 116, 97, 116, 101, 109, 101, 110, 116],
  -- afterthought_cop__predicate_2__predicate_1
  [97, 102, 116, 101, 114, 116, 104, 111, 117, 103, 104, 116, 95, 99, 111, 112, 95, 95, 112, 114, 101, 100, 105, 99, 97, 116, 101, 95, 50, 95, 95, 112, 114, 101, 100, 105, 99, 97, 116, 101, 95, 49],
  -- forethought_cop_pred__predicate
  [102, 111, 114, 101, 116, 104, 111, 117, 103, 104, 116, 95, 99, 111, 112, 95, 112, 114, 101, 100, 95, 95, 112, 114, 101, 100, 105, 99, 97, 116, 101],
  -- LU_predicate__verb_syllable
  [76, 85, 95, 112, 114, 101, 100, 105, 99, 97, 116, 101, 95, 95, 118, 101, 114, 98, 95, 115, 121, 108, 108, 97, 98, 108, 101],
  -- MI_phrase__verb_syllable
  [77, 73, 95, 112, 104, 114, 97, 115, 101, 95, 95, 118, 101, 114, 98, 95, 115, 121, 108, 108, 97, 98, 108, 101],
  -- PO_phrase__verb_syllable
  [80, 79, 95, 112, 104, 114, 97, 115, 101, 95, 95, 118, 101, 114, 98, 95, 115, 121, 108, 108, 97, 98, 108, 101],
  -- MO_phrase__verb_syllable
  [77, 79, 95, 112, 104, 114, 97, 115, 101, 95, 95, 118, 101, 114, 98, 95, 115, 121, 108, 108, 97, 98, 108, 101],
  -- predicate_word__verb_syllable
  [112, 114, 101, 100, 105, 99, 97, 116, 101, 95, 119, 111, 114, 100, 95, 95, 118, 101, 114, 98, 95, 115, 121, 108, 108, 97, 98, 108, 101],
  -- serial__predicate_1
  [115, 101, 114, 105, 97, 108, 95, 95, 112, 114, 101, 100, 105, 99, 97, 116, 101, 95, 49],
  -- forethought_cop__terms_V__terms_V
  [102, 111, 114, 101, 116, 104, 111, 117, 103, 104, 116, 95, 99, 111, 112, 95, 95, 116, 101, 114, 109, 115, 95, 86, 95, 95, 116, 101, 114, 109, 115, 95, 86],
  -- forethought_cop__terms_IV__terms_IV
  [102, 111, 114, 101, 116, 104, 111, 117, 103, 104, 116, 95, 99, 111, 112, 95, 95, 116, 101, 114, 109, 115, 95, 73, 86, 95, 95, 116, 101, 114, 109, 115, 95, 73, 86],
  -- forethought_cop__terms_III__terms_III
  [102, 111, 114, 101, 116, 104, 111, 117, 103, 104, 116, 95, 99, 111, 112, 95, 95, 116, 101, 114, 109, 115, 95, 73, 73, 73, 95, 95, 116, 101, 114, 109, 115, 95, 73, 73, 73],
  -- forethought_cop__terms_II__terms_II
  [102, 111, 114, 101, 116, 104, 111, 117, 103, 104, 116, 95, 99, 111, 112, 95, 95, 116, 101, 114, 109, 115, 95, 73, 73, 95, 95, 116, 101, 114, 109, 115, 95, 73, 73],
  -- afterthought_cop__arg_1__argument
  [97, 102, 116, 101, 114, 116, 104, 111, 117, 103, 104, 116, 95, 99, 111, 112, 95, 95, 97, 114, 103, 95, 49, 95, 95, 97, 114, 103, 117, 109, 101, 110, 116],
  -- forethought_cop__argument__argument
  [102, 111, 114, 101, 116, 104, 111, 117, 103, 104, 116, 95, 99, 111, 112, 95, 95, 97, 114, 103, 117, 109, 101, 110, 116, 95, 95, 97, 114, 103, 117, 109, 101, 110, 116],
  -- serial__arg_6
  [115, 101, 114, 105, 97, 108, 95, 95, 97, 114, 103, 95, 54],
  -- afterthought_cop_pred__arg_7
  [97, 102, 116, 101, 114, 116, 104, 111, 117, 103, 104, 116, 95, 99, 111, 112, 95, 112, 114, 101, 100, 95, 95, 97, 114, 103, 95, 55],
  -- forethought_cop_pred__arg_5
  [102, 111, 114, 101, 116, 104, 111, 117, 103, 104, 116, 95, 99, 111, 112, 95, 112, 114, 101, 100, 95, 95, 97, 114, 103, 95, 53],
  -- LU_predicate__arg_syllable
  [76, 85, 95, 112, 114, 101, 100, 105, 99, 97, 116, 101, 95, 95, 97, 114, 103, 95, 115, 121, 108, 108, 97, 98, 108, 101],
  -- MI_phrase__arg_syllable
  [77, 73, 95, 112, 104, 114, 97, 115, 101, 95, 95, 97, 114, 103, 95, 115, 121, 108, 108, 97, 98, 108, 101],
  -- PO_phrase__arg_syllable
  [80, 79, 95, 112, 104, 114, 97, 115, 101, 95, 95, 97, 114, 103, 95, 115, 121, 108, 108, 97, 98, 108, 101],
  -- MO_phrase__arg_syllable
  [77, 79, 95, 112, 104, 114, 97, 115, 101, 95, 95, 97, 114, 103, 95, 115, 121, 108, 108, 97, 98, 108, 101],
  -- predicate_word__arg_syllable
  [112, 114, 101, 100, 105, 99, 97, 116, 101, 95, 119, 111, 114, 100, 95, 95, 97, 114, 103, 95, 115, 121, 108, 108, 97, 98, 108, 101],
  -- LU_phrase__relative_syllable
  [76, 85, 95, 112, 104, 114, 97, 115, 101, 95, 95, 114, 101, 108, 97, 116, 105, 118, 101, 95, 115, 121, 108, 108, 97, 98, 108, 101],
  -- forethought_cop__relative_clause__relative_clause
  [102, 111, 114, 101, 116, 104, 111, 117, 103, 104, 116, 95, 99, 111, 112, 95, 95, 114, 101, 108, 97, 116, 105, 118, 101, 95, 99, 108, 97, 117, 115, 101, 95, 95, 114, 101, 108, 97, 116, 105, 118, 101, 95, 99, 108, 97, 117, 115, 101],
  -- afterthought_cop__relative_clause_3__statement
  [97, 102, 116, 101, 114, 116, 104, 111, 117, 103, 104, 116, 95, 99, 111, 112, 95, 95, 114, 101, 108, 97, 116, 105, 118, 101, 95, 99, 108, 97, 117, 115, 101, 95, 51, 95, 95, 115, 116, 97, 116, 101, 109, 101, 110, 116],
  -- serial__relative_predicate_1
  [115, 101, 114, 105, 97, 108, 95, 95, 114, 101, 108, 97, 116, 105, 118, 101, 95, 112, 114, 101, 100, 105, 99, 97, 116, 101, 95, 49],
  -- afterthought_cop_pred__relative_predicate_2
  [97, 102, 116, 101, 114, 116, 104, 111, 117, 103, 104, 116, 95, 99, 111, 112, 95, 112, 114, 101, 100, 95, 95, 114, 101, 108, 97, 116, 105, 118, 101, 95, 112, 114, 101, 100, 105, 99, 97, 116, 101, 95, 50],
  -- forethought_cop_pred__relative_predicate
  [102, 111, 114, 101, 116, 104, 111, 117, 103, 104, 116, 95, 99, 111, 112, 95, 112, 114, 101, 100, 95, 95, 114, 101, 108, 97, 116, 105, 118, 101, 95, 112, 114, 101, 100, 105, 99, 97, 116, 101],
  -- MI_phrase__relative_syllable
  [77, 73, 95, 112, 104, 114, 97, 115, 101, 95, 95, 114, 101, 108, 97, 116, 105, 118, 101, 95, 115, 121, 108, 108, 97, 98, 108, 101],
  -- PO_phrase__relative_syllable
  [80, 79, 95, 112, 104, 114, 97, 115, 101, 95, 95, 114, 101, 108, 97, 116, 105, 118, 101, 95, 115, 121, 108, 108, 97, 98, 108, 101],
  -- MO_phrase__relative_syllable
  [77, 79, 95, 112, 104, 114, 97, 115, 101, 95, 95, 114, 101, 108, 97, 116, 105, 118, 101, 95, 115, 121, 108, 108, 97, 98, 108, 101],
  -- predicate_word__relative_syllable
  [112, 114, 101, 100, 105, 99, 97, 116, 101, 95, 119, 111, 114, 100, 95, 95, 114, 101, 108, 97, 116, 105, 118, 101, 95, 115, 121, 108, 108, 97, 98, 108, 101],
  -- afterthought_cop__adverb_1__adverb
  [97, 102, 116, 101, 114, 116, 104, 111, 117, 103, 104, 116, 95, 99, 111, 112, 95, 95, 97, 100, 118, 101, 114, 98, 95, 49, 95, 95, 97, 100, 118, 101, 114, 98],
  -- forethought_cop__adverb__adverb
  [102, 111, 114, 101, 116, 104, 111, 117, 103, 104, 116, 95, 99, 111, 112, 95, 95, 97, 100, 118, 101, 114, 98, 95, 95, 97, 100, 118, 101, 114, 98],
  -- serial__adverb_3
  [115, 101, 114, 105, 97, 108, 95, 95, 97, 100, 118, 101, 114, 98, 95, 51],
  -- afterthought_cop_pred__adverb_4
  [97, 102, 116, 101, 114, 116, 104, 111, 117, 103, 104, 116, 95, 99, 111, 112, 95, 112, 114, 101, 100, 95, 95, 97, 100, 118, 101, 114, 98, 95, 52],
  -- forethought_cop_pred__adverb_3
  [102, 111, 114, 101, 116, 104, 111, 117, 103, 104, 116, 95, 99, 111, 112, 95, 112, 114, 101, 100, 95, 95, 97, 100, 118, 101, 114, 98, 95, 51],
  -- LU_predicate__adverb_syllable
  [76, 85, 95, 112, 114, 101, 100, 105, 99, 97, 116, 101, 95, 95, 97, 100, 118, 101, 114, 98, 95, 115, 121, 108, 108, 97, 98, 108, 101],
  -- MI_phrase__adverb_syllable
  [77, 73, 95, 112, 104, 114, 97, 115, 101, 95, 95, 97, 100, 118, 101, 114, 98, 95, 115, 121, 108, 108, 97, 98, 108, 101],
  -- PO_phrase__adverb_syllable
  [80, 79, 95, 112, 104, 114, 97, 115, 101, 95, 95, 97, 100, 118, 101, 114, 98, 95, 115, 121, 108, 108, 97, 98, 108, 101],
  -- MO_phrase__adverb_syllable
  [77, 79, 95, 112, 104, 114, 97, 115, 101, 95, 95, 97, 100, 118, 101, 114, 98, 95, 115, 121, 108, 108, 97, 98, 108, 101],
  -- predicate_word__adverb_syllable
  [112, 114, 101, 100, 105, 99, 97, 116, 101, 95, 119, 111, 114, 100, 95, 95, 97, 100, 118, 101, 114, 98, 95, 115, 121, 108, 108, 97, 98, 108, 101],
  -- afterthought_cop__prepositional_phrase_1__prepositional_phrase
  [97, 102, 116, 101, 114, 116, 104, 111, 117, 103, 104, 116, 95, 99, 111, 112, 95, 95, 112, 114, 101, 112, 111, 115, 105, 116, 105, 111, 110, 97, 108, 95, 112, 104, 114, 97, 115, 101, 95, 49, 95, 95, 112, 114, 101, 112, 111, 115, 105, 116, 105, 111, 110, 97, 108, 95, 112, 104, 114, 97, 115, 101],
  -- forethought_cop__prepositional_phrase__prepositional_phrase
  [102, 111, 114, 101, 116, 104, 111, 117, 103, 104, 116, 95, 99, 111, 112, 95, 95, 112, 114, 101, 112, 111, 115, 105, 116, 105, 111, 110, 97, 108, 95, 112, 104, 114, 97, 115, 101, 95, 95, 112, 114, 101, 112, 111, 115, 105, 116, 105, 111, 110, 97, 108, 95, 112, 104, 114, 97, 115, 101],
  -- afterthought_cop__preposition_1__preposition
  [97, 102, 116, 101, 114, 116, 104, 111, 117, 103, 104, 116, 95, 99, 111, 112, 95, 95, 112, 114, 101, 112, 111, 115, 105, 116, 105, 111, 110, 95, 49, 95, 95, 112, 114, 101, 112, 111, 115, 105, 116, 105, 111, 110],
  -- forethought_cop__preposition__preposition
  [102, 111, 114, 101, 116, 104, 111, 117, 103, 104, 116, 95, 99, 111, 112, 95, 95, 112, 114, 101, 112, 111, 115, 105, 116, 105, 111, 110, 95, 95, 112, 114, 101, 112, 111, 115, 105, 116, 105, 111, 110],
  -- serial__preposition_3
  [115, 101, 114, 105, 97, 108, 95, 95, 112, 114, 101, 112, 111, 115, 105, 116, 105, 111, 110, 95, 51],
  -- afterthought_cop_pred__preposition_4
  [97, 102, 116, 101, 114, 116, 104, 111, 117, 103, 104, 116, 95, 99, 111, 112, 95, 112, 114, 101, 100, 95, 95, 112, 114, 101, 112, 111, 115, 105, 116, 105, 111, 110, 95, 52],
  -- forethought_cop_pred__preposition
  [102, 111, 114, 101, 116, 104, 111, 117, 103, 104, 116, 95, 99, 111, 112, 95, 112, 114, 101, 100, 95, 95, 112, 114, 101, 112, 111, 115, 105, 116, 105, 111, 110],
  -- LU_predicate__preposition_syllable
  [76, 85, 95, 112, 114, 101, 100, 105, 99, 97, 116, 101, 95, 95, 112, 114, 101, 112, 111, 115, 105, 116, 105, 111, 110, 95, 115, 121, 108, 108, 97, 98, 108, 101],
  -- MI_phrase__preposition_syllable
  [77, 73, 95, 112, 104, 114, 97, 115, 101, 95, 95, 112, 114, 101, 112, 111, 115, 105, 116, 105, 111, 110, 95, 115, 121, 108, 108, 97, 98, 108, 101],
  -- PO_phrase__preposition_syllable
  [80, 79, 95, 112, 104, 114, 97, 115, 101, 95, 95, 112, 114, 101, 112, 111, 115, 105, 116, 105, 111, 110, 95, 115, 121, 108, 108, 97, 98, 108, 101],
  -- MO_phrase__preposition_syllable
  [77, 79, 95, 112, 104, 114, 97, 115, 101, 95, 95, 112, 114, 101, 112, 111, 115, 105, 116, 105, 111, 110, 95, 115, 121, 108, 108, 97, 98, 108, 101],
  -- predicate_word__preposition_syllable
  [112, 114, 101, 100, 105, 99, 97, 116, 101, 95, 119, 111, 114, 100, 95, 95, 112, 114, 101, 112, 111, 115, 105, 116, 105, 111, 110, 95, 115, 121, 108, 108, 97, 98, 108, 101],
  -- afterthought_cop__content_clause_1__statement
  [97, 102, 116, 101, 114, 116, 104, 111, 117, 103, 104, 116, 95, 99, 111, 112, 95, 95, 99, 111, 110, 116, 101, 110, 116, 95, 99, 108, 97, 117, 115, 101, 95, 49, 95, 95, 115, 116, 97, 116, 101, 109, 101, 110, 116],
  -- LU_phrase__content_syllable
  [76, 85, 95, 112, 104, 114, 97, 115, 101, 95, 95, 99, 111, 110, 116, 101, 110, 116, 95, 115, 121, 108, 108, 97, 98, 108, 101],
  -- serial__content_predicate_1
  [115, 101, 114, 105, 97, 108, 95, 95, 99, 111, 110, 116, 101, 110, 116, 95, 112, 114, 101, 100, 105, 99, 97, 116, 101, 95, 49],
  -- afterthought_cop_pred__content_predicate_2
  [97, 102, 116, 101, 114, 116, 104, 111, 117, 103, 104, 116, 95, 99, 111, 112, 95, 112, 114, 101, 100, 95, 95, 99, 111, 110, 116, 101, 110, 116, 95, 112, 114, 101, 100, 105, 99, 97, 116, 101, 95, 50],
  -- forethought_cop_pred__content_predicate_2
  [102, 111, 114, 101, 116, 104, 111, 117, 103, 104, 116, 95, 99, 111, 112, 95, 112, 114, 101, 100, 95, 95, 99, 111, 110, 116, 101, 110, 116, 95, 112, 114, 101, 100, 105, 99, 97, 116, 101, 95, 50],
  -- MI_phrase__content_syllable
  [77, 73, 95, 112, 104, 114, 97, 115, 101, 95, 95, 99, 111, 110, 116, 101, 110, 116, 95, 115, 121, 108, 108, 97, 98, 108, 101],
  -- PO_phrase__content_syllable
  [80, 79, 95, 112, 104, 114, 97, 115, 101, 95, 95, 99, 111, 110, 116, 101, 110, 116, 95, 115, 121, 108, 108, 97, 98, 108, 101],
  -- MO_phrase__content_syllable
  [77, 79, 95, 112, 104, 114, 97, 115, 101, 95, 95, 99, 111, 110, 116, 101, 110, 116, 95, 115, 121, 108, 108, 97, 98, 108, 101],
  -- predicate_word__content_syllable
  [112, 114, 101, 100, 105, 99, 97, 116, 101, 95, 119, 111, 114, 100, 95, 95, 99, 111, 110, 116, 101, 110, 116, 95, 115, 121, 108, 108, 97, 98, 108, 101],
  -- syllable__compound_desinence__compound_tone
  [115, 121, 108, 108, 97, 98, 108, 101, 95, 95, 99, 111, 109, 112, 111, 117, 110, 100, 95, 100, 101, 115, 105, 110, 101, 110, 99, 101, 95, 95, 99, 111, 109, 112, 111, 117, 110, 100, 95, 116, 111, 110, 101],
  -- syllable__arg_desinence__arg_tone
  [115, 121, 108, 108, 97, 98, 108, 101, 95, 95, 97, 114, 103, 95, 100, 101, 115, 105, 110, 101, 110, 99, 101, 95, 95, 97, 114, 103, 95, 116, 111, 110, 101],
  -- syllable__relative_desinence__relative_tone
  [115, 121, 108, 108, 97, 98, 108, 101, 95, 95, 114, 101, 108, 97, 116, 105, 118, 101, 95, 100, 101, 115, 105, 110, 101, 110, 99, 101, 95, 95, 114, 101, 108, 97, 116, 105, 118, 101, 95, 116, 111, 110, 101],
  -- syllable__verb_desinence__verb_tone
  [115, 121, 108, 108, 97, 98, 108, 101, 95, 95, 118, 101, 114, 98, 95, 100, 101, 115, 105, 110, 101, 110, 99, 101, 95, 95, 118, 101, 114, 98, 95, 116, 111, 110, 101],
  -- syllable__content_desinence__content_tone
  [115, 121, 108, 108, 97, 98, 108, 101, 95, 95, 99, 111, 110, 116, 101, 110, 116, 95, 100, 101, 115, 105, 110, 101, 110, 99, 101, 95, 95, 99, 111, 110, 116, 101, 110, 116, 95, 116, 111, 110, 101],
  -- syllable__preposition_desinence__preposition_tone
  [115, 121, 108, 108, 97, 98, 108, 101, 95, 95, 112, 114, 101, 112, 111, 115, 105, 116, 105, 111, 110, 95, 100, 101, 115, 105, 110, 101, 110, 99, 101, 95, 95, 112, 114, 101, 112, 111, 115, 105, 116, 105, 111, 110, 95, 116, 111, 110, 101],
  -- syllable__adverb_desinence__adverb_tone
  [115, 121, 108, 108, 97, 98, 108, 101, 95, 95, 97, 100, 118, 101, 114, 98, 95, 100, 101, 115, 105, 110, 101, 110, 99, 101, 95, 95, 97, 100, 118, 101, 114, 98, 95, 116, 111, 110, 101],
  -- desinence__a__u__i__o__e
  [100, 101, 115, 105, 110, 101, 110, 99, 101, 95, 95, 97, 95, 95, 117, 95, 95, 105, 95, 95, 111, 95, 95, 101],
  -- desinence__ā__ū__ī__ō__ē
  [100, 101, 115, 105, 110, 101, 110, 99, 101, 95, 95, 196, 129, 95, 95, 197, 171, 95, 95, 196, 171, 95, 95, 197, 141, 95, 95, 196, 147],
  -- desinence__á__ú__í__ó__é
  [100, 101, 115, 105, 110, 101, 110, 99, 101, 95, 95, 195, 161, 95, 95, 195, 186, 95, 95, 195, 173, 95, 95, 195, 179, 95, 95, 195, 169],
  -- desinence__ǎ__ǔ__ǐ__ǒ__ě
  [100, 101, 115, 105, 110, 101, 110, 99, 101, 95, 95, 199, 142, 95, 95, 199, 148, 95, 95, 199, 144, 95, 95, 199, 146, 95, 95, 196, 155],
  -- desinence__ả__ủ__ỉ__ỏ__ẻ
  [100, 101, 115, 105, 110, 101, 110, 99, 101, 95, 95, 225, 186, 163, 95, 95, 225, 187, 167, 95, 95, 225, 187, 137, 95, 95, 225, 187, 143, 95, 95, 225, 186, 187],
  -- desinence__â__û__î__ô__ê
  [100, 101, 115, 105, 110, 101, 110, 99, 101, 95, 95, 195, 162, 95, 95, 195, 187, 95, 95, 195, 174, 95, 95, 195, 180, 95, 95, 195, 170],
  -- desinence__à__ù__ì__ò__è
  [100, 101, 115, 105, 110, 101, 110, 99, 101, 95, 95, 195, 160, 95, 95, 195, 185, 95, 95, 195, 172, 95, 95, 195, 178, 95, 95, 195, 168],
  -- desinence__ã__ũ__ĩ__õ__ẽ
  [100, 101, 115, 105, 110, 101, 110, 99, 101, 95, 95, 195, 163, 95, 95, 197, 169, 95, 95, 196, 169, 95, 95, 195, 181, 95, 95, 225, 186, 189],
  -- cop_bar__relative_clause
  [99, 111, 112, 95, 98, 97, 114, 95, 95, 114, 101, 108, 97, 116, 105, 118, 101, 95, 99, 108, 97, 117, 115, 101],
  -- cop_bar__sentence
  [99, 111, 112, 95, 98, 97, 114, 95, 95, 115, 101, 110, 116, 101, 110, 99, 101],
  -- forethought_cop_1__sentence__sentence
  [102, 111, 114, 101, 116, 104, 111, 117, 103, 104, 116, 95, 99, 111, 112, 95, 49, 95, 95, 115, 101, 110, 116, 101, 110, 99, 101, 95, 95, 115, 101, 110, 116, 101, 110, 99, 101],
  -- cop_bar__statement
  [99, 111, 112, 95, 98, 97, 114, 95, 95, 115, 116, 97, 116, 101, 109, 101, 110, 116],
  -- forethought_cop_1__statement__statement
  [102, 111, 114, 101, 116, 104, 111, 117, 103, 104, 116, 95, 99, 111, 112, 95, 49, 95, 95, 115, 116, 97, 116, 101, 109, 101, 110, 116, 95, 95, 115, 116, 97, 116, 101, 109, 101, 110, 116],
  -- cop_bar__predicate_1
  [99, 111, 112, 95, 98, 97, 114, 95, 95, 112, 114, 101, 100, 105, 99, 97, 116, 101, 95, 49],
  -- forethought_cop__predicate__predicate
  [102, 111, 114, 101, 116, 104, 111, 117, 103, 104, 116, 95, 99, 111, 112, 95, 95, 112, 114, 101, 100, 105, 99, 97, 116, 101, 95, 95, 112, 114, 101, 100, 105, 99, 97, 116, 101],
  -- LU_phrase__verb_syllable
  [76, 85, 95, 112, 104, 114, 97, 115, 101, 95, 95, 118, 101, 114, 98, 95, 115, 121, 108, 108, 97, 98, 108, 101],
  -- MI_phrase_1__verb_syllable
  [77, 73, 95, 112, 104, 114, 97, 115, 101, 95, 49, 95, 95, 118, 101, 114, 98, 95, 115, 121, 108, 108, 97, 98, 108, 101],
  -- PO_phrase_1__verb_syllable
  [80, 79, 95, 112, 104, 114, 97, 115, 101, 95, 49, 95, 95, 118, 101, 114, 98, 95, 115, 121, 108, 108, 97, 98, 108, 101],
  -- MO_phrase_1__verb_syllable
  [77, 79, 95, 112, 104, 114, 97, 115, 101, 95, 49, 95, 95, 118, 101, 114, 98, 95, 115, 121, 108, 108, 97, 98, 108, 101],
  -- forethought_cop_1__terms_V__terms_V
  [102, 111, 114, 101, 116, 104, 111, 117, 103, 104, 116, 95, 99, 111, 112, 95, 49, 95, 95, 116, 101, 114, 109, 115, 95, 86, 95, 95, 116, 101, 114, 109, 115, 95, 86],
  -- forethought_cop_1__terms_IV__terms_IV
  [102, 111, 114, 101, 116, 104, 111, 117, 103, 104, 116, 95, 99, 111, 112, 95, 49, 95, 95, 116, 101, 114, 109, 115, 95, 73, 86, 95, 95, 116, 101, 114, 109, 115, 95, 73, 86],
  -- forethought_cop_1__terms_III__terms_III
  [102, 111, 114, 101, 116, 104, 111, 117, 103, 104, 116, 95, 99, 111, 112, 95, 49, 95, 95, 116, 101, 114, 109, 115, 95, 73, 73, 73, 95, 95, 116, 101, 114, 109, 115, 95, 73, 73, 73],
  -- forethought_cop_1__terms_II__terms_II
  [102, 111, 114, 101, 116, 104, 111, 117, 103, 104, 116, 95, 99, 111, 112, 95, 49, 95, 95, 116, 101, 114, 109, 115, 95, 73, 73, 95, 95, 116, 101, 114, 109, 115, 95, 73, 73],
  -- cop_bar__argument
  [99, 111, 112, 95, 98, 97, 114, 95, 95, 97, 114, 103, 117, 109, 101, 110, 116],
  -- forethought_cop_1__argument__argument
  [102, 111, 114, 101, 116, 104, 111, 117, 103, 104, 116, 95, 99, 111, 112, 95, 49, 95, 95, 97, 114, 103, 117, 109, 101, 110, 116, 95, 95, 97, 114, 103, 117, 109, 101, 110, 116],
  -- afterthought_cop__arg_7__predicate
  [97, 102, 116, 101, 114, 116, 104, 111, 117, 103, 104, 116, 95, 99, 111, 112, 95, 95, 97, 114, 103, 95, 55, 95, 95, 112, 114, 101, 100, 105, 99, 97, 116, 101],
  -- forethought_cop__arg_5__predicate
  [102, 111, 114, 101, 116, 104, 111, 117, 103, 104, 116, 95, 99, 111, 112, 95, 95, 97, 114, 103, 95, 53, 95, 95, 112, 114, 101, 100, 105, 99, 97, 116, 101],
  -- LU_phrase__arg_syllable
  [76, 85, 95, 112, 104, 114, 97, 115, 101, 95, 95, 97, 114, 103, 95, 115, 121, 108, 108, 97, 98, 108, 101],
  -- MI_phrase_1__arg_syllable
  [77, 73, 95, 112, 104, 114, 97, 115, 101, 95, 49, 95, 95, 97, 114, 103, 95, 115, 121, 108, 108, 97, 98, 108, 101],
  -- PO_phrase_1__arg_syllable
  [80, 79, 95, 112, 104, 114, 97, 115, 101, 95, 49, 95, 95, 97, 114, 103, 95, 115, 121, 108, 108, 97, 98, 108, 101],
  -- MO_phrase_1__arg_syllable
  [77, 79, 95, 112, 104, 114, 97, 115, 101, 95, 49, 95, 95, 97, 114, 103, 95, 115, 121, 108, 108, 97, 98, 108, 101],
  -- LU_word__relative_syllable
  [76, 85, 95, 119, 111, 114, 100, 95, 95, 114, 101, 108, 97, 116, 105, 118, 101, 95, 115, 121, 108, 108, 97, 98, 108, 101],
  -- forethought_cop_1__relative_clause__relative_clause
  [102, 111, 114, 101, 116, 104, 111, 117, 103, 104, 116, 95, 99, 111, 112, 95, 49, 95, 95, 114, 101, 108, 97, 116, 105, 118, 101, 95, 99, 108, 97, 117, 115, 101, 95, 95, 114, 101, 108, 97, 116, 105, 118, 101, 95, 99, 108, 97, 117, 115, 101],
  -- afterthought_cop__relative_predicate_2__predicate
  [97, 102, 116, 101, 114, 116, 104, 111, 117, 103, 104, 116, 95, 99, 111, 112, 95, 95, 114, 101, 108, 97, 116, 105, 118, 101, 95, 112, 114, 101, 100, 105, 99, 97, 116, 101, 95, 50, 95, 95, 112, 114, 101, 100, 105, 99, 97, 116, 101],
  -- forethought_cop__relative_predicate__predicate
  [102, 111, 114, 101, 116, 104, 111, 117, 103, 104, 116, 95, 99, 111, 112, 95, 95, 114, 101, 108, 97, 116, 105, 118, 101, 95, 112, 114, 101, 100, 105, 99, 97, 116, 101, 95, 95, 112, 114, 101, 100, 105, 99, 97, 116, 101],
  -- MI_phrase_1__relative_syllable
  [77, 73, 95, 112, 104, 114, 97, 115, 101, 95, 49, 95, 95, 114, 101, 108, 97, 116, 105, 118, 101, 95, 115, 121, 108, 108, 97, 98, 108, 101],
  -- PO_phrase_1__relative_syllable
  [80, 79, 95, 112, 104, 114, 97, 115, 101, 95, 49, 95, 95, 114, 101, 108, 97, 116, 105, 118, 101, 95, 115, 121, 108, 108, 97, 98, 108, 101],
  -- MO_phrase_1__relative_syllable
  [77, 79, 95, 112, 104, 114, 97, 115, 101, 95, 49, 95, 95, 114, 101, 108, 97, 116, 105, 118, 101, 95, 115, 121, 108, 108, 97, 98, 108, 101],
  -- cop_bar__adverb
  [99, 111, 112, 95, 98, 97, 114, 95, 95, 97, 100, 118, 101, 114, 98],
  -- forethought_cop_1__adverb__adverb
  [102, 111, 114, 101, 116, 104, 111, 117, 103, 104, 116, 95, 99, 111, 112, 95, 49, 95, 95, 97, 100, 118, 101, 114, 98, 95, 95, 97, 100, 118, 101, 114, 98],
  -- afterthought_cop__adverb_4__predicate
  [97, 102, 116, 101, 114, 116, 104, 111, 117, 103, 104, 116, 95, 99, 111, 112, 95, 95, 97, 100, 118, 101, 114, 98, 95, 52, 95, 95, 112, 114, 101, 100, 105, 99, 97, 116, 101],
  -- forethought_cop__adverb_3__predicate
  [102, 111, 114, 101, 116, 104, 111, 117, 103, 104, 116, 95, 99, 111, 112, 95, 95, 97, 100, 118, 101, 114, 98, 95, 51, 95, 95, 112, 114, 101, 100, 105, 99, 97, 116, 101],
  -- LU_phrase__adverb_syllable
  [76, 85, 95, 112, 104, 114, 97, 115, 101, 95, 95, 97, 100, 118, 101, 114, 98, 95, 115, 121, 108, 108, 97, 98, 108, 101],
  -- MI_phrase_1__adverb_syllable
  [77, 73, 95, 112, 104, 114, 97, 115, 101, 95, 49, 95, 95, 97, 100, 118, 101, 114, 98, 95, 115, 121, 108, 108, 97, 98, 108, 101],
  -- PO_phrase_1__adverb_syllable
  [80, 79, 95, 112, 104, 114, 97, 115, 101, 95, 49, 95, 95, 97, 100, 118, 101, 114, 98, 95, 115, 121, 108, 108, 97, 98, 108, 101],
  -- MO_phrase_1__adverb_syllable
  [77, 79, 95, 112, 104, 114, 97, 115, 101, 95, 49, 95, 95, 97, 100, 118, 101, 114, 98, 95, 115, 121, 108, 108, 97, 98, 108, 101],
  -- cop_bar__prepositional_phrase
  [99, 111, 112, 95, 98, 97, 114, 95, 95, 112, 114, 101, 112, 111, 115, 105, 116, 105, 111, 110, 97, 108, 95, 112, 104, 114, 97, 115, 101],
  -- forethought_cop_1__prepositional_phrase__prepositional_phrase
  [102, 111, 114, 101, 116, 104, 111, 117, 103, 104, 116, 95, 99, 111, 112, 95, 49, 95, 95, 112, 114, 101, 112, 111, 115, 105, 116, 105, 111, 110, 97, 108, 95, 112, 104, 114, 97, 115, 101, 95, 95, 112, 114, 101, 112, 111, 115, 105, 116, 105, 111, 110, 97, 108, 95, 112, 104, 114, 97, 115, 101],
  -- cop_bar__preposition
  [99, 111, 112, 95, 98, 97, 114, 95, 95, 112, 114, 101, 112, 111, 115, 105, 116, 105, 111, 110],
  -- forethought_cop_1__preposition__preposition
  [102, 111, 114, 101, 116, 104, 111, 117, 103, 104, 116, 95, 99, 111, 112, 95, 49, 95, 95, 112, 114, 101, 112, 111, 115, 105, 116, 105, 111, 110, 95, 95, 112, 114, 101, 112, 111, 115, 105, 116, 105, 111, 110],
  -- afterthought_cop__preposition_4__predicate
  [97, 102, 116, 101, 114, 116, 104, 111, 117, 103, 104, 116, 95, 99, 111, 112, 95, 95, 112, 114, 101, 112, 111, 115, 105, 116, 105, 111, 110, 95, 52, 95, 95, 112, 114, 101, 100, 105, 99, 97, 116, 101],
  -- forethought_cop__preposition__predicate
  [102, 111, 114, 101, 116, 104, 111, 117, 103, 104, 116, 95, 99, 111, 112, 95, 95, 112, 114, 101, 112, 111, 115, 105, 116, 105, 111, 110, 95, 95, 112, 114, 101, 100, 105, 99, 97, 116, 101],
  -- LU_phrase__preposition_syllable
  [76, 85, 95, 112, 104, 114, 97, 115, 101, 95, 95, 112, 114, 101, 112, 111, 115, 105, 116, 105, 111, 110, 95, 115, 121, 108, 108, 97, 98, 108, 101],
  -- MI_phrase_1__preposition_syllable
  [77, 73, 95, 112, 104, 114, 97, 115, 101, 95, 49, 95, 95, 112, 114, 101, 112, 111, 115, 105, 116, 105, 111, 110, 95, 115, 121, 108, 108, 97, 98, 108, 101],
  -- PO_phrase_1__preposition_syllable
  [80, 79, 95, 112, 104, 114, 97, 115, 101, 95, 49, 95, 95, 112, 114, 101, 112, 111, 115, 105, 116, 105, 111, 110, 95, 115, 121, 108, 108, 97, 98, 108, 101],
  -- MO_phrase_1__preposition_syllable
  [77, 79, 95, 112, 104, 114, 97, 115, 101, 95, 49, 95, 95, 112, 114, 101, 112, 111, 115, 105, 116, 105, 111, 110, 95, 115, 121, 108, 108, 97, 98, 108, 101],
  -- LU_word__content_syllable
  [76, 85, 95, 119, 111, 114, 100, 95, 95, 99, 111, 110, 116, 101, 110, 116, 95, 115, 121, 108, 108, 97, 98, 108, 101],
  -- afterthought_cop__content_predicate_2__predicate
  [97, 102, 116, 101, 114, 116, 104, 111, 117, 103, 104, 116, 95, 99, 111, 112, 95, 95, 99, 111, 110, 116, 101, 110, 116, 95, 112, 114, 101, 100, 105, 99, 97, 116, 101, 95, 50, 95, 95, 112, 114, 101, 100, 105, 99, 97, 116, 101],
  -- forethought_cop__content_predicate_2__predicate
  [102, 111, 114, 101, 116, 104, 111, 117, 103, 104, 116, 95, 99, 111, 112, 95, 95, 99, 111, 110, 116, 101, 110, 116, 95, 112, 114, 101, 100, 105, 99, 97, 116, 101, 95, 50, 95, 95, 112, 114, 101, 100, 105, 99, 97, 116, 101],
  -- MI_phrase_1__content_syllable
  [77, 73, 95, 112, 104, 114, 97, 115, 101, 95, 49, 95, 95, 99, 111, 110, 116, 101, 110, 116, 95, 115, 121, 108, 108, 97, 98, 108, 101],
  -- PO_phrase_1__content_syllable
  [80, 79, 95, 112, 104, 114, 97, 115, 101, 95, 49, 95, 95, 99, 111, 110, 116, 101, 110, 116, 95, 115, 121, 108, 108, 97, 98, 108, 101],
  -- MO_phrase_1__content_syllable
  [77, 79, 95, 112, 104, 114, 97, 115, 101, 95, 49, 95, 95, 99, 111, 110, 116, 101, 110, 116, 95, 115, 121, 108, 108, 97, 98, 108, 101],
  -- forethought_cop_bar__sentence
  [102, 111, 114, 101, 116, 104, 111, 117, 103, 104, 116, 95, 99, 111, 112, 95, 98, 97, 114, 95, 95, 115, 101, 110, 116, 101, 110, 99, 101],
  -- forethought_cop_bar__statement
  [102, 111, 114, 101, 116, 104, 111, 117, 103, 104, 116, 95, 99, 111, 112, 95, 98, 97, 114, 95, 95, 115, 116, 97, 116, 101, 109, 101, 110, 116],
  -- forethought_cop_1__predicate__predicate
  [102, 111, 114, 101, 116, 104, 111, 117, 103, 104, 116, 95, 99, 111, 112, 95, 49, 95, 95, 112, 114, 101, 100, 105, 99, 97, 116, 101, 95, 95, 112, 114, 101, 100, 105, 99, 97, 116, 101],
  -- LU_word__verb_syllable
  [76, 85, 95, 119, 111, 114, 100, 95, 95, 118, 101, 114, 98, 95, 115, 121, 108, 108, 97, 98, 108, 101],
  -- MI_word__verb_syllable
  [77, 73, 95, 119, 111, 114, 100, 95, 95, 118, 101, 114, 98, 95, 115, 121, 108, 108, 97, 98, 108, 101],
  -- PO_word__verb_syllable
  [80, 79, 95, 119, 111, 114, 100, 95, 95, 118, 101, 114, 98, 95, 115, 121, 108, 108, 97, 98, 108, 101],
  -- MO_word__verb_syllable
  [77, 79, 95, 119, 111, 114, 100, 95, 95, 118, 101, 114, 98, 95, 115, 121, 108, 108, 97, 98, 108, 101],
  -- forethought_cop_bar__terms_V
  [102, 111, 114, 101, 116, 104, 111, 117, 103, 104, 116, 95, 99, 111, 112, 95, 98, 97, 114, 95, 95, 116, 101, 114, 109, 115, 95, 86],
  -- forethought_cop_bar__terms_IV
  [102, 111, 114, 101, 116, 104, 111, 117, 103, 104, 116, 95, 99, 111, 112, 95, 98, 97, 114, 95, 95, 116, 101, 114, 109, 115, 95, 73, 86],
  -- forethought_cop_bar__terms_III
  [102, 111, 114, 101, 116, 104, 111, 117, 103, 104, 116, 95, 99, 111, 112, 95, 98, 97, 114, 95, 95, 116, 101, 114, 109, 115, 95, 73, 73, 73],
  -- forethought_cop_bar__terms_II
  [102, 111, 114, 101, 116, 104, 111, 117, 103, 104, 116, 95, 99, 111, 112, 95, 98, 97, 114, 95, 95, 116, 101, 114, 109, 115, 95, 73, 73],
  -- forethought_cop_bar__argument
  [102, 111, 114, 101, 116, 104, 111, 117, 103, 104, 116, 95, 99, 111, 112, 95, 98, 97, 114, 95, 95, 97, 114, 103, 117, 109, 101, 110, 116],
  -- cop_bar__predicate
  [99, 111, 112, 95, 98, 97, 114, 95, 95, 112, 114, 101, 100, 105, 99, 97, 116, 101],
  -- forethought_cop_1__arg_5__predicate
  [102, 111, 114, 101, 116, 104, 111, 117, 103, 104, 116, 95, 99, 111, 112, 95, 49, 95, 95, 97, 114, 103, 95, 53, 95, 95, 112, 114, 101, 100, 105, 99, 97, 116, 101],
  -- LU_word__arg_syllable
  [76, 85, 95, 119, 111, 114, 100, 95, 95, 97, 114, 103, 95, 115, 121, 108, 108, 97, 98, 108, 101],
  -- MI_word__arg_syllable
  [77, 73, 95, 119, 111, 114, 100, 95, 95, 97, 114, 103, 95, 115, 121, 108, 108, 97, 98, 108, 101],
  -- PO_word__arg_syllable
  [80, 79, 95, 119, 111, 114, 100, 95, 95, 97, 114, 103, 95, 115, 121, 108, 108, 97, 98, 108, 101],
  -- MO_word__arg_syllable
  [77, 79, 95, 119, 111, 114, 100, 95, 95, 97, 114, 103, 95, 115, 121, 108, 108, 97, 98, 108, 101],
  -- forethought_cop_bar__relative_clause
  [102, 111, 114, 101, 116, 104, 111, 117, 103, 104, 116, 95, 99, 111, 112, 95, 98, 97, 114, 95, 95, 114, 101, 108, 97, 116, 105, 118, 101, 95, 99, 108, 97, 117, 115, 101],
  -- forethought_cop_1__relative_predicate__predicate
  [102, 111, 114, 101, 116, 104, 111, 117, 103, 104, 116, 95, 99, 111, 112, 95, 49, 95, 95, 114, 101, 108, 97, 116, 105, 118, 101, 95, 112, 114, 101, 100, 105, 99, 97, 116, 101, 95, 95, 112, 114, 101, 100, 105, 99, 97, 116, 101],
  -- MI_word__relative_syllable
  [77, 73, 95, 119, 111, 114, 100, 95, 95, 114, 101, 108, 97, 116, 105, 118, 101, 95, 115, 121, 108, 108, 97, 98, 108, 101],
  -- PO_word__relative_syllable
  [80, 79, 95, 119, 111, 114, 100, 95, 95, 114, 101, 108, 97, 116, 105, 118, 101, 95, 115, 121, 108, 108, 97, 98, 108, 101],
  -- MO_word__relative_syllable
  [77, 79, 95, 119, 111, 114, 100, 95, 95, 114, 101, 108, 97, 116, 105, 118, 101, 95, 115, 121, 108, 108, 97, 98, 108, 101],
  -- forethought_cop_bar__adverb
  [102, 111, 114, 101, 116, 104, 111, 117, 103, 104, 116, 95, 99, 111, 112, 95, 98, 97, 114, 95, 95, 97, 100, 118, 101, 114, 98],
  -- forethought_cop_1__adverb_3__predicate
  [102, 111, 114, 101, 116, 104, 111, 117, 103, 104, 116, 95, 99, 111, 112, 95, 49, 95, 95, 97, 100, 118, 101, 114, 98, 95, 51, 95, 95, 112, 114, 101, 100, 105, 99, 97, 116, 101],
  -- LU_word__adverb_syllable
  [76, 85, 95, 119, 111, 114, 100, 95, 95, 97, 100, 118, 101, 114, 98, 95, 115, 121, 108, 108, 97, 98, 108, 101],
  -- MI_word__adverb_syllable
  [77, 73, 95, 119, 111, 114, 100, 95, 95, 97, 100, 118, 101, 114, 98, 95, 115, 121, 108, 108, 97, 98, 108, 101],
  -- PO_word__adverb_syllable
  [80, 79, 95, 119, 111, 114, 100, 95, 95, 97, 100, 118, 101, 114, 98, 95, 115, 121, 108, 108, 97, 98, 108, 101],
  -- MO_word__adverb_syllable
  [77, 79, 95, 119, 111, 114, 100, 95, 95, 97, 100, 118, 101, 114, 98, 95, 115, 121, 108, 108, 97, 98, 108, 101],
  -- forethought_cop_bar__prepositional_phrase
  [102, 111, 114, 101, 116, 104, 111, 117, 103, 104, 116, 95, 99, 111, 112, 95, 98, 97, 114, 95, 95, 112, 114, 101, 112, 111, 115, 105, 116, 105, 111, 110, 97, 108, 95, 112, 104, 114, 97, 115, 101],
  -- forethought_cop_bar__preposition
  [102, 111, 114, 101, 116, 104, 111, 117, 103, 104, 116, 95, 99, 111, 112, 95, 98, 97, 114, 95, 95, 112, 114, 101, 112, 111, 115, 105, 116, 105, 111, 110],
  -- forethought_cop_1__preposition__predicate
  [102, 111, 114, 101, 116, 104, 111, 117, 103, 104, 116, 95, 99, 111, 112, 95, 49, 95, 95, 112, 114, 101, 112, 111, 115, 105, 116, 105, 111, 110, 95, 95, 112, 114, 101, 100, 105, 99, 97, 116, 101],
  -- LU_word__preposition_syllable
  [76, 85, 95, 119, 111, 114, 100, 95, 95, 112, 114, 101, 112, 111, 115, 105, 116, 105, 111, 110, 95, 115, 121, 108, 108, 97, 98, 108, 101],
  -- MI_word__preposition_syllable
  [77, 73, 95, 119, 111, 114, 100, 95, 95, 112, 114, 101, 112, 111, 115, 105, 116, 105, 111, 110, 95, 115, 121, 108, 108, 97, 98, 108, 101],
  -- PO_word__preposition_syllable
  [80, 79, 95, 119, 111, 114, 100, 95, 95, 112, 114, 101, 112, 111, 115, 105, 116, 105, 111, 110, 95, 115, 121, 108, 108, 97, 98, 108, 101],
  -- MO_word__preposition_syllable
  [77, 79, 95, 119, 111, 114, 100, 95, 95, 112, 114, 101, 112, 111, 115, 105, 116, 105, 111, 110, 95, 115, 121, 108, 108, 97, 98, 108, 101],
  -- forethought_cop_1__content_predicate_2__predicate
  [102, 111, 114, 101, 116, 104, 111, 117, 103, 104, 116, 95, 99, 111, 112, 95, 49, 95, 95, 99, 111, 110, 116, 101, 110, 116, 95, 112, 114, 101, 100, 105, 99, 97, 116, 101, 95, 50, 95, 95, 112, 114, 101, 100, 105, 99, 97, 116, 101],
  -- MI_word__content_syllable
  [77, 73, 95, 119, 111, 114, 100, 95, 95, 99, 111, 110, 116, 101, 110, 116, 95, 115, 121, 108, 108, 97, 98, 108, 101],
  -- PO_word__content_syllable
  [80, 79, 95, 119, 111, 114, 100, 95, 95, 99, 111, 110, 116, 101, 110, 116, 95, 115, 121, 108, 108, 97, 98, 108, 101],
  -- MO_word__content_syllable
  [77, 79, 95, 119, 111, 114, 100, 95, 95, 99, 111, 110, 116, 101, 110, 116, 95, 115, 121, 108, 108, 97, 98, 108, 101],
  -- forethought_cop_bar__predicate
  [102, 111, 114, 101, 116, 104, 111, 117, 103, 104, 116, 95, 99, 111, 112, 95, 98, 97, 114, 95, 95, 112, 114, 101, 100, 105, 99, 97, 116, 101]]

/-- The name of a rule in a tree of failures. -/
def failName (r : Nat) : Bytes := failNames.getD r []

/-- The name of a rule. -/
def ruleName (r : Nat) : Bytes := ruleNames.getD r []

end Verif.Parse
