/-
The grammar of Toaq. Generated by tools/gen_grammar.py from /repo/ast/toaq.peggy; do not edit.
Rules are numbered as in /repo/ast/toaq.go:10-414. Every rule cites its lines in toaq.peggy and the
line of its Accepts function in toaq.go.
-/
import Verif.Parse.Types

namespace Verif.Parse
open Verif.Peg

/-- `full_text`: toaq.peggy:11, toaq.go:552. -/
def r0 : Expr Act :=
  .act .keep (.seq (.lab (.ref 1)) (.ref 224))
/-- `text`: toaq.peggy:12, toaq.go:699. -/
def r1 : Expr Act :=
  .act .text (.seq (.lab (.opt (.ref 73))) (.seq (.lab (.opt (.ref 2))) (.opt (.ref 224))))
/-- `discourse`: toaq.peggy:18-21, toaq.go:983. -/
def r2 : Expr Act :=
  .plus (.grp (.alt (.act .modNode (.seq (.lab (.ref 4)) (.lab (.ref 71)))) (.act .modNode (.seq (.lab (.ref 3)) (.lab (.ref 71))))))
/-- `fragment`: toaq.peggy:27-33, toaq.go:1604. -/
def r3 : Expr Act :=
  .act .modNode (.seq (.lab (.grp (.alt (.act (.copAs .relative) (.lab (.ref 225))) (.alt (.act .keep (.lab (.ref 41))) (.alt (.act .keep (.lab (.ref 15))) (.alt (.act .keep (.lab (.ref 21))) (.act .keep (.lab (.ref 74))))))))) (.lab (.ref 71)))
/-- `sentence`: toaq.peggy:35-37, toaq.go:2120. -/
def r4 : Expr Act :=
  .alt (.act (.copAs .sentence) (.lab (.ref 226))) (.ref 5)
/-- `sentence_1`: toaq.peggy:38-40, toaq.go:2318. -/
def r5 : Expr Act :=
  .alt (.ref 6) (.act (.copAs .sentence) (.lab (.ref 227)))
/-- `sentence_2`: toaq.peggy:41-42, toaq.go:2516. -/
def r6 : Expr Act :=
  .act .je (.seq (.lab (.opt (.ref 7))) (.lab (.ref 8)))
/-- `sentence_prefix_spaces`: toaq.peggy:43-44, toaq.go:2722. -/
def r7 : Expr Act :=
  .act .modWord (.seq (.lab (.ref 88)) (.lab (.ref 71)))
/-- `sentence_3`: toaq.peggy:45-46, toaq.go:2891. -/
def r8 : Expr Act :=
  .act .sentence (.seq (.lab (.ref 9)) (.seq (.lab (.ref 71)) (.lab (.opt (.ref 96)))))
/-- `statement`: toaq.peggy:48, toaq.go:3136. -/
def r9 : Expr Act :=
  .act .prenexStmt (.seq (.lab (.opt (.ref 14))) (.lab (.ref 10)))
/-- `statement_1`: toaq.peggy:49-51, toaq.go:3341. -/
def r10 : Expr Act :=
  .alt (.act (.copAs .statement) (.lab (.ref 228))) (.ref 11)
/-- `statement_2`: toaq.peggy:52-54, toaq.go:3539. -/
def r11 : Expr Act :=
  .alt (.ref 12) (.act (.copAs .statement) (.lab (.ref 229)))
/-- `statement_3`: toaq.peggy:55-56, toaq.go:3737. -/
def r12 : Expr Act :=
  .act (.endPred .raw) (.seq (.lab (.ref 13)) (.seq (.lab (.ref 71)) (.lab (.opt (.ref 87)))))
/-- `predication`: toaq.peggy:57-58, toaq.go:3982. -/
def r13 : Expr Act :=
  .act .predication (.seq (.lab (.ref 16)) (.seq (.lab (.ref 71)) (.lab (.opt (.ref 21)))))
/-- `prenex_spaces`: toaq.peggy:59-60, toaq.go:4227. -/
def r14 : Expr Act :=
  .act .modNode (.seq (.lab (.ref 15)) (.lab (.ref 71)))
/-- `prenex`: toaq.peggy:61-62, toaq.go:4396. -/
def r15 : Expr Act :=
  .act .prenex (.seq (.lab (.ref 21)) (.seq (.lab (.ref 71)) (.lab (.ref 89))))
/-- `predicate`: toaq.peggy:68, toaq.go:4605. -/
def r16 : Expr Act :=
  .ref 20
/-- `predicate_1`: toaq.peggy:69-71, toaq.go:4689. -/
def r17 : Expr Act :=
  .alt (.act (.copAs .predicate) (.lab (.ref 230))) (.ref 18)
/-- `predicate_2`: toaq.peggy:72-78, toaq.go:4887. -/
def r18 : Expr Act :=
  .alt (.ref 231) (.alt (.ref 232) (.alt (.ref 233) (.alt (.ref 234) (.alt (.ref 235) (.ref 19)))))
/-- `predicate_3`: toaq.peggy:79-80, toaq.go:5176. -/
def r19 : Expr Act :=
  .act .modNode (.seq (.lab (.ref 236)) (.lab (.ref 71)))
/-- `serial_predicate`: toaq.peggy:81-83, toaq.go:5345. -/
def r20 : Expr Act :=
  .alt (.ref 237) (.ref 17)
/-- `terms`: toaq.peggy:91-93, toaq.go:5502. -/
def r21 : Expr Act :=
  .alt (.ref 22) (.act .terms1 (.lab (.ref 23)))
/-- `terms_2`: toaq.peggy:94-95, toaq.go:5700. -/
def r22 : Expr Act :=
  .act .prepend (.seq (.lab (.ref 23)) (.seq (.lab (.ref 71)) (.lab (.ref 21))))
/-- `term`: toaq.peggy:96-100, toaq.go:5909. -/
def r23 : Expr Act :=
  .alt (.act .keep (.lab (.ref 24))) (.alt (.act .keep (.lab (.ref 49))) (.alt (.act .keep (.lab (.ref 26))) (.act .keep (.lab (.ref 54)))))
/-- `linked_argument`: toaq.peggy:101-102, toaq.go:6272. -/
def r24 : Expr Act :=
  .act .linked (.seq (.lab (.opt (.ref 25))) (.lab (.ref 31)))
/-- `linking_word_spaces`: toaq.peggy:103-104, toaq.go:6477. -/
def r25 : Expr Act :=
  .act .modWord (.seq (.lab (.ref 94)) (.lab (.ref 71)))
/-- `termset`: toaq.peggy:105-110, toaq.go:6646. -/
def r26 : Expr Act :=
  .alt (.act (.copAs .termSet) (.lab (.ref 238))) (.alt (.act (.copAs .termSet) (.lab (.ref 239))) (.alt (.act (.copAs .termSet) (.lab (.ref 240))) (.alt (.act (.copAs .termSet) (.lab (.ref 241))) (.act (.copAs .termSet) (.lab (.ref 238))))))
/-- `terms_II`: toaq.peggy:111-112, toaq.go:7075. -/
def r27 : Expr Act :=
  .act .terms2 (.seq (.lab (.ref 23)) (.seq (.lab (.ref 71)) (.lab (.ref 23))))
/-- `terms_III`: toaq.peggy:113-114, toaq.go:7284. -/
def r28 : Expr Act :=
  .act .prepend (.seq (.lab (.ref 23)) (.seq (.lab (.ref 71)) (.lab (.ref 27))))
/-- `terms_IV`: toaq.peggy:115-116, toaq.go:7493. -/
def r29 : Expr Act :=
  .act .prepend (.seq (.lab (.ref 23)) (.seq (.lab (.ref 71)) (.lab (.ref 28))))
/-- `terms_V`: toaq.peggy:117-118, toaq.go:7702. -/
def r30 : Expr Act :=
  .act .prepend (.seq (.lab (.ref 23)) (.seq (.lab (.ref 71)) (.lab (.ref 29))))
/-- `argument`: toaq.peggy:124-126, toaq.go:7911. -/
def r31 : Expr Act :=
  .alt (.act (.copAs .argument) (.lab (.ref 242))) (.ref 32)
/-- `arg_1`: toaq.peggy:127-129, toaq.go:8109. -/
def r32 : Expr Act :=
  .alt (.act (.copAs .argument) (.lab (.ref 243))) (.ref 33)
/-- `arg_2`: toaq.peggy:130-131, toaq.go:8307. -/
def r33 : Expr Act :=
  .act .focused (.seq (.lab (.opt (.ref 34))) (.lab (.ref 35)))
/-- `focus_spaces`: toaq.peggy:132-133, toaq.go:8512. -/
def r34 : Expr Act :=
  .act .modWord (.seq (.lab (.ref 84)) (.lab (.ref 71)))
/-- `arg_3`: toaq.peggy:134-135, toaq.go:8681. -/
def r35 : Expr Act :=
  .act .quantified (.seq (.lab (.opt (.ref 36))) (.lab (.ref 37)))
/-- `quantifier_spaces`: toaq.peggy:136-137, toaq.go:8886. -/
def r36 : Expr Act :=
  .act .modWord (.seq (.lab (.ref 98)) (.lab (.ref 71)))
/-- `arg_4`: toaq.peggy:138-139, toaq.go:9055. -/
def r37 : Expr Act :=
  .act .argRel (.seq (.lab (.ref 38)) (.seq (.lab (.ref 71)) (.lab (.opt (.ref 41)))))
/-- `arg_5`: toaq.peggy:140-141, toaq.go:9300. -/
def r38 : Expr Act :=
  .act .predArg (.lab (.grp (.alt (.ref 244) (.ref 39))))
/-- `arg_6`: toaq.peggy:142-151, toaq.go:9508. -/
def r39 : Expr Act :=
  .alt (.act .keep (.lab (.ref 62))) (.alt (.ref 245) (.alt (.ref 246) (.alt (.ref 247) (.alt (.ref 248) (.alt (.ref 249) (.alt (.ref 250) (.ref 40)))))))
/-- `arg_7`: toaq.peggy:152, toaq.go:9904. -/
def r40 : Expr Act :=
  .ref 251
/-- `relative_clause`: toaq.peggy:158-161, toaq.go:9988. -/
def r41 : Expr Act :=
  .alt (.act (.copAs .relative) (.lab (.ref 225))) (.alt (.act (.luAs .relative) (.lab (.ref 252))) (.ref 42))
/-- `relative_clause_1`: toaq.peggy:162-164, toaq.go:10252. -/
def r42 : Expr Act :=
  .alt (.act (.copAs .relative) (.lab (.ref 253))) (.ref 43)
/-- `relative_clause_2`: toaq.peggy:165-167, toaq.go:10450. -/
def r43 : Expr Act :=
  .alt (.act (.copAs .relative) (.lab (.ref 254))) (.act .keep (.lab (.ref 44)))
/-- `relative_clause_3`: toaq.peggy:168-169, toaq.go:10681. -/
def r44 : Expr Act :=
  .act (.endPred .relative) (.seq (.lab (.ref 45)) (.seq (.lab (.ref 71)) (.lab (.opt (.ref 87)))))
/-- `relative_predication`: toaq.peggy:170-171, toaq.go:10926. -/
def r45 : Expr Act :=
  .act .predication (.seq (.lab (.ref 46)) (.seq (.lab (.ref 71)) (.lab (.opt (.ref 21)))))
/-- `relative_predicate`: toaq.peggy:173-174, toaq.go:11171. -/
def r46 : Expr Act :=
  .alt (.ref 255) (.ref 47)
/-- `relative_predicate_1`: toaq.peggy:175-178, toaq.go:11328. -/
def r47 : Expr Act :=
  .alt (.ref 256) (.alt (.ref 257) (.ref 48))
/-- `relative_predicate_2`: toaq.peggy:179-183, toaq.go:11518. -/
def r48 : Expr Act :=
  .alt (.ref 258) (.alt (.ref 259) (.alt (.ref 260) (.ref 261)))
/-- `adverb`: toaq.peggy:189-191, toaq.go:11741. -/
def r49 : Expr Act :=
  .alt (.act (.copAs .adverb) (.lab (.ref 262))) (.ref 50)
/-- `adverb_1`: toaq.peggy:192-194, toaq.go:11939. -/
def r50 : Expr Act :=
  .alt (.act (.copAs .adverb) (.lab (.ref 263))) (.ref 51)
/-- `adverb_2`: toaq.peggy:195-196, toaq.go:12137. -/
def r51 : Expr Act :=
  .act .predAdverb (.lab (.grp (.alt (.ref 264) (.ref 52))))
/-- `adverb_3`: toaq.peggy:197-205, toaq.go:12345. -/
def r52 : Expr Act :=
  .alt (.ref 265) (.alt (.ref 266) (.alt (.ref 267) (.alt (.ref 268) (.alt (.ref 269) (.alt (.ref 270) (.ref 53))))))
/-- `adverb_4`: toaq.peggy:206, toaq.go:12667. -/
def r53 : Expr Act :=
  .ref 271
/-- `prepositional_phrase`: toaq.peggy:212-214, toaq.go:12751. -/
def r54 : Expr Act :=
  .alt (.act (.copAs .preposition) (.lab (.ref 272))) (.ref 55)
/-- `prepositional_phrase_1`: toaq.peggy:215-217, toaq.go:12949. -/
def r55 : Expr Act :=
  .alt (.act (.copAs .preposition) (.lab (.ref 273))) (.ref 56)
/-- `prepositional_phrase_2`: toaq.peggy:218-219, toaq.go:13147. -/
def r56 : Expr Act :=
  .act .prep (.seq (.lab (.ref 57)) (.seq (.lab (.ref 71)) (.lab (.ref 31))))
/-- `preposition`: toaq.peggy:221-223, toaq.go:13356. -/
def r57 : Expr Act :=
  .alt (.act (.copAs .predicate) (.lab (.ref 274))) (.ref 58)
/-- `preposition_1`: toaq.peggy:224-226, toaq.go:13554. -/
def r58 : Expr Act :=
  .alt (.act (.copAs .predicate) (.lab (.ref 275))) (.ref 59)
/-- `preposition_2`: toaq.peggy:227-228, toaq.go:13752. -/
def r59 : Expr Act :=
  .alt (.ref 276) (.ref 60)
/-- `preposition_3`: toaq.peggy:229-236, toaq.go:13909. -/
def r60 : Expr Act :=
  .alt (.ref 277) (.alt (.ref 278) (.alt (.ref 279) (.alt (.ref 280) (.alt (.ref 281) (.alt (.ref 282) (.ref 61))))))
/-- `preposition_4`: toaq.peggy:237, toaq.go:14231. -/
def r61 : Expr Act :=
  .ref 283
/-- `content_clause`: toaq.peggy:243-245, toaq.go:14315. -/
def r62 : Expr Act :=
  .alt (.act (.copAs .content) (.lab (.ref 284))) (.ref 63)
/-- `content_clause_1`: toaq.peggy:246-248, toaq.go:14513. -/
def r63 : Expr Act :=
  .alt (.act .keep (.lab (.ref 64))) (.act (.luAs .content) (.lab (.ref 285)))
/-- `content_statement`: toaq.peggy:249-250, toaq.go:14744. -/
def r64 : Expr Act :=
  .act (.endPred .content) (.seq (.lab (.ref 65)) (.seq (.lab (.ref 71)) (.lab (.opt (.ref 87)))))
/-- `content_predication`: toaq.peggy:251-252, toaq.go:14989. -/
def r65 : Expr Act :=
  .act .predication (.seq (.lab (.ref 66)) (.seq (.lab (.ref 71)) (.lab (.opt (.ref 21)))))
/-- `content_predicate`: toaq.peggy:254-255, toaq.go:15234. -/
def r66 : Expr Act :=
  .alt (.ref 286) (.ref 67)
/-- `content_predicate_1`: toaq.peggy:256-259, toaq.go:15391. -/
def r67 : Expr Act :=
  .alt (.ref 287) (.alt (.ref 288) (.ref 68))
/-- `content_predicate_2`: toaq.peggy:260-264, toaq.go:15581. -/
def r68 : Expr Act :=
  .alt (.ref 289) (.alt (.ref 290) (.alt (.ref 291) (.ref 292)))
/-- `forethought_connective`: toaq.peggy:286-287, toaq.go:15804. -/
def r69 : Expr Act :=
  .act .connector (.seq (.lab (.ref 100)) (.seq (.lab (.ref 71)) (.lab (.ref 95))))
/-- `MI_complement`: toaq.peggy:307-311, toaq.go:16013. -/
def r70 : Expr Act :=
  .alt (.act .keep (.lab (.ref 16))) (.alt (.act .keep (.lab (.ref 31))) (.alt (.act .keep (.lab (.ref 49))) (.act .keep (.lab (.ref 54)))))
/-- `_`: toaq.peggy:334, toaq.go:16376. -/
def r71 : Expr Act :=
  .opt (.ref 72)
/-- `space_or_freemod`: toaq.peggy:335-336, toaq.go:16487. -/
def r72 : Expr Act :=
  .act .modNode (.seq (.lab (.grp (.alt (.ref 74) (.ref 73)))) (.lab (.opt (.ref 72))))
/-- `space_word`: toaq.peggy:337-338, toaq.go:16775. -/
def r73 : Expr Act :=
  .act (.wordNode .space) (.lab (.plus (.ref 221)))
/-- `freemod`: toaq.peggy:339-343, toaq.go:16959. -/
def r74 : Expr Act :=
  .alt (.act .keep (.lab (.ref 99))) (.alt (.act .keep (.lab (.ref 75))) (.alt (.act .keep (.lab (.ref 77))) (.act .keep (.lab (.ref 78)))))
/-- `parenthetical`: toaq.peggy:344-345, toaq.go:17322. -/
def r75 : Expr Act :=
  .act .endParen (.seq (.lab (.ref 76)) (.seq (.lab (.ref 71)) (.lab (.ref 92))))
/-- `parenthetical_1`: toaq.peggy:346-347, toaq.go:17531. -/
def r76 : Expr Act :=
  .act .paren (.seq (.lab (.ref 91)) (.seq (.lab (.ref 71)) (.lab (.ref 2))))
/-- `incidental`: toaq.peggy:348-349, toaq.go:17740. -/
def r77 : Expr Act :=
  .act .incidental (.seq (.lab (.ref 90)) (.seq (.lab (.ref 71)) (.lab (.ref 9))))
/-- `vocative`: toaq.peggy:350-351, toaq.go:17949. -/
def r78 : Expr Act :=
  .act .vocative (.seq (.lab (.ref 93)) (.seq (.lab (.ref 71)) (.lab (.ref 31))))
/-- `word`: toaq.peggy:357-361, toaq.go:18158. -/
def r79 : Expr Act :=
  .act .wordMod (.seq (.lab (.grp (.alt (.ref 80) (.alt (.ref 82) (.ref 81))))) (.lab (.opt (.ref 73))))
/-- `non_function_word`: toaq.peggy:366-367, toaq.go:18479. -/
def r80 : Expr Act :=
  .alt (.seq (.ref 83) (.plus (.ref 125))) (.seq (.not (.ref 101)) (.ref 83))
/-- `neutral_function_word`: toaq.peggy:368-369, toaq.go:18798. -/
def r81 : Expr Act :=
  .seq (.not (.ref 82)) (.seq (.and (.ref 101)) (.ref 123))
/-- `toned_function_word`: toaq.peggy:370-371, toaq.go:19031. -/
def r82 : Expr Act :=
  .seq (.not (.ref 123)) (.grp (.alt (.ref 114) (.alt (.ref 115) (.alt (.ref 116) (.ref 118)))))
/-- `initial_syllable`: toaq.peggy:372-378, toaq.go:19339. -/
def r83 : Expr Act :=
  .alt (.ref 126) (.alt (.ref 127) (.alt (.ref 128) (.alt (.ref 129) (.alt (.ref 130) (.ref 131)))))
/-- `focus`: toaq.peggy:380, toaq.go:19628. -/
def r84 : Expr Act :=
  .act .word (.seq (.and (.ref 110)) (.lab (.ref 123)))
/-- `end_quote`: toaq.peggy:381, toaq.go:19829. -/
def r85 : Expr Act :=
  .act .word (.seq (.and (.ref 122)) (.lab (.ref 123)))
/-- `end_predicatizer`: toaq.peggy:382, toaq.go:20030. -/
def r86 : Expr Act :=
  .act .word (.seq (.and (.ref 105)) (.lab (.ref 123)))
/-- `end_statement`: toaq.peggy:383, toaq.go:20231. -/
def r87 : Expr Act :=
  .act .word (.seq (.and (.ref 117)) (.lab (.ref 123)))
/-- `sentence_prefix`: toaq.peggy:384, toaq.go:20432. -/
def r88 : Expr Act :=
  .act .word (.seq (.and (.ref 113)) (.lab (.ref 123)))
/-- `end_prenex`: toaq.peggy:385, toaq.go:20633. -/
def r89 : Expr Act :=
  .act .word (.seq (.and (.ref 102)) (.lab (.ref 123)))
/-- `start_incidental`: toaq.peggy:386, toaq.go:20834. -/
def r90 : Expr Act :=
  .act .word (.seq (.and (.ref 109)) (.lab (.ref 123)))
/-- `start_parenthetical`: toaq.peggy:387, toaq.go:21035. -/
def r91 : Expr Act :=
  .act .word (.seq (.and (.ref 112)) (.lab (.ref 123)))
/-- `end_parenthetical`: toaq.peggy:388, toaq.go:21236. -/
def r92 : Expr Act :=
  .act .word (.seq (.and (.ref 111)) (.lab (.ref 123)))
/-- `vocative_marker`: toaq.peggy:389, toaq.go:21437. -/
def r93 : Expr Act :=
  .act .word (.seq (.and (.ref 108)) (.lab (.ref 123)))
/-- `linking_word`: toaq.peggy:390, toaq.go:21638. -/
def r94 : Expr Act :=
  .act .word (.seq (.and (.ref 106)) (.lab (.ref 123)))
/-- `connective`: toaq.peggy:391, toaq.go:21839. -/
def r95 : Expr Act :=
  .act .word (.seq (.and (.ref 119)) (.lab (.ref 123)))
/-- `illocutionary`: toaq.peggy:393-395, toaq.go:22040. -/
def r96 : Expr Act :=
  .alt (.act .word (.seq (.and (.ref 103)) (.lab (.ref 123)))) (.act .modWord (.seq (.lab (.ref 97)) (.lab (.grp (.opt (.ref 223))))))
/-- `moq`: toaq.peggy:396, toaq.go:22437. -/
def r97 : Expr Act :=
  .act .word (.seq (.and (.ref 104)) (.lab (.ref 124)))
/-- `quantifier`: toaq.peggy:397, toaq.go:22638. -/
def r98 : Expr Act :=
  .act .word (.seq (.and (.ref 120)) (.lab (.ref 123)))
/-- `interjection`: toaq.peggy:398, toaq.go:22839. -/
def r99 : Expr Act :=
  .act (.wordNode .interjection) (.seq (.and (.ref 107)) (.lab (.ref 123)))
/-- `forethought_marker`: toaq.peggy:399, toaq.go:23040. -/
def r100 : Expr Act :=
  .act .word (.seq (.and (.ref 121)) (.lab (.ref 123)))
/-- `function_word`: toaq.peggy:404, toaq.go:23241. -/
def r101 : Expr Act :=
  .alt (.ref 102) (.alt (.ref 103) (.alt (.ref 105) (.alt (.ref 106) (.alt (.ref 107) (.alt (.ref 108) (.alt (.ref 109) (.alt (.ref 110) (.alt (.ref 111) (.alt (.ref 112) (.alt (.ref 113) (.alt (.ref 114) (.alt (.ref 115) (.alt (.ref 116) (.alt (.ref 104) (.alt (.ref 117) (.alt (.ref 118) (.alt (.ref 119) (.alt (.ref 120) (.alt (.ref 121) (.ref 122))))))))))))))))))))
/-- `BI`: toaq.peggy:405, toaq.go:24025. -/
def r102 : Expr Act :=
  .seq (.grp (.alt (.seq (.ref 199) (.ref 145)) (.seq (.ref 213) (.ref 143)))) (.and (.grp (.seq (.opt (.ref 142)) (.ref 132))))
/-- `DA`: toaq.peggy:406, toaq.go:24396. -/
def r103 : Expr Act :=
  .seq (.grp (.alt (.seq (.ref 201) (.ref 143)) (.alt (.seq (.ref 208) (.ref 143)) (.alt (.seq (.ref 216) (.ref 146)) (.seq (.ref 199) (.ref 143)))))) (.and (.grp (.seq (.opt (.ref 142)) (.ref 132))))
/-- `MOQ`: toaq.peggy:407, toaq.go:24889. -/
def r104 : Expr Act :=
  .seq (.ref 210) (.seq (.ref 146) (.seq (.ref 214) (.and (.grp (.seq (.opt (.grp (.alt (.ref 223) (.ref 142)))) (.ref 132))))))
/-- `GA`: toaq.peggy:408, toaq.go:25240. -/
def r105 : Expr Act :=
  .seq (.ref 204) (.seq (.ref 143) (.and (.grp (.seq (.opt (.ref 142)) (.ref 132)))))
/-- `GO`: toaq.peggy:409, toaq.go:25492. -/
def r106 : Expr Act :=
  .seq (.grp (.alt (.seq (.ref 204) (.ref 146)) (.alt (.seq (.ref 203) (.ref 145)) (.alt (.seq (.ref 200) (.ref 144)) (.seq (.ref 217) (.ref 143)))))) (.and (.grp (.seq (.opt (.ref 142)) (.ref 132))))
/-- `BEI`: toaq.peggy:410, toaq.go:25985. -/
def r107 : Expr Act :=
  .seq (.grp (.alt (.seq (.ref 199) (.seq (.ref 147) (.ref 206))) (.ref 210))) (.and (.grp (.seq (.opt (.ref 142)) (.ref 132))))
/-- `HU`: toaq.peggy:411, toaq.go:26348. -/
def r108 : Expr Act :=
  .seq (.ref 205) (.seq (.ref 144) (.and (.grp (.seq (.opt (.ref 142)) (.ref 132)))))
/-- `JU`: toaq.peggy:412, toaq.go:26600. -/
def r109 : Expr Act :=
  .seq (.ref 207) (.seq (.ref 144) (.and (.grp (.seq (.opt (.ref 142)) (.ref 132)))))
/-- `KU`: toaq.peggy:413, toaq.go:26852. -/
def r110 : Expr Act :=
  .seq (.ref 208) (.seq (.ref 144) (.and (.grp (.seq (.opt (.ref 142)) (.ref 132)))))
/-- `KI`: toaq.peggy:414, toaq.go:27104. -/
def r111 : Expr Act :=
  .seq (.ref 208) (.seq (.ref 145) (.and (.grp (.seq (.opt (.ref 142)) (.ref 132)))))
/-- `KIO`: toaq.peggy:415, toaq.go:27356. -/
def r112 : Expr Act :=
  .seq (.ref 208) (.seq (.ref 145) (.seq (.ref 212) (.and (.grp (.seq (.opt (.ref 142)) (.ref 132))))))
/-- `KEO`: toaq.peggy:416, toaq.go:27628. -/
def r113 : Expr Act :=
  .seq (.grp (.alt (.seq (.ref 208) (.seq (.ref 147) (.ref 212))) (.seq (.ref 207) (.ref 147)))) (.and (.grp (.seq (.opt (.ref 142)) (.ref 132))))
/-- `LU`: toaq.peggy:417, toaq.go:28019. -/
def r114 : Expr Act :=
  .seq (.grp (.alt (.seq (.ref 209) (.ref 144)) (.alt (.seq (.ref 209) (.ref 145)) (.alt (.seq (.ref 209) (.ref 146)) (.alt (.seq (.ref 210) (.ref 143)) (.seq (.ref 217) (.seq (.ref 145) (.ref 212)))))))) (.and (.grp (.seq (.opt (.ref 142)) (.ref 132))))
/-- `MI`: toaq.peggy:418, toaq.go:28593. -/
def r115 : Expr Act :=
  .seq (.grp (.alt (.seq (.ref 210) (.ref 145)) (.seq (.ref 216) (.seq (.ref 205) (.ref 144))))) (.and (.grp (.seq (.opt (.ref 142)) (.ref 132))))
/-- `MO`: toaq.peggy:419, toaq.go:28984. -/
def r116 : Expr Act :=
  .seq (.ref 210) (.seq (.ref 146) (.and (.grp (.seq (.opt (.ref 142)) (.ref 132)))))
/-- `NA`: toaq.peggy:420, toaq.go:29236. -/
def r117 : Expr Act :=
  .seq (.ref 211) (.seq (.ref 143) (.and (.grp (.seq (.opt (.ref 142)) (.ref 132)))))
/-- `PO`: toaq.peggy:421, toaq.go:29488. -/
def r118 : Expr Act :=
  .seq (.grp (.alt (.seq (.ref 207) (.seq (.ref 147) (.ref 206))) (.seq (.ref 213) (.ref 146)))) (.and (.grp (.seq (.opt (.ref 142)) (.ref 132))))
/-- `RA`: toaq.peggy:422, toaq.go:29879. -/
def r119 : Expr Act :=
  .seq (.grp (.alt (.seq (.ref 215) (.ref 143)) (.alt (.seq (.ref 215) (.ref 144)) (.alt (.seq (.ref 215) (.ref 145)) (.alt (.seq (.ref 215) (.seq (.ref 146) (.ref 206))) (.alt (.seq (.ref 215) (.ref 146)) (.seq (.ref 215) (.ref 147)))))))) (.and (.grp (.seq (.opt (.ref 142)) (.ref 132))))
/-- `TU`: toaq.peggy:423, toaq.go:30514. -/
def r120 : Expr Act :=
  .seq (.grp (.alt (.seq (.ref 208) (.ref 147)) (.alt (.seq (.ref 217) (.ref 144)) (.alt (.seq (.ref 216) (.seq (.ref 145) (.ref 198))) (.alt (.seq (.ref 216) (.ref 143)) (.alt (.seq (.ref 205) (.ref 145)) (.seq (.ref 207) (.ref 143)))))))) (.and (.grp (.seq (.opt (.ref 142)) (.ref 132))))
/-- `TO`: toaq.peggy:424, toaq.go:31149. -/
def r121 : Expr Act :=
  .seq (.ref 217) (.seq (.ref 146) (.and (.ref 132)))
/-- `TEO`: toaq.peggy:425, toaq.go:31335. -/
def r122 : Expr Act :=
  .seq (.ref 217) (.seq (.ref 147) (.seq (.ref 212) (.and (.grp (.seq (.opt (.ref 142)) (.ref 132))))))
/-- `neutral_syllable`: toaq.peggy:428, toaq.go:31607. -/
def r123 : Expr Act :=
  .seq (.ref 133) (.seq (.ref 134) (.and (.ref 132)))
/-- `moq_syllable`: toaq.peggy:430, toaq.go:31793. -/
def r124 : Expr Act :=
  .seq (.ref 133) (.seq (.ref 134) (.and (.grp (.alt (.seq (.ref 223) (.ref 132)) (.ref 132)))))
/-- `compound_syllable`: toaq.peggy:431, toaq.go:32080. -/
def r125 : Expr Act :=
  .ref 293
/-- `arg_syllable`: toaq.peggy:432, toaq.go:32164. -/
def r126 : Expr Act :=
  .ref 294
/-- `relative_syllable`: toaq.peggy:433, toaq.go:32248. -/
def r127 : Expr Act :=
  .ref 295
/-- `verb_syllable`: toaq.peggy:434, toaq.go:32332. -/
def r128 : Expr Act :=
  .ref 296
/-- `content_syllable`: toaq.peggy:435, toaq.go:32416. -/
def r129 : Expr Act :=
  .ref 297
/-- `preposition_syllable`: toaq.peggy:436, toaq.go:32500. -/
def r130 : Expr Act :=
  .ref 298
/-- `adverb_syllable`: toaq.peggy:437, toaq.go:32584. -/
def r131 : Expr Act :=
  .ref 299
/-- `boundary`: toaq.peggy:439, toaq.go:32668. -/
def r132 : Expr Act :=
  .act .empty (.grp (.alt (.ref 133) (.alt (.ref 221) (.ref 224))))
/-- `initial`: toaq.peggy:441, toaq.go:32873. -/
def r133 : Expr Act :=
  .alt (.ref 199) (.alt (.seq (.ref 200) (.ref 205)) (.alt (.ref 200) (.alt (.ref 201) (.alt (.ref 203) (.alt (.ref 204) (.alt (.ref 205) (.alt (.ref 207) (.alt (.ref 208) (.alt (.ref 209) (.alt (.ref 210) (.alt (.ref 211) (.alt (.ref 213) (.alt (.ref 215) (.alt (.seq (.ref 216) (.ref 205)) (.alt (.ref 216) (.ref 217))))))))))))))))
/-- `neutral_desinence`: toaq.peggy:449, toaq.go:33581. -/
def r134 : Expr Act :=
  .ref 300
/-- `compound_desinence`: toaq.peggy:450, toaq.go:33665. -/
def r135 : Expr Act :=
  .ref 301
/-- `arg_desinence`: toaq.peggy:451, toaq.go:33749. -/
def r136 : Expr Act :=
  .ref 302
/-- `relative_desinence`: toaq.peggy:452, toaq.go:33833. -/
def r137 : Expr Act :=
  .ref 303
/-- `verb_desinence`: toaq.peggy:453, toaq.go:33917. -/
def r138 : Expr Act :=
  .ref 304
/-- `content_desinence`: toaq.peggy:454, toaq.go:34001. -/
def r139 : Expr Act :=
  .ref 305
/-- `preposition_desinence`: toaq.peggy:455, toaq.go:34085. -/
def r140 : Expr Act :=
  .ref 306
/-- `adverb_desinence`: toaq.peggy:456, toaq.go:34169. -/
def r141 : Expr Act :=
  .ref 307
/-- `tone`: toaq.peggy:458, toaq.go:34253. -/
def r142 : Expr Act :=
  .alt (.ref 154) (.alt (.ref 161) (.alt (.ref 176) (.alt (.ref 169) (.alt (.ref 197) (.alt (.ref 190) (.ref 183))))))
/-- `A`: toaq.peggy:460, toaq.go:34575. -/
def r143 : Expr Act :=
  .alt (.ref 148) (.alt (.ref 155) (.alt (.ref 162) (.alt (.ref 170) (.alt (.ref 177) (.alt (.ref 184) (.alt (.ref 191) (.ref 198)))))))
/-- `U`: toaq.peggy:461, toaq.go:34930. -/
def r144 : Expr Act :=
  .alt (.ref 149) (.alt (.ref 156) (.alt (.ref 163) (.alt (.ref 171) (.alt (.ref 178) (.alt (.ref 185) (.alt (.ref 192) (.ref 218)))))))
/-- `I`: toaq.peggy:462, toaq.go:35285. -/
def r145 : Expr Act :=
  .alt (.ref 150) (.alt (.ref 157) (.alt (.ref 164) (.alt (.ref 172) (.alt (.ref 179) (.alt (.ref 186) (.alt (.ref 193) (.ref 206)))))))
/-- `O`: toaq.peggy:463, toaq.go:35640. -/
def r146 : Expr Act :=
  .alt (.ref 151) (.alt (.ref 158) (.alt (.ref 165) (.alt (.ref 173) (.alt (.ref 180) (.alt (.ref 187) (.alt (.ref 194) (.ref 212)))))))
/-- `E`: toaq.peggy:464, toaq.go:35995. -/
def r147 : Expr Act :=
  .alt (.ref 152) (.alt (.ref 159) (.alt (.ref 166) (.alt (.ref 174) (.alt (.ref 181) (.alt (.ref 188) (.alt (.ref 195) (.ref 202)))))))
/-- `ā`: toaq.peggy:466, toaq.go:36350. -/
def r148 : Expr Act :=
  .alt (.term (.cls ['ā', 'Ā'])) (.act (.diacritic '-') (.seq (.lab (.ref 198)) (.grp (.alt (.ref 153) (.ref 154)))))
/-- `ū`: toaq.peggy:467, toaq.go:36663. -/
def r149 : Expr Act :=
  .alt (.term (.cls ['ū', 'Ū'])) (.act (.diacritic '-') (.seq (.lab (.ref 218)) (.grp (.alt (.ref 153) (.ref 154)))))
/-- `ī`: toaq.peggy:468, toaq.go:36976. -/
def r150 : Expr Act :=
  .alt (.term (.cls ['ī', 'Ī'])) (.act (.diacritic '-') (.seq (.lab (.ref 206)) (.grp (.alt (.ref 153) (.ref 154)))))
/-- `ō`: toaq.peggy:469, toaq.go:37289. -/
def r151 : Expr Act :=
  .alt (.term (.cls ['ō', 'Ō'])) (.act (.diacritic '-') (.seq (.lab (.ref 212)) (.grp (.alt (.ref 153) (.ref 154)))))
/-- `ē`: toaq.peggy:470, toaq.go:37602. -/
def r152 : Expr Act :=
  .alt (.term (.cls ['ē', 'Ē'])) (.act (.diacritic '-') (.seq (.lab (.ref 202)) (.grp (.alt (.ref 153) (.ref 154)))))
/-- `macron_combiner`: toaq.peggy:471, toaq.go:37915. -/
def r153 : Expr Act :=
  .term (.lit '\u0304')
/-- `compound_tone`: toaq.peggy:472, toaq.go:38013. -/
def r154 : Expr Act :=
  .term (.cls ['-', '1'])
/-- `á`: toaq.peggy:474, toaq.go:38111. -/
def r155 : Expr Act :=
  .alt (.term (.cls ['á', 'Á'])) (.act (.diacritic '/') (.seq (.lab (.ref 198)) (.grp (.alt (.ref 160) (.ref 161)))))
/-- `ú`: toaq.peggy:475, toaq.go:38424. -/
def r156 : Expr Act :=
  .alt (.term (.cls ['ú', 'Ú'])) (.act (.diacritic '/') (.seq (.lab (.ref 218)) (.grp (.alt (.ref 160) (.ref 161)))))
/-- `í`: toaq.peggy:476, toaq.go:38737. -/
def r157 : Expr Act :=
  .alt (.term (.cls ['í', 'Í'])) (.act (.diacritic '/') (.seq (.lab (.ref 206)) (.grp (.alt (.ref 160) (.ref 161)))))
/-- `ó`: toaq.peggy:477, toaq.go:39050. -/
def r158 : Expr Act :=
  .alt (.term (.cls ['ó', 'Ó'])) (.act (.diacritic '/') (.seq (.lab (.ref 212)) (.grp (.alt (.ref 160) (.ref 161)))))
/-- `é`: toaq.peggy:478, toaq.go:39363. -/
def r159 : Expr Act :=
  .alt (.term (.cls ['é', 'É'])) (.act (.diacritic '/') (.seq (.lab (.ref 202)) (.grp (.alt (.ref 160) (.ref 161)))))
/-- `acute_combiner`: toaq.peggy:479, toaq.go:39676. -/
def r160 : Expr Act :=
  .term (.lit '\u0301')
/-- `arg_tone`: toaq.peggy:480, toaq.go:39774. -/
def r161 : Expr Act :=
  .term (.cls ['/', '2'])
/-- `ǎ`: toaq.peggy:484, toaq.go:39872. -/
def r162 : Expr Act :=
  .alt (.term (.cls ['ǎ', 'Ǎ', 'ă', 'Ă'])) (.act (.diacritic 'V') (.seq (.lab (.ref 198)) (.grp (.alt (.ref 167) (.alt (.ref 168) (.ref 169))))))
/-- `ǔ`: toaq.peggy:485, toaq.go:40216. -/
def r163 : Expr Act :=
  .alt (.term (.cls ['ǔ', 'Ǔ', 'ŭ', 'Ŭ'])) (.act (.diacritic 'V') (.seq (.lab (.ref 218)) (.grp (.alt (.ref 167) (.alt (.ref 168) (.ref 169))))))
/-- `ǐ`: toaq.peggy:486, toaq.go:40560. -/
def r164 : Expr Act :=
  .alt (.term (.cls ['ǐ', 'Ǐ', 'ĭ', 'Ĭ'])) (.act (.diacritic 'V') (.seq (.lab (.ref 206)) (.grp (.alt (.ref 167) (.alt (.ref 168) (.ref 169))))))
/-- `ǒ`: toaq.peggy:487, toaq.go:40904. -/
def r165 : Expr Act :=
  .alt (.term (.cls ['ǒ', 'Ǒ', 'ŏ', 'Ŏ'])) (.act (.diacritic 'V') (.seq (.lab (.ref 212)) (.grp (.alt (.ref 167) (.alt (.ref 168) (.ref 169))))))
/-- `ě`: toaq.peggy:488, toaq.go:41248. -/
def r166 : Expr Act :=
  .alt (.term (.cls ['ě', 'Ě', 'ĕ', 'Ĕ'])) (.act (.diacritic 'V') (.seq (.lab (.ref 202)) (.grp (.alt (.ref 167) (.alt (.ref 168) (.ref 169))))))
/-- `caron_combiner`: toaq.peggy:489, toaq.go:41592. -/
def r167 : Expr Act :=
  .term (.lit '\u030c')
/-- `breve_combiner`: toaq.peggy:490, toaq.go:41690. -/
def r168 : Expr Act :=
  .term (.lit '\u0306')
/-- `relative_tone`: toaq.peggy:491, toaq.go:41788. -/
def r169 : Expr Act :=
  .term (.cls ['V', '3'])
/-- `ả`: toaq.peggy:493, toaq.go:41886. -/
def r170 : Expr Act :=
  .alt (.term (.cls ['ả', 'Ả'])) (.act (.diacritic '?') (.seq (.lab (.ref 198)) (.grp (.alt (.ref 175) (.ref 176)))))
/-- `ủ`: toaq.peggy:494, toaq.go:42199. -/
def r171 : Expr Act :=
  .alt (.term (.cls ['ủ', 'Ủ'])) (.act (.diacritic '?') (.seq (.lab (.ref 218)) (.grp (.alt (.ref 175) (.ref 176)))))
/-- `ỉ`: toaq.peggy:495, toaq.go:42512. -/
def r172 : Expr Act :=
  .alt (.term (.cls ['ỉ', 'Ỉ'])) (.act (.diacritic '?') (.seq (.lab (.ref 206)) (.grp (.alt (.ref 175) (.ref 176)))))
/-- `ỏ`: toaq.peggy:496, toaq.go:42825. -/
def r173 : Expr Act :=
  .alt (.term (.cls ['ỏ', 'Ỏ'])) (.act (.diacritic '?') (.seq (.lab (.ref 212)) (.grp (.alt (.ref 175) (.ref 176)))))
/-- `ẻ`: toaq.peggy:497, toaq.go:43138. -/
def r174 : Expr Act :=
  .alt (.term (.cls ['ẻ', 'Ẻ'])) (.act (.diacritic '?') (.seq (.lab (.ref 202)) (.grp (.alt (.ref 175) (.ref 176)))))
/-- `hook_combiner`: toaq.peggy:498, toaq.go:43451. -/
def r175 : Expr Act :=
  .term (.lit '\u0309')
/-- `verb_tone`: toaq.peggy:499, toaq.go:43549. -/
def r176 : Expr Act :=
  .term (.cls ['?', '4'])
/-- `â`: toaq.peggy:501, toaq.go:43647. -/
def r177 : Expr Act :=
  .alt (.term (.cls ['â', 'Â'])) (.act (.diacritic '^') (.seq (.lab (.ref 198)) (.grp (.alt (.ref 182) (.ref 183)))))
/-- `û`: toaq.peggy:502, toaq.go:43960. -/
def r178 : Expr Act :=
  .alt (.term (.cls ['û', 'Û'])) (.act (.diacritic '^') (.seq (.lab (.ref 218)) (.grp (.alt (.ref 182) (.ref 183)))))
/-- `î`: toaq.peggy:503, toaq.go:44273. -/
def r179 : Expr Act :=
  .alt (.term (.cls ['î', 'Î'])) (.act (.diacritic '^') (.seq (.lab (.ref 206)) (.grp (.alt (.ref 182) (.ref 183)))))
/-- `ô`: toaq.peggy:504, toaq.go:44586. -/
def r180 : Expr Act :=
  .alt (.term (.cls ['ô', 'Ô'])) (.act (.diacritic '^') (.seq (.lab (.ref 212)) (.grp (.alt (.ref 182) (.ref 183)))))
/-- `ê`: toaq.peggy:505, toaq.go:44899. -/
def r181 : Expr Act :=
  .alt (.term (.cls ['ê', 'Ê'])) (.act (.diacritic '^') (.seq (.lab (.ref 202)) (.grp (.alt (.ref 182) (.ref 183)))))
/-- `circumflex_combiner`: toaq.peggy:506, toaq.go:45212. -/
def r182 : Expr Act :=
  .term (.lit '\u0302')
/-- `content_tone`: toaq.peggy:507, toaq.go:45310. -/
def r183 : Expr Act :=
  .term (.cls ['5', '^'])
/-- `à`: toaq.peggy:509, toaq.go:45408. -/
def r184 : Expr Act :=
  .alt (.term (.cls ['à', 'À'])) (.act (.diacritic '\\') (.seq (.lab (.ref 198)) (.grp (.alt (.ref 189) (.ref 190)))))
/-- `ù`: toaq.peggy:510, toaq.go:45721. -/
def r185 : Expr Act :=
  .alt (.term (.cls ['ù', 'Ù'])) (.act (.diacritic '\\') (.seq (.lab (.ref 218)) (.grp (.alt (.ref 189) (.ref 190)))))
/-- `ì`: toaq.peggy:511, toaq.go:46034. -/
def r186 : Expr Act :=
  .alt (.term (.cls ['ì', 'Ì'])) (.act (.diacritic '\\') (.seq (.lab (.ref 206)) (.grp (.alt (.ref 189) (.ref 190)))))
/-- `ò`: toaq.peggy:512, toaq.go:46347. -/
def r187 : Expr Act :=
  .alt (.term (.cls ['ò', 'Ò'])) (.act (.diacritic '\\') (.seq (.lab (.ref 212)) (.grp (.alt (.ref 189) (.ref 190)))))
/-- `è`: toaq.peggy:513, toaq.go:46660. -/
def r188 : Expr Act :=
  .alt (.term (.cls ['è', 'È'])) (.act (.diacritic '\\') (.seq (.lab (.ref 202)) (.grp (.alt (.ref 189) (.ref 190)))))
/-- `grave_combiner`: toaq.peggy:514, toaq.go:46973. -/
def r189 : Expr Act :=
  .term (.lit '\u0300')
/-- `preposition_tone`: toaq.peggy:515, toaq.go:47071. -/
def r190 : Expr Act :=
  .term (.cls ['\\', '6'])
/-- `ã`: toaq.peggy:517, toaq.go:47169. -/
def r191 : Expr Act :=
  .alt (.term (.cls ['ã', 'Ã'])) (.act (.diacritic '~') (.seq (.lab (.ref 198)) (.grp (.alt (.ref 196) (.ref 197)))))
/-- `ũ`: toaq.peggy:518, toaq.go:47482. -/
def r192 : Expr Act :=
  .alt (.term (.cls ['ũ', 'Ũ'])) (.act (.diacritic '~') (.seq (.lab (.ref 218)) (.grp (.alt (.ref 196) (.ref 197)))))
/-- `ĩ`: toaq.peggy:519, toaq.go:47795. -/
def r193 : Expr Act :=
  .alt (.term (.cls ['ĩ', 'Ĩ'])) (.act (.diacritic '~') (.seq (.lab (.ref 206)) (.grp (.alt (.ref 196) (.ref 197)))))
/-- `õ`: toaq.peggy:520, toaq.go:48108. -/
def r194 : Expr Act :=
  .alt (.term (.cls ['õ', 'Õ'])) (.act (.diacritic '~') (.seq (.lab (.ref 212)) (.grp (.alt (.ref 196) (.ref 197)))))
/-- `ẽ`: toaq.peggy:521, toaq.go:48421. -/
def r195 : Expr Act :=
  .alt (.term (.cls ['ẽ', 'Ẽ'])) (.act (.diacritic '~') (.seq (.lab (.ref 202)) (.grp (.alt (.ref 196) (.ref 197)))))
/-- `tilde_combiner`: toaq.peggy:522, toaq.go:48734. -/
def r196 : Expr Act :=
  .term (.lit '\u0303')
/-- `adverb_tone`: toaq.peggy:523, toaq.go:48832. -/
def r197 : Expr Act :=
  .term (.cls ['~', '7'])
/-- `a`: toaq.peggy:525, toaq.go:48930. -/
def r198 : Expr Act :=
  .term (.cls ['a', 'A'])
/-- `b`: toaq.peggy:526, toaq.go:49028. -/
def r199 : Expr Act :=
  .term (.cls ['b', 'B'])
/-- `c`: toaq.peggy:527, toaq.go:49126. -/
def r200 : Expr Act :=
  .term (.cls ['c', 'C'])
/-- `d`: toaq.peggy:528, toaq.go:49224. -/
def r201 : Expr Act :=
  .term (.cls ['d', 'D'])
/-- `e`: toaq.peggy:529, toaq.go:49322. -/
def r202 : Expr Act :=
  .term (.cls ['e', 'E'])
/-- `f`: toaq.peggy:530, toaq.go:49420. -/
def r203 : Expr Act :=
  .term (.cls ['f', 'F'])
/-- `g`: toaq.peggy:531, toaq.go:49518. -/
def r204 : Expr Act :=
  .term (.cls ['g', 'G'])
/-- `h`: toaq.peggy:532, toaq.go:49616. -/
def r205 : Expr Act :=
  .term (.cls ['h', 'H'])
/-- `i`: toaq.peggy:533, toaq.go:49714. -/
def r206 : Expr Act :=
  .act .dotless (.lab (.term (.cls ['ı', 'i', 'I'])))
/-- `j`: toaq.peggy:534, toaq.go:49856. -/
def r207 : Expr Act :=
  .term (.cls ['j', 'J'])
/-- `k`: toaq.peggy:535, toaq.go:49954. -/
def r208 : Expr Act :=
  .term (.cls ['k', 'K'])
/-- `l`: toaq.peggy:536, toaq.go:50052. -/
def r209 : Expr Act :=
  .term (.cls ['l', 'L'])
/-- `m`: toaq.peggy:537, toaq.go:50150. -/
def r210 : Expr Act :=
  .term (.cls ['m', 'M'])
/-- `n`: toaq.peggy:538, toaq.go:50248. -/
def r211 : Expr Act :=
  .term (.cls ['n', 'N'])
/-- `o`: toaq.peggy:539, toaq.go:50346. -/
def r212 : Expr Act :=
  .term (.cls ['o', 'O'])
/-- `p`: toaq.peggy:540, toaq.go:50444. -/
def r213 : Expr Act :=
  .term (.cls ['p', 'P'])
/-- `q`: toaq.peggy:541, toaq.go:50542. -/
def r214 : Expr Act :=
  .term (.cls ['q', 'Q'])
/-- `r`: toaq.peggy:542, toaq.go:50640. -/
def r215 : Expr Act :=
  .term (.cls ['r', 'R'])
/-- `s`: toaq.peggy:543, toaq.go:50738. -/
def r216 : Expr Act :=
  .term (.cls ['s', 'S'])
/-- `t`: toaq.peggy:544, toaq.go:50836. -/
def r217 : Expr Act :=
  .term (.cls ['t', 'T'])
/-- `u`: toaq.peggy:545, toaq.go:50934. -/
def r218 : Expr Act :=
  .term (.cls ['u', 'U'])
/-- `w`: toaq.peggy:546, toaq.go:51032. -/
def r219 : Expr Act :=
  .term (.cls ['w', 'W'])
/-- `y`: toaq.peggy:547, toaq.go:51130. -/
def r220 : Expr Act :=
  .term (.cls ['y', 'Y'])
/-- `space`: toaq.peggy:549, toaq.go:51228. -/
def r221 : Expr Act :=
  .lab (.plus (.grp (.alt (.term (.cls ['\t', '\n', '\r', ' ', '.', ',', ':', '!'])) (.ref 222))))
/-- `punctuation`: toaq.peggy:550, toaq.go:51599. -/
def r222 : Expr Act :=
  .seq (.not (.ref 142)) (.term .punct)
/-- `questions`: toaq.peggy:551, toaq.go:51835. -/
def r223 : Expr Act :=
  .act (.wordNode .space) (.lab (.grp (.plus (.term (.lit '?')))))
/-- `EOF`: toaq.peggy:552, toaq.go:52049. -/
def r224 : Expr Act :=
  .not (.term .any)
/-- `afterthought_cop<relative_clause_1, relative_clause>`: toaq.peggy:275-276, toaq.go:52198. -/
def r225 : Expr Act :=
  .act .copLeft (.seq (.lab (.ref 42)) (.seq (.lab (.ref 71)) (.lab (.ref 308))))
/-- `afterthought_cop<sentence_1, sentence>`: toaq.peggy:275-276, toaq.go:52407. -/
def r226 : Expr Act :=
  .act .copLeft (.seq (.lab (.ref 5)) (.seq (.lab (.ref 71)) (.lab (.ref 309))))
/-- `forethought_cop<sentence, sentence>`: toaq.peggy:280-281, toaq.go:52616. -/
def r227 : Expr Act :=
  .act .foreCoP (.seq (.lab (.ref 69)) (.seq (.lab (.ref 71)) (.lab (.ref 310))))
/-- `afterthought_cop<statement_2, statement>`: toaq.peggy:275-276, toaq.go:52825. -/
def r228 : Expr Act :=
  .act .copLeft (.seq (.lab (.ref 11)) (.seq (.lab (.ref 71)) (.lab (.ref 311))))
/-- `forethought_cop<statement, statement>`: toaq.peggy:280-281, toaq.go:53034. -/
def r229 : Expr Act :=
  .act .foreCoP (.seq (.lab (.ref 69)) (.seq (.lab (.ref 71)) (.lab (.ref 312))))
/-- `afterthought_cop<predicate_2, predicate_1>`: toaq.peggy:275-276, toaq.go:53243. -/
def r230 : Expr Act :=
  .act .copLeft (.seq (.lab (.ref 18)) (.seq (.lab (.ref 71)) (.lab (.ref 313))))
/-- `forethought_cop_pred<predicate>`: toaq.peggy:272-273, toaq.go:53452. -/
def r231 : Expr Act :=
  .act (.copAs .predicate) (.lab (.ref 314))
/-- `LU_predicate<verb_syllable>`: toaq.peggy:293-294, toaq.go:53577. -/
def r232 : Expr Act :=
  .act (.luAs .predicate) (.lab (.ref 315))
/-- `MI_phrase<verb_syllable>`: toaq.peggy:301-302, toaq.go:53702. -/
def r233 : Expr Act :=
  .act .miEnd (.seq (.lab (.ref 316)) (.seq (.lab (.ref 71)) (.lab (.opt (.ref 86)))))
/-- `PO_phrase<verb_syllable>`: toaq.peggy:313-314, toaq.go:53947. -/
def r234 : Expr Act :=
  .act .poEnd (.seq (.lab (.ref 317)) (.seq (.lab (.ref 71)) (.lab (.opt (.ref 86)))))
/-- `MO_phrase<verb_syllable>`: toaq.peggy:320-321, toaq.go:54192. -/
def r235 : Expr Act :=
  .act .moEnd (.seq (.lab (.ref 318)) (.seq (.lab (.ref 71)) (.lab (.ref 85))))
/-- `predicate_word<verb_syllable>`: toaq.peggy:362-365, toaq.go:54401. -/
def r236 : Expr Act :=
  .act (.wordNode .predicate) (.lab (.grp (.alt (.seq (.ref 128) (.plus (.ref 125))) (.seq (.not (.ref 101)) (.ref 128)))))
/-- `serial<predicate_1>`: toaq.peggy:84-85, toaq.go:54771. -/
def r237 : Expr Act :=
  .act .serial (.seq (.lab (.ref 17)) (.seq (.lab (.ref 71)) (.lab (.ref 20))))
/-- `forethought_cop<terms_V, terms_V>`: toaq.peggy:280-281, toaq.go:54980. -/
def r238 : Expr Act :=
  .act .foreCoP (.seq (.lab (.ref 69)) (.seq (.lab (.ref 71)) (.lab (.ref 319))))
/-- `forethought_cop<terms_IV, terms_IV>`: toaq.peggy:280-281, toaq.go:55189. -/
def r239 : Expr Act :=
  .act .foreCoP (.seq (.lab (.ref 69)) (.seq (.lab (.ref 71)) (.lab (.ref 320))))
/-- `forethought_cop<terms_III, terms_III>`: toaq.peggy:280-281, toaq.go:55398. -/
def r240 : Expr Act :=
  .act .foreCoP (.seq (.lab (.ref 69)) (.seq (.lab (.ref 71)) (.lab (.ref 321))))
/-- `forethought_cop<terms_II, terms_II>`: toaq.peggy:280-281, toaq.go:55607. -/
def r241 : Expr Act :=
  .act .foreCoP (.seq (.lab (.ref 69)) (.seq (.lab (.ref 71)) (.lab (.ref 322))))
/-- `afterthought_cop<arg_1, argument>`: toaq.peggy:275-276, toaq.go:55816. -/
def r242 : Expr Act :=
  .act .copLeft (.seq (.lab (.ref 32)) (.seq (.lab (.ref 71)) (.lab (.ref 323))))
/-- `forethought_cop<argument, argument>`: toaq.peggy:280-281, toaq.go:56025. -/
def r243 : Expr Act :=
  .act .foreCoP (.seq (.lab (.ref 69)) (.seq (.lab (.ref 71)) (.lab (.ref 324))))
/-- `serial<arg_6>`: toaq.peggy:84-85, toaq.go:56234. -/
def r244 : Expr Act :=
  .act .serial (.seq (.lab (.ref 39)) (.seq (.lab (.ref 71)) (.lab (.ref 20))))
/-- `afterthought_cop_pred<arg_7>`: toaq.peggy:270-271, toaq.go:56443. -/
def r245 : Expr Act :=
  .act (.copAs .predicate) (.lab (.ref 325))
/-- `forethought_cop_pred<arg_5>`: toaq.peggy:272-273, toaq.go:56568. -/
def r246 : Expr Act :=
  .act (.copAs .predicate) (.lab (.ref 326))
/-- `LU_predicate<arg_syllable>`: toaq.peggy:293-294, toaq.go:56693. -/
def r247 : Expr Act :=
  .act (.luAs .predicate) (.lab (.ref 327))
/-- `MI_phrase<arg_syllable>`: toaq.peggy:301-302, toaq.go:56818. -/
def r248 : Expr Act :=
  .act .miEnd (.seq (.lab (.ref 328)) (.seq (.lab (.ref 71)) (.lab (.opt (.ref 86)))))
/-- `PO_phrase<arg_syllable>`: toaq.peggy:313-314, toaq.go:57063. -/
def r249 : Expr Act :=
  .act .poEnd (.seq (.lab (.ref 329)) (.seq (.lab (.ref 71)) (.lab (.opt (.ref 86)))))
/-- `MO_phrase<arg_syllable>`: toaq.peggy:320-321, toaq.go:57308. -/
def r250 : Expr Act :=
  .act .moEnd (.seq (.lab (.ref 330)) (.seq (.lab (.ref 71)) (.lab (.ref 85))))
/-- `predicate_word<arg_syllable>`: toaq.peggy:362-365, toaq.go:57517. -/
def r251 : Expr Act :=
  .act (.wordNode .predicate) (.lab (.grp (.alt (.seq (.ref 126) (.plus (.ref 125))) (.seq (.not (.ref 101)) (.ref 126)))))
/-- `LU_phrase<relative_syllable>`: toaq.peggy:295-296, toaq.go:57887. -/
def r252 : Expr Act :=
  .act .luPhrase (.seq (.lab (.ref 331)) (.seq (.lab (.ref 71)) (.lab (.ref 9))))
/-- `forethought_cop<relative_clause, relative_clause>`: toaq.peggy:280-281, toaq.go:58096. -/
def r253 : Expr Act :=
  .act .foreCoP (.seq (.lab (.ref 69)) (.seq (.lab (.ref 71)) (.lab (.ref 332))))
/-- `afterthought_cop<relative_clause_3, statement>`: toaq.peggy:275-276, toaq.go:58305. -/
def r254 : Expr Act :=
  .act .copLeft (.seq (.lab (.ref 44)) (.seq (.lab (.ref 71)) (.lab (.ref 311))))
/-- `serial<relative_predicate_1>`: toaq.peggy:84-85, toaq.go:58514. -/
def r255 : Expr Act :=
  .act .serial (.seq (.lab (.ref 47)) (.seq (.lab (.ref 71)) (.lab (.ref 20))))
/-- `afterthought_cop_pred<relative_predicate_2>`: toaq.peggy:270-271, toaq.go:58723. -/
def r256 : Expr Act :=
  .act (.copAs .predicate) (.lab (.ref 333))
/-- `forethought_cop_pred<relative_predicate>`: toaq.peggy:272-273, toaq.go:58848. -/
def r257 : Expr Act :=
  .act (.copAs .predicate) (.lab (.ref 334))
/-- `MI_phrase<relative_syllable>`: toaq.peggy:301-302, toaq.go:58973. -/
def r258 : Expr Act :=
  .act .miEnd (.seq (.lab (.ref 335)) (.seq (.lab (.ref 71)) (.lab (.opt (.ref 86)))))
/-- `PO_phrase<relative_syllable>`: toaq.peggy:313-314, toaq.go:59218. -/
def r259 : Expr Act :=
  .act .poEnd (.seq (.lab (.ref 336)) (.seq (.lab (.ref 71)) (.lab (.opt (.ref 86)))))
/-- `MO_phrase<relative_syllable>`: toaq.peggy:320-321, toaq.go:59463. -/
def r260 : Expr Act :=
  .act .moEnd (.seq (.lab (.ref 337)) (.seq (.lab (.ref 71)) (.lab (.ref 85))))
/-- `predicate_word<relative_syllable>`: toaq.peggy:362-365, toaq.go:59672. -/
def r261 : Expr Act :=
  .act (.wordNode .predicate) (.lab (.grp (.alt (.seq (.ref 127) (.plus (.ref 125))) (.seq (.not (.ref 101)) (.ref 127)))))
/-- `afterthought_cop<adverb_1, adverb>`: toaq.peggy:275-276, toaq.go:60042. -/
def r262 : Expr Act :=
  .act .copLeft (.seq (.lab (.ref 50)) (.seq (.lab (.ref 71)) (.lab (.ref 338))))
/-- `forethought_cop<adverb, adverb>`: toaq.peggy:280-281, toaq.go:60251. -/
def r263 : Expr Act :=
  .act .foreCoP (.seq (.lab (.ref 69)) (.seq (.lab (.ref 71)) (.lab (.ref 339))))
/-- `serial<adverb_3>`: toaq.peggy:84-85, toaq.go:60460. -/
def r264 : Expr Act :=
  .act .serial (.seq (.lab (.ref 52)) (.seq (.lab (.ref 71)) (.lab (.ref 20))))
/-- `afterthought_cop_pred<adverb_4>`: toaq.peggy:270-271, toaq.go:60669. -/
def r265 : Expr Act :=
  .act (.copAs .predicate) (.lab (.ref 340))
/-- `forethought_cop_pred<adverb_3>`: toaq.peggy:272-273, toaq.go:60794. -/
def r266 : Expr Act :=
  .act (.copAs .predicate) (.lab (.ref 341))
/-- `LU_predicate<adverb_syllable>`: toaq.peggy:293-294, toaq.go:60919. -/
def r267 : Expr Act :=
  .act (.luAs .predicate) (.lab (.ref 342))
/-- `MI_phrase<adverb_syllable>`: toaq.peggy:301-302, toaq.go:61044. -/
def r268 : Expr Act :=
  .act .miEnd (.seq (.lab (.ref 343)) (.seq (.lab (.ref 71)) (.lab (.opt (.ref 86)))))
/-- `PO_phrase<adverb_syllable>`: toaq.peggy:313-314, toaq.go:61289. -/
def r269 : Expr Act :=
  .act .poEnd (.seq (.lab (.ref 344)) (.seq (.lab (.ref 71)) (.lab (.opt (.ref 86)))))
/-- `MO_phrase<adverb_syllable>`: toaq.peggy:320-321, toaq.go:61534. -/
def r270 : Expr Act :=
  .act .moEnd (.seq (.lab (.ref 345)) (.seq (.lab (.ref 71)) (.lab (.ref 85))))
/-- `predicate_word<adverb_syllable>`: toaq.peggy:362-365, toaq.go:61743. -/
def r271 : Expr Act :=
  .act (.wordNode .predicate) (.lab (.grp (.alt (.seq (.ref 131) (.plus (.ref 125))) (.seq (.not (.ref 101)) (.ref 131)))))
/-- `afterthought_cop<prepositional_phrase_1, prepositional_phrase>`: toaq.peggy:275-276, toaq.go:62113. -/
def r272 : Expr Act :=
  .act .copLeft (.seq (.lab (.ref 55)) (.seq (.lab (.ref 71)) (.lab (.ref 346))))
/-- `forethought_cop<prepositional_phrase, prepositional_phrase>`: toaq.peggy:280-281, toaq.go:62322. -/
def r273 : Expr Act :=
  .act .foreCoP (.seq (.lab (.ref 69)) (.seq (.lab (.ref 71)) (.lab (.ref 347))))
/-- `afterthought_cop<preposition_1, preposition>`: toaq.peggy:275-276, toaq.go:62531. -/
def r274 : Expr Act :=
  .act .copLeft (.seq (.lab (.ref 58)) (.seq (.lab (.ref 71)) (.lab (.ref 348))))
/-- `forethought_cop<preposition, preposition>`: toaq.peggy:280-281, toaq.go:62740. -/
def r275 : Expr Act :=
  .act .foreCoP (.seq (.lab (.ref 69)) (.seq (.lab (.ref 71)) (.lab (.ref 349))))
/-- `serial<preposition_3>`: toaq.peggy:84-85, toaq.go:62949. -/
def r276 : Expr Act :=
  .act .serial (.seq (.lab (.ref 60)) (.seq (.lab (.ref 71)) (.lab (.ref 20))))
/-- `afterthought_cop_pred<preposition_4>`: toaq.peggy:270-271, toaq.go:63158. -/
def r277 : Expr Act :=
  .act (.copAs .predicate) (.lab (.ref 350))
/-- `forethought_cop_pred<preposition>`: toaq.peggy:272-273, toaq.go:63283. -/
def r278 : Expr Act :=
  .act (.copAs .predicate) (.lab (.ref 351))
/-- `LU_predicate<preposition_syllable>`: toaq.peggy:293-294, toaq.go:63408. -/
def r279 : Expr Act :=
  .act (.luAs .predicate) (.lab (.ref 352))
/-- `MI_phrase<preposition_syllable>`: toaq.peggy:301-302, toaq.go:63533. -/
def r280 : Expr Act :=
  .act .miEnd (.seq (.lab (.ref 353)) (.seq (.lab (.ref 71)) (.lab (.opt (.ref 86)))))
/-- `PO_phrase<preposition_syllable>`: toaq.peggy:313-314, toaq.go:63778. -/
def r281 : Expr Act :=
  .act .poEnd (.seq (.lab (.ref 354)) (.seq (.lab (.ref 71)) (.lab (.opt (.ref 86)))))
/-- `MO_phrase<preposition_syllable>`: toaq.peggy:320-321, toaq.go:64023. -/
def r282 : Expr Act :=
  .act .moEnd (.seq (.lab (.ref 355)) (.seq (.lab (.ref 71)) (.lab (.ref 85))))
/-- `predicate_word<preposition_syllable>`: toaq.peggy:362-365, toaq.go:64232. -/
def r283 : Expr Act :=
  .act (.wordNode .predicate) (.lab (.grp (.alt (.seq (.ref 130) (.plus (.ref 125))) (.seq (.not (.ref 101)) (.ref 130)))))
/-- `afterthought_cop<content_clause_1, statement>`: toaq.peggy:275-276, toaq.go:64602. -/
def r284 : Expr Act :=
  .act .copLeft (.seq (.lab (.ref 63)) (.seq (.lab (.ref 71)) (.lab (.ref 311))))
/-- `LU_phrase<content_syllable>`: toaq.peggy:295-296, toaq.go:64811. -/
def r285 : Expr Act :=
  .act .luPhrase (.seq (.lab (.ref 356)) (.seq (.lab (.ref 71)) (.lab (.ref 9))))
/-- `serial<content_predicate_1>`: toaq.peggy:84-85, toaq.go:65020. -/
def r286 : Expr Act :=
  .act .serial (.seq (.lab (.ref 67)) (.seq (.lab (.ref 71)) (.lab (.ref 20))))
/-- `afterthought_cop_pred<content_predicate_2>`: toaq.peggy:270-271, toaq.go:65229. -/
def r287 : Expr Act :=
  .act (.copAs .predicate) (.lab (.ref 357))
/-- `forethought_cop_pred<content_predicate_2>`: toaq.peggy:272-273, toaq.go:65354. -/
def r288 : Expr Act :=
  .act (.copAs .predicate) (.lab (.ref 358))
/-- `MI_phrase<content_syllable>`: toaq.peggy:301-302, toaq.go:65479. -/
def r289 : Expr Act :=
  .act .miEnd (.seq (.lab (.ref 359)) (.seq (.lab (.ref 71)) (.lab (.opt (.ref 86)))))
/-- `PO_phrase<content_syllable>`: toaq.peggy:313-314, toaq.go:65724. -/
def r290 : Expr Act :=
  .act .poEnd (.seq (.lab (.ref 360)) (.seq (.lab (.ref 71)) (.lab (.opt (.ref 86)))))
/-- `MO_phrase<content_syllable>`: toaq.peggy:320-321, toaq.go:65969. -/
def r291 : Expr Act :=
  .act .moEnd (.seq (.lab (.ref 361)) (.seq (.lab (.ref 71)) (.lab (.ref 85))))
/-- `predicate_word<content_syllable>`: toaq.peggy:362-365, toaq.go:66178. -/
def r292 : Expr Act :=
  .act (.wordNode .predicate) (.lab (.grp (.alt (.seq (.ref 129) (.plus (.ref 125))) (.seq (.not (.ref 101)) (.ref 129)))))
/-- `syllable<compound_desinence, compound_tone>`: toaq.peggy:427, toaq.go:66548. -/
def r293 : Expr Act :=
  .seq (.ref 133) (.seq (.grp (.alt (.ref 135) (.act .addTone (.seq (.lab (.ref 134)) (.lab (.ref 154)))))) (.and (.ref 132)))
/-- `syllable<arg_desinence, arg_tone>`: toaq.peggy:427, toaq.go:66902. -/
def r294 : Expr Act :=
  .seq (.ref 133) (.seq (.grp (.alt (.ref 136) (.act .addTone (.seq (.lab (.ref 134)) (.lab (.ref 161)))))) (.and (.ref 132)))
/-- `syllable<relative_desinence, relative_tone>`: toaq.peggy:427, toaq.go:67256. -/
def r295 : Expr Act :=
  .seq (.ref 133) (.seq (.grp (.alt (.ref 137) (.act .addTone (.seq (.lab (.ref 134)) (.lab (.ref 169)))))) (.and (.ref 132)))
/-- `syllable<verb_desinence, verb_tone>`: toaq.peggy:427, toaq.go:67610. -/
def r296 : Expr Act :=
  .seq (.ref 133) (.seq (.grp (.alt (.ref 138) (.act .addTone (.seq (.lab (.ref 134)) (.lab (.ref 176)))))) (.and (.ref 132)))
/-- `syllable<content_desinence, content_tone>`: toaq.peggy:427, toaq.go:67964. -/
def r297 : Expr Act :=
  .seq (.ref 133) (.seq (.grp (.alt (.ref 139) (.act .addTone (.seq (.lab (.ref 134)) (.lab (.ref 183)))))) (.and (.ref 132)))
/-- `syllable<preposition_desinence, preposition_tone>`: toaq.peggy:427, toaq.go:68318. -/
def r298 : Expr Act :=
  .seq (.ref 133) (.seq (.grp (.alt (.ref 140) (.act .addTone (.seq (.lab (.ref 134)) (.lab (.ref 190)))))) (.and (.ref 132)))
/-- `syllable<adverb_desinence, adverb_tone>`: toaq.peggy:427, toaq.go:68672. -/
def r299 : Expr Act :=
  .seq (.ref 133) (.seq (.grp (.alt (.ref 141) (.act .addTone (.seq (.lab (.ref 134)) (.lab (.ref 197)))))) (.and (.ref 132)))
/-- `desinence<a, u, i, o, e>`: toaq.peggy:443-448, toaq.go:69026. -/
def r300 : Expr Act :=
  .alt (.seq (.ref 198) (.ref 214)) (.alt (.seq (.ref 198) (.ref 206)) (.alt (.seq (.ref 198) (.ref 212)) (.alt (.ref 198) (.alt (.seq (.ref 218) (.ref 214)) (.alt (.seq (.ref 218) (.seq (.ref 198) (.ref 214))) (.alt (.seq (.ref 218) (.seq (.ref 198) (.ref 206))) (.alt (.seq (.ref 218) (.seq (.ref 198) (.ref 212))) (.alt (.seq (.ref 218) (.ref 198)) (.alt (.seq (.ref 218) (.ref 206)) (.alt (.seq (.ref 218) (.seq (.ref 212) (.ref 214))) (.alt (.seq (.ref 218) (.seq (.ref 212) (.ref 206))) (.alt (.seq (.ref 218) (.ref 212)) (.alt (.seq (.ref 218) (.seq (.ref 202) (.ref 214))) (.alt (.seq (.ref 218) (.ref 202)) (.alt (.ref 218) (.alt (.seq (.ref 206) (.ref 214)) (.alt (.seq (.ref 206) (.seq (.ref 198) (.ref 214))) (.alt (.seq (.ref 206) (.seq (.ref 198) (.ref 206))) (.alt (.seq (.ref 206) (.seq (.ref 198) (.ref 212))) (.alt (.seq (.ref 206) (.ref 198)) (.alt (.seq (.ref 206) (.seq (.ref 218) (.ref 214))) (.alt (.seq (.ref 206) (.ref 218)) (.alt (.seq (.ref 206) (.seq (.ref 212) (.ref 206))) (.alt (.seq (.ref 206) (.seq (.ref 212) (.ref 214))) (.alt (.seq (.ref 206) (.ref 212)) (.alt (.seq (.ref 206) (.seq (.ref 202) (.ref 214))) (.alt (.seq (.ref 206) (.ref 202)) (.alt (.ref 206) (.alt (.seq (.ref 212) (.ref 214)) (.alt (.seq (.ref 212) (.seq (.ref 198) (.ref 214))) (.alt (.seq (.ref 212) (.seq (.ref 198) (.ref 206))) (.alt (.seq (.ref 212) (.seq (.ref 198) (.ref 212))) (.alt (.seq (.ref 212) (.ref 198)) (.alt (.seq (.ref 212) (.ref 206)) (.alt (.seq (.ref 212) (.seq (.ref 202) (.ref 214))) (.alt (.seq (.ref 212) (.ref 202)) (.alt (.ref 212) (.alt (.seq (.ref 202) (.ref 214)) (.alt (.seq (.ref 202) (.seq (.ref 198) (.ref 214))) (.alt (.seq (.ref 202) (.seq (.ref 198) (.ref 206))) (.alt (.seq (.ref 202) (.seq (.ref 198) (.ref 212))) (.alt (.seq (.ref 202) (.ref 198)) (.alt (.seq (.ref 202) (.ref 206)) (.alt (.seq (.ref 202) (.seq (.ref 212) (.ref 214))) (.alt (.seq (.ref 202) (.ref 212)) (.alt (.seq (.ref 202) (.ref 218)) (.ref 202)))))))))))))))))))))))))))))))))))))))))))))))
/-- `desinence<ā, ū, ī, ō, ē>`: toaq.peggy:443-448, toaq.go:72325. -/
def r301 : Expr Act :=
  .alt (.seq (.ref 148) (.ref 214)) (.alt (.seq (.ref 148) (.ref 206)) (.alt (.seq (.ref 148) (.ref 212)) (.alt (.ref 148) (.alt (.seq (.ref 149) (.ref 214)) (.alt (.seq (.ref 149) (.seq (.ref 198) (.ref 214))) (.alt (.seq (.ref 149) (.seq (.ref 198) (.ref 206))) (.alt (.seq (.ref 149) (.seq (.ref 198) (.ref 212))) (.alt (.seq (.ref 149) (.ref 198)) (.alt (.seq (.ref 149) (.ref 206)) (.alt (.seq (.ref 149) (.seq (.ref 212) (.ref 214))) (.alt (.seq (.ref 149) (.seq (.ref 212) (.ref 206))) (.alt (.seq (.ref 149) (.ref 212)) (.alt (.seq (.ref 149) (.seq (.ref 202) (.ref 214))) (.alt (.seq (.ref 149) (.ref 202)) (.alt (.ref 149) (.alt (.seq (.ref 150) (.ref 214)) (.alt (.seq (.ref 150) (.seq (.ref 198) (.ref 214))) (.alt (.seq (.ref 150) (.seq (.ref 198) (.ref 206))) (.alt (.seq (.ref 150) (.seq (.ref 198) (.ref 212))) (.alt (.seq (.ref 150) (.ref 198)) (.alt (.seq (.ref 150) (.seq (.ref 218) (.ref 214))) (.alt (.seq (.ref 150) (.ref 218)) (.alt (.seq (.ref 150) (.seq (.ref 212) (.ref 206))) (.alt (.seq (.ref 150) (.seq (.ref 212) (.ref 214))) (.alt (.seq (.ref 150) (.ref 212)) (.alt (.seq (.ref 150) (.seq (.ref 202) (.ref 214))) (.alt (.seq (.ref 150) (.ref 202)) (.alt (.ref 150) (.alt (.seq (.ref 151) (.ref 214)) (.alt (.seq (.ref 151) (.seq (.ref 198) (.ref 214))) (.alt (.seq (.ref 151) (.seq (.ref 198) (.ref 206))) (.alt (.seq (.ref 151) (.seq (.ref 198) (.ref 212))) (.alt (.seq (.ref 151) (.ref 198)) (.alt (.seq (.ref 151) (.ref 206)) (.alt (.seq (.ref 151) (.seq (.ref 202) (.ref 214))) (.alt (.seq (.ref 151) (.ref 202)) (.alt (.ref 151) (.alt (.seq (.ref 152) (.ref 214)) (.alt (.seq (.ref 152) (.seq (.ref 198) (.ref 214))) (.alt (.seq (.ref 152) (.seq (.ref 198) (.ref 206))) (.alt (.seq (.ref 152) (.seq (.ref 198) (.ref 212))) (.alt (.seq (.ref 152) (.ref 198)) (.alt (.seq (.ref 152) (.ref 206)) (.alt (.seq (.ref 152) (.seq (.ref 212) (.ref 214))) (.alt (.seq (.ref 152) (.ref 212)) (.alt (.seq (.ref 152) (.ref 218)) (.ref 152)))))))))))))))))))))))))))))))))))))))))))))))
/-- `desinence<á, ú, í, ó, é>`: toaq.peggy:443-448, toaq.go:75624. -/
def r302 : Expr Act :=
  .alt (.seq (.ref 155) (.ref 214)) (.alt (.seq (.ref 155) (.ref 206)) (.alt (.seq (.ref 155) (.ref 212)) (.alt (.ref 155) (.alt (.seq (.ref 156) (.ref 214)) (.alt (.seq (.ref 156) (.seq (.ref 198) (.ref 214))) (.alt (.seq (.ref 156) (.seq (.ref 198) (.ref 206))) (.alt (.seq (.ref 156) (.seq (.ref 198) (.ref 212))) (.alt (.seq (.ref 156) (.ref 198)) (.alt (.seq (.ref 156) (.ref 206)) (.alt (.seq (.ref 156) (.seq (.ref 212) (.ref 214))) (.alt (.seq (.ref 156) (.seq (.ref 212) (.ref 206))) (.alt (.seq (.ref 156) (.ref 212)) (.alt (.seq (.ref 156) (.seq (.ref 202) (.ref 214))) (.alt (.seq (.ref 156) (.ref 202)) (.alt (.ref 156) (.alt (.seq (.ref 157) (.ref 214)) (.alt (.seq (.ref 157) (.seq (.ref 198) (.ref 214))) (.alt (.seq (.ref 157) (.seq (.ref 198) (.ref 206))) (.alt (.seq (.ref 157) (.seq (.ref 198) (.ref 212))) (.alt (.seq (.ref 157) (.ref 198)) (.alt (.seq (.ref 157) (.seq (.ref 218) (.ref 214))) (.alt (.seq (.ref 157) (.ref 218)) (.alt (.seq (.ref 157) (.seq (.ref 212) (.ref 206))) (.alt (.seq (.ref 157) (.seq (.ref 212) (.ref 214))) (.alt (.seq (.ref 157) (.ref 212)) (.alt (.seq (.ref 157) (.seq (.ref 202) (.ref 214))) (.alt (.seq (.ref 157) (.ref 202)) (.alt (.ref 157) (.alt (.seq (.ref 158) (.ref 214)) (.alt (.seq (.ref 158) (.seq (.ref 198) (.ref 214))) (.alt (.seq (.ref 158) (.seq (.ref 198) (.ref 206))) (.alt (.seq (.ref 158) (.seq (.ref 198) (.ref 212))) (.alt (.seq (.ref 158) (.ref 198)) (.alt (.seq (.ref 158) (.ref 206)) (.alt (.seq (.ref 158) (.seq (.ref 202) (.ref 214))) (.alt (.seq (.ref 158) (.ref 202)) (.alt (.ref 158) (.alt (.seq (.ref 159) (.ref 214)) (.alt (.seq (.ref 159) (.seq (.ref 198) (.ref 214))) (.alt (.seq (.ref 159) (.seq (.ref 198) (.ref 206))) (.alt (.seq (.ref 159) (.seq (.ref 198) (.ref 212))) (.alt (.seq (.ref 159) (.ref 198)) (.alt (.seq (.ref 159) (.ref 206)) (.alt (.seq (.ref 159) (.seq (.ref 212) (.ref 214))) (.alt (.seq (.ref 159) (.ref 212)) (.alt (.seq (.ref 159) (.ref 218)) (.ref 159)))))))))))))))))))))))))))))))))))))))))))))))
/-- `desinence<ǎ, ǔ, ǐ, ǒ, ě>`: toaq.peggy:443-448, toaq.go:78923. -/
def r303 : Expr Act :=
  .alt (.seq (.ref 162) (.ref 214)) (.alt (.seq (.ref 162) (.ref 206)) (.alt (.seq (.ref 162) (.ref 212)) (.alt (.ref 162) (.alt (.seq (.ref 163) (.ref 214)) (.alt (.seq (.ref 163) (.seq (.ref 198) (.ref 214))) (.alt (.seq (.ref 163) (.seq (.ref 198) (.ref 206))) (.alt (.seq (.ref 163) (.seq (.ref 198) (.ref 212))) (.alt (.seq (.ref 163) (.ref 198)) (.alt (.seq (.ref 163) (.ref 206)) (.alt (.seq (.ref 163) (.seq (.ref 212) (.ref 214))) (.alt (.seq (.ref 163) (.seq (.ref 212) (.ref 206))) (.alt (.seq (.ref 163) (.ref 212)) (.alt (.seq (.ref 163) (.seq (.ref 202) (.ref 214))) (.alt (.seq (.ref 163) (.ref 202)) (.alt (.ref 163) (.alt (.seq (.ref 164) (.ref 214)) (.alt (.seq (.ref 164) (.seq (.ref 198) (.ref 214))) (.alt (.seq (.ref 164) (.seq (.ref 198) (.ref 206))) (.alt (.seq (.ref 164) (.seq (.ref 198) (.ref 212))) (.alt (.seq (.ref 164) (.ref 198)) (.alt (.seq (.ref 164) (.seq (.ref 218) (.ref 214))) (.alt (.seq (.ref 164) (.ref 218)) (.alt (.seq (.ref 164) (.seq (.ref 212) (.ref 206))) (.alt (.seq (.ref 164) (.seq (.ref 212) (.ref 214))) (.alt (.seq (.ref 164) (.ref 212)) (.alt (.seq (.ref 164) (.seq (.ref 202) (.ref 214))) (.alt (.seq (.ref 164) (.ref 202)) (.alt (.ref 164) (.alt (.seq (.ref 165) (.ref 214)) (.alt (.seq (.ref 165) (.seq (.ref 198) (.ref 214))) (.alt (.seq (.ref 165) (.seq (.ref 198) (.ref 206))) (.alt (.seq (.ref 165) (.seq (.ref 198) (.ref 212))) (.alt (.seq (.ref 165) (.ref 198)) (.alt (.seq (.ref 165) (.ref 206)) (.alt (.seq (.ref 165) (.seq (.ref 202) (.ref 214))) (.alt (.seq (.ref 165) (.ref 202)) (.alt (.ref 165) (.alt (.seq (.ref 166) (.ref 214)) (.alt (.seq (.ref 166) (.seq (.ref 198) (.ref 214))) (.alt (.seq (.ref 166) (.seq (.ref 198) (.ref 206))) (.alt (.seq (.ref 166) (.seq (.ref 198) (.ref 212))) (.alt (.seq (.ref 166) (.ref 198)) (.alt (.seq (.ref 166) (.ref 206)) (.alt (.seq (.ref 166) (.seq (.ref 212) (.ref 214))) (.alt (.seq (.ref 166) (.ref 212)) (.alt (.seq (.ref 166) (.ref 218)) (.ref 166)))))))))))))))))))))))))))))))))))))))))))))))
/-- `desinence<ả, ủ, ỉ, ỏ, ẻ>`: toaq.peggy:443-448, toaq.go:82222. -/
def r304 : Expr Act :=
  .alt (.seq (.ref 170) (.ref 214)) (.alt (.seq (.ref 170) (.ref 206)) (.alt (.seq (.ref 170) (.ref 212)) (.alt (.ref 170) (.alt (.seq (.ref 171) (.ref 214)) (.alt (.seq (.ref 171) (.seq (.ref 198) (.ref 214))) (.alt (.seq (.ref 171) (.seq (.ref 198) (.ref 206))) (.alt (.seq (.ref 171) (.seq (.ref 198) (.ref 212))) (.alt (.seq (.ref 171) (.ref 198)) (.alt (.seq (.ref 171) (.ref 206)) (.alt (.seq (.ref 171) (.seq (.ref 212) (.ref 214))) (.alt (.seq (.ref 171) (.seq (.ref 212) (.ref 206))) (.alt (.seq (.ref 171) (.ref 212)) (.alt (.seq (.ref 171) (.seq (.ref 202) (.ref 214))) (.alt (.seq (.ref 171) (.ref 202)) (.alt (.ref 171) (.alt (.seq (.ref 172) (.ref 214)) (.alt (.seq (.ref 172) (.seq (.ref 198) (.ref 214))) (.alt (.seq (.ref 172) (.seq (.ref 198) (.ref 206))) (.alt (.seq (.ref 172) (.seq (.ref 198) (.ref 212))) (.alt (.seq (.ref 172) (.ref 198)) (.alt (.seq (.ref 172) (.seq (.ref 218) (.ref 214))) (.alt (.seq (.ref 172) (.ref 218)) (.alt (.seq (.ref 172) (.seq (.ref 212) (.ref 206))) (.alt (.seq (.ref 172) (.seq (.ref 212) (.ref 214))) (.alt (.seq (.ref 172) (.ref 212)) (.alt (.seq (.ref 172) (.seq (.ref 202) (.ref 214))) (.alt (.seq (.ref 172) (.ref 202)) (.alt (.ref 172) (.alt (.seq (.ref 173) (.ref 214)) (.alt (.seq (.ref 173) (.seq (.ref 198) (.ref 214))) (.alt (.seq (.ref 173) (.seq (.ref 198) (.ref 206))) (.alt (.seq (.ref 173) (.seq (.ref 198) (.ref 212))) (.alt (.seq (.ref 173) (.ref 198)) (.alt (.seq (.ref 173) (.ref 206)) (.alt (.seq (.ref 173) (.seq (.ref 202) (.ref 214))) (.alt (.seq (.ref 173) (.ref 202)) (.alt (.ref 173) (.alt (.seq (.ref 174) (.ref 214)) (.alt (.seq (.ref 174) (.seq (.ref 198) (.ref 214))) (.alt (.seq (.ref 174) (.seq (.ref 198) (.ref 206))) (.alt (.seq (.ref 174) (.seq (.ref 198) (.ref 212))) (.alt (.seq (.ref 174) (.ref 198)) (.alt (.seq (.ref 174) (.ref 206)) (.alt (.seq (.ref 174) (.seq (.ref 212) (.ref 214))) (.alt (.seq (.ref 174) (.ref 212)) (.alt (.seq (.ref 174) (.ref 218)) (.ref 174)))))))))))))))))))))))))))))))))))))))))))))))
/-- `desinence<â, û, î, ô, ê>`: toaq.peggy:443-448, toaq.go:85521. -/
def r305 : Expr Act :=
  .alt (.seq (.ref 177) (.ref 214)) (.alt (.seq (.ref 177) (.ref 206)) (.alt (.seq (.ref 177) (.ref 212)) (.alt (.ref 177) (.alt (.seq (.ref 178) (.ref 214)) (.alt (.seq (.ref 178) (.seq (.ref 198) (.ref 214))) (.alt (.seq (.ref 178) (.seq (.ref 198) (.ref 206))) (.alt (.seq (.ref 178) (.seq (.ref 198) (.ref 212))) (.alt (.seq (.ref 178) (.ref 198)) (.alt (.seq (.ref 178) (.ref 206)) (.alt (.seq (.ref 178) (.seq (.ref 212) (.ref 214))) (.alt (.seq (.ref 178) (.seq (.ref 212) (.ref 206))) (.alt (.seq (.ref 178) (.ref 212)) (.alt (.seq (.ref 178) (.seq (.ref 202) (.ref 214))) (.alt (.seq (.ref 178) (.ref 202)) (.alt (.ref 178) (.alt (.seq (.ref 179) (.ref 214)) (.alt (.seq (.ref 179) (.seq (.ref 198) (.ref 214))) (.alt (.seq (.ref 179) (.seq (.ref 198) (.ref 206))) (.alt (.seq (.ref 179) (.seq (.ref 198) (.ref 212))) (.alt (.seq (.ref 179) (.ref 198)) (.alt (.seq (.ref 179) (.seq (.ref 218) (.ref 214))) (.alt (.seq (.ref 179) (.ref 218)) (.alt (.seq (.ref 179) (.seq (.ref 212) (.ref 206))) (.alt (.seq (.ref 179) (.seq (.ref 212) (.ref 214))) (.alt (.seq (.ref 179) (.ref 212)) (.alt (.seq (.ref 179) (.seq (.ref 202) (.ref 214))) (.alt (.seq (.ref 179) (.ref 202)) (.alt (.ref 179) (.alt (.seq (.ref 180) (.ref 214)) (.alt (.seq (.ref 180) (.seq (.ref 198) (.ref 214))) (.alt (.seq (.ref 180) (.seq (.ref 198) (.ref 206))) (.alt (.seq (.ref 180) (.seq (.ref 198) (.ref 212))) (.alt (.seq (.ref 180) (.ref 198)) (.alt (.seq (.ref 180) (.ref 206)) (.alt (.seq (.ref 180) (.seq (.ref 202) (.ref 214))) (.alt (.seq (.ref 180) (.ref 202)) (.alt (.ref 180) (.alt (.seq (.ref 181) (.ref 214)) (.alt (.seq (.ref 181) (.seq (.ref 198) (.ref 214))) (.alt (.seq (.ref 181) (.seq (.ref 198) (.ref 206))) (.alt (.seq (.ref 181) (.seq (.ref 198) (.ref 212))) (.alt (.seq (.ref 181) (.ref 198)) (.alt (.seq (.ref 181) (.ref 206)) (.alt (.seq (.ref 181) (.seq (.ref 212) (.ref 214))) (.alt (.seq (.ref 181) (.ref 212)) (.alt (.seq (.ref 181) (.ref 218)) (.ref 181)))))))))))))))))))))))))))))))))))))))))))))))
/-- `desinence<à, ù, ì, ò, è>`: toaq.peggy:443-448, toaq.go:88820. -/
def r306 : Expr Act :=
  .alt (.seq (.ref 184) (.ref 214)) (.alt (.seq (.ref 184) (.ref 206)) (.alt (.seq (.ref 184) (.ref 212)) (.alt (.ref 184) (.alt (.seq (.ref 185) (.ref 214)) (.alt (.seq (.ref 185) (.seq (.ref 198) (.ref 214))) (.alt (.seq (.ref 185) (.seq (.ref 198) (.ref 206))) (.alt (.seq (.ref 185) (.seq (.ref 198) (.ref 212))) (.alt (.seq (.ref 185) (.ref 198)) (.alt (.seq (.ref 185) (.ref 206)) (.alt (.seq (.ref 185) (.seq (.ref 212) (.ref 214))) (.alt (.seq (.ref 185) (.seq (.ref 212) (.ref 206))) (.alt (.seq (.ref 185) (.ref 212)) (.alt (.seq (.ref 185) (.seq (.ref 202) (.ref 214))) (.alt (.seq (.ref 185) (.ref 202)) (.alt (.ref 185) (.alt (.seq (.ref 186) (.ref 214)) (.alt (.seq (.ref 186) (.seq (.ref 198) (.ref 214))) (.alt (.seq (.ref 186) (.seq (.ref 198) (.ref 206))) (.alt (.seq (.ref 186) (.seq (.ref 198) (.ref 212))) (.alt (.seq (.ref 186) (.ref 198)) (.alt (.seq (.ref 186) (.seq (.ref 218) (.ref 214))) (.alt (.seq (.ref 186) (.ref 218)) (.alt (.seq (.ref 186) (.seq (.ref 212) (.ref 206))) (.alt (.seq (.ref 186) (.seq (.ref 212) (.ref 214))) (.alt (.seq (.ref 186) (.ref 212)) (.alt (.seq (.ref 186) (.seq (.ref 202) (.ref 214))) (.alt (.seq (.ref 186) (.ref 202)) (.alt (.ref 186) (.alt (.seq (.ref 187) (.ref 214)) (.alt (.seq (.ref 187) (.seq (.ref 198) (.ref 214))) (.alt (.seq (.ref 187) (.seq (.ref 198) (.ref 206))) (.alt (.seq (.ref 187) (.seq (.ref 198) (.ref 212))) (.alt (.seq (.ref 187) (.ref 198)) (.alt (.seq (.ref 187) (.ref 206)) (.alt (.seq (.ref 187) (.seq (.ref 202) (.ref 214))) (.alt (.seq (.ref 187) (.ref 202)) (.alt (.ref 187) (.alt (.seq (.ref 188) (.ref 214)) (.alt (.seq (.ref 188) (.seq (.ref 198) (.ref 214))) (.alt (.seq (.ref 188) (.seq (.ref 198) (.ref 206))) (.alt (.seq (.ref 188) (.seq (.ref 198) (.ref 212))) (.alt (.seq (.ref 188) (.ref 198)) (.alt (.seq (.ref 188) (.ref 206)) (.alt (.seq (.ref 188) (.seq (.ref 212) (.ref 214))) (.alt (.seq (.ref 188) (.ref 212)) (.alt (.seq (.ref 188) (.ref 218)) (.ref 188)))))))))))))))))))))))))))))))))))))))))))))))
/-- `desinence<ã, ũ, ĩ, õ, ẽ>`: toaq.peggy:443-448, toaq.go:92119. -/
def r307 : Expr Act :=
  .alt (.seq (.ref 191) (.ref 214)) (.alt (.seq (.ref 191) (.ref 206)) (.alt (.seq (.ref 191) (.ref 212)) (.alt (.ref 191) (.alt (.seq (.ref 192) (.ref 214)) (.alt (.seq (.ref 192) (.seq (.ref 198) (.ref 214))) (.alt (.seq (.ref 192) (.seq (.ref 198) (.ref 206))) (.alt (.seq (.ref 192) (.seq (.ref 198) (.ref 212))) (.alt (.seq (.ref 192) (.ref 198)) (.alt (.seq (.ref 192) (.ref 206)) (.alt (.seq (.ref 192) (.seq (.ref 212) (.ref 214))) (.alt (.seq (.ref 192) (.seq (.ref 212) (.ref 206))) (.alt (.seq (.ref 192) (.ref 212)) (.alt (.seq (.ref 192) (.seq (.ref 202) (.ref 214))) (.alt (.seq (.ref 192) (.ref 202)) (.alt (.ref 192) (.alt (.seq (.ref 193) (.ref 214)) (.alt (.seq (.ref 193) (.seq (.ref 198) (.ref 214))) (.alt (.seq (.ref 193) (.seq (.ref 198) (.ref 206))) (.alt (.seq (.ref 193) (.seq (.ref 198) (.ref 212))) (.alt (.seq (.ref 193) (.ref 198)) (.alt (.seq (.ref 193) (.seq (.ref 218) (.ref 214))) (.alt (.seq (.ref 193) (.ref 218)) (.alt (.seq (.ref 193) (.seq (.ref 212) (.ref 206))) (.alt (.seq (.ref 193) (.seq (.ref 212) (.ref 214))) (.alt (.seq (.ref 193) (.ref 212)) (.alt (.seq (.ref 193) (.seq (.ref 202) (.ref 214))) (.alt (.seq (.ref 193) (.ref 202)) (.alt (.ref 193) (.alt (.seq (.ref 194) (.ref 214)) (.alt (.seq (.ref 194) (.seq (.ref 198) (.ref 214))) (.alt (.seq (.ref 194) (.seq (.ref 198) (.ref 206))) (.alt (.seq (.ref 194) (.seq (.ref 198) (.ref 212))) (.alt (.seq (.ref 194) (.ref 198)) (.alt (.seq (.ref 194) (.ref 206)) (.alt (.seq (.ref 194) (.seq (.ref 202) (.ref 214))) (.alt (.seq (.ref 194) (.ref 202)) (.alt (.ref 194) (.alt (.seq (.ref 195) (.ref 214)) (.alt (.seq (.ref 195) (.seq (.ref 198) (.ref 214))) (.alt (.seq (.ref 195) (.seq (.ref 198) (.ref 206))) (.alt (.seq (.ref 195) (.seq (.ref 198) (.ref 212))) (.alt (.seq (.ref 195) (.ref 198)) (.alt (.seq (.ref 195) (.ref 206)) (.alt (.seq (.ref 195) (.seq (.ref 212) (.ref 214))) (.alt (.seq (.ref 195) (.ref 212)) (.alt (.seq (.ref 195) (.ref 218)) (.ref 195)))))))))))))))))))))))))))))))))))))))))))))))
/-- `cop_bar<relative_clause>`: toaq.peggy:277-278, toaq.go:95418. -/
def r308 : Expr Act :=
  .act .copRight (.seq (.lab (.ref 95)) (.seq (.lab (.ref 71)) (.lab (.ref 41))))
/-- `cop_bar<sentence>`: toaq.peggy:277-278, toaq.go:95627. -/
def r309 : Expr Act :=
  .act .copRight (.seq (.lab (.ref 95)) (.seq (.lab (.ref 71)) (.lab (.ref 4))))
/-- `forethought_cop_1<sentence, sentence>`: toaq.peggy:282-283, toaq.go:95836. -/
def r310 : Expr Act :=
  .act .foreCoPLeft (.seq (.lab (.ref 4)) (.seq (.lab (.ref 71)) (.lab (.ref 362))))
/-- `cop_bar<statement>`: toaq.peggy:277-278, toaq.go:96045. -/
def r311 : Expr Act :=
  .act .copRight (.seq (.lab (.ref 95)) (.seq (.lab (.ref 71)) (.lab (.ref 9))))
/-- `forethought_cop_1<statement, statement>`: toaq.peggy:282-283, toaq.go:96254. -/
def r312 : Expr Act :=
  .act .foreCoPLeft (.seq (.lab (.ref 9)) (.seq (.lab (.ref 71)) (.lab (.ref 363))))
/-- `cop_bar<predicate_1>`: toaq.peggy:277-278, toaq.go:96463. -/
def r313 : Expr Act :=
  .act .copRight (.seq (.lab (.ref 95)) (.seq (.lab (.ref 71)) (.lab (.ref 17))))
/-- `forethought_cop<predicate, predicate>`: toaq.peggy:280-281, toaq.go:96672. -/
def r314 : Expr Act :=
  .act .foreCoP (.seq (.lab (.ref 69)) (.seq (.lab (.ref 71)) (.lab (.ref 364))))
/-- `LU_phrase<verb_syllable>`: toaq.peggy:295-296, toaq.go:96881. -/
def r315 : Expr Act :=
  .act .luPhrase (.seq (.lab (.ref 365)) (.seq (.lab (.ref 71)) (.lab (.ref 9))))
/-- `MI_phrase_1<verb_syllable>`: toaq.peggy:303-304, toaq.go:97090. -/
def r316 : Expr Act :=
  .act .mi (.seq (.lab (.ref 366)) (.seq (.lab (.ref 71)) (.lab (.ref 70))))
/-- `PO_phrase_1<verb_syllable>`: toaq.peggy:315-316, toaq.go:97299. -/
def r317 : Expr Act :=
  .act .po (.seq (.lab (.ref 367)) (.seq (.lab (.ref 71)) (.lab (.ref 31))))
/-- `MO_phrase_1<verb_syllable>`: toaq.peggy:325-326, toaq.go:97508. -/
def r318 : Expr Act :=
  .act .mo (.seq (.lab (.ref 368)) (.seq (.lab (.opt (.ref 73))) (.lab (.ref 2))))
/-- `forethought_cop_1<terms_V, terms_V>`: toaq.peggy:282-283, toaq.go:97753. -/
def r319 : Expr Act :=
  .act .foreCoPLeft (.seq (.lab (.ref 30)) (.seq (.lab (.ref 71)) (.lab (.ref 369))))
/-- `forethought_cop_1<terms_IV, terms_IV>`: toaq.peggy:282-283, toaq.go:97962. -/
def r320 : Expr Act :=
  .act .foreCoPLeft (.seq (.lab (.ref 29)) (.seq (.lab (.ref 71)) (.lab (.ref 370))))
/-- `forethought_cop_1<terms_III, terms_III>`: toaq.peggy:282-283, toaq.go:98171. -/
def r321 : Expr Act :=
  .act .foreCoPLeft (.seq (.lab (.ref 28)) (.seq (.lab (.ref 71)) (.lab (.ref 371))))
/-- `forethought_cop_1<terms_II, terms_II>`: toaq.peggy:282-283, toaq.go:98380. -/
def r322 : Expr Act :=
  .act .foreCoPLeft (.seq (.lab (.ref 27)) (.seq (.lab (.ref 71)) (.lab (.ref 372))))
/-- `cop_bar<argument>`: toaq.peggy:277-278, toaq.go:98589. -/
def r323 : Expr Act :=
  .act .copRight (.seq (.lab (.ref 95)) (.seq (.lab (.ref 71)) (.lab (.ref 31))))
/-- `forethought_cop_1<argument, argument>`: toaq.peggy:282-283, toaq.go:98798. -/
def r324 : Expr Act :=
  .act .foreCoPLeft (.seq (.lab (.ref 31)) (.seq (.lab (.ref 71)) (.lab (.ref 373))))
/-- `afterthought_cop<arg_7, predicate>`: toaq.peggy:275-276, toaq.go:99007. -/
def r325 : Expr Act :=
  .act .copLeft (.seq (.lab (.ref 40)) (.seq (.lab (.ref 71)) (.lab (.ref 374))))
/-- `forethought_cop<arg_5, predicate>`: toaq.peggy:280-281, toaq.go:99216. -/
def r326 : Expr Act :=
  .act .foreCoP (.seq (.lab (.ref 69)) (.seq (.lab (.ref 71)) (.lab (.ref 375))))
/-- `LU_phrase<arg_syllable>`: toaq.peggy:295-296, toaq.go:99425. -/
def r327 : Expr Act :=
  .act .luPhrase (.seq (.lab (.ref 376)) (.seq (.lab (.ref 71)) (.lab (.ref 9))))
/-- `MI_phrase_1<arg_syllable>`: toaq.peggy:303-304, toaq.go:99634. -/
def r328 : Expr Act :=
  .act .mi (.seq (.lab (.ref 377)) (.seq (.lab (.ref 71)) (.lab (.ref 70))))
/-- `PO_phrase_1<arg_syllable>`: toaq.peggy:315-316, toaq.go:99843. -/
def r329 : Expr Act :=
  .act .po (.seq (.lab (.ref 378)) (.seq (.lab (.ref 71)) (.lab (.ref 31))))
/-- `MO_phrase_1<arg_syllable>`: toaq.peggy:325-326, toaq.go:100052. -/
def r330 : Expr Act :=
  .act .mo (.seq (.lab (.ref 379)) (.seq (.lab (.opt (.ref 73))) (.lab (.ref 2))))
/-- `LU_word<relative_syllable>`: toaq.peggy:297-298, toaq.go:100297. -/
def r331 : Expr Act :=
  .act .word (.seq (.and (.ref 114)) (.lab (.ref 127)))
/-- `forethought_cop_1<relative_clause, relative_clause>`: toaq.peggy:282-283, toaq.go:100498. -/
def r332 : Expr Act :=
  .act .foreCoPLeft (.seq (.lab (.ref 41)) (.seq (.lab (.ref 71)) (.lab (.ref 380))))
/-- `afterthought_cop<relative_predicate_2, predicate>`: toaq.peggy:275-276, toaq.go:100707. -/
def r333 : Expr Act :=
  .act .copLeft (.seq (.lab (.ref 48)) (.seq (.lab (.ref 71)) (.lab (.ref 374))))
/-- `forethought_cop<relative_predicate, predicate>`: toaq.peggy:280-281, toaq.go:100916. -/
def r334 : Expr Act :=
  .act .foreCoP (.seq (.lab (.ref 69)) (.seq (.lab (.ref 71)) (.lab (.ref 381))))
/-- `MI_phrase_1<relative_syllable>`: toaq.peggy:303-304, toaq.go:101125. -/
def r335 : Expr Act :=
  .act .mi (.seq (.lab (.ref 382)) (.seq (.lab (.ref 71)) (.lab (.ref 70))))
/-- `PO_phrase_1<relative_syllable>`: toaq.peggy:315-316, toaq.go:101334. -/
def r336 : Expr Act :=
  .act .po (.seq (.lab (.ref 383)) (.seq (.lab (.ref 71)) (.lab (.ref 31))))
/-- `MO_phrase_1<relative_syllable>`: toaq.peggy:325-326, toaq.go:101543. -/
def r337 : Expr Act :=
  .act .mo (.seq (.lab (.ref 384)) (.seq (.lab (.opt (.ref 73))) (.lab (.ref 2))))
/-- `cop_bar<adverb>`: toaq.peggy:277-278, toaq.go:101788. -/
def r338 : Expr Act :=
  .act .copRight (.seq (.lab (.ref 95)) (.seq (.lab (.ref 71)) (.lab (.ref 49))))
/-- `forethought_cop_1<adverb, adverb>`: toaq.peggy:282-283, toaq.go:101997. -/
def r339 : Expr Act :=
  .act .foreCoPLeft (.seq (.lab (.ref 49)) (.seq (.lab (.ref 71)) (.lab (.ref 385))))
/-- `afterthought_cop<adverb_4, predicate>`: toaq.peggy:275-276, toaq.go:102206. -/
def r340 : Expr Act :=
  .act .copLeft (.seq (.lab (.ref 53)) (.seq (.lab (.ref 71)) (.lab (.ref 374))))
/-- `forethought_cop<adverb_3, predicate>`: toaq.peggy:280-281, toaq.go:102415. -/
def r341 : Expr Act :=
  .act .foreCoP (.seq (.lab (.ref 69)) (.seq (.lab (.ref 71)) (.lab (.ref 386))))
/-- `LU_phrase<adverb_syllable>`: toaq.peggy:295-296, toaq.go:102624. -/
def r342 : Expr Act :=
  .act .luPhrase (.seq (.lab (.ref 387)) (.seq (.lab (.ref 71)) (.lab (.ref 9))))
/-- `MI_phrase_1<adverb_syllable>`: toaq.peggy:303-304, toaq.go:102833. -/
def r343 : Expr Act :=
  .act .mi (.seq (.lab (.ref 388)) (.seq (.lab (.ref 71)) (.lab (.ref 70))))
/-- `PO_phrase_1<adverb_syllable>`: toaq.peggy:315-316, toaq.go:103042. -/
def r344 : Expr Act :=
  .act .po (.seq (.lab (.ref 389)) (.seq (.lab (.ref 71)) (.lab (.ref 31))))
/-- `MO_phrase_1<adverb_syllable>`: toaq.peggy:325-326, toaq.go:103251. -/
def r345 : Expr Act :=
  .act .mo (.seq (.lab (.ref 390)) (.seq (.lab (.opt (.ref 73))) (.lab (.ref 2))))
/-- `cop_bar<prepositional_phrase>`: toaq.peggy:277-278, toaq.go:103496. -/
def r346 : Expr Act :=
  .act .copRight (.seq (.lab (.ref 95)) (.seq (.lab (.ref 71)) (.lab (.ref 54))))
/-- `forethought_cop_1<prepositional_phrase, prepositional_phrase>`: toaq.peggy:282-283, toaq.go:103705. -/
def r347 : Expr Act :=
  .act .foreCoPLeft (.seq (.lab (.ref 54)) (.seq (.lab (.ref 71)) (.lab (.ref 391))))
/-- `cop_bar<preposition>`: toaq.peggy:277-278, toaq.go:103914. -/
def r348 : Expr Act :=
  .act .copRight (.seq (.lab (.ref 95)) (.seq (.lab (.ref 71)) (.lab (.ref 57))))
/-- `forethought_cop_1<preposition, preposition>`: toaq.peggy:282-283, toaq.go:104123. -/
def r349 : Expr Act :=
  .act .foreCoPLeft (.seq (.lab (.ref 57)) (.seq (.lab (.ref 71)) (.lab (.ref 392))))
/-- `afterthought_cop<preposition_4, predicate>`: toaq.peggy:275-276, toaq.go:104332. -/
def r350 : Expr Act :=
  .act .copLeft (.seq (.lab (.ref 61)) (.seq (.lab (.ref 71)) (.lab (.ref 374))))
/-- `forethought_cop<preposition, predicate>`: toaq.peggy:280-281, toaq.go:104541. -/
def r351 : Expr Act :=
  .act .foreCoP (.seq (.lab (.ref 69)) (.seq (.lab (.ref 71)) (.lab (.ref 393))))
/-- `LU_phrase<preposition_syllable>`: toaq.peggy:295-296, toaq.go:104750. -/
def r352 : Expr Act :=
  .act .luPhrase (.seq (.lab (.ref 394)) (.seq (.lab (.ref 71)) (.lab (.ref 9))))
/-- `MI_phrase_1<preposition_syllable>`: toaq.peggy:303-304, toaq.go:104959. -/
def r353 : Expr Act :=
  .act .mi (.seq (.lab (.ref 395)) (.seq (.lab (.ref 71)) (.lab (.ref 70))))
/-- `PO_phrase_1<preposition_syllable>`: toaq.peggy:315-316, toaq.go:105168. -/
def r354 : Expr Act :=
  .act .po (.seq (.lab (.ref 396)) (.seq (.lab (.ref 71)) (.lab (.ref 31))))
/-- `MO_phrase_1<preposition_syllable>`: toaq.peggy:325-326, toaq.go:105377. -/
def r355 : Expr Act :=
  .act .mo (.seq (.lab (.ref 397)) (.seq (.lab (.opt (.ref 73))) (.lab (.ref 2))))
/-- `LU_word<content_syllable>`: toaq.peggy:297-298, toaq.go:105622. -/
def r356 : Expr Act :=
  .act .word (.seq (.and (.ref 114)) (.lab (.ref 129)))
/-- `afterthought_cop<content_predicate_2, predicate>`: toaq.peggy:275-276, toaq.go:105823. -/
def r357 : Expr Act :=
  .act .copLeft (.seq (.lab (.ref 68)) (.seq (.lab (.ref 71)) (.lab (.ref 374))))
/-- `forethought_cop<content_predicate_2, predicate>`: toaq.peggy:280-281, toaq.go:106032. -/
def r358 : Expr Act :=
  .act .foreCoP (.seq (.lab (.ref 69)) (.seq (.lab (.ref 71)) (.lab (.ref 398))))
/-- `MI_phrase_1<content_syllable>`: toaq.peggy:303-304, toaq.go:106241. -/
def r359 : Expr Act :=
  .act .mi (.seq (.lab (.ref 399)) (.seq (.lab (.ref 71)) (.lab (.ref 70))))
/-- `PO_phrase_1<content_syllable>`: toaq.peggy:315-316, toaq.go:106450. -/
def r360 : Expr Act :=
  .act .po (.seq (.lab (.ref 400)) (.seq (.lab (.ref 71)) (.lab (.ref 31))))
/-- `MO_phrase_1<content_syllable>`: toaq.peggy:325-326, toaq.go:106659. -/
def r361 : Expr Act :=
  .act .mo (.seq (.lab (.ref 401)) (.seq (.lab (.opt (.ref 73))) (.lab (.ref 2))))
/-- `forethought_cop_bar<sentence>`: toaq.peggy:284-285, toaq.go:106904. -/
def r362 : Expr Act :=
  .act .foreCoPRight (.seq (.lab (.ref 100)) (.seq (.lab (.ref 71)) (.lab (.ref 4))))
/-- `forethought_cop_bar<statement>`: toaq.peggy:284-285, toaq.go:107113. -/
def r363 : Expr Act :=
  .act .foreCoPRight (.seq (.lab (.ref 100)) (.seq (.lab (.ref 71)) (.lab (.ref 9))))
/-- `forethought_cop_1<predicate, predicate>`: toaq.peggy:282-283, toaq.go:107322. -/
def r364 : Expr Act :=
  .act .foreCoPLeft (.seq (.lab (.ref 16)) (.seq (.lab (.ref 71)) (.lab (.ref 402))))
/-- `LU_word<verb_syllable>`: toaq.peggy:297-298, toaq.go:107531. -/
def r365 : Expr Act :=
  .act .word (.seq (.and (.ref 114)) (.lab (.ref 128)))
/-- `MI_word<verb_syllable>`: toaq.peggy:305-306, toaq.go:107732. -/
def r366 : Expr Act :=
  .act .word (.seq (.and (.ref 115)) (.lab (.ref 128)))
/-- `PO_word<verb_syllable>`: toaq.peggy:317-318, toaq.go:107933. -/
def r367 : Expr Act :=
  .act .word (.seq (.and (.ref 118)) (.lab (.ref 128)))
/-- `MO_word<verb_syllable>`: toaq.peggy:327-328, toaq.go:108134. -/
def r368 : Expr Act :=
  .act .word (.seq (.and (.ref 116)) (.lab (.ref 128)))
/-- `forethought_cop_bar<terms_V>`: toaq.peggy:284-285, toaq.go:108335. -/
def r369 : Expr Act :=
  .act .foreCoPRight (.seq (.lab (.ref 100)) (.seq (.lab (.ref 71)) (.lab (.ref 30))))
/-- `forethought_cop_bar<terms_IV>`: toaq.peggy:284-285, toaq.go:108544. -/
def r370 : Expr Act :=
  .act .foreCoPRight (.seq (.lab (.ref 100)) (.seq (.lab (.ref 71)) (.lab (.ref 29))))
/-- `forethought_cop_bar<terms_III>`: toaq.peggy:284-285, toaq.go:108753. -/
def r371 : Expr Act :=
  .act .foreCoPRight (.seq (.lab (.ref 100)) (.seq (.lab (.ref 71)) (.lab (.ref 28))))
/-- `forethought_cop_bar<terms_II>`: toaq.peggy:284-285, toaq.go:108962. -/
def r372 : Expr Act :=
  .act .foreCoPRight (.seq (.lab (.ref 100)) (.seq (.lab (.ref 71)) (.lab (.ref 27))))
/-- `forethought_cop_bar<argument>`: toaq.peggy:284-285, toaq.go:109171. -/
def r373 : Expr Act :=
  .act .foreCoPRight (.seq (.lab (.ref 100)) (.seq (.lab (.ref 71)) (.lab (.ref 31))))
/-- `cop_bar<predicate>`: toaq.peggy:277-278, toaq.go:109380. -/
def r374 : Expr Act :=
  .act .copRight (.seq (.lab (.ref 95)) (.seq (.lab (.ref 71)) (.lab (.ref 16))))
/-- `forethought_cop_1<arg_5, predicate>`: toaq.peggy:282-283, toaq.go:109589. -/
def r375 : Expr Act :=
  .act .foreCoPLeft (.seq (.lab (.ref 38)) (.seq (.lab (.ref 71)) (.lab (.ref 402))))
/-- `LU_word<arg_syllable>`: toaq.peggy:297-298, toaq.go:109798. -/
def r376 : Expr Act :=
  .act .word (.seq (.and (.ref 114)) (.lab (.ref 126)))
/-- `MI_word<arg_syllable>`: toaq.peggy:305-306, toaq.go:109999. -/
def r377 : Expr Act :=
  .act .word (.seq (.and (.ref 115)) (.lab (.ref 126)))
/-- `PO_word<arg_syllable>`: toaq.peggy:317-318, toaq.go:110200. -/
def r378 : Expr Act :=
  .act .word (.seq (.and (.ref 118)) (.lab (.ref 126)))
/-- `MO_word<arg_syllable>`: toaq.peggy:327-328, toaq.go:110401. -/
def r379 : Expr Act :=
  .act .word (.seq (.and (.ref 116)) (.lab (.ref 126)))
/-- `forethought_cop_bar<relative_clause>`: toaq.peggy:284-285, toaq.go:110602. -/
def r380 : Expr Act :=
  .act .foreCoPRight (.seq (.lab (.ref 100)) (.seq (.lab (.ref 71)) (.lab (.ref 41))))
/-- `forethought_cop_1<relative_predicate, predicate>`: toaq.peggy:282-283, toaq.go:110811. -/
def r381 : Expr Act :=
  .act .foreCoPLeft (.seq (.lab (.ref 46)) (.seq (.lab (.ref 71)) (.lab (.ref 402))))
/-- `MI_word<relative_syllable>`: toaq.peggy:305-306, toaq.go:111020. -/
def r382 : Expr Act :=
  .act .word (.seq (.and (.ref 115)) (.lab (.ref 127)))
/-- `PO_word<relative_syllable>`: toaq.peggy:317-318, toaq.go:111221. -/
def r383 : Expr Act :=
  .act .word (.seq (.and (.ref 118)) (.lab (.ref 127)))
/-- `MO_word<relative_syllable>`: toaq.peggy:327-328, toaq.go:111422. -/
def r384 : Expr Act :=
  .act .word (.seq (.and (.ref 116)) (.lab (.ref 127)))
/-- `forethought_cop_bar<adverb>`: toaq.peggy:284-285, toaq.go:111623. -/
def r385 : Expr Act :=
  .act .foreCoPRight (.seq (.lab (.ref 100)) (.seq (.lab (.ref 71)) (.lab (.ref 49))))
/-- `forethought_cop_1<adverb_3, predicate>`: toaq.peggy:282-283, toaq.go:111832. -/
def r386 : Expr Act :=
  .act .foreCoPLeft (.seq (.lab (.ref 52)) (.seq (.lab (.ref 71)) (.lab (.ref 402))))
/-- `LU_word<adverb_syllable>`: toaq.peggy:297-298, toaq.go:112041. -/
def r387 : Expr Act :=
  .act .word (.seq (.and (.ref 114)) (.lab (.ref 131)))
/-- `MI_word<adverb_syllable>`: toaq.peggy:305-306, toaq.go:112242. -/
def r388 : Expr Act :=
  .act .word (.seq (.and (.ref 115)) (.lab (.ref 131)))
/-- `PO_word<adverb_syllable>`: toaq.peggy:317-318, toaq.go:112443. -/
def r389 : Expr Act :=
  .act .word (.seq (.and (.ref 118)) (.lab (.ref 131)))
/-- `MO_word<adverb_syllable>`: toaq.peggy:327-328, toaq.go:112644. -/
def r390 : Expr Act :=
  .act .word (.seq (.and (.ref 116)) (.lab (.ref 131)))
/-- `forethought_cop_bar<prepositional_phrase>`: toaq.peggy:284-285, toaq.go:112845. -/
def r391 : Expr Act :=
  .act .foreCoPRight (.seq (.lab (.ref 100)) (.seq (.lab (.ref 71)) (.lab (.ref 54))))
/-- `forethought_cop_bar<preposition>`: toaq.peggy:284-285, toaq.go:113054. -/
def r392 : Expr Act :=
  .act .foreCoPRight (.seq (.lab (.ref 100)) (.seq (.lab (.ref 71)) (.lab (.ref 57))))
/-- `forethought_cop_1<preposition, predicate>`: toaq.peggy:282-283, toaq.go:113263. -/
def r393 : Expr Act :=
  .act .foreCoPLeft (.seq (.lab (.ref 57)) (.seq (.lab (.ref 71)) (.lab (.ref 402))))
/-- `LU_word<preposition_syllable>`: toaq.peggy:297-298, toaq.go:113472. -/
def r394 : Expr Act :=
  .act .word (.seq (.and (.ref 114)) (.lab (.ref 130)))
/-- `MI_word<preposition_syllable>`: toaq.peggy:305-306, toaq.go:113673. -/
def r395 : Expr Act :=
  .act .word (.seq (.and (.ref 115)) (.lab (.ref 130)))
/-- `PO_word<preposition_syllable>`: toaq.peggy:317-318, toaq.go:113874. -/
def r396 : Expr Act :=
  .act .word (.seq (.and (.ref 118)) (.lab (.ref 130)))
/-- `MO_word<preposition_syllable>`: toaq.peggy:327-328, toaq.go:114075. -/
def r397 : Expr Act :=
  .act .word (.seq (.and (.ref 116)) (.lab (.ref 130)))
/-- `forethought_cop_1<content_predicate_2, predicate>`: toaq.peggy:282-283, toaq.go:114276. -/
def r398 : Expr Act :=
  .act .foreCoPLeft (.seq (.lab (.ref 68)) (.seq (.lab (.ref 71)) (.lab (.ref 402))))
/-- `MI_word<content_syllable>`: toaq.peggy:305-306, toaq.go:114485. -/
def r399 : Expr Act :=
  .act .word (.seq (.and (.ref 115)) (.lab (.ref 129)))
/-- `PO_word<content_syllable>`: toaq.peggy:317-318, toaq.go:114686. -/
def r400 : Expr Act :=
  .act .word (.seq (.and (.ref 118)) (.lab (.ref 129)))
/-- `MO_word<content_syllable>`: toaq.peggy:327-328, toaq.go:114887. -/
def r401 : Expr Act :=
  .act .word (.seq (.and (.ref 116)) (.lab (.ref 129)))
/-- `forethought_cop_bar<predicate>`: toaq.peggy:284-285, toaq.go:115088. -/
def r402 : Expr Act :=
  .act .foreCoPRight (.seq (.lab (.ref 100)) (.seq (.lab (.ref 71)) (.lab (.ref 16))))
/-- The rules. -/
def bodies : Tr (Expr Act) :=
  (.br 201 (.br 100 (.br 50 (.br 25 (.br 12 (.br 6 (.br 3 (.br 1 (.leaf r0) (.br 2 (.leaf r1) (.leaf r2))) (.br 4 (.leaf r3) (.br 5 (.leaf r4) (.leaf r5)))) (.br 9 (.br 7 (.leaf r6) (.br 8 (.leaf r7) (.leaf r8))) (.br 10 (.leaf r9) (.br 11 (.leaf r10) (.leaf r11))))) (.br 18 (.br 15 (.br 13 (.leaf r12) (.br 14 (.leaf r13) (.leaf r14))) (.br 16 (.leaf r15) (.br 17 (.leaf r16) (.leaf r17)))) (.br 21 (.br 19 (.leaf r18) (.br 20 (.leaf r19) (.leaf r20))) (.br 23 (.br 22 (.leaf r21) (.leaf r22)) (.br 24 (.leaf r23) (.leaf r24)))))) (.br 37 (.br 31 (.br 28 (.br 26 (.leaf r25) (.br 27 (.leaf r26) (.leaf r27))) (.br 29 (.leaf r28) (.br 30 (.leaf r29) (.leaf r30)))) (.br 34 (.br 32 (.leaf r31) (.br 33 (.leaf r32) (.leaf r33))) (.br 35 (.leaf r34) (.br 36 (.leaf r35) (.leaf r36))))) (.br 43 (.br 40 (.br 38 (.leaf r37) (.br 39 (.leaf r38) (.leaf r39))) (.br 41 (.leaf r40) (.br 42 (.leaf r41) (.leaf r42)))) (.br 46 (.br 44 (.leaf r43) (.br 45 (.leaf r44) (.leaf r45))) (.br 48 (.br 47 (.leaf r46) (.leaf r47)) (.br 49 (.leaf r48) (.leaf r49))))))) (.br 75 (.br 62 (.br 56 (.br 53 (.br 51 (.leaf r50) (.br 52 (.leaf r51) (.leaf r52))) (.br 54 (.leaf r53) (.br 55 (.leaf r54) (.leaf r55)))) (.br 59 (.br 57 (.leaf r56) (.br 58 (.leaf r57) (.leaf r58))) (.br 60 (.leaf r59) (.br 61 (.leaf r60) (.leaf r61))))) (.br 68 (.br 65 (.br 63 (.leaf r62) (.br 64 (.leaf r63) (.leaf r64))) (.br 66 (.leaf r65) (.br 67 (.leaf r66) (.leaf r67)))) (.br 71 (.br 69 (.leaf r68) (.br 70 (.leaf r69) (.leaf r70))) (.br 73 (.br 72 (.leaf r71) (.leaf r72)) (.br 74 (.leaf r73) (.leaf r74)))))) (.br 87 (.br 81 (.br 78 (.br 76 (.leaf r75) (.br 77 (.leaf r76) (.leaf r77))) (.br 79 (.leaf r78) (.br 80 (.leaf r79) (.leaf r80)))) (.br 84 (.br 82 (.leaf r81) (.br 83 (.leaf r82) (.leaf r83))) (.br 85 (.leaf r84) (.br 86 (.leaf r85) (.leaf r86))))) (.br 93 (.br 90 (.br 88 (.leaf r87) (.br 89 (.leaf r88) (.leaf r89))) (.br 91 (.leaf r90) (.br 92 (.leaf r91) (.leaf r92)))) (.br 96 (.br 94 (.leaf r93) (.br 95 (.leaf r94) (.leaf r95))) (.br 98 (.br 97 (.leaf r96) (.leaf r97)) (.br 99 (.leaf r98) (.leaf r99)))))))) (.br 150 (.br 125 (.br 112 (.br 106 (.br 103 (.br 101 (.leaf r100) (.br 102 (.leaf r101) (.leaf r102))) (.br 104 (.leaf r103) (.br 105 (.leaf r104) (.leaf r105)))) (.br 109 (.br 107 (.leaf r106) (.br 108 (.leaf r107) (.leaf r108))) (.br 110 (.leaf r109) (.br 111 (.leaf r110) (.leaf r111))))) (.br 118 (.br 115 (.br 113 (.leaf r112) (.br 114 (.leaf r113) (.leaf r114))) (.br 116 (.leaf r115) (.br 117 (.leaf r116) (.leaf r117)))) (.br 121 (.br 119 (.leaf r118) (.br 120 (.leaf r119) (.leaf r120))) (.br 123 (.br 122 (.leaf r121) (.leaf r122)) (.br 124 (.leaf r123) (.leaf r124)))))) (.br 137 (.br 131 (.br 128 (.br 126 (.leaf r125) (.br 127 (.leaf r126) (.leaf r127))) (.br 129 (.leaf r128) (.br 130 (.leaf r129) (.leaf r130)))) (.br 134 (.br 132 (.leaf r131) (.br 133 (.leaf r132) (.leaf r133))) (.br 135 (.leaf r134) (.br 136 (.leaf r135) (.leaf r136))))) (.br 143 (.br 140 (.br 138 (.leaf r137) (.br 139 (.leaf r138) (.leaf r139))) (.br 141 (.leaf r140) (.br 142 (.leaf r141) (.leaf r142)))) (.br 146 (.br 144 (.leaf r143) (.br 145 (.leaf r144) (.leaf r145))) (.br 148 (.br 147 (.leaf r146) (.leaf r147)) (.br 149 (.leaf r148) (.leaf r149))))))) (.br 175 (.br 162 (.br 156 (.br 153 (.br 151 (.leaf r150) (.br 152 (.leaf r151) (.leaf r152))) (.br 154 (.leaf r153) (.br 155 (.leaf r154) (.leaf r155)))) (.br 159 (.br 157 (.leaf r156) (.br 158 (.leaf r157) (.leaf r158))) (.br 160 (.leaf r159) (.br 161 (.leaf r160) (.leaf r161))))) (.br 168 (.br 165 (.br 163 (.leaf r162) (.br 164 (.leaf r163) (.leaf r164))) (.br 166 (.leaf r165) (.br 167 (.leaf r166) (.leaf r167)))) (.br 171 (.br 169 (.leaf r168) (.br 170 (.leaf r169) (.leaf r170))) (.br 173 (.br 172 (.leaf r171) (.leaf r172)) (.br 174 (.leaf r173) (.leaf r174)))))) (.br 188 (.br 181 (.br 178 (.br 176 (.leaf r175) (.br 177 (.leaf r176) (.leaf r177))) (.br 179 (.leaf r178) (.br 180 (.leaf r179) (.leaf r180)))) (.br 184 (.br 182 (.leaf r181) (.br 183 (.leaf r182) (.leaf r183))) (.br 186 (.br 185 (.leaf r184) (.leaf r185)) (.br 187 (.leaf r186) (.leaf r187))))) (.br 194 (.br 191 (.br 189 (.leaf r188) (.br 190 (.leaf r189) (.leaf r190))) (.br 192 (.leaf r191) (.br 193 (.leaf r192) (.leaf r193)))) (.br 197 (.br 195 (.leaf r194) (.br 196 (.leaf r195) (.leaf r196))) (.br 199 (.br 198 (.leaf r197) (.leaf r198)) (.br 200 (.leaf r199) (.leaf r200))))))))) (.br 302 (.br 251 (.br 226 (.br 213 (.br 207 (.br 204 (.br 202 (.leaf r201) (.br 203 (.leaf r202) (.leaf r203))) (.br 205 (.leaf r204) (.br 206 (.leaf r205) (.leaf r206)))) (.br 210 (.br 208 (.leaf r207) (.br 209 (.leaf r208) (.leaf r209))) (.br 211 (.leaf r210) (.br 212 (.leaf r211) (.leaf r212))))) (.br 219 (.br 216 (.br 214 (.leaf r213) (.br 215 (.leaf r214) (.leaf r215))) (.br 217 (.leaf r216) (.br 218 (.leaf r217) (.leaf r218)))) (.br 222 (.br 220 (.leaf r219) (.br 221 (.leaf r220) (.leaf r221))) (.br 224 (.br 223 (.leaf r222) (.leaf r223)) (.br 225 (.leaf r224) (.leaf r225)))))) (.br 238 (.br 232 (.br 229 (.br 227 (.leaf r226) (.br 228 (.leaf r227) (.leaf r228))) (.br 230 (.leaf r229) (.br 231 (.leaf r230) (.leaf r231)))) (.br 235 (.br 233 (.leaf r232) (.br 234 (.leaf r233) (.leaf r234))) (.br 236 (.leaf r235) (.br 237 (.leaf r236) (.leaf r237))))) (.br 244 (.br 241 (.br 239 (.leaf r238) (.br 240 (.leaf r239) (.leaf r240))) (.br 242 (.leaf r241) (.br 243 (.leaf r242) (.leaf r243)))) (.br 247 (.br 245 (.leaf r244) (.br 246 (.leaf r245) (.leaf r246))) (.br 249 (.br 248 (.leaf r247) (.leaf r248)) (.br 250 (.leaf r249) (.leaf r250))))))) (.br 276 (.br 263 (.br 257 (.br 254 (.br 252 (.leaf r251) (.br 253 (.leaf r252) (.leaf r253))) (.br 255 (.leaf r254) (.br 256 (.leaf r255) (.leaf r256)))) (.br 260 (.br 258 (.leaf r257) (.br 259 (.leaf r258) (.leaf r259))) (.br 261 (.leaf r260) (.br 262 (.leaf r261) (.leaf r262))))) (.br 269 (.br 266 (.br 264 (.leaf r263) (.br 265 (.leaf r264) (.leaf r265))) (.br 267 (.leaf r266) (.br 268 (.leaf r267) (.leaf r268)))) (.br 272 (.br 270 (.leaf r269) (.br 271 (.leaf r270) (.leaf r271))) (.br 274 (.br 273 (.leaf r272) (.leaf r273)) (.br 275 (.leaf r274) (.leaf r275)))))) (.br 289 (.br 282 (.br 279 (.br 277 (.leaf r276) (.br 278 (.leaf r277) (.leaf r278))) (.br 280 (.leaf r279) (.br 281 (.leaf r280) (.leaf r281)))) (.br 285 (.br 283 (.leaf r282) (.br 284 (.leaf r283) (.leaf r284))) (.br 287 (.br 286 (.leaf r285) (.leaf r286)) (.br 288 (.leaf r287) (.leaf r288))))) (.br 295 (.br 292 (.br 290 (.leaf r289) (.br 291 (.leaf r290) (.leaf r291))) (.br 293 (.leaf r292) (.br 294 (.leaf r293) (.leaf r294)))) (.br 298 (.br 296 (.leaf r295) (.br 297 (.leaf r296) (.leaf r297))) (.br 300 (.br 299 (.leaf r298) (.leaf r299)) (.br 301 (.leaf r300) (.leaf r301)))))))) (.br 352 (.br 327 (.br 314 (.br 308 (.br 305 (.br 303 (.leaf r302) (.br 304 (.leaf r303) (.leaf r304))) (.br 306 (.leaf r305) (.br 307 (.leaf r306) (.leaf r307)))) (.br 311 (.br 309 (.leaf r308) (.br 310 (.leaf r309) (.leaf r310))) (.br 312 (.leaf r311) (.br 313 (.leaf r312) (.leaf r313))))) (.br 320 (.br 317 (.br 315 (.leaf r314) (.br 316 (.leaf r315) (.leaf r316))) (.br 318 (.leaf r317) (.br 319 (.leaf r318) (.leaf r319)))) (.br 323 (.br 321 (.leaf r320) (.br 322 (.leaf r321) (.leaf r322))) (.br 325 (.br 324 (.leaf r323) (.leaf r324)) (.br 326 (.leaf r325) (.leaf r326)))))) (.br 339 (.br 333 (.br 330 (.br 328 (.leaf r327) (.br 329 (.leaf r328) (.leaf r329))) (.br 331 (.leaf r330) (.br 332 (.leaf r331) (.leaf r332)))) (.br 336 (.br 334 (.leaf r333) (.br 335 (.leaf r334) (.leaf r335))) (.br 337 (.leaf r336) (.br 338 (.leaf r337) (.leaf r338))))) (.br 345 (.br 342 (.br 340 (.leaf r339) (.br 341 (.leaf r340) (.leaf r341))) (.br 343 (.leaf r342) (.br 344 (.leaf r343) (.leaf r344)))) (.br 348 (.br 346 (.leaf r345) (.br 347 (.leaf r346) (.leaf r347))) (.br 350 (.br 349 (.leaf r348) (.leaf r349)) (.br 351 (.leaf r350) (.leaf r351))))))) (.br 377 (.br 364 (.br 358 (.br 355 (.br 353 (.leaf r352) (.br 354 (.leaf r353) (.leaf r354))) (.br 356 (.leaf r355) (.br 357 (.leaf r356) (.leaf r357)))) (.br 361 (.br 359 (.leaf r358) (.br 360 (.leaf r359) (.leaf r360))) (.br 362 (.leaf r361) (.br 363 (.leaf r362) (.leaf r363))))) (.br 370 (.br 367 (.br 365 (.leaf r364) (.br 366 (.leaf r365) (.leaf r366))) (.br 368 (.leaf r367) (.br 369 (.leaf r368) (.leaf r369)))) (.br 373 (.br 371 (.leaf r370) (.br 372 (.leaf r371) (.leaf r372))) (.br 375 (.br 374 (.leaf r373) (.leaf r374)) (.br 376 (.leaf r375) (.leaf r376)))))) (.br 390 (.br 383 (.br 380 (.br 378 (.leaf r377) (.br 379 (.leaf r378) (.leaf r379))) (.br 381 (.leaf r380) (.br 382 (.leaf r381) (.leaf r382)))) (.br 386 (.br 384 (.leaf r383) (.br 385 (.leaf r384) (.leaf r385))) (.br 388 (.br 387 (.leaf r386) (.leaf r387)) (.br 389 (.leaf r388) (.leaf r389))))) (.br 396 (.br 393 (.br 391 (.leaf r390) (.br 392 (.leaf r391) (.leaf r392))) (.br 394 (.leaf r393) (.br 395 (.leaf r394) (.leaf r395)))) (.br 399 (.br 397 (.leaf r396) (.br 398 (.leaf r397) (.leaf r398))) (.br 401 (.br 400 (.leaf r399) (.leaf r400)) (.br 402 (.leaf r401) (.leaf r402))))))))))
/-- The rules that may succeed without reading. -/
def nulls : Tr Bool :=
  (.br 201 (.br 100 (.br 50 (.br 25 (.br 12 (.br 6 (.br 3 (.br 1 (.leaf true) (.br 2 (.leaf true) (.leaf false))) (.br 4 (.leaf false) (.br 5 (.leaf false) (.leaf false)))) (.br 9 (.br 7 (.leaf false) (.br 8 (.leaf false) (.leaf false))) (.br 10 (.leaf false) (.br 11 (.leaf false) (.leaf false))))) (.br 18 (.br 15 (.br 13 (.leaf false) (.br 14 (.leaf false) (.leaf false))) (.br 16 (.leaf false) (.br 17 (.leaf false) (.leaf false)))) (.br 21 (.br 19 (.leaf false) (.br 20 (.leaf false) (.leaf false))) (.br 23 (.br 22 (.leaf false) (.leaf false)) (.br 24 (.leaf false) (.leaf false)))))) (.br 37 (.br 31 (.br 28 (.br 26 (.leaf false) (.br 27 (.leaf false) (.leaf false))) (.br 29 (.leaf false) (.br 30 (.leaf false) (.leaf false)))) (.br 34 (.br 32 (.leaf false) (.br 33 (.leaf false) (.leaf false))) (.br 35 (.leaf false) (.br 36 (.leaf false) (.leaf false))))) (.br 43 (.br 40 (.br 38 (.leaf false) (.br 39 (.leaf false) (.leaf false))) (.br 41 (.leaf false) (.br 42 (.leaf false) (.leaf false)))) (.br 46 (.br 44 (.leaf false) (.br 45 (.leaf false) (.leaf false))) (.br 48 (.br 47 (.leaf false) (.leaf false)) (.br 49 (.leaf false) (.leaf false))))))) (.br 75 (.br 62 (.br 56 (.br 53 (.br 51 (.leaf false) (.br 52 (.leaf false) (.leaf false))) (.br 54 (.leaf false) (.br 55 (.leaf false) (.leaf false)))) (.br 59 (.br 57 (.leaf false) (.br 58 (.leaf false) (.leaf false))) (.br 60 (.leaf false) (.br 61 (.leaf false) (.leaf false))))) (.br 68 (.br 65 (.br 63 (.leaf false) (.br 64 (.leaf false) (.leaf false))) (.br 66 (.leaf false) (.br 67 (.leaf false) (.leaf false)))) (.br 71 (.br 69 (.leaf false) (.br 70 (.leaf false) (.leaf false))) (.br 73 (.br 72 (.leaf true) (.leaf false)) (.br 74 (.leaf false) (.leaf false)))))) (.br 87 (.br 81 (.br 78 (.br 76 (.leaf false) (.br 77 (.leaf false) (.leaf false))) (.br 79 (.leaf false) (.br 80 (.leaf false) (.leaf false)))) (.br 84 (.br 82 (.leaf false) (.br 83 (.leaf false) (.leaf false))) (.br 85 (.leaf false) (.br 86 (.leaf false) (.leaf false))))) (.br 93 (.br 90 (.br 88 (.leaf false) (.br 89 (.leaf false) (.leaf false))) (.br 91 (.leaf false) (.br 92 (.leaf false) (.leaf false)))) (.br 96 (.br 94 (.leaf false) (.br 95 (.leaf false) (.leaf false))) (.br 98 (.br 97 (.leaf false) (.leaf false)) (.br 99 (.leaf false) (.leaf false)))))))) (.br 150 (.br 125 (.br 112 (.br 106 (.br 103 (.br 101 (.leaf false) (.br 102 (.leaf false) (.leaf false))) (.br 104 (.leaf false) (.br 105 (.leaf false) (.leaf false)))) (.br 109 (.br 107 (.leaf false) (.br 108 (.leaf false) (.leaf false))) (.br 110 (.leaf false) (.br 111 (.leaf false) (.leaf false))))) (.br 118 (.br 115 (.br 113 (.leaf false) (.br 114 (.leaf false) (.leaf false))) (.br 116 (.leaf false) (.br 117 (.leaf false) (.leaf false)))) (.br 121 (.br 119 (.leaf false) (.br 120 (.leaf false) (.leaf false))) (.br 123 (.br 122 (.leaf false) (.leaf false)) (.br 124 (.leaf false) (.leaf false)))))) (.br 137 (.br 131 (.br 128 (.br 126 (.leaf false) (.br 127 (.leaf false) (.leaf false))) (.br 129 (.leaf false) (.br 130 (.leaf false) (.leaf false)))) (.br 134 (.br 132 (.leaf false) (.br 133 (.leaf true) (.leaf false))) (.br 135 (.leaf false) (.br 136 (.leaf false) (.leaf false))))) (.br 143 (.br 140 (.br 138 (.leaf false) (.br 139 (.leaf false) (.leaf false))) (.br 141 (.leaf false) (.br 142 (.leaf false) (.leaf false)))) (.br 146 (.br 144 (.leaf false) (.br 145 (.leaf false) (.leaf false))) (.br 148 (.br 147 (.leaf false) (.leaf false)) (.br 149 (.leaf false) (.leaf false))))))) (.br 175 (.br 162 (.br 156 (.br 153 (.br 151 (.leaf false) (.br 152 (.leaf false) (.leaf false))) (.br 154 (.leaf false) (.br 155 (.leaf false) (.leaf false)))) (.br 159 (.br 157 (.leaf false) (.br 158 (.leaf false) (.leaf false))) (.br 160 (.leaf false) (.br 161 (.leaf false) (.leaf false))))) (.br 168 (.br 165 (.br 163 (.leaf false) (.br 164 (.leaf false) (.leaf false))) (.br 166 (.leaf false) (.br 167 (.leaf false) (.leaf false)))) (.br 171 (.br 169 (.leaf false) (.br 170 (.leaf false) (.leaf false))) (.br 173 (.br 172 (.leaf false) (.leaf false)) (.br 174 (.leaf false) (.leaf false)))))) (.br 188 (.br 181 (.br 178 (.br 176 (.leaf false) (.br 177 (.leaf false) (.leaf false))) (.br 179 (.leaf false) (.br 180 (.leaf false) (.leaf false)))) (.br 184 (.br 182 (.leaf false) (.br 183 (.leaf false) (.leaf false))) (.br 186 (.br 185 (.leaf false) (.leaf false)) (.br 187 (.leaf false) (.leaf false))))) (.br 194 (.br 191 (.br 189 (.leaf false) (.br 190 (.leaf false) (.leaf false))) (.br 192 (.leaf false) (.br 193 (.leaf false) (.leaf false)))) (.br 197 (.br 195 (.leaf false) (.br 196 (.leaf false) (.leaf false))) (.br 199 (.br 198 (.leaf false) (.leaf false)) (.br 200 (.leaf false) (.leaf false))))))))) (.br 302 (.br 251 (.br 226 (.br 213 (.br 207 (.br 204 (.br 202 (.leaf false) (.br 203 (.leaf false) (.leaf false))) (.br 205 (.leaf false) (.br 206 (.leaf false) (.leaf false)))) (.br 210 (.br 208 (.leaf false) (.br 209 (.leaf false) (.leaf false))) (.br 211 (.leaf false) (.br 212 (.leaf false) (.leaf false))))) (.br 219 (.br 216 (.br 214 (.leaf false) (.br 215 (.leaf false) (.leaf false))) (.br 217 (.leaf false) (.br 218 (.leaf false) (.leaf false)))) (.br 222 (.br 220 (.leaf false) (.br 221 (.leaf false) (.leaf false))) (.br 224 (.br 223 (.leaf false) (.leaf false)) (.br 225 (.leaf true) (.leaf false)))))) (.br 238 (.br 232 (.br 229 (.br 227 (.leaf false) (.br 228 (.leaf false) (.leaf false))) (.br 230 (.leaf false) (.br 231 (.leaf false) (.leaf false)))) (.br 235 (.br 233 (.leaf false) (.br 234 (.leaf false) (.leaf false))) (.br 236 (.leaf false) (.br 237 (.leaf false) (.leaf false))))) (.br 244 (.br 241 (.br 239 (.leaf false) (.br 240 (.leaf false) (.leaf false))) (.br 242 (.leaf false) (.br 243 (.leaf false) (.leaf false)))) (.br 247 (.br 245 (.leaf false) (.br 246 (.leaf false) (.leaf false))) (.br 249 (.br 248 (.leaf false) (.leaf false)) (.br 250 (.leaf false) (.leaf false))))))) (.br 276 (.br 263 (.br 257 (.br 254 (.br 252 (.leaf false) (.br 253 (.leaf false) (.leaf false))) (.br 255 (.leaf false) (.br 256 (.leaf false) (.leaf false)))) (.br 260 (.br 258 (.leaf false) (.br 259 (.leaf false) (.leaf false))) (.br 261 (.leaf false) (.br 262 (.leaf false) (.leaf false))))) (.br 269 (.br 266 (.br 264 (.leaf false) (.br 265 (.leaf false) (.leaf false))) (.br 267 (.leaf false) (.br 268 (.leaf false) (.leaf false)))) (.br 272 (.br 270 (.leaf false) (.br 271 (.leaf false) (.leaf false))) (.br 274 (.br 273 (.leaf false) (.leaf false)) (.br 275 (.leaf false) (.leaf false)))))) (.br 289 (.br 282 (.br 279 (.br 277 (.leaf false) (.br 278 (.leaf false) (.leaf false))) (.br 280 (.leaf false) (.br 281 (.leaf false) (.leaf false)))) (.br 285 (.br 283 (.leaf false) (.br 284 (.leaf false) (.leaf false))) (.br 287 (.br 286 (.leaf false) (.leaf false)) (.br 288 (.leaf false) (.leaf false))))) (.br 295 (.br 292 (.br 290 (.leaf false) (.br 291 (.leaf false) (.leaf false))) (.br 293 (.leaf false) (.br 294 (.leaf false) (.leaf false)))) (.br 298 (.br 296 (.leaf false) (.br 297 (.leaf false) (.leaf false))) (.br 300 (.br 299 (.leaf false) (.leaf false)) (.br 301 (.leaf false) (.leaf false)))))))) (.br 352 (.br 327 (.br 314 (.br 308 (.br 305 (.br 303 (.leaf false) (.br 304 (.leaf false) (.leaf false))) (.br 306 (.leaf false) (.br 307 (.leaf false) (.leaf false)))) (.br 311 (.br 309 (.leaf false) (.br 310 (.leaf false) (.leaf false))) (.br 312 (.leaf false) (.br 313 (.leaf false) (.leaf false))))) (.br 320 (.br 317 (.br 315 (.leaf false) (.br 316 (.leaf false) (.leaf false))) (.br 318 (.leaf false) (.br 319 (.leaf false) (.leaf false)))) (.br 323 (.br 321 (.leaf false) (.br 322 (.leaf false) (.leaf false))) (.br 325 (.br 324 (.leaf false) (.leaf false)) (.br 326 (.leaf false) (.leaf false)))))) (.br 339 (.br 333 (.br 330 (.br 328 (.leaf false) (.br 329 (.leaf false) (.leaf false))) (.br 331 (.leaf false) (.br 332 (.leaf false) (.leaf false)))) (.br 336 (.br 334 (.leaf false) (.br 335 (.leaf false) (.leaf false))) (.br 337 (.leaf false) (.br 338 (.leaf false) (.leaf false))))) (.br 345 (.br 342 (.br 340 (.leaf false) (.br 341 (.leaf false) (.leaf false))) (.br 343 (.leaf false) (.br 344 (.leaf false) (.leaf false)))) (.br 348 (.br 346 (.leaf false) (.br 347 (.leaf false) (.leaf false))) (.br 350 (.br 349 (.leaf false) (.leaf false)) (.br 351 (.leaf false) (.leaf false))))))) (.br 377 (.br 364 (.br 358 (.br 355 (.br 353 (.leaf false) (.br 354 (.leaf false) (.leaf false))) (.br 356 (.leaf false) (.br 357 (.leaf false) (.leaf false)))) (.br 361 (.br 359 (.leaf false) (.br 360 (.leaf false) (.leaf false))) (.br 362 (.leaf false) (.br 363 (.leaf false) (.leaf false))))) (.br 370 (.br 367 (.br 365 (.leaf false) (.br 366 (.leaf false) (.leaf false))) (.br 368 (.leaf false) (.br 369 (.leaf false) (.leaf false)))) (.br 373 (.br 371 (.leaf false) (.br 372 (.leaf false) (.leaf false))) (.br 375 (.br 374 (.leaf false) (.leaf false)) (.br 376 (.leaf false) (.leaf false)))))) (.br 390 (.br 383 (.br 380 (.br 378 (.leaf false) (.br 379 (.leaf false) (.leaf false))) (.br 381 (.leaf false) (.br 382 (.leaf false) (.leaf false)))) (.br 386 (.br 384 (.leaf false) (.br 385 (.leaf false) (.leaf false))) (.br 388 (.br 387 (.leaf false) (.leaf false)) (.br 389 (.leaf false) (.leaf false))))) (.br 396 (.br 393 (.br 391 (.leaf false) (.br 392 (.leaf false) (.leaf false))) (.br 394 (.leaf false) (.br 395 (.leaf false) (.leaf false)))) (.br 399 (.br 397 (.leaf false) (.br 398 (.leaf false) (.leaf false))) (.br 401 (.br 400 (.leaf false) (.leaf false)) (.br 402 (.leaf false) (.leaf false))))))))))
/-- Ranks showing that there is no left recursion. -/
def ranks : Tr Nat :=
  (.br 201 (.br 100 (.br 50 (.br 25 (.br 12 (.br 6 (.br 3 (.br 1 (.leaf 41) (.br 2 (.leaf 40) (.leaf 39))) (.br 4 (.leaf 32) (.br 5 (.leaf 38) (.leaf 36)))) (.br 9 (.br 7 (.leaf 35) (.br 8 (.leaf 4) (.leaf 34))) (.br 10 (.leaf 33) (.br 11 (.leaf 17) (.leaf 15))))) (.br 18 (.br 15 (.br 13 (.leaf 14) (.br 14 (.leaf 13) (.leaf 32))) (.br 16 (.leaf 31) (.br 17 (.leaf 12) (.leaf 9)))) (.br 21 (.br 19 (.leaf 7) (.br 20 (.leaf 5) (.leaf 11))) (.br 23 (.br 22 (.leaf 30) (.leaf 29)) (.br 24 (.leaf 28) (.leaf 27)))))) (.br 37 (.br 31 (.br 28 (.br 26 (.leaf 4) (.br 27 (.leaf 6) (.leaf 29))) (.br 29 (.leaf 29) (.br 30 (.leaf 29) (.leaf 29)))) (.br 34 (.br 32 (.leaf 26) (.br 33 (.leaf 24) (.leaf 23))) (.br 35 (.leaf 4) (.br 36 (.leaf 22) (.leaf 4))))) (.br 43 (.br 40 (.br 38 (.leaf 21) (.br 39 (.leaf 20) (.leaf 18))) (.br 41 (.leaf 5) (.br 42 (.leaf 19) (.leaf 17)))) (.br 46 (.br 44 (.leaf 16) (.br 45 (.leaf 14) (.leaf 13))) (.br 48 (.br 47 (.leaf 12) (.leaf 10)) (.br 49 (.leaf 7) (.leaf 13))))))) (.br 75 (.br 62 (.br 56 (.br 53 (.br 51 (.leaf 11) (.br 52 (.leaf 10) (.leaf 8))) (.br 54 (.leaf 5) (.br 55 (.leaf 17) (.leaf 15)))) (.br 59 (.br 57 (.leaf 14) (.br 58 (.leaf 13) (.leaf 11))) (.br 60 (.leaf 10) (.br 61 (.leaf 8) (.leaf 5))))) (.br 68 (.br 65 (.br 63 (.leaf 17) (.br 64 (.leaf 15) (.leaf 14))) (.br 66 (.leaf 13) (.br 67 (.leaf 12) (.leaf 10)))) (.br 71 (.br 69 (.leaf 7) (.br 70 (.leaf 4) (.leaf 27))) (.br 73 (.br 72 (.leaf 8) (.leaf 7)) (.br 74 (.leaf 4) (.leaf 6)))))) (.br 87 (.br 81 (.br 78 (.br 76 (.leaf 5) (.br 77 (.leaf 4) (.leaf 4))) (.br 79 (.leaf 4) (.br 80 (.leaf 6) (.leaf 5)))) (.br 84 (.br 82 (.leaf 4) (.br 83 (.leaf 3) (.leaf 4))) (.br 85 (.leaf 3) (.br 86 (.leaf 3) (.leaf 3))))) (.br 93 (.br 90 (.br 88 (.leaf 3) (.br 89 (.leaf 3) (.leaf 3))) (.br 91 (.leaf 3) (.br 92 (.leaf 3) (.leaf 3)))) (.br 96 (.br 94 (.leaf 3) (.br 95 (.leaf 3) (.leaf 3))) (.br 98 (.br 97 (.leaf 4) (.leaf 3)) (.br 99 (.leaf 3) (.leaf 3)))))))) (.br 150 (.br 125 (.br 112 (.br 106 (.br 103 (.br 101 (.leaf 3) (.br 102 (.leaf 2) (.leaf 1))) (.br 104 (.leaf 1) (.br 105 (.leaf 1) (.leaf 1)))) (.br 109 (.br 107 (.leaf 1) (.br 108 (.leaf 1) (.leaf 1))) (.br 110 (.leaf 1) (.br 111 (.leaf 1) (.leaf 1))))) (.br 118 (.br 115 (.br 113 (.leaf 1) (.br 114 (.leaf 1) (.leaf 1))) (.br 116 (.leaf 1) (.br 117 (.leaf 1) (.leaf 1)))) (.br 121 (.br 119 (.leaf 1) (.br 120 (.leaf 1) (.leaf 1))) (.br 123 (.br 122 (.leaf 1) (.leaf 1)) (.br 124 (.leaf 2) (.leaf 2)))))) (.br 137 (.br 131 (.br 128 (.br 126 (.leaf 3) (.br 127 (.leaf 3) (.leaf 3))) (.br 129 (.leaf 3) (.br 130 (.leaf 3) (.leaf 3)))) (.br 134 (.br 132 (.leaf 3) (.br 133 (.leaf 4) (.leaf 1))) (.br 135 (.leaf 2) (.br 136 (.leaf 3) (.leaf 3))))) (.br 143 (.br 140 (.br 138 (.leaf 3) (.br 139 (.leaf 3) (.leaf 3))) (.br 141 (.leaf 3) (.br 142 (.leaf 3) (.leaf 1)))) (.br 146 (.br 144 (.leaf 2) (.br 145 (.leaf 2) (.leaf 2))) (.br 148 (.br 147 (.leaf 2) (.leaf 2)) (.br 149 (.leaf 1) (.leaf 1))))))) (.br 175 (.br 162 (.br 156 (.br 153 (.br 151 (.leaf 1) (.br 152 (.leaf 1) (.leaf 1))) (.br 154 (.leaf 0) (.br 155 (.leaf 0) (.leaf 1)))) (.br 159 (.br 157 (.leaf 1) (.br 158 (.leaf 1) (.leaf 1))) (.br 160 (.leaf 1) (.br 161 (.leaf 0) (.leaf 0))))) (.br 168 (.br 165 (.br 163 (.leaf 1) (.br 164 (.leaf 1) (.leaf 1))) (.br 166 (.leaf 1) (.br 167 (.leaf 1) (.leaf 0)))) (.br 171 (.br 169 (.leaf 0) (.br 170 (.leaf 0) (.leaf 1))) (.br 173 (.br 172 (.leaf 1) (.leaf 1)) (.br 174 (.leaf 1) (.leaf 1)))))) (.br 188 (.br 181 (.br 178 (.br 176 (.leaf 0) (.br 177 (.leaf 0) (.leaf 1))) (.br 179 (.leaf 1) (.br 180 (.leaf 1) (.leaf 1)))) (.br 184 (.br 182 (.leaf 1) (.br 183 (.leaf 0) (.leaf 0))) (.br 186 (.br 185 (.leaf 1) (.leaf 1)) (.br 187 (.leaf 1) (.leaf 1))))) (.br 194 (.br 191 (.br 189 (.leaf 1) (.br 190 (.leaf 0) (.leaf 0))) (.br 192 (.leaf 1) (.br 193 (.leaf 1) (.leaf 1)))) (.br 197 (.br 195 (.leaf 1) (.br 196 (.leaf 1) (.leaf 0))) (.br 199 (.br 198 (.leaf 0) (.leaf 0)) (.br 200 (.leaf 0) (.leaf 0))))))))) (.br 302 (.br 251 (.br 226 (.br 213 (.br 207 (.br 204 (.br 202 (.leaf 0) (.br 203 (.leaf 0) (.leaf 0))) (.br 205 (.leaf 0) (.br 206 (.leaf 0) (.leaf 0)))) (.br 210 (.br 208 (.leaf 0) (.br 209 (.leaf 0) (.leaf 0))) (.br 211 (.leaf 0) (.br 212 (.leaf 0) (.leaf 0))))) (.br 219 (.br 216 (.br 214 (.leaf 0) (.br 215 (.leaf 0) (.leaf 0))) (.br 217 (.leaf 0) (.br 218 (.leaf 0) (.leaf 0)))) (.br 222 (.br 220 (.leaf 0) (.br 221 (.leaf 0) (.leaf 3))) (.br 224 (.br 223 (.leaf 2) (.leaf 0)) (.br 225 (.leaf 0) (.leaf 18)))))) (.br 238 (.br 232 (.br 229 (.br 227 (.leaf 37) (.br 228 (.leaf 5) (.leaf 16))) (.br 230 (.leaf 5) (.br 231 (.leaf 8) (.leaf 6)))) (.br 235 (.br 233 (.leaf 6) (.br 234 (.leaf 6) (.leaf 6))) (.br 236 (.leaf 6) (.br 237 (.leaf 4) (.leaf 10))))) (.br 244 (.br 241 (.br 239 (.leaf 5) (.br 240 (.leaf 5) (.leaf 5))) (.br 242 (.leaf 5) (.br 243 (.leaf 25) (.leaf 5)))) (.br 247 (.br 245 (.leaf 19) (.br 246 (.leaf 7) (.leaf 6))) (.br 249 (.br 248 (.leaf 6) (.leaf 6)) (.br 250 (.leaf 6) (.leaf 6))))))) (.br 276 (.br 263 (.br 257 (.br 254 (.br 252 (.leaf 4) (.br 253 (.leaf 5) (.leaf 5))) (.br 255 (.leaf 15) (.br 256 (.leaf 11) (.leaf 9)))) (.br 260 (.br 258 (.leaf 6) (.br 259 (.leaf 6) (.leaf 6))) (.br 261 (.leaf 6) (.br 262 (.leaf 4) (.leaf 12))))) (.br 269 (.br 266 (.br 264 (.leaf 5) (.br 265 (.leaf 9) (.leaf 7))) (.br 267 (.leaf 6) (.br 268 (.leaf 6) (.leaf 6)))) (.br 272 (.br 270 (.leaf 6) (.br 271 (.leaf 6) (.leaf 4))) (.br 274 (.br 273 (.leaf 16) (.leaf 5)) (.br 275 (.leaf 12) (.leaf 5)))))) (.br 289 (.br 282 (.br 279 (.br 277 (.leaf 9) (.br 278 (.leaf 7) (.leaf 6))) (.br 280 (.leaf 6) (.br 281 (.leaf 6) (.leaf 6)))) (.br 285 (.br 283 (.leaf 6) (.br 284 (.leaf 4) (.leaf 16))) (.br 287 (.br 286 (.leaf 5) (.leaf 11)) (.br 288 (.leaf 9) (.leaf 6))))) (.br 295 (.br 292 (.br 290 (.leaf 6) (.br 291 (.leaf 6) (.leaf 6))) (.br 293 (.leaf 4) (.br 294 (.leaf 2) (.leaf 2)))) (.br 298 (.br 296 (.leaf 2) (.br 297 (.leaf 2) (.leaf 2))) (.br 300 (.br 299 (.leaf 2) (.leaf 2)) (.br 301 (.leaf 1) (.leaf 2)))))))) (.br 352 (.br 327 (.br 314 (.br 308 (.br 305 (.br 303 (.leaf 2) (.br 304 (.leaf 2) (.leaf 2))) (.br 306 (.leaf 2) (.br 307 (.leaf 2) (.leaf 2)))) (.br 311 (.br 309 (.leaf 4) (.br 310 (.leaf 4) (.leaf 39))) (.br 312 (.leaf 4) (.br 313 (.leaf 34) (.leaf 4))))) (.br 320 (.br 317 (.br 315 (.leaf 5) (.br 316 (.leaf 5) (.leaf 5))) (.br 318 (.leaf 5) (.br 319 (.leaf 5) (.leaf 30)))) (.br 323 (.br 321 (.leaf 30) (.br 322 (.leaf 30) (.leaf 30))) (.br 325 (.br 324 (.leaf 4) (.leaf 27)) (.br 326 (.leaf 6) (.leaf 5)))))) (.br 339 (.br 333 (.br 330 (.br 328 (.leaf 5) (.br 329 (.leaf 5) (.leaf 5))) (.br 331 (.leaf 5) (.br 332 (.leaf 4) (.leaf 20)))) (.br 336 (.br 334 (.leaf 8) (.br 335 (.leaf 5) (.leaf 5))) (.br 337 (.leaf 5) (.br 338 (.leaf 5) (.leaf 4))))) (.br 345 (.br 342 (.br 340 (.leaf 14) (.br 341 (.leaf 6) (.leaf 5))) (.br 343 (.leaf 5) (.br 344 (.leaf 5) (.leaf 5)))) (.br 348 (.br 346 (.leaf 5) (.br 347 (.leaf 4) (.leaf 18))) (.br 350 (.br 349 (.leaf 4) (.leaf 14)) (.br 351 (.leaf 6) (.leaf 5))))))) (.br 377 (.br 364 (.br 358 (.br 355 (.br 353 (.leaf 5) (.br 354 (.leaf 5) (.leaf 5))) (.br 356 (.leaf 5) (.br 357 (.leaf 4) (.leaf 8)))) (.br 361 (.br 359 (.leaf 5) (.br 360 (.leaf 5) (.leaf 5))) (.br 362 (.leaf 5) (.br 363 (.leaf 4) (.leaf 4))))) (.br 370 (.br 367 (.br 365 (.leaf 13) (.br 366 (.leaf 4) (.leaf 4))) (.br 368 (.leaf 4) (.br 369 (.leaf 4) (.leaf 4)))) (.br 373 (.br 371 (.leaf 4) (.br 372 (.leaf 4) (.leaf 4))) (.br 375 (.br 374 (.leaf 4) (.leaf 4)) (.br 376 (.leaf 21) (.leaf 4)))))) (.br 390 (.br 383 (.br 380 (.br 378 (.leaf 4) (.br 379 (.leaf 4) (.leaf 4))) (.br 381 (.leaf 4) (.br 382 (.leaf 13) (.leaf 4)))) (.br 386 (.br 384 (.leaf 4) (.br 385 (.leaf 4) (.leaf 4))) (.br 388 (.br 387 (.leaf 9) (.leaf 4)) (.br 389 (.leaf 4) (.leaf 4))))) (.br 396 (.br 393 (.br 391 (.leaf 4) (.br 392 (.leaf 4) (.leaf 4))) (.br 394 (.leaf 14) (.br 395 (.leaf 4) (.leaf 4)))) (.br 399 (.br 397 (.leaf 4) (.br 398 (.leaf 4) (.leaf 8))) (.br 401 (.br 400 (.leaf 4) (.leaf 4)) (.br 402 (.leaf 4) (.leaf 4))))))))))
/-- The rules with an error name. -/
def nameds : Tr Bool :=
  (.br 201 (.br 100 (.br 50 (.br 25 (.br 12 (.br 6 (.br 3 (.br 1 (.leaf false) (.br 2 (.leaf false) (.leaf false))) (.br 4 (.leaf false) (.br 5 (.leaf false) (.leaf false)))) (.br 9 (.br 7 (.leaf false) (.br 8 (.leaf false) (.leaf false))) (.br 10 (.leaf false) (.br 11 (.leaf false) (.leaf false))))) (.br 18 (.br 15 (.br 13 (.leaf false) (.br 14 (.leaf false) (.leaf false))) (.br 16 (.leaf false) (.br 17 (.leaf false) (.leaf false)))) (.br 21 (.br 19 (.leaf false) (.br 20 (.leaf false) (.leaf false))) (.br 23 (.br 22 (.leaf false) (.leaf false)) (.br 24 (.leaf false) (.leaf false)))))) (.br 37 (.br 31 (.br 28 (.br 26 (.leaf false) (.br 27 (.leaf false) (.leaf false))) (.br 29 (.leaf false) (.br 30 (.leaf false) (.leaf false)))) (.br 34 (.br 32 (.leaf false) (.br 33 (.leaf false) (.leaf false))) (.br 35 (.leaf false) (.br 36 (.leaf false) (.leaf false))))) (.br 43 (.br 40 (.br 38 (.leaf false) (.br 39 (.leaf false) (.leaf false))) (.br 41 (.leaf false) (.br 42 (.leaf false) (.leaf false)))) (.br 46 (.br 44 (.leaf false) (.br 45 (.leaf false) (.leaf false))) (.br 48 (.br 47 (.leaf false) (.leaf false)) (.br 49 (.leaf false) (.leaf false))))))) (.br 75 (.br 62 (.br 56 (.br 53 (.br 51 (.leaf false) (.br 52 (.leaf false) (.leaf false))) (.br 54 (.leaf false) (.br 55 (.leaf false) (.leaf false)))) (.br 59 (.br 57 (.leaf false) (.br 58 (.leaf false) (.leaf false))) (.br 60 (.leaf false) (.br 61 (.leaf false) (.leaf false))))) (.br 68 (.br 65 (.br 63 (.leaf false) (.br 64 (.leaf false) (.leaf false))) (.br 66 (.leaf false) (.br 67 (.leaf false) (.leaf false)))) (.br 71 (.br 69 (.leaf false) (.br 70 (.leaf false) (.leaf false))) (.br 73 (.br 72 (.leaf false) (.leaf false)) (.br 74 (.leaf false) (.leaf false)))))) (.br 87 (.br 81 (.br 78 (.br 76 (.leaf false) (.br 77 (.leaf false) (.leaf false))) (.br 79 (.leaf false) (.br 80 (.leaf false) (.leaf false)))) (.br 84 (.br 82 (.leaf false) (.br 83 (.leaf false) (.leaf false))) (.br 85 (.leaf false) (.br 86 (.leaf false) (.leaf false))))) (.br 93 (.br 90 (.br 88 (.leaf false) (.br 89 (.leaf false) (.leaf false))) (.br 91 (.leaf false) (.br 92 (.leaf false) (.leaf false)))) (.br 96 (.br 94 (.leaf false) (.br 95 (.leaf false) (.leaf false))) (.br 98 (.br 97 (.leaf false) (.leaf false)) (.br 99 (.leaf false) (.leaf false)))))))) (.br 150 (.br 125 (.br 112 (.br 106 (.br 103 (.br 101 (.leaf false) (.br 102 (.leaf false) (.leaf false))) (.br 104 (.leaf false) (.br 105 (.leaf false) (.leaf false)))) (.br 109 (.br 107 (.leaf false) (.br 108 (.leaf false) (.leaf false))) (.br 110 (.leaf false) (.br 111 (.leaf false) (.leaf false))))) (.br 118 (.br 115 (.br 113 (.leaf false) (.br 114 (.leaf false) (.leaf false))) (.br 116 (.leaf false) (.br 117 (.leaf false) (.leaf false)))) (.br 121 (.br 119 (.leaf false) (.br 120 (.leaf false) (.leaf false))) (.br 123 (.br 122 (.leaf false) (.leaf false)) (.br 124 (.leaf false) (.leaf false)))))) (.br 137 (.br 131 (.br 128 (.br 126 (.leaf false) (.br 127 (.leaf false) (.leaf false))) (.br 129 (.leaf false) (.br 130 (.leaf false) (.leaf false)))) (.br 134 (.br 132 (.leaf false) (.br 133 (.leaf false) (.leaf false))) (.br 135 (.leaf false) (.br 136 (.leaf false) (.leaf false))))) (.br 143 (.br 140 (.br 138 (.leaf false) (.br 139 (.leaf false) (.leaf false))) (.br 141 (.leaf false) (.br 142 (.leaf false) (.leaf false)))) (.br 146 (.br 144 (.leaf false) (.br 145 (.leaf false) (.leaf false))) (.br 148 (.br 147 (.leaf false) (.leaf false)) (.br 149 (.leaf false) (.leaf false))))))) (.br 175 (.br 162 (.br 156 (.br 153 (.br 151 (.leaf false) (.br 152 (.leaf false) (.leaf false))) (.br 154 (.leaf true) (.br 155 (.leaf false) (.leaf false)))) (.br 159 (.br 157 (.leaf false) (.br 158 (.leaf false) (.leaf false))) (.br 160 (.leaf false) (.br 161 (.leaf true) (.leaf false))))) (.br 168 (.br 165 (.br 163 (.leaf false) (.br 164 (.leaf false) (.leaf false))) (.br 166 (.leaf false) (.br 167 (.leaf false) (.leaf true)))) (.br 171 (.br 169 (.leaf true) (.br 170 (.leaf false) (.leaf false))) (.br 173 (.br 172 (.leaf false) (.leaf false)) (.br 174 (.leaf false) (.leaf false)))))) (.br 188 (.br 181 (.br 178 (.br 176 (.leaf true) (.br 177 (.leaf false) (.leaf false))) (.br 179 (.leaf false) (.br 180 (.leaf false) (.leaf false)))) (.br 184 (.br 182 (.leaf false) (.br 183 (.leaf true) (.leaf false))) (.br 186 (.br 185 (.leaf false) (.leaf false)) (.br 187 (.leaf false) (.leaf false))))) (.br 194 (.br 191 (.br 189 (.leaf false) (.br 190 (.leaf true) (.leaf false))) (.br 192 (.leaf false) (.br 193 (.leaf false) (.leaf false)))) (.br 197 (.br 195 (.leaf false) (.br 196 (.leaf false) (.leaf true))) (.br 199 (.br 198 (.leaf false) (.leaf false)) (.br 200 (.leaf false) (.leaf false))))))))) (.br 302 (.br 251 (.br 226 (.br 213 (.br 207 (.br 204 (.br 202 (.leaf false) (.br 203 (.leaf false) (.leaf false))) (.br 205 (.leaf false) (.br 206 (.leaf false) (.leaf false)))) (.br 210 (.br 208 (.leaf false) (.br 209 (.leaf false) (.leaf false))) (.br 211 (.leaf false) (.br 212 (.leaf false) (.leaf false))))) (.br 219 (.br 216 (.br 214 (.leaf false) (.br 215 (.leaf false) (.leaf false))) (.br 217 (.leaf false) (.br 218 (.leaf false) (.leaf false)))) (.br 222 (.br 220 (.leaf false) (.br 221 (.leaf false) (.leaf true))) (.br 224 (.br 223 (.leaf false) (.leaf false)) (.br 225 (.leaf true) (.leaf false)))))) (.br 238 (.br 232 (.br 229 (.br 227 (.leaf false) (.br 228 (.leaf false) (.leaf false))) (.br 230 (.leaf false) (.br 231 (.leaf false) (.leaf false)))) (.br 235 (.br 233 (.leaf false) (.br 234 (.leaf false) (.leaf false))) (.br 236 (.leaf false) (.br 237 (.leaf false) (.leaf false))))) (.br 244 (.br 241 (.br 239 (.leaf false) (.br 240 (.leaf false) (.leaf false))) (.br 242 (.leaf false) (.br 243 (.leaf false) (.leaf false)))) (.br 247 (.br 245 (.leaf false) (.br 246 (.leaf false) (.leaf false))) (.br 249 (.br 248 (.leaf false) (.leaf false)) (.br 250 (.leaf false) (.leaf false))))))) (.br 276 (.br 263 (.br 257 (.br 254 (.br 252 (.leaf false) (.br 253 (.leaf false) (.leaf false))) (.br 255 (.leaf false) (.br 256 (.leaf false) (.leaf false)))) (.br 260 (.br 258 (.leaf false) (.br 259 (.leaf false) (.leaf false))) (.br 261 (.leaf false) (.br 262 (.leaf false) (.leaf false))))) (.br 269 (.br 266 (.br 264 (.leaf false) (.br 265 (.leaf false) (.leaf false))) (.br 267 (.leaf false) (.br 268 (.leaf false) (.leaf false)))) (.br 272 (.br 270 (.leaf false) (.br 271 (.leaf false) (.leaf false))) (.br 274 (.br 273 (.leaf false) (.leaf false)) (.br 275 (.leaf false) (.leaf false)))))) (.br 289 (.br 282 (.br 279 (.br 277 (.leaf false) (.br 278 (.leaf false) (.leaf false))) (.br 280 (.leaf false) (.br 281 (.leaf false) (.leaf false)))) (.br 285 (.br 283 (.leaf false) (.br 284 (.leaf false) (.leaf false))) (.br 287 (.br 286 (.leaf false) (.leaf false)) (.br 288 (.leaf false) (.leaf false))))) (.br 295 (.br 292 (.br 290 (.leaf false) (.br 291 (.leaf false) (.leaf false))) (.br 293 (.leaf false) (.br 294 (.leaf false) (.leaf false)))) (.br 298 (.br 296 (.leaf false) (.br 297 (.leaf false) (.leaf false))) (.br 300 (.br 299 (.leaf false) (.leaf false)) (.br 301 (.leaf false) (.leaf false)))))))) (.br 352 (.br 327 (.br 314 (.br 308 (.br 305 (.br 303 (.leaf false) (.br 304 (.leaf false) (.leaf false))) (.br 306 (.leaf false) (.br 307 (.leaf false) (.leaf false)))) (.br 311 (.br 309 (.leaf false) (.br 310 (.leaf false) (.leaf false))) (.br 312 (.leaf false) (.br 313 (.leaf false) (.leaf false))))) (.br 320 (.br 317 (.br 315 (.leaf false) (.br 316 (.leaf false) (.leaf false))) (.br 318 (.leaf false) (.br 319 (.leaf false) (.leaf false)))) (.br 323 (.br 321 (.leaf false) (.br 322 (.leaf false) (.leaf false))) (.br 325 (.br 324 (.leaf false) (.leaf false)) (.br 326 (.leaf false) (.leaf false)))))) (.br 339 (.br 333 (.br 330 (.br 328 (.leaf false) (.br 329 (.leaf false) (.leaf false))) (.br 331 (.leaf false) (.br 332 (.leaf false) (.leaf false)))) (.br 336 (.br 334 (.leaf false) (.br 335 (.leaf false) (.leaf false))) (.br 337 (.leaf false) (.br 338 (.leaf false) (.leaf false))))) (.br 345 (.br 342 (.br 340 (.leaf false) (.br 341 (.leaf false) (.leaf false))) (.br 343 (.leaf false) (.br 344 (.leaf false) (.leaf false)))) (.br 348 (.br 346 (.leaf false) (.br 347 (.leaf false) (.leaf false))) (.br 350 (.br 349 (.leaf false) (.leaf false)) (.br 351 (.leaf false) (.leaf false))))))) (.br 377 (.br 364 (.br 358 (.br 355 (.br 353 (.leaf false) (.br 354 (.leaf false) (.leaf false))) (.br 356 (.leaf false) (.br 357 (.leaf false) (.leaf false)))) (.br 361 (.br 359 (.leaf false) (.br 360 (.leaf false) (.leaf false))) (.br 362 (.leaf false) (.br 363 (.leaf false) (.leaf false))))) (.br 370 (.br 367 (.br 365 (.leaf false) (.br 366 (.leaf false) (.leaf false))) (.br 368 (.leaf false) (.br 369 (.leaf false) (.leaf false)))) (.br 373 (.br 371 (.leaf false) (.br 372 (.leaf false) (.leaf false))) (.br 375 (.br 374 (.leaf false) (.leaf false)) (.br 376 (.leaf false) (.leaf false)))))) (.br 390 (.br 383 (.br 380 (.br 378 (.leaf false) (.br 379 (.leaf false) (.leaf false))) (.br 381 (.leaf false) (.br 382 (.leaf false) (.leaf false)))) (.br 386 (.br 384 (.leaf false) (.br 385 (.leaf false) (.leaf false))) (.br 388 (.br 387 (.leaf false) (.leaf false)) (.br 389 (.leaf false) (.leaf false))))) (.br 396 (.br 393 (.br 391 (.leaf false) (.br 392 (.leaf false) (.leaf false))) (.br 394 (.leaf false) (.br 395 (.leaf false) (.leaf false)))) (.br 399 (.br 397 (.leaf false) (.br 398 (.leaf false) (.leaf false))) (.br 401 (.br 400 (.leaf false) (.leaf false)) (.br 402 (.leaf false) (.leaf false))))))))))
/-- The types of the rules (the Go result types of the Action functions, refined). -/
def types : Tr Ty :=
  (.br 201 (.br 100 (.br 50 (.br 25 (.br 12 (.br 6 (.br 3 (.br 1 (.leaf (.nd .text)) (.br 2 (.leaf (.nd .text)) (.leaf (.nodes)))) (.br 4 (.leaf (.nd .fragment)) (.br 5 (.leaf (.nd .sentence)) (.leaf (.nd .sentence))))) (.br 9 (.br 7 (.leaf (.nd .sentence)) (.br 8 (.leaf (.word)) (.leaf (.sent3)))) (.br 10 (.leaf (.nd .statement)) (.br 11 (.leaf (.nd .statement)) (.leaf (.nd .statement)))))) (.br 18 (.br 15 (.br 13 (.leaf (.nd .statement)) (.br 14 (.leaf (.predn)) (.leaf (.nd .prenex)))) (.br 16 (.leaf (.nd .prenex)) (.br 17 (.leaf (.nd .predicate)) (.leaf (.nd .predicate))))) (.br 21 (.br 19 (.leaf (.nd .predicate)) (.br 20 (.leaf (.nd .predicate)) (.leaf (.nd .predicate)))) (.br 23 (.br 22 (.leaf (.nd .terms)) (.leaf (.nd .terms))) (.br 24 (.leaf (.nd .term)) (.leaf (.nd .term))))))) (.br 37 (.br 31 (.br 28 (.br 26 (.leaf (.word)) (.br 27 (.leaf (.nd .termSet)) (.leaf (.nd .terms)))) (.br 29 (.leaf (.nd .terms)) (.br 30 (.leaf (.nd .terms)) (.leaf (.nd .terms))))) (.br 34 (.br 32 (.leaf (.nd .argument)) (.br 33 (.leaf (.nd .argument)) (.leaf (.nd .argument)))) (.br 35 (.leaf (.word)) (.br 36 (.leaf (.pa 2)) (.leaf (.word)))))) (.br 43 (.br 40 (.br 38 (.leaf (.pa 1)) (.br 39 (.leaf (.pa 0)) (.leaf (.nd .predicateOrContent)))) (.br 41 (.leaf (.nd .predicate)) (.br 42 (.leaf (.nd .relative)) (.leaf (.nd .relative))))) (.br 46 (.br 44 (.leaf (.nd .relative)) (.br 45 (.leaf (.nd .relative)) (.leaf (.predn)))) (.br 48 (.br 47 (.leaf (.nd .predicate)) (.leaf (.nd .predicate))) (.br 49 (.leaf (.nd .predicate)) (.leaf (.nd .adverb)))))))) (.br 75 (.br 62 (.br 56 (.br 53 (.br 51 (.leaf (.nd .adverb)) (.br 52 (.leaf (.nd .adverb)) (.leaf (.nd .predicate)))) (.br 54 (.leaf (.nd .predicate)) (.br 55 (.leaf (.nd .prep)) (.leaf (.nd .prep))))) (.br 59 (.br 57 (.leaf (.nd .prep)) (.br 58 (.leaf (.nd .predicate)) (.leaf (.nd .predicate)))) (.br 60 (.leaf (.nd .predicate)) (.br 61 (.leaf (.nd .predicate)) (.leaf (.nd .predicate)))))) (.br 68 (.br 65 (.br 63 (.leaf (.nd .content)) (.br 64 (.leaf (.nd .content)) (.leaf (.nd .content)))) (.br 66 (.leaf (.predn)) (.br 67 (.leaf (.nd .predicate)) (.leaf (.nd .predicate))))) (.br 71 (.br 69 (.leaf (.nd .predicate)) (.br 70 (.leaf (.con)) (.leaf (.nd .phrase)))) (.br 73 (.br 72 (.leaf (.opt (.nd .mod))) (.leaf (.nd .mod))) (.br 74 (.leaf (.nd .space)) (.leaf (.nd .freemod))))))) (.br 87 (.br 81 (.br 78 (.br 76 (.leaf (.nd .freemod)) (.br 77 (.leaf (.part)) (.leaf (.nd .freemod)))) (.br 79 (.leaf (.nd .freemod)) (.br 80 (.leaf (.spaced)) (.leaf (.str))))) (.br 84 (.br 82 (.leaf (.str)) (.br 83 (.leaf (.str)) (.leaf (.str)))) (.br 85 (.leaf (.word)) (.br 86 (.leaf (.word)) (.leaf (.word)))))) (.br 93 (.br 90 (.br 88 (.leaf (.word)) (.br 89 (.leaf (.word)) (.leaf (.word)))) (.br 91 (.leaf (.word)) (.br 92 (.leaf (.word)) (.leaf (.bare))))) (.br 96 (.br 94 (.leaf (.word)) (.br 95 (.leaf (.word)) (.leaf (.word)))) (.br 98 (.br 97 (.leaf (.word)) (.leaf (.word))) (.br 99 (.leaf (.word)) (.leaf (.nd .freemod))))))))) (.br 150 (.br 125 (.br 112 (.br 106 (.br 103 (.br 101 (.leaf (.word)) (.br 102 (.leaf (.str)) (.leaf (.str)))) (.br 104 (.leaf (.str)) (.br 105 (.leaf (.str)) (.leaf (.str))))) (.br 109 (.br 107 (.leaf (.str)) (.br 108 (.leaf (.str)) (.leaf (.str)))) (.br 110 (.leaf (.str)) (.br 111 (.leaf (.str)) (.leaf (.str)))))) (.br 118 (.br 115 (.br 113 (.leaf (.str)) (.br 114 (.leaf (.str)) (.leaf (.str)))) (.br 116 (.leaf (.str)) (.br 117 (.leaf (.str)) (.leaf (.str))))) (.br 121 (.br 119 (.leaf (.str)) (.br 120 (.leaf (.str)) (.leaf (.str)))) (.br 123 (.br 122 (.leaf (.str)) (.leaf (.str))) (.br 124 (.leaf (.str)) (.leaf (.str))))))) (.br 137 (.br 131 (.br 128 (.br 126 (.leaf (.str)) (.br 127 (.leaf (.str)) (.leaf (.str)))) (.br 129 (.leaf (.str)) (.br 130 (.leaf (.str)) (.leaf (.str))))) (.br 134 (.br 132 (.leaf (.str)) (.br 133 (.leaf (.unit)) (.leaf (.str)))) (.br 135 (.leaf (.sy plainVowels)) (.br 136 (.leaf (.str)) (.leaf (.str)))))) (.br 143 (.br 140 (.br 138 (.leaf (.str)) (.br 139 (.leaf (.str)) (.leaf (.str)))) (.br 141 (.leaf (.str)) (.br 142 (.leaf (.str)) (.leaf (.chr toneRunes))))) (.br 146 (.br 144 (.leaf (.str)) (.br 145 (.leaf (.str)) (.leaf (.str)))) (.br 148 (.br 147 (.leaf (.str)) (.leaf (.str))) (.br 149 (.leaf (.str)) (.leaf (.str)))))))) (.br 175 (.br 162 (.br 156 (.br 153 (.br 151 (.leaf (.str)) (.br 152 (.leaf (.str)) (.leaf (.str)))) (.br 154 (.leaf (.chr ['\u0304'])) (.br 155 (.leaf (.chr ['-', '1'])) (.leaf (.str))))) (.br 159 (.br 157 (.leaf (.str)) (.br 158 (.leaf (.str)) (.leaf (.str)))) (.br 160 (.leaf (.str)) (.br 161 (.leaf (.chr ['\u0301'])) (.leaf (.chr ['/', '2'])))))) (.br 168 (.br 165 (.br 163 (.leaf (.str)) (.br 164 (.leaf (.str)) (.leaf (.str)))) (.br 166 (.leaf (.str)) (.br 167 (.leaf (.str)) (.leaf (.chr ['\u030c']))))) (.br 171 (.br 169 (.leaf (.chr ['\u0306'])) (.br 170 (.leaf (.chr ['V', '3'])) (.leaf (.str)))) (.br 173 (.br 172 (.leaf (.str)) (.leaf (.str))) (.br 174 (.leaf (.str)) (.leaf (.str))))))) (.br 188 (.br 181 (.br 178 (.br 176 (.leaf (.chr ['\u0309'])) (.br 177 (.leaf (.chr ['?', '4'])) (.leaf (.str)))) (.br 179 (.leaf (.str)) (.br 180 (.leaf (.str)) (.leaf (.str))))) (.br 184 (.br 182 (.leaf (.str)) (.br 183 (.leaf (.chr ['\u0302'])) (.leaf (.chr ['5', '^'])))) (.br 186 (.br 185 (.leaf (.str)) (.leaf (.str))) (.br 187 (.leaf (.str)) (.leaf (.str)))))) (.br 194 (.br 191 (.br 189 (.leaf (.str)) (.br 190 (.leaf (.chr ['\u0300'])) (.leaf (.chr ['\\', '6'])))) (.br 192 (.leaf (.str)) (.br 193 (.leaf (.str)) (.leaf (.str))))) (.br 197 (.br 195 (.leaf (.str)) (.br 196 (.leaf (.str)) (.leaf (.chr ['\u0303'])))) (.br 199 (.br 198 (.leaf (.chr ['~', '7'])) (.leaf (.chr ['a', 'A']))) (.br 200 (.leaf (.chr ['b', 'B'])) (.leaf (.chr ['c', 'C'])))))))))) (.br 302 (.br 251 (.br 226 (.br 213 (.br 207 (.br 204 (.br 202 (.leaf (.chr ['d', 'D'])) (.br 203 (.leaf (.chr ['e', 'E'])) (.leaf (.chr ['f', 'F'])))) (.br 205 (.leaf (.chr ['g', 'G'])) (.br 206 (.leaf (.chr ['h', 'H'])) (.leaf (.one ['ı', 'I']))))) (.br 210 (.br 208 (.leaf (.chr ['j', 'J'])) (.br 209 (.leaf (.chr ['k', 'K'])) (.leaf (.chr ['l', 'L'])))) (.br 211 (.leaf (.chr ['m', 'M'])) (.br 212 (.leaf (.chr ['n', 'N'])) (.leaf (.chr ['o', 'O'])))))) (.br 219 (.br 216 (.br 214 (.leaf (.chr ['p', 'P'])) (.br 215 (.leaf (.chr ['q', 'Q'])) (.leaf (.chr ['r', 'R'])))) (.br 217 (.leaf (.chr ['s', 'S'])) (.br 218 (.leaf (.chr ['t', 'T'])) (.leaf (.chr ['u', 'U']))))) (.br 222 (.br 220 (.leaf (.chr ['w', 'W'])) (.br 221 (.leaf (.chr ['y', 'Y'])) (.leaf (.raw)))) (.br 224 (.br 223 (.leaf (.raw)) (.leaf (.nd .space))) (.br 225 (.leaf (.nul)) (.leaf (.cop .relative .relative))))))) (.br 238 (.br 232 (.br 229 (.br 227 (.leaf (.cop .sentence .sentence)) (.br 228 (.leaf (.cop .sentence .sentence)) (.leaf (.cop .statement .statement)))) (.br 230 (.leaf (.cop .statement .statement)) (.br 231 (.leaf (.cop .predicate .predicate)) (.leaf (.nd .predicate))))) (.br 235 (.br 233 (.leaf (.nd .predicate)) (.br 234 (.leaf (.nd .predicate)) (.leaf (.nd .predicate)))) (.br 236 (.leaf (.nd .predicate)) (.br 237 (.leaf (.nd .predicate)) (.leaf (.nd .predicate)))))) (.br 244 (.br 241 (.br 239 (.leaf (.cop .terms .terms)) (.br 240 (.leaf (.cop .terms .terms)) (.leaf (.cop .terms .terms)))) (.br 242 (.leaf (.cop .terms .terms)) (.br 243 (.leaf (.cop .argument .argument)) (.leaf (.cop .argument .argument))))) (.br 247 (.br 245 (.leaf (.nd .predicate)) (.br 246 (.leaf (.nd .predicate)) (.leaf (.nd .predicate)))) (.br 249 (.br 248 (.leaf (.nd .predicate)) (.leaf (.nd .predicate))) (.br 250 (.leaf (.nd .predicate)) (.leaf (.nd .predicate)))))))) (.br 276 (.br 263 (.br 257 (.br 254 (.br 252 (.leaf (.nd .predicate)) (.br 253 (.leaf (.lu)) (.leaf (.cop .relative .relative)))) (.br 255 (.leaf (.cop .relative .statement)) (.br 256 (.leaf (.nd .predicate)) (.leaf (.nd .predicate))))) (.br 260 (.br 258 (.leaf (.nd .predicate)) (.br 259 (.leaf (.nd .predicate)) (.leaf (.nd .predicate)))) (.br 261 (.leaf (.nd .predicate)) (.br 262 (.leaf (.nd .predicate)) (.leaf (.cop .adverb .adverb)))))) (.br 269 (.br 266 (.br 264 (.leaf (.cop .adverb .adverb)) (.br 265 (.leaf (.nd .predicate)) (.leaf (.nd .predicate)))) (.br 267 (.leaf (.nd .predicate)) (.br 268 (.leaf (.nd .predicate)) (.leaf (.nd .predicate))))) (.br 272 (.br 270 (.leaf (.nd .predicate)) (.br 271 (.leaf (.nd .predicate)) (.leaf (.nd .predicate)))) (.br 274 (.br 273 (.leaf (.cop .prep .prep)) (.leaf (.cop .prep .prep))) (.br 275 (.leaf (.cop .predicate .predicate)) (.leaf (.cop .predicate .predicate))))))) (.br 289 (.br 282 (.br 279 (.br 277 (.leaf (.nd .predicate)) (.br 278 (.leaf (.nd .predicate)) (.leaf (.nd .predicate)))) (.br 280 (.leaf (.nd .predicate)) (.br 281 (.leaf (.nd .predicate)) (.leaf (.nd .predicate))))) (.br 285 (.br 283 (.leaf (.nd .predicate)) (.br 284 (.leaf (.nd .predicate)) (.leaf (.cop .content .statement)))) (.br 287 (.br 286 (.leaf (.lu)) (.leaf (.nd .predicate))) (.br 288 (.leaf (.nd .predicate)) (.leaf (.nd .predicate)))))) (.br 295 (.br 292 (.br 290 (.leaf (.nd .predicate)) (.br 291 (.leaf (.nd .predicate)) (.leaf (.nd .predicate)))) (.br 293 (.leaf (.nd .predicate)) (.br 294 (.leaf (.str)) (.leaf (.str))))) (.br 298 (.br 296 (.leaf (.str)) (.br 297 (.leaf (.str)) (.leaf (.str)))) (.br 300 (.br 299 (.leaf (.str)) (.leaf (.str))) (.br 301 (.leaf (.sy plainVowels)) (.leaf (.str))))))))) (.br 352 (.br 327 (.br 314 (.br 308 (.br 305 (.br 303 (.leaf (.str)) (.br 304 (.leaf (.str)) (.leaf (.str)))) (.br 306 (.leaf (.str)) (.br 307 (.leaf (.str)) (.leaf (.str))))) (.br 311 (.br 309 (.leaf (.bar .relative)) (.br 310 (.leaf (.bar .sentence)) (.leaf (.cop1 .sentence .sentence)))) (.br 312 (.leaf (.bar .statement)) (.br 313 (.leaf (.cop1 .statement .statement)) (.leaf (.bar .predicate)))))) (.br 320 (.br 317 (.br 315 (.leaf (.cop .predicate .predicate)) (.br 316 (.leaf (.lu)) (.leaf (.miOpen)))) (.br 318 (.leaf (.poOpen)) (.br 319 (.leaf (.part)) (.leaf (.cop1 .terms .terms))))) (.br 323 (.br 321 (.leaf (.cop1 .terms .terms)) (.br 322 (.leaf (.cop1 .terms .terms)) (.leaf (.cop1 .terms .terms)))) (.br 325 (.br 324 (.leaf (.bar .argument)) (.leaf (.cop1 .argument .argument))) (.br 326 (.leaf (.cop .predicate .predicate)) (.leaf (.cop .predArg .predicate))))))) (.br 339 (.br 333 (.br 330 (.br 328 (.leaf (.lu)) (.br 329 (.leaf (.miOpen)) (.leaf (.poOpen)))) (.br 331 (.leaf (.part)) (.br 332 (.leaf (.word)) (.leaf (.cop1 .relative .relative))))) (.br 336 (.br 334 (.leaf (.cop .predicate .predicate)) (.br 335 (.leaf (.cop .predicate .predicate)) (.leaf (.miOpen)))) (.br 337 (.leaf (.poOpen)) (.br 338 (.leaf (.part)) (.leaf (.bar .adverb)))))) (.br 345 (.br 342 (.br 340 (.leaf (.cop1 .adverb .adverb)) (.br 341 (.leaf (.cop .predicate .predicate)) (.leaf (.cop .predicate .predicate)))) (.br 343 (.leaf (.lu)) (.br 344 (.leaf (.miOpen)) (.leaf (.poOpen))))) (.br 348 (.br 346 (.leaf (.part)) (.br 347 (.leaf (.bar .prep)) (.leaf (.cop1 .prep .prep)))) (.br 350 (.br 349 (.leaf (.bar .predicate)) (.leaf (.cop1 .predicate .predicate))) (.br 351 (.leaf (.cop .predicate .predicate)) (.leaf (.cop .predicate .predicate)))))))) (.br 377 (.br 364 (.br 358 (.br 355 (.br 353 (.leaf (.lu)) (.br 354 (.leaf (.miOpen)) (.leaf (.poOpen)))) (.br 356 (.leaf (.part)) (.br 357 (.leaf (.word)) (.leaf (.cop .predicate .predicate))))) (.br 361 (.br 359 (.leaf (.cop .predicate .predicate)) (.br 360 (.leaf (.miOpen)) (.leaf (.poOpen)))) (.br 362 (.leaf (.part)) (.br 363 (.leaf (.bar .sentence)) (.leaf (.bar .statement)))))) (.br 370 (.br 367 (.br 365 (.leaf (.cop1 .predicate .predicate)) (.br 366 (.leaf (.word)) (.leaf (.word)))) (.br 368 (.leaf (.word)) (.br 369 (.leaf (.word)) (.leaf (.bar .terms))))) (.br 373 (.br 371 (.leaf (.bar .terms)) (.br 372 (.leaf (.bar .terms)) (.leaf (.bar .terms)))) (.br 375 (.br 374 (.leaf (.bar .argument)) (.leaf (.bar .predicate))) (.br 376 (.leaf (.cop1 .predArg .predicate)) (.leaf (.word))))))) (.br 390 (.br 383 (.br 380 (.br 378 (.leaf (.word)) (.br 379 (.leaf (.word)) (.leaf (.word)))) (.br 381 (.leaf (.bar .relative)) (.br 382 (.leaf (.cop1 .predicate .predicate)) (.leaf (.word))))) (.br 386 (.br 384 (.leaf (.word)) (.br 385 (.leaf (.word)) (.leaf (.bar .adverb)))) (.br 388 (.br 387 (.leaf (.cop1 .predicate .predicate)) (.leaf (.word))) (.br 389 (.leaf (.word)) (.leaf (.word)))))) (.br 396 (.br 393 (.br 391 (.leaf (.word)) (.br 392 (.leaf (.bar .prep)) (.leaf (.bar .predicate)))) (.br 394 (.leaf (.cop1 .predicate .predicate)) (.br 395 (.leaf (.word)) (.leaf (.word))))) (.br 399 (.br 397 (.leaf (.word)) (.br 398 (.leaf (.word)) (.leaf (.cop1 .predicate .predicate)))) (.br 401 (.br 400 (.leaf (.word)) (.leaf (.word))) (.br 402 (.leaf (.word)) (.leaf (.bar .predicate)))))))))))
/-- The number of rules, a bound of the ranks and a bound of the depths of the rules. -/
def numRules : Nat := 403
def rankBound : Nat := 42
def depthBound : Nat := 49
def rule_full_text : Nat := 0
def rule_text : Nat := 1
def rule_word : Nat := 79
def rule_EOF : Nat := 224

/-- The grammar. -/
def toaq : Gram Act where
  body r := bodies.get r
  named r := nameds.get r

end Verif.Parse
