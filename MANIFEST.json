{
 "claims": [
  {
   "property": "C01",
   "status": "proved",
   "theorems": [
    "Verif.Tone.C01_toASCII_word",
    "Verif.Tone.C01_toASCII_word_ascii",
    "Verif.Tone.C01_capital_Q_misplaces_marker"
   ],
   "note": "For lower-case q, as in the property; a capital Q is shown to misplace the marker."
  },
  {
   "property": "C02",
   "status": "proved",
   "theorems": [
    "Verif.Tone.C02_toASCII_ascii",
    "Verif.Tone.C02_toASCII_idem",
    "Verif.Tone.C02_not_idem_in_general"
   ],
   "note": ""
  },
  {
   "property": "C03",
   "status": "proved",
   "theorems": [
    "Verif.Tone.C03_strip_exact",
    "Verif.Tone.C03_strip_no_marker",
    "Verif.Tone.C03_strip_word",
    "Verif.Tone.C03_strip_tone_blind",
    "Verif.Tone.C03_strip_idem"
   ],
   "note": ""
  },
  {
   "property": "C04",
   "status": "proved",
   "theorems": [
    "Verif.Tone.C04_withTone_first_vowel",
    "Verif.Tone.C04_withTone_first_i",
    "Verif.Tone.C04_withTone_no_vowel"
   ],
   "note": "Three cases (no vowel, dotted i, any other vowel) shown exhaustive by first_vowel_cases."
  },
  {
   "property": "C05",
   "status": "proved",
   "theorems": [
    "Verif.Tone.C05_withTone_last_wins",
    "Verif.Tone.C05_withTone_word",
    "Verif.Tone.C05_tone_word",
    "Verif.Tone.C05_tone_withTone",
    "Verif.Tone.C05_tone_none_not_read_back"
   ],
   "note": "Also shown: for None the read-back fails when a later syllable is toned."
  },
  {
   "property": "C06",
   "status": "proved",
   "theorems": [
    "Verif.Tone.C06_withTone_panics_iff"
   ],
   "note": "Tone argument ranges over Unicode scalar values."
  },
  {
   "property": "C07",
   "status": "proved",
   "theorems": [
    "Verif.Tone.C07_tables_order_independent",
    "Verif.Tone.C07_skip_needed"
   ],
   "note": ""
  },
  {
   "property": "C08",
   "status": "proved",
   "theorems": [
    "Verif.AST.C08_visit",
    "Verif.AST.C08_trace_eq",
    "Verif.AST.C08_balanced",
    "Verif.AST.C08_preorder",
    "Verif.AST.C08_entered_iff",
    "Verif.AST.C08_count",
    "Verif.AST.C08_words_in_order"
   ],
   "note": ""
  },
  {
   "property": "C09",
   "status": "proved",
   "theorems": [
    "Verif.AST.C09_prune",
    "Verif.AST.C09_prune_trace"
   ],
   "note": ""
  },
  {
   "property": "C10",
   "status": "proved",
   "theorems": [
    "Verif.AST.C10_equal_iff",
    "Verif.AST.C10_refl",
    "Verif.AST.C10_symm",
    "Verif.AST.C10_trans",
    "Verif.AST.C10_shift"
   ],
   "note": "For trees without bare *CoP / *LUPhrase values, on which Equal panics and which the grammar never builds."
  },
  {
   "property": "C11",
   "status": "partial",
   "theorems": [
    "Verif.AST.C11_mod_words",
    "Verif.AST.C11_mod_appends_partial",
    "Verif.AST.C11_mod_perm",
    "Verif.AST.C11_mod_paren_false",
    "Verif.AST.C11_mod_core",
    "Verif.AST.C11_mod_nil"
   ],
   "note": "False for nodes whose right edge is a parenthetical (C11_mod_paren_false); proved for all others, and the exact behaviour is proved for all nodes."
  },
  {
   "property": "C12",
   "status": "proved",
   "theorems": [
    "Verif.AST.C12_toASCII",
    "Verif.AST.C12_words"
   ],
   "note": ""
  },
  {
   "property": "C13",
   "status": "proved",
   "theorems": [
    "Verif.AST.C13_balanced"
   ],
   "note": ""
  },
  {
   "property": "C14",
   "status": "proved",
   "theorems": [
    "Verif.AST.C14_words"
   ],
   "note": ""
  },
  {
   "property": "C15",
   "status": "partial",
   "theorems": [
    "Verif.AST.C15_start",
    "Verif.AST.C15_end_partial",
    "Verif.AST.C15_end_panics",
    "Verif.AST.C15_empty_text_panics",
    "Verif.AST.C15_end_exact",
    "Verif.AST.C15_end_or_panics",
    "Verif.Parse.C15_parsed_exact",
    "Verif.Parse.C15_parsed_partial",
    "Verif.Parse.C15_parsed_panics"
   ],
   "note": "End panics on nodes with an empty list at the right edge, as a predication without terms and final particle (C15_parsed_panics), and both panic on the empty text. C15_end_exact and C15_parsed_exact say that it panics on no others. For all other nodes of parsed texts Start and End are the ends of the first and last words of the node, within the text, and Start < End."
  },
  {
   "property": "C16",
   "status": "proved",
   "theorems": [
    "Verif.Parse.C16_terminates",
    "Verif.Parse.C16_no_left_recursion"
   ],
   "note": "Termination as a bound on the call depth, 2193 times the length in bytes plus one, for every history of calls on one parser; and no rule reaches itself without reading."
  },
  {
   "property": "C17",
   "status": "proved",
   "theorems": [
    "Verif.Parse.C17_whole_text"
   ],
   "note": ""
  },
  {
   "property": "C18",
   "status": "partial",
   "theorems": [
    "Verif.Parse.C18_parenthetical_reorders",
    "Verif.Parse.C18_words_tile_partial"
   ],
   "note": "False for texts with parentheticals: C18_parenthetical_reorders. Proved: the words cover the text in some order; all but the particles that close parentheticals are in the order of the tree, and a closing particle has no modifier and comes after its opening particle; without parentheticals the words cover the text in the order of the tree."
  },
  {
   "property": "C19",
   "status": "proved",
   "theorems": [
    "Verif.Parse.C19_tree_text_agree"
   ],
   "note": ""
  },
  {
   "property": "C20",
   "status": "proved",
   "theorems": [
    "Verif.Parse.C20_memo_transparent"
   ],
   "note": "For all histories of Tree, Text and Word on one parser. The expectations listed in an error do depend on the history (see C57)."
  },
  {
   "property": "C21",
   "status": "partial",
   "theorems": [
    "Verif.Parse.C21_apart_partial",
    "Verif.Parse.C21_text_resets_partial",
    "Verif.Parse.C21_word_shared",
    "Verif.Parse.C21_tree_unaffected",
    "Verif.Parse.C21_no_alias_partial",
    "Verif.Parse.C21_word_aliases"
   ],
   "note": "False for Word, which resets the wrong table: C21_word_aliases, and C21_word_shared for every text, offset and history. Proved for the results of Tree in all histories, and for all results in histories in which nothing is written between a call of Word and the next successful call of Text (C21_apart_partial); a successful call of Text ends all sharing, whatever was written before (C21_text_resets_partial)."
  },
  {
   "property": "C22",
   "status": "proved",
   "theorems": [
    "Verif.Parse.C22_tree_text",
    "Verif.Parse.C22_tree_total"
   ],
   "note": ""
  },
  {
   "property": "C23",
   "status": "proved",
   "theorems": [
    "Verif.Parse.C23_normalised",
    "Verif.Parse.C23_word_call"
   ],
   "note": "For the words of the AST. The word returned by Word has an end offset that includes the space after it (C23_word_call)."
  },
  {
   "property": "C24",
   "status": "proved",
   "theorems": [
    "Verif.Peg.C24_leafFails",
    "Verif.Peg.C24_byteOffset",
    "Verif.Peg.C24_first_leaf"
   ],
   "note": ""
  },
  {
   "property": "C25",
   "status": "proved",
   "theorems": [
    "Verif.Peg.C25_location",
    "Verif.Peg.C25_location_inside",
    "Verif.Peg.C25_location_after_end"
   ],
   "note": ""
  },
  {
   "property": "C26",
   "status": "proved",
   "theorems": [
    "Verif.Logic.C26_order"
   ],
   "note": ""
  },
  {
   "property": "C27",
   "status": "proved",
   "theorems": [
    "Verif.Logic.C27_merge",
    "Verif.Logic.C27_merge_keeps_dups"
   ],
   "note": "The doc comment claims more (no duplicates), which is shown false."
  },
  {
   "property": "C28",
   "status": "proved",
   "theorems": [
    "Verif.Logic.C28_addHoa",
    "Verif.Logic.C28_idempotent",
    "Verif.Logic.C28_complete"
   ],
   "note": ""
  },
  {
   "property": "C29",
   "status": "proved",
   "theorems": [
    "Verif.Logic.C29_plain",
    "Verif.Logic.C29_contiguous",
    "Verif.Logic.C29_bound",
    "Verif.Logic.C29_distinct",
    "Verif.Logic.C29_only_numbers",
    "Verif.Logic.C29_shared_gap"
   ],
   "note": "For trees without shared nodes and with variables in scope; C29_shared_gap shows that sharing leaves gaps."
  },
  {
   "property": "C30",
   "status": "proved",
   "theorems": [
    "Verif.Logic.C30_names",
    "Verif.Logic.C30_order",
    "Verif.Logic.C30_z_collides"
   ],
   "note": "Predicates named like Toaq words; C30_z_collides shows that a name starting with z breaks it."
  },
  {
   "property": "C31",
   "status": "proved",
   "theorems": [
    "Verif.Logic.Rd.C31_string",
    "Verif.Logic.Rd.C31_pretty",
    "Verif.Logic.Rd.C31_regroup",
    "Verif.Logic.Rd.C31_numbered",
    "Verif.Logic.Rd.C31_sequence",
    "Verif.Logic.Rd.C31_refuted"
   ],
   "note": "For quotations without their closing mark; with it the claim is false: C31_refuted."
  },
  {
   "property": "C32",
   "status": "proved",
   "theorems": [
    "Verif.Logic.C32_pretty",
    "Verif.Logic.C32_runes"
   ],
   "note": ""
  },
  {
   "property": "C33",
   "status": "proved",
   "theorems": [
    "Verif.Logic.C33_visit",
    "Verif.Logic.C33_once",
    "Verif.Logic.C33_preorder"
   ],
   "note": ""
  },
  {
   "property": "C34",
   "status": "proved",
   "theorems": [
    "Verif.Logic.C34_terminates"
   ],
   "note": ""
  },
  {
   "property": "C35",
   "status": "proved",
   "theorems": [
    "Verif.Logic.C35_nil_iff_fragments",
    "Verif.Logic.C35_fragments_ignored"
   ],
   "note": ""
  },
  {
   "property": "C36",
   "status": "partial",
   "theorems": [
    "Verif.Logic.Ex.C36_refuted",
    "Verif.Logic.Ex.C36_refuted_sentence",
    "Verif.Logic.C36_exact",
    "Verif.Logic.C36_exact_panic",
    "Verif.Logic.C36_kind",
    "Verif.Logic.C36_parsed_exact",
    "Verif.Logic.C36_parsed_exact_panic",
    "Verif.Logic.C36_parsed_kind",
    "Verif.Logic.C36_no_panic_partial",
    "Verif.Logic.C36_interprets_partial",
    "Verif.Logic.C36_parsed_partial"
   ],
   "note": "Violated by the code: C36_refuted, C36_refuted_sentence. C36_parsed_exact says exactly when: of the parsed texts the interpreter panics on those in which it comes to a connection that it does not know (all but ru between sentences, ra, ru, ri elsewhere, roi between arguments, none between content clauses); the places to which it does not come are those Meets leaves out. C36_kind and C36_parsed_kind say which panics are runtime errors: only connections whose sides are of the wrong kind make them, and only unknown connectives make the panics with strings."
  },
  {
   "property": "C37",
   "status": "partial",
   "theorems": [
    "Verif.Logic.Den.C37_clauses_partial",
    "Verif.Logic.Ex.C37_refuted",
    "Verif.Logic.Ex.C37_wrong_reading",
    "Verif.Logic.C37_partial"
   ],
   "note": "Violated by the code: C37_refuted. Proved for all plain texts (see C54), and before simplification for all texts of C56."
  },
  {
   "property": "C38",
   "status": "proved",
   "theorems": [
    "Verif.Logic.C38_hasText",
    "Verif.Logic.C38_unique",
    "Verif.Logic.C38_exclusive",
    "Verif.Logic.C38_connector",
    "Verif.Logic.C38_quantifier",
    "Verif.Logic.C38_no_quantifier",
    "Verif.Logic.C38_place",
    "Verif.Logic.C38_hoa",
    "Verif.Logic.C38_po",
    "Verif.Logic.C38_mi"
   ],
   "note": ""
  },
  {
   "property": "C39",
   "status": "proved",
   "theorems": [
    "Verif.Logic.C39_splitVar",
    "Verif.Logic.C39_order",
    "Verif.Logic.C39_same",
    "Verif.Logic.C39_capital"
   ],
   "note": "A capital D is shown never to be accepted."
  },
  {
   "property": "C40",
   "status": "proved",
   "theorems": [
    "Verif.Logic.C40_distributes",
    "Verif.Logic.C40_serial_pairs"
   ],
   "note": "For predicates built of words by connectives and series."
  },
  {
   "property": "C41",
   "status": "proved",
   "theorems": [
    "Verif.Logic.C41_swap",
    "Verif.Logic.C41_involution",
    "Verif.Logic.C41_perm"
   ],
   "note": ""
  },
  {
   "property": "C42",
   "status": "partial",
   "theorems": [
    "Verif.App.C42_answers_partial",
    "Verif.App.C42_crash_iff",
    "Verif.App.C42_error_iff_rejected",
    "Verif.App.C42_error",
    "Verif.App.C42_fields",
    "Verif.App.C42_crash"
   ],
   "note": "False for bodies on which the parser panics: C42_crash; C42_crash_iff says exactly which (a tone digit out of place)."
  },
  {
   "property": "C43",
   "status": "partial",
   "theorems": [
    "Verif.App.C43_exact_partial",
    "Verif.App.C43_kind_partial",
    "Verif.App.C43_known_partial",
    "Verif.App.C43_reported_partial",
    "Verif.App.C43_no_panic",
    "Verif.App.C43_runtime_panic_hidden"
   ],
   "note": "The handler always answers, and reports panics with strings. False for runtime errors, which are reported as fragment: C43_runtime_panic_hidden. C43_exact_partial says for which parsed texts the field is the logic of the text, and C43_kind_partial which panics are reported and which are hidden."
  },
  {
   "property": "C44",
   "status": "proved",
   "theorems": [
    "Verif.App.C44_answers",
    "Verif.App.C44_taken"
   ],
   "note": "The chat library is the sequence of events it delivers; the answer may crash, which ends the conversation."
  },
  {
   "property": "C45",
   "status": "partial",
   "theorems": [
    "Verif.App.C45_last_wins",
    "Verif.App.C45_keys",
    "Verif.App.C45_word_key",
    "Verif.App.C45_toned_key",
    "Verif.App.C45_panics",
    "Verif.App.C45_tone_exact"
   ],
   "note": "Tone-free only for well-formed headwords: C45_toned_key shows a headword that keeps a tone, and C45_tone_exact says exactly which keep one: those with two toned letters in one syllable. Load can also crash (C45_panics)."
  },
  {
   "property": "C46",
   "status": "partial",
   "theorems": [
    "Verif.Parse.C46_digit_panics",
    "Verif.Parse.C46_no_panic_partial",
    "Verif.Parse.C46_panics_iff",
    "Verif.Parse.C46_word_partial"
   ],
   "note": "False for tone digits: C46_digit_panics. C46_panics_iff: of the texts Tree accepts, Text panics exactly on those with a tone digit elsewhere than right after the onset and the bare first vowel of a syllable."
  },
  {
   "property": "C47",
   "status": "proved",
   "theorems": [
    "Verif.Logic.C47_wordPred"
   ],
   "note": ""
  },
  {
   "property": "C48",
   "status": "proved",
   "theorems": [
    "Verif.Logic.C48_quote"
   ],
   "note": ""
  },
  {
   "property": "C49",
   "status": "partial",
   "theorems": [
    "Verif.Logic.Ex.C49_refuted",
    "Verif.Logic.C49_partial"
   ],
   "note": "Violated by the code: C49_refuted. Proved for all plain texts with at most one connected argument in each list of terms."
  },
  {
   "property": "C50",
   "status": "proved",
   "theorems": [
    "Verif.Logic.C50_sorted"
   ],
   "note": ""
  },
  {
   "property": "C51",
   "status": "proved",
   "theorems": [
    "Verif.Parse.C51_well_sorted"
   ],
   "note": ""
  },
  {
   "property": "C52",
   "status": "partial",
   "theorems": [
    "Verif.App.C52_reply",
    "Verif.App.C52_survives_partial",
    "Verif.App.C52_dies_iff",
    "Verif.App.C52_digit_kills",
    "Verif.App.C52_interpreter_kills",
    "Verif.App.C52_dies_exact",
    "Verif.App.C52_known_survives_partial"
   ],
   "note": "The contents of the answer are proved. That no message takes the bot down is false: C52_digit_kills, C52_interpreter_kills; C52_dies_exact says exactly which do."
  },
  {
   "property": "C53",
   "status": "proved",
   "theorems": [
    "Verif.Parse.C53_classes"
   ],
   "note": "Assumes of Unicode that letters and combining tone marks are not punctuation (Plain)."
  },
  {
   "property": "C54",
   "status": "proved",
   "theorems": [
    "Verif.Logic.C54_meaning"
   ],
   "note": "Words that are variables (like do) or hoa are not plain; relative clauses, adverbs, prepositions, content clauses and quotes are not included. At most one connected argument in each list of terms (see C49). Focus marks are not compared."
  },
  {
   "property": "C55",
   "status": "partial",
   "theorems": [
    "Verif.Logic.C55_statement_partial",
    "Verif.Logic.C55_numbering",
    "Verif.Logic.C55_simplify_partial",
    "Verif.Logic.C55_refuted_missing",
    "Verif.Logic.C55_refuted_own",
    "Verif.Logic.C55_refuted_serial"
   ],
   "note": "Proved for all models in which the laws hold and all statements in which an abstraction that is applied has all its arguments, restrictions that are equations are about the variable they restrict, and variables are predicates only of predications; numbering is included if simplification copies no binding. False otherwise: C55_refuted_missing, C55_refuted_own, C55_refuted_serial."
  },
  {
   "property": "C56",
   "status": "partial",
   "theorems": [
    "Verif.Logic.Den.C56_meaning_partial",
    "Verif.Logic.Den.C56_interpret_partial",
    "Verif.Logic.Den.C56_refuted_preposition"
   ],
   "note": "Violated by the code: C56_refuted_preposition, C49_refuted, C37_refuted. Proved for the statement before simplification, for all texts without hi, in which a definite argument, or what an adverb or preposition is said of, mentions no variable or one that varies, roi and definite variables do not stand before adverbs and prepositions, and at most one argument of a list of terms is connected; after simplification where C55 applies."
  },
  {
   "property": "C57",
   "status": "partial",
   "theorems": [
    "Verif.Parse.C57_end_partial",
    "Verif.Parse.C57_refuted_word",
    "Verif.Parse.C57_refuted",
    "Verif.Parse.C57_outcomes",
    "Verif.Parse.C57_reported"
   ],
   "note": "Proved for all texts and histories: the error is built, is located at a rune boundary, and no terminal it expects is there. Proved when the parser reached the end of the text: the error is there and lists expectations, none of them met. Violated inside texts, and by all errors of Word on a fresh parser: C57_refuted, C57_refuted_word."
  },
  {
   "property": "C58",
   "status": "proved",
   "theorems": [
    "Verif.Parse.C58_spelling"
   ],
   "note": "For texts of valid UTF-8. Assumes of Unicode that the letters are not punctuation (LettersNotPunct)."
  },
  {
   "property": "C59",
   "status": "partial",
   "theorems": [
    "Verif.Logic.C59_spelling_partial",
    "Verif.Logic.C59_refuted",
    "Verif.Logic.C59_refuted_i"
   ],
   "note": "Violated by the code: a capital D makes a variable a predicate (C59_refuted), and a capital I makes another variable (C59_refuted_i). Proved for all texts whose variables are written without these capitals. Assumes of Unicode that the letters are not punctuation and that lower-casing maps the capitals of Toaq to their small letters (CaseOk)."
  },
  {
   "property": "C60",
   "status": "proved",
   "theorems": [
    "Verif.Parse.C60_tones",
    "Verif.Parse.C60_words"
   ],
   "note": ""
  },
  {
   "property": "C61",
   "status": "partial",
   "theorems": [
    "Verif.Parse.C61_notation_partial",
    "Verif.Parse.C61_refuted",
    "Verif.Parse.C61_refuted_number"
   ],
   "note": "Violated by the code: \"moq?\" is a particle and a question mark while the same syllable with the hook is a word (C61_refuted), and tone numbers at the end of a syllable make the parser panic (C61_refuted_number). Proved for all texts without these. Assumes of Unicode that letters, combining marks, and the signs ^ and ~ are not punctuation (LettersNotPunct, Plain)."
  },
  {
   "property": "C62",
   "status": "partial",
   "theorems": [
    "Verif.Logic.C62_letters_partial",
    "Verif.Logic.C62_refuted",
    "Verif.Logic.C62_notation_partial"
   ],
   "note": "C62_notation_partial: texts in small letters without the breve, quotes included. C62_letters_partial: texts without quotes, with capitals (as in C59) and letters with the breve. C62_refuted: in a quote the breve stays a breve, while other ways to write the tone give a caron, so two ways to write one text mean different things. Left out: the syllable moq with the hook and tone numbers at the end of syllables (see C61). Assumes of Unicode what C61 and C59 assume."
  },
  {
   "property": "C63",
   "status": "proved",
   "theorems": [
    "Verif.Parse.C63_printed_tree",
    "Verif.Parse.C63_printed_text"
   ],
   "note": "What the parser reads is the text up to its end or its first U+FFFD (Consumed, see C22)."
  },
  {
   "property": "C64",
   "status": "partial",
   "theorems": [
    "Verif.Parse.C64_errors",
    "Verif.Parse.C64_refuted",
    "Verif.Peg.C64_firsts",
    "Verif.Peg.C64_once",
    "Verif.Peg.C64_below",
    "Verif.Peg.C64_leaves_partial",
    "Verif.Peg.C64_offset",
    "Verif.Peg.C64_leaves_exact"
   ],
   "note": "The expectations change: failures whose kids were all shown before become leaves, which are listed as expectations of nothing (C64_refuted). C64_leaves_exact says exactly which failures are leaves afterwards. Proved for the rest, and that the leaves of the tree stay leaves."
  },
  {
   "property": "C65",
   "status": "partial",
   "theorems": [
    "Verif.App.C65_panics_exact",
    "Verif.App.C65_runs",
    "Verif.App.C65_status",
    "Verif.App.C65_known_partial",
    "Verif.App.C65_digit_panics",
    "Verif.App.C65_interpreter_panics"
   ],
   "note": "It does panic: C65_digit_panics, C65_interpreter_panics; C65_panics_exact says exactly for which inputs. All else is proved for all runs."
  },
  {
   "property": "C66",
   "status": "partial",
   "theorems": [
    "Verif.Parse.C66_message",
    "Verif.Parse.C66_place",
    "Verif.Parse.C66_utf8_iff",
    "Verif.Parse.C66_refuted_utf8",
    "Verif.Parse.C66_refuted_once"
   ],
   "note": "The form of the message and that it tells the offset are proved for all errors. Violated: expectations are repeated (C66_refuted_once); the excerpt is cut inside characters, and C66_utf8_iff says exactly when the message is not valid UTF-8 (C66_refuted_utf8); some errors want nothing (C57_refuted)."
  },
  {
   "property": "C67",
   "status": "proved",
   "theorems": [
    "Verif.Parse.C67_distinct"
   ],
   "note": "The identity of an argument in the model is the offset at which the action that makes it starts."
  },
  {
   "property": "C68",
   "status": "partial",
   "theorems": [
    "Verif.Parse.C68_printed_partial",
    "Verif.Parse.C68_refuted"
   ],
   "note": "Two texts are printed alike if and only if their trees are the same but for the offsets and the modifiers of words. Modifiers (parentheticals, incidental clauses, vocatives, interjections, punctuation) are not printed: C68_refuted."
  },
  {
   "property": "C69",
   "status": "partial",
   "theorems": [
    "Verif.App.C69_exact",
    "Verif.App.C69_generated_partial",
    "Verif.App.C69_status",
    "Verif.App.C69_refuted",
    "Verif.App.C69_refuted_escape",
    "Verif.App.C69_refuted_keys"
   ],
   "note": "C69_exact: the words are read from the source if and only if dict. occurs in no string as it is quoted. Else it is deleted in definitions (C69_refuted), in escapes, which makes the source invalid (C69_refuted_escape), and in keys, which can make them equal (C69_refuted_keys). The map is read from the source by a reader for the literals of Go; gofmt is a parameter."
  },
  {
   "property": "C70",
   "status": "partial",
   "theorems": [
    "Verif.Logic.C70_statement_printed_partial",
    "Verif.Logic.C70_refuted"
   ],
   "note": "Proved for statements without line breaks in quotes, but for the kind of quotes, which is not printed. Else false: C70_refuted."
  },
  {
   "property": "C71",
   "status": "partial",
   "theorems": [
    "Verif.Parse.C71_word_at_partial",
    "Verif.Parse.C71_fails",
    "Verif.Parse.C71_next_partial",
    "Verif.Parse.C71_scan_partial"
   ],
   "note": "Proved for all words but the particles of the classes lu, mi, po and mo, which carry the tone of a predicate, and moq with a question mark after it. False for some of these: C71_fails."
  }
 ]
}