STATUS.update({
 'C01': ('proved', 'For lower-case q, as in the property; a capital Q is shown to misplace the marker.'),
 'C02': ('proved', ''),
 'C03': ('proved', ''),
 'C04': ('proved', 'Three cases (no vowel, dotted i, any other vowel) shown exhaustive by first_vowel_cases.'),
 'C05': ('proved', 'Also shown: for None the read-back fails when a later syllable is toned.'),
 'C06': ('proved', 'Tone argument ranges over Unicode scalar values.'),
 'C07': ('proved', ''),
 'C08': ('proved', ''),
 'C09': ('proved', ''),
 'C10': ('proved', 'For trees without bare *CoP / *LUPhrase values, on which Equal panics and which the grammar never builds.'),
 'C11': ('partial', 'False for nodes whose right edge is a parenthetical (C11_mod_paren_false); proved for all others, and the exact behaviour is proved for all nodes.'),
 'C12': ('proved', ''),
 'C13': ('proved', ''),
 'C14': ('proved', ''),
 'C15': ('partial', 'End panics on a predication without terms and final particle, and both panic on the empty text (shown); proved for all other trees.'),
 'C24': ('proved', ''),
 'C25': ('proved', ''),
 'C26': ('proved', ''),
 'C27': ('proved', 'The doc comment claims more (no duplicates), which is shown false.'),
 'C28': ('proved', ''),
 'C29': ('proved', 'For trees without shared nodes and with variables in scope; C29_shared_gap shows that sharing leaves gaps.'),
 'C30': ('proved', 'Predicates named like Toaq words; C30_z_collides shows that a name starting with z breaks it.'),
 'C32': ('proved', ''),
 'C33': ('proved', ''),
 'C38': ('proved', ''),
 'C39': ('proved', 'A capital D is shown never to be accepted.'),
 'C47': ('proved', ''),
 'C48': ('proved', ''),
 'C41': ('proved', ''),
 'C34': ('proved', ''),
 'C44': ('proved', 'The chat library is the sequence of events it delivers; the answer may crash, which ends the conversation.'),
 'C45': ('partial', 'Tone-free only for well-formed headwords: C45_toned_key shows a headword that keeps a tone. Load can also crash (C45_panics).'),
 'C35': ('proved', ''),
 'C40': ('proved', 'For predicates built of words by connectives and series.'),
 'C50': ('proved', ''),
})
STATUS.update({
 'C16': ('proved', 'Termination as a bound on the call depth, 2193 times the length in bytes plus one, for every history of calls on one parser; and no rule reaches itself without reading.'),
 'C17': ('proved', ''),
 'C18': ('partial', 'False for texts with parentheticals: C18_parenthetical_reorders. Proved: the words cover the text in some order; all but the particles that close parentheticals are in the order of the tree, and a closing particle has no modifier and comes after its opening particle; without parentheticals the words cover the text in the order of the tree.'),
 'C19': ('proved', ''),
 'C20': ('proved', 'For all histories of Tree, Text and Word on one parser. The table of the error pass is not modelled.'),
 'C21': ('partial', 'False for Word, which resets the wrong table: C21_word_aliases. Proved for histories without Word, and for the results of Tree in all histories.'),
 'C22': ('proved', ''),
 'C23': ('proved', 'For the words of the AST. The word returned by Word has an end offset that includes the space after it (C23_word_call).'),
 'C46': ('partial', 'False for tone digits: C46_digit_panics. Proved for all texts without the digits 1 to 7.'),
 'C51': ('proved', ''),
})
STATUS.update({
 'C42': ('partial', 'False for bodies with tone digits, on which the parser panics: C42_crash. Proved for all bodies without the digits 1 to 7; the formats of the AST, Parse and Error fields are parameters.'),
 'C43': ('partial', 'The handler always answers, and reports panics with strings. False for runtime errors, which are reported as fragment: C43_runtime_panic_hidden.'),
 'C52': ('partial', 'The contents of the answer are proved. That no message takes the bot down is false: C52_digit_kills, C52_interpreter_kills; proved for texts without the digits 1 to 7 that Interpret handles.'),
})
STATUS.update({
 'C36': ('partial', 'Violated by the code: C36_refuted, C36_refuted_sentence. Proved for all syntax trees of the shapes the parser builds whose connectives and particles are those the interpreter knows, and that connect no content clause.'),
})
STATUS.update({
 'C37': ('partial', 'Violated by the code: C37_refuted. Proved for all plain texts (see C54).'),
 'C49': ('partial', 'Violated by the code: C49_refuted. Proved for all plain texts with at most one connected argument in each list of terms.'),
 'C53': ('not_applicable', 'Not yet proved.'),
 'C54': ('proved', 'Words that are variables (like do) or hoa are not plain; relative clauses, adverbs, prepositions, content clauses and quotes are not included. At most one connected argument in each list of terms (see C49). Focus marks are not compared.'),
 'C55': ('not_applicable', 'Not yet proved.'),
})
STATUS.update({
 'C55': ('partial', 'Proved for all models in which the laws hold and all statements in which an abstraction that is applied has all its arguments, restrictions that are equations are about the variable they restrict, and variables are predicates only of predications; numbering is included if simplification copies no binding. False otherwise: C55_refuted_missing, C55_refuted_own, C55_refuted_serial.'),
})
STATUS.update({
 'C31': ('proved', 'For quotations without their closing mark; with it the claim is false: C31_refuted.'),
})
STATUS.update({
 'C37': ('partial', 'Violated by the code: C37_refuted. Proved for all plain texts (see C54), and before simplification for all texts of C56.'),
 'C56': ('partial', 'Violated by the code: C56_refuted_preposition, C49_refuted, C37_refuted. Proved for the statement before simplification, for all texts without hi, in which a definite argument, or what an adverb or preposition is said of, mentions no variable or one that varies, roi and definite variables do not stand before adverbs and prepositions, and at most one argument of a list of terms is connected; after simplification where C55 applies.'),
})
STATUS.update({
 'C53': ('proved', 'Assumes of Unicode that letters and combining tone marks are not punctuation (Plain).'),
})
STATUS.update({
 'C36': ('partial', 'Violated by the code: C36_refuted, C36_refuted_sentence. Proved for all parsed texts whose connections are those the interpreter knows: ru between sentences, ra, ru, ri elsewhere, roi between arguments, none between content clauses. All other conditions on syntax trees are shown to hold for parsed texts.'),
 'C43': ('partial', 'The handler always answers, and reports panics with strings. False for runtime errors, which are reported as fragment: C43_runtime_panic_hidden. For texts with known connections (see C36) the field is the logic of the text.'),
 'C52': ('partial', 'The contents of the answer are proved. That no message takes the bot down is false: C52_digit_kills, C52_interpreter_kills; proved for texts without the digits 1 to 7 and with known connections (see C36).'),
})
STATUS.update({
 'C57': ('partial', 'Proved for all texts and histories: the error is built, is located at a rune boundary, and no terminal it expects is there. Proved when the parser reached the end of the text: the error is there and lists expectations, none of them met. Violated inside texts, and by all errors of Word on a fresh parser: C57_refuted, C57_refuted_word.'),
})
STATUS.update({
 'C20': ('proved', 'For all histories of Tree, Text and Word on one parser. The expectations listed in an error do depend on the history (see C57).'),
 'C58': ('proved', 'For texts of valid UTF-8. Assumes of Unicode that the letters are not punctuation (LettersNotPunct).'),
})
STATUS.update({
 'C59': ('partial', 'Violated by the code: a capital D makes a variable a predicate (C59_refuted), and a capital I makes another variable (C59_refuted_i). Proved for all texts whose variables are written without these capitals. Assumes of Unicode that the letters are not punctuation and that lower-casing maps the capitals of Toaq to their small letters (CaseOk).'),
})
STATUS.update({
 'C60': ('proved', ''),
})
STATUS.update({
 'C61': ('partial', 'Violated by the code: "moq?" is a particle and a question mark while the same syllable with the hook is a word (C61_refuted), and tone numbers at the end of a syllable make the parser panic (C61_refuted_number). Proved for all texts without these. Assumes of Unicode that letters, combining marks, and the signs ^ and ~ are not punctuation (LettersNotPunct, Plain).'),
})
STATUS.update({
 'C62': ('partial', 'C62_notation_partial: texts in small letters without the breve, quotes included. C62_letters_partial: texts without quotes, with capitals (as in C59) and letters with the breve. C62_refuted: in a quote the breve stays a breve, while other ways to write the tone give a caron, so two ways to write one text mean different things. Left out: the syllable moq with the hook and tone numbers at the end of syllables (see C61). Assumes of Unicode what C61 and C59 assume.'),
})

STATUS.update({
 'C63': ('proved', 'What the parser reads is the text up to its end or its first U+FFFD (Consumed, see C22).'),
 'C64': ('partial', 'The expectations change: failures whose kids were all shown before become leaves, which are listed as expectations of nothing (C64_refuted). Proved for the rest, and that the leaves of the tree stay leaves.'),
 'C65': ('partial', 'It does panic: C65_digit_panics, C65_interpreter_panics. Proved for texts without the digits 1 to 7 and with known connections (see C36); all else is proved for all runs. What pretty.String, Error and the words for expectations print is a parameter.'),
})
STATUS.update({
 'C15': ('partial', 'End panics on a predication without terms and final particle, and both panic on the empty text (shown, also for parsed texts); proved for all other trees. For parsed texts Start and End are the ends of the first and last words of the node, within the text, and Start < End.'),
 'C46': ('partial', 'False for tone digits: C46_digit_panics. C46_panics_iff: of the texts Tree accepts, Text panics exactly on those with a tone digit elsewhere than right after the onset and the bare first vowel of a syllable.'),
 'C42': ('partial', 'False for bodies on which the parser panics: C42_crash; C42_crash_iff says exactly which (a tone digit out of place). The formats of the AST, Parse and Error fields are parameters.'),
 'C52': ('partial', 'The contents of the answer are proved. That no message takes the bot down is false: C52_digit_kills, C52_interpreter_kills; C52_dies_iff says exactly when it does. Proved to survive texts with tone digits in place and known connections (see C36).'),
 'C65': ('partial', 'It does panic: C65_digit_panics, C65_interpreter_panics. Proved not to for texts with their tone digits in place and with known connections (see C36); all else is proved for all runs. What pretty.String, Error and the words for expectations print is a parameter.'),
})
STATUS.update({
 'C66': ('partial', 'The form of the message and that it tells the offset are proved for all errors. Violated: expectations are repeated (C66_refuted_once); the excerpt is cut inside characters, and C66_utf8_iff says exactly when the message is not valid UTF-8 (C66_refuted_utf8); some errors want nothing (C57_refuted).'),
 'C42': ('partial', 'False for bodies on which the parser panics: C42_crash; C42_crash_iff says exactly which (a tone digit out of place). The format of the AST field is a parameter.'),
 'C65': ('partial', 'It does panic: C65_digit_panics, C65_interpreter_panics. Proved not to for texts with their tone digits in place and with known connections (see C36); all else is proved for all runs. What pretty.String prints is a parameter.'),
})
STATUS.update({
 'C36': ('partial', 'Violated by the code: C36_refuted, C36_refuted_sentence. C36_parsed_exact says exactly when: of the parsed texts the interpreter panics on those in which it comes to a connection that it does not know (all but ru between sentences, ra, ru, ri elsewhere, roi between arguments, none between content clauses); the places to which it does not come are those Meets leaves out.'),
 'C43': ('partial', 'The handler always answers, and reports panics with strings. False for runtime errors, which are reported as fragment: C43_runtime_panic_hidden. C43_exact_partial says for which parsed texts the field is the logic of the text.'),
 'C52': ('partial', 'The contents of the answer are proved. That no message takes the bot down is false: C52_digit_kills, C52_interpreter_kills; C52_dies_exact says exactly which do.'),
 'C65': ('partial', 'It does panic: C65_digit_panics, C65_interpreter_panics; C65_panics_exact says exactly for which inputs. All else is proved for all runs. What pretty.String prints is a parameter.'),
 'C67': ('proved', 'The identity of an argument in the model is the offset at which the action that makes it starts.'),
})
STATUS.update({
 'C42': ('partial', 'False for bodies on which the parser panics: C42_crash; C42_crash_iff says exactly which (a tone digit out of place).'),
 'C65': ('partial', 'It does panic: C65_digit_panics, C65_interpreter_panics; C65_panics_exact says exactly for which inputs. All else is proved for all runs. What pretty.String prints of a statement is a parameter.'),
 'C68': ('partial', 'Proved for texts without %. False for texts with %, which is taken as the begin of a verb of a format: C68_refuted.'),
})
STATUS.update({
 'C69': ('partial', 'Proved for words in which dict. does not occur in a string as it is quoted. Else false: it is deleted in definitions (C69_refuted), in escapes, which makes the source invalid (C69_refuted_escape), and in keys, which can make them equal (C69_refuted_keys). The map is read from the source before it is formatted; the formatter is a parameter.'),
})
STATUS.update({
 'C65': ('partial', 'It does panic: C65_digit_panics, C65_interpreter_panics; C65_panics_exact says exactly for which inputs. All else is proved for all runs.'),
 'C68': ('partial', 'Two texts are printed alike if and only if their trees are the same but for the offsets and the modifiers of words. Modifiers (parentheticals, incidental clauses, vocatives, interjections, punctuation) are not printed: C68_refuted.'),
 'C70': ('partial', 'Proved for statements without line breaks in quotes, but for the kind of quotes, which is not printed. Else false: C70_refuted.'),
})
STATUS.update({
 'C69': ('partial', 'C69_exact: the words are read from the source if and only if dict. occurs in no string as it is quoted. Else it is deleted in definitions (C69_refuted), in escapes, which makes the source invalid (C69_refuted_escape), and in keys, which can make them equal (C69_refuted_keys). The map is read from the source by a reader for the literals of Go; gofmt is a parameter.'),
})
STATUS.update({
 'C15': ('partial', 'End panics on nodes with an empty list at the right edge, as a predication without terms and final particle (C15_parsed_panics), and both panic on the empty text. C15_end_exact and C15_parsed_exact say that it panics on no others. For all other nodes of parsed texts Start and End are the ends of the first and last words of the node, within the text, and Start < End.'),
})
STATUS.update({
 'C36': ('partial', 'Violated by the code: C36_refuted, C36_refuted_sentence. C36_parsed_exact says exactly when: of the parsed texts the interpreter panics on those in which it comes to a connection that it does not know (all but ru between sentences, ra, ru, ri elsewhere, roi between arguments, none between content clauses); the places to which it does not come are those Meets leaves out. C36_kind and C36_parsed_kind say which panics are runtime errors: only connections whose sides are of the wrong kind make them, and only unknown connectives make the panics with strings.'),
 'C43': ('partial', 'The handler always answers, and reports panics with strings. False for runtime errors, which are reported as fragment: C43_runtime_panic_hidden. C43_exact_partial says for which parsed texts the field is the logic of the text, and C43_kind_partial which panics are reported and which are hidden.'),
 'C45': ('partial', 'Tone-free only for well-formed headwords: C45_toned_key shows a headword that keeps a tone, and C45_tone_exact says exactly which keep one: those with two toned letters in one syllable. Load can also crash (C45_panics).'),
})
STATUS.update({
 'C21': ('partial', 'False for Word, which resets the wrong table: C21_word_aliases, and C21_word_shared for every text, offset and history. Proved for the results of Tree in all histories, and for all results in histories in which nothing is written between a call of Word and the next successful call of Text (C21_apart_partial); a successful call of Text ends all sharing, whatever was written before (C21_text_resets_partial).'),
})
STATUS.update({
 'C64': ('partial', 'The expectations change: failures whose kids were all shown before become leaves, which are listed as expectations of nothing (C64_refuted). C64_leaves_exact says exactly which failures are leaves afterwards. Proved for the rest, and that the leaves of the tree stay leaves.'),
})
STATUS.update({
 'C71': ('partial', 'Proved for all words but the particles of the classes lu, mi, po and mo, which carry the tone of a predicate, and moq with a question mark after it. False for some of these: C71_fails.'),
})
