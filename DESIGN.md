# Design

Target: `/repo` (eaburns/toaq, Go). Prover: Lean 4.33.0, Mathlib modules imported one at a time
where useful. No axioms are added; no `sorry`, `native_decide`, `bv_decide`.

## Trusted base

* Lean's kernel, and at most the axioms `propext`, `Classical.choice`, `Quot.sound`; the last section
  lists them for each theorem. Checks of finite tables use `decide +kernel`: reduction in the kernel,
  no further axiom.
* The hand transcription of the Go source. Every definition cites file and lines; where it
  simplifies, its comment says so, and the list below repeats it. The grammar is the exception: it is
  translated by `tools/gen_grammar.py` from `ast/toaq.peggy` and compared by it with the rule calls of the
  generated `ast/toaq.go`; that script is trusted.
* The semantics of Go as used: slices, maps, strings, interface dispatch, type assertions, panics.
* `Verif/Conformance.lean` runs the model on the inputs and expected outputs of the tests in `/repo`
  (translated by `tools/gen_conformance.py`). It checks the transcription on samples; nothing is
  proved from it.

## What is modelled

| part of /repo | model | remarks |
|---|---|---|
| `tone/tone.go` | `Tone/Model` | all functions; map iteration order is a parameter (C07) |
| `ast/nodes.go`, `ast/ast.go`, `ast/equal.go`, `ast/visit.go`, `ast/braces.go` | `AST/Basic`, `AST/Model` | all node types and methods |
| `ast/toaq.peggy`, `ast/toaq.go` (generated) | `Peg/Expr` (semantics), `Parse/Grammar` (rules as data), `Parse/Action` (actions) | accept and action passes with their memo tables; the node pass, which builds `peg.Node` trees; the fail pass, which builds error trees (`Peg/FailPass`) |
| `ast/parser.go` | `Parse/Parser` | the parser object as a state with tables; histories of `Tree`, `Text`, `Word` calls; errors with location and expectations (`Parse/Errors`) and message (`Parse/Message`) |
| `vendor/…/peggy/peg` | `Peg/Fail`, `Peg/Loc`, `Peg/Text` | `LeafFails`, byte offsets of errors, `Location`; `SimpleError` in `Peg/FailPass`; `Pretty` in `Peg/Pretty`, `DedupFails` in `Peg/Dedup` |
| `vendor/…/eaburns/pretty` | `AST/GoPrint`, `AST/Pretty`, `Logic/GoPrint` | `String` on syntax trees and on statements; `strconv.Quote` and `Fprintf` without operands in `AST/GoLib`, where `unicode.IsPrint` and unusual formats are parameters |
| `logic/interp.go` | `Logic/Interp` | all functions, with state, panics and fuel |
| `logic/simplify.go` | `Logic/Simplify` | all functions |
| `logic/string.go` | `Logic/Print` | all functions; map iteration order is a parameter |
| `logic/visit.go`, `logic/logic.go` | `Logic/Visit`, `Logic/Basic` | |
| `dict/dict.go` | `App/Dict` | after JSON decoding |
| `dict/main.go` | `App/DictGen` | the formatter is a parameter |
| `server/server.go` | `App/Server` | after the HTTP body is read |
| `bot/bot.go` | `App/Bot`, `App/BotParse` | as a function of the events the chat library delivers |
| `main.go` | `App/Main` | the errors of opening and reading are parameters |

Not modelled: network, JSON, the HTML template, the chat client, `flag`, `os`. `logic.NillOutAST` changes only the fields AST, which the
model of statements does not have.
In the models of the server, the bot and the tool they are parameters or left out.

## Modelling decisions

* In `Tone`, `AST` and `Logic` a Go string is a list of runes (`List Char`), iterated by rune; byte
  offsets are sums of UTF-8 sizes. The parser works on bytes with a UTF-8 decoder (`Peg/Utf8`), so
  C16–C24 and C46 hold for every byte string, valid or not.
* AST: one inductive type for Go's `Node` interface, with a kind tag for types defined over the same
  struct. Nil pointers and slices are `Option`. `Parse/Types` gives the Go static types of the grammar.
* Logic trees: one inductive type; sorts are a separate predicate (C50). Pointer identity, which
  matters for `Variable.Def`, for shared nodes and for the maps of the interpreter, is an explicit number.
* Panics are results and never ignored; a panic with a string and a run-time error are told apart.
* Recursion that is not structural takes fuel, and there is a theorem that fuel never runs out (C16,
  C34; `simplify` in `SimplifyTerm`).
* `unicode.IsPunct`, `IsSpace`, `ToLower`, `ToUpper` are parameters `U : Uni`; the hypothesis `U.Ok` fixes
  them on ASCII, where they are tabulated.

## Properties

Statements independent of the model are in `Tone/Spec`, `AST/Spec`, `Parse/Spec`, `Logic/Meaning`
(plain texts, orders of statements), `Logic/Sem` (models of logic), `Logic/Den` (texts in models), and at the head of the `…Props`
files. "False" means: the code violates the claim, a theorem shows a witness, and the claim is proved
with the restriction named.

| id | how it is stated and proved |
|----|------|
| C01–C06 | a grammar of syllables and words with their spelling; functions as folds over runes; tables by kernel decision, lifted by induction on syllables. A capital Q misplaces the marker |
| C07 | map-building loops over any permutation of the entries |
| C08, C09 | `Visit` as a trace of events for any visitor; bracket checker and word list as specification; mutual induction |
| C10 | `Equal a b ↔ erase a = erase b`, where `erase` forgets positions |
| C11 | words of `mod n m` are those of `n` and then of `m`. False at the right edge of a parenthetical (`C11_mod_paren_false`) |
| C12 | word list and structure compared |
| C13, C14 | checker for the kinds of brackets; projection to words |
| C15 | `Start` and `End` defined exactly when …. False for predications without terms and for the empty text. `C15_end_exact`: `End` panics exactly on nodes with an empty list at the right edge, where the right edge is the last child, the last child of that and so on. For parsed texts (`C15_parsed_exact`), from the order of the words in the text |
| C16 | PEG semantics with call depth; a rank on rules checked by the kernel bounds the depth for every input |
| C17–C19, C22, C23 | induction over evaluation for the grammar as data; a type system for actions (`Parse/Types`) checked by kernel decision. C18 is false for parentheticals, whose closing particle is moved behind what follows; all other words are in order (`Parse/Order`) |
| C20 | simulation between evaluation with and without memo tables, for every history of calls |
| C21 | addresses in the tables; false for `Word`, which resets the wrong table. `Parse/AliasExact`: for every word it returns; and a call of `Text` that returns a text ends all sharing |
| C24, C25 | induction over fail trees and text |
| C26, C27, C41 | slices as lists; slots by counting |
| C28, C29, C33 | mutual induction over logic trees |
| C30, C32 | injectivity of names; C30 is false for names in z |
| C31 | a reader of logical notation that reads back what the printer writes (`Logic/ReadProps`). False for quotations containing their closing mark |
| C34 | fuel for the interpreter (`InterpTerm`) |
| C35, C50 | invariants of the interpreter |
| C36 | false: connected content clauses, connected sentences with other particles than ru. Proved for trees of the parser's shapes (`PanicProps`) with the particles the interpreter knows, and so for parsed texts with known connections, by C51 and C53 (`Logic/ParsedPanic`). Exactly: `Meets` describes the connections to which the interpreter comes, and the run panics if and only if one of them is unknown (`Logic/PanicExact`, and `Logic/PanicParsed` for texts). The same induction, with the kind of panic as a parameter, tells runtime errors from panics with strings (`C36_kind`) |
| C37 | false: roi with an adverb (`C37_refuted`, `C37_wrong_reading`). Proved for plain texts |
| C38, C39, C47, C48 | characterisation on runes |
| C40 | all combinations, by induction on the tree of connectives |
| C42–C44, C52 | the handlers as functions; parser and interpreter plugged in. False for tone digits, which make the parser panic, and run-time errors, which are reported as fragments. `App/Exact` combines the exact forms of C36 and C46 |
| C45 | induction over entries; false for badly formed headwords, and exactly for those with two toned letters in one syllable (`App/DictTone`, from `C03_strip_exact`) |
| C46 | False for tone digits 1–7: `addTone` looks the digit up in `tone.Diacritic`, which has none, and indexes the empty result. Exact characterisation of the texts that panic, by induction over the evaluation of the grammar: a digit directly after the onset and first vowel of a syllable is consumed by the vowel rules, any other reaches that action |
| C49 | false for two connected arguments in one list of terms; else follows from C54 |
| C51 | the type system for actions is sound |
| C53 | a second type system for actions whose types are classes of words (`Parse/ClassTypes`); the base types come from an analysis of the languages of the word rules: sets of letters per position (`Parse/WordLang`), and the text of a word has the letters it was read from (`Parse/WordVal`). The classes are lists of words in `Parse/ClassSpec` |
| C54 | a compositional meaning of plain texts (`Logic/Meaning`), and the run of the interpreter computes it up to simplification |
| C55 | logic trees interpreted in models (`Logic/Sem`); simplification preserves truth. False for abstractions applied with missing arguments, restrictions about another variable, variables inside serial predicates |
| C56 | a compositional meaning of texts, directly in models (`Logic/Den`), with no variables or logic trees; one induction over the fuel of the interpreter relates all its functions to it (`DenState`: what a state means; `DenRes`: what a run must achieve; `DenRun`: all functions; `DenTop`: texts). False for connected arguments of prepositions, and where C37 and C49 are; the texts proved are described by `okSent` |
| C57 | the fail pass as a big-step relation (`FRun`); invariants of the trees it builds (`Pool`: addresses identify nodes); at the end of the text it agrees with the accept pass, and whatever failed there leaves a node (`FRun.grows`). False inside texts and for `Word` |
| C58 | texts related by a fold of characters; a simulation of the Accepts, Node and Action interpreters on two inputs (`Sim`, `AlgSim`): no terminal of the grammar tells the spellings apart, and every action commutes with respelling (`runAct_respell`) |
| C59 | the interpreter is run on a syntax tree and on the tree with other spellings and other identities of arguments (`reQ`); every function of the interpreter is a homomorphism (`Hom`, `FHom`), since it looks at words only through `hasText`, `splitVar`, `wordPred` and `isHoa` (`SameWord`); composed with C58's simulation |
| C60 | a type for what each rule of the grammar returns (`TTy`: a syllable of a tone, a phrase whose first word has a tone, ...), checked of all rules by one evaluation (`rules_table`) and sound for the Action interpreter (`inferT_ok`); the syllables of each tone are the strings the syllable rules can build (`syl_table`). It also shows that Q ends syllables, which C59 uses |
| C61 | a text is a list of items, each a syllable with its tone or a separator; the words are windows of the text on which the rules for syllables and particles are run symbolically (`pev`, sound by `pev_ok`), with equal outcomes for all ways to write a syllable (`NoteTab1`–`NoteTab4`); above the rules for words the two runs are simulated item by item (`ev_leaves`); composed with C58's simulation for spelling |
| C62 | C61's simulation with an injective renumbering of offsets; the interpreter is invariant under it (`discourse_re` of C59, with quotes, whose text does not depend on offsets); in texts of small letters the words are the same; in texts without quotes words with a breve or capitals are words the interpreter cannot tell from their standard spelling (only the first vowel of a parsed word can have a breve); a quote with a breve refutes the rest |
| C63 | Model of `prettyWrite`; the print is injective on trees whose leaves are single runes and whose other texts are those of the kids (a character after a quotation mark decides); an invariant of the evaluation shows that trees of the parser are such, and names of rules are read off the generated parser (`tools/gen_names.py`) |
| C64 | Model of `DedupFails` with addresses; induction on the tree with the set of nodes seen; errors of the parser have trees with consistent addresses and positions that do not decrease. Refuted for the expectations: `Peg/DedupExact` says exactly which nodes become leaves |
| C65 | Model of `main`; by C19, C20, C34, C57 and C64 every run is one of the cases of an inductive specification |
| C66 | The words of the Fail functions are extracted from `toaq.go` and compared with the model of the grammar in a theorem; the loop of `SimpleError` is proved against an inductive definition of a list in English. False: repetitions, and excerpts cut inside characters |
| C67 | By induction over the evaluation of the grammar: how often an argument of given identity occurs in the result of a rule is bounded by one if the identity lies in the span of the rule, else by zero; words attached later keep the bound (`Parse/ArgPlaces`) |
| C68 | Model of what `print` sees of a tree by reflection, of the methods `PrettyPrint` of words, and of what is written; the print is injective on such values if no word has a quotation mark (the first character tells the kind, the indentation ends a list), and a well-sorted tree, but for offsets and modifiers, is determined by what is seen of it; the words of a text have none, by their form (`Parse/ToneSpec`). False for modifiers |
| C69 | Model of the generator with %#v of a map and `strings.Replace`; a reader of string literals, numbers and composite literals is written from the Go specification, and what it reads from the source is proved to be the map, as quotation marks separate what the replacement can change. False for words with "dict.". Exactly: what is deleted makes the strings shorter (`App/DictExact`) |
| C70 | Model of `pretty.String` on statements after `NillOutAST`; a value is determined by what is printed if what is printed at once is on one line, by comparing first lines. False with line breaks in quotes and for the kind of quotes |
| C71 | By induction over the evaluation of the grammar, every word of a tree was read by the rule for predicate words or a rule for particles, between its offsets; at an offset there is a syllable with at most one tone (finite tables of what the rules of syllables read, lifted by `lang_ok`), so the rules of `Word` read the same (`Parse/Prov`, `Parse/WordAt`). The spaces of a tree come from the rule for spaces, which `Word` uses too, or are the question marks after moq, which a space cannot precede (at most one rune ends at an offset); with the tiling of C17 this gives what follows the bytes of `Word`, and by induction over the words of the text what a program gets that reads it word by word until `Word` finds none (`Parse/WordNext`). False for some particles with tone and for moq with a question mark |

## Findings about the code

Each is a theorem or an `example`, unless marked (read), which means found by reading the source.

* `tone.ToASCII` misplaces the marker after a capital Q (C01).
* `mod` and the parser reorder words around parentheticals (C11, C18).
* `Predication.End` panics for "gi?" and `Text.Start`, `End` panic for the empty text (C15).
* `Parser.Word` resets the table `node` instead of `act`, so later results alias (C21); its end offset
  includes the space after the word (C23); an offset out of range panics (read).
* Digits as tone marks make the parser panic (C46); one such request gets no answer (C42), one such
  message ends the bot (C52).
* `merge` keeps duplicates its comment excludes (C27). Sharing leaves gaps in numbers (C29).
* Variable names collide for predicates in z or y (C30). Quotations are not escaped (C31).
* The interpreter panics on connected content clauses, on connected sentences without ru, on roi, ro
  and re between predicates (C36), but not in the relative clause of a hoa that nothing binds, and not in the right
  one of the connected arguments of a preposition; the server hides run-time errors as "fragment" (C43).
* roi with an adverb leaves a variable unbound, and another reading is wrong (C37).
* Connected arguments lose combinations when two of them are terms of one list (C49).
* Simplification is unsound when an applied abstraction misses an argument, when a restriction is an equation about
  another variable, and for variables inside serial predicates (C55).
* The interpreter uses the left one of the connected arguments of a preposition twice (C56).
* Some syntax errors inside a text, and all syntax errors of `Word` on a fresh parser, are reported at offset 0 with nothing
  expected (C57).
* A capital D makes a variable a predicate, a capital I makes another variable (C59).
* "moq?" is read as the particle moq and a question mark, "mỏq" as a word (C61).
* `DedupFails` makes leaves of failures whose kids were shown before; a message made from the result lists expectations
  of nothing (C64). `main.go` makes the message from the tree it was given before.
* The command-line tool panics for digits as tone marks without printing anything (C65).
* Error messages repeat expectations, and cut the excerpt of the text after ten bytes, which can be inside a
  character (C66).
* The printed syntax tree leaves out the modifiers of words: parentheticals, incidental clauses, vocatives, interjections and
  punctuation; `Interjection` is printed with a brace that is not opened (C68).
* The printed statement does not say of which kind quotes are, and a quote with a line break can look like two quotes (C70).
* `Word` returns tío and jẻı without their tone if its mark is at the end of the word (`tio/`), and an error for `moq?` (C71).
* The generator of the dictionary deletes "dict." in the words and definitions too; this loses text, and can make the
  source invalid, after the old file was emptied (C69).
* A quote keeps the breve of a word, while the ASCII tone marks and combining characters give a caron, so two ways to
  write a text mean different things (C62).
* `clearHiFreeVarDefs` unbinds too much (read); `Equal` panics on bare
  `CoP` and `LUPhrase` (read; the grammar builds none); the end of text accepts U+FFFD (read); the interjection "m"
  cannot be parsed (read).

## Tests against wrong programs

`tools/mutate.py` edits the model in a scratch copy, rebuilds, and records in `seeded/LOG.jsonl` which
theorems fail. Edits no theorem noticed led to tightened or new properties (field `tightened`).

## Axioms of each theorem

Generated by `tools/gen_axioms.py` from `#print axioms`.

* **none**: `C11_mod_nil`, `C15_empty_text_panics`, `C15_end_panics`

* **propext**: `C08_visit`, `C11_mod_appends_partial`, `C11_mod_perm`, `C11_mod_words`, `C15_end_partial`, `C15_start`, `C29_only_numbers`, `C29_shared_gap`, `C38_no_quantifier`, `C38_unique`, `C01_toASCII_word`, `C02_toASCII_ascii`, `C03_strip_no_marker`, `C04_withTone_first_i`, `C04_withTone_first_vowel`, `C04_withTone_no_vowel`, `C05_withTone_word`, `C07_skip_needed`

* **propext, Quot.sound**: `C08_balanced`, `C08_count`, `C08_entered_iff`, `C08_preorder`, `C08_trace_eq`, `C08_words_in_order`, `C09_prune`, `C09_prune_trace`, `C10_equal_iff`, `C10_refl`, `C10_shift`, `C10_symm`, `C10_trans`, `C11_mod_core`, `C12_toASCII`, `C12_words`, `C13_balanced`, `C14_words`, `C15_end_exact`, `C15_end_or_panics`, `C45_word_key`, `C33_preorder`, `C41_swap`, `C48_quote`, `C55_refuted_own`, `C55_refuted_serial`, `C25_location`, `C25_location_after_end`, `C25_location_inside`, `C64_below`, `C01_toASCII_word_ascii`, `C02_toASCII_idem`, `C03_strip_idem`, `C03_strip_tone_blind`, `C03_strip_word`, `C05_tone_withTone`, `C05_tone_word`, `C07_tables_order_independent`

* **propext, Classical.choice, Quot.sound**: `C11_mod_paren_false`, `C42_answers_partial`, `C42_crash`, `C42_crash_iff`, `C42_error`, `C42_error_iff_rejected`, `C42_fields`, `C43_exact_partial`, `C43_kind_partial`, `C43_known_partial`, `C43_no_panic`, `C43_reported_partial`, `C43_runtime_panic_hidden`, `C44_answers`, `C44_taken`, `C45_keys`, `C45_last_wins`, `C45_panics`, `C45_tone_exact`, `C45_toned_key`, `C52_dies_exact`, `C52_dies_iff`, `C52_digit_kills`, `C52_interpreter_kills`, `C52_known_survives_partial`, `C52_reply`, `C52_survives_partial`, `C65_digit_panics`, `C65_interpreter_panics`, `C65_known_partial`, `C65_panics_exact`, `C65_runs`, `C65_status`, `C69_exact`, `C69_generated_partial`, `C69_refuted`, `C69_refuted_escape`, `C69_refuted_keys`, `C69_status`, `C26_order`, `C27_merge`, `C27_merge_keeps_dups`, `C28_addHoa`, `C28_complete`, `C28_idempotent`, `C29_bound`, `C29_contiguous`, `C29_distinct`, `C29_plain`, `C30_names`, `C30_order`, `C30_z_collides`, `C32_pretty`, `C32_runes`, `C33_once`, `C33_visit`, `C34_terminates`, `C35_fragments_ignored`, `C35_nil_iff_fragments`, `C36_exact`, `C36_exact_panic`, `C36_interprets_partial`, `C36_kind`, `C36_no_panic_partial`, `C36_parsed_exact`, `C36_parsed_exact_panic`, `C36_parsed_kind`, `C36_parsed_partial`, `C37_partial`, `C38_connector`, `C38_exclusive`, `C38_hasText`, `C38_hoa`, `C38_mi`, `C38_place`, `C38_po`, `C38_quantifier`, `C39_capital`, `C39_order`, `C39_same`, `C39_splitVar`, `C40_distributes`, `C40_serial_pairs`, `C41_involution`, `C41_perm`, `C47_wordPred`, `C49_partial`, `C50_sorted`, `C54_meaning`, `C55_numbering`, `C55_refuted_missing`, `C55_simplify_partial`, `C55_statement_partial`, `C59_refuted`, `C59_refuted_i`, `C59_spelling_partial`, `C62_letters_partial`, `C62_notation_partial`, `C62_refuted`, `C70_refuted`, `C70_statement_printed_partial`, `C37_clauses_partial`, `C56_interpret_partial`, `C56_meaning_partial`, `C56_refuted_preposition`, `C36_refuted`, `C36_refuted_sentence`, `C37_refuted`, `C37_wrong_reading`, `C49_refuted`, `C31_numbered`, `C31_pretty`, `C31_refuted`, `C31_regroup`, `C31_sequence`, `C31_string`, `C15_parsed_exact`, `C15_parsed_panics`, `C15_parsed_partial`, `C16_no_left_recursion`, `C16_terminates`, `C17_whole_text`, `C18_parenthetical_reorders`, `C18_words_tile_partial`, `C19_tree_text_agree`, `C20_memo_transparent`, `C21_apart_partial`, `C21_no_alias_partial`, `C21_text_resets_partial`, `C21_tree_unaffected`, `C21_word_aliases`, `C21_word_shared`, `C22_tree_text`, `C22_tree_total`, `C23_normalised`, `C23_word_call`, `C46_digit_panics`, `C46_no_panic_partial`, `C46_panics_iff`, `C46_word_partial`, `C51_well_sorted`, `C53_classes`, `C57_end_partial`, `C57_outcomes`, `C57_refuted`, `C57_refuted_word`, `C57_reported`, `C58_spelling`, `C60_tones`, `C60_words`, `C61_notation_partial`, `C61_refuted`, `C61_refuted_number`, `C63_printed_text`, `C63_printed_tree`, `C64_errors`, `C64_refuted`, `C66_message`, `C66_place`, `C66_refuted_once`, `C66_refuted_utf8`, `C66_utf8_iff`, `C67_distinct`, `C68_printed_partial`, `C68_refuted`, `C71_fails`, `C71_next_partial`, `C71_scan_partial`, `C71_word_at_partial`, `C24_byteOffset`, `C24_first_leaf`, `C24_leafFails`, `C64_firsts`, `C64_leaves_exact`, `C64_leaves_partial`, `C64_offset`, `C64_once`, `C01_capital_Q_misplaces_marker`, `C02_not_idem_in_general`, `C03_strip_exact`, `C05_tone_none_not_read_back`, `C05_withTone_last_wins`, `C06_withTone_panics_iff`
