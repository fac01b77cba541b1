#!/usr/bin/env python3
"""Writes /verif/properties.jsonl (kept as a script so that quoting stays right)."""
import json
P = []
def p(title, statement, quantifier, why, anchors):
    P.append(dict(id="C%02d" % (len(P)+1), title=title, statement=statement, quantifier=quantifier,
                  why_tests_cant=why, anchors=anchors))

# ---- tone -------------------------------------------------------------
p("ToASCII spells every Toaq word",
  "For every Toaq word (a sequence of syllables: consonants, a vowel carrying a tone diacritic or none, further plain vowels, an optional final q) tone.ToASCII returns exactly the word's ASCII spelling: each syllable's letters in order, dotless i written i, followed by that syllable's tone marker (one of - / V ? ^ \\ ~) when it has one. In particular the result is pure ASCII.",
  "all words of any number of syllables and any syllable lengths",
  "The set of words is infinite and the tone marker is carried across characters; tests try seven words.",
  ["tone/tone.go:ToASCII", "tone/tone.go:Diacritic", "tone/tone.go:ascii", "tone/tone.go:tone"])
p("ToASCII is the identity on ASCII and idempotent on words",
  "tone.ToASCII returns an ASCII string unchanged, so converting an already converted Toaq word changes nothing: ToASCII(ToASCII(w)) = ToASCII(w) for every Toaq word w. (For arbitrary strings this fails: a string with two toned vowels in one syllable is not converted to ASCII.)",
  "all ASCII strings; all Toaq words",
  "Infinite domain; idempotence over all words cannot be enumerated.",
  ["tone/tone.go:ToASCII"])
p("Strip removes every tone and only tones",
  "tone.Strip never returns a string containing a tone marker, whatever its input; and on a Toaq word it returns exactly the ASCII letters of the word, capitalisation preserved, so two words that differ only in tone have the same Strip.",
  "all strings; all Toaq words",
  "Infinite domain.",
  ["tone/tone.go:Strip", "tone/tone.go:toneNameRunes"])
p("WithTone changes only the first vowel",
  "tone.WithTone(s, t) returns s with exactly one rune changed, the first vowel (toned or not); every rune before and after it is unchanged and a string without vowels is returned unchanged. The changed rune has the same base letter (i and dotless i identified) and the same case.",
  "all strings and all eight tones including None",
  "Infinite domain.",
  ["tone/tone.go:WithTone", "tone/tone.go:vowels"])
p("Setting a tone is read back and the last tone wins",
  "For every string s with a vowel, WithTone(WithTone(s,t1),t2) = WithTone(s,t2); and for every Toaq word w and tone t, Tone(WithTone(w,t)) = t when t is not None.",
  "all strings, all pairs of tones; all Toaq words",
  "Infinite domain, algebraic law.",
  ["tone/tone.go:WithTone", "tone/tone.go:Tone"])
p("WithTone panics exactly on unknown tones",
  "tone.WithTone(s,t) panics if and only if t is neither None nor one of the seven tone runes and s contains a vowel.",
  "all strings and all runes t",
  "Infinite domain of strings and runes.",
  ["tone/tone.go:WithTone", "tone/tone.go:Diacritic"])
p("Derived tone tables do not depend on map iteration order",
  "The package-level tables tone, ascii and the vowel set of package tone, and the o-letter table of package logic, are built by iterating over Go maps in an unspecified order. Every iteration order of the outer and inner maps yields tables that answer every lookup alike.",
  "all orders in which the runtime may enumerate the map entries",
  "Go randomises map order per run; a test sees one order per run.",
  ["tone/tone.go:tone", "tone/tone.go:ascii", "tone/tone.go:vowels", "logic/interp.go:oLetters"])

# ---- ast --------------------------------------------------------------
p("ast.Visit calls are properly nested and complete",
  "For every AST and every visitor, the calls made by ast.Visit form a properly nested bracket sequence: each call with a node whose visitor returns non-nil is matched by exactly one later call with nil, after all calls for its children. A visitor that never returns nil is called for every node of the tree exactly once, in depth-first pre-order.",
  "all ASTs of any depth, all visitors that keep going",
  "Unbounded trees.",
  ["ast/visit.go:Visit", "ast/visit.go:FuncVisitor"])
p("A visitor returning nil prunes exactly the subtree",
  "When a visitor returns nil for some nodes, ast.Visit makes the calls of the full traversal minus those for the descendants of such nodes and their closing nil call, and nothing else is skipped.",
  "all ASTs, all pruning predicates",
  "Unbounded trees and arbitrary visitors.",
  ["ast/visit.go:Visit"])
p("ast.Equal is equality up to byte offsets",
  "For every two ASTs built from the exported node types other than bare CoP and LUPhrase, ast.Equal(a,b) is true exactly when a and b are the same tree after forgetting the S and E offsets of all words; hence Equal is reflexive, symmetric and transitive.",
  "all pairs (triples) of ASTs",
  "Unbounded trees; a missed field in one of 40 cases is invisible to a test that does not vary it.",
  ["ast/equal.go:Equal", "ast/equal.go:copEqual", "ast/equal.go:wordEqual"])
p("Attaching a modifier appends it and loses nothing",
  "Attaching a free modifier m to any AST node n (the mod methods used by all grammar actions) yields a node whose words, in Visit order, are exactly the words of n followed by the words of m.",
  "all nodes and all modifiers",
  "Unbounded trees.",
  ["ast/ast.go:mod", "ast/ast.go:modNode", "ast/ast.go:Parenthetical.mod"])
p("ast.ToASCII rewrites the text of every word and nothing else",
  "ast.ToASCII(n) replaces the T field of every Word below n, including words inside modifiers, by tone.ToASCII of it, and changes nothing else: node structure and offsets are preserved.",
  "all ASTs", "Unbounded trees.", ["ast/ast.go:ToASCII", "tone/tone.go:ToASCII"])
p("BracesString is well bracketed",
  "For every AST whose words contain no bracket characters, BracesString(n) is a well-bracketed string over () {} [] <> in which a bracket pair at nesting depth d is the (d mod 4)-th kind.",
  "all ASTs of any depth", "Unbounded depth; wrap-around of the bracket kinds happens only below depth 4.",
  ["ast/braces.go:BracesString", "ast/braces.go:braceKids"])
p("BracesString shows every word in order",
  "Deleting brackets and the separating spaces from BracesString(n) leaves the concatenation of the texts of all non-space words of n in Visit order.",
  "all ASTs", "Unbounded trees.", ["ast/braces.go:braces", "ast/braces.go:braceKids"])
p("Start and End are total and delimit the node",
  "For every node of a parsed text Start() and End() do not panic and Start() <= End().",
  "all parsed texts and all their nodes", "Infinite inputs.", ["ast/ast.go:Start", "ast/ast.go:End", "ast/ast.go:Predication.End"])

# ---- parser -----------------------------------------------------------
p("Parsing terminates on every text",
  "ast.NewParser(text).Text() and Tree() terminate for every text: no grammar rule can call itself, directly or indirectly, without consuming input, and no repetition body accepts the empty string.",
  "all texts", "Non-termination on an untested text is not observable by finitely many tests.",
  ["ast/toaq.peggy", "ast/toaq.go", "ast/parser.go:Parser.Text"])
p("A successful parse accounts for the whole text",
  "When Text() succeeds, the parse covers the whole input: everything up to the end of the text, or up to the first U+FFFD rune (which the generated end-of-input test cannot tell from the end), is consumed.",
  "all texts", "Infinite inputs.", ["ast/toaq.peggy:full_text", "ast/toaq.peggy:EOF", "ast/toaq.go:_EOFAccepts"])
p("The words of a parsed text tile the input",
  "When Text() succeeds, listing all words of the AST in Visit order (modifiers included), each word starts at the byte where the previous one ended, the first starts at 0 and the last ends at the end of the consumed text: no input is lost, duplicated or reordered.",
  "all texts", "Infinite inputs.", ["ast/toaq.peggy", "ast/nodes.go", "ast/ast.go:mod"])
p("Tree and Text agree",
  "For every text, Tree() returns an error if and only if Text() does; so a Text() call after a successful Tree() cannot fail (main.go and server.go panic if it does).",
  "all texts, either call order", "Infinite inputs and histories.", ["ast/parser.go:Parser.Text", "ast/parser.go:Parser.Tree", "main.go:main", "server/server.go:rootHandler"])
p("Memoisation is transparent",
  "The packrat memo tables never change a result: for every text, every sequence of rule invocations on one parser returns for each the result that a fresh parser without memo tables would return.",
  "all texts, all call histories on one parser", "Depends on the history of calls, unbounded.",
  ["ast/toaq.go:_memo", "ast/toaq.go:_memoize", "ast/parser.go:Parser"])
p("Results of separate calls do not alias",
  "The value returned by Text, Tree or Word may be modified by the caller without affecting what later calls on the same parser return (as the comments in parser.go promise).",
  "all call histories", "Histories and mutations are unbounded.", ["ast/parser.go:Parser.Word", "ast/parser.go:Parser.Text", "ast/parser.go:Parser.Tree"])
p("The parse tree reproduces the text",
  "In the tree returned by Tree() the Text of every inner node is the concatenation of the Texts of its kids, and the root's Text is the consumed input.",
  "all texts", "Infinite inputs.", ["ast/toaq.go:_node", "ast/toaq.go:_sub", "ast/toaq.go:_leaf", "vendor/github.com/eaburns/peggy/peg/peg.go:Node"])
p("Word texts are the normalised input slices",
  "Every word's T is the normalisation of text[S:E] (plain i becomes dotless i, a vowel followed by a tone marker becomes the diacritic vowel): its ASCII letters, ignoring tone, are those of the input slice.",
  "all texts", "Infinite inputs.", ["ast/toaq.peggy:syllable", "ast/nodes.go:addTone"])
p("Error positions are the deepest failures",
  "For every non-empty failure tree, LeafFails returns exactly the leaves with the greatest position, in first-occurrence order, and ByteOffset returns that position.",
  "all failure trees", "Unbounded trees.", ["vendor/github.com/eaburns/peggy/peg/fail.go:LeafFails", "ast/parser.go:byteOffset"])
p("Line and column are correct",
  "peg.Location(text, b) for a rune boundary b inside the text terminates and returns Line = 1 + number of newlines before b, Column = 1 + number of runes since the last newline, Rune = number of runes before b.",
  "all texts and offsets", "Infinite inputs.", ["vendor/github.com/eaburns/peggy/peg/loc.go:Location"])

# ---- logic ------------------------------------------------------------
p("Linked arguments land in their places",
  "orderArguments never indexes out of range; an argument with a place word lands in that place (the last one wins), and the arguments without place fill the free places from left to right, in order, none lost.",
  "all argument lists", "Unbounded lists.", ["logic/interp.go:orderArguments", "logic/interp.go:goPos"])
p("merge computes a union",
  "merge(l, r) contains exactly the elements of l and r.", "all int slices", "Unbounded lists.", ["logic/simplify.go:merge"])
p("Implicit hoa is added exactly to bare restriction predications",
  "After adding implicit hoa, every argument-less predication directly in a binding's restriction that does not mention the bound variable has that variable as its single argument; everything else is unchanged; doing it twice changes nothing more.",
  "all logic trees", "Unbounded trees.", ["logic/simplify.go:addHoa"])
p("Variable numbering is consistent",
  "After simplification of a tree in which no node is shared, binding numbers are 0,1,2,... in pre-order interleaved with free variables, distinct bindings have distinct numbers, and every bound variable carries its binding's number.",
  "all logic trees", "Unbounded trees.", ["logic/simplify.go:sequenceVarNums"])
p("Distinct variables print with distinct names",
  "Whether String prints with letter names or with numbers, two variables get the same name only if they are the same variable, and the names do not depend on Go's map iteration order.",
  "all logic trees whose restrictions use Toaq words or operators as predicates, all orders of map iteration", "Unbounded numbers of variables.", ["logic/string.go:print", "logic/string.go:varRune"])
p("String is unambiguous",
  "Two logic trees whose String outputs agree, or whose PrettyString outputs agree, are the same up to re-association of equal connectors and of serial composition and a one-to-one renumbering of variables; if both number their variables in order of occurrence, as Interpret does, the numbers are the same too. Conversely re-association does not change the output.",
  "all pairs of well-sorted logic trees whose predicate names are words in small letters or the two operators and whose quotations do not contain their closing mark (String does not escape it; without this the claim is false)", "Quantifies over all pairs.", ["logic/string.go:String", "logic/string.go:parens"])
p("PrettyString is String with prettier code points",
  "PrettyString(n) is String(n) with the quantifier iota and the capital letters of variable names replaced by their pretty code points, nothing else.",
  "all logic trees", "Unbounded trees.", ["logic/string.go:PrettyString", "logic/string.go:mathItalicCapitalLetters"])
p("logic.Visit visits every node once, in pre-order",
  "Node.Visit calls the function for every non-nil node of the logic tree exactly once, parents before children, left to right.",
  "all logic trees", "Unbounded trees.", ["logic/visit.go:Visit"])
p("Interpret is total in time",
  "Interpret terminates on every AST.", "all ASTs", "Non-termination is not observable by tests; the interpreter re-writes the AST while recurring.", ["logic/interp.go:Interpret"])
p("Interpret returns nil exactly for fragments",
  "When Interpret returns, it returns nil exactly when the text contains no sentence.", "all texts", "Infinite inputs.", ["logic/interp.go:Interpret", "logic/interp.go:discourse"])
p("Interpret does not panic on parsed text",
  "Interpret does not panic on the AST of any successfully parsed text.", "all texts", "Infinite inputs.", ["logic/interp.go:connector", "logic/interp.go:predicate", "logic/interp.go:relativeClause"])
p("Interpreted variables are bound where they occur",
  "In the result of Interpret, every variable with a definition occurs inside the restriction or scope of that binding.", "all texts", "Infinite inputs.", ["logic/interp.go:hasFreeVars", "logic/interp.go:clearHiFreeVarDefs", "logic/simplify.go:sub"])
p("Function words are recognised case- and tone-insensitively",
  "hasText(w,b) holds exactly when w, with its first tone removed, equals b up to letter case and dots on i; so each connector, quantifier and place word is recognised in any capitalisation, and at most one of the alternatives matches.",
  "all words", "Infinite inputs.", ["logic/interp.go:hasText", "logic/interp.go:connector", "logic/interp.go:quantifier", "logic/interp.go:goPos"])
p("do-variables are recognised exactly",
  "splitVar succeeds exactly on words that start with a lower-case d followed by a toned o that ends its syllable, and returns the tone and the untoned lower-case name; two words name the same variable exactly when they differ only in the tone of that o and in case.",
  "all words", "Infinite inputs.", ["logic/interp.go:splitVar"])
p("Predicate connectives distribute",
  "A predication of a connected predicate becomes the connection of the predications with the same arguments, for any nesting, and serial predicates distribute over connectives on both sides; the number of resulting predications is the product of the numbers of alternatives.",
  "all nested predicate connectives", "Unbounded nesting.", ["logic/interp.go:distributePredication", "logic/interp.go:serialPredicateLeft", "logic/interp.go:serialPredicateRight"])
p("Argument swap is an involution that keeps arguments",
  "Applying a swap to an argument list exchanges places 0 and Pos, padding with holes, and loses no argument; swapping twice restores the arguments up to trailing holes.",
  "all argument lists", "Unbounded lists.", ["logic/simplify.go:swap"])

# ---- programs ---------------------------------------------------------
p("The HTTP handler answers every request",
  "rootHandler answers GET with the page, POST with one JSON object and any other method with status 405; the POST object has either the single key Error or exactly the keys Braces, AST, Text, Parse, Logic.",
  "all methods, bodies and parser outcomes", "Infinite inputs.", ["server/server.go:rootHandler", "server/server.go:safeInterp"])
p("A panicking interpreter does not take the server down and is reported",
  "If Interpret panics the handler still answers, and the Logic field reports the bug.", "all panics", "Depends on the kind of panic value.", ["server/server.go:safeInterp"])
p("The bot answers exactly the .miu messages",
  "The bot replies to a message exactly when its text, after removal of the bridge prefix up to the first ': ' for messages from ToaqBridgeBot, starts with .miu, and it parses the trimmed remainder.",
  "all message streams", "Infinite histories.", ["bot/bot.go:run", "bot/bot.go:fixBridgeMessage"])
p("Dictionary keys are the normalised headwords",
  "In the map returned by dict.Load every key equals its entry's Word, is lower case and tone-free; an entry is found under the normalisation of its headword and among entries with equal normalisation the last one wins.",
  "all dictionary responses", "Infinite inputs.", ["dict/dict.go:Load"])

p("Building the AST of an accepted text does not panic",
  "For every text the grammar accepts, Text() returns an AST; it does not panic while running grammar actions.",
  "all accepted texts", "Infinite inputs.", ["ast/nodes.go:addTone", "ast/toaq.peggy:syllable", "ast/parser.go:Parser.Text"])

p("Predicate names are the letters of the word",
  "The name of the predicate made from a word consists of exactly the letters of the word, lower-cased, without tone and with dotted i, except that mea and jeqtu become the signs for among and equality; so a word in another tone or case names the same predicate.",
  "all words", "Infinite inputs.", ["logic/interp.go:wordPred"])
p("Quoted text is the text of the quoted words",
  "The text of a quote made by mi, shu or mo is the concatenation, in order, of the words of the quoted part, without surrounding white space.",
  "all syntax trees", "Infinite inputs.", ["logic/interp.go:toString"])
p("Connected arguments distribute over all combinations",
  "A predication with several connected arguments becomes the connected statement in which every combination of one alternative for each argument occurs.",
  "all predications with any number of connected arguments", "The number of connected arguments is unbounded, and the fault needs at least two.", ["logic/interp.go:prenexStatement", "logic/interp.go:withTerm0"])

p("The interpretation is well-sorted",
  "Whatever the syntax tree, the tree returned by Interpret is a statement in which statements, predicates and arguments stand exactly where their kind is allowed; simplification never puts an argument in the place of a statement or predicate.",
  "all syntax trees", "Infinite inputs; substitution and distribution move subtrees around.",
  ["logic/interp.go:Interpret", "logic/simplify.go:simplify"])

p("Parsed syntax trees are well-formed",
  "In the AST returned by Text() every field holds a node of the kind declared for that position by the grammar (sentences hold statements, predications predicates, terms arguments, adverbs or prepositions, connectives two phrases of their own kind, ...), term lists and inner discourses are not empty, forethought markers come in pairs, and no bare CoP or LUPhrase value and no PrefixedPredicate occurs.",
  "all texts", "Infinite inputs; the grammar is polymorphic and the fields have interface types.",
  ["ast/toaq.peggy", "ast/nodes.go", "ast/parser.go:Parser.Text"])

p("The bot's answer",
  "For every .miu message the bot says 'syntax error ...' exactly when the text does not parse, and otherwise the text in braces on one line (unless that is empty) and then 'fragment' or the PrettyString of its logic; no message takes the bot down.",
  "all message texts", "Infinite inputs; the bot does not recover from panics.", ["bot/bot.go:parse", "bot/bot.go:run"])

p("Particles belong to their classes",
  "In the syntax tree of a parsed text every field for a particle holds a word of the class the field is for, in any case and tone: a quantifier is one of ke, tu, sia, sa, hi, ja; a connective one of ra, ru, ri, roi, ro, re; a place word one of go, fi, cu, ta; and so on.",
  "all texts", "Infinite inputs; the grammar matches words by lookahead and syllable rules.",
  ["ast/toaq.peggy", "ast/nodes.go"])
p("The meaning of plain texts",
  "For every text whose sentences are built of word predicates, quantified word arguments, place words, prenexes and connectives, Interpret returns, up to numbers and names of variables, the statement in which arguments with ke of the whole text are bound outermost in the order they are met, arguments with hi around their sentence, the other arguments where they stand; connectives of predicates, arguments and statements become connectives of statements; every argument is in its place; sentences are joined by 'and'.",
  "all plain texts, of any size", "Infinite inputs, and most of the interpreter's mutable state takes part.",
  ["logic/interp.go:Interpret", "logic/interp.go:discourse", "logic/interp.go:statement", "logic/interp.go:prenexStatement", "logic/interp.go:predicateArgument", "logic/simplify.go:simplify"])
p("Simplification preserves meaning",
  "simplify changes neither truth conditions nor references: in every model in which the substituted quantifier means 'the (or every) x equal to e' the simplified statement has the value of the original.",
  "all statements and all models", "Infinite inputs and infinitely many models.", ["logic/simplify.go:simplifyStatement", "logic/simplify.go:sub"])

p("The meaning of texts with clauses",
  "For every text, the statement made by the interpreter says, in every model of the logic, what the text says when its phrases are read one by one: relative clauses restrict their argument, hoa in them is that argument, a named variable stands for what its quantifier binds, content clauses, po, mi, mo and lu make the predicates they stand for, roi joins arguments to a plurality, adverbs and prepositions are said of what follows them, connectives of any phrases connect what is said with each side, definite arguments that mention no variable are bound around the whole text, and sentences are joined by 'and'.",
  "all texts and all models", "Infinite inputs and infinitely many models; the meaning depends on the interpreter's stacks of names and lists of pending bindings.",
  ["logic/interp.go:Interpret", "logic/interp.go:discourse", "logic/interp.go:predicateArgument", "logic/interp.go:withTerm0", "logic/interp.go:predicate", "logic/interp.go:relativeClause", "logic/interp.go:adverb", "logic/interp.go:preposition"])

p("Syntax errors are located and explained",
  "When Text, Tree or Word rejects a text the call returns an error, whatever was called before: building it does not panic or loop. Its offset, line and column are those of a rune boundary of the text; it is located at the furthest position the parser reached, and lists at least one expectation there, and none that the text meets.",
  "all texts and all histories of calls on one parser", "Infinite inputs and histories; the error is built by a fourth pass over memo tables that other calls filled.",
  ["ast/parser.go:Parser.parse", "ast/toaq.go:_failMemo", "ast/toaq.go:_full_textFail", "vendor/github.com/eaburns/peggy/peg/fail.go:SimpleError"])

p("Spelling does not change the parse",
  "Take two texts that differ only in capital letters (other than the tone mark V), in writing i with or without its dot, and in writing a breve for a caron. Whatever was called before on either parser, Tree, Text, and Word at the same character succeed on both or fail on both at the same character; the trees have the same structure, and the words the same letters but for spelling, at the same characters of the text.",
  "all pairs of such texts and all histories of calls", "Infinite inputs; the letters are encoded in one to three bytes, so that all offsets differ.",
  ["ast/toaq.peggy", "ast/parser.go:Parser.Text", "ast/parser.go:Parser.Tree", "ast/parser.go:Parser.Word", "tone/tone.go:Diacritic"])

p("Spelling does not change the meaning",
  "Take two texts without quotes that differ only in capital letters (other than the tone mark V) and in writing i with or without its dot. If both are parsed, whatever was called before on either parser, then Interpret returns the same statement for both, or panics for both.",
  "all pairs of such texts and all histories of calls", "Infinite inputs; identities of arguments are addresses and names are compared after case folding at many places of the interpreter.",
  ["logic/interp.go:Interpret", "logic/interp.go:hasText", "logic/interp.go:splitVar", "logic/interp.go:wordPred", "logic/interp.go:isHoaPredicate", "tone/tone.go:ToASCII"])

p("Tones fit their places",
  "In the syntax tree of a parsed text every word is made of syllables, all but the first of them with the macron, and every space only of separators. The first word of the predicate of a statement has the hook, of a relative clause the caron, of a content clause the circumflex, of an argument the acute (or it is a content clause), of an adverb the tilde, of a preposition the grave; what follows the first part of a serial predicate has the hook, and so has the right part of a connected one, except for connected prepositions.",
  "all texts and all histories of calls", "Infinite inputs; tones are written as letters, combining marks or ASCII marks, and predicates nest.",
  ["ast/toaq.peggy", "ast/toaq.go", "ast/parser.go:Parser.Text"])

p("How tones are written does not change the parse",
  "Take two texts that write the same syllables with the same tones and the same blanks and punctuation between them, each syllable in any way to write its tone: a letter with the diacritic, a combining character after the first vowel, or an ASCII sign or tone number after the first vowel or at the end of the syllable. Whatever was called before on either parser, Text returns a syntax tree for both or an error for both, and the trees are the same: the same phrases, with words of the same standard spelling, that start and end at the same syllables of the text.",
  "all sequences of syllables and separators, all pairs of ways to write them, and all histories of calls", "Infinite inputs; each syllable of a text can be written in up to eight ways of different lengths, and a sign can also be read as punctuation.",
  ["ast/toaq.peggy", "ast/toaq.go", "ast/parser.go:Parser.Text", "tone/tone.go:Diacritic"])

p("How tones are written does not change the meaning",
  "Take two texts in small letters that write the same syllables with the same tones and the same blanks and punctuation between them, each syllable in any way to write its tone (letters with diacritics, combining characters, ASCII signs or numbers), quotes included. If both are parsed, whatever was called before on either parser, then Interpret returns the same statement for both, or panics for both.",
  "all sequences of syllables and separators, all pairs of ways to write them, and all histories of calls", "Infinite inputs; identities of arguments are addresses, and all offsets differ.",
  ["logic/interp.go:Interpret", "logic/interp.go:toString", "ast/toaq.peggy", "ast/parser.go:Parser.Text"])

p("The printed parse tree shows the tree",
  "If what is printed of the parse trees of two accepted texts is the same, then the trees are the same, with the same rules, structure and text at every node, and so the texts are the same as far as the parser reads them: quotation marks, braces, commas and newlines of the text, which are printed as they are, never make the print ambiguous.",
  "all pairs of texts and all histories of calls", "Infinitely many pairs of texts; the printer escapes nothing.",
  ["vendor/github.com/eaburns/peggy/peg/pretty.go:Pretty", "vendor/github.com/eaburns/peggy/peg/pretty.go:prettyWrite", "ast/parser.go:Parser.Tree", "main.go:main", "server/server.go:rootHandler"])

p("Failures are shown once",
  "Removing the duplicates from the tree of an error keeps every failure exactly once, at its first place in the order of the tree, below a failure it was below; no failure is added, and the error is located at the same offset and with the same expectations as before.",
  "all texts, all histories of calls, and all trees of failures with shared nodes", "Infinite inputs; the trees share nodes through memo tables, so that they can be exponentially larger than the text.",
  ["vendor/github.com/eaburns/peggy/peg/fail.go:DedupFails", "main.go:main", "ast/parser.go:Parser.parse"])

p("The command-line tool",
  "Every run of the command-line tool ends. If the file cannot be opened or the input cannot be read, it prints the reason and exits with status 1. If the text is rejected, it prints every failure of the error once, then the path and the message, and exits with status 1. Else it prints the parse tree, the syntax tree, the words and the braces, and then the statement and its logic, or 'fragment' if there is no statement, and exits with status 0. It never panics.",
  "all arguments, inputs and errors of the system", "Infinite inputs; the tool calls Tree and Text on one parser and relies on the second not failing after the first.",
  ["main.go:main", "main.go:toString", "ast/parser.go:Parser.Tree", "ast/parser.go:Parser.Text", "logic/interp.go:Interpret", "logic/string.go:String"])

p("The message of a syntax error",
  "Whatever was called before, the message of an error is made of the line and the column of the error, a list of what was wanted there, which names at least one thing and each thing once, separated by commas and 'or', and what was found: EOF if the error is at the end of the text, else up to ten bytes of the text. The message and the text determine the offset of the error. The message of an error on valid UTF-8 is valid UTF-8.",
  "all texts, all histories of calls, and all pairs of errors", "Infinite inputs and histories; the expectations come from a tree that depends on memo tables, and the excerpt is cut by bytes.",
  ["vendor/github.com/eaburns/peggy/peg/fail.go:SimpleError", "vendor/github.com/eaburns/peggy/peg/fail.go:Error.Error", "vendor/github.com/eaburns/peggy/peg/loc.go:Location", "ast/parser.go:parseError.Error", "ast/toaq.go:_full_textFail"])

p("Arguments are not shared",
  "In the syntax tree of a parsed text no argument occurs twice, wherever arguments can stand: among the terms of a predication, in prenexes, relative clauses, content clauses, prepositions, serial predicates, quotes and parentheticals; and every argument begins within the text. So a program that tells arguments apart by their addresses, as the interpreter does, never takes one for another.",
  "all texts, and all histories of calls", "Infinite inputs; results of rules are kept in memo tables and attached to words by actions that run at other places of the grammar, either of which could put one node at two places.",
  ["ast/toaq.peggy", "ast/parser.go:Parser.Text", "ast/ast.go:PredicateArgument", "logic/interp.go:liftedScope"])

p("The printed syntax tree shows the tree",
  "If what the command-line tool and the server print of the syntax trees of two accepted texts is the same, then the trees are the same: the same kinds of nodes in the same structure, with the same words, with the same letters and tones, at every place, also in what follows a word (parentheticals, incidental clauses, vocatives, interjections, punctuation), whatever characters the texts contain.",
  "all pairs of texts, and all histories of calls", "Infinitely many pairs of texts; the printer walks the tree by reflection, calls methods of some nodes, and quotes nothing.",
  ["vendor/github.com/eaburns/pretty/pretty.go:String", "vendor/github.com/eaburns/pretty/pretty.go:print", "vendor/github.com/eaburns/pretty/pretty.go:printArray", "vendor/github.com/eaburns/pretty/pretty.go:printStruct", "main.go:main", "server/server.go:rootHandler", "ast/ast.go:Word.PrettyPrint", "ast/ast.go:WordPredicate.PrettyPrint", "ast/ast.go:Interjection.PrettyPrint", "ast/ast.go:Space.PrettyPrint"])

p("The generated dictionary has the words that were loaded",
  "The source file that the generator writes, read as Go, defines a map with exactly the words that were loaded, with the same definitions, authors and scores, whatever characters they contain. If anything fails, the generator says why and ends with status 1.",
  "all responses of the server, all orders of the keys, all times, and all errors", "Infinitely many definitions, written by strangers; the source is made by printing the map and deleting a string from the result.",
  ["dict/main.go:main", "dict/main.go:gofmt", "dict/dict.go:Load", "dict/words.go:Words"])

p("The printed statement shows the statement",
  "If what the command-line tool prints of two statements as trees is the same, then the statements are the same: the same quantifiers, connectors, predicates, arguments, swaps, focus and numbers of variables in the same structure, with the same quotes, of the same kind, whatever characters the quotes contain.",
  "all pairs of statements, and all behaviours of the parts of Go's library that are not modelled", "Infinitely many statements; the printer walks them by reflection after the syntax trees were removed from them, and does not quote names and quotes.",
  ["vendor/github.com/eaburns/pretty/pretty.go:String", "logic/visit.go:NillOutAST", "logic/logic.go:Variable.PrettyPrint", "logic/logic.go:Quote.PrettyPrint", "logic/logic.go:Pred.PrettyPrint", "main.go:main"])

p("Word finds the words of a text",
  "At the offset of every word of a text that Text accepts, Word returns that word: with the same normalised text and the same start, and an end that is not before the end of the word in the syntax tree (it includes the space after the word). The number of bytes that it returns leads to the start of the next word of the text, or to the end of the text, so that a program that goes on from there skips no word, and finds no other word after the last one. This holds for all words of the tree, also those of parentheticals, quotes and other modifiers, whatever was called before.",
  "all accepted texts, all their words, and all histories of calls", "Infinitely many texts and histories; Word has its own rules for words, which try the tones in an order and are followed by other lookahead than the rules for texts.",
  ["ast/parser.go:Parser.Word", "ast/parser.go:Parser.Text", "ast/toaq.peggy:word", "ast/toaq.peggy:predicate_word", "ast/toaq.peggy:non_function_word", "ast/toaq.peggy:function_word"])

if __name__ == "__main__":
    with open("/verif/properties.jsonl", "w") as f:
        for x in P:
            f.write(json.dumps(x, ensure_ascii=False) + "\n")
    print(len(P))
