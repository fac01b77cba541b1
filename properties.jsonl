{"id": "C01", "title": "ToASCII spells every Toaq word", "statement": "For every Toaq word (a sequence of syllables: consonants, a vowel carrying a tone diacritic or none, further plain vowels, an optional final q) tone.ToASCII returns exactly the word's ASCII spelling: each syllable's letters in order, dotless i written i, followed by that syllable's tone marker (one of - / V ? ^ \\ ~) when it has one. In particular the result is pure ASCII.", "quantifier": "all words of any number of syllables and any syllable lengths", "why_tests_cant": "The set of words is infinite and the tone marker is carried across characters; tests try seven words.", "anchors": ["tone/tone.go:ToASCII", "tone/tone.go:Diacritic", "tone/tone.go:ascii", "tone/tone.go:tone"]}
{"id": "C02", "title": "ToASCII is the identity on ASCII and idempotent on words", "statement": "tone.ToASCII returns an ASCII string unchanged, so converting an already converted Toaq word changes nothing: ToASCII(ToASCII(w)) = ToASCII(w) for every Toaq word w. (For arbitrary strings this fails: a string with two toned vowels in one syllable is not converted to ASCII.)", "quantifier": "all ASCII strings; all Toaq words", "why_tests_cant": "Infinite domain; idempotence over all words cannot be enumerated.", "anchors": ["tone/tone.go:ToASCII"]}
{"id": "C03", "title": "Strip removes every tone and only tones", "statement": "tone.Strip never returns a string containing a tone marker, whatever its input; and on a Toaq word it returns exactly the ASCII letters of the word, capitalisation preserved, so two words that differ only in tone have the same Strip.", "quantifier": "all strings; all Toaq words", "why_tests_cant": "Infinite domain.", "anchors": ["tone/tone.go:Strip", "tone/tone.go:toneNameRunes"]}
{"id": "C04", "title": "WithTone changes only the first vowel", "statement": "tone.WithTone(s, t) returns s with exactly one rune changed, the first vowel (toned or not); every rune before and after it is unchanged and a string without vowels is returned unchanged. The changed rune has the same base letter (i and dotless i identified) and the same case.", "quantifier": "all strings and all eight tones including None", "why_tests_cant": "Infinite domain.", "anchors": ["tone/tone.go:WithTone", "tone/tone.go:vowels"]}
{"id": "C05", "title": "Setting a tone is read back and the last tone wins", "statement": "For every string s with a vowel, WithTone(WithTone(s,t1),t2) = WithTone(s,t2); and for every Toaq word w and tone t, Tone(WithTone(w,t)) = t when t is not None.", "quantifier": "all strings, all pairs of tones; all Toaq words", "why_tests_cant": "Infinite domain, algebraic law.", "anchors": ["tone/tone.go:WithTone", "tone/tone.go:Tone"]}
{"id": "C06", "title": "WithTone panics exactly on unknown tones", "statement": "tone.WithTone(s,t) panics if and only if t is neither None nor one of the seven tone runes and s contains a vowel.", "quantifier": "all strings and all runes t", "why_tests_cant": "Infinite domain of strings and runes.", "anchors": ["tone/tone.go:WithTone", "tone/tone.go:Diacritic"]}
{"id": "C07", "title": "Derived tone tables do not depend on map iteration order", "statement": "The package-level tables tone, ascii and the vowel set of package tone, and the o-letter table of package logic, are built by iterating over Go maps in an unspecified order. Every iteration order of the outer and inner maps yields tables that answer every lookup alike.", "quantifier": "all orders in which the runtime may enumerate the map entries", "why_tests_cant": "Go randomises map order per run; a test sees one order per run.", "anchors": ["tone/tone.go:tone", "tone/tone.go:ascii", "tone/tone.go:vowels", "logic/interp.go:oLetters"]}
{"id": "C08", "title": "ast.Visit calls are properly nested and complete", "statement": "For every AST and every visitor, the calls made by ast.Visit form a properly nested bracket sequence: each call with a node whose visitor returns non-nil is matched by exactly one later call with nil, after all calls for its children. A visitor that never returns nil is called for every node of the tree exactly once, in depth-first pre-order.", "quantifier": "all ASTs of any depth, all visitors that keep going", "why_tests_cant": "Unbounded trees.", "anchors": ["ast/visit.go:Visit", "ast/visit.go:FuncVisitor"]}
{"id": "C09", "title": "A visitor returning nil prunes exactly the subtree", "statement": "When a visitor returns nil for some nodes, ast.Visit makes the calls of the full traversal minus those for the descendants of such nodes and their closing nil call, and nothing else is skipped.", "quantifier": "all ASTs, all pruning predicates", "why_tests_cant": "Unbounded trees and arbitrary visitors.", "anchors": ["ast/visit.go:Visit"]}
{"id": "C10", "title": "ast.Equal is equality up to byte offsets", "statement": "For every two ASTs built from the exported node types other than bare CoP and LUPhrase, ast.Equal(a,b) is true exactly when a and b are the same tree after forgetting the S and E offsets of all words; hence Equal is reflexive, symmetric and transitive.", "quantifier": "all pairs (triples) of ASTs", "why_tests_cant": "Unbounded trees; a missed field in one of 40 cases is invisible to a test that does not vary it.", "anchors": ["ast/equal.go:Equal", "ast/equal.go:copEqual", "ast/equal.go:wordEqual"]}
{"id": "C11", "title": "Attaching a modifier appends it and loses nothing", "statement": "Attaching a free modifier m to any AST node n (the mod methods used by all grammar actions) yields a node whose words, in Visit order, are exactly the words of n followed by the words of m.", "quantifier": "all nodes and all modifiers", "why_tests_cant": "Unbounded trees.", "anchors": ["ast/ast.go:mod", "ast/ast.go:modNode", "ast/ast.go:Parenthetical.mod"]}
{"id": "C12", "title": "ast.ToASCII rewrites the text of every word and nothing else", "statement": "ast.ToASCII(n) replaces the T field of every Word below n, including words inside modifiers, by tone.ToASCII of it, and changes nothing else: node structure and offsets are preserved.", "quantifier": "all ASTs", "why_tests_cant": "Unbounded trees.", "anchors": ["ast/ast.go:ToASCII", "tone/tone.go:ToASCII"]}
{"id": "C13", "title": "BracesString is well bracketed", "statement": "For every AST whose words contain no bracket characters, BracesString(n) is a well-bracketed string over () {} [] <> in which a bracket pair at nesting depth d is the (d mod 4)-th kind.", "quantifier": "all ASTs of any depth", "why_tests_cant": "Unbounded depth; wrap-around of the bracket kinds happens only below depth 4.", "anchors": ["ast/braces.go:BracesString", "ast/braces.go:braceKids"]}
{"id": "C14", "title": "BracesString shows every word in order", "statement": "Deleting brackets and the separating spaces from BracesString(n) leaves the concatenation of the texts of all non-space words of n in Visit order.", "quantifier": "all ASTs", "why_tests_cant": "Unbounded trees.", "anchors": ["ast/braces.go:braces", "ast/braces.go:braceKids"]}
{"id": "C15", "title": "Start and End are total and delimit the node", "statement": "For every node of a parsed text Start() and End() do not panic and Start() <= End().", "quantifier": "all parsed texts and all their nodes", "why_tests_cant": "Infinite inputs.", "anchors": ["ast/ast.go:Start", "ast/ast.go:End", "ast/ast.go:Predication.End"]}
{"id": "C16", "title": "Parsing terminates on every text", "statement": "ast.NewParser(text).Text() and Tree() terminate for every text: no grammar rule can call itself, directly or indirectly, without consuming input, and no repetition body accepts the empty string.", "quantifier": "all texts", "why_tests_cant": "Non-termination on an untested text is not observable by finitely many tests.", "anchors": ["ast/toaq.peggy", "ast/toaq.go", "ast/parser.go:Parser.Text"]}
{"id": "C17", "title": "A successful parse accounts for the whole text", "statement": "When Text() succeeds, the parse covers the whole input: everything up to the end of the text, or up to the first U+FFFD rune (which the generated end-of-input test cannot tell from the end), is consumed.", "quantifier": "all texts", "why_tests_cant": "Infinite inputs.", "anchors": ["ast/toaq.peggy:full_text", "ast/toaq.peggy:EOF", "ast/toaq.go:_EOFAccepts"]}
{"id": "C18", "title": "The words of a parsed text tile the input", "statement": "When Text() succeeds, listing all words of the AST in Visit order (modifiers included), each word starts at the byte where the previous one ended, the first starts at 0 and the last ends at the end of the consumed text: no input is lost, duplicated or reordered.", "quantifier": "all texts", "why_tests_cant": "Infinite inputs.", "anchors": ["ast/toaq.peggy", "ast/nodes.go", "ast/ast.go:mod"]}
{"id": "C19", "title": "Tree and Text agree", "statement": "For every text, Tree() returns an error if and only if Text() does; so a Text() call after a successful Tree() cannot fail (main.go and server.go panic if it does).", "quantifier": "all texts, either call order", "why_tests_cant": "Infinite inputs and histories.", "anchors": ["ast/parser.go:Parser.Text", "ast/parser.go:Parser.Tree", "main.go:main", "server/server.go:rootHandler"]}
{"id": "C20", "title": "Memoisation is transparent", "statement": "The packrat memo tables never change a result: for every text, every sequence of rule invocations on one parser returns for each the result that a fresh parser without memo tables would return.", "quantifier": "all texts, all call histories on one parser", "why_tests_cant": "Depends on the history of calls, unbounded.", "anchors": ["ast/toaq.go:_memo", "ast/toaq.go:_memoize", "ast/parser.go:Parser"]}
{"id": "C21", "title": "Results of separate calls do not alias", "statement": "The value returned by Text, Tree or Word may be modified by the caller without affecting what later calls on the same parser return (as the comments in parser.go promise).", "quantifier": "all call histories", "why_tests_cant": "Histories and mutations are unbounded.", "anchors": ["ast/parser.go:Parser.Word", "ast/parser.go:Parser.Text", "ast/parser.go:Parser.Tree"]}
{"id": "C22", "title": "The parse tree reproduces the text", "statement": "In the tree returned by Tree() the Text of every inner node is the concatenation of the Texts of its kids, and the root's Text is the consumed input.", "quantifier": "all texts", "why_tests_cant": "Infinite inputs.", "anchors": ["ast/toaq.go:_node", "ast/toaq.go:_sub", "ast/toaq.go:_leaf", "vendor/github.com/eaburns/peggy/peg/peg.go:Node"]}
{"id": "C23", "title": "Word texts are the normalised input slices", "statement": "Every word's T is the normalisation of text[S:E] (plain i becomes dotless i, a vowel followed by a tone marker becomes the diacritic vowel): its ASCII letters, ignoring tone, are those of the input slice.", "quantifier": "all texts", "why_tests_cant": "Infinite inputs.", "anchors": ["ast/toaq.peggy:syllable", "ast/nodes.go:addTone"]}
{"id": "C24", "title": "Error positions are the deepest failures", "statement": "For every non-empty failure tree, LeafFails returns exactly the leaves with the greatest position, in first-occurrence order, and ByteOffset returns that position.", "quantifier": "all failure trees", "why_tests_cant": "Unbounded trees.", "anchors": ["vendor/github.com/eaburns/peggy/peg/fail.go:LeafFails", "ast/parser.go:byteOffset"]}
{"id": "C25", "title": "Line and column are correct", "statement": "peg.Location(text, b) for a rune boundary b inside the text terminates and returns Line = 1 + number of newlines before b, Column = 1 + number of runes since the last newline, Rune = number of runes before b.", "quantifier": "all texts and offsets", "why_tests_cant": "Infinite inputs.", "anchors": ["vendor/github.com/eaburns/peggy/peg/loc.go:Location"]}
{"id": "C26", "title": "Linked arguments land in their places", "statement": "orderArguments never indexes out of range; an argument with a place word lands in that place (the last one wins), and the arguments without place fill the free places from left to right, in order, none lost.", "quantifier": "all argument lists", "why_tests_cant": "Unbounded lists.", "anchors": ["logic/interp.go:orderArguments", "logic/interp.go:goPos"]}
{"id": "C27", "title": "merge computes a union", "statement": "merge(l, r) contains exactly the elements of l and r.", "quantifier": "all int slices", "why_tests_cant": "Unbounded lists.", "anchors": ["logic/simplify.go:merge"]}
{"id": "C28", "title": "Implicit hoa is added exactly to bare restriction predications", "statement": "After adding implicit hoa, every argument-less predication directly in a binding's restriction that does not mention the bound variable has that variable as its single argument; everything else is unchanged; doing it twice changes nothing more.", "quantifier": "all logic trees", "why_tests_cant": "Unbounded trees.", "anchors": ["logic/simplify.go:addHoa"]}
{"id": "C29", "title": "Variable numbering is consistent", "statement": "After simplification of a tree in which no node is shared, binding numbers are 0,1,2,... in pre-order interleaved with free variables, distinct bindings have distinct numbers, and every bound variable carries its binding's number.", "quantifier": "all logic trees", "why_tests_cant": "Unbounded trees.", "anchors": ["logic/simplify.go:sequenceVarNums"]}
{"id": "C30", "title": "Distinct variables print with distinct names", "statement": "Whether String prints with letter names or with numbers, two variables get the same name only if they are the same variable, and the names do not depend on Go's map iteration order.", "quantifier": "all logic trees whose restrictions use Toaq words or operators as predicates, all orders of map iteration", "why_tests_cant": "Unbounded numbers of variables.", "anchors": ["logic/string.go:print", "logic/string.go:varRune"]}
{"id": "C31", "title": "String is unambiguous", "statement": "Two logic trees whose String outputs agree, or whose PrettyString outputs agree, are the same up to re-association of equal connectors and of serial composition and a one-to-one renumbering of variables; if both number their variables in order of occurrence, as Interpret does, the numbers are the same too. Conversely re-association does not change the output.", "quantifier": "all pairs of well-sorted logic trees whose predicate names are words in small letters or the two operators and whose quotations do not contain their closing mark (String does not escape it; without this the claim is false)", "why_tests_cant": "Quantifies over all pairs.", "anchors": ["logic/string.go:String", "logic/string.go:parens"]}
{"id": "C32", "title": "PrettyString is String with prettier code points", "statement": "PrettyString(n) is String(n) with the quantifier iota and the capital letters of variable names replaced by their pretty code points, nothing else.", "quantifier": "all logic trees", "why_tests_cant": "Unbounded trees.", "anchors": ["logic/string.go:PrettyString", "logic/string.go:mathItalicCapitalLetters"]}
{"id": "C33", "title": "logic.Visit visits every node once, in pre-order", "statement": "Node.Visit calls the function for every non-nil node of the logic tree exactly once, parents before children, left to right.", "quantifier": "all logic trees", "why_tests_cant": "Unbounded trees.", "anchors": ["logic/visit.go:Visit"]}
{"id": "C34", "title": "Interpret is total in time", "statement": "Interpret terminates on every AST.", "quantifier": "all ASTs", "why_tests_cant": "Non-termination is not observable by tests; the interpreter re-writes the AST while recurring.", "anchors": ["logic/interp.go:Interpret"]}
{"id": "C35", "title": "Interpret returns nil exactly for fragments", "statement": "When Interpret returns, it returns nil exactly when the text contains no sentence.", "quantifier": "all texts", "why_tests_cant": "Infinite inputs.", "anchors": ["logic/interp.go:Interpret", "logic/interp.go:discourse"]}
{"id": "C36", "title": "Interpret does not panic on parsed text", "statement": "Interpret does not panic on the AST of any successfully parsed text.", "quantifier": "all texts", "why_tests_cant": "Infinite inputs.", "anchors": ["logic/interp.go:connector", "logic/interp.go:predicate", "logic/interp.go:relativeClause"]}
{"id": "C37", "title": "Interpreted variables are bound where they occur", "statement": "In the result of Interpret, every variable with a definition occurs inside the restriction or scope of that binding.", "quantifier": "all texts", "why_tests_cant": "Infinite inputs.", "anchors": ["logic/interp.go:hasFreeVars", "logic/interp.go:clearHiFreeVarDefs", "logic/simplify.go:sub"]}
{"id": "C38", "title": "Function words are recognised case- and tone-insensitively", "statement": "hasText(w,b) holds exactly when w, with its first tone removed, equals b up to letter case and dots on i; so each connector, quantifier and place word is recognised in any capitalisation, and at most one of the alternatives matches.", "quantifier": "all words", "why_tests_cant": "Infinite inputs.", "anchors": ["logic/interp.go:hasText", "logic/interp.go:connector", "logic/interp.go:quantifier", "logic/interp.go:goPos"]}
{"id": "C39", "title": "do-variables are recognised exactly", "statement": "splitVar succeeds exactly on words that start with a lower-case d followed by a toned o that ends its syllable, and returns the tone and the untoned lower-case name; two words name the same variable exactly when they differ only in the tone of that o and in case.", "quantifier": "all words", "why_tests_cant": "Infinite inputs.", "anchors": ["logic/interp.go:splitVar"]}
{"id": "C40", "title": "Predicate connectives distribute", "statement": "A predication of a connected predicate becomes the connection of the predications with the same arguments, for any nesting, and serial predicates distribute over connectives on both sides; the number of resulting predications is the product of the numbers of alternatives.", "quantifier": "all nested predicate connectives", "why_tests_cant": "Unbounded nesting.", "anchors": ["logic/interp.go:distributePredication", "logic/interp.go:serialPredicateLeft", "logic/interp.go:serialPredicateRight"]}
{"id": "C41", "title": "Argument swap is an involution that keeps arguments", "statement": "Applying a swap to an argument list exchanges places 0 and Pos, padding with holes, and loses no argument; swapping twice restores the arguments up to trailing holes.", "quantifier": "all argument lists", "why_tests_cant": "Unbounded lists.", "anchors": ["logic/simplify.go:swap"]}
{"id": "C42", "title": "The HTTP handler answers every request", "statement": "rootHandler answers GET with the page, POST with one JSON object and any other method with status 405; the POST object has either the single key Error or exactly the keys Braces, AST, Text, Parse, Logic.", "quantifier": "all methods, bodies and parser outcomes", "why_tests_cant": "Infinite inputs.", "anchors": ["server/server.go:rootHandler", "server/server.go:safeInterp"]}
{"id": "C43", "title": "A panicking interpreter does not take the server down and is reported", "statement": "If Interpret panics the handler still answers, and the Logic field reports the bug.", "quantifier": "all panics", "why_tests_cant": "Depends on the kind of panic value.", "anchors": ["server/server.go:safeInterp"]}
{"id": "C44", "title": "The bot answers exactly the .miu messages", "statement": "The bot replies to a message exactly when its text, after removal of the bridge prefix up to the first ': ' for messages from ToaqBridgeBot, starts with .miu, and it parses the trimmed remainder.", "quantifier": "all message streams", "why_tests_cant": "Infinite histories.", "anchors": ["bot/bot.go:run", "bot/bot.go:fixBridgeMessage"]}
{"id": "C45", "title": "Dictionary keys are the normalised headwords", "statement": "In the map returned by dict.Load every key equals its entry's Word, is lower case and tone-free; an entry is found under the normalisation of its headword and among entries with equal normalisation the last one wins.", "quantifier": "all dictionary responses", "why_tests_cant": "Infinite inputs.", "anchors": ["dict/dict.go:Load"]}
{"id": "C46", "title": "Building the AST of an accepted text does not panic", "statement": "For every text the grammar accepts, Text() returns an AST; it does not panic while running grammar actions.", "quantifier": "all accepted texts", "why_tests_cant": "Infinite inputs.", "anchors": ["ast/nodes.go:addTone", "ast/toaq.peggy:syllable", "ast/parser.go:Parser.Text"]}
{"id": "C47", "title": "Predicate names are the letters of the word", "statement": "The name of the predicate made from a word consists of exactly the letters of the word, lower-cased, without tone and with dotted i, except that mea and jeqtu become the signs for among and equality; so a word in another tone or case names the same predicate.", "quantifier": "all words", "why_tests_cant": "Infinite inputs.", "anchors": ["logic/interp.go:wordPred"]}
{"id": "C48", "title": "Quoted text is the text of the quoted words", "statement": "The text of a quote made by mi, shu or mo is the concatenation, in order, of the words of the quoted part, without surrounding white space.", "quantifier": "all syntax trees", "why_tests_cant": "Infinite inputs.", "anchors": ["logic/interp.go:toString"]}
{"id": "C49", "title": "Connected arguments distribute over all combinations", "statement": "A predication with several connected arguments becomes the connected statement in which every combination of one alternative for each argument occurs.", "quantifier": "all predications with any number of connected arguments", "why_tests_cant": "The number of connected arguments is unbounded, and the fault needs at least two.", "anchors": ["logic/interp.go:prenexStatement", "logic/interp.go:withTerm0"]}
{"id": "C50", "title": "The interpretation is well-sorted", "statement": "Whatever the syntax tree, the tree returned by Interpret is a statement in which statements, predicates and arguments stand exactly where their kind is allowed; simplification never puts an argument in the place of a statement or predicate.", "quantifier": "all syntax trees", "why_tests_cant": "Infinite inputs; substitution and distribution move subtrees around.", "anchors": ["logic/interp.go:Interpret", "logic/simplify.go:simplify"]}
{"id": "C51", "title": "Parsed syntax trees are well-formed", "statement": "In the AST returned by Text() every field holds a node of the kind declared for that position by the grammar (sentences hold statements, predications predicates, terms arguments, adverbs or prepositions, connectives two phrases of their own kind, ...), term lists and inner discourses are not empty, forethought markers come in pairs, and no bare CoP or LUPhrase value and no PrefixedPredicate occurs.", "quantifier": "all texts", "why_tests_cant": "Infinite inputs; the grammar is polymorphic and the fields have interface types.", "anchors": ["ast/toaq.peggy", "ast/nodes.go", "ast/parser.go:Parser.Text"]}
{"id": "C52", "title": "The bot's answer", "statement": "For every .miu message the bot says 'syntax error ...' exactly when the text does not parse, and otherwise the text in braces on one line (unless that is empty) and then 'fragment' or the PrettyString of its logic; no message takes the bot down.", "quantifier": "all message texts", "why_tests_cant": "Infinite inputs; the bot does not recover from panics.", "anchors": ["bot/bot.go:parse", "bot/bot.go:run"]}
{"id": "C53", "title": "Particles belong to their classes", "statement": "In the syntax tree of a parsed text every field for a particle holds a word of the class the field is for, in any case and tone: a quantifier is one of ke, tu, sia, sa, hi, ja; a connective one of ra, ru, ri, roi, ro, re; a place word one of go, fi, cu, ta; and so on.", "quantifier": "all texts", "why_tests_cant": "Infinite inputs; the grammar matches words by lookahead and syllable rules.", "anchors": ["ast/toaq.peggy", "ast/nodes.go"]}
{"id": "C54", "title": "The meaning of plain texts", "statement": "For every text whose sentences are built of word predicates, quantified word arguments, place words, prenexes and connectives, Interpret returns, up to numbers and names of variables, the statement in which arguments with ke of the whole text are bound outermost in the order they are met, arguments with hi around their sentence, the other arguments where they stand; connectives of predicates, arguments and statements become connectives of statements; every argument is in its place; sentences are joined by 'and'.", "quantifier": "all plain texts, of any size", "why_tests_cant": "Infinite inputs, and most of the interpreter's mutable state takes part.", "anchors": ["logic/interp.go:Interpret", "logic/interp.go:discourse", "logic/interp.go:statement", "logic/interp.go:prenexStatement", "logic/interp.go:predicateArgument", "logic/simplify.go:simplify"]}
{"id": "C55", "title": "Simplification preserves meaning", "statement": "simplify changes neither truth conditions nor references: in every model in which the substituted quantifier means 'the (or every) x equal to e' the simplified statement has the value of the original.", "quantifier": "all statements and all models", "why_tests_cant": "Infinite inputs and infinitely many models.", "anchors": ["logic/simplify.go:simplifyStatement", "logic/simplify.go:sub"]}
{"id": "C56", "title": "The meaning of texts with clauses", "statement": "For every text, the statement made by the interpreter says, in every model of the logic, what the text says when its phrases are read one by one: relative clauses restrict their argument, hoa in them is that argument, a named variable stands for what its quantifier binds, content clauses, po, mi, mo and lu make the predicates they stand for, roi joins arguments to a plurality, adverbs and prepositions are said of what follows them, connectives of any phrases connect what is said with each side, definite arguments that mention no variable are bound around the whole text, and sentences are joined by 'and'.", "quantifier": "all texts and all models", "why_tests_cant": "Infinite inputs and infinitely many models; the meaning depends on the interpreter's stacks of names and lists of pending bindings.", "anchors": ["logic/interp.go:Interpret", "logic/interp.go:discourse", "logic/interp.go:predicateArgument", "logic/interp.go:withTerm0", "logic/interp.go:predicate", "logic/interp.go:relativeClause", "logic/interp.go:adverb", "logic/interp.go:preposition"]}
{"id": "C57", "title": "Syntax errors are located and explained", "statement": "When Text, Tree or Word rejects a text the call returns an error, whatever was called before: building it does not panic or loop. Its offset, line and column are those of a rune boundary of the text; it is located at the furthest position the parser reached, and lists at least one expectation there, and none that the text meets.", "quantifier": "all texts and all histories of calls on one parser", "why_tests_cant": "Infinite inputs and histories; the error is built by a fourth pass over memo tables that other calls filled.", "anchors": ["ast/parser.go:Parser.parse", "ast/toaq.go:_failMemo", "ast/toaq.go:_full_textFail", "vendor/github.com/eaburns/peggy/peg/fail.go:SimpleError"]}
{"id": "C58", "title": "Spelling does not change the parse", "statement": "Take two texts that differ only in capital letters (other than the tone mark V), in writing i with or without its dot, and in writing a breve for a caron. Whatever was called before on either parser, Tree, Text, and Word at the same character succeed on both or fail on both at the same character; the trees have the same structure, and the words the same letters but for spelling, at the same characters of the text.", "quantifier": "all pairs of such texts and all histories of calls", "why_tests_cant": "Infinite inputs; the letters are encoded in one to three bytes, so that all offsets differ.", "anchors": ["ast/toaq.peggy", "ast/parser.go:Parser.Text", "ast/parser.go:Parser.Tree", "ast/parser.go:Parser.Word", "tone/tone.go:Diacritic"]}
{"id": "C59", "title": "Spelling does not change the meaning", "statement": "Take two texts without quotes that differ only in capital letters (other than the tone mark V) and in writing i with or without its dot. If both are parsed, whatever was called before on either parser, then Interpret returns the same statement for both, or panics for both.", "quantifier": "all pairs of such texts and all histories of calls", "why_tests_cant": "Infinite inputs; identities of arguments are addresses and names are compared after case folding at many places of the interpreter.", "anchors": ["logic/interp.go:Interpret", "logic/interp.go:hasText", "logic/interp.go:splitVar", "logic/interp.go:wordPred", "logic/interp.go:isHoaPredicate", "tone/tone.go:ToASCII"]}
{"id": "C60", "title": "Tones fit their places", "statement": "In the syntax tree of a parsed text every word is made of syllables, all but the first of them with the macron, and every space only of separators. The first word of the predicate of a statement has the hook, of a relative clause the caron, of a content clause the circumflex, of an argument the acute (or it is a content clause), of an adverb the tilde, of a preposition the grave; what follows the first part of a serial predicate has the hook, and so has the right part of a connected one, except for connected prepositions.", "quantifier": "all texts and all histories of calls", "why_tests_cant": "Infinite inputs; tones are written as letters, combining marks or ASCII marks, and predicates nest.", "anchors": ["ast/toaq.peggy", "ast/toaq.go", "ast/parser.go:Parser.Text"]}
{"id": "C61", "title": "How tones are written does not change the parse", "statement": "Take two texts that write the same syllables with the same tones and the same blanks and punctuation between them, each syllable in any way to write its tone: a letter with the diacritic, a combining character after the first vowel, or an ASCII sign or tone number after the first vowel or at the end of the syllable. Whatever was called before on either parser, Text returns a syntax tree for both or an error for both, and the trees are the same: the same phrases, with words of the same standard spelling, that start and end at the same syllables of the text.", "quantifier": "all sequences of syllables and separators, all pairs of ways to write them, and all histories of calls", "why_tests_cant": "Infinite inputs; each syllable of a text can be written in up to eight ways of different lengths, and a sign can also be read as punctuation.", "anchors": ["ast/toaq.peggy", "ast/toaq.go", "ast/parser.go:Parser.Text", "tone/tone.go:Diacritic"]}
{"id": "C62", "title": "How tones are written does not change the meaning", "statement": "Take two texts in small letters that write the same syllables with the same tones and the same blanks and punctuation between them, each syllable in any way to write its tone (letters with diacritics, combining characters, ASCII signs or numbers), quotes included. If both are parsed, whatever was called before on either parser, then Interpret returns the same statement for both, or panics for both.", "quantifier": "all sequences of syllables and separators, all pairs of ways to write them, and all histories of calls", "why_tests_cant": "Infinite inputs; identities of arguments are addresses, and all offsets differ.", "anchors": ["logic/interp.go:Interpret", "logic/interp.go:toString", "ast/toaq.peggy", "ast/parser.go:Parser.Text"]}
{"id": "C63", "title": "The printed parse tree shows the tree", "statement": "If what is printed of the parse trees of two accepted texts is the same, then the trees are the same, with the same rules, structure and text at every node, and so the texts are the same as far as the parser reads them: quotation marks, braces, commas and newlines of the text, which are printed as they are, never make the print ambiguous.", "quantifier": "all pairs of texts and all histories of calls", "why_tests_cant": "Infinitely many pairs of texts; the printer escapes nothing.", "anchors": ["vendor/github.com/eaburns/peggy/peg/pretty.go:Pretty", "vendor/github.com/eaburns/peggy/peg/pretty.go:prettyWrite", "ast/parser.go:Parser.Tree", "main.go:main", "server/server.go:rootHandler"]}
{"id": "C64", "title": "Failures are shown once", "statement": "Removing the duplicates from the tree of an error keeps every failure exactly once, at its first place in the order of the tree, below a failure it was below; no failure is added, and the error is located at the same offset and with the same expectations as before.", "quantifier": "all texts, all histories of calls, and all trees of failures with shared nodes", "why_tests_cant": "Infinite inputs; the trees share nodes through memo tables, so that they can be exponentially larger than the text.", "anchors": ["vendor/github.com/eaburns/peggy/peg/fail.go:DedupFails", "main.go:main", "ast/parser.go:Parser.parse"]}
{"id": "C65", "title": "The command-line tool", "statement": "Every run of the command-line tool ends. If the file cannot be opened or the input cannot be read, it prints the reason and exits with status 1. If the text is rejected, it prints every failure of the error once, then the path and the message, and exits with status 1. Else it prints the parse tree, the syntax tree, the words and the braces, and then the statement and its logic, or 'fragment' if there is no statement, and exits with status 0. It never panics.", "quantifier": "all arguments, inputs and errors of the system", "why_tests_cant": "Infinite inputs; the tool calls Tree and Text on one parser and relies on the second not failing after the first.", "anchors": ["main.go:main", "main.go:toString", "ast/parser.go:Parser.Tree", "ast/parser.go:Parser.Text", "logic/interp.go:Interpret", "logic/string.go:String"]}
{"id": "C66", "title": "The message of a syntax error", "statement": "Whatever was called before, the message of an error is made of the line and the column of the error, a list of what was wanted there, which names at least one thing and each thing once, separated by commas and 'or', and what was found: EOF if the error is at the end of the text, else up to ten bytes of the text. The message and the text determine the offset of the error. The message of an error on valid UTF-8 is valid UTF-8.", "quantifier": "all texts, all histories of calls, and all pairs of errors", "why_tests_cant": "Infinite inputs and histories; the expectations come from a tree that depends on memo tables, and the excerpt is cut by bytes.", "anchors": ["vendor/github.com/eaburns/peggy/peg/fail.go:SimpleError", "vendor/github.com/eaburns/peggy/peg/fail.go:Error.Error", "vendor/github.com/eaburns/peggy/peg/loc.go:Location", "ast/parser.go:parseError.Error", "ast/toaq.go:_full_textFail"]}
{"id": "C67", "title": "Arguments are not shared", "statement": "In the syntax tree of a parsed text no argument occurs twice, wherever arguments can stand: among the terms of a predication, in prenexes, relative clauses, content clauses, prepositions, serial predicates, quotes and parentheticals; and every argument begins within the text. So a program that tells arguments apart by their addresses, as the interpreter does, never takes one for another.", "quantifier": "all texts, and all histories of calls", "why_tests_cant": "Infinite inputs; results of rules are kept in memo tables and attached to words by actions that run at other places of the grammar, either of which could put one node at two places.", "anchors": ["ast/toaq.peggy", "ast/parser.go:Parser.Text", "ast/ast.go:PredicateArgument", "logic/interp.go:liftedScope"]}
{"id": "C68", "title": "The printed syntax tree shows the tree", "statement": "If what the command-line tool and the server print of the syntax trees of two accepted texts is the same, then the trees are the same: the same kinds of nodes in the same structure, with the same words, with the same letters and tones, at every place, also in what follows a word (parentheticals, incidental clauses, vocatives, interjections, punctuation), whatever characters the texts contain.", "quantifier": "all pairs of texts, and all histories of calls", "why_tests_cant": "Infinitely many pairs of texts; the printer walks the tree by reflection, calls methods of some nodes, and quotes nothing.", "anchors": ["vendor/github.com/eaburns/pretty/pretty.go:String", "vendor/github.com/eaburns/pretty/pretty.go:print", "vendor/github.com/eaburns/pretty/pretty.go:printArray", "vendor/github.com/eaburns/pretty/pretty.go:printStruct", "main.go:main", "server/server.go:rootHandler", "ast/ast.go:Word.PrettyPrint", "ast/ast.go:WordPredicate.PrettyPrint", "ast/ast.go:Interjection.PrettyPrint", "ast/ast.go:Space.PrettyPrint"]}
{"id": "C69", "title": "The generated dictionary has the words that were loaded", "statement": "The source file that the generator writes, read as Go, defines a map with exactly the words that were loaded, with the same definitions, authors and scores, whatever characters they contain. If anything fails, the generator says why and ends with status 1.", "quantifier": "all responses of the server, all orders of the keys, all times, and all errors", "why_tests_cant": "Infinitely many definitions, written by strangers; the source is made by printing the map and deleting a string from the result.", "anchors": ["dict/main.go:main", "dict/main.go:gofmt", "dict/dict.go:Load", "dict/words.go:Words"]}
{"id": "C70", "title": "The printed statement shows the statement", "statement": "If what the command-line tool prints of two statements as trees is the same, then the statements are the same: the same quantifiers, connectors, predicates, arguments, swaps, focus and numbers of variables in the same structure, with the same quotes, of the same kind, whatever characters the quotes contain.", "quantifier": "all pairs of statements, and all behaviours of the parts of Go's library that are not modelled", "why_tests_cant": "Infinitely many statements; the printer walks them by reflection after the syntax trees were removed from them, and does not quote names and quotes.", "anchors": ["vendor/github.com/eaburns/pretty/pretty.go:String", "logic/visit.go:NillOutAST", "logic/logic.go:Variable.PrettyPrint", "logic/logic.go:Quote.PrettyPrint", "logic/logic.go:Pred.PrettyPrint", "main.go:main"]}
{"id": "C71", "title": "Word finds the words of a text", "statement": "At the offset of every word of a text that Text accepts, Word returns that word: with the same normalised text and the same start, and an end that is not before the end of the word in the syntax tree (it includes the space after the word). The number of bytes that it returns leads to the start of the next word of the text, or to the end of the text, so that a program that goes on from there skips no word, and finds no other word after the last one. This holds for all words of the tree, also those of parentheticals, quotes and other modifiers, whatever was called before.", "quantifier": "all accepted texts, all their words, and all histories of calls", "why_tests_cant": "Infinitely many texts and histories; Word has its own rules for words, which try the tones in an order and are followed by other lookahead than the rules for texts.", "anchors": ["ast/parser.go:Parser.Word", "ast/parser.go:Parser.Text", "ast/toaq.peggy:word", "ast/toaq.peggy:predicate_word", "ast/toaq.peggy:non_function_word", "ast/toaq.peggy:function_word"]}
