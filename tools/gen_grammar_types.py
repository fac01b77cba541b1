# The types of the rules (see lean/Verif/Parse/Types.lean); run by gen_grammar.py.
SRT = {}
for k, v in {
    'sentence': 'sentence sentence_1 sentence_2',
    'statement': 'statement statement_1 statement_2 statement_3',
    'prenex': 'prenex prenex_spaces',
    'predicate': '''predicate predicate_1 predicate_2 predicate_3 serial_predicate serial arg_7
        relative_predicate relative_predicate_1 relative_predicate_2 adverb_3 adverb_4
        preposition preposition_1 preposition_2 preposition_3 preposition_4
        content_predicate content_predicate_1 content_predicate_2
        afterthought_cop_pred forethought_cop_pred LU_predicate MI_phrase PO_phrase MO_phrase predicate_word''',
    'predicateOrContent': 'arg_6',
    'content': 'content_clause content_clause_1 content_statement',
    'terms': 'terms terms_2 terms_II terms_III terms_IV terms_V',
    'term': 'term linked_argument',
    'termSet': 'termset',
    'argument': 'argument arg_1 arg_2',
    'relative': 'relative_clause relative_clause_1 relative_clause_2 relative_clause_3',
    'adverb': 'adverb adverb_1 adverb_2',
    'prep': 'prepositional_phrase prepositional_phrase_1 prepositional_phrase_2',
    'phrase': 'MI_complement',
    'space': 'space_word questions',
    'mod': 'space_or_freemod',
    'freemod': 'freemod interjection parenthetical incidental vocative',
    'fragment': 'fragment',
    'text': 'full_text text',
}.items():
    for n in v.split(): SRT[n] = k
WORDS = set('''sentence_prefix_spaces linking_word_spaces focus_spaces quantifier_spaces LU_word MI_word PO_word MO_word
    focus end_quote end_predicatizer end_statement sentence_prefix end_prenex start_incidental start_parenthetical
    vocative_marker linking_word connective illocutionary moq quantifier forethought_marker'''.split())
OTHER = {'end_parenthetical': '.bare', 'discourse': '.nodes', 'sentence_3': '.sent3', 'predication': '.predn', 'relative_predication': '.predn',
    'content_predication': '.predn', 'arg_3': '.pa 2', 'arg_4': '.pa 1', 'arg_5': '.pa 0', '_': '.opt (.nd .mod)',
    'forethought_connective': '.con', 'LU_phrase': '.lu', 'MI_phrase_1': '.miOpen', 'PO_phrase_1': '.poOpen',
    'MO_phrase_1': '.part', 'parenthetical_1': '.part', 'boundary': '.unit', 'space': '.raw', 'punctuation': '.raw',
    'EOF': '.nul', 'word': '.spaced', 'i': ".one ['ı', 'I']", 'neutral_desinence': '.sy plainVowels', 'tone': '.chr toneRunes'}
def srt_of(arg):
    if arg == 'arg_5': return '.predArg'
    return '.' + SRT[arg]
def type_of(n):
    name, args = inst[n]
    if name in SRT: return '.nd .' + SRT[name]
    if name in WORDS: return '.word'
    if name in OTHER: return OTHER[name]
    if name in ('afterthought_cop', 'forethought_cop'): return '.cop %s %s' % tuple(map(srt_of, args))
    if name == 'forethought_cop_1': return '.cop1 %s %s' % tuple(map(srt_of, args))
    if name in ('cop_bar', 'forethought_cop_bar'): return '.bar ' + srt_of(args[0])
    if name == 'desinence' and list(args) == ['a', 'u', 'i', 'o', 'e']: return '.sy plainVowels'
    e = exprs[n]
    if e[0] == 'cls': return '.chr [%s]' % ', '.join(map(ch, e[1]))
    if e[0] == 'lit': return '.chr [%s]' % ch(e[1])
    return '.str'
rty = {n: type_of(n) for n in names}
