#!/usr/bin/env python3
"""Generate lean/Verif/Parse/Grammar.lean from /repo/ast/toaq.peggy.

Templates are instantiated and rules numbered as in /repo/ast/toaq.go. Every instantiated rule is
compared with the terminals and rule calls, in order, of the Accepts function in toaq.go.
Run: python3 tools/gen_grammar.py [/repo]
"""
import re
import sys

REPO = sys.argv[1] if len(sys.argv) > 1 else '/repo'
OUT = __file__.rsplit('/', 2)[0] + '/lean/Verif/Parse/Grammar.lean'
src=open(REPO + '/ast/toaq.peggy').read()
i=src.index('\n}\n')+3
base=src[:i].count('\n')
src=src[i:]
pos=0
toks=[]
def line(p): return base+src[:p].count('\n')+1
while pos<len(src):
    c=src[pos]
    if c.isspace():
        pos+=1; continue
    if c=='#':
        while pos<len(src) and src[pos]!='\n': pos+=1
        continue
    l=line(pos)
    if src.startswith('<-',pos): toks.append(('ARROW','<-',l)); pos+=2; continue
    if c=='{':
        d=0; q=pos; instr=None
        while True:
            ch=src[q]
            if instr:
                if ch=='\\': q+=1
                elif ch==instr: instr=None
            elif ch in '"\'': instr=ch
            elif ch=='{': d+=1
            elif ch=='}':
                d-=1
                if d==0: break
            q+=1
        toks.append(('CODE',src[pos+1:q].strip(),l)); pos=q+1; continue
    if c=='[':
        q=pos+1; cs=[]
        while src[q]!=']':
            if src[q]=='\\':
                e=src[q+1]
                if e=='u': cs.append(chr(int(src[q+2:q+6],16))); q+=6; continue
                cs.append({'t':'\t','n':'\n','r':'\r'}.get(e,e)); q+=2; continue
            cs.append(src[q]); q+=1
        toks.append(('CLS',cs,l)); pos=q+1; continue
    if c in '"\'':
        q=pos+1; s=''
        while src[q]!=c:
            if src[q]=='\\':
                e=src[q+1]
                if e=='u': s+=chr(int(src[q+2:q+6],16)); q+=6; continue
                raise Exception(e)
            s+=src[q]; q+=1
        toks.append(('STR',s,l)); pos=q+1; continue
    m=re.compile(r'[^\W\d]\w*',re.U).match(src,pos)
    if m:
        toks.append(('ID',m.group(),l)); pos=m.end(); continue
    toks.append((c,c,l)); pos+=1
# parser
k=0
def peek(o=0): return toks[k+o] if k+o<len(toks) else ('END','',0)
def isRuleStart():
    # ID [STR]? ARROW  or ID < params > ARROW
    if peek()[0]!='ID': return False
    if peek(1)[0]=='ARROW': return True
    if peek(1)[0]=='STR' and peek(2)[0]=='ARROW': return True
    if peek(1)[0]=='<':
        o=2
        while peek(o)[0]!='>': o+=1
        return peek(o+1)[0]=='ARROW'
    return False
def expr():
    global k
    alts=[seqA()]
    while peek()[0]=='/':
        k+=1; alts.append(seqA())
    r=alts[-1]
    for a in reversed(alts[:-1]): r=('alt',a,r)
    return r
def seqA():
    global k
    items=[]
    while True:
        t=peek()[0]
        if t in ('/',')','END','CODE') or isRuleStart(): break
        items.append(item())
    r=items[-1]
    for a in reversed(items[:-1]): r=('seq',a,r)
    if peek()[0]=='CODE':
        r=('act',peek()[1],r); k+=1
    return r
def item():
    global k
    if peek()[0]=='ID' and peek(1)[0]==':':
        n=peek()[1]; k+=2
        return ('lab',n,pred())
    return pred()
def pred():
    global k
    if peek()[0] in '!&' :
        o=peek()[0]; k+=1
        if peek()[0]=='CODE':
            c=peek()[1]; k+=1
            return ('code',o,c)
        return ('not' if o=='!' else 'and', pred())
    return suf()
def suf():
    global k
    e=prim()
    while peek()[0] in '?*+':
        e=({'?':'opt','*':'star','+':'plus'}[peek()[0]],e); k+=1
    return e
def prim():
    global k
    t=peek()
    if t[0]=='(':
        k+=1; e=expr(); assert peek()[0]==')',peek(); k+=1
        return ('grp',e)
    if t[0]=='CLS': k+=1; return ('cls',t[1])
    if t[0]=='STR': k+=1; return ('lit',t[1])
    if t[0]=='.': k+=1; return ('any',)
    if t[0]=='ID':
        k+=1
        args=[]
        if peek()[0]=='<':
            k+=1
            while peek()[0]!='>':
                if peek()[0]==',': k+=1; continue
                args.append(peek()[1]); k+=1
            k+=1
        return ('ref',t[1],tuple(args))
    raise Exception(t)
rules={}
order=[]
while k<len(toks):
    n=peek()[1]; l=peek()[2]; k+=1
    params=[]; en=None
    if peek()[0]=='<':
        k+=1
        while peek()[0]!='>':
            if peek()[0]==',': k+=1; continue
            params.append(peek()[1]); k+=1
        k+=1
    if peek()[0]=='STR': en=peek()[1]; k+=1
    assert peek()[0]=='ARROW',(n,peek()); k+=1
    e=expr()
    endl=toks[k-1][2]
    rules[n]=(params,en,e,l,endl); order.append(n)


# ---- instances ----
go = open(REPO + '/ast/toaq.go').read()
consts = re.findall(r'^\t(_\S*)\s+int = (\d+)$', go, re.M)
number = {}
for n, v in consts:
    if n != '_N':
        number[n[1:]] = int(v)
N = len(number)
assert ('_N', str(N)) in consts

def mangle(name, args):
    return '__'.join((name,) + tuple(args))

inst = {}          # mangled name -> (template, args)
exprs = {}
def subst(e, env):
    t = e[0]
    if t == 'ref':
        if e[1] in env:
            assert not e[2]
            r = env[e[1]]
            need(r, ())
            return ('ref', r)
        args = tuple(env.get(a, a) for a in e[2])
        need(e[1], args)
        return ('ref', mangle(e[1], args))
    if t in ('alt', 'seq'):
        return (t, subst(e[1], env), subst(e[2], env))
    if t in ('act', 'lab'):
        return (t, e[1], subst(e[2], env))
    if t in ('not', 'and', 'opt', 'star', 'plus', 'grp'):
        return (t, subst(e[1], env))
    return e
todo = []
def need(name, args):
    m = mangle(name, args)
    if m not in inst:
        inst[m] = (name, args)
        todo.append(m)
for n in order:
    if not rules[n][0]:
        need(n, ())
while todo:
    m = todo.pop()
    name, args = inst[m]
    params = rules[name][0]
    assert len(params) == len(args), m
    exprs[m] = subst(rules[name][2], dict(zip(params, args)))
assert set(inst) == set(number), set(inst) ^ set(number)
names = sorted(number, key=number.get)

# ---- the code predicate ----
def fixpred(e):
    if e[0] == 'seq' and e[2][0] == 'code':
        assert e[1] == ('lab', 'p', ('any',)) and 'unicode.IsPunct(r)' in e[2][2] and e[2][1] == '&'
        return ('punct',)
    return (e[0],) + tuple(fixpred(x) if isinstance(x, tuple) and e[0] not in ('ref', 'cls', 'lit') else x
                           for x in e[1:])
for m in exprs:
    exprs[m] = fixpred(exprs[m])

# ---- comparison with the generated parser ----
def events(e):
    t = e[0]
    if t == 'ref': return [('call', e[1])]
    if t == 'cls': return [('cls', tuple(e[1]))]
    if t == 'lit': return [('lit', e[1])]
    if t == 'any': return [('any',)]
    if t == 'punct': return [('any',), ('code',)]
    if t in ('alt', 'seq'): return events(e[1]) + events(e[2])
    if t in ('act', 'lab'): return events(e[2])
    if t == 'plus': return events(e[1]) * 2
    return events(e[1])
ESC = {'\\t': '\t', '\\n': '\n', '\\r': '\r', '\\\\': '\\', "\\'": "'"}
lines = go.split('\n')
startline = {}
for i, l in enumerate(lines):
    m = re.match(r'func _(\S*)Accepts\(', l)
    if m and m.group(1) in number:
        startline[m.group(1)] = i
for n in names:
    i = startline[n] + 1
    ev = []
    nmemo = 0
    while lines[i] != '}':
        l = lines[i]
        m = re.search(r'_accept\(parser, _(\S*)Accepts,', l)
        if m: ev.append(('call', m.group(1)))
        m = re.search(r"if r, w := _next\(parser, pos\); (.*) \{$", l)
        if m:
            c = m.group(1)
            if c == "w == 0 || r == '\\uFFFD'": ev.append(('any',))
            else:
                cs = re.findall(r"r != '((?:\\.|[^'])+)'", c)
                ev.append(('cls', tuple(ESC.get(x, x) for x in cs)))
        m = re.search(r'if len\(parser.text\[pos:\]\) < \d+ \|\| parser.text\[pos:pos\+\d+\] != "(.*)" \{$', l)
        if m: ev.append(('lit', m.group(1).encode().decode('unicode_escape') if '\\' in m.group(1) else m.group(1)))
        if '// pred code' in l: ev.append(('code',))
        i += 1
    want = events(exprs[n])
    assert [x if x[0] != 'cls' else ('cls', tuple(sorted(x[1]))) for x in ev] == \
           [x if x[0] != 'cls' else ('cls', tuple(sorted(x[1]))) for x in want], (n, ev, want)

# ---- actions ----
KIND = {'CoPSentence': 'sentence', 'CoPStatement': 'statement', 'CoPPredicate': 'predicate',
        'TermSet': 'termSet', 'CoPArgument': 'argument', 'CoPRelative': 'relative',
        'CoPAdverb': 'adverb', 'CoPPreposition': 'preposition', 'CoPContent': 'content'}
def squash(c):
    return re.sub(r'\b(x|s)\d\b', r'\1', c).rstrip()
ACT = {
    'return Text(text(s, d))': '.text',
    'return Node(x.modSentence(s))': '.modNode', 'return Node(x.modFragment(s))': '.modNode',
    'return Fragment(f.modFragment(s))': '.modNode', 'return Prenex(*p.mod(s))': '.modNode',
    'return Predicate(p.modPredicate(s))': '.modNode', 'return Mod(m.mod(ms))': '.modNode',
    'return Word(*je.mod(s))': '.modWord', 'return Word(*ku.mod(s))': '.modWord',
    'return Word(*q.mod(s))': '.modWord', 'return (*Word)(w.mod(s))': '.modWord',
    'return Word(*moq.mod(s))': '.modWord',
    'se.JE = je; return Sentence(se)': '.je',
    'return &StatementSentence{Statement: st.modStatement(s), DA: da}': '.sentence',
    'return Statement(prenexStmt(p, s))': '.prenexStmt',
    'return Statement(endPredication(p, s, na))': '(.endPred .raw)',
    'return &PredicationRelative{Predication: *endPredication(p, s, na)}': '(.endPred .relative)',
    'return &PredicationContent{Predication: *endPredication(p, s, na)}': '(.endPred .content)',
    'return Predication(predication(p, s, ts))': '.predication',
    'return (*Prenex)(prenex(ts, s, bi))': '.prenex',
    'return Predicate(serial(l, s, r))': '.serial',
    'return Terms{t}': '.terms1',
    'return Terms(ts.Prepend(t.modTerm(s)))': '.prepend',
    'return Terms(r.Prepend(l.modTerm(s)))': '.prepend',
    'return Terms{l.modTerm(s), r}': '.terms2',
    'return Term(linkedTerm(g, a))': '.linked',
    'return Argument(focusedArgument(ku, a))': '.focused',
    'return PredicateArgument(quantifiedArgument(q, a))': '.quantified',
    'return PredicateArgument(argumentRelative(*a, s, rc))': '.argRel',
    'return &PredicateArgument{Predicate: p}': '.predArg',
    'return Adverb(&PredicateAdverb{Predicate: p})': '.predAdverb',
    'return Preposition(prepPhrase(p, s, a))': '.prep',
    'return (*CoP)(copLeft(l, s, bar))': '.copLeft',
    'return CoP(copRight(ru, s, r))': '.copRight',
    'return (*CoP)(foreCoP(con, s, cop))': '.foreCoP',
    'return CoP(foreCoPLeft(l, s, bar))': '.foreCoPLeft',
    'return CoP(foreCoPRight(to, s, r))': '.foreCoPRight',
    'return CoP(connector(to, s, ru))': '.connector',
    'return &LUPhrase{LU: *lu.mod(s), Statement: st}': '.luPhrase',
    'return &Word{S: start, E: end, T: w}': '.word',
    'return Word{S: start, E: end, T: w}': '.word',
    'return Predicate(&WordPredicate{S: start, E: end, T: w})': '(.wordNode .predicate)',
    'return &Interjection{S: start, E: end, T: w}': '(.wordNode .interjection)',
    'return Mod(&Space{S: start, E: end, T: s})': '(.wordNode .space)',
    'return Mod(&Space{S: start, E: end, T: w })': '(.wordNode .space)',
    'return (*Word)(Word{S: start, E: end, T: w}.mod(s))': '.wordMod',
    'return Predicate(miEnd(mi, s, ga))': '.miEnd',
    'return MIPredicate{MI: *mi.mod(s), Phrase: p}': '.mi',
    'return Predicate(poEnd(po, s, ga))': '.poEnd',
    'return POPredicate{PO: *po.mod(s), Argument: a}': '.po',
    'return Predicate(moEnd(mo, s, teo))': '.moEnd',
    'return MOPredicate{MO: *mo.mod(s), Discourse: d}': '.mo',
    'return (*Parenthetical)(endParen(p, s, ki))': '.endParen',
    'return Parenthetical{KIO: *kio.mod(s), Discourse: d}': '.paren',
    'return &Incidental{JU: *ju.mod(s), Statement: st}': '.incidental',
    'return &Vocative{HU: *hu.mod(s), Argument: a}': '.vocative',
    'return string(addTone(d, t))': '.addTone',
    'return ""': '.empty',
    'if l == "i" { return "ı" }; return string(l)': '.dotless',
}
def action(c):
    c = squash(c)
    if c in ACT: return ACT[c]
    m = re.fullmatch(r'return \w+\(\(\*(\w+)\)\(\w\)\)', c)
    if m:
        if m.group(1) in KIND: return '(.copAs .%s)' % KIND[m.group(1)]
        return {'LUPredicate': '(.luAs .predicate)', 'LURelative': '(.luAs .relative)',
                'LUContent': '(.luAs .content)'}[m.group(1)]
    m = re.fullmatch(r'return \(\*TermSet\)\(x\)', c)
    if m: return '(.copAs .termSet)'
    m = re.fullmatch(r"return string\(tone.Diacritic\['(.*)'\]\[l\]\[0\]\)", c)
    if m: return "(.diacritic '%s')" % m.group(1)
    m = re.fullmatch(r'return (Text|Fragment|Term|Phrase|Mod|Predicate|Relative|Content)\([xt]\)', c)
    if m: return '.keep'
    raise Exception(c)

# ---- Lean ----
def ch(c):
    o = ord(c)
    if c == "'": return "'\\''"
    if c == '\\': return "'\\\\'"
    if c == '\t': return "'\\t'"
    if c == '\n': return "'\\n'"
    if c == '\r': return "'\\r'"
    if 0x300 <= o < 0x370: return "'\\u%04x'" % o
    return "'%s'" % c
def lean(e):
    t = e[0]
    if t == 'ref': return '.ref %d' % number[e[1]]
    if t == 'cls': return '.term (.cls [%s])' % ', '.join(map(ch, e[1]))
    if t == 'lit':
        assert len(e[1]) == 1
        return '.term (.lit %s)' % ch(e[1])
    if t == 'any': return '.term .any'
    if t == 'punct': return '.term .punct'
    if t in ('alt', 'seq'): return '.%s (%s) (%s)' % (t, lean(e[1]), lean(e[2]))
    if t == 'act': return '.act %s (%s)' % (action(e[1]), lean(e[2]))
    if t == 'lab': return '.lab (%s)' % lean(e[2])
    return '.%s (%s)' % (t, lean(e[1]))

# nullable rules, ranks, depth
nl = {n: False for n in names}
def nul(e):
    t = e[0]
    if t == 'ref': return nl[e[1]]
    if t in ('cls', 'lit', 'any', 'punct'): return False
    if t == 'seq': return nul(e[1]) and nul(e[2])
    if t == 'alt': return nul(e[1]) or nul(e[2])
    if t in ('opt', 'star', 'not', 'and'): return True
    if t in ('act', 'lab'): return nul(e[2])
    return nul(e[1])
ch_ = True
while ch_:
    ch_ = False
    for n in names:
        v = nul(exprs[n])
        if v != nl[n]: nl[n] = v; ch_ = True
def left(e):
    t = e[0]
    if t == 'ref': return {e[1]}
    if t in ('cls', 'lit', 'any', 'punct'): return set()
    if t == 'seq': return left(e[1]) | (left(e[2]) if nul(e[1]) else set())
    if t == 'alt': return left(e[1]) | left(e[2])
    if t in ('act', 'lab'): return left(e[2])
    return left(e[1])
rank = {}
def rk(n):
    if n in rank:
        assert rank[n] is not None, n
        return rank[n]
    rank[n] = None
    rank[n] = 1 + max([rk(m) for m in left(exprs[n])], default=-1)
    return rank[n]
for n in names: rk(n)
def depth(e):
    t = e[0]
    if t in ('ref', 'cls', 'lit', 'any', 'punct'): return 1
    if t in ('seq', 'alt'): return 1 + max(depth(e[1]), depth(e[2]))
    if t in ('act', 'lab'): return 1 + depth(e[2])
    return depth(e[1]) + (2 if t == 'plus' else 1)

def tree(xs, f, lo=0):
    if len(xs) == 1: return '(.leaf %s)' % f(xs[0])
    k = len(xs) // 2
    return '(.br %d %s %s)' % (lo + k, tree(xs[:k], f, lo), tree(xs[k:], f, lo + k))

exec(open(__file__.rsplit('/', 1)[0] + '/gen_grammar_types.py').read())

o = []
o.append("""/-
The grammar of Toaq. Generated by tools/gen_grammar.py from /repo/ast/toaq.peggy; do not edit.
Rules are numbered as in /repo/ast/toaq.go:10-414. Every rule cites its lines in toaq.peggy and the
line of its Accepts function in toaq.go.
-/
import Verif.Parse.Types

namespace Verif.Parse
open Verif.Peg
""")
for n in names:
    name, args = inst[n]
    _, en, _, l0, l1 = rules[name]
    o.append('/-- `%s%s`: toaq.peggy:%s, toaq.go:%d. -/' % (
        name, '<%s>' % ', '.join(args) if args else '', l0 if l0 == l1 else '%d-%d' % (l0, l1), startline[n] + 1))
    o.append('def r%d : Expr Act :=\n  %s' % (number[n], lean(exprs[n])))
o.append('/-- The rules. -/\ndef bodies : Tr (Expr Act) :=\n  ' + tree(names, lambda n: 'r%d' % number[n]))
o.append('/-- The rules that may succeed without reading. -/\ndef nulls : Tr Bool :=\n  ' +
         tree(names, lambda n: 'true' if nl[n] else 'false'))
o.append('/-- Ranks showing that there is no left recursion. -/\ndef ranks : Tr Nat :=\n  ' +
         tree(names, lambda n: str(rank[n])))
o.append('/-- The rules with an error name. -/\ndef nameds : Tr Bool :=\n  ' +
         tree(names, lambda n: 'true' if rules[inst[n][0]][1] else 'false'))
o.append('/-- The types of the rules (the Go result types of the Action functions, refined). -/\ndef types : Tr Ty :=\n  ' +
         tree(names, lambda n: '(%s)' % rty[n]))
o.append('/-- The number of rules, a bound of the ranks and a bound of the depths of the rules. -/')
o.append('def numRules : Nat := %d\ndef rankBound : Nat := %d\ndef depthBound : Nat := %d' % (
    N, max(rank.values()) + 1, max(depth(exprs[n]) for n in names)))
for n in ('full_text', 'text', 'word', 'EOF'):
    o.append('def rule_%s : Nat := %d' % (n, number[n]))
o.append("""
/-- The grammar. -/
def toaq : Gram Act where
  body r := bodies.get r
  named r := nameds.get r

end Verif.Parse
""")
open(OUT, 'w').write('\n'.join(o))
print(N, 'rules, rank', max(rank.values()), 'depth', max(depth(exprs[n]) for n in names))
