#!/usr/bin/env python3
"""Write lean/Verif/Parse/NoteWins.lean: the ways to write the vowels of syllables, as literals.

Lean checks that the lists are those of the specification (`wins_ok`)."""
import re, os, unicodedata

HERE = os.path.dirname(os.path.abspath(__file__))
PARSE = os.path.join(HERE, '..', 'lean', 'Verif', 'Parse')

src = open(os.path.join(PARSE, 'ToneSpec.lean'), encoding='utf-8').read()
rimes = re.findall(r'"([^"]*)"', src[src.index('def rimes'):src.index('def WTone.syllable')])
TONES = [('plain', '', ''), ('macron', '-1', '̄'), ('acute', '/2', '́'), ('caron', 'V3', '̌̆'),
         ('hook', '?4', '̉'), ('circumflex', '^5', '̂'), ('grave', '\\6', '̀'), ('tilde', '~7', '̃')]

def ways(mark, comb, r):
    if not mark:
        return [r]
    v, rest = r[0], r[1:]
    pre = unicodedata.normalize('NFC', ('i' if v == 'ı' else v) + comb[0])
    assert len(pre) == 1
    return [pre + rest] + [v + c + rest for c in comb] + [v + m + rest for m in mark] + [v + rest + mark[0]]

def lit(s):
    return '[' + ', '.join("'\\u%04x'" % ord(c) for c in s) + ']'

out = ['''/-
Generated by tools/gen_windows.py: the ways to write the vowels of syllables, as literals, by tone.
-/
import Verif.Parse.NoteSpec

namespace Verif.Parse.Notes
open Verif.Parse
open Verif.Tone (Str)
''']
for name, mark, comb in TONES:
    out.append('def wins_%s : List (List Str) := [\n  %s]\n' % (name, ',\n  '.join(
        '[' + ', '.join(lit(w) for w in ways(mark, comb, r)) + ']' for r in rimes)))
out.append('/-- The ways to write each rime. -/\ndef wins : WTone → List (List Str)\n' + '\n'.join('  | .%s => wins_%s' % (n, n) for n, _, _ in TONES))
out.append('''
theorem wins_ok (τ : WTone) : wins τ = rimes.map τ.rimeWays := by cases τ <;> decide +kernel

end Verif.Parse.Notes''')
open(os.path.join(PARSE, 'NoteWins.lean'), 'w', encoding='utf-8').write('\n'.join(out) + '\n')
