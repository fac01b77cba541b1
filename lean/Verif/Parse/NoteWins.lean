/-
Generated by tools/gen_windows.py: the ways to write the vowels of syllables, as literals, by tone.
-/
import Verif.Parse.NoteSpec

namespace Verif.Parse.Notes
open Verif.Parse
open Verif.Tone (Str)

def wins_plain : List (List Str) := [
  [['\u0061']],
  [['\u0061', '\u0131']],
  [['\u0061', '\u006f']],
  [['\u0061', '\u0071']],
  [['\u0065']],
  [['\u0065', '\u0061']],
  [['\u0065', '\u0061', '\u0131']],
  [['\u0065', '\u0061', '\u006f']],
  [['\u0065', '\u0061', '\u0071']],
  [['\u0065', '\u0131']],
  [['\u0065', '\u006f']],
  [['\u0065', '\u006f', '\u0071']],
  [['\u0065', '\u0071']],
  [['\u0065', '\u0075']],
  [['\u0131']],
  [['\u0131', '\u0061']],
  [['\u0131', '\u0061', '\u0131']],
  [['\u0131', '\u0061', '\u006f']],
  [['\u0131', '\u0061', '\u0071']],
  [['\u0131', '\u0065']],
  [['\u0131', '\u0065', '\u0071']],
  [['\u0131', '\u006f']],
  [['\u0131', '\u006f', '\u0131']],
  [['\u0131', '\u006f', '\u0071']],
  [['\u0131', '\u0071']],
  [['\u0131', '\u0075']],
  [['\u0131', '\u0075', '\u0071']],
  [['\u006f']],
  [['\u006f', '\u0061']],
  [['\u006f', '\u0061', '\u0131']],
  [['\u006f', '\u0061', '\u006f']],
  [['\u006f', '\u0061', '\u0071']],
  [['\u006f', '\u0065']],
  [['\u006f', '\u0065', '\u0071']],
  [['\u006f', '\u0131']],
  [['\u006f', '\u0071']],
  [['\u0075']],
  [['\u0075', '\u0061']],
  [['\u0075', '\u0061', '\u0131']],
  [['\u0075', '\u0061', '\u006f']],
  [['\u0075', '\u0061', '\u0071']],
  [['\u0075', '\u0065']],
  [['\u0075', '\u0065', '\u0071']],
  [['\u0075', '\u0131']],
  [['\u0075', '\u006f']],
  [['\u0075', '\u006f', '\u0131']],
  [['\u0075', '\u006f', '\u0071']],
  [['\u0075', '\u0071']]]

def wins_macron : List (List Str) := [
  [['\u0101'], ['\u0061', '\u0304'], ['\u0061', '\u002d'], ['\u0061', '\u0031'], ['\u0061', '\u002d']],
  [['\u0101', '\u0131'], ['\u0061', '\u0304', '\u0131'], ['\u0061', '\u002d', '\u0131'], ['\u0061', '\u0031', '\u0131'], ['\u0061', '\u0131', '\u002d']],
  [['\u0101', '\u006f'], ['\u0061', '\u0304', '\u006f'], ['\u0061', '\u002d', '\u006f'], ['\u0061', '\u0031', '\u006f'], ['\u0061', '\u006f', '\u002d']],
  [['\u0101', '\u0071'], ['\u0061', '\u0304', '\u0071'], ['\u0061', '\u002d', '\u0071'], ['\u0061', '\u0031', '\u0071'], ['\u0061', '\u0071', '\u002d']],
  [['\u0113'], ['\u0065', '\u0304'], ['\u0065', '\u002d'], ['\u0065', '\u0031'], ['\u0065', '\u002d']],
  [['\u0113', '\u0061'], ['\u0065', '\u0304', '\u0061'], ['\u0065', '\u002d', '\u0061'], ['\u0065', '\u0031', '\u0061'], ['\u0065', '\u0061', '\u002d']],
  [['\u0113', '\u0061', '\u0131'], ['\u0065', '\u0304', '\u0061', '\u0131'], ['\u0065', '\u002d', '\u0061', '\u0131'], ['\u0065', '\u0031', '\u0061', '\u0131'], ['\u0065', '\u0061', '\u0131', '\u002d']],
  [['\u0113', '\u0061', '\u006f'], ['\u0065', '\u0304', '\u0061', '\u006f'], ['\u0065', '\u002d', '\u0061', '\u006f'], ['\u0065', '\u0031', '\u0061', '\u006f'], ['\u0065', '\u0061', '\u006f', '\u002d']],
  [['\u0113', '\u0061', '\u0071'], ['\u0065', '\u0304', '\u0061', '\u0071'], ['\u0065', '\u002d', '\u0061', '\u0071'], ['\u0065', '\u0031', '\u0061', '\u0071'], ['\u0065', '\u0061', '\u0071', '\u002d']],
  [['\u0113', '\u0131'], ['\u0065', '\u0304', '\u0131'], ['\u0065', '\u002d', '\u0131'], ['\u0065', '\u0031', '\u0131'], ['\u0065', '\u0131', '\u002d']],
  [['\u0113', '\u006f'], ['\u0065', '\u0304', '\u006f'], ['\u0065', '\u002d', '\u006f'], ['\u0065', '\u0031', '\u006f'], ['\u0065', '\u006f', '\u002d']],
  [['\u0113', '\u006f', '\u0071'], ['\u0065', '\u0304', '\u006f', '\u0071'], ['\u0065', '\u002d', '\u006f', '\u0071'], ['\u0065', '\u0031', '\u006f', '\u0071'], ['\u0065', '\u006f', '\u0071', '\u002d']],
  [['\u0113', '\u0071'], ['\u0065', '\u0304', '\u0071'], ['\u0065', '\u002d', '\u0071'], ['\u0065', '\u0031', '\u0071'], ['\u0065', '\u0071', '\u002d']],
  [['\u0113', '\u0075'], ['\u0065', '\u0304', '\u0075'], ['\u0065', '\u002d', '\u0075'], ['\u0065', '\u0031', '\u0075'], ['\u0065', '\u0075', '\u002d']],
  [['\u012b'], ['\u0131', '\u0304'], ['\u0131', '\u002d'], ['\u0131', '\u0031'], ['\u0131', '\u002d']],
  [['\u012b', '\u0061'], ['\u0131', '\u0304', '\u0061'], ['\u0131', '\u002d', '\u0061'], ['\u0131', '\u0031', '\u0061'], ['\u0131', '\u0061', '\u002d']],
  [['\u012b', '\u0061', '\u0131'], ['\u0131', '\u0304', '\u0061', '\u0131'], ['\u0131', '\u002d', '\u0061', '\u0131'], ['\u0131', '\u0031', '\u0061', '\u0131'], ['\u0131', '\u0061', '\u0131', '\u002d']],
  [['\u012b', '\u0061', '\u006f'], ['\u0131', '\u0304', '\u0061', '\u006f'], ['\u0131', '\u002d', '\u0061', '\u006f'], ['\u0131', '\u0031', '\u0061', '\u006f'], ['\u0131', '\u0061', '\u006f', '\u002d']],
  [['\u012b', '\u0061', '\u0071'], ['\u0131', '\u0304', '\u0061', '\u0071'], ['\u0131', '\u002d', '\u0061', '\u0071'], ['\u0131', '\u0031', '\u0061', '\u0071'], ['\u0131', '\u0061', '\u0071', '\u002d']],
  [['\u012b', '\u0065'], ['\u0131', '\u0304', '\u0065'], ['\u0131', '\u002d', '\u0065'], ['\u0131', '\u0031', '\u0065'], ['\u0131', '\u0065', '\u002d']],
  [['\u012b', '\u0065', '\u0071'], ['\u0131', '\u0304', '\u0065', '\u0071'], ['\u0131', '\u002d', '\u0065', '\u0071'], ['\u0131', '\u0031', '\u0065', '\u0071'], ['\u0131', '\u0065', '\u0071', '\u002d']],
  [['\u012b', '\u006f'], ['\u0131', '\u0304', '\u006f'], ['\u0131', '\u002d', '\u006f'], ['\u0131', '\u0031', '\u006f'], ['\u0131', '\u006f', '\u002d']],
  [['\u012b', '\u006f', '\u0131'], ['\u0131', '\u0304', '\u006f', '\u0131'], ['\u0131', '\u002d', '\u006f', '\u0131'], ['\u0131', '\u0031', '\u006f', '\u0131'], ['\u0131', '\u006f', '\u0131', '\u002d']],
  [['\u012b', '\u006f', '\u0071'], ['\u0131', '\u0304', '\u006f', '\u0071'], ['\u0131', '\u002d', '\u006f', '\u0071'], ['\u0131', '\u0031', '\u006f', '\u0071'], ['\u0131', '\u006f', '\u0071', '\u002d']],
  [['\u012b', '\u0071'], ['\u0131', '\u0304', '\u0071'], ['\u0131', '\u002d', '\u0071'], ['\u0131', '\u0031', '\u0071'], ['\u0131', '\u0071', '\u002d']],
  [['\u012b', '\u0075'], ['\u0131', '\u0304', '\u0075'], ['\u0131', '\u002d', '\u0075'], ['\u0131', '\u0031', '\u0075'], ['\u0131', '\u0075', '\u002d']],
  [['\u012b', '\u0075', '\u0071'], ['\u0131', '\u0304', '\u0075', '\u0071'], ['\u0131', '\u002d', '\u0075', '\u0071'], ['\u0131', '\u0031', '\u0075', '\u0071'], ['\u0131', '\u0075', '\u0071', '\u002d']],
  [['\u014d'], ['\u006f', '\u0304'], ['\u006f', '\u002d'], ['\u006f', '\u0031'], ['\u006f', '\u002d']],
  [['\u014d', '\u0061'], ['\u006f', '\u0304', '\u0061'], ['\u006f', '\u002d', '\u0061'], ['\u006f', '\u0031', '\u0061'], ['\u006f', '\u0061', '\u002d']],
  [['\u014d', '\u0061', '\u0131'], ['\u006f', '\u0304', '\u0061', '\u0131'], ['\u006f', '\u002d', '\u0061', '\u0131'], ['\u006f', '\u0031', '\u0061', '\u0131'], ['\u006f', '\u0061', '\u0131', '\u002d']],
  [['\u014d', '\u0061', '\u006f'], ['\u006f', '\u0304', '\u0061', '\u006f'], ['\u006f', '\u002d', '\u0061', '\u006f'], ['\u006f', '\u0031', '\u0061', '\u006f'], ['\u006f', '\u0061', '\u006f', '\u002d']],
  [['\u014d', '\u0061', '\u0071'], ['\u006f', '\u0304', '\u0061', '\u0071'], ['\u006f', '\u002d', '\u0061', '\u0071'], ['\u006f', '\u0031', '\u0061', '\u0071'], ['\u006f', '\u0061', '\u0071', '\u002d']],
  [['\u014d', '\u0065'], ['\u006f', '\u0304', '\u0065'], ['\u006f', '\u002d', '\u0065'], ['\u006f', '\u0031', '\u0065'], ['\u006f', '\u0065', '\u002d']],
  [['\u014d', '\u0065', '\u0071'], ['\u006f', '\u0304', '\u0065', '\u0071'], ['\u006f', '\u002d', '\u0065', '\u0071'], ['\u006f', '\u0031', '\u0065', '\u0071'], ['\u006f', '\u0065', '\u0071', '\u002d']],
  [['\u014d', '\u0131'], ['\u006f', '\u0304', '\u0131'], ['\u006f', '\u002d', '\u0131'], ['\u006f', '\u0031', '\u0131'], ['\u006f', '\u0131', '\u002d']],
  [['\u014d', '\u0071'], ['\u006f', '\u0304', '\u0071'], ['\u006f', '\u002d', '\u0071'], ['\u006f', '\u0031', '\u0071'], ['\u006f', '\u0071', '\u002d']],
  [['\u016b'], ['\u0075', '\u0304'], ['\u0075', '\u002d'], ['\u0075', '\u0031'], ['\u0075', '\u002d']],
  [['\u016b', '\u0061'], ['\u0075', '\u0304', '\u0061'], ['\u0075', '\u002d', '\u0061'], ['\u0075', '\u0031', '\u0061'], ['\u0075', '\u0061', '\u002d']],
  [['\u016b', '\u0061', '\u0131'], ['\u0075', '\u0304', '\u0061', '\u0131'], ['\u0075', '\u002d', '\u0061', '\u0131'], ['\u0075', '\u0031', '\u0061', '\u0131'], ['\u0075', '\u0061', '\u0131', '\u002d']],
  [['\u016b', '\u0061', '\u006f'], ['\u0075', '\u0304', '\u0061', '\u006f'], ['\u0075', '\u002d', '\u0061', '\u006f'], ['\u0075', '\u0031', '\u0061', '\u006f'], ['\u0075', '\u0061', '\u006f', '\u002d']],
  [['\u016b', '\u0061', '\u0071'], ['\u0075', '\u0304', '\u0061', '\u0071'], ['\u0075', '\u002d', '\u0061', '\u0071'], ['\u0075', '\u0031', '\u0061', '\u0071'], ['\u0075', '\u0061', '\u0071', '\u002d']],
  [['\u016b', '\u0065'], ['\u0075', '\u0304', '\u0065'], ['\u0075', '\u002d', '\u0065'], ['\u0075', '\u0031', '\u0065'], ['\u0075', '\u0065', '\u002d']],
  [['\u016b', '\u0065', '\u0071'], ['\u0075', '\u0304', '\u0065', '\u0071'], ['\u0075', '\u002d', '\u0065', '\u0071'], ['\u0075', '\u0031', '\u0065', '\u0071'], ['\u0075', '\u0065', '\u0071', '\u002d']],
  [['\u016b', '\u0131'], ['\u0075', '\u0304', '\u0131'], ['\u0075', '\u002d', '\u0131'], ['\u0075', '\u0031', '\u0131'], ['\u0075', '\u0131', '\u002d']],
  [['\u016b', '\u006f'], ['\u0075', '\u0304', '\u006f'], ['\u0075', '\u002d', '\u006f'], ['\u0075', '\u0031', '\u006f'], ['\u0075', '\u006f', '\u002d']],
  [['\u016b', '\u006f', '\u0131'], ['\u0075', '\u0304', '\u006f', '\u0131'], ['\u0075', '\u002d', '\u006f', '\u0131'], ['\u0075', '\u0031', '\u006f', '\u0131'], ['\u0075', '\u006f', '\u0131', '\u002d']],
  [['\u016b', '\u006f', '\u0071'], ['\u0075', '\u0304', '\u006f', '\u0071'], ['\u0075', '\u002d', '\u006f', '\u0071'], ['\u0075', '\u0031', '\u006f', '\u0071'], ['\u0075', '\u006f', '\u0071', '\u002d']],
  [['\u016b', '\u0071'], ['\u0075', '\u0304', '\u0071'], ['\u0075', '\u002d', '\u0071'], ['\u0075', '\u0031', '\u0071'], ['\u0075', '\u0071', '\u002d']]]

def wins_acute : List (List Str) := [
  [['\u00e1'], ['\u0061', '\u0301'], ['\u0061', '\u002f'], ['\u0061', '\u0032'], ['\u0061', '\u002f']],
  [['\u00e1', '\u0131'], ['\u0061', '\u0301', '\u0131'], ['\u0061', '\u002f', '\u0131'], ['\u0061', '\u0032', '\u0131'], ['\u0061', '\u0131', '\u002f']],
  [['\u00e1', '\u006f'], ['\u0061', '\u0301', '\u006f'], ['\u0061', '\u002f', '\u006f'], ['\u0061', '\u0032', '\u006f'], ['\u0061', '\u006f', '\u002f']],
  [['\u00e1', '\u0071'], ['\u0061', '\u0301', '\u0071'], ['\u0061', '\u002f', '\u0071'], ['\u0061', '\u0032', '\u0071'], ['\u0061', '\u0071', '\u002f']],
  [['\u00e9'], ['\u0065', '\u0301'], ['\u0065', '\u002f'], ['\u0065', '\u0032'], ['\u0065', '\u002f']],
  [['\u00e9', '\u0061'], ['\u0065', '\u0301', '\u0061'], ['\u0065', '\u002f', '\u0061'], ['\u0065', '\u0032', '\u0061'], ['\u0065', '\u0061', '\u002f']],
  [['\u00e9', '\u0061', '\u0131'], ['\u0065', '\u0301', '\u0061', '\u0131'], ['\u0065', '\u002f', '\u0061', '\u0131'], ['\u0065', '\u0032', '\u0061', '\u0131'], ['\u0065', '\u0061', '\u0131', '\u002f']],
  [['\u00e9', '\u0061', '\u006f'], ['\u0065', '\u0301', '\u0061', '\u006f'], ['\u0065', '\u002f', '\u0061', '\u006f'], ['\u0065', '\u0032', '\u0061', '\u006f'], ['\u0065', '\u0061', '\u006f', '\u002f']],
  [['\u00e9', '\u0061', '\u0071'], ['\u0065', '\u0301', '\u0061', '\u0071'], ['\u0065', '\u002f', '\u0061', '\u0071'], ['\u0065', '\u0032', '\u0061', '\u0071'], ['\u0065', '\u0061', '\u0071', '\u002f']],
  [['\u00e9', '\u0131'], ['\u0065', '\u0301', '\u0131'], ['\u0065', '\u002f', '\u0131'], ['\u0065', '\u0032', '\u0131'], ['\u0065', '\u0131', '\u002f']],
  [['\u00e9', '\u006f'], ['\u0065', '\u0301', '\u006f'], ['\u0065', '\u002f', '\u006f'], ['\u0065', '\u0032', '\u006f'], ['\u0065', '\u006f', '\u002f']],
  [['\u00e9', '\u006f', '\u0071'], ['\u0065', '\u0301', '\u006f', '\u0071'], ['\u0065', '\u002f', '\u006f', '\u0071'], ['\u0065', '\u0032', '\u006f', '\u0071'], ['\u0065', '\u006f', '\u0071', '\u002f']],
  [['\u00e9', '\u0071'], ['\u0065', '\u0301', '\u0071'], ['\u0065', '\u002f', '\u0071'], ['\u0065', '\u0032', '\u0071'], ['\u0065', '\u0071', '\u002f']],
  [['\u00e9', '\u0075'], ['\u0065', '\u0301', '\u0075'], ['\u0065', '\u002f', '\u0075'], ['\u0065', '\u0032', '\u0075'], ['\u0065', '\u0075', '\u002f']],
  [['\u00ed'], ['\u0131', '\u0301'], ['\u0131', '\u002f'], ['\u0131', '\u0032'], ['\u0131', '\u002f']],
  [['\u00ed', '\u0061'], ['\u0131', '\u0301', '\u0061'], ['\u0131', '\u002f', '\u0061'], ['\u0131', '\u0032', '\u0061'], ['\u0131', '\u0061', '\u002f']],
  [['\u00ed', '\u0061', '\u0131'], ['\u0131', '\u0301', '\u0061', '\u0131'], ['\u0131', '\u002f', '\u0061', '\u0131'], ['\u0131', '\u0032', '\u0061', '\u0131'], ['\u0131', '\u0061', '\u0131', '\u002f']],
  [['\u00ed', '\u0061', '\u006f'], ['\u0131', '\u0301', '\u0061', '\u006f'], ['\u0131', '\u002f', '\u0061', '\u006f'], ['\u0131', '\u0032', '\u0061', '\u006f'], ['\u0131', '\u0061', '\u006f', '\u002f']],
  [['\u00ed', '\u0061', '\u0071'], ['\u0131', '\u0301', '\u0061', '\u0071'], ['\u0131', '\u002f', '\u0061', '\u0071'], ['\u0131', '\u0032', '\u0061', '\u0071'], ['\u0131', '\u0061', '\u0071', '\u002f']],
  [['\u00ed', '\u0065'], ['\u0131', '\u0301', '\u0065'], ['\u0131', '\u002f', '\u0065'], ['\u0131', '\u0032', '\u0065'], ['\u0131', '\u0065', '\u002f']],
  [['\u00ed', '\u0065', '\u0071'], ['\u0131', '\u0301', '\u0065', '\u0071'], ['\u0131', '\u002f', '\u0065', '\u0071'], ['\u0131', '\u0032', '\u0065', '\u0071'], ['\u0131', '\u0065', '\u0071', '\u002f']],
  [['\u00ed', '\u006f'], ['\u0131', '\u0301', '\u006f'], ['\u0131', '\u002f', '\u006f'], ['\u0131', '\u0032', '\u006f'], ['\u0131', '\u006f', '\u002f']],
  [['\u00ed', '\u006f', '\u0131'], ['\u0131', '\u0301', '\u006f', '\u0131'], ['\u0131', '\u002f', '\u006f', '\u0131'], ['\u0131', '\u0032', '\u006f', '\u0131'], ['\u0131', '\u006f', '\u0131', '\u002f']],
  [['\u00ed', '\u006f', '\u0071'], ['\u0131', '\u0301', '\u006f', '\u0071'], ['\u0131', '\u002f', '\u006f', '\u0071'], ['\u0131', '\u0032', '\u006f', '\u0071'], ['\u0131', '\u006f', '\u0071', '\u002f']],
  [['\u00ed', '\u0071'], ['\u0131', '\u0301', '\u0071'], ['\u0131', '\u002f', '\u0071'], ['\u0131', '\u0032', '\u0071'], ['\u0131', '\u0071', '\u002f']],
  [['\u00ed', '\u0075'], ['\u0131', '\u0301', '\u0075'], ['\u0131', '\u002f', '\u0075'], ['\u0131', '\u0032', '\u0075'], ['\u0131', '\u0075', '\u002f']],
  [['\u00ed', '\u0075', '\u0071'], ['\u0131', '\u0301', '\u0075', '\u0071'], ['\u0131', '\u002f', '\u0075', '\u0071'], ['\u0131', '\u0032', '\u0075', '\u0071'], ['\u0131', '\u0075', '\u0071', '\u002f']],
  [['\u00f3'], ['\u006f', '\u0301'], ['\u006f', '\u002f'], ['\u006f', '\u0032'], ['\u006f', '\u002f']],
  [['\u00f3', '\u0061'], ['\u006f', '\u0301', '\u0061'], ['\u006f', '\u002f', '\u0061'], ['\u006f', '\u0032', '\u0061'], ['\u006f', '\u0061', '\u002f']],
  [['\u00f3', '\u0061', '\u0131'], ['\u006f', '\u0301', '\u0061', '\u0131'], ['\u006f', '\u002f', '\u0061', '\u0131'], ['\u006f', '\u0032', '\u0061', '\u0131'], ['\u006f', '\u0061', '\u0131', '\u002f']],
  [['\u00f3', '\u0061', '\u006f'], ['\u006f', '\u0301', '\u0061', '\u006f'], ['\u006f', '\u002f', '\u0061', '\u006f'], ['\u006f', '\u0032', '\u0061', '\u006f'], ['\u006f', '\u0061', '\u006f', '\u002f']],
  [['\u00f3', '\u0061', '\u0071'], ['\u006f', '\u0301', '\u0061', '\u0071'], ['\u006f', '\u002f', '\u0061', '\u0071'], ['\u006f', '\u0032', '\u0061', '\u0071'], ['\u006f', '\u0061', '\u0071', '\u002f']],
  [['\u00f3', '\u0065'], ['\u006f', '\u0301', '\u0065'], ['\u006f', '\u002f', '\u0065'], ['\u006f', '\u0032', '\u0065'], ['\u006f', '\u0065', '\u002f']],
  [['\u00f3', '\u0065', '\u0071'], ['\u006f', '\u0301', '\u0065', '\u0071'], ['\u006f', '\u002f', '\u0065', '\u0071'], ['\u006f', '\u0032', '\u0065', '\u0071'], ['\u006f', '\u0065', '\u0071', '\u002f']],
  [['\u00f3', '\u0131'], ['\u006f', '\u0301', '\u0131'], ['\u006f', '\u002f', '\u0131'], ['\u006f', '\u0032', '\u0131'], ['\u006f', '\u0131', '\u002f']],
  [['\u00f3', '\u0071'], ['\u006f', '\u0301', '\u0071'], ['\u006f', '\u002f', '\u0071'], ['\u006f', '\u0032', '\u0071'], ['\u006f', '\u0071', '\u002f']],
  [['\u00fa'], ['\u0075', '\u0301'], ['\u0075', '\u002f'], ['\u0075', '\u0032'], ['\u0075', '\u002f']],
  [['\u00fa', '\u0061'], ['\u0075', '\u0301', '\u0061'], ['\u0075', '\u002f', '\u0061'], ['\u0075', '\u0032', '\u0061'], ['\u0075', '\u0061', '\u002f']],
  [['\u00fa', '\u0061', '\u0131'], ['\u0075', '\u0301', '\u0061', '\u0131'], ['\u0075', '\u002f', '\u0061', '\u0131'], ['\u0075', '\u0032', '\u0061', '\u0131'], ['\u0075', '\u0061', '\u0131', '\u002f']],
  [['\u00fa', '\u0061', '\u006f'], ['\u0075', '\u0301', '\u0061', '\u006f'], ['\u0075', '\u002f', '\u0061', '\u006f'], ['\u0075', '\u0032', '\u0061', '\u006f'], ['\u0075', '\u0061', '\u006f', '\u002f']],
  [['\u00fa', '\u0061', '\u0071'], ['\u0075', '\u0301', '\u0061', '\u0071'], ['\u0075', '\u002f', '\u0061', '\u0071'], ['\u0075', '\u0032', '\u0061', '\u0071'], ['\u0075', '\u0061', '\u0071', '\u002f']],
  [['\u00fa', '\u0065'], ['\u0075', '\u0301', '\u0065'], ['\u0075', '\u002f', '\u0065'], ['\u0075', '\u0032', '\u0065'], ['\u0075', '\u0065', '\u002f']],
  [['\u00fa', '\u0065', '\u0071'], ['\u0075', '\u0301', '\u0065', '\u0071'], ['\u0075', '\u002f', '\u0065', '\u0071'], ['\u0075', '\u0032', '\u0065', '\u0071'], ['\u0075', '\u0065', '\u0071', '\u002f']],
  [['\u00fa', '\u0131'], ['\u0075', '\u0301', '\u0131'], ['\u0075', '\u002f', '\u0131'], ['\u0075', '\u0032', '\u0131'], ['\u0075', '\u0131', '\u002f']],
  [['\u00fa', '\u006f'], ['\u0075', '\u0301', '\u006f'], ['\u0075', '\u002f', '\u006f'], ['\u0075', '\u0032', '\u006f'], ['\u0075', '\u006f', '\u002f']],
  [['\u00fa', '\u006f', '\u0131'], ['\u0075', '\u0301', '\u006f', '\u0131'], ['\u0075', '\u002f', '\u006f', '\u0131'], ['\u0075', '\u0032', '\u006f', '\u0131'], ['\u0075', '\u006f', '\u0131', '\u002f']],
  [['\u00fa', '\u006f', '\u0071'], ['\u0075', '\u0301', '\u006f', '\u0071'], ['\u0075', '\u002f', '\u006f', '\u0071'], ['\u0075', '\u0032', '\u006f', '\u0071'], ['\u0075', '\u006f', '\u0071', '\u002f']],
  [['\u00fa', '\u0071'], ['\u0075', '\u0301', '\u0071'], ['\u0075', '\u002f', '\u0071'], ['\u0075', '\u0032', '\u0071'], ['\u0075', '\u0071', '\u002f']]]

def wins_caron : List (List Str) := [
  [['\u01ce'], ['\u0061', '\u030c'], ['\u0061', '\u0306'], ['\u0061', '\u0056'], ['\u0061', '\u0033'], ['\u0061', '\u0056']],
  [['\u01ce', '\u0131'], ['\u0061', '\u030c', '\u0131'], ['\u0061', '\u0306', '\u0131'], ['\u0061', '\u0056', '\u0131'], ['\u0061', '\u0033', '\u0131'], ['\u0061', '\u0131', '\u0056']],
  [['\u01ce', '\u006f'], ['\u0061', '\u030c', '\u006f'], ['\u0061', '\u0306', '\u006f'], ['\u0061', '\u0056', '\u006f'], ['\u0061', '\u0033', '\u006f'], ['\u0061', '\u006f', '\u0056']],
  [['\u01ce', '\u0071'], ['\u0061', '\u030c', '\u0071'], ['\u0061', '\u0306', '\u0071'], ['\u0061', '\u0056', '\u0071'], ['\u0061', '\u0033', '\u0071'], ['\u0061', '\u0071', '\u0056']],
  [['\u011b'], ['\u0065', '\u030c'], ['\u0065', '\u0306'], ['\u0065', '\u0056'], ['\u0065', '\u0033'], ['\u0065', '\u0056']],
  [['\u011b', '\u0061'], ['\u0065', '\u030c', '\u0061'], ['\u0065', '\u0306', '\u0061'], ['\u0065', '\u0056', '\u0061'], ['\u0065', '\u0033', '\u0061'], ['\u0065', '\u0061', '\u0056']],
  [['\u011b', '\u0061', '\u0131'], ['\u0065', '\u030c', '\u0061', '\u0131'], ['\u0065', '\u0306', '\u0061', '\u0131'], ['\u0065', '\u0056', '\u0061', '\u0131'], ['\u0065', '\u0033', '\u0061', '\u0131'], ['\u0065', '\u0061', '\u0131', '\u0056']],
  [['\u011b', '\u0061', '\u006f'], ['\u0065', '\u030c', '\u0061', '\u006f'], ['\u0065', '\u0306', '\u0061', '\u006f'], ['\u0065', '\u0056', '\u0061', '\u006f'], ['\u0065', '\u0033', '\u0061', '\u006f'], ['\u0065', '\u0061', '\u006f', '\u0056']],
  [['\u011b', '\u0061', '\u0071'], ['\u0065', '\u030c', '\u0061', '\u0071'], ['\u0065', '\u0306', '\u0061', '\u0071'], ['\u0065', '\u0056', '\u0061', '\u0071'], ['\u0065', '\u0033', '\u0061', '\u0071'], ['\u0065', '\u0061', '\u0071', '\u0056']],
  [['\u011b', '\u0131'], ['\u0065', '\u030c', '\u0131'], ['\u0065', '\u0306', '\u0131'], ['\u0065', '\u0056', '\u0131'], ['\u0065', '\u0033', '\u0131'], ['\u0065', '\u0131', '\u0056']],
  [['\u011b', '\u006f'], ['\u0065', '\u030c', '\u006f'], ['\u0065', '\u0306', '\u006f'], ['\u0065', '\u0056', '\u006f'], ['\u0065', '\u0033', '\u006f'], ['\u0065', '\u006f', '\u0056']],
  [['\u011b', '\u006f', '\u0071'], ['\u0065', '\u030c', '\u006f', '\u0071'], ['\u0065', '\u0306', '\u006f', '\u0071'], ['\u0065', '\u0056', '\u006f', '\u0071'], ['\u0065', '\u0033', '\u006f', '\u0071'], ['\u0065', '\u006f', '\u0071', '\u0056']],
  [['\u011b', '\u0071'], ['\u0065', '\u030c', '\u0071'], ['\u0065', '\u0306', '\u0071'], ['\u0065', '\u0056', '\u0071'], ['\u0065', '\u0033', '\u0071'], ['\u0065', '\u0071', '\u0056']],
  [['\u011b', '\u0075'], ['\u0065', '\u030c', '\u0075'], ['\u0065', '\u0306', '\u0075'], ['\u0065', '\u0056', '\u0075'], ['\u0065', '\u0033', '\u0075'], ['\u0065', '\u0075', '\u0056']],
  [['\u01d0'], ['\u0131', '\u030c'], ['\u0131', '\u0306'], ['\u0131', '\u0056'], ['\u0131', '\u0033'], ['\u0131', '\u0056']],
  [['\u01d0', '\u0061'], ['\u0131', '\u030c', '\u0061'], ['\u0131', '\u0306', '\u0061'], ['\u0131', '\u0056', '\u0061'], ['\u0131', '\u0033', '\u0061'], ['\u0131', '\u0061', '\u0056']],
  [['\u01d0', '\u0061', '\u0131'], ['\u0131', '\u030c', '\u0061', '\u0131'], ['\u0131', '\u0306', '\u0061', '\u0131'], ['\u0131', '\u0056', '\u0061', '\u0131'], ['\u0131', '\u0033', '\u0061', '\u0131'], ['\u0131', '\u0061', '\u0131', '\u0056']],
  [['\u01d0', '\u0061', '\u006f'], ['\u0131', '\u030c', '\u0061', '\u006f'], ['\u0131', '\u0306', '\u0061', '\u006f'], ['\u0131', '\u0056', '\u0061', '\u006f'], ['\u0131', '\u0033', '\u0061', '\u006f'], ['\u0131', '\u0061', '\u006f', '\u0056']],
  [['\u01d0', '\u0061', '\u0071'], ['\u0131', '\u030c', '\u0061', '\u0071'], ['\u0131', '\u0306', '\u0061', '\u0071'], ['\u0131', '\u0056', '\u0061', '\u0071'], ['\u0131', '\u0033', '\u0061', '\u0071'], ['\u0131', '\u0061', '\u0071', '\u0056']],
  [['\u01d0', '\u0065'], ['\u0131', '\u030c', '\u0065'], ['\u0131', '\u0306', '\u0065'], ['\u0131', '\u0056', '\u0065'], ['\u0131', '\u0033', '\u0065'], ['\u0131', '\u0065', '\u0056']],
  [['\u01d0', '\u0065', '\u0071'], ['\u0131', '\u030c', '\u0065', '\u0071'], ['\u0131', '\u0306', '\u0065', '\u0071'], ['\u0131', '\u0056', '\u0065', '\u0071'], ['\u0131', '\u0033', '\u0065', '\u0071'], ['\u0131', '\u0065', '\u0071', '\u0056']],
  [['\u01d0', '\u006f'], ['\u0131', '\u030c', '\u006f'], ['\u0131', '\u0306', '\u006f'], ['\u0131', '\u0056', '\u006f'], ['\u0131', '\u0033', '\u006f'], ['\u0131', '\u006f', '\u0056']],
  [['\u01d0', '\u006f', '\u0131'], ['\u0131', '\u030c', '\u006f', '\u0131'], ['\u0131', '\u0306', '\u006f', '\u0131'], ['\u0131', '\u0056', '\u006f', '\u0131'], ['\u0131', '\u0033', '\u006f', '\u0131'], ['\u0131', '\u006f', '\u0131', '\u0056']],
  [['\u01d0', '\u006f', '\u0071'], ['\u0131', '\u030c', '\u006f', '\u0071'], ['\u0131', '\u0306', '\u006f', '\u0071'], ['\u0131', '\u0056', '\u006f', '\u0071'], ['\u0131', '\u0033', '\u006f', '\u0071'], ['\u0131', '\u006f', '\u0071', '\u0056']],
  [['\u01d0', '\u0071'], ['\u0131', '\u030c', '\u0071'], ['\u0131', '\u0306', '\u0071'], ['\u0131', '\u0056', '\u0071'], ['\u0131', '\u0033', '\u0071'], ['\u0131', '\u0071', '\u0056']],
  [['\u01d0', '\u0075'], ['\u0131', '\u030c', '\u0075'], ['\u0131', '\u0306', '\u0075'], ['\u0131', '\u0056', '\u0075'], ['\u0131', '\u0033', '\u0075'], ['\u0131', '\u0075', '\u0056']],
  [['\u01d0', '\u0075', '\u0071'], ['\u0131', '\u030c', '\u0075', '\u0071'], ['\u0131', '\u0306', '\u0075', '\u0071'], ['\u0131', '\u0056', '\u0075', '\u0071'], ['\u0131', '\u0033', '\u0075', '\u0071'], ['\u0131', '\u0075', '\u0071', '\u0056']],
  [['\u01d2'], ['\u006f', '\u030c'], ['\u006f', '\u0306'], ['\u006f', '\u0056'], ['\u006f', '\u0033'], ['\u006f', '\u0056']],
  [['\u01d2', '\u0061'], ['\u006f', '\u030c', '\u0061'], ['\u006f', '\u0306', '\u0061'], ['\u006f', '\u0056', '\u0061'], ['\u006f', '\u0033', '\u0061'], ['\u006f', '\u0061', '\u0056']],
  [['\u01d2', '\u0061', '\u0131'], ['\u006f', '\u030c', '\u0061', '\u0131'], ['\u006f', '\u0306', '\u0061', '\u0131'], ['\u006f', '\u0056', '\u0061', '\u0131'], ['\u006f', '\u0033', '\u0061', '\u0131'], ['\u006f', '\u0061', '\u0131', '\u0056']],
  [['\u01d2', '\u0061', '\u006f'], ['\u006f', '\u030c', '\u0061', '\u006f'], ['\u006f', '\u0306', '\u0061', '\u006f'], ['\u006f', '\u0056', '\u0061', '\u006f'], ['\u006f', '\u0033', '\u0061', '\u006f'], ['\u006f', '\u0061', '\u006f', '\u0056']],
  [['\u01d2', '\u0061', '\u0071'], ['\u006f', '\u030c', '\u0061', '\u0071'], ['\u006f', '\u0306', '\u0061', '\u0071'], ['\u006f', '\u0056', '\u0061', '\u0071'], ['\u006f', '\u0033', '\u0061', '\u0071'], ['\u006f', '\u0061', '\u0071', '\u0056']],
  [['\u01d2', '\u0065'], ['\u006f', '\u030c', '\u0065'], ['\u006f', '\u0306', '\u0065'], ['\u006f', '\u0056', '\u0065'], ['\u006f', '\u0033', '\u0065'], ['\u006f', '\u0065', '\u0056']],
  [['\u01d2', '\u0065', '\u0071'], ['\u006f', '\u030c', '\u0065', '\u0071'], ['\u006f', '\u0306', '\u0065', '\u0071'], ['\u006f', '\u0056', '\u0065', '\u0071'], ['\u006f', '\u0033', '\u0065', '\u0071'], ['\u006f', '\u0065', '\u0071', '\u0056']],
  [['\u01d2', '\u0131'], ['\u006f', '\u030c', '\u0131'], ['\u006f', '\u0306', '\u0131'], ['\u006f', '\u0056', '\u0131'], ['\u006f', '\u0033', '\u0131'], ['\u006f', '\u0131', '\u0056']],
  [['\u01d2', '\u0071'], ['\u006f', '\u030c', '\u0071'], ['\u006f', '\u0306', '\u0071'], ['\u006f', '\u0056', '\u0071'], ['\u006f', '\u0033', '\u0071'], ['\u006f', '\u0071', '\u0056']],
  [['\u01d4'], ['\u0075', '\u030c'], ['\u0075', '\u0306'], ['\u0075', '\u0056'], ['\u0075', '\u0033'], ['\u0075', '\u0056']],
  [['\u01d4', '\u0061'], ['\u0075', '\u030c', '\u0061'], ['\u0075', '\u0306', '\u0061'], ['\u0075', '\u0056', '\u0061'], ['\u0075', '\u0033', '\u0061'], ['\u0075', '\u0061', '\u0056']],
  [['\u01d4', '\u0061', '\u0131'], ['\u0075', '\u030c', '\u0061', '\u0131'], ['\u0075', '\u0306', '\u0061', '\u0131'], ['\u0075', '\u0056', '\u0061', '\u0131'], ['\u0075', '\u0033', '\u0061', '\u0131'], ['\u0075', '\u0061', '\u0131', '\u0056']],
  [['\u01d4', '\u0061', '\u006f'], ['\u0075', '\u030c', '\u0061', '\u006f'], ['\u0075', '\u0306', '\u0061', '\u006f'], ['\u0075', '\u0056', '\u0061', '\u006f'], ['\u0075', '\u0033', '\u0061', '\u006f'], ['\u0075', '\u0061', '\u006f', '\u0056']],
  [['\u01d4', '\u0061', '\u0071'], ['\u0075', '\u030c', '\u0061', '\u0071'], ['\u0075', '\u0306', '\u0061', '\u0071'], ['\u0075', '\u0056', '\u0061', '\u0071'], ['\u0075', '\u0033', '\u0061', '\u0071'], ['\u0075', '\u0061', '\u0071', '\u0056']],
  [['\u01d4', '\u0065'], ['\u0075', '\u030c', '\u0065'], ['\u0075', '\u0306', '\u0065'], ['\u0075', '\u0056', '\u0065'], ['\u0075', '\u0033', '\u0065'], ['\u0075', '\u0065', '\u0056']],
  [['\u01d4', '\u0065', '\u0071'], ['\u0075', '\u030c', '\u0065', '\u0071'], ['\u0075', '\u0306', '\u0065', '\u0071'], ['\u0075', '\u0056', '\u0065', '\u0071'], ['\u0075', '\u0033', '\u0065', '\u0071'], ['\u0075', '\u0065', '\u0071', '\u0056']],
  [['\u01d4', '\u0131'], ['\u0075', '\u030c', '\u0131'], ['\u0075', '\u0306', '\u0131'], ['\u0075', '\u0056', '\u0131'], ['\u0075', '\u0033', '\u0131'], ['\u0075', '\u0131', '\u0056']],
  [['\u01d4', '\u006f'], ['\u0075', '\u030c', '\u006f'], ['\u0075', '\u0306', '\u006f'], ['\u0075', '\u0056', '\u006f'], ['\u0075', '\u0033', '\u006f'], ['\u0075', '\u006f', '\u0056']],
  [['\u01d4', '\u006f', '\u0131'], ['\u0075', '\u030c', '\u006f', '\u0131'], ['\u0075', '\u0306', '\u006f', '\u0131'], ['\u0075', '\u0056', '\u006f', '\u0131'], ['\u0075', '\u0033', '\u006f', '\u0131'], ['\u0075', '\u006f', '\u0131', '\u0056']],
  [['\u01d4', '\u006f', '\u0071'], ['\u0075', '\u030c', '\u006f', '\u0071'], ['\u0075', '\u0306', '\u006f', '\u0071'], ['\u0075', '\u0056', '\u006f', '\u0071'], ['\u0075', '\u0033', '\u006f', '\u0071'], ['\u0075', '\u006f', '\u0071', '\u0056']],
  [['\u01d4', '\u0071'], ['\u0075', '\u030c', '\u0071'], ['\u0075', '\u0306', '\u0071'], ['\u0075', '\u0056', '\u0071'], ['\u0075', '\u0033', '\u0071'], ['\u0075', '\u0071', '\u0056']]]

def wins_hook : List (List Str) := [
  [['\u1ea3'], ['\u0061', '\u0309'], ['\u0061', '\u003f'], ['\u0061', '\u0034'], ['\u0061', '\u003f']],
  [['\u1ea3', '\u0131'], ['\u0061', '\u0309', '\u0131'], ['\u0061', '\u003f', '\u0131'], ['\u0061', '\u0034', '\u0131'], ['\u0061', '\u0131', '\u003f']],
  [['\u1ea3', '\u006f'], ['\u0061', '\u0309', '\u006f'], ['\u0061', '\u003f', '\u006f'], ['\u0061', '\u0034', '\u006f'], ['\u0061', '\u006f', '\u003f']],
  [['\u1ea3', '\u0071'], ['\u0061', '\u0309', '\u0071'], ['\u0061', '\u003f', '\u0071'], ['\u0061', '\u0034', '\u0071'], ['\u0061', '\u0071', '\u003f']],
  [['\u1ebb'], ['\u0065', '\u0309'], ['\u0065', '\u003f'], ['\u0065', '\u0034'], ['\u0065', '\u003f']],
  [['\u1ebb', '\u0061'], ['\u0065', '\u0309', '\u0061'], ['\u0065', '\u003f', '\u0061'], ['\u0065', '\u0034', '\u0061'], ['\u0065', '\u0061', '\u003f']],
  [['\u1ebb', '\u0061', '\u0131'], ['\u0065', '\u0309', '\u0061', '\u0131'], ['\u0065', '\u003f', '\u0061', '\u0131'], ['\u0065', '\u0034', '\u0061', '\u0131'], ['\u0065', '\u0061', '\u0131', '\u003f']],
  [['\u1ebb', '\u0061', '\u006f'], ['\u0065', '\u0309', '\u0061', '\u006f'], ['\u0065', '\u003f', '\u0061', '\u006f'], ['\u0065', '\u0034', '\u0061', '\u006f'], ['\u0065', '\u0061', '\u006f', '\u003f']],
  [['\u1ebb', '\u0061', '\u0071'], ['\u0065', '\u0309', '\u0061', '\u0071'], ['\u0065', '\u003f', '\u0061', '\u0071'], ['\u0065', '\u0034', '\u0061', '\u0071'], ['\u0065', '\u0061', '\u0071', '\u003f']],
  [['\u1ebb', '\u0131'], ['\u0065', '\u0309', '\u0131'], ['\u0065', '\u003f', '\u0131'], ['\u0065', '\u0034', '\u0131'], ['\u0065', '\u0131', '\u003f']],
  [['\u1ebb', '\u006f'], ['\u0065', '\u0309', '\u006f'], ['\u0065', '\u003f', '\u006f'], ['\u0065', '\u0034', '\u006f'], ['\u0065', '\u006f', '\u003f']],
  [['\u1ebb', '\u006f', '\u0071'], ['\u0065', '\u0309', '\u006f', '\u0071'], ['\u0065', '\u003f', '\u006f', '\u0071'], ['\u0065', '\u0034', '\u006f', '\u0071'], ['\u0065', '\u006f', '\u0071', '\u003f']],
  [['\u1ebb', '\u0071'], ['\u0065', '\u0309', '\u0071'], ['\u0065', '\u003f', '\u0071'], ['\u0065', '\u0034', '\u0071'], ['\u0065', '\u0071', '\u003f']],
  [['\u1ebb', '\u0075'], ['\u0065', '\u0309', '\u0075'], ['\u0065', '\u003f', '\u0075'], ['\u0065', '\u0034', '\u0075'], ['\u0065', '\u0075', '\u003f']],
  [['\u1ec9'], ['\u0131', '\u0309'], ['\u0131', '\u003f'], ['\u0131', '\u0034'], ['\u0131', '\u003f']],
  [['\u1ec9', '\u0061'], ['\u0131', '\u0309', '\u0061'], ['\u0131', '\u003f', '\u0061'], ['\u0131', '\u0034', '\u0061'], ['\u0131', '\u0061', '\u003f']],
  [['\u1ec9', '\u0061', '\u0131'], ['\u0131', '\u0309', '\u0061', '\u0131'], ['\u0131', '\u003f', '\u0061', '\u0131'], ['\u0131', '\u0034', '\u0061', '\u0131'], ['\u0131', '\u0061', '\u0131', '\u003f']],
  [['\u1ec9', '\u0061', '\u006f'], ['\u0131', '\u0309', '\u0061', '\u006f'], ['\u0131', '\u003f', '\u0061', '\u006f'], ['\u0131', '\u0034', '\u0061', '\u006f'], ['\u0131', '\u0061', '\u006f', '\u003f']],
  [['\u1ec9', '\u0061', '\u0071'], ['\u0131', '\u0309', '\u0061', '\u0071'], ['\u0131', '\u003f', '\u0061', '\u0071'], ['\u0131', '\u0034', '\u0061', '\u0071'], ['\u0131', '\u0061', '\u0071', '\u003f']],
  [['\u1ec9', '\u0065'], ['\u0131', '\u0309', '\u0065'], ['\u0131', '\u003f', '\u0065'], ['\u0131', '\u0034', '\u0065'], ['\u0131', '\u0065', '\u003f']],
  [['\u1ec9', '\u0065', '\u0071'], ['\u0131', '\u0309', '\u0065', '\u0071'], ['\u0131', '\u003f', '\u0065', '\u0071'], ['\u0131', '\u0034', '\u0065', '\u0071'], ['\u0131', '\u0065', '\u0071', '\u003f']],
  [['\u1ec9', '\u006f'], ['\u0131', '\u0309', '\u006f'], ['\u0131', '\u003f', '\u006f'], ['\u0131', '\u0034', '\u006f'], ['\u0131', '\u006f', '\u003f']],
  [['\u1ec9', '\u006f', '\u0131'], ['\u0131', '\u0309', '\u006f', '\u0131'], ['\u0131', '\u003f', '\u006f', '\u0131'], ['\u0131', '\u0034', '\u006f', '\u0131'], ['\u0131', '\u006f', '\u0131', '\u003f']],
  [['\u1ec9', '\u006f', '\u0071'], ['\u0131', '\u0309', '\u006f', '\u0071'], ['\u0131', '\u003f', '\u006f', '\u0071'], ['\u0131', '\u0034', '\u006f', '\u0071'], ['\u0131', '\u006f', '\u0071', '\u003f']],
  [['\u1ec9', '\u0071'], ['\u0131', '\u0309', '\u0071'], ['\u0131', '\u003f', '\u0071'], ['\u0131', '\u0034', '\u0071'], ['\u0131', '\u0071', '\u003f']],
  [['\u1ec9', '\u0075'], ['\u0131', '\u0309', '\u0075'], ['\u0131', '\u003f', '\u0075'], ['\u0131', '\u0034', '\u0075'], ['\u0131', '\u0075', '\u003f']],
  [['\u1ec9', '\u0075', '\u0071'], ['\u0131', '\u0309', '\u0075', '\u0071'], ['\u0131', '\u003f', '\u0075', '\u0071'], ['\u0131', '\u0034', '\u0075', '\u0071'], ['\u0131', '\u0075', '\u0071', '\u003f']],
  [['\u1ecf'], ['\u006f', '\u0309'], ['\u006f', '\u003f'], ['\u006f', '\u0034'], ['\u006f', '\u003f']],
  [['\u1ecf', '\u0061'], ['\u006f', '\u0309', '\u0061'], ['\u006f', '\u003f', '\u0061'], ['\u006f', '\u0034', '\u0061'], ['\u006f', '\u0061', '\u003f']],
  [['\u1ecf', '\u0061', '\u0131'], ['\u006f', '\u0309', '\u0061', '\u0131'], ['\u006f', '\u003f', '\u0061', '\u0131'], ['\u006f', '\u0034', '\u0061', '\u0131'], ['\u006f', '\u0061', '\u0131', '\u003f']],
  [['\u1ecf', '\u0061', '\u006f'], ['\u006f', '\u0309', '\u0061', '\u006f'], ['\u006f', '\u003f', '\u0061', '\u006f'], ['\u006f', '\u0034', '\u0061', '\u006f'], ['\u006f', '\u0061', '\u006f', '\u003f']],
  [['\u1ecf', '\u0061', '\u0071'], ['\u006f', '\u0309', '\u0061', '\u0071'], ['\u006f', '\u003f', '\u0061', '\u0071'], ['\u006f', '\u0034', '\u0061', '\u0071'], ['\u006f', '\u0061', '\u0071', '\u003f']],
  [['\u1ecf', '\u0065'], ['\u006f', '\u0309', '\u0065'], ['\u006f', '\u003f', '\u0065'], ['\u006f', '\u0034', '\u0065'], ['\u006f', '\u0065', '\u003f']],
  [['\u1ecf', '\u0065', '\u0071'], ['\u006f', '\u0309', '\u0065', '\u0071'], ['\u006f', '\u003f', '\u0065', '\u0071'], ['\u006f', '\u0034', '\u0065', '\u0071'], ['\u006f', '\u0065', '\u0071', '\u003f']],
  [['\u1ecf', '\u0131'], ['\u006f', '\u0309', '\u0131'], ['\u006f', '\u003f', '\u0131'], ['\u006f', '\u0034', '\u0131'], ['\u006f', '\u0131', '\u003f']],
  [['\u1ecf', '\u0071'], ['\u006f', '\u0309', '\u0071'], ['\u006f', '\u003f', '\u0071'], ['\u006f', '\u0034', '\u0071'], ['\u006f', '\u0071', '\u003f']],
  [['\u1ee7'], ['\u0075', '\u0309'], ['\u0075', '\u003f'], ['\u0075', '\u0034'], ['\u0075', '\u003f']],
  [['\u1ee7', '\u0061'], ['\u0075', '\u0309', '\u0061'], ['\u0075', '\u003f', '\u0061'], ['\u0075', '\u0034', '\u0061'], ['\u0075', '\u0061', '\u003f']],
  [['\u1ee7', '\u0061', '\u0131'], ['\u0075', '\u0309', '\u0061', '\u0131'], ['\u0075', '\u003f', '\u0061', '\u0131'], ['\u0075', '\u0034', '\u0061', '\u0131'], ['\u0075', '\u0061', '\u0131', '\u003f']],
  [['\u1ee7', '\u0061', '\u006f'], ['\u0075', '\u0309', '\u0061', '\u006f'], ['\u0075', '\u003f', '\u0061', '\u006f'], ['\u0075', '\u0034', '\u0061', '\u006f'], ['\u0075', '\u0061', '\u006f', '\u003f']],
  [['\u1ee7', '\u0061', '\u0071'], ['\u0075', '\u0309', '\u0061', '\u0071'], ['\u0075', '\u003f', '\u0061', '\u0071'], ['\u0075', '\u0034', '\u0061', '\u0071'], ['\u0075', '\u0061', '\u0071', '\u003f']],
  [['\u1ee7', '\u0065'], ['\u0075', '\u0309', '\u0065'], ['\u0075', '\u003f', '\u0065'], ['\u0075', '\u0034', '\u0065'], ['\u0075', '\u0065', '\u003f']],
  [['\u1ee7', '\u0065', '\u0071'], ['\u0075', '\u0309', '\u0065', '\u0071'], ['\u0075', '\u003f', '\u0065', '\u0071'], ['\u0075', '\u0034', '\u0065', '\u0071'], ['\u0075', '\u0065', '\u0071', '\u003f']],
  [['\u1ee7', '\u0131'], ['\u0075', '\u0309', '\u0131'], ['\u0075', '\u003f', '\u0131'], ['\u0075', '\u0034', '\u0131'], ['\u0075', '\u0131', '\u003f']],
  [['\u1ee7', '\u006f'], ['\u0075', '\u0309', '\u006f'], ['\u0075', '\u003f', '\u006f'], ['\u0075', '\u0034', '\u006f'], ['\u0075', '\u006f', '\u003f']],
  [['\u1ee7', '\u006f', '\u0131'], ['\u0075', '\u0309', '\u006f', '\u0131'], ['\u0075', '\u003f', '\u006f', '\u0131'], ['\u0075', '\u0034', '\u006f', '\u0131'], ['\u0075', '\u006f', '\u0131', '\u003f']],
  [['\u1ee7', '\u006f', '\u0071'], ['\u0075', '\u0309', '\u006f', '\u0071'], ['\u0075', '\u003f', '\u006f', '\u0071'], ['\u0075', '\u0034', '\u006f', '\u0071'], ['\u0075', '\u006f', '\u0071', '\u003f']],
  [['\u1ee7', '\u0071'], ['\u0075', '\u0309', '\u0071'], ['\u0075', '\u003f', '\u0071'], ['\u0075', '\u0034', '\u0071'], ['\u0075', '\u0071', '\u003f']]]

def wins_circumflex : List (List Str) := [
  [['\u00e2'], ['\u0061', '\u0302'], ['\u0061', '\u005e'], ['\u0061', '\u0035'], ['\u0061', '\u005e']],
  [['\u00e2', '\u0131'], ['\u0061', '\u0302', '\u0131'], ['\u0061', '\u005e', '\u0131'], ['\u0061', '\u0035', '\u0131'], ['\u0061', '\u0131', '\u005e']],
  [['\u00e2', '\u006f'], ['\u0061', '\u0302', '\u006f'], ['\u0061', '\u005e', '\u006f'], ['\u0061', '\u0035', '\u006f'], ['\u0061', '\u006f', '\u005e']],
  [['\u00e2', '\u0071'], ['\u0061', '\u0302', '\u0071'], ['\u0061', '\u005e', '\u0071'], ['\u0061', '\u0035', '\u0071'], ['\u0061', '\u0071', '\u005e']],
  [['\u00ea'], ['\u0065', '\u0302'], ['\u0065', '\u005e'], ['\u0065', '\u0035'], ['\u0065', '\u005e']],
  [['\u00ea', '\u0061'], ['\u0065', '\u0302', '\u0061'], ['\u0065', '\u005e', '\u0061'], ['\u0065', '\u0035', '\u0061'], ['\u0065', '\u0061', '\u005e']],
  [['\u00ea', '\u0061', '\u0131'], ['\u0065', '\u0302', '\u0061', '\u0131'], ['\u0065', '\u005e', '\u0061', '\u0131'], ['\u0065', '\u0035', '\u0061', '\u0131'], ['\u0065', '\u0061', '\u0131', '\u005e']],
  [['\u00ea', '\u0061', '\u006f'], ['\u0065', '\u0302', '\u0061', '\u006f'], ['\u0065', '\u005e', '\u0061', '\u006f'], ['\u0065', '\u0035', '\u0061', '\u006f'], ['\u0065', '\u0061', '\u006f', '\u005e']],
  [['\u00ea', '\u0061', '\u0071'], ['\u0065', '\u0302', '\u0061', '\u0071'], ['\u0065', '\u005e', '\u0061', '\u0071'], ['\u0065', '\u0035', '\u0061', '\u0071'], ['\u0065', '\u0061', '\u0071', '\u005e']],
  [['\u00ea', '\u0131'], ['\u0065', '\u0302', '\u0131'], ['\u0065', '\u005e', '\u0131'], ['\u0065', '\u0035', '\u0131'], ['\u0065', '\u0131', '\u005e']],
  [['\u00ea', '\u006f'], ['\u0065', '\u0302', '\u006f'], ['\u0065', '\u005e', '\u006f'], ['\u0065', '\u0035', '\u006f'], ['\u0065', '\u006f', '\u005e']],
  [['\u00ea', '\u006f', '\u0071'], ['\u0065', '\u0302', '\u006f', '\u0071'], ['\u0065', '\u005e', '\u006f', '\u0071'], ['\u0065', '\u0035', '\u006f', '\u0071'], ['\u0065', '\u006f', '\u0071', '\u005e']],
  [['\u00ea', '\u0071'], ['\u0065', '\u0302', '\u0071'], ['\u0065', '\u005e', '\u0071'], ['\u0065', '\u0035', '\u0071'], ['\u0065', '\u0071', '\u005e']],
  [['\u00ea', '\u0075'], ['\u0065', '\u0302', '\u0075'], ['\u0065', '\u005e', '\u0075'], ['\u0065', '\u0035', '\u0075'], ['\u0065', '\u0075', '\u005e']],
  [['\u00ee'], ['\u0131', '\u0302'], ['\u0131', '\u005e'], ['\u0131', '\u0035'], ['\u0131', '\u005e']],
  [['\u00ee', '\u0061'], ['\u0131', '\u0302', '\u0061'], ['\u0131', '\u005e', '\u0061'], ['\u0131', '\u0035', '\u0061'], ['\u0131', '\u0061', '\u005e']],
  [['\u00ee', '\u0061', '\u0131'], ['\u0131', '\u0302', '\u0061', '\u0131'], ['\u0131', '\u005e', '\u0061', '\u0131'], ['\u0131', '\u0035', '\u0061', '\u0131'], ['\u0131', '\u0061', '\u0131', '\u005e']],
  [['\u00ee', '\u0061', '\u006f'], ['\u0131', '\u0302', '\u0061', '\u006f'], ['\u0131', '\u005e', '\u0061', '\u006f'], ['\u0131', '\u0035', '\u0061', '\u006f'], ['\u0131', '\u0061', '\u006f', '\u005e']],
  [['\u00ee', '\u0061', '\u0071'], ['\u0131', '\u0302', '\u0061', '\u0071'], ['\u0131', '\u005e', '\u0061', '\u0071'], ['\u0131', '\u0035', '\u0061', '\u0071'], ['\u0131', '\u0061', '\u0071', '\u005e']],
  [['\u00ee', '\u0065'], ['\u0131', '\u0302', '\u0065'], ['\u0131', '\u005e', '\u0065'], ['\u0131', '\u0035', '\u0065'], ['\u0131', '\u0065', '\u005e']],
  [['\u00ee', '\u0065', '\u0071'], ['\u0131', '\u0302', '\u0065', '\u0071'], ['\u0131', '\u005e', '\u0065', '\u0071'], ['\u0131', '\u0035', '\u0065', '\u0071'], ['\u0131', '\u0065', '\u0071', '\u005e']],
  [['\u00ee', '\u006f'], ['\u0131', '\u0302', '\u006f'], ['\u0131', '\u005e', '\u006f'], ['\u0131', '\u0035', '\u006f'], ['\u0131', '\u006f', '\u005e']],
  [['\u00ee', '\u006f', '\u0131'], ['\u0131', '\u0302', '\u006f', '\u0131'], ['\u0131', '\u005e', '\u006f', '\u0131'], ['\u0131', '\u0035', '\u006f', '\u0131'], ['\u0131', '\u006f', '\u0131', '\u005e']],
  [['\u00ee', '\u006f', '\u0071'], ['\u0131', '\u0302', '\u006f', '\u0071'], ['\u0131', '\u005e', '\u006f', '\u0071'], ['\u0131', '\u0035', '\u006f', '\u0071'], ['\u0131', '\u006f', '\u0071', '\u005e']],
  [['\u00ee', '\u0071'], ['\u0131', '\u0302', '\u0071'], ['\u0131', '\u005e', '\u0071'], ['\u0131', '\u0035', '\u0071'], ['\u0131', '\u0071', '\u005e']],
  [['\u00ee', '\u0075'], ['\u0131', '\u0302', '\u0075'], ['\u0131', '\u005e', '\u0075'], ['\u0131', '\u0035', '\u0075'], ['\u0131', '\u0075', '\u005e']],
  [['\u00ee', '\u0075', '\u0071'], ['\u0131', '\u0302', '\u0075', '\u0071'], ['\u0131', '\u005e', '\u0075', '\u0071'], ['\u0131', '\u0035', '\u0075', '\u0071'], ['\u0131', '\u0075', '\u0071', '\u005e']],
  [['\u00f4'], ['\u006f', '\u0302'], ['\u006f', '\u005e'], ['\u006f', '\u0035'], ['\u006f', '\u005e']],
  [['\u00f4', '\u0061'], ['\u006f', '\u0302', '\u0061'], ['\u006f', '\u005e', '\u0061'], ['\u006f', '\u0035', '\u0061'], ['\u006f', '\u0061', '\u005e']],
  [['\u00f4', '\u0061', '\u0131'], ['\u006f', '\u0302', '\u0061', '\u0131'], ['\u006f', '\u005e', '\u0061', '\u0131'], ['\u006f', '\u0035', '\u0061', '\u0131'], ['\u006f', '\u0061', '\u0131', '\u005e']],
  [['\u00f4', '\u0061', '\u006f'], ['\u006f', '\u0302', '\u0061', '\u006f'], ['\u006f', '\u005e', '\u0061', '\u006f'], ['\u006f', '\u0035', '\u0061', '\u006f'], ['\u006f', '\u0061', '\u006f', '\u005e']],
  [['\u00f4', '\u0061', '\u0071'], ['\u006f', '\u0302', '\u0061', '\u0071'], ['\u006f', '\u005e', '\u0061', '\u0071'], ['\u006f', '\u0035', '\u0061', '\u0071'], ['\u006f', '\u0061', '\u0071', '\u005e']],
  [['\u00f4', '\u0065'], ['\u006f', '\u0302', '\u0065'], ['\u006f', '\u005e', '\u0065'], ['\u006f', '\u0035', '\u0065'], ['\u006f', '\u0065', '\u005e']],
  [['\u00f4', '\u0065', '\u0071'], ['\u006f', '\u0302', '\u0065', '\u0071'], ['\u006f', '\u005e', '\u0065', '\u0071'], ['\u006f', '\u0035', '\u0065', '\u0071'], ['\u006f', '\u0065', '\u0071', '\u005e']],
  [['\u00f4', '\u0131'], ['\u006f', '\u0302', '\u0131'], ['\u006f', '\u005e', '\u0131'], ['\u006f', '\u0035', '\u0131'], ['\u006f', '\u0131', '\u005e']],
  [['\u00f4', '\u0071'], ['\u006f', '\u0302', '\u0071'], ['\u006f', '\u005e', '\u0071'], ['\u006f', '\u0035', '\u0071'], ['\u006f', '\u0071', '\u005e']],
  [['\u00fb'], ['\u0075', '\u0302'], ['\u0075', '\u005e'], ['\u0075', '\u0035'], ['\u0075', '\u005e']],
  [['\u00fb', '\u0061'], ['\u0075', '\u0302', '\u0061'], ['\u0075', '\u005e', '\u0061'], ['\u0075', '\u0035', '\u0061'], ['\u0075', '\u0061', '\u005e']],
  [['\u00fb', '\u0061', '\u0131'], ['\u0075', '\u0302', '\u0061', '\u0131'], ['\u0075', '\u005e', '\u0061', '\u0131'], ['\u0075', '\u0035', '\u0061', '\u0131'], ['\u0075', '\u0061', '\u0131', '\u005e']],
  [['\u00fb', '\u0061', '\u006f'], ['\u0075', '\u0302', '\u0061', '\u006f'], ['\u0075', '\u005e', '\u0061', '\u006f'], ['\u0075', '\u0035', '\u0061', '\u006f'], ['\u0075', '\u0061', '\u006f', '\u005e']],
  [['\u00fb', '\u0061', '\u0071'], ['\u0075', '\u0302', '\u0061', '\u0071'], ['\u0075', '\u005e', '\u0061', '\u0071'], ['\u0075', '\u0035', '\u0061', '\u0071'], ['\u0075', '\u0061', '\u0071', '\u005e']],
  [['\u00fb', '\u0065'], ['\u0075', '\u0302', '\u0065'], ['\u0075', '\u005e', '\u0065'], ['\u0075', '\u0035', '\u0065'], ['\u0075', '\u0065', '\u005e']],
  [['\u00fb', '\u0065', '\u0071'], ['\u0075', '\u0302', '\u0065', '\u0071'], ['\u0075', '\u005e', '\u0065', '\u0071'], ['\u0075', '\u0035', '\u0065', '\u0071'], ['\u0075', '\u0065', '\u0071', '\u005e']],
  [['\u00fb', '\u0131'], ['\u0075', '\u0302', '\u0131'], ['\u0075', '\u005e', '\u0131'], ['\u0075', '\u0035', '\u0131'], ['\u0075', '\u0131', '\u005e']],
  [['\u00fb', '\u006f'], ['\u0075', '\u0302', '\u006f'], ['\u0075', '\u005e', '\u006f'], ['\u0075', '\u0035', '\u006f'], ['\u0075', '\u006f', '\u005e']],
  [['\u00fb', '\u006f', '\u0131'], ['\u0075', '\u0302', '\u006f', '\u0131'], ['\u0075', '\u005e', '\u006f', '\u0131'], ['\u0075', '\u0035', '\u006f', '\u0131'], ['\u0075', '\u006f', '\u0131', '\u005e']],
  [['\u00fb', '\u006f', '\u0071'], ['\u0075', '\u0302', '\u006f', '\u0071'], ['\u0075', '\u005e', '\u006f', '\u0071'], ['\u0075', '\u0035', '\u006f', '\u0071'], ['\u0075', '\u006f', '\u0071', '\u005e']],
  [['\u00fb', '\u0071'], ['\u0075', '\u0302', '\u0071'], ['\u0075', '\u005e', '\u0071'], ['\u0075', '\u0035', '\u0071'], ['\u0075', '\u0071', '\u005e']]]

def wins_grave : List (List Str) := [
  [['\u00e0'], ['\u0061', '\u0300'], ['\u0061', '\u005c'], ['\u0061', '\u0036'], ['\u0061', '\u005c']],
  [['\u00e0', '\u0131'], ['\u0061', '\u0300', '\u0131'], ['\u0061', '\u005c', '\u0131'], ['\u0061', '\u0036', '\u0131'], ['\u0061', '\u0131', '\u005c']],
  [['\u00e0', '\u006f'], ['\u0061', '\u0300', '\u006f'], ['\u0061', '\u005c', '\u006f'], ['\u0061', '\u0036', '\u006f'], ['\u0061', '\u006f', '\u005c']],
  [['\u00e0', '\u0071'], ['\u0061', '\u0300', '\u0071'], ['\u0061', '\u005c', '\u0071'], ['\u0061', '\u0036', '\u0071'], ['\u0061', '\u0071', '\u005c']],
  [['\u00e8'], ['\u0065', '\u0300'], ['\u0065', '\u005c'], ['\u0065', '\u0036'], ['\u0065', '\u005c']],
  [['\u00e8', '\u0061'], ['\u0065', '\u0300', '\u0061'], ['\u0065', '\u005c', '\u0061'], ['\u0065', '\u0036', '\u0061'], ['\u0065', '\u0061', '\u005c']],
  [['\u00e8', '\u0061', '\u0131'], ['\u0065', '\u0300', '\u0061', '\u0131'], ['\u0065', '\u005c', '\u0061', '\u0131'], ['\u0065', '\u0036', '\u0061', '\u0131'], ['\u0065', '\u0061', '\u0131', '\u005c']],
  [['\u00e8', '\u0061', '\u006f'], ['\u0065', '\u0300', '\u0061', '\u006f'], ['\u0065', '\u005c', '\u0061', '\u006f'], ['\u0065', '\u0036', '\u0061', '\u006f'], ['\u0065', '\u0061', '\u006f', '\u005c']],
  [['\u00e8', '\u0061', '\u0071'], ['\u0065', '\u0300', '\u0061', '\u0071'], ['\u0065', '\u005c', '\u0061', '\u0071'], ['\u0065', '\u0036', '\u0061', '\u0071'], ['\u0065', '\u0061', '\u0071', '\u005c']],
  [['\u00e8', '\u0131'], ['\u0065', '\u0300', '\u0131'], ['\u0065', '\u005c', '\u0131'], ['\u0065', '\u0036', '\u0131'], ['\u0065', '\u0131', '\u005c']],
  [['\u00e8', '\u006f'], ['\u0065', '\u0300', '\u006f'], ['\u0065', '\u005c', '\u006f'], ['\u0065', '\u0036', '\u006f'], ['\u0065', '\u006f', '\u005c']],
  [['\u00e8', '\u006f', '\u0071'], ['\u0065', '\u0300', '\u006f', '\u0071'], ['\u0065', '\u005c', '\u006f', '\u0071'], ['\u0065', '\u0036', '\u006f', '\u0071'], ['\u0065', '\u006f', '\u0071', '\u005c']],
  [['\u00e8', '\u0071'], ['\u0065', '\u0300', '\u0071'], ['\u0065', '\u005c', '\u0071'], ['\u0065', '\u0036', '\u0071'], ['\u0065', '\u0071', '\u005c']],
  [['\u00e8', '\u0075'], ['\u0065', '\u0300', '\u0075'], ['\u0065', '\u005c', '\u0075'], ['\u0065', '\u0036', '\u0075'], ['\u0065', '\u0075', '\u005c']],
  [['\u00ec'], ['\u0131', '\u0300'], ['\u0131', '\u005c'], ['\u0131', '\u0036'], ['\u0131', '\u005c']],
  [['\u00ec', '\u0061'], ['\u0131', '\u0300', '\u0061'], ['\u0131', '\u005c', '\u0061'], ['\u0131', '\u0036', '\u0061'], ['\u0131', '\u0061', '\u005c']],
  [['\u00ec', '\u0061', '\u0131'], ['\u0131', '\u0300', '\u0061', '\u0131'], ['\u0131', '\u005c', '\u0061', '\u0131'], ['\u0131', '\u0036', '\u0061', '\u0131'], ['\u0131', '\u0061', '\u0131', '\u005c']],
  [['\u00ec', '\u0061', '\u006f'], ['\u0131', '\u0300', '\u0061', '\u006f'], ['\u0131', '\u005c', '\u0061', '\u006f'], ['\u0131', '\u0036', '\u0061', '\u006f'], ['\u0131', '\u0061', '\u006f', '\u005c']],
  [['\u00ec', '\u0061', '\u0071'], ['\u0131', '\u0300', '\u0061', '\u0071'], ['\u0131', '\u005c', '\u0061', '\u0071'], ['\u0131', '\u0036', '\u0061', '\u0071'], ['\u0131', '\u0061', '\u0071', '\u005c']],
  [['\u00ec', '\u0065'], ['\u0131', '\u0300', '\u0065'], ['\u0131', '\u005c', '\u0065'], ['\u0131', '\u0036', '\u0065'], ['\u0131', '\u0065', '\u005c']],
  [['\u00ec', '\u0065', '\u0071'], ['\u0131', '\u0300', '\u0065', '\u0071'], ['\u0131', '\u005c', '\u0065', '\u0071'], ['\u0131', '\u0036', '\u0065', '\u0071'], ['\u0131', '\u0065', '\u0071', '\u005c']],
  [['\u00ec', '\u006f'], ['\u0131', '\u0300', '\u006f'], ['\u0131', '\u005c', '\u006f'], ['\u0131', '\u0036', '\u006f'], ['\u0131', '\u006f', '\u005c']],
  [['\u00ec', '\u006f', '\u0131'], ['\u0131', '\u0300', '\u006f', '\u0131'], ['\u0131', '\u005c', '\u006f', '\u0131'], ['\u0131', '\u0036', '\u006f', '\u0131'], ['\u0131', '\u006f', '\u0131', '\u005c']],
  [['\u00ec', '\u006f', '\u0071'], ['\u0131', '\u0300', '\u006f', '\u0071'], ['\u0131', '\u005c', '\u006f', '\u0071'], ['\u0131', '\u0036', '\u006f', '\u0071'], ['\u0131', '\u006f', '\u0071', '\u005c']],
  [['\u00ec', '\u0071'], ['\u0131', '\u0300', '\u0071'], ['\u0131', '\u005c', '\u0071'], ['\u0131', '\u0036', '\u0071'], ['\u0131', '\u0071', '\u005c']],
  [['\u00ec', '\u0075'], ['\u0131', '\u0300', '\u0075'], ['\u0131', '\u005c', '\u0075'], ['\u0131', '\u0036', '\u0075'], ['\u0131', '\u0075', '\u005c']],
  [['\u00ec', '\u0075', '\u0071'], ['\u0131', '\u0300', '\u0075', '\u0071'], ['\u0131', '\u005c', '\u0075', '\u0071'], ['\u0131', '\u0036', '\u0075', '\u0071'], ['\u0131', '\u0075', '\u0071', '\u005c']],
  [['\u00f2'], ['\u006f', '\u0300'], ['\u006f', '\u005c'], ['\u006f', '\u0036'], ['\u006f', '\u005c']],
  [['\u00f2', '\u0061'], ['\u006f', '\u0300', '\u0061'], ['\u006f', '\u005c', '\u0061'], ['\u006f', '\u0036', '\u0061'], ['\u006f', '\u0061', '\u005c']],
  [['\u00f2', '\u0061', '\u0131'], ['\u006f', '\u0300', '\u0061', '\u0131'], ['\u006f', '\u005c', '\u0061', '\u0131'], ['\u006f', '\u0036', '\u0061', '\u0131'], ['\u006f', '\u0061', '\u0131', '\u005c']],
  [['\u00f2', '\u0061', '\u006f'], ['\u006f', '\u0300', '\u0061', '\u006f'], ['\u006f', '\u005c', '\u0061', '\u006f'], ['\u006f', '\u0036', '\u0061', '\u006f'], ['\u006f', '\u0061', '\u006f', '\u005c']],
  [['\u00f2', '\u0061', '\u0071'], ['\u006f', '\u0300', '\u0061', '\u0071'], ['\u006f', '\u005c', '\u0061', '\u0071'], ['\u006f', '\u0036', '\u0061', '\u0071'], ['\u006f', '\u0061', '\u0071', '\u005c']],
  [['\u00f2', '\u0065'], ['\u006f', '\u0300', '\u0065'], ['\u006f', '\u005c', '\u0065'], ['\u006f', '\u0036', '\u0065'], ['\u006f', '\u0065', '\u005c']],
  [['\u00f2', '\u0065', '\u0071'], ['\u006f', '\u0300', '\u0065', '\u0071'], ['\u006f', '\u005c', '\u0065', '\u0071'], ['\u006f', '\u0036', '\u0065', '\u0071'], ['\u006f', '\u0065', '\u0071', '\u005c']],
  [['\u00f2', '\u0131'], ['\u006f', '\u0300', '\u0131'], ['\u006f', '\u005c', '\u0131'], ['\u006f', '\u0036', '\u0131'], ['\u006f', '\u0131', '\u005c']],
  [['\u00f2', '\u0071'], ['\u006f', '\u0300', '\u0071'], ['\u006f', '\u005c', '\u0071'], ['\u006f', '\u0036', '\u0071'], ['\u006f', '\u0071', '\u005c']],
  [['\u00f9'], ['\u0075', '\u0300'], ['\u0075', '\u005c'], ['\u0075', '\u0036'], ['\u0075', '\u005c']],
  [['\u00f9', '\u0061'], ['\u0075', '\u0300', '\u0061'], ['\u0075', '\u005c', '\u0061'], ['\u0075', '\u0036', '\u0061'], ['\u0075', '\u0061', '\u005c']],
  [['\u00f9', '\u0061', '\u0131'], ['\u0075', '\u0300', '\u0061', '\u0131'], ['\u0075', '\u005c', '\u0061', '\u0131'], ['\u0075', '\u0036', '\u0061', '\u0131'], ['\u0075', '\u0061', '\u0131', '\u005c']],
  [['\u00f9', '\u0061', '\u006f'], ['\u0075', '\u0300', '\u0061', '\u006f'], ['\u0075', '\u005c', '\u0061', '\u006f'], ['\u0075', '\u0036', '\u0061', '\u006f'], ['\u0075', '\u0061', '\u006f', '\u005c']],
  [['\u00f9', '\u0061', '\u0071'], ['\u0075', '\u0300', '\u0061', '\u0071'], ['\u0075', '\u005c', '\u0061', '\u0071'], ['\u0075', '\u0036', '\u0061', '\u0071'], ['\u0075', '\u0061', '\u0071', '\u005c']],
  [['\u00f9', '\u0065'], ['\u0075', '\u0300', '\u0065'], ['\u0075', '\u005c', '\u0065'], ['\u0075', '\u0036', '\u0065'], ['\u0075', '\u0065', '\u005c']],
  [['\u00f9', '\u0065', '\u0071'], ['\u0075', '\u0300', '\u0065', '\u0071'], ['\u0075', '\u005c', '\u0065', '\u0071'], ['\u0075', '\u0036', '\u0065', '\u0071'], ['\u0075', '\u0065', '\u0071', '\u005c']],
  [['\u00f9', '\u0131'], ['\u0075', '\u0300', '\u0131'], ['\u0075', '\u005c', '\u0131'], ['\u0075', '\u0036', '\u0131'], ['\u0075', '\u0131', '\u005c']],
  [['\u00f9', '\u006f'], ['\u0075', '\u0300', '\u006f'], ['\u0075', '\u005c', '\u006f'], ['\u0075', '\u0036', '\u006f'], ['\u0075', '\u006f', '\u005c']],
  [['\u00f9', '\u006f', '\u0131'], ['\u0075', '\u0300', '\u006f', '\u0131'], ['\u0075', '\u005c', '\u006f', '\u0131'], ['\u0075', '\u0036', '\u006f', '\u0131'], ['\u0075', '\u006f', '\u0131', '\u005c']],
  [['\u00f9', '\u006f', '\u0071'], ['\u0075', '\u0300', '\u006f', '\u0071'], ['\u0075', '\u005c', '\u006f', '\u0071'], ['\u0075', '\u0036', '\u006f', '\u0071'], ['\u0075', '\u006f', '\u0071', '\u005c']],
  [['\u00f9', '\u0071'], ['\u0075', '\u0300', '\u0071'], ['\u0075', '\u005c', '\u0071'], ['\u0075', '\u0036', '\u0071'], ['\u0075', '\u0071', '\u005c']]]

def wins_tilde : List (List Str) := [
  [['\u00e3'], ['\u0061', '\u0303'], ['\u0061', '\u007e'], ['\u0061', '\u0037'], ['\u0061', '\u007e']],
  [['\u00e3', '\u0131'], ['\u0061', '\u0303', '\u0131'], ['\u0061', '\u007e', '\u0131'], ['\u0061', '\u0037', '\u0131'], ['\u0061', '\u0131', '\u007e']],
  [['\u00e3', '\u006f'], ['\u0061', '\u0303', '\u006f'], ['\u0061', '\u007e', '\u006f'], ['\u0061', '\u0037', '\u006f'], ['\u0061', '\u006f', '\u007e']],
  [['\u00e3', '\u0071'], ['\u0061', '\u0303', '\u0071'], ['\u0061', '\u007e', '\u0071'], ['\u0061', '\u0037', '\u0071'], ['\u0061', '\u0071', '\u007e']],
  [['\u1ebd'], ['\u0065', '\u0303'], ['\u0065', '\u007e'], ['\u0065', '\u0037'], ['\u0065', '\u007e']],
  [['\u1ebd', '\u0061'], ['\u0065', '\u0303', '\u0061'], ['\u0065', '\u007e', '\u0061'], ['\u0065', '\u0037', '\u0061'], ['\u0065', '\u0061', '\u007e']],
  [['\u1ebd', '\u0061', '\u0131'], ['\u0065', '\u0303', '\u0061', '\u0131'], ['\u0065', '\u007e', '\u0061', '\u0131'], ['\u0065', '\u0037', '\u0061', '\u0131'], ['\u0065', '\u0061', '\u0131', '\u007e']],
  [['\u1ebd', '\u0061', '\u006f'], ['\u0065', '\u0303', '\u0061', '\u006f'], ['\u0065', '\u007e', '\u0061', '\u006f'], ['\u0065', '\u0037', '\u0061', '\u006f'], ['\u0065', '\u0061', '\u006f', '\u007e']],
  [['\u1ebd', '\u0061', '\u0071'], ['\u0065', '\u0303', '\u0061', '\u0071'], ['\u0065', '\u007e', '\u0061', '\u0071'], ['\u0065', '\u0037', '\u0061', '\u0071'], ['\u0065', '\u0061', '\u0071', '\u007e']],
  [['\u1ebd', '\u0131'], ['\u0065', '\u0303', '\u0131'], ['\u0065', '\u007e', '\u0131'], ['\u0065', '\u0037', '\u0131'], ['\u0065', '\u0131', '\u007e']],
  [['\u1ebd', '\u006f'], ['\u0065', '\u0303', '\u006f'], ['\u0065', '\u007e', '\u006f'], ['\u0065', '\u0037', '\u006f'], ['\u0065', '\u006f', '\u007e']],
  [['\u1ebd', '\u006f', '\u0071'], ['\u0065', '\u0303', '\u006f', '\u0071'], ['\u0065', '\u007e', '\u006f', '\u0071'], ['\u0065', '\u0037', '\u006f', '\u0071'], ['\u0065', '\u006f', '\u0071', '\u007e']],
  [['\u1ebd', '\u0071'], ['\u0065', '\u0303', '\u0071'], ['\u0065', '\u007e', '\u0071'], ['\u0065', '\u0037', '\u0071'], ['\u0065', '\u0071', '\u007e']],
  [['\u1ebd', '\u0075'], ['\u0065', '\u0303', '\u0075'], ['\u0065', '\u007e', '\u0075'], ['\u0065', '\u0037', '\u0075'], ['\u0065', '\u0075', '\u007e']],
  [['\u0129'], ['\u0131', '\u0303'], ['\u0131', '\u007e'], ['\u0131', '\u0037'], ['\u0131', '\u007e']],
  [['\u0129', '\u0061'], ['\u0131', '\u0303', '\u0061'], ['\u0131', '\u007e', '\u0061'], ['\u0131', '\u0037', '\u0061'], ['\u0131', '\u0061', '\u007e']],
  [['\u0129', '\u0061', '\u0131'], ['\u0131', '\u0303', '\u0061', '\u0131'], ['\u0131', '\u007e', '\u0061', '\u0131'], ['\u0131', '\u0037', '\u0061', '\u0131'], ['\u0131', '\u0061', '\u0131', '\u007e']],
  [['\u0129', '\u0061', '\u006f'], ['\u0131', '\u0303', '\u0061', '\u006f'], ['\u0131', '\u007e', '\u0061', '\u006f'], ['\u0131', '\u0037', '\u0061', '\u006f'], ['\u0131', '\u0061', '\u006f', '\u007e']],
  [['\u0129', '\u0061', '\u0071'], ['\u0131', '\u0303', '\u0061', '\u0071'], ['\u0131', '\u007e', '\u0061', '\u0071'], ['\u0131', '\u0037', '\u0061', '\u0071'], ['\u0131', '\u0061', '\u0071', '\u007e']],
  [['\u0129', '\u0065'], ['\u0131', '\u0303', '\u0065'], ['\u0131', '\u007e', '\u0065'], ['\u0131', '\u0037', '\u0065'], ['\u0131', '\u0065', '\u007e']],
  [['\u0129', '\u0065', '\u0071'], ['\u0131', '\u0303', '\u0065', '\u0071'], ['\u0131', '\u007e', '\u0065', '\u0071'], ['\u0131', '\u0037', '\u0065', '\u0071'], ['\u0131', '\u0065', '\u0071', '\u007e']],
  [['\u0129', '\u006f'], ['\u0131', '\u0303', '\u006f'], ['\u0131', '\u007e', '\u006f'], ['\u0131', '\u0037', '\u006f'], ['\u0131', '\u006f', '\u007e']],
  [['\u0129', '\u006f', '\u0131'], ['\u0131', '\u0303', '\u006f', '\u0131'], ['\u0131', '\u007e', '\u006f', '\u0131'], ['\u0131', '\u0037', '\u006f', '\u0131'], ['\u0131', '\u006f', '\u0131', '\u007e']],
  [['\u0129', '\u006f', '\u0071'], ['\u0131', '\u0303', '\u006f', '\u0071'], ['\u0131', '\u007e', '\u006f', '\u0071'], ['\u0131', '\u0037', '\u006f', '\u0071'], ['\u0131', '\u006f', '\u0071', '\u007e']],
  [['\u0129', '\u0071'], ['\u0131', '\u0303', '\u0071'], ['\u0131', '\u007e', '\u0071'], ['\u0131', '\u0037', '\u0071'], ['\u0131', '\u0071', '\u007e']],
  [['\u0129', '\u0075'], ['\u0131', '\u0303', '\u0075'], ['\u0131', '\u007e', '\u0075'], ['\u0131', '\u0037', '\u0075'], ['\u0131', '\u0075', '\u007e']],
  [['\u0129', '\u0075', '\u0071'], ['\u0131', '\u0303', '\u0075', '\u0071'], ['\u0131', '\u007e', '\u0075', '\u0071'], ['\u0131', '\u0037', '\u0075', '\u0071'], ['\u0131', '\u0075', '\u0071', '\u007e']],
  [['\u00f5'], ['\u006f', '\u0303'], ['\u006f', '\u007e'], ['\u006f', '\u0037'], ['\u006f', '\u007e']],
  [['\u00f5', '\u0061'], ['\u006f', '\u0303', '\u0061'], ['\u006f', '\u007e', '\u0061'], ['\u006f', '\u0037', '\u0061'], ['\u006f', '\u0061', '\u007e']],
  [['\u00f5', '\u0061', '\u0131'], ['\u006f', '\u0303', '\u0061', '\u0131'], ['\u006f', '\u007e', '\u0061', '\u0131'], ['\u006f', '\u0037', '\u0061', '\u0131'], ['\u006f', '\u0061', '\u0131', '\u007e']],
  [['\u00f5', '\u0061', '\u006f'], ['\u006f', '\u0303', '\u0061', '\u006f'], ['\u006f', '\u007e', '\u0061', '\u006f'], ['\u006f', '\u0037', '\u0061', '\u006f'], ['\u006f', '\u0061', '\u006f', '\u007e']],
  [['\u00f5', '\u0061', '\u0071'], ['\u006f', '\u0303', '\u0061', '\u0071'], ['\u006f', '\u007e', '\u0061', '\u0071'], ['\u006f', '\u0037', '\u0061', '\u0071'], ['\u006f', '\u0061', '\u0071', '\u007e']],
  [['\u00f5', '\u0065'], ['\u006f', '\u0303', '\u0065'], ['\u006f', '\u007e', '\u0065'], ['\u006f', '\u0037', '\u0065'], ['\u006f', '\u0065', '\u007e']],
  [['\u00f5', '\u0065', '\u0071'], ['\u006f', '\u0303', '\u0065', '\u0071'], ['\u006f', '\u007e', '\u0065', '\u0071'], ['\u006f', '\u0037', '\u0065', '\u0071'], ['\u006f', '\u0065', '\u0071', '\u007e']],
  [['\u00f5', '\u0131'], ['\u006f', '\u0303', '\u0131'], ['\u006f', '\u007e', '\u0131'], ['\u006f', '\u0037', '\u0131'], ['\u006f', '\u0131', '\u007e']],
  [['\u00f5', '\u0071'], ['\u006f', '\u0303', '\u0071'], ['\u006f', '\u007e', '\u0071'], ['\u006f', '\u0037', '\u0071'], ['\u006f', '\u0071', '\u007e']],
  [['\u0169'], ['\u0075', '\u0303'], ['\u0075', '\u007e'], ['\u0075', '\u0037'], ['\u0075', '\u007e']],
  [['\u0169', '\u0061'], ['\u0075', '\u0303', '\u0061'], ['\u0075', '\u007e', '\u0061'], ['\u0075', '\u0037', '\u0061'], ['\u0075', '\u0061', '\u007e']],
  [['\u0169', '\u0061', '\u0131'], ['\u0075', '\u0303', '\u0061', '\u0131'], ['\u0075', '\u007e', '\u0061', '\u0131'], ['\u0075', '\u0037', '\u0061', '\u0131'], ['\u0075', '\u0061', '\u0131', '\u007e']],
  [['\u0169', '\u0061', '\u006f'], ['\u0075', '\u0303', '\u0061', '\u006f'], ['\u0075', '\u007e', '\u0061', '\u006f'], ['\u0075', '\u0037', '\u0061', '\u006f'], ['\u0075', '\u0061', '\u006f', '\u007e']],
  [['\u0169', '\u0061', '\u0071'], ['\u0075', '\u0303', '\u0061', '\u0071'], ['\u0075', '\u007e', '\u0061', '\u0071'], ['\u0075', '\u0037', '\u0061', '\u0071'], ['\u0075', '\u0061', '\u0071', '\u007e']],
  [['\u0169', '\u0065'], ['\u0075', '\u0303', '\u0065'], ['\u0075', '\u007e', '\u0065'], ['\u0075', '\u0037', '\u0065'], ['\u0075', '\u0065', '\u007e']],
  [['\u0169', '\u0065', '\u0071'], ['\u0075', '\u0303', '\u0065', '\u0071'], ['\u0075', '\u007e', '\u0065', '\u0071'], ['\u0075', '\u0037', '\u0065', '\u0071'], ['\u0075', '\u0065', '\u0071', '\u007e']],
  [['\u0169', '\u0131'], ['\u0075', '\u0303', '\u0131'], ['\u0075', '\u007e', '\u0131'], ['\u0075', '\u0037', '\u0131'], ['\u0075', '\u0131', '\u007e']],
  [['\u0169', '\u006f'], ['\u0075', '\u0303', '\u006f'], ['\u0075', '\u007e', '\u006f'], ['\u0075', '\u0037', '\u006f'], ['\u0075', '\u006f', '\u007e']],
  [['\u0169', '\u006f', '\u0131'], ['\u0075', '\u0303', '\u006f', '\u0131'], ['\u0075', '\u007e', '\u006f', '\u0131'], ['\u0075', '\u0037', '\u006f', '\u0131'], ['\u0075', '\u006f', '\u0131', '\u007e']],
  [['\u0169', '\u006f', '\u0071'], ['\u0075', '\u0303', '\u006f', '\u0071'], ['\u0075', '\u007e', '\u006f', '\u0071'], ['\u0075', '\u0037', '\u006f', '\u0071'], ['\u0075', '\u006f', '\u0071', '\u007e']],
  [['\u0169', '\u0071'], ['\u0075', '\u0303', '\u0071'], ['\u0075', '\u007e', '\u0071'], ['\u0075', '\u0037', '\u0071'], ['\u0075', '\u0071', '\u007e']]]

/-- The ways to write each rime. -/
def wins : WTone → List (List Str)
  | .plain => wins_plain
  | .macron => wins_macron
  | .acute => wins_acute
  | .caron => wins_caron
  | .hook => wins_hook
  | .circumflex => wins_circumflex
  | .grave => wins_grave
  | .tilde => wins_tilde

theorem wins_ok (τ : WTone) : wins τ = rimes.map τ.rimeWays := by cases τ <;> decide +kernel

end Verif.Parse.Notes
