import Verif.Model.Pattern
/-! GENERATED by tools/gen_dicts.py from /repo/internal/data; do not edit. -/
set_option autoImplicit false
set_option maxRecDepth 100000
namespace Verif.Data
open Verif.Model

/-- internal/data/af.go: `af_Locale`, dictionary. -/
def afDict : LangData where
  name := ['a', 'f']
  translations := [(['d', 'o', 'n', 'd', 'e', 'r', 'd', 'a', 'g'], [['t', 'h', 'u', 'r', 's', 'd', 'a', 'y']]), (['f', 'e', 'b', 'r', 'u', 'a', 'r', 'i', 'e'], [['f', 'e', 'b', 'r', 'u', 'a', 'r', 'y']]), (['s', 'e', 'p', 't', 'e', 'm', 'b', 'e', 'r'], [['s', 'e', 'p', 't', 'e', 'm', 'b', 'e', 'r']]), (['a', 'u', 'g', 'u', 's', 't', 'u', 's'], [['a', 'u', 'g', 'u', 's', 't']]), (['d', 'e', 's', 'e', 'm', 'b', 'e', 'r'], [['d', 'e', 'c', 'e', 'm', 'b', 'e', 'r']]), (['j', 'a', 'n', 'u', 'a', 'r', 'i', 'e'], [['j', 'a', 'n', 'u', 'a', 'r', 'y']]), (['n', 'o', 'v', 'e', 'm', 'b', 'e', 'r'], [['n', 'o', 'v', 'e', 'm', 'b', 'e', 'r']]), (['s', 'a', 't', 'e', 'r', 'd', 'a', 'g'], [['s', 'a', 't', 'u', 'r', 'd', 'a', 'y']]), (['w', 'o', 'e', 'n', 's', 'd', 'a', 'g'], [['w', 'e', 'd', 'n', 'e', 's', 'd', 'a', 'y']]), (['d', 'i', 'n', 's', 'd', 'a', 'g'], [['t', 'u', 'e', 's', 'd', 'a', 'y']]), (['m', 'a', 'a', 'n', 'd', 'a', 'g'], [['m', 'o', 'n', 'd', 'a', 'y']]), (['o', 'k', 't', 'o', 'b', 'e', 'r'], [['o', 'c', 't', 'o', 'b', 'e', 'r']]), (['s', 'e', 'k', 'o', 'n', 'd', 'e'], [['s', 'e', 'c', 'o', 'n', 'd']]), (['m', 'i', 'n', 'u', 'u', 't'], [['m', 'i', 'n', 'u', 't', 'e']]), (['s', 'o', 'n', 'd', 'a', 'g'], [['s', 'u', 'n', 'd', 'a', 'y']]), (['v', 'r', 'y', 'd', 'a', 'g'], [['f', 'r', 'i', 'd', 'a', 'y']]), (['a', 'p', 'r', 'i', 'l'], [['a', 'p', 'r', 'i', 'l']]), (['j', 'u', 'l', 'i', 'e'], [['j', 'u', 'l', 'y']]), (['j', 'u', 'n', 'i', 'e'], [['j', 'u', 'n', 'e']]), (['m', 'a', 'a', 'n', 'd'], [['m', 'o', 'n', 't', 'h']]), (['m', 'a', 'a', 'r', 't'], [['m', 'a', 'r', 'c', 'h']]), (['j', 'a', 'a', 'r'], [['y', 'e', 'a', 'r']]), (['w', 'e', 'e', 'k'], [['w', 'e', 'e', 'k']]), (['a', 'p', 'r'], [['a', 'p', 'r', 'i', 'l']]), (['a', 'u', 'g'], [['a', 'u', 'g', 'u', 's', 't']]), (['d', 'a', 'g'], [['d', 'a', 'y']]), (['d', 'e', 's'], [['d', 'e', 'c', 'e', 'm', 'b', 'e', 'r']]), (['f', 'e', 'b'], [['f', 'e', 'b', 'r', 'u', 'a', 'r', 'y']]), (['g', 'm', 't'], [['g', 'm', 't']]), (['j', 'a', 'n'], [['j', 'a', 'n', 'u', 'a', 'r', 'y']]), (['j', 'u', 'l'], [['j', 'u', 'l', 'y']]), (['j', 'u', 'n'], [['j', 'u', 'n', 'e']]), (['m', 'e', 'i'], [['m', 'a', 'y']]), (['m', 'i', 'n'], [['m', 'i', 'n', 'u', 't', 'e']]), (['m', 'r', 't'], [['m', 'a', 'r', 'c', 'h']]), (['n', 'o', 'v'], [['n', 'o', 'v', 'e', 'm', 'b', 'e', 'r']]), (['o', 'k', 't'], [['o', 'c', 't', 'o', 'b', 'e', 'r']]), (['s', 'e', 'k'], [['s', 'e', 'c', 'o', 'n', 'd']]), (['s', 'e', 'p'], [['s', 'e', 'p', 't', 'e', 'm', 'b', 'e', 'r']]), (['u', 't', 'c'], [['u', 't', 'c']]), (['u', 'u', 'r'], [['h', 'o', 'u', 'r']]), (['a', 'm'], [['a', 'm']]), (['d', 'i'], [['t', 'u', 'e', 's', 'd', 'a', 'y']]), (['d', 'o'], [['t', 'h', 'u', 'r', 's', 'd', 'a', 'y']]), (['m', 'a'], [['m', 'o', 'n', 'd', 'a', 'y']]), (['m', 'd'], [['m', 'o', 'n', 't', 'h']]), (['n', 'm'], [['p', 'm']]), (['p', 'm'], [['p', 'm']]), (['s', 'a'], [['s', 'a', 't', 'u', 'r', 'd', 'a', 'y']]), (['s', 'o'], [['s', 'u', 'n', 'd', 'a', 'y']]), (['v', 'm'], [['a', 'm']]), (['v', 'r'], [['f', 'r', 'i', 'd', 'a', 'y']]), (['w', 'k'], [['w', 'e', 'e', 'k']]), (['w', 'o'], [['w', 'e', 'd', 'n', 'e', 's', 'd', 'a', 'y']]), ([' '], [[' ']]), (['\''], [[]]), (['+'], [['+']]), ([','], [[]]), (['-'], [['-']]), (['.'], [['.']]), (['/'], [['/']]), ([':'], [[':']]), ([';'], [[]]), (['@'], [[]]), (['['], [[]]), ([']'], [[]]), (['d'], [['d', 'a', 'y']]), (['j'], [['y', 'e', 'a', 'r']]), (['m'], [['m', 'i', 'n', 'u', 't', 'e']]), (['s'], [['s', 'e', 'c', 'o', 'n', 'd']]), (['u'], [['h', 'o', 'u', 'r']]), (['z'], [['z']]), (['|'], [[]])]
  relativeType := [(['h', 'i', 'e', 'r', 'd', 'i', 'e', ' ', 'm', 'i', 'n', 'u', 'u', 't'], ['0', ' ', 'm', 'i', 'n', 'u', 't', 'e', ' ', 'a', 'g', 'o']), (['v', 'o', 'l', 'g', 'e', 'n', 'd', 'e', ' ', 'm', 'a', 'a', 'n', 'd'], ['i', 'n', ' ', '1', ' ', 'm', 'o', 'n', 't', 'h']), (['v', 'e', 'r', 'l', 'e', 'd', 'e', ' ', 'm', 'a', 'a', 'n', 'd'], ['1', ' ', 'm', 'o', 'n', 't', 'h', ' ', 'a', 'g', 'o']), (['v', 'o', 'l', 'g', 'e', 'n', 'd', 'e', ' ', 'j', 'a', 'a', 'r'], ['i', 'n', ' ', '1', ' ', 'y', 'e', 'a', 'r']), (['v', 'o', 'l', 'g', 'e', 'n', 'd', 'e', ' ', 'w', 'e', 'e', 'k'], ['i', 'n', ' ', '1', ' ', 'w', 'e', 'e', 'k']), (['h', 'i', 'e', 'r', 'd', 'i', 'e', ' ', 'j', 'a', 'a', 'r'], ['0', ' ', 'y', 'e', 'a', 'r', ' ', 'a', 'g', 'o']), (['v', 'a', 'n', 'd', 'e', 'e', 's', 'm', 'a', 'a', 'n', 'd'], ['0', ' ', 'm', 'o', 'n', 't', 'h', ' ', 'a', 'g', 'o']), (['v', 'e', 'r', 'l', 'e', 'd', 'e', ' ', 'j', 'a', 'a', 'r'], ['1', ' ', 'y', 'e', 'a', 'r', ' ', 'a', 'g', 'o']), (['v', 'e', 'r', 'l', 'e', 'd', 'e', ' ', 'w', 'e', 'e', 'k'], ['1', ' ', 'w', 'e', 'e', 'k', ' ', 'a', 'g', 'o']), (['h', 'i', 'e', 'r', 'd', 'i', 'e', ' ', 'u', 'u', 'r'], ['0', ' ', 'h', 'o', 'u', 'r', ' ', 'a', 'g', 'o']), (['v', 'a', 'n', 'd', 'e', 'e', 's', 'w', 'e', 'e', 'k'], ['0', ' ', 'w', 'e', 'e', 'k', ' ', 'a', 'g', 'o']), (['g', 'i', 's', 't', 'e', 'r'], ['1', ' ', 'd', 'a', 'y', ' ', 'a', 'g', 'o']), (['v', 'a', 'n', 'd', 'a', 'g'], ['0', ' ', 'd', 'a', 'y', ' ', 'a', 'g', 'o']), (['m', 'o', 'r', 'e'], ['i', 'n', ' ', '1', ' ', 'd', 'a', 'y']), (['n', 'o', 'u'], ['0', ' ', 's', 'e', 'c', 'o', 'n', 'd', ' ', 'a', 'g', 'o'])]

/-- internal/data/af.go: `af_NA_Locale`, dictionary. -/
def af_NADict : LangData where
  name := ['a', 'f', '-', 'N', 'A']

/-- internal/data/agq.go: `agq_Locale`, dictionary. -/
def agqDict : LangData where
  name := ['a', 'g', 'q']
  translations := [(['n', 'd', 'z', 'ɔ', 'ŋ', 'ɔ', 't', 'ɨ', 'f', 'ʉ', 'g', 'h', 'a', 'd', 'z', 'u', 'g', 'h', 'u'], [['s', 'e', 'p', 't', 'e', 'm', 'b', 'e', 'r']]), (['n', 'd', 'z', 'ɔ', 'ŋ', 'ɔ', 'c', 'h', 'w', 'a', 'ʔ', 'a', 'k', 'a', 'a', ' ', 'w', 'o'], [['n', 'o', 'v', 'e', 'm', 'b', 'e', 'r']]), (['n', 'd', 'z', 'ɔ', 'ŋ', 'ɔ', 'g', 'h', 'u', 'u', 'w', 'e', 'l', 'ɔ', 'm'], [['o', 'c', 't', 'o', 'b', 'e', 'r']]), (['n', 'd', 'z', 'ɔ', 'ŋ', 'ɔ', 't', 'a', 'a', 'f', 'ʉ', 'g', 'h', 'a'], [['a', 'p', 'r', 'i', 'l']]), (['n', 'd', 'z', 'ɔ', 'ŋ', 'ɔ', 't', 'ɨ', 'd', 'ʉ', 'g', 'h', 'a'], [['m', 'a', 'r', 'c', 'h']]), (['n', 'd', 'z', 'ɔ', 'ŋ', 'ɔ', 'k', 'w', 'i', 'f', 'ɔ', 'e'], [['a', 'u', 'g', 'u', 's', 't']]), (['n', 'd', 'z', 'ɔ', 'ŋ', 'ɔ', 'n', 'z', 'u', 'g', 'h', 'o'], [['j', 'u', 'n', 'e']]), (['t', 's', 'u', 'ʔ', 'n', 'd', 'z', 'ɨ', 'k', 'ɔ', 'ʔ', 'ɔ'], [['s', 'a', 't', 'u', 'r', 'd', 'a', 'y']]), (['n', 'd', 'z', 'ɔ', 'ŋ', 'ɔ', 'd', 'u', 'm', 'l', 'o'], [['j', 'u', 'l', 'y']]), (['n', 'd', 'z', 'ɔ', 'ŋ', 'ɔ', 'k', 'ɨ', 'z', 'u', 'ʔ'], [['f', 'e', 'b', 'r', 'u', 'a', 'r', 'y']]), (['n', 'd', 'z', 'ɔ', 'ŋ', 'e', 'f', 'w', 'o', 'o'], [['d', 'e', 'c', 'e', 'm', 'b', 'e', 'r']]), (['t', 's', 'u', 'ʔ', 'u', 't', 'ɔ', 'm', 'l', 'o'], [['w', 'e', 'd', 'n', 'e', 's', 'd', 'a', 'y']]), (['n', 'd', 'z', 'ɔ', 'ŋ', 'e', 's', 'e', 'e'], [['m', 'a', 'y']]), (['n', 'd', 'z', 'ɔ', 'ŋ', 'ɔ', 'n', 'u', 'm'], [['j', 'a', 'n', 'u', 'a', 'r', 'y']]), (['t', 's', 'u', 'ʔ', 'u', 'g', 'h', 'ɔ', 'e'], [['t', 'u', 'e', 's', 'd', 'a', 'y']]), (['t', 's', 'u', 'ʔ', 'u', 'g', 'h', 'ɨ', 'm'], [['f', 'r', 'i', 'd', 'a', 'y']]), (['t', 's', 'u', 'ʔ', 'n', 't', 's', 'ɨ'], [['s', 'u', 'n', 'd', 'a', 'y']]), (['t', 's', 'u', 'ʔ', 'u', 'k', 'p', 'a'], [['m', 'o', 'n', 'd', 'a', 'y']]), (['t', 's', 'u', 'ʔ', 'u', 'm', 'e'], [['t', 'h', 'u', 'r', 's', 'd', 'a', 'y']]), (['k', 'ɨ', 'n', 'u', 'm'], [['y', 'e', 'a', 'r']]), (['n', 'd', 'z', 'ɔ', 'ŋ'], [['m', 'o', 'n', 't', 'h']]), (['s', 'ɛ', 'k', 'ɔ', 'n'], [['s', 'e', 'c', 'o', 'n', 'd']]), (['u', 't', 's', 'u', 'ʔ'], [['d', 'a', 'y']]), (['e', 'w', 'ɨ', 'n'], [['w', 'e', 'e', 'k']]), (['m', 'e', 'n', 'e'], [['m', 'i', 'n', 'u', 't', 'e']]), (['d', 'u', 'm'], [['j', 'u', 'l', 'y']]), (['d', 'z', 'k'], [['s', 'a', 't', 'u', 'r', 'd', 'a', 'y']]), (['d', 'z', 'u'], [['s', 'e', 'p', 't', 'e', 'm', 'b', 'e', 'r']]), (['f', 'w', 'o'], [['d', 'e', 'c', 'e', 'm', 'b', 'e', 'r']]), (['f', 'ɔ', 'e'], [['a', 'u', 'g', 'u', 's', 't']]), (['g', 'h', 'ɔ'], [['t', 'u', 'e', 's', 'd', 'a', 'y']]), (['g', 'h', 'ɨ'], [['f', 'r', 'i', 'd', 'a', 'y']]), (['g', 'm', 't'], [['g', 'm', 't']]), (['k', 'a', 'a'], [['n', 'o', 'v', 'e', 'm', 'b', 'e', 'r']]), (['k', 'p', 'a'], [['m', 'o', 'n', 'd', 'a', 'y']]), (['k', 'ɨ', 'z'], [['f', 'e', 'b', 'r', 'u', 'a', 'r', 'y']]), (['l', 'ɔ', 'm'], [['o', 'c', 't', 'o', 'b', 'e', 'r']]), (['n', 't', 's'], [['s', 'u', 'n', 'd', 'a', 'y']]), (['n', 'u', 'm'], [['j', 'a', 'n', 'u', 'a', 'r', 'y']]), (['n', 'z', 'u'], [['j', 'u', 'n', 'e']]), (['s', 'e', 'e'], [['m', 'a', 'y']]), (['t', 'a', 'a'], [['a', 'p', 'r', 'i', 'l']]), (['t', 'a', 'm'], [['h', 'o', 'u', 'r']]), (['t', 'ɔ', 'm'], [['w', 'e', 'd', 'n', 'e', 's', 'd', 'a', 'y']]), (['t', 'ɨ', 'd'], [['m', 'a', 'r', 'c', 'h']]), (['u', 'm', 'e'], [['t', 'h', 'u', 'r', 's', 'd', 'a', 'y']]), (['u', 't', 'c'], [['u', 't', 'c']]), (['a', 'g'], [['a', 'm']]), (['a', 'k'], [['p', 'm']]), (['a', 'm'], [['a', 'm']]), (['p', 'm'], [['p', 'm']]), ([' '], [[' ']]), (['\''], [[]]), (['+'], [['+']]), ([','], [[]]), (['-'], [['-']]), (['.'], [['.']]), (['/'], [['/']]), ([':'], [[':']]), ([';'], [[]]), (['@'], [[]]), (['['], [[]]), ([']'], [[]]), (['z'], [['z']]), (['|'], [[]])]
  relativeType := [(['t', 'h', 'i', 's', ' ', 'm', 'i', 'n', 'u', 't', 'e'], ['0', ' ', 'm', 'i', 'n', 'u', 't', 'e', ' ', 'a', 'g', 'o']), (['l', 'a', 's', 't', ' ', 'm', 'o', 'n', 't', 'h'], ['1', ' ', 'm', 'o', 'n', 't', 'h', ' ', 'a', 'g', 'o']), (['n', 'e', 'x', 't', ' ', 'm', 'o', 'n', 't', 'h'], ['i', 'n', ' ', '1', ' ', 'm', 'o', 'n', 't', 'h']), (['t', 'h', 'i', 's', ' ', 'm', 'o', 'n', 't', 'h'], ['0', ' ', 'm', 'o', 'n', 't', 'h', ' ', 'a', 'g', 'o']), (['l', 'a', 's', 't', ' ', 'w', 'e', 'e', 'k'], ['1', ' ', 'w', 'e', 'e', 'k', ' ', 'a', 'g', 'o']), (['l', 'a', 's', 't', ' ', 'y', 'e', 'a', 'r'], ['1', ' ', 'y', 'e', 'a', 'r', ' ', 'a', 'g', 'o']), (['n', 'e', 'x', 't', ' ', 'w', 'e', 'e', 'k'], ['i', 'n', ' ', '1', ' ', 'w', 'e', 'e', 'k']), (['n', 'e', 'x', 't', ' ', 'y', 'e', 'a', 'r'], ['i', 'n', ' ', '1', ' ', 'y', 'e', 'a', 'r']), (['t', 'h', 'i', 's', ' ', 'h', 'o', 'u', 'r'], ['0', ' ', 'h', 'o', 'u', 'r', ' ', 'a', 'g', 'o']), (['t', 'h', 'i', 's', ' ', 'w', 'e', 'e', 'k'], ['0', ' ', 'w', 'e', 'e', 'k', ' ', 'a', 'g', 'o']), (['t', 'h', 'i', 's', ' ', 'y', 'e', 'a', 'r'], ['0', ' ', 'y', 'e', 'a', 'r', ' ', 'a', 'g', 'o']), (['a', ' ', 'z', 'u', 'ɛ', 'ɛ'], ['1', ' ', 'd', 'a', 'y', ' ', 'a', 'g', 'o']), (['t', 's', 'ʉ', 't', 's', 'ʉ'], ['i', 'n', ' ', '1', ' ', 'd', 'a', 'y']), (['n', 'o', 'w'], ['0', ' ', 's', 'e', 'c', 'o', 'n', 'd', ' ', 'a', 'g', 'o']), (['n', 'ɛ'], ['0', ' ', 'd', 'a', 'y', ' ', 'a', 'g', 'o'])]

/-- internal/data/ak.go: `ak_Locale`, dictionary. -/
def akDict : LangData where
  name := ['a', 'k']
  translations := [(['e', 's', 'u', 's', 'o', 'w', ' ', 'a', 'k', 'e', 't', 's', 'e', 'a', 'b', 'a', '-', 'k', 'ɔ', 't', 'ɔ', 'n', 'i', 'm', 'b', 'a'], [['m', 'a', 'y']]), (['o', 'b', 'i', 'r', 'a', 'd', 'e', '-', 'a', 'y', 'ɛ', 'w', 'o', 'h', 'o', 'm', 'u', 'm', 'u'], [['j', 'u', 'n', 'e']]), (['a', 'y', 'ɛ', 'w', 'o', 'h', 'o', '-', 'k', 'i', 't', 'a', 'w', 'o', 'n', 's', 'a'], [['j', 'u', 'l', 'y']]), (['e', 'b', 'ɔ', 'b', 'i', 'r', 'a', '-', 'o', 'f', 'o', 'r', 'i', 's', 'u', 'o'], [['a', 'p', 'r', 'i', 'l']]), (['k', 'w', 'a', 'k', 'w', 'a', 'r', '-', 'ɔ', 'g', 'y', 'e', 'f', 'u', 'o'], [['f', 'e', 'b', 'r', 'u', 'a', 'r', 'y']]), (['ɔ', 'b', 'e', 'r', 'ɛ', 'f', 'ɛ', 'w', '-', 'o', 'b', 'u', 'b', 'u', 'o'], [['n', 'o', 'v', 'e', 'm', 'b', 'e', 'r']]), (['d', 'i', 'f', 'u', 'u', '-', 'ɔ', 's', 'a', 'n', 'd', 'a', 'a'], [['a', 'u', 'g', 'u', 's', 't']]), (['m', 'u', 'm', 'u', '-', 'ɔ', 'p', 'ɛ', 'n', 'i', 'm', 'b', 'a'], [['d', 'e', 'c', 'e', 'm', 'b', 'e', 'r']]), (['ɔ', 'b', 'ɛ', 's', 'ɛ', '-', 'a', 'h', 'i', 'n', 'i', 'm', 'e'], [['o', 'c', 't', 'o', 'b', 'e', 'r']]), (['s', 'a', 'n', 'd', 'a', '-', 'ɔ', 'p', 'ɛ', 'p', 'ɔ', 'n'], [['j', 'a', 'n', 'u', 'a', 'r', 'y']]), (['e', 'b', 'ɔ', 'w', '-', 'ɔ', 'b', 'e', 'n', 'e', 'm'], [['m', 'a', 'r', 'c', 'h']]), (['f', 'a', 'n', 'k', 'w', 'a', '-', 'ɛ', 'b', 'ɔ'], [['s', 'e', 'p', 't', 'e', 'm', 'b', 'e', 'r']]), (['m', 'e', 'm', 'e', 'n', 'e', 'd', 'a'], [['s', 'a', 't', 'u', 'r', 'd', 'a', 'y']]), (['d', 'ɔ', 'n', 'h', 'w', 'e', 'r'], [['h', 'o', 'u', 'r']]), (['k', 'w', 'e', 's', 'i', 'd', 'a'], [['s', 'u', 'n', 'd', 'a', 'y']]), (['b', 'e', 'n', 'a', 'd', 'a'], [['t', 'u', 'e', 's', 'd', 'a', 'y']]), (['b', 'o', 's', 'o', 'm', 'e'], [['m', 'o', 'n', 't', 'h']]), (['d', 'w', 'o', 'w', 'd', 'a'], [['m', 'o', 'n', 'd', 'a', 'y']]), (['s', 'ɛ', 'k', 'ɛ', 'n', 'd'], [['s', 'e', 'c', 'o', 'n', 'd']]), (['w', 'u', 'k', 'u', 'd', 'a'], [['w', 'e', 'd', 'n', 'e', 's', 'd', 'a', 'y']]), (['d', 'a', 'p', 'ɛ', 'n'], [['w', 'e', 'e', 'k']]), (['y', 'a', 'w', 'd', 'a'], [['t', 'h', 'u', 'r', 's', 'd', 'a', 'y']]), (['f', 'i', 'd', 'a'], [['f', 'r', 'i', 'd', 'a', 'y']]), (['s', 'e', 'm', 'a'], [['m', 'i', 'n', 'u', 't', 'e']]), (['a', '-', 'k'], [['j', 'u', 'l', 'y']]), (['a', 'f', 'e'], [['y', 'e', 'a', 'r']]), (['b', 'e', 'n'], [['t', 'u', 'e', 's', 'd', 'a', 'y']]), (['d', '-', 'ɔ'], [['a', 'u', 'g', 'u', 's', 't']]), (['d', 'w', 'o'], [['m', 'o', 'n', 'd', 'a', 'y']]), (['e', '-', 'k'], [['m', 'a', 'y']]), (['e', '-', 'o'], [['a', 'p', 'r', 'i', 'l']]), (['e', '-', 'ɔ'], [['m', 'a', 'r', 'c', 'h']]), (['f', '-', 'ɛ'], [['s', 'e', 'p', 't', 'e', 'm', 'b', 'e', 'r']]), (['f', 'i', 'a'], [['f', 'r', 'i', 'd', 'a', 'y']]), (['g', 'm', 't'], [['g', 'm', 't']]), (['k', '-', 'ɔ'], [['f', 'e', 'b', 'r', 'u', 'a', 'r', 'y']]), (['k', 'w', 'e'], [['s', 'u', 'n', 'd', 'a', 'y']]), (['m', '-', 'ɔ'], [['d', 'e', 'c', 'e', 'm', 'b', 'e', 'r']]), (['m', 'e', 'm'], [['s', 'a', 't', 'u', 'r', 'd', 'a', 'y']]), (['o', '-', 'a'], [['j', 'u', 'n', 'e']]), (['s', '-', 'ɔ'], [['j', 'a', 'n', 'u', 'a', 'r', 'y']]), (['u', 't', 'c'], [['u', 't', 'c']]), (['w', 'u', 'k'], [['w', 'e', 'd', 'n', 'e', 's', 'd', 'a', 'y']]), (['y', 'a', 'w'], [['t', 'h', 'u', 'r', 's', 'd', 'a', 'y']]), (['ɔ', '-', 'a'], [['o', 'c', 't', 'o', 'b', 'e', 'r']]), (['ɔ', '-', 'o'], [['n', 'o', 'v', 'e', 'm', 'b', 'e', 'r']]), (['a', 'm'], [['a', 'm']]), (['a', 'n'], [['a', 'm']]), (['d', 'a'], [['d', 'a', 'y']]), (['e', 'w'], [['p', 'm']]), (['p', 'm'], [['p', 'm']]), ([' '], [[' ']]), (['\''], [[]]), (['+'], [['+']]), ([','], [[]]), (['-'], [['-']]), (['.'], [['.']]), (['/'], [['/']]), ([':'], [[':']]), ([';'], [[]]), (['@'], [[]]), (['['], [[]]), ([']'], [[]]), (['z'], [['z']]), (['|'], [[]])]
  relativeType := [(['t', 'h', 'i', 's', ' ', 'm', 'i', 'n', 'u', 't', 'e'], ['0', ' ', 'm', 'i', 'n', 'u', 't', 'e', ' ', 'a', 'g', 'o']), (['l', 'a', 's', 't', ' ', 'm', 'o', 'n', 't', 'h'], ['1', ' ', 'm', 'o', 'n', 't', 'h', ' ', 'a', 'g', 'o']), (['n', 'e', 'x', 't', ' ', 'm', 'o', 'n', 't', 'h'], ['i', 'n', ' ', '1', ' ', 'm', 'o', 'n', 't', 'h']), (['t', 'h', 'i', 's', ' ', 'm', 'o', 'n', 't', 'h'], ['0', ' ', 'm', 'o', 'n', 't', 'h', ' ', 'a', 'g', 'o']), (['l', 'a', 's', 't', ' ', 'w', 'e', 'e', 'k'], ['1', ' ', 'w', 'e', 'e', 'k', ' ', 'a', 'g', 'o']), (['l', 'a', 's', 't', ' ', 'y', 'e', 'a', 'r'], ['1', ' ', 'y', 'e', 'a', 'r', ' ', 'a', 'g', 'o']), (['n', 'e', 'x', 't', ' ', 'w', 'e', 'e', 'k'], ['i', 'n', ' ', '1', ' ', 'w', 'e', 'e', 'k']), (['n', 'e', 'x', 't', ' ', 'y', 'e', 'a', 'r'], ['i', 'n', ' ', '1', ' ', 'y', 'e', 'a', 'r']), (['t', 'h', 'i', 's', ' ', 'h', 'o', 'u', 'r'], ['0', ' ', 'h', 'o', 'u', 'r', ' ', 'a', 'g', 'o']), (['t', 'h', 'i', 's', ' ', 'w', 'e', 'e', 'k'], ['0', ' ', 'w', 'e', 'e', 'k', ' ', 'a', 'g', 'o']), (['t', 'h', 'i', 's', ' ', 'y', 'e', 'a', 'r'], ['0', ' ', 'y', 'e', 'a', 'r', ' ', 'a', 'g', 'o']), (['ɔ', 'k', 'y', 'e', 'n', 'a'], ['i', 'n', ' ', '1', ' ', 'd', 'a', 'y']), (['n', 'd', 'e', 'd', 'a'], ['1', ' ', 'd', 'a', 'y', ' ', 'a', 'g', 'o']), (['n', 'd', 'ɛ'], ['0', ' ', 'd', 'a', 'y', ' ', 'a', 'g', 'o']), (['n', 'o', 'w'], ['0', ' ', 's', 'e', 'c', 'o', 'n', 'd', ' ', 'a', 'g', 'o'])]

/-- internal/data/am.go: `am_Locale`, dictionary. -/
def amDict : LangData where
  name := ['a', 'm']
  translations := [(['ሴ', 'ፕ', 'ቴ', 'ም', 'በ', 'ር'], [['s', 'e', 'p', 't', 'e', 'm', 'b', 'e', 'r']]), (['ኖ', 'ቬ', 'ም', 'በ', 'ር'], [['n', 'o', 'v', 'e', 'm', 'b', 'e', 'r']]), (['ኦ', 'ክ', 'ቶ', 'በ', 'ር'], [['o', 'c', 't', 'o', 'b', 'e', 'r']]), (['ዲ', 'ሴ', 'ም', 'በ', 'ር'], [['d', 'e', 'c', 'e', 'm', 'b', 'e', 'r']]), (['ጃ', 'ን', 'ዩ', 'ወ', 'ሪ'], [['j', 'a', 'n', 'u', 'a', 'r', 'y']]), (['ፌ', 'ብ', 'ሩ', 'ወ', 'ሪ'], [['f', 'e', 'b', 'r', 'u', 'a', 'r', 'y']]), (['ማ', 'ክ', 'ሰ', 'ኞ'], [['t', 'u', 'e', 's', 'd', 'a', 'y']]), (['ሰ', 'ከ', 'ን', 'ድ'], [['s', 'e', 'c', 'o', 'n', 'd']]), (['ሳ', 'ም', 'ን', 'ት'], [['w', 'e', 'e', 'k']]), (['ኤ', 'ፕ', 'ሪ', 'ል'], [['a', 'p', 'r', 'i', 'l']]), (['ኦ', 'ገ', 'ስ', 'ት'], [['a', 'u', 'g', 'u', 's', 't']]), (['ከ', 'ሰ', 'ዓ', 'ት'], [['p', 'm']]), (['g', 'm', 't'], [['g', 'm', 't']]), (['u', 't', 'c'], [['u', 't', 'c']]), (['ሐ', 'ሙ', 'ስ'], [['t', 'h', 'u', 'r', 's', 'd', 'a', 'y']]), (['ማ', 'ር', 'ች'], [['m', 'a', 'r', 'c', 'h']]), (['ማ', 'ክ', 'ሰ'], [['t', 'u', 'e', 's', 'd', 'a', 'y']]), (['ረ', 'ቡ', 'ዕ'], [['w', 'e', 'd', 'n', 'e', 's', 'd', 'a', 'y']]), (['ሰ', 'ዓ', 'ት'], [['h', 'o', 'u', 'r']]), (['ሴ', 'ፕ', 'ቴ'], [['s', 'e', 'p', 't', 'e', 'm', 'b', 'e', 'r']]), (['ቅ', 'ዳ', 'ሜ'], [['s', 'a', 't', 'u', 'r', 'd', 'a', 'y']]), (['ኖ', 'ቬ', 'ም'], [['n', 'o', 'v', 'e', 'm', 'b', 'e', 'r']]), (['ኤ', 'ፕ', 'ሪ'], [['a', 'p', 'r', 'i', 'l']]), (['እ', 'ሑ', 'ድ'], [['s', 'u', 'n', 'd', 'a', 'y']]), (['ኦ', 'ክ', 'ቶ'], [['o', 'c', 't', 'o', 'b', 'e', 'r']]), (['ኦ', 'ገ', 'ስ'], [['a', 'u', 'g', 'u', 's', 't']]), (['ዓ', 'መ', 'ት'], [['y', 'e', 'a', 'r']]), (['ዓ', 'ር', 'ብ'], [['f', 'r', 'i', 'd', 'a', 'y']]), (['ደ', 'ቂ', 'ቃ'], [['m', 'i', 'n', 'u', 't', 'e']]), (['ዲ', 'ሴ', 'ም'], [['d', 'e', 'c', 'e', 'm', 'b', 'e', 'r']]), (['ጁ', 'ላ', 'ይ'], [['j', 'u', 'l', 'y']]), (['ጃ', 'ን', 'ዩ'], [['j', 'a', 'n', 'u', 'a', 'r', 'y']]), (['ጥ', 'ዋ', 'ት'], [['a', 'm']]), (['ፌ', 'ብ', 'ሩ'], [['f', 'e', 'b', 'r', 'u', 'a', 'r', 'y']]), (['a', 'm'], [['a', 'm']]), (['p', 'm'], [['p', 'm']]), (['ሜ', 'ይ'], [['m', 'a', 'y']]), (['ሰ', 'ኞ'], [['m', 'o', 'n', 'd', 'a', 'y']]), (['ቀ', 'ን'], [['d', 'a', 'y']]), (['ወ', 'ር'], [['m', 'o', 'n', 't', 'h']]), (['ጁ', 'ን'], [['j', 'u', 'n', 'e']]), ([' '], [[' ']]), (['\''], [[]]), (['+'], [['+']]), ([','], [[]]), (['-'], [['-']]), (['.'], [['.']]), (['/'], [['/']]), ([':'], [[':']]), ([';'], [[]]), (['@'], [[]]), (['['], [[]]), ([']'], [[]]), (['z'], [['z']]), (['|'], [[]])]
  relativeType := [(['የ', 'ሚ', 'ቀ', 'ጥ', 'ለ', 'ው', ' ', 'ሳ', 'ም', 'ን', 'ት'], ['i', 'n', ' ', '1', ' ', 'w', 'e', 'e', 'k']), (['የ', 'ሚ', 'ቀ', 'ጥ', 'ለ', 'ው', ' ', 'ዓ', 'መ', 'ት'], ['i', 'n', ' ', '1', ' ', 'y', 'e', 'a', 'r']), (['ባ', 'ለ', 'ፈ', 'ው', ' ', 'ሳ', 'ም', 'ን', 'ት'], ['1', ' ', 'w', 'e', 'e', 'k', ' ', 'a', 'g', 'o']), (['የ', 'ሚ', 'ቀ', 'ጥ', 'ለ', 'ው', ' ', 'ወ', 'ር'], ['i', 'n', ' ', '1', ' ', 'm', 'o', 'n', 't', 'h']), (['ያ', 'ለ', 'ፈ', 'ው', ' ', 'ሳ', 'ም', 'ን', 'ት'], ['1', ' ', 'w', 'e', 'e', 'k', ' ', 'a', 'g', 'o']), (['በ', 'ዚ', 'ህ', ' ', 'ሣ', 'ም', 'ን', 'ት'], ['0', ' ', 'w', 'e', 'e', 'k', ' ', 'a', 'g', 'o']), (['በ', 'ዚ', 'ህ', ' ', 'ሳ', 'ም', 'ን', 'ት'], ['0', ' ', 'w', 'e', 'e', 'k', ' ', 'a', 'g', 'o']), (['ያ', 'ለ', 'ፈ', 'ው', ' ', 'ዓ', 'መ', 'ት'], ['1', ' ', 'y', 'e', 'a', 'r', ' ', 'a', 'g', 'o']), (['በ', 'ዚ', 'ህ', ' ', 'ዓ', 'መ', 'ት'], ['0', ' ', 'y', 'e', 'a', 'r', ' ', 'a', 'g', 'o']), (['ያ', 'ለ', 'ፈ', 'ው', ' ', 'ወ', 'ር'], ['1', ' ', 'm', 'o', 'n', 't', 'h', ' ', 'a', 'g', 'o']), (['በ', 'ዚ', 'ህ', ' ', 'ወ', 'ር'], ['0', ' ', 'm', 'o', 'n', 't', 'h', ' ', 'a', 'g', 'o']), (['ይ', 'ህ', ' ', 'ሰ', 'ዓ', 'ት'], ['0', ' ', 'h', 'o', 'u', 'r', ' ', 'a', 'g', 'o']), (['ይ', 'ህ', ' ', 'ደ', 'ቂ', 'ቃ'], ['0', ' ', 'm', 'i', 'n', 'u', 't', 'e', ' ', 'a', 'g', 'o']), (['ት', 'ላ', 'ን', 'ት', 'ና'], ['1', ' ', 'd', 'a', 'y', ' ', 'a', 'g', 'o']), (['ት', 'ና', 'ን', 'ት'], ['1', ' ', 'd', 'a', 'y', ' ', 'a', 'g', 'o']), (['አ', 'ሁ', 'ን'], ['0', ' ', 's', 'e', 'c', 'o', 'n', 'd', ' ', 'a', 'g', 'o']), (['ነ', 'ገ'], ['i', 'n', ' ', '1', ' ', 'd', 'a', 'y']), (['ዛ', 'ሬ'], ['0', ' ', 'd', 'a', 'y', ' ', 'a', 'g', 'o'])]

/-- internal/data/ar.go: `ar_Locale`, dictionary. -/
def arDict : LangData where
  name := ['a', 'r']
  splitterGroup := 6
  translations := [(['ا', 'ل', 'ا', 'ر', 'ب', 'ع', 'ا', 'ء'], [['w', 'e', 'd', 'n', 'e', 's', 'd', 'a', 'y']]), (['ا', 'ل', 'ث', 'ل', 'ا', 'ث', 'ا', 'ء'], [['t', 'u', 'e', 's', 'd', 'a', 'y']]), (['ا', 'ل', 'ا', 'ث', 'ن', 'ي', 'ن'], [['m', 'o', 'n', 'd', 'a', 'y']]), (['ا', 'ل', 'ا', 'س', 'ب', 'و', 'ع'], [['w', 'e', 'e', 'k']]), (['ا', 'ل', 'ث', 'و', 'ا', 'ن', 'ي'], [['s', 'e', 'c', 'o', 'n', 'd']]), (['ا', 'ل', 'د', 'ق', 'ا', 'ي', 'ق'], [['m', 'i', 'n', 'u', 't', 'e']]), (['ا', 'ل', 'س', 'ا', 'ع', 'ا', 'ت'], [['h', 'o', 'u', 'r']]), (['ا', 'ك', 'ت', 'و', 'ب', 'ر'], [['o', 'c', 't', 'o', 'b', 'e', 'r']]), (['ا', 'ل', 'ج', 'م', 'ع', 'ة'], [['f', 'r', 'i', 'd', 'a', 'y']]), (['ا', 'ل', 'خ', 'م', 'ي', 'س'], [['t', 'h', 'u', 'r', 's', 'd', 'a', 'y']]), (['ا', 'ل', 'س', 'ا', 'ع', 'ة'], [[]]), (['د', 'ي', 'س', 'م', 'ب', 'ر'], [['d', 'e', 'c', 'e', 'm', 'b', 'e', 'r']]), (['س', 'ب', 'ت', 'م', 'ب', 'ر'], [['s', 'e', 'p', 't', 'e', 'm', 'b', 'e', 'r']]), (['ف', 'ب', 'ر', 'ا', 'ي', 'ر'], [['f', 'e', 'b', 'r', 'u', 'a', 'r', 'y']]), (['ن', 'و', 'ف', 'م', 'ب', 'ر'], [['n', 'o', 'v', 'e', 'm', 'b', 'e', 'r']]), (['ا', 'ب', 'ر', 'ي', 'ل'], [['a', 'p', 'r', 'i', 'l']]), (['ا', 'س', 'ب', 'و', 'ع'], [['w', 'e', 'e', 'k']]), (['ا', 'غ', 'س', 'ط', 'س'], [['a', 'u', 'g', 'u', 's', 't']]), (['ا', 'ل', 'ا', 'ح', 'د'], [['s', 'u', 'n', 'd', 'a', 'y']]), (['ا', 'ل', 'س', 'ب', 'ت'], [['s', 'a', 't', 'u', 'r', 'd', 'a', 'y']]), (['ا', 'ل', 'س', 'ن', 'ة'], [['y', 'e', 'a', 'r']]), (['ا', 'ل', 'ش', 'ه', 'ر'], [['m', 'o', 'n', 't', 'h']]), (['ث', 'ا', 'ن', 'ي', 'ة'], [['s', 'e', 'c', 'o', 'n', 'd']]), (['د', 'ق', 'ا', 'ي', 'ق'], [['m', 'i', 'n', 'u', 't', 'e']]), (['د', 'ق', 'ي', 'ق', 'ة'], [['m', 'i', 'n', 'u', 't', 'e']]), (['س', 'ا', 'ع', 'ا', 'ت'], [['h', 'o', 'u', 'r']]), (['ص', 'ب', 'ا', 'ح', 'ا'], [['a', 'm']]), (['ي', 'ن', 'ا', 'ي', 'ر'], [['j', 'a', 'n', 'u', 'a', 'r', 'y']]), (['ي', 'و', 'ل', 'ي', 'و'], [['j', 'u', 'l', 'y']]), (['ي', 'و', 'ن', 'ي', 'و'], [['j', 'u', 'n', 'e']]), (['ا', 'ي', 'ا', 'م'], [['d', 'a', 'y']]), (['خ', 'ل', 'ا', 'ل'], [['i', 'n']]), (['س', 'ا', 'ع', 'ة'], [['h', 'o', 'u', 'r']]), (['م', 'ا', 'ر', 'س'], [['m', 'a', 'r', 'c', 'h']]), (['م', 'ا', 'ي', 'و'], [['m', 'a', 'y']]), (['م', 'س', 'ا', 'ء'], [['p', 'm']]), (['g', 'm', 't'], [['g', 'm', 't']]), (['u', 't', 'c'], [['u', 't', 'c']]), (['س', 'ن', 'ة'], [['y', 'e', 'a', 'r']]), (['ش', 'ه', 'ر'], [['m', 'o', 'n', 't', 'h']]), (['ع', 'ا', 'م'], [['y', 'e', 'a', 'r']]), (['م', 'ض', 'ت'], [['a', 'g', 'o']]), (['م', 'ن', 'ذ'], [['a', 'g', 'o']]), (['ي', 'و', 'م'], [['d', 'a', 'y']]), (['a', 'm'], [['a', 'm']]), (['p', 'm'], [['p', 'm']]), (['ف', 'ي'], [[]]), (['ه', 'ـ'], [[]]), ([' '], [[' ']]), (['\''], [[]]), (['+'], [['+']]), ([','], [[]]), (['-'], [['-']]), (['.'], [['.']]), (['/'], [['/']]), ([':'], [[':']]), ([';'], [[]]), (['@'], [[]]), (['['], [[]]), ([']'], [[]]), (['z'], [['z']]), (['|'], [[]]), (['ص'], [['a', 'm']]), (['م'], [['p', 'm']])]
  relativeType := [(['ا', 'ل', 'ا', 'س', 'ب', 'و', 'ع', ' ', 'ا', 'ل', 'ق', 'ا', 'د', 'م'], ['i', 'n', ' ', '1', ' ', 'w', 'e', 'e', 'k']), (['ا', 'ل', 'ا', 'س', 'ب', 'و', 'ع', ' ', 'ا', 'ل', 'م', 'ا', 'ض', 'ي'], ['1', ' ', 'w', 'e', 'e', 'k', ' ', 'a', 'g', 'o']), (['ا', 'ل', 'س', 'ا', 'ع', 'ة', ' ', 'ا', 'ل', 'ح', 'ا', 'ل', 'ي', 'ة'], ['0', ' ', 'h', 'o', 'u', 'r', ' ', 'a', 'g', 'o']), (['ا', 'ل', 'س', 'ن', 'ة', ' ', 'ا', 'ل', 'ح', 'ا', 'ل', 'ي', 'ة'], ['0', ' ', 'y', 'e', 'a', 'r', ' ', 'a', 'g', 'o']), (['ا', 'ل', 'س', 'ن', 'ة', ' ', 'ا', 'ل', 'ق', 'ا', 'د', 'م', 'ة'], ['i', 'n', ' ', '1', ' ', 'y', 'e', 'a', 'r']), (['ا', 'ل', 'س', 'ن', 'ة', ' ', 'ا', 'ل', 'م', 'ا', 'ض', 'ي', 'ة'], ['1', ' ', 'y', 'e', 'a', 'r', ' ', 'a', 'g', 'o']), (['ا', 'ل', 'ش', 'ه', 'ر', ' ', 'ا', 'ل', 'ق', 'ا', 'د', 'م'], ['i', 'n', ' ', '1', ' ', 'm', 'o', 'n', 't', 'h']), (['ا', 'ل', 'ش', 'ه', 'ر', ' ', 'ا', 'ل', 'م', 'ا', 'ض', 'ي'], ['1', ' ', 'm', 'o', 'n', 't', 'h', ' ', 'a', 'g', 'o']), (['ا', 'ل', 'ي', 'و', 'م', ' ', 'ا', 'ل', 'س', 'ا', 'ب', 'ق'], ['1', ' ', 'd', 'a', 'y', ' ', 'a', 'g', 'o']), (['ه', 'ذ', 'ا', ' ', 'ا', 'ل', 'ا', 'س', 'ب', 'و', 'ع'], ['0', ' ', 'w', 'e', 'e', 'k', ' ', 'a', 'g', 'o']), (['ه', 'ذ', 'ه', ' ', 'ا', 'ل', 'د', 'ق', 'ي', 'ق', 'ة'], ['0', ' ', 'm', 'i', 'n', 'u', 't', 'e', ' ', 'a', 'g', 'o']), (['س', 'ا', 'ع', 'ة', ' ', 'و', 'ا', 'ح', 'د', 'ة'], ['1', ' ', 'h', 'o', 'u', 'r', ' ', 'a', 'g', 'o']), (['ه', 'ذ', 'ا', ' ', 'ا', 'ل', 'ش', 'ه', 'ر'], ['0', ' ', 'm', 'o', 'n', 't', 'h', ' ', 'a', 'g', 'o']), (['س', 'ا', 'ع', 'ت', 'ي', 'ن'], ['2', ' ', 'h', 'o', 'u', 'r']), (['ا', 'ل', 'ا', 'م', 'س'], ['1', ' ', 'd', 'a', 'y', ' ', 'a', 'g', 'o']), (['ا', 'ل', 'ي', 'و', 'م'], ['0', ' ', 'd', 'a', 'y', ' ', 'a', 'g', 'o']), (['ي', 'و', 'م', 'ي', 'ن'], ['2', ' ', 'd', 'a', 'y']), (['ا', 'ل', 'ا', 'ن'], ['0', ' ', 's', 'e', 'c', 'o', 'n', 'd', ' ', 'a', 'g', 'o']), (['ا', 'م', 'س'], ['1', ' ', 'd', 'a', 'y', ' ', 'a', 'g', 'o']), (['غ', 'د', 'ا'], ['i', 'n', ' ', '1', ' ', 'd', 'a', 'y'])]

/-- internal/data/ar.go: `ar_AE_Locale`, dictionary. -/
def ar_AEDict : LangData where
  name := ['a', 'r', '-', 'A', 'E']
  relativeType := [(['ا', 'ل', 'س', 'ن', 'ة', ' ', 'ا', 'ل', 'ت', 'ا', 'ل', 'ي', 'ة'], ['i', 'n', ' ', '1', ' ', 'y', 'e', 'a', 'r']), (['ه', 'ذ', 'ه', ' ', 'ا', 'ل', 'س', 'ن', 'ة'], ['0', ' ', 'y', 'e', 'a', 'r', ' ', 'a', 'g', 'o'])]

/-- internal/data/ar.go: `ar_BH_Locale`, dictionary. -/
def ar_BHDict : LangData where
  name := ['a', 'r', '-', 'B', 'H']

/-- internal/data/ar.go: `ar_DJ_Locale`, dictionary. -/
def ar_DJDict : LangData where
  name := ['a', 'r', '-', 'D', 'J']

/-- internal/data/ar.go: `ar_DZ_Locale`, dictionary. -/
def ar_DZDict : LangData where
  name := ['a', 'r', '-', 'D', 'Z']
  translations := [(['ج', 'و', 'ي', 'ل', 'ي', 'ة'], [['j', 'u', 'l', 'y']]), (['ا', 'ف', 'ر', 'ي', 'ل'], [['a', 'p', 'r', 'i', 'l']]), (['ج', 'ا', 'ن', 'ف', 'ي'], [['j', 'a', 'n', 'u', 'a', 'r', 'y']]), (['ف', 'ي', 'ف', 'ر', 'ي'], [['f', 'e', 'b', 'r', 'u', 'a', 'r', 'y']]), (['ج', 'و', 'ا', 'ن'], [['j', 'u', 'n', 'e']]), (['ا', 'و', 'ت'], [['a', 'u', 'g', 'u', 's', 't']]), (['م', 'ا', 'ي'], [['m', 'a', 'y']])]

/-- internal/data/ar.go: `ar_EG_Locale`, dictionary. -/
def ar_EGDict : LangData where
  name := ['a', 'r', '-', 'E', 'G']

/-- internal/data/ar.go: `ar_EH_Locale`, dictionary. -/
def ar_EHDict : LangData where
  name := ['a', 'r', '-', 'E', 'H']

/-- internal/data/ar.go: `ar_ER_Locale`, dictionary. -/
def ar_ERDict : LangData where
  name := ['a', 'r', '-', 'E', 'R']

/-- internal/data/ar.go: `ar_IL_Locale`, dictionary. -/
def ar_ILDict : LangData where
  name := ['a', 'r', '-', 'I', 'L']

/-- internal/data/ar.go: `ar_IQ_Locale`, dictionary. -/
def ar_IQDict : LangData where
  name := ['a', 'r', '-', 'I', 'Q']
  translations := [(['ت', 'ش', 'ر', 'ي', 'ن', ' ', 'ا', 'ل', 'ث', 'ا', 'ن', 'ي'], [['n', 'o', 'v', 'e', 'm', 'b', 'e', 'r']]), (['ك', 'ا', 'ن', 'و', 'ن', ' ', 'ا', 'ل', 'ث', 'ا', 'ن', 'ي'], [['j', 'a', 'n', 'u', 'a', 'r', 'y']]), (['ت', 'ش', 'ر', 'ي', 'ن', ' ', 'ا', 'ل', 'ا', 'و', 'ل'], [['o', 'c', 't', 'o', 'b', 'e', 'r']]), (['ت', 'ش', 'ر', 'ی', 'ن', ' ', 'ا', 'ل', 'ا', 'و', 'ل'], [['o', 'c', 't', 'o', 'b', 'e', 'r']]), (['ك', 'ا', 'ن', 'و', 'ن', ' ', 'ا', 'ل', 'ا', 'و', 'ل'], [['d', 'e', 'c', 'e', 'm', 'b', 'e', 'r']]), (['ح', 'ز', 'ي', 'ر', 'ا', 'ن'], [['j', 'u', 'n', 'e']]), (['ا', 'ي', 'ل', 'و', 'ل'], [['s', 'e', 'p', 't', 'e', 'm', 'b', 'e', 'r']]), (['ن', 'ي', 'س', 'ا', 'ن'], [['a', 'p', 'r', 'i', 'l']]), (['ا', 'ذ', 'ا', 'ر'], [['m', 'a', 'r', 'c', 'h']]), (['ا', 'ي', 'ا', 'ر'], [['m', 'a', 'y']]), (['ت', 'م', 'و', 'ز'], [['j', 'u', 'l', 'y']]), (['ش', 'ب', 'ا', 'ط'], [['f', 'e', 'b', 'r', 'u', 'a', 'r', 'y']]), (['ا', 'ب'], [['a', 'u', 'g', 'u', 's', 't']])]

/-- internal/data/ar.go: `ar_JO_Locale`, dictionary. -/
def ar_JODict : LangData where
  name := ['a', 'r', '-', 'J', 'O']
  translations := [(['ت', 'ش', 'ر', 'ي', 'ن', ' ', 'ا', 'ل', 'ث', 'ا', 'ن', 'ي'], [['n', 'o', 'v', 'e', 'm', 'b', 'e', 'r']]), (['ك', 'ا', 'ن', 'و', 'ن', ' ', 'ا', 'ل', 'ث', 'ا', 'ن', 'ي'], [['j', 'a', 'n', 'u', 'a', 'r', 'y']]), (['ت', 'ش', 'ر', 'ي', 'ن', ' ', 'ا', 'ل', 'ا', 'و', 'ل'], [['o', 'c', 't', 'o', 'b', 'e', 'r']]), (['ك', 'ا', 'ن', 'و', 'ن', ' ', 'ا', 'ل', 'ا', 'و', 'ل'], [['d', 'e', 'c', 'e', 'm', 'b', 'e', 'r']]), (['ح', 'ز', 'ي', 'ر', 'ا', 'ن'], [['j', 'u', 'n', 'e']]), (['ا', 'ي', 'ل', 'و', 'ل'], [['s', 'e', 'p', 't', 'e', 'm', 'b', 'e', 'r']]), (['ن', 'ي', 'س', 'ا', 'ن'], [['a', 'p', 'r', 'i', 'l']]), (['ا', 'ذ', 'ا', 'ر'], [['m', 'a', 'r', 'c', 'h']]), (['ا', 'ي', 'ا', 'ر'], [['m', 'a', 'y']]), (['ت', 'م', 'و', 'ز'], [['j', 'u', 'l', 'y']]), (['ش', 'ب', 'ا', 'ط'], [['f', 'e', 'b', 'r', 'u', 'a', 'r', 'y']]), (['ا', 'ب'], [['a', 'u', 'g', 'u', 's', 't']])]

/-- internal/data/ar.go: `ar_KM_Locale`, dictionary. -/
def ar_KMDict : LangData where
  name := ['a', 'r', '-', 'K', 'M']

/-- internal/data/ar.go: `ar_KW_Locale`, dictionary. -/
def ar_KWDict : LangData where
  name := ['a', 'r', '-', 'K', 'W']

/-- internal/data/ar.go: `ar_LB_Locale`, dictionary. -/
def ar_LBDict : LangData where
  name := ['a', 'r', '-', 'L', 'B']
  translations := [(['ت', 'ش', 'ر', 'ي', 'ن', ' ', 'ا', 'ل', 'ث', 'ا', 'ن', 'ي'], [['n', 'o', 'v', 'e', 'm', 'b', 'e', 'r']]), (['ك', 'ا', 'ن', 'و', 'ن', ' ', 'ا', 'ل', 'ث', 'ا', 'ن', 'ي'], [['j', 'a', 'n', 'u', 'a', 'r', 'y']]), (['ت', 'ش', 'ر', 'ي', 'ن', ' ', 'ا', 'ل', 'ا', 'و', 'ل'], [['o', 'c', 't', 'o', 'b', 'e', 'r']]), (['ك', 'ا', 'ن', 'و', 'ن', ' ', 'ا', 'ل', 'ا', 'و', 'ل'], [['d', 'e', 'c', 'e', 'm', 'b', 'e', 'r']]), (['ح', 'ز', 'ي', 'ر', 'ا', 'ن'], [['j', 'u', 'n', 'e']]), (['ا', 'ي', 'ل', 'و', 'ل'], [['s', 'e', 'p', 't', 'e', 'm', 'b', 'e', 'r']]), (['ن', 'ي', 'س', 'ا', 'ن'], [['a', 'p', 'r', 'i', 'l']]), (['ا', 'ذ', 'ا', 'ر'], [['m', 'a', 'r', 'c', 'h']]), (['ا', 'ي', 'ا', 'ر'], [['m', 'a', 'y']]), (['ت', 'م', 'و', 'ز'], [['j', 'u', 'l', 'y']]), (['ش', 'ب', 'ا', 'ط'], [['f', 'e', 'b', 'r', 'u', 'a', 'r', 'y']]), (['ا', 'ب'], [['a', 'u', 'g', 'u', 's', 't']])]

/-- internal/data/ar.go: `ar_LY_Locale`, dictionary. -/
def ar_LYDict : LangData where
  name := ['a', 'r', '-', 'L', 'Y']

/-- internal/data/ar.go: `ar_MA_Locale`, dictionary. -/
def ar_MADict : LangData where
  name := ['a', 'r', '-', 'M', 'A']
  translations := [(['ي', 'و', 'ل', 'ي', 'و', 'ز'], [['j', 'u', 'l', 'y']]), (['د', 'ج', 'ن', 'ب', 'ر'], [['d', 'e', 'c', 'e', 'm', 'b', 'e', 'r']]), (['ش', 'ت', 'ن', 'ب', 'ر'], [['s', 'e', 'p', 't', 'e', 'm', 'b', 'e', 'r']]), (['ن', 'و', 'ن', 'ب', 'ر'], [['n', 'o', 'v', 'e', 'm', 'b', 'e', 'r']]), (['غ', 'ش', 'ت'], [['a', 'u', 'g', 'u', 's', 't']]), (['م', 'ا', 'ي'], [['m', 'a', 'y']])]

/-- internal/data/ar.go: `ar_MR_Locale`, dictionary. -/
def ar_MRDict : LangData where
  name := ['a', 'r', '-', 'M', 'R']
  translations := [(['د', 'ج', 'م', 'ب', 'ر'], [['d', 'e', 'c', 'e', 'm', 'b', 'e', 'r']]), (['ش', 'ت', 'م', 'ب', 'ر'], [['s', 'e', 'p', 't', 'e', 'm', 'b', 'e', 'r']]), (['ا', 'غ', 'ش', 'ت'], [['a', 'u', 'g', 'u', 's', 't']])]

/-- internal/data/ar.go: `ar_OM_Locale`, dictionary. -/
def ar_OMDict : LangData where
  name := ['a', 'r', '-', 'O', 'M']

/-- internal/data/ar.go: `ar_PS_Locale`, dictionary. -/
def ar_PSDict : LangData where
  name := ['a', 'r', '-', 'P', 'S']
  translations := [(['ت', 'ش', 'ر', 'ي', 'ن', ' ', 'ا', 'ل', 'ث', 'ا', 'ن', 'ي'], [['n', 'o', 'v', 'e', 'm', 'b', 'e', 'r']]), (['ك', 'ا', 'ن', 'و', 'ن', ' ', 'ا', 'ل', 'ث', 'ا', 'ن', 'ي'], [['j', 'a', 'n', 'u', 'a', 'r', 'y']]), (['ت', 'ش', 'ر', 'ي', 'ن', ' ', 'ا', 'ل', 'ا', 'و', 'ل'], [['o', 'c', 't', 'o', 'b', 'e', 'r']]), (['ك', 'ا', 'ن', 'و', 'ن', ' ', 'ا', 'ل', 'ا', 'و', 'ل'], [['d', 'e', 'c', 'e', 'm', 'b', 'e', 'r']]), (['ح', 'ز', 'ي', 'ر', 'ا', 'ن'], [['j', 'u', 'n', 'e']]), (['ا', 'ي', 'ل', 'و', 'ل'], [['s', 'e', 'p', 't', 'e', 'm', 'b', 'e', 'r']]), (['ن', 'ي', 'س', 'ا', 'ن'], [['a', 'p', 'r', 'i', 'l']]), (['ا', 'ذ', 'ا', 'ر'], [['m', 'a', 'r', 'c', 'h']]), (['ا', 'ي', 'ا', 'ر'], [['m', 'a', 'y']]), (['ت', 'م', 'و', 'ز'], [['j', 'u', 'l', 'y']]), (['ش', 'ب', 'ا', 'ط'], [['f', 'e', 'b', 'r', 'u', 'a', 'r', 'y']]), (['ا', 'ب'], [['a', 'u', 'g', 'u', 's', 't']])]

/-- internal/data/ar.go: `ar_QA_Locale`, dictionary. -/
def ar_QADict : LangData where
  name := ['a', 'r', '-', 'Q', 'A']

/-- internal/data/ar.go: `ar_SA_Locale`, dictionary. -/
def ar_SADict : LangData where
  name := ['a', 'r', '-', 'S', 'A']

/-- internal/data/ar.go: `ar_SD_Locale`, dictionary. -/
def ar_SDDict : LangData where
  name := ['a', 'r', '-', 'S', 'D']

/-- internal/data/ar.go: `ar_SO_Locale`, dictionary. -/
def ar_SODict : LangData where
  name := ['a', 'r', '-', 'S', 'O']

/-- internal/data/ar.go: `ar_SS_Locale`, dictionary. -/
def ar_SSDict : LangData where
  name := ['a', 'r', '-', 'S', 'S']

/-- internal/data/ar.go: `ar_SY_Locale`, dictionary. -/
def ar_SYDict : LangData where
  name := ['a', 'r', '-', 'S', 'Y']
  translations := [(['ت', 'ش', 'ر', 'ي', 'ن', ' ', 'ا', 'ل', 'ث', 'ا', 'ن', 'ي'], [['n', 'o', 'v', 'e', 'm', 'b', 'e', 'r']]), (['ك', 'ا', 'ن', 'و', 'ن', ' ', 'ا', 'ل', 'ث', 'ا', 'ن', 'ي'], [['j', 'a', 'n', 'u', 'a', 'r', 'y']]), (['ت', 'ش', 'ر', 'ي', 'ن', ' ', 'ا', 'ل', 'ا', 'و', 'ل'], [['o', 'c', 't', 'o', 'b', 'e', 'r']]), (['ك', 'ا', 'ن', 'و', 'ن', ' ', 'ا', 'ل', 'ا', 'و', 'ل'], [['d', 'e', 'c', 'e', 'm', 'b', 'e', 'r']]), (['ح', 'ز', 'ي', 'ر', 'ا', 'ن'], [['j', 'u', 'n', 'e']]), (['ا', 'ي', 'ل', 'و', 'ل'], [['s', 'e', 'p', 't', 'e', 'm', 'b', 'e', 'r']]), (['ن', 'ي', 'س', 'ا', 'ن'], [['a', 'p', 'r', 'i', 'l']]), (['ا', 'ذ', 'ا', 'ر'], [['m', 'a', 'r', 'c', 'h']]), (['ا', 'ي', 'ا', 'ر'], [['m', 'a', 'y']]), (['ت', 'م', 'و', 'ز'], [['j', 'u', 'l', 'y']]), (['ش', 'ب', 'ا', 'ط'], [['f', 'e', 'b', 'r', 'u', 'a', 'r', 'y']]), (['ا', 'ب'], [['a', 'u', 'g', 'u', 's', 't']])]

/-- internal/data/ar.go: `ar_TD_Locale`, dictionary. -/
def ar_TDDict : LangData where
  name := ['a', 'r', '-', 'T', 'D']

/-- internal/data/ar.go: `ar_TN_Locale`, dictionary. -/
def ar_TNDict : LangData where
  name := ['a', 'r', '-', 'T', 'N']
  translations := [(['ج', 'و', 'ي', 'ل', 'ي', 'ة'], [['j', 'u', 'l', 'y']]), (['ا', 'ف', 'ر', 'ي', 'ل'], [['a', 'p', 'r', 'i', 'l']]), (['ج', 'ا', 'ن', 'ف', 'ي'], [['j', 'a', 'n', 'u', 'a', 'r', 'y']]), (['ف', 'ي', 'ف', 'ر', 'ي'], [['f', 'e', 'b', 'r', 'u', 'a', 'r', 'y']]), (['ج', 'و', 'ا', 'ن'], [['j', 'u', 'n', 'e']]), (['ا', 'و', 'ت'], [['a', 'u', 'g', 'u', 's', 't']]), (['م', 'ا', 'ي'], [['m', 'a', 'y']])]

/-- internal/data/ar.go: `ar_YE_Locale`, dictionary. -/
def ar_YEDict : LangData where
  name := ['a', 'r', '-', 'Y', 'E']

/-- internal/data/as.go: `as_Locale`, dictionary. -/
def asDict : LangData where
  name := ['a', 's']
  translations := [(['ব', 'হ', 'ষ', 'প', 'ত', 'ি', 'ব', 'া', 'ৰ'], [['t', 'h', 'u', 'r', 's', 'd', 'a', 'y']]), (['ছ', 'ে', 'প', 'ত', 'ে', 'ম', 'ব', 'ৰ'], [['s', 'e', 'p', 't', 'e', 'm', 'b', 'e', 'r']]), (['ফ', 'ে', 'ব', 'ৰ', 'ৱ', 'া', 'ৰ', 'ী'], [['f', 'e', 'b', 'r', 'u', 'a', 'r', 'y']]), (['জ', 'া', 'ন', 'ৱ', 'া', 'ৰ', 'ী'], [['j', 'a', 'n', 'u', 'a', 'r', 'y']]), (['ড', 'ি', 'চ', 'ে', 'ম', 'ব', 'ৰ'], [['d', 'e', 'c', 'e', 'm', 'b', 'e', 'r']]), (['ম', 'ঙ', 'গ', 'ল', 'ব', 'া', 'ৰ'], [['t', 'u', 'e', 's', 'd', 'a', 'y']]), (['অ', 'ক', 'ট', 'ো', 'ব', 'ৰ'], [['o', 'c', 't', 'o', 'b', 'e', 'r']]), (['অ', 'প', 'ৰ', 'া', 'হ', 'ণ'], [['p', 'm']]), (['ছ', 'ে', 'ক', 'ে', 'ণ', 'ড'], [['s', 'e', 'c', 'o', 'n', 'd']]), (['দ', 'ে', 'ও', 'ব', 'া', 'ৰ'], [['s', 'u', 'n', 'd', 'a', 'y']]), (['ন', 'ৱ', 'ে', 'ম', 'ব', 'ৰ'], [['n', 'o', 'v', 'e', 'm', 'b', 'e', 'r']]), (['প', 'ৰ', 'ব', 'া', 'হ', 'ণ'], [['a', 'm']]), (['ব', 'হ', 'ষ', 'প', 'ত', 'ি'], [['t', 'h', 'u', 'r', 's', 'd', 'a', 'y']]), (['শ', 'ক', 'ৰ', 'ব', 'া', 'ৰ'], [['f', 'r', 'i', 'd', 'a', 'y']]), (['শ', 'ন', 'ি', 'ব', 'া', 'ৰ'], [['s', 'a', 't', 'u', 'r', 'd', 'a', 'y']]), (['স', 'ো', 'ম', 'ব', 'া', 'ৰ'], [['m', 'o', 'n', 'd', 'a', 'y']]), (['এ', 'প', 'ৰ', 'ি', 'ল'], [['a', 'p', 'r', 'i', 'l']]), (['ব', 'ধ', 'ব', 'া', 'ৰ'], [['w', 'e', 'd', 'n', 'e', 's', 'd', 'a', 'y']]), (['ম', 'ি', 'ন', 'ি', 'ট'], [['m', 'i', 'n', 'u', 't', 'e']]), (['স', 'প', 'ত', 'া', 'হ'], [['w', 'e', 'e', 'k']]), (['অ', 'ক', 'ট', 'ো'], [['o', 'c', 't', 'o', 'b', 'e', 'r']]), (['আ', 'গ', 'ষ', 'ট'], [['a', 'u', 'g', 'u', 's', 't']]), (['ঘ', 'ণ', 'ট', 'া'], [['h', 'o', 'u', 'r']]), (['জ', 'ল', 'া', 'ই'], [['j', 'u', 'l', 'y']]), (['ড', 'ি', 'স', 'ে'], [['d', 'e', 'c', 'e', 'm', 'b', 'e', 'r']]), (['ফ', 'ে', 'ব', 'ৰ'], [['f', 'e', 'b', 'r', 'u', 'a', 'r', 'y']]), (['ম', 'ঙ', 'গ', 'ল'], [['t', 'u', 'e', 's', 'd', 'a', 'y']]), (['ম', 'া', 'ৰ', 'চ'], [['m', 'a', 'r', 'c', 'h']]), (['স', 'ে', 'প', 'ট'], [['s', 'e', 'p', 't', 'e', 'm', 'b', 'e', 'r']]), (['g', 'm', 't'], [['g', 'm', 't']]), (['u', 't', 'c'], [['u', 't', 'c']]), (['জ', 'া', 'ন'], [['j', 'a', 'n', 'u', 'a', 'r', 'y']]), (['দ', 'ি', 'ন'], [['d', 'a', 'y']]), (['ন', 'ভ', 'ে'], [['n', 'o', 'v', 'e', 'm', 'b', 'e', 'r']]), (['ব', 'ছ', 'ৰ'], [['y', 'e', 'a', 'r']]), (['ম', 'া', 'হ'], [['m', 'o', 'n', 't', 'h']]), (['শ', 'ক', 'ৰ'], [['f', 'r', 'i', 'd', 'a', 'y']]), (['শ', 'ন', 'ি'], [['s', 'a', 't', 'u', 'r', 'd', 'a', 'y']]), (['স', 'ো', 'ম'], [['m', 'o', 'n', 'd', 'a', 'y']]), (['ৰ', 'ব', 'ি'], [['s', 'u', 'n', 'd', 'a', 'y']]), (['a', 'm'], [['a', 'm']]), (['p', 'm'], [['p', 'm']]), (['আ', 'গ'], [['a', 'u', 'g', 'u', 's', 't']]), (['জ', 'ন'], [['j', 'u', 'n', 'e']]), (['ব', 'ধ'], [['w', 'e', 'd', 'n', 'e', 's', 'd', 'a', 'y']]), (['ম', 'ে'], [['m', 'a', 'y']]), ([' '], [[' ']]), (['\''], [[]]), (['+'], [['+']]), ([','], [[]]), (['-'], [['-']]), (['.'], [['.']]), (['/'], [['/']]), ([':'], [[':']]), ([';'], [[]]), (['@'], [[]]), (['['], [[]]), ([']'], [[]]), (['z'], [['z']]), (['|'], [[]])]
  relativeType := [(['t', 'h', 'i', 's', ' ', 'm', 'i', 'n', 'u', 't', 'e'], ['0', ' ', 'm', 'i', 'n', 'u', 't', 'e', ' ', 'a', 'g', 'o']), (['l', 'a', 's', 't', ' ', 'm', 'o', 'n', 't', 'h'], ['1', ' ', 'm', 'o', 'n', 't', 'h', ' ', 'a', 'g', 'o']), (['n', 'e', 'x', 't', ' ', 'm', 'o', 'n', 't', 'h'], ['i', 'n', ' ', '1', ' ', 'm', 'o', 'n', 't', 'h']), (['t', 'h', 'i', 's', ' ', 'm', 'o', 'n', 't', 'h'], ['0', ' ', 'm', 'o', 'n', 't', 'h', ' ', 'a', 'g', 'o']), (['l', 'a', 's', 't', ' ', 'w', 'e', 'e', 'k'], ['1', ' ', 'w', 'e', 'e', 'k', ' ', 'a', 'g', 'o']), (['l', 'a', 's', 't', ' ', 'y', 'e', 'a', 'r'], ['1', ' ', 'y', 'e', 'a', 'r', ' ', 'a', 'g', 'o']), (['n', 'e', 'x', 't', ' ', 'w', 'e', 'e', 'k'], ['i', 'n', ' ', '1', ' ', 'w', 'e', 'e', 'k']), (['n', 'e', 'x', 't', ' ', 'y', 'e', 'a', 'r'], ['i', 'n', ' ', '1', ' ', 'y', 'e', 'a', 'r']), (['t', 'h', 'i', 's', ' ', 'h', 'o', 'u', 'r'], ['0', ' ', 'h', 'o', 'u', 'r', ' ', 'a', 'g', 'o']), (['t', 'h', 'i', 's', ' ', 'w', 'e', 'e', 'k'], ['0', ' ', 'w', 'e', 'e', 'k', ' ', 'a', 'g', 'o']), (['t', 'h', 'i', 's', ' ', 'y', 'e', 'a', 'r'], ['0', ' ', 'y', 'e', 'a', 'r', ' ', 'a', 'g', 'o']), (['ক', 'া', 'ই', 'ল', 'ৈ'], ['i', 'n', ' ', '1', ' ', 'd', 'a', 'y']), (['ক', 'া', 'ল', 'ি'], ['1', ' ', 'd', 'a', 'y', ' ', 'a', 'g', 'o']), (['n', 'o', 'w'], ['0', ' ', 's', 'e', 'c', 'o', 'n', 'd', ' ', 'a', 'g', 'o']), (['আ', 'জ', 'ি'], ['0', ' ', 'd', 'a', 'y', ' ', 'a', 'g', 'o'])]

/-- internal/data/asa.go: `asa_Locale`, dictionary. -/
def asaDict : LangData where
  name := ['a', 's', 'a']
  translations := [(['i', 'c', 'h', 'e', 'h', 'e', 'a', 'v', 'o'], [['a', 'm']]), (['a', 'l', 'h', 'a', 'm', 'i', 's', 'i'], [['t', 'h', 'u', 'r', 's', 'd', 'a', 'y']]), (['f', 'e', 'b', 'r', 'u', 'a', 'r', 'i'], [['f', 'e', 'b', 'r', 'u', 'a', 'r', 'y']]), (['i', 'c', 'h', 'a', 'm', 't', 'h', 'i'], [['p', 'm']]), (['j', 'u', 'm', 'a', 'm', 'o', 's', 'i'], [['s', 'a', 't', 'u', 'r', 'd', 'a', 'y']]), (['j', 'u', 'm', 'a', 'p', 'i', 'l', 'i'], [['s', 'u', 'n', 'd', 'a', 'y']]), (['j', 'u', 'm', 'a', 't', 'a', 'n', 'o'], [['w', 'e', 'd', 'n', 'e', 's', 'd', 'a', 'y']]), (['j', 'u', 'm', 'a', 't', 'a', 't', 'u'], [['m', 'o', 'n', 'd', 'a', 'y']]), (['s', 'e', 'p', 't', 'e', 'm', 'b', 'a'], [['s', 'e', 'p', 't', 'e', 'm', 'b', 'e', 'r']]), (['t', 'h', 'e', 'k', 'u', 'n', 'd', 'e'], [['s', 'e', 'c', 'o', 'n', 'd']]), (['d', 'e', 's', 'e', 'm', 'b', 'a'], [['d', 'e', 'c', 'e', 'm', 'b', 'e', 'r']]), (['j', 'a', 'n', 'u', 'a', 'r', 'i'], [['j', 'a', 'n', 'u', 'a', 'r', 'y']]), (['j', 'u', 'm', 'a', 'n', 'n', 'e'], [['t', 'u', 'e', 's', 'd', 'a', 'y']]), (['n', 'o', 'v', 'e', 'm', 'b', 'a'], [['n', 'o', 'v', 'e', 'm', 'b', 'e', 'r']]), (['a', 'g', 'o', 's', 't', 'i'], [['a', 'u', 'g', 'u', 's', 't']]), (['a', 'p', 'r', 'i', 'l', 'i'], [['a', 'p', 'r', 'i', 'l']]), (['d', 'a', 'k', 'i', 'k', 'a'], [['m', 'i', 'n', 'u', 't', 'e']]), (['i', 'j', 'u', 'm', 'a', 'a'], [['f', 'r', 'i', 'd', 'a', 'y']]), (['n', 'd', 'i', 's', 'h', 'a'], [['w', 'e', 'e', 'k']]), (['o', 'k', 't', 'o', 'b', 'a'], [['o', 'c', 't', 'o', 'b', 'e', 'r']]), (['j', 'u', 'l', 'a', 'i'], [['j', 'u', 'l', 'y']]), (['m', 'a', 'c', 'h', 'i'], [['m', 'a', 'r', 'c', 'h']]), (['m', 'w', 'a', 'k', 'a'], [['y', 'e', 'a', 'r']]), (['m', 'w', 'e', 'j', 'i'], [['m', 'o', 'n', 't', 'h']]), (['t', 'h', 'i', 'k', 'u'], [['d', 'a', 'y']]), (['j', 'u', 'n', 'i'], [['j', 'u', 'n', 'e']]), (['t', 'h', 'a', 'a'], [['h', 'o', 'u', 'r']]), (['a', 'g', 'o'], [['a', 'u', 'g', 'u', 's', 't']]), (['a', 'l', 'h'], [['t', 'h', 'u', 'r', 's', 'd', 'a', 'y']]), (['a', 'p', 'r'], [['a', 'p', 'r', 'i', 'l']]), (['d', 'e', 'c'], [['d', 'e', 'c', 'e', 'm', 'b', 'e', 'r']]), (['f', 'e', 'b'], [['f', 'e', 'b', 'r', 'u', 'a', 'r', 'y']]), (['g', 'm', 't'], [['g', 'm', 't']]), (['i', 'j', 'm'], [['f', 'r', 'i', 'd', 'a', 'y']]), (['j', 'a', 'n'], [['j', 'a', 'n', 'u', 'a', 'r', 'y']]), (['j', 'm', 'o'], [['s', 'a', 't', 'u', 'r', 'd', 'a', 'y']]), (['j', 'n', 'n'], [['t', 'u', 'e', 's', 'd', 'a', 'y']]), (['j', 'p', 'i'], [['s', 'u', 'n', 'd', 'a', 'y']]), (['j', 't', 'n'], [['w', 'e', 'd', 'n', 'e', 's', 'd', 'a', 'y']]), (['j', 't', 't'], [['m', 'o', 'n', 'd', 'a', 'y']]), (['j', 'u', 'l'], [['j', 'u', 'l', 'y']]), (['j', 'u', 'n'], [['j', 'u', 'n', 'e']]), (['m', 'a', 'c'], [['m', 'a', 'r', 'c', 'h']]), (['m', 'e', 'i'], [['m', 'a', 'y']]), (['n', 'o', 'v'], [['n', 'o', 'v', 'e', 'm', 'b', 'e', 'r']]), (['o', 'k', 't'], [['o', 'c', 't', 'o', 'b', 'e', 'r']]), (['s', 'e', 'p'], [['s', 'e', 'p', 't', 'e', 'm', 'b', 'e', 'r']]), (['u', 't', 'c'], [['u', 't', 'c']]), (['a', 'm'], [['a', 'm']]), (['p', 'm'], [['p', 'm']]), ([' '], [[' ']]), (['\''], [[]]), (['+'], [['+']]), ([','], [[]]), (['-'], [['-']]), (['.'], [['.']]), (['/'], [['/']]), ([':'], [[':']]), ([';'], [[]]), (['@'], [[]]), (['['], [[]]), ([']'], [[]]), (['z'], [['z']]), (['|'], [[]])]
  relativeType := [(['t', 'h', 'i', 's', ' ', 'm', 'i', 'n', 'u', 't', 'e'], ['0', ' ', 'm', 'i', 'n', 'u', 't', 'e', ' ', 'a', 'g', 'o']), (['l', 'a', 's', 't', ' ', 'm', 'o', 'n', 't', 'h'], ['1', ' ', 'm', 'o', 'n', 't', 'h', ' ', 'a', 'g', 'o']), (['n', 'e', 'x', 't', ' ', 'm', 'o', 'n', 't', 'h'], ['i', 'n', ' ', '1', ' ', 'm', 'o', 'n', 't', 'h']), (['t', 'h', 'i', 's', ' ', 'm', 'o', 'n', 't', 'h'], ['0', ' ', 'm', 'o', 'n', 't', 'h', ' ', 'a', 'g', 'o']), (['l', 'a', 's', 't', ' ', 'w', 'e', 'e', 'k'], ['1', ' ', 'w', 'e', 'e', 'k', ' ', 'a', 'g', 'o']), (['l', 'a', 's', 't', ' ', 'y', 'e', 'a', 'r'], ['1', ' ', 'y', 'e', 'a', 'r', ' ', 'a', 'g', 'o']), (['n', 'e', 'x', 't', ' ', 'w', 'e', 'e', 'k'], ['i', 'n', ' ', '1', ' ', 'w', 'e', 'e', 'k']), (['n', 'e', 'x', 't', ' ', 'y', 'e', 'a', 'r'], ['i', 'n', ' ', '1', ' ', 'y', 'e', 'a', 'r']), (['t', 'h', 'i', 's', ' ', 'h', 'o', 'u', 'r'], ['0', ' ', 'h', 'o', 'u', 'r', ' ', 'a', 'g', 'o']), (['t', 'h', 'i', 's', ' ', 'w', 'e', 'e', 'k'], ['0', ' ', 'w', 'e', 'e', 'k', ' ', 'a', 'g', 'o']), (['t', 'h', 'i', 's', ' ', 'y', 'e', 'a', 'r'], ['0', ' ', 'y', 'e', 'a', 'r', ' ', 'a', 'g', 'o']), (['i', 'g', 'h', 'u', 'o'], ['1', ' ', 'd', 'a', 'y', ' ', 'a', 'g', 'o']), (['i', 'y', 'o', 'o'], ['0', ' ', 'd', 'a', 'y', ' ', 'a', 'g', 'o']), (['y', 'a', 'v', 'o'], ['i', 'n', ' ', '1', ' ', 'd', 'a', 'y']), (['n', 'o', 'w'], ['0', ' ', 's', 'e', 'c', 'o', 'n', 'd', ' ', 'a', 'g', 'o'])]

/-- internal/data/ast.go: `ast_Locale`, dictionary. -/
def astDict : LangData where
  name := ['a', 's', 't']
  translations := [(['d', 'e', ' ', 'l', 'a', ' ', 'm', 'a', 'n', 'a', 'n', 'a'], [['a', 'm']]), (['d', 'e', ' ', 's', 'e', 't', 'i', 'e', 'm', 'b', 'r', 'e'], [['s', 'e', 'p', 't', 'e', 'm', 'b', 'e', 'r']]), (['d', 'e', ' ', 'l', 'a', ' ', 't', 'a', 'r', 'd', 'e'], [['p', 'm']]), (['d', 'e', ' ', 'f', 'e', 'b', 'r', 'e', 'r', 'u'], [['f', 'e', 'b', 'r', 'u', 'a', 'r', 'y']]), (['d', 'e', ' ', 'p', 'a', 'y', 'a', 'r', 'e', 's'], [['n', 'o', 'v', 'e', 'm', 'b', 'e', 'r']]), (['d', '\'', 'a', 'v', 'i', 'e', 'n', 't', 'u'], [['d', 'e', 'c', 'e', 'm', 'b', 'e', 'r']]), (['d', '\'', 'o', 'c', 'h', 'o', 'b', 'r', 'e'], [['o', 'c', 't', 'o', 'b', 'e', 'r']]), (['d', 'e', ' ', 'x', 'i', 'n', 'e', 'r', 'u'], [['j', 'a', 'n', 'u', 'a', 'r', 'y']]), (['d', 'e', ' ', 'x', 'u', 'n', 'e', 't', 'u'], [['j', 'u', 'l', 'y']]), (['m', 'i', 'e', 'r', 'c', 'o', 'l', 'e', 's'], [['w', 'e', 'd', 'n', 'e', 's', 'd', 'a', 'y']]), (['s', 'e', 't', 'i', 'e', 'm', 'b', 'r', 'e'], [['s', 'e', 'p', 't', 'e', 'm', 'b', 'e', 'r']]), (['d', '\'', 'a', 'g', 'o', 's', 't', 'u'], [['a', 'u', 'g', 'u', 's', 't']]), (['d', 'e', ' ', 'm', 'a', 'r', 'z', 'u'], [['m', 'a', 'r', 'c', 'h']]), (['a', 'v', 'i', 'e', 'n', 't', 'u'], [['d', 'e', 'c', 'e', 'm', 'b', 'e', 'r']]), (['d', '\'', 'a', 'b', 'r', 'i', 'l'], [['a', 'p', 'r', 'i', 'l']]), (['d', 'e', ' ', 'm', 'a', 'y', 'u'], [['m', 'a', 'y']]), (['d', 'e', ' ', 'x', 'u', 'n', 'u'], [['j', 'u', 'n', 'e']]), (['d', 'o', 'm', 'i', 'n', 'g', 'u'], [['s', 'u', 'n', 'd', 'a', 'y']]), (['f', 'e', 'b', 'r', 'e', 'r', 'u'], [['f', 'e', 'b', 'r', 'u', 'a', 'r', 'y']]), (['o', 'c', 'h', 'o', 'b', 'r', 'e'], [['o', 'c', 't', 'o', 'b', 'e', 'r']]), (['p', 'a', 'y', 'a', 'r', 'e', 's'], [['n', 'o', 'v', 'e', 'm', 'b', 'e', 'r']]), (['s', 'e', 'g', 'u', 'n', 'd', 'u'], [['s', 'e', 'c', 'o', 'n', 'd']]), (['s', 'e', 'l', 'm', 'a', 'n', 'a'], [['w', 'e', 'e', 'k']]), (['v', 'i', 'e', 'n', 'r', 'e', 's'], [['f', 'r', 'i', 'd', 'a', 'y']]), (['a', 'g', 'o', 's', 't', 'u'], [['a', 'u', 'g', 'u', 's', 't']]), (['l', 'l', 'u', 'n', 'e', 's'], [['m', 'o', 'n', 'd', 'a', 'y']]), (['m', 'a', 'n', 'a', 'n', 'a'], [['a', 'm']]), (['m', 'a', 'r', 't', 'e', 's'], [['t', 'u', 'e', 's', 'd', 'a', 'y']]), (['m', 'i', 'n', 'u', 't', 'u'], [['m', 'i', 'n', 'u', 't', 'e']]), (['s', 'a', 'b', 'a', 'd', 'u'], [['s', 'a', 't', 'u', 'r', 'd', 'a', 'y']]), (['x', 'i', 'n', 'e', 'r', 'u'], [['j', 'a', 'n', 'u', 'a', 'r', 'y']]), (['x', 'u', 'e', 'v', 'e', 's'], [['t', 'h', 'u', 'r', 's', 'd', 'a', 'y']]), (['x', 'u', 'n', 'e', 't', 'u'], [['j', 'u', 'l', 'y']]), (['a', 'b', 'r', 'i', 'l'], [['a', 'p', 'r', 'i', 'l']]), (['m', 'a', 'r', 'z', 'u'], [['m', 'a', 'r', 'c', 'h']]), (['t', 'a', 'r', 'd', 'e'], [['p', 'm']]), (['h', 'o', 'r', 'a'], [['h', 'o', 'u', 'r']]), (['m', 'a', 'y', 'u'], [['m', 'a', 'y']]), (['x', 'u', 'n', 'u'], [['j', 'u', 'n', 'e']]), (['a', 'b', 'r'], [['a', 'p', 'r', 'i', 'l']]), (['a', 'g', 'o'], [['a', 'u', 'g', 'u', 's', 't']]), (['a', 'n', 'u'], [['y', 'e', 'a', 'r']]), (['a', 'v', 'i'], [['d', 'e', 'c', 'e', 'm', 'b', 'e', 'r']]), (['d', 'i', 'a'], [['d', 'a', 'y']]), (['d', 'o', 'm'], [['s', 'u', 'n', 'd', 'a', 'y']]), (['f', 'e', 'b'], [['f', 'e', 'b', 'r', 'u', 'a', 'r', 'y']]), (['g', 'm', 't'], [['g', 'm', 't']]), (['l', 'l', 'u'], [['m', 'o', 'n', 'd', 'a', 'y']]), (['m', 'a', 'r'], [['m', 'a', 'r', 'c', 'h'], ['t', 'u', 'e', 's', 'd', 'a', 'y']]), (['m', 'a', 'y'], [['m', 'a', 'y']]), (['m', 'e', 's'], [['m', 'o', 'n', 't', 'h']]), (['m', 'i', 'e'], [['w', 'e', 'd', 'n', 'e', 's', 'd', 'a', 'y']]), (['m', 'i', 'n'], [['m', 'i', 'n', 'u', 't', 'e']]), (['o', 'c', 'h'], [['o', 'c', 't', 'o', 'b', 'e', 'r']]), (['p', 'a', 'y'], [['n', 'o', 'v', 'e', 'm', 'b', 'e', 'r']]), (['s', 'a', 'b'], [['s', 'a', 't', 'u', 'r', 'd', 'a', 'y']]), (['s', 'e', 'l'], [['w', 'e', 'e', 'k']]), (['s', 'e', 't'], [['s', 'e', 'p', 't', 'e', 'm', 'b', 'e', 'r']]), (['u', 't', 'c'], [['u', 't', 'c']]), (['v', 'i', 'e'], [['f', 'r', 'i', 'd', 'a', 'y']]), (['x', 'i', 'n'], [['j', 'a', 'n', 'u', 'a', 'r', 'y']]), (['x', 'n', 't'], [['j', 'u', 'l', 'y']]), (['x', 'u', 'e'], [['t', 'h', 'u', 'r', 's', 'd', 'a', 'y']]), (['x', 'u', 'n'], [['j', 'u', 'n', 'e']]), (['a', 'm'], [['a', 'm']]), (['p', 'm'], [['p', 'm']]), ([' '], [[' ']]), (['\''], [[]]), (['+'], [['+']]), ([','], [[]]), (['-'], [['-']]), (['.'], [['.']]), (['/'], [['/']]), ([':'], [[':']]), ([';'], [[]]), (['@'], [[]]), (['['], [[]]), ([']'], [[]]), (['h'], [['h', 'o', 'u', 'r']]), (['m'], [['m', 'i', 'n', 'u', 't', 'e']]), (['s'], [['s', 'e', 'c', 'o', 'n', 'd']]), (['z'], [['z']]), (['|'], [[]])]
  relativeType := [(['l', 'a', ' ', 's', 'e', 'l', 'm', 'a', 'n', 'a', ' ', 'v', 'i', 'n', 'i', 'e', 'n', 't', 'e'], ['i', 'n', ' ', '1', ' ', 'w', 'e', 'e', 'k']), (['l', 'a', ' ', 's', 'e', 'l', 'm', 'a', 'n', 'a', ' ', 'p', 'a', 's', 'a', 'd', 'a'], ['1', ' ', 'w', 'e', 'e', 'k', ' ', 'a', 'g', 'o']), (['e', 'l', ' ', 'm', 'e', 's', ' ', 'v', 'i', 'n', 'i', 'e', 'n', 't', 'e'], ['i', 'n', ' ', '1', ' ', 'm', 'o', 'n', 't', 'h']), (['l', '\'', 'a', 'n', 'u', ' ', 'v', 'i', 'n', 'i', 'e', 'n', 't', 'e'], ['i', 'n', ' ', '1', ' ', 'y', 'e', 'a', 'r']), (['s', 'e', 'l', 'm', ' ', 'v', 'i', 'n', 'i', 'e', 'n', 't', 'e'], ['i', 'n', ' ', '1', ' ', 'w', 'e', 'e', 'k']), (['e', 'l', ' ', 'm', 'e', 's', ' ', 'p', 'a', 's', 'a', 'u'], ['1', ' ', 'm', 'o', 'n', 't', 'h', ' ', 'a', 'g', 'o']), (['e', 's', 't', 'a', ' ', 's', 'e', 'l', 'm', 'a', 'n', 'a'], ['0', ' ', 'w', 'e', 'e', 'k', ' ', 'a', 'g', 'o']), (['e', 's', 't', 'i', ' ', 'm', 'i', 'n', 'u', 't', 'u'], ['0', ' ', 'm', 'i', 'n', 'u', 't', 'e', ' ', 'a', 'g', 'o']), (['l', '\'', 'a', 'n', 'u', ' ', 'p', 'a', 's', 'a', 'u'], ['1', ' ', 'y', 'e', 'a', 'r', ' ', 'a', 'g', 'o']), (['s', 'e', 'l', 'm', ' ', 'p', 'a', 's', 'a', 'd', 'a'], ['1', ' ', 'w', 'e', 'e', 'k', ' ', 'a', 'g', 'o']), (['e', 's', 't', 'a', ' ', 'h', 'o', 'r', 'a'], ['0', ' ', 'h', 'o', 'u', 'r', ' ', 'a', 'g', 'o']), (['e', 's', 't', 'a', ' ', 's', 'e', 'l', 'm'], ['0', ' ', 'w', 'e', 'e', 'k', ' ', 'a', 'g', 'o']), (['l', '\'', 'a', 'n', 'u', ' ', 'p', 'a', 's'], ['1', ' ', 'y', 'e', 'a', 'r', ' ', 'a', 'g', 'o']), (['l', '\'', 'a', 'n', 'u', ' ', 'v', 'i', 'n'], ['i', 'n', ' ', '1', ' ', 'y', 'e', 'a', 'r']), (['e', 's', 't', 'i', ' ', 'a', 'n', 'u'], ['0', ' ', 'y', 'e', 'a', 'r', ' ', 'a', 'g', 'o']), (['e', 's', 't', 'i', ' ', 'm', 'e', 's'], ['0', ' ', 'm', 'o', 'n', 't', 'h', ' ', 'a', 'g', 'o']), (['e', 's', 't', 'i', ' ', 'm', 'i', 'n'], ['0', ' ', 'm', 'i', 'n', 'u', 't', 'e', ' ', 'a', 'g', 'o']), (['s', 'e', 'l', 'm', ' ', 'p', 'a', 's'], ['1', ' ', 'w', 'e', 'e', 'k', ' ', 'a', 'g', 'o']), (['s', 'e', 'l', 'm', ' ', 'v', 'i', 'n'], ['i', 'n', ' ', '1', ' ', 'w', 'e', 'e', 'k']), (['a', 'n', 'u', ' ', 'p', 'a', 's'], ['1', ' ', 'y', 'e', 'a', 'r', ' ', 'a', 'g', 'o']), (['a', 'n', 'u', ' ', 'v', 'i', 'n'], ['i', 'n', ' ', '1', ' ', 'y', 'e', 'a', 'r']), (['m', 'e', 's', ' ', 'p', 'a', 's'], ['1', ' ', 'm', 'o', 'n', 't', 'h', ' ', 'a', 'g', 'o']), (['m', 'e', 's', ' ', 'v', 'i', 'n'], ['i', 'n', ' ', '1', ' ', 'm', 'o', 'n', 't', 'h']), (['e', 's', 't', 'a', ' ', 'h'], ['0', ' ', 'h', 'o', 'u', 'r', ' ', 'a', 'g', 'o']), (['m', 'a', 'n', 'a', 'n', 'a'], ['i', 'n', ' ', '1', ' ', 'd', 'a', 'y']), (['a', 'g', 'o', 'r', 'a'], ['0', ' ', 's', 'e', 'c', 'o', 'n', 'd', ' ', 'a', 'g', 'o']), (['a', 'y', 'e', 'r', 'i'], ['1', ' ', 'd', 'a', 'y', ' ', 'a', 'g', 'o']), (['g', 'u', 'e', 'i'], ['0', ' ', 'd', 'a', 'y', ' ', 'a', 'g', 'o']), (['m', 'a', 'n'], ['i', 'n', ' ', '1', ' ', 'd', 'a', 'y'])]

/-- internal/data/az-cyrl.go: `az_Cyrl_Locale`, dictionary. -/
def az_CyrlDict : LangData where
  name := ['a', 'z', '-', 'C', 'y', 'r', 'l']
  translations := [(['ч', 'ә', 'р', 'ш', 'ә', 'н', 'б', 'ә', ' ', 'а', 'х', 'ш', 'а', 'м', 'ы'], [['t', 'u', 'e', 's', 'd', 'a', 'y']]), (['б', 'а', 'з', 'а', 'р', ' ', 'е', 'р', 'т', 'ә', 'с', 'и'], [['m', 'o', 'n', 'd', 'a', 'y']]), (['ҹ', 'ү', 'м', 'ә', ' ', 'а', 'х', 'ш', 'а', 'м', 'ы'], [['t', 'h', 'u', 'r', 's', 'd', 'a', 'y']]), (['с', 'е', 'н', 'т', 'ј', 'а', 'б', 'р'], [['s', 'e', 'p', 't', 'e', 'm', 'b', 'e', 'r']]), (['ч', 'ә', 'р', 'ш', 'ә', 'н', 'б', 'ә'], [['w', 'e', 'd', 'n', 'e', 's', 'd', 'a', 'y']]), (['о', 'к', 'т', 'ј', 'а', 'б', 'р'], [['o', 'c', 't', 'o', 'b', 'e', 'r']]), (['m', 'i', 'n', 'u', 't', 'e'], [['m', 'i', 'n', 'u', 't', 'e']]), (['s', 'e', 'c', 'o', 'n', 'd'], [['s', 'e', 'c', 'o', 'n', 'd']]), (['а', 'в', 'г', 'у', 'с', 'т'], [['a', 'u', 'g', 'u', 's', 't']]), (['д', 'е', 'к', 'а', 'б', 'р'], [['d', 'e', 'c', 'e', 'm', 'b', 'e', 'r']]), (['н', 'о', 'ј', 'а', 'б', 'р'], [['n', 'o', 'v', 'e', 'm', 'b', 'e', 'r']]), (['ф', 'е', 'в', 'р', 'а', 'л'], [['f', 'e', 'b', 'r', 'u', 'a', 'r', 'y']]), (['ј', 'а', 'н', 'в', 'а', 'р'], [['j', 'a', 'n', 'u', 'a', 'r', 'y']]), (['m', 'o', 'n', 't', 'h'], [['m', 'o', 'n', 't', 'h']]), (['а', 'п', 'р', 'е', 'л'], [['a', 'p', 'r', 'i', 'l']]), (['б', 'а', 'з', 'а', 'р'], [['s', 'u', 'n', 'd', 'a', 'y']]), (['ш', 'ә', 'н', 'б', 'ә'], [['s', 'a', 't', 'u', 'r', 'd', 'a', 'y']]), (['h', 'o', 'u', 'r'], [['h', 'o', 'u', 'r']]), (['w', 'e', 'e', 'k'], [['w', 'e', 'e', 'k']]), (['y', 'e', 'a', 'r'], [['y', 'e', 'a', 'r']]), (['и', 'ј', 'у', 'л'], [['j', 'u', 'l', 'y']]), (['и', 'ј', 'у', 'н'], [['j', 'u', 'n', 'e']]), (['м', 'а', 'р', 'т'], [['m', 'a', 'r', 'c', 'h']]), (['ҹ', 'ү', 'м', 'ә'], [['f', 'r', 'i', 'd', 'a', 'y']]), (['d', 'a', 'y'], [['d', 'a', 'y']]), (['g', 'm', 't'], [['g', 'm', 't']]), (['u', 't', 'c'], [['u', 't', 'c']]), (['а', 'в', 'г'], [['a', 'u', 'g', 'u', 's', 't']]), (['а', 'п', 'р'], [['a', 'p', 'r', 'i', 'l']]), (['д', 'е', 'к'], [['d', 'e', 'c', 'e', 'm', 'b', 'e', 'r']]), (['и', 'ј', 'л'], [['j', 'u', 'l', 'y']]), (['и', 'ј', 'н'], [['j', 'u', 'n', 'e']]), (['м', 'а', 'и'], [['m', 'a', 'y']]), (['м', 'а', 'р'], [['m', 'a', 'r', 'c', 'h']]), (['н', 'о', 'ј'], [['n', 'o', 'v', 'e', 'm', 'b', 'e', 'r']]), (['о', 'к', 'т'], [['o', 'c', 't', 'o', 'b', 'e', 'r']]), (['с', 'е', 'н'], [['s', 'e', 'p', 't', 'e', 'm', 'b', 'e', 'r']]), (['ф', 'е', 'в'], [['f', 'e', 'b', 'r', 'u', 'a', 'r', 'y']]), (['ј', 'а', 'н'], [['j', 'a', 'n', 'u', 'a', 'r', 'y']]), (['a', 'm'], [['a', 'm']]), (['p', 'm'], [['p', 'm']]), (['а', 'м'], [['a', 'm']]), (['б', 'е'], [['m', 'o', 'n', 'd', 'a', 'y']]), (['п', 'м'], [['p', 'm']]), (['ч', 'а'], [['t', 'u', 'e', 's', 'd', 'a', 'y']]), (['ҹ', 'а'], [['t', 'h', 'u', 'r', 's', 'd', 'a', 'y']]), ([' '], [[' ']]), (['\''], [[]]), (['+'], [['+']]), ([','], [[]]), (['-'], [['-']]), (['.'], [['.']]), (['/'], [['/']]), ([':'], [[':']]), ([';'], [[]]), (['@'], [[]]), (['['], [[]]), ([']'], [[]]), (['z'], [['z']]), (['|'], [[]]), (['б'], [['s', 'u', 'n', 'd', 'a', 'y']]), (['ч'], [['w', 'e', 'd', 'n', 'e', 's', 'd', 'a', 'y']]), (['ш'], [['s', 'a', 't', 'u', 'r', 'd', 'a', 'y']]), (['ҹ'], [['f', 'r', 'i', 'd', 'a', 'y']])]
  relativeType := [(['t', 'h', 'i', 's', ' ', 'm', 'i', 'n', 'u', 't', 'e'], ['0', ' ', 'm', 'i', 'n', 'u', 't', 'e', ' ', 'a', 'g', 'o']), (['l', 'a', 's', 't', ' ', 'm', 'o', 'n', 't', 'h'], ['1', ' ', 'm', 'o', 'n', 't', 'h', ' ', 'a', 'g', 'o']), (['n', 'e', 'x', 't', ' ', 'm', 'o', 'n', 't', 'h'], ['i', 'n', ' ', '1', ' ', 'm', 'o', 'n', 't', 'h']), (['t', 'h', 'i', 's', ' ', 'm', 'o', 'n', 't', 'h'], ['0', ' ', 'm', 'o', 'n', 't', 'h', ' ', 'a', 'g', 'o']), (['l', 'a', 's', 't', ' ', 'w', 'e', 'e', 'k'], ['1', ' ', 'w', 'e', 'e', 'k', ' ', 'a', 'g', 'o']), (['l', 'a', 's', 't', ' ', 'y', 'e', 'a', 'r'], ['1', ' ', 'y', 'e', 'a', 'r', ' ', 'a', 'g', 'o']), (['n', 'e', 'x', 't', ' ', 'w', 'e', 'e', 'k'], ['i', 'n', ' ', '1', ' ', 'w', 'e', 'e', 'k']), (['n', 'e', 'x', 't', ' ', 'y', 'e', 'a', 'r'], ['i', 'n', ' ', '1', ' ', 'y', 'e', 'a', 'r']), (['t', 'h', 'i', 's', ' ', 'h', 'o', 'u', 'r'], ['0', ' ', 'h', 'o', 'u', 'r', ' ', 'a', 'g', 'o']), (['t', 'h', 'i', 's', ' ', 'w', 'e', 'e', 'k'], ['0', ' ', 'w', 'e', 'e', 'k', ' ', 'a', 'g', 'o']), (['t', 'h', 'i', 's', ' ', 'y', 'e', 'a', 'r'], ['0', ' ', 'y', 'e', 'a', 'r', ' ', 'a', 'g', 'o']), (['y', 'e', 's', 't', 'e', 'r', 'd', 'a', 'y'], ['1', ' ', 'd', 'a', 'y', ' ', 'a', 'g', 'o']), (['t', 'o', 'm', 'o', 'r', 'r', 'o', 'w'], ['i', 'n', ' ', '1', ' ', 'd', 'a', 'y']), (['t', 'o', 'd', 'a', 'y'], ['0', ' ', 'd', 'a', 'y', ' ', 'a', 'g', 'o']), (['n', 'o', 'w'], ['0', ' ', 's', 'e', 'c', 'o', 'n', 'd', ' ', 'a', 'g', 'o'])]

/-- internal/data/az-latn.go: `az_Latn_Locale`, dictionary. -/
def az_LatnDict : LangData where
  name := ['a', 'z', '-', 'L', 'a', 't', 'n']
  translations := [(['c', 'ə', 'r', 's', 'ə', 'n', 'b', 'ə', ' ', 'a', 'x', 's', 'a', 'm', 'ı'], [['t', 'u', 'e', 's', 'd', 'a', 'y']]), (['b', 'a', 'z', 'a', 'r', ' ', 'e', 'r', 't', 'ə', 's', 'i'], [['m', 'o', 'n', 'd', 'a', 'y']]), (['c', 'u', 'm', 'ə', ' ', 'a', 'x', 's', 'a', 'm', 'ı'], [['t', 'h', 'u', 'r', 's', 'd', 'a', 'y']]), (['c', 'ə', 'r', 's', 'ə', 'n', 'b', 'ə'], [['w', 'e', 'd', 'n', 'e', 's', 'd', 'a', 'y']]), (['s', 'e', 'n', 't', 'y', 'a', 'b', 'r'], [['s', 'e', 'p', 't', 'e', 'm', 'b', 'e', 'r']]), (['o', 'k', 't', 'y', 'a', 'b', 'r'], [['o', 'c', 't', 'o', 'b', 'e', 'r']]), (['a', 'v', 'q', 'u', 's', 't'], [['a', 'u', 'g', 'u', 's', 't']]), (['d', 'e', 'k', 'a', 'b', 'r'], [['d', 'e', 'c', 'e', 'm', 'b', 'e', 'r']]), (['d', 'ə', 'q', 'i', 'q', 'ə'], [['m', 'i', 'n', 'u', 't', 'e']]), (['f', 'e', 'v', 'r', 'a', 'l'], [['f', 'e', 'b', 'r', 'u', 'a', 'r', 'y']]), (['n', 'o', 'y', 'a', 'b', 'r'], [['n', 'o', 'v', 'e', 'm', 'b', 'e', 'r']]), (['s', 'a', 'n', 'i', 'y', 'ə'], [['s', 'e', 'c', 'o', 'n', 'd']]), (['y', 'a', 'n', 'v', 'a', 'r'], [['j', 'a', 'n', 'u', 'a', 'r', 'y']]), (['a', 'p', 'r', 'e', 'l'], [['a', 'p', 'r', 'i', 'l']]), (['b', 'a', 'z', 'a', 'r'], [['s', 'u', 'n', 'd', 'a', 'y']]), (['h', 'ə', 'f', 't', 'ə'], [['w', 'e', 'e', 'k']]), (['s', 'ə', 'n', 'b', 'ə'], [['s', 'a', 't', 'u', 'r', 'd', 'a', 'y']]), (['c', 'u', 'm', 'ə'], [['f', 'r', 'i', 'd', 'a', 'y']]), (['i', 'y', 'u', 'l'], [['j', 'u', 'l', 'y']]), (['i', 'y', 'u', 'n'], [['j', 'u', 'n', 'e']]), (['m', 'a', 'r', 't'], [['m', 'a', 'r', 'c', 'h']]), (['s', 'a', 'a', 't'], [['h', 'o', 'u', 'r']]), (['a', 'p', 'r'], [['a', 'p', 'r', 'i', 'l']]), (['a', 'v', 'q'], [['a', 'u', 'g', 'u', 's', 't']]), (['d', 'e', 'k'], [['d', 'e', 'c', 'e', 'm', 'b', 'e', 'r']]), (['d', 'ə', 'q'], [['m', 'i', 'n', 'u', 't', 'e']]), (['f', 'e', 'v'], [['f', 'e', 'b', 'r', 'u', 'a', 'r', 'y']]), (['g', 'm', 't'], [['g', 'm', 't']]), (['g', 'u', 'n'], [['d', 'a', 'y']]), (['i', 'y', 'l'], [['j', 'u', 'l', 'y']]), (['i', 'y', 'n'], [['j', 'u', 'n', 'e']]), (['m', 'a', 'r'], [['m', 'a', 'r', 'c', 'h']]), (['m', 'a', 'y'], [['m', 'a', 'y']]), (['n', 'o', 'y'], [['n', 'o', 'v', 'e', 'm', 'b', 'e', 'r']]), (['o', 'k', 't'], [['o', 'c', 't', 'o', 'b', 'e', 'r']]), (['s', 'a', 'n'], [['s', 'e', 'c', 'o', 'n', 'd']]), (['s', 'e', 'n'], [['s', 'e', 'p', 't', 'e', 'm', 'b', 'e', 'r']]), (['u', 't', 'c'], [['u', 't', 'c']]), (['y', 'a', 'n'], [['j', 'a', 'n', 'u', 'a', 'r', 'y']]), (['a', 'm'], [['a', 'm']]), (['a', 'y'], [['m', 'o', 'n', 't', 'h']]), (['b', 'e'], [['m', 'o', 'n', 'd', 'a', 'y']]), (['c', 'a'], [['t', 'u', 'e', 's', 'd', 'a', 'y'], ['t', 'h', 'u', 'r', 's', 'd', 'a', 'y']]), (['i', 'l'], [['y', 'e', 'a', 'r']]), (['p', 'm'], [['p', 'm']]), ([' '], [[' ']]), (['\''], [[]]), (['+'], [['+']]), ([','], [[]]), (['-'], [['-']]), (['.'], [['.']]), (['/'], [['/']]), ([':'], [[':']]), ([';'], [[]]), (['@'], [[]]), (['['], [[]]), ([']'], [[]]), (['b'], [['s', 'u', 'n', 'd', 'a', 'y']]), (['c'], [['f', 'r', 'i', 'd', 'a', 'y'], ['w', 'e', 'd', 'n', 'e', 's', 'd', 'a', 'y']]), (['s'], [['s', 'a', 't', 'u', 'r', 'd', 'a', 'y']]), (['z'], [['z']]), (['|'], [[]])]
  relativeType := [(['g', 'ə', 'l', 'ə', 'n', ' ', 'h', 'ə', 'f', 't', 'ə'], ['i', 'n', ' ', '1', ' ', 'w', 'e', 'e', 'k']), (['k', 'e', 'c', 'ə', 'n', ' ', 'h', 'ə', 'f', 't', 'ə'], ['1', ' ', 'w', 'e', 'e', 'k', ' ', 'a', 'g', 'o']), (['b', 'u', ' ', 'd', 'ə', 'q', 'i', 'q', 'ə'], ['0', ' ', 'm', 'i', 'n', 'u', 't', 'e', ' ', 'a', 'g', 'o']), (['b', 'u', ' ', 'h', 'ə', 'f', 't', 'ə'], ['0', ' ', 'w', 'e', 'e', 'k', ' ', 'a', 'g', 'o']), (['g', 'ə', 'l', 'ə', 'n', ' ', 'a', 'y'], ['i', 'n', ' ', '1', ' ', 'm', 'o', 'n', 't', 'h']), (['g', 'ə', 'l', 'ə', 'n', ' ', 'i', 'l'], ['i', 'n', ' ', '1', ' ', 'y', 'e', 'a', 'r']), (['k', 'e', 'c', 'ə', 'n', ' ', 'a', 'y'], ['1', ' ', 'm', 'o', 'n', 't', 'h', ' ', 'a', 'g', 'o']), (['k', 'e', 'c', 'ə', 'n', ' ', 'i', 'l'], ['1', ' ', 'y', 'e', 'a', 'r', ' ', 'a', 'g', 'o']), (['b', 'u', ' ', 's', 'a', 'a', 't'], ['0', ' ', 'h', 'o', 'u', 'r', ' ', 'a', 'g', 'o']), (['b', 'u', ' ', 'g', 'u', 'n'], ['0', ' ', 'd', 'a', 'y', ' ', 'a', 'g', 'o']), (['b', 'u', ' ', 'a', 'y'], ['0', ' ', 'm', 'o', 'n', 't', 'h', ' ', 'a', 'g', 'o']), (['b', 'u', ' ', 'i', 'l'], ['0', ' ', 'y', 'e', 'a', 'r', ' ', 'a', 'g', 'o']), (['d', 'u', 'n', 'ə', 'n'], ['1', ' ', 'd', 'a', 'y', ' ', 'a', 'g', 'o']), (['s', 'a', 'b', 'a', 'h'], ['i', 'n', ' ', '1', ' ', 'd', 'a', 'y']), (['i', 'n', 'd', 'i'], ['0', ' ', 's', 'e', 'c', 'o', 'n', 'd', ' ', 'a', 'g', 'o'])]

/-- internal/data/az.go: `az_Locale`, dictionary. -/
def azDict : LangData where
  name := ['a', 'z']
  translations := [(['c', 'ə', 'r', 's', 'ə', 'n', 'b', 'ə', ' ', 'a', 'x', 's', 'a', 'm', 'ı'], [['t', 'u', 'e', 's', 'd', 'a', 'y']]), (['b', 'a', 'z', 'a', 'r', ' ', 'e', 'r', 't', 'ə', 's', 'i'], [['m', 'o', 'n', 'd', 'a', 'y']]), (['c', 'u', 'm', 'ə', ' ', 'a', 'x', 's', 'a', 'm', 'ı'], [['t', 'h', 'u', 'r', 's', 'd', 'a', 'y']]), (['c', 'ə', 'r', 's', 'ə', 'n', 'b', 'ə'], [['w', 'e', 'd', 'n', 'e', 's', 'd', 'a', 'y']]), (['s', 'e', 'n', 't', 'y', 'a', 'b', 'r'], [['s', 'e', 'p', 't', 'e', 'm', 'b', 'e', 'r']]), (['o', 'k', 't', 'y', 'a', 'b', 'r'], [['o', 'c', 't', 'o', 'b', 'e', 'r']]), (['a', 'v', 'q', 'u', 's', 't'], [['a', 'u', 'g', 'u', 's', 't']]), (['d', 'e', 'k', 'a', 'b', 'r'], [['d', 'e', 'c', 'e', 'm', 'b', 'e', 'r']]), (['d', 'ə', 'q', 'i', 'q', 'ə'], [['m', 'i', 'n', 'u', 't', 'e']]), (['f', 'e', 'v', 'r', 'a', 'l'], [['f', 'e', 'b', 'r', 'u', 'a', 'r', 'y']]), (['n', 'o', 'y', 'a', 'b', 'r'], [['n', 'o', 'v', 'e', 'm', 'b', 'e', 'r']]), (['s', 'a', 'n', 'i', 'y', 'ə'], [['s', 'e', 'c', 'o', 'n', 'd']]), (['y', 'a', 'n', 'v', 'a', 'r'], [['j', 'a', 'n', 'u', 'a', 'r', 'y']]), (['a', 'p', 'r', 'e', 'l'], [['a', 'p', 'r', 'i', 'l']]), (['b', 'a', 'z', 'a', 'r'], [['s', 'u', 'n', 'd', 'a', 'y']]), (['h', 'ə', 'f', 't', 'ə'], [['w', 'e', 'e', 'k']]), (['s', 'ə', 'n', 'b', 'ə'], [['s', 'a', 't', 'u', 'r', 'd', 'a', 'y']]), (['c', 'u', 'm', 'ə'], [['f', 'r', 'i', 'd', 'a', 'y']]), (['i', 'y', 'u', 'l'], [['j', 'u', 'l', 'y']]), (['i', 'y', 'u', 'n'], [['j', 'u', 'n', 'e']]), (['m', 'a', 'r', 't'], [['m', 'a', 'r', 'c', 'h']]), (['s', 'a', 'a', 't'], [['h', 'o', 'u', 'r']]), (['a', 'p', 'r'], [['a', 'p', 'r', 'i', 'l']]), (['a', 'v', 'q'], [['a', 'u', 'g', 'u', 's', 't']]), (['d', 'e', 'k'], [['d', 'e', 'c', 'e', 'm', 'b', 'e', 'r']]), (['d', 'ə', 'q'], [['m', 'i', 'n', 'u', 't', 'e']]), (['f', 'e', 'v'], [['f', 'e', 'b', 'r', 'u', 'a', 'r', 'y']]), (['g', 'm', 't'], [['g', 'm', 't']]), (['g', 'u', 'n'], [['d', 'a', 'y']]), (['i', 'y', 'l'], [['j', 'u', 'l', 'y']]), (['i', 'y', 'n'], [['j', 'u', 'n', 'e']]), (['m', 'a', 'r'], [['m', 'a', 'r', 'c', 'h']]), (['m', 'a', 'y'], [['m', 'a', 'y']]), (['n', 'o', 'y'], [['n', 'o', 'v', 'e', 'm', 'b', 'e', 'r']]), (['o', 'k', 't'], [['o', 'c', 't', 'o', 'b', 'e', 'r']]), (['s', 'a', 'n'], [['s', 'e', 'c', 'o', 'n', 'd']]), (['s', 'e', 'n'], [['s', 'e', 'p', 't', 'e', 'm', 'b', 'e', 'r']]), (['u', 't', 'c'], [['u', 't', 'c']]), (['y', 'a', 'n'], [['j', 'a', 'n', 'u', 'a', 'r', 'y']]), (['a', 'm'], [['a', 'm']]), (['a', 'y'], [['m', 'o', 'n', 't', 'h']]), (['b', 'e'], [['m', 'o', 'n', 'd', 'a', 'y']]), (['c', 'a'], [['t', 'u', 'e', 's', 'd', 'a', 'y'], ['t', 'h', 'u', 'r', 's', 'd', 'a', 'y']]), (['i', 'l'], [['y', 'e', 'a', 'r']]), (['p', 'm'], [['p', 'm']]), ([' '], [[' ']]), (['\''], [[]]), (['+'], [['+']]), ([','], [[]]), (['-'], [['-']]), (['.'], [['.']]), (['/'], [['/']]), ([':'], [[':']]), ([';'], [[]]), (['@'], [[]]), (['['], [[]]), ([']'], [[]]), (['b'], [['s', 'u', 'n', 'd', 'a', 'y']]), (['c'], [['f', 'r', 'i', 'd', 'a', 'y'], ['w', 'e', 'd', 'n', 'e', 's', 'd', 'a', 'y']]), (['s'], [['s', 'a', 't', 'u', 'r', 'd', 'a', 'y']]), (['z'], [['z']]), (['|'], [[]])]
  relativeType := [(['g', 'ə', 'l', 'ə', 'n', ' ', 'h', 'ə', 'f', 't', 'ə'], ['i', 'n', ' ', '1', ' ', 'w', 'e', 'e', 'k']), (['k', 'e', 'c', 'ə', 'n', ' ', 'h', 'ə', 'f', 't', 'ə'], ['1', ' ', 'w', 'e', 'e', 'k', ' ', 'a', 'g', 'o']), (['b', 'u', ' ', 'd', 'ə', 'q', 'i', 'q', 'ə'], ['0', ' ', 'm', 'i', 'n', 'u', 't', 'e', ' ', 'a', 'g', 'o']), (['b', 'u', ' ', 'h', 'ə', 'f', 't', 'ə'], ['0', ' ', 'w', 'e', 'e', 'k', ' ', 'a', 'g', 'o']), (['g', 'ə', 'l', 'ə', 'n', ' ', 'a', 'y'], ['i', 'n', ' ', '1', ' ', 'm', 'o', 'n', 't', 'h']), (['g', 'ə', 'l', 'ə', 'n', ' ', 'i', 'l'], ['i', 'n', ' ', '1', ' ', 'y', 'e', 'a', 'r']), (['k', 'e', 'c', 'ə', 'n', ' ', 'a', 'y'], ['1', ' ', 'm', 'o', 'n', 't', 'h', ' ', 'a', 'g', 'o']), (['k', 'e', 'c', 'ə', 'n', ' ', 'i', 'l'], ['1', ' ', 'y', 'e', 'a', 'r', ' ', 'a', 'g', 'o']), (['b', 'u', ' ', 's', 'a', 'a', 't'], ['0', ' ', 'h', 'o', 'u', 'r', ' ', 'a', 'g', 'o']), (['b', 'u', ' ', 'g', 'u', 'n'], ['0', ' ', 'd', 'a', 'y', ' ', 'a', 'g', 'o']), (['b', 'u', ' ', 'a', 'y'], ['0', ' ', 'm', 'o', 'n', 't', 'h', ' ', 'a', 'g', 'o']), (['b', 'u', ' ', 'i', 'l'], ['0', ' ', 'y', 'e', 'a', 'r', ' ', 'a', 'g', 'o']), (['d', 'u', 'n', 'ə', 'n'], ['1', ' ', 'd', 'a', 'y', ' ', 'a', 'g', 'o']), (['s', 'a', 'b', 'a', 'h'], ['i', 'n', ' ', '1', ' ', 'd', 'a', 'y']), (['i', 'n', 'd', 'i'], ['0', ' ', 's', 'e', 'c', 'o', 'n', 'd', ' ', 'a', 'g', 'o'])]

/-- internal/data/bas.go: `bas_Locale`, dictionary. -/
def basDict : LangData where
  name := ['b', 'a', 's']
  translations := [(['ŋ', 'g', 'w', 'a', ' ', 'n', 'j', 'a', 'ŋ', 'g', 'u', 'm', 'b', 'a'], [['m', 'o', 'n', 'd', 'a', 'y']]), (['l', 'i', 'b', 'u', 'y', ' ', 'l', 'i', ' ', 'n', 'y', 'e', 'e'], [['d', 'e', 'c', 'e', 'm', 'b', 'e', 'r']]), (['h', 'i', 'ŋ', 'g', 'e', 'ŋ', 'g', 'e', 't'], [['s', 'e', 'c', 'o', 'n', 'd']]), (['i', ' ', 'b', 'i', 'k', 'ɛ', 'g', 'l', 'a'], [['a', 'm']]), (['i', ' ', 'ɓ', 'u', 'g', 'a', 'j', 'ɔ', 'p'], [['p', 'm']]), (['ŋ', 'g', 'w', 'a', ' ', 'm', 'b', 'ɔ', 'k'], [['t', 'h', 'u', 'r', 's', 'd', 'a', 'y']]), (['ŋ', 'g', 'w', 'a', ' ', 'j', 'o', 'n'], [['s', 'a', 't', 'u', 'r', 'd', 'a', 'y']]), (['ŋ', 'g', 'w', 'a', ' ', 'k', 'ɔ', 'ɔ'], [['f', 'r', 'i', 'd', 'a', 'y']]), (['ŋ', 'g', 'w', 'a', ' ', 'n', 'ɔ', 'y'], [['s', 'u', 'n', 'd', 'a', 'y']]), (['ŋ', 'g', 'w', 'a', ' ', 'ŋ', 'g', 'e'], [['w', 'e', 'd', 'n', 'e', 's', 'd', 'a', 'y']]), (['h', 'i', 'l', 'o', 'n', 'd', 'ɛ'], [['j', 'u', 'n', 'e']]), (['m', 'a', 'y', 'ɛ', 's', 'e', 'p'], [['n', 'o', 'v', 'e', 'm', 'b', 'e', 'r']]), (['ŋ', 'g', 'w', 'a', ' ', 'u', 'm'], [['t', 'u', 'e', 's', 'd', 'a', 'y']]), (['k', 'ɔ', 'n', 'd', 'ɔ', 'ŋ'], [['j', 'a', 'n', 'u', 'a', 'r', 'y']]), (['m', 'a', 't', 'u', 'm', 'b'], [['m', 'a', 'r', 'c', 'h']]), (['b', 'i', 'o', 'o', 'm'], [['o', 'c', 't', 'o', 'b', 'e', 'r']]), (['d', 'i', 'p', 'ɔ', 's'], [['s', 'e', 'p', 't', 'e', 'm', 'b', 'e', 'r']]), (['h', 'i', 'k', 'a', 'ŋ'], [['a', 'u', 'g', 'u', 's', 't']]), (['m', 'a', 'c', 'ɛ', 'l'], [['f', 'e', 'b', 'r', 'u', 'a', 'r', 'y']]), (['m', 'a', 't', 'o', 'p'], [['a', 'p', 'r', 'i', 'l']]), (['m', 'p', 'u', 'y', 'ɛ'], [['m', 'a', 'y']]), (['n', 'j', 'e', 'b', 'a'], [['j', 'u', 'l', 'y']]), (['s', 'ɔ', 'n', 'd', 'ɛ'], [['w', 'e', 'e', 'k']]), (['ŋ', 'g', 'e', 't'], [['m', 'i', 'n', 'u', 't', 'e']]), (['ŋ', 'g', 'ɛ', 'ŋ'], [['h', 'o', 'u', 'r']]), (['ŋ', 'w', 'i', 'i'], [['y', 'e', 'a', 'r']]), (['b', 'i', 'o'], [['o', 'c', 't', 'o', 'b', 'e', 'r']]), (['d', 'i', 'p'], [['s', 'e', 'p', 't', 'e', 'm', 'b', 'e', 'r']]), (['g', 'm', 't'], [['g', 'm', 't']]), (['h', 'i', 'k'], [['a', 'u', 'g', 'u', 's', 't']]), (['h', 'i', 'l'], [['j', 'u', 'n', 'e']]), (['j', 'o', 'n'], [['s', 'a', 't', 'u', 'r', 'd', 'a', 'y']]), (['k', 'ɔ', 'n'], [['j', 'a', 'n', 'u', 'a', 'r', 'y']]), (['k', 'ɔ', 'ɔ'], [['f', 'r', 'i', 'd', 'a', 'y']]), (['k', 'ɛ', 'l'], [['d', 'a', 'y']]), (['l', 'i', 'ɓ'], [['d', 'e', 'c', 'e', 'm', 'b', 'e', 'r']]), (['m', 'a', 'c'], [['f', 'e', 'b', 'r', 'u', 'a', 'r', 'y']]), (['m', 'a', 't'], [['m', 'a', 'r', 'c', 'h']]), (['m', 'a', 'y'], [['n', 'o', 'v', 'e', 'm', 'b', 'e', 'r']]), (['m', 'b', 'ɔ'], [['t', 'h', 'u', 'r', 's', 'd', 'a', 'y']]), (['m', 'p', 'u'], [['m', 'a', 'y']]), (['m', 't', 'o'], [['a', 'p', 'r', 'i', 'l']]), (['n', 'j', 'a'], [['m', 'o', 'n', 'd', 'a', 'y']]), (['n', 'j', 'e'], [['j', 'u', 'l', 'y']]), (['n', 'ɔ', 'y'], [['s', 'u', 'n', 'd', 'a', 'y']]), (['s', 'o', 'ŋ'], [['m', 'o', 'n', 't', 'h']]), (['u', 't', 'c'], [['u', 't', 'c']]), (['u', 'u', 'm'], [['t', 'u', 'e', 's', 'd', 'a', 'y']]), (['ŋ', 'g', 'e'], [['w', 'e', 'd', 'n', 'e', 's', 'd', 'a', 'y']]), (['a', 'm'], [['a', 'm']]), (['p', 'm'], [['p', 'm']]), ([' '], [[' ']]), (['\''], [[]]), (['+'], [['+']]), ([','], [[]]), (['-'], [['-']]), (['.'], [['.']]), (['/'], [['/']]), ([':'], [[':']]), ([';'], [[]]), (['@'], [[]]), (['['], [[]]), ([']'], [[]]), (['z'], [['z']]), (['|'], [[]])]
  relativeType := [(['t', 'h', 'i', 's', ' ', 'm', 'i', 'n', 'u', 't', 'e'], ['0', ' ', 'm', 'i', 'n', 'u', 't', 'e', ' ', 'a', 'g', 'o']), (['l', 'a', 's', 't', ' ', 'm', 'o', 'n', 't', 'h'], ['1', ' ', 'm', 'o', 'n', 't', 'h', ' ', 'a', 'g', 'o']), (['n', 'e', 'x', 't', ' ', 'm', 'o', 'n', 't', 'h'], ['i', 'n', ' ', '1', ' ', 'm', 'o', 'n', 't', 'h']), (['t', 'h', 'i', 's', ' ', 'm', 'o', 'n', 't', 'h'], ['0', ' ', 'm', 'o', 'n', 't', 'h', ' ', 'a', 'g', 'o']), (['l', 'a', 's', 't', ' ', 'w', 'e', 'e', 'k'], ['1', ' ', 'w', 'e', 'e', 'k', ' ', 'a', 'g', 'o']), (['l', 'a', 's', 't', ' ', 'y', 'e', 'a', 'r'], ['1', ' ', 'y', 'e', 'a', 'r', ' ', 'a', 'g', 'o']), (['n', 'e', 'x', 't', ' ', 'w', 'e', 'e', 'k'], ['i', 'n', ' ', '1', ' ', 'w', 'e', 'e', 'k']), (['n', 'e', 'x', 't', ' ', 'y', 'e', 'a', 'r'], ['i', 'n', ' ', '1', ' ', 'y', 'e', 'a', 'r']), (['t', 'h', 'i', 's', ' ', 'h', 'o', 'u', 'r'], ['0', ' ', 'h', 'o', 'u', 'r', ' ', 'a', 'g', 'o']), (['t', 'h', 'i', 's', ' ', 'w', 'e', 'e', 'k'], ['0', ' ', 'w', 'e', 'e', 'k', ' ', 'a', 'g', 'o']), (['t', 'h', 'i', 's', ' ', 'y', 'e', 'a', 'r'], ['0', ' ', 'y', 'e', 'a', 'r', ' ', 'a', 'g', 'o']), (['y', 'a', 'a', 'n', 'i'], ['1', ' ', 'd', 'a', 'y', ' ', 'a', 'g', 'o']), (['y', 'a', 'n', 'i'], ['i', 'n', ' ', '1', ' ', 'd', 'a', 'y']), (['l', 'ɛ', 'n'], ['0', ' ', 'd', 'a', 'y', ' ', 'a', 'g', 'o']), (['n', 'o', 'w'], ['0', ' ', 's', 'e', 'c', 'o', 'n', 'd', ' ', 'a', 'g', 'o'])]

/-- internal/data/be.go: `be_Locale`, dictionary. -/
def beDict : LangData where
  name := ['b', 'e']
  splitterGroup := 1
  translations := [(['к', 'а', 'с', 'т', 'р', 'ы', 'ч', 'н', 'і', 'к', 'а'], [['o', 'c', 't', 'o', 'b', 'e', 'r']]), (['к', 'а', 'с', 'т', 'р', 'ы', 'ч', 'н', 'і', 'к'], [['o', 'c', 't', 'o', 'b', 'e', 'r']]), (['н', 'а', ' ', 'п', 'р', 'а', 'ц', 'я', 'г', 'у'], [['i', 'n']]), (['п', 'а', 'н', 'я', 'д', 'з', 'е', 'л', 'а', 'к'], [['m', 'o', 'n', 'd', 'a', 'y']]), (['т', 'а', 'м', 'у', ' ', 'н', 'а', 'з', 'а', 'д'], [['a', 'g', 'o']]), (['к', 'р', 'а', 'с', 'а', 'в', 'і', 'к', 'а'], [['a', 'p', 'r', 'i', 'l']]), (['л', 'і', 'с', 'т', 'а', 'п', 'а', 'д', 'а'], [['n', 'o', 'v', 'e', 'm', 'b', 'e', 'r']]), (['в', 'е', 'р', 'а', 'с', 'е', 'н', 'ь'], [['s', 'e', 'p', 't', 'e', 'm', 'b', 'e', 'r']]), (['к', 'р', 'а', 'с', 'а', 'в', 'і', 'к'], [['a', 'p', 'r', 'i', 'l']]), (['л', 'і', 'с', 'т', 'а', 'п', 'а', 'д'], [['n', 'o', 'v', 'e', 'm', 'b', 'e', 'r']]), (['с', 'а', 'к', 'а', 'в', 'і', 'к', 'а'], [['m', 'a', 'r', 'c', 'h']]), (['с', 'т', 'у', 'д', 'з', 'е', 'н', 'ь'], [['j', 'a', 'n', 'u', 'a', 'r', 'y']]), (['с', 'т', 'у', 'д', 'з', 'е', 'н', 'я'], [['j', 'a', 'n', 'u', 'a', 'r', 'y']]), (['а', 'у', 'т', 'о', 'р', 'а', 'к'], [['t', 'u', 'e', 's', 'd', 'a', 'y']]), (['в', 'е', 'р', 'а', 'с', 'н', 'я'], [['s', 'e', 'p', 't', 'e', 'm', 'b', 'e', 'r']]), (['г', 'а', 'д', 'з', 'і', 'н', 'а'], [['h', 'o', 'u', 'r']]), (['г', 'а', 'д', 'з', 'і', 'н', 'у'], [['h', 'o', 'u', 'r']]), (['г', 'а', 'д', 'з', 'і', 'н', 'ы'], [['h', 'o', 'u', 'r']]), (['ж', 'н', 'і', 'в', 'е', 'н', 'ь'], [['a', 'u', 'g', 'u', 's', 't']]), (['ж', 'н', 'і', 'в', 'е', 'н', 'я'], [['a', 'u', 'g', 'u', 's', 't']]), (['м', 'е', 'с', 'я', 'ц', 'а', 'у'], [['m', 'o', 'n', 't', 'h']]), (['н', 'я', 'д', 'з', 'е', 'л', 'я'], [['s', 'u', 'n', 'd', 'a', 'y']]), (['п', 'я', 'т', 'н', 'і', 'ц', 'а'], [['f', 'r', 'i', 'd', 'a', 'y']]), (['с', 'а', 'к', 'а', 'в', 'і', 'к'], [['m', 'a', 'r', 'c', 'h']]), (['с', 'е', 'к', 'у', 'н', 'д', 'а'], [['s', 'e', 'c', 'o', 'n', 'd']]), (['с', 'е', 'к', 'у', 'н', 'д', 'у'], [['s', 'e', 'c', 'o', 'n', 'd']]), (['с', 'е', 'к', 'у', 'н', 'д', 'ы'], [['s', 'e', 'c', 'o', 'n', 'd']]), (['с', 'н', 'е', 'ж', 'а', 'н', 'ь'], [['d', 'e', 'c', 'e', 'm', 'b', 'e', 'r']]), (['т', 'ы', 'д', 'з', 'е', 'н', 'ь'], [['w', 'e', 'e', 'k']]), (['х', 'в', 'і', 'л', 'і', 'н', 'а'], [['m', 'i', 'n', 'u', 't', 'e']]), (['х', 'в', 'і', 'л', 'і', 'н', 'у'], [['m', 'i', 'n', 'u', 't', 'e']]), (['х', 'в', 'і', 'л', 'і', 'н', 'ы'], [['m', 'i', 'n', 'u', 't', 'e']]), (['ч', 'э', 'р', 'в', 'е', 'н', 'ь'], [['j', 'u', 'n', 'e']]), (['ч', 'э', 'р', 'в', 'е', 'н', 'я'], [['j', 'u', 'n', 'e']]), (['г', 'а', 'д', 'з', 'і', 'н'], [['h', 'o', 'u', 'r']]), (['ж', 'н', 'і', 'у', 'н', 'я'], [['a', 'u', 'g', 'u', 's', 't']]), (['л', 'ю', 'т', 'а', 'г', 'а'], [['f', 'e', 'b', 'r', 'u', 'a', 'r', 'y']]), (['л', 'і', 'п', 'е', 'н', 'ь'], [['j', 'u', 'l', 'y']]), (['л', 'і', 'п', 'е', 'н', 'я'], [['j', 'u', 'l', 'y']]), (['м', 'е', 'с', 'я', 'ц', 'а'], [['m', 'o', 'n', 't', 'h']]), (['м', 'е', 'с', 'я', 'ц', 'ы'], [['m', 'o', 'n', 't', 'h']]), (['с', 'е', 'к', 'у', 'н', 'д'], [['s', 'e', 'c', 'o', 'n', 'd']]), (['с', 'е', 'р', 'а', 'д', 'а'], [['w', 'e', 'd', 'n', 'e', 's', 'd', 'a', 'y']]), (['с', 'н', 'е', 'ж', 'н', 'я'], [['d', 'e', 'c', 'e', 'm', 'b', 'e', 'r']]), (['с', 'у', 'б', 'о', 'т', 'а'], [['s', 'a', 't', 'u', 'r', 'd', 'a', 'y']]), (['т', 'р', 'а', 'у', 'н', 'я'], [['m', 'a', 'y']]), (['т', 'ы', 'д', 'н', 'я', 'у'], [['w', 'e', 'e', 'k']]), (['х', 'в', 'і', 'л', 'і', 'н'], [['m', 'i', 'n', 'u', 't', 'e']]), (['ч', 'а', 'ц', 'в', 'е', 'р'], [['t', 'h', 'u', 'r', 's', 'd', 'a', 'y']]), (['г', 'а', 'д', 'о', 'у'], [['y', 'e', 'a', 'r']]), (['д', 'з', 'е', 'н', 'ь'], [['d', 'a', 'y']]), (['м', 'е', 'с', 'я', 'ц'], [['m', 'o', 'n', 't', 'h']]), (['н', 'а', 'з', 'а', 'д'], [['a', 'g', 'o']]), (['т', 'ы', 'д', 'н', 'я'], [['w', 'e', 'e', 'k']]), (['т', 'ы', 'д', 'н', 'і'], [['w', 'e', 'e', 'k']]), (['г', 'а', 'д', 'з'], [['h', 'o', 'u', 'r']]), (['г', 'а', 'д', 'ы'], [['y', 'e', 'a', 'r']]), (['г', 'о', 'д', 'а'], [['y', 'e', 'a', 'r']]), (['д', 'з', 'е', 'н'], [['d', 'a', 'y']]), (['к', 'а', 'л', 'я'], [[]]), (['л', 'ю', 'т', 'ы'], [['f', 'e', 'b', 'r', 'u', 'a', 'r', 'y']]), (['т', 'а', 'м', 'у'], [['a', 'g', 'o']]), (['х', 'в', 'і', 'л'], [['m', 'i', 'n', 'u', 't', 'e']]), (['g', 'm', 't'], [['g', 'm', 't']]), (['u', 't', 'c'], [['u', 't', 'c']]), (['а', 'у', 'т'], [['t', 'u', 'e', 's', 'd', 'a', 'y']]), (['в', 'е', 'р'], [['s', 'e', 'p', 't', 'e', 'm', 'b', 'e', 'r']]), (['в', 'р', 'с'], [['s', 'e', 'p', 't', 'e', 'm', 'b', 'e', 'r']]), (['г', 'о', 'д'], [['y', 'e', 'a', 'r']]), (['д', 'н', 'і'], [['d', 'a', 'y']]), (['ж', 'н', 'в'], [['a', 'u', 'g', 'u', 's', 't']]), (['ж', 'н', 'і'], [['a', 'u', 'g', 'u', 's', 't']]), (['к', 'а', 'с'], [['o', 'c', 't', 'o', 'b', 'e', 'r']]), (['к', 'р', 'а'], [['a', 'p', 'r', 'i', 'l']]), (['к', 'р', 'с'], [['a', 'p', 'r', 'i', 'l']]), (['к', 'с', 'т'], [['o', 'c', 't', 'o', 'b', 'e', 'r']]), (['л', 'ю', 'т'], [['f', 'e', 'b', 'r', 'u', 'a', 'r', 'y']]), (['л', 'і', 'п'], [['j', 'u', 'l', 'y']]), (['л', 'і', 'с'], [['n', 'o', 'v', 'e', 'm', 'b', 'e', 'r']]), (['м', 'а', 'и'], [['m', 'a', 'y']]), (['м', 'а', 'я'], [['m', 'a', 'y']]), (['м', 'е', 'с'], [['m', 'o', 'n', 't', 'h']]), (['н', 'я', 'д'], [['s', 'u', 'n', 'd', 'a', 'y']]), (['п', 'н', 'д'], [['m', 'o', 'n', 'd', 'a', 'y']]), (['п', 'я', 'т'], [['f', 'r', 'i', 'd', 'a', 'y']]), (['с', 'а', 'к'], [['m', 'a', 'r', 'c', 'h']]), (['с', 'е', 'к'], [['s', 'e', 'c', 'o', 'n', 'd']]), (['с', 'н', 'е'], [['d', 'e', 'c', 'e', 'm', 'b', 'e', 'r']]), (['с', 'н', 'ж'], [['d', 'e', 'c', 'e', 'm', 'b', 'e', 'r']]), (['с', 'т', 'д'], [['j', 'a', 'n', 'u', 'a', 'r', 'y']]), (['с', 'т', 'у'], [['j', 'a', 'n', 'u', 'a', 'r', 'y']]), (['с', 'у', 'б'], [['s', 'a', 't', 'u', 'r', 'd', 'a', 'y']]), (['т', 'р', 'а'], [['m', 'a', 'y']]), (['т', 'ы', 'д'], [['w', 'e', 'e', 'k']]), (['ч', 'ц', 'в'], [['t', 'h', 'u', 'r', 's', 'd', 'a', 'y']]), (['ч', 'э', 'р'], [['j', 'u', 'n', 'e']]), (['a', 'm'], [['a', 'm']]), (['p', 'm'], [['p', 'm']]), (['а', 'у'], [['t', 'u', 'e', 's', 'd', 'a', 'y']]), (['н', 'д'], [['s', 'u', 'n', 'd', 'a', 'y']]), (['п', 'н'], [['m', 'o', 'n', 'd', 'a', 'y']]), (['п', 'т'], [['f', 'r', 'i', 'd', 'a', 'y']]), (['с', 'б'], [['s', 'a', 't', 'u', 'r', 'd', 'a', 'y']]), (['с', 'р'], [['w', 'e', 'd', 'n', 'e', 's', 'd', 'a', 'y']]), (['х', 'в'], [['m', 'i', 'n', 'u', 't', 'e']]), (['ч', 'в'], [['t', 'h', 'u', 'r', 's', 'd', 'a', 'y']]), (['ч', 'ц'], [['t', 'h', 'u', 'r', 's', 'd', 'a', 'y']]), ([' '], [[' ']]), (['\''], [[]]), (['+'], [['+']]), ([','], [[]]), (['-'], [['-']]), (['.'], [['.']]), (['/'], [['/']]), ([':'], [[':']]), ([';'], [[]]), (['@'], [[]]), (['['], [[]]), ([']'], [[]]), (['z'], [['z']]), (['|'], [[]]), (['г'], [['y', 'e', 'a', 'r']]), (['д'], [['d', 'a', 'y']]), (['с'], [['s', 'e', 'c', 'o', 'n', 'd']]), (['у'], [[]]), (['і'], [[]])]
  relativeType := [(['н', 'а', ' ', 'н', 'а', 'с', 'т', 'у', 'п', 'н', 'ы', 'м', ' ', 'т', 'ы', 'д', 'н', 'і'], ['i', 'n', ' ', '1', ' ', 'w', 'e', 'e', 'k']), (['у', ' ', 'н', 'а', 'с', 'т', 'у', 'п', 'н', 'ы', 'м', ' ', 'м', 'е', 'с', 'я', 'ц', 'ы'], ['i', 'n', ' ', '1', ' ', 'm', 'o', 'n', 't', 'h']), (['у', ' ', 'н', 'а', 'с', 'т', 'у', 'п', 'н', 'ы', 'м', ' ', 'г', 'о', 'д', 'з', 'е'], ['i', 'n', ' ', '1', ' ', 'y', 'e', 'a', 'r']), (['н', 'а', ' ', 'м', 'і', 'н', 'у', 'л', 'ы', 'м', ' ', 'т', 'ы', 'д', 'н', 'і'], ['1', ' ', 'w', 'e', 'e', 'k', ' ', 'a', 'g', 'o']), (['у', ' ', 'м', 'і', 'н', 'у', 'л', 'ы', 'м', ' ', 'м', 'е', 'с', 'я', 'ц', 'ы'], ['1', ' ', 'm', 'o', 'n', 't', 'h', ' ', 'a', 'g', 'o']), (['у', ' ', 'м', 'і', 'н', 'у', 'л', 'ы', 'м', ' ', 'г', 'о', 'д', 'з', 'е'], ['1', ' ', 'y', 'e', 'a', 'r', ' ', 'a', 'g', 'o']), (['н', 'а', ' ', 'г', 'э', 'т', 'ы', 'м', ' ', 'т', 'ы', 'д', 'н', 'і'], ['0', ' ', 'w', 'e', 'e', 'k', ' ', 'a', 'g', 'o']), (['у', ' ', 'г', 'э', 'т', 'у', ' ', 'г', 'а', 'д', 'з', 'і', 'н', 'у'], ['0', ' ', 'h', 'o', 'u', 'r', ' ', 'a', 'g', 'o']), (['у', ' ', 'г', 'э', 'т', 'у', ' ', 'х', 'в', 'і', 'л', 'і', 'н', 'у'], ['0', ' ', 'm', 'i', 'n', 'u', 't', 'e', ' ', 'a', 'g', 'o']), (['у', ' ', 'г', 'э', 'т', 'ы', 'м', ' ', 'м', 'е', 'с', 'я', 'ц', 'ы'], ['0', ' ', 'm', 'o', 'n', 't', 'h', ' ', 'a', 'g', 'o']), (['у', ' ', 'г', 'э', 'т', 'ы', 'м', ' ', 'г', 'о', 'д', 'з', 'е'], ['0', ' ', 'y', 'e', 'a', 'r', ' ', 'a', 'g', 'o']), (['п', 'а', 'з', 'а', 'у', 'ч', 'о', 'р', 'а'], ['2', ' ', 'd', 'a', 'y', ' ', 'a', 'g', 'o']), (['з', 'а', 'у', 'т', 'р', 'а'], ['i', 'n', ' ', '1', ' ', 'd', 'a', 'y']), (['с', 'е', 'н', 'н', 'я'], ['0', ' ', 'd', 'a', 'y', ' ', 'a', 'g', 'o']), (['у', 'ч', 'о', 'р', 'а'], ['1', ' ', 'd', 'a', 'y', ' ', 'a', 'g', 'o']), (['ц', 'я', 'п', 'е', 'р'], ['0', ' ', 's', 'e', 'c', 'o', 'n', 'd', ' ', 'a', 'g', 'o'])]

/-- internal/data/bem.go: `bem_Locale`, dictionary. -/
def bemDict : LangData where
  name := ['b', 'e', 'm']
  translations := [(['p', 'a', 'c', 'h', 'i', 'b', 'e', 'l', 'u', 's', 'h', 'i'], [['s', 'a', 't', 'u', 'r', 'd', 'a', 'y']]), (['p', 'a', 'l', 'i', 'c', 'h', 'i', 'b', 'u', 'l', 'i'], [['t', 'u', 'e', 's', 'd', 'a', 'y']]), (['p', 'a', 'l', 'i', 'c', 'h', 'i', 's', 'a', 'n', 'o'], [['f', 'r', 'i', 'd', 'a', 'y']]), (['p', 'a', 'l', 'i', 'c', 'h', 'i', 't', 'a', 't', 'u'], [['w', 'e', 'd', 'n', 'e', 's', 'd', 'a', 'y']]), (['p', 'a', ' ', 'm', 'u', 'l', 'u', 'n', 'g', 'u'], [['s', 'u', 'n', 'd', 'a', 'y']]), (['p', 'a', 'l', 'i', 'c', 'h', 'i', 'm', 'o'], [['m', 'o', 'n', 'd', 'a', 'y']]), (['p', 'a', 'l', 'i', 'c', 'h', 'i', 'n', 'e'], [['t', 'h', 'u', 'r', 's', 'd', 'a', 'y']]), (['f', 'e', 'b', 'r', 'u', 'a', 'r', 'i'], [['f', 'e', 'b', 'r', 'u', 'a', 'r', 'y']]), (['s', 'e', 'p', 't', 'e', 'm', 'b', 'a'], [['s', 'e', 'p', 't', 'e', 'm', 'b', 'e', 'r']]), (['u', 'b', 'u', 's', 'h', 'i', 'k', 'u'], [['d', 'a', 'y']]), (['u', 'l', 'u', 'c', 'h', 'e', 'l', 'o'], [['a', 'm']]), (['u', 'm', 'u', 'l', 'u', 'n', 'g', 'u'], [['w', 'e', 'e', 'k']]), (['a', 'k', 'a', 's', 'u', 'b', 'a'], [['p', 'm']]), (['d', 'i', 's', 'e', 'm', 'b', 'a'], [['d', 'e', 'c', 'e', 'm', 'b', 'e', 'r']]), (['j', 'a', 'n', 'u', 'a', 'r', 'i'], [['j', 'a', 'n', 'u', 'a', 'r', 'y']]), (['n', 'o', 'v', 'e', 'm', 'b', 'a'], [['n', 'o', 'v', 'e', 'm', 'b', 'e', 'r']]), (['s', 'e', 'k', 'o', 'n', 'd', 'i'], [['s', 'e', 'c', 'o', 'n', 'd']]), (['u', 'm', 'w', 'e', 's', 'h', 'i'], [['m', 'o', 'n', 't', 'h']]), (['m', 'i', 'n', 'e', 't', 'i'], [['m', 'i', 'n', 'u', 't', 'e']]), (['o', 'g', 'a', 's', 't', 'i'], [['a', 'u', 'g', 'u', 's', 't']]), (['o', 'k', 't', 'o', 'b', 'a'], [['o', 'c', 't', 'o', 'b', 'e', 'r']]), (['u', 'm', 'w', 'a', 'k', 'a'], [['y', 'e', 'a', 'r']]), (['e', 'p', 'r', 'e', 'o'], [['a', 'p', 'r', 'i', 'l']]), (['j', 'u', 'l', 'a', 'i'], [['j', 'u', 'l', 'y']]), (['m', 'a', 'c', 'h', 'i'], [['m', 'a', 'r', 'c', 'h']]), (['i', 'n', 's', 'a'], [['h', 'o', 'u', 'r']]), (['j', 'u', 'n', 'i'], [['j', 'u', 'n', 'e']]), (['d', 'i', 's'], [['d', 'e', 'c', 'e', 'm', 'b', 'e', 'r']]), (['e', 'p', 'r'], [['a', 'p', 'r', 'i', 'l']]), (['f', 'e', 'b'], [['f', 'e', 'b', 'r', 'u', 'a', 'r', 'y']]), (['g', 'm', 't'], [['g', 'm', 't']]), (['j', 'a', 'n'], [['j', 'a', 'n', 'u', 'a', 'r', 'y']]), (['j', 'u', 'l'], [['j', 'u', 'l', 'y']]), (['j', 'u', 'n'], [['j', 'u', 'n', 'e']]), (['m', 'a', 'c'], [['m', 'a', 'r', 'c', 'h']]), (['m', 'e', 'i'], [['m', 'a', 'y']]), (['n', 'o', 'v'], [['n', 'o', 'v', 'e', 'm', 'b', 'e', 'r']]), (['o', 'g', 'a'], [['a', 'u', 'g', 'u', 's', 't']]), (['o', 'k', 't'], [['o', 'c', 't', 'o', 'b', 'e', 'r']]), (['s', 'e', 'p'], [['s', 'e', 'p', 't', 'e', 'm', 'b', 'e', 'r']]), (['u', 't', 'c'], [['u', 't', 'c']]), (['a', 'm'], [['a', 'm']]), (['p', 'm'], [['p', 'm']]), ([' '], [[' ']]), (['\''], [[]]), (['+'], [['+']]), ([','], [[]]), (['-'], [['-']]), (['.'], [['.']]), (['/'], [['/']]), ([':'], [[':']]), ([';'], [[]]), (['@'], [[]]), (['['], [[]]), ([']'], [[]]), (['z'], [['z']]), (['|'], [[]])]
  relativeType := [(['t', 'h', 'i', 's', ' ', 'm', 'i', 'n', 'u', 't', 'e'], ['0', ' ', 'm', 'i', 'n', 'u', 't', 'e', ' ', 'a', 'g', 'o']), (['l', 'a', 's', 't', ' ', 'm', 'o', 'n', 't', 'h'], ['1', ' ', 'm', 'o', 'n', 't', 'h', ' ', 'a', 'g', 'o']), (['n', 'e', 'x', 't', ' ', 'm', 'o', 'n', 't', 'h'], ['i', 'n', ' ', '1', ' ', 'm', 'o', 'n', 't', 'h']), (['t', 'h', 'i', 's', ' ', 'm', 'o', 'n', 't', 'h'], ['0', ' ', 'm', 'o', 'n', 't', 'h', ' ', 'a', 'g', 'o']), (['l', 'a', 's', 't', ' ', 'w', 'e', 'e', 'k'], ['1', ' ', 'w', 'e', 'e', 'k', ' ', 'a', 'g', 'o']), (['l', 'a', 's', 't', ' ', 'y', 'e', 'a', 'r'], ['1', ' ', 'y', 'e', 'a', 'r', ' ', 'a', 'g', 'o']), (['n', 'e', 'x', 't', ' ', 'w', 'e', 'e', 'k'], ['i', 'n', ' ', '1', ' ', 'w', 'e', 'e', 'k']), (['n', 'e', 'x', 't', ' ', 'y', 'e', 'a', 'r'], ['i', 'n', ' ', '1', ' ', 'y', 'e', 'a', 'r']), (['t', 'h', 'i', 's', ' ', 'h', 'o', 'u', 'r'], ['0', ' ', 'h', 'o', 'u', 'r', ' ', 'a', 'g', 'o']), (['t', 'h', 'i', 's', ' ', 'w', 'e', 'e', 'k'], ['0', ' ', 'w', 'e', 'e', 'k', ' ', 'a', 'g', 'o']), (['t', 'h', 'i', 's', ' ', 'y', 'e', 'a', 'r'], ['0', ' ', 'y', 'e', 'a', 'r', ' ', 'a', 'g', 'o']), (['y', 'e', 's', 't', 'e', 'r', 'd', 'a', 'y'], ['1', ' ', 'd', 'a', 'y', ' ', 'a', 'g', 'o']), (['t', 'o', 'm', 'o', 'r', 'r', 'o', 'w'], ['i', 'n', ' ', '1', ' ', 'd', 'a', 'y']), (['l', 'e', 'l', 'o'], ['0', ' ', 'd', 'a', 'y', ' ', 'a', 'g', 'o']), (['n', 'o', 'w'], ['0', ' ', 's', 'e', 'c', 'o', 'n', 'd', ' ', 'a', 'g', 'o'])]

/-- internal/data/bez.go: `bez_Locale`, dictionary. -/
def bezDict : LangData where
  name := ['b', 'e', 'z']
  translations := [(['p', 'a', ' ', 'm', 'w', 'e', 'd', 'z', 'i', ' ', 'g', 'w', 'a', ' ', 'k', 'u', 'm', 'i', ' ', 'n', 'a', ' ', 'm', 'b', 'i', 'l', 'i'], [['d', 'e', 'c', 'e', 'm', 'b', 'e', 'r']]), (['p', 'a', ' ', 'm', 'w', 'e', 'd', 'z', 'i', ' ', 'g', 'w', 'a', ' ', 'k', 'u', 'm', 'i', ' ', 'n', 'a', ' ', 'm', 'o', 'j', 'a'], [['n', 'o', 'v', 'e', 'm', 'b', 'e', 'r']]), (['p', 'a', ' ', 'm', 'w', 'e', 'd', 'z', 'i', ' ', 'g', 'w', 'a', ' ', 'h', 'u', 't', 'a', 'l', 'a'], [['j', 'a', 'n', 'u', 'a', 'r', 'y']]), (['p', 'a', ' ', 'm', 'w', 'e', 'd', 'z', 'i', ' ', 'g', 'w', 'a', ' ', 'w', 'u', 'd', 'a', 't', 'u'], [['m', 'a', 'r', 'c', 'h']]), (['p', 'a', ' ', 'm', 'w', 'e', 'd', 'z', 'i', ' ', 'g', 'w', 'a', ' ', 'w', 'u', 'h', 'a', 'n', 'u'], [['m', 'a', 'y']]), (['p', 'a', ' ', 'm', 'w', 'e', 'd', 'z', 'i', ' ', 'g', 'w', 'a', ' ', 'w', 'u', 'v', 'i', 'l', 'i'], [['f', 'e', 'b', 'r', 'u', 'a', 'r', 'y']]), (['p', 'a', ' ', 'm', 'w', 'e', 'd', 'z', 'i', ' ', 'g', 'w', 'a', ' ', 'w', 'u', 't', 'a', 'i'], [['a', 'p', 'r', 'i', 'l']]), (['p', 'a', ' ', 'm', 'w', 'e', 'd', 'z', 'i', ' ', 'g', 'w', 'a', ' ', 'k', 'u', 'm', 'i'], [['o', 'c', 't', 'o', 'b', 'e', 'r']]), (['p', 'a', ' ', 'm', 'w', 'e', 'd', 'z', 'i', ' ', 'g', 'w', 'a', ' ', 'n', 'a', 'n', 'e'], [['a', 'u', 'g', 'u', 's', 't']]), (['p', 'a', ' ', 'm', 'w', 'e', 'd', 'z', 'i', ' ', 'g', 'w', 'a', ' ', 's', 'a', 'b', 'a'], [['j', 'u', 'l', 'y']]), (['p', 'a', ' ', 'm', 'w', 'e', 'd', 'z', 'i', ' ', 'g', 'w', 'a', ' ', 's', 'i', 't', 'a'], [['j', 'u', 'n', 'e']]), (['p', 'a', ' ', 'm', 'w', 'e', 'd', 'z', 'i', ' ', 'g', 'w', 'a', ' ', 't', 'i', 's', 'a'], [['s', 'e', 'p', 't', 'e', 'm', 'b', 'e', 'r']]), (['p', 'a', ' ', 's', 'h', 'a', 'h', 'u', 'l', 'e', 'm', 'b', 'e', 'l', 'a'], [['s', 'a', 't', 'u', 'r', 'd', 'a', 'y']]), (['m', 'l', 'u', 'n', 'g', 'u', ' ', 'g', 'u', 'm', 'a', 'm', 'f', 'u'], [['w', 'e', 'e', 'k']]), (['p', 'a', ' ', 's', 'h', 'a', 'h', 'u', 'v', 'i', 'l', 'u', 'h', 'a'], [['m', 'o', 'n', 'd', 'a', 'y']]), (['p', 'a', ' ', 'm', 'u', 'l', 'u', 'n', 'g', 'u'], [['s', 'u', 'n', 'd', 'a', 'y']]), (['p', 'a', ' ', 'h', 'i', 'd', 'a', 't', 'u'], [['w', 'e', 'd', 'n', 'e', 's', 'd', 'a', 'y']]), (['p', 'a', ' ', 'h', 'i', 'h', 'a', 'n', 'u'], [['f', 'r', 'i', 'd', 'a', 'y']]), (['p', 'a', ' ', 'h', 'i', 't', 'a', 'y', 'i'], [['t', 'h', 'u', 'r', 's', 'd', 'a', 'y']]), (['p', 'a', ' ', 'h', 'i', 'v', 'i', 'l', 'i'], [['t', 'u', 'e', 's', 'd', 'a', 'y']]), (['p', 'a', 'm', 'i', 'l', 'a', 'u'], [['a', 'm']]), (['p', 'a', 'm', 'u', 'n', 'y', 'i'], [['p', 'm']]), (['s', 'e', 'k', 'u', 'n', 'd', 'e'], [['s', 'e', 'c', 'o', 'n', 'd']]), (['d', 'a', 'k', 'i', 'k', 'a'], [['m', 'i', 'n', 'u', 't', 'e']]), (['m', 'w', 'e', 'd', 'z', 'i'], [['m', 'o', 'n', 't', 'h']]), (['m', 'w', 'a', 'h', 'a'], [['y', 'e', 'a', 'r']]), (['s', 'i', 'h', 'u'], [['d', 'a', 'y']]), (['d', 'a', 't'], [['m', 'a', 'r', 'c', 'h']]), (['g', 'm', 't'], [['g', 'm', 't']]), (['h', 'a', 'n'], [['m', 'a', 'y']]), (['h', 'i', 'd'], [['w', 'e', 'd', 'n', 'e', 's', 'd', 'a', 'y']]), (['h', 'i', 'h'], [['f', 'r', 'i', 'd', 'a', 'y']]), (['h', 'i', 't'], [['t', 'h', 'u', 'r', 's', 'd', 'a', 'y']]), (['h', 'i', 'v'], [['t', 'u', 'e', 's', 'd', 'a', 'y']]), (['h', 'u', 't'], [['j', 'a', 'n', 'u', 'a', 'r', 'y']]), (['k', 'm', 'b'], [['d', 'e', 'c', 'e', 'm', 'b', 'e', 'r']]), (['k', 'm', 'j'], [['n', 'o', 'v', 'e', 'm', 'b', 'e', 'r']]), (['k', 'u', 'm'], [['o', 'c', 't', 'o', 'b', 'e', 'r']]), (['l', 'e', 'm'], [['s', 'a', 't', 'u', 'r', 'd', 'a', 'y']]), (['m', 'u', 'l'], [['s', 'u', 'n', 'd', 'a', 'y']]), (['n', 'a', 'n'], [['a', 'u', 'g', 'u', 's', 't']]), (['s', 'a', 'a'], [['h', 'o', 'u', 'r']]), (['s', 'a', 'b'], [['j', 'u', 'l', 'y']]), (['s', 'i', 't'], [['j', 'u', 'n', 'e']]), (['t', 'a', 'i'], [['a', 'p', 'r', 'i', 'l']]), (['t', 'i', 's'], [['s', 'e', 'p', 't', 'e', 'm', 'b', 'e', 'r']]), (['u', 't', 'c'], [['u', 't', 'c']]), (['v', 'i', 'l'], [['m', 'o', 'n', 'd', 'a', 'y'], ['f', 'e', 'b', 'r', 'u', 'a', 'r', 'y']]), (['a', 'm'], [['a', 'm']]), (['p', 'm'], [['p', 'm']]), ([' '], [[' ']]), (['\''], [[]]), (['+'], [['+']]), ([','], [[]]), (['-'], [['-']]), (['.'], [['.']]), (['/'], [['/']]), ([':'], [[':']]), ([';'], [[]]), (['@'], [[]]), (['['], [[]]), ([']'], [[]]), (['z'], [['z']]), (['|'], [[]])]
  relativeType := [(['t', 'h', 'i', 's', ' ', 'm', 'i', 'n', 'u', 't', 'e'], ['0', ' ', 'm', 'i', 'n', 'u', 't', 'e', ' ', 'a', 'g', 'o']), (['l', 'a', 's', 't', ' ', 'm', 'o', 'n', 't', 'h'], ['1', ' ', 'm', 'o', 'n', 't', 'h', ' ', 'a', 'g', 'o']), (['n', 'e', 'x', 't', ' ', 'm', 'o', 'n', 't', 'h'], ['i', 'n', ' ', '1', ' ', 'm', 'o', 'n', 't', 'h']), (['t', 'h', 'i', 's', ' ', 'm', 'o', 'n', 't', 'h'], ['0', ' ', 'm', 'o', 'n', 't', 'h', ' ', 'a', 'g', 'o']), (['l', 'a', 's', 't', ' ', 'w', 'e', 'e', 'k'], ['1', ' ', 'w', 'e', 'e', 'k', ' ', 'a', 'g', 'o']), (['l', 'a', 's', 't', ' ', 'y', 'e', 'a', 'r'], ['1', ' ', 'y', 'e', 'a', 'r', ' ', 'a', 'g', 'o']), (['n', 'e', 'n', 'g', '\'', 'u', ' ', 'n', 'i'], ['0', ' ', 'd', 'a', 'y', ' ', 'a', 'g', 'o']), (['n', 'e', 'x', 't', ' ', 'w', 'e', 'e', 'k'], ['i', 'n', ' ', '1', ' ', 'w', 'e', 'e', 'k']), (['n', 'e', 'x', 't', ' ', 'y', 'e', 'a', 'r'], ['i', 'n', ' ', '1', ' ', 'y', 'e', 'a', 'r']), (['t', 'h', 'i', 's', ' ', 'h', 'o', 'u', 'r'], ['0', ' ', 'h', 'o', 'u', 'r', ' ', 'a', 'g', 'o']), (['t', 'h', 'i', 's', ' ', 'w', 'e', 'e', 'k'], ['0', ' ', 'w', 'e', 'e', 'k', ' ', 'a', 'g', 'o']), (['t', 'h', 'i', 's', ' ', 'y', 'e', 'a', 'r'], ['0', ' ', 'y', 'e', 'a', 'r', ' ', 'a', 'g', 'o']), (['h', 'i', 'l', 'a', 'w', 'u'], ['i', 'n', ' ', '1', ' ', 'd', 'a', 'y']), (['i', 'g', 'o', 'l', 'o'], ['1', ' ', 'd', 'a', 'y', ' ', 'a', 'g', 'o']), (['n', 'o', 'w'], ['0', ' ', 's', 'e', 'c', 'o', 'n', 'd', ' ', 'a', 'g', 'o'])]

/-- internal/data/bg.go: `bg_Locale`, dictionary. -/
def bgDict : LangData where
  name := ['b', 'g']
  splitterGroup := 1
  translations := [(['п', 'о', 'н', 'е', 'д', 'е', 'л', 'н', 'и', 'к'], [['m', 'o', 'n', 'd', 'a', 'y']]), (['с', 'е', 'п', 'т', 'е', 'м', 'в', 'р', 'и'], [['s', 'e', 'p', 't', 'e', 'm', 'b', 'e', 'r']]), (['ч', 'е', 'т', 'в', 'ъ', 'р', 'т', 'ъ', 'к'], [['t', 'h', 'u', 'r', 's', 'd', 'a', 'y']]), (['д', 'е', 'к', 'е', 'м', 'в', 'р', 'и'], [['d', 'e', 'c', 'e', 'm', 'b', 'e', 'r']]), (['о', 'к', 'т', 'о', 'м', 'в', 'р', 'и'], [['o', 'c', 't', 'o', 'b', 'e', 'r']]), (['ф', 'е', 'в', 'р', 'у', 'а', 'р', 'и'], [['f', 'e', 'b', 'r', 'u', 'a', 'r', 'y']]), (['в', 'т', 'о', 'р', 'н', 'и', 'к'], [['t', 'u', 'e', 's', 'd', 'a', 'y']]), (['н', 'о', 'е', 'м', 'в', 'р', 'и'], [['n', 'o', 'v', 'e', 'm', 'b', 'e', 'r']]), (['с', 'е', 'д', 'м', 'и', 'ц', 'а'], [['w', 'e', 'e', 'k']]), (['с', 'е', 'д', 'м', 'и', 'ц', 'и'], [['w', 'e', 'e', 'k']]), (['с', 'е', 'к', 'у', 'н', 'д', 'а'], [['s', 'e', 'c', 'o', 'n', 'd']]), (['с', 'е', 'к', 'у', 'н', 'д', 'и'], [['s', 'e', 'c', 'o', 'n', 'd']]), (['а', 'в', 'г', 'у', 'с', 'т'], [['a', 'u', 'g', 'u', 's', 't']]), (['г', 'о', 'д', 'и', 'н', 'а'], [['y', 'e', 'a', 'r']]), (['г', 'о', 'д', 'и', 'н', 'и'], [['y', 'e', 'a', 'r']]), (['м', 'е', 'с', 'е', 'ц', 'и'], [['m', 'o', 'n', 't', 'h']]), (['м', 'и', 'н', 'у', 'т', 'а'], [['m', 'i', 'n', 'u', 't', 'e']]), (['м', 'и', 'н', 'у', 'т', 'и'], [['m', 'i', 'n', 'u', 't', 'e']]), (['н', 'е', 'д', 'е', 'л', 'я'], [['s', 'u', 'n', 'd', 'a', 'y']]), (['с', 'ъ', 'б', 'о', 'т', 'а'], [['s', 'a', 't', 'u', 'r', 'd', 'a', 'y']]), (['я', 'н', 'у', 'а', 'р', 'и'], [['j', 'a', 'n', 'u', 'a', 'r', 'y']]), (['а', 'п', 'р', 'и', 'л'], [['a', 'p', 'r', 'i', 'l']]), (['в', 'ъ', 'р', 'х', 'у'], [[]]), (['м', 'е', 'с', 'е', 'ц'], [['m', 'o', 'n', 't', 'h']]), (['о', 'к', 'о', 'л', 'о'], [[]]), (['п', 'е', 'т', 'ъ', 'к'], [['f', 'r', 'i', 'd', 'a', 'y']]), (['п', 'о', 'д', 'и', 'р'], [['i', 'n']]), (['п', 'о', 'с', 'л', 'е'], [['i', 'n']]), (['п', 'р', 'е', 'д', 'и'], [['a', 'g', 'o']]), (['с', 'е', 'п', 'т', 'м'], [['s', 'e', 'p', 't', 'e', 'm', 'b', 'e', 'r']]), (['с', 'р', 'я', 'д', 'а'], [['w', 'e', 'd', 'n', 'e', 's', 'd', 'a', 'y']]), (['д', 'е', 'н', 'а'], [['d', 'a', 'y']]), (['м', 'а', 'р', 'т'], [['m', 'a', 'r', 'c', 'h']]), (['п', 'р', 'о', 'б'], [['a', 'm']]), (['с', 'е', 'д', 'м'], [['w', 'e', 'e', 'k']]), (['с', 'е', 'п', 'т'], [['s', 'e', 'p', 't', 'e', 'm', 'b', 'e', 'r']]), (['с', 'л', 'е', 'д'], [['i', 'n']]), (['с', 'л', 'о', 'б'], [['p', 'm']]), (['ч', 'а', 'с', 'а'], [['h', 'o', 'u', 'r']]), (['g', 'm', 't'], [['g', 'm', 't']]), (['u', 't', 'c'], [['u', 't', 'c']]), (['а', 'в', 'г'], [['a', 'u', 'g', 'u', 's', 't']]), (['а', 'п', 'р'], [['a', 'p', 'r', 'i', 'l']]), (['в', 'т', 'о'], [['t', 'u', 'e', 's', 'd', 'a', 'y']]), (['г', 'о', 'д'], [['y', 'e', 'a', 'r']]), (['д', 'е', 'к'], [['d', 'e', 'c', 'e', 'm', 'b', 'e', 'r']]), (['д', 'е', 'н'], [['d', 'a', 'y']]), (['д', 'н', 'и'], [['d', 'a', 'y']]), (['м', 'а', 'и'], [['m', 'a', 'y']]), (['м', 'е', 'с'], [['m', 'o', 'n', 't', 'h']]), (['м', 'и', 'н'], [['m', 'i', 'n', 'u', 't', 'e']]), (['н', 'о', 'е'], [['n', 'o', 'v', 'e', 'm', 'b', 'e', 'r']]), (['о', 'к', 'т'], [['o', 'c', 't', 'o', 'b', 'e', 'r']]), (['п', 'о', 'д'], [[]]), (['п', 'о', 'н'], [['m', 'o', 'n', 'd', 'a', 'y']]), (['с', 'е', 'д'], [['w', 'e', 'e', 'k']]), (['с', 'е', 'к'], [['s', 'e', 'c', 'o', 'n', 'd']]), (['с', 'е', 'п'], [['s', 'e', 'p', 't', 'e', 'm', 'b', 'e', 'r']]), (['с', 'р', 'я'], [['w', 'e', 'd', 'n', 'e', 's', 'd', 'a', 'y']]), (['ф', 'е', 'в'], [['f', 'e', 'b', 'r', 'u', 'a', 'r', 'y']]), (['ч', 'а', 'с'], [['h', 'o', 'u', 'r']]), (['ю', 'л', 'и'], [['j', 'u', 'l', 'y']]), (['ю', 'н', 'и'], [['j', 'u', 'n', 'e']]), (['я', 'н', 'у'], [['j', 'a', 'n', 'u', 'a', 'r', 'y']]), (['a', 'm'], [['a', 'm']]), (['p', 'm'], [['p', 'm']]), (['а', 'п'], [['a', 'p', 'r', 'i', 'l']]), (['в', 'т'], [['t', 'u', 'e', 's', 'd', 'a', 'y']]), (['д', 'о'], [[]]), (['н', 'а'], [[]]), (['н', 'д'], [['s', 'u', 'n', 'd', 'a', 'y']]), (['о', 'т'], [[]]), (['п', 'н'], [['m', 'o', 'n', 'd', 'a', 'y']]), (['п', 'т'], [['f', 'r', 'i', 'd', 'a', 'y']]), (['с', 'б'], [['s', 'a', 't', 'u', 'r', 'd', 'a', 'y']]), (['с', 'р'], [['w', 'e', 'd', 'n', 'e', 's', 'd', 'a', 'y']]), (['ф', 'в'], [['f', 'e', 'b', 'r', 'u', 'a', 'r', 'y']]), (['ч', 'т'], [['t', 'h', 'u', 'r', 's', 'd', 'a', 'y']]), (['ю', 'л'], [['j', 'u', 'l', 'y']]), (['ю', 'н'], [['j', 'u', 'n', 'e']]), (['я', 'н'], [['j', 'a', 'n', 'u', 'a', 'r', 'y']]), ([' '], [[' ']]), (['\''], [[]]), (['+'], [['+']]), ([','], [[]]), (['-'], [['-']]), (['.'], [['.']]), (['/'], [['/']]), ([':'], [[':']]), ([';'], [[]]), (['@'], [[]]), (['['], [[]]), ([']'], [[]]), (['z'], [['z']]), (['|'], [[]]), (['г'], [['y', 'e', 'a', 'r']]), (['д'], [['d', 'a', 'y']]), (['м'], [['m', 'o', 'n', 't', 'h']]), (['с'], [['w', 'e', 'e', 'k'], ['s', 'e', 'c', 'o', 'n', 'd']]), (['ч'], [['h', 'o', 'u', 'r']])]
  relativeType := [(['п', 'р', 'е', 'д', 'х', 'о', 'д', 'н', 'а', 'т', 'а', ' ', 'с', 'е', 'д', 'м', 'и', 'ц', 'а'], ['1', ' ', 'w', 'e', 'e', 'k', ' ', 'a', 'g', 'o']), (['с', 'л', 'е', 'д', ' ', '1', ' ', 'д', 'е', 'с', 'е', 'т', 'и', 'л', 'е', 'т', 'и', 'е'], ['i', 'n', ' ', '1', '0', ' ', 'y', 'e', 'a', 'r']), (['с', 'л', 'е', 'д', 'в', 'а', 'щ', 'а', 'т', 'а', ' ', 'с', 'е', 'д', 'м', 'и', 'ц', 'а'], ['i', 'n', ' ', '1', ' ', 'w', 'e', 'e', 'k']), (['п', 'р', 'е', 'д', 'и', ' ', 'д', 'е', 'с', 'е', 'т', 'и', 'л', 'е', 'т', 'и', 'е'], ['1', '0', ' ', 'y', 'e', 'a', 'r', ' ', 'a', 'g', 'o']), (['с', 'л', 'е', 'д', 'в', 'а', 'щ', 'а', 'т', 'а', ' ', 'г', 'о', 'д', 'и', 'н', 'а'], ['i', 'n', ' ', '1', ' ', 'y', 'e', 'a', 'r']), (['м', 'и', 'н', 'а', 'л', 'а', 'т', 'а', ' ', 'с', 'е', 'д', 'м', 'и', 'ц', 'а'], ['1', ' ', 'w', 'e', 'e', 'k', ' ', 'a', 'g', 'o']), (['м', 'и', 'н', 'а', 'л', 'а', 'т', 'а', ' ', 'г', 'о', 'д', 'и', 'н', 'а'], ['1', ' ', 'y', 'e', 'a', 'r', ' ', 'a', 'g', 'o']), (['п', 'р', 'е', 'д', 'х', 'о', 'д', 'е', 'н', ' ', 'м', 'е', 'с', 'е', 'ц'], ['1', ' ', 'm', 'o', 'n', 't', 'h', ' ', 'a', 'g', 'o']), (['в', ' ', 'т', 'а', 'з', 'и', ' ', 'м', 'и', 'н', 'у', 'т', 'а'], ['0', ' ', 'm', 'i', 'n', 'u', 't', 'e', ' ', 'a', 'g', 'o']), (['п', 'р', 'е', 'д', 'и', ' ', 'с', 'е', 'д', 'м', 'и', 'ц', 'а'], ['1', ' ', 'w', 'e', 'e', 'k', ' ', 'a', 'g', 'o']), (['с', 'л', 'е', 'д', 'в', 'а', 'щ', ' ', 'м', 'е', 'с', 'е', 'ц'], ['i', 'n', ' ', '1', ' ', 'm', 'o', 'n', 't', 'h']), (['п', 'р', 'е', 'д', 'и', ' ', 'г', 'о', 'д', 'и', 'н', 'а'], ['1', ' ', 'y', 'e', 'a', 'r', ' ', 'a', 'g', 'o']), (['т', 'а', 'з', 'и', ' ', 'с', 'е', 'д', 'м', 'и', 'ц', 'а'], ['0', ' ', 'w', 'e', 'e', 'k', ' ', 'a', 'g', 'o']), (['т', 'а', 'з', 'и', ' ', 'г', 'о', 'д', 'и', 'н', 'а'], ['0', ' ', 'y', 'e', 'a', 'r', ' ', 'a', 'g', 'o']), (['в', ' ', 'т', 'о', 'з', 'и', ' ', 'ч', 'а', 'с'], ['0', ' ', 'h', 'o', 'u', 'r', ' ', 'a', 'g', 'o']), (['с', 'л', 'е', 'д', 'в', ' ', 'с', 'е', 'д', 'м'], ['i', 'n', ' ', '1', ' ', 'w', 'e', 'e', 'k']), (['т', 'о', 'з', 'и', ' ', 'м', 'е', 'с', 'е', 'ц'], ['0', ' ', 'm', 'o', 'n', 't', 'h', ' ', 'a', 'g', 'o']), (['в', 'д', 'р', 'у', 'г', 'и', 'д', 'е', 'н'], ['i', 'n', ' ', '2', ' ', 'd', 'a', 'y']), (['п', 'р', 'е', 'д', 'и', ' ', 'д', 'е', 'н'], ['1', ' ', 'd', 'a', 'y', ' ', 'a', 'g', 'o']), (['п', 'р', 'е', 'д', 'и', ' ', 'ч', 'а', 'с'], ['1', ' ', 'h', 'o', 'u', 'r', ' ', 'a', 'g', 'o']), (['с', 'л', 'е', 'д', 'в', ' ', 'м', 'е', 'с'], ['i', 'n', ' ', '1', ' ', 'm', 'o', 'n', 't', 'h']), (['т', 'а', 'з', 'и', ' ', 'с', 'е', 'д', 'м'], ['0', ' ', 'w', 'e', 'e', 'k', ' ', 'a', 'g', 'o']), (['м', 'и', 'н', ' ', 'с', 'е', 'д', 'м'], ['1', ' ', 'w', 'e', 'e', 'k', ' ', 'a', 'g', 'o']), (['о', 'н', 'з', 'и', ' ', 'д', 'е', 'н'], ['2', ' ', 'd', 'a', 'y', ' ', 'a', 'g', 'o']), (['с', 'л', 'е', 'д', ' ', 'д', 'е', 'н'], ['i', 'n', ' ', '1', ' ', 'd', 'a', 'y']), (['с', 'л', 'е', 'д', ' ', 'ч', 'а', 'с'], ['i', 'n', ' ', '1', ' ', 'h', 'o', 'u', 'r']), (['т', 'о', 'з', 'и', ' ', 'м', 'е', 'с'], ['0', ' ', 'm', 'o', 'n', 't', 'h', ' ', 'a', 'g', 'o']), (['м', 'и', 'н', ' ', 'м', 'е', 'с'], ['1', ' ', 'm', 'o', 'n', 't', 'h', ' ', 'a', 'g', 'o']), (['с', 'л', ' ', 'с', 'е', 'д', 'м'], ['i', 'n', ' ', '1', ' ', 'w', 'e', 'e', 'k']), (['с', 'л', 'е', 'д', 'в', ' ', 'г'], ['i', 'n', ' ', '1', ' ', 'y', 'e', 'a', 'r']), (['в', 'ч', 'е', 'р', 'а'], ['1', ' ', 'd', 'a', 'y', ' ', 'a', 'g', 'o']), (['м', 'и', 'н', ' ', 'г'], ['1', ' ', 'y', 'e', 'a', 'r', ' ', 'a', 'g', 'o']), (['м', 'и', 'н', ' ', 'м'], ['1', ' ', 'm', 'o', 'n', 't', 'h', ' ', 'a', 'g', 'o']), (['с', 'н', 'о', 'щ', 'и'], ['1', ' ', 'd', 'a', 'y', ' ', 'a', 'g', 'o']), (['д', 'н', 'е', 'с'], ['0', ' ', 'd', 'a', 'y', ' ', 'a', 'g', 'o']), (['с', 'е', 'г', 'а'], ['0', ' ', 's', 'e', 'c', 'o', 'n', 'd', ' ', 'a', 'g', 'o']), (['с', 'л', ' ', 'г'], ['i', 'n', ' ', '1', ' ', 'y', 'e', 'a', 'r']), (['с', 'л', ' ', 'м'], ['i', 'n', ' ', '1', ' ', 'm', 'o', 'n', 't', 'h']), (['у', 'т', 'р', 'е'], ['i', 'n', ' ', '1', ' ', 'd', 'a', 'y']), (['т', ' ', 'г'], ['0', ' ', 'y', 'e', 'a', 'r', ' ', 'a', 'g', 'o']), (['т', ' ', 'м'], ['0', ' ', 'm', 'o', 'n', 't', 'h', ' ', 'a', 'g', 'o'])]

/-- internal/data/bm.go: `bm_Locale`, dictionary. -/
def bmDict : LangData where
  name := ['b', 'm']
  translations := [(['d', 'e', 's', 'a', 'n', 'b', 'u', 'r', 'u'], [['d', 'e', 'c', 'e', 'm', 'b', 'e', 'r']]), (['n', 'o', 'w', 'a', 'n', 'b', 'u', 'r', 'u'], [['n', 'o', 'v', 'e', 'm', 'b', 'e', 'r']]), (['s', 'ɛ', 't', 'a', 'n', 'b', 'u', 'r', 'u'], [['s', 'e', 'p', 't', 'e', 'm', 'b', 'e', 'r']]), (['ɔ', 'k', 'u', 't', 'ɔ', 'b', 'u', 'r', 'u'], [['o', 'c', 't', 'o', 'b', 'e', 'r']]), (['f', 'e', 'b', 'u', 'r', 'u', 'y', 'e'], [['f', 'e', 'b', 'r', 'u', 'a', 'r', 'y']]), (['a', 'l', 'a', 'm', 'i', 's', 'a'], [['t', 'h', 'u', 'r', 's', 'd', 'a', 'y']]), (['a', 'w', 'i', 'r', 'i', 'l', 'i'], [['a', 'p', 'r', 'i', 'l']]), (['d', 'ɔ', 'g', 'ɔ', 'k', 'u', 'n'], [['w', 'e', 'e', 'k']]), (['s', 'e', 'k', 'o', 'n', 'd', 'i'], [['s', 'e', 'c', 'o', 'n', 'd']]), (['z', 'a', 'n', 'w', 'u', 'y', 'e'], [['j', 'a', 'n', 'u', 'a', 'r', 'y']]), (['m', 'a', 'r', 'i', 's', 'i'], [['m', 'a', 'r', 'c', 'h']]), (['m', 'i', 'n', 'i', 't', 'i'], [['m', 'i', 'n', 'u', 't', 'e']]), (['s', 'i', 'b', 'i', 'r', 'i'], [['s', 'a', 't', 'u', 'r', 'd', 'a', 'y']]), (['t', 'a', 'r', 'a', 't', 'a'], [['t', 'u', 'e', 's', 'd', 'a', 'y']]), (['z', 'u', 'l', 'u', 'y', 'e'], [['j', 'u', 'l', 'y']]), (['a', 'r', 'a', 'b', 'a'], [['w', 'e', 'd', 'n', 'e', 's', 'd', 'a', 'y']]), (['n', 't', 'ɛ', 'n', 'ɛ'], [['m', 'o', 'n', 'd', 'a', 'y']]), (['z', 'u', 'w', 'ɛ', 'n'], [['j', 'u', 'n', 'e']]), (['j', 'u', 'm', 'a'], [['f', 'r', 'i', 'd', 'a', 'y']]), (['k', 'a', 'l', 'o'], [['m', 'o', 'n', 't', 'h']]), (['k', 'a', 'r', 'i'], [['s', 'u', 'n', 'd', 'a', 'y']]), (['l', 'ɛ', 'r', 'ɛ'], [['h', 'o', 'u', 'r']]), (['a', 'l', 'a'], [['t', 'h', 'u', 'r', 's', 'd', 'a', 'y']]), (['a', 'r', 'a'], [['w', 'e', 'd', 'n', 'e', 's', 'd', 'a', 'y']]), (['a', 'w', 'i'], [['a', 'p', 'r', 'i', 'l']]), (['d', 'e', 's'], [['d', 'e', 'c', 'e', 'm', 'b', 'e', 'r']]), (['d', 'o', 'n'], [['d', 'a', 'y']]), (['f', 'e', 'b'], [['f', 'e', 'b', 'r', 'u', 'a', 'r', 'y']]), (['g', 'm', 't'], [['g', 'm', 't']]), (['j', 'u', 'm'], [['f', 'r', 'i', 'd', 'a', 'y']]), (['k', 'a', 'r'], [['s', 'u', 'n', 'd', 'a', 'y']]), (['m', 'a', 'r'], [['m', 'a', 'r', 'c', 'h']]), (['n', 'o', 'w'], [['n', 'o', 'v', 'e', 'm', 'b', 'e', 'r']]), (['n', 't', 'ɛ'], [['m', 'o', 'n', 'd', 'a', 'y']]), (['s', 'a', 'n'], [['y', 'e', 'a', 'r']]), (['s', 'i', 'b'], [['s', 'a', 't', 'u', 'r', 'd', 'a', 'y']]), (['s', 'ɛ', 't'], [['s', 'e', 'p', 't', 'e', 'm', 'b', 'e', 'r']]), (['t', 'a', 'r'], [['t', 'u', 'e', 's', 'd', 'a', 'y']]), (['u', 't', 'c'], [['u', 't', 'c']]), (['u', 't', 'i'], [['a', 'u', 'g', 'u', 's', 't']]), (['z', 'a', 'n'], [['j', 'a', 'n', 'u', 'a', 'r', 'y']]), (['z', 'u', 'l'], [['j', 'u', 'l', 'y']]), (['z', 'u', 'w'], [['j', 'u', 'n', 'e']]), (['ɔ', 'k', 'u'], [['o', 'c', 't', 'o', 'b', 'e', 'r']]), (['a', 'm'], [['a', 'm']]), (['m', 'ɛ'], [['m', 'a', 'y']]), (['p', 'm'], [['p', 'm']]), ([' '], [[' ']]), (['\''], [[]]), (['+'], [['+']]), ([','], [[]]), (['-'], [['-']]), (['.'], [['.']]), (['/'], [['/']]), ([':'], [[':']]), ([';'], [[]]), (['@'], [[]]), (['['], [[]]), ([']'], [[]]), (['z'], [['z']]), (['|'], [[]])]
  relativeType := [(['t', 'h', 'i', 's', ' ', 'm', 'i', 'n', 'u', 't', 'e'], ['0', ' ', 'm', 'i', 'n', 'u', 't', 'e', ' ', 'a', 'g', 'o']), (['l', 'a', 's', 't', ' ', 'm', 'o', 'n', 't', 'h'], ['1', ' ', 'm', 'o', 'n', 't', 'h', ' ', 'a', 'g', 'o']), (['n', 'e', 'x', 't', ' ', 'm', 'o', 'n', 't', 'h'], ['i', 'n', ' ', '1', ' ', 'm', 'o', 'n', 't', 'h']), (['t', 'h', 'i', 's', ' ', 'm', 'o', 'n', 't', 'h'], ['0', ' ', 'm', 'o', 'n', 't', 'h', ' ', 'a', 'g', 'o']), (['l', 'a', 's', 't', ' ', 'w', 'e', 'e', 'k'], ['1', ' ', 'w', 'e', 'e', 'k', ' ', 'a', 'g', 'o']), (['l', 'a', 's', 't', ' ', 'y', 'e', 'a', 'r'], ['1', ' ', 'y', 'e', 'a', 'r', ' ', 'a', 'g', 'o']), (['n', 'e', 'x', 't', ' ', 'w', 'e', 'e', 'k'], ['i', 'n', ' ', '1', ' ', 'w', 'e', 'e', 'k']), (['n', 'e', 'x', 't', ' ', 'y', 'e', 'a', 'r'], ['i', 'n', ' ', '1', ' ', 'y', 'e', 'a', 'r']), (['t', 'h', 'i', 's', ' ', 'h', 'o', 'u', 'r'], ['0', ' ', 'h', 'o', 'u', 'r', ' ', 'a', 'g', 'o']), (['t', 'h', 'i', 's', ' ', 'w', 'e', 'e', 'k'], ['0', ' ', 'w', 'e', 'e', 'k', ' ', 'a', 'g', 'o']), (['t', 'h', 'i', 's', ' ', 'y', 'e', 'a', 'r'], ['0', ' ', 'y', 'e', 'a', 'r', ' ', 'a', 'g', 'o']), (['k', 'u', 'n', 'u'], ['1', ' ', 'd', 'a', 'y', ' ', 'a', 'g', 'o']), (['s', 'i', 'n', 'i'], ['i', 'n', ' ', '1', ' ', 'd', 'a', 'y']), (['n', 'o', 'w'], ['0', ' ', 's', 'e', 'c', 'o', 'n', 'd', ' ', 'a', 'g', 'o']), (['b', 'i'], ['0', ' ', 'd', 'a', 'y', ' ', 'a', 'g', 'o'])]

/-- internal/data/bn.go: `bn_Locale`, dictionary. -/
def bnDict : LangData where
  name := ['b', 'n']
  splitterGroup := 3
  translations := [(['ব', 'হ', 'ষ', 'প', 'ত', 'ি', 'ব', 'া', 'র'], [['t', 'h', 'u', 'r', 's', 'd', 'a', 'y']]), (['ব', 'হ', 'স', 'প', 'ত', 'ি', 'ব', 'া', 'র'], [['t', 'h', 'u', 'r', 's', 'd', 'a', 'y']]), (['ফ', 'ে', 'ব', 'র', 'য', 'া', 'র', 'ি'], [['f', 'e', 'b', 'r', 'u', 'a', 'r', 'y']]), (['ফ', 'ে', 'ব', 'র', 'য', 'া', 'র', 'ী'], [['f', 'e', 'b', 'r', 'u', 'a', 'r', 'y']]), (['স', 'ে', 'প', 'ট', 'ে', 'ম', 'ব', 'র'], [['s', 'e', 'p', 't', 'e', 'm', 'b', 'e', 'r']]), (['জ', 'া', 'ন', 'য', 'া', 'র', 'ি'], [['j', 'a', 'n', 'u', 'a', 'r', 'y']]), (['জ', 'া', 'ন', 'য', 'া', 'র', 'ী'], [['j', 'a', 'n', 'u', 'a', 'r', 'y']]), (['ড', 'ি', 'স', 'ে', 'ম', 'ব', 'র'], [['d', 'e', 'c', 'e', 'm', 'b', 'e', 'r']]), (['ম', 'ঙ', 'গ', 'ল', 'ব', 'া', 'র'], [['t', 'u', 'e', 's', 'd', 'a', 'y']]), (['অ', 'ক', 'ট', 'ো', 'ব', 'র'], [['o', 'c', 't', 'o', 'b', 'e', 'r']]), (['ন', 'ভ', 'ে', 'ম', 'ব', 'র'], [['n', 'o', 'v', 'e', 'm', 'b', 'e', 'r']]), (['ব', 'হ', 'স', 'প', 'ত', 'ি'], [['t', 'h', 'u', 'r', 's', 'd', 'a', 'y']]), (['র', 'ব', 'ি', 'ব', 'া', 'র'], [['s', 'u', 'n', 'd', 'a', 'y']]), (['শ', 'ক', 'র', 'ব', 'া', 'র'], [['f', 'r', 'i', 'd', 'a', 'y']]), (['শ', 'ন', 'ি', 'ব', 'া', 'র'], [['s', 'a', 't', 'u', 'r', 'd', 'a', 'y']]), (['স', 'ে', 'ক', 'ে', 'ন', 'ড'], [['s', 'e', 'c', 'o', 'n', 'd']]), (['স', 'ো', 'ম', 'ব', 'া', 'র'], [['m', 'o', 'n', 'd', 'a', 'y']]), (['এ', 'প', 'র', 'ি', 'ল'], [['a', 'p', 'r', 'i', 'l']]), (['ব', 'ধ', 'ব', 'া', 'র'], [['w', 'e', 'd', 'n', 'e', 's', 'd', 'a', 'y']]), (['ম', 'ি', 'ন', 'ি', 'ট'], [['m', 'i', 'n', 'u', 't', 'e']]), (['স', 'প', 'ত', 'া', 'হ'], [['w', 'e', 'e', 'k']]), (['আ', 'গ', 'স', 'ট'], [['a', 'u', 'g', 'u', 's', 't']]), (['ঘ', 'ন', 'ট', 'া'], [['h', 'o', 'u', 'r']]), (['জ', 'ল', 'া', 'ই'], [['j', 'u', 'l', 'y']]), (['প', 'র', 'া', 'য'], [[]]), (['ব', 'ৎ', 'স', 'র'], [['y', 'e', 'a', 'r']]), (['ম', 'ঙ', 'গ', 'ল'], [['t', 'u', 'e', 's', 'd', 'a', 'y']]), (['ম', 'ধ', 'য', 'ে'], [['i', 'n']]), (['ম', 'া', 'র', 'চ'], [['m', 'a', 'r', 'c', 'h']]), (['g', 'm', 't'], [['g', 'm', 't']]), (['u', 't', 'c'], [['u', 't', 'c']]), (['আ', 'গ', 'ে'], [['a', 'g', 'o']]), (['এ', 'ব', 'ং'], [[]]), (['জ', 'া', 'ন'], [['j', 'a', 'n', 'u', 'a', 'r', 'y']]), (['দ', 'ি', 'ন'], [['d', 'a', 'y']]), (['ফ', 'ে', 'ব'], [['f', 'e', 'b', 'r', 'u', 'a', 'r', 'y']]), (['ব', 'ছ', 'র'], [['y', 'e', 'a', 'r']]), (['ম', 'া', 'স'], [['m', 'o', 'n', 't', 'h']]), (['র', 'ব', 'ি'], [['s', 'u', 'n', 'd', 'a', 'y']]), (['শ', 'ক', 'র'], [['f', 'r', 'i', 'd', 'a', 'y']]), (['শ', 'ন', 'ি'], [['s', 'a', 't', 'u', 'r', 'd', 'a', 'y']]), (['স', 'া', 'ল'], [['y', 'e', 'a', 'r']]), (['স', 'ো', 'ম'], [['m', 'o', 'n', 'd', 'a', 'y']]), (['a', 'm'], [['a', 'm']]), (['p', 'm'], [['p', 'm']]), (['জ', 'ন'], [['j', 'u', 'n', 'e']]), (['ট', 'া'], [[]]), (['ব', 'ধ'], [['w', 'e', 'd', 'n', 'e', 's', 'd', 'a', 'y']]), (['ম', 'ে'], [['m', 'a', 'y']]), (['ল', 'া'], [[]]), (['শ', 'ে'], [[]]), ([' '], [[' ']]), (['\''], [[]]), (['+'], [['+']]), ([','], [[]]), (['-'], [['-']]), (['.'], [['.']]), (['/'], [['/']]), ([':'], [[':']]), ([';'], [[]]), (['@'], [[]]), (['['], [[]]), ([']'], [[]]), (['z'], [['z']]), (['|'], [[]]), (['ই'], [[]])]
  relativeType := [(['আ', 'গ', 'া', 'ম', 'ী', ' ', 'স', 'প', 'ত', 'া', 'হ'], ['i', 'n', ' ', '1', ' ', 'w', 'e', 'e', 'k']), (['প', 'র', 'ে', 'র', ' ', 'স', 'প', 'ত', 'া', 'হ'], ['i', 'n', ' ', '1', ' ', 'w', 'e', 'e', 'k']), (['আ', 'গ', 'া', 'ম', 'ী', ' ', 'ব', 'ছ', 'র'], ['i', 'n', ' ', '1', ' ', 'y', 'e', 'a', 'r']), (['আ', 'গ', 'া', 'ম', 'ী', ' ', 'ম', 'া', 'স'], ['i', 'n', ' ', '1', ' ', 'm', 'o', 'n', 't', 'h']), (['আ', 'গ', 'া', 'ম', 'ী', 'ক', 'া', 'ল'], ['i', 'n', ' ', '1', ' ', 'd', 'a', 'y']), (['এ', 'ই', ' ', 'ঘ', 'ণ', 'ট', 'া', 'য'], ['0', ' ', 'h', 'o', 'u', 'r', ' ', 'a', 'g', 'o']), (['এ', 'ই', ' ', 'ম', 'ি', 'ন', 'ি', 'ট'], ['0', ' ', 'm', 'i', 'n', 'u', 't', 'e', ' ', 'a', 'g', 'o']), (['এ', 'ই', ' ', 'স', 'প', 'ত', 'া', 'হ'], ['0', ' ', 'w', 'e', 'e', 'k', ' ', 'a', 'g', 'o']), (['গ', 'ত', ' ', 'স', 'প', 'ত', 'া', 'হ'], ['1', ' ', 'w', 'e', 'e', 'k', ' ', 'a', 'g', 'o']), (['প', 'র', 'ে', 'র', ' ', 'ব', 'ছ', 'র'], ['i', 'n', ' ', '1', ' ', 'y', 'e', 'a', 'r']), (['প', 'র', 'ে', 'র', ' ', 'ম', 'া', 'স'], ['i', 'n', ' ', '1', ' ', 'm', 'o', 'n', 't', 'h']), (['এ', 'ই', ' ', 'ব', 'ছ', 'র'], ['0', ' ', 'y', 'e', 'a', 'r', ' ', 'a', 'g', 'o']), (['এ', 'ই', ' ', 'ম', 'া', 'স'], ['0', ' ', 'm', 'o', 'n', 't', 'h', ' ', 'a', 'g', 'o']), (['গ', 'ত', ' ', 'প', 'র', 'শ'], ['2', ' ', 'd', 'a', 'y', ' ', 'a', 'g', 'o']), (['গ', 'ত', ' ', 'ব', 'ছ', 'র'], ['1', ' ', 'y', 'e', 'a', 'r', ' ', 'a', 'g', 'o']), (['গ', 'ত', ' ', 'ম', 'া', 'স'], ['1', ' ', 'm', 'o', 'n', 't', 'h', ' ', 'a', 'g', 'o']), (['গ', 'ত', 'ক', 'া', 'ল'], ['1', ' ', 'd', 'a', 'y', ' ', 'a', 'g', 'o']), (['এ', 'খ', 'ন'], ['0', ' ', 's', 'e', 'c', 'o', 'n', 'd', ' ', 'a', 'g', 'o']), (['আ', 'জ'], ['0', ' ', 'd', 'a', 'y', ' ', 'a', 'g', 'o'])]

/-- internal/data/bn.go: `bn_IN_Locale`, dictionary. -/
def bn_INDict : LangData where
  name := ['b', 'n', '-', 'I', 'N']

/-- internal/data/bo.go: `bo_Locale`, dictionary. -/
def boDict : LangData where
  name := ['b', 'o']
  translations := [(['ཟ', '་', 'བ', '་', 'བ', 'ཅ', '་', 'ག', 'ཅ', 'ག', '་', 'པ', '་'], [['n', 'o', 'v', 'e', 'm', 'b', 'e', 'r']]), (['ཟ', '་', 'བ', '་', 'བ', 'ཅ', '་', 'ག', 'ཉ', 'ས', '་', 'པ', '་'], [['d', 'e', 'c', 'e', 'm', 'b', 'e', 'r']]), (['ཟ', '་', 'བ', '་', 'བ', 'ཅ', '་', 'ག', 'ཅ', 'ག', '་', 'པ'], [['n', 'o', 'v', 'e', 'm', 'b', 'e', 'r']]), (['ཟ', '་', 'བ', '་', 'བ', 'ཅ', '་', 'ག', 'ཉ', 'ས', '་', 'པ'], [['d', 'e', 'c', 'e', 'm', 'b', 'e', 'r']]), (['ག', 'ཟ', 'འ', '་', 'མ', 'ག', '་', 'ད', 'མ', 'ར', '་'], [['t', 'u', 'e', 's', 'd', 'a', 'y']]), (['ག', 'ཟ', 'འ', '་', 'པ', '་', 'ས', 'ང', 'ས', '་'], [['f', 'r', 'i', 'd', 'a', 'y']]), (['ཟ', '་', 'བ', '་', 'ག', 'ཉ', 'ས', '་', 'པ', '་'], [['f', 'e', 'b', 'r', 'u', 'a', 'r', 'y']]), (['ཟ', '་', 'བ', '་', 'ག', 'ས', 'མ', '་', 'པ', '་'], [['m', 'a', 'r', 'c', 'h']]), (['ཟ', '་', 'བ', '་', 'བ', 'ད', 'ན', '་', 'པ', '་'], [['j', 'u', 'l', 'y']]), (['ཟ', '་', 'བ', '་', 'བ', 'ར', 'ད', '་', 'པ', '་'], [['a', 'u', 'g', 'u', 's', 't']]), (['ག', 'ཟ', 'འ', '་', 'ཕ', 'ར', '་', 'བ', '་'], [['t', 'h', 'u', 'r', 's', 'd', 'a', 'y']]), (['ག', 'ཟ', 'འ', '་', 'ལ', 'ག', '་', 'པ', '་'], [['w', 'e', 'd', 'n', 'e', 's', 'd', 'a', 'y']]), (['ག', 'ཟ', 'འ', '་', 'ས', 'ན', '་', 'པ', '་'], [['s', 'a', 't', 'u', 'r', 'd', 'a', 'y']]), (['ཟ', '་', 'བ', '་', 'ག', 'ཉ', 'ས', '་', 'པ'], [['f', 'e', 'b', 'r', 'u', 'a', 'r', 'y']]), (['ཟ', '་', 'བ', '་', 'ག', 'ས', 'མ', '་', 'པ'], [['m', 'a', 'r', 'c', 'h']]), (['ཟ', '་', 'བ', '་', 'ད', 'ག', '་', 'པ', '་'], [['j', 'u', 'n', 'e'], ['s', 'e', 'p', 't', 'e', 'm', 'b', 'e', 'r']]), (['ཟ', '་', 'བ', '་', 'ད', 'ང', '་', 'པ', '་'], [['j', 'a', 'n', 'u', 'a', 'r', 'y']]), (['ཟ', '་', 'བ', '་', 'བ', 'ཅ', '་', 'པ', '་'], [['o', 'c', 't', 'o', 'b', 'e', 'r']]), (['ཟ', '་', 'བ', '་', 'བ', 'ད', 'ན', '་', 'པ'], [['j', 'u', 'l', 'y']]), (['ཟ', '་', 'བ', '་', 'བ', 'ཞ', '་', 'པ', '་'], [['a', 'p', 'r', 'i', 'l']]), (['ཟ', '་', 'བ', '་', 'བ', 'ར', 'ད', '་', 'པ'], [['a', 'u', 'g', 'u', 's', 't']]), (['ག', 'ཟ', 'འ', '་', 'ཉ', '་', 'མ', '་'], [['s', 'u', 'n', 'd', 'a', 'y']]), (['ག', 'ཟ', 'འ', '་', 'ཟ', '་', 'བ', '་'], [['m', 'o', 'n', 'd', 'a', 'y']]), (['ཟ', '་', 'བ', '་', 'ད', 'ག', '་', 'པ'], [['j', 'u', 'n', 'e'], ['s', 'e', 'p', 't', 'e', 'm', 'b', 'e', 'r']]), (['ཟ', '་', 'བ', '་', 'ད', 'ང', '་', 'པ'], [['j', 'a', 'n', 'u', 'a', 'r', 'y']]), (['ཟ', '་', 'བ', '་', 'བ', 'ཅ', '་', 'པ'], [['o', 'c', 't', 'o', 'b', 'e', 'r']]), (['ཟ', '་', 'བ', '་', 'བ', 'ཞ', '་', 'པ'], [['a', 'p', 'r', 'i', 'l']]), (['ཟ', '་', 'བ', '་', 'ལ', '་', 'པ', '་'], [['m', 'a', 'y']]), (['མ', 'ག', '་', 'ད', 'མ', 'ར', '་'], [['t', 'u', 'e', 's', 'd', 'a', 'y']]), (['ཟ', '་', 'བ', '་', 'ལ', '་', 'པ'], [['m', 'a', 'y']]), (['པ', '་', 'ས', 'ང', 'ས', '་'], [['f', 'r', 'i', 'd', 'a', 'y']]), (['ཆ', '་', 'ཚ', 'ད', '་'], [['h', 'o', 'u', 'r']]), (['ཕ', 'ར', '་', 'བ', '་'], [['t', 'h', 'u', 'r', 's', 'd', 'a', 'y']]), (['ལ', 'ག', '་', 'པ', '་'], [['w', 'e', 'd', 'n', 'e', 's', 'd', 'a', 'y']]), (['ས', 'ན', '་', 'པ', '་'], [['s', 'a', 't', 'u', 'r', 'd', 'a', 'y']]), (['ས', 'ར', '་', 'ཆ', '།'], [['s', 'e', 'c', 'o', 'n', 'd']]), (['ས', 'ར', '་', 'མ', '།'], [['m', 'i', 'n', 'u', 't', 'e']]), (['w', 'e', 'e', 'k'], [['w', 'e', 'e', 'k']]), (['ཉ', '་', 'མ', '་'], [['s', 'u', 'n', 'd', 'a', 'y']]), (['ཕ', '་', 'ད', '་'], [['p', 'm']]), (['ཟ', '་', '༡', '༠'], [['o', 'c', 't', 'o', 'b', 'e', 'r']]), (['ཟ', '་', '༡', '༡'], [['n', 'o', 'v', 'e', 'm', 'b', 'e', 'r']]), (['ཟ', '་', '༡', '༢'], [['d', 'e', 'c', 'e', 'm', 'b', 'e', 'r']]), (['ཟ', '་', 'བ', '་'], [['m', 'o', 'n', 't', 'h'], ['m', 'o', 'n', 'd', 'a', 'y']]), (['ས', '་', 'ད', '་'], [['a', 'm']]), (['g', 'm', 't'], [['g', 'm', 't']]), (['u', 't', 'c'], [['u', 't', 'c']]), (['ཉ', 'ན', '།'], [['d', 'a', 'y']]), (['ཟ', '་', '༡'], [['j', 'a', 'n', 'u', 'a', 'r', 'y']]), (['ཟ', '་', '༢'], [['f', 'e', 'b', 'r', 'u', 'a', 'r', 'y']]), (['ཟ', '་', '༣'], [['m', 'a', 'r', 'c', 'h']]), (['ཟ', '་', '༤'], [['a', 'p', 'r', 'i', 'l']]), (['ཟ', '་', '༥'], [['m', 'a', 'y']]), (['ཟ', '་', '༦'], [['j', 'u', 'n', 'e']]), (['ཟ', '་', '༧'], [['j', 'u', 'l', 'y']]), (['ཟ', '་', '༨'], [['a', 'u', 'g', 'u', 's', 't']]), (['ཟ', '་', '༩'], [['s', 'e', 'p', 't', 'e', 'm', 'b', 'e', 'r']]), (['a', 'm'], [['a', 'm']]), (['p', 'm'], [['p', 'm']]), (['ལ', '།'], [['y', 'e', 'a', 'r']]), ([' '], [[' ']]), (['\''], [[]]), (['+'], [['+']]), ([','], [[]]), (['-'], [['-']]), (['.'], [['.']]), (['/'], [['/']]), ([':'], [[':']]), ([';'], [[]]), (['@'], [[]]), (['['], [[]]), ([']'], [[]]), (['z'], [['z']]), (['|'], [[]])]
  relativeType := [(['t', 'h', 'i', 's', ' ', 'm', 'i', 'n', 'u', 't', 'e'], ['0', ' ', 'm', 'i', 'n', 'u', 't', 'e', ' ', 'a', 'g', 'o']), (['l', 'a', 's', 't', ' ', 'm', 'o', 'n', 't', 'h'], ['1', ' ', 'm', 'o', 'n', 't', 'h', ' ', 'a', 'g', 'o']), (['n', 'e', 'x', 't', ' ', 'm', 'o', 'n', 't', 'h'], ['i', 'n', ' ', '1', ' ', 'm', 'o', 'n', 't', 'h']), (['t', 'h', 'i', 's', ' ', 'm', 'o', 'n', 't', 'h'], ['0', ' ', 'm', 'o', 'n', 't', 'h', ' ', 'a', 'g', 'o']), (['l', 'a', 's', 't', ' ', 'w', 'e', 'e', 'k'], ['1', ' ', 'w', 'e', 'e', 'k', ' ', 'a', 'g', 'o']), (['l', 'a', 's', 't', ' ', 'y', 'e', 'a', 'r'], ['1', ' ', 'y', 'e', 'a', 'r', ' ', 'a', 'g', 'o']), (['n', 'e', 'x', 't', ' ', 'w', 'e', 'e', 'k'], ['i', 'n', ' ', '1', ' ', 'w', 'e', 'e', 'k']), (['n', 'e', 'x', 't', ' ', 'y', 'e', 'a', 'r'], ['i', 'n', ' ', '1', ' ', 'y', 'e', 'a', 'r']), (['t', 'h', 'i', 's', ' ', 'h', 'o', 'u', 'r'], ['0', ' ', 'h', 'o', 'u', 'r', ' ', 'a', 'g', 'o']), (['t', 'h', 'i', 's', ' ', 'w', 'e', 'e', 'k'], ['0', ' ', 'w', 'e', 'e', 'k', ' ', 'a', 'g', 'o']), (['t', 'h', 'i', 's', ' ', 'y', 'e', 'a', 'r'], ['0', ' ', 'y', 'e', 'a', 'r', ' ', 'a', 'g', 'o']), (['ས', 'ང', '་', 'ཉ', 'ན', '་'], ['i', 'n', ' ', '1', ' ', 'd', 'a', 'y']), (['ཁ', 'ས', '་', 'ས', '་'], ['1', ' ', 'd', 'a', 'y', ' ', 'a', 'g', 'o']), (['ད', '་', 'ར', 'ང', '་'], ['0', ' ', 'd', 'a', 'y', ' ', 'a', 'g', 'o']), (['n', 'o', 'w'], ['0', ' ', 's', 'e', 'c', 'o', 'n', 'd', ' ', 'a', 'g', 'o'])]

/-- internal/data/bo.go: `bo_IN_Locale`, dictionary. -/
def bo_INDict : LangData where
  name := ['b', 'o', '-', 'I', 'N']

/-- internal/data/br.go: `br_Locale`, dictionary. -/
def brDict : LangData where
  name := ['b', 'r']
  translations := [(['c', '\'', 'h', 'w', 'e', 'v', 'r', 'e', 'r'], [['f', 'e', 'b', 'r', 'u', 'a', 'r', 'y']]), (['g', 'w', 'e', 'n', 'g', 'o', 'l', 'o'], [['s', 'e', 'p', 't', 'e', 'm', 'b', 'e', 'r']]), (['m', 'e', 'r', 'c', '\'', 'h', 'e', 'r'], [['w', 'e', 'd', 'n', 'e', 's', 'd', 'a', 'y']]), (['m', 'e', 'z', 'h', 'e', 'v', 'e', 'n'], [['j', 'u', 'n', 'e']]), (['e', 'i', 'l', 'e', 'n', 'n'], [['s', 'e', 'c', 'o', 'n', 'd']]), (['g', 'e', 'n', 'v', 'e', 'r'], [['j', 'a', 'n', 'u', 'a', 'r', 'y']]), (['g', 'o', 'u', 'e', 'r', 'e'], [['j', 'u', 'l', 'y']]), (['g', 'w', 'e', 'n', 'e', 'r'], [['f', 'r', 'i', 'd', 'a', 'y']]), (['m', 'e', 'u', 'r', 'z', 'h'], [['m', 'a', 'r', 'c', 'h'], ['t', 'u', 'e', 's', 'd', 'a', 'y']]), (['s', 'a', 'd', 'o', 'r', 'n'], [['s', 'a', 't', 'u', 'r', 'd', 'a', 'y']]), (['s', 'i', 'z', 'h', 'u', 'n'], [['w', 'e', 'e', 'k']]), (['b', 'l', 'o', 'a', 'z'], [['y', 'e', 'a', 'r']]), (['c', '\'', 'h', 'w', 'e'], [['f', 'e', 'b', 'r', 'u', 'a', 'r', 'y']]), (['e', 'b', 'r', 'e', 'l'], [['a', 'p', 'r', 'i', 'l']]), (['k', 'e', 'r', 'z', 'u'], [['d', 'e', 'c', 'e', 'm', 'b', 'e', 'r']]), (['m', 'u', 'n', 'u', 't'], [['m', 'i', 'n', 'u', 't', 'e']]), (['d', 'e', 'i', 'z'], [['d', 'a', 'y']]), (['e', 'o', 's', 't'], [['a', 'u', 'g', 'u', 's', 't']]), (['g', 'o', 'u', 'e'], [['j', 'u', 'l', 'y']]), (['g', 'w', 'e', 'n'], [['s', 'e', 'p', 't', 'e', 'm', 'b', 'e', 'r']]), (['h', 'e', 'r', 'e'], [['o', 'c', 't', 'o', 'b', 'e', 'r']]), (['m', 'e', 'u', 'r'], [['m', 'a', 'r', 'c', 'h']]), (['m', 'e', 'z', 'h'], [['j', 'u', 'n', 'e']]), (['y', 'a', 'o', 'u'], [['t', 'h', 'u', 'r', 's', 'd', 'a', 'y']]), (['e', 'b', 'r'], [['a', 'p', 'r', 'i', 'l']]), (['e', 'u', 'r'], [['h', 'o', 'u', 'r']]), (['g', 'e', 'n'], [['j', 'a', 'n', 'u', 'a', 'r', 'y']]), (['g', 'm', 't'], [['g', 'm', 't']]), (['g', 'w', 'e'], [['f', 'r', 'i', 'd', 'a', 'y']]), (['k', 'e', 'r'], [['d', 'e', 'c', 'e', 'm', 'b', 'e', 'r']]), (['k', 'z', 'u'], [['d', 'e', 'c', 'e', 'm', 'b', 'e', 'r']]), (['l', 'u', 'n'], [['m', 'o', 'n', 'd', 'a', 'y']]), (['m', 'a', 'e'], [['m', 'a', 'y']]), (['m', 'e', 'r'], [['w', 'e', 'd', 'n', 'e', 's', 'd', 'a', 'y']]), (['m', 'e', 'u'], [['t', 'u', 'e', 's', 'd', 'a', 'y']]), (['m', 'i', 'n'], [['m', 'i', 'n', 'u', 't', 'e']]), (['m', 'i', 'z'], [['m', 'o', 'n', 't', 'h']]), (['s', 'a', 'd'], [['s', 'a', 't', 'u', 'r', 'd', 'a', 'y']]), (['s', 'u', 'l'], [['s', 'u', 'n', 'd', 'a', 'y']]), (['u', 't', 'c'], [['u', 't', 'c']]), (['a', 'm'], [['a', 'm']]), (['b', 'l'], [['y', 'e', 'a', 'r']]), (['d', 'u'], [['n', 'o', 'v', 'e', 'm', 'b', 'e', 'r']]), (['g', 'm'], [['p', 'm']]), (['p', 'm'], [['p', 'm']]), ([' '], [[' ']]), (['\''], [[]]), (['+'], [['+']]), ([','], [[]]), (['-'], [['-']]), (['.'], [['.']]), (['/'], [['/']]), ([':'], [[':']]), ([';'], [[]]), (['@'], [[]]), (['['], [[]]), ([']'], [[]]), (['d'], [['d', 'a', 'y']]), (['e'], [['h', 'o', 'u', 'r']]), (['s'], [['s', 'e', 'c', 'o', 'n', 'd']]), (['z'], [['z']]), (['|'], [[]])]
  relativeType := [(['a', 'r', ' ', 's', 'i', 'z', 'h', 'u', 'n', ' ', 'd', 'i', 'a', 'r', 'a', 'o', 'k'], ['1', ' ', 'w', 'e', 'e', 'k', ' ', 'a', 'g', 'o']), (['a', 'r', ' ', 's', 'i', 'z', 'h', 'u', 'n', ' ', 'a', ' ', 'z', 'e', 'u'], ['i', 'n', ' ', '1', ' ', 'w', 'e', 'e', 'k']), (['a', 'r', ' ', 'b', 'l', 'o', 'a', 'z', ' ', 'a', ' ', 'z', 'e', 'u'], ['i', 'n', ' ', '1', ' ', 'y', 'e', 'a', 'r']), (['a', 'r', ' ', 'm', 'i', 'z', ' ', 'd', 'i', 'a', 'r', 'a', 'o', 'k'], ['1', ' ', 'm', 'o', 'n', 't', 'h', ' ', 'a', 'g', 'o']), (['a', 'r', ' ', 's', 'i', 'z', 'h', 'u', 'n', '-', 'm', 'a', 'n'], ['0', ' ', 'w', 'e', 'e', 'k', ' ', 'a', 'g', 'o']), (['a', 'r', ' ', 'm', 'i', 'z', ' ', 'a', ' ', 'z', 'e', 'u'], ['i', 'n', ' ', '1', ' ', 'm', 'o', 'n', 't', 'h']), (['a', 'r', ' ', 'b', 'l', ' ', 'a', ' ', 'z', 'e', 'u'], ['i', 'n', ' ', '1', ' ', 'y', 'e', 'a', 'r']), (['t', 'h', 'i', 's', ' ', 'm', 'i', 'n', 'u', 't', 'e'], ['0', ' ', 'm', 'i', 'n', 'u', 't', 'e', ' ', 'a', 'g', 'o']), (['a', 'r', ' ', 'm', 'i', 'z', '-', 'm', 'a', 'n'], ['0', ' ', 'm', 'o', 'n', 't', 'h', ' ', 'a', 'g', 'o']), (['w', 'a', 'r', 'c', '\'', 'h', 'o', 'a', 'z', 'h'], ['i', 'n', ' ', '1', ' ', 'd', 'a', 'y']), (['t', 'h', 'i', 's', ' ', 'h', 'o', 'u', 'r'], ['0', ' ', 'h', 'o', 'u', 'r', ' ', 'a', 'g', 'o']), (['h', 'e', 'v', 'l', 'e', 'n', 'e'], ['0', ' ', 'y', 'e', 'a', 'r', ' ', 'a', 'g', 'o']), (['w', 'a', 'r', 'l', 'e', 'n', 'e'], ['1', ' ', 'y', 'e', 'a', 'r', ' ', 'a', 'g', 'o']), (['b', 'r', 'e', 'm', 'a', 'n'], ['0', ' ', 's', 'e', 'c', 'o', 'n', 'd', ' ', 'a', 'g', 'o']), (['d', 'e', 'c', '\'', 'h'], ['1', ' ', 'd', 'a', 'y', ' ', 'a', 'g', 'o']), (['h', 'i', 'z', 'i', 'v'], ['0', ' ', 'd', 'a', 'y', ' ', 'a', 'g', 'o']), (['b', 'r', 'e', 'm'], ['0', ' ', 's', 'e', 'c', 'o', 'n', 'd', ' ', 'a', 'g', 'o'])]

/-- internal/data/brx.go: `brx_Locale`, dictionary. -/
def brxDict : LangData where
  name := ['b', 'r', 'x']
  translations := [(['स', 'ब', 'थ', 'ा', '/', 'ह', 'ब', 'थ', 'ा'], [['w', 'e', 'e', 'k']]), (['ब', 'ि', 'स', 'थ', 'ि', 'ब', 'ा', 'र'], [['t', 'h', 'u', 'r', 's', 'd', 'a', 'y']]), (['ज', 'ा', 'न', 'व', 'ा', 'र', 'ी'], [['j', 'a', 'n', 'u', 'a', 'r', 'y']]), (['फ', 'ब', 'र', 'व', 'ा', 'र', 'ी'], [['f', 'e', 'b', 'r', 'u', 'a', 'r', 'y']]), (['द', 'ि', 'स', 'ज', 'ब', 'र'], [['d', 'e', 'c', 'e', 'm', 'b', 'e', 'r']]), (['म', 'ग', 'ल', 'ब', 'ा', 'र'], [['t', 'u', 'e', 's', 'd', 'a', 'y']]), (['र', 'ब', 'ि', 'ब', 'ा', 'र'], [['s', 'u', 'n', 'd', 'a', 'y']]), (['स', 'ख', 'र', 'ब', 'ा', 'र'], [['f', 'r', 'i', 'd', 'a', 'y']]), (['स', 'न', 'ि', 'ब', 'ा', 'र'], [['s', 'a', 't', 'u', 'r', 'd', 'a', 'y']]), (['स', 'ब', 'थ', 'ज', 'ब', 'र'], [['s', 'e', 'p', 't', 'e', 'm', 'b', 'e', 'r']]), (['अ', 'ख', 'थ', 'ब', 'र'], [['o', 'c', 't', 'o', 'b', 'e', 'r']]), (['ए', 'फ', 'र', 'ि', 'ल'], [['a', 'p', 'r', 'i', 'l']]), (['न', 'ब', 'ज', 'ब', 'र'], [['n', 'o', 'v', 'e', 'm', 'b', 'e', 'r']]), (['ब', 'द', 'ब', 'ा', 'र'], [['w', 'e', 'd', 'n', 'e', 's', 'd', 'a', 'y']]), (['ब', 'ि', 'स', 'थ', 'ि'], [['t', 'h', 'u', 'r', 's', 'd', 'a', 'y']]), (['ब', 'ो', 'स', 'ो', 'र'], [['y', 'e', 'a', 'r']]), (['म', 'ि', 'न', 'ि', 'थ'], [['m', 'i', 'n', 'u', 't', 'e']]), (['स', 'म', 'ब', 'ा', 'र'], [['m', 'o', 'n', 'd', 'a', 'y']]), (['आ', 'ग', 'स', 'थ'], [['a', 'u', 'g', 'u', 's', 't']]), (['ज', 'ल', 'ा', 'इ'], [['j', 'u', 'l', 'y']]), (['ब', 'ल', 'ा', 'स'], [['p', 'm']]), (['म', 'ा', 'र', 'स'], [['m', 'a', 'r', 'c', 'h']]), (['र', 'ि', 'ग', 'ा'], [['h', 'o', 'u', 'r']]), (['स', 'ख', 'न', 'द'], [['s', 'e', 'c', 'o', 'n', 'd']]), (['g', 'm', 't'], [['g', 'm', 't']]), (['u', 't', 'c'], [['u', 't', 'c']]), (['द', 'ा', 'न'], [['m', 'o', 'n', 't', 'h']]), (['म', 'ग', 'ल'], [['t', 'u', 'e', 's', 'd', 'a', 'y']]), (['र', 'ब', 'ि'], [['s', 'u', 'n', 'd', 'a', 'y']]), (['स', 'ख', 'र'], [['f', 'r', 'i', 'd', 'a', 'y']]), (['स', 'न', 'ि'], [['s', 'a', 't', 'u', 'r', 'd', 'a', 'y']]), (['स', 'ा', 'न'], [['d', 'a', 'y']]), (['a', 'm'], [['a', 'm']]), (['p', 'm'], [['p', 'm']]), (['ज', 'न'], [['j', 'u', 'n', 'e']]), (['ब', 'द'], [['w', 'e', 'd', 'n', 'e', 's', 'd', 'a', 'y']]), (['स', 'म'], [['m', 'o', 'n', 'd', 'a', 'y']]), ([' '], [[' ']]), (['\''], [[]]), (['+'], [['+']]), ([','], [[]]), (['-'], [['-']]), (['.'], [['.']]), (['/'], [['/']]), ([':'], [[':']]), ([';'], [[]]), (['@'], [[]]), (['['], [[]]), ([']'], [[]]), (['z'], [['z']]), (['|'], [[]]), (['फ'], [['a', 'm']]), (['म'], [['m', 'a', 'y']])]
  relativeType := [(['t', 'h', 'i', 's', ' ', 'm', 'i', 'n', 'u', 't', 'e'], ['0', ' ', 'm', 'i', 'n', 'u', 't', 'e', ' ', 'a', 'g', 'o']), (['l', 'a', 's', 't', ' ', 'm', 'o', 'n', 't', 'h'], ['1', ' ', 'm', 'o', 'n', 't', 'h', ' ', 'a', 'g', 'o']), (['n', 'e', 'x', 't', ' ', 'm', 'o', 'n', 't', 'h'], ['i', 'n', ' ', '1', ' ', 'm', 'o', 'n', 't', 'h']), (['t', 'h', 'i', 's', ' ', 'm', 'o', 'n', 't', 'h'], ['0', ' ', 'm', 'o', 'n', 't', 'h', ' ', 'a', 'g', 'o']), (['l', 'a', 's', 't', ' ', 'w', 'e', 'e', 'k'], ['1', ' ', 'w', 'e', 'e', 'k', ' ', 'a', 'g', 'o']), (['l', 'a', 's', 't', ' ', 'y', 'e', 'a', 'r'], ['1', ' ', 'y', 'e', 'a', 'r', ' ', 'a', 'g', 'o']), (['n', 'e', 'x', 't', ' ', 'w', 'e', 'e', 'k'], ['i', 'n', ' ', '1', ' ', 'w', 'e', 'e', 'k']), (['n', 'e', 'x', 't', ' ', 'y', 'e', 'a', 'r'], ['i', 'n', ' ', '1', ' ', 'y', 'e', 'a', 'r']), (['t', 'h', 'i', 's', ' ', 'h', 'o', 'u', 'r'], ['0', ' ', 'h', 'o', 'u', 'r', ' ', 'a', 'g', 'o']), (['t', 'h', 'i', 's', ' ', 'w', 'e', 'e', 'k'], ['0', ' ', 'w', 'e', 'e', 'k', ' ', 'a', 'g', 'o']), (['t', 'h', 'i', 's', ' ', 'y', 'e', 'a', 'r'], ['0', ' ', 'y', 'e', 'a', 'r', ' ', 'a', 'g', 'o']), (['ग', 'ा', 'ब', 'ो', 'न'], ['i', 'n', ' ', '1', ' ', 'd', 'a', 'y']), (['n', 'o', 'w'], ['0', ' ', 's', 'e', 'c', 'o', 'n', 'd', ' ', 'a', 'g', 'o']), (['द', 'ि', 'न'], ['0', ' ', 'd', 'a', 'y', ' ', 'a', 'g', 'o']), (['म', 'य', 'ा'], ['1', ' ', 'd', 'a', 'y', ' ', 'a', 'g', 'o'])]

/-- internal/data/bs-cyrl.go: `bs_Cyrl_Locale`, dictionary. -/
def bs_CyrlDict : LangData where
  name := ['b', 's', '-', 'C', 'y', 'r', 'l']
  translations := [(['п', 'о', 'н', 'е', 'д', 'е', 'љ', 'а', 'к'], [['m', 'o', 'n', 'd', 'a', 'y']]), (['п', 'р', 'е', ' ', 'п', 'о', 'д', 'н', 'е'], [['a', 'm']]), (['с', 'е', 'п', 'т', 'е', 'м', 'б', 'а', 'р'], [['s', 'e', 'p', 't', 'e', 'm', 'b', 'e', 'r']]), (['д', 'е', 'ц', 'е', 'м', 'б', 'а', 'р'], [['d', 'e', 'c', 'e', 'm', 'b', 'e', 'r']]), (['н', 'о', 'в', 'е', 'м', 'б', 'а', 'р'], [['n', 'o', 'v', 'e', 'm', 'b', 'e', 'r']]), (['ч', 'е', 'т', 'в', 'р', 'т', 'а', 'к'], [['t', 'h', 'u', 'r', 's', 'd', 'a', 'y']]), (['о', 'к', 'т', 'о', 'б', 'а', 'р'], [['o', 'c', 't', 'o', 'b', 'e', 'r']]), (['п', 'о', 'п', 'о', 'д', 'н', 'е'], [['p', 'm']]), (['с', 'р', 'и', 'ј', 'е', 'д', 'а'], [['w', 'e', 'd', 'n', 'e', 's', 'd', 'a', 'y']]), (['ф', 'е', 'б', 'р', 'у', 'а', 'р'], [['f', 'e', 'b', 'r', 'u', 'a', 'r', 'y']]), (['а', 'в', 'г', 'у', 'с', 'т'], [['a', 'u', 'g', 'u', 's', 't']]), (['г', 'о', 'д', 'и', 'н', 'а'], [['y', 'e', 'a', 'r']]), (['н', 'е', 'д', 'е', 'љ', 'а'], [['w', 'e', 'e', 'k'], ['s', 'u', 'n', 'd', 'a', 'y']]), (['с', 'е', 'к', 'у', 'н', 'д'], [['s', 'e', 'c', 'o', 'n', 'd']]), (['с', 'у', 'б', 'о', 'т', 'а'], [['s', 'a', 't', 'u', 'r', 'd', 'a', 'y']]), (['у', 'т', 'о', 'р', 'а', 'к'], [['t', 'u', 'e', 's', 'd', 'a', 'y']]), (['ј', 'а', 'н', 'у', 'а', 'р'], [['j', 'a', 'n', 'u', 'a', 'r', 'y']]), (['а', 'п', 'р', 'и', 'л'], [['a', 'p', 'r', 'i', 'l']]), (['м', 'е', 'с', 'е', 'ц'], [['m', 'o', 'n', 't', 'h']]), (['м', 'и', 'н', 'у', 'т'], [['m', 'i', 'n', 'u', 't', 'e']]), (['п', 'е', 'т', 'а', 'к'], [['f', 'r', 'i', 'd', 'a', 'y']]), (['м', 'а', 'р', 'т'], [['m', 'a', 'r', 'c', 'h']]), (['ј', 'у', 'л', 'и'], [['j', 'u', 'l', 'y']]), (['ј', 'у', 'н', 'и'], [['j', 'u', 'n', 'e']]), (['g', 'm', 't'], [['g', 'm', 't']]), (['u', 't', 'c'], [['u', 't', 'c']]), (['а', 'в', 'г'], [['a', 'u', 'g', 'u', 's', 't']]), (['а', 'п', 'р'], [['a', 'p', 'r', 'i', 'l']]), (['д', 'а', 'н'], [['d', 'a', 'y']]), (['д', 'е', 'ц'], [['d', 'e', 'c', 'e', 'm', 'b', 'e', 'r']]), (['м', 'а', 'р'], [['m', 'a', 'r', 'c', 'h']]), (['м', 'а', 'ј'], [['m', 'a', 'y']]), (['н', 'е', 'д'], [['s', 'u', 'n', 'd', 'a', 'y']]), (['н', 'о', 'в'], [['n', 'o', 'v', 'e', 'm', 'b', 'e', 'r']]), (['о', 'к', 'т'], [['o', 'c', 't', 'o', 'b', 'e', 'r']]), (['п', 'е', 'т'], [['f', 'r', 'i', 'd', 'a', 'y']]), (['п', 'о', 'н'], [['m', 'o', 'n', 'd', 'a', 'y']]), (['с', 'е', 'п'], [['s', 'e', 'p', 't', 'e', 'm', 'b', 'e', 'r']]), (['с', 'р', 'и'], [['w', 'e', 'd', 'n', 'e', 's', 'd', 'a', 'y']]), (['с', 'у', 'б'], [['s', 'a', 't', 'u', 'r', 'd', 'a', 'y']]), (['у', 'т', 'о'], [['t', 'u', 'e', 's', 'd', 'a', 'y']]), (['ф', 'е', 'б'], [['f', 'e', 'b', 'r', 'u', 'a', 'r', 'y']]), (['ч', 'а', 'с'], [['h', 'o', 'u', 'r']]), (['ч', 'е', 'т'], [['t', 'h', 'u', 'r', 's', 'd', 'a', 'y']]), (['ј', 'а', 'н'], [['j', 'a', 'n', 'u', 'a', 'r', 'y']]), (['ј', 'у', 'л'], [['j', 'u', 'l', 'y']]), (['ј', 'у', 'н'], [['j', 'u', 'n', 'e']]), (['a', 'm'], [['a', 'm']]), (['p', 'm'], [['p', 'm']]), ([' '], [[' ']]), (['\''], [[]]), (['+'], [['+']]), ([','], [[]]), (['-'], [['-']]), (['.'], [['.']]), (['/'], [['/']]), ([':'], [[':']]), ([';'], [[]]), (['@'], [[]]), (['['], [[]]), ([']'], [[]]), (['z'], [['z']]), (['|'], [[]])]
  relativeType := [(['с', 'л', 'е', 'д', 'е', 'ћ', 'е', 'г', ' ', 'м', 'е', 'с', 'е', 'ц', 'а'], ['i', 'n', ' ', '1', ' ', 'm', 'o', 'n', 't', 'h']), (['п', 'р', 'о', 'ш', 'л', 'о', 'г', ' ', 'м', 'е', 'с', 'е', 'ц', 'а'], ['1', ' ', 'm', 'o', 'n', 't', 'h', ' ', 'a', 'g', 'o']), (['с', 'л', 'е', 'д', 'е', 'ћ', 'е', ' ', 'г', 'о', 'д', 'и', 'н', 'е'], ['i', 'n', ' ', '1', ' ', 'y', 'e', 'a', 'r']), (['с', 'л', 'е', 'д', 'е', 'ћ', 'е', ' ', 'н', 'е', 'д', 'е', 'љ', 'е'], ['i', 'n', ' ', '1', ' ', 'w', 'e', 'e', 'k']), (['п', 'р', 'о', 'ш', 'л', 'е', ' ', 'г', 'о', 'д', 'и', 'н', 'е'], ['1', ' ', 'y', 'e', 'a', 'r', ' ', 'a', 'g', 'o']), (['п', 'р', 'о', 'ш', 'л', 'е', ' ', 'н', 'е', 'д', 'е', 'љ', 'е'], ['1', ' ', 'w', 'e', 'e', 'k', ' ', 'a', 'g', 'o']), (['t', 'h', 'i', 's', ' ', 'm', 'i', 'n', 'u', 't', 'e'], ['0', ' ', 'm', 'i', 'n', 'u', 't', 'e', ' ', 'a', 'g', 'o']), (['о', 'в', 'о', 'г', ' ', 'м', 'е', 'с', 'е', 'ц', 'а'], ['0', ' ', 'm', 'o', 'n', 't', 'h', ' ', 'a', 'g', 'o']), (['о', 'в', 'е', ' ', 'г', 'о', 'д', 'и', 'н', 'е'], ['0', ' ', 'y', 'e', 'a', 'r', ' ', 'a', 'g', 'o']), (['о', 'в', 'е', ' ', 'н', 'е', 'д', 'е', 'љ', 'е'], ['0', ' ', 'w', 'e', 'e', 'k', ' ', 'a', 'g', 'o']), (['t', 'h', 'i', 's', ' ', 'h', 'o', 'u', 'r'], ['0', ' ', 'h', 'o', 'u', 'r', ' ', 'a', 'g', 'o']), (['д', 'а', 'н', 'а', 'с'], ['0', ' ', 'd', 'a', 'y', ' ', 'a', 'g', 'o']), (['с', 'у', 'т', 'р', 'а'], ['i', 'n', ' ', '1', ' ', 'd', 'a', 'y']), (['ј', 'у', 'ч', 'е'], ['1', ' ', 'd', 'a', 'y', ' ', 'a', 'g', 'o']), (['n', 'o', 'w'], ['0', ' ', 's', 'e', 'c', 'o', 'n', 'd', ' ', 'a', 'g', 'o'])]

/-- internal/data/bs-latn.go: `bs_Latn_Locale`, dictionary. -/
def bs_LatnDict : LangData where
  name := ['b', 's', '-', 'L', 'a', 't', 'n']
  translations := [(['p', 'o', 'n', 'e', 'd', 'j', 'e', 'l', 'j', 'a', 'k'], [['m', 'o', 'n', 'd', 'a', 'y']]), (['p', 'r', 'i', 'j', 'e', 'p', 'o', 'd', 'n', 'e'], [['a', 'm']]), (['s', 'e', 'p', 't', 'e', 'm', 'b', 'a', 'r'], [['s', 'e', 'p', 't', 'e', 'm', 'b', 'e', 'r']]), (['c', 'e', 't', 'v', 'r', 't', 'a', 'k'], [['t', 'h', 'u', 'r', 's', 'd', 'a', 'y']]), (['d', 'e', 'c', 'e', 'm', 'b', 'a', 'r'], [['d', 'e', 'c', 'e', 'm', 'b', 'e', 'r']]), (['n', 'e', 'd', 'j', 'e', 'l', 'j', 'a'], [['s', 'u', 'n', 'd', 'a', 'y']]), (['n', 'o', 'v', 'e', 'm', 'b', 'a', 'r'], [['n', 'o', 'v', 'e', 'm', 'b', 'e', 'r']]), (['f', 'e', 'b', 'r', 'u', 'a', 'r'], [['f', 'e', 'b', 'r', 'u', 'a', 'r', 'y']]), (['o', 'k', 't', 'o', 'b', 'a', 'r'], [['o', 'c', 't', 'o', 'b', 'e', 'r']]), (['p', 'o', 'p', 'o', 'd', 'n', 'e'], [['p', 'm']]), (['s', 'e', 'd', 'm', 'i', 'c', 'a'], [['w', 'e', 'e', 'k']]), (['s', 'e', 'k', 'u', 'n', 'd', 'a'], [['s', 'e', 'c', 'o', 'n', 'd']]), (['s', 'r', 'i', 'j', 'e', 'd', 'a'], [['w', 'e', 'd', 'n', 'e', 's', 'd', 'a', 'y']]), (['a', 'v', 'g', 'u', 's', 't'], [['a', 'u', 'g', 'u', 's', 't']]), (['g', 'o', 'd', 'i', 'n', 'a'], [['y', 'e', 'a', 'r']]), (['j', 'a', 'n', 'u', 'a', 'r'], [['j', 'a', 'n', 'u', 'a', 'r', 'y']]), (['m', 'i', 'n', 'u', 't', 'a'], [['m', 'i', 'n', 'u', 't', 'e']]), (['m', 'j', 'e', 's', 'e', 'c'], [['m', 'o', 'n', 't', 'h']]), (['s', 'u', 'b', 'o', 't', 'a'], [['s', 'a', 't', 'u', 'r', 'd', 'a', 'y']]), (['u', 't', 'o', 'r', 'a', 'k'], [['t', 'u', 'e', 's', 'd', 'a', 'y']]), (['a', 'p', 'r', 'i', 'l'], [['a', 'p', 'r', 'i', 'l']]), (['p', 'e', 't', 'a', 'k'], [['f', 'r', 'i', 'd', 'a', 'y']]), (['j', 'u', 'l', 'i'], [['j', 'u', 'l', 'y']]), (['j', 'u', 'n', 'i'], [['j', 'u', 'n', 'e']]), (['m', 'a', 'r', 't'], [['m', 'a', 'r', 'c', 'h']]), (['a', 'p', 'r'], [['a', 'p', 'r', 'i', 'l']]), (['a', 'v', 'g'], [['a', 'u', 'g', 'u', 's', 't']]), (['c', 'e', 't'], [['t', 'h', 'u', 'r', 's', 'd', 'a', 'y']]), (['d', 'a', 'n'], [['d', 'a', 'y']]), (['d', 'e', 'c'], [['d', 'e', 'c', 'e', 'm', 'b', 'e', 'r']]), (['f', 'e', 'b'], [['f', 'e', 'b', 'r', 'u', 'a', 'r', 'y']]), (['g', 'm', 't'], [['g', 'm', 't']]), (['g', 'o', 'd'], [['y', 'e', 'a', 'r']]), (['j', 'a', 'n'], [['j', 'a', 'n', 'u', 'a', 'r', 'y']]), (['j', 'u', 'l'], [['j', 'u', 'l', 'y']]), (['j', 'u', 'n'], [['j', 'u', 'n', 'e']]), (['m', 'a', 'j'], [['m', 'a', 'y']]), (['m', 'a', 'r'], [['m', 'a', 'r', 'c', 'h']]), (['m', 'i', 'n'], [['m', 'i', 'n', 'u', 't', 'e']]), (['n', 'e', 'd'], [['s', 'u', 'n', 'd', 'a', 'y']]), (['n', 'o', 'v'], [['n', 'o', 'v', 'e', 'm', 'b', 'e', 'r']]), (['o', 'k', 't'], [['o', 'c', 't', 'o', 'b', 'e', 'r']]), (['p', 'e', 't'], [['f', 'r', 'i', 'd', 'a', 'y']]), (['p', 'o', 'n'], [['m', 'o', 'n', 'd', 'a', 'y']]), (['s', 'a', 't'], [['h', 'o', 'u', 'r']]), (['s', 'e', 'd'], [['w', 'e', 'e', 'k']]), (['s', 'e', 'k'], [['s', 'e', 'c', 'o', 'n', 'd']]), (['s', 'e', 'p'], [['s', 'e', 'p', 't', 'e', 'm', 'b', 'e', 'r']]), (['s', 'r', 'i'], [['w', 'e', 'd', 'n', 'e', 's', 'd', 'a', 'y']]), (['s', 'u', 'b'], [['s', 'a', 't', 'u', 'r', 'd', 'a', 'y']]), (['u', 't', 'c'], [['u', 't', 'c']]), (['u', 't', 'o'], [['t', 'u', 'e', 's', 'd', 'a', 'y']]), (['a', 'm'], [['a', 'm']]), (['m', 'j'], [['m', 'o', 'n', 't', 'h']]), (['p', 'm'], [['p', 'm']]), ([' '], [[' ']]), (['\''], [[]]), (['+'], [['+']]), ([','], [[]]), (['-'], [['-']]), (['.'], [['.']]), (['/'], [['/']]), ([':'], [[':']]), ([';'], [[]]), (['@'], [[]]), (['['], [[]]), ([']'], [[]]), (['g'], [['y', 'e', 'a', 'r']]), (['h'], [['h', 'o', 'u', 'r']]), (['s'], [['s', 'e', 'c', 'o', 'n', 'd']]), (['z'], [['z']]), (['|'], [[]])]
  relativeType := [(['s', 'l', 'j', 'e', 'd', 'e', 'c', 'e', ' ', 's', 'e', 'd', 'm', 'i', 'c', 'e'], ['i', 'n', ' ', '1', ' ', 'w', 'e', 'e', 'k']), (['s', 'l', 'j', 'e', 'd', 'e', 'c', 'e', ' ', 'g', 'o', 'd', 'i', 'n', 'e'], ['i', 'n', ' ', '1', ' ', 'y', 'e', 'a', 'r']), (['s', 'l', 'j', 'e', 'd', 'e', 'c', 'i', ' ', 'm', 'j', 'e', 's', 'e', 'c'], ['i', 'n', ' ', '1', ' ', 'm', 'o', 'n', 't', 'h']), (['p', 'r', 'o', 's', 'l', 'e', ' ', 's', 'e', 'd', 'm', 'i', 'c', 'e'], ['1', ' ', 'w', 'e', 'e', 'k', ' ', 'a', 'g', 'o']), (['p', 'r', 'o', 's', 'l', 'e', ' ', 'g', 'o', 'd', 'i', 'n', 'e'], ['1', ' ', 'y', 'e', 'a', 'r', ' ', 'a', 'g', 'o']), (['p', 'r', 'o', 's', 'l', 'i', ' ', 'm', 'j', 'e', 's', 'e', 'c'], ['1', ' ', 'm', 'o', 'n', 't', 'h', ' ', 'a', 'g', 'o']), (['o', 'v', 'a', 'j', ' ', 'm', 'j', 'e', 's', 'e', 'c'], ['0', ' ', 'm', 'o', 'n', 't', 'h', ' ', 'a', 'g', 'o']), (['o', 'v', 'e', ' ', 's', 'e', 'd', 'm', 'i', 'c', 'e'], ['0', ' ', 'w', 'e', 'e', 'k', ' ', 'a', 'g', 'o']), (['o', 'v', 'a', ' ', 'm', 'i', 'n', 'u', 't', 'a'], ['0', ' ', 'm', 'i', 'n', 'u', 't', 'e', ' ', 'a', 'g', 'o']), (['o', 'v', 'e', ' ', 'g', 'o', 'd', 'i', 'n', 'e'], ['0', ' ', 'y', 'e', 'a', 'r', ' ', 'a', 'g', 'o']), (['o', 'v', 'a', 'j', ' ', 's', 'a', 't'], ['0', ' ', 'h', 'o', 'u', 'r', ' ', 'a', 'g', 'o']), (['d', 'a', 'n', 'a', 's'], ['0', ' ', 'd', 'a', 'y', ' ', 'a', 'g', 'o']), (['j', 'u', 'c', 'e', 'r'], ['1', ' ', 'd', 'a', 'y', ' ', 'a', 'g', 'o']), (['s', 'u', 't', 'r', 'a'], ['i', 'n', ' ', '1', ' ', 'd', 'a', 'y']), (['s', 'a', 'd', 'a'], ['0', ' ', 's', 'e', 'c', 'o', 'n', 'd', ' ', 'a', 'g', 'o'])]

/-- internal/data/bs.go: `bs_Locale`, dictionary. -/
def bsDict : LangData where
  name := ['b', 's']
  translations := [(['p', 'o', 'n', 'e', 'd', 'j', 'e', 'l', 'j', 'a', 'k'], [['m', 'o', 'n', 'd', 'a', 'y']]), (['p', 'r', 'i', 'j', 'e', 'p', 'o', 'd', 'n', 'e'], [['a', 'm']]), (['s', 'e', 'p', 't', 'e', 'm', 'b', 'a', 'r'], [['s', 'e', 'p', 't', 'e', 'm', 'b', 'e', 'r']]), (['c', 'e', 't', 'v', 'r', 't', 'a', 'k'], [['t', 'h', 'u', 'r', 's', 'd', 'a', 'y']]), (['d', 'e', 'c', 'e', 'm', 'b', 'a', 'r'], [['d', 'e', 'c', 'e', 'm', 'b', 'e', 'r']]), (['n', 'e', 'd', 'j', 'e', 'l', 'j', 'a'], [['s', 'u', 'n', 'd', 'a', 'y']]), (['n', 'o', 'v', 'e', 'm', 'b', 'a', 'r'], [['n', 'o', 'v', 'e', 'm', 'b', 'e', 'r']]), (['f', 'e', 'b', 'r', 'u', 'a', 'r'], [['f', 'e', 'b', 'r', 'u', 'a', 'r', 'y']]), (['o', 'k', 't', 'o', 'b', 'a', 'r'], [['o', 'c', 't', 'o', 'b', 'e', 'r']]), (['p', 'o', 'p', 'o', 'd', 'n', 'e'], [['p', 'm']]), (['s', 'e', 'd', 'm', 'i', 'c', 'a'], [['w', 'e', 'e', 'k']]), (['s', 'e', 'k', 'u', 'n', 'd', 'a'], [['s', 'e', 'c', 'o', 'n', 'd']]), (['s', 'r', 'i', 'j', 'e', 'd', 'a'], [['w', 'e', 'd', 'n', 'e', 's', 'd', 'a', 'y']]), (['a', 'v', 'g', 'u', 's', 't'], [['a', 'u', 'g', 'u', 's', 't']]), (['g', 'o', 'd', 'i', 'n', 'a'], [['y', 'e', 'a', 'r']]), (['j', 'a', 'n', 'u', 'a', 'r'], [['j', 'a', 'n', 'u', 'a', 'r', 'y']]), (['m', 'i', 'n', 'u', 't', 'a'], [['m', 'i', 'n', 'u', 't', 'e']]), (['m', 'j', 'e', 's', 'e', 'c'], [['m', 'o', 'n', 't', 'h']]), (['s', 'u', 'b', 'o', 't', 'a'], [['s', 'a', 't', 'u', 'r', 'd', 'a', 'y']]), (['u', 't', 'o', 'r', 'a', 'k'], [['t', 'u', 'e', 's', 'd', 'a', 'y']]), (['a', 'p', 'r', 'i', 'l'], [['a', 'p', 'r', 'i', 'l']]), (['p', 'e', 't', 'a', 'k'], [['f', 'r', 'i', 'd', 'a', 'y']]), (['j', 'u', 'l', 'i'], [['j', 'u', 'l', 'y']]), (['j', 'u', 'n', 'i'], [['j', 'u', 'n', 'e']]), (['m', 'a', 'r', 't'], [['m', 'a', 'r', 'c', 'h']]), (['a', 'p', 'r'], [['a', 'p', 'r', 'i', 'l']]), (['a', 'v', 'g'], [['a', 'u', 'g', 'u', 's', 't']]), (['c', 'e', 't'], [['t', 'h', 'u', 'r', 's', 'd', 'a', 'y']]), (['d', 'a', 'n'], [['d', 'a', 'y']]), (['d', 'e', 'c'], [['d', 'e', 'c', 'e', 'm', 'b', 'e', 'r']]), (['f', 'e', 'b'], [['f', 'e', 'b', 'r', 'u', 'a', 'r', 'y']]), (['g', 'm', 't'], [['g', 'm', 't']]), (['g', 'o', 'd'], [['y', 'e', 'a', 'r']]), (['j', 'a', 'n'], [['j', 'a', 'n', 'u', 'a', 'r', 'y']]), (['j', 'u', 'l'], [['j', 'u', 'l', 'y']]), (['j', 'u', 'n'], [['j', 'u', 'n', 'e']]), (['m', 'a', 'j'], [['m', 'a', 'y']]), (['m', 'a', 'r'], [['m', 'a', 'r', 'c', 'h']]), (['m', 'i', 'n'], [['m', 'i', 'n', 'u', 't', 'e']]), (['n', 'e', 'd'], [['s', 'u', 'n', 'd', 'a', 'y']]), (['n', 'o', 'v'], [['n', 'o', 'v', 'e', 'm', 'b', 'e', 'r']]), (['o', 'k', 't'], [['o', 'c', 't', 'o', 'b', 'e', 'r']]), (['p', 'e', 't'], [['f', 'r', 'i', 'd', 'a', 'y']]), (['p', 'o', 'n'], [['m', 'o', 'n', 'd', 'a', 'y']]), (['s', 'a', 't'], [['h', 'o', 'u', 'r']]), (['s', 'e', 'd'], [['w', 'e', 'e', 'k']]), (['s', 'e', 'k'], [['s', 'e', 'c', 'o', 'n', 'd']]), (['s', 'e', 'p'], [['s', 'e', 'p', 't', 'e', 'm', 'b', 'e', 'r']]), (['s', 'r', 'i'], [['w', 'e', 'd', 'n', 'e', 's', 'd', 'a', 'y']]), (['s', 'u', 'b'], [['s', 'a', 't', 'u', 'r', 'd', 'a', 'y']]), (['u', 't', 'c'], [['u', 't', 'c']]), (['u', 't', 'o'], [['t', 'u', 'e', 's', 'd', 'a', 'y']]), (['a', 'm'], [['a', 'm']]), (['m', 'j'], [['m', 'o', 'n', 't', 'h']]), (['p', 'm'], [['p', 'm']]), ([' '], [[' ']]), (['\''], [[]]), (['+'], [['+']]), ([','], [[]]), (['-'], [['-']]), (['.'], [['.']]), (['/'], [['/']]), ([':'], [[':']]), ([';'], [[]]), (['@'], [[]]), (['['], [[]]), ([']'], [[]]), (['g'], [['y', 'e', 'a', 'r']]), (['h'], [['h', 'o', 'u', 'r']]), (['s'], [['s', 'e', 'c', 'o', 'n', 'd']]), (['z'], [['z']]), (['|'], [[]])]
  relativeType := [(['s', 'l', 'j', 'e', 'd', 'e', 'c', 'e', ' ', 's', 'e', 'd', 'm', 'i', 'c', 'e'], ['i', 'n', ' ', '1', ' ', 'w', 'e', 'e', 'k']), (['s', 'l', 'j', 'e', 'd', 'e', 'c', 'e', ' ', 'g', 'o', 'd', 'i', 'n', 'e'], ['i', 'n', ' ', '1', ' ', 'y', 'e', 'a', 'r']), (['s', 'l', 'j', 'e', 'd', 'e', 'c', 'i', ' ', 'm', 'j', 'e', 's', 'e', 'c'], ['i', 'n', ' ', '1', ' ', 'm', 'o', 'n', 't', 'h']), (['p', 'r', 'o', 's', 'l', 'e', ' ', 's', 'e', 'd', 'm', 'i', 'c', 'e'], ['1', ' ', 'w', 'e', 'e', 'k', ' ', 'a', 'g', 'o']), (['p', 'r', 'o', 's', 'l', 'e', ' ', 'g', 'o', 'd', 'i', 'n', 'e'], ['1', ' ', 'y', 'e', 'a', 'r', ' ', 'a', 'g', 'o']), (['p', 'r', 'o', 's', 'l', 'i', ' ', 'm', 'j', 'e', 's', 'e', 'c'], ['1', ' ', 'm', 'o', 'n', 't', 'h', ' ', 'a', 'g', 'o']), (['o', 'v', 'a', 'j', ' ', 'm', 'j', 'e', 's', 'e', 'c'], ['0', ' ', 'm', 'o', 'n', 't', 'h', ' ', 'a', 'g', 'o']), (['o', 'v', 'e', ' ', 's', 'e', 'd', 'm', 'i', 'c', 'e'], ['0', ' ', 'w', 'e', 'e', 'k', ' ', 'a', 'g', 'o']), (['o', 'v', 'a', ' ', 'm', 'i', 'n', 'u', 't', 'a'], ['0', ' ', 'm', 'i', 'n', 'u', 't', 'e', ' ', 'a', 'g', 'o']), (['o', 'v', 'e', ' ', 'g', 'o', 'd', 'i', 'n', 'e'], ['0', ' ', 'y', 'e', 'a', 'r', ' ', 'a', 'g', 'o']), (['o', 'v', 'a', 'j', ' ', 's', 'a', 't'], ['0', ' ', 'h', 'o', 'u', 'r', ' ', 'a', 'g', 'o']), (['d', 'a', 'n', 'a', 's'], ['0', ' ', 'd', 'a', 'y', ' ', 'a', 'g', 'o']), (['j', 'u', 'c', 'e', 'r'], ['1', ' ', 'd', 'a', 'y', ' ', 'a', 'g', 'o']), (['s', 'u', 't', 'r', 'a'], ['i', 'n', ' ', '1', ' ', 'd', 'a', 'y']), (['s', 'a', 'd', 'a'], ['0', ' ', 's', 'e', 'c', 'o', 'n', 'd', ' ', 'a', 'g', 'o'])]

/-- internal/data/ca.go: `ca_Locale`, dictionary. -/
def caDict : LangData where
  name := ['c', 'a']
  translations := [(['d', 'e', ' ', 'd', 'e', 's', 'e', 'm', 'b', 'r', 'e'], [['d', 'e', 'c', 'e', 'm', 'b', 'e', 'r']]), (['d', 'e', ' ', 'n', 'o', 'v', 'e', 'm', 'b', 'r', 'e'], [['n', 'o', 'v', 'e', 'm', 'b', 'e', 'r']]), (['d', 'e', ' ', 's', 'e', 't', 'e', 'm', 'b', 'r', 'e'], [['s', 'e', 'p', 't', 'e', 'm', 'b', 'e', 'r']]), (['d', '\'', 'o', 'c', 't', 'u', 'b', 'r', 'e'], [['o', 'c', 't', 'o', 'b', 'e', 'r']]), (['d', 'e', ' ', 'f', 'e', 'b', 'r', 'e', 'r'], [['f', 'e', 'b', 'r', 'u', 'a', 'r', 'y']]), (['d', 'e', ' ', 'j', 'u', 'l', 'i', 'o', 'l'], [['j', 'u', 'l', 'y']]), (['d', 'i', 'v', 'e', 'n', 'd', 'r', 'e', 's'], [['f', 'r', 'i', 'd', 'a', 'y']]), (['d', 'e', ' ', 'g', 'e', 'n', 'e', 'r'], [['j', 'a', 'n', 'u', 'a', 'r', 'y']]), (['d', 'e', 's', 'e', 'm', 'b', 'r', 'e'], [['d', 'e', 'c', 'e', 'm', 'b', 'e', 'r']]), (['d', 'i', 'm', 'e', 'c', 'r', 'e', 's'], [['w', 'e', 'd', 'n', 'e', 's', 'd', 'a', 'y']]), (['d', 'i', 's', 's', 'a', 'b', 't', 'e'], [['s', 'a', 't', 'u', 'r', 'd', 'a', 'y']]), (['d', 'i', 'u', 'm', 'e', 'n', 'g', 'e'], [['s', 'u', 'n', 'd', 'a', 'y']]), (['n', 'o', 'v', 'e', 'm', 'b', 'r', 'e'], [['n', 'o', 'v', 'e', 'm', 'b', 'e', 'r']]), (['s', 'e', 't', 'e', 'm', 'b', 'r', 'e'], [['s', 'e', 'p', 't', 'e', 'm', 'b', 'e', 'r']]), (['d', '\'', 'a', 'b', 'r', 'i', 'l'], [['a', 'p', 'r', 'i', 'l']]), (['d', '\'', 'a', 'g', 'o', 's', 't'], [['a', 'u', 'g', 'u', 's', 't']]), (['d', 'e', ' ', 'f', 'e', 'b', 'r'], [['f', 'e', 'b', 'r', 'u', 'a', 'r', 'y']]), (['d', 'e', ' ', 'j', 'u', 'n', 'y'], [['j', 'u', 'n', 'e']]), (['d', 'e', ' ', 'm', 'a', 'i', 'g'], [['m', 'a', 'y']]), (['d', 'e', ' ', 'm', 'a', 'r', 'c'], [['m', 'a', 'r', 'c', 'h']]), (['d', 'i', 'l', 'l', 'u', 'n', 's'], [['m', 'o', 'n', 'd', 'a', 'y']]), (['d', 'i', 'm', 'a', 'r', 't', 's'], [['t', 'u', 'e', 's', 'd', 'a', 'y']]), (['o', 'c', 't', 'u', 'b', 'r', 'e'], [['o', 'c', 't', 'o', 'b', 'e', 'r']]), (['s', 'e', 't', 'm', 'a', 'n', 'a'], [['w', 'e', 'e', 'k']]), (['d', 'e', ' ', 'd', 'e', 's'], [['d', 'e', 'c', 'e', 'm', 'b', 'e', 'r']]), (['d', 'e', ' ', 'g', 'e', 'n'], [['j', 'a', 'n', 'u', 'a', 'r', 'y']]), (['d', 'e', ' ', 'j', 'u', 'l'], [['j', 'u', 'l', 'y']]), (['d', 'e', ' ', 'n', 'o', 'v'], [['n', 'o', 'v', 'e', 'm', 'b', 'e', 'r']]), (['d', 'e', ' ', 's', 'e', 't'], [['s', 'e', 'p', 't', 'e', 'm', 'b', 'e', 'r']]), (['d', 'i', 'j', 'o', 'u', 's'], [['t', 'h', 'u', 'r', 's', 'd', 'a', 'y']]), (['f', 'e', 'b', 'r', 'e', 'r'], [['f', 'e', 'b', 'r', 'u', 'a', 'r', 'y']]), (['j', 'u', 'l', 'i', 'o', 'l'], [['j', 'u', 'l', 'y']]), (['a', 'b', 'r', 'i', 'l'], [['a', 'p', 'r', 'i', 'l']]), (['a', 'g', 'o', 's', 't'], [['a', 'u', 'g', 'u', 's', 't']]), (['d', '\'', 'a', 'b', 'r'], [['a', 'p', 'r', 'i', 'l']]), (['d', '\'', 'o', 'c', 't'], [['o', 'c', 't', 'o', 'b', 'e', 'r']]), (['g', 'e', 'n', 'e', 'r'], [['j', 'a', 'n', 'u', 'a', 'r', 'y']]), (['m', 'i', 'n', 'u', 't'], [['m', 'i', 'n', 'u', 't', 'e']]), (['s', 'e', 'g', 'o', 'n'], [['s', 'e', 'c', 'o', 'n', 'd']]), (['d', '\'', 'a', 'g'], [['a', 'u', 'g', 'u', 's', 't']]), (['f', 'e', 'b', 'r'], [['f', 'e', 'b', 'r', 'u', 'a', 'r', 'y']]), (['h', 'o', 'r', 'a'], [['h', 'o', 'u', 'r']]), (['j', 'u', 'n', 'y'], [['j', 'u', 'n', 'e']]), (['m', 'a', 'i', 'g'], [['m', 'a', 'y']]), (['m', 'a', 'r', 'c'], [['m', 'a', 'r', 'c', 'h']]), (['s', 'e', 't', 'm'], [['w', 'e', 'e', 'k']]), (['a', 'b', 'r'], [['a', 'p', 'r', 'i', 'l']]), (['a', 'n', 'y'], [['y', 'e', 'a', 'r']]), (['d', 'e', 'l'], [[]]), (['d', 'e', 's'], [['d', 'e', 'c', 'e', 'm', 'b', 'e', 'r']]), (['d', 'i', 'a'], [['d', 'a', 'y']]), (['g', 'e', 'n'], [['j', 'a', 'n', 'u', 'a', 'r', 'y']]), (['g', 'm', 't'], [['g', 'm', 't']]), (['j', 'u', 'l'], [['j', 'u', 'l', 'y']]), (['m', 'e', 's'], [['m', 'o', 'n', 't', 'h']]), (['m', 'i', 'n'], [['m', 'i', 'n', 'u', 't', 'e']]), (['n', 'o', 'v'], [['n', 'o', 'v', 'e', 'm', 'b', 'e', 'r']]), (['o', 'c', 't'], [['o', 'c', 't', 'o', 'b', 'e', 'r']]), (['s', 'e', 't'], [['s', 'e', 'p', 't', 'e', 'm', 'b', 'e', 'r']]), (['u', 't', 'c'], [['u', 't', 'c']]), (['a', 'g'], [['a', 'u', 'g', 'u', 's', 't']]), (['a', 'm'], [['a', 'm']]), (['d', 'c'], [['w', 'e', 'd', 'n', 'e', 's', 'd', 'a', 'y']]), (['d', 'e'], [[]]), (['d', 'g'], [['s', 'u', 'n', 'd', 'a', 'y']]), (['d', 'j'], [['t', 'h', 'u', 'r', 's', 'd', 'a', 'y']]), (['d', 'l'], [['m', 'o', 'n', 'd', 'a', 'y']]), (['d', 's'], [['s', 'a', 't', 'u', 'r', 'd', 'a', 'y']]), (['d', 't'], [['t', 'u', 'e', 's', 'd', 'a', 'y']]), (['d', 'v'], [['f', 'r', 'i', 'd', 'a', 'y']]), (['e', 'n'], [['i', 'n']]), (['l', '\''], [[]]), (['p', 'm'], [['p', 'm']]), ([' '], [[' ']]), (['\''], [[]]), (['+'], [['+']]), ([','], [[]]), (['-'], [['-']]), (['.'], [['.']]), (['/'], [['/']]), ([':'], [[':']]), ([';'], [[]]), (['@'], [[]]), (['['], [[]]), ([']'], [[]]), (['h'], [['h', 'o', 'u', 'r']]), (['i'], [[]]), (['s'], [['s', 'e', 'c', 'o', 'n', 'd']]), (['z'], [['z']]), (['|'], [[]])]
  relativeType := [(['l', 'a', ' ', 'p', 'r', 'o', 'p', 'e', 'r', 'a', ' ', 's', 'e', 't', 'm', 'a', 'n', 'a'], ['i', 'n', ' ', '1', ' ', 'w', 'e', 'e', 'k']), (['l', 'a', ' ', 'p', 'r', 'o', 'x', 'i', 'm', 'a', ' ', 's', 'e', 't', 'm', 'a', 'n', 'a'], ['i', 'n', ' ', '1', ' ', 'w', 'e', 'e', 'k']), (['l', 'a', ' ', 's', 'e', 't', 'm', 'a', 'n', 'a', ' ', 'p', 'a', 's', 's', 'a', 'd', 'a'], ['1', ' ', 'w', 'e', 'e', 'k', ' ', 'a', 'g', 'o']), (['l', 'a', ' ', 's', 'e', 't', 'm', 'a', 'n', 'a', ' ', 'q', 'u', 'e', ' ', 'v', 'e'], ['i', 'n', ' ', '1', ' ', 'w', 'e', 'e', 'k']), (['l', 'a', ' ', 's', 'e', 't', 'm', 'a', 'n', 'a', ' ', 'v', 'i', 'n', 'e', 'n', 't'], ['i', 'n', ' ', '1', ' ', 'w', 'e', 'e', 'k']), (['a', 'q', 'u', 'e', 's', 't', 'a', ' ', 's', 'e', 't', 'm', 'a', 'n', 'a'], ['0', ' ', 'w', 'e', 'e', 'k', ' ', 'a', 'g', 'o']), (['l', 'a', ' ', 's', 'e', 't', 'm', ' ', 'p', 'a', 's', 's', 'a', 'd', 'a'], ['1', ' ', 'w', 'e', 'e', 'k', ' ', 'a', 'g', 'o']), (['l', 'a', ' ', 's', 'e', 't', 'm', ' ', 'q', 'u', 'e', ' ', 'v', 'e'], ['i', 'n', ' ', '1', ' ', 'w', 'e', 'e', 'k']), (['e', 'l', ' ', 'm', 'e', 's', ' ', 'p', 'a', 's', 's', 'a', 't'], ['1', ' ', 'm', 'o', 'n', 't', 'h', ' ', 'a', 'g', 'o']), (['e', 'l', ' ', 'm', 'e', 's', ' ', 'q', 'u', 'e', ' ', 'v', 'e'], ['i', 'n', ' ', '1', ' ', 'm', 'o', 'n', 't', 'h']), (['e', 'n', 'd', 'e', 'm', 'a', ' ', 'p', 'a', 's', 's', 'a', 't'], ['i', 'n', ' ', '3', ' ', 'd', 'a', 'y']), (['a', 'b', 'a', 'n', 's', '-', 'd', '’', 'a', 'h', 'i', 'r'], ['2', ' ', 'd', 'a', 'y', ' ', 'a', 'g', 'o']), (['a', 'q', 'u', 'e', 's', 't', ' ', 'm', 'i', 'n', 'u', 't'], ['0', ' ', 'm', 'i', 'n', 'u', 't', 'e', ' ', 'a', 'g', 'o']), (['a', 'q', 'u', 'e', 's', 't', 'a', ' ', 'h', 'o', 'r', 'a'], ['0', ' ', 'h', 'o', 'u', 'r', ' ', 'a', 'g', 'o']), (['a', 'q', 'u', 'e', 's', 't', 'a', ' ', 's', 'e', 't', 'm'], ['0', ' ', 'w', 'e', 'e', 'k', ' ', 'a', 'g', 'o']), (['l', '\'', 'a', 'n', 'y', ' ', 'p', 'a', 's', 's', 'a', 't'], ['1', ' ', 'y', 'e', 'a', 'r', ' ', 'a', 'g', 'o']), (['l', '\'', 'a', 'n', 'y', ' ', 'q', 'u', 'e', ' ', 'v', 'e'], ['i', 'n', ' ', '1', ' ', 'y', 'e', 'a', 'r']), (['s', 'e', 't', 'm', ' ', 'p', 'a', 's', 's', 'a', 'd', 'a'], ['1', ' ', 'w', 'e', 'e', 'k', ' ', 'a', 'g', 'o']), (['d', 'e', 'm', 'a', ' ', 'p', 'a', 's', 's', 'a', 't'], ['i', 'n', ' ', '2', ' ', 'd', 'a', 'y']), (['d', 'e', 's', 'p', 'u', 's', '-', 'a', 'h', 'i', 'r'], ['2', ' ', 'd', 'a', 'y', ' ', 'a', 'g', 'o']), (['d', 'e', 's', 'p', 'u', 's', '-', 'd', 'e', 'm', 'a'], ['i', 'n', ' ', '2', ' ', 'd', 'a', 'y']), (['p', 'a', 's', 's', 'a', 't', ' ', 'd', 'e', 'm', 'a'], ['i', 'n', ' ', '2', ' ', 'd', 'a', 'y']), (['s', 'e', 't', 'm', ' ', 'v', 'i', 'n', 'e', 'n', 't'], ['i', 'n', ' ', '1', ' ', 'w', 'e', 'e', 'k']), (['a', 'q', 'u', 'e', 's', 't', ' ', 'm', 'e', 's'], ['0', ' ', 'm', 'o', 'n', 't', 'h', ' ', 'a', 'g', 'o']), (['d', 'e', 'l', 'l', 'a', '-', 'a', 'h', 'i', 'r'], ['2', ' ', 'd', 'a', 'y', ' ', 'a', 'g', 'o']), (['m', 'e', 's', ' ', 'p', 'a', 's', 's', 'a', 't'], ['1', ' ', 'm', 'o', 'n', 't', 'h', ' ', 'a', 'g', 'o']), (['m', 'e', 's', ' ', 'v', 'i', 'n', 'e', 'n', 't'], ['i', 'n', ' ', '1', ' ', 'm', 'o', 'n', 't', 'h']), (['e', 'n', 'g', 'u', 'a', 'n', 'y'], ['0', ' ', 'y', 'e', 'a', 'r', ' ', 'a', 'g', 'o']), (['s', 'e', 'n', 'd', 'e', 'm', 'a'], ['i', 'n', ' ', '2', ' ', 'd', 'a', 'y']), (['e', 'n', 'd', 'e', 'm', 'a'], ['i', 'n', ' ', '2', ' ', 'd', 'a', 'y']), (['a', 'h', 'i', 'r'], ['1', ' ', 'd', 'a', 'y', ' ', 'a', 'g', 'o']), (['a', 'v', 'u', 'i'], ['0', ' ', 'd', 'a', 'y', ' ', 'a', 'g', 'o']), (['d', 'e', 'm', 'a'], ['i', 'n', ' ', '1', ' ', 'd', 'a', 'y']), (['a', 'r', 'a'], ['0', ' ', 's', 'e', 'c', 'o', 'n', 'd', ' ', 'a', 'g', 'o']), (['h', 'u', 'i'], ['0', ' ', 'd', 'a', 'y', ' ', 'a', 'g', 'o'])]

end Verif.Data
