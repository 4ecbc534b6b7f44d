import Verif.Model.Pattern
/-! GENERATED by tools/gen_dicts.py from /repo/internal/data; do not edit. -/
set_option autoImplicit false
set_option maxRecDepth 100000
namespace Verif.Data
open Verif.Model

/-- internal/data/lag.go: `lag_Locale`, dictionary. -/
def lagDict : LangData where
  name := ['l', 'a', 'g']
  translations := [(['k', 'w', 'i', 'i', 'n', 'y', 'a', 'm', 'b', 'a', 'l', 'a'], [['m', 'a', 'y']]), (['k', 'w', 'i', 'i', 'd', 'w', 'a', 'a', 't', 'a'], [['j', 'u', 'n', 'e']]), (['i', 'n', 'y', 'a', 'm', 'b', 'a', 'l', 'a'], [['m', 'a', 'y']]), (['j', 'u', 'm', 'a', 'm', 'o', 'o', 's', 'i'], [['s', 'a', 't', 'u', 'r', 'd', 'a', 'y']]), (['j', 'u', 'm', 'a', 'p', 'i', 'i', 'r', 'i'], [['s', 'u', 'n', 'd', 'a', 'y']]), (['j', 'u', 'm', 'a', 't', 'a', 'a', 'n', 'o'], [['w', 'e', 'd', 'n', 'e', 's', 'd', 'a', 'y']]), (['k', 'ʉ', 'f', 'u', 'n', 'g', 'a', 't', 'ɨ'], [['j', 'a', 'n', 'u', 'a', 'r', 'y']]), (['k', 'ʉ', 'm', 'ʉ', 'ʉ', 'n', 'c', 'h', 'ɨ'], [['j', 'u', 'l', 'y']]), (['a', 'l', 'a', 'm', 'i', 'i', 's', 'i'], [['t', 'h', 'u', 'r', 's', 'd', 'a', 'y']]), (['j', 'u', 'm', 'a', 't', 'a', 't', 'u'], [['m', 'o', 'n', 'd', 'a', 'y']]), (['k', 'w', 'i', 'i', 'k', 'u', 'm', 'i'], [['a', 'p', 'r', 'i', 'l']]), (['k', 'ʉ', 'k', 'e', 'e', 'n', 'd', 'a'], [['m', 'a', 'r', 'c', 'h']]), (['k', 'ʉ', 's', 'a', 's', 'a', 't', 'ʉ'], [['d', 'e', 'c', 'e', 'm', 'b', 'e', 'r']]), (['s', 'e', 'k', 'u', 'u', 'n', 'd', 'e'], [['s', 'e', 'c', 'o', 'n', 'd']]), (['f', 'u', 'n', 'g', 'a', 't', 'ɨ'], [['j', 'a', 'n', 'u', 'a', 'r', 'y']]), (['i', 'd', 'w', 'a', 'a', 't', 'a'], [['j', 'u', 'n', 'e']]), (['j', 'u', 'm', 'a', 'i', 'n', 'e'], [['t', 'u', 'e', 's', 'd', 'a', 'y']]), (['k', 'w', 'i', 'i', 'n', 'y', 'i'], [['o', 'c', 't', 'o', 'b', 'e', 'r']]), (['k', 'ʉ', 'n', 'a', 'a', 'n', 'ɨ'], [['f', 'e', 'b', 'r', 'u', 'a', 'r', 'y']]), (['k', 'ʉ', 's', 'a', 'a', 'n', 'o'], [['n', 'o', 'v', 'e', 'm', 'b', 'e', 'r']]), (['k', 'ʉ', 's', 'a', 'a', 't', 'ʉ'], [['s', 'e', 'p', 't', 'e', 'm', 'b', 'e', 'r']]), (['k', 'ʉ', 'v', 'ɨ', 'ɨ', 'r', 'ɨ'], [['a', 'u', 'g', 'u', 's', 't']]), (['m', 'ʉ', 'ʉ', 'n', 'c', 'h', 'ɨ'], [['j', 'u', 'l', 'y']]), (['d', 'a', 'k', 'i', 'k', 'a'], [['m', 'i', 'n', 'u', 't', 'e']]), (['i', 'j', 'u', 'm', 'a', 'a'], [['f', 'r', 'i', 'd', 'a', 'y']]), (['k', 'e', 'e', 'n', 'd', 'a'], [['m', 'a', 'r', 'c', 'h']]), (['m', 'w', 'a', 'a', 'k', 'a'], [['y', 'e', 'a', 'r']]), (['m', 'w', 'e', 'e', 'r', 'i'], [['m', 'o', 'n', 't', 'h']]), (['s', 'a', 's', 'a', 't', 'ʉ'], [['d', 'e', 'c', 'e', 'm', 'b', 'e', 'r']]), (['i', 'k', 'u', 'm', 'i'], [['a', 'p', 'r', 'i', 'l']]), (['m', 'o', 'o', 's', 'i'], [['s', 'a', 't', 'u', 'r', 'd', 'a', 'y']]), (['n', 'a', 'a', 'n', 'ɨ'], [['f', 'e', 'b', 'r', 'u', 'a', 'r', 'y']]), (['p', 'i', 'i', 'l', 'i'], [['s', 'u', 'n', 'd', 'a', 'y']]), (['s', 'a', 'a', 'n', 'o'], [['n', 'o', 'v', 'e', 'm', 'b', 'e', 'r']]), (['s', 'a', 'a', 't', 'ʉ'], [['s', 'e', 'p', 't', 'e', 'm', 'b', 'e', 'r']]), (['t', 'a', 'a', 'n', 'o'], [['w', 'e', 'd', 'n', 'e', 's', 'd', 'a', 'y']]), (['t', 'a', 'a', 't', 'u'], [['m', 'o', 'n', 'd', 'a', 'y']]), (['v', 'ɨ', 'ɨ', 'r', 'ɨ'], [['a', 'u', 'g', 'u', 's', 't']]), (['w', 'i', 'i', 'k', 'i'], [['w', 'e', 'e', 'k']]), (['i', 'n', 'y', 'i'], [['o', 'c', 't', 'o', 'b', 'e', 'r']]), (['s', 'i', 'k', 'ʉ'], [['d', 'a', 'y']]), (['a', 'l', 'h'], [['t', 'h', 'u', 'r', 's', 'd', 'a', 'y']]), (['g', 'm', 't'], [['g', 'm', 't']]), (['i', 'j', 'm'], [['f', 'r', 'i', 'd', 'a', 'y']]), (['i', 'n', 'e'], [['t', 'u', 'e', 's', 'd', 'a', 'y']]), (['m', 'u', 'u'], [['p', 'm']]), (['s', 'a', 'a'], [['h', 'o', 'u', 'r']]), (['t', 'o', 'o'], [['a', 'm']]), (['u', 't', 'c'], [['u', 't', 'c']]), (['a', 'm'], [['a', 'm']]), (['p', 'm'], [['p', 'm']]), ([' '], [[' ']]), (['\''], [[]]), (['+'], [['+']]), ([','], [[]]), (['-'], [['-']]), (['.'], [['.']]), (['/'], [['/']]), ([':'], [[':']]), ([';'], [[]]), (['@'], [[]]), (['['], [[]]), ([']'], [[]]), (['z'], [['z']]), (['|'], [[]])]
  relativeType := [(['t', 'h', 'i', 's', ' ', 'm', 'i', 'n', 'u', 't', 'e'], ['0', ' ', 'm', 'i', 'n', 'u', 't', 'e', ' ', 'a', 'g', 'o']), (['l', 'a', 'm', 'ʉ', 't', 'o', 'o', 'n', 'd', 'o'], ['i', 'n', ' ', '1', ' ', 'd', 'a', 'y']), (['l', 'a', 's', 't', ' ', 'm', 'o', 'n', 't', 'h'], ['1', ' ', 'm', 'o', 'n', 't', 'h', ' ', 'a', 'g', 'o']), (['n', 'e', 'x', 't', ' ', 'm', 'o', 'n', 't', 'h'], ['i', 'n', ' ', '1', ' ', 'm', 'o', 'n', 't', 'h']), (['t', 'h', 'i', 's', ' ', 'm', 'o', 'n', 't', 'h'], ['0', ' ', 'm', 'o', 'n', 't', 'h', ' ', 'a', 'g', 'o']), (['l', 'a', 's', 't', ' ', 'w', 'e', 'e', 'k'], ['1', ' ', 'w', 'e', 'e', 'k', ' ', 'a', 'g', 'o']), (['l', 'a', 's', 't', ' ', 'y', 'e', 'a', 'r'], ['1', ' ', 'y', 'e', 'a', 'r', ' ', 'a', 'g', 'o']), (['n', 'e', 'x', 't', ' ', 'w', 'e', 'e', 'k'], ['i', 'n', ' ', '1', ' ', 'w', 'e', 'e', 'k']), (['n', 'e', 'x', 't', ' ', 'y', 'e', 'a', 'r'], ['i', 'n', ' ', '1', ' ', 'y', 'e', 'a', 'r']), (['t', 'h', 'i', 's', ' ', 'h', 'o', 'u', 'r'], ['0', ' ', 'h', 'o', 'u', 'r', ' ', 'a', 'g', 'o']), (['t', 'h', 'i', 's', ' ', 'w', 'e', 'e', 'k'], ['0', ' ', 'w', 'e', 'e', 'k', ' ', 'a', 'g', 'o']), (['t', 'h', 'i', 's', ' ', 'y', 'e', 'a', 'r'], ['0', ' ', 'y', 'e', 'a', 'r', ' ', 'a', 'g', 'o']), (['i', 's', 'i', 'k', 'ʉ'], ['0', ' ', 'd', 'a', 'y', ' ', 'a', 'g', 'o']), (['n', 'i', 'i', 'j', 'o'], ['1', ' ', 'd', 'a', 'y', ' ', 'a', 'g', 'o']), (['n', 'o', 'w'], ['0', ' ', 's', 'e', 'c', 'o', 'n', 'd', ' ', 'a', 'g', 'o'])]

/-- internal/data/lb.go: `lb_Locale`, dictionary. -/
def lbDict : LangData where
  name := ['l', 'b']
  translations := [(['d', 'o', 'n', 'n', 'e', 's', 'c', 'h', 'd', 'e', 'g'], [['t', 'h', 'u', 'r', 's', 'd', 'a', 'y']]), (['d', 'e', 'n', 's', 'c', 'h', 'd', 'e', 'g'], [['t', 'u', 'e', 's', 'd', 'a', 'y']]), (['s', 'a', 'm', 's', 'c', 'h', 'd', 'e', 'g'], [['s', 'a', 't', 'u', 'r', 'd', 'a', 'y']]), (['s', 'e', 'p', 't', 'e', 'm', 'b', 'e', 'r'], [['s', 'e', 'p', 't', 'e', 'm', 'b', 'e', 'r']]), (['d', 'e', 'z', 'e', 'm', 'b', 'e', 'r'], [['d', 'e', 'c', 'e', 'm', 'b', 'e', 'r']]), (['m', 'e', 't', 't', 'w', 'o', 'c', 'h'], [['w', 'e', 'd', 'n', 'e', 's', 'd', 'a', 'y']]), (['n', 'o', 'm', 'e', 't', 't', 'e', 's'], [['p', 'm']]), (['n', 'o', 'v', 'e', 'm', 'b', 'e', 'r'], [['n', 'o', 'v', 'e', 'm', 'b', 'e', 'r']]), (['f', 'e', 'b', 'r', 'u', 'a', 'r'], [['f', 'e', 'b', 'r', 'u', 'a', 'r', 'y']]), (['f', 'r', 'e', 'i', 'd', 'e', 'g'], [['f', 'r', 'i', 'd', 'a', 'y']]), (['m', 'e', 'i', 'n', 'd', 'e', 'g'], [['m', 'o', 'n', 'd', 'a', 'y']]), (['o', 'k', 't', 'o', 'b', 'e', 'r'], [['o', 'c', 't', 'o', 'b', 'e', 'r']]), (['s', 'o', 'n', 'n', 'd', 'e', 'g'], [['s', 'u', 'n', 'd', 'a', 'y']]), (['a', 'b', 'r', 'e', 'l', 'l'], [['a', 'p', 'r', 'i', 'l']]), (['a', 'u', 'g', 'u', 's', 't'], [['a', 'u', 'g', 'u', 's', 't']]), (['j', 'a', 'n', 'u', 'a', 'r'], [['j', 'a', 'n', 'u', 'a', 'r', 'y']]), (['m', 'i', 'n', 'u', 't', 't'], [['m', 'i', 'n', 'u', 't', 'e']]), (['s', 'e', 'k', 'o', 'n', 'n'], [['s', 'e', 'c', 'o', 'n', 'd']]), (['m', 'a', 'e', 'r', 'z'], [['m', 'a', 'r', 'c', 'h']]), (['m', 'o', 'i', 'e', 's'], [['a', 'm']]), (['m', 'o', 'u', 'n', 't'], [['m', 'o', 'n', 't', 'h']]), (['s', 't', 'o', 'n', 'n'], [['h', 'o', 'u', 'r']]), (['j', 'o', 'e', 'r'], [['y', 'e', 'a', 'r']]), (['j', 'u', 'l', 'i'], [['j', 'u', 'l', 'y']]), (['j', 'u', 'n', 'i'], [['j', 'u', 'n', 'e']]), (['w', 'o', 'c', 'h'], [['w', 'e', 'e', 'k']]), (['a', 'b', 'r'], [['a', 'p', 'r', 'i', 'l']]), (['a', 'u', 'g'], [['a', 'u', 'g', 'u', 's', 't']]), (['d', 'a', 'g'], [['d', 'a', 'y']]), (['d', 'e', 'n'], [['t', 'u', 'e', 's', 'd', 'a', 'y']]), (['d', 'e', 'z'], [['d', 'e', 'c', 'e', 'm', 'b', 'e', 'r']]), (['d', 'o', 'n'], [['t', 'h', 'u', 'r', 's', 'd', 'a', 'y']]), (['f', 'e', 'b'], [['f', 'e', 'b', 'r', 'u', 'a', 'r', 'y']]), (['f', 'r', 'e'], [['f', 'r', 'i', 'd', 'a', 'y']]), (['g', 'm', 't'], [['g', 'm', 't']]), (['j', 'a', 'n'], [['j', 'a', 'n', 'u', 'a', 'r', 'y']]), (['j', 'u', 'l'], [['j', 'u', 'l', 'y']]), (['j', 'u', 'n'], [['j', 'u', 'n', 'e']]), (['m', 'a', 'e'], [['m', 'a', 'r', 'c', 'h']]), (['m', 'e', 'e'], [['m', 'a', 'y']]), (['m', 'e', 'i'], [['m', 'o', 'n', 'd', 'a', 'y']]), (['m', 'e', 't'], [['w', 'e', 'd', 'n', 'e', 's', 'd', 'a', 'y']]), (['m', 'i', 'n'], [['m', 'i', 'n', 'u', 't', 'e']]), (['n', 'o', 'v'], [['n', 'o', 'v', 'e', 'm', 'b', 'e', 'r']]), (['o', 'k', 't'], [['o', 'c', 't', 'o', 'b', 'e', 'r']]), (['s', 'a', 'm'], [['s', 'a', 't', 'u', 'r', 'd', 'a', 'y']]), (['s', 'e', 'k'], [['s', 'e', 'c', 'o', 'n', 'd']]), (['s', 'e', 'p'], [['s', 'e', 'p', 't', 'e', 'm', 'b', 'e', 'r']]), (['s', 'o', 'n'], [['s', 'u', 'n', 'd', 'a', 'y']]), (['u', 't', 'c'], [['u', 't', 'c']]), (['a', 'm'], [['a', 'm']]), (['p', 'm'], [['p', 'm']]), (['s', 't'], [['h', 'o', 'u', 'r']]), ([' '], [[' ']]), (['\''], [[]]), (['+'], [['+']]), ([','], [[]]), (['-'], [['-']]), (['.'], [['.']]), (['/'], [['/']]), ([':'], [[':']]), ([';'], [[]]), (['@'], [[]]), (['['], [[]]), ([']'], [[]]), (['d'], [['d', 'a', 'y']]), (['j'], [['y', 'e', 'a', 'r']]), (['m'], [['m', 'o', 'n', 't', 'h']]), (['w'], [['w', 'e', 'e', 'k']]), (['z'], [['z']]), (['|'], [[]])]
  relativeType := [(['l', 'e', 's', 'c', 'h', 't', 'e', ' ', 'm', 'o', 'u', 'n', 't'], ['1', ' ', 'm', 'o', 'n', 't', 'h', ' ', 'a', 'g', 'o']), (['n', 'a', 'c', 'h', 's', 't', 'e', ' ', 'm', 'o', 'u', 'n', 't'], ['i', 'n', ' ', '1', ' ', 'm', 'o', 'n', 't', 'h']), (['l', 'e', 's', 'c', 'h', 't', ' ', 'j', 'o', 'e', 'r'], ['1', ' ', 'y', 'e', 'a', 'r', ' ', 'a', 'g', 'o']), (['l', 'e', 's', 'c', 'h', 't', ' ', 'w', 'o', 'c', 'h'], ['1', ' ', 'w', 'e', 'e', 'k', ' ', 'a', 'g', 'o']), (['n', 'a', 'c', 'h', 's', 't', ' ', 'j', 'o', 'e', 'r'], ['i', 'n', ' ', '1', ' ', 'y', 'e', 'a', 'r']), (['n', 'a', 'c', 'h', 's', 't', ' ', 'w', 'o', 'c', 'h'], ['i', 'n', ' ', '1', ' ', 'w', 'e', 'e', 'k']), (['t', 'h', 'i', 's', ' ', 'm', 'i', 'n', 'u', 't', 'e'], ['0', ' ', 'm', 'i', 'n', 'u', 't', 'e', ' ', 'a', 'g', 'o']), (['d', 'e', 's', 'e', ' ', 'm', 'o', 'u', 'n', 't'], ['0', ' ', 'm', 'o', 'n', 't', 'h', ' ', 'a', 'g', 'o']), (['d', 'e', 's', 't', ' ', 'j', 'o', 'e', 'r'], ['0', ' ', 'y', 'e', 'a', 'r', ' ', 'a', 'g', 'o']), (['t', 'h', 'i', 's', ' ', 'h', 'o', 'u', 'r'], ['0', ' ', 'h', 'o', 'u', 'r', ' ', 'a', 'g', 'o']), (['d', 'e', 's', ' ', 'w', 'o', 'c', 'h'], ['0', ' ', 'w', 'e', 'e', 'k', ' ', 'a', 'g', 'o']), (['g', 'e', 's', 'c', 'h', 't', 'e', 'r'], ['1', ' ', 'd', 'a', 'y', ' ', 'a', 'g', 'o']), (['h', 'a', 'u', 't'], ['0', ' ', 'd', 'a', 'y', ' ', 'a', 'g', 'o']), (['m', 'u', 'e', 'r'], ['i', 'n', ' ', '1', ' ', 'd', 'a', 'y']), (['n', 'o', 'w'], ['0', ' ', 's', 'e', 'c', 'o', 'n', 'd', ' ', 'a', 'g', 'o'])]

/-- internal/data/lg.go: `lg_Locale`, dictionary. -/
def lgDict : LangData where
  name := ['l', 'g']
  translations := [(['l', 'w', 'a', 'k', 'u', 't', 'a', 'a', 'n', 'o'], [['f', 'r', 'i', 'd', 'a', 'y']]), (['l', 'w', 'a', 'm', 'u', 'k', 'a', 'a', 'g', 'a'], [['s', 'a', 't', 'u', 'r', 'd', 'a', 'y']]), (['s', 'e', 'b', 'u', 't', 't', 'e', 'm', 'b', 'a'], [['s', 'e', 'p', 't', 'e', 'm', 'b', 'e', 'r']]), (['f', 'e', 'b', 'w', 'a', 'l', 'i', 'y', 'o'], [['f', 'e', 'b', 'r', 'u', 'a', 'r', 'y']]), (['j', 'a', 'n', 'w', 'a', 'l', 'i', 'y', 'o'], [['j', 'a', 'n', 'u', 'a', 'r', 'y']]), (['k', 'a', 's', 'i', 'k', 'o', 'n', 'd', 'a'], [['s', 'e', 'c', 'o', 'n', 'd']]), (['l', 'w', 'a', 'k', 'u', 'b', 'i', 'r', 'i'], [['t', 'u', 'e', 's', 'd', 'a', 'y']]), (['l', 'w', 'a', 'k', 'u', 's', 'a', 't', 'u'], [['w', 'e', 'd', 'n', 'e', 's', 'd', 'a', 'y']]), (['o', 'k', 'i', 't', 'o', 'b', 'b', 'a'], [['o', 'c', 't', 'o', 'b', 'e', 'r']]), (['s', 'a', 'b', 'b', 'i', 'i', 't', 'i'], [['w', 'e', 'e', 'k'], ['s', 'u', 'n', 'd', 'a', 'y']]), (['a', 'g', 'u', 's', 'i', 't', 'o'], [['a', 'u', 'g', 'u', 's', 't']]), (['d', 'a', 'k', 'i', 'i', 'k', 'a'], [['m', 'i', 'n', 'u', 't', 'e']]), (['d', 'e', 's', 'e', 'm', 'b', 'a'], [['d', 'e', 'c', 'e', 'm', 'b', 'e', 'r']]), (['j', 'u', 'l', 'a', 'a', 'y', 'i'], [['j', 'u', 'l', 'y']]), (['l', 'w', 'a', 'k', 'u', 'n', 'a'], [['t', 'h', 'u', 'r', 's', 'd', 'a', 'y']]), (['n', 'o', 'v', 'e', 'm', 'b', 'a'], [['n', 'o', 'v', 'e', 'm', 'b', 'e', 'r']]), (['b', 'a', 'l', 'a', 'z', 'a'], [['m', 'o', 'n', 'd', 'a', 'y']]), (['l', 'u', 'n', 'a', 'k', 'u'], [['d', 'a', 'y']]), (['m', 'a', 'r', 'i', 's', 'i'], [['m', 'a', 'r', 'c', 'h']]), (['a', 'p', 'u', 'l', 'i'], [['a', 'p', 'r', 'i', 'l']]), (['j', 'u', 'u', 'n', 'i'], [['j', 'u', 'n', 'e']]), (['m', 'a', 'a', 'y', 'i'], [['m', 'a', 'y']]), (['m', 'w', 'a', 'k', 'a'], [['y', 'e', 'a', 'r']]), (['m', 'w', 'e', 'z', 'i'], [['m', 'o', 'n', 't', 'h']]), (['s', 'a', 'a', 'w', 'a'], [['h', 'o', 'u', 'r']]), (['a', 'g', 'u'], [['a', 'u', 'g', 'u', 's', 't']]), (['a', 'p', 'u'], [['a', 'p', 'r', 'i', 'l']]), (['b', 'a', 'l'], [['m', 'o', 'n', 'd', 'a', 'y']]), (['d', 'e', 's'], [['d', 'e', 'c', 'e', 'm', 'b', 'e', 'r']]), (['f', 'e', 'b'], [['f', 'e', 'b', 'r', 'u', 'a', 'r', 'y']]), (['g', 'm', 't'], [['g', 'm', 't']]), (['j', 'a', 'n'], [['j', 'a', 'n', 'u', 'a', 'r', 'y']]), (['j', 'u', 'l'], [['j', 'u', 'l', 'y']]), (['j', 'u', 'u'], [['j', 'u', 'n', 'e']]), (['l', 'w', '2'], [['t', 'u', 'e', 's', 'd', 'a', 'y']]), (['l', 'w', '3'], [['w', 'e', 'd', 'n', 'e', 's', 'd', 'a', 'y']]), (['l', 'w', '4'], [['t', 'h', 'u', 'r', 's', 'd', 'a', 'y']]), (['l', 'w', '5'], [['f', 'r', 'i', 'd', 'a', 'y']]), (['l', 'w', '6'], [['s', 'a', 't', 'u', 'r', 'd', 'a', 'y']]), (['m', 'a', 'a'], [['m', 'a', 'y']]), (['m', 'a', 'r'], [['m', 'a', 'r', 'c', 'h']]), (['n', 'o', 'v'], [['n', 'o', 'v', 'e', 'm', 'b', 'e', 'r']]), (['o', 'k', 'i'], [['o', 'c', 't', 'o', 'b', 'e', 'r']]), (['s', 'a', 'b'], [['s', 'u', 'n', 'd', 'a', 'y']]), (['s', 'e', 'b'], [['s', 'e', 'p', 't', 'e', 'm', 'b', 'e', 'r']]), (['u', 't', 'c'], [['u', 't', 'c']]), (['a', 'm'], [['a', 'm']]), (['p', 'm'], [['p', 'm']]), ([' '], [[' ']]), (['\''], [[]]), (['+'], [['+']]), ([','], [[]]), (['-'], [['-']]), (['.'], [['.']]), (['/'], [['/']]), ([':'], [[':']]), ([';'], [[]]), (['@'], [[]]), (['['], [[]]), ([']'], [[]]), (['z'], [['z']]), (['|'], [[]])]
  relativeType := [(['t', 'h', 'i', 's', ' ', 'm', 'i', 'n', 'u', 't', 'e'], ['0', ' ', 'm', 'i', 'n', 'u', 't', 'e', ' ', 'a', 'g', 'o']), (['l', 'a', 's', 't', ' ', 'm', 'o', 'n', 't', 'h'], ['1', ' ', 'm', 'o', 'n', 't', 'h', ' ', 'a', 'g', 'o']), (['n', 'e', 'x', 't', ' ', 'm', 'o', 'n', 't', 'h'], ['i', 'n', ' ', '1', ' ', 'm', 'o', 'n', 't', 'h']), (['t', 'h', 'i', 's', ' ', 'm', 'o', 'n', 't', 'h'], ['0', ' ', 'm', 'o', 'n', 't', 'h', ' ', 'a', 'g', 'o']), (['l', 'a', 's', 't', ' ', 'w', 'e', 'e', 'k'], ['1', ' ', 'w', 'e', 'e', 'k', ' ', 'a', 'g', 'o']), (['l', 'a', 's', 't', ' ', 'y', 'e', 'a', 'r'], ['1', ' ', 'y', 'e', 'a', 'r', ' ', 'a', 'g', 'o']), (['n', 'e', 'x', 't', ' ', 'w', 'e', 'e', 'k'], ['i', 'n', ' ', '1', ' ', 'w', 'e', 'e', 'k']), (['n', 'e', 'x', 't', ' ', 'y', 'e', 'a', 'r'], ['i', 'n', ' ', '1', ' ', 'y', 'e', 'a', 'r']), (['t', 'h', 'i', 's', ' ', 'h', 'o', 'u', 'r'], ['0', ' ', 'h', 'o', 'u', 'r', ' ', 'a', 'g', 'o']), (['t', 'h', 'i', 's', ' ', 'w', 'e', 'e', 'k'], ['0', ' ', 'w', 'e', 'e', 'k', ' ', 'a', 'g', 'o']), (['t', 'h', 'i', 's', ' ', 'y', 'e', 'a', 'r'], ['0', ' ', 'y', 'e', 'a', 'r', ' ', 'a', 'g', 'o']), (['l', 'w', 'a', 'l', 'e', 'e', 'r', 'o'], ['0', ' ', 'd', 'a', 'y', ' ', 'a', 'g', 'o']), (['g', 'g', 'u', 'l', 'o'], ['1', ' ', 'd', 'a', 'y', ' ', 'a', 'g', 'o']), (['n', 'k', 'y', 'a'], ['i', 'n', ' ', '1', ' ', 'd', 'a', 'y']), (['n', 'o', 'w'], ['0', ' ', 's', 'e', 'c', 'o', 'n', 'd', ' ', 'a', 'g', 'o'])]

/-- internal/data/lkt.go: `lkt_Locale`, dictionary. -/
def lktDict : LangData where
  name := ['l', 'k', 't']
  translations := [(['w', 'i', 'p', 'a', 'z', 'u', 'k', 'h', 'a', '-', 'w', 'a', 's', 't', 'e', ' ', 'w', 'i'], [['j', 'u', 'n', 'e']]), (['c', 'h', 'a', 'ŋ', 'w', 'a', 'p', 'e', '-', 'k', 'a', 's', 'n', 'a', ' ', 'w', 'i'], [['o', 'c', 't', 'o', 'b', 'e', 'r']]), (['i', 's', 't', 'a', 'w', 'i', 'c', 'h', 'a', 'y', 'a', 'z', 'a', 'ŋ', ' ', 'w', 'i'], [['m', 'a', 'r', 'c', 'h']]), (['o', 'w', 'a', 'p', 'h', 'e', ' ', 'o', 'h', '\'', 'a', 'ŋ', 'k', 'h', 'o'], [['m', 'i', 'n', 'u', 't', 'e']]), (['t', 'h', 'i', 'y', 'o', 'h', 'e', 'y', 'u', 'ŋ', 'k', 'a', ' ', 'w', 'i'], [['f', 'e', 'b', 'r', 'u', 'a', 'r', 'y']]), (['c', 'h', 'a', 'ŋ', 'p', 'h', 'a', 's', 'a', 'p', 'a', ' ', 'w', 'i'], [['j', 'u', 'l', 'y']]), (['c', 'h', 'a', 'ŋ', 'w', 'a', 'p', 'e', 't', 'h', 'o', ' ', 'w', 'i'], [['m', 'a', 'y']]), (['t', 'h', 'a', 'h', 'e', 'k', 'a', 'p', 's', 'u', 'ŋ', ' ', 'w', 'i'], [['d', 'e', 'c', 'e', 'm', 'b', 'e', 'r']]), (['c', 'h', 'a', 'ŋ', 'w', 'a', 'p', 'e', 'g', 'i', ' ', 'w', 'i'], [['s', 'e', 'p', 't', 'e', 'm', 'b', 'e', 'r']]), (['o', 'w', 'a', 'ŋ', 'g', 'y', 'u', 'z', 'a', 'z', 'a', 'p', 'i'], [['s', 'a', 't', 'u', 'r', 'd', 'a', 'y']]), (['w', 'i', 'o', 't', 'h', 'e', 'h', 'i', 'k', 'a', ' ', 'w', 'i'], [['j', 'a', 'n', 'u', 'a', 'r', 'y']]), (['a', 'ŋ', 'p', 'e', 't', 'u', 'w', 'a', 'k', 'h', 'a', 'ŋ'], [['s', 'u', 'n', 'd', 'a', 'y']]), (['a', 'ŋ', 'p', 'e', 't', 'u', 'z', 'a', 'p', 't', 'a', 'ŋ'], [['f', 'r', 'i', 'd', 'a', 'y']]), (['a', 'ŋ', 'p', 'e', 't', 'u', 'n', 'u', 'ŋ', 'p', 'a'], [['t', 'u', 'e', 's', 'd', 'a', 'y']]), (['a', 'ŋ', 'p', 'e', 't', 'u', 'w', 'a', 'ŋ', 'z', 'i'], [['m', 'o', 'n', 'd', 'a', 'y']]), (['a', 'ŋ', 'p', 'e', 't', 'u', 'y', 'a', 'm', 'n', 'i'], [['w', 'e', 'd', 'n', 'e', 's', 'd', 'a', 'y']]), (['p', 'h', 'e', 'z', 'i', 't', 'h', 'o', ' ', 'w', 'i'], [['a', 'p', 'r', 'i', 'l']]), (['w', 'a', 'n', 'i', 'y', 'e', 't', 'u', ' ', 'w', 'i'], [['n', 'o', 'v', 'e', 'm', 'b', 'e', 'r']]), (['w', 'a', 's', 'u', 't', 'h', 'u', 'ŋ', ' ', 'w', 'i'], [['a', 'u', 'g', 'u', 's', 't']]), (['a', 'ŋ', 'p', 'e', 't', 'u', 't', 'o', 'p', 'a'], [['t', 'h', 'u', 'r', 's', 'd', 'a', 'y']]), (['a', 'ŋ', 'p', 'e', 't', 'u'], [['d', 'a', 'y']]), (['o', 'm', 'a', 'k', 'h', 'a'], [['y', 'e', 'a', 'r']]), (['o', 'w', 'a', 'p', 'h', 'e'], [['h', 'o', 'u', 'r']]), (['o', 'k', 'p', 'i'], [['s', 'e', 'c', 'o', 'n', 'd']]), (['g', 'm', 't'], [['g', 'm', 't']]), (['o', 'k', 'o'], [['w', 'e', 'e', 'k']]), (['u', 't', 'c'], [['u', 't', 'c']]), (['a', 'm'], [['a', 'm']]), (['p', 'm'], [['p', 'm']]), (['w', 'i'], [['m', 'o', 'n', 't', 'h']]), ([' '], [[' ']]), (['\''], [[]]), (['+'], [['+']]), ([','], [[]]), (['-'], [['-']]), (['.'], [['.']]), (['/'], [['/']]), ([':'], [[':']]), ([';'], [[]]), (['@'], [[]]), (['['], [[]]), ([']'], [[]]), (['z'], [['z']]), (['|'], [[]])]
  relativeType := [(['t', 'h', 'o', 'k', 'a', 't', 'a', ' ', 'o', 'm', 'a', 'k', 'h', 'a', ' ', 'k', 'i', 'ŋ', 'h', 'a', 'ŋ'], ['i', 'n', ' ', '1', ' ', 'y', 'e', 'a', 'r']), (['t', 'h', 'o', 'k', 'a', 't', 'a', ' ', 'o', 'k', 'o', ' ', 'k', 'i', 'ŋ', 'h', 'a', 'ŋ'], ['i', 'n', ' ', '1', ' ', 'w', 'e', 'e', 'k']), (['o', 'm', 'a', 'k', 'h', 'a', ' ', 'k', '\'', 'u', 'ŋ', ' ', 'h', 'e', 'h', 'a', 'ŋ'], ['1', ' ', 'y', 'e', 'a', 'r', ' ', 'a', 'g', 'o']), (['t', 'h', 'o', 'k', 'a', 't', 'a', ' ', 'w', 'i', ' ', 'k', 'i', 'ŋ', 'h', 'a', 'ŋ'], ['i', 'n', ' ', '1', ' ', 'm', 'o', 'n', 't', 'h']), (['h', 'i', 'ŋ', 'h', 'a', 'ŋ', 'n', 'i', ' ', 'k', 'i', 'ŋ', 'h', 'a', 'ŋ'], ['i', 'n', ' ', '1', ' ', 'd', 'a', 'y']), (['o', 'k', 'o', ' ', 'k', '\'', 'u', 'ŋ', ' ', 'h', 'e', 'h', 'a', 'ŋ'], ['1', ' ', 'w', 'e', 'e', 'k', ' ', 'a', 'g', 'o']), (['l', 'e', ' ', 'a', 'ŋ', 'p', 'e', 't', 'u', ' ', 'k', 'i', 'ŋ'], ['0', ' ', 'd', 'a', 'y', ' ', 'a', 'g', 'o']), (['l', 'e', ' ', 'o', 'm', 'a', 'k', 'h', 'a', ' ', 'k', 'i', 'ŋ'], ['0', ' ', 'y', 'e', 'a', 'r', ' ', 'a', 'g', 'o']), (['w', 'i', ' ', 'k', '\'', 'u', 'ŋ', ' ', 'h', 'e', 'h', 'a', 'ŋ'], ['1', ' ', 'm', 'o', 'n', 't', 'h', ' ', 'a', 'g', 'o']), (['t', 'h', 'i', 's', ' ', 'm', 'i', 'n', 'u', 't', 'e'], ['0', ' ', 'm', 'i', 'n', 'u', 't', 'e', ' ', 'a', 'g', 'o']), (['l', 'e', ' ', 'o', 'k', 'o', ' ', 'k', 'i', 'ŋ'], ['0', ' ', 'w', 'e', 'e', 'k', ' ', 'a', 'g', 'o']), (['l', 'e', ' ', 'w', 'i', ' ', 'k', 'i', 'ŋ'], ['0', ' ', 'm', 'o', 'n', 't', 'h', ' ', 'a', 'g', 'o']), (['t', 'h', 'i', 's', ' ', 'h', 'o', 'u', 'r'], ['0', ' ', 'h', 'o', 'u', 'r', ' ', 'a', 'g', 'o']), (['h', 't', 'a', 'l', 'e', 'h', 'a', 'ŋ'], ['1', ' ', 'd', 'a', 'y', ' ', 'a', 'g', 'o']), (['n', 'o', 'w'], ['0', ' ', 's', 'e', 'c', 'o', 'n', 'd', ' ', 'a', 'g', 'o'])]

/-- internal/data/ln.go: `ln_Locale`, dictionary. -/
def lnDict : LangData where
  name := ['l', 'n']
  translations := [(['s', 'a', 'n', 'z', 'a', ' ', 'y', 'a', ' ', 'z', 'o', 'm', 'i', ' ', 'n', 'a', ' ', 'm', 'i', 'b', 'a', 'l', 'e'], [['d', 'e', 'c', 'e', 'm', 'b', 'e', 'r']]), (['s', 'a', 'n', 'z', 'a', ' ', 'y', 'a', ' ', 'z', 'o', 'm', 'i', ' ', 'n', 'a', ' ', 'm', 'ɔ', 'k', 'ɔ'], [['n', 'o', 'v', 'e', 'm', 'b', 'e', 'r']]), (['m', 'o', 'k', 'ɔ', 'l', 'ɔ', ' ', 'm', 'w', 'a', ' ', 'm', 'i', 'b', 'a', 'l', 'e'], [['t', 'u', 'e', 's', 'd', 'a', 'y']]), (['m', 'o', 'k', 'ɔ', 'l', 'ɔ', ' ', 'm', 'w', 'a', ' ', 'm', 'i', 's', 'a', 't', 'o'], [['w', 'e', 'd', 'n', 'e', 's', 'd', 'a', 'y']]), (['m', 'o', 'k', 'ɔ', 'l', 'ɔ', ' ', 'm', 'w', 'a', ' ', 'y', 'a', 'm', 'b', 'o'], [['m', 'o', 'n', 'd', 'a', 'y']]), (['m', 'o', 'k', 'ɔ', 'l', 'ɔ', ' ', 'y', 'a', ' ', 'm', 'i', 't', 'a', 'n', 'o'], [['f', 'r', 'i', 'd', 'a', 'y']]), (['m', 'o', 'k', 'ɔ', 'l', 'ɔ', ' ', 'y', 'a', ' ', 'm', 'i', 'n', 'e', 'i'], [['t', 'h', 'u', 'r', 's', 'd', 'a', 'y']]), (['s', 'a', 'n', 'z', 'a', ' ', 'y', 'a', ' ', 'm', 'i', 'b', 'a', 'l', 'e'], [['f', 'e', 'b', 'r', 'u', 'a', 'r', 'y']]), (['s', 'a', 'n', 'z', 'a', ' ', 'y', 'a', ' ', 'm', 'i', 's', 'a', 't', 'o'], [['m', 'a', 'r', 'c', 'h']]), (['s', 'a', 'n', 'z', 'a', ' ', 'y', 'a', ' ', 'm', 'i', 't', 'a', 'n', 'o'], [['m', 'a', 'y']]), (['s', 'a', 'n', 'z', 'a', ' ', 'y', 'a', ' ', 'm', 'o', 't', 'o', 'b', 'a'], [['j', 'u', 'n', 'e']]), (['s', 'a', 'n', 'z', 'a', ' ', 'y', 'a', ' ', 'm', 'w', 'a', 'm', 'b', 'e'], [['a', 'u', 'g', 'u', 's', 't']]), (['s', 'a', 'n', 'z', 'a', ' ', 'y', 'a', ' ', 'n', 's', 'a', 'm', 'b', 'o'], [['j', 'u', 'l', 'y']]), (['s', 'a', 'n', 'z', 'a', ' ', 'y', 'a', ' ', 'l', 'i', 'b', 'w', 'a'], [['s', 'e', 'p', 't', 'e', 'm', 'b', 'e', 'r']]), (['s', 'a', 'n', 'z', 'a', ' ', 'y', 'a', ' ', 'm', 'i', 'n', 'e', 'i'], [['a', 'p', 'r', 'i', 'l']]), (['s', 'a', 'n', 'z', 'a', ' ', 'y', 'a', ' ', 'y', 'a', 'm', 'b', 'o'], [['j', 'a', 'n', 'u', 'a', 'r', 'y']]), (['s', 'a', 'n', 'z', 'a', ' ', 'y', 'a', ' ', 'z', 'o', 'm', 'i'], [['o', 'c', 't', 'o', 'b', 'e', 'r']]), (['s', 'ɛ', 'k', 'ɔ', 'n', 'd', 'ɛ'], [['s', 'e', 'c', 'o', 'n', 'd']]), (['e', 'y', 'e', 'n', 'g', 'a'], [['s', 'u', 'n', 'd', 'a', 'y']]), (['m', 'o', 'k', 'ɔ', 'l', 'ɔ'], [['d', 'a', 'y']]), (['m', 'o', 'n', 'u', 't', 'i'], [['m', 'i', 'n', 'u', 't', 'e']]), (['m', 'p', 'o', 'k', 'w', 'a'], [['p', 'm']]), (['n', 'g', 'o', 'n', 'g', 'a'], [['h', 'o', 'u', 'r']]), (['n', 't', 'ɔ', 'n', 'g', 'ɔ'], [['a', 'm']]), (['m', 'p', 'ɔ', 's', 'ɔ'], [['s', 'a', 't', 'u', 'r', 'd', 'a', 'y']]), (['s', 'a', 'n', 'z', 'a'], [['m', 'o', 'n', 't', 'h']]), (['m', 'o', 'b', 'u'], [['y', 'e', 'a', 'r']]), (['p', 'ɔ', 's', 'ɔ'], [['w', 'e', 'e', 'k']]), (['a', 'g', 't'], [['a', 'u', 'g', 'u', 's', 't']]), (['a', 'p', 'l'], [['a', 'p', 'r', 'i', 'l']]), (['d', 's', 'b'], [['d', 'e', 'c', 'e', 'm', 'b', 'e', 'r']]), (['e', 'y', 'e'], [['s', 'u', 'n', 'd', 'a', 'y']]), (['f', 'b', 'l'], [['f', 'e', 'b', 'r', 'u', 'a', 'r', 'y']]), (['g', 'm', 't'], [['g', 'm', 't']]), (['m', 'a', 'i'], [['m', 'a', 'y']]), (['m', 'b', 'l'], [['t', 'u', 'e', 's', 'd', 'a', 'y']]), (['m', 'i', 'n'], [['t', 'h', 'u', 'r', 's', 'd', 'a', 'y']]), (['m', 'p', 's'], [['s', 'a', 't', 'u', 'r', 'd', 'a', 'y']]), (['m', 's', 'i'], [['m', 'a', 'r', 'c', 'h']]), (['m', 's', 't'], [['w', 'e', 'd', 'n', 'e', 's', 'd', 'a', 'y']]), (['m', 't', 'n'], [['f', 'r', 'i', 'd', 'a', 'y']]), (['n', 'v', 'b'], [['n', 'o', 'v', 'e', 'm', 'b', 'e', 'r']]), (['s', 't', 'b'], [['s', 'e', 'p', 't', 'e', 'm', 'b', 'e', 'r']]), (['u', 't', 'c'], [['u', 't', 'c']]), (['y', 'a', 'n'], [['j', 'a', 'n', 'u', 'a', 'r', 'y']]), (['y', 'b', 'o'], [['m', 'o', 'n', 'd', 'a', 'y']]), (['y', 'u', 'l'], [['j', 'u', 'l', 'y']]), (['y', 'u', 'n'], [['j', 'u', 'n', 'e']]), (['ɔ', 't', 'b'], [['o', 'c', 't', 'o', 'b', 'e', 'r']]), (['a', 'm'], [['a', 'm']]), (['p', 'm'], [['p', 'm']]), ([' '], [[' ']]), (['\''], [[]]), (['+'], [['+']]), ([','], [[]]), (['-'], [['-']]), (['.'], [['.']]), (['/'], [['/']]), ([':'], [[':']]), ([';'], [[]]), (['@'], [[]]), (['['], [[]]), ([']'], [[]]), (['z'], [['z']]), (['|'], [[]])]
  relativeType := [(['t', 'h', 'i', 's', ' ', 'm', 'i', 'n', 'u', 't', 'e'], ['0', ' ', 'm', 'i', 'n', 'u', 't', 'e', ' ', 'a', 'g', 'o']), (['l', 'a', 's', 't', ' ', 'm', 'o', 'n', 't', 'h'], ['1', ' ', 'm', 'o', 'n', 't', 'h', ' ', 'a', 'g', 'o']), (['l', 'o', 'b', 'i', ' ', 'e', 'k', 'o', 'y', 'a'], ['i', 'n', ' ', '1', ' ', 'd', 'a', 'y']), (['l', 'o', 'b', 'i', ' ', 'e', 'l', 'e', 'k', 'i'], ['1', ' ', 'd', 'a', 'y', ' ', 'a', 'g', 'o']), (['n', 'e', 'x', 't', ' ', 'm', 'o', 'n', 't', 'h'], ['i', 'n', ' ', '1', ' ', 'm', 'o', 'n', 't', 'h']), (['t', 'h', 'i', 's', ' ', 'm', 'o', 'n', 't', 'h'], ['0', ' ', 'm', 'o', 'n', 't', 'h', ' ', 'a', 'g', 'o']), (['l', 'a', 's', 't', ' ', 'w', 'e', 'e', 'k'], ['1', ' ', 'w', 'e', 'e', 'k', ' ', 'a', 'g', 'o']), (['l', 'a', 's', 't', ' ', 'y', 'e', 'a', 'r'], ['1', ' ', 'y', 'e', 'a', 'r', ' ', 'a', 'g', 'o']), (['n', 'e', 'x', 't', ' ', 'w', 'e', 'e', 'k'], ['i', 'n', ' ', '1', ' ', 'w', 'e', 'e', 'k']), (['n', 'e', 'x', 't', ' ', 'y', 'e', 'a', 'r'], ['i', 'n', ' ', '1', ' ', 'y', 'e', 'a', 'r']), (['t', 'h', 'i', 's', ' ', 'h', 'o', 'u', 'r'], ['0', ' ', 'h', 'o', 'u', 'r', ' ', 'a', 'g', 'o']), (['t', 'h', 'i', 's', ' ', 'w', 'e', 'e', 'k'], ['0', ' ', 'w', 'e', 'e', 'k', ' ', 'a', 'g', 'o']), (['t', 'h', 'i', 's', ' ', 'y', 'e', 'a', 'r'], ['0', ' ', 'y', 'e', 'a', 'r', ' ', 'a', 'g', 'o']), (['l', 'ɛ', 'l', 'ɔ'], ['0', ' ', 'd', 'a', 'y', ' ', 'a', 'g', 'o']), (['n', 'o', 'w'], ['0', ' ', 's', 'e', 'c', 'o', 'n', 'd', ' ', 'a', 'g', 'o'])]

/-- internal/data/ln.go: `ln_AO_Locale`, dictionary. -/
def ln_AODict : LangData where
  name := ['l', 'n', '-', 'A', 'O']

/-- internal/data/ln.go: `ln_CF_Locale`, dictionary. -/
def ln_CFDict : LangData where
  name := ['l', 'n', '-', 'C', 'F']

/-- internal/data/ln.go: `ln_CG_Locale`, dictionary. -/
def ln_CGDict : LangData where
  name := ['l', 'n', '-', 'C', 'G']

/-- internal/data/lo.go: `lo_Locale`, dictionary. -/
def loDict : LangData where
  name := ['l', 'o']
  translations := [(['ວ', 'ນ', 'ອ', 'ງ', 'ຄ', 'າ', 'ນ'], [['t', 'u', 'e', 's', 'd', 'a', 'y']]), (['ກ', 'ອ', 'ນ', 'ທ', 'ຽ', 'ງ'], [['a', 'm']]), (['ພ', 'ດ', 'ສ', 'ະ', 'ພ', 'າ'], [['m', 'a', 'y']]), (['ວ', 'ນ', 'ພ', 'ະ', 'ຫ', 'ດ'], [['t', 'h', 'u', 'r', 's', 'd', 'a', 'y']]), (['ວ', 'ນ', 'ອ', 'າ', 'ທ', 'ດ'], [['s', 'u', 'n', 'd', 'a', 'y']]), (['ກ', 'ລ', 'ະ', 'ກ', 'ດ'], [['j', 'u', 'l', 'y']]), (['ຊ', 'ວ', 'ໂ', 'ມ', 'ງ'], [['h', 'o', 'u', 'r']]), (['ມ', 'ງ', 'ກ', 'ອ', 'ນ'], [['j', 'a', 'n', 'u', 'a', 'r', 'y']]), (['ວ', 'ນ', 'ເ', 'ສ', 'າ'], [['s', 'a', 't', 'u', 'r', 'd', 'a', 'y']]), (['ຫ', 'ງ', 'ທ', 'ຽ', 'ງ'], [['p', 'm']]), (['ອ', 'ງ', 'ຄ', 'າ', 'ນ'], [['t', 'u', 'e', 's', 'd', 'a', 'y']]), (['ກ', 'ນ', 'ຍ', 'າ'], [['s', 'e', 'p', 't', 'e', 'm', 'b', 'e', 'r']]), (['ກ', 'ມ', 'ພ', 'າ'], [['f', 'e', 'b', 'r', 'u', 'a', 'r', 'y']]), (['ທ', 'ນ', 'ວ', 'າ'], [['d', 'e', 'c', 'e', 'm', 'b', 'e', 'r']]), (['ພ', 'ະ', 'ຈ', 'ກ'], [['n', 'o', 'v', 'e', 'm', 'b', 'e', 'r']]), (['ພ', 'ະ', 'ຫ', 'ດ'], [['t', 'h', 'u', 'r', 's', 'd', 'a', 'y']]), (['ມ', 'ຖ', 'ນ', 'າ'], [['j', 'u', 'n', 'e']]), (['ວ', 'ນ', 'ຈ', 'ນ'], [['m', 'o', 'n', 'd', 'a', 'y']]), (['ວ', 'ນ', 'ພ', 'ດ'], [['w', 'e', 'd', 'n', 'e', 's', 'd', 'a', 'y']]), (['ວ', 'ນ', 'ສ', 'ກ'], [['f', 'r', 'i', 'd', 'a', 'y']]), (['ວ', 'ນ', 'າ', 'ທ'], [['s', 'e', 'c', 'o', 'n', 'd']]), (['ສ', 'ງ', 'ຫ', 'າ'], [['a', 'u', 'g', 'u', 's', 't']]), (['ອ', 'າ', 'ທ', 'ດ'], [['w', 'e', 'e', 'k'], ['s', 'u', 'n', 'd', 'a', 'y']]), (['ເ', 'ດ', 'ອ', 'ນ'], [['m', 'o', 'n', 't', 'h']]), (['ເ', 'ມ', 'ສ', 'າ'], [['a', 'p', 'r', 'i', 'l']]), (['g', 'm', 't'], [['g', 'm', 't']]), (['u', 't', 'c'], [['u', 't', 'c']]), (['ຕ', 'ລ', 'າ'], [['o', 'c', 't', 'o', 'b', 'e', 'r']]), (['ນ', 'າ', 'ທ'], [['m', 'i', 'n', 'u', 't', 'e']]), (['ມ', 'ນ', 'າ'], [['m', 'a', 'r', 'c', 'h']]), (['ເ', 'ສ', 'າ'], [['s', 'a', 't', 'u', 'r', 'd', 'a', 'y']]), (['a', 'm'], [['a', 'm']]), (['p', 'm'], [['p', 'm']]), (['ກ', 'ຍ'], [['s', 'e', 'p', 't', 'e', 'm', 'b', 'e', 'r']]), (['ກ', 'ພ'], [['f', 'e', 'b', 'r', 'u', 'a', 'r', 'y']]), (['ກ', 'ລ'], [['j', 'u', 'l', 'y']]), (['ຈ', 'ນ'], [['m', 'o', 'n', 'd', 'a', 'y']]), (['ຊ', 'ມ'], [['h', 'o', 'u', 'r']]), (['ຕ', 'ລ'], [['o', 'c', 't', 'o', 'b', 'e', 'r']]), (['ທ', 'ວ'], [['d', 'e', 'c', 'e', 'm', 'b', 'e', 'r']]), (['ນ', 'ທ'], [['m', 'i', 'n', 'u', 't', 'e']]), (['ພ', 'ຈ'], [['n', 'o', 'v', 'e', 'm', 'b', 'e', 'r']]), (['ພ', 'ດ'], [['w', 'e', 'd', 'n', 'e', 's', 'd', 'a', 'y']]), (['ພ', 'ພ'], [['m', 'a', 'y']]), (['ມ', 'ກ'], [['j', 'a', 'n', 'u', 'a', 'r', 'y']]), (['ມ', 'ຖ'], [['j', 'u', 'n', 'e']]), (['ມ', 'ນ'], [['m', 'a', 'r', 'c', 'h']]), (['ມ', 'ສ'], [['a', 'p', 'r', 'i', 'l']]), (['ສ', 'ກ'], [['f', 'r', 'i', 'd', 'a', 'y']]), (['ສ', 'ຫ'], [['a', 'u', 'g', 'u', 's', 't']]), ([' '], [[' ']]), (['\''], [[]]), (['+'], [['+']]), ([','], [[]]), (['-'], [['-']]), (['.'], [['.']]), (['/'], [['/']]), ([':'], [[':']]), ([';'], [[]]), (['@'], [[]]), (['['], [[]]), ([']'], [[]]), (['z'], [['z']]), (['|'], [[]]), (['ດ'], [['m', 'o', 'n', 't', 'h']]), (['ປ'], [['y', 'e', 'a', 'r']]), (['ມ'], [['d', 'a', 'y']]), (['ວ'], [['s', 'e', 'c', 'o', 'n', 'd']]), (['ອ'], [['w', 'e', 'e', 'k']])]
  relativeType := [(['ອ', 'າ', 'ທ', 'ດ', 'ຫ', 'ນ', 'າ'], ['i', 'n', ' ', '1', ' ', 'w', 'e', 'e', 'k']), (['ອ', 'າ', 'ທ', 'ດ', 'ແ', 'ລ', 'ວ'], ['1', ' ', 'w', 'e', 'e', 'k', ' ', 'a', 'g', 'o']), (['ເ', 'ດ', 'ອ', 'ນ', 'ຫ', 'ນ', 'າ'], ['i', 'n', ' ', '1', ' ', 'm', 'o', 'n', 't', 'h']), (['ເ', 'ດ', 'ອ', 'ນ', 'ແ', 'ລ', 'ວ'], ['1', ' ', 'm', 'o', 'n', 't', 'h', ' ', 'a', 'g', 'o']), (['ຊ', 'ວ', 'ໂ', 'ມ', 'ງ', 'ນ'], ['0', ' ', 'h', 'o', 'u', 'r', ' ', 'a', 'g', 'o']), (['ອ', 'າ', 'ທ', 'ດ', 'ນ'], ['0', ' ', 'w', 'e', 'e', 'k', ' ', 'a', 'g', 'o']), (['ເ', 'ດ', 'ອ', 'ນ', 'ນ'], ['0', ' ', 'm', 'o', 'n', 't', 'h', ' ', 'a', 'g', 'o']), (['ຕ', 'ອ', 'ນ', 'ນ'], ['0', ' ', 's', 'e', 'c', 'o', 'n', 'd', ' ', 'a', 'g', 'o']), (['ນ', 'າ', 'ທ', 'ນ'], ['0', ' ', 'm', 'i', 'n', 'u', 't', 'e', ' ', 'a', 'g', 'o']), (['ປ', 'ກ', 'າ', 'ຍ'], ['1', ' ', 'y', 'e', 'a', 'r', ' ', 'a', 'g', 'o']), (['ປ', 'ຫ', 'ນ', 'າ'], ['i', 'n', ' ', '1', ' ', 'y', 'e', 'a', 'r']), (['ມ', 'ວ', 'າ', 'ນ'], ['1', ' ', 'd', 'a', 'y', ' ', 'a', 'g', 'o']), (['ມ', 'ອ', 'ນ'], ['i', 'n', ' ', '1', ' ', 'd', 'a', 'y']), (['ປ', 'ນ'], ['0', ' ', 'y', 'e', 'a', 'r', ' ', 'a', 'g', 'o']), (['ມ', 'ນ'], ['0', ' ', 'd', 'a', 'y', ' ', 'a', 'g', 'o'])]

/-- internal/data/lrc.go: `lrc_Locale`, dictionary. -/
def lrcDict : LangData where
  name := ['l', 'r', 'c']
  translations := [(['س', 'ي', 'پ', 'ت', 'ا', 'م', 'ر'], [['s', 'e', 'p', 't', 'e', 'm', 'b', 'e', 'r']]), (['ي', 'و', 'ک', 'ت', 'و', 'ڤ', 'ر'], [['o', 'c', 't', 'o', 'b', 'e', 'r']]), (['ج', 'ا', 'ن', 'ڤ', 'ی', 'ە'], [['j', 'a', 'n', 'u', 'a', 'r', 'y']]), (['د', 'ي', 'س', 'ا', 'م', 'ر'], [['d', 'e', 'c', 'e', 'm', 'b', 'e', 'r']]), (['ف', 'ي', 'ڤ', 'ر', 'ی', 'ە'], [['f', 'e', 'b', 'r', 'u', 'a', 'r', 'y']]), (['ن', 'و', 'ڤ', 'ا', 'م', 'ر'], [['n', 'o', 'v', 'e', 'm', 'b', 'e', 'r']]), (['ا', 'ڤ', 'ر', 'ی', 'ل'], [['a', 'p', 'r', 'i', 'l']]), (['ا', 'گ', 'و', 'س', 'ت'], [['a', 'u', 'g', 'u', 's', 't']]), (['ث', 'ا', 'ن', 'ی', 'ە'], [['s', 'e', 'c', 'o', 'n', 'd']]), (['د', 'ي', 'ی', 'ق', 'ە'], [['m', 'i', 'n', 'u', 't', 'e']]), (['ھ', 'ا', 'ف', 'ت', 'ە'], [['w', 'e', 'e', 'k']]), (['ج', 'و', 'ا', 'ن'], [['j', 'u', 'n', 'e']]), (['ج', 'و', 'ل', 'ا'], [['j', 'u', 'l', 'y']]), (['س', 'ا', 'ا', 'ت'], [['h', 'o', 'u', 'r']]), (['م', 'ا', 'ر', 'س'], [['m', 'a', 'r', 'c', 'h']]), (['f', 'r', 'i'], [['f', 'r', 'i', 'd', 'a', 'y']]), (['g', 'm', 't'], [['g', 'm', 't']]), (['m', 'o', 'n'], [['m', 'o', 'n', 'd', 'a', 'y']]), (['s', 'a', 't'], [['s', 'a', 't', 'u', 'r', 'd', 'a', 'y']]), (['s', 'u', 'n'], [['s', 'u', 'n', 'd', 'a', 'y']]), (['t', 'h', 'u'], [['t', 'h', 'u', 'r', 's', 'd', 'a', 'y']]), (['t', 'u', 'e'], [['t', 'u', 'e', 's', 'd', 'a', 'y']]), (['u', 't', 'c'], [['u', 't', 'c']]), (['w', 'e', 'd'], [['w', 'e', 'd', 'n', 'e', 's', 'd', 'a', 'y']]), (['ر', 'و', 'ز'], [['d', 'a', 'y']]), (['س', 'ا', 'ل'], [['y', 'e', 'a', 'r']]), (['م', 'ي', 'ی'], [['m', 'a', 'y']]), (['a', 'm'], [['a', 'm']]), (['p', 'm'], [['p', 'm']]), (['م', 'ا'], [['m', 'o', 'n', 't', 'h']]), ([' '], [[' ']]), (['\''], [[]]), (['+'], [['+']]), ([','], [[]]), (['-'], [['-']]), (['.'], [['.']]), (['/'], [['/']]), ([':'], [[':']]), ([';'], [[]]), (['@'], [[]]), (['['], [[]]), ([']'], [[]]), (['z'], [['z']]), (['|'], [[]])]
  relativeType := [(['t', 'h', 'i', 's', ' ', 'm', 'i', 'n', 'u', 't', 'e'], ['0', ' ', 'm', 'i', 'n', 'u', 't', 'e', ' ', 'a', 'g', 'o']), (['l', 'a', 's', 't', ' ', 'm', 'o', 'n', 't', 'h'], ['1', ' ', 'm', 'o', 'n', 't', 'h', ' ', 'a', 'g', 'o']), (['n', 'e', 'x', 't', ' ', 'm', 'o', 'n', 't', 'h'], ['i', 'n', ' ', '1', ' ', 'm', 'o', 'n', 't', 'h']), (['t', 'h', 'i', 's', ' ', 'm', 'o', 'n', 't', 'h'], ['0', ' ', 'm', 'o', 'n', 't', 'h', ' ', 'a', 'g', 'o']), (['l', 'a', 's', 't', ' ', 'w', 'e', 'e', 'k'], ['1', ' ', 'w', 'e', 'e', 'k', ' ', 'a', 'g', 'o']), (['l', 'a', 's', 't', ' ', 'y', 'e', 'a', 'r'], ['1', ' ', 'y', 'e', 'a', 'r', ' ', 'a', 'g', 'o']), (['n', 'e', 'x', 't', ' ', 'w', 'e', 'e', 'k'], ['i', 'n', ' ', '1', ' ', 'w', 'e', 'e', 'k']), (['n', 'e', 'x', 't', ' ', 'y', 'e', 'a', 'r'], ['i', 'n', ' ', '1', ' ', 'y', 'e', 'a', 'r']), (['t', 'h', 'i', 's', ' ', 'h', 'o', 'u', 'r'], ['0', ' ', 'h', 'o', 'u', 'r', ' ', 'a', 'g', 'o']), (['t', 'h', 'i', 's', ' ', 'w', 'e', 'e', 'k'], ['0', ' ', 'w', 'e', 'e', 'k', ' ', 'a', 'g', 'o']), (['t', 'h', 'i', 's', ' ', 'y', 'e', 'a', 'r'], ['0', ' ', 'y', 'e', 'a', 'r', ' ', 'a', 'g', 'o']), (['د', 'ی', 'ر', 'و', 'ز'], ['1', ' ', 'd', 'a', 'y', ' ', 'a', 'g', 'o']), (['ا', 'م', 'ر', 'و'], ['0', ' ', 'd', 'a', 'y', ' ', 'a', 'g', 'o']), (['ش', 'و', 'ص', 'و'], ['i', 'n', ' ', '1', ' ', 'd', 'a', 'y']), (['n', 'o', 'w'], ['0', ' ', 's', 'e', 'c', 'o', 'n', 'd', ' ', 'a', 'g', 'o'])]

/-- internal/data/lrc.go: `lrc_IQ_Locale`, dictionary. -/
def lrc_IQDict : LangData where
  name := ['l', 'r', 'c', '-', 'I', 'Q']

/-- internal/data/lt.go: `lt_Locale`, dictionary. -/
def ltDict : LangData where
  name := ['l', 't']
  translations := [(['k', 'e', 't', 'v', 'i', 'r', 't', 'a', 'd', 'i', 'e', 'n', 'i', 's'], [['t', 'h', 'u', 'r', 's', 'd', 'a', 'y']]), (['p', 'e', 'n', 'k', 't', 'a', 'd', 'i', 'e', 'n', 'i', 's'], [['f', 'r', 'i', 'd', 'a', 'y']]), (['t', 'r', 'e', 'c', 'i', 'a', 'd', 'i', 'e', 'n', 'i', 's'], [['w', 'e', 'd', 'n', 'e', 's', 'd', 'a', 'y']]), (['a', 'n', 't', 'r', 'a', 'd', 'i', 'e', 'n', 'i', 's'], [['t', 'u', 'e', 's', 'd', 'a', 'y']]), (['p', 'i', 'r', 'm', 'a', 'd', 'i', 'e', 'n', 'i', 's'], [['m', 'o', 'n', 'd', 'a', 'y']]), (['s', 'e', 'k', 'm', 'a', 'd', 'i', 'e', 'n', 'i', 's'], [['s', 'u', 'n', 'd', 'a', 'y']]), (['s', 'e', 's', 't', 'a', 'd', 'i', 'e', 'n', 'i', 's'], [['s', 'a', 't', 'u', 'r', 'd', 'a', 'y']]), (['b', 'a', 'l', 'a', 'n', 'd', 'z', 'i', 'o'], [['a', 'p', 'r', 'i', 'l']]), (['l', 'a', 'p', 'k', 'r', 'i', 'c', 'i', 'o'], [['n', 'o', 'v', 'e', 'm', 'b', 'e', 'r']]), (['l', 'a', 'p', 'k', 'r', 'i', 't', 'i', 's'], [['n', 'o', 'v', 'e', 'm', 'b', 'e', 'r']]), (['p', 'r', 'i', 'e', 's', 'p', 'i', 'e', 't'], [['a', 'm']]), (['r', 'u', 'g', 'p', 'j', 'u', 'c', 'i', 'o'], [['a', 'u', 'g', 'u', 's', 't']]), (['r', 'u', 'g', 'p', 'j', 'u', 't', 'i', 's'], [['a', 'u', 'g', 'u', 's', 't']]), (['b', 'a', 'l', 'a', 'n', 'd', 'i', 's'], [['a', 'p', 'r', 'i', 'l']]), (['b', 'i', 'r', 'z', 'e', 'l', 'i', 'o'], [['j', 'u', 'n', 'e']]), (['b', 'i', 'r', 'z', 'e', 'l', 'i', 's'], [['j', 'u', 'n', 'e']]), (['g', 'r', 'u', 'o', 'd', 'z', 'i', 'o'], [['d', 'e', 'c', 'e', 'm', 'b', 'e', 'r']]), (['r', 'u', 'g', 's', 'e', 'j', 'i', 's'], [['s', 'e', 'p', 't', 'e', 'm', 'b', 'e', 'r']]), (['g', 'e', 'g', 'u', 'z', 'e', 's'], [['m', 'a', 'y']]), (['g', 'r', 'u', 'o', 'd', 'i', 's'], [['d', 'e', 'c', 'e', 'm', 'b', 'e', 'r']]), (['r', 'u', 'g', 's', 'e', 'j', 'o'], [['s', 'e', 'p', 't', 'e', 'm', 'b', 'e', 'r']]), (['s', 'a', 'v', 'a', 'i', 't', 'e'], [['w', 'e', 'e', 'k']]), (['s', 'e', 'k', 'u', 'n', 'd', 'e'], [['s', 'e', 'c', 'o', 'n', 'd']]), (['v', 'a', 'l', 'a', 'n', 'd', 'a'], [['h', 'o', 'u', 'r']]), (['v', 'a', 's', 'a', 'r', 'i', 'o'], [['f', 'e', 'b', 'r', 'u', 'a', 'r', 'y']]), (['v', 'a', 's', 'a', 'r', 'i', 's'], [['f', 'e', 'b', 'r', 'u', 'a', 'r', 'y']]), (['g', 'e', 'g', 'u', 'z', 'e'], [['m', 'a', 'y']]), (['l', 'i', 'e', 'p', 'o', 's'], [['j', 'u', 'l', 'y']]), (['m', 'i', 'n', 'u', 't', 'e'], [['m', 'i', 'n', 'u', 't', 'e']]), (['p', 'o', 'p', 'i', 'e', 't'], [['p', 'm']]), (['s', 'a', 'u', 's', 'i', 'o'], [['j', 'a', 'n', 'u', 'a', 'r', 'y']]), (['s', 'a', 'u', 's', 'i', 's'], [['j', 'a', 'n', 'u', 'a', 'r', 'y']]), (['s', 'p', 'a', 'l', 'i', 'o'], [['o', 'c', 't', 'o', 'b', 'e', 'r']]), (['s', 'p', 'a', 'l', 'i', 's'], [['o', 'c', 't', 'o', 'b', 'e', 'r']]), (['d', 'i', 'e', 'n', 'a'], [['d', 'a', 'y']]), (['g', 'r', 'u', 'o', 'd'], [['d', 'e', 'c', 'e', 'm', 'b', 'e', 'r']]), (['k', 'o', 'v', 'a', 's'], [['m', 'a', 'r', 'c', 'h']]), (['l', 'a', 'p', 'k', 'r'], [['n', 'o', 'v', 'e', 'm', 'b', 'e', 'r']]), (['l', 'i', 'e', 'p', 'a'], [['j', 'u', 'l', 'y']]), (['m', 'e', 'n', 'u', 'o'], [['m', 'o', 'n', 't', 'h']]), (['m', 'e', 't', 'a', 'i'], [['y', 'e', 'a', 'r']]), (['b', 'i', 'r', 'z'], [['j', 'u', 'n', 'e']]), (['k', 'o', 'v', 'o'], [['m', 'a', 'r', 'c', 'h']]), (['l', 'i', 'e', 'p'], [['j', 'u', 'l', 'y']]), (['r', 'u', 'g', 'p'], [['a', 'u', 'g', 'u', 's', 't']]), (['r', 'u', 'g', 's'], [['s', 'e', 'p', 't', 'e', 'm', 'b', 'e', 'r']]), (['s', 'a', 'u', 's'], [['j', 'a', 'n', 'u', 'a', 'r', 'y']]), (['s', 'p', 'a', 'l'], [['o', 'c', 't', 'o', 'b', 'e', 'r']]), (['b', 'a', 'l'], [['a', 'p', 'r', 'i', 'l']]), (['g', 'e', 'g'], [['m', 'a', 'y']]), (['g', 'm', 't'], [['g', 'm', 't']]), (['k', 'o', 'v'], [['m', 'a', 'r', 'c', 'h']]), (['m', 'e', 'n'], [['m', 'o', 'n', 't', 'h']]), (['m', 'i', 'n'], [['m', 'i', 'n', 'u', 't', 'e']]), (['s', 'a', 'v'], [['w', 'e', 'e', 'k']]), (['s', 'e', 'k'], [['s', 'e', 'c', 'o', 'n', 'd']]), (['u', 't', 'c'], [['u', 't', 'c']]), (['v', 'a', 'l'], [['h', 'o', 'u', 'r']]), (['v', 'a', 's'], [['f', 'e', 'b', 'r', 'u', 'a', 'r', 'y']]), (['a', 'm'], [['a', 'm']]), (['a', 'n'], [['t', 'u', 'e', 's', 'd', 'a', 'y']]), (['k', 't'], [['t', 'h', 'u', 'r', 's', 'd', 'a', 'y']]), (['p', 'm'], [['p', 'm']]), (['p', 'n'], [['f', 'r', 'i', 'd', 'a', 'y']]), (['p', 'r'], [['m', 'o', 'n', 'd', 'a', 'y']]), (['s', 'k'], [['s', 'u', 'n', 'd', 'a', 'y']]), (['s', 't'], [['s', 'a', 't', 'u', 'r', 'd', 'a', 'y']]), (['t', 'r'], [['w', 'e', 'd', 'n', 'e', 's', 'd', 'a', 'y']]), ([' '], [[' ']]), (['\''], [[]]), (['+'], [['+']]), ([','], [[]]), (['-'], [['-']]), (['.'], [['.']]), (['/'], [['/']]), ([':'], [[':']]), ([';'], [[]]), (['@'], [[]]), (['['], [[]]), ([']'], [[]]), (['d'], [['d', 'a', 'y']]), (['h'], [['h', 'o', 'u', 'r']]), (['m'], [['y', 'e', 'a', 'r']]), (['s'], [['s', 'e', 'c', 'o', 'n', 'd']]), (['z'], [['z']]), (['|'], [[]])]
  relativeType := [(['p', 'r', 'a', 'e', 'j', 'u', 's', 'i', 'a', 'i', 's', ' ', 'm', 'e', 't', 'a', 'i', 's'], ['1', ' ', 'y', 'e', 'a', 'r', ' ', 'a', 'g', 'o']), (['p', 'r', 'a', 'e', 'j', 'u', 's', 'i', 'a', ' ', 's', 'a', 'v', 'a', 'i', 't', 'e'], ['1', ' ', 'w', 'e', 'e', 'k', ' ', 'a', 'g', 'o']), (['p', 'r', 'a', 'e', 'j', 'u', 's', 'i', ' ', 'm', 'e', 'n', 'e', 's', 'i'], ['1', ' ', 'm', 'o', 'n', 't', 'h', ' ', 'a', 'g', 'o']), (['k', 'i', 't', 'a', 'i', 's', ' ', 'm', 'e', 't', 'a', 'i', 's'], ['i', 'n', ' ', '1', ' ', 'y', 'e', 'a', 'r']), (['k', 'i', 't', 'a', ' ', 's', 'a', 'v', 'a', 'i', 't', 'e'], ['i', 'n', ' ', '1', ' ', 'w', 'e', 'e', 'k']), (['s', 'i', 'a', 'i', 's', ' ', 'm', 'e', 't', 'a', 'i', 's'], ['0', ' ', 'y', 'e', 'a', 'r', ' ', 'a', 'g', 'o']), (['k', 'i', 't', 'a', ' ', 'm', 'e', 'n', 'e', 's', 'i'], ['i', 'n', ' ', '1', ' ', 'm', 'o', 'n', 't', 'h']), (['s', 'i', 'a', ' ', 's', 'a', 'v', 'a', 'i', 't', 'e'], ['0', ' ', 'w', 'e', 'e', 'k', ' ', 'a', 'g', 'o']), (['s', 'i', 'a', ' ', 'v', 'a', 'l', 'a', 'n', 'd', 'a'], ['0', ' ', 'h', 'o', 'u', 'r', ' ', 'a', 'g', 'o']), (['s', 'i', 'a', ' ', 'm', 'i', 'n', 'u', 't', 'e'], ['0', ' ', 'm', 'i', 'n', 'u', 't', 'e', ' ', 'a', 'g', 'o']), (['s', 'i', ' ', 'm', 'e', 'n', 'e', 's', 'i'], ['0', ' ', 'm', 'o', 'n', 't', 'h', ' ', 'a', 'g', 'o']), (['s', 'i', 'a', 'n', 'd', 'i', 'e', 'n'], ['0', ' ', 'd', 'a', 'y', ' ', 'a', 'g', 'o']), (['d', 'a', 'b', 'a', 'r'], ['0', ' ', 's', 'e', 'c', 'o', 'n', 'd', ' ', 'a', 'g', 'o']), (['r', 'y', 't', 'o', 'j'], ['i', 'n', ' ', '1', ' ', 'd', 'a', 'y']), (['v', 'a', 'k', 'a', 'r'], ['1', ' ', 'd', 'a', 'y', ' ', 'a', 'g', 'o'])]

/-- internal/data/lu.go: `lu_Locale`, dictionary. -/
def luDict : LangData where
  name := ['l', 'u']
  translations := [(['k', 'a', 'b', 'a', 'l', 'a', 's', 'h', 'i', 'p', 'u'], [['j', 'u', 'l', 'y']]), (['k', 'a', 's', 'u', 'n', 's', 'u', 'k', 'u', 's', 'u'], [['s', 'e', 'c', 'o', 'n', 'd']]), (['k', 'a', 's', 'w', 'e', 'k', 'e', 's', 'e'], [['n', 'o', 'v', 'e', 'm', 'b', 'e', 'r']]), (['l', 'u', 'm', 'u', 'n', 'g', 'u', 'l', 'u'], [['m', 'a', 'y']]), (['l', 'u', 't', 'o', 'n', 'g', 'o', 'l', 'o'], [['s', 'e', 'p', 't', 'e', 'm', 'b', 'e', 'r']]), (['t', 's', 'h', 'i', 'd', 'i', 'm', 'u'], [['y', 'e', 'a', 'r']]), (['k', 'a', 's', 'u', 'n', 's', 'u'], [['m', 'i', 'n', 'u', 't', 'e']]), (['l', 'u', 'b', 'i', 'n', 'g', 'u'], [['w', 'e', 'e', 'k'], ['s', 'a', 't', 'u', 'r', 'd', 'a', 'y']]), (['l', 'u', 'f', 'u', 'i', 'm', 'i'], [['j', 'u', 'n', 'e']]), (['l', 'u', 'm', 'i', 'n', 'g', 'u'], [['s', 'u', 'n', 'd', 'a', 'y']]), (['l', 'u', 'n', 'g', 'u', 'd', 'i'], [['o', 'c', 't', 'o', 'b', 'e', 'r']]), (['l', 'u', 's', 'h', 'i', 'k', 'a'], [['a', 'u', 'g', 'u', 's', 't']]), (['c', 'i', 'o', 'n', 'g', 'o'], [['j', 'a', 'n', 'u', 'a', 'r', 'y']]), (['d', 'i', 'l', 'o', 'l', 'o'], [['p', 'm']]), (['d', 'i', 't', 'u', 'k', 'u'], [['d', 'a', 'y']]), (['l', 'u', 'i', 's', 'h', 'i'], [['f', 'e', 'b', 'r', 'u', 'a', 'r', 'y']]), (['l', 'u', 's', 'o', 'l', 'o'], [['m', 'a', 'r', 'c', 'h']]), (['n', 'd', 'a', 'a', 'y', 'a'], [['t', 'u', 'e', 's', 'd', 'a', 'y']]), (['n', 'd', 'a', 'n', 'g', 'u'], [['w', 'e', 'd', 'n', 'e', 's', 'd', 'a', 'y']]), (['n', 'g', 'o', 'n', 'd', 'o'], [['m', 'o', 'n', 't', 'h']]), (['n', 'g', 'o', 'v', 'y', 'a'], [['f', 'r', 'i', 'd', 'a', 'y']]), (['n', 'k', 'o', 'd', 'y', 'a'], [['m', 'o', 'n', 'd', 'a', 'y']]), (['c', 'i', 's', 'w', 'a'], [['d', 'e', 'c', 'e', 'm', 'b', 'e', 'r']]), (['d', 'i', 'n', 'd', 'a'], [['a', 'm']]), (['m', 'u', 'u', 'y', 'a'], [['a', 'p', 'r', 'i', 'l']]), (['n', 'j', 'o', 'w', 'a'], [['t', 'h', 'u', 'r', 's', 'd', 'a', 'y']]), (['d', 'i', 'b', 'a'], [['h', 'o', 'u', 'r']]), (['l', 'u', 's', 'h'], [['a', 'u', 'g', 'u', 's', 't']]), (['c', 'i', 'o'], [['j', 'a', 'n', 'u', 'a', 'r', 'y']]), (['c', 'i', 's'], [['d', 'e', 'c', 'e', 'm', 'b', 'e', 'r']]), (['g', 'm', 't'], [['g', 'm', 't']]), (['k', 'a', 'b'], [['j', 'u', 'l', 'y']]), (['k', 'a', 's'], [['n', 'o', 'v', 'e', 'm', 'b', 'e', 'r']]), (['l', 'u', 'b'], [['s', 'a', 't', 'u', 'r', 'd', 'a', 'y']]), (['l', 'u', 'f'], [['j', 'u', 'n', 'e']]), (['l', 'u', 'i'], [['f', 'e', 'b', 'r', 'u', 'a', 'r', 'y']]), (['l', 'u', 'm'], [['m', 'a', 'y'], ['s', 'u', 'n', 'd', 'a', 'y']]), (['l', 'u', 'n'], [['o', 'c', 't', 'o', 'b', 'e', 'r']]), (['l', 'u', 's'], [['m', 'a', 'r', 'c', 'h']]), (['l', 'u', 't'], [['s', 'e', 'p', 't', 'e', 'm', 'b', 'e', 'r']]), (['m', 'u', 'u'], [['a', 'p', 'r', 'i', 'l']]), (['n', 'd', 'g'], [['w', 'e', 'd', 'n', 'e', 's', 'd', 'a', 'y']]), (['n', 'd', 'y'], [['t', 'u', 'e', 's', 'd', 'a', 'y']]), (['n', 'g', 'v'], [['f', 'r', 'i', 'd', 'a', 'y']]), (['n', 'j', 'w'], [['t', 'h', 'u', 'r', 's', 'd', 'a', 'y']]), (['n', 'k', 'o'], [['m', 'o', 'n', 'd', 'a', 'y']]), (['u', 't', 'c'], [['u', 't', 'c']]), (['a', 'm'], [['a', 'm']]), (['p', 'm'], [['p', 'm']]), ([' '], [[' ']]), (['\''], [[]]), (['+'], [['+']]), ([','], [[]]), (['-'], [['-']]), (['.'], [['.']]), (['/'], [['/']]), ([':'], [[':']]), ([';'], [[]]), (['@'], [[]]), (['['], [[]]), ([']'], [[]]), (['z'], [['z']]), (['|'], [[]])]
  relativeType := [(['t', 'h', 'i', 's', ' ', 'm', 'i', 'n', 'u', 't', 'e'], ['0', ' ', 'm', 'i', 'n', 'u', 't', 'e', ' ', 'a', 'g', 'o']), (['l', 'a', 's', 't', ' ', 'm', 'o', 'n', 't', 'h'], ['1', ' ', 'm', 'o', 'n', 't', 'h', ' ', 'a', 'g', 'o']), (['n', 'e', 'x', 't', ' ', 'm', 'o', 'n', 't', 'h'], ['i', 'n', ' ', '1', ' ', 'm', 'o', 'n', 't', 'h']), (['t', 'h', 'i', 's', ' ', 'm', 'o', 'n', 't', 'h'], ['0', ' ', 'm', 'o', 'n', 't', 'h', ' ', 'a', 'g', 'o']), (['l', 'a', 's', 't', ' ', 'w', 'e', 'e', 'k'], ['1', ' ', 'w', 'e', 'e', 'k', ' ', 'a', 'g', 'o']), (['l', 'a', 's', 't', ' ', 'y', 'e', 'a', 'r'], ['1', ' ', 'y', 'e', 'a', 'r', ' ', 'a', 'g', 'o']), (['n', 'e', 'x', 't', ' ', 'w', 'e', 'e', 'k'], ['i', 'n', ' ', '1', ' ', 'w', 'e', 'e', 'k']), (['n', 'e', 'x', 't', ' ', 'y', 'e', 'a', 'r'], ['i', 'n', ' ', '1', ' ', 'y', 'e', 'a', 'r']), (['t', 'h', 'i', 's', ' ', 'h', 'o', 'u', 'r'], ['0', ' ', 'h', 'o', 'u', 'r', ' ', 'a', 'g', 'o']), (['t', 'h', 'i', 's', ' ', 'w', 'e', 'e', 'k'], ['0', ' ', 'w', 'e', 'e', 'k', ' ', 'a', 'g', 'o']), (['t', 'h', 'i', 's', ' ', 'y', 'e', 'a', 'r'], ['0', ' ', 'y', 'e', 'a', 'r', ' ', 'a', 'g', 'o']), (['m', 'a', 'k', 'e', 'l', 'e', 'l', 'a'], ['1', ' ', 'd', 'a', 'y', ' ', 'a', 'g', 'o']), (['m', 'a', 'l', 'a', 'b', 'a'], ['i', 'n', ' ', '1', ' ', 'd', 'a', 'y']), (['l', 'e', 'l', 'u'], ['0', ' ', 'd', 'a', 'y', ' ', 'a', 'g', 'o']), (['n', 'o', 'w'], ['0', ' ', 's', 'e', 'c', 'o', 'n', 'd', ' ', 'a', 'g', 'o'])]

/-- internal/data/luo.go: `luo_Locale`, dictionary. -/
def luoDict : LangData where
  name := ['l', 'u', 'o']
  translations := [(['d', 'w', 'e', ' ', 'm', 'a', 'r', ' ', 'a', 'p', 'a', 'r', ' ', 'g', 'i', ' ', 'a', 'r', 'i', 'y', 'o'], [['d', 'e', 'c', 'e', 'm', 'b', 'e', 'r']]), (['d', 'w', 'e', ' ', 'm', 'a', 'r', ' ', 'g', 'i', ' ', 'a', 'c', 'h', 'i', 'e', 'l'], [['n', 'o', 'v', 'e', 'm', 'b', 'e', 'r']]), (['d', 'w', 'e', ' ', 'm', 'a', 'r', ' ', 'a', 'b', 'i', 'r', 'i', 'y', 'o'], [['j', 'u', 'l', 'y']]), (['d', 'w', 'e', ' ', 'm', 'a', 'r', ' ', 'a', 'n', 'g', '\'', 'w', 'e', 'n'], [['a', 'p', 'r', 'i', 'l']]), (['d', 'w', 'e', ' ', 'm', 'a', 'r', ' ', 'a', 'u', 'c', 'h', 'i', 'e', 'l'], [['j', 'u', 'n', 'e']]), (['n', 'y', 'i', 'r', 'i', 'r', 'i', ' ', 'm', 'a', 'r', ' ', 's', 'a', 'a'], [['s', 'e', 'c', 'o', 'n', 'd']]), (['d', 'w', 'e', ' ', 'm', 'a', 'r', ' ', 'a', 'c', 'h', 'i', 'e', 'l'], [['j', 'a', 'n', 'u', 'a', 'r', 'y']]), (['d', 'w', 'e', ' ', 'm', 'a', 'r', ' ', 'o', 'c', 'h', 'i', 'k', 'o'], [['s', 'e', 'p', 't', 'e', 'm', 'b', 'e', 'r']]), (['d', 'w', 'e', ' ', 'm', 'a', 'r', ' ', 'a', 'b', 'i', 'c', 'h'], [['m', 'a', 'y']]), (['d', 'w', 'e', ' ', 'm', 'a', 'r', ' ', 'a', 'b', 'o', 'r', 'o'], [['a', 'u', 'g', 'u', 's', 't']]), (['d', 'w', 'e', ' ', 'm', 'a', 'r', ' ', 'a', 'r', 'i', 'y', 'o'], [['f', 'e', 'b', 'r', 'u', 'a', 'r', 'y']]), (['d', 'w', 'e', ' ', 'm', 'a', 'r', ' ', 'a', 'd', 'e', 'k'], [['m', 'a', 'r', 'c', 'h']]), (['d', 'w', 'e', ' ', 'm', 'a', 'r', ' ', 'a', 'p', 'a', 'r'], [['o', 'c', 't', 'o', 'b', 'e', 'r']]), (['t', 'i', 'c', 'h', ' ', 'a', 'n', 'g', '\'', 'w', 'e', 'n'], [['t', 'h', 'u', 'r', 's', 'd', 'a', 'y']]), (['t', 'i', 'c', 'h', ' ', 'a', 'b', 'i', 'c', 'h'], [['f', 'r', 'i', 'd', 'a', 'y']]), (['t', 'i', 'c', 'h', ' ', 'a', 'r', 'i', 'y', 'o'], [['t', 'u', 'e', 's', 'd', 'a', 'y']]), (['t', 'i', 'c', 'h', ' ', 'a', 'd', 'e', 'k'], [['w', 'e', 'd', 'n', 'e', 's', 'd', 'a', 'y']]), (['w', 'u', 'o', 'k', ' ', 't', 'i', 'c', 'h'], [['m', 'o', 'n', 'd', 'a', 'y']]), (['c', 'h', 'i', 'e', 'n', 'g', '\''], [['d', 'a', 'y']]), (['j', 'u', 'm', 'a', 'p', 'i', 'l'], [['s', 'u', 'n', 'd', 'a', 'y']]), (['d', 'a', 'k', 'i', 'k', 'a'], [['m', 'i', 'n', 'u', 't', 'e']]), (['n', 'g', 'e', 's', 'o'], [['s', 'a', 't', 'u', 'r', 'd', 'a', 'y']]), (['h', 'i', 'g', 'a'], [['y', 'e', 'a', 'r']]), (['j', 'u', 'm', 'a'], [['w', 'e', 'e', 'k']]), (['d', 'a', 'b'], [['a', 'u', 'g', 'u', 's', 't']]), (['d', 'a', 'c'], [['j', 'a', 'n', 'u', 'a', 'r', 'y']]), (['d', 'a', 'd'], [['m', 'a', 'r', 'c', 'h']]), (['d', 'a', 'g'], [['d', 'e', 'c', 'e', 'm', 'b', 'e', 'r']]), (['d', 'a', 'h'], [['m', 'a', 'y']]), (['d', 'a', 'n'], [['a', 'p', 'r', 'i', 'l']]), (['d', 'a', 'o'], [['j', 'u', 'l', 'y']]), (['d', 'a', 'p'], [['o', 'c', 't', 'o', 'b', 'e', 'r']]), (['d', 'a', 'r'], [['f', 'e', 'b', 'r', 'u', 'a', 'r', 'y']]), (['d', 'a', 'u'], [['j', 'u', 'n', 'e']]), (['d', 'g', 'i'], [['n', 'o', 'v', 'e', 'm', 'b', 'e', 'r']]), (['d', 'o', 'c'], [['s', 'e', 'p', 't', 'e', 'm', 'b', 'e', 'r']]), (['d', 'w', 'e'], [['m', 'o', 'n', 't', 'h']]), (['g', 'm', 't'], [['g', 'm', 't']]), (['j', 'm', 'p'], [['s', 'u', 'n', 'd', 'a', 'y']]), (['n', 'g', 's'], [['s', 'a', 't', 'u', 'r', 'd', 'a', 'y']]), (['s', 'a', 'a'], [['h', 'o', 'u', 'r']]), (['t', 'a', 'b'], [['f', 'r', 'i', 'd', 'a', 'y']]), (['t', 'a', 'd'], [['w', 'e', 'd', 'n', 'e', 's', 'd', 'a', 'y']]), (['t', 'a', 'n'], [['t', 'h', 'u', 'r', 's', 'd', 'a', 'y']]), (['t', 'a', 'r'], [['t', 'u', 'e', 's', 'd', 'a', 'y']]), (['u', 't', 'c'], [['u', 't', 'c']]), (['w', 'u', 't'], [['m', 'o', 'n', 'd', 'a', 'y']]), (['a', 'm'], [['a', 'm']]), (['o', 'd'], [['a', 'm']]), (['o', 't'], [['p', 'm']]), (['p', 'm'], [['p', 'm']]), ([' '], [[' ']]), (['\''], [[]]), (['+'], [['+']]), ([','], [[]]), (['-'], [['-']]), (['.'], [['.']]), (['/'], [['/']]), ([':'], [[':']]), ([';'], [[]]), (['@'], [[]]), (['['], [[]]), ([']'], [[]]), (['z'], [['z']]), (['|'], [[]])]
  relativeType := [(['t', 'h', 'i', 's', ' ', 'm', 'i', 'n', 'u', 't', 'e'], ['0', ' ', 'm', 'i', 'n', 'u', 't', 'e', ' ', 'a', 'g', 'o']), (['l', 'a', 's', 't', ' ', 'm', 'o', 'n', 't', 'h'], ['1', ' ', 'm', 'o', 'n', 't', 'h', ' ', 'a', 'g', 'o']), (['n', 'e', 'x', 't', ' ', 'm', 'o', 'n', 't', 'h'], ['i', 'n', ' ', '1', ' ', 'm', 'o', 'n', 't', 'h']), (['t', 'h', 'i', 's', ' ', 'm', 'o', 'n', 't', 'h'], ['0', ' ', 'm', 'o', 'n', 't', 'h', ' ', 'a', 'g', 'o']), (['l', 'a', 's', 't', ' ', 'w', 'e', 'e', 'k'], ['1', ' ', 'w', 'e', 'e', 'k', ' ', 'a', 'g', 'o']), (['l', 'a', 's', 't', ' ', 'y', 'e', 'a', 'r'], ['1', ' ', 'y', 'e', 'a', 'r', ' ', 'a', 'g', 'o']), (['n', 'e', 'x', 't', ' ', 'w', 'e', 'e', 'k'], ['i', 'n', ' ', '1', ' ', 'w', 'e', 'e', 'k']), (['n', 'e', 'x', 't', ' ', 'y', 'e', 'a', 'r'], ['i', 'n', ' ', '1', ' ', 'y', 'e', 'a', 'r']), (['t', 'h', 'i', 's', ' ', 'h', 'o', 'u', 'r'], ['0', ' ', 'h', 'o', 'u', 'r', ' ', 'a', 'g', 'o']), (['t', 'h', 'i', 's', ' ', 'w', 'e', 'e', 'k'], ['0', ' ', 'w', 'e', 'e', 'k', ' ', 'a', 'g', 'o']), (['t', 'h', 'i', 's', ' ', 'y', 'e', 'a', 'r'], ['0', ' ', 'y', 'e', 'a', 'r', ' ', 'a', 'g', 'o']), (['k', 'a', 'w', 'u', 'o', 'n', 'o'], ['0', ' ', 'd', 'a', 'y', ' ', 'a', 'g', 'o']), (['n', 'y', 'o', 'r', 'o'], ['1', ' ', 'd', 'a', 'y', ' ', 'a', 'g', 'o']), (['k', 'i', 'n', 'y'], ['i', 'n', ' ', '1', ' ', 'd', 'a', 'y']), (['n', 'o', 'w'], ['0', ' ', 's', 'e', 'c', 'o', 'n', 'd', ' ', 'a', 'g', 'o'])]

/-- internal/data/luy.go: `luy_Locale`, dictionary. -/
def luyDict : LangData where
  name := ['l', 'u', 'y']
  translations := [(['m', 'u', 'r', 'w', 'a', ' ', 'w', 'a', ' ', 'k', 'a', 't', 'a', 'n', 'o'], [['f', 'r', 'i', 'd', 'a', 'y']]), (['m', 'u', 'r', 'w', 'a', ' ', 'w', 'a', ' ', 'k', 'a', 'n', 'n', 'e'], [['t', 'h', 'u', 'r', 's', 'd', 'a', 'y']]), (['f', 'e', 'b', 'r', 'u', 'a', 'r', 'i'], [['f', 'e', 'b', 'r', 'u', 'a', 'r', 'y']]), (['j', 'u', 'm', 'a', 'm', 'o', 's', 'i'], [['s', 'a', 't', 'u', 'r', 'd', 'a', 'y']]), (['j', 'u', 'm', 'a', 'p', 'i', 'r', 'i'], [['s', 'u', 'n', 'd', 'a', 'y']]), (['j', 'u', 'm', 'a', 't', 'a', 'n', 'o'], [['w', 'e', 'd', 'n', 'e', 's', 'd', 'a', 'y']]), (['j', 'u', 'm', 'a', 't', 'a', 't', 'u'], [['m', 'o', 'n', 'd', 'a', 'y']]), (['s', 'e', 'p', 't', 'e', 'm', 'b', 'a'], [['s', 'e', 'p', 't', 'e', 'm', 'b', 'e', 'r']]), (['d', 'e', 's', 'e', 'm', 'b', 'a'], [['d', 'e', 'c', 'e', 'm', 'b', 'e', 'r']]), (['i', 'd', 'a', 'g', 'i', 'k', 'a'], [['m', 'i', 'n', 'u', 't', 'e']]), (['j', 'a', 'n', 'u', 'a', 'r', 'i'], [['j', 'a', 'n', 'u', 'a', 'r', 'y']]), (['j', 'u', 'm', 'a', 'n', 'n', 'e'], [['t', 'u', 'e', 's', 'd', 'a', 'y']]), (['n', 'o', 'v', 'e', 'm', 'b', 'a'], [['n', 'o', 'v', 'e', 'm', 'b', 'e', 'r']]), (['s', 'e', 'k', 'u', 'n', 'd', 'e'], [['s', 'e', 'c', 'o', 'n', 'd']]), (['a', 'g', 'o', 's', 't', 'i'], [['a', 'u', 'g', 'u', 's', 't']]), (['a', 'p', 'r', 'i', 'l', 'i'], [['a', 'p', 'r', 'i', 'l']]), (['m', 'u', 'h', 'i', 'g', 'a'], [['y', 'e', 'a', 'r']]), (['o', 'k', 't', 'o', 'b', 'a'], [['o', 'c', 't', 'o', 'b', 'e', 'r']]), (['r', 'i', 'd', 'i', 'k', 'u'], [['d', 'a', 'y']]), (['r', 'i', 's', 'i', 'z', 'a'], [['w', 'e', 'e', 'k']]), (['j', 'u', 'l', 'a', 'i'], [['j', 'u', 'l', 'y']]), (['m', 'a', 'c', 'h', 'i'], [['m', 'a', 'r', 'c', 'h']]), (['m', 'w', 'e', 'r', 'i'], [['m', 'o', 'n', 't', 'h']]), (['i', 's', 'a', 'a'], [['h', 'o', 'u', 'r']]), (['j', 'u', 'n', 'i'], [['j', 'u', 'n', 'e']]), (['a', 'g', 'o'], [['a', 'u', 'g', 'u', 's', 't']]), (['a', 'p', 'r'], [['a', 'p', 'r', 'i', 'l']]), (['d', 'e', 's'], [['d', 'e', 'c', 'e', 'm', 'b', 'e', 'r']]), (['f', 'e', 'b'], [['f', 'e', 'b', 'r', 'u', 'a', 'r', 'y']]), (['g', 'm', 't'], [['g', 'm', 't']]), (['j', 'a', 'n'], [['j', 'a', 'n', 'u', 'a', 'r', 'y']]), (['j', 'u', 'l'], [['j', 'u', 'l', 'y']]), (['j', 'u', 'n'], [['j', 'u', 'n', 'e']]), (['m', 'a', 'r'], [['m', 'a', 'r', 'c', 'h']]), (['m', 'e', 'i'], [['m', 'a', 'y']]), (['n', 'o', 'v'], [['n', 'o', 'v', 'e', 'm', 'b', 'e', 'r']]), (['o', 'k', 't'], [['o', 'c', 't', 'o', 'b', 'e', 'r']]), (['s', 'e', 'p'], [['s', 'e', 'p', 't', 'e', 'm', 'b', 'e', 'r']]), (['u', 't', 'c'], [['u', 't', 'c']]), (['a', 'l'], [['t', 'h', 'u', 'r', 's', 'd', 'a', 'y']]), (['a', 'm'], [['a', 'm']]), (['i', 'j'], [['f', 'r', 'i', 'd', 'a', 'y']]), (['j', '1'], [['s', 'a', 't', 'u', 'r', 'd', 'a', 'y']]), (['j', '2'], [['s', 'u', 'n', 'd', 'a', 'y']]), (['j', '3'], [['m', 'o', 'n', 'd', 'a', 'y']]), (['j', '4'], [['t', 'u', 'e', 's', 'd', 'a', 'y']]), (['j', '5'], [['w', 'e', 'd', 'n', 'e', 's', 'd', 'a', 'y']]), (['p', 'm'], [['p', 'm']]), ([' '], [[' ']]), (['\''], [[]]), (['+'], [['+']]), ([','], [[]]), (['-'], [['-']]), (['.'], [['.']]), (['/'], [['/']]), ([':'], [[':']]), ([';'], [[]]), (['@'], [[]]), (['['], [[]]), ([']'], [[]]), (['z'], [['z']]), (['|'], [[]])]
  relativeType := [(['t', 'h', 'i', 's', ' ', 'm', 'i', 'n', 'u', 't', 'e'], ['0', ' ', 'm', 'i', 'n', 'u', 't', 'e', ' ', 'a', 'g', 'o']), (['l', 'a', 's', 't', ' ', 'm', 'o', 'n', 't', 'h'], ['1', ' ', 'm', 'o', 'n', 't', 'h', ' ', 'a', 'g', 'o']), (['n', 'e', 'x', 't', ' ', 'm', 'o', 'n', 't', 'h'], ['i', 'n', ' ', '1', ' ', 'm', 'o', 'n', 't', 'h']), (['t', 'h', 'i', 's', ' ', 'm', 'o', 'n', 't', 'h'], ['0', ' ', 'm', 'o', 'n', 't', 'h', ' ', 'a', 'g', 'o']), (['l', 'a', 's', 't', ' ', 'w', 'e', 'e', 'k'], ['1', ' ', 'w', 'e', 'e', 'k', ' ', 'a', 'g', 'o']), (['l', 'a', 's', 't', ' ', 'y', 'e', 'a', 'r'], ['1', ' ', 'y', 'e', 'a', 'r', ' ', 'a', 'g', 'o']), (['n', 'e', 'x', 't', ' ', 'w', 'e', 'e', 'k'], ['i', 'n', ' ', '1', ' ', 'w', 'e', 'e', 'k']), (['n', 'e', 'x', 't', ' ', 'y', 'e', 'a', 'r'], ['i', 'n', ' ', '1', ' ', 'y', 'e', 'a', 'r']), (['t', 'h', 'i', 's', ' ', 'h', 'o', 'u', 'r'], ['0', ' ', 'h', 'o', 'u', 'r', ' ', 'a', 'g', 'o']), (['t', 'h', 'i', 's', ' ', 'w', 'e', 'e', 'k'], ['0', ' ', 'w', 'e', 'e', 'k', ' ', 'a', 'g', 'o']), (['t', 'h', 'i', 's', ' ', 'y', 'e', 'a', 'r'], ['0', ' ', 'y', 'e', 'a', 'r', ' ', 'a', 'g', 'o']), (['m', 'g', 'o', 'r', 'o', 'v', 'a'], ['1', ' ', 'd', 'a', 'y', ' ', 'a', 'g', 'o']), (['m', 'g', 'a', 'm', 'b', 'a'], ['i', 'n', ' ', '1', ' ', 'd', 'a', 'y']), (['l', 'e', 'r', 'o'], ['0', ' ', 'd', 'a', 'y', ' ', 'a', 'g', 'o']), (['n', 'o', 'w'], ['0', ' ', 's', 'e', 'c', 'o', 'n', 'd', ' ', 'a', 'g', 'o'])]

/-- internal/data/lv.go: `lv_Locale`, dictionary. -/
def lvDict : LangData where
  name := ['l', 'v']
  translations := [(['p', 'r', 'i', 'e', 'k', 's', 'p', 'u', 's', 'd', 'i', 'e', 'n', 'a'], [['a', 'm']]), (['c', 'e', 't', 'u', 'r', 't', 'd', 'i', 'e', 'n', 'a'], [['t', 'h', 'u', 'r', 's', 'd', 'a', 'y']]), (['p', 'e', 'c', 'p', 'u', 's', 'd', 'i', 'e', 'n', 'a'], [['p', 'm']]), (['p', 'i', 'e', 'k', 't', 'd', 'i', 'e', 'n', 'a'], [['f', 'r', 'i', 'd', 'a', 'y']]), (['s', 'e', 'p', 't', 'e', 'm', 'b', 'r', 'i', 's'], [['s', 'e', 'p', 't', 'e', 'm', 'b', 'e', 'r']]), (['d', 'e', 'c', 'e', 'm', 'b', 'r', 'i', 's'], [['d', 'e', 'c', 'e', 'm', 'b', 'e', 'r']]), (['f', 'e', 'b', 'r', 'u', 'a', 'r', 'i', 's'], [['f', 'e', 'b', 'r', 'u', 'a', 'r', 'y']]), (['n', 'o', 'v', 'e', 'm', 'b', 'r', 'i', 's'], [['n', 'o', 'v', 'e', 'm', 'b', 'e', 'r']]), (['p', 'i', 'r', 'm', 'd', 'i', 'e', 'n', 'a'], [['m', 'o', 'n', 'd', 'a', 'y']]), (['s', 'e', 's', 't', 'd', 'i', 'e', 'n', 'a'], [['s', 'a', 't', 'u', 'r', 'd', 'a', 'y']]), (['s', 'v', 'e', 't', 'd', 'i', 'e', 'n', 'a'], [['s', 'u', 'n', 'd', 'a', 'y']]), (['t', 'r', 'e', 's', 'd', 'i', 'e', 'n', 'a'], [['w', 'e', 'd', 'n', 'e', 's', 'd', 'a', 'y']]), (['j', 'a', 'n', 'v', 'a', 'r', 'i', 's'], [['j', 'a', 'n', 'u', 'a', 'r', 'y']]), (['o', 'k', 't', 'o', 'b', 'r', 'i', 's'], [['o', 'c', 't', 'o', 'b', 'e', 'r']]), (['o', 't', 'r', 'd', 'i', 'e', 'n', 'a'], [['t', 'u', 'e', 's', 'd', 'a', 'y']]), (['s', 'e', 'k', 'u', 'n', 'd', 'e', 's'], [['s', 'e', 'c', 'o', 'n', 'd']]), (['a', 'p', 'r', 'i', 'l', 'i', 's'], [['a', 'p', 'r', 'i', 'l']]), (['a', 'u', 'g', 'u', 's', 't', 's'], [['a', 'u', 'g', 'u', 's', 't']]), (['c', 'e', 't', 'u', 'r', 't', 'd'], [['t', 'h', 'u', 'r', 's', 'd', 'a', 'y']]), (['m', 'e', 'n', 'e', 's', 'i', 's'], [['m', 'o', 'n', 't', 'h']]), (['m', 'i', 'n', 'u', 't', 'e', 's'], [['m', 'i', 'n', 'u', 't', 'e']]), (['p', 'e', 'c', 'p', 'u', 's', 'd'], [['p', 'm']]), (['p', 'r', 'i', 'e', 'k', 's', 'p'], [['a', 'm']]), (['s', 't', 'u', 'n', 'd', 'a', 's'], [['h', 'o', 'u', 'r']]), (['j', 'u', 'l', 'i', 'j', 's'], [['j', 'u', 'l', 'y']]), (['j', 'u', 'n', 'i', 'j', 's'], [['j', 'u', 'n', 'e']]), (['n', 'e', 'd', 'e', 'l', 'a'], [['w', 'e', 'e', 'k']]), (['p', 'i', 'e', 'k', 't', 'd'], [['f', 'r', 'i', 'd', 'a', 'y']]), (['d', 'i', 'e', 'n', 'a'], [['d', 'a', 'y']]), (['m', 'a', 'i', 'j', 's'], [['m', 'a', 'y']]), (['m', 'a', 'r', 't', 's'], [['m', 'a', 'r', 'c', 'h']]), (['p', 'i', 'r', 'm', 'd'], [['m', 'o', 'n', 'd', 'a', 'y']]), (['s', 'e', 's', 't', 'd'], [['s', 'a', 't', 'u', 'r', 'd', 'a', 'y']]), (['s', 'v', 'e', 't', 'd'], [['s', 'u', 'n', 'd', 'a', 'y']]), (['t', 'r', 'e', 's', 'd'], [['w', 'e', 'd', 'n', 'e', 's', 'd', 'a', 'y']]), (['f', 'e', 'b', 'r'], [['f', 'e', 'b', 'r', 'u', 'a', 'r', 'y']]), (['g', 'a', 'd', 's'], [['y', 'e', 'a', 'r']]), (['j', 'a', 'n', 'v'], [['j', 'a', 'n', 'u', 'a', 'r', 'y']]), (['o', 't', 'r', 'd'], [['t', 'u', 'e', 's', 'd', 'a', 'y']]), (['p', 'e', 'c', 'p'], [['p', 'm']]), (['s', 'e', 'p', 't'], [['s', 'e', 'p', 't', 'e', 'm', 'b', 'e', 'r']]), (['a', 'p', 'r'], [['a', 'p', 'r', 'i', 'l']]), (['a', 'u', 'g'], [['a', 'u', 'g', 'u', 's', 't']]), (['d', 'e', 'c'], [['d', 'e', 'c', 'e', 'm', 'b', 'e', 'r']]), (['g', 'm', 't'], [['g', 'm', 't']]), (['j', 'u', 'l'], [['j', 'u', 'l', 'y']]), (['j', 'u', 'n'], [['j', 'u', 'n', 'e']]), (['m', 'e', 'n'], [['m', 'o', 'n', 't', 'h']]), (['m', 'i', 'n'], [['m', 'i', 'n', 'u', 't', 'e']]), (['n', 'e', 'd'], [['w', 'e', 'e', 'k']]), (['n', 'o', 'v'], [['n', 'o', 'v', 'e', 'm', 'b', 'e', 'r']]), (['o', 'k', 't'], [['o', 'c', 't', 'o', 'b', 'e', 'r']]), (['s', 'e', 'k'], [['s', 'e', 'c', 'o', 'n', 'd']]), (['u', 't', 'c'], [['u', 't', 'c']]), (['a', 'm'], [['a', 'm']]), (['p', 'm'], [['p', 'm']]), (['s', 't'], [['h', 'o', 'u', 'r']]), ([' '], [[' ']]), (['\''], [[]]), (['+'], [['+']]), ([','], [[]]), (['-'], [['-']]), (['.'], [['.']]), (['/'], [['/']]), ([':'], [[':']]), ([';'], [[]]), (['@'], [[]]), (['['], [[]]), ([']'], [[]]), (['d'], [['d', 'a', 'y']]), (['g'], [['y', 'e', 'a', 'r']]), (['h'], [['h', 'o', 'u', 'r']]), (['s'], [['s', 'e', 'c', 'o', 'n', 'd']]), (['z'], [['z']]), (['|'], [[]])]
  relativeType := [(['p', 'a', 'g', 'a', 'j', 'u', 's', 'a', 'j', 'a', ' ', 'm', 'e', 'n', 'e', 's', 'i'], ['1', ' ', 'm', 'o', 'n', 't', 'h', ' ', 'a', 'g', 'o']), (['p', 'a', 'g', 'a', 'j', 'u', 's', 'a', 'j', 'a', ' ', 'n', 'e', 'd', 'e', 'l', 'a'], ['1', ' ', 'w', 'e', 'e', 'k', ' ', 'a', 'g', 'o']), (['n', 'a', 'k', 'a', 'm', 'a', 'j', 'a', ' ', 'm', 'e', 'n', 'e', 's', 'i'], ['i', 'n', ' ', '1', ' ', 'm', 'o', 'n', 't', 'h']), (['n', 'a', 'k', 'a', 'm', 'a', 'j', 'a', ' ', 'n', 'e', 'd', 'e', 'l', 'a'], ['i', 'n', ' ', '1', ' ', 'w', 'e', 'e', 'k']), (['p', 'a', 'g', 'a', 'j', 'u', 's', 'a', 'j', 'a', ' ', 'g', 'a', 'd', 'a'], ['1', ' ', 'y', 'e', 'a', 'r', ' ', 'a', 'g', 'o']), (['n', 'a', 'k', 'a', 'm', 'a', 'j', 'a', ' ', 'g', 'a', 'd', 'a'], ['i', 'n', ' ', '1', ' ', 'y', 'e', 'a', 'r']), (['s', 'a', 'j', 'a', ' ', 'm', 'e', 'n', 'e', 's', 'i'], ['0', ' ', 'm', 'o', 'n', 't', 'h', ' ', 'a', 'g', 'o']), (['s', 'a', 'j', 'a', ' ', 'm', 'i', 'n', 'u', 't', 'e'], ['0', ' ', 'm', 'i', 'n', 'u', 't', 'e', ' ', 'a', 'g', 'o']), (['s', 'a', 'j', 'a', ' ', 'n', 'e', 'd', 'e', 'l', 'a'], ['0', ' ', 'w', 'e', 'e', 'k', ' ', 'a', 'g', 'o']), (['s', 'a', 'j', 'a', ' ', 's', 't', 'u', 'n', 'd', 'a'], ['0', ' ', 'h', 'o', 'u', 'r', ' ', 'a', 'g', 'o']), (['s', 'a', 'j', 'a', ' ', 'g', 'a', 'd', 'a'], ['0', ' ', 'y', 'e', 'a', 'r', ' ', 'a', 'g', 'o']), (['s', 'o', 'd', 'i', 'e', 'n'], ['0', ' ', 'd', 'a', 'y', ' ', 'a', 'g', 'o']), (['t', 'a', 'g', 'a', 'd'], ['0', ' ', 's', 'e', 'c', 'o', 'n', 'd', ' ', 'a', 'g', 'o']), (['v', 'a', 'k', 'a', 'r'], ['1', ' ', 'd', 'a', 'y', ' ', 'a', 'g', 'o']), (['r', 'i', 't'], ['i', 'n', ' ', '1', ' ', 'd', 'a', 'y'])]

/-- internal/data/mas.go: `mas_Locale`, dictionary. -/
def masDict : LangData where
  name := ['m', 'a', 's']
  translations := [(['o', 'l', 'o', 'i', 'l', 'e', 'p', 'u', 'n', 'y', 'i', 'e', ' ', 'i', 'n', 'k', 'o', 'k', 'u', 'a'], [['m', 'a', 'y']]), (['o', 'l', 'o', 'd', 'o', 'y', 'i', 'o', 'r', 'i', 'e', ' ', 'i', 'n', 'k', 'o', 'k', 'u', 'a'], [['a', 'p', 'r', 'i', 'l']]), (['ɔ', 'l', 'ɔ', 'ɨ', 'b', 'ɔ', 'r', 'a', 'r', 'ɛ'], [['a', 'u', 'g', 'u', 's', 't']]), (['m', 'o', 'r', 'u', 's', 'a', 's', 'i', 'n'], [['j', 'u', 'l', 'y']]), (['o', 'l', 'd', 'a', 'k', 'i', 'k', 'a', 'e'], [['m', 'i', 'n', 'u', 't', 'e']]), (['ɔ', 'ɛ', 'n', 'ɨ', 'ɔ', 'ɨ', 'ŋ', 'ɔ', 'k'], [['m', 'a', 'r', 'c', 'h']]), (['ɛ', 'n', 'k', 'a', 'k', 'ɛ', 'n', 'y', 'a'], [['a', 'm']]), (['a', 'l', 'a', 'a', 'm', 'i', 's', 'i'], [['t', 'h', 'u', 'r', 's', 'd', 'a', 'y']]), (['j', 'u', 'm', 'a', 'm', 'o', 's', 'i'], [['s', 'a', 't', 'u', 'r', 'd', 'a', 'y']]), (['j', 'u', 'm', 'a', 'p', 'i', 'l', 'i'], [['s', 'u', 'n', 'd', 'a', 'y']]), (['j', 'u', 'm', 'a', 't', 'a', 'n', 'ɔ'], [['w', 'e', 'd', 'n', 'e', 's', 'd', 'a', 'y']]), (['j', 'u', 'm', 'a', 't', 'a', 't', 'u'], [['m', 'o', 'n', 'd', 'a', 'y']]), (['k', 'u', 'j', 'u', 'ɔ', 'r', 'ɔ', 'k'], [['j', 'u', 'n', 'e']]), (['o', 'l', 'a', 'd', 'a', 'l', 'ʉ'], [['j', 'a', 'n', 'u', 'a', 'r', 'y']]), (['o', 'l', 'g', 'i', 's', 'a', 'n'], [['o', 'c', 't', 'o', 'b', 'e', 'r']]), (['p', 'ʉ', 's', 'h', 'ʉ', 'k', 'a'], [['n', 'o', 'v', 'e', 'm', 'b', 'e', 'r']]), (['s', 'e', 'k', 'u', 'n', 'd', 'e'], [['s', 'e', 'c', 'o', 'n', 'd']]), (['ɛ', 'n', 'k', 'ɔ', 'l', 'ɔ', 'ŋ'], [['d', 'a', 'y']]), (['j', 'u', 'm', 'a', 'n', 'e'], [['t', 'u', 'e', 's', 'd', 'a', 'y']]), (['k', 'u', 's', 'h', 'i', 'n'], [['s', 'e', 'p', 't', 'e', 'm', 'b', 'e', 'r']]), (['n', 't', 'ʉ', 'ŋ', 'ʉ', 's'], [['d', 'e', 'c', 'e', 'm', 'b', 'e', 'r']]), (['ɛ', 'n', 'd', 'a', 'm', 'a'], [['p', 'm']]), (['e', 'w', 'i', 'k', 'i'], [['w', 'e', 'e', 'k']]), (['j', 'u', 'm', 'a', 'a'], [['f', 'r', 'i', 'd', 'a', 'y']]), (['ɔ', 'l', 'a', 'p', 'a'], [['m', 'o', 'n', 't', 'h']]), (['ɔ', 'l', 'a', 'r', 'i'], [['y', 'e', 'a', 'r']]), (['a', 'r', 'a', 't'], [['f', 'e', 'b', 'r', 'u', 'a', 'r', 'y']]), (['ɛ', 's', 'a', 'a'], [['h', 'o', 'u', 'r']]), (['a', 'l', 'h'], [['t', 'h', 'u', 'r', 's', 'd', 'a', 'y']]), (['a', 'r', 'a'], [['f', 'e', 'b', 'r', 'u', 'a', 'r', 'y']]), (['b', 'ɔ', 'r'], [['a', 'u', 'g', 'u', 's', 't']]), (['d', 'a', 'l'], [['j', 'a', 'n', 'u', 'a', 'r', 'y']]), (['d', 'o', 'y'], [['a', 'p', 'r', 'i', 'l']]), (['g', 'i', 's'], [['o', 'c', 't', 'o', 'b', 'e', 'r']]), (['g', 'm', 't'], [['g', 'm', 't']]), (['i', 'j', 'u'], [['f', 'r', 'i', 'd', 'a', 'y']]), (['j', 'm', 'o'], [['s', 'a', 't', 'u', 'r', 'd', 'a', 'y']]), (['j', 'n', 'n'], [['t', 'u', 'e', 's', 'd', 'a', 'y']]), (['j', 'p', 'i'], [['s', 'u', 'n', 'd', 'a', 'y']]), (['j', 't', 'n'], [['w', 'e', 'd', 'n', 'e', 's', 'd', 'a', 'y']]), (['j', 't', 't'], [['m', 'o', 'n', 'd', 'a', 'y']]), (['k', 'u', 's'], [['s', 'e', 'p', 't', 'e', 'm', 'b', 'e', 'r']]), (['l', 'e', 'p'], [['m', 'a', 'y']]), (['n', 't', 'ʉ'], [['d', 'e', 'c', 'e', 'm', 'b', 'e', 'r']]), (['r', 'o', 'k'], [['j', 'u', 'n', 'e']]), (['s', 'a', 's'], [['j', 'u', 'l', 'y']]), (['s', 'h', 'ʉ'], [['n', 'o', 'v', 'e', 'm', 'b', 'e', 'r']]), (['u', 't', 'c'], [['u', 't', 'c']]), (['ɔ', 'ɛ', 'n'], [['m', 'a', 'r', 'c', 'h']]), (['a', 'm'], [['a', 'm']]), (['p', 'm'], [['p', 'm']]), ([' '], [[' ']]), (['\''], [[]]), (['+'], [['+']]), ([','], [[]]), (['-'], [['-']]), (['.'], [['.']]), (['/'], [['/']]), ([':'], [[':']]), ([';'], [[]]), (['@'], [[]]), (['['], [[]]), ([']'], [[]]), (['z'], [['z']]), (['|'], [[]])]
  relativeType := [(['t', 'h', 'i', 's', ' ', 'm', 'i', 'n', 'u', 't', 'e'], ['0', ' ', 'm', 'i', 'n', 'u', 't', 'e', ' ', 'a', 'g', 'o']), (['l', 'a', 's', 't', ' ', 'm', 'o', 'n', 't', 'h'], ['1', ' ', 'm', 'o', 'n', 't', 'h', ' ', 'a', 'g', 'o']), (['n', 'e', 'x', 't', ' ', 'm', 'o', 'n', 't', 'h'], ['i', 'n', ' ', '1', ' ', 'm', 'o', 'n', 't', 'h']), (['t', 'h', 'i', 's', ' ', 'm', 'o', 'n', 't', 'h'], ['0', ' ', 'm', 'o', 'n', 't', 'h', ' ', 'a', 'g', 'o']), (['l', 'a', 's', 't', ' ', 'w', 'e', 'e', 'k'], ['1', ' ', 'w', 'e', 'e', 'k', ' ', 'a', 'g', 'o']), (['l', 'a', 's', 't', ' ', 'y', 'e', 'a', 'r'], ['1', ' ', 'y', 'e', 'a', 'r', ' ', 'a', 'g', 'o']), (['n', 'e', 'x', 't', ' ', 'w', 'e', 'e', 'k'], ['i', 'n', ' ', '1', ' ', 'w', 'e', 'e', 'k']), (['n', 'e', 'x', 't', ' ', 'y', 'e', 'a', 'r'], ['i', 'n', ' ', '1', ' ', 'y', 'e', 'a', 'r']), (['t', 'h', 'i', 's', ' ', 'h', 'o', 'u', 'r'], ['0', ' ', 'h', 'o', 'u', 'r', ' ', 'a', 'g', 'o']), (['t', 'h', 'i', 's', ' ', 'w', 'e', 'e', 'k'], ['0', ' ', 'w', 'e', 'e', 'k', ' ', 'a', 'g', 'o']), (['t', 'h', 'i', 's', ' ', 'y', 'e', 'a', 'r'], ['0', ' ', 'y', 'e', 'a', 'r', ' ', 'a', 'g', 'o']), (['t', 'a', 'a', 'i', 's', 'e', 'r', 'e'], ['i', 'n', ' ', '1', ' ', 'd', 'a', 'y']), (['t', 'a', 'a', 't', 'a'], ['0', ' ', 'd', 'a', 'y', ' ', 'a', 'g', 'o']), (['ŋ', 'o', 'l', 'e'], ['1', ' ', 'd', 'a', 'y', ' ', 'a', 'g', 'o']), (['n', 'o', 'w'], ['0', ' ', 's', 'e', 'c', 'o', 'n', 'd', ' ', 'a', 'g', 'o'])]

/-- internal/data/mas.go: `mas_TZ_Locale`, dictionary. -/
def mas_TZDict : LangData where
  name := ['m', 'a', 's', '-', 'T', 'Z']

/-- internal/data/mer.go: `mer_Locale`, dictionary. -/
def merDict : LangData where
  name := ['m', 'e', 'r']
  translations := [(['f', 'e', 'b', 'u', 'r', 'u', 'a', 'r', 'i'], [['f', 'e', 'b', 'r', 'u', 'a', 'r', 'y']]), (['j', 'u', 'm', 'a', 'm', 'o', 's', 'i'], [['s', 'a', 't', 'u', 'r', 'd', 'a', 'y']]), (['m', 'u', 'r', 'a', 'm', 'u', 'k', 'o'], [['m', 'o', 'n', 'd', 'a', 'y']]), (['s', 'e', 'p', 't', 'e', 'm', 'b', 'a'], [['s', 'e', 'p', 't', 'e', 'm', 'b', 'e', 'r']]), (['d', 'i', 'c', 'e', 'm', 'b', 'a'], [['d', 'e', 'c', 'e', 'm', 'b', 'e', 'r']]), (['j', 'a', 'n', 'u', 'a', 'r', 'i'], [['j', 'a', 'n', 'u', 'a', 'r', 'y']]), (['n', 'd', 'a', 'g', 'i', 'k', 'a'], [['m', 'i', 'n', 'u', 't', 'e']]), (['n', 'o', 'v', 'e', 'm', 'b', 'a'], [['n', 'o', 'v', 'e', 'm', 'b', 'e', 'r']]), (['s', 'e', 'k', 'o', 'n', 'd', 'i'], [['s', 'e', 'c', 'o', 'n', 'd']]), (['w', 'e', 't', 'h', 'a', 't', 'u'], [['w', 'e', 'd', 'n', 'e', 's', 'd', 'a', 'y']]), (['a', 'g', 'a', 's', 't', 'i'], [['a', 'u', 'g', 'u', 's', 't']]), (['k', 'i', 'u', 'm', 'i', 'a'], [['w', 'e', 'e', 'k'], ['s', 'u', 'n', 'd', 'a', 'y']]), (['n', 'j', 'u', 'r', 'a', 'i'], [['j', 'u', 'l', 'y']]), (['o', 'k', 't', 'u', 'b', 'a'], [['o', 'c', 't', 'o', 'b', 'e', 'r']]), (['w', 'e', 't', 'a', 'n', 'o'], [['f', 'r', 'i', 'd', 'a', 'y']]), (['i', 'p', 'u', 'r', 'u'], [['a', 'p', 'r', 'i', 'l']]), (['i', 't', 'h', 'a', 'a'], [['h', 'o', 'u', 'r']]), (['m', 'a', 'c', 'h', 'i'], [['m', 'a', 'r', 'c', 'h']]), (['m', 'w', 'a', 'k', 'a'], [['y', 'e', 'a', 'r']]), (['m', 'w', 'e', 'r', 'i'], [['m', 'o', 'n', 't', 'h']]), (['n', 'j', 'u', 'n', 'i'], [['j', 'u', 'n', 'e']]), (['n', 't', 'u', 'k', 'u'], [['d', 'a', 'y']]), (['w', 'a', 'i', 'r', 'i'], [['t', 'u', 'e', 's', 'd', 'a', 'y']]), (['w', 'e', 'n', 'a'], [['t', 'h', 'u', 'r', 's', 'd', 'a', 'y']]), (['a', 'g', 'a'], [['a', 'u', 'g', 'u', 's', 't']]), (['d', 'e', 'c'], [['d', 'e', 'c', 'e', 'm', 'b', 'e', 'r']]), (['f', 'e', 'b'], [['f', 'e', 'b', 'r', 'u', 'a', 'r', 'y']]), (['g', 'm', 't'], [['g', 'm', 't']]), (['i', 'p', 'u'], [['a', 'p', 'r', 'i', 'l']]), (['j', 'a', 'n'], [['j', 'a', 'n', 'u', 'a', 'r', 'y']]), (['j', 'u', 'm'], [['s', 'a', 't', 'u', 'r', 'd', 'a', 'y']]), (['k', 'i', 'u'], [['s', 'u', 'n', 'd', 'a', 'y']]), (['m', 'a', 'c'], [['m', 'a', 'r', 'c', 'h']]), (['m', 'i', 'i'], [['m', 'a', 'y']]), (['m', 'r', 'a'], [['m', 'o', 'n', 'd', 'a', 'y']]), (['n', 'j', 'r'], [['j', 'u', 'l', 'y']]), (['n', 'j', 'u'], [['j', 'u', 'n', 'e']]), (['n', 'o', 'v'], [['n', 'o', 'v', 'e', 'm', 'b', 'e', 'r']]), (['o', 'k', 't'], [['o', 'c', 't', 'o', 'b', 'e', 'r']]), (['s', 'p', 't'], [['s', 'e', 'p', 't', 'e', 'm', 'b', 'e', 'r']]), (['u', 't', 'c'], [['u', 't', 'c']]), (['w', 'a', 'i'], [['t', 'u', 'e', 's', 'd', 'a', 'y']]), (['w', 'e', 'n'], [['t', 'h', 'u', 'r', 's', 'd', 'a', 'y']]), (['w', 'e', 't'], [['w', 'e', 'd', 'n', 'e', 's', 'd', 'a', 'y']]), (['w', 't', 'n'], [['f', 'r', 'i', 'd', 'a', 'y']]), (['a', 'm'], [['a', 'm']]), (['p', 'm'], [['p', 'm']]), (['r', 'u'], [['a', 'm']]), (['u', 'g'], [['p', 'm']]), ([' '], [[' ']]), (['\''], [[]]), (['+'], [['+']]), ([','], [[]]), (['-'], [['-']]), (['.'], [['.']]), (['/'], [['/']]), ([':'], [[':']]), ([';'], [[]]), (['@'], [[]]), (['['], [[]]), ([']'], [[]]), (['z'], [['z']]), (['|'], [[]])]
  relativeType := [(['t', 'h', 'i', 's', ' ', 'm', 'i', 'n', 'u', 't', 'e'], ['0', ' ', 'm', 'i', 'n', 'u', 't', 'e', ' ', 'a', 'g', 'o']), (['l', 'a', 's', 't', ' ', 'm', 'o', 'n', 't', 'h'], ['1', ' ', 'm', 'o', 'n', 't', 'h', ' ', 'a', 'g', 'o']), (['n', 'e', 'x', 't', ' ', 'm', 'o', 'n', 't', 'h'], ['i', 'n', ' ', '1', ' ', 'm', 'o', 'n', 't', 'h']), (['t', 'h', 'i', 's', ' ', 'm', 'o', 'n', 't', 'h'], ['0', ' ', 'm', 'o', 'n', 't', 'h', ' ', 'a', 'g', 'o']), (['l', 'a', 's', 't', ' ', 'w', 'e', 'e', 'k'], ['1', ' ', 'w', 'e', 'e', 'k', ' ', 'a', 'g', 'o']), (['l', 'a', 's', 't', ' ', 'y', 'e', 'a', 'r'], ['1', ' ', 'y', 'e', 'a', 'r', ' ', 'a', 'g', 'o']), (['n', 'e', 'x', 't', ' ', 'w', 'e', 'e', 'k'], ['i', 'n', ' ', '1', ' ', 'w', 'e', 'e', 'k']), (['n', 'e', 'x', 't', ' ', 'y', 'e', 'a', 'r'], ['i', 'n', ' ', '1', ' ', 'y', 'e', 'a', 'r']), (['t', 'h', 'i', 's', ' ', 'h', 'o', 'u', 'r'], ['0', ' ', 'h', 'o', 'u', 'r', ' ', 'a', 'g', 'o']), (['t', 'h', 'i', 's', ' ', 'w', 'e', 'e', 'k'], ['0', ' ', 'w', 'e', 'e', 'k', ' ', 'a', 'g', 'o']), (['t', 'h', 'i', 's', ' ', 'y', 'e', 'a', 'r'], ['0', ' ', 'y', 'e', 'a', 'r', ' ', 'a', 'g', 'o']), (['i', 'g', 'o', 'r', 'o'], ['1', ' ', 'd', 'a', 'y', ' ', 'a', 'g', 'o']), (['n', 'a', 'r', 'u', 'a'], ['0', ' ', 'd', 'a', 'y', ' ', 'a', 'g', 'o']), (['r', 'u', 'j', 'u'], ['i', 'n', ' ', '1', ' ', 'd', 'a', 'y']), (['n', 'o', 'w'], ['0', ' ', 's', 'e', 'c', 'o', 'n', 'd', ' ', 'a', 'g', 'o'])]

/-- internal/data/mfe.go: `mfe_Locale`, dictionary. -/
def mfeDict : LangData where
  name := ['m', 'f', 'e']
  translations := [(['m', 'e', 'r', 'k', 'r', 'e', 'd', 'i'], [['w', 'e', 'd', 'n', 'e', 's', 'd', 'a', 'y']]), (['v', 'a', 'n', 'd', 'r', 'e', 'd', 'i'], [['f', 'r', 'i', 'd', 'a', 'y']]), (['f', 'e', 'v', 'r', 'i', 'y', 'e'], [['f', 'e', 'b', 'r', 'u', 'a', 'r', 'y']]), (['d', 'i', 'm', 'a', 'n', 's'], [['s', 'u', 'n', 'd', 'a', 'y']]), (['s', 'e', 'g', 'o', 'n', 'n'], [['s', 'e', 'c', 'o', 'n', 'd']]), (['s', 'e', 'm', 'e', 'n', 'n'], [['w', 'e', 'e', 'k']]), (['s', 'e', 'p', 't', 'a', 'm'], [['s', 'e', 'p', 't', 'e', 'm', 'b', 'e', 'r']]), (['z', 'a', 'n', 'v', 'i', 'e'], [['j', 'a', 'n', 'u', 'a', 'r', 'y']]), (['a', 'v', 'r', 'i', 'l'], [['a', 'p', 'r', 'i', 'l']]), (['d', 'e', 's', 'a', 'm'], [['d', 'e', 'c', 'e', 'm', 'b', 'e', 'r']]), (['l', 'i', 'n', 'd', 'i'], [['m', 'o', 'n', 'd', 'a', 'y']]), (['m', 'a', 'r', 'd', 'i'], [['t', 'u', 'e', 's', 'd', 'a', 'y']]), (['m', 'i', 'n', 'i', 't'], [['m', 'i', 'n', 'u', 't', 'e']]), (['n', 'o', 'v', 'a', 'm'], [['n', 'o', 'v', 'e', 'm', 'b', 'e', 'r']]), (['o', 'k', 't', 'o', 'b'], [['o', 'c', 't', 'o', 'b', 'e', 'r']]), (['s', 'a', 'm', 'd', 'i'], [['s', 'a', 't', 'u', 'r', 'd', 'a', 'y']]), (['z', 'i', 'l', 'y', 'e'], [['j', 'u', 'l', 'y']]), (['l', 'a', 'n', 'e'], [['y', 'e', 'a', 'r']]), (['m', 'a', 'r', 's'], [['m', 'a', 'r', 'c', 'h']]), (['z', 'e', 'd', 'i'], [['t', 'h', 'u', 'r', 's', 'd', 'a', 'y']]), (['z', 'o', 'u', 'r'], [['d', 'a', 'y']]), (['a', 'v', 'r'], [['a', 'p', 'r', 'i', 'l']]), (['d', 'e', 's'], [['d', 'e', 'c', 'e', 'm', 'b', 'e', 'r']]), (['d', 'i', 'm'], [['s', 'u', 'n', 'd', 'a', 'y']]), (['f', 'e', 'v'], [['f', 'e', 'b', 'r', 'u', 'a', 'r', 'y']]), (['g', 'm', 't'], [['g', 'm', 't']]), (['l', 'e', 'r'], [['h', 'o', 'u', 'r']]), (['l', 'i', 'n'], [['m', 'o', 'n', 'd', 'a', 'y']]), (['m', 'a', 'r'], [['m', 'a', 'r', 'c', 'h'], ['t', 'u', 'e', 's', 'd', 'a', 'y']]), (['m', 'e', 'r'], [['w', 'e', 'd', 'n', 'e', 's', 'd', 'a', 'y']]), (['m', 'w', 'a'], [['m', 'o', 'n', 't', 'h']]), (['n', 'o', 'v'], [['n', 'o', 'v', 'e', 'm', 'b', 'e', 'r']]), (['o', 'k', 't'], [['o', 'c', 't', 'o', 'b', 'e', 'r']]), (['o', 'u', 't'], [['a', 'u', 'g', 'u', 's', 't']]), (['s', 'a', 'm'], [['s', 'a', 't', 'u', 'r', 'd', 'a', 'y']]), (['s', 'e', 'p'], [['s', 'e', 'p', 't', 'e', 'm', 'b', 'e', 'r']]), (['u', 't', 'c'], [['u', 't', 'c']]), (['v', 'a', 'n'], [['f', 'r', 'i', 'd', 'a', 'y']]), (['z', 'a', 'n'], [['j', 'a', 'n', 'u', 'a', 'r', 'y']]), (['z', 'i', 'l'], [['j', 'u', 'l', 'y']]), (['z', 'i', 'n'], [['j', 'u', 'n', 'e']]), (['a', 'm'], [['a', 'm']]), (['m', 'e'], [['m', 'a', 'y']]), (['p', 'm'], [['p', 'm']]), (['z', 'e'], [['t', 'h', 'u', 'r', 's', 'd', 'a', 'y']]), ([' '], [[' ']]), (['\''], [[]]), (['+'], [['+']]), ([','], [[]]), (['-'], [['-']]), (['.'], [['.']]), (['/'], [['/']]), ([':'], [[':']]), ([';'], [[]]), (['@'], [[]]), (['['], [[]]), ([']'], [[]]), (['z'], [['z']]), (['|'], [[]])]
  relativeType := [(['t', 'h', 'i', 's', ' ', 'm', 'i', 'n', 'u', 't', 'e'], ['0', ' ', 'm', 'i', 'n', 'u', 't', 'e', ' ', 'a', 'g', 'o']), (['l', 'a', 's', 't', ' ', 'm', 'o', 'n', 't', 'h'], ['1', ' ', 'm', 'o', 'n', 't', 'h', ' ', 'a', 'g', 'o']), (['n', 'e', 'x', 't', ' ', 'm', 'o', 'n', 't', 'h'], ['i', 'n', ' ', '1', ' ', 'm', 'o', 'n', 't', 'h']), (['t', 'h', 'i', 's', ' ', 'm', 'o', 'n', 't', 'h'], ['0', ' ', 'm', 'o', 'n', 't', 'h', ' ', 'a', 'g', 'o']), (['l', 'a', 's', 't', ' ', 'w', 'e', 'e', 'k'], ['1', ' ', 'w', 'e', 'e', 'k', ' ', 'a', 'g', 'o']), (['l', 'a', 's', 't', ' ', 'y', 'e', 'a', 'r'], ['1', ' ', 'y', 'e', 'a', 'r', ' ', 'a', 'g', 'o']), (['n', 'e', 'x', 't', ' ', 'w', 'e', 'e', 'k'], ['i', 'n', ' ', '1', ' ', 'w', 'e', 'e', 'k']), (['n', 'e', 'x', 't', ' ', 'y', 'e', 'a', 'r'], ['i', 'n', ' ', '1', ' ', 'y', 'e', 'a', 'r']), (['t', 'h', 'i', 's', ' ', 'h', 'o', 'u', 'r'], ['0', ' ', 'h', 'o', 'u', 'r', ' ', 'a', 'g', 'o']), (['t', 'h', 'i', 's', ' ', 'w', 'e', 'e', 'k'], ['0', ' ', 'w', 'e', 'e', 'k', ' ', 'a', 'g', 'o']), (['t', 'h', 'i', 's', ' ', 'y', 'e', 'a', 'r'], ['0', ' ', 'y', 'e', 'a', 'r', ' ', 'a', 'g', 'o']), (['d', 'e', 'm', 'i', 'n'], ['i', 'n', ' ', '1', ' ', 'd', 'a', 'y']), (['z', 'o', 'r', 'd', 'i'], ['0', ' ', 'd', 'a', 'y', ' ', 'a', 'g', 'o']), (['n', 'o', 'w'], ['0', ' ', 's', 'e', 'c', 'o', 'n', 'd', ' ', 'a', 'g', 'o']), (['y', 'e', 'r'], ['1', ' ', 'd', 'a', 'y', ' ', 'a', 'g', 'o'])]

/-- internal/data/mg.go: `mg_Locale`, dictionary. -/
def mgDict : LangData where
  name := ['m', 'g']
  translations := [(['a', 'l', 'a', 't', 's', 'i', 'n', 'a', 'i', 'n', 'y'], [['m', 'o', 'n', 'd', 'a', 'y']]), (['h', 'e', 'r', 'i', 'n', 'a', 'n', 'd', 'r', 'o'], [['w', 'e', 'e', 'k']]), (['a', 'l', 'a', 'k', 'a', 'm', 'i', 's', 'y'], [['t', 'h', 'u', 'r', 's', 'd', 'a', 'y']]), (['a', 'o', 'g', 'o', 's', 'i', 't', 'r', 'a'], [['a', 'u', 'g', 'u', 's', 't']]), (['s', 'e', 'p', 't', 'a', 'm', 'b', 'r', 'a'], [['s', 'e', 'p', 't', 'e', 'm', 'b', 'e', 'r']]), (['a', 'l', 'a', 'r', 'o', 'b', 'i', 'a'], [['w', 'e', 'd', 'n', 'e', 's', 'd', 'a', 'y']]), (['a', 's', 'a', 'b', 'o', 't', 's', 'y'], [['s', 'a', 't', 'u', 'r', 'd', 'a', 'y']]), (['d', 'e', 's', 'a', 'm', 'b', 'r', 'a'], [['d', 'e', 'c', 'e', 'm', 'b', 'e', 'r']]), (['f', 'e', 'b', 'r', 'o', 'a', 'r', 'y'], [['f', 'e', 'b', 'r', 'u', 'a', 'r', 'y']]), (['n', 'o', 'v', 'a', 'm', 'b', 'r', 'a'], [['n', 'o', 'v', 'e', 'm', 'b', 'e', 'r']]), (['s', 'e', 'g', 'o', 'n', 'd', 'r', 'a'], [['s', 'e', 'c', 'o', 'n', 'd']]), (['a', 'l', 'a', 'h', 'a', 'd', 'y'], [['s', 'u', 'n', 'd', 'a', 'y']]), (['j', 'a', 'n', 'o', 'a', 'r', 'y'], [['j', 'a', 'n', 'u', 'a', 'r', 'y']]), (['m', 'i', 'n', 'i', 't', 'r', 'a'], [['m', 'i', 'n', 'u', 't', 'e']]), (['o', 'k', 't', 'o', 'b', 'r', 'a'], [['o', 'c', 't', 'o', 'b', 'e', 'r']]), (['a', 'p', 'r', 'i', 'l', 'y'], [['a', 'p', 'r', 'i', 'l']]), (['m', 'a', 'r', 't', 's', 'a'], [['m', 'a', 'r', 'c', 'h']]), (['t', 'a', 'l', 'a', 't', 'a'], [['t', 'u', 'e', 's', 'd', 'a', 'y']]), (['v', 'o', 'l', 'a', 'n', 'a'], [['m', 'o', 'n', 't', 'h']]), (['a', 'l', 'a', 't', 's'], [['m', 'o', 'n', 'd', 'a', 'y']]), (['a', 'n', 'd', 'r', 'o'], [['d', 'a', 'y']]), (['j', 'o', 'l', 'a', 'y'], [['j', 'u', 'l', 'y']]), (['t', 'a', 'o', 'n', 'a'], [['y', 'e', 'a', 'r']]), (['a', 'l', 'a', 'h'], [['s', 'u', 'n', 'd', 'a', 'y']]), (['a', 'l', 'a', 'k'], [['t', 'h', 'u', 'r', 's', 'd', 'a', 'y']]), (['a', 'l', 'a', 'r'], [['w', 'e', 'd', 'n', 'e', 's', 'd', 'a', 'y']]), (['a', 's', 'a', 'b'], [['s', 'a', 't', 'u', 'r', 'd', 'a', 'y']]), (['j', 'o', 'n', 'a'], [['j', 'u', 'n', 'e']]), (['z', 'o', 'm', 'a'], [['f', 'r', 'i', 'd', 'a', 'y']]), (['a', 'o', 'g'], [['a', 'u', 'g', 'u', 's', 't']]), (['a', 'p', 'r'], [['a', 'p', 'r', 'i', 'l']]), (['d', 'e', 's'], [['d', 'e', 'c', 'e', 'm', 'b', 'e', 'r']]), (['f', 'e', 'b'], [['f', 'e', 'b', 'r', 'u', 'a', 'r', 'y']]), (['g', 'm', 't'], [['g', 'm', 't']]), (['j', 'a', 'n'], [['j', 'a', 'n', 'u', 'a', 'r', 'y']]), (['j', 'o', 'l'], [['j', 'u', 'l', 'y']]), (['j', 'o', 'n'], [['j', 'u', 'n', 'e']]), (['m', 'a', 'r'], [['m', 'a', 'r', 'c', 'h']]), (['m', 'e', 'y'], [['m', 'a', 'y']]), (['n', 'o', 'v'], [['n', 'o', 'v', 'e', 'm', 'b', 'e', 'r']]), (['o', 'k', 't'], [['o', 'c', 't', 'o', 'b', 'e', 'r']]), (['o', 'r', 'a'], [['h', 'o', 'u', 'r']]), (['s', 'e', 'p'], [['s', 'e', 'p', 't', 'e', 'm', 'b', 'e', 'r']]), (['t', 'a', 'l'], [['t', 'u', 'e', 's', 'd', 'a', 'y']]), (['u', 't', 'c'], [['u', 't', 'c']]), (['z', 'o', 'm'], [['f', 'r', 'i', 'd', 'a', 'y']]), (['a', 'm'], [['a', 'm']]), (['p', 'm'], [['p', 'm']]), ([' '], [[' ']]), (['\''], [[]]), (['+'], [['+']]), ([','], [[]]), (['-'], [['-']]), (['.'], [['.']]), (['/'], [['/']]), ([':'], [[':']]), ([';'], [[]]), (['@'], [[]]), (['['], [[]]), ([']'], [[]]), (['z'], [['z']]), (['|'], [[]])]
  relativeType := [(['t', 'h', 'i', 's', ' ', 'm', 'i', 'n', 'u', 't', 'e'], ['0', ' ', 'm', 'i', 'n', 'u', 't', 'e', ' ', 'a', 'g', 'o']), (['l', 'a', 's', 't', ' ', 'm', 'o', 'n', 't', 'h'], ['1', ' ', 'm', 'o', 'n', 't', 'h', ' ', 'a', 'g', 'o']), (['n', 'e', 'x', 't', ' ', 'm', 'o', 'n', 't', 'h'], ['i', 'n', ' ', '1', ' ', 'm', 'o', 'n', 't', 'h']), (['r', 'a', 'h', 'a', 'm', 'p', 'i', 't', 's', 'o'], ['i', 'n', ' ', '1', ' ', 'd', 'a', 'y']), (['t', 'h', 'i', 's', ' ', 'm', 'o', 'n', 't', 'h'], ['0', ' ', 'm', 'o', 'n', 't', 'h', ' ', 'a', 'g', 'o']), (['l', 'a', 's', 't', ' ', 'w', 'e', 'e', 'k'], ['1', ' ', 'w', 'e', 'e', 'k', ' ', 'a', 'g', 'o']), (['l', 'a', 's', 't', ' ', 'y', 'e', 'a', 'r'], ['1', ' ', 'y', 'e', 'a', 'r', ' ', 'a', 'g', 'o']), (['n', 'e', 'x', 't', ' ', 'w', 'e', 'e', 'k'], ['i', 'n', ' ', '1', ' ', 'w', 'e', 'e', 'k']), (['n', 'e', 'x', 't', ' ', 'y', 'e', 'a', 'r'], ['i', 'n', ' ', '1', ' ', 'y', 'e', 'a', 'r']), (['t', 'h', 'i', 's', ' ', 'h', 'o', 'u', 'r'], ['0', ' ', 'h', 'o', 'u', 'r', ' ', 'a', 'g', 'o']), (['t', 'h', 'i', 's', ' ', 'w', 'e', 'e', 'k'], ['0', ' ', 'w', 'e', 'e', 'k', ' ', 'a', 'g', 'o']), (['t', 'h', 'i', 's', ' ', 'y', 'e', 'a', 'r'], ['0', ' ', 'y', 'e', 'a', 'r', ' ', 'a', 'g', 'o']), (['o', 'm', 'a', 'l', 'y'], ['1', ' ', 'd', 'a', 'y', ' ', 'a', 'g', 'o']), (['a', 'n', 'i', 'o'], ['0', ' ', 'd', 'a', 'y', ' ', 'a', 'g', 'o']), (['n', 'o', 'w'], ['0', ' ', 's', 'e', 'c', 'o', 'n', 'd', ' ', 'a', 'g', 'o'])]

/-- internal/data/mgh.go: `mgh_Locale`, dictionary. -/
def mghDict : LangData where
  name := ['m', 'g', 'h']
  translations := [(['m', 'w', 'e', 'r', 'i', ' ', 'w', 'o', ' ', 'k', 'u', 'm', 'i', ' ', 'n', 'a', ' ', 'y', 'e', 'l', '\'', 'l', 'i'], [['d', 'e', 'c', 'e', 'm', 'b', 'e', 'r']]), (['m', 'w', 'e', 'r', 'i', ' ', 'w', 'o', ' ', 't', 'h', 'a', 'n', 'u', ' ', 'n', 'a', ' ', 'm', 'o', 'c', 'h', 'a'], [['j', 'u', 'n', 'e']]), (['m', 'w', 'e', 'r', 'i', ' ', 'w', 'o', ' ', 'k', 'u', 'm', 'i', ' ', 'n', 'a', ' ', 'm', 'o', 'j', 'a'], [['n', 'o', 'v', 'e', 'm', 'b', 'e', 'r']]), (['m', 'w', 'e', 'r', 'i', ' ', 'w', 'o', ' ', 'u', 'n', 'e', 'c', 'h', 'e', 's', 'h', 'e'], [['a', 'p', 'r', 'i', 'l']]), (['m', 'w', 'e', 'r', 'i', ' ', 'w', 'o', ' ', 'u', 'n', 'e', 't', 'h', 'a', 'n', 'u'], [['m', 'a', 'y']]), (['m', 'w', 'e', 'r', 'i', ' ', 'w', 'o', ' ', 'u', 'n', 'a', 'y', 'e', 'l', 'i'], [['f', 'e', 'b', 'r', 'u', 'a', 'r', 'y']]), (['m', 'w', 'e', 'r', 'i', ' ', 'w', 'o', ' ', 'u', 'n', 'e', 'r', 'a', 'r', 'u'], [['m', 'a', 'r', 'c', 'h']]), (['m', 'w', 'e', 'r', 'i', ' ', 'w', 'o', ' ', 'k', 'w', 'a', 'n', 'z', 'a'], [['j', 'a', 'n', 'u', 'a', 'r', 'y']]), (['m', 'w', 'e', 'r', 'i', ' ', 'w', 'o', ' ', 'k', 'u', 'm', 'i'], [['o', 'c', 't', 'o', 'b', 'e', 'r']]), (['m', 'w', 'e', 'r', 'i', ' ', 'w', 'o', ' ', 'n', 'a', 'n', 'e'], [['a', 'u', 'g', 'u', 's', 't']]), (['m', 'w', 'e', 'r', 'i', ' ', 'w', 'o', ' ', 's', 'a', 'b', 'a'], [['j', 'u', 'l', 'y']]), (['m', 'w', 'e', 'r', 'i', ' ', 'w', 'o', ' ', 't', 'i', 's', 'a'], [['s', 'e', 'p', 't', 'e', 'm', 'b', 'e', 'r']]), (['i', 'w', 'i', 'k', 'i', ' ', 'm', 'o', 'c', 'h', 'a'], [['w', 'e', 'e', 'k']]), (['m', 'c', 'h', 'o', 'c', 'h', 'i', 'l', '\'', 'l'], [['p', 'm']]), (['a', 'r', 'a', 'h', 'a', 'm', 'i', 's', 'i'], [['t', 'h', 'u', 'r', 's', 'd', 'a', 'y']]), (['i', 's', 'e', 'k', 'u', 'n', 'd', 'e'], [['s', 'e', 'c', 'o', 'n', 'd']]), (['j', 'u', 'm', 'a', 'm', 'o', 's', 'i'], [['s', 'a', 't', 'u', 'r', 'd', 'a', 'y']]), (['j', 'u', 'm', 'a', 't', 'a', 'n', 'o'], [['w', 'e', 'd', 'n', 'e', 's', 'd', 'a', 'y']]), (['j', 'u', 'm', 'a', 't', 'a', 't', 'u'], [['m', 'o', 'n', 'd', 'a', 'y']]), (['w', 'i', 'c', 'h', 'i', 's', 'h', 'u'], [['a', 'm']]), (['i', 'd', 'a', 'k', 'i', 'k', 'a'], [['m', 'i', 'n', 'u', 't', 'e']]), (['j', 'u', 'm', 'a', 'n', 'n', 'e'], [['t', 'u', 'e', 's', 'd', 'a', 'y']]), (['i', 'j', 'u', 'm', 'a', 'a'], [['f', 'r', 'i', 'd', 'a', 'y']]), (['n', 'i', 'h', 'u', 'k', 'u'], [['d', 'a', 'y']]), (['s', 'a', 'b', 'a', 't', 'o'], [['s', 'u', 'n', 'd', 'a', 'y']]), (['m', 'w', 'e', 'r', 'i'], [['m', 'o', 'n', 't', 'h']]), (['i', 's', 'a', 'a'], [['h', 'o', 'u', 'r']]), (['y', 'a', 'k', 'a'], [['y', 'e', 'a', 'r']]), (['a', 'r', 'a'], [['t', 'h', 'u', 'r', 's', 'd', 'a', 'y']]), (['c', 'h', 'e'], [['a', 'p', 'r', 'i', 'l']]), (['g', 'm', 't'], [['g', 'm', 't']]), (['i', 'j', 'u'], [['f', 'r', 'i', 'd', 'a', 'y']]), (['j', 'm', 'o'], [['s', 'a', 't', 'u', 'r', 'd', 'a', 'y']]), (['j', 'n', 'n'], [['t', 'u', 'e', 's', 'd', 'a', 'y']]), (['j', 't', 'n'], [['w', 'e', 'd', 'n', 'e', 's', 'd', 'a', 'y']]), (['j', 't', 't'], [['m', 'o', 'n', 'd', 'a', 'y']]), (['k', 'u', 'm'], [['o', 'c', 't', 'o', 'b', 'e', 'r']]), (['k', 'w', 'a'], [['j', 'a', 'n', 'u', 'a', 'r', 'y']]), (['m', 'o', 'c'], [['j', 'u', 'n', 'e']]), (['m', 'o', 'j'], [['n', 'o', 'v', 'e', 'm', 'b', 'e', 'r']]), (['n', 'a', 'n'], [['a', 'u', 'g', 'u', 's', 't']]), (['r', 'a', 'r'], [['m', 'a', 'r', 'c', 'h']]), (['s', 'a', 'b'], [['j', 'u', 'l', 'y'], ['s', 'u', 'n', 'd', 'a', 'y']]), (['t', 'h', 'a'], [['m', 'a', 'y']]), (['t', 'i', 's'], [['s', 'e', 'p', 't', 'e', 'm', 'b', 'e', 'r']]), (['u', 'n', 'a'], [['f', 'e', 'b', 'r', 'u', 'a', 'r', 'y']]), (['u', 't', 'c'], [['u', 't', 'c']]), (['y', 'e', 'l'], [['d', 'e', 'c', 'e', 'm', 'b', 'e', 'r']]), (['a', 'm'], [['a', 'm']]), (['p', 'm'], [['p', 'm']]), ([' '], [[' ']]), (['\''], [[]]), (['+'], [['+']]), ([','], [[]]), (['-'], [['-']]), (['.'], [['.']]), (['/'], [['/']]), ([':'], [[':']]), ([';'], [[]]), (['@'], [[]]), (['['], [[]]), ([']'], [[]]), (['z'], [['z']]), (['|'], [[]])]
  relativeType := [(['t', 'h', 'i', 's', ' ', 'm', 'i', 'n', 'u', 't', 'e'], ['0', ' ', 'm', 'i', 'n', 'u', 't', 'e', ' ', 'a', 'g', 'o']), (['l', 'a', 's', 't', ' ', 'm', 'o', 'n', 't', 'h'], ['1', ' ', 'm', 'o', 'n', 't', 'h', ' ', 'a', 'g', 'o']), (['n', 'e', 'x', 't', ' ', 'm', 'o', 'n', 't', 'h'], ['i', 'n', ' ', '1', ' ', 'm', 'o', 'n', 't', 'h']), (['t', 'h', 'i', 's', ' ', 'm', 'o', 'n', 't', 'h'], ['0', ' ', 'm', 'o', 'n', 't', 'h', ' ', 'a', 'g', 'o']), (['l', 'a', 's', 't', ' ', 'w', 'e', 'e', 'k'], ['1', ' ', 'w', 'e', 'e', 'k', ' ', 'a', 'g', 'o']), (['l', 'a', 's', 't', ' ', 'y', 'e', 'a', 'r'], ['1', ' ', 'y', 'e', 'a', 'r', ' ', 'a', 'g', 'o']), (['n', 'e', 'x', 't', ' ', 'w', 'e', 'e', 'k'], ['i', 'n', ' ', '1', ' ', 'w', 'e', 'e', 'k']), (['n', 'e', 'x', 't', ' ', 'y', 'e', 'a', 'r'], ['i', 'n', ' ', '1', ' ', 'y', 'e', 'a', 'r']), (['t', 'h', 'i', 's', ' ', 'h', 'o', 'u', 'r'], ['0', ' ', 'h', 'o', 'u', 'r', ' ', 'a', 'g', 'o']), (['t', 'h', 'i', 's', ' ', 'w', 'e', 'e', 'k'], ['0', ' ', 'w', 'e', 'e', 'k', ' ', 'a', 'g', 'o']), (['t', 'h', 'i', 's', ' ', 'y', 'e', 'a', 'r'], ['0', ' ', 'y', 'e', 'a', 'r', ' ', 'a', 'g', 'o']), (['n', '\'', 'c', 'h', 'a', 'n', 'a'], ['1', ' ', 'd', 'a', 'y', ' ', 'a', 'g', 'o']), (['l', 'e', 'l', '\'', 'l', 'o'], ['0', ' ', 'd', 'a', 'y', ' ', 'a', 'g', 'o']), (['m', 'e', '\'', 'l', 'l', 'o'], ['i', 'n', ' ', '1', ' ', 'd', 'a', 'y']), (['n', 'o', 'w'], ['0', ' ', 's', 'e', 'c', 'o', 'n', 'd', ' ', 'a', 'g', 'o'])]

/-- internal/data/mgo.go: `mgo_Locale`, dictionary. -/
def mgoDict : LangData where
  name := ['m', 'g', 'o']
  translations := [(['i', 'm', 'e', 'g', ' ', 'm', 'b', 'ə', 'ŋ', 'c', 'h', 'u', 'b', 'i'], [['m', 'a', 'r', 'c', 'h']]), (['i', 'm', 'ə', 'g', ' ', 'i', 'c', 'h', 'i', 'i', 'b', 'ɔ', 'd'], [['j', 'u', 'n', 'e']]), (['i', 'm', 'ə', 'g', ' ', 'a', 'd', 'u', 'm', 'b', 'ə', 'ŋ'], [['j', 'u', 'l', 'y']]), (['i', 'm', 'ə', 'g', ' ', 'k', 'r', 'i', 'z', 'm', 'e', 'd'], [['d', 'e', 'c', 'e', 'm', 'b', 'e', 'r']]), (['i', 'm', 'ə', 'g', ' ', 'm', 'b', 'e', 'g', 't', 'u', 'g'], [['j', 'a', 'n', 'u', 'a', 'r', 'y']]), (['i', 'm', 'ə', 'g', ' ', 'i', 'c', 'h', 'i', 'k', 'a'], [['a', 'u', 'g', 'u', 's', 't']]), (['i', 'm', 'ə', 'g', ' ', 't', 'e', 's', 'i', '\'', 'e'], [['o', 'c', 't', 'o', 'b', 'e', 'r']]), (['i', 'm', 'e', 'g', ' ', 'a', 'b', 'u', 'b', 'i'], [['f', 'e', 'b', 'r', 'u', 'a', 'r', 'y']]), (['i', 'm', 'ə', 'g', ' ', 'n', 'g', 'w', 'ə', 't'], [['a', 'p', 'r', 'i', 'l']]), (['i', 'm', 'ə', 'g', ' ', 'f', 'o', 'g'], [['m', 'a', 'y']]), (['i', 'm', 'ə', 'g', ' ', 'k', 'u', 'd'], [['s', 'e', 'p', 't', 'e', 'm', 'b', 'e', 'r']]), (['i', 'm', 'ə', 'g', ' ', 'z', 'o'], [['n', 'o', 'v', 'e', 'm', 'b', 'e', 'r']]), (['m', 'b', 'e', 'g', 't', 'u', 'g'], [['j', 'a', 'n', 'u', 'a', 'r', 'y']]), (['a', 'n', 'e', 'g', ' ', '1'], [['s', 'u', 'n', 'd', 'a', 'y']]), (['a', 'n', 'e', 'g', ' ', '2'], [['m', 'o', 'n', 'd', 'a', 'y']]), (['a', 'n', 'e', 'g', ' ', '3'], [['t', 'u', 'e', 's', 'd', 'a', 'y']]), (['a', 'n', 'e', 'g', ' ', '4'], [['w', 'e', 'd', 'n', 'e', 's', 'd', 'a', 'y']]), (['a', 'n', 'e', 'g', ' ', '5'], [['t', 'h', 'u', 'r', 's', 'd', 'a', 'y']]), (['a', 'n', 'e', 'g', ' ', '6'], [['f', 'r', 'i', 'd', 'a', 'y']]), (['a', 'n', 'e', 'g', ' ', '7'], [['s', 'a', 't', 'u', 'r', 'd', 'a', 'y']]), (['m', 'i', 'n', 'u', 't', 'e'], [['m', 'i', 'n', 'u', 't', 'e']]), (['s', 'e', 'c', 'o', 'n', 'd'], [['s', 'e', 'c', 'o', 'n', 'd']]), (['f', 'i', 't', 'u', '\''], [['y', 'e', 'a', 'r']]), (['a', 'n', 'ə', 'g'], [['d', 'a', 'y']]), (['h', 'o', 'u', 'r'], [['h', 'o', 'u', 'r']]), (['i', 'm', 'ə', 'g'], [['m', 'o', 'n', 't', 'h']]), (['n', 'k', 'a', 'p'], [['w', 'e', 'e', 'k']]), (['g', 'm', 't'], [['g', 'm', 't']]), (['u', 't', 'c'], [['u', 't', 'c']]), (['a', 'm'], [['a', 'm']]), (['p', 'm'], [['p', 'm']]), ([' '], [[' ']]), (['\''], [[]]), (['+'], [['+']]), ([','], [[]]), (['-'], [['-']]), (['.'], [['.']]), (['/'], [['/']]), ([':'], [[':']]), ([';'], [[]]), (['@'], [[]]), (['['], [[]]), ([']'], [[]]), (['z'], [['z']]), (['|'], [[]])]
  relativeType := [(['t', 'h', 'i', 's', ' ', 'm', 'i', 'n', 'u', 't', 'e'], ['0', ' ', 'm', 'i', 'n', 'u', 't', 'e', ' ', 'a', 'g', 'o']), (['l', 'a', 's', 't', ' ', 'm', 'o', 'n', 't', 'h'], ['1', ' ', 'm', 'o', 'n', 't', 'h', ' ', 'a', 'g', 'o']), (['n', 'e', 'x', 't', ' ', 'm', 'o', 'n', 't', 'h'], ['i', 'n', ' ', '1', ' ', 'm', 'o', 'n', 't', 'h']), (['t', 'h', 'i', 's', ' ', 'm', 'o', 'n', 't', 'h'], ['0', ' ', 'm', 'o', 'n', 't', 'h', ' ', 'a', 'g', 'o']), (['l', 'a', 's', 't', ' ', 'w', 'e', 'e', 'k'], ['1', ' ', 'w', 'e', 'e', 'k', ' ', 'a', 'g', 'o']), (['l', 'a', 's', 't', ' ', 'y', 'e', 'a', 'r'], ['1', ' ', 'y', 'e', 'a', 'r', ' ', 'a', 'g', 'o']), (['n', 'e', 'x', 't', ' ', 'w', 'e', 'e', 'k'], ['i', 'n', ' ', '1', ' ', 'w', 'e', 'e', 'k']), (['n', 'e', 'x', 't', ' ', 'y', 'e', 'a', 'r'], ['i', 'n', ' ', '1', ' ', 'y', 'e', 'a', 'r']), (['t', 'h', 'i', 's', ' ', 'h', 'o', 'u', 'r'], ['0', ' ', 'h', 'o', 'u', 'r', ' ', 'a', 'g', 'o']), (['t', 'h', 'i', 's', ' ', 'w', 'e', 'e', 'k'], ['0', ' ', 'w', 'e', 'e', 'k', ' ', 'a', 'g', 'o']), (['t', 'h', 'i', 's', ' ', 'y', 'e', 'a', 'r'], ['0', ' ', 'y', 'e', 'a', 'r', ' ', 'a', 'g', 'o']), (['i', 'k', 'w', 'i', 'r', 'i'], ['1', ' ', 'd', 'a', 'y', ' ', 'a', 'g', 'o']), (['t', 'e', 'c', 'h', 'ɔ', 'ŋ'], ['0', ' ', 'd', 'a', 'y', ' ', 'a', 'g', 'o']), (['i', 's', 'u'], ['i', 'n', ' ', '1', ' ', 'd', 'a', 'y']), (['n', 'o', 'w'], ['0', ' ', 's', 'e', 'c', 'o', 'n', 'd', ' ', 'a', 'g', 'o'])]

/-- internal/data/mk.go: `mk_Locale`, dictionary. -/
def mkDict : LangData where
  name := ['m', 'k']
  translations := [(['п', 'о', 'н', 'е', 'д', 'е', 'л', 'н', 'и', 'к'], [['m', 'o', 'n', 'd', 'a', 'y']]), (['п', 'р', 'е', 'т', 'п', 'л', 'а', 'д', 'н', 'е'], [['a', 'm']]), (['с', 'е', 'п', 'т', 'е', 'м', 'в', 'р', 'и'], [['s', 'e', 'p', 't', 'e', 'm', 'b', 'e', 'r']]), (['д', 'е', 'к', 'е', 'м', 'в', 'р', 'и'], [['d', 'e', 'c', 'e', 'm', 'b', 'e', 'r']]), (['о', 'к', 'т', 'о', 'м', 'в', 'р', 'и'], [['o', 'c', 't', 'o', 'b', 'e', 'r']]), (['п', 'о', 'п', 'л', 'а', 'д', 'н', 'е'], [['p', 'm']]), (['ф', 'е', 'в', 'р', 'у', 'а', 'р', 'и'], [['f', 'e', 'b', 'r', 'u', 'a', 'r', 'y']]), (['ч', 'е', 'т', 'в', 'р', 'т', 'о', 'к'], [['t', 'h', 'u', 'r', 's', 'd', 'a', 'y']]), (['в', 'т', 'о', 'р', 'н', 'и', 'к'], [['t', 'u', 'e', 's', 'd', 'a', 'y']]), (['н', 'о', 'е', 'м', 'в', 'р', 'и'], [['n', 'o', 'v', 'e', 'm', 'b', 'e', 'r']]), (['с', 'е', 'к', 'у', 'н', 'д', 'а'], [['s', 'e', 'c', 'o', 'n', 'd']]), (['ј', 'а', 'н', 'у', 'а', 'р', 'и'], [['j', 'a', 'n', 'u', 'a', 'r', 'y']]), (['а', 'в', 'г', 'у', 'с', 'т'], [['a', 'u', 'g', 'u', 's', 't']]), (['г', 'о', 'д', 'и', 'н', 'а'], [['y', 'e', 'a', 'r']]), (['м', 'и', 'н', 'у', 'т', 'а'], [['m', 'i', 'n', 'u', 't', 'e']]), (['н', 'е', 'д', 'е', 'л', 'а'], [['w', 'e', 'e', 'k'], ['s', 'u', 'n', 'd', 'a', 'y']]), (['п', 'р', 'е', 'т', 'п', 'л'], [['a', 'm']]), (['с', 'а', 'б', 'о', 'т', 'а'], [['s', 'a', 't', 'u', 'r', 'd', 'a', 'y']]), (['а', 'п', 'р', 'и', 'л'], [['a', 'p', 'r', 'i', 'l']]), (['м', 'е', 'с', 'е', 'ц'], [['m', 'o', 'n', 't', 'h']]), (['п', 'е', 'т', 'о', 'к'], [['f', 'r', 'i', 'd', 'a', 'y']]), (['с', 'р', 'е', 'д', 'а'], [['w', 'e', 'd', 'n', 'e', 's', 'd', 'a', 'y']]), (['м', 'а', 'р', 'т'], [['m', 'a', 'r', 'c', 'h']]), (['н', 'о', 'е', 'м'], [['n', 'o', 'v', 'e', 'm', 'b', 'e', 'r']]), (['п', 'о', 'п', 'л'], [['p', 'm']]), (['с', 'е', 'п', 'т'], [['s', 'e', 'p', 't', 'e', 'm', 'b', 'e', 'r']]), (['ј', 'у', 'л', 'и'], [['j', 'u', 'l', 'y']]), (['ј', 'у', 'н', 'и'], [['j', 'u', 'n', 'e']]), (['g', 'm', 't'], [['g', 'm', 't']]), (['u', 't', 'c'], [['u', 't', 'c']]), (['а', 'в', 'г'], [['a', 'u', 'g', 'u', 's', 't']]), (['а', 'п', 'р'], [['a', 'p', 'r', 'i', 'l']]), (['в', 'т', 'о'], [['t', 'u', 'e', 's', 'd', 'a', 'y']]), (['г', 'о', 'д'], [['y', 'e', 'a', 'r']]), (['д', 'е', 'к'], [['d', 'e', 'c', 'e', 'm', 'b', 'e', 'r']]), (['д', 'е', 'н'], [['d', 'a', 'y']]), (['м', 'а', 'р'], [['m', 'a', 'r', 'c', 'h']]), (['м', 'а', 'ј'], [['m', 'a', 'y']]), (['м', 'е', 'с'], [['m', 'o', 'n', 't', 'h']]), (['м', 'и', 'н'], [['m', 'i', 'n', 'u', 't', 'e']]), (['н', 'е', 'д'], [['s', 'u', 'n', 'd', 'a', 'y']]), (['о', 'к', 'т'], [['o', 'c', 't', 'o', 'b', 'e', 'r']]), (['п', 'е', 'т'], [['f', 'r', 'i', 'd', 'a', 'y']]), (['п', 'о', 'н'], [['m', 'o', 'n', 'd', 'a', 'y']]), (['с', 'а', 'б'], [['s', 'a', 't', 'u', 'r', 'd', 'a', 'y']]), (['с', 'е', 'д'], [['w', 'e', 'e', 'k']]), (['с', 'е', 'к'], [['s', 'e', 'c', 'o', 'n', 'd']]), (['с', 'р', 'е'], [['w', 'e', 'd', 'n', 'e', 's', 'd', 'a', 'y']]), (['ф', 'е', 'в'], [['f', 'e', 'b', 'r', 'u', 'a', 'r', 'y']]), (['ч', 'а', 'с'], [['h', 'o', 'u', 'r']]), (['ч', 'е', 'т'], [['t', 'h', 'u', 'r', 's', 'd', 'a', 'y']]), (['ј', 'а', 'н'], [['j', 'a', 'n', 'u', 'a', 'r', 'y']]), (['ј', 'у', 'л'], [['j', 'u', 'l', 'y']]), (['ј', 'у', 'н'], [['j', 'u', 'n', 'e']]), (['a', 'm'], [['a', 'm']]), (['p', 'm'], [['p', 'm']]), (['в', 'т'], [['t', 'u', 'e', 's', 'd', 'a', 'y']]), ([' '], [[' ']]), (['\''], [[]]), (['+'], [['+']]), ([','], [[]]), (['-'], [['-']]), (['.'], [['.']]), (['/'], [['/']]), ([':'], [[':']]), ([';'], [[]]), (['@'], [[]]), (['['], [[]]), ([']'], [[]]), (['z'], [['z']]), (['|'], [[]])]
  relativeType := [(['м', 'и', 'н', 'а', 'т', 'а', 'т', 'а', ' ', 'с', 'е', 'д', 'м', 'и', 'ц', 'а'], ['1', ' ', 'w', 'e', 'e', 'k', ' ', 'a', 'g', 'o']), (['с', 'л', 'е', 'д', 'н', 'а', 'т', 'а', ' ', 'с', 'е', 'д', 'м', 'и', 'ц', 'а'], ['i', 'n', ' ', '1', ' ', 'w', 'e', 'e', 'k']), (['м', 'и', 'н', 'а', 'т', 'а', 'т', 'а', ' ', 'г', 'о', 'д', 'и', 'н', 'а'], ['1', ' ', 'y', 'e', 'a', 'r', ' ', 'a', 'g', 'o']), (['с', 'л', 'е', 'д', 'н', 'а', 'т', 'а', ' ', 'г', 'о', 'д', 'и', 'н', 'а'], ['i', 'n', ' ', '1', ' ', 'y', 'e', 'a', 'r']), (['м', 'и', 'н', 'а', 'т', 'и', 'о', 'т', ' ', 'м', 'е', 'с', 'е', 'ц'], ['1', ' ', 'm', 'o', 'n', 't', 'h', ' ', 'a', 'g', 'o']), (['с', 'л', 'е', 'д', 'н', 'и', 'о', 'т', ' ', 'м', 'е', 'с', 'е', 'ц'], ['i', 'n', ' ', '1', ' ', 'm', 'o', 'n', 't', 'h']), (['о', 'в', 'а', 'а', ' ', 'с', 'е', 'д', 'м', 'и', 'ц', 'а'], ['0', ' ', 'w', 'e', 'e', 'k', ' ', 'a', 'g', 'o']), (['о', 'в', 'а', 'а', ' ', 'г', 'о', 'д', 'и', 'н', 'а'], ['0', ' ', 'y', 'e', 'a', 'r', ' ', 'a', 'g', 'o']), (['о', 'в', 'а', 'а', ' ', 'м', 'и', 'н', 'у', 'т', 'а'], ['0', ' ', 'm', 'i', 'n', 'u', 't', 'e', ' ', 'a', 'g', 'o']), (['о', 'в', 'о', 'ј', ' ', 'м', 'е', 'с', 'е', 'ц'], ['0', ' ', 'm', 'o', 'n', 't', 'h', ' ', 'a', 'g', 'o']), (['в', 'ч', 'е', 'р', 'а'], ['1', ' ', 'd', 'a', 'y', ' ', 'a', 'g', 'o']), (['д', 'е', 'н', 'е', 'с'], ['0', ' ', 'd', 'a', 'y', ' ', 'a', 'g', 'o']), (['ч', 'а', 'с', 'о', 'в'], ['0', ' ', 'h', 'o', 'u', 'r', ' ', 'a', 'g', 'o']), (['с', 'е', 'г', 'а'], ['0', ' ', 's', 'e', 'c', 'o', 'n', 'd', ' ', 'a', 'g', 'o']), (['у', 'т', 'р', 'е'], ['i', 'n', ' ', '1', ' ', 'd', 'a', 'y'])]

/-- internal/data/ml.go: `ml_Locale`, dictionary. -/
def mlDict : LangData where
  name := ['m', 'l']
  translations := [(['വ', 'െ', 'ള', 'ള', 'ി', 'യ', 'ാ', 'ഴ', (Char.ofNat 0x200c), 'ച'], [['f', 'r', 'i', 'd', 'a', 'y']]), (['ത', 'ി', 'ങ', 'ക', 'ള', 'ാ', 'ഴ', (Char.ofNat 0x200c), 'ച'], [['m', 'o', 'n', 'd', 'a', 'y']]), (['ച', 'ൊ', 'വ', 'വ', 'ാ', 'ഴ', (Char.ofNat 0x200c), 'ച'], [['t', 'u', 'e', 's', 'd', 'a', 'y']]), (['ഞ', 'ാ', 'യ', 'റ', 'ാ', 'ഴ', (Char.ofNat 0x200c), 'ച'], [['s', 'u', 'n', 'd', 'a', 'y']]), (['വ', 'യ', 'ാ', 'ഴ', 'ാ', 'ഴ', (Char.ofNat 0x200c), 'ച'], [['t', 'h', 'u', 'r', 's', 'd', 'a', 'y']]), (['ശ', 'ന', 'ി', 'യ', 'ാ', 'ഴ', (Char.ofNat 0x200c), 'ച'], [['s', 'a', 't', 'u', 'r', 'd', 'a', 'y']]), (['സ', 'െ', 'പ', 'റ', 'റ', 'ം', 'ബ', 'ർ'], [['s', 'e', 'p', 't', 'e', 'm', 'b', 'e', 'r']]), (['ഒ', 'ക', (Char.ofNat 0x200c), 'ട', 'ോ', 'ബ', 'ർ'], [['o', 'c', 't', 'o', 'b', 'e', 'r']]), (['ച', 'ൊ', 'വ', 'വ', 'ാ', 'ഴ', 'ച'], [['t', 'u', 'e', 's', 'd', 'a', 'y']]), (['ഫ', 'െ', 'ബ', 'ര', 'വ', 'ര', 'ി'], [['f', 'e', 'b', 'r', 'u', 'a', 'r', 'y']]), (['ബ', 'ധ', 'ന', 'ാ', 'ഴ', (Char.ofNat 0x200c), 'ച'], [['w', 'e', 'd', 'n', 'e', 's', 'd', 'a', 'y']]), (['ഡ', 'ി', 'സ', 'ം', 'ബ', 'ർ'], [['d', 'e', 'c', 'e', 'm', 'b', 'e', 'r']]), (['മ', 'ണ', 'ി', 'ക', 'ക', 'ർ'], [['h', 'o', 'u', 'r']]), (['മ', 'ി', 'ന', 'ി', 'റ', 'റ'], [['m', 'i', 'n', 'u', 't', 'e']]), (['സ', 'െ', 'ക', 'ക', 'ൻ', 'ഡ'], [['s', 'e', 'c', 'o', 'n', 'd']]), (['സ', 'െ', 'പ', 'റ', 'റ', 'ം'], [['s', 'e', 'p', 't', 'e', 'm', 'b', 'e', 'r']]), (['ഏ', 'പ', 'ര', 'ി', 'ൽ'], [['a', 'p', 'r', 'i', 'l']]), (['ഓ', 'ഗ', 'സ', 'റ', 'റ'], [['a', 'u', 'g', 'u', 's', 't']]), (['ജ', 'ന', 'വ', 'ര', 'ി'], [['j', 'a', 'n', 'u', 'a', 'r', 'y']]), (['ത', 'ി', 'ങ', 'ക', 'ൾ'], [['m', 'o', 'n', 'd', 'a', 'y']]), (['ദ', 'ി', 'വ', 'സ', 'ം'], [['d', 'a', 'y']]), (['ന', 'വ', 'ം', 'ബ', 'ർ'], [['n', 'o', 'v', 'e', 'm', 'b', 'e', 'r']]), (['മ', 'ാ', 'ർ', 'ച', 'ച'], [['m', 'a', 'r', 'c', 'h']]), (['വ', 'യ', 'ാ', 'ഴ', 'ം'], [['t', 'h', 'u', 'r', 's', 'd', 'a', 'y']]), (['വ', 'െ', 'ള', 'ള', 'ി'], [['f', 'r', 'i', 'd', 'a', 'y']]), (['ഏ', 'പ', 'ര', 'ി'], [['a', 'p', 'r', 'i', 'l']]), (['ഒ', 'ക', 'ട', 'ോ'], [['o', 'c', 't', 'o', 'b', 'e', 'r']]), (['ച', 'ൊ', 'വ', 'വ'], [['t', 'u', 'e', 's', 'd', 'a', 'y']]), (['ഞ', 'ാ', 'യ', 'ർ'], [['s', 'u', 'n', 'd', 'a', 'y']]), (['ഡ', 'ി', 'സ', 'ം'], [['d', 'e', 'c', 'e', 'm', 'b', 'e', 'r']]), (['ഫ', 'െ', 'ബ', 'ര'], [['f', 'e', 'b', 'r', 'u', 'a', 'r', 'y']]), (['മ', 'ാ', 'സ', 'ം'], [['m', 'o', 'n', 't', 'h']]), (['വ', 'ർ', 'ഷ', 'ം'], [['y', 'e', 'a', 'r']]), (['g', 'm', 't'], [['g', 'm', 't']]), (['u', 't', 'c'], [['u', 't', 'c']]), (['ആ', 'ഴ', 'ച'], [['w', 'e', 'e', 'k']]), (['ജ', 'ല', 'ൈ'], [['j', 'u', 'l', 'y']]), (['ന', 'വ', 'ം'], [['n', 'o', 'v', 'e', 'm', 'b', 'e', 'r']]), (['ബ', 'ധ', 'ൻ'], [['w', 'e', 'd', 'n', 'e', 's', 'd', 'a', 'y']]), (['മ', 'ാ', 'ർ'], [['m', 'a', 'r', 'c', 'h']]), (['മ', 'േ', 'യ'], [['m', 'a', 'y']]), (['ശ', 'ന', 'ി'], [['s', 'a', 't', 'u', 'r', 'd', 'a', 'y']]), (['a', 'm'], [['a', 'm']]), (['p', 'm'], [['p', 'm']]), (['ഓ', 'ഗ'], [['a', 'u', 'g', 'u', 's', 't']]), (['ജ', 'ന'], [['j', 'a', 'n', 'u', 'a', 'r', 'y']]), (['ജ', 'ൺ'], [['j', 'u', 'n', 'e']]), (['മ', 'ാ'], [['m', 'o', 'n', 't', 'h']]), (['മ', 'ി'], [['m', 'i', 'n', 'u', 't', 'e']]), (['സ', 'െ'], [['s', 'e', 'c', 'o', 'n', 'd']]), ([' '], [[' ']]), (['\''], [[]]), (['+'], [['+']]), ([','], [[]]), (['-'], [['-']]), (['.'], [['.']]), (['/'], [['/']]), ([':'], [[':']]), ([';'], [[]]), (['@'], [[]]), (['['], [[]]), ([']'], [[]]), (['z'], [['z']]), (['|'], [[]]), (['ആ'], [['w', 'e', 'e', 'k']]), (['മ'], [['h', 'o', 'u', 'r']]), (['വ'], [['y', 'e', 'a', 'r']])]
  relativeType := [(['ഈ', ' ', 'മ', 'ണ', 'ി', 'ക', 'ക', 'റ', 'ി', 'ൽ'], ['0', ' ', 'h', 'o', 'u', 'r', ' ', 'a', 'g', 'o']), (['ഈ', ' ', 'മ', 'ി', 'ന', 'ി', 'റ', 'റ', 'ി', 'ൽ'], ['0', ' ', 'm', 'i', 'n', 'u', 't', 'e', ' ', 'a', 'g', 'o']), (['ക', 'ഴ', 'ി', 'ഞ', 'ഞ', ' ', 'ആ', 'ഴ', (Char.ofNat 0x200c), 'ച'], ['1', ' ', 'w', 'e', 'e', 'k', ' ', 'a', 'g', 'o']), (['ക', 'ഴ', 'ി', 'ഞ', 'ഞ', ' ', 'മ', 'ാ', 'സ', 'ം'], ['1', ' ', 'm', 'o', 'n', 't', 'h', ' ', 'a', 'g', 'o']), (['ക', 'ഴ', 'ി', 'ഞ', 'ഞ', ' ', 'വ', 'ർ', 'ഷ', 'ം'], ['1', ' ', 'y', 'e', 'a', 'r', ' ', 'a', 'g', 'o']), (['അ', 'ട', 'ത', 'ത', ' ', 'മ', 'ാ', 'സ', 'ം'], ['i', 'n', ' ', '1', ' ', 'm', 'o', 'n', 't', 'h']), (['അ', 'ട', 'ത', 'ത', ' ', 'ആ', 'ഴ', 'ച'], ['i', 'n', ' ', '1', ' ', 'w', 'e', 'e', 'k']), (['അ', 'ട', 'ത', 'ത', 'വ', 'ർ', 'ഷ', 'ം'], ['i', 'n', ' ', '1', ' ', 'y', 'e', 'a', 'r']), (['ഈ', ' ', 'വ', 'ർ', (Char.ofNat 0x200c), 'ഷ', 'ം'], ['0', ' ', 'y', 'e', 'a', 'r', ' ', 'a', 'g', 'o']), (['ഈ', ' ', 'മ', 'ാ', 'സ', 'ം'], ['0', ' ', 'm', 'o', 'n', 't', 'h', ' ', 'a', 'g', 'o']), (['ഇ', 'ന', 'ന', 'ല', 'െ'], ['1', ' ', 'd', 'a', 'y', ' ', 'a', 'g', 'o']), (['ഇ', 'പ', 'പ', 'ോ', 'ൾ'], ['0', ' ', 's', 'e', 'c', 'o', 'n', 'd', ' ', 'a', 'g', 'o']), (['ഈ', ' ', 'ആ', 'ഴ', 'ച'], ['0', ' ', 'w', 'e', 'e', 'k', ' ', 'a', 'g', 'o']), (['ന', 'ാ', 'ള', 'െ'], ['i', 'n', ' ', '1', ' ', 'd', 'a', 'y']), (['ഇ', 'ന', 'ന'], ['0', ' ', 'd', 'a', 'y', ' ', 'a', 'g', 'o'])]

/-- internal/data/mn.go: `mn_Locale`, dictionary. -/
def mnDict : LangData where
  name := ['m', 'n']
  translations := [(['а', 'р', 'в', 'а', 'н', ' ', 'х', 'о', 'е', 'р', 'д', 'у', 'г', 'а', 'а', 'р', ' ', 'с', 'а', 'р'], [['d', 'e', 'c', 'e', 'm', 'b', 'e', 'r']]), (['а', 'р', 'в', 'а', 'н', ' ', 'н', 'э', 'г', 'д', 'ү', 'г', 'э', 'э', 'р', ' ', 'с', 'а', 'р'], [['n', 'o', 'v', 'e', 'm', 'b', 'e', 'r']]), (['г', 'у', 'р', 'а', 'в', 'д', 'у', 'г', 'а', 'а', 'р', ' ', 'с', 'а', 'р'], [['m', 'a', 'r', 'c', 'h']]), (['д', 'ө', 'р', 'ө', 'в', 'д', 'ү', 'г', 'э', 'э', 'р', ' ', 'с', 'а', 'р'], [['a', 'p', 'r', 'i', 'l']]), (['з', 'у', 'р', 'г', 'а', 'д', 'у', 'г', 'а', 'а', 'р', ' ', 'с', 'а', 'р'], [['j', 'u', 'n', 'e']]), (['а', 'р', 'а', 'в', 'д', 'у', 'г', 'а', 'а', 'р', ' ', 'с', 'а', 'р'], [['o', 'c', 't', 'o', 'b', 'e', 'r']]), (['н', 'а', 'и', 'м', 'д', 'у', 'г', 'а', 'а', 'р', ' ', 'с', 'а', 'р'], [['a', 'u', 'g', 'u', 's', 't']]), (['х', 'о', 'е', 'р', 'д', 'у', 'г', 'а', 'а', 'р', ' ', 'с', 'а', 'р'], [['f', 'e', 'b', 'r', 'u', 'a', 'r', 'y']]), (['д', 'о', 'л', 'д', 'у', 'г', 'а', 'а', 'р', ' ', 'с', 'а', 'р'], [['j', 'u', 'l', 'y']]), (['н', 'э', 'г', 'д', 'ү', 'г', 'э', 'э', 'р', ' ', 'с', 'а', 'р'], [['j', 'a', 'n', 'u', 'a', 'r', 'y']]), (['т', 'а', 'в', 'д', 'у', 'г', 'а', 'а', 'р', ' ', 'с', 'а', 'р'], [['m', 'a', 'y']]), (['е', 'с', 'д', 'ү', 'г', 'э', 'э', 'р', ' ', 'с', 'а', 'р'], [['s', 'e', 'p', 't', 'e', 'm', 'b', 'e', 'r']]), (['д', 'о', 'л', 'о', 'о', ' ', 'х', 'о', 'н', 'о', 'г'], [['w', 'e', 'e', 'k']]), (['1', '0', '-', 'р', ' ', 'с', 'а', 'р'], [['o', 'c', 't', 'o', 'b', 'e', 'r']]), (['1', '1', '-', 'р', ' ', 'с', 'а', 'р'], [['n', 'o', 'v', 'e', 'm', 'b', 'e', 'r']]), (['1', '2', '-', 'р', ' ', 'с', 'а', 'р'], [['d', 'e', 'c', 'e', 'm', 'b', 'e', 'r']]), (['1', '-', 'р', ' ', 'с', 'а', 'р'], [['j', 'a', 'n', 'u', 'a', 'r', 'y']]), (['2', '-', 'р', ' ', 'с', 'а', 'р'], [['f', 'e', 'b', 'r', 'u', 'a', 'r', 'y']]), (['3', '-', 'р', ' ', 'с', 'а', 'р'], [['m', 'a', 'r', 'c', 'h']]), (['4', '-', 'р', ' ', 'с', 'а', 'р'], [['a', 'p', 'r', 'i', 'l']]), (['5', '-', 'р', ' ', 'с', 'а', 'р'], [['m', 'a', 'y']]), (['6', '-', 'р', ' ', 'с', 'а', 'р'], [['j', 'u', 'n', 'e']]), (['7', '-', 'р', ' ', 'с', 'а', 'р'], [['j', 'u', 'l', 'y']]), (['8', '-', 'р', ' ', 'с', 'а', 'р'], [['a', 'u', 'g', 'u', 's', 't']]), (['9', '-', 'р', ' ', 'с', 'а', 'р'], [['s', 'e', 'p', 't', 'e', 'm', 'b', 'e', 'r']]), (['б', 'а', 'а', 'с', 'а', 'н'], [['f', 'r', 'i', 'd', 'a', 'y']]), (['л', 'х', 'а', 'г', 'в', 'а'], [['w', 'e', 'd', 'n', 'e', 's', 'd', 'a', 'y']]), (['м', 'я', 'г', 'м', 'а', 'р'], [['t', 'u', 'e', 's', 'd', 'a', 'y']]), (['с', 'е', 'к', 'у', 'н', 'д'], [['s', 'e', 'c', 'o', 'n', 'd']]), (['б', 'я', 'м', 'б', 'а'], [['s', 'a', 't', 'u', 'r', 'd', 'a', 'y']]), (['д', 'а', 'в', 'а', 'а'], [['m', 'o', 'n', 'd', 'a', 'y']]), (['м', 'и', 'н', 'у', 'т'], [['m', 'i', 'n', 'u', 't', 'e']]), (['п', 'ү', 'р', 'э', 'в'], [['t', 'h', 'u', 'r', 's', 'd', 'a', 'y']]), (['ө', 'д', 'ө', 'р'], [['d', 'a', 'y']]), (['g', 'm', 't'], [['g', 'm', 't']]), (['u', 't', 'c'], [['u', 't', 'c']]), (['ж', 'и', 'л'], [['y', 'e', 'a', 'r']]), (['м', 'и', 'н'], [['m', 'i', 'n', 'u', 't', 'e']]), (['н', 'я', 'м'], [['s', 'u', 'n', 'd', 'a', 'y']]), (['с', 'а', 'р'], [['m', 'o', 'n', 't', 'h']]), (['с', 'е', 'к'], [['s', 'e', 'c', 'o', 'n', 'd']]), (['ц', 'а', 'г'], [['h', 'o', 'u', 'r']]), (['7', 'х'], [['w', 'e', 'e', 'k']]), (['a', 'm'], [['a', 'm']]), (['p', 'm'], [['p', 'm']]), (['б', 'а'], [['f', 'r', 'i', 'd', 'a', 'y']]), (['б', 'я'], [['s', 'a', 't', 'u', 'r', 'd', 'a', 'y']]), (['д', 'а'], [['m', 'o', 'n', 'd', 'a', 'y']]), (['л', 'х'], [['w', 'e', 'd', 'n', 'e', 's', 'd', 'a', 'y']]), (['м', 'я'], [['t', 'u', 'e', 's', 'd', 'a', 'y']]), (['н', 'я'], [['s', 'u', 'n', 'd', 'a', 'y']]), (['п', 'ү'], [['t', 'h', 'u', 'r', 's', 'd', 'a', 'y']]), (['ү', 'х'], [['p', 'm']]), (['ү', 'ө'], [['a', 'm']]), ([' '], [[' ']]), (['\''], [[]]), (['+'], [['+']]), ([','], [[]]), (['-'], [['-']]), (['.'], [['.']]), (['/'], [['/']]), ([':'], [[':']]), ([';'], [[]]), (['@'], [[]]), (['['], [[]]), ([']'], [[]]), (['z'], [['z']]), (['|'], [[]]), (['ц'], [['h', 'o', 'u', 'r']])]
  relativeType := [(['ө', 'н', 'г', 'ө', 'р', 'с', 'ө', 'н', ' ', 'д', 'о', 'л', 'о', 'о', ' ', 'х', 'о', 'н', 'о', 'г'], ['1', ' ', 'w', 'e', 'e', 'k', ' ', 'a', 'g', 'o']), (['и', 'р', 'э', 'х', ' ', 'д', 'о', 'л', 'о', 'о', ' ', 'х', 'о', 'н', 'о', 'г'], ['i', 'n', ' ', '1', ' ', 'w', 'e', 'e', 'k']), (['э', 'н', 'э', ' ', 'д', 'о', 'л', 'о', 'о', ' ', 'х', 'о', 'н', 'о', 'г'], ['0', ' ', 'w', 'e', 'e', 'k', ' ', 'a', 'g', 'o']), (['ө', 'н', 'г', 'ө', 'р', 'с', 'ө', 'н', ' ', 'ж', 'и', 'л'], ['1', ' ', 'y', 'e', 'a', 'r', ' ', 'a', 'g', 'o']), (['ө', 'н', 'г', 'ө', 'р', 'с', 'ө', 'н', ' ', 'с', 'а', 'р'], ['1', ' ', 'm', 'o', 'n', 't', 'h', ' ', 'a', 'g', 'o']), (['э', 'н', 'э', ' ', 'м', 'и', 'н', 'у', 'т'], ['0', ' ', 'm', 'i', 'n', 'u', 't', 'e', ' ', 'a', 'g', 'o']), (['и', 'р', 'э', 'х', ' ', 'ж', 'и', 'л'], ['i', 'n', ' ', '1', ' ', 'y', 'e', 'a', 'r']), (['и', 'р', 'э', 'х', ' ', 'с', 'а', 'р'], ['i', 'n', ' ', '1', ' ', 'm', 'o', 'n', 't', 'h']), (['м', 'а', 'р', 'г', 'а', 'а', 'ш'], ['i', 'n', ' ', '1', ' ', 'd', 'a', 'y']), (['э', 'н', 'э', ' ', 'ж', 'и', 'л'], ['0', ' ', 'y', 'e', 'a', 'r', ' ', 'a', 'g', 'o']), (['э', 'н', 'э', ' ', 'с', 'а', 'р'], ['0', ' ', 'm', 'o', 'n', 't', 'h', ' ', 'a', 'g', 'o']), (['э', 'н', 'э', ' ', 'ц', 'а', 'г'], ['0', ' ', 'h', 'o', 'u', 'r', ' ', 'a', 'g', 'o']), (['ө', 'н', 'ө', 'ө', 'д', 'ө', 'р'], ['0', ' ', 'd', 'a', 'y', ' ', 'a', 'g', 'o']), (['ө', 'ч', 'и', 'г', 'д', 'ө', 'р'], ['1', ' ', 'd', 'a', 'y', ' ', 'a', 'g', 'o']), (['о', 'д', 'о', 'о'], ['0', ' ', 's', 'e', 'c', 'o', 'n', 'd', ' ', 'a', 'g', 'o'])]

/-- internal/data/mr.go: `mr_Locale`, dictionary. -/
def mrDict : LangData where
  name := ['m', 'r']
  translations := [(['ज', 'ा', 'न', 'व', 'ा', 'र', 'ी'], [['j', 'a', 'n', 'u', 'a', 'r', 'y']]), (['फ', 'ब', 'र', 'व', 'ा', 'र', 'ी'], [['f', 'e', 'b', 'r', 'u', 'a', 'r', 'y']]), (['ऑ', 'क', 'ट', 'ो', 'ब', 'र'], [['o', 'c', 't', 'o', 'b', 'e', 'r']]), (['न', 'ो', 'व', 'ह', 'ब', 'र'], [['n', 'o', 'v', 'e', 'm', 'b', 'e', 'r']]), (['म', 'ग', 'ळ', 'व', 'ा', 'र'], [['t', 'u', 'e', 's', 'd', 'a', 'y']]), (['र', 'व', 'ि', 'व', 'ा', 'र'], [['s', 'u', 'n', 'd', 'a', 'y']]), (['श', 'क', 'र', 'व', 'ा', 'र'], [['f', 'r', 'i', 'd', 'a', 'y']]), (['श', 'न', 'ि', 'व', 'ा', 'र'], [['s', 'a', 't', 'u', 'r', 'd', 'a', 'y']]), (['स', 'ो', 'म', 'व', 'ा', 'र'], [['m', 'o', 'n', 'd', 'a', 'y']]), (['आ', 'ठ', 'व', 'ड', 'ा'], [['w', 'e', 'e', 'k']]), (['ए', 'प', 'र', 'ि', 'ल'], [['a', 'p', 'r', 'i', 'l']]), (['ग', 'र', 'व', 'ा', 'र'], [['t', 'h', 'u', 'r', 's', 'd', 'a', 'y']]), (['ड', 'ि', 'स', 'ब', 'र'], [['d', 'e', 'c', 'e', 'm', 'b', 'e', 'r']]), (['ब', 'ध', 'व', 'ा', 'र'], [['w', 'e', 'd', 'n', 'e', 's', 'd', 'a', 'y']]), (['म', 'ह', 'ि', 'न', 'ा'], [['m', 'o', 'n', 't', 'h']]), (['म', 'ि', 'न', 'ि', 'ट'], [['m', 'i', 'n', 'u', 't', 'e']]), (['स', 'प', 'ट', 'ब', 'र'], [['s', 'e', 'p', 't', 'e', 'm', 'b', 'e', 'r']]), (['ए', 'प', 'र', 'ि'], [['a', 'p', 'r', 'i', 'l']]), (['ऑ', 'क', 'ट', 'ो'], [['o', 'c', 't', 'o', 'b', 'e', 'r']]), (['ऑ', 'ग', 'स', 'ट'], [['a', 'u', 'g', 'u', 's', 't']]), (['द', 'ि', 'व', 'स'], [['d', 'a', 'y']]), (['न', 'ो', 'व', 'ह'], [['n', 'o', 'v', 'e', 'm', 'b', 'e', 'r']]), (['म', 'ा', 'र', 'च'], [['m', 'a', 'r', 'c', 'h']]), (['g', 'm', 't'], [['g', 'm', 't']]), (['u', 't', 'c'], [['u', 't', 'c']]), (['ज', 'ा', 'न'], [['j', 'a', 'n', 'u', 'a', 'r', 'y']]), (['ड', 'ि', 'स'], [['d', 'e', 'c', 'e', 'm', 'b', 'e', 'r']]), (['त', 'ा', 'स'], [['h', 'o', 'u', 'r']]), (['फ', 'ब', 'र'], [['f', 'e', 'b', 'r', 'u', 'a', 'r', 'y']]), (['म', 'ग', 'ळ'], [['t', 'u', 'e', 's', 'd', 'a', 'y']]), (['र', 'व', 'ि'], [['s', 'u', 'n', 'd', 'a', 'y']]), (['व', 'र', 'ष'], [['y', 'e', 'a', 'r']]), (['श', 'क', 'र'], [['f', 'r', 'i', 'd', 'a', 'y']]), (['श', 'न', 'ि'], [['s', 'a', 't', 'u', 'r', 'd', 'a', 'y']]), (['स', 'क', 'द'], [['s', 'e', 'c', 'o', 'n', 'd']]), (['स', 'प', 'ट'], [['s', 'e', 'p', 't', 'e', 'm', 'b', 'e', 'r']]), (['स', 'ो', 'म'], [['m', 'o', 'n', 'd', 'a', 'y']]), (['a', 'm'], [['a', 'm']]), (['p', 'm'], [['p', 'm']]), (['ऑ', 'ग'], [['a', 'u', 'g', 'u', 's', 't']]), (['ग', 'र'], [['t', 'h', 'u', 'r', 's', 'd', 'a', 'y']]), (['ज', 'न'], [['j', 'u', 'n', 'e']]), (['ज', 'ल'], [['j', 'u', 'l', 'y']]), (['ब', 'ध'], [['w', 'e', 'd', 'n', 'e', 's', 'd', 'a', 'y']]), (['म', 'उ'], [['p', 'm']]), (['म', 'प'], [['a', 'm']]), (['म', 'ि'], [['m', 'i', 'n', 'u', 't', 'e']]), ([' '], [[' ']]), (['\''], [[]]), (['+'], [['+']]), ([','], [[]]), (['-'], [['-']]), (['.'], [['.']]), (['/'], [['/']]), ([':'], [[':']]), ([';'], [[]]), (['@'], [[]]), (['['], [[]]), ([']'], [[]]), (['z'], [['z']]), (['|'], [[]]), (['म'], [['m', 'a', 'y']]), (['स'], [['s', 'e', 'c', 'o', 'n', 'd']])]
  relativeType := [(['म', 'ा', 'ग', 'ी', 'ल', ' ', 'आ', 'ठ', 'व', 'ड', 'ा'], ['1', ' ', 'w', 'e', 'e', 'k', ' ', 'a', 'g', 'o']), (['म', 'ा', 'ग', 'ी', 'ल', ' ', 'म', 'ह', 'ि', 'न', 'ा'], ['1', ' ', 'm', 'o', 'n', 't', 'h', ' ', 'a', 'g', 'o']), (['प', 'ढ', 'ी', 'ल', ' ', 'आ', 'ठ', 'व', 'ड', 'ा'], ['i', 'n', ' ', '1', ' ', 'w', 'e', 'e', 'k']), (['प', 'ढ', 'ी', 'ल', ' ', 'म', 'ह', 'ि', 'न', 'ा'], ['i', 'n', ' ', '1', ' ', 'm', 'o', 'n', 't', 'h']), (['य', 'ा', ' ', 'म', 'ि', 'न', 'ि', 'ट', 'ा', 'त'], ['0', ' ', 'm', 'i', 'n', 'u', 't', 'e', ' ', 'a', 'g', 'o']), (['म', 'ा', 'ग', 'ी', 'ल', ' ', 'व', 'र', 'ष'], ['1', ' ', 'y', 'e', 'a', 'r', ' ', 'a', 'g', 'o']), (['प', 'ढ', 'ी', 'ल', ' ', 'व', 'र', 'ष'], ['i', 'n', ' ', '1', ' ', 'y', 'e', 'a', 'r']), (['ह', 'ा', ' ', 'आ', 'ठ', 'व', 'ड', 'ा'], ['0', ' ', 'w', 'e', 'e', 'k', ' ', 'a', 'g', 'o']), (['ह', 'ा', ' ', 'म', 'ह', 'ि', 'न', 'ा'], ['0', ' ', 'm', 'o', 'n', 't', 'h', ' ', 'a', 'g', 'o']), (['त', 'ा', 'स', 'ा', 'त'], ['0', ' ', 'h', 'o', 'u', 'r', ' ', 'a', 'g', 'o']), (['ह', ' ', 'व', 'र', 'ष'], ['0', ' ', 'y', 'e', 'a', 'r', ' ', 'a', 'g', 'o']), (['आ', 'त', 'त', 'ा'], ['0', ' ', 's', 'e', 'c', 'o', 'n', 'd', ' ', 'a', 'g', 'o']), (['उ', 'द', 'य', 'ा'], ['i', 'n', ' ', '1', ' ', 'd', 'a', 'y']), (['क', 'ा', 'ल'], ['1', ' ', 'd', 'a', 'y', ' ', 'a', 'g', 'o']), (['आ', 'ज'], ['0', ' ', 'd', 'a', 'y', ' ', 'a', 'g', 'o'])]

/-- internal/data/ms.go: `ms_Locale`, dictionary. -/
def msDict : LangData where
  name := ['m', 's']
  translations := [(['s', 'e', 'p', 't', 'e', 'm', 'b', 'e', 'r'], [['s', 'e', 'p', 't', 'e', 'm', 'b', 'e', 'r']]), (['d', 'i', 's', 'e', 'm', 'b', 'e', 'r'], [['d', 'e', 'c', 'e', 'm', 'b', 'e', 'r']]), (['f', 'e', 'b', 'r', 'u', 'a', 'r', 'i'], [['f', 'e', 'b', 'r', 'u', 'a', 'r', 'y']]), (['n', 'o', 'v', 'e', 'm', 'b', 'e', 'r'], [['n', 'o', 'v', 'e', 'm', 'b', 'e', 'r']]), (['j', 'a', 'n', 'u', 'a', 'r', 'i'], [['j', 'a', 'n', 'u', 'a', 'r', 'y']]), (['o', 'k', 't', 'o', 'b', 'e', 'r'], [['o', 'c', 't', 'o', 'b', 'e', 'r']]), (['j', 'u', 'm', 'a', 'a', 't'], [['f', 'r', 'i', 'd', 'a', 'y']]), (['k', 'h', 'a', 'm', 'i', 's'], [['t', 'h', 'u', 'r', 's', 'd', 'a', 'y']]), (['m', 'i', 'n', 'g', 'g', 'u'], [['w', 'e', 'e', 'k']]), (['s', 'e', 'l', 'a', 's', 'a'], [['t', 'u', 'e', 's', 'd', 'a', 'y']]), (['a', 'p', 'r', 'i', 'l'], [['a', 'p', 'r', 'i', 'l']]), (['b', 'u', 'l', 'a', 'n'], [['m', 'o', 'n', 't', 'h']]), (['i', 's', 'n', 'i', 'n'], [['m', 'o', 'n', 'd', 'a', 'y']]), (['j', 'u', 'l', 'a', 'i'], [['j', 'u', 'l', 'y']]), (['m', 'i', 'n', 'i', 't'], [['m', 'i', 'n', 'u', 't', 'e']]), (['s', 'a', 'b', 't', 'u'], [['s', 'a', 't', 'u', 'r', 'd', 'a', 'y']]), (['t', 'a', 'h', 'u', 'n'], [['y', 'e', 'a', 'r']]), (['a', 'h', 'a', 'd'], [['s', 'u', 'n', 'd', 'a', 'y']]), (['h', 'a', 'r', 'i'], [['d', 'a', 'y']]), (['o', 'g', 'o', 's'], [['a', 'u', 'g', 'u', 's', 't']]), (['r', 'a', 'b', 'u'], [['w', 'e', 'd', 'n', 'e', 's', 'd', 'a', 'y']]), (['s', 'a', 'a', 't'], [['s', 'e', 'c', 'o', 'n', 'd']]), (['a', 'h', 'd'], [['s', 'u', 'n', 'd', 'a', 'y']]), (['a', 'p', 'r'], [['a', 'p', 'r', 'i', 'l']]), (['b', 'l', 'n'], [['m', 'o', 'n', 't', 'h']]), (['d', 'i', 's'], [['d', 'e', 'c', 'e', 'm', 'b', 'e', 'r']]), (['f', 'e', 'b'], [['f', 'e', 'b', 'r', 'u', 'a', 'r', 'y']]), (['g', 'm', 't'], [['g', 'm', 't']]), (['i', 's', 'n'], [['m', 'o', 'n', 'd', 'a', 'y']]), (['j', 'a', 'm'], [['h', 'o', 'u', 'r']]), (['j', 'a', 'n'], [['j', 'a', 'n', 'u', 'a', 'r', 'y']]), (['j', 'u', 'l'], [['j', 'u', 'l', 'y']]), (['j', 'u', 'm'], [['f', 'r', 'i', 'd', 'a', 'y']]), (['j', 'u', 'n'], [['j', 'u', 'n', 'e']]), (['k', 'h', 'a'], [['t', 'h', 'u', 'r', 's', 'd', 'a', 'y']]), (['m', 'a', 'c'], [['m', 'a', 'r', 'c', 'h']]), (['m', 'e', 'i'], [['m', 'a', 'y']]), (['m', 'g', 'u'], [['w', 'e', 'e', 'k']]), (['m', 'i', 'n'], [['m', 'i', 'n', 'u', 't', 'e']]), (['n', 'o', 'v'], [['n', 'o', 'v', 'e', 'm', 'b', 'e', 'r']]), (['o', 'g', 'o'], [['a', 'u', 'g', 'u', 's', 't']]), (['o', 'k', 't'], [['o', 'c', 't', 'o', 'b', 'e', 'r']]), (['p', 't', 'g'], [['p', 'm']]), (['r', 'a', 'b'], [['w', 'e', 'd', 'n', 'e', 's', 'd', 'a', 'y']]), (['s', 'a', 'b'], [['s', 'a', 't', 'u', 'r', 'd', 'a', 'y']]), (['s', 'e', 'l'], [['t', 'u', 'e', 's', 'd', 'a', 'y']]), (['s', 'e', 'p'], [['s', 'e', 'p', 't', 'e', 'm', 'b', 'e', 'r']]), (['t', 'h', 'n'], [['y', 'e', 'a', 'r']]), (['u', 't', 'c'], [['u', 't', 'c']]), (['a', 'm'], [['a', 'm']]), (['p', 'g'], [['a', 'm']]), (['p', 'm'], [['p', 'm']]), ([' '], [[' ']]), (['\''], [[]]), (['+'], [['+']]), ([','], [[]]), (['-'], [['-']]), (['.'], [['.']]), (['/'], [['/']]), ([':'], [[':']]), ([';'], [[]]), (['@'], [[]]), (['['], [[]]), ([']'], [[]]), (['z'], [['z']]), (['|'], [[]])]
  relativeType := [(['p', 'a', 'd', 'a', ' ', 'm', 'i', 'n', 'i', 't', ' ', 'i', 'n', 'i'], ['0', ' ', 'm', 'i', 'n', 'u', 't', 'e', ' ', 'a', 'g', 'o']), (['m', 'i', 'n', 'g', 'g', 'u', ' ', 'd', 'e', 'p', 'a', 'n'], ['i', 'n', ' ', '1', ' ', 'w', 'e', 'e', 'k']), (['b', 'u', 'l', 'a', 'n', ' ', 'd', 'e', 'p', 'a', 'n'], ['i', 'n', ' ', '1', ' ', 'm', 'o', 'n', 't', 'h']), (['m', 'i', 'n', 'g', 'g', 'u', ' ', 'l', 'a', 'l', 'u'], ['1', ' ', 'w', 'e', 'e', 'k', ' ', 'a', 'g', 'o']), (['t', 'a', 'h', 'u', 'n', ' ', 'd', 'e', 'p', 'a', 'n'], ['i', 'n', ' ', '1', ' ', 'y', 'e', 'a', 'r']), (['b', 'u', 'l', 'a', 'n', ' ', 'l', 'a', 'l', 'u'], ['1', ' ', 'm', 'o', 'n', 't', 'h', ' ', 'a', 'g', 'o']), (['m', 'i', 'n', 'g', 'g', 'u', ' ', 'i', 'n', 'i'], ['0', ' ', 'w', 'e', 'e', 'k', ' ', 'a', 'g', 'o']), (['t', 'a', 'h', 'u', 'n', ' ', 'l', 'a', 'l', 'u'], ['1', ' ', 'y', 'e', 'a', 'r', ' ', 'a', 'g', 'o']), (['b', 'l', 'n', ' ', 'd', 'e', 'p', 'a', 'n'], ['i', 'n', ' ', '1', ' ', 'm', 'o', 'n', 't', 'h']), (['b', 'u', 'l', 'a', 'n', ' ', 'i', 'n', 'i'], ['0', ' ', 'm', 'o', 'n', 't', 'h', ' ', 'a', 'g', 'o']), (['m', 'n', 'g', ' ', 'd', 'e', 'p', 'a', 'n'], ['i', 'n', ' ', '1', ' ', 'w', 'e', 'e', 'k']), (['m', 'n', 'g', ' ', 'l', 'e', 'p', 'a', 's'], ['1', ' ', 'w', 'e', 'e', 'k', ' ', 'a', 'g', 'o']), (['t', 'a', 'h', 'u', 'n', ' ', 'i', 'n', 'i'], ['0', ' ', 'y', 'e', 'a', 'r', ' ', 'a', 'g', 'o']), (['t', 'h', 'n', ' ', 'd', 'e', 'p', 'a', 'n'], ['i', 'n', ' ', '1', ' ', 'y', 'e', 'a', 'r']), (['t', 'h', 'n', ' ', 'l', 'e', 'p', 'a', 's'], ['1', ' ', 'y', 'e', 'a', 'r', ' ', 'a', 'g', 'o']), (['b', 'l', 'n', ' ', 'l', 'a', 'l', 'u'], ['1', ' ', 'm', 'o', 'n', 't', 'h', ' ', 'a', 'g', 'o']), (['h', 'a', 'r', 'i', ' ', 'i', 'n', 'i'], ['0', ' ', 'd', 'a', 'y', ' ', 'a', 'g', 'o']), (['s', 'e', 'k', 'a', 'r', 'a', 'n', 'g'], ['0', ' ', 's', 'e', 'c', 'o', 'n', 'd', ' ', 'a', 'g', 'o']), (['b', 'l', 'n', ' ', 'i', 'n', 'i'], ['0', ' ', 'm', 'o', 'n', 't', 'h', ' ', 'a', 'g', 'o']), (['j', 'a', 'm', ' ', 'i', 'n', 'i'], ['0', ' ', 'h', 'o', 'u', 'r', ' ', 'a', 'g', 'o']), (['m', 'n', 'g', ' ', 'i', 'n', 'i'], ['0', ' ', 'w', 'e', 'e', 'k', ' ', 'a', 'g', 'o']), (['s', 'e', 'm', 'a', 'l', 'a', 'm'], ['1', ' ', 'd', 'a', 'y', ' ', 'a', 'g', 'o']), (['t', 'h', 'n', ' ', 'i', 'n', 'i'], ['0', ' ', 'y', 'e', 'a', 'r', ' ', 'a', 'g', 'o']), (['s', 'e', 'm', 'l', 'm'], ['1', ' ', 'd', 'a', 'y', ' ', 'a', 'g', 'o']), (['e', 's', 'o', 'k'], ['i', 'n', ' ', '1', ' ', 'd', 'a', 'y'])]

/-- internal/data/ms.go: `ms_BN_Locale`, dictionary. -/
def ms_BNDict : LangData where
  name := ['m', 's', '-', 'B', 'N']

/-- internal/data/ms.go: `ms_SG_Locale`, dictionary. -/
def ms_SGDict : LangData where
  name := ['m', 's', '-', 'S', 'G']

/-- internal/data/mt.go: `mt_Locale`, dictionary. -/
def mtDict : LangData where
  name := ['m', 't']
  translations := [(['i', 'l', '-', 'g', 'i', 'm', 'g', 'ħ', 'a'], [['f', 'r', 'i', 'd', 'a', 'y']]), (['i', 't', '-', 't', 'l', 'i', 'e', 't', 'a'], [['t', 'u', 'e', 's', 'd', 'a', 'y']]), (['s', 'e', 't', 't', 'e', 'm', 'b', 'r', 'u'], [['s', 'e', 'p', 't', 'e', 'm', 'b', 'e', 'r']]), (['d', 'i', 'c', 'e', 'm', 'b', 'r', 'u'], [['d', 'e', 'c', 'e', 'm', 'b', 'e', 'r']]), (['i', 'l', '-', 'ħ', 'a', 'm', 'i', 's'], [['t', 'h', 'u', 'r', 's', 'd', 'a', 'y']]), (['i', 't', '-', 't', 'n', 'e', 'j', 'n'], [['m', 'o', 'n', 'd', 'a', 'y']]), (['l', '-', 'e', 'r', 'b', 'g', 'ħ', 'a'], [['w', 'e', 'd', 'n', 'e', 's', 'd', 'a', 'y']]), (['n', 'o', 'v', 'e', 'm', 'b', 'r', 'u'], [['n', 'o', 'v', 'e', 'm', 'b', 'e', 'r']]), (['a', 'w', 'w', 'i', 's', 's', 'u'], [['a', 'u', 'g', 'u', 's', 't']]), (['i', 'l', '-', 'ħ', 'a', 'd', 'd'], [['s', 'u', 'n', 'd', 'a', 'y']]), (['i', 's', '-', 's', 'i', 'b', 't'], [['s', 'a', 't', 'u', 'r', 'd', 'a', 'y']]), (['o', 't', 't', 'u', 'b', 'r', 'u'], [['o', 'c', 't', 'o', 'b', 'e', 'r']]), (['s', 'e', 'k', 'o', 'n', 'd', 'a'], [['s', 'e', 'c', 'o', 'n', 'd']]), (['g', 'i', 'm', 'g', 'ħ', 'a'], [['w', 'e', 'e', 'k']]), (['j', 'a', 'n', 'n', 'a', 'r'], [['j', 'a', 'n', 'u', 'a', 'r', 'y']]), (['m', 'i', 'n', 'u', 't', 'a'], [['m', 'i', 'n', 'u', 't', 'e']]), (['s', 'i', 'e', 'g', 'ħ', 'a'], [['h', 'o', 'u', 'r']]), (['a', 'p', 'r', 'i', 'l'], [['a', 'p', 'r', 'i', 'l']]), (['g', 'u', 'n', 'j', 'u'], [['j', 'u', 'n', 'e']]), (['l', 'u', 'l', 'j', 'u'], [['j', 'u', 'l', 'y']]), (['m', 'a', 'r', 'z', 'u'], [['m', 'a', 'r', 'c', 'h']]), (['m', 'e', 'j', 'j', 'u'], [['m', 'a', 'y']]), (['x', 'a', 'h', 'a', 'r'], [['m', 'o', 'n', 't', 'h']]), (['f', 'r', 'a', 'r'], [['f', 'e', 'b', 'r', 'u', 'a', 'r', 'y']]), (['s', 'e', 'n', 'a'], [['y', 'e', 'a', 'r']]), (['a', 'p', 'r'], [['a', 'p', 'r', 'i', 'l']]), (['a', 'w', 'w'], [['a', 'u', 'g', 'u', 's', 't']]), (['d', 'i', 'c'], [['d', 'e', 'c', 'e', 'm', 'b', 'e', 'r']]), (['e', 'r', 'b'], [['w', 'e', 'd', 'n', 'e', 's', 'd', 'a', 'y']]), (['f', 'r', 'a'], [['f', 'e', 'b', 'r', 'u', 'a', 'r', 'y']]), (['g', 'i', 'm'], [['f', 'r', 'i', 'd', 'a', 'y']]), (['g', 'm', 't'], [['g', 'm', 't']]), (['g', 'u', 'n'], [['j', 'u', 'n', 'e']]), (['j', 'a', 'n'], [['j', 'a', 'n', 'u', 'a', 'r', 'y']]), (['j', 'u', 'm'], [['d', 'a', 'y']]), (['l', 'u', 'l'], [['j', 'u', 'l', 'y']]), (['m', 'a', 'r'], [['m', 'a', 'r', 'c', 'h']]), (['m', 'e', 'j'], [['m', 'a', 'y']]), (['n', 'o', 'v'], [['n', 'o', 'v', 'e', 'm', 'b', 'e', 'r']]), (['o', 't', 't'], [['o', 'c', 't', 'o', 'b', 'e', 'r']]), (['s', 'e', 't'], [['s', 'e', 'p', 't', 'e', 'm', 'b', 'e', 'r']]), (['s', 'i', 'b'], [['s', 'a', 't', 'u', 'r', 'd', 'a', 'y']]), (['t', 'l', 'i'], [['t', 'u', 'e', 's', 'd', 'a', 'y']]), (['t', 'n', 'e'], [['m', 'o', 'n', 'd', 'a', 'y']]), (['u', 't', 'c'], [['u', 't', 'c']]), (['ħ', 'a', 'd'], [['s', 'u', 'n', 'd', 'a', 'y']]), (['ħ', 'a', 'm'], [['t', 'h', 'u', 'r', 's', 'd', 'a', 'y']]), (['a', 'm'], [['a', 'm']]), (['p', 'm'], [['p', 'm']]), ([' '], [[' ']]), (['\''], [[]]), (['+'], [['+']]), ([','], [[]]), (['-'], [['-']]), (['.'], [['.']]), (['/'], [['/']]), ([':'], [[':']]), ([';'], [[]]), (['@'], [[]]), (['['], [[]]), ([']'], [[]]), (['z'], [['z']]), (['|'], [[]])]
  relativeType := [(['i', 'l', '-', 'g', 'i', 'm', 'g', 'ħ', 'a', ' ', 'l', 'i', ' ', 'g', 'ħ', 'a', 'd', 'd', 'i', 'e', 't'], ['1', ' ', 'w', 'e', 'e', 'k', ' ', 'a', 'g', 'o']), (['i', 's', '-', 's', 'e', 'n', 'a', ' ', 'l', 'i', ' ', 'g', 'ħ', 'a', 'd', 'd', 'i', 'e', 't'], ['1', ' ', 'y', 'e', 'a', 'r', ' ', 'a', 'g', 'o']), (['i', 'l', '-', 'g', 'i', 'm', 'g', 'ħ', 'a', ' ', 'd', '-', 'd', 'i', 'e', 'ħ', 'l', 'a'], ['i', 'n', ' ', '1', ' ', 'w', 'e', 'e', 'k']), (['i', 'x', '-', 'x', 'a', 'h', 'a', 'r', ' ', 'i', 'd', '-', 'd', 'i', 'e', 'ħ', 'e', 'l'], ['i', 'n', ' ', '1', ' ', 'm', 'o', 'n', 't', 'h']), (['i', 'x', '-', 'x', 'a', 'h', 'a', 'r', ' ', 'l', 'i', ' ', 'g', 'ħ', 'a', 'd', 'd', 'a'], ['1', ' ', 'm', 'o', 'n', 't', 'h', ' ', 'a', 'g', 'o']), (['i', 's', '-', 's', 'e', 'n', 'a', ' ', 'd', '-', 'd', 'i', 'e', 'ħ', 'l', 'a'], ['i', 'n', ' ', '1', ' ', 'y', 'e', 'a', 'r']), (['d', 'i', 'n', ' ', 'i', 'l', '-', 'g', 'i', 'm', 'g', 'ħ', 'a'], ['0', ' ', 'w', 'e', 'e', 'k', ' ', 'a', 'g', 'o']), (['d', 'a', 'n', ' ', 'i', 'x', '-', 'x', 'a', 'h', 'a', 'r'], ['0', ' ', 'm', 'o', 'n', 't', 'h', ' ', 'a', 'g', 'o']), (['d', 'i', 'n', ' ', 'i', 's', '-', 's', 'e', 'n', 'a'], ['0', ' ', 'y', 'e', 'a', 'r', ' ', 'a', 'g', 'o']), (['t', 'h', 'i', 's', ' ', 'm', 'i', 'n', 'u', 't', 'e'], ['0', ' ', 'm', 'i', 'n', 'u', 't', 'e', ' ', 'a', 'g', 'o']), (['t', 'h', 'i', 's', ' ', 'h', 'o', 'u', 'r'], ['0', ' ', 'h', 'o', 'u', 'r', ' ', 'a', 'g', 'o']), (['i', 'l', 'b', 'i', 'e', 'r', 'a', 'ħ'], ['1', ' ', 'd', 'a', 'y', ' ', 'a', 'g', 'o']), (['g', 'ħ', 'a', 'd', 'a'], ['i', 'n', ' ', '1', ' ', 'd', 'a', 'y']), (['i', 'l', 'l', 'u', 'm'], ['0', ' ', 'd', 'a', 'y', ' ', 'a', 'g', 'o']), (['n', 'o', 'w'], ['0', ' ', 's', 'e', 'c', 'o', 'n', 'd', ' ', 'a', 'g', 'o'])]

/-- internal/data/mua.go: `mua_Locale`, dictionary. -/
def muaDict : LangData where
  name := ['m', 'u', 'a']
  translations := [(['c', 'o', 'k', ' ', 'c', 'o', 'm', 'm', 'e', ' ', 'm', 'a', ' ', 'l', 'a', 'ŋ', ' ', 't', 'ǝ', ' ', 'b', 'i', 'ŋ'], [['s', 'e', 'c', 'o', 'n', 'd']]), (['c', 'o', 'k', ' ', 'c', 'o', 'm', 'm', 'e', ' ', 'm', 'a', ' ', 'l', 'a', 'ŋ', 'n', 'e'], [['m', 'i', 'n', 'u', 't', 'e']]), (['m', 'a', 'm', 'ǝ', 'ŋ', 'g', 'w', 'a', 'a', 'f', 'a', 'h', 'b', 'i', 'i'], [['j', 'u', 'n', 'e']]), (['z', 'a', 'h', '\'', 'n', 'a', 'n', 'e', '/', ' ', 'c', 'o', 'm', 'm', 'e'], [['d', 'a', 'y']]), (['m', 'a', 'd', 'ǝ', 'ǝ', 'u', 'u', 't', 'ǝ', 'b', 'i', 'j', 'a', 'ŋ'], [['m', 'a', 'y']]), (['c', 'o', 'k', 'c', 'w', 'a', 'k', 'l', 'a', 'ŋ', 'n', 'e'], [['f', 'e', 'b', 'r', 'u', 'a', 'r', 'y']]), (['c', 'o', 'm', 'k', 'a', 'l', 'd', 'ǝ', 'ɓ', 'l', 'i', 'i'], [['t', 'h', 'u', 'r', 's', 'd', 'a', 'y']]), (['m', 'a', 'm', 'ǝ', 'ŋ', 'g', 'w', 'a', 'a', 'l', 'i', 'i'], [['j', 'u', 'l', 'y']]), (['f', 'i', 'i', ' ', 'g', 'w', 'a', 'h', 'l', 'l', 'e'], [['n', 'o', 'v', 'e', 'm', 'b', 'e', 'r']]), (['c', 'o', 'k', 'c', 'w', 'a', 'k', 'l', 'i', 'i'], [['m', 'a', 'r', 'c', 'h']]), (['c', 'o', 'm', 'z', 'y', 'e', 'ɓ', 's', 'u', 'u'], [['s', 'a', 't', 'u', 'r', 'd', 'a', 'y']]), (['c', 'o', 'm', 'z', 'y', 'i', 'i', 'ɗ', 'i', 'i'], [['t', 'u', 'e', 's', 'd', 'a', 'y']]), (['f', 'i', 'i', ' ', 'd', 'ǝ', 'ɓ', 'l', 'i', 'i'], [['s', 'e', 'p', 't', 'e', 'm', 'b', 'e', 'r']]), (['f', 'i', 'i', ' ', 'm', 'a', 'r', 'f', 'o', 'o'], [['a', 'p', 'r', 'i', 'l']]), (['f', 'i', 'i', ' ', 'm', 'u', 'n', 'd', 'a', 'ŋ'], [['o', 'c', 't', 'o', 'b', 'e', 'r']]), (['c', 'o', 'k', ' ', 'c', 'o', 'm', 'm', 'e'], [['h', 'o', 'u', 'r']]), (['c', 'o', 'm', '\'', 'y', 'a', 'k', 'k', 'e'], [['s', 'u', 'n', 'd', 'a', 'y']]), (['c', 'o', 'm', 'g', 'a', 'i', 's', 'u', 'u'], [['f', 'r', 'i', 'd', 'a', 'y']]), (['c', 'o', 'm', 'l', 'a', 'a', 'ɗ', 'i', 'i'], [['m', 'o', 'n', 'd', 'a', 'y']]), (['c', 'o', 'm', 'k', 'o', 'l', 'l', 'e'], [['w', 'e', 'd', 'n', 'e', 's', 'd', 'a', 'y']]), (['f', 'i', 'i', ' ', 'y', 'u', 'r', 'u'], [['d', 'e', 'c', 'e', 'm', 'b', 'e', 'r']]), (['m', 'a', 'd', 'ǝ', 'm', 'b', 'i', 'i'], [['a', 'u', 'g', 'u', 's', 't']]), (['f', 'i', 'i', ' ', 'l', 'o', 'o'], [['j', 'a', 'n', 'u', 'a', 'r', 'y']]), (['c', 'o', 'm', 'm', 'e'], [['a', 'm']]), (['l', 'i', 'l', 'l', 'i'], [['p', 'm']]), (['l', 'u', 'm', 'a'], [['w', 'e', 'e', 'k']]), (['s', 'y', 'i', 'i'], [['y', 'e', 'a', 'r']]), (['c', 'g', 'a'], [['f', 'r', 'i', 'd', 'a', 'y']]), (['c', 'k', 'a'], [['t', 'h', 'u', 'r', 's', 'd', 'a', 'y']]), (['c', 'k', 'i'], [['m', 'a', 'r', 'c', 'h']]), (['c', 'k', 'o'], [['w', 'e', 'd', 'n', 'e', 's', 'd', 'a', 'y']]), (['c', 'l', 'a'], [['m', 'o', 'n', 'd', 'a', 'y'], ['f', 'e', 'b', 'r', 'u', 'a', 'r', 'y']]), (['c', 'y', 'a'], [['s', 'u', 'n', 'd', 'a', 'y']]), (['c', 'z', 'e'], [['s', 'a', 't', 'u', 'r', 'd', 'a', 'y']]), (['c', 'z', 'i'], [['t', 'u', 'e', 's', 'd', 'a', 'y']]), (['f', 'd', 'e'], [['s', 'e', 'p', 't', 'e', 'm', 'b', 'e', 'r']]), (['f', 'g', 'w'], [['n', 'o', 'v', 'e', 'm', 'b', 'e', 'r']]), (['f', 'i', 'i'], [['m', 'o', 'n', 't', 'h']]), (['f', 'l', 'o'], [['j', 'a', 'n', 'u', 'a', 'r', 'y']]), (['f', 'm', 'f'], [['a', 'p', 'r', 'i', 'l']]), (['f', 'm', 'u'], [['o', 'c', 't', 'o', 'b', 'e', 'r']]), (['f', 'y', 'u'], [['d', 'e', 'c', 'e', 'm', 'b', 'e', 'r']]), (['g', 'm', 't'], [['g', 'm', 't']]), (['m', 'a', 'd'], [['m', 'a', 'y']]), (['m', 'a', 'm'], [['a', 'u', 'g', 'u', 's', 't']]), (['m', 'b', 'i'], [['j', 'u', 'n', 'e']]), (['m', 'l', 'i'], [['j', 'u', 'l', 'y']]), (['u', 't', 'c'], [['u', 't', 'c']]), (['a', 'm'], [['a', 'm']]), (['p', 'm'], [['p', 'm']]), ([' '], [[' ']]), (['\''], [[]]), (['+'], [['+']]), ([','], [[]]), (['-'], [['-']]), (['.'], [['.']]), (['/'], [['/']]), ([':'], [[':']]), ([';'], [[]]), (['@'], [[]]), (['['], [[]]), ([']'], [[]]), (['z'], [['z']]), (['|'], [[]])]
  relativeType := [(['t', 'h', 'i', 's', ' ', 'm', 'i', 'n', 'u', 't', 'e'], ['0', ' ', 'm', 'i', 'n', 'u', 't', 'e', ' ', 'a', 'g', 'o']), (['l', 'a', 's', 't', ' ', 'm', 'o', 'n', 't', 'h'], ['1', ' ', 'm', 'o', 'n', 't', 'h', ' ', 'a', 'g', 'o']), (['n', 'e', 'x', 't', ' ', 'm', 'o', 'n', 't', 'h'], ['i', 'n', ' ', '1', ' ', 'm', 'o', 'n', 't', 'h']), (['t', 'h', 'i', 's', ' ', 'm', 'o', 'n', 't', 'h'], ['0', ' ', 'm', 'o', 'n', 't', 'h', ' ', 'a', 'g', 'o']), (['l', 'a', 's', 't', ' ', 'w', 'e', 'e', 'k'], ['1', ' ', 'w', 'e', 'e', 'k', ' ', 'a', 'g', 'o']), (['l', 'a', 's', 't', ' ', 'y', 'e', 'a', 'r'], ['1', ' ', 'y', 'e', 'a', 'r', ' ', 'a', 'g', 'o']), (['n', 'e', 'x', 't', ' ', 'w', 'e', 'e', 'k'], ['i', 'n', ' ', '1', ' ', 'w', 'e', 'e', 'k']), (['n', 'e', 'x', 't', ' ', 'y', 'e', 'a', 'r'], ['i', 'n', ' ', '1', ' ', 'y', 'e', 'a', 'r']), (['t', 'h', 'i', 's', ' ', 'h', 'o', 'u', 'r'], ['0', ' ', 'h', 'o', 'u', 'r', ' ', 'a', 'g', 'o']), (['t', 'h', 'i', 's', ' ', 'w', 'e', 'e', 'k'], ['0', ' ', 'w', 'e', 'e', 'k', ' ', 'a', 'g', 'o']), (['t', 'h', 'i', 's', ' ', 'y', 'e', 'a', 'r'], ['0', ' ', 'y', 'e', 'a', 'r', ' ', 'a', 'g', 'o']), (['t', 'ǝ', '\'', 'n', 'a', 'h', 'k', 'o'], ['0', ' ', 'd', 'a', 'y', ' ', 'a', 'g', 'o']), (['t', 'ǝ', '\'', 'n', 'a', 'n', 'e'], ['i', 'n', ' ', '1', ' ', 'd', 'a', 'y']), (['t', 'ǝ', 's', 'o', 'o'], ['1', ' ', 'd', 'a', 'y', ' ', 'a', 'g', 'o']), (['n', 'o', 'w'], ['0', ' ', 's', 'e', 'c', 'o', 'n', 'd', ' ', 'a', 'g', 'o'])]

/-- internal/data/my.go: `my_Locale`, dictionary. -/
def myDict : LangData where
  name := ['m', 'y']
  translations := [(['က', 'ြ', 'ာ', 'သ', 'ပ', 'တ', 'ေ', 'း'], [['t', 'h', 'u', 'r', 's', 'd', 'a', 'y']]), (['ဖ', 'ေ', 'ဖ', 'ေ', 'ာ', 'ဝ', 'ါ', 'ရ'], [['f', 'e', 'b', 'r', 'u', 'a', 'r', 'y']]), (['အ', 'ေ', 'ာ', 'က', 'တ', 'ဘ', 'ာ'], [['o', 'c', 't', 'o', 'b', 'e', 'r']]), (['စ', 'က', 'တ', 'င', 'ဘ', 'ာ'], [['s', 'e', 'p', 't', 'e', 'm', 'b', 'e', 'r']]), (['ဇ', 'န', 'န', 'ဝ', 'ါ', 'ရ'], [['j', 'a', 'n', 'u', 'a', 'r', 'y']]), (['တ', 'န', 'င', 'ဂ', 'န', 'ေ'], [['s', 'u', 'n', 'd', 'a', 'y']]), (['သ', 'ေ', 'ာ', 'က', 'ြ', 'ာ'], [['f', 'r', 'i', 'd', 'a', 'y']]), (['တ', 'န', 'င', 'လ', 'ာ'], [['m', 'o', 'n', 'd', 'a', 'y']]), (['ဒ', 'ဇ', 'င', 'ဘ', 'ာ'], [['d', 'e', 'c', 'e', 'm', 'b', 'e', 'r']]), (['န', 'ဝ', 'င', 'ဘ', 'ာ'], [['n', 'o', 'v', 'e', 'm', 'b', 'e', 'r']]), (['ဗ', 'ဒ', 'ဓ', 'ဟ', 'း'], [['w', 'e', 'd', 'n', 'e', 's', 'd', 'a', 'y']]), (['စ', 'က', 'က', 'န'], [['s', 'e', 'c', 'o', 'n', 'd']]), (['အ', 'င', 'ဂ', 'ါ'], [['t', 'u', 'e', 's', 'd', 'a', 'y']]), (['အ', 'ေ', 'ာ', 'က'], [['o', 'c', 't', 'o', 'b', 'e', 'r']]), (['g', 'm', 't'], [['g', 'm', 't']]), (['u', 't', 'c'], [['u', 't', 'c']]), (['စ', 'န', 'ေ'], [['s', 'a', 't', 'u', 'r', 'd', 'a', 'y']]), (['ဇ', 'လ', 'င'], [['j', 'u', 'l', 'y']]), (['ည', 'န', 'ေ'], [['p', 'm']]), (['န', 'န', 'က'], [['a', 'm']]), (['န', 'ာ', 'ရ'], [['h', 'o', 'u', 'r']]), (['မ', 'န', 'စ'], [['m', 'i', 'n', 'u', 't', 'e']]), (['ဧ', 'ပ', 'ြ'], [['a', 'p', 'r', 'i', 'l']]), (['ဩ', 'ဂ', 'တ'], [['a', 'u', 'g', 'u', 's', 't']]), (['a', 'm'], [['a', 'm']]), (['p', 'm'], [['p', 'm']]), (['စ', 'က'], [['s', 'e', 'p', 't', 'e', 'm', 'b', 'e', 'r']]), (['ဇ', 'န'], [['j', 'u', 'n', 'e'], ['j', 'a', 'n', 'u', 'a', 'r', 'y']]), (['န', 'စ'], [['y', 'e', 'a', 'r']]), (['ပ', 'တ'], [['w', 'e', 'e', 'k']]), (['ဖ', 'ေ'], [['f', 'e', 'b', 'r', 'u', 'a', 'r', 'y']]), (['မ', 'တ'], [['m', 'a', 'r', 'c', 'h']]), (['မ', 'ေ'], [['m', 'a', 'y']]), (['ရ', 'က'], [['d', 'a', 'y']]), ([' '], [[' ']]), (['\''], [[]]), (['+'], [['+']]), ([','], [[]]), (['-'], [['-']]), (['.'], [['.']]), (['/'], [['/']]), ([':'], [[':']]), ([';'], [[]]), (['@'], [[]]), (['['], [[]]), ([']'], [[]]), (['z'], [['z']]), (['|'], [[]]), (['ဇ'], [['j', 'u', 'l', 'y']]), (['ဒ'], [['d', 'e', 'c', 'e', 'm', 'b', 'e', 'r']]), (['န'], [['n', 'o', 'v', 'e', 'm', 'b', 'e', 'r']]), (['လ'], [['m', 'o', 'n', 't', 'h']]), (['ဧ'], [['a', 'p', 'r', 'i', 'l']]), (['ဩ'], [['a', 'u', 'g', 'u', 's', 't']])]
  relativeType := [(['ပ', 'ြ', 'း', 'ခ', 'သ', 'ည', ' ', 'သ', 'တ', 'င', 'း', 'ပ', 'တ'], ['1', ' ', 'w', 'e', 'e', 'k', ' ', 'a', 'g', 'o']), (['လ', 'ာ', 'မ', 'ည', ' ', 'သ', 'တ', 'င', 'း', 'ပ', 'တ'], ['i', 'n', ' ', '1', ' ', 'w', 'e', 'e', 'k']), (['ယ', 'ခ', ' ', 'သ', 'တ', 'င', 'း', 'ပ', 'တ'], ['0', ' ', 'w', 'e', 'e', 'k', ' ', 'a', 'g', 'o']), (['ပ', 'ြ', 'း', 'ခ', 'သ', 'ည', 'လ'], ['1', ' ', 'm', 'o', 'n', 't', 'h', ' ', 'a', 'g', 'o']), (['မ', 'န', 'က', 'ဖ', 'ြ', 'န'], ['i', 'n', ' ', '1', ' ', 'd', 'a', 'y']), (['လ', 'ာ', 'မ', 'ည', 'န', 'စ'], ['i', 'n', ' ', '1', ' ', 'y', 'e', 'a', 'r']), (['ယ', 'မ', 'န', 'န', 'စ'], ['1', ' ', 'y', 'e', 'a', 'r', ' ', 'a', 'g', 'o']), (['လ', 'ာ', 'မ', 'ည', 'လ'], ['i', 'n', ' ', '1', ' ', 'm', 'o', 'n', 't', 'h']), (['ဤ', 'အ', 'ခ', 'ျ', 'န'], ['0', ' ', 'h', 'o', 'u', 'r', ' ', 'a', 'g', 'o']), (['မ', 'န', 'ေ', 'က'], ['1', ' ', 'd', 'a', 'y', ' ', 'a', 'g', 'o']), (['ယ', 'ခ', 'န', 'စ'], ['0', ' ', 'y', 'e', 'a', 'r', ' ', 'a', 'g', 'o']), (['ဤ', 'မ', 'န', 'စ'], ['0', ' ', 'm', 'i', 'n', 'u', 't', 'e', ' ', 'a', 'g', 'o']), (['ယ', 'ခ', 'လ'], ['0', ' ', 'm', 'o', 'n', 't', 'h', ' ', 'a', 'g', 'o']), (['ယ', 'န', 'ေ'], ['0', ' ', 'd', 'a', 'y', ' ', 'a', 'g', 'o']), (['ယ', 'ခ'], ['0', ' ', 's', 'e', 'c', 'o', 'n', 'd', ' ', 'a', 'g', 'o'])]

/-- internal/data/mzn.go: `mzn_Locale`, dictionary. -/
def mznDict : LangData where
  name := ['m', 'z', 'n']
  translations := [(['س', 'پ', 'ت', 'ا', 'م', 'ب', 'ر'], [['s', 'e', 'p', 't', 'e', 'm', 'b', 'e', 'r']]), (['د', 'س', 'ا', 'م', 'ب', 'ر'], [['d', 'e', 'c', 'e', 'm', 'b', 'e', 'r']]), (['ن', 'و', 'ا', 'م', 'ب', 'ر'], [['n', 'o', 'v', 'e', 'm', 'b', 'e', 'r']]), (['ژ', 'ا', 'ن', 'و', 'ی', 'ه'], [['j', 'a', 'n', 'u', 'a', 'r', 'y']]), (['ا', 'و', 'ر', 'ی', 'ل'], [['a', 'p', 'r', 'i', 'l']]), (['ا', 'ک', 'ت', 'ب', 'ر'], [['o', 'c', 't', 'o', 'b', 'e', 'r']]), (['ث', 'ا', 'ن', 'ی', 'ه'], [['s', 'e', 'c', 'o', 'n', 'd']]), (['د', 'ق', 'ی', 'ق', 'ه'], [['m', 'i', 'n', 'u', 't', 'e']]), (['ف', 'و', 'ر', 'ی', 'ه'], [['f', 'e', 'b', 'r', 'u', 'a', 'r', 'y']]), (['ژ', 'و', 'ي', 'ی', 'ه'], [['j', 'u', 'l', 'y']]), (['س', 'ا', 'ع', 'ت'], [['h', 'o', 'u', 'r']]), (['م', 'ا', 'ر', 'س'], [['m', 'a', 'r', 'c', 'h']]), (['ه', 'ف', 'ت', 'ه'], [['w', 'e', 'e', 'k']]), (['ژ', 'و', 'ي', 'ن'], [['j', 'u', 'n', 'e']]), (['f', 'r', 'i'], [['f', 'r', 'i', 'd', 'a', 'y']]), (['g', 'm', 't'], [['g', 'm', 't']]), (['m', 'o', 'n'], [['m', 'o', 'n', 'd', 'a', 'y']]), (['s', 'a', 't'], [['s', 'a', 't', 'u', 'r', 'd', 'a', 'y']]), (['s', 'u', 'n'], [['s', 'u', 'n', 'd', 'a', 'y']]), (['t', 'h', 'u'], [['t', 'h', 'u', 'r', 's', 'd', 'a', 'y']]), (['t', 'u', 'e'], [['t', 'u', 'e', 's', 'd', 'a', 'y']]), (['u', 't', 'c'], [['u', 't', 'c']]), (['w', 'e', 'd'], [['w', 'e', 'd', 'n', 'e', 's', 'd', 'a', 'y']]), (['ا', 'و', 'ت'], [['a', 'u', 'g', 'u', 's', 't']]), (['د', 'ق', 'ه'], [['m', 'i', 'n', 'u', 't', 'e']]), (['ر', 'و', 'ز'], [['d', 'a', 'y']]), (['س', 'ا', 'ل'], [['y', 'e', 'a', 'r']]), (['م', 'ا', 'ه'], [['m', 'o', 'n', 't', 'h']]), (['a', 'm'], [['a', 'm']]), (['p', 'm'], [['p', 'm']]), (['م', 'ه'], [['m', 'a', 'y']]), ([' '], [[' ']]), (['\''], [[]]), (['+'], [['+']]), ([','], [[]]), (['-'], [['-']]), (['.'], [['.']]), (['/'], [['/']]), ([':'], [[':']]), ([';'], [[]]), (['@'], [[]]), (['['], [[]]), ([']'], [[]]), (['z'], [['z']]), (['|'], [[]])]
  relativeType := [(['t', 'h', 'i', 's', ' ', 'm', 'i', 'n', 'u', 't', 'e'], ['0', ' ', 'm', 'i', 'n', 'u', 't', 'e', ' ', 'a', 'g', 'o']), (['t', 'h', 'i', 's', ' ', 'h', 'o', 'u', 'r'], ['0', ' ', 'h', 'o', 'u', 'r', ' ', 'a', 'g', 'o']), (['ب', 'ع', 'د', 'ی', ' ', 'ه', 'ف', 'ت', 'ه'], ['i', 'n', ' ', '1', ' ', 'w', 'e', 'e', 'k']), (['ق', 'ب', 'ل', 'ی', ' ', 'ه', 'ف', 'ت', 'ه'], ['1', ' ', 'w', 'e', 'e', 'k', ' ', 'a', 'g', 'o']), (['ا', 'ی', 'ن', ' ', 'ه', 'ف', 'ت', 'ه'], ['0', ' ', 'w', 'e', 'e', 'k', ' ', 'a', 'g', 'o']), (['س', 'ا', 'ل', ' ', 'د', 'ی', 'گ', 'ه'], ['i', 'n', ' ', '1', ' ', 'y', 'e', 'a', 'r']), (['ا', 'ی', 'ن', ' ', 'م', 'ا', 'ه'], ['0', ' ', 'm', 'o', 'n', 't', 'h', ' ', 'a', 'g', 'o']), (['م', 'ا', 'ه', ' ', 'ب', 'ع', 'د'], ['i', 'n', ' ', '1', ' ', 'm', 'o', 'n', 't', 'h']), (['م', 'ا', 'ه', ' ', 'ق', 'ب', 'ل'], ['1', ' ', 'm', 'o', 'n', 't', 'h', ' ', 'a', 'g', 'o']), (['پ', 'ا', 'ر', 'س', 'ا', 'ل'], ['1', ' ', 'y', 'e', 'a', 'r', ' ', 'a', 'g', 'o']), (['ا', 'م', 'ر', 'و', 'ز'], ['0', ' ', 'd', 'a', 'y', ' ', 'a', 'g', 'o']), (['ا', 'م', 'س', 'ا', 'ل'], ['0', ' ', 'y', 'e', 'a', 'r', ' ', 'a', 'g', 'o']), (['د', 'ی', 'ر', 'و', 'ز'], ['1', ' ', 'd', 'a', 'y', ' ', 'a', 'g', 'o']), (['ف', 'ر', 'د', 'ا'], ['i', 'n', ' ', '1', ' ', 'd', 'a', 'y']), (['n', 'o', 'w'], ['0', ' ', 's', 'e', 'c', 'o', 'n', 'd', ' ', 'a', 'g', 'o'])]

/-- internal/data/naq.go: `naq_Locale`, dictionary. -/
def naqDict : LangData where
  name := ['n', 'a', 'q']
  translations := [(['t', 'a', 'r', 'a', 'ǀ', 'k', 'h', 'u', 'u', 'm', 'u', 'ǁ', 'k', 'h', 'a', 'b'], [['s', 'e', 'p', 't', 'e', 'm', 'b', 'e', 'r']]), (['a', 'o', 'ǁ', 'k', 'h', 'u', 'u', 'm', 'u', 'ǁ', 'k', 'h', 'a', 'b'], [['a', 'u', 'g', 'u', 's', 't']]), (['d', 'o', 'n', 'd', 'e', 'r', 't', 'a', 'x', 't', 's', 'e', 'e', 's'], [['t', 'h', 'u', 'r', 's', 'd', 'a', 'y']]), (['s', 'a', 't', 'e', 'r', 't', 'a', 'x', 't', 's', 'e', 'e', 's'], [['s', 'a', 't', 'u', 'r', 'd', 'a', 'y']]), (['d', 'e', 'n', 's', 't', 'a', 'x', 't', 's', 'e', 'e', 's'], [['t', 'u', 'e', 's', 'd', 'a', 'y']]), (['f', 'r', 'a', 'i', 't', 'a', 'x', 't', 's', 'e', 'e', 's'], [['f', 'r', 'i', 'd', 'a', 'y']]), (['h', 'o', 'a', 's', 'o', 'r', 'e', 'ǁ', 'k', 'h', 'a', 'b'], [['d', 'e', 'c', 'e', 'm', 'b', 'e', 'r']]), (['w', 'u', 'n', 's', 't', 'a', 'x', 't', 's', 'e', 'e', 's'], [['w', 'e', 'd', 'n', 'e', 's', 'd', 'a', 'y']]), (['m', 'a', 'n', 't', 'a', 'x', 't', 's', 'e', 'e', 's'], [['m', 'o', 'n', 'd', 'a', 'y']]), (['s', 'o', 'n', 't', 'a', 'x', 't', 's', 'e', 'e', 's'], [['s', 'u', 'n', 'd', 'a', 'y']]), (['ǀ', 'k', 'h', 'u', 'u', 'ǁ', 'k', 'h', 'a', 'b'], [['m', 'a', 'r', 'c', 'h']]), (['ǂ', 'n', 'u', 'ǁ', 'n', 'a', 'i', 's', 'e', 'b'], [['o', 'c', 't', 'o', 'b', 'e', 'r']]), (['ǃ', 'h', 'o', 'a', 'ǂ', 'k', 'h', 'a', 'i', 'b'], [['a', 'p', 'r', 'i', 'l']]), (['ǃ', 'k', 'h', 'a', 'n', 'ǀ', 'g', 'o', 'a', 'b'], [['f', 'e', 'b', 'r', 'u', 'a', 'r', 'y']]), (['ǀ', 'h', 'o', 'o', 'ǂ', 'g', 'a', 'e', 'b'], [['n', 'o', 'v', 'e', 'm', 'b', 'e', 'r']]), (['ǂ', 'k', 'h', 'o', 'e', 's', 'a', 'o', 'b'], [['j', 'u', 'l', 'y']]), (['ǃ', 'k', 'h', 'a', 'i', 't', 's', 'a', 'b'], [['m', 'a', 'y']]), (['g', 'a', 'm', 'a', 'ǀ', 'a', 'e', 'b'], [['j', 'u', 'n', 'e']]), (['ǁ', 'g', 'o', 'a', 'g', 'a', 's'], [['a', 'm']]), (['ǃ', 'k', 'h', 'a', 'n', 'n', 'i'], [['j', 'a', 'n', 'u', 'a', 'r', 'y']]), (['w', 'e', 'k', 'h', 'e', 'b'], [['w', 'e', 'e', 'k']]), (['k', 'u', 'r', 'i', 'b'], [['y', 'e', 'a', 'r']]), (['t', 's', 'e', 'e', 's'], [['d', 'a', 'y']]), (['ǀ', 'g', 'a', 'u', 'b'], [['s', 'e', 'c', 'o', 'n', 'd']]), (['ǁ', 'k', 'h', 'a', 'b'], [['m', 'o', 'n', 't', 'h']]), (['ǃ', 'u', 'i', 'a', 's'], [['p', 'm']]), (['h', 'a', 'i', 'b'], [['m', 'i', 'n', 'u', 't', 'e']]), (['i', 'i', 'r', 'i'], [['h', 'o', 'u', 'r']]), (['a', 'p', 'r'], [['a', 'p', 'r', 'i', 'l']]), (['a', 'u', 'g'], [['a', 'u', 'g', 'u', 's', 't']]), (['d', 'e', 'c'], [['d', 'e', 'c', 'e', 'm', 'b', 'e', 'r']]), (['f', 'e', 'b'], [['f', 'e', 'b', 'r', 'u', 'a', 'r', 'y']]), (['g', 'm', 't'], [['g', 'm', 't']]), (['j', 'a', 'n'], [['j', 'a', 'n', 'u', 'a', 'r', 'y']]), (['j', 'u', 'l'], [['j', 'u', 'l', 'y']]), (['j', 'u', 'n'], [['j', 'u', 'n', 'e']]), (['m', 'a', 'r'], [['m', 'a', 'r', 'c', 'h']]), (['m', 'a', 'y'], [['m', 'a', 'y']]), (['n', 'o', 'v'], [['n', 'o', 'v', 'e', 'm', 'b', 'e', 'r']]), (['o', 'c', 't'], [['o', 'c', 't', 'o', 'b', 'e', 'r']]), (['s', 'a', 't'], [['s', 'a', 't', 'u', 'r', 'd', 'a', 'y']]), (['s', 'e', 'p'], [['s', 'e', 'p', 't', 'e', 'm', 'b', 'e', 'r']]), (['s', 'o', 'n'], [['s', 'u', 'n', 'd', 'a', 'y']]), (['u', 't', 'c'], [['u', 't', 'c']]), (['a', 'm'], [['a', 'm']]), (['d', 'e'], [['t', 'u', 'e', 's', 'd', 'a', 'y']]), (['d', 'o'], [['t', 'h', 'u', 'r', 's', 'd', 'a', 'y']]), (['f', 'r'], [['f', 'r', 'i', 'd', 'a', 'y']]), (['m', 'a'], [['m', 'o', 'n', 'd', 'a', 'y']]), (['p', 'm'], [['p', 'm']]), (['w', 'u'], [['w', 'e', 'd', 'n', 'e', 's', 'd', 'a', 'y']]), ([' '], [[' ']]), (['\''], [[]]), (['+'], [['+']]), ([','], [[]]), (['-'], [['-']]), (['.'], [['.']]), (['/'], [['/']]), ([':'], [[':']]), ([';'], [[]]), (['@'], [[]]), (['['], [[]]), ([']'], [[]]), (['z'], [['z']]), (['|'], [[]])]
  relativeType := [(['t', 'h', 'i', 's', ' ', 'm', 'i', 'n', 'u', 't', 'e'], ['0', ' ', 'm', 'i', 'n', 'u', 't', 'e', ' ', 'a', 'g', 'o']), (['l', 'a', 's', 't', ' ', 'm', 'o', 'n', 't', 'h'], ['1', ' ', 'm', 'o', 'n', 't', 'h', ' ', 'a', 'g', 'o']), (['n', 'e', 'x', 't', ' ', 'm', 'o', 'n', 't', 'h'], ['i', 'n', ' ', '1', ' ', 'm', 'o', 'n', 't', 'h']), (['t', 'h', 'i', 's', ' ', 'm', 'o', 'n', 't', 'h'], ['0', ' ', 'm', 'o', 'n', 't', 'h', ' ', 'a', 'g', 'o']), (['l', 'a', 's', 't', ' ', 'w', 'e', 'e', 'k'], ['1', ' ', 'w', 'e', 'e', 'k', ' ', 'a', 'g', 'o']), (['l', 'a', 's', 't', ' ', 'y', 'e', 'a', 'r'], ['1', ' ', 'y', 'e', 'a', 'r', ' ', 'a', 'g', 'o']), (['n', 'e', 'x', 't', ' ', 'w', 'e', 'e', 'k'], ['i', 'n', ' ', '1', ' ', 'w', 'e', 'e', 'k']), (['n', 'e', 'x', 't', ' ', 'y', 'e', 'a', 'r'], ['i', 'n', ' ', '1', ' ', 'y', 'e', 'a', 'r']), (['t', 'h', 'i', 's', ' ', 'h', 'o', 'u', 'r'], ['0', ' ', 'h', 'o', 'u', 'r', ' ', 'a', 'g', 'o']), (['t', 'h', 'i', 's', ' ', 'w', 'e', 'e', 'k'], ['0', ' ', 'w', 'e', 'e', 'k', ' ', 'a', 'g', 'o']), (['t', 'h', 'i', 's', ' ', 'y', 'e', 'a', 'r'], ['0', ' ', 'y', 'e', 'a', 'r', ' ', 'a', 'g', 'o']), (['y', 'e', 's', 't', 'e', 'r', 'd', 'a', 'y'], ['1', ' ', 'd', 'a', 'y', ' ', 'a', 'g', 'o']), (['t', 'o', 'm', 'o', 'r', 'r', 'o', 'w'], ['i', 'n', ' ', '1', ' ', 'd', 'a', 'y']), (['n', 'e', 'e', 't', 's', 'e', 'e'], ['0', ' ', 'd', 'a', 'y', ' ', 'a', 'g', 'o']), (['n', 'o', 'w'], ['0', ' ', 's', 'e', 'c', 'o', 'n', 'd', ' ', 'a', 'g', 'o'])]

/-- internal/data/nb.go: `nb_Locale`, dictionary. -/
def nbDict : LangData where
  name := ['n', 'b']
  translations := [(['s', 'e', 'p', 't', 'e', 'm', 'b', 'e', 'r'], [['s', 'e', 'p', 't', 'e', 'm', 'b', 'e', 'r']]), (['d', 'e', 's', 'e', 'm', 'b', 'e', 'r'], [['d', 'e', 'c', 'e', 'm', 'b', 'e', 'r']]), (['n', 'o', 'v', 'e', 'm', 'b', 'e', 'r'], [['n', 'o', 'v', 'e', 'm', 'b', 'e', 'r']]), (['f', 'e', 'b', 'r', 'u', 'a', 'r'], [['f', 'e', 'b', 'r', 'u', 'a', 'r', 'y']]), (['o', 'k', 't', 'o', 'b', 'e', 'r'], [['o', 'c', 't', 'o', 'b', 'e', 'r']]), (['t', 'i', 'r', 's', 'd', 'a', 'g'], [['t', 'u', 'e', 's', 'd', 'a', 'y']]), (['t', 'o', 'r', 's', 'd', 'a', 'g'], [['t', 'h', 'u', 'r', 's', 'd', 'a', 'y']]), (['a', 'u', 'g', 'u', 's', 't'], [['a', 'u', 'g', 'u', 's', 't']]), (['f', 'r', 'e', 'd', 'a', 'g'], [['f', 'r', 'i', 'd', 'a', 'y']]), (['j', 'a', 'n', 'u', 'a', 'r'], [['j', 'a', 'n', 'u', 'a', 'r', 'y']]), (['l', 'ø', 'r', 'd', 'a', 'g'], [['s', 'a', 't', 'u', 'r', 'd', 'a', 'y']]), (['m', 'a', 'n', 'd', 'a', 'g'], [['m', 'o', 'n', 'd', 'a', 'y']]), (['m', 'i', 'n', 'u', 't', 't'], [['m', 'i', 'n', 'u', 't', 'e']]), (['o', 'n', 's', 'd', 'a', 'g'], [['w', 'e', 'd', 'n', 'e', 's', 'd', 'a', 'y']]), (['s', 'e', 'k', 'u', 'n', 'd'], [['s', 'e', 'c', 'o', 'n', 'd']]), (['s', 'ø', 'n', 'd', 'a', 'g'], [['s', 'u', 'n', 'd', 'a', 'y']]), (['a', 'p', 'r', 'i', 'l'], [['a', 'p', 'r', 'i', 'l']]), (['d', 'a', 'g', 'e', 'r'], [['d', 'a', 'y']]), (['m', 'a', 'n', 'e', 'd'], [['m', 'o', 'n', 't', 'h']]), (['s', 'i', 'd', 'e', 'n'], [['a', 'g', 'o']]), (['t', 'i', 'm', 'e', 'r'], [['h', 'o', 'u', 'r']]), (['j', 'u', 'l', 'i'], [['j', 'u', 'l', 'y']]), (['j', 'u', 'n', 'i'], [['j', 'u', 'n', 'e']]), (['m', 'a', 'r', 's'], [['m', 'a', 'r', 'c', 'h']]), (['t', 'i', 'm', 'e'], [['h', 'o', 'u', 'r']]), (['u', 'k', 'e', 'r'], [['w', 'e', 'e', 'k']]), (['a', 'p', 'r'], [['a', 'p', 'r', 'i', 'l']]), (['a', 'u', 'g'], [['a', 'u', 'g', 'u', 's', 't']]), (['d', 'a', 'g'], [['d', 'a', 'y']]), (['d', 'e', 's'], [['d', 'e', 'c', 'e', 'm', 'b', 'e', 'r']]), (['f', 'e', 'b'], [['f', 'e', 'b', 'r', 'u', 'a', 'r', 'y']]), (['f', 'r', 'e'], [['f', 'r', 'i', 'd', 'a', 'y']]), (['g', 'm', 't'], [['g', 'm', 't']]), (['j', 'a', 'n'], [['j', 'a', 'n', 'u', 'a', 'r', 'y']]), (['j', 'u', 'l'], [['j', 'u', 'l', 'y']]), (['j', 'u', 'n'], [['j', 'u', 'n', 'e']]), (['l', 'ø', 'r'], [['s', 'a', 't', 'u', 'r', 'd', 'a', 'y']]), (['m', 'a', 'i'], [['m', 'a', 'y']]), (['m', 'a', 'n'], [['m', 'o', 'n', 'd', 'a', 'y']]), (['m', 'a', 'r'], [['m', 'a', 'r', 'c', 'h']]), (['m', 'i', 'n'], [['m', 'i', 'n', 'u', 't', 'e']]), (['m', 'n', 'd'], [['m', 'o', 'n', 't', 'h']]), (['n', 'o', 'v'], [['n', 'o', 'v', 'e', 'm', 'b', 'e', 'r']]), (['o', 'k', 't'], [['o', 'c', 't', 'o', 'b', 'e', 'r']]), (['o', 'n', 's'], [['w', 'e', 'd', 'n', 'e', 's', 'd', 'a', 'y']]), (['s', 'e', 'k'], [['s', 'e', 'c', 'o', 'n', 'd']]), (['s', 'e', 'p'], [['s', 'e', 'p', 't', 'e', 'm', 'b', 'e', 'r']]), (['s', 'ø', 'n'], [['s', 'u', 'n', 'd', 'a', 'y']]), (['t', 'i', 'r'], [['t', 'u', 'e', 's', 'd', 'a', 'y']]), (['t', 'o', 'r'], [['t', 'h', 'u', 'r', 's', 'd', 'a', 'y']]), (['u', 'k', 'e'], [['w', 'e', 'e', 'k']]), (['u', 't', 'c'], [['u', 't', 'c']]), (['a', 'm'], [['a', 'm']]), (['a', 'r'], [['y', 'e', 'a', 'r']]), (['m', 'd'], [['m', 'o', 'n', 't', 'h']]), (['o', 'm'], [['i', 'n']]), (['p', 'm'], [['p', 'm']]), ([' '], [[' ']]), (['\''], [[]]), (['+'], [['+']]), ([','], [[]]), (['-'], [['-']]), (['.'], [['.']]), (['/'], [['/']]), ([':'], [[':']]), ([';'], [[]]), (['@'], [[]]), (['['], [[]]), ([']'], [[]]), (['d'], [['d', 'a', 'y']]), (['m'], [['m', 'i', 'n', 'u', 't', 'e']]), (['s'], [['s', 'e', 'c', 'o', 'n', 'd']]), (['t'], [['h', 'o', 'u', 'r']]), (['u'], [['w', 'e', 'e', 'k']]), (['z'], [['z']]), (['|'], [[]])]
  relativeType := [(['d', 'e', 't', 't', 'e', ' ', 'm', 'i', 'n', 'u', 't', 't', 'e', 't'], ['0', ' ', 'm', 'i', 'n', 'u', 't', 'e', ' ', 'a', 'g', 'o']), (['d', 'e', 'n', 'n', 'e', ' ', 'm', 'a', 'n', 'e', 'd', 'e', 'n'], ['0', ' ', 'm', 'o', 'n', 't', 'h', ' ', 'a', 'g', 'o']), (['f', 'o', 'r', 'r', 'i', 'g', 'e', ' ', 'm', 'a', 'n', 'e', 'd'], ['1', ' ', 'm', 'o', 'n', 't', 'h', ' ', 'a', 'g', 'o']), (['d', 'e', 'n', 'n', 'e', ' ', 't', 'i', 'm', 'e', 'n'], ['0', ' ', 'h', 'o', 'u', 'r', ' ', 'a', 'g', 'o']), (['f', 'o', 'r', 'r', 'i', 'g', 'e', ' ', 'u', 'k', 'e'], ['1', ' ', 'w', 'e', 'e', 'k', ' ', 'a', 'g', 'o']), (['n', 'e', 's', 't', 'e', ' ', 'm', 'a', 'n', 'e', 'd'], ['i', 'n', ' ', '1', ' ', 'm', 'o', 'n', 't', 'h']), (['d', 'e', 'n', 'n', 'e', ' ', 'u', 'k', 'e', 'n'], ['0', ' ', 'w', 'e', 'e', 'k', ' ', 'a', 'g', 'o']), (['f', 'o', 'r', 'r', 'i', 'g', 'e', ' ', 'm', 'd'], ['1', ' ', 'm', 'o', 'n', 't', 'h', ' ', 'a', 'g', 'o']), (['n', 'e', 's', 't', 'e', ' ', 'u', 'k', 'e'], ['i', 'n', ' ', '1', ' ', 'w', 'e', 'e', 'k']), (['d', 'e', 'n', 'n', 'e', ' ', 'm', 'd'], ['0', ' ', 'm', 'o', 'n', 't', 'h', ' ', 'a', 'g', 'o']), (['i', ' ', 'm', 'o', 'r', 'g', 'e', 'n'], ['i', 'n', ' ', '1', ' ', 'd', 'a', 'y']), (['n', 'e', 's', 't', 'e', ' ', 'a', 'r'], ['i', 'n', ' ', '1', ' ', 'y', 'e', 'a', 'r']), (['n', 'e', 's', 't', 'e', ' ', 'm', 'd'], ['i', 'n', ' ', '1', ' ', 'm', 'o', 'n', 't', 'h']), (['i', ' ', 'f', 'j', 'o', 'r'], ['1', ' ', 'y', 'e', 'a', 'r', ' ', 'a', 'g', 'o']), (['i', ' ', 'd', 'a', 'g'], ['0', ' ', 'd', 'a', 'y', ' ', 'a', 'g', 'o']), (['i', ' ', 'g', 'a', 'r'], ['1', ' ', 'd', 'a', 'y', ' ', 'a', 'g', 'o']), (['i', ' ', 'a', 'r'], ['0', ' ', 'y', 'e', 'a', 'r', ' ', 'a', 'g', 'o']), (['n', 'a'], ['0', ' ', 's', 'e', 'c', 'o', 'n', 'd', ' ', 'a', 'g', 'o'])]

end Verif.Data
