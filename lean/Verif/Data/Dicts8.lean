import Verif.Model.Pattern
/-! GENERATED by tools/gen_dicts.py from /repo/internal/data; do not edit. -/
set_option autoImplicit false
set_option maxRecDepth 100000
namespace Verif.Data
open Verif.Model

/-- internal/data/ti.go: `ti_ER_Locale`, dictionary. -/
def ti_ERDict : LangData where
  name := ['t', 'i', '-', 'E', 'R']

/-- internal/data/tl.go: `tl_Locale`, dictionary. -/
def tlDict : LangData where
  name := ['t', 'l']
  splitterGroup := 1
  translations := [(['m', 'i', 'y', 'e', 'r', 'k', 'u', 'l', 'e', 's'], [['w', 'e', 'd', 'n', 'e', 's', 'd', 'a', 'y']]), (['d', 'i', 's', 'y', 'e', 'm', 'b', 'r', 'e'], [['d', 'e', 'c', 'e', 'm', 'b', 'e', 'r']]), (['n', 'a', 'k', 'a', 'l', 'i', 'p', 'a', 's'], [['a', 'g', 'o']]), (['n', 'o', 'b', 'y', 'e', 'm', 'b', 'r', 'e'], [['n', 'o', 'v', 'e', 'm', 'b', 'e', 'r']]), (['s', 'e', 't', 'y', 'e', 'm', 'b', 'r', 'e'], [['s', 'e', 'p', 't', 'e', 'm', 'b', 'e', 'r']]), (['b', 'i', 'y', 'e', 'r', 'n', 'e', 's'], [['f', 'r', 'i', 'd', 'a', 'y']]), (['n', 'a', 'k', 'a', 'r', 'a', 'a', 'n'], [['a', 'g', 'o']]), (['h', 'u', 'w', 'e', 'b', 'e', 's'], [['t', 'h', 'u', 'r', 's', 'd', 'a', 'y']]), (['o', 'k', 't', 'u', 'b', 'r', 'e'], [['o', 'c', 't', 'o', 'b', 'e', 'r']]), (['p', 'e', 'b', 'r', 'e', 'r', 'o'], [['f', 'e', 'b', 'r', 'u', 'a', 'r', 'y']]), (['s', 'e', 'g', 'u', 'n', 'd', 'o'], [['s', 'e', 'c', 'o', 'n', 'd']]), (['a', 'g', 'o', 's', 't', 'o'], [['a', 'u', 'g', 'u', 's', 't']]), (['l', 'i', 'n', 'g', 'g', 'o'], [['w', 'e', 'e', 'k'], ['s', 'u', 'n', 'd', 'a', 'y']]), (['m', 'a', 'r', 't', 'e', 's'], [['t', 'u', 'e', 's', 'd', 'a', 'y']]), (['m', 'i', 'n', 'u', 't', 'o'], [['m', 'i', 'n', 'u', 't', 'e']]), (['s', 'a', 'b', 'a', 'd', 'o'], [['s', 'a', 't', 'u', 'r', 'd', 'a', 'y']]), (['a', 'b', 'r', 'i', 'l'], [['a', 'p', 'r', 'i', 'l']]), (['b', 'u', 'w', 'a', 'n'], [['m', 'o', 'n', 't', 'h']]), (['e', 'n', 'e', 'r', 'o'], [['j', 'a', 'n', 'u', 'a', 'r', 'y']]), (['g', 'a', 'n', 'a', 'p'], [[]]), (['h', 'u', 'l', 'y', 'o'], [['j', 'u', 'l', 'y']]), (['h', 'u', 'n', 'y', 'o'], [['j', 'u', 'n', 'e']]), (['l', 'u', 'n', 'e', 's'], [['m', 'o', 'n', 'd', 'a', 'y']]), (['m', 'a', 'r', 's', 'o'], [['m', 'a', 'r', 'c', 'h']]), (['n', 'o', 'o', 'n', 'g'], [[]]), (['a', 'r', 'a', 'w'], [['d', 'a', 'y']]), (['m', 'a', 'y', 'o'], [['m', 'a', 'y']]), (['n', 'o', 'o', 'n'], [[]]), (['o', 'r', 'a', 's'], [['h', 'o', 'u', 'r']]), (['t', 'a', 'o', 'n'], [['y', 'e', 'a', 'r']]), (['a', 'b', 'r'], [['a', 'p', 'r', 'i', 'l']]), (['a', 'g', 'o'], [['a', 'u', 'g', 'u', 's', 't']]), (['b', 'i', 'y'], [['f', 'r', 'i', 'd', 'a', 'y']]), (['d', 'i', 's'], [['d', 'e', 'c', 'e', 'm', 'b', 'e', 'r']]), (['e', 'n', 'e'], [['j', 'a', 'n', 'u', 'a', 'r', 'y']]), (['g', 'm', 't'], [['g', 'm', 't']]), (['h', 'u', 'l'], [['j', 'u', 'l', 'y']]), (['h', 'u', 'n'], [['j', 'u', 'n', 'e']]), (['h', 'u', 'w'], [['t', 'h', 'u', 'r', 's', 'd', 'a', 'y']]), (['l', 'i', 'n'], [['s', 'u', 'n', 'd', 'a', 'y']]), (['l', 'u', 'n'], [['m', 'o', 'n', 'd', 'a', 'y']]), (['m', 'a', 'r'], [['m', 'a', 'r', 'c', 'h']]), (['m', 'a', 'y'], [['m', 'a', 'y']]), (['m', 'i', 'y'], [['w', 'e', 'd', 'n', 'e', 's', 'd', 'a', 'y']]), (['n', 'o', 'b'], [['n', 'o', 'v', 'e', 'm', 'b', 'e', 'r']]), (['o', 'k', 't'], [['o', 'c', 't', 'o', 'b', 'e', 'r']]), (['p', 'e', 'b'], [['f', 'e', 'b', 'r', 'u', 'a', 'r', 'y']]), (['s', 'a', 'b'], [['s', 'a', 't', 'u', 'r', 'd', 'a', 'y']]), (['s', 'e', 't'], [['s', 'e', 'p', 't', 'e', 'm', 'b', 'e', 'r']]), (['u', 't', 'c'], [['u', 't', 'c']]), (['a', 'm'], [['a', 'm']]), (['n', 'a'], [[]]), (['p', 'm'], [['p', 'm']]), (['s', 'a'], [['i', 'n']]), ([' '], [[' ']]), (['\''], [[]]), (['+'], [['+']]), ([','], [[]]), (['-'], [['-']]), (['.'], [['.']]), (['/'], [['/']]), ([':'], [[':']]), ([';'], [[]]), (['@'], [[]]), (['['], [[]]), ([']'], [[]]), (['z'], [['z']]), (['|'], [[]])]

/-- internal/data/to.go: `to_Locale`, dictionary. -/
def toDict : LangData where
  name := ['t', 'o']
  translations := [(['t', 'u', '\'', 'a', 'p', 'u', 'l', 'e', 'l', 'u', 'l', 'u'], [['t', 'h', 'u', 'r', 's', 'd', 'a', 'y']]), (['h', 'e', 'n', 'g', 'i', 'h', 'e', 'n', 'g', 'i'], [['a', 'm']]), (['\'', 'e', 'p', 'e', 'l', 'e', 'l', 'i'], [['a', 'p', 'r', 'i', 'l']]), (['\'', 'o', 'k', 'a', 't', 'o', 'p', 'a'], [['o', 'c', 't', 'o', 'b', 'e', 'r']]), (['p', 'u', 'l', 'e', 'l', 'u', 'l', 'u'], [['w', 'e', 'd', 'n', 'e', 's', 'd', 'a', 'y']]), (['s', 'e', 'p', 'i', 't', 'e', 'm', 'a'], [['s', 'e', 'p', 't', 'e', 'm', 'b', 'e', 'r']]), (['t', 'o', 'k', 'o', 'n', 'a', 'k', 'i'], [['s', 'a', 't', 'u', 'r', 'd', 'a', 'y']]), (['\'', 'a', 'o', 'k', 'o', 's', 'i'], [['a', 'u', 'g', 'u', 's', 't']]), (['f', 'a', 'l', 'a', 'i', 't', 'e'], [['f', 'r', 'i', 'd', 'a', 'y']]), (['f', 'e', 'p', 'u', 'e', 'l', 'i'], [['f', 'e', 'b', 'r', 'u', 'a', 'r', 'y']]), (['s', 'a', 'n', 'u', 'a', 'l', 'i'], [['j', 'a', 'n', 'u', 'a', 'r', 'y']]), (['e', 'f', 'i', 'a', 'f', 'i'], [['p', 'm']]), (['m', 'a', '\'', 'a', 's', 'i'], [['m', 'a', 'r', 'c', 'h']]), (['m', 'a', 'h', 'i', 'n', 'a'], [['m', 'o', 'n', 't', 'h']]), (['m', 'i', 'n', 'i', 't', 'i'], [['m', 'i', 'n', 'u', 't', 'e']]), (['m', 'o', 'n', 'i', 't', 'e'], [['m', 'o', 'n', 'd', 'a', 'y']]), (['n', 'o', 'v', 'e', 'm', 'a'], [['n', 'o', 'v', 'e', 'm', 'b', 'e', 'r']]), (['s', 'a', 'p', 'a', 't', 'e'], [['s', 'u', 'n', 'd', 'a', 'y']]), (['s', 'e', 'k', 'o', 'n', 'i'], [['s', 'e', 'c', 'o', 'n', 'd']]), (['s', 'i', 'u', 'l', 'a', 'i'], [['j', 'u', 'l', 'y']]), (['t', 'i', 's', 'e', 'm', 'a'], [['d', 'e', 'c', 'e', 'm', 'b', 'e', 'r']]), (['t', 'u', 's', 'i', 't', 'e'], [['t', 'u', 'e', 's', 'd', 'a', 'y']]), (['\'', 'a', 'h', 'o'], [['d', 'a', 'y']]), (['\'', 'a', 'o', 'k'], [['a', 'u', 'g', 'u', 's', 't']]), (['\'', 'e', 'p', 'e'], [['a', 'p', 'r', 'i', 'l']]), (['\'', 'o', 'k', 'a'], [['o', 'c', 't', 'o', 'b', 'e', 'r']]), (['h', 'o', 'u', 'a'], [['h', 'o', 'u', 'r']]), (['m', 'a', '\'', 'a'], [['m', 'a', 'r', 'c', 'h']]), (['s', 'u', 'n', 'e'], [['j', 'u', 'n', 'e']]), (['t', 'a', '\'', 'u'], [['y', 'e', 'a', 'r']]), (['t', 'u', '\'', 'a'], [['t', 'h', 'u', 'r', 's', 'd', 'a', 'y']]), (['u', 'i', 'k', 'e'], [['w', 'e', 'e', 'k']]), (['f', 'a', 'l'], [['f', 'r', 'i', 'd', 'a', 'y']]), (['f', 'e', 'p'], [['f', 'e', 'b', 'r', 'u', 'a', 'r', 'y']]), (['g', 'm', 't'], [['g', 'm', 't']]), (['m', 'o', 'n'], [['m', 'o', 'n', 'd', 'a', 'y']]), (['n', 'o', 'v'], [['n', 'o', 'v', 'e', 'm', 'b', 'e', 'r']]), (['p', 'u', 'l'], [['w', 'e', 'd', 'n', 'e', 's', 'd', 'a', 'y']]), (['s', 'a', 'n'], [['j', 'a', 'n', 'u', 'a', 'r', 'y']]), (['s', 'a', 'p'], [['s', 'u', 'n', 'd', 'a', 'y']]), (['s', 'e', 'p'], [['s', 'e', 'p', 't', 'e', 'm', 'b', 'e', 'r']]), (['s', 'i', 'u'], [['j', 'u', 'l', 'y']]), (['s', 'u', 'n'], [['j', 'u', 'n', 'e']]), (['t', 'i', 's'], [['d', 'e', 'c', 'e', 'm', 'b', 'e', 'r']]), (['t', 'o', 'k'], [['s', 'a', 't', 'u', 'r', 'd', 'a', 'y']]), (['t', 'u', 's'], [['t', 'u', 'e', 's', 'd', 'a', 'y']]), (['u', 't', 'c'], [['u', 't', 'c']]), (['a', 'm'], [['a', 'm']]), (['e', 'a'], [['p', 'm']]), (['h', 'h'], [['a', 'm']]), (['m', 'e'], [['m', 'a', 'y']]), (['p', 'm'], [['p', 'm']]), ([' '], [[' ']]), (['\''], [[]]), (['+'], [['+']]), ([','], [[]]), (['-'], [['-']]), (['.'], [['.']]), (['/'], [['/']]), ([':'], [[':']]), ([';'], [[]]), (['@'], [[]]), (['['], [[]]), ([']'], [[]]), (['z'], [['z']]), (['|'], [[]])]
  relativeType := [(['m', 'a', 'h', 'i', 'n', 'a', ' ', 'k', 'u', 'o', '\'', 'o', 's', 'i'], ['1', ' ', 'm', 'o', 'n', 't', 'h', ' ', 'a', 'g', 'o']), (['m', 'a', 'h', 'i', 'n', 'a', ' ', 'k', 'a', 'h', 'a', '\'', 'u'], ['i', 'n', ' ', '1', ' ', 'm', 'o', 'n', 't', 'h']), (['\'', 'a', 'p', 'o', 'n', 'g', 'i', 'p', 'o', 'n', 'g', 'i'], ['i', 'n', ' ', '1', ' ', 'd', 'a', 'y']), (['t', 'a', '\'', 'u', ' ', 'k', 'u', 'o', '\'', 'o', 's', 'i'], ['1', ' ', 'y', 'e', 'a', 'r', ' ', 'a', 'g', 'o']), (['u', 'i', 'k', 'e', ' ', 'k', 'u', 'o', '\'', 'o', 's', 'i'], ['1', ' ', 'w', 'e', 'e', 'k', ' ', 'a', 'g', 'o']), (['t', 'a', '\'', 'u', ' ', 'k', 'a', 'h', 'a', '\'', 'u'], ['i', 'n', ' ', '1', ' ', 'y', 'e', 'a', 'r']), (['t', 'h', 'i', 's', ' ', 'm', 'i', 'n', 'u', 't', 'e'], ['0', ' ', 'm', 'i', 'n', 'u', 't', 'e', ' ', 'a', 'g', 'o']), (['u', 'i', 'k', 'e', ' ', 'k', 'a', 'h', 'a', '\'', 'u'], ['i', 'n', ' ', '1', ' ', 'w', 'e', 'e', 'k']), (['m', 'a', 'h', 'i', 'n', 'a', ' ', 'n', 'i'], ['0', ' ', 'm', 'o', 'n', 't', 'h', ' ', 'a', 'g', 'o']), (['t', 'h', 'i', 's', ' ', 'h', 'o', 'u', 'r'], ['0', ' ', 'h', 'o', 'u', 'r', ' ', 'a', 'g', 'o']), (['t', 'a', 'i', 'm', 'i', ' ', 'n', 'i'], ['0', ' ', 's', 'e', 'c', 'o', 'n', 'd', ' ', 'a', 'g', 'o']), (['\'', 'a', 'h', 'o', ' ', 'n', 'i'], ['0', ' ', 'd', 'a', 'y', ' ', 'a', 'g', 'o']), (['\'', 'a', 'n', 'e', 'a', 'f', 'i'], ['1', ' ', 'd', 'a', 'y', ' ', 'a', 'g', 'o']), (['t', 'a', '\'', 'u', ' ', 'n', 'i'], ['0', ' ', 'y', 'e', 'a', 'r', ' ', 'a', 'g', 'o']), (['u', 'i', 'k', 'e', ' ', 'n', 'i'], ['0', ' ', 'w', 'e', 'e', 'k', ' ', 'a', 'g', 'o'])]

/-- internal/data/tr.go: `tr_Locale`, dictionary. -/
def trDict : LangData where
  name := ['t', 'r']
  splitterGroup := 1
  translations := [(['i', 'c', 'e', 'r', 'i', 's', 'i', 'n', 'd', 'e'], [['i', 'n']]), (['c', 'u', 'm', 'a', 'r', 't', 'e', 's', 'i'], [['s', 'a', 't', 'u', 'r', 'd', 'a', 'y']]), (['p', 'a', 'z', 'a', 'r', 't', 'e', 's', 'i'], [['m', 'o', 'n', 'd', 'a', 'y']]), (['c', 'a', 'r', 's', 'a', 'm', 'b', 'a'], [['w', 'e', 'd', 'n', 'e', 's', 'd', 'a', 'y']]), (['p', 'e', 'r', 's', 'e', 'm', 'b', 'e'], [['t', 'h', 'u', 'r', 's', 'd', 'a', 'y']]), (['y', 'a', 'k', 'l', 'a', 's', 'ı', 'k'], [[]]), (['a', 'g', 'u', 's', 't', 'o', 's'], [['a', 'u', 'g', 'u', 's', 't']]), (['h', 'a', 'z', 'i', 'r', 'a', 'n'], [['j', 'u', 'n', 'e']]), (['a', 'r', 'a', 'l', 'ı', 'k'], [['d', 'e', 'c', 'e', 'm', 'b', 'e', 'r']]), (['d', 'a', 'k', 'i', 'k', 'a'], [['m', 'i', 'n', 'u', 't', 'e']]), (['i', 'c', 'i', 'n', 'd', 'e'], [['i', 'n']]), (['s', 'a', 'n', 'i', 'y', 'e'], [['s', 'e', 'c', 'o', 'n', 'd']]), (['t', 'e', 'm', 'm', 'u', 'z'], [['j', 'u', 'l', 'y']]), (['e', 'y', 'l', 'u', 'l'], [['s', 'e', 'p', 't', 'e', 'm', 'b', 'e', 'r']]), (['h', 'a', 'f', 't', 'a'], [['w', 'e', 'e', 'k']]), (['k', 'a', 's', 'ı', 'm'], [['n', 'o', 'v', 'e', 'm', 'b', 'e', 'r']]), (['m', 'a', 'y', 'ı', 's'], [['m', 'a', 'y']]), (['n', 'i', 's', 'a', 'n'], [['a', 'p', 'r', 'i', 'l']]), (['p', 'a', 'z', 'a', 'r'], [['s', 'u', 'n', 'd', 'a', 'y']]), (['s', 'o', 'n', 'r', 'a'], [['i', 'n']]), (['s', 'u', 'b', 'a', 't'], [['f', 'e', 'b', 'r', 'u', 'a', 'r', 'y']]), (['c', 'u', 'm', 'a'], [['f', 'r', 'i', 'd', 'a', 'y']]), (['e', 'k', 'i', 'm'], [['o', 'c', 't', 'o', 'b', 'e', 'r']]), (['m', 'a', 'r', 't'], [['m', 'a', 'r', 'c', 'h']]), (['o', 'c', 'a', 'k'], [['j', 'a', 'n', 'u', 'a', 'r', 'y']]), (['o', 'n', 'c', 'e'], [['a', 'g', 'o']]), (['s', 'a', 'a', 't'], [['h', 'o', 'u', 'r']]), (['s', 'a', 'l', 'ı'], [['t', 'u', 'e', 's', 'd', 'a', 'y']]), (['s', 'e', 'n', 'e'], [['y', 'e', 'a', 'r']]), (['a', 'g', 'u'], [['a', 'u', 'g', 'u', 's', 't']]), (['a', 'r', 'a'], [['d', 'e', 'c', 'e', 'm', 'b', 'e', 'r']]), (['c', 'a', 'r'], [['w', 'e', 'd', 'n', 'e', 's', 'd', 'a', 'y']]), (['c', 'm', 't'], [['s', 'a', 't', 'u', 'r', 'd', 'a', 'y']]), (['c', 'r', 's'], [['w', 'e', 'd', 'n', 'e', 's', 'd', 'a', 'y']]), (['c', 'u', 'm'], [['f', 'r', 'i', 'd', 'a', 'y']]), (['e', 'k', 'i'], [['o', 'c', 't', 'o', 'b', 'e', 'r']]), (['e', 'y', 'l'], [['s', 'e', 'p', 't', 'e', 'm', 'b', 'e', 'r']]), (['g', 'm', 't'], [['g', 'm', 't']]), (['g', 'u', 'n'], [['d', 'a', 'y']]), (['h', 'a', 'z'], [['j', 'u', 'n', 'e']]), (['k', 'a', 's'], [['n', 'o', 'v', 'e', 'm', 'b', 'e', 'r']]), (['m', 'a', 'r'], [['m', 'a', 'r', 'c', 'h']]), (['m', 'a', 'y'], [['m', 'a', 'y']]), (['n', 'i', 's'], [['a', 'p', 'r', 'i', 'l']]), (['o', 'c', 'a'], [['j', 'a', 'n', 'u', 'a', 'r', 'y']]), (['p', 'a', 'z'], [['s', 'u', 'n', 'd', 'a', 'y']]), (['p', 'e', 'r'], [['t', 'h', 'u', 'r', 's', 'd', 'a', 'y']]), (['p', 'r', 's'], [['t', 'h', 'u', 'r', 's', 'd', 'a', 'y']]), (['p', 'z', 't'], [['m', 'o', 'n', 'd', 'a', 'y']]), (['s', 'a', 'l'], [['t', 'u', 'e', 's', 'd', 'a', 'y']]), (['s', 'u', 'b'], [['f', 'e', 'b', 'r', 'u', 'a', 'r', 'y']]), (['t', 'e', 'm'], [['j', 'u', 'l', 'y']]), (['u', 't', 'c'], [['u', 't', 'c']]), (['y', 'ı', 'l'], [['y', 'e', 'a', 'r']]), (['a', 'g'], [['a', 'u', 'g', 'u', 's', 't']]), (['a', 'm'], [['a', 'm']]), (['a', 'r'], [['d', 'e', 'c', 'e', 'm', 'b', 'e', 'r']]), (['a', 'y'], [['m', 'o', 'n', 't', 'h']]), (['d', 'k'], [['m', 'i', 'n', 'u', 't', 'e']]), (['e', 'k'], [['o', 'c', 't', 'o', 'b', 'e', 'r']]), (['e', 'y'], [['s', 'e', 'p', 't', 'e', 'm', 'b', 'e', 'r']]), (['h', 'a'], [['j', 'u', 'n', 'e']]), (['h', 'f'], [['w', 'e', 'e', 'k']]), (['k', 'a'], [['n', 'o', 'v', 'e', 'm', 'b', 'e', 'r']]), (['n', 'i'], [['a', 'p', 'r', 'i', 'l']]), (['o', 'c'], [['j', 'a', 'n', 'u', 'a', 'r', 'y']]), (['o', 'o'], [['a', 'm']]), (['o', 's'], [['p', 'm']]), (['p', 'm'], [['p', 'm']]), (['s', 'a'], [['h', 'o', 'u', 'r']]), (['s', 'n'], [['s', 'e', 'c', 'o', 'n', 'd']]), (['s', 'u'], [['f', 'e', 'b', 'r', 'u', 'a', 'r', 'y']]), (['t', 'e'], [['j', 'u', 'l', 'y']]), (['v', 'e'], [[]]), ([' '], [[' ']]), (['\''], [[]]), (['+'], [['+']]), ([','], [[]]), (['-'], [['-']]), (['.'], [['.']]), (['/'], [['/']]), ([':'], [[':']]), ([';'], [[]]), (['@'], [[]]), (['['], [[]]), ([']'], [[]]), (['z'], [['z']]), (['|'], [[]])]
  relativeType := [(['o', 'n', 'u', 'm', 'u', 'z', 'd', 'e', 'k', 'i', ' ', 'h', 'a', 'f', 't', 'a'], ['i', 'n', ' ', '1', ' ', 'w', 'e', 'e', 'k']), (['o', 'n', 'u', 'm', 'u', 'z', 'd', 'e', 'k', 'i', ' ', 'g', 'u', 'n'], ['i', 'n', ' ', '1', ' ', 'd', 'a', 'y']), (['o', 'n', 'u', 'm', 'u', 'z', 'd', 'e', 'k', 'i', ' ', 'y', 'ı', 'l'], ['i', 'n', ' ', '1', ' ', 'y', 'e', 'a', 'r']), (['g', 'e', 'l', 'e', 'c', 'e', 'k', ' ', 'h', 'a', 'f', 't', 'a'], ['i', 'n', ' ', '1', ' ', 'w', 'e', 'e', 'k']), (['o', 'n', 'u', 'm', 'u', 'z', 'd', 'e', 'k', 'i', ' ', 'a', 'y'], ['i', 'n', ' ', '1', ' ', 'm', 'o', 'n', 't', 'h']), (['g', 'e', 'c', 'e', 'n', ' ', 'h', 'a', 'f', 't', 'a'], ['1', ' ', 'w', 'e', 'e', 'k', ' ', 'a', 'g', 'o']), (['g', 'e', 'l', 'e', 'c', 'e', 'k', ' ', 'y', 'ı', 'l'], ['i', 'n', ' ', '1', ' ', 'y', 'e', 'a', 'r']), (['g', 'e', 'l', 'e', 'c', 'e', 'k', ' ', 'a', 'y'], ['i', 'n', ' ', '1', ' ', 'm', 'o', 'n', 't', 'h']), (['b', 'u', ' ', 'd', 'a', 'k', 'i', 'k', 'a'], ['0', ' ', 'm', 'i', 'n', 'u', 't', 'e', ' ', 'a', 'g', 'o']), (['g', 'e', 'c', 'e', 'n', ' ', 'g', 'u', 'n'], ['1', ' ', 'd', 'a', 'y', ' ', 'a', 'g', 'o']), (['g', 'e', 'c', 'e', 'n', ' ', 'y', 'ı', 'l'], ['1', ' ', 'y', 'e', 'a', 'r', ' ', 'a', 'g', 'o']), (['b', 'u', ' ', 'h', 'a', 'f', 't', 'a'], ['0', ' ', 'w', 'e', 'e', 'k', ' ', 'a', 'g', 'o']), (['g', 'e', 'c', 'e', 'n', ' ', 'a', 'y'], ['1', ' ', 'm', 'o', 'n', 't', 'h', ' ', 'a', 'g', 'o']), (['b', 'u', ' ', 's', 'a', 'a', 't'], ['0', ' ', 'h', 'o', 'u', 'r', ' ', 'a', 'g', 'o']), (['h', 'a', 'f', 't', 'a', 'y', 'a'], ['i', 'n', ' ', '1', ' ', 'w', 'e', 'e', 'k']), (['b', 'u', ' ', 'y', 'ı', 'l'], ['0', ' ', 'y', 'e', 'a', 'r', ' ', 'a', 'g', 'o']), (['b', 'u', ' ', 'a', 'y'], ['0', ' ', 'm', 'o', 'n', 't', 'h', ' ', 'a', 'g', 'o']), (['b', 'u', 'g', 'u', 'n'], ['0', ' ', 'd', 'a', 'y', ' ', 'a', 'g', 'o']), (['s', 'i', 'm', 'd', 'i'], ['0', ' ', 's', 'e', 'c', 'o', 'n', 'd', ' ', 'a', 'g', 'o']), (['y', 'a', 'r', 'ı', 'n'], ['i', 'n', ' ', '1', ' ', 'd', 'a', 'y']), (['d', 'u', 'n'], ['1', ' ', 'd', 'a', 'y', ' ', 'a', 'g', 'o'])]

/-- internal/data/tr.go: `tr_CY_Locale`, dictionary. -/
def tr_CYDict : LangData where
  name := ['t', 'r', '-', 'C', 'Y']

/-- internal/data/twq.go: `twq_Locale`, dictionary. -/
def twqDict : LangData where
  name := ['t', 'w', 'q']
  translations := [(['z', 'a', 'a', 'r', 'i', 'k', 'a', 'y', ' ', 'b'], [['p', 'm']]), (['a', 'l', 'h', 'a', 'm', 'i', 'i', 's', 'a'], [['t', 'h', 'u', 'r', 's', 'd', 'a', 'y']]), (['d', 'e', 'e', 's', 'a', 'n', 'b', 'u', 'r'], [['d', 'e', 'c', 'e', 'm', 'b', 'e', 'r']]), (['f', 'e', 'e', 'w', 'i', 'r', 'i', 'y', 'e'], [['f', 'e', 'b', 'r', 'u', 'a', 'r', 'y']]), (['n', 'o', 'o', 'w', 'a', 'n', 'b', 'u', 'r'], [['n', 'o', 'v', 'e', 'm', 'b', 'e', 'r']]), (['s', 'e', 'k', 't', 'a', 'n', 'b', 'u', 'r'], [['s', 'e', 'p', 't', 'e', 'm', 'b', 'e', 'r']]), (['a', 't', 'a', 'l', 'a', 'a', 't', 'a'], [['t', 'u', 'e', 's', 'd', 'a', 'y']]), (['o', 'k', 't', 'o', 'o', 'b', 'u', 'r'], [['o', 'c', 't', 'o', 'b', 'e', 'r']]), (['s', 'u', 'b', 'b', 'a', 'a', 'h', 'i'], [['a', 'm']]), (['z', 'a', 'n', 'w', 'i', 'y', 'e'], [['j', 'a', 'n', 'u', 'a', 'r', 'y']]), (['a', 'l', 'a', 'r', 'b', 'a'], [['w', 'e', 'd', 'n', 'e', 's', 'd', 'a', 'y']]), (['a', 'l', 'h', 'a', 'd', 'i'], [['s', 'u', 'n', 'd', 'a', 'y']]), (['a', 'l', 'z', 'u', 'm', 'a'], [['f', 'r', 'i', 'd', 'a', 'y']]), (['a', 's', 'i', 'b', 't', 'i'], [['s', 'a', 't', 'u', 'r', 'd', 'a', 'y']]), (['a', 't', 'i', 'n', 'n', 'i'], [['m', 'o', 'n', 'd', 'a', 'y']]), (['a', 'w', 'i', 'r', 'i', 'l'], [['a', 'p', 'r', 'i', 'l']]), (['m', 'i', 'n', 'i', 't', 'i'], [['m', 'i', 'n', 'u', 't', 'e']]), (['g', 'u', 'u', 'r', 'u'], [['h', 'o', 'u', 'r']]), (['h', 'a', 'n', 'd', 'u'], [['m', 'o', 'n', 't', 'h']]), (['j', 'i', 'i', 'r', 'i'], [['y', 'e', 'a', 'r']]), (['m', 'a', 'r', 's', 'i'], [['m', 'a', 'r', 'c', 'h']]), (['z', 'a', 'a', 'r', 'i'], [['d', 'a', 'y']]), (['z', 'u', 'w', 'e', 'ŋ'], [['j', 'u', 'n', 'e']]), (['z', 'u', 'y', 'y', 'e'], [['j', 'u', 'l', 'y']]), (['h', 'e', 'b', 'u'], [['w', 'e', 'e', 'k']]), (['m', 'i', 't', 'i'], [['s', 'e', 'c', 'o', 'n', 'd']]), (['a', 'l', 'a'], [['w', 'e', 'd', 'n', 'e', 's', 'd', 'a', 'y']]), (['a', 'l', 'h'], [['s', 'u', 'n', 'd', 'a', 'y']]), (['a', 'l', 'm'], [['t', 'h', 'u', 'r', 's', 'd', 'a', 'y']]), (['a', 'l', 'z'], [['f', 'r', 'i', 'd', 'a', 'y']]), (['a', 's', 'i'], [['s', 'a', 't', 'u', 'r', 'd', 'a', 'y']]), (['a', 't', 'a'], [['t', 'u', 'e', 's', 'd', 'a', 'y']]), (['a', 't', 'i'], [['m', 'o', 'n', 'd', 'a', 'y']]), (['a', 'w', 'i'], [['a', 'p', 'r', 'i', 'l']]), (['d', 'e', 'e'], [['d', 'e', 'c', 'e', 'm', 'b', 'e', 'r']]), (['f', 'e', 'e'], [['f', 'e', 'b', 'r', 'u', 'a', 'r', 'y']]), (['g', 'm', 't'], [['g', 'm', 't']]), (['m', 'a', 'r'], [['m', 'a', 'r', 'c', 'h']]), (['n', 'o', 'o'], [['n', 'o', 'v', 'e', 'm', 'b', 'e', 'r']]), (['o', 'k', 't'], [['o', 'c', 't', 'o', 'b', 'e', 'r']]), (['s', 'e', 'k'], [['s', 'e', 'p', 't', 'e', 'm', 'b', 'e', 'r']]), (['u', 't', 'c'], [['u', 't', 'c']]), (['z', 'a', 'n'], [['j', 'a', 'n', 'u', 'a', 'r', 'y']]), (['z', 'u', 'w'], [['j', 'u', 'n', 'e']]), (['z', 'u', 'y'], [['j', 'u', 'l', 'y']]), (['a', 'm'], [['a', 'm']]), (['m', 'e'], [['m', 'a', 'y']]), (['p', 'm'], [['p', 'm']]), (['u', 't'], [['a', 'u', 'g', 'u', 's', 't']]), ([' '], [[' ']]), (['\''], [[]]), (['+'], [['+']]), ([','], [[]]), (['-'], [['-']]), (['.'], [['.']]), (['/'], [['/']]), ([':'], [[':']]), ([';'], [[]]), (['@'], [[]]), (['['], [[]]), ([']'], [[]]), (['z'], [['z']]), (['|'], [[]])]
  relativeType := [(['t', 'h', 'i', 's', ' ', 'm', 'i', 'n', 'u', 't', 'e'], ['0', ' ', 'm', 'i', 'n', 'u', 't', 'e', ' ', 'a', 'g', 'o']), (['l', 'a', 's', 't', ' ', 'm', 'o', 'n', 't', 'h'], ['1', ' ', 'm', 'o', 'n', 't', 'h', ' ', 'a', 'g', 'o']), (['n', 'e', 'x', 't', ' ', 'm', 'o', 'n', 't', 'h'], ['i', 'n', ' ', '1', ' ', 'm', 'o', 'n', 't', 'h']), (['t', 'h', 'i', 's', ' ', 'm', 'o', 'n', 't', 'h'], ['0', ' ', 'm', 'o', 'n', 't', 'h', ' ', 'a', 'g', 'o']), (['l', 'a', 's', 't', ' ', 'w', 'e', 'e', 'k'], ['1', ' ', 'w', 'e', 'e', 'k', ' ', 'a', 'g', 'o']), (['l', 'a', 's', 't', ' ', 'y', 'e', 'a', 'r'], ['1', ' ', 'y', 'e', 'a', 'r', ' ', 'a', 'g', 'o']), (['n', 'e', 'x', 't', ' ', 'w', 'e', 'e', 'k'], ['i', 'n', ' ', '1', ' ', 'w', 'e', 'e', 'k']), (['n', 'e', 'x', 't', ' ', 'y', 'e', 'a', 'r'], ['i', 'n', ' ', '1', ' ', 'y', 'e', 'a', 'r']), (['t', 'h', 'i', 's', ' ', 'h', 'o', 'u', 'r'], ['0', ' ', 'h', 'o', 'u', 'r', ' ', 'a', 'g', 'o']), (['t', 'h', 'i', 's', ' ', 'w', 'e', 'e', 'k'], ['0', ' ', 'w', 'e', 'e', 'k', ' ', 'a', 'g', 'o']), (['t', 'h', 'i', 's', ' ', 'y', 'e', 'a', 'r'], ['0', ' ', 'y', 'e', 'a', 'r', ' ', 'a', 'g', 'o']), (['s', 'u', 'b', 'a'], ['i', 'n', ' ', '1', ' ', 'd', 'a', 'y']), (['h', 'o', 'o'], ['0', ' ', 'd', 'a', 'y', ' ', 'a', 'g', 'o']), (['n', 'o', 'w'], ['0', ' ', 's', 'e', 'c', 'o', 'n', 'd', ' ', 'a', 'g', 'o']), (['b', 'i'], ['1', ' ', 'd', 'a', 'y', ' ', 'a', 'g', 'o'])]

/-- internal/data/tzm.go: `tzm_Locale`, dictionary. -/
def tzmDict : LangData where
  name := ['t', 'z', 'm']
  translations := [(['d', 'e', 'f', 'f', 'i', 'r', ' ', 'a', 'z', 'a'], [['p', 'm']]), (['z', 'd', 'a', 't', ' ', 'a', 'z', 'a', 'l'], [['a', 'm']]), (['a', 's', 's', 'e', 'g', 'g', 'a', 's'], [['y', 'e', 'a', 'r']]), (['c', 'u', 't', 'a', 'n', 'b', 'i', 'r'], [['s', 'e', 'p', 't', 'e', 'm', 'b', 'e', 'r']]), (['d', 'u', 'j', 'a', 'n', 'b', 'i', 'r'], [['d', 'e', 'c', 'e', 'm', 'b', 'e', 'r']]), (['y', 'e', 'b', 'r', 'a', 'y', 'e', 'r'], [['f', 'e', 'b', 'r', 'u', 'a', 'r', 'y']]), (['y', 'e', 'n', 'n', 'a', 'y', 'e', 'r'], [['j', 'a', 'n', 'u', 'a', 'r', 'y']]), (['a', 's', 'i', 'd', 'y', 'a', 's'], [['s', 'a', 't', 'u', 'r', 'd', 'a', 'y']]), (['a', 's', 'i', 'm', 'w', 'a', 's'], [['f', 'r', 'i', 'd', 'a', 'y']]), (['i', 'm', 'a', 'l', 'a', 's', 's'], [['w', 'e', 'e', 'k']]), (['n', 'w', 'a', 'n', 'b', 'i', 'r'], [['n', 'o', 'v', 'e', 'm', 'b', 'e', 'r']]), (['t', 'a', 's', 'r', 'a', 'g', 't'], [['h', 'o', 'u', 'r']]), (['a', 's', 'a', 'm', 'a', 's'], [['s', 'u', 'n', 'd', 'a', 'y']]), (['a', 's', 'i', 'n', 'a', 's'], [['t', 'u', 'e', 's', 'd', 'a', 'y']]), (['k', 't', 'u', 'b', 'e', 'r'], [['o', 'c', 't', 'o', 'b', 'e', 'r']]), (['t', 'u', 's', 'd', 'a', 't'], [['m', 'i', 'n', 'u', 't', 'e']]), (['t', 'u', 's', 'n', 'a', 't'], [['s', 'e', 'c', 'o', 'n', 'd']]), (['y', 'u', 'l', 'y', 'u', 'z'], [['j', 'u', 'l', 'y']]), (['a', 'k', 'r', 'a', 's'], [['w', 'e', 'd', 'n', 'e', 's', 'd', 'a', 'y']]), (['a', 'k', 'w', 'a', 's'], [['t', 'h', 'u', 'r', 's', 'd', 'a', 'y']]), (['a', 'y', 'n', 'a', 's'], [['m', 'o', 'n', 'd', 'a', 'y']]), (['i', 'b', 'r', 'i', 'r'], [['a', 'p', 'r', 'i', 'l']]), (['m', 'a', 'y', 'y', 'u'], [['m', 'a', 'y']]), (['y', 'u', 'n', 'y', 'u'], [['j', 'u', 'n', 'e']]), (['a', 'y', 'u', 'r'], [['m', 'o', 'n', 't', 'h']]), (['m', 'a', 'r', 's'], [['m', 'a', 'r', 'c', 'h']]), (['ɣ', 'u', 'c', 't'], [['a', 'u', 'g', 'u', 's', 't']]), (['a', 'k', 'r'], [['w', 'e', 'd', 'n', 'e', 's', 'd', 'a', 'y']]), (['a', 'k', 'w'], [['t', 'h', 'u', 'r', 's', 'd', 'a', 'y']]), (['a', 's', 'a'], [['s', 'u', 'n', 'd', 'a', 'y']]), (['a', 's', 'd'], [['s', 'a', 't', 'u', 'r', 'd', 'a', 'y']]), (['a', 's', 'm'], [['f', 'r', 'i', 'd', 'a', 'y']]), (['a', 's', 'n'], [['t', 'u', 'e', 's', 'd', 'a', 'y']]), (['a', 's', 's'], [['d', 'a', 'y']]), (['a', 'y', 'n'], [['m', 'o', 'n', 'd', 'a', 'y']]), (['c', 'u', 't'], [['s', 'e', 'p', 't', 'e', 'm', 'b', 'e', 'r']]), (['d', 'u', 'j'], [['d', 'e', 'c', 'e', 'm', 'b', 'e', 'r']]), (['g', 'm', 't'], [['g', 'm', 't']]), (['i', 'b', 'r'], [['a', 'p', 'r', 'i', 'l']]), (['k', 't', 'u'], [['o', 'c', 't', 'o', 'b', 'e', 'r']]), (['m', 'a', 'r'], [['m', 'a', 'r', 'c', 'h']]), (['m', 'a', 'y'], [['m', 'a', 'y']]), (['n', 'w', 'a'], [['n', 'o', 'v', 'e', 'm', 'b', 'e', 'r']]), (['u', 't', 'c'], [['u', 't', 'c']]), (['y', 'e', 'b'], [['f', 'e', 'b', 'r', 'u', 'a', 'r', 'y']]), (['y', 'e', 'n'], [['j', 'a', 'n', 'u', 'a', 'r', 'y']]), (['y', 'u', 'l'], [['j', 'u', 'l', 'y']]), (['y', 'u', 'n'], [['j', 'u', 'n', 'e']]), (['ɣ', 'u', 'c'], [['a', 'u', 'g', 'u', 's', 't']]), (['a', 'm'], [['a', 'm']]), (['p', 'm'], [['p', 'm']]), ([' '], [[' ']]), (['\''], [[]]), (['+'], [['+']]), ([','], [[]]), (['-'], [['-']]), (['.'], [['.']]), (['/'], [['/']]), ([':'], [[':']]), ([';'], [[]]), (['@'], [[]]), (['['], [[]]), ([']'], [[]]), (['z'], [['z']]), (['|'], [[]])]
  relativeType := [(['t', 'h', 'i', 's', ' ', 'm', 'i', 'n', 'u', 't', 'e'], ['0', ' ', 'm', 'i', 'n', 'u', 't', 'e', ' ', 'a', 'g', 'o']), (['l', 'a', 's', 't', ' ', 'm', 'o', 'n', 't', 'h'], ['1', ' ', 'm', 'o', 'n', 't', 'h', ' ', 'a', 'g', 'o']), (['n', 'e', 'x', 't', ' ', 'm', 'o', 'n', 't', 'h'], ['i', 'n', ' ', '1', ' ', 'm', 'o', 'n', 't', 'h']), (['t', 'h', 'i', 's', ' ', 'm', 'o', 'n', 't', 'h'], ['0', ' ', 'm', 'o', 'n', 't', 'h', ' ', 'a', 'g', 'o']), (['l', 'a', 's', 't', ' ', 'w', 'e', 'e', 'k'], ['1', ' ', 'w', 'e', 'e', 'k', ' ', 'a', 'g', 'o']), (['l', 'a', 's', 't', ' ', 'y', 'e', 'a', 'r'], ['1', ' ', 'y', 'e', 'a', 'r', ' ', 'a', 'g', 'o']), (['n', 'e', 'x', 't', ' ', 'w', 'e', 'e', 'k'], ['i', 'n', ' ', '1', ' ', 'w', 'e', 'e', 'k']), (['n', 'e', 'x', 't', ' ', 'y', 'e', 'a', 'r'], ['i', 'n', ' ', '1', ' ', 'y', 'e', 'a', 'r']), (['t', 'h', 'i', 's', ' ', 'h', 'o', 'u', 'r'], ['0', ' ', 'h', 'o', 'u', 'r', ' ', 'a', 'g', 'o']), (['t', 'h', 'i', 's', ' ', 'w', 'e', 'e', 'k'], ['0', ' ', 'w', 'e', 'e', 'k', ' ', 'a', 'g', 'o']), (['t', 'h', 'i', 's', ' ', 'y', 'e', 'a', 'r'], ['0', ' ', 'y', 'e', 'a', 'r', ' ', 'a', 'g', 'o']), (['a', 's', 's', 'e', 'n', 'a', 't'], ['1', ' ', 'd', 'a', 'y', ' ', 'a', 'g', 'o']), (['a', 's', 'e', 'k', 'k', 'a'], ['i', 'n', ' ', '1', ' ', 'd', 'a', 'y']), (['a', 's', 's', 'a'], ['0', ' ', 'd', 'a', 'y', ' ', 'a', 'g', 'o']), (['n', 'o', 'w'], ['0', ' ', 's', 'e', 'c', 'o', 'n', 'd', ' ', 'a', 'g', 'o'])]

/-- internal/data/ug.go: `ug_Locale`, dictionary. -/
def ugDict : LangData where
  name := ['u', 'g']
  translations := [(['چ', 'ۈ', 'ش', 'ت', 'ى', 'ن', ' ', 'ب', 'ۇ', 'ر', 'ۇ', 'ن'], [['a', 'm']]), (['چ', 'ۈ', 'ش', 'ت', 'ى', 'ن', ' ', 'ك', 'ې', 'ي', 'ى', 'ن'], [['p', 'm']]), (['س', 'ې', 'ن', 'ت', 'ە', 'ب', 'ى', 'ر'], [['s', 'e', 'p', 't', 'e', 'm', 'b', 'e', 'r']]), (['س', 'ە', 'ي', 'ش', 'ە', 'ن', 'ب', 'ە'], [['t', 'u', 'e', 's', 'd', 'a', 'y']]), (['ي', 'ۆ', 'ك', 'ت', 'ە', 'ب', 'ى', 'ر'], [['o', 'c', 't', 'o', 'b', 'e', 'r']]), (['ي', 'ە', 'ك', 'ش', 'ە', 'ن', 'ب', 'ە'], [['s', 'u', 'n', 'd', 'a', 'y']]), (['پ', 'ە', 'ي', 'ش', 'ە', 'ن', 'ب', 'ە'], [['t', 'h', 'u', 'r', 's', 'd', 'a', 'y']]), (['چ', 'ا', 'ر', 'ش', 'ە', 'ن', 'ب', 'ە'], [['w', 'e', 'd', 'n', 'e', 's', 'd', 'a', 'y']]), (['د', 'ۈ', 'ش', 'ە', 'ن', 'ب', 'ە'], [['m', 'o', 'n', 'd', 'a', 'y']]), (['د', 'ې', 'ك', 'ا', 'ب', 'ى', 'ر'], [['d', 'e', 'c', 'e', 'm', 'b', 'e', 'r']]), (['ن', 'و', 'ي', 'ا', 'ب', 'ى', 'ر'], [['n', 'o', 'v', 'e', 'm', 'b', 'e', 'r']]), (['ي', 'ا', 'ۋ', 'غ', 'ۇ', 'س', 'ت'], [['a', 'u', 'g', 'u', 's', 't']]), (['س', 'ې', 'ك', 'ۇ', 'ن', 'ت'], [['s', 'e', 'c', 'o', 'n', 'd']]), (['ف', 'ې', 'ۋ', 'ر', 'ا', 'ل'], [['f', 'e', 'b', 'r', 'u', 'a', 'r', 'y']]), (['ي', 'ا', 'ن', 'ۋ', 'ا', 'ر'], [['j', 'a', 'n', 'u', 'a', 'r', 'y']]), (['ي', 'ا', 'پ', 'ر', 'ې', 'ل'], [['a', 'p', 'r', 'i', 'l']]), (['س', 'ا', 'ي', 'ە', 'ت'], [['h', 'o', 'u', 'r']]), (['ش', 'ە', 'ن', 'ب', 'ە'], [['s', 'a', 't', 'u', 'r', 'd', 'a', 'y']]), (['م', 'ى', 'ن', 'ۇ', 'ت'], [['m', 'i', 'n', 'u', 't', 'e']]), (['ي', 'ى', 'ي', 'ۇ', 'ل'], [['j', 'u', 'l', 'y']]), (['ي', 'ى', 'ي', 'ۇ', 'ن'], [['j', 'u', 'n', 'e']]), (['ھ', 'ە', 'پ', 'ت', 'ە'], [['w', 'e', 'e', 'k']]), (['ج', 'ۈ', 'م', 'ە'], [['f', 'r', 'i', 'd', 'a', 'y']]), (['م', 'ا', 'ر', 'ت'], [['m', 'a', 'r', 'c', 'h']]), (['g', 'm', 't'], [['g', 'm', 't']]), (['u', 't', 'c'], [['u', 't', 'c']]), (['ك', 'ۈ', 'ن'], [['d', 'a', 'y']]), (['م', 'ا', 'ي'], [['m', 'a', 'y']]), (['ي', 'ا', 'ي'], [['m', 'o', 'n', 't', 'h']]), (['ي', 'ى', 'ل'], [['y', 'e', 'a', 'r']]), (['a', 'm'], [['a', 'm']]), (['p', 'm'], [['p', 'm']]), (['ج', 'ۈ'], [['f', 'r', 'i', 'd', 'a', 'y']]), (['د', 'ۈ'], [['m', 'o', 'n', 'd', 'a', 'y']]), (['س', 'ە'], [['t', 'u', 'e', 's', 'd', 'a', 'y']]), (['ش', 'ە'], [['s', 'a', 't', 'u', 'r', 'd', 'a', 'y']]), (['ي', 'ە'], [['s', 'u', 'n', 'd', 'a', 'y']]), (['پ', 'ە'], [['t', 'h', 'u', 'r', 's', 'd', 'a', 'y']]), (['چ', 'ا'], [['w', 'e', 'd', 'n', 'e', 's', 'd', 'a', 'y']]), (['چ', 'ب'], [['a', 'm']]), (['چ', 'ك'], [['p', 'm']]), ([' '], [[' ']]), (['\''], [[]]), (['+'], [['+']]), ([','], [[]]), (['-'], [['-']]), (['.'], [['.']]), (['/'], [['/']]), ([':'], [[':']]), ([';'], [[]]), (['@'], [[]]), (['['], [[]]), ([']'], [[]]), (['z'], [['z']]), (['|'], [[]])]
  relativeType := [(['ي', 'ۆ', 'ت', 'ك', 'ە', 'ن', ' ', 'ھ', 'ە', 'پ', 'ت', 'ە'], ['1', ' ', 'w', 'e', 'e', 'k', ' ', 'a', 'g', 'o']), (['t', 'h', 'i', 's', ' ', 'm', 'i', 'n', 'u', 't', 'e'], ['0', ' ', 'm', 'i', 'n', 'u', 't', 'e', ' ', 'a', 'g', 'o']), (['ك', 'ې', 'ل', 'ە', 'ر', ' ', 'ھ', 'ە', 'پ', 'ت', 'ە'], ['i', 'n', ' ', '1', ' ', 'w', 'e', 'e', 'k']), (['ي', 'ۆ', 'ت', 'ك', 'ە', 'ن', ' ', 'ي', 'ا', 'ي'], ['1', ' ', 'm', 'o', 'n', 't', 'h', ' ', 'a', 'g', 'o']), (['ي', 'ۆ', 'ت', 'ك', 'ە', 'ن', ' ', 'ي', 'ى', 'ل'], ['1', ' ', 'y', 'e', 'a', 'r', ' ', 'a', 'g', 'o']), (['t', 'h', 'i', 's', ' ', 'h', 'o', 'u', 'r'], ['0', ' ', 'h', 'o', 'u', 'r', ' ', 'a', 'g', 'o']), (['ك', 'ې', 'ل', 'ە', 'ر', ' ', 'ي', 'ا', 'ي'], ['i', 'n', ' ', '1', ' ', 'm', 'o', 'n', 't', 'h']), (['ك', 'ې', 'ل', 'ە', 'ر', ' ', 'ي', 'ى', 'ل'], ['i', 'n', ' ', '1', ' ', 'y', 'e', 'a', 'r']), (['ب', 'ۇ', ' ', 'ھ', 'ە', 'پ', 'ت', 'ە'], ['0', ' ', 'w', 'e', 'e', 'k', ' ', 'a', 'g', 'o']), (['ت', 'ۈ', 'ن', 'ۈ', 'گ', 'ۈ', 'ن'], ['1', ' ', 'd', 'a', 'y', ' ', 'a', 'g', 'o']), (['ب', 'ۇ', ' ', 'ي', 'ا', 'ي'], ['0', ' ', 'm', 'o', 'n', 't', 'h', ' ', 'a', 'g', 'o']), (['ب', 'ۇ', ' ', 'ي', 'ى', 'ل'], ['0', ' ', 'y', 'e', 'a', 'r', ' ', 'a', 'g', 'o']), (['ب', 'ۈ', 'گ', 'ۈ', 'ن'], ['0', ' ', 'd', 'a', 'y', ' ', 'a', 'g', 'o']), (['ي', 'ە', 'ت', 'ە'], ['i', 'n', ' ', '1', ' ', 'd', 'a', 'y']), (['n', 'o', 'w'], ['0', ' ', 's', 'e', 'c', 'o', 'n', 'd', ' ', 'a', 'g', 'o'])]

/-- internal/data/uk.go: `uk_Locale`, dictionary. -/
def ukDict : LangData where
  name := ['u', 'k']
  splitterGroup := 1
  translations := [(['п', 'і', 'с', 'л', 'я', ' ', 'п', 'о', 'л', 'у', 'д', 'н', 'я'], [['p', 'm']]), (['д', 'о', ' ', 'п', 'о', 'л', 'у', 'д', 'н', 'я'], [['a', 'm']]), (['л', 'и', 'с', 'т', 'о', 'п', 'а', 'д', 'а'], [['n', 'o', 'v', 'e', 'm', 'b', 'e', 'r']]), (['п', 'о', 'н', 'е', 'д', 'і', 'л', 'о', 'к'], [['m', 'o', 'n', 'd', 'a', 'y']]), (['п', 'о', 'п', 'о', 'л', 'у', 'д', 'н', 'і'], [['p', 'm']]), (['п', 'р', 'и', 'б', 'л', 'и', 'з', 'н', 'о'], [[]]), (['б', 'е', 'р', 'е', 'з', 'е', 'н', 'ь'], [['m', 'a', 'r', 'c', 'h']]), (['в', 'е', 'р', 'е', 'с', 'е', 'н', 'ь'], [['s', 'e', 'p', 't', 'e', 'm', 'b', 'e', 'r']]), (['в', 'і', 'в', 'т', 'о', 'р', 'о', 'к'], [['t', 'u', 'e', 's', 'd', 'a', 'y']]), (['л', 'и', 'с', 'т', 'о', 'п', 'а', 'д'], [['n', 'o', 'v', 'e', 'm', 'b', 'e', 'r']]), (['м', 'і', 'с', 'я', 'ц', 'е', 'в', 'і'], [['m', 'o', 'n', 't', 'h']]), (['м', 'і', 'с', 'я', 'ц', 'я', 'м', 'и'], [['m', 'o', 'n', 't', 'h']]), (['п', '\'', 'я', 'т', 'н', 'и', 'ц', 'я'], [['f', 'r', 'i', 'd', 'a', 'y']]), (['п', 'р', 'о', 'т', 'я', 'г', 'о', 'м'], [['i', 'n']]), (['с', 'е', 'к', 'у', 'н', 'д', 'о', 'ю'], [['s', 'e', 'c', 'o', 'n', 'd']]), (['х', 'в', 'и', 'л', 'и', 'н', 'о', 'ю'], [['m', 'i', 'n', 'u', 't', 'e']]), (['б', 'е', 'р', 'е', 'з', 'н', 'я'], [['m', 'a', 'r', 'c', 'h']]), (['б', 'л', 'и', 'з', 'ь', 'к', 'о'], [[]]), (['в', 'е', 'р', 'е', 'с', 'н', 'я'], [['s', 'e', 'p', 't', 'e', 'm', 'b', 'e', 'r']]), (['г', 'о', 'д', 'и', 'н', 'о', 'ю'], [['h', 'o', 'u', 'r']]), (['г', 'р', 'у', 'д', 'е', 'н', 'ь'], [['d', 'e', 'c', 'e', 'm', 'b', 'e', 'r']]), (['ж', 'о', 'в', 'т', 'е', 'н', 'ь'], [['o', 'c', 't', 'o', 'b', 'e', 'r']]), (['к', 'в', 'і', 'т', 'е', 'н', 'ь'], [['a', 'p', 'r', 'i', 'l']]), (['м', 'і', 'с', 'я', 'ц', 'е', 'м'], [['m', 'o', 'n', 't', 'h']]), (['м', 'і', 'с', 'я', 'ц', 'я', 'м'], [['m', 'o', 'n', 't', 'h']]), (['м', 'і', 'с', 'я', 'ц', 'я', 'х'], [['m', 'o', 'n', 't', 'h']]), (['м', 'і', 'с', 'я', 'ц', 'і', 'в'], [['m', 'o', 'n', 't', 'h']]), (['с', 'е', 'к', 'у', 'н', 'д', 'а'], [['s', 'e', 'c', 'o', 'n', 'd']]), (['с', 'е', 'к', 'у', 'н', 'д', 'и'], [['s', 'e', 'c', 'o', 'n', 'd']]), (['с', 'е', 'к', 'у', 'н', 'д', 'о'], [['s', 'e', 'c', 'o', 'n', 'd']]), (['с', 'е', 'к', 'у', 'н', 'д', 'у'], [['s', 'e', 'c', 'o', 'n', 'd']]), (['с', 'е', 'к', 'у', 'н', 'д', 'і'], [['s', 'e', 'c', 'o', 'n', 'd']]), (['с', 'е', 'р', 'п', 'е', 'н', 'ь'], [['a', 'u', 'g', 'u', 's', 't']]), (['т', 'и', 'ж', 'д', 'е', 'н', 'ь'], [['w', 'e', 'e', 'k']]), (['т', 'и', 'ж', 'н', 'е', 'в', 'і'], [['w', 'e', 'e', 'k']]), (['т', 'р', 'а', 'в', 'е', 'н', 'ь'], [['m', 'a', 'y']]), (['х', 'в', 'и', 'л', 'и', 'н', 'а'], [['m', 'i', 'n', 'u', 't', 'e']]), (['х', 'в', 'и', 'л', 'и', 'н', 'и'], [['m', 'i', 'n', 'u', 't', 'e']]), (['х', 'в', 'и', 'л', 'и', 'н', 'о'], [['m', 'i', 'n', 'u', 't', 'e']]), (['х', 'в', 'и', 'л', 'и', 'н', 'у'], [['m', 'i', 'n', 'u', 't', 'e']]), (['х', 'в', 'и', 'л', 'и', 'н', 'і'], [['m', 'i', 'n', 'u', 't', 'e']]), (['ч', 'е', 'р', 'в', 'е', 'н', 'ь'], [['j', 'u', 'n', 'e']]), (['в', 'і', 'в', 'т', 'о', 'р'], [['t', 'u', 'e', 's', 'd', 'a', 'y']]), (['г', 'о', 'д', 'и', 'н', 'а'], [['h', 'o', 'u', 'r']]), (['г', 'о', 'д', 'и', 'н', 'и'], [['h', 'o', 'u', 'r']]), (['г', 'о', 'д', 'и', 'н', 'о'], [['h', 'o', 'u', 'r']]), (['г', 'о', 'д', 'и', 'н', 'у'], [['h', 'o', 'u', 'r']]), (['г', 'о', 'д', 'и', 'н', 'і'], [['h', 'o', 'u', 'r']]), (['г', 'р', 'у', 'д', 'н', 'я'], [['d', 'e', 'c', 'e', 'm', 'b', 'e', 'r']]), (['ж', 'о', 'в', 'т', 'н', 'я'], [['o', 'c', 't', 'o', 'b', 'e', 'r']]), (['к', 'в', 'і', 'т', 'н', 'я'], [['a', 'p', 'r', 'i', 'l']]), (['л', 'и', 'п', 'е', 'н', 'ь'], [['j', 'u', 'l', 'y']]), (['л', 'и', 'с', 'т', 'о', 'п'], [['n', 'o', 'v', 'e', 'm', 'b', 'e', 'r']]), (['л', 'ю', 'т', 'о', 'г', 'о'], [['f', 'e', 'b', 'r', 'u', 'a', 'r', 'y']]), (['м', 'і', 'с', 'я', 'ц', 'ь'], [['m', 'o', 'n', 't', 'h']]), (['м', 'і', 'с', 'я', 'ц', 'ю'], [['m', 'o', 'n', 't', 'h']]), (['м', 'і', 'с', 'я', 'ц', 'я'], [['m', 'o', 'n', 't', 'h']]), (['м', 'і', 'с', 'я', 'ц', 'і'], [['m', 'o', 'n', 't', 'h']]), (['н', 'е', 'д', 'і', 'л', 'ю'], [['s', 'u', 'n', 'd', 'a', 'y']]), (['н', 'е', 'д', 'і', 'л', 'я'], [['s', 'u', 'n', 'd', 'a', 'y']]), (['р', 'о', 'к', 'а', 'м', 'и'], [['y', 'e', 'a', 'r']]), (['р', 'о', 'к', 'о', 'в', 'і'], [['y', 'e', 'a', 'r']]), (['с', 'е', 'к', 'у', 'н', 'д'], [['s', 'e', 'c', 'o', 'n', 'd']]), (['с', 'е', 'р', 'е', 'д', 'а'], [['w', 'e', 'd', 'n', 'e', 's', 'd', 'a', 'y']]), (['с', 'е', 'р', 'е', 'д', 'у'], [['w', 'e', 'd', 'n', 'e', 's', 'd', 'a', 'y']]), (['с', 'е', 'р', 'п', 'н', 'я'], [['a', 'u', 'g', 'u', 's', 't']]), (['с', 'у', 'б', 'о', 'т', 'а'], [['s', 'a', 't', 'u', 'r', 'd', 'a', 'y']]), (['с', 'у', 'б', 'о', 'т', 'у'], [['s', 'a', 't', 'u', 'r', 'd', 'a', 'y']]), (['с', 'і', 'ч', 'е', 'н', 'ь'], [['j', 'a', 'n', 'u', 'a', 'r', 'y']]), (['т', 'и', 'ж', 'н', 'е', 'м'], [['w', 'e', 'e', 'k']]), (['т', 'и', 'ж', 'н', 'і', 'в'], [['w', 'e', 'e', 'k']]), (['т', 'р', 'а', 'в', 'н', 'я'], [['m', 'a', 'y']]), (['х', 'в', 'и', 'л', 'и', 'н'], [['m', 'i', 'n', 'u', 't', 'e']]), (['ч', 'е', 'р', 'в', 'н', 'я'], [['j', 'u', 'n', 'e']]), (['ч', 'е', 'т', 'в', 'е', 'р'], [['t', 'h', 'u', 'r', 's', 'd', 'a', 'y']]), (['б', 'е', 'р', 'е', 'з'], [['m', 'a', 'r', 'c', 'h']]), (['в', 'е', 'р', 'е', 'с'], [['s', 'e', 'p', 't', 'e', 'm', 'b', 'e', 'r']]), (['г', 'о', 'д', 'и', 'н'], [['h', 'o', 'u', 'r']]), (['д', 'н', 'е', 'в', 'і'], [['d', 'a', 'y']]), (['л', 'и', 'п', 'н', 'я'], [['j', 'u', 'l', 'y']]), (['л', 'ю', 'т', 'и', 'и'], [['f', 'e', 'b', 'r', 'u', 'a', 'r', 'y']]), (['н', 'а', 'з', 'а', 'д'], [['a', 'g', 'o']]), (['н', 'е', 'д', 'і', 'л'], [['s', 'u', 'n', 'd', 'a', 'y']]), (['п', 'о', 'н', 'е', 'д'], [['m', 'o', 'n', 'd', 'a', 'y']]), (['р', 'о', 'к', 'а', 'х'], [['y', 'e', 'a', 'r']]), (['р', 'о', 'к', 'о', 'м'], [['y', 'e', 'a', 'r']]), (['р', 'о', 'к', 'і', 'в'], [['y', 'e', 'a', 'r']]), (['с', 'е', 'р', 'е', 'д'], [['w', 'e', 'd', 'n', 'e', 's', 'd', 'a', 'y']]), (['с', 'у', 'б', 'о', 'т'], [['s', 'a', 't', 'u', 'r', 'd', 'a', 'y']]), (['с', 'і', 'ч', 'н', 'я'], [['j', 'a', 'n', 'u', 'a', 'r', 'y']]), (['т', 'и', 'ж', 'н', 'ю'], [['w', 'e', 'e', 'k']]), (['т', 'и', 'ж', 'н', 'я'], [['w', 'e', 'e', 'k']]), (['т', 'и', 'ж', 'н', 'і'], [['w', 'e', 'e', 'k']]), (['ч', 'е', 'р', 'е', 'з'], [['i', 'n']]), (['г', 'р', 'у', 'д'], [['d', 'e', 'c', 'e', 'm', 'b', 'e', 'r']]), (['д', 'е', 'н', 'ь'], [['d', 'a', 'y']]), (['д', 'н', 'е', 'м'], [['d', 'a', 'y']]), (['д', 'н', 'і', 'в'], [['d', 'a', 'y']]), (['д', 'о', 'б', 'а'], [['d', 'a', 'y']]), (['д', 'о', 'б', 'и'], [['d', 'a', 'y']]), (['ж', 'о', 'в', 'т'], [['o', 'c', 't', 'o', 'b', 'e', 'r']]), (['к', 'в', 'і', 'т'], [['a', 'p', 'r', 'i', 'l']]), (['л', 'и', 'с', 'т'], [['n', 'o', 'v', 'e', 'm', 'b', 'e', 'r']]), (['р', 'о', 'к', 'и'], [['y', 'e', 'a', 'r']]), (['р', 'о', 'к', 'у'], [['y', 'e', 'a', 'r']]), (['р', 'о', 'ц', 'і'], [['y', 'e', 'a', 'r']]), (['с', 'е', 'р', 'п'], [['a', 'u', 'g', 'u', 's', 't']]), (['т', 'о', 'м', 'у'], [['a', 'g', 'o']]), (['т', 'р', 'а', 'в'], [['m', 'a', 'y']]), (['ч', 'е', 'р', 'в'], [['j', 'u', 'n', 'e']]), (['g', 'm', 't'], [['g', 'm', 't']]), (['u', 't', 'c'], [['u', 't', 'c']]), (['б', 'е', 'р'], [['m', 'a', 'r', 'c', 'h']]), (['в', 'е', 'р'], [['s', 'e', 'p', 't', 'e', 'm', 'b', 'e', 'r']]), (['в', 'і', 'в'], [['t', 'u', 'e', 's', 'd', 'a', 'y']]), (['г', 'о', 'д'], [['h', 'o', 'u', 'r']]), (['г', 'р', 'у'], [['d', 'e', 'c', 'e', 'm', 'b', 'e', 'r']]), (['д', 'н', 'ю'], [['d', 'a', 'y']]), (['д', 'н', 'я'], [['d', 'a', 'y']]), (['д', 'н', 'і'], [['d', 'a', 'y']]), (['д', 'і', 'б'], [['d', 'a', 'y']]), (['ж', 'о', 'в'], [['o', 'c', 't', 'o', 'b', 'e', 'r']]), (['к', 'в', 'і'], [['a', 'p', 'r', 'i', 'l']]), (['л', 'и', 'п'], [['j', 'u', 'l', 'y']]), (['л', 'и', 'с'], [['n', 'o', 'v', 'e', 'm', 'b', 'e', 'r']]), (['л', 'ю', 'т'], [['f', 'e', 'b', 'r', 'u', 'a', 'r', 'y']]), (['м', 'і', 'с'], [['m', 'o', 'n', 't', 'h']]), (['н', 'е', 'д'], [['s', 'u', 'n', 'd', 'a', 'y']]), (['п', 'о', 'н'], [['m', 'o', 'n', 'd', 'a', 'y']]), (['п', 'я', 'т'], [['f', 'r', 'i', 'd', 'a', 'y']]), (['р', 'і', 'к'], [['y', 'e', 'a', 'r']]), (['с', 'е', 'к'], [['s', 'e', 'c', 'o', 'n', 'd']]), (['с', 'е', 'р'], [['a', 'u', 'g', 'u', 's', 't'], ['w', 'e', 'd', 'n', 'e', 's', 'd', 'a', 'y']]), (['с', 'у', 'б'], [['s', 'a', 't', 'u', 'r', 'd', 'a', 'y']]), (['с', 'і', 'ч'], [['j', 'a', 'n', 'u', 'a', 'r', 'y']]), (['т', 'и', 'ж'], [['w', 'e', 'e', 'k']]), (['т', 'р', 'а'], [['m', 'a', 'y']]), (['ч', 'е', 'р'], [['j', 'u', 'n', 'e']]), (['ч', 'е', 'т'], [['t', 'h', 'u', 'r', 's', 'd', 'a', 'y']]), (['a', 'm'], [['a', 'm']]), (['p', 'm'], [['p', 'm']]), (['в', 'т'], [['t', 'u', 'e', 's', 'd', 'a', 'y']]), (['д', 'н'], [['d', 'a', 'y']]), (['д', 'п'], [['a', 'm']]), (['з', 'а'], [['i', 'n']]), (['н', 'д'], [['s', 'u', 'n', 'd', 'a', 'y']]), (['о', 'б'], [[]]), (['п', 'н'], [['m', 'o', 'n', 'd', 'a', 'y']]), (['п', 'п'], [['p', 'm']]), (['п', 'т'], [['f', 'r', 'i', 'd', 'a', 'y']]), (['с', 'б'], [['s', 'a', 't', 'u', 'r', 'd', 'a', 'y']]), (['с', 'р'], [['w', 'e', 'd', 'n', 'e', 's', 'd', 'a', 'y']]), (['х', 'в'], [['m', 'i', 'n', 'u', 't', 'e']]), (['ч', 'т'], [['t', 'h', 'u', 'r', 's', 'd', 'a', 'y']]), ([' '], [[' ']]), (['\''], [[]]), (['+'], [['+']]), ([','], [[]]), (['-'], [['-']]), (['.'], [['.']]), (['/'], [['/']]), ([':'], [[':']]), ([';'], [[]]), (['@'], [[]]), (['['], [[]]), ([']'], [[]]), (['z'], [['z']]), (['|'], [[]]), (['г'], [['h', 'o', 'u', 'r']]), (['д'], [['d', 'a', 'y']]), (['м'], [['m', 'o', 'n', 't', 'h']]), (['о'], [[]]), (['р'], [['y', 'e', 'a', 'r']]), (['с'], [['s', 'e', 'c', 'o', 'n', 'd']]), (['т'], [['w', 'e', 'e', 'k']]), (['і'], [[]])]
  relativeType := [(['н', 'а', 'с', 'т', 'у', 'п', 'н', 'о', 'г', 'о', ' ', 'м', 'і', 'с', 'я', 'ц', 'я'], ['i', 'n', ' ', '1', ' ', 'm', 'o', 'n', 't', 'h']), (['н', 'а', 'с', 'т', 'у', 'п', 'н', 'о', 'г', 'о', ' ', 'т', 'и', 'ж', 'н', 'я'], ['i', 'n', ' ', '1', ' ', 'w', 'e', 'e', 'k']), (['м', 'и', 'н', 'у', 'л', 'о', 'г', 'о', ' ', 'м', 'і', 'с', 'я', 'ц', 'я'], ['1', ' ', 'm', 'o', 'n', 't', 'h', ' ', 'a', 'g', 'o']), (['н', 'а', 'с', 'т', 'у', 'п', 'н', 'о', 'г', 'о', ' ', 'р', 'о', 'к', 'у'], ['i', 'n', ' ', '1', ' ', 'y', 'e', 'a', 'r']), (['м', 'и', 'н', 'у', 'л', 'о', 'г', 'о', ' ', 'т', 'и', 'ж', 'н', 'я'], ['1', ' ', 'w', 'e', 'e', 'k', ' ', 'a', 'g', 'o']), (['ц', 'ь', 'о', 'г', 'о', ' ', 'м', 'і', 'с', 'я', 'ц', 'я'], ['0', ' ', 'm', 'o', 'n', 't', 'h', ' ', 'a', 'g', 'o']), (['ц', 'і', 'є', 'і', ' ', 'х', 'в', 'и', 'л', 'и', 'н', 'и'], ['0', ' ', 'm', 'i', 'n', 'u', 't', 'e', ' ', 'a', 'g', 'o']), (['п', 'і', 'с', 'л', 'я', 'з', 'а', 'в', 'т', 'р', 'а'], ['i', 'n', ' ', '2', ' ', 'd', 'a', 'y']), (['ц', 'ь', 'о', 'г', 'о', ' ', 'т', 'и', 'ж', 'н', 'я'], ['0', ' ', 'w', 'e', 'e', 'k', ' ', 'a', 'g', 'o']), (['ц', 'і', 'є', 'і', ' ', 'г', 'о', 'д', 'и', 'н', 'и'], ['0', ' ', 'h', 'o', 'u', 'r', ' ', 'a', 'g', 'o']), (['ц', 'ь', 'о', 'г', 'о', ' ', 'р', 'о', 'к', 'у'], ['0', ' ', 'y', 'e', 'a', 'r', ' ', 'a', 'g', 'o']), (['п', 'о', 'з', 'а', 'в', 'ч', 'о', 'р', 'а'], ['2', ' ', 'd', 'a', 'y', ' ', 'a', 'g', 'o']), (['с', 'ь', 'о', 'г', 'о', 'д', 'н', 'і'], ['0', ' ', 'd', 'a', 'y', ' ', 'a', 'g', 'o']), (['з', 'а', 'в', 'т', 'р', 'а'], ['i', 'n', ' ', '1', ' ', 'd', 'a', 'y']), (['в', 'ч', 'о', 'р', 'а'], ['1', ' ', 'd', 'a', 'y', ' ', 'a', 'g', 'o']), (['з', 'а', 'р', 'а', 'з'], ['0', ' ', 's', 'e', 'c', 'o', 'n', 'd', ' ', 'a', 'g', 'o']), (['т', 'о', 'р', 'і', 'к'], ['1', ' ', 'y', 'e', 'a', 'r', ' ', 'a', 'g', 'o']), (['у', 'ч', 'о', 'р', 'а'], ['1', ' ', 'd', 'a', 'y', ' ', 'a', 'g', 'o'])]

/-- internal/data/ur.go: `ur_Locale`, dictionary. -/
def urDict : LangData where
  name := ['u', 'r']
  translations := [(['ا', 'ک', 'ت', 'و', 'ب', 'ر'], [['o', 'c', 't', 'o', 'b', 'e', 'r']]), (['ج', 'م', 'ع', 'ر', 'ا', 'ت'], [['t', 'h', 'u', 'r', 's', 'd', 'a', 'y']]), (['ج', 'و', 'ل', 'ا', 'ي', 'ی'], [['j', 'u', 'l', 'y']]), (['س', 'و', 'م', 'و', 'ا', 'ر'], [['m', 'o', 'n', 'd', 'a', 'y']]), (['ا', 'ت', 'و', 'ا', 'ر'], [['s', 'u', 'n', 'd', 'a', 'y']]), (['ا', 'پ', 'ر', 'ی', 'ل'], [['a', 'p', 'r', 'i', 'l']]), (['ج', 'ن', 'و', 'ر', 'ی'], [['j', 'a', 'n', 'u', 'a', 'r', 'y']]), (['د', 'س', 'م', 'ب', 'ر'], [['d', 'e', 'c', 'e', 'm', 'b', 'e', 'r']]), (['س', 'ت', 'م', 'ب', 'ر'], [['s', 'e', 'p', 't', 'e', 'm', 'b', 'e', 'r']]), (['س', 'ی', 'ک', 'ن', 'ڈ'], [['s', 'e', 'c', 'o', 'n', 'd']]), (['ف', 'ر', 'و', 'ر', 'ی'], [['f', 'e', 'b', 'r', 'u', 'a', 'r', 'y']]), (['م', 'ہ', 'ی', 'ن', 'ہ'], [['m', 'o', 'n', 't', 'h']]), (['ن', 'و', 'م', 'ب', 'ر'], [['n', 'o', 'v', 'e', 'm', 'b', 'e', 'r']]), (['گ', 'ھ', 'ن', 'ٹ', 'ہ'], [['h', 'o', 'u', 'r']]), (['ا', 'گ', 'س', 'ت'], [['a', 'u', 'g', 'u', 's', 't']]), (['ج', 'م', 'ع', 'ہ'], [['f', 'r', 'i', 'd', 'a', 'y']]), (['م', 'ا', 'ر', 'چ'], [['m', 'a', 'r', 'c', 'h']]), (['م', 'ن', 'گ', 'ل'], [['t', 'u', 'e', 's', 'd', 'a', 'y']]), (['ہ', 'ف', 'ت', 'ہ'], [['w', 'e', 'e', 'k'], ['s', 'a', 't', 'u', 'r', 'd', 'a', 'y']]), (['g', 'm', 't'], [['g', 'm', 't']]), (['u', 't', 'c'], [['u', 't', 'c']]), (['ب', 'د', 'ھ'], [['w', 'e', 'd', 'n', 'e', 's', 'd', 'a', 'y']]), (['ج', 'و', 'ن'], [['j', 'u', 'n', 'e']]), (['س', 'ا', 'ل'], [['y', 'e', 'a', 'r']]), (['م', 'ا', 'ہ'], [['m', 'o', 'n', 't', 'h']]), (['م', 'ن', 'ٹ'], [['m', 'i', 'n', 'u', 't', 'e']]), (['م', 'ي', 'ی'], [['m', 'a', 'y']]), (['a', 'm'], [['a', 'm']]), (['p', 'm'], [['p', 'm']]), (['د', 'ن'], [['d', 'a', 'y']]), ([' '], [[' ']]), (['\''], [[]]), (['+'], [['+']]), ([','], [[]]), (['-'], [['-']]), (['.'], [['.']]), (['/'], [['/']]), ([':'], [[':']]), ([';'], [[]]), (['@'], [[]]), (['['], [[]]), ([']'], [[]]), (['z'], [['z']]), (['|'], [[]])]
  relativeType := [(['پ', 'چ', 'ھ', 'ل', 'ے', ' ', 'م', 'ہ', 'ی', 'ن', 'ہ'], ['1', ' ', 'm', 'o', 'n', 't', 'h', ' ', 'a', 'g', 'o']), (['ا', 'گ', 'ل', 'ے', ' ', 'م', 'ہ', 'ی', 'ن', 'ہ'], ['i', 'n', ' ', '1', ' ', 'm', 'o', 'n', 't', 'h']), (['پ', 'چ', 'ھ', 'ل', 'ے', ' ', 'ہ', 'ف', 'ت', 'ہ'], ['1', ' ', 'w', 'e', 'e', 'k', ' ', 'a', 'g', 'o']), (['ا', 'گ', 'ل', 'ے', ' ', 'ہ', 'ف', 'ت', 'ہ'], ['i', 'n', ' ', '1', ' ', 'w', 'e', 'e', 'k']), (['گ', 'ز', 'ش', 'ت', 'ہ', ' ', 'س', 'ا', 'ل'], ['1', ' ', 'y', 'e', 'a', 'r', ' ', 'a', 'g', 'o']), (['ا', 'س', ' ', 'م', 'ہ', 'ی', 'ن', 'ہ'], ['0', ' ', 'm', 'o', 'n', 't', 'h', ' ', 'a', 'g', 'o']), (['ا', 'س', ' ', 'گ', 'ھ', 'ن', 'ٹ', 'ے'], ['0', ' ', 'h', 'o', 'u', 'r', ' ', 'a', 'g', 'o']), (['ا', 'ي', 'ن', 'د', 'ہ', ' ', 'ک', 'ل'], ['i', 'n', ' ', '1', ' ', 'd', 'a', 'y']), (['ا', 'گ', 'ل', 'ے', ' ', 'س', 'ا', 'ل'], ['i', 'n', ' ', '1', ' ', 'y', 'e', 'a', 'r']), (['گ', 'ز', 'ش', 'ت', 'ہ', ' ', 'ک', 'ل'], ['1', ' ', 'd', 'a', 'y', ' ', 'a', 'g', 'o']), (['ا', 'س', ' ', 'ہ', 'ف', 'ت', 'ہ'], ['0', ' ', 'w', 'e', 'e', 'k', ' ', 'a', 'g', 'o']), (['ا', 'س', ' ', 'س', 'ا', 'ل'], ['0', ' ', 'y', 'e', 'a', 'r', ' ', 'a', 'g', 'o']), (['ا', 'س', ' ', 'م', 'ن', 'ٹ'], ['0', ' ', 'm', 'i', 'n', 'u', 't', 'e', ' ', 'a', 'g', 'o']), (['ا', 'ب'], ['0', ' ', 's', 'e', 'c', 'o', 'n', 'd', ' ', 'a', 'g', 'o']), (['ا', 'ج'], ['0', ' ', 'd', 'a', 'y', ' ', 'a', 'g', 'o'])]

/-- internal/data/ur.go: `ur_IN_Locale`, dictionary. -/
def ur_INDict : LangData where
  name := ['u', 'r', '-', 'I', 'N']
  translations := [(['پ', 'ی', 'ر'], [['m', 'o', 'n', 'd', 'a', 'y']])]
  relativeType := [(['گ', 'ز', 'ش', 'ت', 'ہ', ' ', 'ہ', 'ف', 'ت', 'ہ'], ['1', ' ', 'w', 'e', 'e', 'k', ' ', 'a', 'g', 'o']), (['گ', 'ز', 'ش', 'ت', 'ہ', ' ', 'م', 'ا', 'ہ'], ['1', ' ', 'm', 'o', 'n', 't', 'h', ' ', 'a', 'g', 'o']), (['ا', 'گ', 'ل', 'ے', ' ', 'م', 'ا', 'ہ'], ['i', 'n', ' ', '1', ' ', 'm', 'o', 'n', 't', 'h']), (['ا', 'س', ' ', 'م', 'ا', 'ہ'], ['0', ' ', 'm', 'o', 'n', 't', 'h', ' ', 'a', 'g', 'o'])]

/-- internal/data/uz-arab.go: `uz_Arab_Locale`, dictionary. -/
def uz_ArabDict : LangData where
  name := ['u', 'z', '-', 'A', 'r', 'a', 'b']
  translations := [(['چ', 'ه', 'ا', 'ر', 'ش', 'ن', 'ب', 'ه'], [['w', 'e', 'd', 'n', 'e', 's', 'd', 'a', 'y']]), (['س', 'ه', (Char.ofNat 0x200c), 'ش', 'ن', 'ب', 'ه'], [['t', 'u', 'e', 's', 'd', 'a', 'y']]), (['پ', 'ن', 'ج', 'ش', 'ن', 'ب', 'ه'], [['t', 'h', 'u', 'r', 's', 'd', 'a', 'y']]), (['m', 'i', 'n', 'u', 't', 'e'], [['m', 'i', 'n', 'u', 't', 'e']]), (['s', 'e', 'c', 'o', 'n', 'd'], [['s', 'e', 'c', 'o', 'n', 'd']]), (['ا', 'ک', 'ت', 'و', 'ب', 'ر'], [['o', 'c', 't', 'o', 'b', 'e', 'r']]), (['د', 'و', 'ش', 'ن', 'ب', 'ه'], [['m', 'o', 'n', 'd', 'a', 'y']]), (['س', 'پ', 'ت', 'م', 'ب', 'ر'], [['s', 'e', 'p', 't', 'e', 'm', 'b', 'e', 'r']]), (['ف', 'ب', 'ر', 'و', 'ر', 'ی'], [['f', 'e', 'b', 'r', 'u', 'a', 'r', 'y']]), (['ی', 'ک', 'ش', 'ن', 'ب', 'ه'], [['s', 'u', 'n', 'd', 'a', 'y']]), (['m', 'o', 'n', 't', 'h'], [['m', 'o', 'n', 't', 'h']]), (['ا', 'پ', 'ر', 'ی', 'ل'], [['a', 'p', 'r', 'i', 'l']]), (['ج', 'ن', 'و', 'ر', 'ی'], [['j', 'a', 'n', 'u', 'a', 'r', 'y']]), (['ج', 'و', 'ل', 'ا', 'ی'], [['j', 'u', 'l', 'y']]), (['د', 'س', 'م', 'ب', 'ر'], [['d', 'e', 'c', 'e', 'm', 'b', 'e', 'r']]), (['ن', 'و', 'م', 'ب', 'ر'], [['n', 'o', 'v', 'e', 'm', 'b', 'e', 'r']]), (['h', 'o', 'u', 'r'], [['h', 'o', 'u', 'r']]), (['w', 'e', 'e', 'k'], [['w', 'e', 'e', 'k']]), (['y', 'e', 'a', 'r'], [['y', 'e', 'a', 'r']]), (['ا', 'گ', 'س', 'ت'], [['a', 'u', 'g', 'u', 's', 't']]), (['ج', 'م', 'ع', 'ه'], [['f', 'r', 'i', 'd', 'a', 'y']]), (['ش', 'ن', 'ب', 'ه'], [['s', 'a', 't', 'u', 'r', 'd', 'a', 'y']]), (['م', 'ا', 'ر', 'چ'], [['m', 'a', 'r', 'c', 'h']]), (['d', 'a', 'y'], [['d', 'a', 'y']]), (['g', 'm', 't'], [['g', 'm', 't']]), (['u', 't', 'c'], [['u', 't', 'c']]), (['ا', 'پ', 'ر'], [['a', 'p', 'r', 'i', 'l']]), (['ا', 'ک', 'ت'], [['o', 'c', 't', 'o', 'b', 'e', 'r']]), (['ا', 'گ', 'س'], [['a', 'u', 'g', 'u', 's', 't']]), (['ج', 'ن', 'و'], [['j', 'a', 'n', 'u', 'a', 'r', 'y']]), (['ج', 'و', 'ل'], [['j', 'u', 'l', 'y']]), (['ج', 'و', 'ن'], [['j', 'u', 'n', 'e']]), (['د', 'س', 'م'], [['d', 'e', 'c', 'e', 'm', 'b', 'e', 'r']]), (['س', 'پ', 'ت'], [['s', 'e', 'p', 't', 'e', 'm', 'b', 'e', 'r']]), (['ف', 'ب', 'ر'], [['f', 'e', 'b', 'r', 'u', 'a', 'r', 'y']]), (['م', 'ا', 'ر'], [['m', 'a', 'r', 'c', 'h']]), (['ن', 'و', 'م'], [['n', 'o', 'v', 'e', 'm', 'b', 'e', 'r']]), (['a', 'm'], [['a', 'm']]), (['p', 'm'], [['p', 'm']]), (['م', 'ی'], [['m', 'a', 'y']]), ([' '], [[' ']]), (['\''], [[]]), (['+'], [['+']]), ([','], [[]]), (['-'], [['-']]), (['.'], [['.']]), (['/'], [['/']]), ([':'], [[':']]), ([';'], [[]]), (['@'], [[]]), (['['], [[]]), ([']'], [[]]), (['z'], [['z']]), (['|'], [[]]), (['ج'], [['f', 'r', 'i', 'd', 'a', 'y']]), (['د'], [['m', 'o', 'n', 'd', 'a', 'y']]), (['س'], [['t', 'u', 'e', 's', 'd', 'a', 'y']]), (['ش'], [['s', 'a', 't', 'u', 'r', 'd', 'a', 'y']]), (['پ'], [['t', 'h', 'u', 'r', 's', 'd', 'a', 'y']]), (['چ'], [['w', 'e', 'd', 'n', 'e', 's', 'd', 'a', 'y']]), (['ی'], [['s', 'u', 'n', 'd', 'a', 'y']])]
  relativeType := [(['t', 'h', 'i', 's', ' ', 'm', 'i', 'n', 'u', 't', 'e'], ['0', ' ', 'm', 'i', 'n', 'u', 't', 'e', ' ', 'a', 'g', 'o']), (['l', 'a', 's', 't', ' ', 'm', 'o', 'n', 't', 'h'], ['1', ' ', 'm', 'o', 'n', 't', 'h', ' ', 'a', 'g', 'o']), (['n', 'e', 'x', 't', ' ', 'm', 'o', 'n', 't', 'h'], ['i', 'n', ' ', '1', ' ', 'm', 'o', 'n', 't', 'h']), (['t', 'h', 'i', 's', ' ', 'm', 'o', 'n', 't', 'h'], ['0', ' ', 'm', 'o', 'n', 't', 'h', ' ', 'a', 'g', 'o']), (['l', 'a', 's', 't', ' ', 'w', 'e', 'e', 'k'], ['1', ' ', 'w', 'e', 'e', 'k', ' ', 'a', 'g', 'o']), (['l', 'a', 's', 't', ' ', 'y', 'e', 'a', 'r'], ['1', ' ', 'y', 'e', 'a', 'r', ' ', 'a', 'g', 'o']), (['n', 'e', 'x', 't', ' ', 'w', 'e', 'e', 'k'], ['i', 'n', ' ', '1', ' ', 'w', 'e', 'e', 'k']), (['n', 'e', 'x', 't', ' ', 'y', 'e', 'a', 'r'], ['i', 'n', ' ', '1', ' ', 'y', 'e', 'a', 'r']), (['t', 'h', 'i', 's', ' ', 'h', 'o', 'u', 'r'], ['0', ' ', 'h', 'o', 'u', 'r', ' ', 'a', 'g', 'o']), (['t', 'h', 'i', 's', ' ', 'w', 'e', 'e', 'k'], ['0', ' ', 'w', 'e', 'e', 'k', ' ', 'a', 'g', 'o']), (['t', 'h', 'i', 's', ' ', 'y', 'e', 'a', 'r'], ['0', ' ', 'y', 'e', 'a', 'r', ' ', 'a', 'g', 'o']), (['y', 'e', 's', 't', 'e', 'r', 'd', 'a', 'y'], ['1', ' ', 'd', 'a', 'y', ' ', 'a', 'g', 'o']), (['t', 'o', 'm', 'o', 'r', 'r', 'o', 'w'], ['i', 'n', ' ', '1', ' ', 'd', 'a', 'y']), (['t', 'o', 'd', 'a', 'y'], ['0', ' ', 'd', 'a', 'y', ' ', 'a', 'g', 'o']), (['n', 'o', 'w'], ['0', ' ', 's', 'e', 'c', 'o', 'n', 'd', ' ', 'a', 'g', 'o'])]

/-- internal/data/uz-cyrl.go: `uz_Cyrl_Locale`, dictionary. -/
def uz_CyrlDict : LangData where
  name := ['u', 'z', '-', 'C', 'y', 'r', 'l']
  translations := [(['п', 'а', 'и', 'ш', 'а', 'н', 'б', 'а'], [['t', 'h', 'u', 'r', 's', 'd', 'a', 'y']]), (['ч', 'о', 'р', 'ш', 'а', 'н', 'б', 'а'], [['w', 'e', 'd', 'n', 'e', 's', 'd', 'a', 'y']]), (['д', 'у', 'ш', 'а', 'н', 'б', 'а'], [['m', 'o', 'n', 'd', 'a', 'y']]), (['с', 'е', 'н', 'т', 'я', 'б', 'р'], [['s', 'e', 'p', 't', 'e', 'm', 'b', 'e', 'r']]), (['с', 'е', 'ш', 'а', 'н', 'б', 'а'], [['t', 'u', 'e', 's', 'd', 'a', 'y']]), (['я', 'к', 'ш', 'а', 'н', 'б', 'а'], [['s', 'u', 'n', 'd', 'a', 'y']]), (['а', 'в', 'г', 'у', 'с', 'т'], [['a', 'u', 'g', 'u', 's', 't']]), (['д', 'а', 'қ', 'и', 'қ', 'а'], [['m', 'i', 'n', 'u', 't', 'e']]), (['д', 'е', 'к', 'а', 'б', 'р'], [['d', 'e', 'c', 'e', 'm', 'b', 'e', 'r']]), (['о', 'к', 'т', 'я', 'б', 'р'], [['o', 'c', 't', 'o', 'b', 'e', 'r']]), (['ф', 'е', 'в', 'р', 'а', 'л'], [['f', 'e', 'b', 'r', 'u', 'a', 'r', 'y']]), (['а', 'п', 'р', 'е', 'л'], [['a', 'p', 'r', 'i', 'l']]), (['н', 'о', 'я', 'б', 'р'], [['n', 'o', 'v', 'e', 'm', 'b', 'e', 'r']]), (['с', 'о', 'н', 'и', 'я'], [['s', 'e', 'c', 'o', 'n', 'd']]), (['ш', 'а', 'н', 'б', 'а'], [['s', 'a', 't', 'u', 'r', 'd', 'a', 'y']]), (['я', 'н', 'в', 'а', 'р'], [['j', 'a', 'n', 'u', 'a', 'r', 'y']]), (['ҳ', 'а', 'ф', 'т', 'а'], [['w', 'e', 'e', 'k']]), (['ж', 'у', 'м', 'а'], [['f', 'r', 'i', 'd', 'a', 'y']]), (['м', 'а', 'р', 'т'], [['m', 'a', 'r', 'c', 'h']]), (['с', 'о', 'а', 'т'], [['h', 'o', 'u', 'r']]), (['g', 'm', 't'], [['g', 'm', 't']]), (['u', 't', 'c'], [['u', 't', 'c']]), (['а', 'в', 'г'], [['a', 'u', 'g', 'u', 's', 't']]), (['а', 'п', 'р'], [['a', 'p', 'r', 'i', 'l']]), (['д', 'е', 'к'], [['d', 'e', 'c', 'e', 'm', 'b', 'e', 'r']]), (['д', 'у', 'ш'], [['m', 'o', 'n', 'd', 'a', 'y']]), (['ж', 'у', 'м'], [['f', 'r', 'i', 'd', 'a', 'y']]), (['и', 'и', 'л'], [['y', 'e', 'a', 'r']]), (['и', 'ю', 'л'], [['j', 'u', 'l', 'y']]), (['и', 'ю', 'н'], [['j', 'u', 'n', 'e']]), (['к', 'у', 'н'], [['d', 'a', 'y']]), (['м', 'а', 'и'], [['m', 'a', 'y']]), (['м', 'а', 'р'], [['m', 'a', 'r', 'c', 'h']]), (['н', 'о', 'я'], [['n', 'o', 'v', 'e', 'm', 'b', 'e', 'r']]), (['о', 'к', 'т'], [['o', 'c', 't', 'o', 'b', 'e', 'r']]), (['п', 'а', 'и'], [['t', 'h', 'u', 'r', 's', 'd', 'a', 'y']]), (['с', 'е', 'н'], [['s', 'e', 'p', 't', 'e', 'm', 'b', 'e', 'r']]), (['с', 'е', 'ш'], [['t', 'u', 'e', 's', 'd', 'a', 'y']]), (['ф', 'е', 'в'], [['f', 'e', 'b', 'r', 'u', 'a', 'r', 'y']]), (['ч', 'о', 'р'], [['w', 'e', 'd', 'n', 'e', 's', 'd', 'a', 'y']]), (['ш', 'а', 'н'], [['s', 'a', 't', 'u', 'r', 'd', 'a', 'y']]), (['я', 'к', 'ш'], [['s', 'u', 'n', 'd', 'a', 'y']]), (['я', 'н', 'в'], [['j', 'a', 'n', 'u', 'a', 'r', 'y']]), (['a', 'm'], [['a', 'm']]), (['p', 'm'], [['p', 'm']]), (['о', 'и'], [['m', 'o', 'n', 't', 'h']]), (['т', 'к'], [['p', 'm']]), (['т', 'о'], [['a', 'm']]), ([' '], [[' ']]), (['\''], [[]]), (['+'], [['+']]), ([','], [[]]), (['-'], [['-']]), (['.'], [['.']]), (['/'], [['/']]), ([':'], [[':']]), ([';'], [[]]), (['@'], [[]]), (['['], [[]]), ([']'], [[]]), (['z'], [['z']]), (['|'], [[]])]
  relativeType := [(['к', 'е', 'и', 'и', 'н', 'г', 'и', ' ', 'ҳ', 'а', 'ф', 'т', 'а'], ['i', 'n', ' ', '1', ' ', 'w', 'e', 'e', 'k']), (['t', 'h', 'i', 's', ' ', 'm', 'i', 'n', 'u', 't', 'e'], ['0', ' ', 'm', 'i', 'n', 'u', 't', 'e', ' ', 'a', 'g', 'o']), (['к', 'е', 'и', 'и', 'н', 'г', 'и', ' ', 'и', 'и', 'л'], ['i', 'n', ' ', '1', ' ', 'y', 'e', 'a', 'r']), (['у', 'т', 'г', 'а', 'н', ' ', 'ҳ', 'а', 'ф', 'т', 'а'], ['1', ' ', 'w', 'e', 'e', 'k', ' ', 'a', 'g', 'o']), (['к', 'е', 'и', 'и', 'н', 'г', 'и', ' ', 'о', 'и'], ['i', 'n', ' ', '1', ' ', 'm', 'o', 'n', 't', 'h']), (['t', 'h', 'i', 's', ' ', 'h', 'o', 'u', 'r'], ['0', ' ', 'h', 'o', 'u', 'r', ' ', 'a', 'g', 'o']), (['у', 'т', 'г', 'а', 'н', ' ', 'и', 'и', 'л'], ['1', ' ', 'y', 'e', 'a', 'r', ' ', 'a', 'g', 'o']), (['б', 'у', ' ', 'ҳ', 'а', 'ф', 'т', 'а'], ['0', ' ', 'w', 'e', 'e', 'k', ' ', 'a', 'g', 'o']), (['у', 'т', 'г', 'а', 'н', ' ', 'о', 'и'], ['1', ' ', 'm', 'o', 'n', 't', 'h', ' ', 'a', 'g', 'o']), (['б', 'у', ' ', 'и', 'и', 'л'], ['0', ' ', 'y', 'e', 'a', 'r', ' ', 'a', 'g', 'o']), (['э', 'р', 'т', 'а', 'г', 'а'], ['i', 'n', ' ', '1', ' ', 'd', 'a', 'y']), (['б', 'у', ' ', 'о', 'и'], ['0', ' ', 'm', 'o', 'n', 't', 'h', ' ', 'a', 'g', 'o']), (['б', 'у', 'г', 'у', 'н'], ['0', ' ', 'd', 'a', 'y', ' ', 'a', 'g', 'o']), (['ҳ', 'о', 'з', 'и', 'р'], ['0', ' ', 's', 'e', 'c', 'o', 'n', 'd', ' ', 'a', 'g', 'o']), (['к', 'е', 'ч', 'а'], ['1', ' ', 'd', 'a', 'y', ' ', 'a', 'g', 'o'])]

/-- internal/data/uz-latn.go: `uz_Latn_Locale`, dictionary. -/
def uz_LatnDict : LangData where
  name := ['u', 'z', '-', 'L', 'a', 't', 'n']
  translations := [(['c', 'h', 'o', 'r', 's', 'h', 'a', 'n', 'b', 'a'], [['w', 'e', 'd', 'n', 'e', 's', 'd', 'a', 'y']]), (['p', 'a', 'y', 's', 'h', 'a', 'n', 'b', 'a'], [['t', 'h', 'u', 'r', 's', 'd', 'a', 'y']]), (['y', 'a', 'k', 's', 'h', 'a', 'n', 'b', 'a'], [['s', 'u', 'n', 'd', 'a', 'y']]), (['d', 'u', 's', 'h', 'a', 'n', 'b', 'a'], [['m', 'o', 'n', 'd', 'a', 'y']]), (['s', 'e', 's', 'h', 'a', 'n', 'b', 'a'], [['t', 'u', 'e', 's', 'd', 'a', 'y']]), (['s', 'e', 'n', 't', 'a', 'b', 'r'], [['s', 'e', 'p', 't', 'e', 'm', 'b', 'e', 'r']]), (['a', 'v', 'g', 'u', 's', 't'], [['a', 'u', 'g', 'u', 's', 't']]), (['d', 'a', 'q', 'i', 'q', 'a'], [['m', 'i', 'n', 'u', 't', 'e']]), (['d', 'e', 'k', 'a', 'b', 'r'], [['d', 'e', 'c', 'e', 'm', 'b', 'e', 'r']]), (['f', 'e', 'v', 'r', 'a', 'l'], [['f', 'e', 'b', 'r', 'u', 'a', 'r', 'y']]), (['n', 'o', 'y', 'a', 'b', 'r'], [['n', 'o', 'v', 'e', 'm', 'b', 'e', 'r']]), (['o', 'k', 't', 'a', 'b', 'r'], [['o', 'c', 't', 'o', 'b', 'e', 'r']]), (['s', 'h', 'a', 'n', 'b', 'a'], [['s', 'a', 't', 'u', 'r', 'd', 'a', 'y']]), (['s', 'o', 'n', 'i', 'y', 'a'], [['s', 'e', 'c', 'o', 'n', 'd']]), (['y', 'a', 'n', 'v', 'a', 'r'], [['j', 'a', 'n', 'u', 'a', 'r', 'y']]), (['a', 'p', 'r', 'e', 'l'], [['a', 'p', 'r', 'i', 'l']]), (['h', 'a', 'f', 't', 'a'], [['w', 'e', 'e', 'k']]), (['c', 'h', 'o', 'r'], [['w', 'e', 'd', 'n', 'e', 's', 'd', 'a', 'y']]), (['d', 'u', 's', 'h'], [['m', 'o', 'n', 'd', 'a', 'y']]), (['i', 'y', 'u', 'l'], [['j', 'u', 'l', 'y']]), (['i', 'y', 'u', 'n'], [['j', 'u', 'n', 'e']]), (['j', 'u', 'm', 'a'], [['f', 'r', 'i', 'd', 'a', 'y']]), (['m', 'a', 'r', 't'], [['m', 'a', 'r', 'c', 'h']]), (['s', 'e', 's', 'h'], [['t', 'u', 'e', 's', 'd', 'a', 'y']]), (['s', 'h', 'a', 'n'], [['s', 'a', 't', 'u', 'r', 'd', 'a', 'y']]), (['s', 'o', 'a', 't'], [['h', 'o', 'u', 'r']]), (['a', 'p', 'r'], [['a', 'p', 'r', 'i', 'l']]), (['a', 'v', 'g'], [['a', 'u', 'g', 'u', 's', 't']]), (['d', 'a', 'q'], [['m', 'i', 'n', 'u', 't', 'e']]), (['d', 'e', 'k'], [['d', 'e', 'c', 'e', 'm', 'b', 'e', 'r']]), (['f', 'e', 'v'], [['f', 'e', 'b', 'r', 'u', 'a', 'r', 'y']]), (['g', 'm', 't'], [['g', 'm', 't']]), (['i', 'y', 'l'], [['j', 'u', 'l', 'y']]), (['i', 'y', 'n'], [['j', 'u', 'n', 'e']]), (['j', 'u', 'm'], [['f', 'r', 'i', 'd', 'a', 'y']]), (['k', 'u', 'n'], [['d', 'a', 'y']]), (['m', 'a', 'r'], [['m', 'a', 'r', 'c', 'h']]), (['m', 'a', 'y'], [['m', 'a', 'y']]), (['n', 'o', 'y'], [['n', 'o', 'v', 'e', 'm', 'b', 'e', 'r']]), (['o', 'k', 't'], [['o', 'c', 't', 'o', 'b', 'e', 'r']]), (['p', 'a', 'y'], [['t', 'h', 'u', 'r', 's', 'd', 'a', 'y']]), (['s', 'e', 'n'], [['s', 'e', 'p', 't', 'e', 'm', 'b', 'e', 'r']]), (['s', 'o', 'n'], [['s', 'e', 'c', 'o', 'n', 'd']]), (['u', 't', 'c'], [['u', 't', 'c']]), (['y', 'a', 'k'], [['s', 'u', 'n', 'd', 'a', 'y']]), (['y', 'a', 'n'], [['j', 'a', 'n', 'u', 'a', 'r', 'y']]), (['y', 'i', 'l'], [['y', 'e', 'a', 'r']]), (['a', 'm'], [['a', 'm']]), (['o', 'y'], [['m', 'o', 'n', 't', 'h']]), (['p', 'm'], [['p', 'm']]), (['t', 'k'], [['p', 'm']]), (['t', 'o'], [['a', 'm']]), ([' '], [[' ']]), (['\''], [[]]), (['+'], [['+']]), ([','], [[]]), (['-'], [['-']]), (['.'], [['.']]), (['/'], [['/']]), ([':'], [[':']]), ([';'], [[]]), (['@'], [[]]), (['['], [[]]), ([']'], [[]]), (['z'], [['z']]), (['|'], [[]])]
  relativeType := [(['k', 'e', 'y', 'i', 'n', 'g', 'i', ' ', 'h', 'a', 'f', 't', 'a'], ['i', 'n', ' ', '1', ' ', 'w', 'e', 'e', 'k']), (['o', '‘', 't', 'g', 'a', 'n', ' ', 'h', 'a', 'f', 't', 'a'], ['1', ' ', 'w', 'e', 'e', 'k', ' ', 'a', 'g', 'o']), (['s', 'h', 'u', ' ', 'd', 'a', 'q', 'i', 'q', 'a', 'd', 'a'], ['0', ' ', 'm', 'i', 'n', 'u', 't', 'e', ' ', 'a', 'g', 'o']), (['k', 'e', 'y', 'i', 'n', 'g', 'i', ' ', 'y', 'i', 'l'], ['i', 'n', ' ', '1', ' ', 'y', 'e', 'a', 'r']), (['k', 'e', 'y', 'i', 'n', 'g', 'i', ' ', 'o', 'y'], ['i', 'n', ' ', '1', ' ', 'm', 'o', 'n', 't', 'h']), (['o', '\'', 't', 'g', 'a', 'n', ' ', 'y', 'i', 'l'], ['1', ' ', 'y', 'e', 'a', 'r', ' ', 'a', 'g', 'o']), (['o', '‘', 't', 'g', 'a', 'n', ' ', 'y', 'i', 'l'], ['1', ' ', 'y', 'e', 'a', 'r', ' ', 'a', 'g', 'o']), (['s', 'h', 'u', ' ', 's', 'o', 'a', 't', 'd', 'a'], ['0', ' ', 'h', 'o', 'u', 'r', ' ', 'a', 'g', 'o']), (['o', '‘', 't', 'g', 'a', 'n', ' ', 'o', 'y'], ['1', ' ', 'm', 'o', 'n', 't', 'h', ' ', 'a', 'g', 'o']), (['s', 'h', 'u', ' ', 'h', 'a', 'f', 't', 'a'], ['0', ' ', 'w', 'e', 'e', 'k', ' ', 'a', 'g', 'o']), (['s', 'h', 'u', ' ', 'y', 'i', 'l'], ['0', ' ', 'y', 'e', 'a', 'r', ' ', 'a', 'g', 'o']), (['b', 'u', ' ', 'y', 'i', 'l'], ['0', ' ', 'y', 'e', 'a', 'r', ' ', 'a', 'g', 'o']), (['e', 'r', 't', 'a', 'g', 'a'], ['i', 'n', ' ', '1', ' ', 'd', 'a', 'y']), (['s', 'h', 'u', ' ', 'o', 'y'], ['0', ' ', 'm', 'o', 'n', 't', 'h', ' ', 'a', 'g', 'o']), (['b', 'u', 'g', 'u', 'n'], ['0', ' ', 'd', 'a', 'y', ' ', 'a', 'g', 'o']), (['h', 'o', 'z', 'i', 'r'], ['0', ' ', 's', 'e', 'c', 'o', 'n', 'd', ' ', 'a', 'g', 'o']), (['k', 'e', 'c', 'h', 'a'], ['1', ' ', 'd', 'a', 'y', ' ', 'a', 'g', 'o'])]

/-- internal/data/uz.go: `uz_Locale`, dictionary. -/
def uzDict : LangData where
  name := ['u', 'z']
  translations := [(['c', 'h', 'o', 'r', 's', 'h', 'a', 'n', 'b', 'a'], [['w', 'e', 'd', 'n', 'e', 's', 'd', 'a', 'y']]), (['p', 'a', 'y', 's', 'h', 'a', 'n', 'b', 'a'], [['t', 'h', 'u', 'r', 's', 'd', 'a', 'y']]), (['y', 'a', 'k', 's', 'h', 'a', 'n', 'b', 'a'], [['s', 'u', 'n', 'd', 'a', 'y']]), (['d', 'u', 's', 'h', 'a', 'n', 'b', 'a'], [['m', 'o', 'n', 'd', 'a', 'y']]), (['s', 'e', 's', 'h', 'a', 'n', 'b', 'a'], [['t', 'u', 'e', 's', 'd', 'a', 'y']]), (['s', 'e', 'n', 't', 'a', 'b', 'r'], [['s', 'e', 'p', 't', 'e', 'm', 'b', 'e', 'r']]), (['a', 'v', 'g', 'u', 's', 't'], [['a', 'u', 'g', 'u', 's', 't']]), (['d', 'a', 'q', 'i', 'q', 'a'], [['m', 'i', 'n', 'u', 't', 'e']]), (['d', 'e', 'k', 'a', 'b', 'r'], [['d', 'e', 'c', 'e', 'm', 'b', 'e', 'r']]), (['f', 'e', 'v', 'r', 'a', 'l'], [['f', 'e', 'b', 'r', 'u', 'a', 'r', 'y']]), (['n', 'o', 'y', 'a', 'b', 'r'], [['n', 'o', 'v', 'e', 'm', 'b', 'e', 'r']]), (['o', 'k', 't', 'a', 'b', 'r'], [['o', 'c', 't', 'o', 'b', 'e', 'r']]), (['s', 'h', 'a', 'n', 'b', 'a'], [['s', 'a', 't', 'u', 'r', 'd', 'a', 'y']]), (['s', 'o', 'n', 'i', 'y', 'a'], [['s', 'e', 'c', 'o', 'n', 'd']]), (['y', 'a', 'n', 'v', 'a', 'r'], [['j', 'a', 'n', 'u', 'a', 'r', 'y']]), (['a', 'p', 'r', 'e', 'l'], [['a', 'p', 'r', 'i', 'l']]), (['h', 'a', 'f', 't', 'a'], [['w', 'e', 'e', 'k']]), (['c', 'h', 'o', 'r'], [['w', 'e', 'd', 'n', 'e', 's', 'd', 'a', 'y']]), (['d', 'u', 's', 'h'], [['m', 'o', 'n', 'd', 'a', 'y']]), (['i', 'y', 'u', 'l'], [['j', 'u', 'l', 'y']]), (['i', 'y', 'u', 'n'], [['j', 'u', 'n', 'e']]), (['j', 'u', 'm', 'a'], [['f', 'r', 'i', 'd', 'a', 'y']]), (['m', 'a', 'r', 't'], [['m', 'a', 'r', 'c', 'h']]), (['s', 'e', 's', 'h'], [['t', 'u', 'e', 's', 'd', 'a', 'y']]), (['s', 'h', 'a', 'n'], [['s', 'a', 't', 'u', 'r', 'd', 'a', 'y']]), (['s', 'o', 'a', 't'], [['h', 'o', 'u', 'r']]), (['a', 'p', 'r'], [['a', 'p', 'r', 'i', 'l']]), (['a', 'v', 'g'], [['a', 'u', 'g', 'u', 's', 't']]), (['d', 'a', 'q'], [['m', 'i', 'n', 'u', 't', 'e']]), (['d', 'e', 'k'], [['d', 'e', 'c', 'e', 'm', 'b', 'e', 'r']]), (['f', 'e', 'v'], [['f', 'e', 'b', 'r', 'u', 'a', 'r', 'y']]), (['g', 'm', 't'], [['g', 'm', 't']]), (['i', 'y', 'l'], [['j', 'u', 'l', 'y']]), (['i', 'y', 'n'], [['j', 'u', 'n', 'e']]), (['j', 'u', 'm'], [['f', 'r', 'i', 'd', 'a', 'y']]), (['k', 'u', 'n'], [['d', 'a', 'y']]), (['m', 'a', 'r'], [['m', 'a', 'r', 'c', 'h']]), (['m', 'a', 'y'], [['m', 'a', 'y']]), (['n', 'o', 'y'], [['n', 'o', 'v', 'e', 'm', 'b', 'e', 'r']]), (['o', 'k', 't'], [['o', 'c', 't', 'o', 'b', 'e', 'r']]), (['p', 'a', 'y'], [['t', 'h', 'u', 'r', 's', 'd', 'a', 'y']]), (['s', 'e', 'n'], [['s', 'e', 'p', 't', 'e', 'm', 'b', 'e', 'r']]), (['s', 'o', 'n'], [['s', 'e', 'c', 'o', 'n', 'd']]), (['u', 't', 'c'], [['u', 't', 'c']]), (['y', 'a', 'k'], [['s', 'u', 'n', 'd', 'a', 'y']]), (['y', 'a', 'n'], [['j', 'a', 'n', 'u', 'a', 'r', 'y']]), (['y', 'i', 'l'], [['y', 'e', 'a', 'r']]), (['a', 'm'], [['a', 'm']]), (['o', 'y'], [['m', 'o', 'n', 't', 'h']]), (['p', 'm'], [['p', 'm']]), (['t', 'k'], [['p', 'm']]), (['t', 'o'], [['a', 'm']]), ([' '], [[' ']]), (['\''], [[]]), (['+'], [['+']]), ([','], [[]]), (['-'], [['-']]), (['.'], [['.']]), (['/'], [['/']]), ([':'], [[':']]), ([';'], [[]]), (['@'], [[]]), (['['], [[]]), ([']'], [[]]), (['z'], [['z']]), (['|'], [[]])]
  relativeType := [(['k', 'e', 'y', 'i', 'n', 'g', 'i', ' ', 'h', 'a', 'f', 't', 'a'], ['i', 'n', ' ', '1', ' ', 'w', 'e', 'e', 'k']), (['o', '‘', 't', 'g', 'a', 'n', ' ', 'h', 'a', 'f', 't', 'a'], ['1', ' ', 'w', 'e', 'e', 'k', ' ', 'a', 'g', 'o']), (['s', 'h', 'u', ' ', 'd', 'a', 'q', 'i', 'q', 'a', 'd', 'a'], ['0', ' ', 'm', 'i', 'n', 'u', 't', 'e', ' ', 'a', 'g', 'o']), (['k', 'e', 'y', 'i', 'n', 'g', 'i', ' ', 'y', 'i', 'l'], ['i', 'n', ' ', '1', ' ', 'y', 'e', 'a', 'r']), (['k', 'e', 'y', 'i', 'n', 'g', 'i', ' ', 'o', 'y'], ['i', 'n', ' ', '1', ' ', 'm', 'o', 'n', 't', 'h']), (['o', '\'', 't', 'g', 'a', 'n', ' ', 'y', 'i', 'l'], ['1', ' ', 'y', 'e', 'a', 'r', ' ', 'a', 'g', 'o']), (['o', '‘', 't', 'g', 'a', 'n', ' ', 'y', 'i', 'l'], ['1', ' ', 'y', 'e', 'a', 'r', ' ', 'a', 'g', 'o']), (['s', 'h', 'u', ' ', 's', 'o', 'a', 't', 'd', 'a'], ['0', ' ', 'h', 'o', 'u', 'r', ' ', 'a', 'g', 'o']), (['o', '‘', 't', 'g', 'a', 'n', ' ', 'o', 'y'], ['1', ' ', 'm', 'o', 'n', 't', 'h', ' ', 'a', 'g', 'o']), (['s', 'h', 'u', ' ', 'h', 'a', 'f', 't', 'a'], ['0', ' ', 'w', 'e', 'e', 'k', ' ', 'a', 'g', 'o']), (['s', 'h', 'u', ' ', 'y', 'i', 'l'], ['0', ' ', 'y', 'e', 'a', 'r', ' ', 'a', 'g', 'o']), (['b', 'u', ' ', 'y', 'i', 'l'], ['0', ' ', 'y', 'e', 'a', 'r', ' ', 'a', 'g', 'o']), (['e', 'r', 't', 'a', 'g', 'a'], ['i', 'n', ' ', '1', ' ', 'd', 'a', 'y']), (['s', 'h', 'u', ' ', 'o', 'y'], ['0', ' ', 'm', 'o', 'n', 't', 'h', ' ', 'a', 'g', 'o']), (['b', 'u', 'g', 'u', 'n'], ['0', ' ', 'd', 'a', 'y', ' ', 'a', 'g', 'o']), (['h', 'o', 'z', 'i', 'r'], ['0', ' ', 's', 'e', 'c', 'o', 'n', 'd', ' ', 'a', 'g', 'o']), (['k', 'e', 'c', 'h', 'a'], ['1', ' ', 'd', 'a', 'y', ' ', 'a', 'g', 'o'])]

/-- internal/data/vi.go: `vi_Locale`, dictionary. -/
def viDict : LangData where
  name := ['v', 'i']
  splitterGroup := 1
  translations := [(['t', 'h', 'a', 'n', 'g', ' ', 'm', 'u', 'o', 'i', ' ', 'h', 'a', 'i'], [['d', 'e', 'c', 'e', 'm', 'b', 'e', 'r']]), (['t', 'h', 'a', 'n', 'g', ' ', 'm', 'u', 'o', 'i', ' ', 'm', 'o', 't'], [['n', 'o', 'v', 'e', 'm', 'b', 'e', 'r']]), (['g', 'i', 'a', 'y', ' ', 'đ', 'o', 'n', 'g', ' ', 'h', 'o'], [['s', 'e', 'c', 'o', 'n', 'd']]), (['n', 'g', 'u', 'y', 'e', 'n', ' ', 'b', 'a', 'n'], [['m', 'i', 'n', 'u', 't', 'e']]), (['t', 'h', 'a', 'n', 'g', ' ', 'c', 'h', 'i', 'n'], [['s', 'e', 'p', 't', 'e', 'm', 'b', 'e', 'r']]), (['t', 'h', 'a', 'n', 'g', ' ', 'm', 'u', 'o', 'i'], [['o', 'c', 't', 'o', 'b', 'e', 'r']]), (['t', 'h', 'a', 'n', 'g', ' ', 'b', 'a', 'y'], [['j', 'u', 'l', 'y']]), (['t', 'h', 'a', 'n', 'g', ' ', 'h', 'a', 'i'], [['f', 'e', 'b', 'r', 'u', 'a', 'r', 'y']]), (['t', 'h', 'a', 'n', 'g', ' ', 'm', 'o', 't'], [['j', 'a', 'n', 'u', 'a', 'r', 'y']]), (['t', 'h', 'a', 'n', 'g', ' ', 'n', 'a', 'm'], [['m', 'a', 'y']]), (['t', 'h', 'a', 'n', 'g', ' ', 's', 'a', 'u'], [['j', 'u', 'n', 'e']]), (['t', 'h', 'a', 'n', 'g', ' ', 't', 'a', 'm'], [['a', 'u', 'g', 'u', 's', 't']]), (['t', 'r', 'u', 'o', 'c', ' ', 'đ', 'a', 'y'], [['a', 'g', 'o']]), (['b', 'a', 'n', ' ', 'n', 'g', 'a', 'y'], [['d', 'a', 'y']]), (['c', 'a', 'c', 'h', ' ', 'đ', 'a', 'y'], [['a', 'g', 'o']]), (['c', 'h', 'u', ' ', 'n', 'h', 'a', 't'], [['s', 'u', 'n', 'd', 'a', 'y']]), (['h', 'a', 'n', 'g', ' ', 'n', 'h', 'i'], [['s', 'e', 'c', 'o', 'n', 'd']]), (['t', 'h', 'a', 'n', 'g', ' ', '1', '0'], [['o', 'c', 't', 'o', 'b', 'e', 'r']]), (['t', 'h', 'a', 'n', 'g', ' ', '1', '1'], [['n', 'o', 'v', 'e', 'm', 'b', 'e', 'r']]), (['t', 'h', 'a', 'n', 'g', ' ', '1', '2'], [['d', 'e', 'c', 'e', 'm', 'b', 'e', 'r']]), (['t', 'h', 'a', 'n', 'g', ' ', 'b', 'a'], [['m', 'a', 'r', 'c', 'h']]), (['t', 'h', 'a', 'n', 'g', ' ', 't', 'u'], [['a', 'p', 'r', 'i', 'l']]), (['t', 'h', 'a', 'n', 'g', ' ', '1'], [['j', 'a', 'n', 'u', 'a', 'r', 'y']]), (['t', 'h', 'a', 'n', 'g', ' ', '2'], [['f', 'e', 'b', 'r', 'u', 'a', 'r', 'y']]), (['t', 'h', 'a', 'n', 'g', ' ', '3'], [['m', 'a', 'r', 'c', 'h']]), (['t', 'h', 'a', 'n', 'g', ' ', '4'], [['a', 'p', 'r', 'i', 'l']]), (['t', 'h', 'a', 'n', 'g', ' ', '5'], [['m', 'a', 'y']]), (['t', 'h', 'a', 'n', 'g', ' ', '6'], [['j', 'u', 'n', 'e']]), (['t', 'h', 'a', 'n', 'g', ' ', '7'], [['j', 'u', 'l', 'y']]), (['t', 'h', 'a', 'n', 'g', ' ', '8'], [['a', 'u', 'g', 'u', 's', 't']]), (['t', 'h', 'a', 'n', 'g', ' ', '9'], [['s', 'e', 'p', 't', 'e', 'm', 'b', 'e', 'r']]), (['t', 'h', 'u', ' ', 'b', 'a', 'y'], [['s', 'a', 't', 'u', 'r', 'd', 'a', 'y']]), (['t', 'h', 'u', ' ', 'h', 'a', 'i'], [['m', 'o', 'n', 'd', 'a', 'y']]), (['t', 'h', 'u', ' ', 'n', 'a', 'm'], [['t', 'h', 'u', 'r', 's', 'd', 'a', 'y']]), (['t', 'h', 'u', ' ', 's', 'a', 'u'], [['f', 'r', 'i', 'd', 'a', 'y']]), (['t', 'u', 'a', 'n', ' ', 'l', 'e'], [['w', 'e', 'e', 'k']]), (['t', 'h', 'g', ' ', '1', '0'], [['o', 'c', 't', 'o', 'b', 'e', 'r']]), (['t', 'h', 'g', ' ', '1', '1'], [['n', 'o', 'v', 'e', 'm', 'b', 'e', 'r']]), (['t', 'h', 'g', ' ', '1', '2'], [['d', 'e', 'c', 'e', 'm', 'b', 'e', 'r']]), (['t', 'h', 'u', ' ', 'b', 'a'], [['t', 'u', 'e', 's', 'd', 'a', 'y']]), (['t', 'h', 'u', ' ', 't', 'u'], [['w', 'e', 'd', 'n', 'e', 's', 'd', 'a', 'y']]), (['t', 'h', 'a', 'n', 'g'], [['m', 'o', 'n', 't', 'h']]), (['t', 'h', 'g', ' ', '1'], [['j', 'a', 'n', 'u', 'a', 'r', 'y']]), (['t', 'h', 'g', ' ', '2'], [['f', 'e', 'b', 'r', 'u', 'a', 'r', 'y']]), (['t', 'h', 'g', ' ', '3'], [['m', 'a', 'r', 'c', 'h']]), (['t', 'h', 'g', ' ', '4'], [['a', 'p', 'r', 'i', 'l']]), (['t', 'h', 'g', ' ', '5'], [['m', 'a', 'y']]), (['t', 'h', 'g', ' ', '6'], [['j', 'u', 'n', 'e']]), (['t', 'h', 'g', ' ', '7'], [['j', 'u', 'l', 'y']]), (['t', 'h', 'g', ' ', '8'], [['a', 'u', 'g', 'u', 's', 't']]), (['t', 'h', 'g', ' ', '9'], [['s', 'e', 'p', 't', 'e', 'm', 'b', 'e', 'r']]), (['t', 'h', 'u', ' ', '1'], [['s', 'u', 'n', 'd', 'a', 'y']]), (['t', 'h', 'u', ' ', '2'], [['m', 'o', 'n', 'd', 'a', 'y']]), (['t', 'h', 'u', ' ', '3'], [['t', 'u', 'e', 's', 'd', 'a', 'y']]), (['t', 'h', 'u', ' ', '4'], [['w', 'e', 'd', 'n', 'e', 's', 'd', 'a', 'y']]), (['t', 'h', 'u', ' ', '5'], [['t', 'h', 'u', 'r', 's', 'd', 'a', 'y']]), (['t', 'h', 'u', ' ', '6'], [['f', 'r', 'i', 'd', 'a', 'y']]), (['t', 'h', 'u', ' ', '7'], [['s', 'a', 't', 'u', 'r', 'd', 'a', 'y']]), (['t', 'r', 'o', 'n', 'g'], [['i', 'n']]), (['t', 'r', 'u', 'o', 'c'], [['a', 'g', 'o']]), (['b', 'u', 'o', 'i'], [['d', 'a', 'y']]), (['c', 'h', 'u', 't'], [['m', 'i', 'n', 'u', 't', 'e']]), (['g', 'i', 'a', 'y'], [['s', 'e', 'c', 'o', 'n', 'd']]), (['n', 'g', 'a', 'y'], [['d', 'a', 'y']]), (['p', 'h', 'u', 't'], [['m', 'i', 'n', 'u', 't', 'e']]), (['t', 'h', ' ', '2'], [['m', 'o', 'n', 'd', 'a', 'y']]), (['t', 'h', ' ', '3'], [['t', 'u', 'e', 's', 'd', 'a', 'y']]), (['t', 'h', ' ', '4'], [['w', 'e', 'd', 'n', 'e', 's', 'd', 'a', 'y']]), (['t', 'h', ' ', '5'], [['t', 'h', 'u', 'r', 's', 'd', 'a', 'y']]), (['t', 'h', ' ', '6'], [['f', 'r', 'i', 'd', 'a', 'y']]), (['t', 'h', ' ', '7'], [['s', 'a', 't', 'u', 'r', 'd', 'a', 'y']]), (['t', 'u', 'a', 'n'], [['w', 'e', 'e', 'k']]), (['g', 'i', 'o'], [['h', 'o', 'u', 'r']]), (['g', 'm', 't'], [['g', 'm', 't']]), (['l', 'a', 't'], [['m', 'i', 'n', 'u', 't', 'e']]), (['l', 'u', 'c'], [[]]), (['n', 'a', 'm'], [['y', 'e', 'a', 'r']]), (['t', 'h', 'g'], [['m', 'o', 'n', 't', 'h']]), (['u', 't', 'c'], [['u', 't', 'c']]), (['a', 'm'], [['a', 'm']]), (['c', 'h'], [['p', 'm']]), (['c', 'n'], [['s', 'u', 'n', 'd', 'a', 'y']]), (['p', 'm'], [['p', 'm']]), (['s', 'a'], [['a', 'm']]), ([' '], [[' ']]), (['\''], [[]]), (['+'], [['+']]), ([','], [[]]), (['-'], [['-']]), (['.'], [['.']]), (['/'], [['/']]), ([':'], [[':']]), ([';'], [[]]), (['@'], [[]]), (['['], [[]]), ([']'], [[]]), (['z'], [['z']]), (['|'], [[]])]
  relativeType := [(['t', 'h', 'a', 'n', 'g', ' ', 't', 'r', 'u', 'o', 'c'], ['1', ' ', 'm', 'o', 'n', 't', 'h', ' ', 'a', 'g', 'o']), (['t', 'u', 'a', 'n', ' ', 't', 'r', 'u', 'o', 'c'], ['1', ' ', 'w', 'e', 'e', 'k', ' ', 'a', 'g', 'o']), (['n', 'a', 'm', ' ', 'n', 'g', 'o', 'a', 'i'], ['1', ' ', 'y', 'e', 'a', 'r', ' ', 'a', 'g', 'o']), (['t', 'h', 'a', 'n', 'g', ' ', 'n', 'a', 'y'], ['0', ' ', 'm', 'o', 'n', 't', 'h', ' ', 'a', 'g', 'o']), (['t', 'h', 'a', 'n', 'g', ' ', 's', 'a', 'u'], ['i', 'n', ' ', '1', ' ', 'm', 'o', 'n', 't', 'h']), (['n', 'g', 'a', 'y', ' ', 'm', 'a', 'i'], ['i', 'n', ' ', '1', ' ', 'd', 'a', 'y']), (['p', 'h', 'u', 't', ' ', 'n', 'a', 'y'], ['0', ' ', 'm', 'i', 'n', 'u', 't', 'e', ' ', 'a', 'g', 'o']), (['t', 'u', 'a', 'n', ' ', 'n', 'a', 'y'], ['0', ' ', 'w', 'e', 'e', 'k', ' ', 'a', 'g', 'o']), (['t', 'u', 'a', 'n', ' ', 's', 'a', 'u'], ['i', 'n', ' ', '1', ' ', 'w', 'e', 'e', 'k']), (['b', 'a', 'y', ' ', 'g', 'i', 'o'], ['0', ' ', 's', 'e', 'c', 'o', 'n', 'd', ' ', 'a', 'g', 'o']), (['g', 'i', 'o', ' ', 'n', 'a', 'y'], ['0', ' ', 'h', 'o', 'u', 'r', ' ', 'a', 'g', 'o']), (['h', 'o', 'm', ' ', 'n', 'a', 'y'], ['0', ' ', 'd', 'a', 'y', ' ', 'a', 'g', 'o']), (['h', 'o', 'm', ' ', 'q', 'u', 'a'], ['1', ' ', 'd', 'a', 'y', ' ', 'a', 'g', 'o']), (['n', 'a', 'm', ' ', 'n', 'a', 'y'], ['0', ' ', 'y', 'e', 'a', 'r', ' ', 'a', 'g', 'o']), (['n', 'a', 'm', ' ', 's', 'a', 'u'], ['i', 'n', ' ', '1', ' ', 'y', 'e', 'a', 'r'])]

/-- internal/data/vun.go: `vun_Locale`, dictionary. -/
def vunDict : LangData where
  name := ['v', 'u', 'n']
  translations := [(['j', 'u', 'm', 'a', 'p', 'i', 'l', 'y', 'i'], [['s', 'u', 'n', 'd', 'a', 'y']]), (['j', 'u', 'm', 'a', 't', 'a', 't', 'u', 'u'], [['m', 'o', 'n', 'd', 'a', 'y']]), (['k', 'y', 'i', 'u', 'k', 'o', 'n', 'y', 'i'], [['p', 'm']]), (['a', 'l', 'h', 'a', 'm', 'i', 's', 'i'], [['t', 'h', 'u', 'r', 's', 'd', 'a', 'y']]), (['f', 'e', 'b', 'r', 'u', 'a', 'r', 'i'], [['f', 'e', 'b', 'r', 'u', 'a', 'r', 'y']]), (['j', 'u', 'm', 'a', 'm', 'o', 's', 'i'], [['s', 'a', 't', 'u', 'r', 'd', 'a', 'y']]), (['j', 'u', 'm', 'a', 't', 'a', 'n', 'u'], [['w', 'e', 'd', 'n', 'e', 's', 'd', 'a', 'y']]), (['s', 'e', 'p', 't', 'e', 'm', 'b', 'a'], [['s', 'e', 'p', 't', 'e', 'm', 'b', 'e', 'r']]), (['a', 'p', 'r', 'i', 'l', 'y', 'i'], [['a', 'p', 'r', 'i', 'l']]), (['d', 'a', 'k', 'y', 'i', 'k', 'a'], [['m', 'i', 'n', 'u', 't', 'e']]), (['d', 'e', 's', 'e', 'm', 'b', 'a'], [['d', 'e', 'c', 'e', 'm', 'b', 'e', 'r']]), (['j', 'a', 'n', 'u', 'a', 'r', 'i'], [['j', 'a', 'n', 'u', 'a', 'r', 'y']]), (['j', 'u', 'm', 'a', 'n', 'n', 'e'], [['t', 'u', 'e', 's', 'd', 'a', 'y']]), (['n', 'o', 'v', 'e', 'm', 'b', 'a'], [['n', 'o', 'v', 'e', 'm', 'b', 'e', 'r']]), (['s', 'e', 'k', 'u', 'n', 'd', 'e'], [['s', 'e', 'c', 'o', 'n', 'd']]), (['a', 'g', 'u', 's', 't', 'i'], [['a', 'u', 'g', 'u', 's', 't']]), (['i', 'j', 'u', 'm', 'a', 'a'], [['f', 'r', 'i', 'd', 'a', 'y']]), (['j', 'u', 'l', 'y', 'a', 'i'], [['j', 'u', 'l', 'y']]), (['o', 'k', 't', 'o', 'b', 'a'], [['o', 'c', 't', 'o', 'b', 'e', 'r']]), (['w', 'i', 'i', 'k', 'y', 'i'], [['w', 'e', 'e', 'k']]), (['j', 'u', 'n', 'y', 'i'], [['j', 'u', 'n', 'e']]), (['m', 'a', 'c', 'h', 'i'], [['m', 'a', 'r', 'c', 'h']]), (['m', 'f', 'i', 'r', 'i'], [['d', 'a', 'y']]), (['u', 't', 'u', 'k', 'o'], [['a', 'm']]), (['m', 'a', 'k', 'a'], [['y', 'e', 'a', 'r']]), (['m', 'o', 'r', 'i'], [['m', 'o', 'n', 't', 'h']]), (['a', 'g', 'o'], [['a', 'u', 'g', 'u', 's', 't']]), (['a', 'l', 'h'], [['t', 'h', 'u', 'r', 's', 'd', 'a', 'y']]), (['a', 'p', 'r'], [['a', 'p', 'r', 'i', 'l']]), (['d', 'e', 's'], [['d', 'e', 'c', 'e', 'm', 'b', 'e', 'r']]), (['f', 'e', 'b'], [['f', 'e', 'b', 'r', 'u', 'a', 'r', 'y']]), (['g', 'm', 't'], [['g', 'm', 't']]), (['i', 'j', 'u'], [['f', 'r', 'i', 'd', 'a', 'y']]), (['j', 'a', 'n'], [['j', 'a', 'n', 'u', 'a', 'r', 'y']]), (['j', 'm', 'o'], [['s', 'a', 't', 'u', 'r', 'd', 'a', 'y']]), (['j', 'n', 'n'], [['t', 'u', 'e', 's', 'd', 'a', 'y']]), (['j', 'p', 'i'], [['s', 'u', 'n', 'd', 'a', 'y']]), (['j', 't', 'n'], [['w', 'e', 'd', 'n', 'e', 's', 'd', 'a', 'y']]), (['j', 't', 't'], [['m', 'o', 'n', 'd', 'a', 'y']]), (['j', 'u', 'l'], [['j', 'u', 'l', 'y']]), (['j', 'u', 'n'], [['j', 'u', 'n', 'e']]), (['m', 'a', 'c'], [['m', 'a', 'r', 'c', 'h']]), (['m', 'e', 'i'], [['m', 'a', 'y']]), (['n', 'o', 'v'], [['n', 'o', 'v', 'e', 'm', 'b', 'e', 'r']]), (['o', 'k', 't'], [['o', 'c', 't', 'o', 'b', 'e', 'r']]), (['s', 'a', 'a'], [['h', 'o', 'u', 'r']]), (['s', 'e', 'p'], [['s', 'e', 'p', 't', 'e', 'm', 'b', 'e', 'r']]), (['u', 't', 'c'], [['u', 't', 'c']]), (['a', 'm'], [['a', 'm']]), (['p', 'm'], [['p', 'm']]), ([' '], [[' ']]), (['\''], [[]]), (['+'], [['+']]), ([','], [[]]), (['-'], [['-']]), (['.'], [['.']]), (['/'], [['/']]), ([':'], [[':']]), ([';'], [[]]), (['@'], [[]]), (['['], [[]]), ([']'], [[]]), (['z'], [['z']]), (['|'], [[]])]
  relativeType := [(['t', 'h', 'i', 's', ' ', 'm', 'i', 'n', 'u', 't', 'e'], ['0', ' ', 'm', 'i', 'n', 'u', 't', 'e', ' ', 'a', 'g', 'o']), (['l', 'a', 's', 't', ' ', 'm', 'o', 'n', 't', 'h'], ['1', ' ', 'm', 'o', 'n', 't', 'h', ' ', 'a', 'g', 'o']), (['n', 'e', 'x', 't', ' ', 'm', 'o', 'n', 't', 'h'], ['i', 'n', ' ', '1', ' ', 'm', 'o', 'n', 't', 'h']), (['t', 'h', 'i', 's', ' ', 'm', 'o', 'n', 't', 'h'], ['0', ' ', 'm', 'o', 'n', 't', 'h', ' ', 'a', 'g', 'o']), (['l', 'a', 's', 't', ' ', 'w', 'e', 'e', 'k'], ['1', ' ', 'w', 'e', 'e', 'k', ' ', 'a', 'g', 'o']), (['l', 'a', 's', 't', ' ', 'y', 'e', 'a', 'r'], ['1', ' ', 'y', 'e', 'a', 'r', ' ', 'a', 'g', 'o']), (['n', 'e', 'x', 't', ' ', 'w', 'e', 'e', 'k'], ['i', 'n', ' ', '1', ' ', 'w', 'e', 'e', 'k']), (['n', 'e', 'x', 't', ' ', 'y', 'e', 'a', 'r'], ['i', 'n', ' ', '1', ' ', 'y', 'e', 'a', 'r']), (['t', 'h', 'i', 's', ' ', 'h', 'o', 'u', 'r'], ['0', ' ', 'h', 'o', 'u', 'r', ' ', 'a', 'g', 'o']), (['t', 'h', 'i', 's', ' ', 'w', 'e', 'e', 'k'], ['0', ' ', 'w', 'e', 'e', 'k', ' ', 'a', 'g', 'o']), (['t', 'h', 'i', 's', ' ', 'y', 'e', 'a', 'r'], ['0', ' ', 'y', 'e', 'a', 'r', ' ', 'a', 'g', 'o']), (['n', 'g', 'a', 'm', 'a'], ['i', 'n', ' ', '1', ' ', 'd', 'a', 'y']), (['u', 'k', 'o', 'u'], ['1', ' ', 'd', 'a', 'y', ' ', 'a', 'g', 'o']), (['i', 'n', 'u'], ['0', ' ', 'd', 'a', 'y', ' ', 'a', 'g', 'o']), (['n', 'o', 'w'], ['0', ' ', 's', 'e', 'c', 'o', 'n', 'd', ' ', 'a', 'g', 'o'])]

/-- internal/data/wae.go: `wae_Locale`, dictionary. -/
def waeDict : LangData where
  name := ['w', 'a', 'e']
  translations := [(['c', 'h', 'r', 'i', 's', 't', 'm', 'a', 'n', 'e', 't'], [['d', 'e', 'c', 'e', 'm', 'b', 'e', 'r']]), (['h', 'e', 'r', 'b', 's', 't', 'm', 'a', 'n', 'e', 't'], [['s', 'e', 'p', 't', 'e', 'm', 'b', 'e', 'r']]), (['w', 'i', 'n', 't', 'e', 'r', 'm', 'a', 'n', 'e', 't'], [['n', 'o', 'v', 'e', 'm', 'b', 'e', 'r']]), (['a', 'b', 'r', 'i', 'l', 'l', 'e'], [['a', 'p', 'r', 'i', 'l']]), (['f', 'r', 'o', 'n', 't', 'a', 'g'], [['t', 'h', 'u', 'r', 's', 'd', 'a', 'y']]), (['m', 'i', 'n', 'u', 't', 't', 'a'], [['m', 'i', 'n', 'u', 't', 'e']]), (['m', 'i', 't', 't', 'w', 'u', 'c'], [['w', 'e', 'd', 'n', 'e', 's', 'd', 'a', 'y']]), (['s', 'a', 'm', 's', 't', 'a', 'g'], [['s', 'a', 't', 'u', 'r', 'd', 'a', 'y']]), (['s', 'c', 'h', 't', 'u', 'n', 'd'], [['h', 'o', 'u', 'r']]), (['s', 'e', 'k', 'u', 'n', 'd', 'a'], [['s', 'e', 'c', 'o', 'n', 'd']]), (['s', 'u', 'n', 'n', 't', 'a', 'g'], [['s', 'u', 'n', 'd', 'a', 'y']]), (['w', 'i', 'm', 'a', 'n', 'e', 't'], [['o', 'c', 't', 'o', 'b', 'e', 'r']]), (['b', 'r', 'a', 'c', 'e', 't'], [['j', 'u', 'n', 'e']]), (['f', 'r', 'i', 't', 'a', 'g'], [['f', 'r', 'i', 'd', 'a', 'y']]), (['h', 'e', 'i', 'w', 'e', 't'], [['j', 'u', 'l', 'y']]), (['h', 'o', 'r', 'n', 'i', 'g'], [['f', 'e', 'b', 'r', 'u', 'a', 'r', 'y']]), (['j', 'e', 'n', 'n', 'e', 'r'], [['j', 'a', 'n', 'u', 'a', 'r', 'y']]), (['m', 'a', 'n', 't', 'a', 'g'], [['m', 'o', 'n', 'd', 'a', 'y']]), (['o', 'i', 'g', 's', 't', 'e'], [['a', 'u', 'g', 'u', 's', 't']]), (['z', 'i', 's', 't', 'a', 'g'], [['t', 'u', 'e', 's', 'd', 'a', 'y']]), (['m', 'a', 'n', 'e', 't'], [['m', 'o', 'n', 't', 'h']]), (['m', 'a', 'r', 'z', 'e'], [['m', 'a', 'r', 'c', 'h']]), (['m', 'e', 'i', 'j', 'e'], [['m', 'a', 'y']]), (['w', 'u', 'c', 'a'], [['w', 'e', 'e', 'k']]), (['a', 'b', 'r'], [['a', 'p', 'r', 'i', 'l']]), (['b', 'r', 'a'], [['j', 'u', 'n', 'e']]), (['c', 'h', 'r'], [['d', 'e', 'c', 'e', 'm', 'b', 'e', 'r']]), (['f', 'r', 'i'], [['f', 'r', 'i', 'd', 'a', 'y']]), (['f', 'r', 'o'], [['t', 'h', 'u', 'r', 's', 'd', 'a', 'y']]), (['g', 'm', 't'], [['g', 'm', 't']]), (['h', 'e', 'i'], [['j', 'u', 'l', 'y']]), (['h', 'e', 'r'], [['s', 'e', 'p', 't', 'e', 'm', 'b', 'e', 'r']]), (['h', 'o', 'r'], [['f', 'e', 'b', 'r', 'u', 'a', 'r', 'y']]), (['j', 'a', 'r'], [['y', 'e', 'a', 'r']]), (['j', 'e', 'n'], [['j', 'a', 'n', 'u', 'a', 'r', 'y']]), (['m', 'a', 'n'], [['m', 'o', 'n', 'd', 'a', 'y']]), (['m', 'a', 'r'], [['m', 'a', 'r', 'c', 'h']]), (['m', 'e', 'i'], [['m', 'a', 'y']]), (['m', 'i', 't'], [['w', 'e', 'd', 'n', 'e', 's', 'd', 'a', 'y']]), (['o', 'i', 'g'], [['a', 'u', 'g', 'u', 's', 't']]), (['s', 'a', 'm'], [['s', 'a', 't', 'u', 'r', 'd', 'a', 'y']]), (['s', 'u', 'n'], [['s', 'u', 'n', 'd', 'a', 'y']]), (['t', 'a', 'g'], [['d', 'a', 'y']]), (['u', 't', 'c'], [['u', 't', 'c']]), (['w', 'i', 'm'], [['o', 'c', 't', 'o', 'b', 'e', 'r']]), (['w', 'i', 'n'], [['n', 'o', 'v', 'e', 'm', 'b', 'e', 'r']]), (['z', 'i', 's'], [['t', 'u', 'e', 's', 'd', 'a', 'y']]), (['a', 'm'], [['a', 'm']]), (['p', 'm'], [['p', 'm']]), ([' '], [[' ']]), (['\''], [[]]), (['+'], [['+']]), ([','], [[]]), (['-'], [['-']]), (['.'], [['.']]), (['/'], [['/']]), ([':'], [[':']]), ([';'], [[]]), (['@'], [[]]), (['['], [[]]), ([']'], [[]]), (['z'], [['z']]), (['|'], [[]])]
  relativeType := [(['t', 'h', 'i', 's', ' ', 'm', 'i', 'n', 'u', 't', 'e'], ['0', ' ', 'm', 'i', 'n', 'u', 't', 'e', ' ', 'a', 'g', 'o']), (['l', 'a', 's', 't', ' ', 'm', 'o', 'n', 't', 'h'], ['1', ' ', 'm', 'o', 'n', 't', 'h', ' ', 'a', 'g', 'o']), (['n', 'e', 'x', 't', ' ', 'm', 'o', 'n', 't', 'h'], ['i', 'n', ' ', '1', ' ', 'm', 'o', 'n', 't', 'h']), (['t', 'h', 'i', 's', ' ', 'm', 'o', 'n', 't', 'h'], ['0', ' ', 'm', 'o', 'n', 't', 'h', ' ', 'a', 'g', 'o']), (['l', 'a', 's', 't', ' ', 'w', 'e', 'e', 'k'], ['1', ' ', 'w', 'e', 'e', 'k', ' ', 'a', 'g', 'o']), (['l', 'a', 's', 't', ' ', 'y', 'e', 'a', 'r'], ['1', ' ', 'y', 'e', 'a', 'r', ' ', 'a', 'g', 'o']), (['n', 'e', 'x', 't', ' ', 'w', 'e', 'e', 'k'], ['i', 'n', ' ', '1', ' ', 'w', 'e', 'e', 'k']), (['n', 'e', 'x', 't', ' ', 'y', 'e', 'a', 'r'], ['i', 'n', ' ', '1', ' ', 'y', 'e', 'a', 'r']), (['t', 'h', 'i', 's', ' ', 'h', 'o', 'u', 'r'], ['0', ' ', 'h', 'o', 'u', 'r', ' ', 'a', 'g', 'o']), (['t', 'h', 'i', 's', ' ', 'w', 'e', 'e', 'k'], ['0', ' ', 'w', 'e', 'e', 'k', ' ', 'a', 'g', 'o']), (['t', 'h', 'i', 's', ' ', 'y', 'e', 'a', 'r'], ['0', ' ', 'y', 'e', 'a', 'r', ' ', 'a', 'g', 'o']), (['g', 'e', 's', 't', 'e', 'r'], ['1', ' ', 'd', 'a', 'y', ' ', 'a', 'g', 'o']), (['h', 'i', 't', 't', 'e'], ['0', ' ', 'd', 'a', 'y', ' ', 'a', 'g', 'o']), (['m', 'o', 'r', 'e'], ['i', 'n', ' ', '1', ' ', 'd', 'a', 'y']), (['n', 'o', 'w'], ['0', ' ', 's', 'e', 'c', 'o', 'n', 'd', ' ', 'a', 'g', 'o'])]

/-- internal/data/xog.go: `xog_Locale`, dictionary. -/
def xogDict : LangData where
  name := ['x', 'o', 'g']
  translations := [(['o', 'b', 'u', 't', 'i', 'k', 'i', 't', 'i', 'k', 'i'], [['s', 'e', 'c', 'o', 'n', 'd']]), (['o', 'l', 'o', 'k', 'u', 't', 'a', 'a', 'n', 'u'], [['f', 'r', 'i', 'd', 'a', 'y']]), (['o', 'l', 'o', 'm', 'u', 'k', 'a', 'a', 'g', 'a'], [['s', 'a', 't', 'u', 'r', 'd', 'a', 'y']]), (['s', 'e', 'b', 'u', 't', 't', 'e', 'm', 'b', 'a'], [['s', 'e', 'p', 't', 'e', 'm', 'b', 'e', 'r']]), (['f', 'e', 'b', 'w', 'a', 'l', 'i', 'y', 'o'], [['f', 'e', 'b', 'r', 'u', 'a', 'r', 'y']]), (['j', 'a', 'n', 'w', 'a', 'l', 'i', 'y', 'o'], [['j', 'a', 'n', 'u', 'a', 'r', 'y']]), (['o', 'w', 'o', 'k', 'u', 'b', 'i', 'l', 'i'], [['t', 'u', 'e', 's', 'd', 'a', 'y']]), (['o', 'w', 'o', 'k', 'u', 's', 'a', 't', 'u'], [['w', 'e', 'd', 'n', 'e', 's', 'd', 'a', 'y']]), (['e', 'd', 'a', 'k', 'i', 'i', 'k', 'a'], [['m', 'i', 'n', 'u', 't', 'e']]), (['e', 's', 'a', 'b', 'i', 'i', 't', 'i'], [['w', 'e', 'e', 'k']]), (['o', 'k', 'i', 't', 'o', 'b', 'b', 'a'], [['o', 'c', 't', 'o', 'b', 'e', 'r']]), (['a', 'g', 'u', 's', 'i', 't', 'o'], [['a', 'u', 'g', 'u', 's', 't']]), (['d', 'e', 's', 'e', 'm', 'b', 'a'], [['d', 'e', 'c', 'e', 'm', 'b', 'e', 'r']]), (['j', 'u', 'l', 'a', 'a', 'y', 'i'], [['j', 'u', 'l', 'y']]), (['n', 'o', 'v', 'e', 'm', 'b', 'a'], [['n', 'o', 'v', 'e', 'm', 'b', 'e', 'r']]), (['o', 'l', 'o', 'k', 'u', 'n', 'a'], [['t', 'h', 'u', 'r', 's', 'd', 'a', 'y']]), (['o', 'l', 'u', 'n', 'a', 'k', 'u'], [['d', 'a', 'y']]), (['s', 'a', 'b', 'i', 'i', 't', 'i'], [['s', 'u', 'n', 'd', 'a', 'y']]), (['b', 'a', 'l', 'a', 'z', 'a'], [['m', 'o', 'n', 'd', 'a', 'y']]), (['e', 'i', 'g', 'u', 'l', 'o'], [['p', 'm']]), (['e', 's', 's', 'a', 'w', 'a'], [['h', 'o', 'u', 'r']]), (['m', 'a', 'r', 'i', 's', 'i'], [['m', 'a', 'r', 'c', 'h']]), (['m', 'u', 'n', 'k', 'y', 'o'], [['a', 'm']]), (['o', 'm', 'w', 'a', 'k', 'a'], [['y', 'e', 'a', 'r']]), (['o', 'm', 'w', 'e', 'z', 'i'], [['m', 'o', 'n', 't', 'h']]), (['a', 'p', 'u', 'l', 'i'], [['a', 'p', 'r', 'i', 'l']]), (['j', 'u', 'u', 'n', 'i'], [['j', 'u', 'n', 'e']]), (['m', 'a', 'a', 'y', 'i'], [['m', 'a', 'y']]), (['b', 'a', 'l', 'a'], [['m', 'o', 'n', 'd', 'a', 'y']]), (['k', 'u', 'b', 'i'], [['t', 'u', 'e', 's', 'd', 'a', 'y']]), (['k', 'u', 'n', 'a'], [['t', 'h', 'u', 'r', 's', 'd', 'a', 'y']]), (['k', 'u', 's', 'a'], [['w', 'e', 'd', 'n', 'e', 's', 'd', 'a', 'y']]), (['k', 'u', 't', 'a'], [['f', 'r', 'i', 'd', 'a', 'y']]), (['m', 'u', 'k', 'a'], [['s', 'a', 't', 'u', 'r', 'd', 'a', 'y']]), (['s', 'a', 'b', 'i'], [['s', 'u', 'n', 'd', 'a', 'y']]), (['a', 'g', 'u'], [['a', 'u', 'g', 'u', 's', 't']]), (['a', 'p', 'u'], [['a', 'p', 'r', 'i', 'l']]), (['d', 'e', 's'], [['d', 'e', 'c', 'e', 'm', 'b', 'e', 'r']]), (['f', 'e', 'b'], [['f', 'e', 'b', 'r', 'u', 'a', 'r', 'y']]), (['g', 'm', 't'], [['g', 'm', 't']]), (['j', 'a', 'n'], [['j', 'a', 'n', 'u', 'a', 'r', 'y']]), (['j', 'u', 'l'], [['j', 'u', 'l', 'y']]), (['j', 'u', 'u'], [['j', 'u', 'n', 'e']]), (['m', 'a', 'a'], [['m', 'a', 'y']]), (['m', 'a', 'r'], [['m', 'a', 'r', 'c', 'h']]), (['n', 'o', 'v'], [['n', 'o', 'v', 'e', 'm', 'b', 'e', 'r']]), (['o', 'k', 'i'], [['o', 'c', 't', 'o', 'b', 'e', 'r']]), (['s', 'e', 'b'], [['s', 'e', 'p', 't', 'e', 'm', 'b', 'e', 'r']]), (['u', 't', 'c'], [['u', 't', 'c']]), (['a', 'm'], [['a', 'm']]), (['p', 'm'], [['p', 'm']]), ([' '], [[' ']]), (['\''], [[]]), (['+'], [['+']]), ([','], [[]]), (['-'], [['-']]), (['.'], [['.']]), (['/'], [['/']]), ([':'], [[':']]), ([';'], [[]]), (['@'], [[]]), (['['], [[]]), ([']'], [[]]), (['z'], [['z']]), (['|'], [[]])]
  relativeType := [(['o', 'l', 'w', 'a', 'l', 'e', 'e', 'l', 'o', ' ', '(', 'l', 'e', 'e', 'l', 'o', ')'], ['0', ' ', 'd', 'a', 'y', ' ', 'a', 'g', 'o']), (['t', 'h', 'i', 's', ' ', 'm', 'i', 'n', 'u', 't', 'e'], ['0', ' ', 'm', 'i', 'n', 'u', 't', 'e', ' ', 'a', 'g', 'o']), (['l', 'a', 's', 't', ' ', 'm', 'o', 'n', 't', 'h'], ['1', ' ', 'm', 'o', 'n', 't', 'h', ' ', 'a', 'g', 'o']), (['n', 'e', 'x', 't', ' ', 'm', 'o', 'n', 't', 'h'], ['i', 'n', ' ', '1', ' ', 'm', 'o', 'n', 't', 'h']), (['t', 'h', 'i', 's', ' ', 'm', 'o', 'n', 't', 'h'], ['0', ' ', 'm', 'o', 'n', 't', 'h', ' ', 'a', 'g', 'o']), (['l', 'a', 's', 't', ' ', 'w', 'e', 'e', 'k'], ['1', ' ', 'w', 'e', 'e', 'k', ' ', 'a', 'g', 'o']), (['l', 'a', 's', 't', ' ', 'y', 'e', 'a', 'r'], ['1', ' ', 'y', 'e', 'a', 'r', ' ', 'a', 'g', 'o']), (['n', 'e', 'x', 't', ' ', 'w', 'e', 'e', 'k'], ['i', 'n', ' ', '1', ' ', 'w', 'e', 'e', 'k']), (['n', 'e', 'x', 't', ' ', 'y', 'e', 'a', 'r'], ['i', 'n', ' ', '1', ' ', 'y', 'e', 'a', 'r']), (['t', 'h', 'i', 's', ' ', 'h', 'o', 'u', 'r'], ['0', ' ', 'h', 'o', 'u', 'r', ' ', 'a', 'g', 'o']), (['t', 'h', 'i', 's', ' ', 'w', 'e', 'e', 'k'], ['0', ' ', 'w', 'e', 'e', 'k', ' ', 'a', 'g', 'o']), (['t', 'h', 'i', 's', ' ', 'y', 'e', 'a', 'r'], ['0', ' ', 'y', 'e', 'a', 'r', ' ', 'a', 'g', 'o']), (['e', 'n', 'k', 'y', 'o'], ['i', 'n', ' ', '1', ' ', 'd', 'a', 'y']), (['e', 'd', 'h', 'o'], ['1', ' ', 'd', 'a', 'y', ' ', 'a', 'g', 'o']), (['n', 'o', 'w'], ['0', ' ', 's', 'e', 'c', 'o', 'n', 'd', ' ', 'a', 'g', 'o'])]

/-- internal/data/yav.go: `yav_Locale`, dictionary. -/
def yavDict : LangData where
  name := ['y', 'a', 'v']
  translations := [(['p', 'i', 'k', 'i', 't', 'i', 'k', 'i', 't', 'i', 'e', ',', ' ', 'o', 'o', 'l', 'i', ' ', 'u', ' ', 'k', 'u', 't', 'u', 'a', 'n'], [['j', 'a', 'n', 'u', 'a', 'r', 'y']]), (['i', 'm', 'ɛ', 'ŋ', ' ', 'i', ' ', 'p', 'u', 't', 'u', 'k', ',', 'o', 'o', 'l', 'i', ' ', 'u', ' ', 'k', 'a', 't', 'i', 'ɛ'], [['o', 'c', 't', 'o', 'b', 'e', 'r']]), (['ɔ', 'n', 's', 'u', 'm', 'b', 'ɔ', 'l', ',', ' ', 'o', 'o', 'l', 'i', ' ', 'u', ' ', 'k', 'a', 't', 'a', 't', 'u', 'ɛ'], [['m', 'a', 'r', 'c', 'h']]), (['e', 'n', 's', 'i', 'l', ',', ' ', 'o', 'o', 'l', 'i', ' ', 'u', ' ', 'k', 'a', 't', 'a', 'n', 'u', 'ɛ'], [['m', 'a', 'y']]), (['s', 'i', 'ɛ', 'y', 'ɛ', ',', ' ', 'o', 'o', 'l', 'i', ' ', 'u', ' ', 'k', 'a', 'n', 'd', 'i', 'ɛ'], [['f', 'e', 'b', 'r', 'u', 'a', 'r', 'y']]), (['m', 'e', 's', 'i', 'ŋ', ',', ' ', 'o', 'o', 'l', 'i', ' ', 'u', ' ', 'k', 'e', 'n', 'i', 'e'], [['a', 'p', 'r', 'i', 'l']]), (['k', 'u', 'p', 'e', 'l', 'i', 'm', 'e', 't', 'u', 'k', 'p', 'i', 'a', 'p', 'ɛ'], [['t', 'h', 'u', 'r', 's', 'd', 'a', 'y']]), (['m', 'u', 'a', 'n', 'y', 'a', 'ŋ', 'm', 'o', 'n', 'd', 'i', 'e'], [['t', 'u', 'e', 's', 'd', 'a', 'y']]), (['i', 'm', 'ɛ', 'ŋ', ' ', 'i', ' ', 'p', 'u', 'ɔ', 's'], [['s', 'e', 'p', 't', 'e', 'm', 'b', 'e', 'r']]), (['m', 'e', 't', 'u', 'k', 'p', 'i', 'a', 'p', 'ɛ'], [['w', 'e', 'd', 'n', 'e', 's', 'd', 'a', 'y']]), (['m', 'a', 'k', 'a', 'n', 'd', 'i', 'k', 'ɛ'], [['n', 'o', 'v', 'e', 'm', 'b', 'e', 'r']]), (['k', 'i', 's', 'i', 'k', 'ɛ', 'l', ','], [['h', 'o', 'u', 'r']]), (['k', 'i', 's', 'ɛ', 'n', 'd', 'ɛ'], [['p', 'm']]), (['k', 'i', 'ɛ', 'm', 'ɛ', 'ɛ', 'm'], [['a', 'm']]), (['p', 'i', 'l', 'ɔ', 'n', 'd', 'ɔ'], [['d', 'e', 'c', 'e', 'm', 'b', 'e', 'r']]), (['f', 'e', 'l', 'e', 't', 'e'], [['f', 'r', 'i', 'd', 'a', 'y']]), (['m', 'o', 'n', 'd', 'i', 'e'], [['m', 'o', 'n', 'd', 'a', 'y']]), (['p', 'i', 's', 'u', 'y', 'u'], [['a', 'u', 'g', 'u', 's', 't']]), (['s', 'e', 's', 'e', 'l', 'e'], [['s', 'a', 't', 'u', 'r', 'd', 'a', 'y']]), (['s', 'ɔ', 'n', 'd', 'i', 'ɛ'], [['w', 'e', 'e', 'k'], ['s', 'u', 'n', 'd', 'a', 'y']]), (['e', 'f', 'u', 't', 'e'], [['j', 'u', 'l', 'y']]), (['m', 'i', 'n', 'i', 't'], [['m', 'i', 'n', 'u', 't', 'e']]), (['p', 'u', 'ɔ', 's', 'ɛ'], [['d', 'a', 'y']]), (['s', 'i', 'k', 'ɛ', 'n'], [['s', 'e', 'c', 'o', 'n', 'd']]), (['o', 'o', 'l', 'i'], [['m', 'o', 'n', 't', 'h']]), (['y', 'ɔ', 'ɔ', 'ŋ'], [['y', 'e', 'a', 'r']]), (['ɔ', 's', 'ɔ', 'n'], [['j', 'u', 'n', 'e']]), (['g', 'm', 't'], [['g', 'm', 't']]), (['o', '1', '0'], [['o', 'c', 't', 'o', 'b', 'e', 'r']]), (['o', '1', '1'], [['n', 'o', 'v', 'e', 'm', 'b', 'e', 'r']]), (['o', '1', '2'], [['d', 'e', 'c', 'e', 'm', 'b', 'e', 'r']]), (['u', 't', 'c'], [['u', 't', 'c']]), (['a', 'm'], [['a', 'm']]), (['e', 't'], [['w', 'e', 'd', 'n', 'e', 's', 'd', 'a', 'y']]), (['f', 'l'], [['f', 'r', 'i', 'd', 'a', 'y']]), (['k', 'l'], [['t', 'h', 'u', 'r', 's', 'd', 'a', 'y']]), (['m', 'd'], [['m', 'o', 'n', 'd', 'a', 'y']]), (['m', 'w'], [['t', 'u', 'e', 's', 'd', 'a', 'y']]), (['o', '1'], [['j', 'a', 'n', 'u', 'a', 'r', 'y']]), (['o', '2'], [['f', 'e', 'b', 'r', 'u', 'a', 'r', 'y']]), (['o', '3'], [['m', 'a', 'r', 'c', 'h']]), (['o', '4'], [['a', 'p', 'r', 'i', 'l']]), (['o', '5'], [['m', 'a', 'y']]), (['o', '6'], [['j', 'u', 'n', 'e']]), (['o', '7'], [['j', 'u', 'l', 'y']]), (['o', '8'], [['a', 'u', 'g', 'u', 's', 't']]), (['o', '9'], [['s', 'e', 'p', 't', 'e', 'm', 'b', 'e', 'r']]), (['p', 'm'], [['p', 'm']]), (['s', 'd'], [['s', 'u', 'n', 'd', 'a', 'y']]), (['s', 's'], [['s', 'a', 't', 'u', 'r', 'd', 'a', 'y']]), ([' '], [[' ']]), (['\''], [[]]), (['+'], [['+']]), ([','], [[]]), (['-'], [['-']]), (['.'], [['.']]), (['/'], [['/']]), ([':'], [[':']]), ([';'], [[]]), (['@'], [[]]), (['['], [[]]), ([']'], [[]]), (['z'], [['z']]), (['|'], [[]])]
  relativeType := [(['t', 'h', 'i', 's', ' ', 'm', 'i', 'n', 'u', 't', 'e'], ['0', ' ', 'm', 'i', 'n', 'u', 't', 'e', ' ', 'a', 'g', 'o']), (['l', 'a', 's', 't', ' ', 'm', 'o', 'n', 't', 'h'], ['1', ' ', 'm', 'o', 'n', 't', 'h', ' ', 'a', 'g', 'o']), (['n', 'e', 'x', 't', ' ', 'm', 'o', 'n', 't', 'h'], ['i', 'n', ' ', '1', ' ', 'm', 'o', 'n', 't', 'h']), (['t', 'h', 'i', 's', ' ', 'm', 'o', 'n', 't', 'h'], ['0', ' ', 'm', 'o', 'n', 't', 'h', ' ', 'a', 'g', 'o']), (['l', 'a', 's', 't', ' ', 'w', 'e', 'e', 'k'], ['1', ' ', 'w', 'e', 'e', 'k', ' ', 'a', 'g', 'o']), (['l', 'a', 's', 't', ' ', 'y', 'e', 'a', 'r'], ['1', ' ', 'y', 'e', 'a', 'r', ' ', 'a', 'g', 'o']), (['n', 'e', 'x', 't', ' ', 'w', 'e', 'e', 'k'], ['i', 'n', ' ', '1', ' ', 'w', 'e', 'e', 'k']), (['n', 'e', 'x', 't', ' ', 'y', 'e', 'a', 'r'], ['i', 'n', ' ', '1', ' ', 'y', 'e', 'a', 'r']), (['t', 'h', 'i', 's', ' ', 'h', 'o', 'u', 'r'], ['0', ' ', 'h', 'o', 'u', 'r', ' ', 'a', 'g', 'o']), (['t', 'h', 'i', 's', ' ', 'w', 'e', 'e', 'k'], ['0', ' ', 'w', 'e', 'e', 'k', ' ', 'a', 'g', 'o']), (['t', 'h', 'i', 's', ' ', 'y', 'e', 'a', 'r'], ['0', ' ', 'y', 'e', 'a', 'r', ' ', 'a', 'g', 'o']), (['n', 'a', 'k', 'i', 'n', 'y', 'a', 'm'], ['i', 'n', ' ', '1', ' ', 'd', 'a', 'y']), (['i', 'n', 'a', 'a', 'n'], ['0', ' ', 'd', 'a', 'y', ' ', 'a', 'g', 'o']), (['p', 'u', 'y', 'o', 'o'], ['1', ' ', 'd', 'a', 'y', ' ', 'a', 'g', 'o']), (['n', 'o', 'w'], ['0', ' ', 's', 'e', 'c', 'o', 'n', 'd', ' ', 'a', 'g', 'o'])]

/-- internal/data/yi.go: `yi_Locale`, dictionary. -/
def yiDict : LangData where
  name := ['y', 'i']
  translations := [(['ד', 'א', 'נ', 'ע', 'ר', 'ש', 'ט', 'י', 'ק'], [['t', 'h', 'u', 'r', 's', 'd', 'a', 'y']]), (['נ', 'א', 'ו', 'ו', 'ע', 'מ', 'ב', 'ע', 'ר'], [['n', 'o', 'v', 'e', 'm', 'b', 'e', 'r']]), (['ס', 'ע', 'פ', 'ט', 'ע', 'מ', 'ב', 'ע', 'ר'], [['s', 'e', 'p', 't', 'e', 'm', 'b', 'e', 'r']]), (['ד', 'ע', 'צ', 'ע', 'מ', 'ב', 'ע', 'ר'], [['d', 'e', 'c', 'e', 'm', 'b', 'e', 'r']]), (['נ', 'א', 'כ', 'מ', 'י', 'ט', 'א', 'ג'], [['p', 'm']]), (['פ', 'א', 'ר', 'מ', 'י', 'ט', 'א', 'ג'], [['a', 'm']]), (['א', 'ו', 'י', 'ג', 'ו', 'ס', 'ט'], [['a', 'u', 'g', 'u', 's', 't']]), (['א', 'ק', 'ט', 'א', 'ב', 'ע', 'ר'], [['o', 'c', 't', 'o', 'b', 'e', 'r']]), (['ד', 'י', 'נ', 'ס', 'ט', 'י', 'ק'], [['t', 'u', 'e', 's', 'd', 'a', 'y']]), (['מ', 'י', 'ט', 'ו', 'ו', 'א', 'ך'], [['w', 'e', 'd', 'n', 'e', 's', 'd', 'a', 'y']]), (['ס', 'ע', 'ק', 'ו', 'נ', 'ד', 'ע'], [['s', 'e', 'c', 'o', 'n', 'd']]), (['פ', 'ע', 'ב', 'ר', 'ו', 'א', 'ר'], [['f', 'e', 'b', 'r', 'u', 'a', 'r', 'y']]), (['ז', 'ו', 'נ', 'ט', 'י', 'ק'], [['s', 'u', 'n', 'd', 'a', 'y']]), (['י', 'א', 'נ', 'ו', 'א', 'ר'], [['j', 'a', 'n', 'u', 'a', 'r', 'y']]), (['מ', 'א', 'נ', 'ט', 'י', 'ק'], [['m', 'o', 'n', 'd', 'a', 'y']]), (['פ', 'ר', 'ײ', 'ט', 'י', 'ק'], [['f', 'r', 'i', 'd', 'a', 'y']]), (['א', 'פ', 'ר', 'י', 'ל'], [['a', 'p', 'r', 'i', 'l']]), (['מ', 'א', 'נ', 'א', 'ט'], [['m', 'o', 'n', 't', 'h']]), (['מ', 'י', 'נ', 'ו', 'ט'], [['m', 'i', 'n', 'u', 't', 'e']]), (['א', 'ו', 'י', 'ג'], [['a', 'u', 'g', 'u', 's', 't']]), (['ו', 'ו', 'א', 'ך'], [['w', 'e', 'e', 'k']]), (['י', 'ו', 'ל', 'י'], [['j', 'u', 'l', 'y']]), (['י', 'ו', 'נ', 'י'], [['j', 'u', 'n', 'e']]), (['מ', 'ע', 'ר', 'ץ'], [['m', 'a', 'r', 'c', 'h']]), (['נ', 'א', 'ו', 'ו'], [['n', 'o', 'v', 'e', 'm', 'b', 'e', 'r']]), (['g', 'm', 't'], [['g', 'm', 't']]), (['u', 't', 'c'], [['u', 't', 'c']]), (['א', 'פ', 'ר'], [['a', 'p', 'r', 'i', 'l']]), (['א', 'ק', 'ט'], [['o', 'c', 't', 'o', 'b', 'e', 'r']]), (['ד', 'ע', 'צ'], [['d', 'e', 'c', 'e', 'm', 'b', 'e', 'r']]), (['ט', 'א', 'ג'], [['d', 'a', 'y']]), (['י', 'א', 'נ'], [['j', 'a', 'n', 'u', 'a', 'r', 'y']]), (['י', 'א', 'ר'], [['y', 'e', 'a', 'r']]), (['מ', 'י', 'י'], [['m', 'a', 'y']]), (['ס', 'ע', 'פ'], [['s', 'e', 'p', 't', 'e', 'm', 'b', 'e', 'r']]), (['פ', 'ע', 'ב'], [['f', 'e', 'b', 'r', 'u', 'a', 'r', 'y']]), (['ש', 'ב', 'ת'], [['s', 'a', 't', 'u', 'r', 'd', 'a', 'y']]), (['ש', 'ע', 'ה'], [['h', 'o', 'u', 'r']]), (['a', 'm'], [['a', 'm']]), (['p', 'm'], [['p', 'm']]), ([' '], [[' ']]), (['\''], [[]]), (['+'], [['+']]), ([','], [[]]), (['-'], [['-']]), (['.'], [['.']]), (['/'], [['/']]), ([':'], [[':']]), ([';'], [[]]), (['@'], [[]]), (['['], [[]]), ([']'], [[]]), (['z'], [['z']]), (['|'], [[]])]
  relativeType := [(['פ', 'א', 'ר', 'ג', 'א', 'נ', 'ג', 'ע', 'נ', 'ע', 'ם', ' ', 'ח', 'ו', 'ד', 'ש'], ['1', ' ', 'm', 'o', 'n', 't', 'h', ' ', 'a', 'g', 'o']), (['ק', 'ו', 'מ', 'ע', 'נ', 'ד', 'י', 'ק', 'ן', ' ', 'ח', 'ו', 'ד', 'ש'], ['i', 'n', ' ', '1', ' ', 'm', 'o', 'n', 't', 'h']), (['א', 'י', 'ב', 'ע', 'ר', ' ', 'א', 'כ', 'ט', ' ', 'ט', 'א', 'ג'], ['i', 'n', ' ', '1', ' ', 'w', 'e', 'e', 'k']), (['t', 'h', 'i', 's', ' ', 'm', 'i', 'n', 'u', 't', 'e'], ['0', ' ', 'm', 'i', 'n', 'u', 't', 'e', ' ', 'a', 'g', 'o']), (['א', 'י', 'ב', 'ע', 'ר', ' ', 'א', ' ', 'י', 'א', 'ר'], ['i', 'n', ' ', '1', ' ', 'y', 'e', 'a', 'r']), (['l', 'a', 's', 't', ' ', 'w', 'e', 'e', 'k'], ['1', ' ', 'w', 'e', 'e', 'k', ' ', 'a', 'g', 'o']), (['t', 'h', 'i', 's', ' ', 'h', 'o', 'u', 'r'], ['0', ' ', 'h', 'o', 'u', 'r', ' ', 'a', 'g', 'o']), (['t', 'h', 'i', 's', ' ', 'w', 'e', 'e', 'k'], ['0', ' ', 'w', 'e', 'e', 'k', ' ', 'a', 'g', 'o']), (['ד', 'ע', 'ם', ' ', 'ח', 'ו', 'ד', 'ש'], ['0', ' ', 'm', 'o', 'n', 't', 'h', ' ', 'a', 'g', 'o']), (['פ', 'א', 'ר', 'א', 'י', 'א', 'ר'], ['1', ' ', 'y', 'e', 'a', 'r', ' ', 'a', 'g', 'o']), (['ה', 'ײ', ' ', 'י', 'א', 'ר'], ['0', ' ', 'y', 'e', 'a', 'r', ' ', 'a', 'g', 'o']), (['ה', 'י', 'י', 'נ', 'ט'], ['0', ' ', 'd', 'a', 'y', ' ', 'a', 'g', 'o']), (['מ', 'א', 'ר', 'ג', 'ן'], ['i', 'n', ' ', '1', ' ', 'd', 'a', 'y']), (['נ', 'ע', 'כ', 'ט', 'ן'], ['1', ' ', 'd', 'a', 'y', ' ', 'a', 'g', 'o']), (['n', 'o', 'w'], ['0', ' ', 's', 'e', 'c', 'o', 'n', 'd', ' ', 'a', 'g', 'o'])]

/-- internal/data/yo.go: `yo_Locale`, dictionary. -/
def yoDict : LangData where
  name := ['y', 'o']
  translations := [(['o', 'j', 'o', ' ', 'a', 'b', 'a', 'm', 'e', 't', 'a'], [['s', 'a', 't', 'u', 'r', 'd', 'a', 'y']]), (['i', 's', 'e', 'j', 'u', ' ', 'a', 'a', 'y', 'a'], [['s', 'e', 'c', 'o', 'n', 'd']]), (['o', 'j', 'o', ' ', 'i', 's', 'e', 'g', 'u', 'n'], [['t', 'u', 'e', 's', 'd', 'a', 'y']]), (['o', 's', 'u', ' ', 'a', 'g', 'e', 'm', 'o'], [['j', 'u', 'l', 'y']]), (['o', 's', 'u', ' ', 'e', 'b', 'i', 'b', 'i'], [['m', 'a', 'y']]), (['o', 's', 'u', ' ', 'e', 'r', 'e', 'l', 'e'], [['f', 'e', 'b', 'r', 'u', 'a', 'r', 'y']]), (['o', 's', 'u', ' ', 'e', 'r', 'e', 'n', 'a'], [['m', 'a', 'r', 'c', 'h']]), (['o', 's', 'u', ' ', 'o', 'k', 'u', 'd', 'u'], [['j', 'u', 'n', 'e']]), (['o', 's', 'u', ' ', 'o', 'w', 'a', 'r', 'a'], [['o', 'c', 't', 'o', 'b', 'e', 'r']]), (['o', 's', 'u', ' ', 'o', 'w', 'e', 'w', 'e'], [['s', 'e', 'p', 't', 'e', 'm', 'b', 'e', 'r']]), (['o', 'j', 'o', ' ', 'a', 'i', 'k', 'u'], [['s', 'u', 'n', 'd', 'a', 'y']]), (['o', 's', 'u', ' ', 'b', 'e', 'l', 'u'], [['n', 'o', 'v', 'e', 'm', 'b', 'e', 'r']]), (['o', 's', 'u', ' ', 'i', 'g', 'b', 'e'], [['a', 'p', 'r', 'i', 'l']]), (['o', 's', 'u', ' ', 'o', 'g', 'u', 'n'], [['a', 'u', 'g', 'u', 's', 't']]), (['o', 's', 'u', ' ', 's', 'e', 'r', 'e'], [['j', 'a', 'n', 'u', 'a', 'r', 'y']]), (['a', 'b', 'a', 'm', 'e', 't', 'a'], [['s', 'a', 't', 'u', 'r', 'd', 'a', 'y']]), (['o', 'j', 'o', ' ', 'a', 'j', 'e'], [['m', 'o', 'n', 'd', 'a', 'y']]), (['o', 'j', 'o', ' ', 'e', 't', 'i'], [['f', 'r', 'i', 'd', 'a', 'y']]), (['o', 's', 'u', ' ', 'o', 'p', 'e'], [['d', 'e', 'c', 'e', 'm', 'b', 'e', 'r']]), (['i', 's', 'e', 'g', 'u', 'n'], [['t', 'u', 'e', 's', 'd', 'a', 'y']]), (['w', 'a', 'k', 'a', 't', 'i'], [['h', 'o', 'u', 'r']]), (['a', 'g', 'e', 'm', 'o'], [['j', 'u', 'l', 'y']]), (['e', 'b', 'i', 'b', 'i'], [['m', 'a', 'y']]), (['e', 'r', 'e', 'l', 'e'], [['f', 'e', 'b', 'r', 'u', 'a', 'r', 'y']]), (['e', 'r', 'e', 'n', 'a'], [['m', 'a', 'r', 'c', 'h']]), (['i', 's', 'e', 'j', 'u'], [['m', 'i', 'n', 'u', 't', 'e']]), (['o', 'j', 'o', 'b', 'o'], [['t', 'h', 'u', 'r', 's', 'd', 'a', 'y']]), (['o', 'j', 'o', 'r', 'u'], [['w', 'e', 'd', 'n', 'e', 's', 'd', 'a', 'y']]), (['o', 'k', 'u', 'd', 'u'], [['j', 'u', 'n', 'e']]), (['o', 'w', 'a', 'r', 'a'], [['o', 'c', 't', 'o', 'b', 'e', 'r']]), (['o', 'w', 'e', 'w', 'e'], [['s', 'e', 'p', 't', 'e', 'm', 'b', 'e', 'r']]), (['a', 'a', 'r', 'o'], [['a', 'm']]), (['a', 'i', 'k', 'u'], [['s', 'u', 'n', 'd', 'a', 'y']]), (['b', 'e', 'l', 'u'], [['n', 'o', 'v', 'e', 'm', 'b', 'e', 'r']]), (['i', 'g', 'b', 'e'], [['a', 'p', 'r', 'i', 'l']]), (['o', 'd', 'u', 'n'], [['y', 'e', 'a', 'r']]), (['o', 'g', 'u', 'n'], [['a', 'u', 'g', 'u', 's', 't']]), (['o', 's', 'a', 'n'], [['p', 'm']]), (['s', 'e', 'r', 'e'], [['j', 'a', 'n', 'u', 'a', 'r', 'y']]), (['a', 'j', 'e'], [['m', 'o', 'n', 'd', 'a', 'y']]), (['e', 't', 'i'], [['f', 'r', 'i', 'd', 'a', 'y']]), (['g', 'm', 't'], [['g', 'm', 't']]), (['o', 'j', 'o'], [['d', 'a', 'y']]), (['o', 'p', 'e'], [['d', 'e', 'c', 'e', 'm', 'b', 'e', 'r']]), (['o', 's', 'e'], [['w', 'e', 'e', 'k']]), (['o', 's', 'u'], [['m', 'o', 'n', 't', 'h']]), (['u', 't', 'c'], [['u', 't', 'c']]), (['a', 'm'], [['a', 'm']]), (['p', 'm'], [['p', 'm']]), ([' '], [[' ']]), (['\''], [[]]), (['+'], [['+']]), ([','], [[]]), (['-'], [['-']]), (['.'], [['.']]), (['/'], [['/']]), ([':'], [[':']]), ([';'], [[]]), (['@'], [[]]), (['['], [[]]), ([']'], [[]]), (['z'], [['z']]), (['|'], [[]])]
  relativeType := [(['t', 'h', 'i', 's', ' ', 'm', 'i', 'n', 'u', 't', 'e'], ['0', ' ', 'm', 'i', 'n', 'u', 't', 'e', ' ', 'a', 'g', 'o']), (['l', 'a', 's', 't', ' ', 'm', 'o', 'n', 't', 'h'], ['1', ' ', 'm', 'o', 'n', 't', 'h', ' ', 'a', 'g', 'o']), (['n', 'e', 'x', 't', ' ', 'm', 'o', 'n', 't', 'h'], ['i', 'n', ' ', '1', ' ', 'm', 'o', 'n', 't', 'h']), (['t', 'h', 'i', 's', ' ', 'm', 'o', 'n', 't', 'h'], ['0', ' ', 'm', 'o', 'n', 't', 'h', ' ', 'a', 'g', 'o']), (['l', 'a', 's', 't', ' ', 'w', 'e', 'e', 'k'], ['1', ' ', 'w', 'e', 'e', 'k', ' ', 'a', 'g', 'o']), (['l', 'a', 's', 't', ' ', 'y', 'e', 'a', 'r'], ['1', ' ', 'y', 'e', 'a', 'r', ' ', 'a', 'g', 'o']), (['n', 'e', 'x', 't', ' ', 'w', 'e', 'e', 'k'], ['i', 'n', ' ', '1', ' ', 'w', 'e', 'e', 'k']), (['n', 'e', 'x', 't', ' ', 'y', 'e', 'a', 'r'], ['i', 'n', ' ', '1', ' ', 'y', 'e', 'a', 'r']), (['t', 'h', 'i', 's', ' ', 'h', 'o', 'u', 'r'], ['0', ' ', 'h', 'o', 'u', 'r', ' ', 'a', 'g', 'o']), (['t', 'h', 'i', 's', ' ', 'w', 'e', 'e', 'k'], ['0', ' ', 'w', 'e', 'e', 'k', ' ', 'a', 'g', 'o']), (['t', 'h', 'i', 's', ' ', 'y', 'e', 'a', 'r'], ['0', ' ', 'y', 'e', 'a', 'r', ' ', 'a', 'g', 'o']), (['a', 'n', 'a'], ['1', ' ', 'd', 'a', 'y', ' ', 'a', 'g', 'o']), (['n', 'o', 'w'], ['0', ' ', 's', 'e', 'c', 'o', 'n', 'd', ' ', 'a', 'g', 'o']), (['o', 'l', 'a'], ['i', 'n', ' ', '1', ' ', 'd', 'a', 'y']), (['o', 'n', 'i'], ['0', ' ', 'd', 'a', 'y', ' ', 'a', 'g', 'o'])]

/-- internal/data/yo.go: `yo_BJ_Locale`, dictionary. -/
def yo_BJDict : LangData where
  name := ['y', 'o', '-', 'B', 'J']
  translations := [(['ɔ', 'j', 'ɔ', ' ', 'a', 'b', 'a', 'm', 'ɛ', 't', 'a'], [['s', 'a', 't', 'u', 'r', 'd', 'a', 'y']]), (['i', 's', 'ɛ', 'j', 'u', ' ', 'a', 'a', 'y', 'a'], [['s', 'e', 'c', 'o', 'n', 'd']]), (['o', 's', 'h', 'u', ' ', 'a', 'g', 'ɛ', 'm', 'ɔ'], [['j', 'u', 'l', 'y']]), (['o', 's', 'h', 'u', ' ', 'e', 'r', 'e', 'l', 'e'], [['f', 'e', 'b', 'r', 'u', 'a', 'r', 'y']]), (['o', 's', 'h', 'u', ' ', 'o', 'k', 'u', 'd', 'u'], [['j', 'u', 'n', 'e']]), (['o', 's', 'h', 'u', ' ', 'o', 'w', 'e', 'w', 'e'], [['s', 'e', 'p', 't', 'e', 'm', 'b', 'e', 'r']]), (['o', 's', 'h', 'u', ' ', 's', 'h', 'ɛ', 'r', 'ɛ'], [['j', 'a', 'n', 'u', 'a', 'r', 'y']]), (['o', 's', 'h', 'u', ' ', 'ɔ', 'w', 'a', 'r', 'a'], [['o', 'c', 't', 'o', 'b', 'e', 'r']]), (['o', 's', 'h', 'u', ' ', 'ɛ', 'b', 'i', 'b', 'i'], [['m', 'a', 'y']]), (['o', 's', 'h', 'u', ' ', 'ɛ', 'r', 'ɛ', 'n', 'a'], [['m', 'a', 'r', 'c', 'h']]), (['ɔ', 'j', 'ɔ', ' ', 'i', 's', 'ɛ', 'g', 'u', 'n'], [['t', 'u', 'e', 's', 'd', 'a', 'y']]), (['o', 's', 'h', 'u', ' ', 'b', 'e', 'l', 'u'], [['n', 'o', 'v', 'e', 'm', 'b', 'e', 'r']]), (['o', 's', 'h', 'u', ' ', 'i', 'g', 'b', 'e'], [['a', 'p', 'r', 'i', 'l']]), (['o', 's', 'h', 'u', ' ', 'o', 'g', 'u', 'n'], [['a', 'u', 'g', 'u', 's', 't']]), (['o', 's', 'h', 'u', ' ', 'ɔ', 'p', 'ɛ'], [['d', 'e', 'c', 'e', 'm', 'b', 'e', 'r']]), (['ɔ', 'j', 'ɔ', ' ', 'a', 'i', 'k', 'u'], [['s', 'u', 'n', 'd', 'a', 'y']]), (['a', 'b', 'a', 'm', 'ɛ', 't', 'a'], [['s', 'a', 't', 'u', 'r', 'd', 'a', 'y']]), (['ɔ', 'j', 'ɔ', ' ', 'a', 'j', 'e'], [['m', 'o', 'n', 'd', 'a', 'y']]), (['ɔ', 'j', 'ɔ', ' ', 'ɛ', 't', 'i'], [['f', 'r', 'i', 'd', 'a', 'y']]), (['i', 's', 'ɛ', 'g', 'u', 'n'], [['t', 'u', 'e', 's', 'd', 'a', 'y']]), (['a', 'g', 'ɛ', 'm', 'ɔ'], [['j', 'u', 'l', 'y']]), (['i', 's', 'ɛ', 'j', 'u'], [['m', 'i', 'n', 'u', 't', 'e']]), (['s', 'h', 'ɛ', 'r', 'ɛ'], [['j', 'a', 'n', 'u', 'a', 'r', 'y']]), (['ɔ', 'j', 'ɔ', 'b', 'ɔ'], [['t', 'h', 'u', 'r', 's', 'd', 'a', 'y']]), (['ɔ', 'j', 'ɔ', 'r', 'u'], [['w', 'e', 'd', 'n', 'e', 's', 'd', 'a', 'y']]), (['ɔ', 'w', 'a', 'r', 'a'], [['o', 'c', 't', 'o', 'b', 'e', 'r']]), (['ɛ', 'b', 'i', 'b', 'i'], [['m', 'a', 'y']]), (['ɛ', 'r', 'ɛ', 'n', 'a'], [['m', 'a', 'r', 'c', 'h']]), (['a', 'a', 'r', 'ɔ'], [['a', 'm']]), (['ɔ', 'd', 'u', 'n'], [['y', 'e', 'a', 'r']]), (['ɔ', 's', 'a', 'n'], [['p', 'm']]), (['ɔ', 'j', 'ɔ'], [['d', 'a', 'y']]), (['ɔ', 'p', 'ɛ'], [['d', 'e', 'c', 'e', 'm', 'b', 'e', 'r']]), (['ɔ', 's', 'e'], [['w', 'e', 'e', 'k']]), (['ɛ', 't', 'i'], [['f', 'r', 'i', 'd', 'a', 'y']])]
  relativeType := [(['ɔ', 'l', 'a'], ['i', 'n', ' ', '1', ' ', 'd', 'a', 'y'])]

/-- internal/data/yue.go: `yue_Locale`, dictionary. -/
def yueDict : LangData where
  name := ['y', 'u', 'e']
  noWordSpacing := true
  splitterGroup := 4
  translations := [(['1', '0', '月'], [['o', 'c', 't', 'o', 'b', 'e', 'r']]), (['1', '1', '月'], [['n', 'o', 'v', 'e', 'm', 'b', 'e', 'r']]), (['1', '2', '月'], [['d', 'e', 'c', 'e', 'm', 'b', 'e', 'r']]), (['g', 'm', 't'], [['g', 'm', 't']]), (['u', 't', 'c'], [['u', 't', 'c']]), (['星', '期', '一'], [['m', 'o', 'n', 'd', 'a', 'y']]), (['星', '期', '三'], [['w', 'e', 'd', 'n', 'e', 's', 'd', 'a', 'y']]), (['星', '期', '二'], [['t', 'u', 'e', 's', 'd', 'a', 'y']]), (['星', '期', '五'], [['f', 'r', 'i', 'd', 'a', 'y']]), (['星', '期', '六'], [['s', 'a', 't', 'u', 'r', 'd', 'a', 'y']]), (['星', '期', '四'], [['t', 'h', 'u', 'r', 's', 'd', 'a', 'y']]), (['星', '期', '日'], [['s', 'u', 'n', 'd', 'a', 'y']]), (['1', '月'], [['j', 'a', 'n', 'u', 'a', 'r', 'y']]), (['2', '月'], [['f', 'e', 'b', 'r', 'u', 'a', 'r', 'y']]), (['3', '月'], [['m', 'a', 'r', 'c', 'h']]), (['4', '月'], [['a', 'p', 'r', 'i', 'l']]), (['5', '月'], [['m', 'a', 'y']]), (['6', '月'], [['j', 'u', 'n', 'e']]), (['7', '月'], [['j', 'u', 'l', 'y']]), (['8', '月'], [['a', 'u', 'g', 'u', 's', 't']]), (['9', '月'], [['s', 'e', 'p', 't', 'e', 'm', 'b', 'e', 'r']]), (['a', 'm'], [['a', 'm']]), (['p', 'm'], [['p', 'm']]), (['上', '午'], [['a', 'm']]), (['下', '午'], [['p', 'm']]), (['分', '鐘'], [['m', 'i', 'n', 'u', 't', 'e']]), (['小', '時'], [['h', 'o', 'u', 'r']]), (['週', '一'], [['m', 'o', 'n', 'd', 'a', 'y']]), (['週', '三'], [['w', 'e', 'd', 'n', 'e', 's', 'd', 'a', 'y']]), (['週', '二'], [['t', 'u', 'e', 's', 'd', 'a', 'y']]), (['週', '五'], [['f', 'r', 'i', 'd', 'a', 'y']]), (['週', '六'], [['s', 'a', 't', 'u', 'r', 'd', 'a', 'y']]), (['週', '四'], [['t', 'h', 'u', 'r', 's', 'd', 'a', 'y']]), (['週', '日'], [['s', 'u', 'n', 'd', 'a', 'y']]), ([' '], [[' ']]), (['\''], [[]]), (['+'], [['+']]), ([','], [[]]), (['-'], [['-']]), (['.'], [['.']]), (['/'], [['/']]), ([':'], [[':']]), ([';'], [[]]), (['@'], [[]]), (['['], [[]]), ([']'], [[]]), (['z'], [['z']]), (['|'], [[]]), (['年'], [['y', 'e', 'a', 'r']]), (['日'], [['d', 'a', 'y']]), (['月'], [['m', 'o', 'n', 't', 'h']]), (['秒'], [['s', 'e', 'c', 'o', 'n', 'd']]), (['週'], [['w', 'e', 'e', 'k']])]
  relativeType := [(['今', '個', '星', '期'], ['0', ' ', 'w', 'e', 'e', 'k', ' ', 'a', 'g', 'o']), (['呢', '個', '小', '時'], ['0', ' ', 'h', 'o', 'u', 'r', ' ', 'a', 'g', 'o']), (['上', '個', '月'], ['1', ' ', 'm', 'o', 'n', 't', 'h', ' ', 'a', 'g', 'o']), (['上', '星', '期'], ['1', ' ', 'w', 'e', 'e', 'k', ' ', 'a', 'g', 'o']), (['下', '個', '月'], ['i', 'n', ' ', '1', ' ', 'm', 'o', 'n', 't', 'h']), (['下', '星', '期'], ['i', 'n', ' ', '1', ' ', 'w', 'e', 'e', 'k']), (['今', '個', '月'], ['0', ' ', 'm', 'o', 'n', 't', 'h', ' ', 'a', 'g', 'o']), (['呢', '分', '鐘'], ['0', ' ', 'm', 'i', 'n', 'u', 't', 'e', ' ', 'a', 'g', 'o']), (['下', '年'], ['i', 'n', ' ', '1', ' ', 'y', 'e', 'a', 'r']), (['今', '年'], ['0', ' ', 'y', 'e', 'a', 'r', ' ', 'a', 'g', 'o']), (['今', '日'], ['0', ' ', 'd', 'a', 'y', ' ', 'a', 'g', 'o']), (['宜', '家'], ['0', ' ', 's', 'e', 'c', 'o', 'n', 'd', ' ', 'a', 'g', 'o']), (['尋', '日'], ['1', ' ', 'd', 'a', 'y', ' ', 'a', 'g', 'o']), (['聽', '日'], ['i', 'n', ' ', '1', ' ', 'd', 'a', 'y']), (['舊', '年'], ['1', ' ', 'y', 'e', 'a', 'r', ' ', 'a', 'g', 'o'])]

/-- internal/data/zgh.go: `zgh_Locale`, dictionary. -/
def zghDict : LangData where
  name := ['z', 'g', 'h']
  translations := [(['ⴷ', 'ⵓ', 'ⵊ', 'ⴰ', 'ⵏ', 'ⴱ', 'ⵉ', 'ⵔ'], [['d', 'e', 'c', 'e', 'm', 'b', 'e', 'r']]), (['ⵏ', 'ⵓ', 'ⵡ', 'ⴰ', 'ⵏ', 'ⴱ', 'ⵉ', 'ⵔ'], [['n', 'o', 'v', 'e', 'm', 'b', 'e', 'r']]), (['ⵛ', 'ⵓ', 'ⵜ', 'ⴰ', 'ⵏ', 'ⴱ', 'ⵉ', 'ⵔ'], [['s', 'e', 'p', 't', 'e', 'm', 'b', 'e', 'r']]), (['ⵜ', 'ⴰ', 'ⴷ', 'ⴳ', 'ⴳ', 'ⵡ', 'ⴰ', 'ⵜ'], [['p', 'm']]), (['ⴰ', 'ⵙ', 'ⴳ', 'ⴳ', 'ⵡ', 'ⴰ', 'ⵙ'], [['y', 'e', 'a', 'r']]), (['ⴰ', 'ⵙ', 'ⵉ', 'ⴹ', 'ⵢ', 'ⴰ', 'ⵙ'], [['s', 'a', 't', 'u', 'r', 'd', 'a', 'y']]), (['ⴰ', 'ⵙ', 'ⵉ', 'ⵎ', 'ⵡ', 'ⴰ', 'ⵙ'], [['f', 'r', 'i', 'd', 'a', 'y']]), (['ⵉ', 'ⵎ', 'ⴰ', 'ⵍ', 'ⴰ', 'ⵙ', 'ⵙ'], [['w', 'e', 'e', 'k']]), (['ⵜ', 'ⴰ', 'ⵙ', 'ⵔ', 'ⴰ', 'ⴳ', 'ⵜ'], [['h', 'o', 'u', 'r']]), (['ⵜ', 'ⵓ', 'ⵙ', 'ⴷ', 'ⵉ', 'ⴷ', 'ⵜ'], [['m', 'i', 'n', 'u', 't', 'e']]), (['ⴰ', 'ⵙ', 'ⴰ', 'ⵎ', 'ⴰ', 'ⵙ'], [['s', 'u', 'n', 'd', 'a', 'y']]), (['ⴰ', 'ⵙ', 'ⵉ', 'ⵏ', 'ⴰ', 'ⵙ'], [['t', 'u', 'e', 's', 'd', 'a', 'y']]), (['ⵉ', 'ⵏ', 'ⵏ', 'ⴰ', 'ⵢ', 'ⵔ'], [['j', 'a', 'n', 'u', 'a', 'r', 'y']]), (['ⵜ', 'ⴰ', 'ⵙ', 'ⵉ', 'ⵏ', 'ⵜ'], [['s', 'e', 'c', 'o', 'n', 'd']]), (['ⵜ', 'ⵉ', 'ⴼ', 'ⴰ', 'ⵡ', 'ⵜ'], [['a', 'm']]), (['ⵢ', 'ⵓ', 'ⵍ', 'ⵢ', 'ⵓ', 'ⵣ'], [['j', 'u', 'l', 'y']]), (['ⴰ', 'ⴽ', 'ⵕ', 'ⴰ', 'ⵙ'], [['w', 'e', 'd', 'n', 'e', 's', 'd', 'a', 'y']]), (['ⴰ', 'ⴽ', 'ⵡ', 'ⴰ', 'ⵙ'], [['t', 'h', 'u', 'r', 's', 'd', 'a', 'y']]), (['ⴰ', 'ⵢ', 'ⵏ', 'ⴰ', 'ⵙ'], [['m', 'o', 'n', 'd', 'a', 'y']]), (['ⴰ', 'ⵢ', 'ⵢ', 'ⵓ', 'ⵔ'], [['m', 'o', 'n', 't', 'h']]), (['ⴱ', 'ⵕ', 'ⴰ', 'ⵢ', 'ⵕ'], [['f', 'e', 'b', 'r', 'u', 'a', 'r', 'y']]), (['ⴽ', 'ⵜ', 'ⵓ', 'ⴱ', 'ⵔ'], [['o', 'c', 't', 'o', 'b', 'e', 'r']]), (['ⵉ', 'ⴱ', 'ⵔ', 'ⵉ', 'ⵔ'], [['a', 'p', 'r', 'i', 'l']]), (['ⵎ', 'ⴰ', 'ⵢ', 'ⵢ', 'ⵓ'], [['m', 'a', 'y']]), (['ⵢ', 'ⵓ', 'ⵏ', 'ⵢ', 'ⵓ'], [['j', 'u', 'n', 'e']]), (['ⴰ', 'ⵙ', 'ⵉ', 'ⴹ'], [['s', 'a', 't', 'u', 'r', 'd', 'a', 'y']]), (['ⴰ', 'ⵙ', 'ⵉ', 'ⵎ'], [['f', 'r', 'i', 'd', 'a', 'y']]), (['ⵎ', 'ⴰ', 'ⵕ', 'ⵚ'], [['m', 'a', 'r', 'c', 'h']]), (['ⵖ', 'ⵓ', 'ⵛ', 'ⵜ'], [['a', 'u', 'g', 'u', 's', 't']]), (['g', 'm', 't'], [['g', 'm', 't']]), (['u', 't', 'c'], [['u', 't', 'c']]), (['ⴰ', 'ⴽ', 'ⵕ'], [['w', 'e', 'd', 'n', 'e', 's', 'd', 'a', 'y']]), (['ⴰ', 'ⴽ', 'ⵡ'], [['t', 'h', 'u', 'r', 's', 'd', 'a', 'y']]), (['ⴰ', 'ⵙ', 'ⴰ'], [['s', 'u', 'n', 'd', 'a', 'y']]), (['ⴰ', 'ⵙ', 'ⵉ'], [['t', 'u', 'e', 's', 'd', 'a', 'y']]), (['ⴰ', 'ⵙ', 'ⵙ'], [['d', 'a', 'y']]), (['ⴰ', 'ⵢ', 'ⵏ'], [['m', 'o', 'n', 'd', 'a', 'y']]), (['ⴱ', 'ⵕ', 'ⴰ'], [['f', 'e', 'b', 'r', 'u', 'a', 'r', 'y']]), (['ⴷ', 'ⵓ', 'ⵊ'], [['d', 'e', 'c', 'e', 'm', 'b', 'e', 'r']]), (['ⴽ', 'ⵜ', 'ⵓ'], [['o', 'c', 't', 'o', 'b', 'e', 'r']]), (['ⵉ', 'ⴱ', 'ⵔ'], [['a', 'p', 'r', 'i', 'l']]), (['ⵉ', 'ⵏ', 'ⵏ'], [['j', 'a', 'n', 'u', 'a', 'r', 'y']]), (['ⵎ', 'ⴰ', 'ⵕ'], [['m', 'a', 'r', 'c', 'h']]), (['ⵎ', 'ⴰ', 'ⵢ'], [['m', 'a', 'y']]), (['ⵏ', 'ⵓ', 'ⵡ'], [['n', 'o', 'v', 'e', 'm', 'b', 'e', 'r']]), (['ⵖ', 'ⵓ', 'ⵛ'], [['a', 'u', 'g', 'u', 's', 't']]), (['ⵛ', 'ⵓ', 'ⵜ'], [['s', 'e', 'p', 't', 'e', 'm', 'b', 'e', 'r']]), (['ⵢ', 'ⵓ', 'ⵍ'], [['j', 'u', 'l', 'y']]), (['ⵢ', 'ⵓ', 'ⵏ'], [['j', 'u', 'n', 'e']]), (['a', 'm'], [['a', 'm']]), (['p', 'm'], [['p', 'm']]), ([' '], [[' ']]), (['\''], [[]]), (['+'], [['+']]), ([','], [[]]), (['-'], [['-']]), (['.'], [['.']]), (['/'], [['/']]), ([':'], [[':']]), ([';'], [[]]), (['@'], [[]]), (['['], [[]]), ([']'], [[]]), (['z'], [['z']]), (['|'], [[]])]
  relativeType := [(['t', 'h', 'i', 's', ' ', 'm', 'i', 'n', 'u', 't', 'e'], ['0', ' ', 'm', 'i', 'n', 'u', 't', 'e', ' ', 'a', 'g', 'o']), (['l', 'a', 's', 't', ' ', 'm', 'o', 'n', 't', 'h'], ['1', ' ', 'm', 'o', 'n', 't', 'h', ' ', 'a', 'g', 'o']), (['n', 'e', 'x', 't', ' ', 'm', 'o', 'n', 't', 'h'], ['i', 'n', ' ', '1', ' ', 'm', 'o', 'n', 't', 'h']), (['t', 'h', 'i', 's', ' ', 'm', 'o', 'n', 't', 'h'], ['0', ' ', 'm', 'o', 'n', 't', 'h', ' ', 'a', 'g', 'o']), (['l', 'a', 's', 't', ' ', 'w', 'e', 'e', 'k'], ['1', ' ', 'w', 'e', 'e', 'k', ' ', 'a', 'g', 'o']), (['l', 'a', 's', 't', ' ', 'y', 'e', 'a', 'r'], ['1', ' ', 'y', 'e', 'a', 'r', ' ', 'a', 'g', 'o']), (['n', 'e', 'x', 't', ' ', 'w', 'e', 'e', 'k'], ['i', 'n', ' ', '1', ' ', 'w', 'e', 'e', 'k']), (['n', 'e', 'x', 't', ' ', 'y', 'e', 'a', 'r'], ['i', 'n', ' ', '1', ' ', 'y', 'e', 'a', 'r']), (['t', 'h', 'i', 's', ' ', 'h', 'o', 'u', 'r'], ['0', ' ', 'h', 'o', 'u', 'r', ' ', 'a', 'g', 'o']), (['t', 'h', 'i', 's', ' ', 'w', 'e', 'e', 'k'], ['0', ' ', 'w', 'e', 'e', 'k', ' ', 'a', 'g', 'o']), (['t', 'h', 'i', 's', ' ', 'y', 'e', 'a', 'r'], ['0', ' ', 'y', 'e', 'a', 'r', ' ', 'a', 'g', 'o']), (['ⴰ', 'ⵙ', 'ⴽ', 'ⴽ', 'ⴰ'], ['i', 'n', ' ', '1', ' ', 'd', 'a', 'y']), (['ⵉ', 'ⴹ', 'ⵍ', 'ⵍ', 'ⵉ'], ['1', ' ', 'd', 'a', 'y', ' ', 'a', 'g', 'o']), (['ⴰ', 'ⵙ', 'ⵙ', 'ⴰ'], ['0', ' ', 'd', 'a', 'y', ' ', 'a', 'g', 'o']), (['n', 'o', 'w'], ['0', ' ', 's', 'e', 'c', 'o', 'n', 'd', ' ', 'a', 'g', 'o'])]

/-- internal/data/zh-hans.go: `zh_Hans_Locale`, dictionary. -/
def zh_HansDict : LangData where
  name := ['z', 'h', '-', 'H', 'a', 'n', 's']
  noWordSpacing := true
  splitterGroup := 4
  translations := [(['1', '0', '月'], [['o', 'c', 't', 'o', 'b', 'e', 'r']]), (['1', '1', '月'], [['n', 'o', 'v', 'e', 'm', 'b', 'e', 'r']]), (['1', '2', '月'], [['d', 'e', 'c', 'e', 'm', 'b', 'e', 'r']]), (['g', 'm', 't'], [['g', 'm', 't']]), (['u', 't', 'c'], [['u', 't', 'c']]), (['十', '一', '月'], [['n', 'o', 'v', 'e', 'm', 'b', 'e', 'r']]), (['十', '二', '月'], [['d', 'e', 'c', 'e', 'm', 'b', 'e', 'r']]), (['星', '期', '一'], [['m', 'o', 'n', 'd', 'a', 'y']]), (['星', '期', '三'], [['w', 'e', 'd', 'n', 'e', 's', 'd', 'a', 'y']]), (['星', '期', '二'], [['t', 'u', 'e', 's', 'd', 'a', 'y']]), (['星', '期', '五'], [['f', 'r', 'i', 'd', 'a', 'y']]), (['星', '期', '六'], [['s', 'a', 't', 'u', 'r', 'd', 'a', 'y']]), (['星', '期', '四'], [['t', 'h', 'u', 'r', 's', 'd', 'a', 'y']]), (['星', '期', '日'], [['s', 'u', 'n', 'd', 'a', 'y']]), (['1', '月'], [['j', 'a', 'n', 'u', 'a', 'r', 'y']]), (['2', '月'], [['f', 'e', 'b', 'r', 'u', 'a', 'r', 'y']]), (['3', '月'], [['m', 'a', 'r', 'c', 'h']]), (['4', '月'], [['a', 'p', 'r', 'i', 'l']]), (['5', '月'], [['m', 'a', 'y']]), (['6', '月'], [['j', 'u', 'n', 'e']]), (['7', '月'], [['j', 'u', 'l', 'y']]), (['8', '月'], [['a', 'u', 'g', 'u', 's', 't']]), (['9', '月'], [['s', 'e', 'p', 't', 'e', 'm', 'b', 'e', 'r']]), (['a', 'm'], [['a', 'm']]), (['p', 'm'], [['p', 'm']]), (['一', '月'], [['j', 'a', 'n', 'u', 'a', 'r', 'y']]), (['七', '月'], [['j', 'u', 'l', 'y']]), (['三', '月'], [['m', 'a', 'r', 'c', 'h']]), (['上', '午'], [['a', 'm']]), (['下', '午'], [['p', 'm']]), (['九', '月'], [['s', 'e', 'p', 't', 'e', 'm', 'b', 'e', 'r']]), (['二', '月'], [['f', 'e', 'b', 'r', 'u', 'a', 'r', 'y']]), (['五', '月'], [['m', 'a', 'y']]), (['八', '月'], [['a', 'u', 'g', 'u', 's', 't']]), (['六', '月'], [['j', 'u', 'n', 'e']]), (['分', '钟'], [['m', 'i', 'n', 'u', 't', 'e']]), (['十', '月'], [['o', 'c', 't', 'o', 'b', 'e', 'r']]), (['周', '一'], [['m', 'o', 'n', 'd', 'a', 'y']]), (['周', '三'], [['w', 'e', 'd', 'n', 'e', 's', 'd', 'a', 'y']]), (['周', '二'], [['t', 'u', 'e', 's', 'd', 'a', 'y']]), (['周', '五'], [['f', 'r', 'i', 'd', 'a', 'y']]), (['周', '六'], [['s', 'a', 't', 'u', 'r', 'd', 'a', 'y']]), (['周', '四'], [['t', 'h', 'u', 'r', 's', 'd', 'a', 'y']]), (['周', '日'], [['s', 'u', 'n', 'd', 'a', 'y']]), (['四', '月'], [['a', 'p', 'r', 'i', 'l']]), (['小', '时'], [['h', 'o', 'u', 'r']]), ([' '], [[' ']]), (['\''], [[]]), (['+'], [['+']]), ([','], [[]]), (['-'], [['-']]), (['.'], [['.']]), (['/'], [['/']]), ([':'], [[':']]), ([';'], [[]]), (['@'], [[]]), (['['], [[]]), ([']'], [[]]), (['z'], [['z']]), (['|'], [[]]), (['分'], [['m', 'i', 'n', 'u', 't', 'e']]), (['周'], [['w', 'e', 'e', 'k']]), (['年'], [['y', 'e', 'a', 'r']]), (['日'], [['d', 'a', 'y']]), (['月'], [['m', 'o', 'n', 't', 'h']]), (['秒'], [['s', 'e', 'c', 'o', 'n', 'd']])]
  relativeType := [(['这', '一', '时', '间', ' ', '/', ' ', '此', '时'], ['0', ' ', 'h', 'o', 'u', 'r', ' ', 'a', 'g', 'o']), (['这', '一', '时', '间'], ['0', ' ', 'h', 'o', 'u', 'r', ' ', 'a', 'g', 'o']), (['上', '个', '月'], ['1', ' ', 'm', 'o', 'n', 't', 'h', ' ', 'a', 'g', 'o']), (['下', '个', '月'], ['i', 'n', ' ', '1', ' ', 'm', 'o', 'n', 't', 'h']), (['上', '周'], ['1', ' ', 'w', 'e', 'e', 'k', ' ', 'a', 'g', 'o']), (['下', '周'], ['i', 'n', ' ', '1', ' ', 'w', 'e', 'e', 'k']), (['今', '天'], ['0', ' ', 'd', 'a', 'y', ' ', 'a', 'g', 'o']), (['今', '年'], ['0', ' ', 'y', 'e', 'a', 'r', ' ', 'a', 'g', 'o']), (['刚', '刚'], ['0', ' ', 's', 'e', 'c', 'o', 'n', 'd', ' ', 'a', 'g', 'o']), (['前', '天'], ['2', ' ', 'd', 'a', 'y', ' ', 'a', 'g', 'o']), (['去', '年'], ['1', ' ', 'y', 'e', 'a', 'r', ' ', 'a', 'g', 'o']), (['后', '天'], ['i', 'n', ' ', '2', ' ', 'd', 'a', 'y', 's']), (['明', '天'], ['i', 'n', ' ', '1', ' ', 'd', 'a', 'y']), (['明', '年'], ['i', 'n', ' ', '1', ' ', 'y', 'e', 'a', 'r']), (['昨', '天'], ['1', ' ', 'd', 'a', 'y', ' ', 'a', 'g', 'o']), (['本', '周'], ['0', ' ', 'w', 'e', 'e', 'k', ' ', 'a', 'g', 'o']), (['本', '月'], ['0', ' ', 'm', 'o', 'n', 't', 'h', ' ', 'a', 'g', 'o']), (['此', '刻'], ['0', ' ', 'm', 'i', 'n', 'u', 't', 'e', ' ', 'a', 'g', 'o']), (['此', '时'], ['0', ' ', 'h', 'o', 'u', 'r', ' ', 'a', 'g', 'o']), (['现', '在'], ['0', ' ', 's', 'e', 'c', 'o', 'n', 'd', ' ', 'a', 'g', 'o'])]

/-- internal/data/zh-hans.go: `zh_Hans_HK_Locale`, dictionary. -/
def zh_Hans_HKDict : LangData where
  name := ['z', 'h', '-', 'H', 'a', 'n', 's', '-', 'H', 'K']
  noWordSpacing := true

/-- internal/data/zh-hans.go: `zh_Hans_MO_Locale`, dictionary. -/
def zh_Hans_MODict : LangData where
  name := ['z', 'h', '-', 'H', 'a', 'n', 's', '-', 'M', 'O']
  noWordSpacing := true

/-- internal/data/zh-hans.go: `zh_Hans_SG_Locale`, dictionary. -/
def zh_Hans_SGDict : LangData where
  name := ['z', 'h', '-', 'H', 'a', 'n', 's', '-', 'S', 'G']
  noWordSpacing := true

/-- internal/data/zh-hant.go: `zh_Hant_Locale`, dictionary. -/
def zh_HantDict : LangData where
  name := ['z', 'h', '-', 'H', 'a', 'n', 't']
  noWordSpacing := true
  splitterGroup := 4
  translations := [(['1', '0', '月'], [['o', 'c', 't', 'o', 'b', 'e', 'r']]), (['1', '1', '月'], [['n', 'o', 'v', 'e', 'm', 'b', 'e', 'r']]), (['1', '2', '月'], [['d', 'e', 'c', 'e', 'm', 'b', 'e', 'r']]), (['g', 'm', 't'], [['g', 'm', 't']]), (['u', 't', 'c'], [['u', 't', 'c']]), (['星', '期', '一'], [['m', 'o', 'n', 'd', 'a', 'y']]), (['星', '期', '三'], [['w', 'e', 'd', 'n', 'e', 's', 'd', 'a', 'y']]), (['星', '期', '二'], [['t', 'u', 'e', 's', 'd', 'a', 'y']]), (['星', '期', '五'], [['f', 'r', 'i', 'd', 'a', 'y']]), (['星', '期', '六'], [['s', 'a', 't', 'u', 'r', 'd', 'a', 'y']]), (['星', '期', '四'], [['t', 'h', 'u', 'r', 's', 'd', 'a', 'y']]), (['星', '期', '日'], [['s', 'u', 'n', 'd', 'a', 'y']]), (['1', '月'], [['j', 'a', 'n', 'u', 'a', 'r', 'y']]), (['2', '月'], [['f', 'e', 'b', 'r', 'u', 'a', 'r', 'y']]), (['3', '月'], [['m', 'a', 'r', 'c', 'h']]), (['4', '月'], [['a', 'p', 'r', 'i', 'l']]), (['5', '月'], [['m', 'a', 'y']]), (['6', '月'], [['j', 'u', 'n', 'e']]), (['7', '月'], [['j', 'u', 'l', 'y']]), (['8', '月'], [['a', 'u', 'g', 'u', 's', 't']]), (['9', '月'], [['s', 'e', 'p', 't', 'e', 'm', 'b', 'e', 'r']]), (['a', 'm'], [['a', 'm']]), (['p', 'm'], [['p', 'm']]), (['上', '午'], [['a', 'm']]), (['下', '午'], [['p', 'm']]), (['分', '鐘'], [['m', 'i', 'n', 'u', 't', 'e']]), (['小', '時'], [['h', 'o', 'u', 'r']]), (['週', '一'], [['m', 'o', 'n', 'd', 'a', 'y']]), (['週', '三'], [['w', 'e', 'd', 'n', 'e', 's', 'd', 'a', 'y']]), (['週', '二'], [['t', 'u', 'e', 's', 'd', 'a', 'y']]), (['週', '五'], [['f', 'r', 'i', 'd', 'a', 'y']]), (['週', '六'], [['s', 'a', 't', 'u', 'r', 'd', 'a', 'y']]), (['週', '四'], [['t', 'h', 'u', 'r', 's', 'd', 'a', 'y']]), (['週', '日'], [['s', 'u', 'n', 'd', 'a', 'y']]), ([' '], [[' ']]), (['\''], [[]]), (['+'], [['+']]), ([','], [[]]), (['-'], [['-']]), (['.'], [['.']]), (['/'], [['/']]), ([':'], [[':']]), ([';'], [[]]), (['@'], [[]]), (['['], [[]]), ([']'], [[]]), (['z'], [['z']]), (['|'], [[]]), (['年'], [['y', 'e', 'a', 'r']]), (['日'], [['d', 'a', 'y']]), (['月'], [['m', 'o', 'n', 't', 'h']]), (['秒'], [['s', 'e', 'c', 'o', 'n', 'd']]), (['週'], [['w', 'e', 'e', 'k']])]
  relativeType := [(['這', '一', '分', '鐘'], ['0', ' ', 'm', 'i', 'n', 'u', 't', 'e', ' ', 'a', 'g', 'o']), (['這', '一', '小', '時'], ['0', ' ', 'h', 'o', 'u', 'r', ' ', 'a', 'g', 'o']), (['上', '個', '月'], ['1', ' ', 'm', 'o', 'n', 't', 'h', ' ', 'a', 'g', 'o']), (['下', '個', '月'], ['i', 'n', ' ', '1', ' ', 'm', 'o', 'n', 't', 'h']), (['上', '週'], ['1', ' ', 'w', 'e', 'e', 'k', ' ', 'a', 'g', 'o']), (['下', '週'], ['i', 'n', ' ', '1', ' ', 'w', 'e', 'e', 'k']), (['今', '天'], ['0', ' ', 'd', 'a', 'y', ' ', 'a', 'g', 'o']), (['今', '年'], ['0', ' ', 'y', 'e', 'a', 'r', ' ', 'a', 'g', 'o']), (['去', '年'], ['1', ' ', 'y', 'e', 'a', 'r', ' ', 'a', 'g', 'o']), (['明', '天'], ['i', 'n', ' ', '1', ' ', 'd', 'a', 'y']), (['明', '年'], ['i', 'n', ' ', '1', ' ', 'y', 'e', 'a', 'r']), (['昨', '天'], ['1', ' ', 'd', 'a', 'y', ' ', 'a', 'g', 'o']), (['本', '月'], ['0', ' ', 'm', 'o', 'n', 't', 'h', ' ', 'a', 'g', 'o']), (['本', '週'], ['0', ' ', 'w', 'e', 'e', 'k', ' ', 'a', 'g', 'o']), (['現', '在'], ['0', ' ', 's', 'e', 'c', 'o', 'n', 'd', ' ', 'a', 'g', 'o'])]

/-- internal/data/zh-hant.go: `zh_Hant_HK_Locale`, dictionary. -/
def zh_Hant_HKDict : LangData where
  name := ['z', 'h', '-', 'H', 'a', 'n', 't', '-', 'H', 'K']
  noWordSpacing := true
  translations := [(['星', '期'], [['w', 'e', 'e', 'k']]), (['分'], [['m', 'i', 'n', 'u', 't', 'e']]), (['時'], [['h', 'o', 'u', 'r']])]
  relativeType := [(['這', '個', '小', '時'], ['0', ' ', 'h', 'o', 'u', 'r', ' ', 'a', 'g', 'o']), (['上', '星', '期'], ['1', ' ', 'w', 'e', 'e', 'k', ' ', 'a', 'g', 'o']), (['下', '星', '期'], ['i', 'n', ' ', '1', ' ', 'w', 'e', 'e', 'k']), (['本', '星', '期'], ['0', ' ', 'w', 'e', 'e', 'k', ' ', 'a', 'g', 'o']), (['這', '分', '鐘'], ['0', ' ', 'm', 'i', 'n', 'u', 't', 'e', ' ', 'a', 'g', 'o']), (['上', '年'], ['1', ' ', 'y', 'e', 'a', 'r', ' ', 'a', 'g', 'o']), (['上', '月'], ['1', ' ', 'm', 'o', 'n', 't', 'h', ' ', 'a', 'g', 'o']), (['下', '年'], ['i', 'n', ' ', '1', ' ', 'y', 'e', 'a', 'r']), (['下', '月'], ['i', 'n', ' ', '1', ' ', 'm', 'o', 'n', 't', 'h']), (['今', '日'], ['0', ' ', 'd', 'a', 'y', ' ', 'a', 'g', 'o']), (['明', '日'], ['i', 'n', ' ', '1', ' ', 'd', 'a', 'y']), (['昨', '日'], ['1', ' ', 'd', 'a', 'y', ' ', 'a', 'g', 'o'])]

/-- internal/data/zh-hant.go: `zh_Hant_MO_Locale`, dictionary. -/
def zh_Hant_MODict : LangData where
  name := ['z', 'h', '-', 'H', 'a', 'n', 't', '-', 'M', 'O']
  noWordSpacing := true
  translations := [(['星', '期'], [['w', 'e', 'e', 'k']]), (['分'], [['m', 'i', 'n', 'u', 't', 'e']]), (['時'], [['h', 'o', 'u', 'r']])]
  relativeType := [(['這', '個', '小', '時'], ['0', ' ', 'h', 'o', 'u', 'r', ' ', 'a', 'g', 'o']), (['上', '星', '期'], ['1', ' ', 'w', 'e', 'e', 'k', ' ', 'a', 'g', 'o']), (['下', '星', '期'], ['i', 'n', ' ', '1', ' ', 'w', 'e', 'e', 'k']), (['本', '星', '期'], ['0', ' ', 'w', 'e', 'e', 'k', ' ', 'a', 'g', 'o']), (['這', '分', '鐘'], ['0', ' ', 'm', 'i', 'n', 'u', 't', 'e', ' ', 'a', 'g', 'o']), (['上', '年'], ['1', ' ', 'y', 'e', 'a', 'r', ' ', 'a', 'g', 'o']), (['上', '月'], ['1', ' ', 'm', 'o', 'n', 't', 'h', ' ', 'a', 'g', 'o']), (['下', '年'], ['i', 'n', ' ', '1', ' ', 'y', 'e', 'a', 'r']), (['下', '月'], ['i', 'n', ' ', '1', ' ', 'm', 'o', 'n', 't', 'h']), (['今', '日'], ['0', ' ', 'd', 'a', 'y', ' ', 'a', 'g', 'o']), (['明', '日'], ['i', 'n', ' ', '1', ' ', 'd', 'a', 'y']), (['昨', '日'], ['1', ' ', 'd', 'a', 'y', ' ', 'a', 'g', 'o'])]

/-- internal/data/zh.go: `zh_Locale`, dictionary. -/
def zhDict : LangData where
  name := ['z', 'h']
  noWordSpacing := true
  splitterGroup := 4
  translations := [(['1', '0', '月'], [['o', 'c', 't', 'o', 'b', 'e', 'r']]), (['1', '1', '月'], [['n', 'o', 'v', 'e', 'm', 'b', 'e', 'r']]), (['1', '2', '月'], [['d', 'e', 'c', 'e', 'm', 'b', 'e', 'r']]), (['g', 'm', 't'], [['g', 'm', 't']]), (['u', 't', 'c'], [['u', 't', 'c']]), (['十', '一', '月'], [['n', 'o', 'v', 'e', 'm', 'b', 'e', 'r']]), (['十', '二', '月'], [['d', 'e', 'c', 'e', 'm', 'b', 'e', 'r']]), (['星', '期', '一'], [['m', 'o', 'n', 'd', 'a', 'y']]), (['星', '期', '三'], [['w', 'e', 'd', 'n', 'e', 's', 'd', 'a', 'y']]), (['星', '期', '二'], [['t', 'u', 'e', 's', 'd', 'a', 'y']]), (['星', '期', '五'], [['f', 'r', 'i', 'd', 'a', 'y']]), (['星', '期', '六'], [['s', 'a', 't', 'u', 'r', 'd', 'a', 'y']]), (['星', '期', '四'], [['t', 'h', 'u', 'r', 's', 'd', 'a', 'y']]), (['星', '期', '天'], [['s', 'u', 'n', 'd', 'a', 'y']]), (['星', '期', '日'], [['s', 'u', 'n', 'd', 'a', 'y']]), (['礼', '拜', '一'], [['m', 'o', 'n', 'd', 'a', 'y']]), (['礼', '拜', '三'], [['w', 'e', 'd', 'n', 'e', 's', 'd', 'a', 'y']]), (['礼', '拜', '二'], [['t', 'u', 'e', 's', 'd', 'a', 'y']]), (['礼', '拜', '五'], [['f', 'r', 'i', 'd', 'a', 'y']]), (['礼', '拜', '六'], [['s', 'a', 't', 'u', 'r', 'd', 'a', 'y']]), (['礼', '拜', '四'], [['t', 'h', 'u', 'r', 's', 'd', 'a', 'y']]), (['礼', '拜', '天'], [['s', 'u', 'n', 'd', 'a', 'y']]), (['礼', '拜', '日'], [['s', 'u', 'n', 'd', 'a', 'y']]), (['1', '月'], [['j', 'a', 'n', 'u', 'a', 'r', 'y']]), (['2', '月'], [['f', 'e', 'b', 'r', 'u', 'a', 'r', 'y']]), (['3', '月'], [['m', 'a', 'r', 'c', 'h']]), (['4', '月'], [['a', 'p', 'r', 'i', 'l']]), (['5', '月'], [['m', 'a', 'y']]), (['6', '月'], [['j', 'u', 'n', 'e']]), (['7', '月'], [['j', 'u', 'l', 'y']]), (['8', '月'], [['a', 'u', 'g', 'u', 's', 't']]), (['9', '月'], [['s', 'e', 'p', 't', 'e', 'm', 'b', 'e', 'r']]), (['a', 'm'], [['a', 'm']]), (['p', 'm'], [['p', 'm']]), (['一', '月'], [['j', 'a', 'n', 'u', 'a', 'r', 'y']]), (['七', '月'], [['j', 'u', 'l', 'y']]), (['三', '月'], [['m', 'a', 'r', 'c', 'h']]), (['上', '午'], [['a', 'm']]), (['下', '午'], [['p', 'm']]), (['个', '月'], [['m', 'o', 'n', 't', 'h']]), (['九', '月'], [['s', 'e', 'p', 't', 'e', 'm', 'b', 'e', 'r']]), (['二', '月'], [['f', 'e', 'b', 'r', 'u', 'a', 'r', 'y']]), (['五', '月'], [['m', 'a', 'y']]), (['個', '月'], [['m', 'o', 'n', 't', 'h']]), (['八', '月'], [['a', 'u', 'g', 'u', 's', 't']]), (['六', '月'], [['j', 'u', 'n', 'e']]), (['分', '钟'], [['m', 'i', 'n', 'u', 't', 'e']]), (['十', '月'], [['o', 'c', 't', 'o', 'b', 'e', 'r']]), (['周', '一'], [['m', 'o', 'n', 'd', 'a', 'y']]), (['周', '三'], [['w', 'e', 'd', 'n', 'e', 's', 'd', 'a', 'y']]), (['周', '二'], [['t', 'u', 'e', 's', 'd', 'a', 'y']]), (['周', '五'], [['f', 'r', 'i', 'd', 'a', 'y']]), (['周', '六'], [['s', 'a', 't', 'u', 'r', 'd', 'a', 'y']]), (['周', '四'], [['t', 'h', 'u', 'r', 's', 'd', 'a', 'y']]), (['周', '日'], [['s', 'u', 'n', 'd', 'a', 'y']]), (['四', '月'], [['a', 'p', 'r', 'i', 'l']]), (['小', '时'], [['h', 'o', 'u', 'r']]), (['星', '期'], [['w', 'e', 'e', 'k']]), ([' '], [[' ']]), (['\''], [[]]), (['+'], [['+']]), ([','], [[]]), (['-'], [['-']]), (['.'], [['.']]), (['/'], [['/']]), ([':'], [[':']]), ([';'], [[]]), (['@'], [[]]), (['['], [[]]), ([']'], [[]]), (['z'], [['z']]), (['|'], [[]]), (['分'], [['m', 'i', 'n', 'u', 't', 'e']]), (['前'], [['a', 'g', 'o']]), (['周'], [['w', 'e', 'e', 'k']]), (['在'], [['i', 'n']]), (['天'], [['d', 'a', 'y']]), (['年'], [['y', 'e', 'a', 'r']]), (['日'], [['d', 'a', 'y']]), (['月'], [['m', 'o', 'n', 't', 'h']]), (['秒'], [['s', 'e', 'c', 'o', 'n', 'd']]), (['约'], [[]])]
  relativeType := [(['这', '一', '时', '间', ' ', '/', ' ', '此', '时'], ['0', ' ', 'h', 'o', 'u', 'r', ' ', 'a', 'g', 'o']), (['这', '一', '时', '间'], ['0', ' ', 'h', 'o', 'u', 'r', ' ', 'a', 'g', 'o']), (['上', '个', '月'], ['1', ' ', 'm', 'o', 'n', 't', 'h', ' ', 'a', 'g', 'o']), (['下', '个', '月'], ['i', 'n', ' ', '1', ' ', 'm', 'o', 'n', 't', 'h']), (['上', '周'], ['1', ' ', 'w', 'e', 'e', 'k', ' ', 'a', 'g', 'o']), (['下', '周'], ['i', 'n', ' ', '1', ' ', 'w', 'e', 'e', 'k']), (['今', '天'], ['0', ' ', 'd', 'a', 'y', ' ', 'a', 'g', 'o']), (['今', '年'], ['0', ' ', 'y', 'e', 'a', 'r', ' ', 'a', 'g', 'o']), (['刚', '刚'], ['0', ' ', 's', 'e', 'c', 'o', 'n', 'd', ' ', 'a', 'g', 'o']), (['前', '天'], ['2', ' ', 'd', 'a', 'y', ' ', 'a', 'g', 'o']), (['去', '年'], ['1', ' ', 'y', 'e', 'a', 'r', ' ', 'a', 'g', 'o']), (['后', '天'], ['i', 'n', ' ', '2', ' ', 'd', 'a', 'y', 's']), (['明', '天'], ['i', 'n', ' ', '1', ' ', 'd', 'a', 'y']), (['明', '年'], ['i', 'n', ' ', '1', ' ', 'y', 'e', 'a', 'r']), (['昨', '天'], ['1', ' ', 'd', 'a', 'y', ' ', 'a', 'g', 'o']), (['本', '周'], ['0', ' ', 'w', 'e', 'e', 'k', ' ', 'a', 'g', 'o']), (['本', '月'], ['0', ' ', 'm', 'o', 'n', 't', 'h', ' ', 'a', 'g', 'o']), (['此', '刻'], ['0', ' ', 'm', 'i', 'n', 'u', 't', 'e', ' ', 'a', 'g', 'o']), (['此', '时'], ['0', ' ', 'h', 'o', 'u', 'r', ' ', 'a', 'g', 'o']), (['现', '在'], ['0', ' ', 's', 'e', 'c', 'o', 'n', 'd', ' ', 'a', 'g', 'o'])]

/-- internal/data/zu.go: `zu_Locale`, dictionary. -/
def zuDict : LangData where
  name := ['z', 'u']
  translations := [(['u', 'l', 'w', 'e', 's', 'i', 't', 'h', 'a', 't', 'h', 'u'], [['w', 'e', 'd', 'n', 'e', 's', 'd', 'a', 'y']]), (['u', 'l', 'w', 'e', 's', 'i', 'h', 'l', 'a', 'n', 'u'], [['f', 'r', 'i', 'd', 'a', 'y']]), (['u', 'm', 's', 'o', 'm', 'b', 'u', 'l', 'u', 'k', 'o'], [['m', 'o', 'n', 'd', 'a', 'y']]), (['u', 'l', 'w', 'e', 's', 'i', 'b', 'i', 'l', 'i'], [['t', 'u', 'e', 's', 'd', 'a', 'y']]), (['u', 'm', 'a', 's', 'i', 'n', 'g', 'a', 'n', 'a'], [['j', 'a', 'n', 'u', 'a', 'r', 'y']]), (['f', 'e', 'b', 'r', 'u', 'w', 'a', 'r', 'i'], [['f', 'e', 'b', 'r', 'u', 'a', 'r', 'y']]), (['i', 's', 'e', 'k', 'h', 'o', 'n', 'd', 'i'], [['s', 'e', 'c', 'o', 'n', 'd']]), (['s', 'e', 'p', 't', 'h', 'e', 'm', 'b', 'a'], [['s', 'e', 'p', 't', 'e', 'm', 'b', 'e', 'r']]), (['u', 'm', 'g', 'q', 'i', 'b', 'e', 'l', 'o'], [['s', 'a', 't', 'u', 'r', 'd', 'a', 'y']]), (['i', 'm', 'i', 'n', 'i', 't', 'h', 'i'], [['m', 'i', 'n', 'u', 't', 'e']]), (['j', 'a', 'n', 'u', 'w', 'a', 'r', 'i'], [['j', 'a', 'n', 'u', 'a', 'r', 'y']]), (['u', 'l', 'w', 'e', 's', 'i', 'n', 'e'], [['t', 'h', 'u', 'r', 's', 'd', 'a', 'y']]), (['d', 'i', 's', 'e', 'm', 'b', 'a'], [['d', 'e', 'c', 'e', 'm', 'b', 'e', 'r']]), (['e', 'p', 'h', 'r', 'e', 'l', 'i'], [['a', 'p', 'r', 'i', 'l']]), (['i', 'n', 'y', 'a', 'n', 'g', 'a'], [['m', 'o', 'n', 't', 'h']]), (['n', 'o', 'v', 'e', 'm', 'b', 'a'], [['n', 'o', 'v', 'e', 'm', 'b', 'e', 'r']]), (['o', 'k', 't', 'h', 'o', 'b', 'a'], [['o', 'c', 't', 'o', 'b', 'e', 'r']]), (['a', 'g', 'a', 's', 't', 'i'], [['a', 'u', 'g', 'u', 's', 't']]), (['i', 's', 'o', 'n', 't', 'o'], [['s', 'u', 'n', 'd', 'a', 'y']]), (['j', 'u', 'l', 'a', 'y', 'i'], [['j', 'u', 'l', 'y']]), (['u', 'n', 'y', 'a', 'k', 'a'], [['y', 'e', 'a', 'r']]), (['i', 'h', 'o', 'r', 'a'], [['h', 'o', 'u', 'r']]), (['i', 'v', 'i', 'k', 'i'], [['w', 'e', 'e', 'k']]), (['m', 'a', 's', 'h', 'i'], [['m', 'a', 'r', 'c', 'h']]), (['u', 's', 'u', 'k', 'u'], [['d', 'a', 'y']]), (['j', 'u', 'n', 'i'], [['j', 'u', 'n', 'e']]), (['m', 'e', 'y', 'i'], [['m', 'a', 'y']]), (['a', 'g', 'a'], [['a', 'u', 'g', 'u', 's', 't']]), (['b', 'i', 'l'], [['t', 'u', 'e', 's', 'd', 'a', 'y']]), (['d', 'i', 's'], [['d', 'e', 'c', 'e', 'm', 'b', 'e', 'r']]), (['e', 'p', 'h'], [['a', 'p', 'r', 'i', 'l']]), (['f', 'e', 'b'], [['f', 'e', 'b', 'r', 'u', 'a', 'r', 'y']]), (['g', 'm', 't'], [['g', 'm', 't']]), (['h', 'l', 'a'], [['f', 'r', 'i', 'd', 'a', 'y']]), (['j', 'a', 'n'], [['j', 'a', 'n', 'u', 'a', 'r', 'y']]), (['j', 'u', 'l'], [['j', 'u', 'l', 'y']]), (['j', 'u', 'n'], [['j', 'u', 'n', 'e']]), (['m', 'a', 's'], [['m', 'a', 'r', 'c', 'h']]), (['m', 'e', 'y'], [['m', 'a', 'y']]), (['m', 'g', 'q'], [['s', 'a', 't', 'u', 'r', 'd', 'a', 'y']]), (['m', 's', 'o'], [['m', 'o', 'n', 'd', 'a', 'y']]), (['n', 'o', 'v'], [['n', 'o', 'v', 'e', 'm', 'b', 'e', 'r']]), (['o', 'k', 't'], [['o', 'c', 't', 'o', 'b', 'e', 'r']]), (['s', 'e', 'p'], [['s', 'e', 'p', 't', 'e', 'm', 'b', 'e', 'r']]), (['s', 'i', 'n'], [['t', 'h', 'u', 'r', 's', 'd', 'a', 'y']]), (['s', 'o', 'n'], [['s', 'u', 'n', 'd', 'a', 'y']]), (['t', 'h', 'a'], [['w', 'e', 'd', 'n', 'e', 's', 'd', 'a', 'y']]), (['u', 't', 'c'], [['u', 't', 'c']]), (['a', 'm'], [['a', 'm']]), (['p', 'm'], [['p', 'm']]), ([' '], [[' ']]), (['\''], [[]]), (['+'], [['+']]), ([','], [[]]), (['-'], [['-']]), (['.'], [['.']]), (['/'], [['/']]), ([':'], [[':']]), ([';'], [[]]), (['@'], [[]]), (['['], [[]]), ([']'], [[]]), (['z'], [['z']]), (['|'], [[]])]
  relativeType := [(['o', 'n', 'y', 'a', 'k', 'e', 'n', 'i', ' ', 'o', 'd', 'l', 'u', 'l', 'e'], ['1', ' ', 'y', 'e', 'a', 'r', ' ', 'a', 'g', 'o']), (['i', 'n', 'y', 'a', 'n', 'g', 'a', ' ', 'e', 'd', 'l', 'u', 'l', 'e'], ['1', ' ', 'm', 'o', 'n', 't', 'h', ' ', 'a', 'g', 'o']), (['i', 'v', 'i', 'k', 'i', ' ', 'e', 'l', 'e', 'd', 'l', 'u', 'l', 'e'], ['1', ' ', 'w', 'e', 'e', 'k', ' ', 'a', 'g', 'o']), (['i', 'n', 'y', 'a', 'n', 'g', 'a', ' ', 'e', 'z', 'a', 'y', 'o'], ['i', 'n', ' ', '1', ' ', 'm', 'o', 'n', 't', 'h']), (['i', 'v', 'i', 'k', 'i', ' ', 'e', 'l', 'i', 'z', 'a', 'y', 'o'], ['i', 'n', ' ', '1', ' ', 'w', 'e', 'e', 'k']), (['l', 'e', 'l', 'i', ' ', 'm', 'i', 'n', 'i', 't', 'h', 'i'], ['0', ' ', 'm', 'i', 'n', 'u', 't', 'e', ' ', 'a', 'g', 'o']), (['u', 'n', 'y', 'a', 'k', 'a', ' ', 'o', 'z', 'a', 'y', 'o'], ['i', 'n', ' ', '1', ' ', 'y', 'e', 'a', 'r']), (['k', 'u', 'l', 'o', ' ', 'n', 'y', 'a', 'k', 'a'], ['0', ' ', 'y', 'e', 'a', 'r', ' ', 'a', 'g', 'o']), (['l', 'e', ' ', 'n', 'y', 'a', 'n', 'g', 'a'], ['0', ' ', 'm', 'o', 'n', 't', 'h', ' ', 'a', 'g', 'o']), (['l', 'e', 'l', 'i', ' ', 'h', 'o', 'r', 'a'], ['0', ' ', 'h', 'o', 'u', 'r', ' ', 'a', 'g', 'o']), (['l', 'e', 'l', 'i', ' ', 'v', 'i', 'k', 'i'], ['0', ' ', 'w', 'e', 'e', 'k', ' ', 'a', 'g', 'o']), (['n', 'a', 'm', 'h', 'l', 'a', 'n', 'j', 'e'], ['0', ' ', 'd', 'a', 'y', ' ', 'a', 'g', 'o']), (['k', 'u', 's', 'a', 's', 'a'], ['i', 'n', ' ', '1', ' ', 'd', 'a', 'y']), (['i', 'z', 'o', 'l', 'o'], ['1', ' ', 'd', 'a', 'y', ' ', 'a', 'g', 'o']), (['m', 'a', 'n', 'j', 'e'], ['0', ' ', 's', 'e', 'c', 'o', 'n', 'd', ' ', 'a', 'g', 'o'])]

end Verif.Data
