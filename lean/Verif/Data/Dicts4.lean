import Verif.Model.Pattern
/-! GENERATED by tools/gen_dicts.py from /repo/internal/data; do not edit. -/
set_option autoImplicit false
set_option maxRecDepth 100000
namespace Verif.Data
open Verif.Model

/-- internal/data/id.go: `id_Locale`, dictionary. -/
def idDict : LangData where
  name := ['i', 'd']
  splitterGroup := 1
  translations := [(['s', 'e', 'p', 't', 'e', 'm', 'b', 'e', 'r'], [['s', 'e', 'p', 't', 'e', 'm', 'b', 'e', 'r']]), (['d', 'e', 's', 'e', 'm', 'b', 'e', 'r'], [['d', 'e', 'c', 'e', 'm', 'b', 'e', 'r']]), (['f', 'e', 'b', 'r', 'u', 'a', 'r', 'i'], [['f', 'e', 'b', 'r', 'u', 'a', 'r', 'y']]), (['n', 'o', 'v', 'e', 'm', 'b', 'e', 'r'], [['n', 'o', 'v', 'e', 'm', 'b', 'e', 'r']]), (['a', 'g', 'u', 's', 't', 'u', 's'], [['a', 'u', 'g', 'u', 's', 't']]), (['j', 'a', 'n', 'u', 'a', 'r', 'i'], [['j', 'a', 'n', 'u', 'a', 'r', 'y']]), (['o', 'k', 't', 'o', 'b', 'e', 'r'], [['o', 'c', 't', 'o', 'b', 'e', 'r']]), (['t', 'a', 'n', 'g', 'g', 'a', 'l'], [[]]), (['m', 'i', 'n', 'g', 'g', 'u'], [['w', 'e', 'e', 'k'], ['s', 'u', 'n', 'd', 'a', 'y']]), (['s', 'e', 'l', 'a', 's', 'a'], [['t', 'u', 'e', 's', 'd', 'a', 'y']]), (['a', 'p', 'r', 'i', 'l'], [['a', 'p', 'r', 'i', 'l']]), (['b', 'u', 'l', 'a', 'n'], [['m', 'o', 'n', 't', 'h']]), (['d', 'a', 'l', 'a', 'm'], [['i', 'n']]), (['d', 'e', 't', 'i', 'k'], [['s', 'e', 'c', 'o', 'n', 'd']]), (['j', 'u', 'm', 'a', 't'], [['f', 'r', 'i', 'd', 'a', 'y']]), (['k', 'a', 'm', 'i', 's'], [['t', 'h', 'u', 'r', 's', 'd', 'a', 'y']]), (['m', 'a', 'r', 'e', 't'], [['m', 'a', 'r', 'c', 'h']]), (['m', 'e', 'n', 'i', 't'], [['m', 'i', 'n', 'u', 't', 'e']]), (['p', 'u', 'k', 'u', 'l'], [[]]), (['s', 'a', 'b', 't', 'u'], [['s', 'a', 't', 'u', 'r', 'd', 'a', 'y']]), (['s', 'e', 'n', 'i', 'n'], [['m', 'o', 'n', 'd', 'a', 'y']]), (['t', 'a', 'h', 'u', 'n'], [['y', 'e', 'a', 'r']]), (['a', 'h', 'a', 'd'], [['s', 'u', 'n', 'd', 'a', 'y']]), (['h', 'a', 'r', 'i'], [['d', 'a', 'y']]), (['j', 'u', 'l', 'i'], [['j', 'u', 'l', 'y']]), (['j', 'u', 'n', 'i'], [['j', 'u', 'n', 'e']]), (['l', 'a', 'l', 'u'], [['a', 'g', 'o']]), (['r', 'a', 'b', 'u'], [['w', 'e', 'd', 'n', 'e', 's', 'd', 'a', 'y']]), (['s', 'e', 'p', 't'], [['s', 'e', 'p', 't', 'e', 'm', 'b', 'e', 'r']]), (['y', 'a', 'n', 'g'], [[]]), (['a', 'g', 't'], [['a', 'u', 'g', 'u', 's', 't']]), (['a', 'g', 'u'], [['a', 'u', 'g', 'u', 's', 't']]), (['a', 'p', 'r'], [['a', 'p', 'r', 'i', 'l']]), (['b', 'l', 'n'], [['m', 'o', 'n', 't', 'h']]), (['d', 'e', 's'], [['d', 'e', 'c', 'e', 'm', 'b', 'e', 'r']]), (['d', 't', 'k'], [['s', 'e', 'c', 'o', 'n', 'd']]), (['f', 'e', 'b'], [['f', 'e', 'b', 'r', 'u', 'a', 'r', 'y']]), (['g', 'm', 't'], [['g', 'm', 't']]), (['j', 'a', 'm'], [['h', 'o', 'u', 'r']]), (['j', 'a', 'n'], [['j', 'a', 'n', 'u', 'a', 'r', 'y']]), (['j', 'u', 'l'], [['j', 'u', 'l', 'y']]), (['j', 'u', 'm'], [['f', 'r', 'i', 'd', 'a', 'y']]), (['j', 'u', 'n'], [['j', 'u', 'n', 'e']]), (['k', 'a', 'm'], [['t', 'h', 'u', 'r', 's', 'd', 'a', 'y']]), (['m', 'a', 'r'], [['m', 'a', 'r', 'c', 'h']]), (['m', 'e', 'i'], [['m', 'a', 'y']]), (['m', 'g', 'g'], [['w', 'e', 'e', 'k']]), (['m', 'i', 'n'], [['s', 'u', 'n', 'd', 'a', 'y']]), (['m', 'n', 't'], [['m', 'i', 'n', 'u', 't', 'e']]), (['n', 'o', 'v'], [['n', 'o', 'v', 'e', 'm', 'b', 'e', 'r']]), (['o', 'k', 't'], [['o', 'c', 't', 'o', 'b', 'e', 'r']]), (['r', 'a', 'b'], [['w', 'e', 'd', 'n', 'e', 's', 'd', 'a', 'y']]), (['s', 'a', 'b'], [['s', 'a', 't', 'u', 'r', 'd', 'a', 'y']]), (['s', 'e', 'l'], [['t', 'u', 'e', 's', 'd', 'a', 'y']]), (['s', 'e', 'n'], [['m', 'o', 'n', 'd', 'a', 'y']]), (['s', 'e', 'p'], [['s', 'e', 'p', 't', 'e', 'm', 'b', 'e', 'r']]), (['t', 'h', 'n'], [['y', 'e', 'a', 'r']]), (['u', 't', 'c'], [['u', 't', 'c']]), (['a', 'm'], [['a', 'm']]), (['p', 'm'], [['p', 'm']]), ([' '], [[' ']]), (['\''], [[]]), (['+'], [['+']]), ([','], [[]]), (['-'], [['-']]), (['.'], [['.']]), (['/'], [['/']]), ([':'], [[':']]), ([';'], [[]]), (['@'], [[]]), (['['], [[]]), ([']'], [[]]), (['d'], [['s', 'e', 'c', 'o', 'n', 'd']]), (['h'], [['d', 'a', 'y']]), (['j'], [['h', 'o', 'u', 'r']]), (['m'], [['m', 'i', 'n', 'u', 't', 'e']]), (['z'], [['z']]), (['|'], [[]])]
  relativeType := [(['b', 'u', 'l', 'a', 'n', ' ', 'b', 'e', 'r', 'i', 'k', 'u', 't', 'n', 'y', 'a'], ['i', 'n', ' ', '1', ' ', 'm', 'o', 'n', 't', 'h']), (['k', 'e', 'm', 'a', 'r', 'i', 'n', ' ', 'l', 'u', 's', 'a'], ['2', ' ', 'd', 'a', 'y', ' ', 'a', 'g', 'o']), (['m', 'i', 'n', 'g', 'g', 'u', ' ', 'd', 'e', 'p', 'a', 'n'], ['i', 'n', ' ', '1', ' ', 'w', 'e', 'e', 'k']), (['m', 'i', 'n', 'g', 'g', 'u', ' ', 'l', 'a', 'l', 'u'], ['1', ' ', 'w', 'e', 'e', 'k', ' ', 'a', 'g', 'o']), (['t', 'a', 'h', 'u', 'n', ' ', 'd', 'e', 'p', 'a', 'n'], ['i', 'n', ' ', '1', ' ', 'y', 'e', 'a', 'r']), (['b', 'u', 'l', 'a', 'n', ' ', 'l', 'a', 'l', 'u'], ['1', ' ', 'm', 'o', 'n', 't', 'h', ' ', 'a', 'g', 'o']), (['m', 'i', 'n', 'g', 'g', 'u', ' ', 'i', 'n', 'i'], ['0', ' ', 'w', 'e', 'e', 'k', ' ', 'a', 'g', 'o']), (['t', 'a', 'h', 'u', 'n', ' ', 'l', 'a', 'l', 'u'], ['1', ' ', 'y', 'e', 'a', 'r', ' ', 'a', 'g', 'o']), (['b', 'a', 'r', 'u', ' ', 's', 'a', 'j', 'a'], ['0', ' ', 's', 'e', 'c', 'o', 'n', 'd', ' ', 'a', 'g', 'o']), (['b', 'u', 'l', 'a', 'n', ' ', 'i', 'n', 'i'], ['0', ' ', 'm', 'o', 'n', 't', 'h', ' ', 'a', 'g', 'o']), (['m', 'e', 'n', 'i', 't', ' ', 'i', 'n', 'i'], ['0', ' ', 'm', 'i', 'n', 'u', 't', 'e', ' ', 'a', 'g', 'o']), (['t', 'a', 'h', 'u', 'n', ' ', 'i', 'n', 'i'], ['0', ' ', 'y', 'e', 'a', 'r', ' ', 'a', 'g', 'o']), (['h', 'a', 'r', 'i', ' ', 'i', 'n', 'i'], ['0', ' ', 'd', 'a', 'y', ' ', 'a', 'g', 'o']), (['s', 'e', 'k', 'a', 'r', 'a', 'n', 'g'], ['0', ' ', 's', 'e', 'c', 'o', 'n', 'd', ' ', 'a', 'g', 'o']), (['s', 'e', 'm', 'i', 'n', 'g', 'g', 'u'], ['1', ' ', 'w', 'e', 'e', 'k']), (['j', 'a', 'm', ' ', 'i', 'n', 'i'], ['0', ' ', 'h', 'o', 'u', 'r', ' ', 'a', 'g', 'o']), (['k', 'e', 'm', 'a', 'r', 'i', 'n'], ['1', ' ', 'd', 'a', 'y', ' ', 'a', 'g', 'o']), (['s', 'e', 'b', 'u', 'l', 'a', 'n'], ['1', ' ', 'm', 'o', 'n', 't', 'h']), (['s', 'e', 't', 'a', 'h', 'u', 'n'], ['1', ' ', 'y', 'e', 'a', 'r']), (['m', 'i', 'n', 'g', 'g', 'u'], ['s', 'u', 'n', 'd', 'a', 'y']), (['s', 'e', 'h', 'a', 'r', 'i'], ['1', ' ', 'd', 'a', 'y']), (['b', 'e', 's', 'o', 'k'], ['i', 'n', ' ', '1', ' ', 'd', 'a', 'y'])]

/-- internal/data/ig.go: `ig_Locale`, dictionary. -/
def igDict : LangData where
  name := ['i', 'g']
  translations := [(['f', 'e', 'b', 'r', 'u', 'w', 'a', 'r', 'i'], [['f', 'e', 'b', 'r', 'u', 'a', 'r', 'y']]), (['m', 'b', 'o', 's', 'i', ' ', 'u', 'k', 'a'], [['s', 'u', 'n', 'd', 'a', 'y']]), (['j', 'e', 'n', 'u', 'w', 'a', 'r', 'i'], [['j', 'a', 'n', 'u', 'a', 'r', 'y']]), (['n', 'k', 'e', 'j', 'i', 'n', 't', 'a'], [['s', 'e', 'c', 'o', 'n', 'd']]), (['s', 'e', 'p', 't', 'e', 'm', 'b', 'a'], [['s', 'e', 'p', 't', 'e', 'm', 'b', 'e', 'r']]), (['w', 'e', 'n', 'e', 'z', 'd', 'e', 'e'], [['w', 'e', 'd', 'n', 'e', 's', 'd', 'a', 'y']]), (['d', 'i', 's', 'e', 'm', 'b', 'a'], [['d', 'e', 'c', 'e', 'm', 'b', 'e', 'r']]), (['e', 'l', 'e', 'k', 'e', 'r', 'e'], [['h', 'o', 'u', 'r']]), (['f', 'r', 'a', 'i', 'd', 'e', 'e'], [['f', 'r', 'i', 'd', 'a', 'y']]), (['n', 'o', 'v', 'e', 'm', 'b', 'a'], [['n', 'o', 'v', 'e', 'm', 'b', 'e', 'r']]), (['s', 'a', 't', 'o', 'd', 'e', 'e'], [['s', 'a', 't', 'u', 'r', 'd', 'a', 'y']]), (['t', 'i', 'u', 'z', 'd', 'e', 'e'], [['t', 'u', 'e', 's', 'd', 'a', 'y']]), (['t', 'o', 'o', 'z', 'd', 'e', 'e'], [['t', 'h', 'u', 'r', 's', 'd', 'a', 'y']]), (['m', 'a', 'a', 'c', 'h', 'i'], [['m', 'a', 'r', 'c', 'h']]), (['o', 'g', 'o', 'o', 's', 't'], [['a', 'u', 'g', 'u', 's', 't']]), (['o', 'k', 't', 'o', 'b', 'a'], [['o', 'c', 't', 'o', 'b', 'e', 'r']]), (['u', 'b', 'o', 'c', 'h', 'i'], [['d', 'a', 'y']]), (['e', 'p', 'r', 'e', 'l'], [['a', 'p', 'r', 'i', 'l']]), (['j', 'u', 'l', 'a', 'i'], [['j', 'u', 'l', 'y']]), (['m', 'o', 'n', 'd', 'e'], [['m', 'o', 'n', 'd', 'a', 'y']]), (['n', 'k', 'e', 'j', 'i'], [['m', 'i', 'n', 'u', 't', 'e']]), (['f', 'r', 'a', 'i'], [['f', 'r', 'i', 'd', 'a', 'y']]), (['j', 'u', 'u', 'n'], [['j', 'u', 'n', 'e']]), (['o', 'n', 'w', 'a'], [['m', 'o', 'n', 't', 'h']]), (['a', 'f', 'o'], [['y', 'e', 'a', 'r']]), (['d', 'i', 's'], [['d', 'e', 'c', 'e', 'm', 'b', 'e', 'r']]), (['e', 'p', 'r'], [['a', 'p', 'r', 'i', 'l']]), (['f', 'e', 'b'], [['f', 'e', 'b', 'r', 'u', 'a', 'r', 'y']]), (['g', 'm', 't'], [['g', 'm', 't']]), (['i', 'z', 'u'], [['w', 'e', 'e', 'k']]), (['j', 'e', 'n'], [['j', 'a', 'n', 'u', 'a', 'r', 'y']]), (['j', 'u', 'l'], [['j', 'u', 'l', 'y']]), (['j', 'u', 'u'], [['j', 'u', 'n', 'e']]), (['m', 'a', 'a'], [['m', 'a', 'r', 'c', 'h']]), (['m', 'e', 'e'], [['m', 'a', 'y']]), (['m', 'o', 'n'], [['m', 'o', 'n', 'd', 'a', 'y']]), (['n', 'o', 'v'], [['n', 'o', 'v', 'e', 'm', 'b', 'e', 'r']]), (['o', 'g', 'o'], [['a', 'u', 'g', 'u', 's', 't']]), (['o', 'k', 't'], [['o', 'c', 't', 'o', 'b', 'e', 'r']]), (['s', 'a', 't'], [['s', 'a', 't', 'u', 'r', 'd', 'a', 'y']]), (['s', 'e', 'p'], [['s', 'e', 'p', 't', 'e', 'm', 'b', 'e', 'r']]), (['t', 'i', 'u'], [['t', 'u', 'e', 's', 'd', 'a', 'y']]), (['t', 'o', 'o'], [['t', 'h', 'u', 'r', 's', 'd', 'a', 'y']]), (['u', 'k', 'a'], [['s', 'u', 'n', 'd', 'a', 'y']]), (['u', 't', 'c'], [['u', 't', 'c']]), (['w', 'e', 'n'], [['w', 'e', 'd', 'n', 'e', 's', 'd', 'a', 'y']]), (['a', 'm'], [['a', 'm']]), (['p', 'm'], [['p', 'm']]), ([' '], [[' ']]), (['\''], [[]]), (['+'], [['+']]), ([','], [[]]), (['-'], [['-']]), (['.'], [['.']]), (['/'], [['/']]), ([':'], [[':']]), ([';'], [[]]), (['@'], [[]]), (['['], [[]]), ([']'], [[]]), (['z'], [['z']]), (['|'], [[]])]
  relativeType := [(['t', 'h', 'i', 's', ' ', 'm', 'i', 'n', 'u', 't', 'e'], ['0', ' ', 'm', 'i', 'n', 'u', 't', 'e', ' ', 'a', 'g', 'o']), (['l', 'a', 's', 't', ' ', 'm', 'o', 'n', 't', 'h'], ['1', ' ', 'm', 'o', 'n', 't', 'h', ' ', 'a', 'g', 'o']), (['n', 'e', 'x', 't', ' ', 'm', 'o', 'n', 't', 'h'], ['i', 'n', ' ', '1', ' ', 'm', 'o', 'n', 't', 'h']), (['t', 'h', 'i', 's', ' ', 'm', 'o', 'n', 't', 'h'], ['0', ' ', 'm', 'o', 'n', 't', 'h', ' ', 'a', 'g', 'o']), (['l', 'a', 's', 't', ' ', 'w', 'e', 'e', 'k'], ['1', ' ', 'w', 'e', 'e', 'k', ' ', 'a', 'g', 'o']), (['l', 'a', 's', 't', ' ', 'y', 'e', 'a', 'r'], ['1', ' ', 'y', 'e', 'a', 'r', ' ', 'a', 'g', 'o']), (['n', 'e', 'x', 't', ' ', 'w', 'e', 'e', 'k'], ['i', 'n', ' ', '1', ' ', 'w', 'e', 'e', 'k']), (['n', 'e', 'x', 't', ' ', 'y', 'e', 'a', 'r'], ['i', 'n', ' ', '1', ' ', 'y', 'e', 'a', 'r']), (['t', 'h', 'i', 's', ' ', 'h', 'o', 'u', 'r'], ['0', ' ', 'h', 'o', 'u', 'r', ' ', 'a', 'g', 'o']), (['t', 'h', 'i', 's', ' ', 'w', 'e', 'e', 'k'], ['0', ' ', 'w', 'e', 'e', 'k', ' ', 'a', 'g', 'o']), (['t', 'h', 'i', 's', ' ', 'y', 'e', 'a', 'r'], ['0', ' ', 'y', 'e', 'a', 'r', ' ', 'a', 'g', 'o']), (['n', 'n', 'y', 'a', 'a', 'f', 'u'], ['1', ' ', 'd', 'a', 'y', ' ', 'a', 'g', 'o']), (['t', 'a', 'a', 't', 'a'], ['0', ' ', 'd', 'a', 'y', ' ', 'a', 'g', 'o']), (['e', 'c', 'h', 'i'], ['i', 'n', ' ', '1', ' ', 'd', 'a', 'y']), (['n', 'o', 'w'], ['0', ' ', 's', 'e', 'c', 'o', 'n', 'd', ' ', 'a', 'g', 'o'])]

/-- internal/data/ii.go: `ii_Locale`, dictionary. -/
def iiDict : LangData where
  name := ['i', 'i']
  translations := [(['g', 'm', 't'], [['g', 'm', 't']]), (['u', 't', 'c'], [['u', 't', 'c']]), (['ꆏ', 'ꊂ', 'ꃘ'], [['s', 'a', 't', 'u', 'r', 'd', 'a', 'y']]), (['ꆏ', 'ꊂ', 'ꇖ'], [['t', 'h', 'u', 'r', 's', 'd', 'a', 'y']]), (['ꆏ', 'ꊂ', 'ꉬ'], [['f', 'r', 'i', 'd', 'a', 'y']]), (['ꆏ', 'ꊂ', 'ꋍ'], [['m', 'o', 'n', 'd', 'a', 'y']]), (['ꆏ', 'ꊂ', 'ꌕ'], [['w', 'e', 'd', 'n', 'e', 's', 'd', 'a', 'y']]), (['ꆏ', 'ꊂ', 'ꑍ'], [['t', 'u', 'e', 's', 'd', 'a', 'y']]), (['ꊰ', 'ꊪ', 'ꆪ'], [['n', 'o', 'v', 'e', 'm', 'b', 'e', 'r']]), (['ꊰ', 'ꑋ', 'ꆪ'], [['d', 'e', 'c', 'e', 'm', 'b', 'e', 'r']]), (['ꑭ', 'ꆏ', 'ꑍ'], [['s', 'u', 'n', 'd', 'a', 'y']]), (['a', 'm'], [['a', 'm']]), (['p', 'm'], [['p', 'm']]), (['ꁯ', 'ꋒ'], [['p', 'm']]), (['ꃘ', 'ꆪ'], [['j', 'u', 'n', 'e']]), (['ꄮ', 'ꈉ'], [['h', 'o', 'u', 'r']]), (['ꆏ', 'ꃘ'], [['s', 'a', 't', 'u', 'r', 'd', 'a', 'y']]), (['ꆏ', 'ꇖ'], [['t', 'h', 'u', 'r', 's', 'd', 'a', 'y']]), (['ꆏ', 'ꉬ'], [['f', 'r', 'i', 'd', 'a', 'y']]), (['ꆏ', 'ꋍ'], [['m', 'o', 'n', 'd', 'a', 'y']]), (['ꆏ', 'ꌕ'], [['w', 'e', 'd', 'n', 'e', 's', 'd', 'a', 'y']]), (['ꆏ', 'ꑍ'], [['t', 'u', 'e', 's', 'd', 'a', 'y']]), (['ꇖ', 'ꆪ'], [['a', 'p', 'r', 'i', 'l']]), (['ꈬ', 'ꆪ'], [['s', 'e', 'p', 't', 'e', 'm', 'b', 'e', 'r']]), (['ꉆ', 'ꆪ'], [['a', 'u', 'g', 'u', 's', 't']]), (['ꉬ', 'ꆪ'], [['m', 'a', 'y']]), (['ꊰ', 'ꆪ'], [['o', 'c', 't', 'o', 'b', 'e', 'r']]), (['ꋍ', 'ꆪ'], [['j', 'a', 'n', 'u', 'a', 'r', 'y']]), (['ꌕ', 'ꆪ'], [['m', 'a', 'r', 'c', 'h']]), (['ꎸ', 'ꄑ'], [['a', 'm']]), (['ꏃ', 'ꆪ'], [['j', 'u', 'l', 'y']]), (['ꑍ', 'ꆪ'], [['f', 'e', 'b', 'r', 'u', 'a', 'r', 'y']]), (['ꑭ', 'ꆏ'], [['w', 'e', 'e', 'k'], ['s', 'u', 'n', 'd', 'a', 'y']]), ([' '], [[' ']]), (['\''], [[]]), (['+'], [['+']]), ([','], [[]]), (['-'], [['-']]), (['.'], [['.']]), (['/'], [['/']]), ([':'], [[':']]), ([';'], [[]]), (['@'], [[]]), (['['], [[]]), ([']'], [[]]), (['z'], [['z']]), (['|'], [[]]), (['ꃏ'], [['m', 'i', 'n', 'u', 't', 'e']]), (['ꆪ'], [['m', 'o', 'n', 't', 'h']]), (['ꇙ'], [['s', 'e', 'c', 'o', 'n', 'd']]), (['ꈎ'], [['y', 'e', 'a', 'r']]), (['ꑍ'], [['d', 'a', 'y']])]
  relativeType := [(['t', 'h', 'i', 's', ' ', 'm', 'i', 'n', 'u', 't', 'e'], ['0', ' ', 'm', 'i', 'n', 'u', 't', 'e', ' ', 'a', 'g', 'o']), (['l', 'a', 's', 't', ' ', 'm', 'o', 'n', 't', 'h'], ['1', ' ', 'm', 'o', 'n', 't', 'h', ' ', 'a', 'g', 'o']), (['n', 'e', 'x', 't', ' ', 'm', 'o', 'n', 't', 'h'], ['i', 'n', ' ', '1', ' ', 'm', 'o', 'n', 't', 'h']), (['t', 'h', 'i', 's', ' ', 'm', 'o', 'n', 't', 'h'], ['0', ' ', 'm', 'o', 'n', 't', 'h', ' ', 'a', 'g', 'o']), (['l', 'a', 's', 't', ' ', 'w', 'e', 'e', 'k'], ['1', ' ', 'w', 'e', 'e', 'k', ' ', 'a', 'g', 'o']), (['l', 'a', 's', 't', ' ', 'y', 'e', 'a', 'r'], ['1', ' ', 'y', 'e', 'a', 'r', ' ', 'a', 'g', 'o']), (['n', 'e', 'x', 't', ' ', 'w', 'e', 'e', 'k'], ['i', 'n', ' ', '1', ' ', 'w', 'e', 'e', 'k']), (['n', 'e', 'x', 't', ' ', 'y', 'e', 'a', 'r'], ['i', 'n', ' ', '1', ' ', 'y', 'e', 'a', 'r']), (['t', 'h', 'i', 's', ' ', 'h', 'o', 'u', 'r'], ['0', ' ', 'h', 'o', 'u', 'r', ' ', 'a', 'g', 'o']), (['t', 'h', 'i', 's', ' ', 'w', 'e', 'e', 'k'], ['0', ' ', 'w', 'e', 'e', 'k', ' ', 'a', 'g', 'o']), (['t', 'h', 'i', 's', ' ', 'y', 'e', 'a', 'r'], ['0', ' ', 'y', 'e', 'a', 'r', ' ', 'a', 'g', 'o']), (['n', 'o', 'w'], ['0', ' ', 's', 'e', 'c', 'o', 'n', 'd', ' ', 'a', 'g', 'o']), (['ꀋ', 'ꅔ', 'ꉈ'], ['1', ' ', 'd', 'a', 'y', ' ', 'a', 'g', 'o']), (['ꃆ', 'ꏂ', 'ꑍ'], ['i', 'n', ' ', '1', ' ', 'd', 'a', 'y']), (['ꀃ', 'ꑍ'], ['0', ' ', 'd', 'a', 'y', ' ', 'a', 'g', 'o'])]

/-- internal/data/is.go: `is_Locale`, dictionary. -/
def isDict : LangData where
  name := ['i', 's']
  translations := [(['m', 'i', 'ð', 'v', 'i', 'k', 'u', 'd', 'a', 'g', 'u', 'r'], [['w', 'e', 'd', 'n', 'e', 's', 'd', 'a', 'y']]), (['f', 'i', 'm', 'm', 't', 'u', 'd', 'a', 'g', 'u', 'r'], [['t', 'h', 'u', 'r', 's', 'd', 'a', 'y']]), (['k', 'l', 'u', 'k', 'k', 'u', 's', 't', 'u', 'n', 'd'], [['h', 'o', 'u', 'r']]), (['l', 'a', 'u', 'g', 'a', 'r', 'd', 'a', 'g', 'u', 'r'], [['s', 'a', 't', 'u', 'r', 'd', 'a', 'y']]), (['þ', 'r', 'i', 'ð', 'j', 'u', 'd', 'a', 'g', 'u', 'r'], [['t', 'u', 'e', 's', 'd', 'a', 'y']]), (['f', 'o', 's', 't', 'u', 'd', 'a', 'g', 'u', 'r'], [['f', 'r', 'i', 'd', 'a', 'y']]), (['s', 'u', 'n', 'n', 'u', 'd', 'a', 'g', 'u', 'r'], [['s', 'u', 'n', 'd', 'a', 'y']]), (['m', 'a', 'n', 'u', 'd', 'a', 'g', 'u', 'r'], [['m', 'o', 'n', 'd', 'a', 'y']]), (['s', 'e', 'p', 't', 'e', 'm', 'b', 'e', 'r'], [['s', 'e', 'p', 't', 'e', 'm', 'b', 'e', 'r']]), (['d', 'e', 's', 'e', 'm', 'b', 'e', 'r'], [['d', 'e', 'c', 'e', 'm', 'b', 'e', 'r']]), (['n', 'o', 'v', 'e', 'm', 'b', 'e', 'r'], [['n', 'o', 'v', 'e', 'm', 'b', 'e', 'r']]), (['f', 'e', 'b', 'r', 'u', 'a', 'r'], [['f', 'e', 'b', 'r', 'u', 'a', 'r', 'y']]), (['m', 'a', 'n', 'u', 'ð', 'u', 'r'], [['m', 'o', 'n', 't', 'h']]), (['o', 'k', 't', 'o', 'b', 'e', 'r'], [['o', 'c', 't', 'o', 'b', 'e', 'r']]), (['s', 'e', 'k', 'u', 'n', 'd', 'a'], [['s', 'e', 'c', 'o', 'n', 'd']]), (['j', 'a', 'n', 'u', 'a', 'r'], [['j', 'a', 'n', 'u', 'a', 'r', 'y']]), (['m', 'i', 'n', 'u', 't', 'a'], [['m', 'i', 'n', 'u', 't', 'e']]), (['a', 'g', 'u', 's', 't'], [['a', 'u', 'g', 'u', 's', 't']]), (['a', 'p', 'r', 'i', 'l'], [['a', 'p', 'r', 'i', 'l']]), (['d', 'a', 'g', 'u', 'r'], [['d', 'a', 'y']]), (['j', 'u', 'l', 'i'], [['j', 'u', 'l', 'y']]), (['j', 'u', 'n', 'i'], [['j', 'u', 'n', 'e']]), (['k', 'l', 's', 't'], [['h', 'o', 'u', 'r']]), (['m', 'a', 'r', 's'], [['m', 'a', 'r', 'c', 'h']]), (['v', 'i', 'k', 'a'], [['w', 'e', 'e', 'k']]), (['a', 'g', 'u'], [['a', 'u', 'g', 'u', 's', 't']]), (['a', 'p', 'r'], [['a', 'p', 'r', 'i', 'l']]), (['d', 'e', 's'], [['d', 'e', 'c', 'e', 'm', 'b', 'e', 'r']]), (['f', 'e', 'b'], [['f', 'e', 'b', 'r', 'u', 'a', 'r', 'y']]), (['f', 'i', 'm'], [['t', 'h', 'u', 'r', 's', 'd', 'a', 'y']]), (['f', 'o', 's'], [['f', 'r', 'i', 'd', 'a', 'y']]), (['g', 'm', 't'], [['g', 'm', 't']]), (['j', 'a', 'n'], [['j', 'a', 'n', 'u', 'a', 'r', 'y']]), (['j', 'u', 'l'], [['j', 'u', 'l', 'y']]), (['j', 'u', 'n'], [['j', 'u', 'n', 'e']]), (['l', 'a', 'u'], [['s', 'a', 't', 'u', 'r', 'd', 'a', 'y']]), (['m', 'a', 'i'], [['m', 'a', 'y']]), (['m', 'a', 'n'], [['m', 'o', 'n', 't', 'h'], ['m', 'o', 'n', 'd', 'a', 'y']]), (['m', 'a', 'r'], [['m', 'a', 'r', 'c', 'h']]), (['m', 'i', 'n'], [['m', 'i', 'n', 'u', 't', 'e']]), (['m', 'i', 'ð'], [['w', 'e', 'd', 'n', 'e', 's', 'd', 'a', 'y']]), (['n', 'o', 'v'], [['n', 'o', 'v', 'e', 'm', 'b', 'e', 'r']]), (['o', 'k', 't'], [['o', 'c', 't', 'o', 'b', 'e', 'r']]), (['s', 'e', 'k'], [['s', 'e', 'c', 'o', 'n', 'd']]), (['s', 'e', 'p'], [['s', 'e', 'p', 't', 'e', 'm', 'b', 'e', 'r']]), (['s', 'u', 'n'], [['s', 'u', 'n', 'd', 'a', 'y']]), (['u', 't', 'c'], [['u', 't', 'c']]), (['þ', 'r', 'i'], [['t', 'u', 'e', 's', 'd', 'a', 'y']]), (['a', 'm'], [['a', 'm']]), (['a', 'r'], [['y', 'e', 'a', 'r']]), (['e', 'h'], [['p', 'm']]), (['f', 'h'], [['a', 'm']]), (['p', 'm'], [['p', 'm']]), ([' '], [[' ']]), (['\''], [[]]), (['+'], [['+']]), ([','], [[]]), (['-'], [['-']]), (['.'], [['.']]), (['/'], [['/']]), ([':'], [[':']]), ([';'], [[]]), (['@'], [[]]), (['['], [[]]), ([']'], [[]]), (['d'], [['d', 'a', 'y']]), (['v'], [['w', 'e', 'e', 'k']]), (['z'], [['z']]), (['|'], [[]])]
  relativeType := [(['i', ' ', 's', 'i', 'ð', 'a', 's', 't', 'a', ' ', 'm', 'a', 'n', 'u', 'ð', 'i'], ['1', ' ', 'm', 'o', 'n', 't', 'h', ' ', 'a', 'g', 'o']), (['i', ' ', 'þ', 'e', 's', 's', 'u', 'm', ' ', 'm', 'a', 'n', 'u', 'ð', 'i'], ['0', ' ', 'm', 'o', 'n', 't', 'h', ' ', 'a', 'g', 'o']), (['i', ' ', 'n', 'æ', 's', 't', 'a', ' ', 'm', 'a', 'n', 'u', 'ð', 'i'], ['i', 'n', ' ', '1', ' ', 'm', 'o', 'n', 't', 'h']), (['i', ' ', 's', 'i', 'ð', 'u', 's', 't', 'u', ' ', 'v', 'i', 'k', 'u'], ['1', ' ', 'w', 'e', 'e', 'k', ' ', 'a', 'g', 'o']), (['i', ' ', 'þ', 'e', 's', 's', 'a', 'r', 'i', ' ', 'v', 'i', 'k', 'u'], ['0', ' ', 'w', 'e', 'e', 'k', ' ', 'a', 'g', 'o']), (['a', ' ', 's', 'i', 'ð', 'a', 's', 't', 'a', ' ', 'a', 'r', 'i'], ['1', ' ', 'y', 'e', 'a', 'r', ' ', 'a', 'g', 'o']), (['i', ' ', 's', 'i', 'ð', 'a', 's', 't', 'a', ' ', 'm', 'a', 'n'], ['1', ' ', 'm', 'o', 'n', 't', 'h', ' ', 'a', 'g', 'o']), (['i', ' ', 'n', 'æ', 's', 't', 'u', ' ', 'v', 'i', 'k', 'u'], ['i', 'n', ' ', '1', ' ', 'w', 'e', 'e', 'k']), (['i', ' ', 'þ', 'e', 's', 's', 'u', 'm', ' ', 'm', 'a', 'n'], ['0', ' ', 'm', 'o', 'n', 't', 'h', ' ', 'a', 'g', 'o']), (['a', ' ', 'n', 'æ', 's', 't', 'a', ' ', 'a', 'r', 'i'], ['i', 'n', ' ', '1', ' ', 'y', 'e', 'a', 'r']), (['a', ' ', 'þ', 'e', 's', 's', 'u', ' ', 'a', 'r', 'i'], ['0', ' ', 'y', 'e', 'a', 'r', ' ', 'a', 'g', 'o']), (['i', ' ', 'n', 'æ', 's', 't', 'a', ' ', 'm', 'a', 'n'], ['i', 'n', ' ', '1', ' ', 'm', 'o', 'n', 't', 'h']), (['t', 'h', 'i', 's', ' ', 'm', 'i', 'n', 'u', 't', 'e'], ['0', ' ', 'm', 'i', 'n', 'u', 't', 'e', ' ', 'a', 'g', 'o']), (['t', 'h', 'i', 's', ' ', 'h', 'o', 'u', 'r'], ['0', ' ', 'h', 'o', 'u', 'r', ' ', 'a', 'g', 'o']), (['a', ' ', 'm', 'o', 'r', 'g', 'u', 'n'], ['i', 'n', ' ', '1', ' ', 'd', 'a', 'y']), (['i', ' ', 'd', 'a', 'g'], ['0', ' ', 'd', 'a', 'y', ' ', 'a', 'g', 'o']), (['i', ' ', 'g', 'æ', 'r'], ['1', ' ', 'd', 'a', 'y', ' ', 'a', 'g', 'o']), (['n', 'u', 'n', 'a'], ['0', ' ', 's', 'e', 'c', 'o', 'n', 'd', ' ', 'a', 'g', 'o'])]

/-- internal/data/it.go: `it_Locale`, dictionary. -/
def itDict : LangData where
  name := ['i', 't']
  splitterGroup := 1
  translations := [(['m', 'e', 'r', 'c', 'o', 'l', 'e', 'd', 'i'], [['w', 'e', 'd', 'n', 'e', 's', 'd', 'a', 'y']]), (['s', 'e', 't', 't', 'e', 'm', 'b', 'r', 'e'], [['s', 'e', 'p', 't', 'e', 'm', 'b', 'e', 'r']]), (['s', 'e', 't', 't', 'i', 'm', 'a', 'n', 'a'], [['w', 'e', 'e', 'k']]), (['s', 'e', 't', 't', 'i', 'm', 'a', 'n', 'e'], [['w', 'e', 'e', 'k']]), (['d', 'i', 'c', 'e', 'm', 'b', 'r', 'e'], [['d', 'e', 'c', 'e', 'm', 'b', 'e', 'r']]), (['d', 'o', 'm', 'e', 'n', 'i', 'c', 'a'], [['s', 'u', 'n', 'd', 'a', 'y']]), (['f', 'e', 'b', 'b', 'r', 'a', 'i', 'o'], [['f', 'e', 'b', 'r', 'u', 'a', 'r', 'y']]), (['n', 'o', 'v', 'e', 'm', 'b', 'r', 'e'], [['n', 'o', 'v', 'e', 'm', 'b', 'e', 'r']]), (['g', 'e', 'n', 'n', 'a', 'i', 'o'], [['j', 'a', 'n', 'u', 'a', 'r', 'y']]), (['g', 'i', 'o', 'v', 'e', 'd', 'i'], [['t', 'h', 'u', 'r', 's', 'd', 'a', 'y']]), (['m', 'a', 'r', 't', 'e', 'd', 'i'], [['t', 'u', 'e', 's', 'd', 'a', 'y']]), (['o', 't', 't', 'o', 'b', 'r', 'e'], [['o', 'c', 't', 'o', 'b', 'e', 'r']]), (['s', 'e', 'c', 'o', 'n', 'd', 'i'], [['s', 'e', 'c', 'o', 'n', 'd']]), (['s', 'e', 'c', 'o', 'n', 'd', 'o'], [['s', 'e', 'c', 'o', 'n', 'd']]), (['v', 'e', 'n', 'e', 'r', 'd', 'i'], [['f', 'r', 'i', 'd', 'a', 'y']]), (['a', 'g', 'o', 's', 't', 'o'], [['a', 'u', 'g', 'u', 's', 't']]), (['a', 'p', 'r', 'i', 'l', 'e'], [['a', 'p', 'r', 'i', 'l']]), (['g', 'i', 'o', 'r', 'n', 'i'], [['d', 'a', 'y']]), (['g', 'i', 'o', 'r', 'n', 'o'], [['d', 'a', 'y']]), (['g', 'i', 'u', 'g', 'n', 'o'], [['j', 'u', 'n', 'e']]), (['l', 'u', 'g', 'l', 'i', 'o'], [['j', 'u', 'l', 'y']]), (['l', 'u', 'n', 'e', 'd', 'i'], [['m', 'o', 'n', 'd', 'a', 'y']]), (['m', 'a', 'g', 'g', 'i', 'o'], [['m', 'a', 'y']]), (['m', 'i', 'n', 'u', 't', 'i'], [['m', 'i', 'n', 'u', 't', 'e']]), (['m', 'i', 'n', 'u', 't', 'o'], [['m', 'i', 'n', 'u', 't', 'e']]), (['s', 'a', 'b', 'a', 't', 'o'], [['s', 'a', 't', 'u', 'r', 'd', 'a', 'y']]), (['c', 'i', 'r', 'c', 'a'], [[]]), (['m', 'a', 'r', 'z', 'o'], [['m', 'a', 'r', 'c', 'h']]), (['a', 'n', 'n', 'i'], [['y', 'e', 'a', 'r']]), (['a', 'n', 'n', 'o'], [['y', 'e', 'a', 'r']]), (['m', 'e', 's', 'e'], [['m', 'o', 'n', 't', 'h']]), (['m', 'e', 's', 'i'], [['m', 'o', 'n', 't', 'h']]), (['s', 'e', 't', 't'], [['w', 'e', 'e', 'k']]), (['a', 'g', 'o'], [['a', 'u', 'g', 'u', 's', 't']]), (['a', 'p', 'r'], [['a', 'p', 'r', 'i', 'l']]), (['d', 'i', 'c'], [['d', 'e', 'c', 'e', 'm', 'b', 'e', 'r']]), (['d', 'o', 'm'], [['s', 'u', 'n', 'd', 'a', 'y']]), (['f', 'e', 'b'], [['f', 'e', 'b', 'r', 'u', 'a', 'r', 'y']]), (['g', 'e', 'n'], [['j', 'a', 'n', 'u', 'a', 'r', 'y']]), (['g', 'i', 'o'], [['t', 'h', 'u', 'r', 's', 'd', 'a', 'y']]), (['g', 'i', 'u'], [['j', 'u', 'n', 'e']]), (['g', 'm', 't'], [['g', 'm', 't']]), (['l', 'u', 'g'], [['j', 'u', 'l', 'y']]), (['l', 'u', 'n'], [['m', 'o', 'n', 'd', 'a', 'y']]), (['m', 'a', 'g'], [['m', 'a', 'y']]), (['m', 'a', 'r'], [['m', 'a', 'r', 'c', 'h'], ['t', 'u', 'e', 's', 'd', 'a', 'y']]), (['m', 'e', 'r'], [['w', 'e', 'd', 'n', 'e', 's', 'd', 'a', 'y']]), (['m', 'i', 'n'], [['m', 'i', 'n', 'u', 't', 'e']]), (['n', 'o', 'v'], [['n', 'o', 'v', 'e', 'm', 'b', 'e', 'r']]), (['o', 'r', 'a'], [['h', 'o', 'u', 'r']]), (['o', 'r', 'e'], [['h', 'o', 'u', 'r']]), (['o', 't', 't'], [['o', 'c', 't', 'o', 'b', 'e', 'r']]), (['s', 'a', 'b'], [['s', 'a', 't', 'u', 'r', 'd', 'a', 'y']]), (['s', 'e', 'c'], [['s', 'e', 'c', 'o', 'n', 'd']]), (['s', 'e', 't'], [['s', 'e', 'p', 't', 'e', 'm', 'b', 'e', 'r']]), (['u', 't', 'c'], [['u', 't', 'c']]), (['v', 'e', 'n'], [['f', 'r', 'i', 'd', 'a', 'y']]), (['a', 'm'], [['a', 'm']]), (['f', 'a'], [['a', 'g', 'o']]), (['i', 'n'], [['i', 'n']]), (['p', 'm'], [['p', 'm']]), ([' '], [[' ']]), (['\''], [[]]), (['+'], [['+']]), ([','], [[]]), (['-'], [['-']]), (['.'], [['.']]), (['/'], [['/']]), ([':'], [[':']]), ([';'], [[]]), (['@'], [[]]), (['['], [[]]), ([']'], [[]]), (['e'], [[]]), (['g'], [['d', 'a', 'y']]), (['h'], [['h', 'o', 'u', 'r']]), (['m'], [['m', 'i', 'n', 'u', 't', 'e']]), (['s'], [['s', 'e', 'c', 'o', 'n', 'd']]), (['z'], [['z']]), (['|'], [[]])]
  relativeType := [(['s', 'e', 't', 't', 'i', 'm', 'a', 'n', 'a', ' ', 'p', 'r', 'o', 's', 's', 'i', 'm', 'a'], ['i', 'n', ' ', '1', ' ', 'w', 'e', 'e', 'k']), (['q', 'u', 'e', 's', 't', 'a', ' ', 's', 'e', 't', 't', 'i', 'm', 'a', 'n', 'a'], ['0', ' ', 'w', 'e', 'e', 'k', ' ', 'a', 'g', 'o']), (['s', 'e', 't', 't', 'i', 'm', 'a', 'n', 'a', ' ', 's', 'c', 'o', 'r', 's', 'a'], ['1', ' ', 'w', 'e', 'e', 'k', ' ', 'a', 'g', 'o']), (['a', 'n', 'n', 'o', ' ', 'p', 'r', 'o', 's', 's', 'i', 'm', 'o'], ['i', 'n', ' ', '1', ' ', 'y', 'e', 'a', 'r']), (['m', 'e', 's', 'e', ' ', 'p', 'r', 'o', 's', 's', 'i', 'm', 'o'], ['i', 'n', ' ', '1', ' ', 'm', 'o', 'n', 't', 'h']), (['q', 'u', 'e', 's', 't', 'o', ' ', 'm', 'i', 'n', 'u', 't', 'o'], ['0', ' ', 'm', 'i', 'n', 'u', 't', 'e', ' ', 'a', 'g', 'o']), (['a', 'n', 'n', 'o', ' ', 's', 'c', 'o', 'r', 's', 'o'], ['1', ' ', 'y', 'e', 'a', 'r', ' ', 'a', 'g', 'o']), (['m', 'e', 's', 'e', ' ', 's', 'c', 'o', 'r', 's', 'o'], ['1', ' ', 'm', 'o', 'n', 't', 'h', ' ', 'a', 'g', 'o']), (['q', 'u', 'e', 's', 't', 'o', ' ', 'm', 'e', 's', 'e'], ['0', ' ', 'm', 'o', 'n', 't', 'h', ' ', 'a', 'g', 'o']), (['a', 'l', 't', 'r', 'o', ' ', 'i', 'e', 'r', 'i'], ['2', ' ', 'd', 'a', 'y', ' ', 'a', 'g', 'o']), (['q', 'u', 'e', 's', 't', '\'', 'a', 'n', 'n', 'o'], ['0', ' ', 'y', 'e', 'a', 'r', ' ', 'a', 'g', 'o']), (['q', 'u', 'e', 's', 't', '\'', 'o', 'r', 'a'], ['0', ' ', 'h', 'o', 'u', 'r', ' ', 'a', 'g', 'o']), (['d', 'o', 'm', 'a', 'n', 'i'], ['i', 'n', ' ', '1', ' ', 'd', 'a', 'y']), (['i', 'e', 'r', 'i'], ['1', ' ', 'd', 'a', 'y', ' ', 'a', 'g', 'o']), (['o', 'g', 'g', 'i'], ['0', ' ', 'd', 'a', 'y', ' ', 'a', 'g', 'o']), (['o', 'r', 'a'], ['0', ' ', 's', 'e', 'c', 'o', 'n', 'd', ' ', 'a', 'g', 'o'])]

/-- internal/data/it.go: `it_CH_Locale`, dictionary. -/
def it_CHDict : LangData where
  name := ['i', 't', '-', 'C', 'H']

/-- internal/data/it.go: `it_SM_Locale`, dictionary. -/
def it_SMDict : LangData where
  name := ['i', 't', '-', 'S', 'M']

/-- internal/data/it.go: `it_VA_Locale`, dictionary. -/
def it_VADict : LangData where
  name := ['i', 't', '-', 'V', 'A']

/-- internal/data/ja.go: `ja_Locale`, dictionary. -/
def jaDict : LangData where
  name := ['j', 'a']
  noWordSpacing := true
  splitterGroup := 4
  translations := [(['(', '土', ')'], [['s', 'a', 't', 'u', 'r', 'd', 'a', 'y']]), (['(', '日', ')'], [['s', 'u', 'n', 'd', 'a', 'y']]), (['(', '月', ')'], [['m', 'o', 'n', 'd', 'a', 'y']]), (['(', '木', ')'], [['t', 'h', 'u', 'r', 's', 'd', 'a', 'y']]), (['(', '水', ')'], [['w', 'e', 'd', 'n', 'e', 's', 'd', 'a', 'y']]), (['(', '火', ')'], [['t', 'u', 'e', 's', 'd', 'a', 'y']]), (['(', '金', ')'], [['f', 'r', 'i', 'd', 'a', 'y']]), (['1', '0', '月'], [['o', 'c', 't', 'o', 'b', 'e', 'r']]), (['1', '1', '月'], [['n', 'o', 'v', 'e', 'm', 'b', 'e', 'r']]), (['1', '2', '月'], [['d', 'e', 'c', 'e', 'm', 'b', 'e', 'r']]), (['g', 'm', 't'], [['g', 'm', 't']]), (['u', 't', 'c'], [['u', 't', 'c']]), (['今', 'か', 'ら'], [['i', 'n']]), (['十', '一', '月'], [['n', 'o', 'v', 'e', 'm', 'b', 'e', 'r']]), (['十', '二', '月'], [['d', 'e', 'c', 'e', 'm', 'b', 'e', 'r']]), (['土', '曜', '日'], [['s', 'a', 't', 'u', 'r', 'd', 'a', 'y']]), (['日', '曜', '日'], [['s', 'u', 'n', 'd', 'a', 'y']]), (['月', '曜', '日'], [['m', 'o', 'n', 'd', 'a', 'y']]), (['木', '曜', '日'], [['t', 'h', 'u', 'r', 's', 'd', 'a', 'y']]), (['水', '曜', '日'], [['w', 'e', 'd', 'n', 'e', 's', 'd', 'a', 'y']]), (['火', '曜', '日'], [['t', 'u', 'e', 's', 'd', 'a', 'y']]), (['金', '曜', '日'], [['f', 'r', 'i', 'd', 'a', 'y']]), (['1', '月'], [['j', 'a', 'n', 'u', 'a', 'r', 'y']]), (['2', '月'], [['f', 'e', 'b', 'r', 'u', 'a', 'r', 'y']]), (['3', '月'], [['m', 'a', 'r', 'c', 'h']]), (['4', '月'], [['a', 'p', 'r', 'i', 'l']]), (['5', '月'], [['m', 'a', 'y']]), (['6', '月'], [['j', 'u', 'n', 'e']]), (['7', '月'], [['j', 'u', 'l', 'y']]), (['8', '月'], [['a', 'u', 'g', 'u', 's', 't']]), (['9', '月'], [['s', 'e', 'p', 't', 'e', 'm', 'b', 'e', 'r']]), (['a', 'm'], [['a', 'm']]), (['p', 'm'], [['p', 'm']]), (['か', '月'], [['m', 'o', 'n', 't', 'h']]), (['カ', '月'], [['m', 'o', 'n', 't', 'h']]), (['ヶ', '月'], [['m', 'o', 'n', 't', 'h']]), (['一', '月'], [['j', 'a', 'n', 'u', 'a', 'r', 'y']]), (['七', '月'], [['j', 'u', 'l', 'y']]), (['三', '月'], [['m', 'a', 'r', 'c', 'h']]), (['九', '月'], [['s', 'e', 'p', 't', 'e', 'm', 'b', 'e', 'r']]), (['二', '月'], [['f', 'e', 'b', 'r', 'u', 'a', 'r', 'y']]), (['五', '月'], [['m', 'a', 'y']]), (['八', '月'], [['a', 'u', 'g', 'u', 's', 't']]), (['六', '月'], [['j', 'u', 'n', 'e']]), (['分', '間'], [['m', 'i', 'n', 'u', 't', 'e']]), (['十', '月'], [['o', 'c', 't', 'o', 'b', 'e', 'r']]), (['午', '前'], [['a', 'm']]), (['午', '後'], [['p', 'm']]), (['四', '月'], [['a', 'p', 'r', 'i', 'l']]), (['日', '間'], [['d', 'a', 'y']]), (['時', '間'], [['h', 'o', 'u', 'r']]), (['秒', '間'], [['s', 'e', 'c', 'o', 'n', 'd']]), (['週', '間'], [['w', 'e', 'e', 'k']]), ([' '], [[' ']]), (['\''], [[]]), (['+'], [['+']]), ([','], [[]]), (['-'], [['-']]), (['.'], [['.']]), (['/'], [['/']]), ([':'], [[':']]), ([';'], [[]]), (['@'], [[]]), (['['], [[]]), ([']'], [[]]), (['z'], [['z']]), (['|'], [[]]), (['て'], [['i', 'n']]), (['の'], [[]]), (['分'], [['m', 'i', 'n', 'u', 't', 'e']]), (['前'], [['a', 'g', 'o']]), (['土'], [['s', 'a', 't', 'u', 'r', 'd', 'a', 'y']]), (['年'], [['y', 'e', 'a', 'r']]), (['日'], [['d', 'a', 'y'], ['s', 'u', 'n', 'd', 'a', 'y']]), (['時'], [['h', 'o', 'u', 'r']]), (['月'], [['m', 'o', 'n', 't', 'h'], ['m', 'o', 'n', 'd', 'a', 'y']]), (['木'], [['t', 'h', 'u', 'r', 's', 'd', 'a', 'y']]), (['水'], [['w', 'e', 'd', 'n', 'e', 's', 'd', 'a', 'y']]), (['火'], [['t', 'u', 'e', 's', 'd', 'a', 'y']]), (['秒'], [['s', 'e', 'c', 'o', 'n', 'd']]), (['約'], [[]]), (['週'], [['w', 'e', 'e', 'k']]), (['金'], [['f', 'r', 'i', 'd', 'a', 'y']])]
  relativeType := [(['1', ' ', '時', '間', '以', '内'], ['0', ' ', 'h', 'o', 'u', 'r', ' ', 'a', 'g', 'o']), (['1', ' ', '分', '以', '内'], ['0', ' ', 'm', 'i', 'n', 'u', 't', 'e', ' ', 'a', 'g', 'o']), (['一', '昨', '日'], ['2', ' ', 'd', 'a', 'y', ' ', 'a', 'g', 'o']), (['先', '々', '週'], ['2', ' ', 'w', 'e', 'e', 'k', ' ', 'a', 'g', 'o']), (['明', '後', '日'], ['i', 'n', ' ', '2', ' ', 'd', 'a', 'y']), (['今', '年'], ['0', ' ', 'y', 'e', 'a', 'r', ' ', 'a', 'g', 'o']), (['今', '日'], ['0', ' ', 'd', 'a', 'y', ' ', 'a', 'g', 'o']), (['今', '月'], ['0', ' ', 'm', 'o', 'n', 't', 'h', ' ', 'a', 'g', 'o']), (['今', '週'], ['0', ' ', 'w', 'e', 'e', 'k', ' ', 'a', 'g', 'o']), (['先', '月'], ['1', ' ', 'm', 'o', 'n', 't', 'h', ' ', 'a', 'g', 'o']), (['先', '週'], ['1', ' ', 'w', 'e', 'e', 'k', ' ', 'a', 'g', 'o']), (['去', '年'], ['1', ' ', 'y', 'e', 'a', 'r', ' ', 'a', 'g', 'o']), (['明', '日'], ['i', 'n', ' ', '1', ' ', 'd', 'a', 'y']), (['昨', '年'], ['1', ' ', 'y', 'e', 'a', 'r', ' ', 'a', 'g', 'o']), (['昨', '日'], ['1', ' ', 'd', 'a', 'y', ' ', 'a', 'g', 'o']), (['現', '在'], ['0', ' ', 's', 'e', 'c', 'o', 'n', 'd', ' ', 'a', 'g', 'o']), (['翌', '年'], ['i', 'n', ' ', '1', ' ', 'y', 'e', 'a', 'r']), (['翌', '月'], ['i', 'n', ' ', '1', ' ', 'm', 'o', 'n', 't', 'h']), (['翌', '週'], ['i', 'n', ' ', '1', ' ', 'w', 'e', 'e', 'k']), (['今'], ['0', ' ', 's', 'e', 'c', 'o', 'n', 'd', ' ', 'a', 'g', 'o'])]

/-- internal/data/jgo.go: `jgo_Locale`, dictionary. -/
def jgoDict : LangData where
  name := ['j', 'g', 'o']
  translations := [(['p', 'ɛ', 's', 'a', 'ŋ', ' ', 'p', 'ɛ', 'n', 'ɛ', 'n', 't', 'u', 'k', 'u'], [['j', 'u', 'n', 'e']]), (['p', 'ɛ', 's', 'a', 'ŋ', ' ', 'p', 'ɛ', 'n', 'ɛ', 'p', 'f', 'u', 'ꞌ', 'u'], [['s', 'e', 'p', 't', 'e', 'm', 'b', 'e', 'r']]), (['p', 'ɛ', 's', 'a', 'ŋ', ' ', 'n', 't', 's', 'ɔ', 'p', 'm', 'ɔ'], [['n', 'o', 'v', 'e', 'm', 'b', 'e', 'r']]), (['p', 'ɛ', 's', 'a', 'ŋ', ' ', 'n', 't', 's', 'ɔ', 'p', 'p', 'a'], [['d', 'e', 'c', 'e', 'm', 'b', 'e', 'r']]), (['p', 'ɛ', 's', 'a', 'ŋ', ' ', 'p', 'ɛ', 'n', 'ɛ', 'f', 'ɔ', 'm'], [['a', 'u', 'g', 'u', 's', 't']]), (['p', 'ɛ', 's', 'a', 'ŋ', ' ', 'p', 'ɛ', 'n', 'ɛ', 'k', 'w', 'a'], [['a', 'p', 'r', 'i', 'l']]), (['p', 'ɛ', 's', 'a', 'ŋ', ' ', 's', 'a', 'a', 'm', 'b', 'a'], [['j', 'u', 'l', 'y']]), (['ŋ', 'k', 'a', ' ', 'm', 'b', 'ɔ', 't', ' ', 'n', 'j', 'i'], [['p', 'm']]), (['n', 'd', 'u', 'ŋ', 'm', 'b', 'i', ' ', 's', 'a', 'ŋ'], [['j', 'a', 'n', 'u', 'a', 'r', 'y']]), (['p', 'ɛ', 's', 'a', 'ŋ', ' ', 'n', 'ɛ', 'g', 'ɛ', 'm'], [['o', 'c', 't', 'o', 'b', 'e', 'r']]), (['p', 'ɛ', 's', 'a', 'ŋ', ' ', 'p', 'a', 't', 'a', 'a'], [['m', 'a', 'y']]), (['p', 'ɛ', 's', 'a', 'ŋ', ' ', 'p', 'ɛ', 't', 'a', 't'], [['m', 'a', 'r', 'c', 'h']]), (['a', 'p', 't', 'a', ' ', 'm', 'ɔ', 'n', 'd', 'i'], [['t', 'u', 'e', 's', 'd', 'a', 'y']]), (['p', 'ɛ', 's', 'a', 'ŋ', ' ', 'p', 'ɛ', 'p', 'a'], [['f', 'e', 'b', 'r', 'u', 'a', 'r', 'y']]), (['f', 'ɛ', 'l', 'a', 'y', 'ɛ', 'd', 'ɛ'], [['f', 'r', 'i', 'd', 'a', 'y']]), (['m', 'b', 'a', '\'', 'm', 'b', 'a', '\''], [['a', 'm']]), (['w', 'ɛ', 'n', 'ɛ', 's', 'ɛ', 'd', 'ɛ'], [['w', 'e', 'd', 'n', 'e', 's', 'd', 'a', 'y']]), (['m', 'i', 'n', 'u', 't', 'e'], [['m', 'i', 'n', 'u', 't', 'e']]), (['s', 'a', 's', 'i', 'd', 'ɛ'], [['s', 'a', 't', 'u', 'r', 'd', 'a', 'y']]), (['s', 'e', 'c', 'o', 'n', 'd'], [['s', 'e', 'c', 'o', 'n', 'd']]), (['t', 'ɔ', 's', 'ɛ', 'd', 'ɛ'], [['t', 'h', 'u', 'r', 's', 'd', 'a', 'y']]), (['m', 'o', 'n', 't', 'h'], [['m', 'o', 'n', 't', 'h']]), (['m', 'ɔ', 'n', 'd', 'i'], [['m', 'o', 'n', 'd', 'a', 'y']]), (['s', 'ɔ', 'n', 'd', 'i'], [['s', 'u', 'n', 'd', 'a', 'y']]), (['h', 'o', 'u', 'r'], [['h', 'o', 'u', 'r']]), (['w', 'e', 'e', 'k'], [['w', 'e', 'e', 'k']]), (['y', 'e', 'a', 'r'], [['y', 'e', 'a', 'r']]), (['d', 'a', 'y'], [['d', 'a', 'y']]), (['g', 'm', 't'], [['g', 'm', 't']]), (['u', 't', 'c'], [['u', 't', 'c']]), (['a', 'm'], [['a', 'm']]), (['p', 'm'], [['p', 'm']]), ([' '], [[' ']]), (['\''], [[]]), (['+'], [['+']]), ([','], [[]]), (['-'], [['-']]), (['.'], [['.']]), (['/'], [['/']]), ([':'], [[':']]), ([';'], [[]]), (['@'], [[]]), (['['], [[]]), ([']'], [[]]), (['z'], [['z']]), (['|'], [[]])]
  relativeType := [(['t', 'h', 'i', 's', ' ', 'm', 'i', 'n', 'u', 't', 'e'], ['0', ' ', 'm', 'i', 'n', 'u', 't', 'e', ' ', 'a', 'g', 'o']), (['l', 'a', 's', 't', ' ', 'm', 'o', 'n', 't', 'h'], ['1', ' ', 'm', 'o', 'n', 't', 'h', ' ', 'a', 'g', 'o']), (['n', 'e', 'x', 't', ' ', 'm', 'o', 'n', 't', 'h'], ['i', 'n', ' ', '1', ' ', 'm', 'o', 'n', 't', 'h']), (['t', 'h', 'i', 's', ' ', 'm', 'o', 'n', 't', 'h'], ['0', ' ', 'm', 'o', 'n', 't', 'h', ' ', 'a', 'g', 'o']), (['l', 'a', 's', 't', ' ', 'w', 'e', 'e', 'k'], ['1', ' ', 'w', 'e', 'e', 'k', ' ', 'a', 'g', 'o']), (['l', 'a', 's', 't', ' ', 'y', 'e', 'a', 'r'], ['1', ' ', 'y', 'e', 'a', 'r', ' ', 'a', 'g', 'o']), (['n', 'e', 'x', 't', ' ', 'w', 'e', 'e', 'k'], ['i', 'n', ' ', '1', ' ', 'w', 'e', 'e', 'k']), (['n', 'e', 'x', 't', ' ', 'y', 'e', 'a', 'r'], ['i', 'n', ' ', '1', ' ', 'y', 'e', 'a', 'r']), (['t', 'h', 'i', 's', ' ', 'h', 'o', 'u', 'r'], ['0', ' ', 'h', 'o', 'u', 'r', ' ', 'a', 'g', 'o']), (['t', 'h', 'i', 's', ' ', 'w', 'e', 'e', 'k'], ['0', ' ', 'w', 'e', 'e', 'k', ' ', 'a', 'g', 'o']), (['t', 'h', 'i', 's', ' ', 'y', 'e', 'a', 'r'], ['0', ' ', 'y', 'e', 'a', 'r', ' ', 'a', 'g', 'o']), (['y', 'e', 's', 't', 'e', 'r', 'd', 'a', 'y'], ['1', ' ', 'd', 'a', 'y', ' ', 'a', 'g', 'o']), (['t', 'o', 'm', 'o', 'r', 'r', 'o', 'w'], ['i', 'n', ' ', '1', ' ', 'd', 'a', 'y']), (['l', 'ɔ', 'ꞌ', 'ɔ'], ['0', ' ', 'd', 'a', 'y', ' ', 'a', 'g', 'o']), (['n', 'o', 'w'], ['0', ' ', 's', 'e', 'c', 'o', 'n', 'd', ' ', 'a', 'g', 'o'])]

/-- internal/data/jmc.go: `jmc_Locale`, dictionary. -/
def jmcDict : LangData where
  name := ['j', 'm', 'c']
  translations := [(['j', 'u', 'm', 'a', 'p', 'i', 'l', 'y', 'i'], [['s', 'u', 'n', 'd', 'a', 'y']]), (['j', 'u', 'm', 'a', 't', 'a', 't', 'u', 'u'], [['m', 'o', 'n', 'd', 'a', 'y']]), (['k', 'y', 'i', 'u', 'k', 'o', 'n', 'y', 'i'], [['p', 'm']]), (['a', 'l', 'h', 'a', 'm', 'i', 's', 'i'], [['t', 'h', 'u', 'r', 's', 'd', 'a', 'y']]), (['f', 'e', 'b', 'r', 'u', 'a', 'r', 'i'], [['f', 'e', 'b', 'r', 'u', 'a', 'r', 'y']]), (['j', 'u', 'm', 'a', 'm', 'o', 's', 'i'], [['s', 'a', 't', 'u', 'r', 'd', 'a', 'y']]), (['j', 'u', 'm', 'a', 't', 'a', 'n', 'u'], [['w', 'e', 'd', 'n', 'e', 's', 'd', 'a', 'y']]), (['s', 'e', 'p', 't', 'e', 'm', 'b', 'a'], [['s', 'e', 'p', 't', 'e', 'm', 'b', 'e', 'r']]), (['a', 'p', 'r', 'i', 'l', 'y', 'i'], [['a', 'p', 'r', 'i', 'l']]), (['d', 'a', 'k', 'y', 'i', 'k', 'a'], [['m', 'i', 'n', 'u', 't', 'e']]), (['d', 'e', 's', 'e', 'm', 'b', 'a'], [['d', 'e', 'c', 'e', 'm', 'b', 'e', 'r']]), (['j', 'a', 'n', 'u', 'a', 'r', 'i'], [['j', 'a', 'n', 'u', 'a', 'r', 'y']]), (['j', 'u', 'm', 'a', 'n', 'n', 'e'], [['t', 'u', 'e', 's', 'd', 'a', 'y']]), (['n', 'o', 'v', 'e', 'm', 'b', 'a'], [['n', 'o', 'v', 'e', 'm', 'b', 'e', 'r']]), (['s', 'e', 'k', 'u', 'n', 'd', 'e'], [['s', 'e', 'c', 'o', 'n', 'd']]), (['a', 'g', 'u', 's', 't', 'i'], [['a', 'u', 'g', 'u', 's', 't']]), (['i', 'j', 'u', 'm', 'a', 'a'], [['f', 'r', 'i', 'd', 'a', 'y']]), (['j', 'u', 'l', 'y', 'a', 'i'], [['j', 'u', 'l', 'y']]), (['o', 'k', 't', 'o', 'b', 'a'], [['o', 'c', 't', 'o', 'b', 'e', 'r']]), (['w', 'i', 'i', 'k', 'y', 'i'], [['w', 'e', 'e', 'k']]), (['j', 'u', 'n', 'y', 'i'], [['j', 'u', 'n', 'e']]), (['m', 'a', 'c', 'h', 'i'], [['m', 'a', 'r', 'c', 'h']]), (['m', 'f', 'i', 'r', 'i'], [['d', 'a', 'y']]), (['u', 't', 'u', 'k', 'o'], [['a', 'm']]), (['m', 'a', 'k', 'a'], [['y', 'e', 'a', 'r']]), (['m', 'o', 'r', 'i'], [['m', 'o', 'n', 't', 'h']]), (['a', 'g', 'o'], [['a', 'u', 'g', 'u', 's', 't']]), (['a', 'l', 'h'], [['t', 'h', 'u', 'r', 's', 'd', 'a', 'y']]), (['a', 'p', 'r'], [['a', 'p', 'r', 'i', 'l']]), (['d', 'e', 's'], [['d', 'e', 'c', 'e', 'm', 'b', 'e', 'r']]), (['f', 'e', 'b'], [['f', 'e', 'b', 'r', 'u', 'a', 'r', 'y']]), (['g', 'm', 't'], [['g', 'm', 't']]), (['i', 'j', 'u'], [['f', 'r', 'i', 'd', 'a', 'y']]), (['j', 'a', 'n'], [['j', 'a', 'n', 'u', 'a', 'r', 'y']]), (['j', 'm', 'o'], [['s', 'a', 't', 'u', 'r', 'd', 'a', 'y']]), (['j', 'n', 'n'], [['t', 'u', 'e', 's', 'd', 'a', 'y']]), (['j', 'p', 'i'], [['s', 'u', 'n', 'd', 'a', 'y']]), (['j', 't', 'n'], [['w', 'e', 'd', 'n', 'e', 's', 'd', 'a', 'y']]), (['j', 't', 't'], [['m', 'o', 'n', 'd', 'a', 'y']]), (['j', 'u', 'l'], [['j', 'u', 'l', 'y']]), (['j', 'u', 'n'], [['j', 'u', 'n', 'e']]), (['m', 'a', 'c'], [['m', 'a', 'r', 'c', 'h']]), (['m', 'e', 'i'], [['m', 'a', 'y']]), (['n', 'o', 'v'], [['n', 'o', 'v', 'e', 'm', 'b', 'e', 'r']]), (['o', 'k', 't'], [['o', 'c', 't', 'o', 'b', 'e', 'r']]), (['s', 'a', 'a'], [['h', 'o', 'u', 'r']]), (['s', 'e', 'p'], [['s', 'e', 'p', 't', 'e', 'm', 'b', 'e', 'r']]), (['u', 't', 'c'], [['u', 't', 'c']]), (['a', 'm'], [['a', 'm']]), (['p', 'm'], [['p', 'm']]), ([' '], [[' ']]), (['\''], [[]]), (['+'], [['+']]), ([','], [[]]), (['-'], [['-']]), (['.'], [['.']]), (['/'], [['/']]), ([':'], [[':']]), ([';'], [[]]), (['@'], [[]]), (['['], [[]]), ([']'], [[]]), (['z'], [['z']]), (['|'], [[]])]
  relativeType := [(['t', 'h', 'i', 's', ' ', 'm', 'i', 'n', 'u', 't', 'e'], ['0', ' ', 'm', 'i', 'n', 'u', 't', 'e', ' ', 'a', 'g', 'o']), (['l', 'a', 's', 't', ' ', 'm', 'o', 'n', 't', 'h'], ['1', ' ', 'm', 'o', 'n', 't', 'h', ' ', 'a', 'g', 'o']), (['n', 'e', 'x', 't', ' ', 'm', 'o', 'n', 't', 'h'], ['i', 'n', ' ', '1', ' ', 'm', 'o', 'n', 't', 'h']), (['t', 'h', 'i', 's', ' ', 'm', 'o', 'n', 't', 'h'], ['0', ' ', 'm', 'o', 'n', 't', 'h', ' ', 'a', 'g', 'o']), (['l', 'a', 's', 't', ' ', 'w', 'e', 'e', 'k'], ['1', ' ', 'w', 'e', 'e', 'k', ' ', 'a', 'g', 'o']), (['l', 'a', 's', 't', ' ', 'y', 'e', 'a', 'r'], ['1', ' ', 'y', 'e', 'a', 'r', ' ', 'a', 'g', 'o']), (['n', 'e', 'x', 't', ' ', 'w', 'e', 'e', 'k'], ['i', 'n', ' ', '1', ' ', 'w', 'e', 'e', 'k']), (['n', 'e', 'x', 't', ' ', 'y', 'e', 'a', 'r'], ['i', 'n', ' ', '1', ' ', 'y', 'e', 'a', 'r']), (['t', 'h', 'i', 's', ' ', 'h', 'o', 'u', 'r'], ['0', ' ', 'h', 'o', 'u', 'r', ' ', 'a', 'g', 'o']), (['t', 'h', 'i', 's', ' ', 'w', 'e', 'e', 'k'], ['0', ' ', 'w', 'e', 'e', 'k', ' ', 'a', 'g', 'o']), (['t', 'h', 'i', 's', ' ', 'y', 'e', 'a', 'r'], ['0', ' ', 'y', 'e', 'a', 'r', ' ', 'a', 'g', 'o']), (['n', 'g', 'a', 'm', 'a'], ['i', 'n', ' ', '1', ' ', 'd', 'a', 'y']), (['u', 'k', 'o', 'u'], ['1', ' ', 'd', 'a', 'y', ' ', 'a', 'g', 'o']), (['i', 'n', 'u'], ['0', ' ', 'd', 'a', 'y', ' ', 'a', 'g', 'o']), (['n', 'o', 'w'], ['0', ' ', 's', 'e', 'c', 'o', 'n', 'd', ' ', 'a', 'g', 'o'])]

/-- internal/data/ka.go: `ka_Locale`, dictionary. -/
def kaDict : LangData where
  name := ['k', 'a']
  splitterGroup := 1
  translations := [(['შ', 'უ', 'ა', 'დ', 'ღ', ' ', 'შ', 'ე', 'მ', 'დ', 'ე', 'გ'], [['p', 'm']]), (['დ', 'ა', 'ა', 'ხ', 'ლ', 'ო', 'ე', 'ბ', 'ი', 'თ'], [[]]), (['ს', 'ე', 'ქ', 'ტ', 'ე', 'მ', 'ბ', 'ე', 'რ', 'ი'], [['s', 'e', 'p', 't', 'e', 'm', 'b', 'e', 'r']]), (['დ', 'ე', 'კ', 'ე', 'მ', 'ბ', 'ე', 'რ', 'ი'], [['d', 'e', 'c', 'e', 'm', 'b', 'e', 'r']]), (['თ', 'ე', 'ბ', 'ე', 'რ', 'ვ', 'ა', 'ლ', 'ი'], [['f', 'e', 'b', 'r', 'u', 'a', 'r', 'y']]), (['ო', 'თ', 'ხ', 'შ', 'ა', 'ბ', 'ა', 'თ', 'ი'], [['w', 'e', 'd', 'n', 'e', 's', 'd', 'a', 'y']]), (['ო', 'ქ', 'ტ', 'ო', 'მ', 'ბ', 'ე', 'რ', 'ი'], [['o', 'c', 't', 'o', 'b', 'e', 'r']]), (['პ', 'ა', 'რ', 'ა', 'ს', 'კ', 'ე', 'ვ', 'ი'], [['f', 'r', 'i', 'd', 'a', 'y']]), (['ს', 'ა', 'მ', 'შ', 'ა', 'ბ', 'ა', 'თ', 'ი'], [['t', 'u', 'e', 's', 'd', 'a', 'y']]), (['ხ', 'უ', 'თ', 'შ', 'ა', 'ბ', 'ა', 'თ', 'ი'], [['t', 'h', 'u', 'r', 's', 'd', 'a', 'y']]), (['ნ', 'ო', 'ე', 'მ', 'ბ', 'ე', 'რ', 'ი'], [['n', 'o', 'v', 'e', 'm', 'b', 'e', 'r']]), (['ო', 'რ', 'შ', 'ა', 'ბ', 'ა', 'თ', 'ი'], [['m', 'o', 'n', 'd', 'a', 'y']]), (['ა', 'გ', 'ვ', 'ი', 'ს', 'ტ', 'ო'], [['a', 'u', 'g', 'u', 's', 't']]), (['დ', 'ღ', 'ე', 'ი', 'დ', 'ა', 'ნ'], [['i', 'n']]), (['ი', 'ა', 'ნ', 'ვ', 'ა', 'რ', 'ი'], [['j', 'a', 'n', 'u', 'a', 'r', 'y']]), (['ა', 'პ', 'რ', 'ი', 'ლ', 'ი'], [['a', 'p', 'r', 'i', 'l']]), (['ი', 'ვ', 'ლ', 'ი', 'ს', 'ი'], [['j', 'u', 'l', 'y']]), (['ი', 'ვ', 'ნ', 'ი', 'ს', 'ი'], [['j', 'u', 'n', 'e']]), (['შ', 'ა', 'ბ', 'ა', 'თ', 'ი'], [['s', 'a', 't', 'u', 'r', 'd', 'a', 'y']]), (['კ', 'ვ', 'ი', 'რ', 'ა'], [['w', 'e', 'e', 'k'], ['s', 'u', 'n', 'd', 'a', 'y']]), (['მ', 'ა', 'ი', 'ს', 'ი'], [['m', 'a', 'y']]), (['მ', 'ა', 'რ', 'ტ', 'ი'], [['m', 'a', 'r', 'c', 'h']]), (['ს', 'ა', 'ა', 'თ', 'ი'], [['h', 'o', 'u', 'r']]), (['წ', 'ა', 'მ', 'ი'], [['s', 'e', 'c', 'o', 'n', 'd']]), (['წ', 'ე', 'ლ', 'ი'], [['y', 'e', 'a', 'r']]), (['წ', 'ლ', 'ი', 'ს'], [['y', 'e', 'a', 'r']]), (['წ', 'უ', 'თ', 'ი'], [['m', 'i', 'n', 'u', 't', 'e']]), (['g', 'm', 't'], [['g', 'm', 't']]), (['u', 't', 'c'], [['u', 't', 'c']]), (['ა', 'გ', 'ვ'], [['a', 'u', 'g', 'u', 's', 't']]), (['ა', 'პ', 'რ'], [['a', 'p', 'r', 'i', 'l']]), (['დ', 'ე', 'კ'], [['d', 'e', 'c', 'e', 'm', 'b', 'e', 'r']]), (['დ', 'ღ', 'ე'], [['d', 'a', 'y']]), (['თ', 'ე', 'ბ'], [['f', 'e', 'b', 'r', 'u', 'a', 'r', 'y']]), (['თ', 'ვ', 'ე'], [['m', 'o', 'n', 't', 'h']]), (['ი', 'ა', 'ნ'], [['j', 'a', 'n', 'u', 'a', 'r', 'y']]), (['ი', 'ვ', 'ლ'], [['j', 'u', 'l', 'y']]), (['ი', 'ვ', 'ნ'], [['j', 'u', 'n', 'e']]), (['კ', 'ვ', 'ი'], [['s', 'u', 'n', 'd', 'a', 'y']]), (['მ', 'ა', 'ი'], [['m', 'a', 'y']]), (['მ', 'ა', 'რ'], [['m', 'a', 'r', 'c', 'h']]), (['ნ', 'ო', 'ე'], [['n', 'o', 'v', 'e', 'm', 'b', 'e', 'r']]), (['ო', 'თ', 'ხ'], [['w', 'e', 'd', 'n', 'e', 's', 'd', 'a', 'y']]), (['ო', 'რ', 'შ'], [['m', 'o', 'n', 'd', 'a', 'y']]), (['ო', 'ქ', 'ტ'], [['o', 'c', 't', 'o', 'b', 'e', 'r']]), (['პ', 'ა', 'რ'], [['f', 'r', 'i', 'd', 'a', 'y']]), (['ს', 'ა', 'მ'], [['t', 'u', 'e', 's', 'd', 'a', 'y']]), (['ს', 'ე', 'ქ'], [['s', 'e', 'p', 't', 'e', 'm', 'b', 'e', 'r']]), (['შ', 'ა', 'ბ'], [['s', 'a', 't', 'u', 'r', 'd', 'a', 'y']]), (['წ', 'ი', 'ნ'], [['a', 'g', 'o']]), (['ხ', 'უ', 'თ'], [['t', 'h', 'u', 'r', 's', 'd', 'a', 'y']]), (['a', 'm'], [['a', 'm']]), (['p', 'm'], [['p', 'm']]), (['დ', 'ა'], [[]]), (['ზ', 'ე'], [[]]), (['ი', 'ს'], [[]]), (['კ', 'ვ'], [['w', 'e', 'e', 'k']]), (['ს', 'თ'], [['h', 'o', 'u', 'r']]), (['წ', 'თ'], [['m', 'i', 'n', 'u', 't', 'e']]), (['წ', 'მ'], [['s', 'e', 'c', 'o', 'n', 'd']]), ([' '], [[' ']]), (['\''], [[]]), (['+'], [['+']]), ([','], [[]]), (['-'], [['-']]), (['.'], [['.']]), (['/'], [['/']]), ([':'], [[':']]), ([';'], [[]]), (['@'], [[]]), (['['], [[]]), ([']'], [[]]), (['z'], [['z']]), (['|'], [[]]), (['წ'], [['y', 'e', 'a', 'r']])]
  relativeType := [(['მ', 'ო', 'მ', 'ა', 'ვ', 'ა', 'ლ', ' ', 'კ', 'ვ', 'ი', 'რ', 'ა', 'შ', 'ი'], ['i', 'n', ' ', '1', ' ', 'w', 'e', 'e', 'k']), (['გ', 'ა', 'ს', 'უ', 'ლ', ' ', 'კ', 'ვ', 'ი', 'რ', 'ა', 'შ', 'ი'], ['1', ' ', 'w', 'e', 'e', 'k', ' ', 'a', 'g', 'o']), (['მ', 'ო', 'მ', 'ა', 'ვ', 'ა', 'ლ', ' ', 'თ', 'ვ', 'ე', 'ს'], ['i', 'n', ' ', '1', ' ', 'm', 'o', 'n', 't', 'h']), (['მ', 'ო', 'მ', 'ა', 'ვ', 'ა', 'ლ', ' ', 'წ', 'ე', 'ლ', 'ს'], ['i', 'n', ' ', '1', ' ', 'y', 'e', 'a', 'r']), (['ა', 'მ', ' ', 'კ', 'ვ', 'ი', 'რ', 'ა', 'შ', 'ი'], ['0', ' ', 'w', 'e', 'e', 'k', ' ', 'a', 'g', 'o']), (['გ', 'ა', 'ს', 'უ', 'ლ', ' ', 'თ', 'ვ', 'ე', 'ს'], ['1', ' ', 'm', 'o', 'n', 't', 'h', ' ', 'a', 'g', 'o']), (['გ', 'ა', 'ს', 'უ', 'ლ', ' ', 'წ', 'ე', 'ლ', 'ს'], ['1', ' ', 'y', 'e', 'a', 'r', ' ', 'a', 'g', 'o']), (['ა', 'მ', ' ', 'ს', 'ა', 'ა', 'თ', 'შ', 'ი'], ['0', ' ', 'h', 'o', 'u', 'r', ' ', 'a', 'g', 'o']), (['ა', 'მ', ' ', 'თ', 'ვ', 'ე', 'შ', 'ი'], ['0', ' ', 'm', 'o', 'n', 't', 'h', ' ', 'a', 'g', 'o']), (['ა', 'მ', ' ', 'წ', 'უ', 'თ', 'შ', 'ი'], ['0', ' ', 'm', 'i', 'n', 'u', 't', 'e', ' ', 'a', 'g', 'o']), (['ა', 'მ', ' ', 'წ', 'ე', 'ლ', 'ს'], ['0', ' ', 'y', 'e', 'a', 'r', ' ', 'a', 'g', 'o']), (['გ', 'უ', 'შ', 'ი', 'ნ'], ['1', ' ', 'd', 'a', 'y', ' ', 'a', 'g', 'o']), (['ა', 'ხ', 'ლ', 'ა'], ['0', ' ', 's', 'e', 'c', 'o', 'n', 'd', ' ', 'a', 'g', 'o']), (['დ', 'ღ', 'ე', 'ს'], ['0', ' ', 'd', 'a', 'y', ' ', 'a', 'g', 'o']), (['ხ', 'ვ', 'ა', 'ლ'], ['i', 'n', ' ', '1', ' ', 'd', 'a', 'y'])]

/-- internal/data/kab.go: `kab_Locale`, dictionary. -/
def kabDict : LangData where
  name := ['k', 'a', 'b']
  translations := [(['n', ' ', 't', 'm', 'e', 'd', 'd', 'i', 't'], [['p', 'm']]), (['d', 'u', 'g', 'e', 'm', 'b', 'e', 'r'], [['d', 'e', 'c', 'e', 'm', 'b', 'e', 'r']]), (['n', 'u', 'n', 'e', 'm', 'b', 'e', 'r'], [['n', 'o', 'v', 'e', 'm', 'b', 'e', 'r']]), (['y', 'e', 'n', 'n', 'a', 'y', 'e', 'r'], [['j', 'a', 'n', 'u', 'a', 'r', 'y']]), (['a', 's', 'e', 'g', 'g', 'a', 's'], [['y', 'e', 'a', 'r']]), (['c', 't', 'e', 'm', 'b', 'e', 'r'], [['s', 'e', 'p', 't', 'e', 'm', 'b', 'e', 'r']]), (['k', 'r', 'a', 'd', 'a', 's', 's'], [['t', 'u', 'e', 's', 'd', 'a', 'y']]), (['n', ' ', 't', 'u', 'f', 'a', 't'], [['a', 'm']]), (['s', 'd', 'i', 's', 'a', 's', 's'], [['f', 'r', 'i', 'd', 'a', 'y']]), (['t', 'a', 'm', 'r', 'e', 'c', 't'], [['m', 'i', 'n', 'u', 't', 'e']]), (['k', 'u', 'z', 'a', 's', 's'], [['w', 'e', 'd', 'n', 'e', 's', 'd', 'a', 'y']]), (['m', 'e', 'ɣ', 'r', 'e', 's'], [['m', 'a', 'r', 'c', 'h']]), (['s', 'a', 'm', 'a', 's', 's'], [['t', 'h', 'u', 'r', 's', 'd', 'a', 'y']]), (['s', 'a', 'n', 'a', 's', 's'], [['m', 'o', 'n', 'd', 'a', 'y']]), (['s', 'a', 'y', 'a', 's', 's'], [['s', 'a', 't', 'u', 'r', 'd', 'a', 'y']]), (['t', 'a', 'm', 'e', 'r', 't'], [['h', 'o', 'u', 'r']]), (['t', 'a', 's', 'i', 'n', 't'], [['s', 'e', 'c', 'o', 'n', 'd']]), (['y', 'a', 'n', 'a', 's', 's'], [['s', 'u', 'n', 'd', 'a', 'y']]), (['y', 'e', 'b', 'r', 'i', 'r'], [['a', 'p', 'r', 'i', 'l']]), (['a', 'g', 'g', 'u', 'r'], [['m', 'o', 'n', 't', 'h']]), (['d', 'd', 'u', 'r', 't'], [['w', 'e', 'e', 'k']]), (['f', 'u', 'r', 'a', 'r'], [['f', 'e', 'b', 'r', 'u', 'a', 'r', 'y']]), (['m', 'a', 'y', 'y', 'u'], [['m', 'a', 'y']]), (['t', 'u', 'b', 'e', 'r'], [['o', 'c', 't', 'o', 'b', 'e', 'r']]), (['y', 'u', 'l', 'y', 'u'], [['j', 'u', 'l', 'y']]), (['y', 'u', 'n', 'y', 'u'], [['j', 'u', 'n', 'e']]), (['k', 'r', 'a', 'd'], [['t', 'u', 'e', 's', 'd', 'a', 'y']]), (['s', 'd', 'i', 's'], [['f', 'r', 'i', 'd', 'a', 'y']]), (['ɣ', 'u', 'c', 't'], [['a', 'u', 'g', 'u', 's', 't']]), (['a', 's', 's'], [['d', 'a', 'y']]), (['c', 't', 'e'], [['s', 'e', 'p', 't', 'e', 'm', 'b', 'e', 'r']]), (['d', 'u', 'g'], [['d', 'e', 'c', 'e', 'm', 'b', 'e', 'r']]), (['f', 'u', 'r'], [['f', 'e', 'b', 'r', 'u', 'a', 'r', 'y']]), (['g', 'm', 't'], [['g', 'm', 't']]), (['k', 'u', 'z'], [['w', 'e', 'd', 'n', 'e', 's', 'd', 'a', 'y']]), (['m', 'a', 'y'], [['m', 'a', 'y']]), (['m', 'e', 'ɣ'], [['m', 'a', 'r', 'c', 'h']]), (['n', 'u', 'n'], [['n', 'o', 'v', 'e', 'm', 'b', 'e', 'r']]), (['s', 'a', 'm'], [['t', 'h', 'u', 'r', 's', 'd', 'a', 'y']]), (['s', 'a', 'n'], [['m', 'o', 'n', 'd', 'a', 'y']]), (['s', 'a', 'y'], [['s', 'a', 't', 'u', 'r', 'd', 'a', 'y']]), (['t', 'u', 'b'], [['o', 'c', 't', 'o', 'b', 'e', 'r']]), (['u', 't', 'c'], [['u', 't', 'c']]), (['y', 'a', 'n'], [['s', 'u', 'n', 'd', 'a', 'y']]), (['y', 'e', 'b'], [['a', 'p', 'r', 'i', 'l']]), (['y', 'e', 'n'], [['j', 'a', 'n', 'u', 'a', 'r', 'y']]), (['y', 'u', 'l'], [['j', 'u', 'l', 'y']]), (['y', 'u', 'n'], [['j', 'u', 'n', 'e']]), (['ɣ', 'u', 'c'], [['a', 'u', 'g', 'u', 's', 't']]), (['a', 'm'], [['a', 'm']]), (['p', 'm'], [['p', 'm']]), ([' '], [[' ']]), (['\''], [[]]), (['+'], [['+']]), ([','], [[]]), (['-'], [['-']]), (['.'], [['.']]), (['/'], [['/']]), ([':'], [[':']]), ([';'], [[]]), (['@'], [[]]), (['['], [[]]), ([']'], [[]]), (['z'], [['z']]), (['|'], [[]])]
  relativeType := [(['t', 'h', 'i', 's', ' ', 'm', 'i', 'n', 'u', 't', 'e'], ['0', ' ', 'm', 'i', 'n', 'u', 't', 'e', ' ', 'a', 'g', 'o']), (['l', 'a', 's', 't', ' ', 'm', 'o', 'n', 't', 'h'], ['1', ' ', 'm', 'o', 'n', 't', 'h', ' ', 'a', 'g', 'o']), (['n', 'e', 'x', 't', ' ', 'm', 'o', 'n', 't', 'h'], ['i', 'n', ' ', '1', ' ', 'm', 'o', 'n', 't', 'h']), (['t', 'h', 'i', 's', ' ', 'm', 'o', 'n', 't', 'h'], ['0', ' ', 'm', 'o', 'n', 't', 'h', ' ', 'a', 'g', 'o']), (['l', 'a', 's', 't', ' ', 'w', 'e', 'e', 'k'], ['1', ' ', 'w', 'e', 'e', 'k', ' ', 'a', 'g', 'o']), (['l', 'a', 's', 't', ' ', 'y', 'e', 'a', 'r'], ['1', ' ', 'y', 'e', 'a', 'r', ' ', 'a', 'g', 'o']), (['n', 'e', 'x', 't', ' ', 'w', 'e', 'e', 'k'], ['i', 'n', ' ', '1', ' ', 'w', 'e', 'e', 'k']), (['n', 'e', 'x', 't', ' ', 'y', 'e', 'a', 'r'], ['i', 'n', ' ', '1', ' ', 'y', 'e', 'a', 'r']), (['t', 'h', 'i', 's', ' ', 'h', 'o', 'u', 'r'], ['0', ' ', 'h', 'o', 'u', 'r', ' ', 'a', 'g', 'o']), (['t', 'h', 'i', 's', ' ', 'w', 'e', 'e', 'k'], ['0', ' ', 'w', 'e', 'e', 'k', ' ', 'a', 'g', 'o']), (['t', 'h', 'i', 's', ' ', 'y', 'e', 'a', 'r'], ['0', ' ', 'y', 'e', 'a', 'r', ' ', 'a', 'g', 'o']), (['a', 'z', 'e', 'k', 'k', 'a'], ['i', 'n', ' ', '1', ' ', 'd', 'a', 'y']), (['i', 'd', 'e', 'l', 'l', 'i'], ['1', ' ', 'd', 'a', 'y', ' ', 'a', 'g', 'o']), (['a', 's', 's', '-', 'a'], ['0', ' ', 'd', 'a', 'y', ' ', 'a', 'g', 'o']), (['n', 'o', 'w'], ['0', ' ', 's', 'e', 'c', 'o', 'n', 'd', ' ', 'a', 'g', 'o'])]

/-- internal/data/kam.go: `kam_Locale`, dictionary. -/
def kamDict : LangData where
  name := ['k', 'a', 'm']
  translations := [(['m', 'w', 'a', 'i', ' ', 'w', 'a', ' ', 'i', 'k', 'u', 'm', 'i', ' ', 'n', 'a', ' ', 'i', 'm', 'w', 'e'], [['n', 'o', 'v', 'e', 'm', 'b', 'e', 'r']]), (['m', 'w', 'a', 'i', ' ', 'w', 'a', ' ', 'i', 'k', 'u', 'm', 'i', ' ', 'n', 'a', ' ', 'i', 'l', 'i'], [['d', 'e', 'c', 'e', 'm', 'b', 'e', 'r']]), (['m', 'w', 'a', 'i', ' ', 'w', 'a', ' ', 't', 'h', 'a', 'n', 't', 'h', 'a', 't', 'u'], [['j', 'u', 'n', 'e']]), (['m', 'w', 'a', 'i', ' ', 'w', 'a', ' ', 'n', 'y', 'a', 'a', 'n', 'y', 'a'], [['a', 'u', 'g', 'u', 's', 't']]), (['m', 'w', 'a', 'i', ' ', 'w', 'a', ' ', 'k', 'a', 't', 'a', 'n', 'o'], [['m', 'a', 'y']]), (['m', 'w', 'a', 'i', ' ', 'w', 'a', ' ', 'k', 'a', 't', 'a', 't', 'u'], [['m', 'a', 'r', 'c', 'h']]), (['m', 'w', 'a', 'i', ' ', 'w', 'a', ' ', 'm', 'u', 'o', 'n', 'z', 'a'], [['j', 'u', 'l', 'y']]), (['w', 'a', ' ', 'k', 'w', 'a', 'm', 'b', 'i', 'l', 'i', 'l', 'y', 'a'], [['m', 'o', 'n', 'd', 'a', 'y']]), (['m', 'w', 'a', 'i', ' ', 'w', 'a', ' ', 'i', 'k', 'u', 'm', 'i'], [['o', 'c', 't', 'o', 'b', 'e', 'r']]), (['m', 'w', 'a', 'i', ' ', 'w', 'a', ' ', 'k', 'e', 'n', 'd', 'a'], [['s', 'e', 'p', 't', 'e', 'm', 'b', 'e', 'r']]), (['m', 'w', 'a', 'i', ' ', 'w', 'a', ' ', 'k', 'a', 'n', 'a'], [['a', 'p', 'r', 'i', 'l']]), (['m', 'w', 'a', 'i', ' ', 'w', 'a', ' ', 'k', 'e', 'l', 'i'], [['f', 'e', 'b', 'r', 'u', 'a', 'r', 'y']]), (['m', 'w', 'a', 'i', ' ', 'w', 'a', ' ', 'm', 'b', 'e', 'e'], [['j', 'a', 'n', 'u', 'a', 'r', 'y']]), (['w', 'a', ' ', 't', 'h', 'a', 'n', 't', 'h', 'a', 't', 'u'], [['s', 'a', 't', 'u', 'r', 'd', 'a', 'y']]), (['i', 'y', 'a', 'k', 'w', 'a', 'k', 'y', 'a'], [['a', 'm']]), (['w', 'a', ' ', 'k', 'a', 't', 'a', 'n', 'o'], [['f', 'r', 'i', 'd', 'a', 'y']]), (['w', 'a', ' ', 'k', 'a', 't', 'a', 't', 'u'], [['w', 'e', 'd', 'n', 'e', 's', 'd', 'a', 'y']]), (['w', 'a', ' ', 'k', 'y', 'u', 'm', 'w', 'a'], [['s', 'u', 'n', 'd', 'a', 'y']]), (['m', 'u', 't', 'h', 'e', 'n', 'y', 'a'], [['d', 'a', 'y']]), (['i', 'y', 'a', 'w', 'i', 'o', 'o'], [['p', 'm']]), (['n', 'd', 'a', 't', 'i', 'k', 'a'], [['m', 'i', 'n', 'u', 't', 'e']]), (['s', 'e', 'k', 'o', 'n', 'd', 'i'], [['s', 'e', 'c', 'o', 'n', 'd']]), (['w', 'a', ' ', 'k', 'a', 'n', 'a'], [['t', 'h', 'u', 'r', 's', 'd', 'a', 'y']]), (['w', 'a', ' ', 'k', 'e', 'l', 'i'], [['t', 'u', 'e', 's', 'd', 'a', 'y']]), (['k', 'y', 'u', 'm', 'w', 'a'], [['w', 'e', 'e', 'k']]), (['m', 'w', 'a', 'k', 'a'], [['y', 'e', 'a', 'r']]), (['m', 'w', 'a', 'i'], [['m', 'o', 'n', 't', 'h']]), (['g', 'm', 't'], [['g', 'm', 't']]), (['i', 'k', 'l'], [['d', 'e', 'c', 'e', 'm', 'b', 'e', 'r']]), (['i', 'k', 'm'], [['n', 'o', 'v', 'e', 'm', 'b', 'e', 'r']]), (['i', 'k', 'u'], [['o', 'c', 't', 'o', 'b', 'e', 'r']]), (['k', 'a', 'n'], [['a', 'p', 'r', 'i', 'l']]), (['k', 'e', 'l'], [['f', 'e', 'b', 'r', 'u', 'a', 'r', 'y']]), (['k', 'n', 'd'], [['s', 'e', 'p', 't', 'e', 'm', 'b', 'e', 'r']]), (['k', 't', 'n'], [['m', 'a', 'y']]), (['k', 't', 'u'], [['m', 'a', 'r', 'c', 'h']]), (['m', 'b', 'e'], [['j', 'a', 'n', 'u', 'a', 'r', 'y']]), (['m', 'o', 'o'], [['j', 'u', 'l', 'y']]), (['n', 'y', 'a'], [['a', 'u', 'g', 'u', 's', 't']]), (['s', 'a', 'a'], [['h', 'o', 'u', 'r']]), (['t', 'h', 'a'], [['j', 'u', 'n', 'e']]), (['u', 't', 'c'], [['u', 't', 'c']]), (['w', 'k', 'l'], [['t', 'u', 'e', 's', 'd', 'a', 'y']]), (['w', 'k', 'n'], [['t', 'h', 'u', 'r', 's', 'd', 'a', 'y']]), (['w', 'k', 'w'], [['m', 'o', 'n', 'd', 'a', 'y']]), (['w', 'k', 'y'], [['s', 'u', 'n', 'd', 'a', 'y']]), (['w', 't', 'h'], [['s', 'a', 't', 'u', 'r', 'd', 'a', 'y']]), (['w', 't', 'n'], [['f', 'r', 'i', 'd', 'a', 'y']]), (['w', 't', 'u'], [['w', 'e', 'd', 'n', 'e', 's', 'd', 'a', 'y']]), (['a', 'm'], [['a', 'm']]), (['p', 'm'], [['p', 'm']]), ([' '], [[' ']]), (['\''], [[]]), (['+'], [['+']]), ([','], [[]]), (['-'], [['-']]), (['.'], [['.']]), (['/'], [['/']]), ([':'], [[':']]), ([';'], [[]]), (['@'], [[]]), (['['], [[]]), ([']'], [[]]), (['z'], [['z']]), (['|'], [[]])]
  relativeType := [(['t', 'h', 'i', 's', ' ', 'm', 'i', 'n', 'u', 't', 'e'], ['0', ' ', 'm', 'i', 'n', 'u', 't', 'e', ' ', 'a', 'g', 'o']), (['l', 'a', 's', 't', ' ', 'm', 'o', 'n', 't', 'h'], ['1', ' ', 'm', 'o', 'n', 't', 'h', ' ', 'a', 'g', 'o']), (['n', 'e', 'x', 't', ' ', 'm', 'o', 'n', 't', 'h'], ['i', 'n', ' ', '1', ' ', 'm', 'o', 'n', 't', 'h']), (['t', 'h', 'i', 's', ' ', 'm', 'o', 'n', 't', 'h'], ['0', ' ', 'm', 'o', 'n', 't', 'h', ' ', 'a', 'g', 'o']), (['l', 'a', 's', 't', ' ', 'w', 'e', 'e', 'k'], ['1', ' ', 'w', 'e', 'e', 'k', ' ', 'a', 'g', 'o']), (['l', 'a', 's', 't', ' ', 'y', 'e', 'a', 'r'], ['1', ' ', 'y', 'e', 'a', 'r', ' ', 'a', 'g', 'o']), (['n', 'e', 'x', 't', ' ', 'w', 'e', 'e', 'k'], ['i', 'n', ' ', '1', ' ', 'w', 'e', 'e', 'k']), (['n', 'e', 'x', 't', ' ', 'y', 'e', 'a', 'r'], ['i', 'n', ' ', '1', ' ', 'y', 'e', 'a', 'r']), (['t', 'h', 'i', 's', ' ', 'h', 'o', 'u', 'r'], ['0', ' ', 'h', 'o', 'u', 'r', ' ', 'a', 'g', 'o']), (['t', 'h', 'i', 's', ' ', 'w', 'e', 'e', 'k'], ['0', ' ', 'w', 'e', 'e', 'k', ' ', 'a', 'g', 'o']), (['t', 'h', 'i', 's', ' ', 'y', 'e', 'a', 'r'], ['0', ' ', 'y', 'e', 'a', 'r', ' ', 'a', 'g', 'o']), (['u', 'm', 'u', 'n', 't', 'h', 'i'], ['0', ' ', 'd', 'a', 'y', ' ', 'a', 'g', 'o']), (['i', 'y', 'o', 'o'], ['1', ' ', 'd', 'a', 'y', ' ', 'a', 'g', 'o']), (['n', 'o', 'w'], ['0', ' ', 's', 'e', 'c', 'o', 'n', 'd', ' ', 'a', 'g', 'o']), (['u', 'n', 'i'], ['i', 'n', ' ', '1', ' ', 'd', 'a', 'y'])]

/-- internal/data/kde.go: `kde_Locale`, dictionary. -/
def kdeDict : LangData where
  name := ['k', 'd', 'e']
  translations := [(['m', 'w', 'e', 'd', 'i', ' ', 'w', 'a', ' ', 'n', 'n', 'y', 'a', 'n', 'o', ' ', 'n', 'a', ' ', 'n', 'n', 'y', 'a', 'n', 'o', ' ', 'n', 'a', ' ', 'm'], [['d', 'e', 'c', 'e', 'm', 'b', 'e', 'r']]), (['m', 'w', 'e', 'd', 'i', ' ', 'w', 'a', ' ', 'n', 'n', 'y', 'a', 'n', 'o', ' ', 'n', 'a', ' ', 'n', 'n', 'y', 'a', 'n', 'o', ' ', 'n', 'a', ' ', 'u'], [['n', 'o', 'v', 'e', 'm', 'b', 'e', 'r']]), (['l', 'i', 'd', 'u', 'v', 'a', ' ', 'l', 'y', 'a', 'n', 'n', 'y', 'a', 'n', 'o', ' ', 'n', 'a', ' ', 'm', 'a', 'v', 'i', 'l', 'i'], [['f', 'r', 'i', 'd', 'a', 'y']]), (['m', 'w', 'e', 'd', 'i', ' ', 'w', 'a', ' ', 'n', 'n', 'y', 'a', 'n', 'o', ' ', 'n', 'a', ' ', 'n', 'c', 'h', 'e', 'c', 'h', 'i'], [['s', 'e', 'p', 't', 'e', 'm', 'b', 'e', 'r']]), (['l', 'i', 'd', 'u', 'v', 'a', ' ', 'l', 'y', 'a', 'n', 'n', 'y', 'a', 'n', 'o', ' ', 'n', 'a', ' ', 'l', 'i', 'n', 'j', 'i'], [['t', 'h', 'u', 'r', 's', 'd', 'a', 'y']]), (['m', 'w', 'e', 'd', 'i', ' ', 'w', 'a', ' ', 'n', 'n', 'y', 'a', 'n', 'o', ' ', 'n', 'a', ' ', 'm', 'i', 't', 'a', 't', 'u'], [['a', 'u', 'g', 'u', 's', 't']]), (['m', 'w', 'e', 'd', 'i', ' ', 'w', 'a', ' ', 'n', 'n', 'y', 'a', 'n', 'o', ' ', 'n', 'a', ' ', 'm', 'i', 'v', 'i', 'l', 'i'], [['j', 'u', 'l', 'y']]), (['m', 'w', 'e', 'd', 'i', ' ', 'w', 'a', ' ', 'n', 'n', 'y', 'a', 'n', 'o', ' ', 'n', 'a', ' ', 'n', 'n', 'y', 'a', 'n', 'o'], [['o', 'c', 't', 'o', 'b', 'e', 'r']]), (['m', 'w', 'e', 'd', 'i', ' ', 'w', 'a', ' ', 'n', 'n', 'y', 'a', 'n', 'o', ' ', 'n', 'a', ' ', 'u', 'm', 'o'], [['j', 'u', 'n', 'e']]), (['l', 'i', 'd', 'u', 'v', 'a', ' ', 'l', 'y', 'a', 'n', 'c', 'h', 'e', 'c', 'h', 'i'], [['t', 'u', 'e', 's', 'd', 'a', 'y']]), (['l', 'i', 'd', 'u', 'v', 'a', ' ', 'l', 'y', 'a', 'n', 'n', 'y', 'a', 'n', 'o'], [['w', 'e', 'd', 'n', 'e', 's', 'd', 'a', 'y']]), (['m', 'w', 'e', 'd', 'i', ' ', 'w', 'a', ' ', 'n', 'c', 'h', 'e', 'c', 'h', 'i'], [['a', 'p', 'r', 'i', 'l']]), (['m', 'w', 'e', 'd', 'i', ' ', 'w', 'a', ' ', 'n', 'n', 'y', 'a', 'n', 'o'], [['m', 'a', 'y']]), (['l', 'i', 'd', 'u', 'v', 'a', ' ', 'l', 'i', 't', 'a', 'n', 'd', 'i'], [['s', 'a', 't', 'u', 'r', 'd', 'a', 'y']]), (['l', 'i', 'd', 'u', 'v', 'a', ' ', 'l', 'y', 'a', 'p', 'i', 'l', 'i'], [['s', 'u', 'n', 'd', 'a', 'y']]), (['l', 'i', 'd', 'u', 'v', 'a', ' ', 'l', 'y', 'a', 't', 'a', 't', 'u'], [['m', 'o', 'n', 'd', 'a', 'y']]), (['m', 'w', 'e', 'd', 'i', ' ', 'w', 'a', ' ', 'p', 'i', 'l', 'i'], [['f', 'e', 'b', 'r', 'u', 'a', 'r', 'y']]), (['m', 'w', 'e', 'd', 'i', ' ', 'w', 'a', ' ', 't', 'a', 't', 'u'], [['m', 'a', 'r', 'c', 'h']]), (['m', 'w', 'e', 'd', 'i', ' ', 'n', 't', 'a', 'n', 'd', 'i'], [['j', 'a', 'n', 'u', 'a', 'r', 'y']]), (['s', 'e', 'k', 'u', 'n', 'd', 'e'], [['s', 'e', 'c', 'o', 'n', 'd']]), (['d', 'a', 'k', 'i', 'k', 'a'], [['m', 'i', 'n', 'u', 't', 'e']]), (['l', 'i', 'h', 'i', 'k', 'u'], [['d', 'a', 'y']]), (['l', 'i', 'j', 'u', 'm', 'a'], [['w', 'e', 'e', 'k']]), (['c', 'h', 'i', 'l', 'o'], [['p', 'm']]), (['m', 'w', 'a', 'k', 'a'], [['y', 'e', 'a', 'r']]), (['m', 'w', 'e', 'd', 'i'], [['m', 'o', 'n', 't', 'h']]), (['m', 'u', 'h', 'i'], [['a', 'm']]), (['a', 'g', 'o'], [['a', 'u', 'g', 'u', 's', 't']]), (['a', 'p', 'r'], [['a', 'p', 'r', 'i', 'l']]), (['d', 'e', 's'], [['d', 'e', 'c', 'e', 'm', 'b', 'e', 'r']]), (['f', 'e', 'b'], [['f', 'e', 'b', 'r', 'u', 'a', 'r', 'y']]), (['g', 'm', 't'], [['g', 'm', 't']]), (['j', 'a', 'n'], [['j', 'a', 'n', 'u', 'a', 'r', 'y']]), (['j', 'u', 'l'], [['j', 'u', 'l', 'y']]), (['j', 'u', 'n'], [['j', 'u', 'n', 'e']]), (['l', 'l', '1'], [['s', 'a', 't', 'u', 'r', 'd', 'a', 'y']]), (['l', 'l', '2'], [['s', 'u', 'n', 'd', 'a', 'y']]), (['l', 'l', '3'], [['m', 'o', 'n', 'd', 'a', 'y']]), (['l', 'l', '4'], [['t', 'u', 'e', 's', 'd', 'a', 'y']]), (['l', 'l', '5'], [['w', 'e', 'd', 'n', 'e', 's', 'd', 'a', 'y']]), (['l', 'l', '6'], [['t', 'h', 'u', 'r', 's', 'd', 'a', 'y']]), (['l', 'l', '7'], [['f', 'r', 'i', 'd', 'a', 'y']]), (['m', 'a', 'c'], [['m', 'a', 'r', 'c', 'h']]), (['m', 'e', 'i'], [['m', 'a', 'y']]), (['n', 'o', 'v'], [['n', 'o', 'v', 'e', 'm', 'b', 'e', 'r']]), (['o', 'k', 't'], [['o', 'c', 't', 'o', 'b', 'e', 'r']]), (['s', 'a', 'a'], [['h', 'o', 'u', 'r']]), (['s', 'e', 'p'], [['s', 'e', 'p', 't', 'e', 'm', 'b', 'e', 'r']]), (['u', 't', 'c'], [['u', 't', 'c']]), (['a', 'm'], [['a', 'm']]), (['p', 'm'], [['p', 'm']]), ([' '], [[' ']]), (['\''], [[]]), (['+'], [['+']]), ([','], [[]]), (['-'], [['-']]), (['.'], [['.']]), (['/'], [['/']]), ([':'], [[':']]), ([';'], [[]]), (['@'], [[]]), (['['], [[]]), ([']'], [[]]), (['z'], [['z']]), (['|'], [[]])]
  relativeType := [(['t', 'h', 'i', 's', ' ', 'm', 'i', 'n', 'u', 't', 'e'], ['0', ' ', 'm', 'i', 'n', 'u', 't', 'e', ' ', 'a', 'g', 'o']), (['l', 'a', 's', 't', ' ', 'm', 'o', 'n', 't', 'h'], ['1', ' ', 'm', 'o', 'n', 't', 'h', ' ', 'a', 'g', 'o']), (['n', 'e', 'x', 't', ' ', 'm', 'o', 'n', 't', 'h'], ['i', 'n', ' ', '1', ' ', 'm', 'o', 'n', 't', 'h']), (['t', 'h', 'i', 's', ' ', 'm', 'o', 'n', 't', 'h'], ['0', ' ', 'm', 'o', 'n', 't', 'h', ' ', 'a', 'g', 'o']), (['l', 'a', 's', 't', ' ', 'w', 'e', 'e', 'k'], ['1', ' ', 'w', 'e', 'e', 'k', ' ', 'a', 'g', 'o']), (['l', 'a', 's', 't', ' ', 'y', 'e', 'a', 'r'], ['1', ' ', 'y', 'e', 'a', 'r', ' ', 'a', 'g', 'o']), (['n', 'e', 'x', 't', ' ', 'w', 'e', 'e', 'k'], ['i', 'n', ' ', '1', ' ', 'w', 'e', 'e', 'k']), (['n', 'e', 'x', 't', ' ', 'y', 'e', 'a', 'r'], ['i', 'n', ' ', '1', ' ', 'y', 'e', 'a', 'r']), (['t', 'h', 'i', 's', ' ', 'h', 'o', 'u', 'r'], ['0', ' ', 'h', 'o', 'u', 'r', ' ', 'a', 'g', 'o']), (['t', 'h', 'i', 's', ' ', 'w', 'e', 'e', 'k'], ['0', ' ', 'w', 'e', 'e', 'k', ' ', 'a', 'g', 'o']), (['t', 'h', 'i', 's', ' ', 'y', 'e', 'a', 'r'], ['0', ' ', 'y', 'e', 'a', 'r', ' ', 'a', 'g', 'o']), (['n', 'u', 'n', 'd', 'u'], ['i', 'n', ' ', '1', ' ', 'd', 'a', 'y']), (['l', 'i', 'd', 'o'], ['1', ' ', 'd', 'a', 'y', ' ', 'a', 'g', 'o']), (['n', 'e', 'l', 'o'], ['0', ' ', 'd', 'a', 'y', ' ', 'a', 'g', 'o']), (['n', 'o', 'w'], ['0', ' ', 's', 'e', 'c', 'o', 'n', 'd', ' ', 'a', 'g', 'o'])]

/-- internal/data/kea.go: `kea_Locale`, dictionary. -/
def keaDict : LangData where
  name := ['k', 'e', 'a']
  translations := [(['s', 'i', 'g', 'u', 'n', 'd', 'a', '-', 'f', 'e', 'r', 'a'], [['m', 'o', 'n', 'd', 'a', 'y']]), (['k', 'u', 'a', 'r', 't', 'a', '-', 'f', 'e', 'r', 'a'], [['w', 'e', 'd', 'n', 'e', 's', 'd', 'a', 'y']]), (['k', 'i', 'n', 't', 'a', '-', 'f', 'e', 'r', 'a'], [['t', 'h', 'u', 'r', 's', 'd', 'a', 'y']]), (['s', 'e', 's', 't', 'a', '-', 'f', 'e', 'r', 'a'], [['f', 'r', 'i', 'd', 'a', 'y']]), (['t', 'e', 'r', 's', 'a', '-', 'f', 'e', 'r', 'a'], [['t', 'u', 'e', 's', 'd', 'a', 'y']]), (['d', 'i', 'z', 'e', 'n', 'b', 'r', 'u'], [['d', 'e', 'c', 'e', 'm', 'b', 'e', 'r']]), (['n', 'u', 'v', 'e', 'n', 'b', 'r', 'u'], [['n', 'o', 'v', 'e', 'm', 'b', 'e', 'r']]), (['s', 'e', 't', 'e', 'n', 'b', 'r', 'u'], [['s', 'e', 'p', 't', 'e', 'm', 'b', 'e', 'r']]), (['d', 'u', 'm', 'i', 'n', 'g', 'u'], [['s', 'u', 'n', 'd', 'a', 'y']]), (['f', 'e', 'b', 'r', 'e', 'r', 'u'], [['f', 'e', 'b', 'r', 'u', 'a', 'r', 'y']]), (['s', 'i', 'g', 'u', 'n', 'd', 'u'], [['s', 'e', 'c', 'o', 'n', 'd']]), (['a', 'g', 'o', 's', 't', 'u'], [['a', 'u', 'g', 'u', 's', 't']]), (['j', 'a', 'n', 'e', 'r', 'u'], [['j', 'a', 'n', 'u', 'a', 'r', 'y']]), (['m', 'i', 'n', 'u', 't', 'u'], [['m', 'i', 'n', 'u', 't', 'e']]), (['o', 't', 'u', 'b', 'r', 'u'], [['o', 'c', 't', 'o', 'b', 'e', 'r']]), (['s', 'a', 'b', 'a', 'd', 'u'], [['s', 'a', 't', 'u', 'r', 'd', 'a', 'y']]), (['s', 'i', 'm', 'a', 'n', 'a'], [['w', 'e', 'e', 'k']]), (['a', 'b', 'r', 'i', 'l'], [['a', 'p', 'r', 'i', 'l']]), (['j', 'u', 'l', 'h', 'u'], [['j', 'u', 'l', 'y']]), (['j', 'u', 'n', 'h', 'u'], [['j', 'u', 'n', 'e']]), (['m', 'a', 'r', 's', 'u'], [['m', 'a', 'r', 'c', 'h']]), (['m', 'a', 'i', 'u'], [['m', 'a', 'y']]), (['a', 'b', 'r'], [['a', 'p', 'r', 'i', 'l']]), (['a', 'g', 'o'], [['a', 'u', 'g', 'u', 's', 't']]), (['a', 'n', 'u'], [['y', 'e', 'a', 'r']]), (['d', 'i', 'a'], [['d', 'a', 'y']]), (['d', 'i', 'z'], [['d', 'e', 'c', 'e', 'm', 'b', 'e', 'r']]), (['d', 'u', 'm'], [['s', 'u', 'n', 'd', 'a', 'y']]), (['f', 'e', 'b'], [['f', 'e', 'b', 'r', 'u', 'a', 'r', 'y']]), (['g', 'm', 't'], [['g', 'm', 't']]), (['j', 'a', 'n'], [['j', 'a', 'n', 'u', 'a', 'r', 'y']]), (['j', 'u', 'l'], [['j', 'u', 'l', 'y']]), (['j', 'u', 'n'], [['j', 'u', 'n', 'e']]), (['k', 'i', 'n'], [['t', 'h', 'u', 'r', 's', 'd', 'a', 'y']]), (['k', 'u', 'a'], [['w', 'e', 'd', 'n', 'e', 's', 'd', 'a', 'y']]), (['m', 'a', 'i'], [['m', 'a', 'y']]), (['m', 'a', 'r'], [['m', 'a', 'r', 'c', 'h']]), (['m', 'e', 's'], [['m', 'o', 'n', 't', 'h']]), (['m', 'i', 'n'], [['m', 'i', 'n', 'u', 't', 'e']]), (['n', 'u', 'v'], [['n', 'o', 'v', 'e', 'm', 'b', 'e', 'r']]), (['o', 'r', 'a'], [['h', 'o', 'u', 'r']]), (['o', 't', 'u'], [['o', 'c', 't', 'o', 'b', 'e', 'r']]), (['s', 'a', 'b'], [['s', 'a', 't', 'u', 'r', 'd', 'a', 'y']]), (['s', 'e', 's'], [['f', 'r', 'i', 'd', 'a', 'y']]), (['s', 'e', 't'], [['s', 'e', 'p', 't', 'e', 'm', 'b', 'e', 'r']]), (['s', 'i', 'g'], [['m', 'o', 'n', 'd', 'a', 'y'], ['s', 'e', 'c', 'o', 'n', 'd']]), (['s', 'i', 'm'], [['w', 'e', 'e', 'k']]), (['t', 'e', 'r'], [['t', 'u', 'e', 's', 'd', 'a', 'y']]), (['u', 't', 'c'], [['u', 't', 'c']]), (['a', 'm'], [['a', 'm']]), (['p', 'm'], [['p', 'm']]), ([' '], [[' ']]), (['\''], [[]]), (['+'], [['+']]), ([','], [[]]), (['-'], [['-']]), (['.'], [['.']]), (['/'], [['/']]), ([':'], [[':']]), ([';'], [[]]), (['@'], [[]]), (['['], [[]]), ([']'], [[]]), (['h'], [['h', 'o', 'u', 'r']]), (['m'], [['m', 'i', 'n', 'u', 't', 'e']]), (['s'], [['s', 'e', 'c', 'o', 'n', 'd']]), (['z'], [['z']]), (['|'], [[]])]
  relativeType := [(['p', 'r', 'o', 's', 'i', 'm', 'u', ' ', 's', 'i', 'm', 'a', 'n', 'a'], ['i', 'n', ' ', '1', ' ', 'w', 'e', 'e', 'k']), (['s', 'i', 'm', 'a', 'n', 'a', ' ', 'p', 'a', 's', 'a', 'd', 'u'], ['1', ' ', 'w', 'e', 'e', 'k', ' ', 'a', 'g', 'o']), (['e', 's', ' ', 's', 'i', 'm', 'a', 'n', 'a', ' ', 'l', 'i'], ['0', ' ', 'w', 'e', 'e', 'k', ' ', 'a', 'g', 'o']), (['p', 'r', 'o', 's', 'i', 'm', 'u', ' ', 'a', 'n', 'u'], ['i', 'n', ' ', '1', ' ', 'y', 'e', 'a', 'r']), (['p', 'r', 'o', 's', 'i', 'm', 'u', ' ', 'm', 'e', 's'], ['i', 'n', ' ', '1', ' ', 'm', 'o', 'n', 't', 'h']), (['t', 'h', 'i', 's', ' ', 'm', 'i', 'n', 'u', 't', 'e'], ['0', ' ', 'm', 'i', 'n', 'u', 't', 'e', ' ', 'a', 'g', 'o']), (['a', 'n', 'u', ' ', 'p', 'a', 's', 'a', 'd', 'u'], ['1', ' ', 'y', 'e', 'a', 'r', ' ', 'a', 'g', 'o']), (['m', 'e', 's', ' ', 'p', 'a', 's', 'a', 'd', 'u'], ['1', ' ', 'm', 'o', 'n', 't', 'h', ' ', 'a', 'g', 'o']), (['e', 's', ' ', 'a', 'n', 'u', ' ', 'l', 'i'], ['0', ' ', 'y', 'e', 'a', 'r', ' ', 'a', 'g', 'o']), (['e', 's', ' ', 'm', 'e', 's', ' ', 'l', 'i'], ['0', ' ', 'm', 'o', 'n', 't', 'h', ' ', 'a', 'g', 'o']), (['t', 'h', 'i', 's', ' ', 'h', 'o', 'u', 'r'], ['0', ' ', 'h', 'o', 'u', 'r', ' ', 'a', 'g', 'o']), (['m', 'a', 'n', 'h', 'a'], ['i', 'n', ' ', '1', ' ', 'd', 'a', 'y']), (['o', 'n', 't', 'i'], ['1', ' ', 'd', 'a', 'y', ' ', 'a', 'g', 'o']), (['n', 'o', 'w'], ['0', ' ', 's', 'e', 'c', 'o', 'n', 'd', ' ', 'a', 'g', 'o']), (['o', 'j', 'i'], ['0', ' ', 'd', 'a', 'y', ' ', 'a', 'g', 'o'])]

/-- internal/data/khq.go: `khq_Locale`, dictionary. -/
def khqDict : LangData where
  name := ['k', 'h', 'q']
  translations := [(['a', 'l', 'h', 'a', 'm', 'i', 'i', 's', 'a'], [['t', 'h', 'u', 'r', 's', 'd', 'a', 'y']]), (['d', 'e', 'e', 's', 'a', 'n', 'b', 'u', 'r'], [['d', 'e', 'c', 'e', 'm', 'b', 'e', 'r']]), (['f', 'e', 'e', 'w', 'i', 'r', 'i', 'y', 'e'], [['f', 'e', 'b', 'r', 'u', 'a', 'r', 'y']]), (['n', 'o', 'o', 'w', 'a', 'n', 'b', 'u', 'r'], [['n', 'o', 'v', 'e', 'm', 'b', 'e', 'r']]), (['s', 'e', 'k', 't', 'a', 'n', 'b', 'u', 'r'], [['s', 'e', 'p', 't', 'e', 'm', 'b', 'e', 'r']]), (['o', 'k', 't', 'o', 'o', 'b', 'u', 'r'], [['o', 'c', 't', 'o', 'b', 'e', 'r']]), (['a', 's', 's', 'a', 'b', 'd', 'u'], [['s', 'a', 't', 'u', 'r', 'd', 'a', 'y']]), (['a', 't', 'a', 'l', 'a', 't', 'a'], [['t', 'u', 'e', 's', 'd', 'a', 'y']]), (['z', 'a', 'n', 'w', 'i', 'y', 'e'], [['j', 'a', 'n', 'u', 'a', 'r', 'y']]), (['a', 'd', 'd', 'u', 'h', 'a'], [['a', 'm']]), (['a', 'l', 'a', 'r', 'b', 'a'], [['w', 'e', 'd', 'n', 'e', 's', 'd', 'a', 'y']]), (['a', 'l', 'h', 'a', 'd', 'i'], [['s', 'u', 'n', 'd', 'a', 'y']]), (['a', 'l', 'j', 'u', 'm', 'a'], [['f', 'r', 'i', 'd', 'a', 'y']]), (['a', 'l', 'u', 'u', 'l', 'a'], [['p', 'm']]), (['a', 'w', 'i', 'r', 'i', 'l'], [['a', 'p', 'r', 'i', 'l']]), (['m', 'i', 'n', 'i', 't', 'i'], [['m', 'i', 'n', 'u', 't', 'e']]), (['a', 't', 'i', 'n', 'i'], [['m', 'o', 'n', 'd', 'a', 'y']]), (['g', 'u', 'u', 'r', 'u'], [['h', 'o', 'u', 'r']]), (['h', 'a', 'n', 'd', 'u'], [['m', 'o', 'n', 't', 'h']]), (['j', 'a', 'a', 'r', 'i'], [['d', 'a', 'y']]), (['j', 'i', 'i', 'r', 'i'], [['y', 'e', 'a', 'r']]), (['m', 'a', 'r', 's', 'i'], [['m', 'a', 'r', 'c', 'h']]), (['z', 'u', 'w', 'e', 'ŋ'], [['j', 'u', 'n', 'e']]), (['z', 'u', 'y', 'y', 'e'], [['j', 'u', 'l', 'y']]), (['h', 'e', 'b', 'u'], [['w', 'e', 'e', 'k']]), (['m', 'i', 't', 'i'], [['s', 'e', 'c', 'o', 'n', 'd']]), (['a', 'l', 'a'], [['w', 'e', 'd', 'n', 'e', 's', 'd', 'a', 'y']]), (['a', 'l', 'h'], [['s', 'u', 'n', 'd', 'a', 'y']]), (['a', 'l', 'j'], [['f', 'r', 'i', 'd', 'a', 'y']]), (['a', 'l', 'm'], [['t', 'h', 'u', 'r', 's', 'd', 'a', 'y']]), (['a', 's', 's'], [['s', 'a', 't', 'u', 'r', 'd', 'a', 'y']]), (['a', 't', 'a'], [['t', 'u', 'e', 's', 'd', 'a', 'y']]), (['a', 't', 'i'], [['m', 'o', 'n', 'd', 'a', 'y']]), (['a', 'w', 'i'], [['a', 'p', 'r', 'i', 'l']]), (['d', 'e', 'e'], [['d', 'e', 'c', 'e', 'm', 'b', 'e', 'r']]), (['f', 'e', 'e'], [['f', 'e', 'b', 'r', 'u', 'a', 'r', 'y']]), (['g', 'm', 't'], [['g', 'm', 't']]), (['m', 'a', 'r'], [['m', 'a', 'r', 'c', 'h']]), (['n', 'o', 'o'], [['n', 'o', 'v', 'e', 'm', 'b', 'e', 'r']]), (['o', 'k', 't'], [['o', 'c', 't', 'o', 'b', 'e', 'r']]), (['s', 'e', 'k'], [['s', 'e', 'p', 't', 'e', 'm', 'b', 'e', 'r']]), (['u', 't', 'c'], [['u', 't', 'c']]), (['z', 'a', 'n'], [['j', 'a', 'n', 'u', 'a', 'r', 'y']]), (['z', 'u', 'w'], [['j', 'u', 'n', 'e']]), (['z', 'u', 'y'], [['j', 'u', 'l', 'y']]), (['a', 'm'], [['a', 'm']]), (['m', 'e'], [['m', 'a', 'y']]), (['p', 'm'], [['p', 'm']]), (['u', 't'], [['a', 'u', 'g', 'u', 's', 't']]), ([' '], [[' ']]), (['\''], [[]]), (['+'], [['+']]), ([','], [[]]), (['-'], [['-']]), (['.'], [['.']]), (['/'], [['/']]), ([':'], [[':']]), ([';'], [[]]), (['@'], [[]]), (['['], [[]]), ([']'], [[]]), (['z'], [['z']]), (['|'], [[]])]
  relativeType := [(['t', 'h', 'i', 's', ' ', 'm', 'i', 'n', 'u', 't', 'e'], ['0', ' ', 'm', 'i', 'n', 'u', 't', 'e', ' ', 'a', 'g', 'o']), (['l', 'a', 's', 't', ' ', 'm', 'o', 'n', 't', 'h'], ['1', ' ', 'm', 'o', 'n', 't', 'h', ' ', 'a', 'g', 'o']), (['n', 'e', 'x', 't', ' ', 'm', 'o', 'n', 't', 'h'], ['i', 'n', ' ', '1', ' ', 'm', 'o', 'n', 't', 'h']), (['t', 'h', 'i', 's', ' ', 'm', 'o', 'n', 't', 'h'], ['0', ' ', 'm', 'o', 'n', 't', 'h', ' ', 'a', 'g', 'o']), (['l', 'a', 's', 't', ' ', 'w', 'e', 'e', 'k'], ['1', ' ', 'w', 'e', 'e', 'k', ' ', 'a', 'g', 'o']), (['l', 'a', 's', 't', ' ', 'y', 'e', 'a', 'r'], ['1', ' ', 'y', 'e', 'a', 'r', ' ', 'a', 'g', 'o']), (['n', 'e', 'x', 't', ' ', 'w', 'e', 'e', 'k'], ['i', 'n', ' ', '1', ' ', 'w', 'e', 'e', 'k']), (['n', 'e', 'x', 't', ' ', 'y', 'e', 'a', 'r'], ['i', 'n', ' ', '1', ' ', 'y', 'e', 'a', 'r']), (['t', 'h', 'i', 's', ' ', 'h', 'o', 'u', 'r'], ['0', ' ', 'h', 'o', 'u', 'r', ' ', 'a', 'g', 'o']), (['t', 'h', 'i', 's', ' ', 'w', 'e', 'e', 'k'], ['0', ' ', 'w', 'e', 'e', 'k', ' ', 'a', 'g', 'o']), (['t', 'h', 'i', 's', ' ', 'y', 'e', 'a', 'r'], ['0', ' ', 'y', 'e', 'a', 'r', ' ', 'a', 'g', 'o']), (['s', 'u', 'b', 'a'], ['i', 'n', ' ', '1', ' ', 'd', 'a', 'y']), (['h', 'o', 'o'], ['0', ' ', 'd', 'a', 'y', ' ', 'a', 'g', 'o']), (['n', 'o', 'w'], ['0', ' ', 's', 'e', 'c', 'o', 'n', 'd', ' ', 'a', 'g', 'o']), (['b', 'i'], ['1', ' ', 'd', 'a', 'y', ' ', 'a', 'g', 'o'])]

/-- internal/data/ki.go: `ki_Locale`, dictionary. -/
def kiDict : LangData where
  name := ['k', 'i']
  translations := [(['m', 'w', 'e', 'r', 'e', ' ', 'w', 'a', ' ', 'i', 'k', 'u', 'm', 'i', ' ', 'n', 'a', ' ', 'u', 'm', 'w', 'e'], [['n', 'o', 'v', 'e', 'm', 'b', 'e', 'r']]), (['m', 'w', 'e', 'r', 'e', ' ', 'w', 'a', ' ', 'g', 'a', 't', 'a', 'n', 'd', 'a', 't', 'u'], [['j', 'u', 'n', 'e']]), (['m', 'w', 'e', 'r', 'e', ' ', 'w', 'a', ' ', 'm', 'u', 'g', 'w', 'a', 'n', 'j', 'a'], [['j', 'u', 'l', 'y']]), (['m', 'w', 'e', 'r', 'e', ' ', 'w', 'a', ' ', 'g', 'a', 't', 'a', 'n', 'o'], [['m', 'a', 'y']]), (['m', 'w', 'e', 'r', 'e', ' ', 'w', 'a', ' ', 'g', 'a', 't', 'a', 't', 'u'], [['m', 'a', 'r', 'c', 'h']]), (['m', 'w', 'e', 'r', 'e', ' ', 'w', 'a', ' ', 'k', 'a', 'n', 'a', 'n', 'a'], [['a', 'u', 'g', 'u', 's', 't']]), (['m', 'w', 'e', 'r', 'e', ' ', 'w', 'a', ' ', 'i', 'k', 'u', 'm', 'i'], [['o', 'c', 't', 'o', 'b', 'e', 'r']]), (['m', 'w', 'e', 'r', 'e', ' ', 'w', 'a', ' ', 'k', 'e', 'n', 'd', 'a'], [['s', 'e', 'p', 't', 'e', 'm', 'b', 'e', 'r']]), (['m', 'w', 'e', 'r', 'e', ' ', 'w', 'a', ' ', 'k', 'a', 'n', 'a'], [['a', 'p', 'r', 'i', 'l']]), (['m', 'w', 'e', 'r', 'e', ' ', 'w', 'a', ' ', 'k', 'e', 'r', 'i'], [['f', 'e', 'b', 'r', 'u', 'a', 'r', 'y']]), (['n', 'j', 'u', 'm', 'a', 'm', 'o', 't', 'h', 'i'], [['s', 'a', 't', 'u', 'r', 'd', 'a', 'y']]), (['n', 'd', 'i', 't', 'h', 'e', 'm', 'b', 'a'], [['d', 'e', 'c', 'e', 'm', 'b', 'e', 'r']]), (['n', 'j', 'u', 'm', 'a', 't', 'a', 'n', 'a'], [['w', 'e', 'd', 'n', 'e', 's', 'd', 'a', 'y']]), (['n', 'j', 'u', 'm', 'a', 't', 'a', 't', 'u'], [['m', 'o', 'n', 'd', 'a', 'y']]), (['a', 'r', 'a', 'm', 'i', 't', 'h', 'i'], [['t', 'h', 'u', 'r', 's', 'd', 'a', 'y']]), (['h', 'w', 'a', 'i', '-', 'i', 'n', 'i'], [['p', 'm']]), (['m', 'u', 't', 'h', 'e', 'n', 'y', 'a'], [['d', 'a', 'y']]), (['n', 'j', 'e', 'n', 'u', 'a', 'r', 'i'], [['j', 'a', 'n', 'u', 'a', 'r', 'y']]), (['n', 'j', 'u', 'm', 'a', 'i', 'n', 'e'], [['t', 'u', 'e', 's', 'd', 'a', 'y']]), (['n', 'd', 'a', 'g', 'i', 'k', 'a'], [['m', 'i', 'n', 'u', 't', 'e']]), (['s', 'e', 'k', 'u', 'n', 'd', 'e'], [['s', 'e', 'c', 'o', 'n', 'd']]), (['k', 'i', 'r', 'o', 'k', 'o'], [['a', 'm']]), (['k', 'i', 'u', 'm', 'i', 'a'], [['w', 'e', 'e', 'k'], ['s', 'u', 'n', 'd', 'a', 'y']]), (['n', 'j', 'u', 'm', 'a', 'a'], [['f', 'r', 'i', 'd', 'a', 'y']]), (['i', 't', 'h', 'a', 'a'], [['h', 'o', 'u', 'r']]), (['m', 'w', 'a', 'k', 'a'], [['y', 'e', 'a', 'r']]), (['m', 'w', 'e', 'r', 'i'], [['m', 'o', 'n', 't', 'h']]), (['a', 'r', 't'], [['t', 'h', 'u', 'r', 's', 'd', 'a', 'y']]), (['d', 'i', 't'], [['d', 'e', 'c', 'e', 'm', 'b', 'e', 'r']]), (['g', 'm', 't'], [['g', 'm', 't']]), (['j', 'e', 'n'], [['j', 'a', 'n', 'u', 'a', 'r', 'y']]), (['k', 'm', 'a'], [['s', 'u', 'n', 'd', 'a', 'y']]), (['n', 'm', 'a'], [['f', 'r', 'i', 'd', 'a', 'y']]), (['n', 'm', 'm'], [['s', 'a', 't', 'u', 'r', 'd', 'a', 'y']]), (['n', 'm', 'n'], [['t', 'u', 'e', 's', 'd', 'a', 'y']]), (['n', 'm', 't'], [['w', 'e', 'd', 'n', 'e', 's', 'd', 'a', 'y']]), (['n', 't', 't'], [['m', 'o', 'n', 'd', 'a', 'y']]), (['u', 't', 'c'], [['u', 't', 'c']]), (['w', 'g', 't'], [['m', 'a', 'r', 'c', 'h']]), (['w', 'i', 'k'], [['o', 'c', 't', 'o', 'b', 'e', 'r']]), (['w', 'k', 'd'], [['s', 'e', 'p', 't', 'e', 'm', 'b', 'e', 'r']]), (['w', 'k', 'n'], [['a', 'p', 'r', 'i', 'l']]), (['w', 'k', 'r'], [['f', 'e', 'b', 'r', 'u', 'a', 'r', 'y']]), (['w', 'm', 'j'], [['j', 'u', 'l', 'y']]), (['w', 'm', 'w'], [['n', 'o', 'v', 'e', 'm', 'b', 'e', 'r']]), (['w', 'n', 'n'], [['a', 'u', 'g', 'u', 's', 't']]), (['w', 't', 'd'], [['j', 'u', 'n', 'e']]), (['w', 't', 'n'], [['m', 'a', 'y']]), (['a', 'm'], [['a', 'm']]), (['p', 'm'], [['p', 'm']]), ([' '], [[' ']]), (['\''], [[]]), (['+'], [['+']]), ([','], [[]]), (['-'], [['-']]), (['.'], [['.']]), (['/'], [['/']]), ([':'], [[':']]), ([';'], [[]]), (['@'], [[]]), (['['], [[]]), ([']'], [[]]), (['z'], [['z']]), (['|'], [[]])]
  relativeType := [(['t', 'h', 'i', 's', ' ', 'm', 'i', 'n', 'u', 't', 'e'], ['0', ' ', 'm', 'i', 'n', 'u', 't', 'e', ' ', 'a', 'g', 'o']), (['l', 'a', 's', 't', ' ', 'm', 'o', 'n', 't', 'h'], ['1', ' ', 'm', 'o', 'n', 't', 'h', ' ', 'a', 'g', 'o']), (['n', 'e', 'x', 't', ' ', 'm', 'o', 'n', 't', 'h'], ['i', 'n', ' ', '1', ' ', 'm', 'o', 'n', 't', 'h']), (['t', 'h', 'i', 's', ' ', 'm', 'o', 'n', 't', 'h'], ['0', ' ', 'm', 'o', 'n', 't', 'h', ' ', 'a', 'g', 'o']), (['l', 'a', 's', 't', ' ', 'w', 'e', 'e', 'k'], ['1', ' ', 'w', 'e', 'e', 'k', ' ', 'a', 'g', 'o']), (['l', 'a', 's', 't', ' ', 'y', 'e', 'a', 'r'], ['1', ' ', 'y', 'e', 'a', 'r', ' ', 'a', 'g', 'o']), (['n', 'e', 'x', 't', ' ', 'w', 'e', 'e', 'k'], ['i', 'n', ' ', '1', ' ', 'w', 'e', 'e', 'k']), (['n', 'e', 'x', 't', ' ', 'y', 'e', 'a', 'r'], ['i', 'n', ' ', '1', ' ', 'y', 'e', 'a', 'r']), (['t', 'h', 'i', 's', ' ', 'h', 'o', 'u', 'r'], ['0', ' ', 'h', 'o', 'u', 'r', ' ', 'a', 'g', 'o']), (['t', 'h', 'i', 's', ' ', 'w', 'e', 'e', 'k'], ['0', ' ', 'w', 'e', 'e', 'k', ' ', 'a', 'g', 'o']), (['t', 'h', 'i', 's', ' ', 'y', 'e', 'a', 'r'], ['0', ' ', 'y', 'e', 'a', 'r', ' ', 'a', 'g', 'o']), (['u', 'm', 'u', 't', 'h', 'i'], ['0', ' ', 'd', 'a', 'y', ' ', 'a', 'g', 'o']), (['r', 'u', 'c', 'i', 'u'], ['i', 'n', ' ', '1', ' ', 'd', 'a', 'y']), (['i', 'r', 'a'], ['1', ' ', 'd', 'a', 'y', ' ', 'a', 'g', 'o']), (['n', 'o', 'w'], ['0', ' ', 's', 'e', 'c', 'o', 'n', 'd', ' ', 'a', 'g', 'o'])]

/-- internal/data/kk.go: `kk_Locale`, dictionary. -/
def kkDict : LangData where
  name := ['k', 'k']
  translations := [(['ж', 'е', 'л', 'т', 'о', 'қ', 'с', 'а', 'н'], [['d', 'e', 'c', 'e', 'm', 'b', 'e', 'r']]), (['б', 'е', 'и', 'с', 'е', 'н', 'б', 'і'], [['t', 'h', 'u', 'r', 's', 'd', 'a', 'y']]), (['д', 'ү', 'и', 'с', 'е', 'н', 'б', 'і'], [['m', 'o', 'n', 'd', 'a', 'y']]), (['ж', 'е', 'к', 'с', 'е', 'н', 'б', 'і'], [['s', 'u', 'n', 'd', 'a', 'y']]), (['с', 'е', 'и', 'с', 'е', 'н', 'б', 'і'], [['t', 'u', 'e', 's', 'd', 'a', 'y']]), (['с', 'ә', 'р', 'с', 'е', 'н', 'б', 'і'], [['w', 'e', 'd', 'n', 'e', 's', 'd', 'a', 'y']]), (['қ', 'ы', 'р', 'к', 'ү', 'и', 'е', 'к'], [['s', 'e', 'p', 't', 'e', 'm', 'b', 'e', 'r']]), (['м', 'а', 'у', 'с', 'ы', 'м'], [['j', 'u', 'n', 'e']]), (['н', 'а', 'у', 'р', 'ы', 'з'], [['m', 'a', 'r', 'c', 'h']]), (['с', 'е', 'к', 'у', 'н', 'д'], [['s', 'e', 'c', 'o', 'n', 'd']]), (['қ', 'а', 'р', 'а', 'ш', 'а'], [['n', 'o', 'v', 'e', 'm', 'b', 'e', 'r']]), (['қ', 'а', 'ң', 'т', 'а', 'р'], [['j', 'a', 'n', 'u', 'a', 'r', 'y']]), (['а', 'қ', 'п', 'а', 'н'], [['f', 'e', 'b', 'r', 'u', 'a', 'r', 'y']]), (['м', 'а', 'м', 'ы', 'р'], [['m', 'a', 'y']]), (['м', 'и', 'н', 'у', 'т'], [['m', 'i', 'n', 'u', 't', 'e']]), (['с', 'а', 'ғ', 'а', 'т'], [['h', 'o', 'u', 'r']]), (['с', 'е', 'н', 'б', 'і'], [['s', 'a', 't', 'u', 'r', 'd', 'a', 'y']]), (['с', 'ә', 'у', 'і', 'р'], [['a', 'p', 'r', 'i', 'l']]), (['т', 'а', 'м', 'ы', 'з'], [['a', 'u', 'g', 'u', 's', 't']]), (['ш', 'і', 'л', 'д', 'е'], [['j', 'u', 'l', 'y']]), (['қ', 'а', 'з', 'а', 'н'], [['o', 'c', 't', 'o', 'b', 'e', 'r']]), (['а', 'п', 'т', 'а'], [['w', 'e', 'e', 'k']]), (['ж', 'ұ', 'м', 'а'], [['f', 'r', 'i', 'd', 'a', 'y']]), (['g', 'm', 't'], [['g', 'm', 't']]), (['u', 't', 'c'], [['u', 't', 'c']]), (['а', 'қ', 'п'], [['f', 'e', 'b', 'r', 'u', 'a', 'r', 'y']]), (['ж', 'е', 'л'], [['d', 'e', 'c', 'e', 'm', 'b', 'e', 'r']]), (['ж', 'ы', 'л'], [['y', 'e', 'a', 'r']]), (['к', 'ү', 'н'], [['d', 'a', 'y']]), (['м', 'а', 'м'], [['m', 'a', 'y']]), (['м', 'а', 'у'], [['j', 'u', 'n', 'e']]), (['м', 'и', 'н'], [['m', 'i', 'n', 'u', 't', 'e']]), (['н', 'а', 'у'], [['m', 'a', 'r', 'c', 'h']]), (['с', 'а', 'ғ'], [['h', 'o', 'u', 'r']]), (['с', 'ә', 'у'], [['a', 'p', 'r', 'i', 'l']]), (['т', 'а', 'м'], [['a', 'u', 'g', 'u', 's', 't']]), (['ш', 'і', 'л'], [['j', 'u', 'l', 'y']]), (['қ', 'а', 'з'], [['o', 'c', 't', 'o', 'b', 'e', 'r']]), (['қ', 'а', 'р'], [['n', 'o', 'v', 'e', 'm', 'b', 'e', 'r']]), (['қ', 'а', 'ң'], [['j', 'a', 'n', 'u', 'a', 'r', 'y']]), (['қ', 'ы', 'р'], [['s', 'e', 'p', 't', 'e', 'm', 'b', 'e', 'r']]), (['a', 'm'], [['a', 'm']]), (['p', 'm'], [['p', 'm']]), (['а', 'и'], [['m', 'o', 'n', 't', 'h']]), (['а', 'п'], [['w', 'e', 'e', 'k']]), (['б', 'с'], [['t', 'h', 'u', 'r', 's', 'd', 'a', 'y']]), (['д', 'с'], [['m', 'o', 'n', 'd', 'a', 'y']]), (['ж', 'м'], [['f', 'r', 'i', 'd', 'a', 'y']]), (['ж', 'с'], [['s', 'u', 'n', 'd', 'a', 'y']]), (['с', 'б'], [['s', 'a', 't', 'u', 'r', 'd', 'a', 'y']]), (['с', 'р'], [['w', 'e', 'd', 'n', 'e', 's', 'd', 'a', 'y']]), (['с', 'с'], [['t', 'u', 'e', 's', 'd', 'a', 'y']]), ([' '], [[' ']]), (['\''], [[]]), (['+'], [['+']]), ([','], [[]]), (['-'], [['-']]), (['.'], [['.']]), (['/'], [['/']]), ([':'], [[':']]), ([';'], [[]]), (['@'], [[]]), (['['], [[]]), ([']'], [[]]), (['z'], [['z']]), (['|'], [[]]), (['ж'], [['y', 'e', 'a', 'r']]), (['с'], [['s', 'e', 'c', 'o', 'n', 'd']])]
  relativeType := [(['б', 'ы', 'л', 'т', 'ы', 'р', 'ғ', 'ы', ' ', 'ж', 'ы', 'л'], ['1', ' ', 'y', 'e', 'a', 'r', ' ', 'a', 'g', 'o']), (['к', 'е', 'л', 'е', 'с', 'і', ' ', 'а', 'п', 'т', 'а'], ['i', 'n', ' ', '1', ' ', 'w', 'e', 'e', 'k']), (['б', 'и', 'ы', 'л', 'ғ', 'ы', ' ', 'ж', 'ы', 'л'], ['0', ' ', 'y', 'e', 'a', 'r', ' ', 'a', 'g', 'o']), (['к', 'е', 'л', 'е', 'с', 'і', ' ', 'ж', 'ы', 'л'], ['i', 'n', ' ', '1', ' ', 'y', 'e', 'a', 'r']), (['ө', 'т', 'к', 'е', 'н', ' ', 'а', 'п', 'т', 'а'], ['1', ' ', 'w', 'e', 'e', 'k', ' ', 'a', 'g', 'o']), (['к', 'е', 'л', 'е', 'с', 'і', ' ', 'а', 'и'], ['i', 'n', ' ', '1', ' ', 'm', 'o', 'n', 't', 'h']), (['о', 'с', 'ы', ' ', 'м', 'и', 'н', 'у', 'т'], ['0', ' ', 'm', 'i', 'n', 'u', 't', 'e', ' ', 'a', 'g', 'o']), (['о', 'с', 'ы', ' ', 'с', 'а', 'ғ', 'а', 'т'], ['0', ' ', 'h', 'o', 'u', 'r', ' ', 'a', 'g', 'o']), (['о', 'с', 'ы', ' ', 'а', 'п', 'т', 'а'], ['0', ' ', 'w', 'e', 'e', 'k', ' ', 'a', 'g', 'o']), (['ө', 'т', 'к', 'е', 'н', ' ', 'а', 'и'], ['1', ' ', 'm', 'o', 'n', 't', 'h', ' ', 'a', 'g', 'o']), (['о', 'с', 'ы', ' ', 'а', 'и'], ['0', ' ', 'm', 'o', 'n', 't', 'h', ' ', 'a', 'g', 'o']), (['б', 'ү', 'г', 'і', 'н'], ['0', ' ', 'd', 'a', 'y', ' ', 'a', 'g', 'o']), (['е', 'р', 'т', 'е', 'ң'], ['i', 'n', ' ', '1', ' ', 'd', 'a', 'y']), (['қ', 'а', 'з', 'і', 'р'], ['0', ' ', 's', 'e', 'c', 'o', 'n', 'd', ' ', 'a', 'g', 'o']), (['к', 'е', 'ш', 'е'], ['1', ' ', 'd', 'a', 'y', ' ', 'a', 'g', 'o'])]

/-- internal/data/kl.go: `kl_Locale`, dictionary. -/
def klDict : LangData where
  name := ['k', 'l']
  translations := [(['p', 'i', 'n', 'g', 'a', 's', 'u', 'n', 'n', 'g', 'o', 'r', 'n', 'e', 'q'], [['w', 'e', 'd', 'n', 'e', 's', 'd', 'a', 'y']]), (['t', 'a', 'l', 'l', 'i', 'm', 'a', 'n', 'n', 'g', 'o', 'r', 'n', 'e', 'q'], [['f', 'r', 'i', 'd', 'a', 'y']]), (['a', 'r', 'f', 'i', 'n', 'i', 'n', 'n', 'g', 'o', 'r', 'n', 'e', 'q'], [['s', 'a', 't', 'u', 'r', 'd', 'a', 'y']]), (['a', 't', 'a', 'a', 's', 'i', 'n', 'n', 'g', 'o', 'r', 'n', 'e', 'q'], [['m', 'o', 'n', 'd', 'a', 'y']]), (['s', 'i', 's', 'a', 'm', 'a', 'n', 'n', 'g', 'o', 'r', 'n', 'e', 'q'], [['t', 'h', 'u', 'r', 's', 'd', 'a', 'y']]), (['m', 'a', 'r', 'l', 'u', 'n', 'n', 'g', 'o', 'r', 'n', 'e', 'q'], [['t', 'u', 'e', 's', 'd', 'a', 'y']]), (['s', 'e', 'p', 't', 'e', 'm', 'b', 'e', 'r', 'i'], [['s', 'e', 'p', 't', 'e', 'm', 'b', 'e', 'r']]), (['a', 'u', 'g', 'u', 's', 't', 'u', 's', 'i'], [['a', 'u', 'g', 'u', 's', 't']]), (['d', 'e', 'c', 'e', 'm', 'b', 'e', 'r', 'i'], [['d', 'e', 'c', 'e', 'm', 'b', 'e', 'r']]), (['n', 'o', 'v', 'e', 'm', 'b', 'e', 'r', 'i'], [['n', 'o', 'v', 'e', 'm', 'b', 'e', 'r']]), (['f', 'e', 'b', 'r', 'u', 'a', 'r', 'i'], [['f', 'e', 'b', 'r', 'u', 'a', 'r', 'y']]), (['o', 'k', 't', 'o', 'b', 'e', 'r', 'i'], [['o', 'c', 't', 'o', 'b', 'e', 'r']]), (['j', 'a', 'n', 'u', 'a', 'r', 'i'], [['j', 'a', 'n', 'u', 'a', 'r', 'y']]), (['a', 'p', 'r', 'i', 'l', 'i'], [['a', 'p', 'r', 'i', 'l']]), (['m', 'a', 'r', 't', 's', 'i'], [['m', 'a', 'r', 'c', 'h']]), (['m', 'i', 'n', 'u', 't', 'e'], [['m', 'i', 'n', 'u', 't', 'e']]), (['s', 'a', 'b', 'a', 'a', 't'], [['s', 'u', 'n', 'd', 'a', 'y']]), (['s', 'e', 'c', 'o', 'n', 'd'], [['s', 'e', 'c', 'o', 'n', 'd']]), (['m', 'o', 'n', 't', 'h'], [['m', 'o', 'n', 't', 'h']]), (['h', 'o', 'u', 'r'], [['h', 'o', 'u', 'r']]), (['j', 'u', 'l', 'i'], [['j', 'u', 'l', 'y']]), (['j', 'u', 'n', 'i'], [['j', 'u', 'n', 'e']]), (['m', 'a', 'j', 'i'], [['m', 'a', 'y']]), (['w', 'e', 'e', 'k'], [['w', 'e', 'e', 'k']]), (['y', 'e', 'a', 'r'], [['y', 'e', 'a', 'r']]), (['a', 'p', 'r'], [['a', 'p', 'r', 'i', 'l']]), (['a', 'r', 'f'], [['s', 'a', 't', 'u', 'r', 'd', 'a', 'y']]), (['a', 't', 'a'], [['m', 'o', 'n', 'd', 'a', 'y']]), (['a', 'u', 'g'], [['a', 'u', 'g', 'u', 's', 't']]), (['d', 'a', 'y'], [['d', 'a', 'y']]), (['d', 'e', 'c'], [['d', 'e', 'c', 'e', 'm', 'b', 'e', 'r']]), (['f', 'e', 'b'], [['f', 'e', 'b', 'r', 'u', 'a', 'r', 'y']]), (['g', 'm', 't'], [['g', 'm', 't']]), (['j', 'a', 'n'], [['j', 'a', 'n', 'u', 'a', 'r', 'y']]), (['j', 'u', 'l'], [['j', 'u', 'l', 'y']]), (['j', 'u', 'n'], [['j', 'u', 'n', 'e']]), (['m', 'a', 'j'], [['m', 'a', 'y']]), (['m', 'a', 'r'], [['m', 'a', 'r', 'c', 'h'], ['t', 'u', 'e', 's', 'd', 'a', 'y']]), (['n', 'o', 'v'], [['n', 'o', 'v', 'e', 'm', 'b', 'e', 'r']]), (['o', 'k', 't'], [['o', 'c', 't', 'o', 'b', 'e', 'r']]), (['p', 'i', 'n'], [['w', 'e', 'd', 'n', 'e', 's', 'd', 'a', 'y']]), (['s', 'a', 'b'], [['s', 'u', 'n', 'd', 'a', 'y']]), (['s', 'e', 'p'], [['s', 'e', 'p', 't', 'e', 'm', 'b', 'e', 'r']]), (['s', 'i', 's'], [['t', 'h', 'u', 'r', 's', 'd', 'a', 'y']]), (['t', 'a', 'l'], [['f', 'r', 'i', 'd', 'a', 'y']]), (['u', 't', 'c'], [['u', 't', 'c']]), (['a', 'm'], [['a', 'm']]), (['p', 'm'], [['p', 'm']]), ([' '], [[' ']]), (['\''], [[]]), (['+'], [['+']]), ([','], [[]]), (['-'], [['-']]), (['.'], [['.']]), (['/'], [['/']]), ([':'], [[':']]), ([';'], [[]]), (['@'], [[]]), (['['], [[]]), ([']'], [[]]), (['z'], [['z']]), (['|'], [[]])]
  relativeType := [(['t', 'h', 'i', 's', ' ', 'm', 'i', 'n', 'u', 't', 'e'], ['0', ' ', 'm', 'i', 'n', 'u', 't', 'e', ' ', 'a', 'g', 'o']), (['l', 'a', 's', 't', ' ', 'm', 'o', 'n', 't', 'h'], ['1', ' ', 'm', 'o', 'n', 't', 'h', ' ', 'a', 'g', 'o']), (['n', 'e', 'x', 't', ' ', 'm', 'o', 'n', 't', 'h'], ['i', 'n', ' ', '1', ' ', 'm', 'o', 'n', 't', 'h']), (['t', 'h', 'i', 's', ' ', 'm', 'o', 'n', 't', 'h'], ['0', ' ', 'm', 'o', 'n', 't', 'h', ' ', 'a', 'g', 'o']), (['l', 'a', 's', 't', ' ', 'w', 'e', 'e', 'k'], ['1', ' ', 'w', 'e', 'e', 'k', ' ', 'a', 'g', 'o']), (['l', 'a', 's', 't', ' ', 'y', 'e', 'a', 'r'], ['1', ' ', 'y', 'e', 'a', 'r', ' ', 'a', 'g', 'o']), (['n', 'e', 'x', 't', ' ', 'w', 'e', 'e', 'k'], ['i', 'n', ' ', '1', ' ', 'w', 'e', 'e', 'k']), (['n', 'e', 'x', 't', ' ', 'y', 'e', 'a', 'r'], ['i', 'n', ' ', '1', ' ', 'y', 'e', 'a', 'r']), (['t', 'h', 'i', 's', ' ', 'h', 'o', 'u', 'r'], ['0', ' ', 'h', 'o', 'u', 'r', ' ', 'a', 'g', 'o']), (['t', 'h', 'i', 's', ' ', 'w', 'e', 'e', 'k'], ['0', ' ', 'w', 'e', 'e', 'k', ' ', 'a', 'g', 'o']), (['t', 'h', 'i', 's', ' ', 'y', 'e', 'a', 'r'], ['0', ' ', 'y', 'e', 'a', 'r', ' ', 'a', 'g', 'o']), (['y', 'e', 's', 't', 'e', 'r', 'd', 'a', 'y'], ['1', ' ', 'd', 'a', 'y', ' ', 'a', 'g', 'o']), (['t', 'o', 'm', 'o', 'r', 'r', 'o', 'w'], ['i', 'n', ' ', '1', ' ', 'd', 'a', 'y']), (['t', 'o', 'd', 'a', 'y'], ['0', ' ', 'd', 'a', 'y', ' ', 'a', 'g', 'o']), (['n', 'o', 'w'], ['0', ' ', 's', 'e', 'c', 'o', 'n', 'd', ' ', 'a', 'g', 'o'])]

/-- internal/data/kln.go: `kln_Locale`, dictionary. -/
def klnDict : LangData where
  name := ['k', 'l', 'n']
  translations := [(['k', 'i', 'p', 's', 'u', 'u', 'n', 'd', 'e', ' ', 'n', 'e', 'b', 'o', ' ', 'a', 'e', 'n', 'g', '\''], [['d', 'e', 'c', 'e', 'm', 'b', 'e', 'r']]), (['k', 'i', 'p', 's', 'u', 'u', 'n', 'd', 'e', ' ', 'n', 'e', ' ', 't', 'a', 'a', 'i'], [['n', 'o', 'v', 'e', 'm', 'b', 'e', 'r']]), (['k', 'o', 'o', 's', 'k', 'o', 'l', 'i', 'n', 'y'], [['p', 'm']]), (['n', 'g', '\'', 'a', 't', 'y', 'a', 'a', 't', 'o'], [['f', 'e', 'b', 'r', 'u', 'a', 'r', 'y']]), (['i', 'w', 'o', 'o', 't', 'k', 'u', 'u', 't'], [['a', 'p', 'r', 'i', 'l']]), (['k', 'o', 'a', 'n', 'g', '\'', 'w', 'a', 'n'], [['t', 'h', 'u', 'r', 's', 'd', 'a', 'y']]), (['n', 'g', '\'', 'e', 'i', 'y', 'e', 'e', 't'], [['j', 'u', 'l', 'y']]), (['k', 'i', 'p', 't', 'a', 'a', 'm', 'o'], [['m', 'a', 'r', 'c', 'h']]), (['s', 'e', 'k', 'o', 'n', 'd', 'i', 't'], [['s', 'e', 'c', 'o', 'n', 'd']]), (['k', 'o', 'a', 'e', 'n', 'g', '\''], [['t', 'u', 'e', 's', 'd', 'a', 'y']]), (['k', 'o', 's', 'o', 'm', 'o', 'k'], [['w', 'e', 'd', 'n', 'e', 's', 'd', 'a', 'y']]), (['k', 'o', 't', 'i', 's', 'a', 'p'], [['s', 'u', 'n', 'd', 'a', 'y']]), (['m', 'i', 'n', 'i', 't', 'i', 't'], [['m', 'i', 'n', 'u', 't', 'e']]), (['r', 'o', 'o', 'p', 't', 'u', 'i'], [['a', 'u', 'g', 'u', 's', 't']]), (['a', 'r', 'a', 'w', 'e', 't'], [['m', 'o', 'n', 't', 'h']]), (['b', 'u', 'r', 'e', 'e', 't'], [['s', 'e', 'p', 't', 'e', 'm', 'b', 'e', 'r']]), (['e', 'p', 'e', 'e', 's', 'o'], [['o', 'c', 't', 'o', 'b', 'e', 'r']]), (['k', 'a', 'r', 'o', 'o', 'n'], [['a', 'm']]), (['k', 'e', 'n', 'y', 'i', 't'], [['y', 'e', 'a', 'r']]), (['k', 'o', 'm', 'u', 'u', 't'], [['f', 'r', 'i', 'd', 'a', 'y']]), (['k', 'o', 't', 'a', 'a', 'i'], [['m', 'o', 'n', 'd', 'a', 'y']]), (['m', 'a', 'm', 'u', 'u', 't'], [['m', 'a', 'y']]), (['m', 'u', 'l', 'g', 'u', 'l'], [['j', 'a', 'n', 'u', 'a', 'r', 'y']]), (['b', 'e', 't', 'u', 't'], [['d', 'a', 'y']]), (['k', 'o', 'o', 's', 'k'], [['p', 'm']]), (['p', 'a', 'a', 'g', 'i'], [['j', 'u', 'n', 'e']]), (['w', 'i', 'k', 'i', 't'], [['w', 'e', 'e', 'k']]), (['k', 'o', 'l', 'o'], [['s', 'a', 't', 'u', 'r', 'd', 'a', 'y']]), (['n', 'g', 'a', 't'], [['f', 'e', 'b', 'r', 'u', 'a', 'r', 'y']]), (['s', 'a', 'i', 't'], [['h', 'o', 'u', 'r']]), (['b', 'u', 'r'], [['s', 'e', 'p', 't', 'e', 'm', 'b', 'e', 'r']]), (['e', 'p', 'e'], [['o', 'c', 't', 'o', 'b', 'e', 'r']]), (['g', 'm', 't'], [['g', 'm', 't']]), (['i', 'w', 'o'], [['a', 'p', 'r', 'i', 'l']]), (['k', 'o', 'a'], [['t', 'h', 'u', 'r', 's', 'd', 'a', 'y']]), (['k', 'o', 'l'], [['s', 'a', 't', 'u', 'r', 'd', 'a', 'y']]), (['k', 'o', 'm'], [['f', 'r', 'i', 'd', 'a', 'y']]), (['k', 'o', 'o'], [['t', 'u', 'e', 's', 'd', 'a', 'y']]), (['k', 'o', 's'], [['w', 'e', 'd', 'n', 'e', 's', 'd', 'a', 'y']]), (['k', 'o', 't'], [['m', 'o', 'n', 'd', 'a', 'y']]), (['k', 'p', 'a'], [['d', 'e', 'c', 'e', 'm', 'b', 'e', 'r']]), (['k', 'p', 't'], [['n', 'o', 'v', 'e', 'm', 'b', 'e', 'r']]), (['k', 'r', 'n'], [['a', 'm']]), (['k', 't', 's'], [['s', 'u', 'n', 'd', 'a', 'y']]), (['m', 'a', 'm'], [['m', 'a', 'y']]), (['m', 'u', 'l'], [['j', 'a', 'n', 'u', 'a', 'r', 'y']]), (['n', 'g', 'e'], [['j', 'u', 'l', 'y']]), (['p', 'a', 'a'], [['j', 'u', 'n', 'e']]), (['r', 'o', 'o'], [['a', 'u', 'g', 'u', 's', 't']]), (['t', 'a', 'a'], [['m', 'a', 'r', 'c', 'h']]), (['u', 't', 'c'], [['u', 't', 'c']]), (['a', 'm'], [['a', 'm']]), (['p', 'm'], [['p', 'm']]), ([' '], [[' ']]), (['\''], [[]]), (['+'], [['+']]), ([','], [[]]), (['-'], [['-']]), (['.'], [['.']]), (['/'], [['/']]), ([':'], [[':']]), ([';'], [[]]), (['@'], [[]]), (['['], [[]]), ([']'], [[]]), (['z'], [['z']]), (['|'], [[]])]
  relativeType := [(['t', 'h', 'i', 's', ' ', 'm', 'i', 'n', 'u', 't', 'e'], ['0', ' ', 'm', 'i', 'n', 'u', 't', 'e', ' ', 'a', 'g', 'o']), (['l', 'a', 's', 't', ' ', 'm', 'o', 'n', 't', 'h'], ['1', ' ', 'm', 'o', 'n', 't', 'h', ' ', 'a', 'g', 'o']), (['n', 'e', 'x', 't', ' ', 'm', 'o', 'n', 't', 'h'], ['i', 'n', ' ', '1', ' ', 'm', 'o', 'n', 't', 'h']), (['t', 'h', 'i', 's', ' ', 'm', 'o', 'n', 't', 'h'], ['0', ' ', 'm', 'o', 'n', 't', 'h', ' ', 'a', 'g', 'o']), (['l', 'a', 's', 't', ' ', 'w', 'e', 'e', 'k'], ['1', ' ', 'w', 'e', 'e', 'k', ' ', 'a', 'g', 'o']), (['l', 'a', 's', 't', ' ', 'y', 'e', 'a', 'r'], ['1', ' ', 'y', 'e', 'a', 'r', ' ', 'a', 'g', 'o']), (['n', 'e', 'x', 't', ' ', 'w', 'e', 'e', 'k'], ['i', 'n', ' ', '1', ' ', 'w', 'e', 'e', 'k']), (['n', 'e', 'x', 't', ' ', 'y', 'e', 'a', 'r'], ['i', 'n', ' ', '1', ' ', 'y', 'e', 'a', 'r']), (['t', 'h', 'i', 's', ' ', 'h', 'o', 'u', 'r'], ['0', ' ', 'h', 'o', 'u', 'r', ' ', 'a', 'g', 'o']), (['t', 'h', 'i', 's', ' ', 'w', 'e', 'e', 'k'], ['0', ' ', 'w', 'e', 'e', 'k', ' ', 'a', 'g', 'o']), (['t', 'h', 'i', 's', ' ', 'y', 'e', 'a', 'r'], ['0', ' ', 'y', 'e', 'a', 'r', ' ', 'a', 'g', 'o']), (['m', 'u', 't', 'a', 'i'], ['i', 'n', ' ', '1', ' ', 'd', 'a', 'y']), (['r', 'a', 'i', 'n', 'i'], ['0', ' ', 'd', 'a', 'y', ' ', 'a', 'g', 'o']), (['a', 'm', 'u', 't'], ['1', ' ', 'd', 'a', 'y', ' ', 'a', 'g', 'o']), (['n', 'o', 'w'], ['0', ' ', 's', 'e', 'c', 'o', 'n', 'd', ' ', 'a', 'g', 'o'])]

/-- internal/data/km.go: `km_Locale`, dictionary. -/
def kmDict : LangData where
  name := ['k', 'm']
  translations := [(['ព', 'រ', 'ហ', 'ស', 'ប', 'ត'], [['t', 'h', 'u', 'r', 's', 'd', 'a', 'y']]), (['ក', 'ក', 'ក', 'ដ', 'ា'], [['j', 'u', 'l', 'y']]), (['វ', 'ច', 'ឆ', 'ក', 'ា'], [['n', 'o', 'v', 'e', 'm', 'b', 'e', 'r']]), (['ស', 'ប', 'ដ', 'ា', 'ហ'], [['w', 'e', 'e', 'k']]), (['អ', 'ង', 'គ', 'ា', 'រ'], [['t', 'u', 'e', 's', 'd', 'a', 'y']]), (['អ', 'ា', 'ទ', 'ត', 'យ'], [['s', 'u', 'n', 'd', 'a', 'y']]), (['ក', 'ញ', 'ញ', 'ា'], [['s', 'e', 'p', 't', 'e', 'm', 'b', 'e', 'r']]), (['ក', 'ម', 'ភ', 'ៈ'], [['f', 'e', 'b', 'r', 'u', 'a', 'r', 'y']]), (['ម', 'ក', 'រ', 'ា'], [['j', 'a', 'n', 'u', 'a', 'r', 'y']]), (['ម', 'ថ', 'ន', 'ា'], [['j', 'u', 'n', 'e']]), (['ម', 'េ', 'ស', 'ា'], [['a', 'p', 'r', 'i', 'l']]), (['វ', 'ន', 'ា', 'ទ'], [['s', 'e', 'c', 'o', 'n', 'd']]), (['ឧ', 'ស', 'ភ', 'ា'], [['m', 'a', 'y']]), (['g', 'm', 't'], [['g', 'm', 't']]), (['u', 't', 'c'], [['u', 't', 'c']]), (['ច', 'ន', 'ទ'], [['m', 'o', 'n', 'd', 'a', 'y']]), (['ឆ', 'ន', 'ា'], [['y', 'e', 'a', 'r']]), (['ត', 'ល', 'ា'], [['o', 'c', 't', 'o', 'b', 'e', 'r']]), (['ថ', 'ង', 'ៃ'], [['d', 'a', 'y']]), (['ន', 'ា', 'ទ'], [['m', 'i', 'n', 'u', 't', 'e']]), (['ម', 'ន', 'ា'], [['m', 'a', 'r', 'c', 'h']]), (['ម', 'ោ', 'ង'], [['h', 'o', 'u', 'r']]), (['ស', 'ក', 'រ'], [['f', 'r', 'i', 'd', 'a', 'y']]), (['ស', 'ហ', 'ា'], [['a', 'u', 'g', 'u', 's', 't']]), (['ស', 'ៅ', 'រ'], [['s', 'a', 't', 'u', 'r', 'd', 'a', 'y']]), (['a', 'm'], [['a', 'm']]), (['p', 'm'], [['p', 'm']]), (['ខ', 'ែ'], [['m', 'o', 'n', 't', 'h']]), (['ធ', 'ន'], [['d', 'e', 'c', 'e', 'm', 'b', 'e', 'r']]), (['ព', 'ធ'], [['w', 'e', 'd', 'n', 'e', 's', 'd', 'a', 'y']]), ([' '], [[' ']]), (['\''], [[]]), (['+'], [['+']]), ([','], [[]]), (['-'], [['-']]), (['.'], [['.']]), (['/'], [['/']]), ([':'], [[':']]), ([';'], [[]]), (['@'], [[]]), (['['], [[]]), ([']'], [[]]), (['z'], [['z']]), (['|'], [[]])]
  relativeType := [(['ស', 'ប', 'ដ', 'ា', 'ហ', (Char.ofNat 0x200b), 'ក', 'រ', 'ោ', 'យ'], ['i', 'n', ' ', '1', ' ', 'w', 'e', 'e', 'k']), (['ស', 'ប', 'ដ', 'ា', 'ហ', (Char.ofNat 0x200b), 'ន', 'េ', 'ះ'], ['0', ' ', 'w', 'e', 'e', 'k', ' ', 'a', 'g', 'o']), (['ឆ', 'ន', 'ា', (Char.ofNat 0x200b), 'ក', 'រ', 'ោ', 'យ'], ['i', 'n', ' ', '1', ' ', 'y', 'e', 'a', 'r']), (['ថ', 'ង', 'ៃ', (Char.ofNat 0x200b), 'ស', 'អ', 'ែ', 'ក'], ['i', 'n', ' ', '1', ' ', 'd', 'a', 'y']), (['ស', 'ប', 'ដ', 'ា', 'ហ', (Char.ofNat 0x200b), 'ម', 'ន'], ['1', ' ', 'w', 'e', 'e', 'k', ' ', 'a', 'g', 'o']), (['ខ', 'ែ', (Char.ofNat 0x200b), 'ក', 'រ', 'ោ', 'យ'], ['i', 'n', ' ', '1', ' ', 'm', 'o', 'n', 't', 'h']), (['ឆ', 'ន', 'ា', (Char.ofNat 0x200b), 'ន', 'េ', 'ះ'], ['0', ' ', 'y', 'e', 'a', 'r', ' ', 'a', 'g', 'o']), (['ថ', 'ង', 'ៃ', 'ស', 'អ', 'ែ', 'ក'], ['i', 'n', ' ', '1', ' ', 'd', 'a', 'y']), (['ថ', 'ង', 'ៃ', (Char.ofNat 0x200b), 'ន', 'េ', 'ះ'], ['0', ' ', 'd', 'a', 'y', ' ', 'a', 'g', 'o']), (['ខ', 'ែ', (Char.ofNat 0x200b), 'ន', 'េ', 'ះ'], ['0', ' ', 'm', 'o', 'n', 't', 'h', ' ', 'a', 'g', 'o']), (['ឆ', 'ន', 'ា', (Char.ofNat 0x200b), 'ម', 'ន'], ['1', ' ', 'y', 'e', 'a', 'r', ' ', 'a', 'g', 'o']), (['ន', 'ា', 'ទ', 'ន', 'េ', 'ះ'], ['0', ' ', 'm', 'i', 'n', 'u', 't', 'e', ' ', 'a', 'g', 'o']), (['ម', 'ោ', 'ង', 'ន', 'េ', 'ះ'], ['0', ' ', 'h', 'o', 'u', 'r', ' ', 'a', 'g', 'o']), (['ខ', 'ែ', (Char.ofNat 0x200b), 'ម', 'ន'], ['1', ' ', 'm', 'o', 'n', 't', 'h', ' ', 'a', 'g', 'o']), (['ម', 'ស', 'ល', 'ម', 'ញ'], ['1', ' ', 'd', 'a', 'y', ' ', 'a', 'g', 'o']), (['ឥ', 'ឡ', 'វ'], ['0', ' ', 's', 'e', 'c', 'o', 'n', 'd', ' ', 'a', 'g', 'o'])]

/-- internal/data/kn.go: `kn_Locale`, dictionary. -/
def knDict : LangData where
  name := ['k', 'n']
  translations := [(['ಅ', 'ಕ', 'ಟ', 'ೂ', 'ೕ', 'ಬ', 'ರ'], [['o', 'c', 't', 'o', 'b', 'e', 'r']]), (['ಗ', 'ು', 'ರ', 'ು', 'ವ', 'ಾ', 'ರ'], [['t', 'h', 'u', 'r', 's', 'd', 'a', 'y']]), (['ಪ', 'ೂ', 'ರ', 'ವ', 'ಾ', 'ಹ', 'ನ'], [['a', 'm']]), (['ಭ', 'ಾ', 'ನ', 'ು', 'ವ', 'ಾ', 'ರ'], [['s', 'u', 'n', 'd', 'a', 'y']]), (['ಮ', 'ಂ', 'ಗ', 'ಳ', 'ವ', 'ಾ', 'ರ'], [['t', 'u', 'e', 's', 'd', 'a', 'y']]), (['ಶ', 'ು', 'ಕ', 'ರ', 'ವ', 'ಾ', 'ರ'], [['f', 'r', 'i', 'd', 'a', 'y']]), (['ಸ', 'ೂ', 'ೕ', 'ಮ', 'ವ', 'ಾ', 'ರ'], [['m', 'o', 'n', 'd', 'a', 'y']]), (['ಅ', 'ಪ', 'ರ', 'ಾ', 'ಹ', 'ನ'], [['p', 'm']]), (['ಬ', 'ು', 'ಧ', 'ವ', 'ಾ', 'ರ'], [['w', 'e', 'd', 'n', 'e', 's', 'd', 'a', 'y']]), (['ಸ', 'ಪ', 'ಟ', 'ಂ', 'ಬ', 'ರ'], [['s', 'e', 'p', 't', 'e', 'm', 'b', 'e', 'r']]), (['ಅ', 'ಕ', 'ಟ', 'ೂ', 'ೕ'], [['o', 'c', 't', 'o', 'b', 'e', 'r']]), (['ಡ', 'ಸ', 'ಂ', 'ಬ', 'ರ'], [['d', 'e', 'c', 'e', 'm', 'b', 'e', 'r']]), (['ತ', 'ಂ', 'ಗ', 'ಳ', 'ು'], [['m', 'o', 'n', 't', 'h']]), (['ನ', 'ವ', 'ಂ', 'ಬ', 'ರ'], [['n', 'o', 'v', 'e', 'm', 'b', 'e', 'r']]), (['ಫ', 'ಬ', 'ರ', 'ವ', 'ರ'], [['f', 'e', 'b', 'r', 'u', 'a', 'r', 'y']]), (['ಶ', 'ನ', 'ವ', 'ಾ', 'ರ'], [['s', 'a', 't', 'u', 'r', 'd', 'a', 'y']]), (['ಆ', 'ಗ', 'ಸ', 'ಟ'], [['a', 'u', 'g', 'u', 's', 't']]), (['ಏ', 'ಪ', 'ರ', 'ಲ'], [['a', 'p', 'r', 'i', 'l']]), (['ಗ', 'ು', 'ರ', 'ು'], [['t', 'h', 'u', 'r', 's', 'd', 'a', 'y']]), (['ಜ', 'ನ', 'ವ', 'ರ'], [['j', 'a', 'n', 'u', 'a', 'r', 'y']]), (['ಜ', 'ು', 'ಲ', 'ೖ'], [['j', 'u', 'l', 'y']]), (['ಭ', 'ಾ', 'ನ', 'ು'], [['s', 'u', 'n', 'd', 'a', 'y']]), (['ಮ', 'ಂ', 'ಗ', 'ಳ'], [['t', 'u', 'e', 's', 'd', 'a', 'y']]), (['ಮ', 'ಾ', 'ರ', 'ಚ'], [['m', 'a', 'r', 'c', 'h']]), (['ಶ', 'ು', 'ಕ', 'ರ'], [['f', 'r', 'i', 'd', 'a', 'y']]), (['ಸ', 'ಕ', 'ಂ', 'ಡ'], [['s', 'e', 'c', 'o', 'n', 'd']]), (['ಸ', 'ಪ', 'ಟ', 'ಂ'], [['s', 'e', 'p', 't', 'e', 'm', 'b', 'e', 'r']]), (['ಸ', 'ೂ', 'ೕ', 'ಮ'], [['m', 'o', 'n', 'd', 'a', 'y']]), (['g', 'm', 't'], [['g', 'm', 't']]), (['u', 't', 'c'], [['u', 't', 'c']]), (['ಏ', 'ಪ', 'ರ'], [['a', 'p', 'r', 'i', 'l']]), (['ಗ', 'ಂ', 'ಟ'], [['h', 'o', 'u', 'r']]), (['ಜ', 'ೂ', 'ನ'], [['j', 'u', 'n', 'e']]), (['ಡ', 'ಸ', 'ಂ'], [['d', 'e', 'c', 'e', 'm', 'b', 'e', 'r']]), (['ನ', 'ಮ', 'ಷ'], [['m', 'i', 'n', 'u', 't', 'e']]), (['ನ', 'ವ', 'ಂ'], [['n', 'o', 'v', 'e', 'm', 'b', 'e', 'r']]), (['ಫ', 'ಬ', 'ರ'], [['f', 'e', 'b', 'r', 'u', 'a', 'r', 'y']]), (['ಬ', 'ು', 'ಧ'], [['w', 'e', 'd', 'n', 'e', 's', 'd', 'a', 'y']]), (['ವ', 'ರ', 'ಷ'], [['y', 'e', 'a', 'r']]), (['ವ', 'ಾ', 'ರ'], [['w', 'e', 'e', 'k']]), (['a', 'm'], [['a', 'm']]), (['p', 'm'], [['p', 'm']]), (['ಆ', 'ಗ'], [['a', 'u', 'g', 'u', 's', 't']]), (['ಜ', 'ನ'], [['j', 'a', 'n', 'u', 'a', 'r', 'y']]), (['ದ', 'ನ'], [['d', 'a', 'y']]), (['ಮ', 'ೕ'], [['m', 'a', 'y']]), (['ಶ', 'ನ'], [['s', 'a', 't', 'u', 'r', 'd', 'a', 'y']]), ([' '], [[' ']]), (['\''], [[]]), (['+'], [['+']]), ([','], [[]]), (['-'], [['-']]), (['.'], [['.']]), (['/'], [['/']]), ([':'], [[':']]), ([';'], [[]]), (['@'], [[]]), (['['], [[]]), ([']'], [[]]), (['z'], [['z']]), (['|'], [[]])]
  relativeType := [(['ಮ', 'ು', 'ಂ', 'ದ', 'ನ', ' ', 'ತ', 'ಂ', 'ಗ', 'ಳ', 'ು'], ['i', 'n', ' ', '1', ' ', 'm', 'o', 'n', 't', 'h']), (['ಕ', 'ಳ', 'ದ', ' ', 'ತ', 'ಂ', 'ಗ', 'ಳ', 'ು'], ['1', ' ', 'm', 'o', 'n', 't', 'h', ' ', 'a', 'g', 'o']), (['ಮ', 'ು', 'ಂ', 'ದ', 'ನ', ' ', 'ವ', 'ರ', 'ಷ'], ['i', 'n', ' ', '1', ' ', 'y', 'e', 'a', 'r']), (['ಮ', 'ು', 'ಂ', 'ದ', 'ನ', ' ', 'ವ', 'ಾ', 'ರ'], ['i', 'n', ' ', '1', ' ', 'w', 'e', 'e', 'k']), (['ಹ', 'ಂ', 'ದ', 'ನ', ' ', 'ವ', 'ರ', 'ಷ'], ['1', ' ', 'y', 'e', 'a', 'r', ' ', 'a', 'g', 'o']), (['ಈ', ' ', 'ತ', 'ಂ', 'ಗ', 'ಳ', 'ು'], ['0', ' ', 'm', 'o', 'n', 't', 'h', ' ', 'a', 'g', 'o']), (['ಕ', 'ಳ', 'ದ', ' ', 'ವ', 'ರ', 'ಷ'], ['1', ' ', 'y', 'e', 'a', 'r', ' ', 'a', 'g', 'o']), (['ಕ', 'ಳ', 'ದ', ' ', 'ವ', 'ಾ', 'ರ'], ['1', ' ', 'w', 'e', 'e', 'k', ' ', 'a', 'g', 'o']), (['ಈ', ' ', 'ಗ', 'ಂ', 'ಟ'], ['0', ' ', 'h', 'o', 'u', 'r', ' ', 'a', 'g', 'o']), (['ಈ', ' ', 'ನ', 'ಮ', 'ಷ'], ['0', ' ', 'm', 'i', 'n', 'u', 't', 'e', ' ', 'a', 'g', 'o']), (['ಈ', ' ', 'ವ', 'ರ', 'ಷ'], ['0', ' ', 'y', 'e', 'a', 'r', ' ', 'a', 'g', 'o']), (['ಈ', ' ', 'ವ', 'ಾ', 'ರ'], ['0', ' ', 'w', 'e', 'e', 'k', ' ', 'a', 'g', 'o']), (['ಇ', 'ಂ', 'ದ', 'ು'], ['0', ' ', 'd', 'a', 'y', ' ', 'a', 'g', 'o']), (['ನ', 'ನ', 'ನ'], ['1', ' ', 'd', 'a', 'y', ' ', 'a', 'g', 'o']), (['ನ', 'ಾ', 'ಳ'], ['i', 'n', ' ', '1', ' ', 'd', 'a', 'y']), (['ಈ', 'ಗ'], ['0', ' ', 's', 'e', 'c', 'o', 'n', 'd', ' ', 'a', 'g', 'o'])]

/-- internal/data/ko.go: `ko_Locale`, dictionary. -/
def koDict : LangData where
  name := ['k', 'o']
  translations := [(['1', '0', '월'], [['o', 'c', 't', 'o', 'b', 'e', 'r']]), (['1', '1', '월'], [['n', 'o', 'v', 'e', 'm', 'b', 'e', 'r']]), (['1', '2', '월'], [['d', 'e', 'c', 'e', 'm', 'b', 'e', 'r']]), (['g', 'm', 't'], [['g', 'm', 't']]), (['u', 't', 'c'], [['u', 't', 'c']]), (['금', '요', '일'], [['f', 'r', 'i', 'd', 'a', 'y']]), (['목', '요', '일'], [['t', 'h', 'u', 'r', 's', 'd', 'a', 'y']]), (['수', '요', '일'], [['w', 'e', 'd', 'n', 'e', 's', 'd', 'a', 'y']]), (['월', '요', '일'], [['m', 'o', 'n', 'd', 'a', 'y']]), (['일', '요', '일'], [['s', 'u', 'n', 'd', 'a', 'y']]), (['토', '요', '일'], [['s', 'a', 't', 'u', 'r', 'd', 'a', 'y']]), (['화', '요', '일'], [['t', 'u', 'e', 's', 'd', 'a', 'y']]), (['1', '월'], [['j', 'a', 'n', 'u', 'a', 'r', 'y']]), (['2', '월'], [['f', 'e', 'b', 'r', 'u', 'a', 'r', 'y']]), (['3', '월'], [['m', 'a', 'r', 'c', 'h']]), (['4', '월'], [['a', 'p', 'r', 'i', 'l']]), (['5', '월'], [['m', 'a', 'y']]), (['6', '월'], [['j', 'u', 'n', 'e']]), (['7', '월'], [['j', 'u', 'l', 'y']]), (['8', '월'], [['a', 'u', 'g', 'u', 's', 't']]), (['9', '월'], [['s', 'e', 'p', 't', 'e', 'm', 'b', 'e', 'r']]), (['a', 'm'], [['a', 'm']]), (['p', 'm'], [['p', 'm']]), (['오', '전'], [['a', 'm']]), (['오', '후'], [['p', 'm']]), ([' '], [[' ']]), (['\''], [[]]), (['+'], [['+']]), ([','], [[]]), (['-'], [['-']]), (['.'], [['.']]), (['/'], [['/']]), ([':'], [[':']]), ([';'], [[]]), (['@'], [[]]), (['['], [[]]), ([']'], [[]]), (['z'], [['z']]), (['|'], [[]]), (['금'], [['f', 'r', 'i', 'd', 'a', 'y']]), (['년'], [['y', 'e', 'a', 'r']]), (['목'], [['t', 'h', 'u', 'r', 's', 'd', 'a', 'y']]), (['분'], [['m', 'i', 'n', 'u', 't', 'e']]), (['수'], [['w', 'e', 'd', 'n', 'e', 's', 'd', 'a', 'y']]), (['시'], [['h', 'o', 'u', 'r']]), (['월'], [['m', 'o', 'n', 't', 'h'], ['m', 'o', 'n', 'd', 'a', 'y']]), (['일'], [['d', 'a', 'y'], ['s', 'u', 'n', 'd', 'a', 'y']]), (['주'], [['w', 'e', 'e', 'k']]), (['초'], [['s', 'e', 'c', 'o', 'n', 'd']]), (['토'], [['s', 'a', 't', 'u', 'r', 'd', 'a', 'y']]), (['화'], [['t', 'u', 'e', 's', 'd', 'a', 'y']])]
  relativeType := [(['현', '재', ' ', '시', '간'], ['0', ' ', 'h', 'o', 'u', 'r', ' ', 'a', 'g', 'o']), (['다', '음', ' ', '달'], ['i', 'n', ' ', '1', ' ', 'm', 'o', 'n', 't', 'h']), (['다', '음', ' ', '주'], ['i', 'n', ' ', '1', ' ', 'w', 'e', 'e', 'k']), (['이', '번', ' ', '달'], ['0', ' ', 'm', 'o', 'n', 't', 'h', ' ', 'a', 'g', 'o']), (['이', '번', ' ', '주'], ['0', ' ', 'w', 'e', 'e', 'k', ' ', 'a', 'g', 'o']), (['현', '재', ' ', '분'], ['0', ' ', 'm', 'i', 'n', 'u', 't', 'e', ' ', 'a', 'g', 'o']), (['지', '난', '달'], ['1', ' ', 'm', 'o', 'n', 't', 'h', ' ', 'a', 'g', 'o']), (['지', '난', '주'], ['1', ' ', 'w', 'e', 'e', 'k', ' ', 'a', 'g', 'o']), (['내', '년'], ['i', 'n', ' ', '1', ' ', 'y', 'e', 'a', 'r']), (['내', '일'], ['i', 'n', ' ', '1', ' ', 'd', 'a', 'y']), (['어', '제'], ['1', ' ', 'd', 'a', 'y', ' ', 'a', 'g', 'o']), (['오', '늘'], ['0', ' ', 'd', 'a', 'y', ' ', 'a', 'g', 'o']), (['올', '해'], ['0', ' ', 'y', 'e', 'a', 'r', ' ', 'a', 'g', 'o']), (['작', '년'], ['1', ' ', 'y', 'e', 'a', 'r', ' ', 'a', 'g', 'o']), (['지', '금'], ['0', ' ', 's', 'e', 'c', 'o', 'n', 'd', ' ', 'a', 'g', 'o'])]

/-- internal/data/ko.go: `ko_KP_Locale`, dictionary. -/
def ko_KPDict : LangData where
  name := ['k', 'o', '-', 'K', 'P']

/-- internal/data/kok.go: `kok_Locale`, dictionary. -/
def kokDict : LangData where
  name := ['k', 'o', 'k']
  translations := [(['आ', 'द', 'ि', 'त', 'य', 'व', 'ा', 'र'], [['s', 'u', 'n', 'd', 'a', 'y']]), (['ज', 'ा', 'न', 'व', 'ा', 'र', 'ी'], [['j', 'a', 'n', 'u', 'a', 'r', 'y']]), (['फ', 'ब', 'र', 'व', 'ा', 'र', 'ी'], [['f', 'e', 'b', 'r', 'u', 'a', 'r', 'y']]), (['m', 'i', 'n', 'u', 't', 'e'], [['m', 'i', 'n', 'u', 't', 'e']]), (['s', 'e', 'c', 'o', 'n', 'd'], [['s', 'e', 'c', 'o', 'n', 'd']]), (['ओ', 'क', 'ट', 'ो', 'ब', 'र'], [['o', 'c', 't', 'o', 'b', 'e', 'r']]), (['न', 'ो', 'व', 'ह', 'ब', 'र'], [['n', 'o', 'v', 'e', 'm', 'b', 'e', 'r']]), (['श', 'क', 'र', 'व', 'ा', 'र'], [['f', 'r', 'i', 'd', 'a', 'y']]), (['श', 'न', 'ि', 'व', 'ा', 'र'], [['s', 'a', 't', 'u', 'r', 'd', 'a', 'y']]), (['स', 'ो', 'म', 'व', 'ा', 'र'], [['m', 'o', 'n', 'd', 'a', 'y']]), (['m', 'o', 'n', 't', 'h'], [['m', 'o', 'n', 't', 'h']]), (['ए', 'प', 'र', 'ि', 'ल'], [['a', 'p', 'r', 'i', 'l']]), (['ग', 'र', 'व', 'ा', 'र'], [['t', 'h', 'u', 'r', 's', 'd', 'a', 'y']]), (['ड', 'ि', 'स', 'ब', 'र'], [['d', 'e', 'c', 'e', 'm', 'b', 'e', 'r']]), (['ब', 'ध', 'व', 'ा', 'र'], [['w', 'e', 'd', 'n', 'e', 's', 'd', 'a', 'y']]), (['म', 'ग', 'ळ', 'ा', 'र'], [['t', 'u', 'e', 's', 'd', 'a', 'y']]), (['स', 'प', 'ट', 'ब', 'र'], [['s', 'e', 'p', 't', 'e', 'm', 'b', 'e', 'r']]), (['h', 'o', 'u', 'r'], [['h', 'o', 'u', 'r']]), (['w', 'e', 'e', 'k'], [['w', 'e', 'e', 'k']]), (['y', 'e', 'a', 'r'], [['y', 'e', 'a', 'r']]), (['ओ', 'ग', 'स', 'ट'], [['a', 'u', 'g', 'u', 's', 't']]), (['म', 'ा', 'र', 'च'], [['m', 'a', 'r', 'c', 'h']]), (['d', 'a', 'y'], [['d', 'a', 'y']]), (['g', 'm', 't'], [['g', 'm', 't']]), (['u', 't', 'c'], [['u', 't', 'c']]), (['म', 'ग', 'ळ'], [['t', 'u', 'e', 's', 'd', 'a', 'y']]), (['र', 'व', 'ि'], [['s', 'u', 'n', 'd', 'a', 'y']]), (['श', 'क', 'र'], [['f', 'r', 'i', 'd', 'a', 'y']]), (['श', 'न', 'ि'], [['s', 'a', 't', 'u', 'r', 'd', 'a', 'y']]), (['स', 'ो', 'म'], [['m', 'o', 'n', 'd', 'a', 'y']]), (['a', 'm'], [['a', 'm']]), (['p', 'm'], [['p', 'm']]), (['ग', 'र'], [['t', 'h', 'u', 'r', 's', 'd', 'a', 'y']]), (['ज', 'न'], [['j', 'u', 'n', 'e']]), (['ज', 'ल'], [['j', 'u', 'l', 'y']]), (['ब', 'ध'], [['w', 'e', 'd', 'n', 'e', 's', 'd', 'a', 'y']]), (['म', 'न'], [['p', 'm']]), (['म', 'प'], [['a', 'm']]), ([' '], [[' ']]), (['\''], [[]]), (['+'], [['+']]), ([','], [[]]), (['-'], [['-']]), (['.'], [['.']]), (['/'], [['/']]), ([':'], [[':']]), ([';'], [[]]), (['@'], [[]]), (['['], [[]]), ([']'], [[]]), (['z'], [['z']]), (['|'], [[]]), (['म'], [['m', 'a', 'y']])]
  relativeType := [(['t', 'h', 'i', 's', ' ', 'm', 'i', 'n', 'u', 't', 'e'], ['0', ' ', 'm', 'i', 'n', 'u', 't', 'e', ' ', 'a', 'g', 'o']), (['l', 'a', 's', 't', ' ', 'm', 'o', 'n', 't', 'h'], ['1', ' ', 'm', 'o', 'n', 't', 'h', ' ', 'a', 'g', 'o']), (['n', 'e', 'x', 't', ' ', 'm', 'o', 'n', 't', 'h'], ['i', 'n', ' ', '1', ' ', 'm', 'o', 'n', 't', 'h']), (['t', 'h', 'i', 's', ' ', 'm', 'o', 'n', 't', 'h'], ['0', ' ', 'm', 'o', 'n', 't', 'h', ' ', 'a', 'g', 'o']), (['l', 'a', 's', 't', ' ', 'w', 'e', 'e', 'k'], ['1', ' ', 'w', 'e', 'e', 'k', ' ', 'a', 'g', 'o']), (['l', 'a', 's', 't', ' ', 'y', 'e', 'a', 'r'], ['1', ' ', 'y', 'e', 'a', 'r', ' ', 'a', 'g', 'o']), (['n', 'e', 'x', 't', ' ', 'w', 'e', 'e', 'k'], ['i', 'n', ' ', '1', ' ', 'w', 'e', 'e', 'k']), (['n', 'e', 'x', 't', ' ', 'y', 'e', 'a', 'r'], ['i', 'n', ' ', '1', ' ', 'y', 'e', 'a', 'r']), (['t', 'h', 'i', 's', ' ', 'h', 'o', 'u', 'r'], ['0', ' ', 'h', 'o', 'u', 'r', ' ', 'a', 'g', 'o']), (['t', 'h', 'i', 's', ' ', 'w', 'e', 'e', 'k'], ['0', ' ', 'w', 'e', 'e', 'k', ' ', 'a', 'g', 'o']), (['t', 'h', 'i', 's', ' ', 'y', 'e', 'a', 'r'], ['0', ' ', 'y', 'e', 'a', 'r', ' ', 'a', 'g', 'o']), (['y', 'e', 's', 't', 'e', 'r', 'd', 'a', 'y'], ['1', ' ', 'd', 'a', 'y', ' ', 'a', 'g', 'o']), (['t', 'o', 'm', 'o', 'r', 'r', 'o', 'w'], ['i', 'n', ' ', '1', ' ', 'd', 'a', 'y']), (['t', 'o', 'd', 'a', 'y'], ['0', ' ', 'd', 'a', 'y', ' ', 'a', 'g', 'o']), (['n', 'o', 'w'], ['0', ' ', 's', 'e', 'c', 'o', 'n', 'd', ' ', 'a', 'g', 'o'])]

/-- internal/data/ks.go: `ks_Locale`, dictionary. -/
def ksDict : LangData where
  name := ['k', 's']
  translations := [(['ژ', 'ن', 'د', 'ر', 'ر', 'و', 'ا', 'ر'], [['m', 'o', 'n', 'd', 'a', 'y']]), (['ب', 'ر', 'ٮ', 'س', 'و', 'ا', 'ر'], [['t', 'h', 'u', 'r', 's', 'd', 'a', 'y']]), (['ژ', 'ن', 'د', 'ر', 'و', 'ا', 'ر'], [['m', 'o', 'n', 'd', 'a', 'y']]), (['ا', 'ت', 'ھ', 'و', 'ا', 'ر'], [['s', 'u', 'n', 'd', 'a', 'y']]), (['ا', 'ک', 'ت', 'و', 'ب', 'ر'], [['o', 'c', 't', 'o', 'b', 'e', 'r']]), (['ب', 'و', 'د', 'و', 'ا', 'ر'], [['w', 'e', 'd', 'n', 'e', 's', 'd', 'a', 'y']]), (['ب', 'و', 'م', 'و', 'ا', 'ر'], [['t', 'u', 'e', 's', 'd', 'a', 'y']]), (['ج', 'و', 'ل', 'ا', 'ی', 'ی'], [['j', 'u', 'l', 'y']]), (['ا', 'پ', 'ر', 'ی', 'ل'], [['a', 'p', 'r', 'i', 'l']]), (['ب', 'ٹ', 'و', 'ا', 'ر'], [['s', 'a', 't', 'u', 'r', 'd', 'a', 'y']]), (['ج', 'ن', 'و', 'ر', 'ی'], [['j', 'a', 'n', 'u', 'a', 'r', 'y']]), (['د', 'س', 'م', 'ب', 'ر'], [['d', 'e', 'c', 'e', 'm', 'b', 'e', 'r']]), (['س', 'ت', 'م', 'ب', 'ر'], [['s', 'e', 'p', 't', 'e', 'm', 'b', 'e', 'r']]), (['س', 'ٮ', 'ک', 'ن', 'ڑ'], [['s', 'e', 'c', 'o', 'n', 'd']]), (['ف', 'ر', 'و', 'ر', 'ی'], [['f', 'e', 'b', 'r', 'u', 'a', 'r', 'y']]), (['ن', 'و', 'م', 'ب', 'ر'], [['n', 'o', 'v', 'e', 'm', 'b', 'e', 'r']]), (['گ', 'ٲ', 'ن', 'ٹ', 'ہ'], [['h', 'o', 'u', 'r']]), (['ا', 'گ', 'س', 'ت'], [['a', 'u', 'g', 'u', 's', 't']]), (['ر', 'ٮ', 'ت', 'ھ'], [['m', 'o', 'n', 't', 'h']]), (['م', 'ا', 'ر', 'چ'], [['m', 'a', 'r', 'c', 'h']]), (['ہ', 'ف', 'ت', 'ہ'], [['w', 'e', 'e', 'k']]), (['g', 'm', 't'], [['g', 'm', 't']]), (['u', 't', 'c'], [['u', 't', 'c']]), (['ج', 'م', 'ہ'], [['f', 'r', 'i', 'd', 'a', 'y']]), (['ج', 'و', 'ن'], [['j', 'u', 'n', 'e']]), (['د', 'ۄ', 'ہ'], [['d', 'a', 'y']]), (['م', 'ن', 'ٹ'], [['m', 'i', 'n', 'u', 't', 'e']]), (['و', 'ر', 'ی'], [['y', 'e', 'a', 'r']]), (['a', 'm'], [['a', 'm']]), (['p', 'm'], [['p', 'm']]), (['م', 'ی'], [['m', 'a', 'y']]), ([' '], [[' ']]), (['\''], [[]]), (['+'], [['+']]), ([','], [[]]), (['-'], [['-']]), (['.'], [['.']]), (['/'], [['/']]), ([':'], [[':']]), ([';'], [[]]), (['@'], [[]]), (['['], [[]]), ([']'], [[]]), (['z'], [['z']]), (['|'], [[]])]
  relativeType := [(['t', 'h', 'i', 's', ' ', 'm', 'i', 'n', 'u', 't', 'e'], ['0', ' ', 'm', 'i', 'n', 'u', 't', 'e', ' ', 'a', 'g', 'o']), (['l', 'a', 's', 't', ' ', 'm', 'o', 'n', 't', 'h'], ['1', ' ', 'm', 'o', 'n', 't', 'h', ' ', 'a', 'g', 'o']), (['n', 'e', 'x', 't', ' ', 'm', 'o', 'n', 't', 'h'], ['i', 'n', ' ', '1', ' ', 'm', 'o', 'n', 't', 'h']), (['t', 'h', 'i', 's', ' ', 'm', 'o', 'n', 't', 'h'], ['0', ' ', 'm', 'o', 'n', 't', 'h', ' ', 'a', 'g', 'o']), (['l', 'a', 's', 't', ' ', 'w', 'e', 'e', 'k'], ['1', ' ', 'w', 'e', 'e', 'k', ' ', 'a', 'g', 'o']), (['l', 'a', 's', 't', ' ', 'y', 'e', 'a', 'r'], ['1', ' ', 'y', 'e', 'a', 'r', ' ', 'a', 'g', 'o']), (['n', 'e', 'x', 't', ' ', 'w', 'e', 'e', 'k'], ['i', 'n', ' ', '1', ' ', 'w', 'e', 'e', 'k']), (['n', 'e', 'x', 't', ' ', 'y', 'e', 'a', 'r'], ['i', 'n', ' ', '1', ' ', 'y', 'e', 'a', 'r']), (['t', 'h', 'i', 's', ' ', 'h', 'o', 'u', 'r'], ['0', ' ', 'h', 'o', 'u', 'r', ' ', 'a', 'g', 'o']), (['t', 'h', 'i', 's', ' ', 'w', 'e', 'e', 'k'], ['0', ' ', 'w', 'e', 'e', 'k', ' ', 'a', 'g', 'o']), (['t', 'h', 'i', 's', ' ', 'y', 'e', 'a', 'r'], ['0', ' ', 'y', 'e', 'a', 'r', ' ', 'a', 'g', 'o']), (['ر', 'ا', 'ت', 'ھ'], ['1', ' ', 'd', 'a', 'y', ' ', 'a', 'g', 'o']), (['پ', 'گ', 'ا', 'ہ'], ['i', 'n', ' ', '1', ' ', 'd', 'a', 'y']), (['n', 'o', 'w'], ['0', ' ', 's', 'e', 'c', 'o', 'n', 'd', ' ', 'a', 'g', 'o']), (['ا', 'ز'], ['0', ' ', 'd', 'a', 'y', ' ', 'a', 'g', 'o'])]

/-- internal/data/ksb.go: `ksb_Locale`, dictionary. -/
def ksbDict : LangData where
  name := ['k', 's', 'b']
  translations := [(['j', 'u', 'm', 'a', 'a', 'm', 'o', 's', 'i'], [['s', 'a', 't', 'u', 'r', 'd', 'a', 'y']]), (['j', 'u', 'm', 'a', 'a', 't', 'a', 'n', 'o'], [['w', 'e', 'd', 'n', 'e', 's', 'd', 'a', 'y']]), (['j', 'u', 'm', 'a', 'a', 't', 'a', 't', 'u'], [['m', 'o', 'n', 'd', 'a', 'y']]), (['a', 'l', 'h', 'a', 'm', 'i', 's', 'i'], [['t', 'h', 'u', 'r', 's', 'd', 'a', 'y']]), (['f', 'e', 'b', 'l', 'u', 'a', 'l', 'i'], [['f', 'e', 'b', 'r', 'u', 'a', 'r', 'y']]), (['j', 'u', 'm', 'a', 'a', 'p', 'i', 'i'], [['s', 'u', 'n', 'd', 'a', 'y']]), (['n', 'y', 'i', 'a', 'g', 'h', 'u', 'o'], [['p', 'm']]), (['s', 'e', 'p', 't', 'e', 'm', 'b', 'a'], [['s', 'e', 'p', 't', 'e', 'm', 'b', 'e', 'r']]), (['d', 'e', 's', 'e', 'm', 'b', 'a'], [['d', 'e', 'c', 'e', 'm', 'b', 'e', 'r']]), (['j', 'a', 'n', 'u', 'a', 'l', 'i'], [['j', 'a', 'n', 'u', 'a', 'r', 'y']]), (['j', 'u', 'm', 'a', 'a', 'n', 'e'], [['t', 'u', 'e', 's', 'd', 'a', 'y']]), (['n', 'g', '\'', 'w', 'a', 'k', 'a'], [['y', 'e', 'a', 'r']]), (['n', 'o', 'v', 'e', 'm', 'b', 'a'], [['n', 'o', 'v', 'e', 'm', 'b', 'e', 'r']]), (['s', 'e', 'k', 'u', 'n', 'd', 'e'], [['s', 'e', 'c', 'o', 'n', 'd']]), (['a', 'g', 'o', 's', 't', 'i'], [['a', 'u', 'g', 'u', 's', 't']]), (['a', 'p', 'l', 'i', 'l', 'i'], [['a', 'p', 'r', 'i', 'l']]), (['d', 'a', 'k', 'i', 'k', 'a'], [['m', 'i', 'n', 'u', 't', 'e']]), (['i', 'j', 'u', 'm', 'a', 'a'], [['f', 'r', 'i', 'd', 'a', 'y']]), (['n', 'g', '\'', 'e', 'z', 'i'], [['m', 'o', 'n', 't', 'h']]), (['o', 'k', 't', 'o', 'b', 'a'], [['o', 'c', 't', 'o', 'b', 'e', 'r']]), (['j', 'u', 'l', 'a', 'i'], [['j', 'u', 'l', 'y']]), (['m', 'a', 'c', 'h', 'i'], [['m', 'a', 'r', 'c', 'h']]), (['m', 'a', 'k', 'e', 'o'], [['a', 'm']]), (['j', 'u', 'n', 'i'], [['j', 'u', 'n', 'e']]), (['n', 'i', 'k', 'i'], [['w', 'e', 'e', 'k']]), (['s', 'i', 'k', 'u'], [['d', 'a', 'y']]), (['a', 'g', 'o'], [['a', 'u', 'g', 'u', 's', 't']]), (['a', 'l', 'h'], [['t', 'h', 'u', 'r', 's', 'd', 'a', 'y']]), (['a', 'p', 'r'], [['a', 'p', 'r', 'i', 'l']]), (['d', 'e', 's'], [['d', 'e', 'c', 'e', 'm', 'b', 'e', 'r']]), (['f', 'e', 'b'], [['f', 'e', 'b', 'r', 'u', 'a', 'r', 'y']]), (['g', 'm', 't'], [['g', 'm', 't']]), (['i', 'j', 'u'], [['f', 'r', 'i', 'd', 'a', 'y']]), (['j', 'a', 'n'], [['j', 'a', 'n', 'u', 'a', 'r', 'y']]), (['j', 'm', 'n'], [['t', 'u', 'e', 's', 'd', 'a', 'y']]), (['j', 'm', 'o'], [['s', 'a', 't', 'u', 'r', 'd', 'a', 'y']]), (['j', 'p', 'i'], [['s', 'u', 'n', 'd', 'a', 'y']]), (['j', 't', 'n'], [['w', 'e', 'd', 'n', 'e', 's', 'd', 'a', 'y']]), (['j', 't', 't'], [['m', 'o', 'n', 'd', 'a', 'y']]), (['j', 'u', 'l'], [['j', 'u', 'l', 'y']]), (['j', 'u', 'n'], [['j', 'u', 'n', 'e']]), (['m', 'a', 'c'], [['m', 'a', 'r', 'c', 'h']]), (['m', 'e', 'i'], [['m', 'a', 'y']]), (['n', 'o', 'v'], [['n', 'o', 'v', 'e', 'm', 'b', 'e', 'r']]), (['o', 'k', 't'], [['o', 'c', 't', 'o', 'b', 'e', 'r']]), (['s', 'a', 'a'], [['h', 'o', 'u', 'r']]), (['s', 'e', 'p'], [['s', 'e', 'p', 't', 'e', 'm', 'b', 'e', 'r']]), (['u', 't', 'c'], [['u', 't', 'c']]), (['a', 'm'], [['a', 'm']]), (['p', 'm'], [['p', 'm']]), ([' '], [[' ']]), (['\''], [[]]), (['+'], [['+']]), ([','], [[]]), (['-'], [['-']]), (['.'], [['.']]), (['/'], [['/']]), ([':'], [[':']]), ([';'], [[]]), (['@'], [[]]), (['['], [[]]), ([']'], [[]]), (['z'], [['z']]), (['|'], [[]])]
  relativeType := [(['t', 'h', 'i', 's', ' ', 'm', 'i', 'n', 'u', 't', 'e'], ['0', ' ', 'm', 'i', 'n', 'u', 't', 'e', ' ', 'a', 'g', 'o']), (['l', 'a', 's', 't', ' ', 'm', 'o', 'n', 't', 'h'], ['1', ' ', 'm', 'o', 'n', 't', 'h', ' ', 'a', 'g', 'o']), (['n', 'e', 'x', 't', ' ', 'm', 'o', 'n', 't', 'h'], ['i', 'n', ' ', '1', ' ', 'm', 'o', 'n', 't', 'h']), (['t', 'h', 'i', 's', ' ', 'm', 'o', 'n', 't', 'h'], ['0', ' ', 'm', 'o', 'n', 't', 'h', ' ', 'a', 'g', 'o']), (['l', 'a', 's', 't', ' ', 'w', 'e', 'e', 'k'], ['1', ' ', 'w', 'e', 'e', 'k', ' ', 'a', 'g', 'o']), (['l', 'a', 's', 't', ' ', 'y', 'e', 'a', 'r'], ['1', ' ', 'y', 'e', 'a', 'r', ' ', 'a', 'g', 'o']), (['n', 'e', 'x', 't', ' ', 'w', 'e', 'e', 'k'], ['i', 'n', ' ', '1', ' ', 'w', 'e', 'e', 'k']), (['n', 'e', 'x', 't', ' ', 'y', 'e', 'a', 'r'], ['i', 'n', ' ', '1', ' ', 'y', 'e', 'a', 'r']), (['t', 'h', 'i', 's', ' ', 'h', 'o', 'u', 'r'], ['0', ' ', 'h', 'o', 'u', 'r', ' ', 'a', 'g', 'o']), (['t', 'h', 'i', 's', ' ', 'w', 'e', 'e', 'k'], ['0', ' ', 'w', 'e', 'e', 'k', ' ', 'a', 'g', 'o']), (['t', 'h', 'i', 's', ' ', 'y', 'e', 'a', 'r'], ['0', ' ', 'y', 'e', 'a', 'r', ' ', 'a', 'g', 'o']), (['e', 'v', 'i', ' ', 'e', 'o'], ['0', ' ', 'd', 'a', 'y', ' ', 'a', 'g', 'o']), (['k', 'e', 'l', 'o', 'i'], ['i', 'n', ' ', '1', ' ', 'd', 'a', 'y']), (['g', 'h', 'u', 'o'], ['1', ' ', 'd', 'a', 'y', ' ', 'a', 'g', 'o']), (['n', 'o', 'w'], ['0', ' ', 's', 'e', 'c', 'o', 'n', 'd', ' ', 'a', 'g', 'o'])]

/-- internal/data/ksf.go: `ksf_Locale`, dictionary. -/
def ksfDict : LangData where
  name := ['k', 's', 'f']
  translations := [(['ŋ', 'w', 'i', 'i', ' ', 'a', 'k', 'ǝ', ' ', 'n', 't', 'ɛ', 'k', ' ', 'd', 'i', ' ', 'b', 'ɔ', 'k'], [['n', 'o', 'v', 'e', 'm', 'b', 'e', 'r']]), (['ŋ', 'w', 'i', 'i', ' ', 'a', 'k', 'ǝ', ' ', 'n', 't', 'ɛ', 'k', ' ', 'd', 'i', ' ', 'b', 'ɛ', 'ɛ'], [['d', 'e', 'c', 'e', 'm', 'b', 'e', 'r']]), (['ŋ', 'w', 'i', 'i', ' ', 'a', 'k', 'ǝ', ' ', 't', 'a', 'a', 'b', 'ɛ', 'ɛ'], [['j', 'u', 'l', 'y']]), (['ŋ', 'w', 'i', 'i', ' ', 'a', 'k', 'ǝ', ' ', 't', 'a', 'a', 'f', 'ɔ', 'k'], [['j', 'u', 'n', 'e']]), (['ŋ', 'w', 'i', 'i', ' ', 'a', 'k', 'ǝ', ' ', 't', 'a', 'a', 'n', 'i', 'n'], [['s', 'e', 'p', 't', 'e', 'm', 'b', 'e', 'r']]), (['ŋ', 'w', 'i', 'i', ' ', 'a', 'k', 'ǝ', ' ', 't', 'a', 'a', 'r', 'a', 'a'], [['a', 'u', 'g', 'u', 's', 't']]), (['ŋ', 'w', 'i', 'i', ' ', 'a', ' ', 'n', 't', 'ɔ', 'n', 't', 'ɔ'], [['j', 'a', 'n', 'u', 'a', 'r', 'y']]), (['ŋ', 'w', 'i', 'i', ' ', 'a', 'k', 'ǝ', ' ', 'n', 't', 'ɛ', 'k'], [['o', 'c', 't', 'o', 'b', 'e', 'r']]), (['ŋ', 'w', 'i', 'i', ' ', 'a', 'k', 'ǝ', ' ', 't', 'a', 'a', 'n'], [['m', 'a', 'y']]), (['ŋ', 'w', 'i', 'i', ' ', 'a', 'k', 'ǝ', ' ', 'b', 'ɛ', 'ɛ'], [['f', 'e', 'b', 'r', 'u', 'a', 'r', 'y']]), (['ŋ', 'w', 'i', 'i', ' ', 'a', 'k', 'ǝ', ' ', 'n', 'i', 'n'], [['a', 'p', 'r', 'i', 'l']]), (['ŋ', 'w', 'i', 'i', ' ', 'a', 'k', 'ǝ', ' ', 'r', 'a', 'a'], [['m', 'a', 'r', 'c', 'h']]), (['m', 'ɛ', 'k', 'r', 'ɛ', 'd', 'i'], [['w', 'e', 'd', 'n', 'e', 's', 'd', 'a', 'y']]), (['c', 'a', 'm', 'ɛ', 'ɛ', 'n'], [['h', 'o', 'u', 'r']]), (['c', 'ɛ', 'ɛ', 'n', 'k', 'o'], [['p', 'm']]), (['s', 'a', 'r', 'u', 'w', 'a'], [['a', 'm']]), (['j', 'u', 'm', 'b', 'a'], [['f', 'r', 'i', 'd', 'a', 'y']]), (['j', 'ǝ', 'ǝ', 'd', 'i'], [['t', 'h', 'u', 'r', 's', 'd', 'a', 'y']]), (['l', 'ǝ', 'n', 'd', 'i'], [['m', 'o', 'n', 'd', 'a', 'y']]), (['m', 'a', 'a', 'd', 'i'], [['t', 'u', 'e', 's', 'd', 'a', 'y']]), (['m', 'ǝ', 'n', 'i', 't'], [['m', 'i', 'n', 'u', 't', 'e']]), (['s', 'a', 'm', 'd', 'i'], [['s', 'a', 't', 'u', 'r', 'd', 'a', 'y']]), (['s', 'ɔ', 'n', 'd', 'ǝ'], [['w', 'e', 'e', 'k'], ['s', 'u', 'n', 'd', 'a', 'y']]), (['ŋ', 'w', 'i', 'i'], [['m', 'o', 'n', 't', 'h']]), (['ŋ', 'w', 'o', 's'], [['d', 'a', 'y']]), (['b', 'ǝ', 'k'], [['y', 'e', 'a', 'r']]), (['g', 'm', 't'], [['g', 'm', 't']]), (['h', 'a', 'u'], [['s', 'e', 'c', 'o', 'n', 'd']]), (['j', 'u', 'm'], [['f', 'r', 'i', 'd', 'a', 'y']]), (['j', 'ǝ', 'ǝ'], [['t', 'h', 'u', 'r', 's', 'd', 'a', 'y']]), (['l', 'ǝ', 'n'], [['m', 'o', 'n', 'd', 'a', 'y']]), (['m', 'a', 'a'], [['t', 'u', 'e', 's', 'd', 'a', 'y']]), (['m', 'ɛ', 'k'], [['w', 'e', 'd', 'n', 'e', 's', 'd', 'a', 'y']]), (['s', 'a', 'm'], [['s', 'a', 't', 'u', 'r', 'd', 'a', 'y']]), (['s', 'ɔ', 'n'], [['s', 'u', 'n', 'd', 'a', 'y']]), (['u', 't', 'c'], [['u', 't', 'c']]), (['ŋ', '1', '0'], [['o', 'c', 't', 'o', 'b', 'e', 'r']]), (['ŋ', '1', '1'], [['n', 'o', 'v', 'e', 'm', 'b', 'e', 'r']]), (['ŋ', '1', '2'], [['d', 'e', 'c', 'e', 'm', 'b', 'e', 'r']]), (['a', 'm'], [['a', 'm']]), (['p', 'm'], [['p', 'm']]), (['ŋ', '1'], [['j', 'a', 'n', 'u', 'a', 'r', 'y']]), (['ŋ', '2'], [['f', 'e', 'b', 'r', 'u', 'a', 'r', 'y']]), (['ŋ', '3'], [['m', 'a', 'r', 'c', 'h']]), (['ŋ', '4'], [['a', 'p', 'r', 'i', 'l']]), (['ŋ', '5'], [['m', 'a', 'y']]), (['ŋ', '6'], [['j', 'u', 'n', 'e']]), (['ŋ', '7'], [['j', 'u', 'l', 'y']]), (['ŋ', '8'], [['a', 'u', 'g', 'u', 's', 't']]), (['ŋ', '9'], [['s', 'e', 'p', 't', 'e', 'm', 'b', 'e', 'r']]), ([' '], [[' ']]), (['\''], [[]]), (['+'], [['+']]), ([','], [[]]), (['-'], [['-']]), (['.'], [['.']]), (['/'], [['/']]), ([':'], [[':']]), ([';'], [[]]), (['@'], [[]]), (['['], [[]]), ([']'], [[]]), (['z'], [['z']]), (['|'], [[]])]
  relativeType := [(['t', 'h', 'i', 's', ' ', 'm', 'i', 'n', 'u', 't', 'e'], ['0', ' ', 'm', 'i', 'n', 'u', 't', 'e', ' ', 'a', 'g', 'o']), (['l', 'a', 's', 't', ' ', 'm', 'o', 'n', 't', 'h'], ['1', ' ', 'm', 'o', 'n', 't', 'h', ' ', 'a', 'g', 'o']), (['n', 'e', 'x', 't', ' ', 'm', 'o', 'n', 't', 'h'], ['i', 'n', ' ', '1', ' ', 'm', 'o', 'n', 't', 'h']), (['t', 'h', 'i', 's', ' ', 'm', 'o', 'n', 't', 'h'], ['0', ' ', 'm', 'o', 'n', 't', 'h', ' ', 'a', 'g', 'o']), (['l', 'a', 's', 't', ' ', 'w', 'e', 'e', 'k'], ['1', ' ', 'w', 'e', 'e', 'k', ' ', 'a', 'g', 'o']), (['l', 'a', 's', 't', ' ', 'y', 'e', 'a', 'r'], ['1', ' ', 'y', 'e', 'a', 'r', ' ', 'a', 'g', 'o']), (['n', 'e', 'x', 't', ' ', 'w', 'e', 'e', 'k'], ['i', 'n', ' ', '1', ' ', 'w', 'e', 'e', 'k']), (['n', 'e', 'x', 't', ' ', 'y', 'e', 'a', 'r'], ['i', 'n', ' ', '1', ' ', 'y', 'e', 'a', 'r']), (['t', 'h', 'i', 's', ' ', 'h', 'o', 'u', 'r'], ['0', ' ', 'h', 'o', 'u', 'r', ' ', 'a', 'g', 'o']), (['t', 'h', 'i', 's', ' ', 'w', 'e', 'e', 'k'], ['0', ' ', 'w', 'e', 'e', 'k', ' ', 'a', 'g', 'o']), (['t', 'h', 'i', 's', ' ', 'y', 'e', 'a', 'r'], ['0', ' ', 'y', 'e', 'a', 'r', ' ', 'a', 'g', 'o']), (['r', 'i', 'd', 'u', 'r', 'ǝ'], ['i', 'n', ' ', '1', ' ', 'd', 'a', 'y']), (['r', 'i', 'n', 'k', 'ɔ', 'ɔ'], ['1', ' ', 'd', 'a', 'y', ' ', 'a', 'g', 'o']), (['g', 'ɛ', 'ɛ', 'n', 'ǝ'], ['0', ' ', 'd', 'a', 'y', ' ', 'a', 'g', 'o']), (['n', 'o', 'w'], ['0', ' ', 's', 'e', 'c', 'o', 'n', 'd', ' ', 'a', 'g', 'o'])]

/-- internal/data/ksh.go: `ksh_Locale`, dictionary. -/
def kshDict : LangData where
  name := ['k', 's', 'h']
  translations := [(['u', 'h', 'r', ' ', 'n', 'o', 'm', 'm', 'e', 'n', 'd', 'a', 'a', 'c', 'h', 's'], [['p', 'm']]), (['u', 'h', 'r', ' ', 'v', 'o', 'r', 'm', 'i', 'd', 'd', 'a', 'a', 'c', 'h', 's'], [['a', 'm']]), (['d', 'u', 'n', 'n', 'e', 'r', 's', 'd', 'a', 'a', 'c', 'h'], [['t', 'h', 'u', 'r', 's', 'd', 'a', 'y']]), (['n', 'o', 'm', 'm', 'e', 'n', 'd', 'a', 'a', 'c', 'h'], [['p', 'm']]), (['v', 'o', 'r', 'm', 'e', 'd', 'd', 'a', 'a', 'c', 'h'], [['a', 'm']]), (['d', 'i', 'n', 'n', 's', 'd', 'a', 'a', 'c', 'h'], [['t', 'u', 'e', 's', 'd', 'a', 'y']]), (['f', 'r', 'i', 'i', 'd', 'a', 'a', 'c', 'h'], [['f', 'r', 'i', 'd', 'a', 'y']]), (['m', 'o', 'h', 'n', 'd', 'a', 'a', 'c', 'h'], [['m', 'o', 'n', 'd', 'a', 'y']]), (['s', 'a', 'm', 's', 'd', 'a', 'a', 'c', 'h'], [['s', 'a', 't', 'u', 'r', 'd', 'a', 'y']]), (['s', 'e', 'p', 't', 'a', 'm', 'b', 'e', 'r'], [['s', 'e', 'p', 't', 'e', 'm', 'b', 'e', 'r']]), (['s', 'u', 'n', 'n', 'd', 'a', 'a', 'c', 'h'], [['s', 'u', 'n', 'd', 'a', 'y']]), (['d', 'e', 'z', 'a', 'm', 'b', 'e', 'r'], [['d', 'e', 'c', 'e', 'm', 'b', 'e', 'r']]), (['n', 'o', 'v', 'a', 'm', 'b', 'e', 'r'], [['n', 'o', 'v', 'e', 'm', 'b', 'e', 'r']]), (['o', 'k', 't', 'o', 'h', 'b', 'e', 'r'], [['o', 'c', 't', 'o', 'b', 'e', 'r']]), (['f', 'a', 'b', 'r', 'o', 'w', 'a'], [['f', 'e', 'b', 'r', 'u', 'a', 'r', 'y']]), (['j', 'a', 'n', 'n', 'e', 'w', 'a'], [['j', 'a', 'n', 'u', 'a', 'r', 'y']]), (['m', 'e', 't', 'w', 'o', 'c', 'h'], [['w', 'e', 'd', 'n', 'e', 's', 'd', 'a', 'y']]), (['s', 'c', 'h', 't', 'u', 'n', 'd'], [['h', 'o', 'u', 'r']]), (['a', 'p', 'r', 'e', 'l', 'l'], [['a', 'p', 'r', 'i', 'l']]), (['m', 'e', 'n', 'u', 't', 't'], [['m', 'i', 'n', 'u', 't', 'e']]), (['s', 'e', 'k', 'o', 'n', 'd'], [['s', 'e', 'c', 'o', 'n', 'd']]), (['d', 'a', 'a', 'c', 'h'], [['d', 'a', 'y']]), (['j', 'u', 'u', 'l', 'i'], [['j', 'u', 'l', 'y']]), (['j', 'u', 'u', 'n', 'i'], [['j', 'u', 'n', 'e']]), (['m', 'o', 'h', 'n', 'd'], [['m', 'o', 'n', 't', 'h']]), (['o', 'u', 'j', 'o', 'ß'], [['a', 'u', 'g', 'u', 's', 't']]), (['j', 'o', 'h', 'r'], [['y', 'e', 'a', 'r']]), (['m', 'a', 'a', 'z'], [['m', 'a', 'r', 'c', 'h']]), (['w', 'o', 'c', 'h'], [['w', 'e', 'e', 'k']]), (['a', 'p', 'r'], [['a', 'p', 'r', 'i', 'l']]), (['d', 'e', 'z'], [['d', 'e', 'c', 'e', 'm', 'b', 'e', 'r']]), (['f', 'a', 'b'], [['f', 'e', 'b', 'r', 'u', 'a', 'r', 'y']]), (['g', 'm', 't'], [['g', 'm', 't']]), (['j', 'a', 'n'], [['j', 'a', 'n', 'u', 'a', 'r', 'y']]), (['j', 'u', 'l'], [['j', 'u', 'l', 'y']]), (['j', 'u', 'n'], [['j', 'u', 'n', 'e']]), (['m', 'a', 'i'], [['m', 'a', 'y']]), (['m', 'a', 'z'], [['m', 'a', 'r', 'c', 'h']]), (['m', 'i', 'n'], [['m', 'i', 'n', 'u', 't', 'e']]), (['n', 'o', 'v'], [['n', 'o', 'v', 'e', 'm', 'b', 'e', 'r']]), (['o', 'k', 't'], [['o', 'c', 't', 'o', 'b', 'e', 'r']]), (['o', 'u', 'j'], [['a', 'u', 'g', 'u', 's', 't']]), (['s', 'a', 'p'], [['s', 'e', 'p', 't', 'e', 'm', 'b', 'e', 'r']]), (['s', 'e', 'k'], [['s', 'e', 'c', 'o', 'n', 'd']]), (['s', 't', 'd'], [['h', 'o', 'u', 'r']]), (['u', 't', 'c'], [['u', 't', 'c']]), (['a', 'm'], [['a', 'm']]), (['d', 'i'], [['t', 'u', 'e', 's', 'd', 'a', 'y']]), (['d', 'u'], [['t', 'h', 'u', 'r', 's', 'd', 'a', 'y']]), (['f', 'r'], [['f', 'r', 'i', 'd', 'a', 'y']]), (['m', 'e'], [['w', 'e', 'd', 'n', 'e', 's', 'd', 'a', 'y']]), (['m', 'o'], [['m', 'o', 'n', 'd', 'a', 'y']]), (['n', 'm'], [['p', 'm']]), (['p', 'm'], [['p', 'm']]), (['s', 'a'], [['s', 'a', 't', 'u', 'r', 'd', 'a', 'y']]), (['s', 'u'], [['s', 'u', 'n', 'd', 'a', 'y']]), (['v', 'm'], [['a', 'm']]), ([' '], [[' ']]), (['\''], [[]]), (['+'], [['+']]), ([','], [[]]), (['-'], [['-']]), (['.'], [['.']]), (['/'], [['/']]), ([':'], [[':']]), ([';'], [[]]), (['@'], [[]]), (['['], [[]]), ([']'], [[]]), (['d'], [['d', 'a', 'y']]), (['j'], [['y', 'e', 'a', 'r']]), (['m'], [['m', 'o', 'n', 't', 'h'], ['m', 'i', 'n', 'u', 't', 'e']]), (['s'], [['h', 'o', 'u', 'r'], ['s', 'e', 'c', 'o', 'n', 'd']]), (['w'], [['w', 'e', 'e', 'k']]), (['z'], [['z']]), (['|'], [[]])]
  relativeType := [(['n', 'a', 'c', 'h', 's', 't', 'e', ' ', 'm', 'o', 'h', 'n', 'd'], ['i', 'n', ' ', '1', ' ', 'm', 'o', 'n', 't', 'h']), (['n', 'a', 'c', 'h', 's', 't', 'e', ' ', 'w', 'o', 'c', 'h', 'e'], ['i', 'n', ' ', '1', ' ', 'w', 'e', 'e', 'k']), (['l', 'a', 't', 'z', 'd', 'e', ' ', 'm', 'o', 'h', 'n', 'd'], ['1', ' ', 'm', 'o', 'n', 't', 'h', ' ', 'a', 'g', 'o']), (['d', 'i', 'e', 's', 'e', ' ', 'm', 'o', 'h', 'n', 'd'], ['0', ' ', 'm', 'o', 'n', 't', 'h', ' ', 'a', 'g', 'o']), (['t', 'h', 'i', 's', ' ', 'm', 'i', 'n', 'u', 't', 'e'], ['0', ' ', 'm', 'i', 'n', 'u', 't', 'e', ' ', 'a', 'g', 'o']), (['t', 'h', 'i', 's', ' ', 'h', 'o', 'u', 'r'], ['0', ' ', 'h', 'o', 'u', 'r', ' ', 'a', 'g', 'o']), (['d', 'i', 'ß', ' ', 'j', 'o', 'h', 'r'], ['0', ' ', 'y', 'e', 'a', 'r', ' ', 'a', 'g', 'o']), (['l', 'a', 'z', ' ', 'j', 'o', 'h', 'r'], ['1', ' ', 'y', 'e', 'a', 'r', ' ', 'a', 'g', 'o']), (['l', 'a', 'z', ' ', 'w', 'o', 'c', 'h'], ['1', ' ', 'w', 'e', 'e', 'k', ' ', 'a', 'g', 'o']), (['n', 'a', 'x', ' ', 'j', 'o', 'h', 'r'], ['i', 'n', ' ', '1', ' ', 'y', 'e', 'a', 'r']), (['d', 'i', ' ', 'w', 'o', 'c', 'h'], ['0', ' ', 'w', 'e', 'e', 'k', ' ', 'a', 'g', 'o']), (['j', 'e', 's', 't', 'e', 'r', 'e'], ['1', ' ', 'd', 'a', 'y', ' ', 'a', 'g', 'o']), (['m', 'o', 'r', 'j', 'e'], ['i', 'n', ' ', '1', ' ', 'd', 'a', 'y']), (['h', 'u', 'c', 'k'], ['0', ' ', 'd', 'a', 'y', ' ', 'a', 'g', 'o']), (['n', 'o', 'w'], ['0', ' ', 's', 'e', 'c', 'o', 'n', 'd', ' ', 'a', 'g', 'o'])]

/-- internal/data/kw.go: `kw_Locale`, dictionary. -/
def kwDict : LangData where
  name := ['k', 'w']
  translations := [(['m', 'i', 's', ' ', 'g', 'o', 'r', 't', 'h', 'e', 'r', 'e', 'n'], [['j', 'u', 'l', 'y']]), (['m', 'i', 's', ' ', 'g', 'w', 'y', 'n', 'n', 'g', 'a', 'l', 'a'], [['s', 'e', 'p', 't', 'e', 'm', 'b', 'e', 'r']]), (['m', 'i', 's', ' ', 'k', 'e', 'v', 'a', 'r', 'd', 'h', 'u'], [['d', 'e', 'c', 'e', 'm', 'b', 'e', 'r']]), (['m', 'i', 's', ' ', 'm', 'e', 't', 'h', 'e', 'v', 'e', 'n'], [['j', 'u', 'n', 'e']]), (['m', 'i', 's', ' ', 'h', 'w', 'e', 'v', 'r', 'e', 'r'], [['f', 'e', 'b', 'r', 'u', 'a', 'r', 'y']]), (['m', 'i', 's', ' ', 'g', 'e', 'n', 'v', 'e', 'r'], [['j', 'a', 'n', 'u', 'a', 'r', 'y']]), (['m', 'i', 's', ' ', 'm', 'e', 'u', 'r', 't', 'h'], [['m', 'a', 'r', 'c', 'h']]), (['d', 'y', ' ', 'g', 'w', 'e', 'n', 'e', 'r'], [['f', 'r', 'i', 'd', 'a', 'y']]), (['d', 'y', ' ', 'm', 'e', 'r', 'h', 'e', 'r'], [['w', 'e', 'd', 'n', 'e', 's', 'd', 'a', 'y']]), (['d', 'y', ' ', 'm', 'e', 'u', 'r', 't', 'h'], [['t', 'u', 'e', 's', 'd', 'a', 'y']]), (['d', 'y', ' ', 's', 'a', 'd', 'o', 'r', 'n'], [['s', 'a', 't', 'u', 'r', 'd', 'a', 'y']]), (['m', 'i', 's', ' ', 'e', 'b', 'r', 'e', 'l'], [['a', 'p', 'r', 'i', 'l']]), (['m', 'i', 's', ' ', 'h', 'e', 'd', 'r', 'a'], [['o', 'c', 't', 'o', 'b', 'e', 'r']]), (['m', 'i', 's', ' ', 'e', 's', 't'], [['a', 'u', 'g', 'u', 's', 't']]), (['d', 'y', ' ', 'l', 'u', 'n'], [['m', 'o', 'n', 'd', 'a', 'y']]), (['d', 'y', ' ', 's', 'u', 'l'], [['s', 'u', 'n', 'd', 'a', 'y']]), (['d', 'y', ' ', 'y', 'o', 'w'], [['t', 'h', 'u', 'r', 's', 'd', 'a', 'y']]), (['m', 'i', 'n', 'u', 't', 'e'], [['m', 'i', 'n', 'u', 't', 'e']]), (['m', 'i', 's', ' ', 'd', 'u'], [['n', 'o', 'v', 'e', 'm', 'b', 'e', 'r']]), (['m', 'i', 's', ' ', 'm', 'e'], [['m', 'a', 'y']]), (['s', 'e', 'c', 'o', 'n', 'd'], [['s', 'e', 'c', 'o', 'n', 'd']]), (['m', 'o', 'n', 't', 'h'], [['m', 'o', 'n', 't', 'h']]), (['h', 'o', 'u', 'r'], [['h', 'o', 'u', 'r']]), (['w', 'e', 'e', 'k'], [['w', 'e', 'e', 'k']]), (['y', 'e', 'a', 'r'], [['y', 'e', 'a', 'r']]), (['d', 'a', 'y'], [['d', 'a', 'y']]), (['e', 'b', 'r'], [['a', 'p', 'r', 'i', 'l']]), (['e', 's', 't'], [['a', 'u', 'g', 'u', 's', 't']]), (['g', 'e', 'n'], [['j', 'a', 'n', 'u', 'a', 'r', 'y']]), (['g', 'm', 't'], [['g', 'm', 't']]), (['g', 'o', 'r'], [['j', 'u', 'l', 'y']]), (['g', 'w', 'e'], [['f', 'r', 'i', 'd', 'a', 'y']]), (['g', 'w', 'n'], [['s', 'e', 'p', 't', 'e', 'm', 'b', 'e', 'r']]), (['h', 'e', 'd'], [['o', 'c', 't', 'o', 'b', 'e', 'r']]), (['h', 'w', 'e'], [['f', 'e', 'b', 'r', 'u', 'a', 'r', 'y']]), (['k', 'e', 'v'], [['d', 'e', 'c', 'e', 'm', 'b', 'e', 'r']]), (['l', 'u', 'n'], [['m', 'o', 'n', 'd', 'a', 'y']]), (['m', 'e', 't'], [['j', 'u', 'n', 'e']]), (['m', 'e', 'u'], [['m', 'a', 'r', 'c', 'h']]), (['m', 'h', 'r'], [['w', 'e', 'd', 'n', 'e', 's', 'd', 'a', 'y']]), (['m', 't', 'h'], [['t', 'u', 'e', 's', 'd', 'a', 'y']]), (['s', 'a', 'd'], [['s', 'a', 't', 'u', 'r', 'd', 'a', 'y']]), (['s', 'u', 'l'], [['s', 'u', 'n', 'd', 'a', 'y']]), (['u', 't', 'c'], [['u', 't', 'c']]), (['y', 'o', 'w'], [['t', 'h', 'u', 'r', 's', 'd', 'a', 'y']]), (['a', 'm'], [['a', 'm']]), (['d', 'u'], [['n', 'o', 'v', 'e', 'm', 'b', 'e', 'r']]), (['m', 'e'], [['m', 'a', 'y']]), (['p', 'm'], [['p', 'm']]), ([' '], [[' ']]), (['\''], [[]]), (['+'], [['+']]), ([','], [[]]), (['-'], [['-']]), (['.'], [['.']]), (['/'], [['/']]), ([':'], [[':']]), ([';'], [[]]), (['@'], [[]]), (['['], [[]]), ([']'], [[]]), (['z'], [['z']]), (['|'], [[]])]
  relativeType := [(['t', 'h', 'i', 's', ' ', 'm', 'i', 'n', 'u', 't', 'e'], ['0', ' ', 'm', 'i', 'n', 'u', 't', 'e', ' ', 'a', 'g', 'o']), (['l', 'a', 's', 't', ' ', 'm', 'o', 'n', 't', 'h'], ['1', ' ', 'm', 'o', 'n', 't', 'h', ' ', 'a', 'g', 'o']), (['n', 'e', 'x', 't', ' ', 'm', 'o', 'n', 't', 'h'], ['i', 'n', ' ', '1', ' ', 'm', 'o', 'n', 't', 'h']), (['t', 'h', 'i', 's', ' ', 'm', 'o', 'n', 't', 'h'], ['0', ' ', 'm', 'o', 'n', 't', 'h', ' ', 'a', 'g', 'o']), (['l', 'a', 's', 't', ' ', 'w', 'e', 'e', 'k'], ['1', ' ', 'w', 'e', 'e', 'k', ' ', 'a', 'g', 'o']), (['l', 'a', 's', 't', ' ', 'y', 'e', 'a', 'r'], ['1', ' ', 'y', 'e', 'a', 'r', ' ', 'a', 'g', 'o']), (['n', 'e', 'x', 't', ' ', 'w', 'e', 'e', 'k'], ['i', 'n', ' ', '1', ' ', 'w', 'e', 'e', 'k']), (['n', 'e', 'x', 't', ' ', 'y', 'e', 'a', 'r'], ['i', 'n', ' ', '1', ' ', 'y', 'e', 'a', 'r']), (['t', 'h', 'i', 's', ' ', 'h', 'o', 'u', 'r'], ['0', ' ', 'h', 'o', 'u', 'r', ' ', 'a', 'g', 'o']), (['t', 'h', 'i', 's', ' ', 'w', 'e', 'e', 'k'], ['0', ' ', 'w', 'e', 'e', 'k', ' ', 'a', 'g', 'o']), (['t', 'h', 'i', 's', ' ', 'y', 'e', 'a', 'r'], ['0', ' ', 'y', 'e', 'a', 'r', ' ', 'a', 'g', 'o']), (['y', 'e', 's', 't', 'e', 'r', 'd', 'a', 'y'], ['1', ' ', 'd', 'a', 'y', ' ', 'a', 'g', 'o']), (['t', 'o', 'm', 'o', 'r', 'r', 'o', 'w'], ['i', 'n', ' ', '1', ' ', 'd', 'a', 'y']), (['t', 'o', 'd', 'a', 'y'], ['0', ' ', 'd', 'a', 'y', ' ', 'a', 'g', 'o']), (['n', 'o', 'w'], ['0', ' ', 's', 'e', 'c', 'o', 'n', 'd', ' ', 'a', 'g', 'o'])]

/-- internal/data/ky.go: `ky_Locale`, dictionary. -/
def kyDict : LangData where
  name := ['k', 'y']
  translations := [(['т', 'ү', 'ш', 'т', 'ө', 'н', ' ', 'к', 'и', 'и', 'и', 'н', 'к', 'и'], [['p', 'm']]), (['б', 'е', 'и', 'ш', 'е', 'м', 'б', 'и'], [['t', 'h', 'u', 'r', 's', 'd', 'a', 'y']]), (['д', 'ү', 'и', 'ш', 'ө', 'м', 'б', 'ү'], [['m', 'o', 'n', 'd', 'a', 'y']]), (['ж', 'е', 'к', 'ш', 'е', 'м', 'б', 'и'], [['s', 'u', 'n', 'd', 'a', 'y']]), (['с', 'е', 'н', 'т', 'я', 'б', 'р', 'ь'], [['s', 'e', 'p', 't', 'e', 'm', 'b', 'e', 'r']]), (['ш', 'а', 'р', 'ш', 'е', 'м', 'б', 'и'], [['w', 'e', 'd', 'n', 'e', 's', 'd', 'a', 'y']]), (['ш', 'е', 'и', 'ш', 'е', 'м', 'б', 'и'], [['t', 'u', 'e', 's', 'd', 'a', 'y']]), (['д', 'е', 'к', 'а', 'б', 'р', 'ь'], [['d', 'e', 'c', 'e', 'm', 'b', 'e', 'r']]), (['о', 'к', 'т', 'я', 'б', 'р', 'ь'], [['o', 'c', 't', 'o', 'b', 'e', 'r']]), (['ф', 'е', 'в', 'р', 'а', 'л', 'ь'], [['f', 'e', 'b', 'r', 'u', 'a', 'r', 'y']]), (['а', 'в', 'г', 'у', 'с', 'т'], [['a', 'u', 'g', 'u', 's', 't']]), (['а', 'п', 'р', 'е', 'л', 'ь'], [['a', 'p', 'r', 'i', 'l']]), (['и', 'ш', 'е', 'м', 'б', 'и'], [['s', 'a', 't', 'u', 'r', 'd', 'a', 'y']]), (['н', 'о', 'я', 'б', 'р', 'ь'], [['n', 'o', 'v', 'e', 'm', 'b', 'e', 'r']]), (['с', 'е', 'к', 'у', 'н', 'д'], [['s', 'e', 'c', 'o', 'n', 'd']]), (['я', 'н', 'в', 'а', 'р', 'ь'], [['j', 'a', 'n', 'u', 'a', 'r', 'y']]), (['м', 'ү', 'н', 'ө', 'т'], [['m', 'i', 'n', 'u', 't', 'e']]), (['т', 'а', 'ң', 'к', 'ы'], [['a', 'm']]), (['а', 'п', 'т', 'а'], [['w', 'e', 'e', 'k']]), (['б', 'е', 'и', 'ш'], [['t', 'h', 'u', 'r', 's', 'd', 'a', 'y']]), (['ж', 'у', 'м', 'а'], [['f', 'r', 'i', 'd', 'a', 'y']]), (['и', 'ю', 'л', 'ь'], [['j', 'u', 'l', 'y']]), (['и', 'ю', 'н', 'ь'], [['j', 'u', 'n', 'e']]), (['м', 'а', 'р', 'т'], [['m', 'a', 'r', 'c', 'h']]), (['с', 'а', 'а', 'т'], [['h', 'o', 'u', 'r']]), (['ш', 'а', 'р', 'ш'], [['w', 'e', 'd', 'n', 'e', 's', 'd', 'a', 'y']]), (['ш', 'е', 'и', 'ш'], [['t', 'u', 'e', 's', 'd', 'a', 'y']]), (['g', 'm', 't'], [['g', 'm', 't']]), (['u', 't', 'c'], [['u', 't', 'c']]), (['а', 'в', 'г'], [['a', 'u', 'g', 'u', 's', 't']]), (['а', 'п', 'р'], [['a', 'p', 'r', 'i', 'l']]), (['а', 'п', 'т'], [['w', 'e', 'e', 'k']]), (['д', 'е', 'к'], [['d', 'e', 'c', 'e', 'm', 'b', 'e', 'r']]), (['д', 'ү', 'и'], [['m', 'o', 'n', 'd', 'a', 'y']]), (['ж', 'е', 'к'], [['s', 'u', 'n', 'd', 'a', 'y']]), (['ж', 'ы', 'л'], [['y', 'e', 'a', 'r']]), (['и', 'ш', 'м'], [['s', 'a', 't', 'u', 'r', 'd', 'a', 'y']]), (['и', 'ю', 'л'], [['j', 'u', 'l', 'y']]), (['и', 'ю', 'н'], [['j', 'u', 'n', 'e']]), (['к', 'ү', 'н'], [['d', 'a', 'y']]), (['м', 'а', 'и'], [['m', 'a', 'y']]), (['м', 'а', 'р'], [['m', 'a', 'r', 'c', 'h']]), (['м', 'ү', 'н'], [['m', 'i', 'n', 'u', 't', 'e']]), (['н', 'о', 'я'], [['n', 'o', 'v', 'e', 'm', 'b', 'e', 'r']]), (['о', 'к', 'т'], [['o', 'c', 't', 'o', 'b', 'e', 'r']]), (['с', 'е', 'к'], [['s', 'e', 'c', 'o', 'n', 'd']]), (['с', 'е', 'н'], [['s', 'e', 'p', 't', 'e', 'm', 'b', 'e', 'r']]), (['ф', 'е', 'в'], [['f', 'e', 'b', 'r', 'u', 'a', 'r', 'y']]), (['я', 'н', 'в'], [['j', 'a', 'n', 'u', 'a', 'r', 'y']]), (['a', 'm'], [['a', 'm']]), (['p', 'm'], [['p', 'm']]), (['а', 'и'], [['m', 'o', 'n', 't', 'h']]), (['с', 'т'], [['h', 'o', 'u', 'r']]), (['т', 'к'], [['p', 'm']]), (['т', 'ң'], [['a', 'm']]), ([' '], [[' ']]), (['\''], [[]]), (['+'], [['+']]), ([','], [[]]), (['-'], [['-']]), (['.'], [['.']]), (['/'], [['/']]), ([':'], [[':']]), ([';'], [[]]), (['@'], [[]]), (['['], [[]]), ([']'], [[]]), (['z'], [['z']]), (['|'], [[]]), (['ж'], [['y', 'e', 'a', 'r']]), (['м'], [['m', 'i', 'n', 'u', 't', 'e']])]
  relativeType := [(['к', 'е', 'л', 'е', 'р', 'к', 'и', ' ', 'а', 'п', 'т', 'а', 'д', 'а'], ['i', 'n', ' ', '1', ' ', 'w', 'e', 'e', 'k']), (['у', 'ш', 'у', 'л', ' ', 'м', 'ү', 'н', 'ө', 'т', 'т', 'ө'], ['0', ' ', 'm', 'i', 'n', 'u', 't', 'e', ' ', 'a', 'g', 'o']), (['ө', 'т', 'к', 'ө', 'н', ' ', 'а', 'п', 'т', 'а', 'д', 'а'], ['1', ' ', 'w', 'e', 'e', 'k', ' ', 'a', 'g', 'o']), (['к', 'е', 'л', 'е', 'р', 'к', 'и', ' ', 'а', 'п', 'т'], ['i', 'n', ' ', '1', ' ', 'w', 'e', 'e', 'k']), (['у', 'ш', 'у', 'л', ' ', 'а', 'п', 'т', 'а', 'д', 'а'], ['0', ' ', 'w', 'e', 'e', 'k', ' ', 'a', 'g', 'o']), (['у', 'ш', 'у', 'л', ' ', 'с', 'а', 'а', 'т', 'т', 'а'], ['0', ' ', 'h', 'o', 'u', 'r', ' ', 'a', 'g', 'o']), (['э', 'м', 'д', 'и', 'г', 'и', ' ', 'а', 'и', 'д', 'а'], ['i', 'n', ' ', '1', ' ', 'm', 'o', 'n', 't', 'h']), (['э', 'м', 'д', 'и', 'г', 'и', ' ', 'ж', 'ы', 'л', 'ы'], ['i', 'n', ' ', '1', ' ', 'y', 'e', 'a', 'r']), (['ө', 'т', 'к', 'ө', 'н', ' ', 'а', 'и', 'д', 'а'], ['1', ' ', 'm', 'o', 'n', 't', 'h', ' ', 'a', 'g', 'o']), (['ө', 'т', 'к', 'ө', 'н', ' ', 'а', 'п', 'т'], ['1', ' ', 'w', 'e', 'e', 'k', ' ', 'a', 'g', 'o']), (['б', 'у', 'л', ' ', 'а', 'и', 'д', 'а'], ['0', ' ', 'm', 'o', 'n', 't', 'h', ' ', 'a', 'g', 'o']), (['у', 'ш', 'у', 'л', ' ', 'а', 'п', 'т'], ['0', ' ', 'w', 'e', 'e', 'k', ' ', 'a', 'g', 'o']), (['б', 'ы', 'л', 'т', 'ы', 'р'], ['1', ' ', 'y', 'e', 'a', 'r', ' ', 'a', 'g', 'o']), (['б', 'ы', 'и', 'ы', 'л'], ['0', ' ', 'y', 'e', 'a', 'r', ' ', 'a', 'g', 'o']), (['б', 'ү', 'г', 'ү', 'н'], ['0', ' ', 'd', 'a', 'y', ' ', 'a', 'g', 'o']), (['к', 'е', 'ч', 'э', 'э'], ['1', ' ', 'd', 'a', 'y', ' ', 'a', 'g', 'o']), (['э', 'р', 'т', 'е', 'ӊ'], ['i', 'n', ' ', '1', ' ', 'd', 'a', 'y']), (['а', 'з', 'ы', 'р'], ['0', ' ', 's', 'e', 'c', 'o', 'n', 'd', ' ', 'a', 'g', 'o'])]

end Verif.Data
