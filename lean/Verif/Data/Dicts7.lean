import Verif.Model.Pattern
/-! GENERATED by tools/gen_dicts.py from /repo/internal/data; do not edit. -/
set_option autoImplicit false
set_option maxRecDepth 100000
namespace Verif.Data
open Verif.Model

/-- internal/data/saq.go: `saq_Locale`, dictionary. -/
def saqDict : LangData where
  name := ['s', 'a', 'q']
  translations := [(['l', 'a', 'p', 'a', ' ', 'l', 'e', ' ', 't', 'o', 'm', 'o', 'n', ' ', 'w', 'a', 'a', 'r', 'e'], [['d', 'e', 'c', 'e', 'm', 'b', 'e', 'r']]), (['l', 'a', 'p', 'a', ' ', 'l', 'e', ' ', 't', 'o', 'm', 'o', 'n', ' ', 'o', 'b', 'o'], [['n', 'o', 'v', 'e', 'm', 'b', 'e', 'r']]), (['m', 'd', 'e', 'r', 'o', 't', ' ', 'e', 'e', ' ', 'o', 'n', 'g', '\'', 'w', 'a', 'n'], [['t', 'u', 'e', 's', 'd', 'a', 'y']]), (['l', 'a', 'p', 'a', ' ', 'l', 'e', ' ', 'o', 'n', 'g', '\'', 'w', 'a', 'n'], [['a', 'p', 'r', 'i', 'l']]), (['m', 'd', 'e', 'r', 'o', 't', ' ', 'e', 'e', ' ', 'i', 'n', 'e', 't'], [['w', 'e', 'd', 'n', 'e', 's', 'd', 'a', 'y']]), (['m', 'd', 'e', 'r', 'o', 't', ' ', 'e', 'e', ' ', 'k', 'u', 'n', 'i'], [['m', 'o', 'n', 'd', 'a', 'y']]), (['m', 'd', 'e', 'r', 'o', 't', ' ', 'e', 'e', ' ', 's', 'a', 'p', 'a'], [['f', 'r', 'i', 'd', 'a', 'y']]), (['l', 'a', 'p', 'a', ' ', 'l', 'e', ' ', 'i', 's', 'i', 'e', 't'], [['a', 'u', 'g', 'u', 's', 't']]), (['l', 'a', 'p', 'a', ' ', 'l', 'e', ' ', 'o', 'k', 'u', 'n', 'i'], [['m', 'a', 'r', 'c', 'h']]), (['l', 'a', 'p', 'a', ' ', 'l', 'e', ' ', 't', 'o', 'm', 'o', 'n'], [['o', 'c', 't', 'o', 'b', 'e', 'r']]), (['l', 'a', 'p', 'a', ' ', 'l', 'e', ' ', 'w', 'a', 'a', 'r', 'e'], [['f', 'e', 'b', 'r', 'u', 'a', 'r', 'y']]), (['m', 'd', 'e', 'r', 'o', 't', ' ', 'e', 'e', ' ', 'a', 'r', 'e'], [['s', 'u', 'n', 'd', 'a', 'y']]), (['m', 'd', 'e', 'r', 'o', 't', ' ', 'e', 'e', ' ', 'i', 'l', 'e'], [['t', 'h', 'u', 'r', 's', 'd', 'a', 'y']]), (['m', 'd', 'e', 'r', 'o', 't', ' ', 'e', 'e', ' ', 'k', 'w', 'e'], [['s', 'a', 't', 'u', 'r', 'd', 'a', 'y']]), (['l', 'a', 'p', 'a', ' ', 'l', 'e', ' ', 'i', 'm', 'e', 't'], [['m', 'a', 'y']]), (['l', 'a', 'p', 'a', ' ', 'l', 'e', ' ', 's', 'a', 'a', 'l'], [['s', 'e', 'p', 't', 'e', 'm', 'b', 'e', 'r']]), (['l', 'a', 'p', 'a', ' ', 'l', 'e', ' ', 's', 'a', 'p', 'a'], [['j', 'u', 'l', 'y']]), (['l', 'a', 'p', 'a', ' ', 'l', 'e', ' ', 'i', 'l', 'e'], [['j', 'u', 'n', 'e']]), (['l', 'a', 'p', 'a', ' ', 'l', 'e', ' ', 'o', 'b', 'o'], [['j', 'a', 'n', 'u', 'a', 'r', 'y']]), (['s', 'a', 'i', 'p', 'a', ' ', 'n', 'a', 'p', 'o'], [['w', 'e', 'e', 'k']]), (['i', 's', 'e', 'k', 'o', 'n', 'd', 'i'], [['s', 'e', 'c', 'o', 'n', 'd']]), (['i', 'd', 'a', 'k', 'i', 'k', 'a'], [['m', 'i', 'n', 'u', 't', 'e']]), (['t', 'e', 's', 'i', 'r', 'a', 'n'], [['a', 'm']]), (['m', 'p', 'a', 'r', 'i'], [['d', 'a', 'y']]), (['t', 'e', 'i', 'p', 'a'], [['p', 'm']]), (['l', 'a', 'p', 'a'], [['m', 'o', 'n', 't', 'h']]), (['l', 'a', 'r', 'i'], [['y', 'e', 'a', 'r']]), (['s', 'a', 'a', 'i'], [['h', 'o', 'u', 'r']]), (['a', 'r', 'e'], [['s', 'u', 'n', 'd', 'a', 'y']]), (['g', 'm', 't'], [['g', 'm', 't']]), (['i', 'l', 'e'], [['j', 'u', 'n', 'e'], ['t', 'h', 'u', 'r', 's', 'd', 'a', 'y']]), (['i', 'm', 'e'], [['m', 'a', 'y']]), (['i', 'n', 'e'], [['w', 'e', 'd', 'n', 'e', 's', 'd', 'a', 'y']]), (['i', 's', 'i'], [['a', 'u', 'g', 'u', 's', 't']]), (['k', 'u', 'n'], [['m', 'o', 'n', 'd', 'a', 'y']]), (['k', 'w', 'e'], [['s', 'a', 't', 'u', 'r', 'd', 'a', 'y']]), (['o', 'b', 'o'], [['j', 'a', 'n', 'u', 'a', 'r', 'y']]), (['o', 'k', 'u'], [['m', 'a', 'r', 'c', 'h']]), (['o', 'n', 'g'], [['a', 'p', 'r', 'i', 'l'], ['t', 'u', 'e', 's', 'd', 'a', 'y']]), (['s', 'a', 'a'], [['s', 'e', 'p', 't', 'e', 'm', 'b', 'e', 'r']]), (['s', 'a', 'p'], [['j', 'u', 'l', 'y'], ['f', 'r', 'i', 'd', 'a', 'y']]), (['t', 'o', 'b'], [['n', 'o', 'v', 'e', 'm', 'b', 'e', 'r']]), (['t', 'o', 'm'], [['o', 'c', 't', 'o', 'b', 'e', 'r']]), (['t', 'o', 'w'], [['d', 'e', 'c', 'e', 'm', 'b', 'e', 'r']]), (['u', 't', 'c'], [['u', 't', 'c']]), (['w', 'a', 'a'], [['f', 'e', 'b', 'r', 'u', 'a', 'r', 'y']]), (['a', 'm'], [['a', 'm']]), (['p', 'm'], [['p', 'm']]), ([' '], [[' ']]), (['\''], [[]]), (['+'], [['+']]), ([','], [[]]), (['-'], [['-']]), (['.'], [['.']]), (['/'], [['/']]), ([':'], [[':']]), ([';'], [[]]), (['@'], [[]]), (['['], [[]]), ([']'], [[]]), (['z'], [['z']]), (['|'], [[]])]
  relativeType := [(['t', 'h', 'i', 's', ' ', 'm', 'i', 'n', 'u', 't', 'e'], ['0', ' ', 'm', 'i', 'n', 'u', 't', 'e', ' ', 'a', 'g', 'o']), (['l', 'a', 's', 't', ' ', 'm', 'o', 'n', 't', 'h'], ['1', ' ', 'm', 'o', 'n', 't', 'h', ' ', 'a', 'g', 'o']), (['n', 'e', 'x', 't', ' ', 'm', 'o', 'n', 't', 'h'], ['i', 'n', ' ', '1', ' ', 'm', 'o', 'n', 't', 'h']), (['t', 'h', 'i', 's', ' ', 'm', 'o', 'n', 't', 'h'], ['0', ' ', 'm', 'o', 'n', 't', 'h', ' ', 'a', 'g', 'o']), (['l', 'a', 's', 't', ' ', 'w', 'e', 'e', 'k'], ['1', ' ', 'w', 'e', 'e', 'k', ' ', 'a', 'g', 'o']), (['l', 'a', 's', 't', ' ', 'y', 'e', 'a', 'r'], ['1', ' ', 'y', 'e', 'a', 'r', ' ', 'a', 'g', 'o']), (['n', 'e', 'x', 't', ' ', 'w', 'e', 'e', 'k'], ['i', 'n', ' ', '1', ' ', 'w', 'e', 'e', 'k']), (['n', 'e', 'x', 't', ' ', 'y', 'e', 'a', 'r'], ['i', 'n', ' ', '1', ' ', 'y', 'e', 'a', 'r']), (['t', 'h', 'i', 's', ' ', 'h', 'o', 'u', 'r'], ['0', ' ', 'h', 'o', 'u', 'r', ' ', 'a', 'g', 'o']), (['t', 'h', 'i', 's', ' ', 'w', 'e', 'e', 'k'], ['0', ' ', 'w', 'e', 'e', 'k', ' ', 'a', 'g', 'o']), (['t', 'h', 'i', 's', ' ', 'y', 'e', 'a', 'r'], ['0', ' ', 'y', 'e', 'a', 'r', ' ', 'a', 'g', 'o']), (['t', 'a', 'i', 's', 'e', 'r', 'e'], ['i', 'n', ' ', '1', ' ', 'd', 'a', 'y']), (['n', 'g', '\'', 'o', 'l', 'e'], ['1', ' ', 'd', 'a', 'y', ' ', 'a', 'g', 'o']), (['d', 'u', 'o'], ['0', ' ', 'd', 'a', 'y', ' ', 'a', 'g', 'o']), (['n', 'o', 'w'], ['0', ' ', 's', 'e', 'c', 'o', 'n', 'd', ' ', 'a', 'g', 'o'])]

/-- internal/data/sbp.go: `sbp_Locale`, dictionary. -/
def sbpDict : LangData where
  name := ['s', 'b', 'p']
  translations := [(['m', 'u', 's', 'h', 'e', 'n', 'd', 'e', ' ', 'm', 'a', 'g', 'a', 'l', 'i'], [['m', 'a', 'y']]), (['m', 'u', 's', 'o', 'n', 'g', 'a', 'n', 'd', 'e', 'm', 'b', 'w', 'e'], [['n', 'o', 'v', 'e', 'm', 'b', 'e', 'r']]), (['m', 'u', 'p', 'a', 'l', 'a', 'n', 'g', 'u', 'l', 'w', 'a'], [['j', 'a', 'n', 'u', 'a', 'r', 'y']]), (['a', 'l', 'a', 'h', 'a', 'm', 'i', 's', 'i'], [['t', 'h', 'u', 'r', 's', 'd', 'a', 'y']]), (['l', 'w', 'a', 'm', 'i', 'l', 'a', 'w', 'u'], [['a', 'm']]), (['m', 'u', 's', 'h', 'i', 'p', 'e', 'p', 'o'], [['j', 'u', 'l', 'y']]), (['p', 'a', 's', 'h', 'a', 'm', 'i', 'h', 'e'], [['p', 'm']]), (['i', 's', 'e', 'k', 'u', 'n', 'd', 'e'], [['s', 'e', 'c', 'o', 'n', 'd']]), (['j', 'u', 'm', 'a', 'm', 'o', 's', 'i'], [['s', 'a', 't', 'u', 'r', 'd', 'a', 'y']]), (['j', 'u', 'm', 'a', 't', 'a', 'n', 'o'], [['w', 'e', 'd', 'n', 'e', 's', 'd', 'a', 'y']]), (['j', 'u', 'm', 'a', 't', 'a', 't', 'u'], [['m', 'o', 'n', 'd', 'a', 'y']]), (['m', 'u', 'n', 'y', 'e', 'n', 's', 'e'], [['s', 'e', 'p', 't', 'e', 'm', 'b', 'e', 'r']]), (['m', 'u', 'p', 'u', 'g', 'u', 't', 'o'], [['a', 'u', 'g', 'u', 's', 't']]), (['m', 'u', 's', 'h', 'e', 'n', 'd', 'e'], [['m', 'a', 'r', 'c', 'h']]), (['i', 'd', 'a', 'k', 'i', 'k', 'a'], [['m', 'i', 'n', 'u', 't', 'e']]), (['i', 'l', 'i', 'j', 'u', 'm', 'a'], [['w', 'e', 'e', 'k']]), (['i', 'l', 'i', 's', 'a', 'l', 'a'], [['h', 'o', 'u', 'r']]), (['j', 'u', 'm', 'a', 'n', 'n', 'e'], [['t', 'u', 'e', 's', 'd', 'a', 'y']]), (['m', 'u', 'h', 'a', 'a', 'n', 'o'], [['d', 'e', 'c', 'e', 'm', 'b', 'e', 'r']]), (['m', 'u', 'j', 'i', 'm', 'b', 'i'], [['j', 'u', 'n', 'e']]), (['m', 'u', 'l', 'u', 'n', 'g', 'u'], [['s', 'u', 'n', 'd', 'a', 'y']]), (['m', 'w', 'i', 't', 'o', 'p', 'e'], [['f', 'e', 'b', 'r', 'u', 'a', 'r', 'y']]), (['i', 'j', 'u', 'm', 'a', 'a'], [['f', 'r', 'i', 'd', 'a', 'y']]), (['l', 'u', 's', 'i', 'k', 'u'], [['d', 'a', 'y']]), (['m', 'w', 'a', 'k', 'h', 'a'], [['y', 'e', 'a', 'r']]), (['m', 'o', 'k', 'h', 'u'], [['o', 'c', 't', 'o', 'b', 'e', 'r']]), (['m', 'u', 'n', 'y', 'i'], [['a', 'p', 'r', 'i', 'l']]), (['m', 'w', 'e', 's', 'i'], [['m', 'o', 'n', 't', 'h']]), (['a', 'l', 'h'], [['t', 'h', 'u', 'r', 's', 'd', 'a', 'y']]), (['g', 'm', 't'], [['g', 'm', 't']]), (['i', 'j', 'u'], [['f', 'r', 'i', 'd', 'a', 'y']]), (['j', 'm', 'o'], [['s', 'a', 't', 'u', 'r', 'd', 'a', 'y']]), (['j', 'n', 'n'], [['t', 'u', 'e', 's', 'd', 'a', 'y']]), (['j', 't', 'n'], [['w', 'e', 'd', 'n', 'e', 's', 'd', 'a', 'y']]), (['j', 't', 't'], [['m', 'o', 'n', 'd', 'a', 'y']]), (['m', 'a', 'g'], [['m', 'a', 'y']]), (['m', 'o', 'k'], [['o', 'c', 't', 'o', 'b', 'e', 'r']]), (['m', 'p', 'g'], [['a', 'u', 'g', 'u', 's', 't']]), (['m', 's', 'h'], [['m', 'a', 'r', 'c', 'h']]), (['m', 's', 'p'], [['j', 'u', 'l', 'y']]), (['m', 'u', 'h'], [['d', 'e', 'c', 'e', 'm', 'b', 'e', 'r']]), (['m', 'u', 'j'], [['j', 'u', 'n', 'e']]), (['m', 'u', 'l'], [['s', 'u', 'n', 'd', 'a', 'y']]), (['m', 'u', 'n'], [['a', 'p', 'r', 'i', 'l']]), (['m', 'u', 'p'], [['j', 'a', 'n', 'u', 'a', 'r', 'y']]), (['m', 'u', 's'], [['n', 'o', 'v', 'e', 'm', 'b', 'e', 'r']]), (['m', 'w', 'i'], [['f', 'e', 'b', 'r', 'u', 'a', 'r', 'y']]), (['m', 'y', 'e'], [['s', 'e', 'p', 't', 'e', 'm', 'b', 'e', 'r']]), (['u', 't', 'c'], [['u', 't', 'c']]), (['a', 'm'], [['a', 'm']]), (['p', 'm'], [['p', 'm']]), ([' '], [[' ']]), (['\''], [[]]), (['+'], [['+']]), ([','], [[]]), (['-'], [['-']]), (['.'], [['.']]), (['/'], [['/']]), ([':'], [[':']]), ([';'], [[]]), (['@'], [[]]), (['['], [[]]), ([']'], [[]]), (['z'], [['z']]), (['|'], [[]])]
  relativeType := [(['t', 'h', 'i', 's', ' ', 'm', 'i', 'n', 'u', 't', 'e'], ['0', ' ', 'm', 'i', 'n', 'u', 't', 'e', ' ', 'a', 'g', 'o']), (['l', 'a', 's', 't', ' ', 'm', 'o', 'n', 't', 'h'], ['1', ' ', 'm', 'o', 'n', 't', 'h', ' ', 'a', 'g', 'o']), (['n', 'e', 'x', 't', ' ', 'm', 'o', 'n', 't', 'h'], ['i', 'n', ' ', '1', ' ', 'm', 'o', 'n', 't', 'h']), (['t', 'h', 'i', 's', ' ', 'm', 'o', 'n', 't', 'h'], ['0', ' ', 'm', 'o', 'n', 't', 'h', ' ', 'a', 'g', 'o']), (['i', 'n', 'e', 'n', 'g', '\'', 'u', 'n', 'i'], ['0', ' ', 'd', 'a', 'y', ' ', 'a', 'g', 'o']), (['l', 'a', 's', 't', ' ', 'w', 'e', 'e', 'k'], ['1', ' ', 'w', 'e', 'e', 'k', ' ', 'a', 'g', 'o']), (['l', 'a', 's', 't', ' ', 'y', 'e', 'a', 'r'], ['1', ' ', 'y', 'e', 'a', 'r', ' ', 'a', 'g', 'o']), (['n', 'e', 'x', 't', ' ', 'w', 'e', 'e', 'k'], ['i', 'n', ' ', '1', ' ', 'w', 'e', 'e', 'k']), (['n', 'e', 'x', 't', ' ', 'y', 'e', 'a', 'r'], ['i', 'n', ' ', '1', ' ', 'y', 'e', 'a', 'r']), (['p', 'a', 'm', 'u', 'l', 'a', 'a', 'w', 'u'], ['i', 'n', ' ', '1', ' ', 'd', 'a', 'y']), (['t', 'h', 'i', 's', ' ', 'h', 'o', 'u', 'r'], ['0', ' ', 'h', 'o', 'u', 'r', ' ', 'a', 'g', 'o']), (['t', 'h', 'i', 's', ' ', 'w', 'e', 'e', 'k'], ['0', ' ', 'w', 'e', 'e', 'k', ' ', 'a', 'g', 'o']), (['t', 'h', 'i', 's', ' ', 'y', 'e', 'a', 'r'], ['0', ' ', 'y', 'e', 'a', 'r', ' ', 'a', 'g', 'o']), (['i', 'm', 'e', 'h', 'e'], ['1', ' ', 'd', 'a', 'y', ' ', 'a', 'g', 'o']), (['n', 'o', 'w'], ['0', ' ', 's', 'e', 'c', 'o', 'n', 'd', ' ', 'a', 'g', 'o'])]

/-- internal/data/se.go: `se_Locale`, dictionary. -/
def seDict : LangData where
  name := ['s', 'e']
  translations := [(['e', 'a', 'h', 'k', 'e', 't', 'b', 'e', 'a', 'i', 'v', 'e', 't'], [['p', 'm']]), (['o', 'đ', 'đ', 'a', 'j', 'a', 'g', 'e', 'm', 'a', 'n', 'n', 'u'], [['j', 'a', 'n', 'u', 'a', 'r', 'y']]), (['e', 'a', 'h', 'k', 'e', 't', 'b', 'e', 'a', 'i', 'v', 'i'], [['p', 'm']]), (['g', 'o', 'l', 'g', 'g', 'o', 't', 'm', 'a', 'n', 'n', 'u'], [['o', 'c', 't', 'o', 'b', 'e', 'r']]), (['s', 'u', 'o', 'i', 'd', 'n', 'e', 'm', 'a', 'n', 'n', 'u'], [['j', 'u', 'l', 'y']]), (['g', 'a', 's', 'k', 'a', 'v', 'a', 'h', 'k', 'k', 'u'], [['w', 'e', 'd', 'n', 'e', 's', 'd', 'a', 'y']]), (['g', 'e', 'a', 's', 's', 'e', 'm', 'a', 'n', 'n', 'u'], [['j', 'u', 'n', 'e']]), (['g', 'u', 'o', 'v', 'v', 'a', 'm', 'a', 'n', 'n', 'u'], [['f', 'e', 'b', 'r', 'u', 'a', 'r', 'y']]), (['i', 'đ', 'i', 't', 'b', 'e', 'a', 'i', 'v', 'e', 't'], [['a', 'm']]), (['j', 'u', 'o', 'v', 'l', 'a', 'm', 'a', 'n', 'n', 'u'], [['d', 'e', 'c', 'e', 'm', 'b', 'e', 'r']]), (['m', 'i', 'e', 's', 's', 'e', 'm', 'a', 'n', 'n', 'u'], [['m', 'a', 'y']]), (['n', 'j', 'u', 'k', 'c', 'a', 'm', 'a', 'n', 'n', 'u'], [['m', 'a', 'r', 'c', 'h']]), (['s', 'k', 'a', 'b', 'm', 'a', 'm', 'a', 'n', 'n', 'u'], [['n', 'o', 'v', 'e', 'm', 'b', 'e', 'r']]), (['s', 'o', 't', 'n', 'a', 'b', 'e', 'a', 'i', 'v', 'i'], [['s', 'u', 'n', 'd', 'a', 'y']]), (['b', 'o', 'r', 'g', 'e', 'm', 'a', 'n', 'n', 'u'], [['a', 'u', 'g', 'u', 's', 't']]), (['c', 'a', 'k', 'c', 'a', 'm', 'a', 'n', 'n', 'u'], [['s', 'e', 'p', 't', 'e', 'm', 'b', 'e', 'r']]), (['c', 'u', 'o', 'ŋ', 'o', 'm', 'a', 'n', 'n', 'u'], [['a', 'p', 'r', 'i', 'l']]), (['i', 'đ', 'i', 't', 'b', 'e', 'a', 'i', 'v', 'i'], [['a', 'm']]), (['m', 'a', 'ŋ', 'ŋ', 'e', 'b', 'a', 'r', 'g', 'a'], [['t', 'u', 'e', 's', 'd', 'a', 'y']]), (['b', 'e', 'a', 'r', 'j', 'a', 'd', 'a', 't'], [['f', 'r', 'i', 'd', 'a', 'y']]), (['d', 'u', 'o', 'r', 'a', 's', 'd', 'a', 't'], [['t', 'h', 'u', 'r', 's', 'd', 'a', 'y']]), (['l', 'a', 'v', 'v', 'a', 'r', 'd', 'a', 't'], [['s', 'a', 't', 'u', 'r', 'd', 'a', 'y']]), (['v', 'u', 'o', 's', 's', 'a', 'r', 'g', 'a'], [['m', 'o', 'n', 'd', 'a', 'y']]), (['m', 'i', 'n', 'u', 'h', 't', 't', 'a'], [['m', 'i', 'n', 'u', 't', 'e']]), (['s', 'e', 'k', 'u', 'n', 'd', 'a'], [['s', 'e', 'c', 'o', 'n', 'd']]), (['b', 'e', 'a', 'i', 'v', 'i'], [['d', 'a', 'y']]), (['d', 'i', 'i', 'b', 'm', 'u'], [['h', 'o', 'u', 'r']]), (['v', 'a', 'h', 'k', 'k', 'u'], [['w', 'e', 'e', 'k']]), (['j', 'a', 'h', 'k', 'i'], [['y', 'e', 'a', 'r']]), (['m', 'a', 'n', 'n', 'u'], [['m', 'o', 'n', 't', 'h']]), (['b', 'e', 'a', 'r'], [['f', 'r', 'i', 'd', 'a', 'y']]), (['b', 'o', 'r', 'g'], [['a', 'u', 'g', 'u', 's', 't']]), (['c', 'a', 'k', 'c'], [['s', 'e', 'p', 't', 'e', 'm', 'b', 'e', 'r']]), (['d', 'u', 'o', 'r'], [['t', 'h', 'u', 'r', 's', 'd', 'a', 'y']]), (['g', 'a', 's', 'k'], [['w', 'e', 'd', 'n', 'e', 's', 'd', 'a', 'y']]), (['g', 'e', 'a', 's'], [['j', 'u', 'n', 'e']]), (['g', 'o', 'l', 'g'], [['o', 'c', 't', 'o', 'b', 'e', 'r']]), (['g', 'u', 'o', 'v'], [['f', 'e', 'b', 'r', 'u', 'a', 'r', 'y']]), (['j', 'u', 'o', 'v'], [['d', 'e', 'c', 'e', 'm', 'b', 'e', 'r']]), (['m', 'i', 'e', 's'], [['m', 'a', 'y']]), (['n', 'j', 'u', 'k'], [['m', 'a', 'r', 'c', 'h']]), (['o', 'đ', 'đ', 'j'], [['j', 'a', 'n', 'u', 'a', 'r', 'y']]), (['s', 'k', 'a', 'b'], [['n', 'o', 'v', 'e', 'm', 'b', 'e', 'r']]), (['s', 'o', 't', 'n'], [['s', 'u', 'n', 'd', 'a', 'y']]), (['s', 'u', 'o', 'i'], [['j', 'u', 'l', 'y']]), (['v', 'u', 'o', 's'], [['m', 'o', 'n', 'd', 'a', 'y']]), (['c', 'u', 'o'], [['a', 'p', 'r', 'i', 'l']]), (['g', 'm', 't'], [['g', 'm', 't']]), (['l', 'a', 'v'], [['s', 'a', 't', 'u', 'r', 'd', 'a', 'y']]), (['m', 'a', 'ŋ'], [['t', 'u', 'e', 's', 'd', 'a', 'y']]), (['u', 't', 'c'], [['u', 't', 'c']]), (['a', 'm'], [['a', 'm']]), (['e', 'b'], [['p', 'm']]), (['i', 'b'], [['a', 'm']]), (['p', 'm'], [['p', 'm']]), ([' '], [[' ']]), (['\''], [[]]), (['+'], [['+']]), ([','], [[]]), (['-'], [['-']]), (['.'], [['.']]), (['/'], [['/']]), ([':'], [[':']]), ([';'], [[]]), (['@'], [[]]), (['['], [[]]), ([']'], [[]]), (['z'], [['z']]), (['|'], [[]])]
  relativeType := [(['t', 'h', 'i', 's', ' ', 'm', 'i', 'n', 'u', 't', 'e'], ['0', ' ', 'm', 'i', 'n', 'u', 't', 'e', ' ', 'a', 'g', 'o']), (['l', 'a', 's', 't', ' ', 'm', 'o', 'n', 't', 'h'], ['1', ' ', 'm', 'o', 'n', 't', 'h', ' ', 'a', 'g', 'o']), (['n', 'e', 'x', 't', ' ', 'm', 'o', 'n', 't', 'h'], ['i', 'n', ' ', '1', ' ', 'm', 'o', 'n', 't', 'h']), (['t', 'h', 'i', 's', ' ', 'm', 'o', 'n', 't', 'h'], ['0', ' ', 'm', 'o', 'n', 't', 'h', ' ', 'a', 'g', 'o']), (['l', 'a', 's', 't', ' ', 'w', 'e', 'e', 'k'], ['1', ' ', 'w', 'e', 'e', 'k', ' ', 'a', 'g', 'o']), (['l', 'a', 's', 't', ' ', 'y', 'e', 'a', 'r'], ['1', ' ', 'y', 'e', 'a', 'r', ' ', 'a', 'g', 'o']), (['n', 'e', 'x', 't', ' ', 'w', 'e', 'e', 'k'], ['i', 'n', ' ', '1', ' ', 'w', 'e', 'e', 'k']), (['n', 'e', 'x', 't', ' ', 'y', 'e', 'a', 'r'], ['i', 'n', ' ', '1', ' ', 'y', 'e', 'a', 'r']), (['t', 'h', 'i', 's', ' ', 'h', 'o', 'u', 'r'], ['0', ' ', 'h', 'o', 'u', 'r', ' ', 'a', 'g', 'o']), (['t', 'h', 'i', 's', ' ', 'w', 'e', 'e', 'k'], ['0', ' ', 'w', 'e', 'e', 'k', ' ', 'a', 'g', 'o']), (['t', 'h', 'i', 's', ' ', 'y', 'e', 'a', 'r'], ['0', ' ', 'y', 'e', 'a', 'r', ' ', 'a', 'g', 'o']), (['i', 'h', 't', 't', 'i', 'n'], ['i', 'n', ' ', '1', ' ', 'd', 'a', 'y']), (['i', 'k', 't', 'e'], ['1', ' ', 'd', 'a', 'y', ' ', 'a', 'g', 'o']), (['o', 'd', 'n', 'e'], ['0', ' ', 'd', 'a', 'y', ' ', 'a', 'g', 'o']), (['n', 'o', 'w'], ['0', ' ', 's', 'e', 'c', 'o', 'n', 'd', ' ', 'a', 'g', 'o'])]

/-- internal/data/se.go: `se_FI_Locale`, dictionary. -/
def se_FIDict : LangData where
  name := ['s', 'e', '-', 'F', 'I']
  translations := [(['m', 'a', 'ŋ', 'ŋ', 'e', 'b', 'a', 'r', 'g', 'g', 'a'], [['t', 'u', 'e', 's', 'd', 'a', 'y']]), (['b', 'e', 'a', 'r', 'j', 'a', 'd', 'a', 'g', 'a'], [['f', 'r', 'i', 'd', 'a', 'y']]), (['d', 'u', 'o', 'r', 'a', 's', 't', 'a', 'g', 'a'], [['t', 'h', 'u', 'r', 's', 'd', 'a', 'y']]), (['g', 'a', 's', 'k', 'a', 'v', 'a', 'h', 'k', 'u'], [['w', 'e', 'd', 'n', 'e', 's', 'd', 'a', 'y']]), (['l', 'a', 'v', 'v', 'a', 'r', 'd', 'a', 'g', 'a'], [['s', 'a', 't', 'u', 'r', 'd', 'a', 'y']]), (['v', 'u', 'o', 's', 's', 'a', 'r', 'g', 'g', 'a'], [['m', 'o', 'n', 'd', 'a', 'y']]), (['j'], [['y', 'e', 'a', 'r']])]
  relativeType := [(['b', 'o', 'a', 'h', 't', 't', 'e', ' ', 'j', 'a', 'g', 'i'], ['i', 'n', ' ', '1', ' ', 'y', 'e', 'a', 'r']), (['m', 'a', 'n', 'n', 'a', 'n', ' ', 'j', 'a', 'g', 'i'], ['1', ' ', 'y', 'e', 'a', 'r', ' ', 'a', 'g', 'o']), (['d', 'a', 'n', ' ', 'j', 'a', 'g', 'i'], ['0', ' ', 'y', 'e', 'a', 'r', ' ', 'a', 'g', 'o'])]

/-- internal/data/se.go: `se_SE_Locale`, dictionary. -/
def se_SEDict : LangData where
  name := ['s', 'e', '-', 'S', 'E']

/-- internal/data/seh.go: `seh_Locale`, dictionary. -/
def sehDict : LangData where
  name := ['s', 'e', 'h']
  translations := [(['c', 'h', 'i', 's', 'h', 'a', 'n', 'u'], [['f', 'r', 'i', 'd', 'a', 'y']]), (['d', 'e', 'c', 'e', 'm', 'b', 'r', 'o'], [['d', 'e', 'c', 'e', 'm', 'b', 'e', 'r']]), (['f', 'e', 'v', 'r', 'e', 'i', 'r', 'o'], [['f', 'e', 'b', 'r', 'u', 'a', 'r', 'y']]), (['n', 'o', 'v', 'e', 'm', 'b', 'r', 'o'], [['n', 'o', 'v', 'e', 'm', 'b', 'e', 'r']]), (['s', 'e', 't', 'e', 'm', 'b', 'r', 'o'], [['s', 'e', 'p', 't', 'e', 'm', 'b', 'e', 'r']]), (['a', 'u', 'g', 'u', 's', 't', 'o'], [['a', 'u', 'g', 'u', 's', 't']]), (['c', 'h', 'i', 'p', 'i', 'r', 'i'], [['t', 'u', 'e', 's', 'd', 'a', 'y']]), (['c', 'h', 'i', 'p', 'o', 's', 'i'], [['m', 'o', 'n', 'd', 'a', 'y']]), (['c', 'h', 'i', 't', 'a', 't', 'u'], [['w', 'e', 'd', 'n', 'e', 's', 'd', 'a', 'y']]), (['d', 'i', 'm', 'i', 'n', 'g', 'u'], [['s', 'u', 'n', 'd', 'a', 'y']]), (['j', 'a', 'n', 'e', 'i', 'r', 'o'], [['j', 'a', 'n', 'u', 'a', 'r', 'y']]), (['s', 'e', 'g', 'u', 'n', 'd', 'o'], [['s', 'e', 'c', 'o', 'n', 'd']]), (['c', 'h', 'i', 'n', 'a', 'i'], [['t', 'h', 'u', 'r', 's', 'd', 'a', 'y']]), (['m', 'i', 'n', 'u', 't', 'o'], [['m', 'i', 'n', 'u', 't', 'e']]), (['n', 't', 's', 'i', 'k', 'u'], [['d', 'a', 'y']]), (['o', 't', 'u', 'b', 'r', 'o'], [['o', 'c', 't', 'o', 'b', 'e', 'r']]), (['s', 'a', 'b', 'u', 'd', 'u'], [['s', 'a', 't', 'u', 'r', 'd', 'a', 'y']]), (['a', 'b', 'r', 'i', 'l'], [['a', 'p', 'r', 'i', 'l']]), (['c', 'h', 'a', 'k', 'a'], [['y', 'e', 'a', 'r']]), (['j', 'u', 'l', 'h', 'o'], [['j', 'u', 'l', 'y']]), (['j', 'u', 'n', 'h', 'o'], [['j', 'u', 'n', 'e']]), (['m', 'a', 'r', 'c', 'o'], [['m', 'a', 'r', 'c', 'h']]), (['m', 'w', 'e', 'z', 'i'], [['m', 'o', 'n', 't', 'h']]), (['h', 'o', 'r', 'a'], [['h', 'o', 'u', 'r']]), (['m', 'a', 'i', 'o'], [['m', 'a', 'y']]), (['w', 'e', 'e', 'k'], [['w', 'e', 'e', 'k']]), (['a', 'b', 'r'], [['a', 'p', 'r', 'i', 'l']]), (['a', 'u', 'g'], [['a', 'u', 'g', 'u', 's', 't']]), (['d', 'e', 'c'], [['d', 'e', 'c', 'e', 'm', 'b', 'e', 'r']]), (['d', 'i', 'm'], [['s', 'u', 'n', 'd', 'a', 'y']]), (['f', 'e', 'v'], [['f', 'e', 'b', 'r', 'u', 'a', 'r', 'y']]), (['g', 'm', 't'], [['g', 'm', 't']]), (['j', 'a', 'n'], [['j', 'a', 'n', 'u', 'a', 'r', 'y']]), (['j', 'u', 'l'], [['j', 'u', 'l', 'y']]), (['j', 'u', 'n'], [['j', 'u', 'n', 'e']]), (['m', 'a', 'i'], [['m', 'a', 'y']]), (['m', 'a', 'r'], [['m', 'a', 'r', 'c', 'h']]), (['n', 'a', 'i'], [['t', 'h', 'u', 'r', 's', 'd', 'a', 'y']]), (['n', 'o', 'v'], [['n', 'o', 'v', 'e', 'm', 'b', 'e', 'r']]), (['o', 't', 'u'], [['o', 'c', 't', 'o', 'b', 'e', 'r']]), (['p', 'i', 'r'], [['t', 'u', 'e', 's', 'd', 'a', 'y']]), (['p', 'o', 's'], [['m', 'o', 'n', 'd', 'a', 'y']]), (['s', 'a', 'b'], [['s', 'a', 't', 'u', 'r', 'd', 'a', 'y']]), (['s', 'e', 't'], [['s', 'e', 'p', 't', 'e', 'm', 'b', 'e', 'r']]), (['s', 'h', 'a'], [['f', 'r', 'i', 'd', 'a', 'y']]), (['t', 'a', 't'], [['w', 'e', 'd', 'n', 'e', 's', 'd', 'a', 'y']]), (['u', 't', 'c'], [['u', 't', 'c']]), (['a', 'm'], [['a', 'm']]), (['p', 'm'], [['p', 'm']]), ([' '], [[' ']]), (['\''], [[]]), (['+'], [['+']]), ([','], [[]]), (['-'], [['-']]), (['.'], [['.']]), (['/'], [['/']]), ([':'], [[':']]), ([';'], [[]]), (['@'], [[]]), (['['], [[]]), ([']'], [[]]), (['z'], [['z']]), (['|'], [[]])]
  relativeType := [(['t', 'h', 'i', 's', ' ', 'm', 'i', 'n', 'u', 't', 'e'], ['0', ' ', 'm', 'i', 'n', 'u', 't', 'e', ' ', 'a', 'g', 'o']), (['l', 'a', 's', 't', ' ', 'm', 'o', 'n', 't', 'h'], ['1', ' ', 'm', 'o', 'n', 't', 'h', ' ', 'a', 'g', 'o']), (['n', 'e', 'x', 't', ' ', 'm', 'o', 'n', 't', 'h'], ['i', 'n', ' ', '1', ' ', 'm', 'o', 'n', 't', 'h']), (['t', 'h', 'i', 's', ' ', 'm', 'o', 'n', 't', 'h'], ['0', ' ', 'm', 'o', 'n', 't', 'h', ' ', 'a', 'g', 'o']), (['l', 'a', 's', 't', ' ', 'w', 'e', 'e', 'k'], ['1', ' ', 'w', 'e', 'e', 'k', ' ', 'a', 'g', 'o']), (['l', 'a', 's', 't', ' ', 'y', 'e', 'a', 'r'], ['1', ' ', 'y', 'e', 'a', 'r', ' ', 'a', 'g', 'o']), (['n', 'e', 'x', 't', ' ', 'w', 'e', 'e', 'k'], ['i', 'n', ' ', '1', ' ', 'w', 'e', 'e', 'k']), (['n', 'e', 'x', 't', ' ', 'y', 'e', 'a', 'r'], ['i', 'n', ' ', '1', ' ', 'y', 'e', 'a', 'r']), (['t', 'h', 'i', 's', ' ', 'h', 'o', 'u', 'r'], ['0', ' ', 'h', 'o', 'u', 'r', ' ', 'a', 'g', 'o']), (['t', 'h', 'i', 's', ' ', 'w', 'e', 'e', 'k'], ['0', ' ', 'w', 'e', 'e', 'k', ' ', 'a', 'g', 'o']), (['t', 'h', 'i', 's', ' ', 'y', 'e', 'a', 'r'], ['0', ' ', 'y', 'e', 'a', 'r', ' ', 'a', 'g', 'o']), (['m', 'a', 'n', 'g', 'u', 'a', 'n', 'a'], ['i', 'n', ' ', '1', ' ', 'd', 'a', 'y']), (['l', 'e', 'r', 'o'], ['0', ' ', 'd', 'a', 'y', ' ', 'a', 'g', 'o']), (['z', 'u', 'r', 'o'], ['1', ' ', 'd', 'a', 'y', ' ', 'a', 'g', 'o']), (['n', 'o', 'w'], ['0', ' ', 's', 'e', 'c', 'o', 'n', 'd', ' ', 'a', 'g', 'o'])]

/-- internal/data/ses.go: `ses_Locale`, dictionary. -/
def sesDict : LangData where
  name := ['s', 'e', 's']
  translations := [(['a', 'l', 'h', 'a', 'm', 'i', 'i', 's', 'a'], [['t', 'h', 'u', 'r', 's', 'd', 'a', 'y']]), (['d', 'e', 'e', 's', 'a', 'n', 'b', 'u', 'r'], [['d', 'e', 'c', 'e', 'm', 'b', 'e', 'r']]), (['f', 'e', 'e', 'w', 'i', 'r', 'i', 'y', 'e'], [['f', 'e', 'b', 'r', 'u', 'a', 'r', 'y']]), (['n', 'o', 'o', 'w', 'a', 'n', 'b', 'u', 'r'], [['n', 'o', 'v', 'e', 'm', 'b', 'e', 'r']]), (['s', 'e', 'k', 't', 'a', 'n', 'b', 'u', 'r'], [['s', 'e', 'p', 't', 'e', 'm', 'b', 'e', 'r']]), (['a', 't', 'a', 'l', 'a', 'a', 't', 'a'], [['t', 'u', 'e', 's', 'd', 'a', 'y']]), (['o', 'k', 't', 'o', 'o', 'b', 'u', 'r'], [['o', 'c', 't', 'o', 'b', 'e', 'r']]), (['z', 'a', 'n', 'w', 'i', 'y', 'e'], [['j', 'a', 'n', 'u', 'a', 'r', 'y']]), (['a', 'd', 'd', 'u', 'h', 'a'], [['a', 'm']]), (['a', 'l', 'a', 'r', 'b', 'a'], [['w', 'e', 'd', 'n', 'e', 's', 'd', 'a', 'y']]), (['a', 'l', 'h', 'a', 'd', 'i'], [['s', 'u', 'n', 'd', 'a', 'y']]), (['a', 'l', 'u', 'u', 'l', 'a'], [['p', 'm']]), (['a', 'l', 'z', 'u', 'm', 'a'], [['f', 'r', 'i', 'd', 'a', 'y']]), (['a', 's', 'i', 'b', 't', 'i'], [['s', 'a', 't', 'u', 'r', 'd', 'a', 'y']]), (['a', 't', 'i', 'n', 'n', 'i'], [['m', 'o', 'n', 'd', 'a', 'y']]), (['a', 'w', 'i', 'r', 'i', 'l'], [['a', 'p', 'r', 'i', 'l']]), (['m', 'i', 'n', 'i', 't', 'i'], [['m', 'i', 'n', 'u', 't', 'e']]), (['g', 'u', 'u', 'r', 'u'], [['h', 'o', 'u', 'r']]), (['h', 'a', 'n', 'd', 'u'], [['m', 'o', 'n', 't', 'h']]), (['j', 'i', 'i', 'r', 'i'], [['y', 'e', 'a', 'r']]), (['m', 'a', 'r', 's', 'i'], [['m', 'a', 'r', 'c', 'h']]), (['z', 'a', 'a', 'r', 'i'], [['d', 'a', 'y']]), (['z', 'u', 'w', 'e', 'ŋ'], [['j', 'u', 'n', 'e']]), (['z', 'u', 'y', 'y', 'e'], [['j', 'u', 'l', 'y']]), (['h', 'e', 'b', 'u'], [['w', 'e', 'e', 'k']]), (['m', 'i', 't', 'i'], [['s', 'e', 'c', 'o', 'n', 'd']]), (['a', 'l', 'a'], [['w', 'e', 'd', 'n', 'e', 's', 'd', 'a', 'y']]), (['a', 'l', 'h'], [['s', 'u', 'n', 'd', 'a', 'y']]), (['a', 'l', 'm'], [['t', 'h', 'u', 'r', 's', 'd', 'a', 'y']]), (['a', 'l', 'z'], [['f', 'r', 'i', 'd', 'a', 'y']]), (['a', 's', 'i'], [['s', 'a', 't', 'u', 'r', 'd', 'a', 'y']]), (['a', 't', 'a'], [['t', 'u', 'e', 's', 'd', 'a', 'y']]), (['a', 't', 'i'], [['m', 'o', 'n', 'd', 'a', 'y']]), (['a', 'w', 'i'], [['a', 'p', 'r', 'i', 'l']]), (['d', 'e', 'e'], [['d', 'e', 'c', 'e', 'm', 'b', 'e', 'r']]), (['f', 'e', 'e'], [['f', 'e', 'b', 'r', 'u', 'a', 'r', 'y']]), (['g', 'm', 't'], [['g', 'm', 't']]), (['m', 'a', 'r'], [['m', 'a', 'r', 'c', 'h']]), (['n', 'o', 'o'], [['n', 'o', 'v', 'e', 'm', 'b', 'e', 'r']]), (['o', 'k', 't'], [['o', 'c', 't', 'o', 'b', 'e', 'r']]), (['s', 'e', 'k'], [['s', 'e', 'p', 't', 'e', 'm', 'b', 'e', 'r']]), (['u', 't', 'c'], [['u', 't', 'c']]), (['z', 'a', 'n'], [['j', 'a', 'n', 'u', 'a', 'r', 'y']]), (['z', 'u', 'w'], [['j', 'u', 'n', 'e']]), (['z', 'u', 'y'], [['j', 'u', 'l', 'y']]), (['a', 'm'], [['a', 'm']]), (['m', 'e'], [['m', 'a', 'y']]), (['p', 'm'], [['p', 'm']]), (['u', 't'], [['a', 'u', 'g', 'u', 's', 't']]), ([' '], [[' ']]), (['\''], [[]]), (['+'], [['+']]), ([','], [[]]), (['-'], [['-']]), (['.'], [['.']]), (['/'], [['/']]), ([':'], [[':']]), ([';'], [[]]), (['@'], [[]]), (['['], [[]]), ([']'], [[]]), (['z'], [['z']]), (['|'], [[]])]
  relativeType := [(['t', 'h', 'i', 's', ' ', 'm', 'i', 'n', 'u', 't', 'e'], ['0', ' ', 'm', 'i', 'n', 'u', 't', 'e', ' ', 'a', 'g', 'o']), (['l', 'a', 's', 't', ' ', 'm', 'o', 'n', 't', 'h'], ['1', ' ', 'm', 'o', 'n', 't', 'h', ' ', 'a', 'g', 'o']), (['n', 'e', 'x', 't', ' ', 'm', 'o', 'n', 't', 'h'], ['i', 'n', ' ', '1', ' ', 'm', 'o', 'n', 't', 'h']), (['t', 'h', 'i', 's', ' ', 'm', 'o', 'n', 't', 'h'], ['0', ' ', 'm', 'o', 'n', 't', 'h', ' ', 'a', 'g', 'o']), (['l', 'a', 's', 't', ' ', 'w', 'e', 'e', 'k'], ['1', ' ', 'w', 'e', 'e', 'k', ' ', 'a', 'g', 'o']), (['l', 'a', 's', 't', ' ', 'y', 'e', 'a', 'r'], ['1', ' ', 'y', 'e', 'a', 'r', ' ', 'a', 'g', 'o']), (['n', 'e', 'x', 't', ' ', 'w', 'e', 'e', 'k'], ['i', 'n', ' ', '1', ' ', 'w', 'e', 'e', 'k']), (['n', 'e', 'x', 't', ' ', 'y', 'e', 'a', 'r'], ['i', 'n', ' ', '1', ' ', 'y', 'e', 'a', 'r']), (['t', 'h', 'i', 's', ' ', 'h', 'o', 'u', 'r'], ['0', ' ', 'h', 'o', 'u', 'r', ' ', 'a', 'g', 'o']), (['t', 'h', 'i', 's', ' ', 'w', 'e', 'e', 'k'], ['0', ' ', 'w', 'e', 'e', 'k', ' ', 'a', 'g', 'o']), (['t', 'h', 'i', 's', ' ', 'y', 'e', 'a', 'r'], ['0', ' ', 'y', 'e', 'a', 'r', ' ', 'a', 'g', 'o']), (['s', 'u', 'b', 'a'], ['i', 'n', ' ', '1', ' ', 'd', 'a', 'y']), (['h', 'o', 'o'], ['0', ' ', 'd', 'a', 'y', ' ', 'a', 'g', 'o']), (['n', 'o', 'w'], ['0', ' ', 's', 'e', 'c', 'o', 'n', 'd', ' ', 'a', 'g', 'o']), (['b', 'i'], ['1', ' ', 'd', 'a', 'y', ' ', 'a', 'g', 'o'])]

/-- internal/data/sg.go: `sg_Locale`, dictionary. -/
def sgDict : LangData where
  name := ['s', 'g']
  translations := [(['n', 'd', 'u', 'r', 'u', ' ', 'n', 'g', 'b', 'o', 'n', 'g', 'a'], [['m', 'i', 'n', 'u', 't', 'e']]), (['n', 'z', 'i', 'n', 'a', ' ', 'n', 'g', 'b', 'o', 'n', 'g', 'a'], [['s', 'e', 'c', 'o', 'n', 'd']]), (['b', 'i', 'k', 'u', 'a', '-', 'u', 's', 'i', 'o'], [['w', 'e', 'd', 'n', 'e', 's', 'd', 'a', 'y']]), (['b', 'i', 'k', 'u', 'a', '-', 'o', 'k', 'o'], [['s', 'u', 'n', 'd', 'a', 'y']]), (['b', 'i', 'k', 'u', 'a', '-', 'o', 'k', 'u'], [['t', 'h', 'u', 'r', 's', 'd', 'a', 'y']]), (['b', 'i', 'k', 'u', 'a', '-', 'p', 't', 'a'], [['t', 'u', 'e', 's', 'd', 'a', 'y']]), (['b', 'i', 'k', 'u', 'a', '-', 'u', 's', 'e'], [['m', 'o', 'n', 'd', 'a', 'y']]), (['f', 'u', 'l', 'u', 'n', 'd', 'i', 'g', 'i'], [['f', 'e', 'b', 'r', 'u', 'a', 'r', 'y']]), (['n', 'a', 'b', 'a', 'n', 'd', 'u', 'r', 'u'], [['n', 'o', 'v', 'e', 'm', 'b', 'e', 'r']]), (['n', 'g', 'b', 'e', 'r', 'e', 'r', 'e'], [['o', 'c', 't', 'o', 'b', 'e', 'r']]), (['k', 'a', 'k', 'a', 'u', 'k', 'a'], [['d', 'e', 'c', 'e', 'm', 'b', 'e', 'r']]), (['l', 'a', 'y', 'e', 'n', 'g', 'a'], [['s', 'a', 't', 'u', 'r', 'd', 'a', 'y']]), (['n', 'g', 'b', 'o', 'n', 'g', 'a'], [['h', 'o', 'u', 'r']]), (['b', 'e', 'l', 'a', 'w', 'u'], [['m', 'a', 'y']]), (['d', 'i', 'm', 'a', 's', 'i'], [['w', 'e', 'e', 'k']]), (['k', 'u', 'k', 'u', 'r', 'u'], [['a', 'u', 'g', 'u', 's', 't']]), (['l', 'a', 'p', 'o', 's', 'o'], [['f', 'r', 'i', 'd', 'a', 'y']]), (['l', 'e', 'n', 'g', 'u', 'a'], [['j', 'u', 'l', 'y']]), (['m', 'b', 'a', 'n', 'g', 'u'], [['m', 'a', 'r', 'c', 'h']]), (['n', 'g', 'u', 'b', 'u', 'e'], [['a', 'p', 'r', 'i', 'l']]), (['n', 'y', 'e', 'n', 'y', 'e'], [['j', 'a', 'n', 'u', 'a', 'r', 'y']]), (['f', 'o', 'n', 'd', 'o'], [['j', 'u', 'n', 'e']]), (['m', 'v', 'u', 'k', 'a'], [['s', 'e', 'p', 't', 'e', 'm', 'b', 'e', 'r']]), (['b', 'e', 'l'], [['m', 'a', 'y']]), (['b', 'k', '1'], [['s', 'u', 'n', 'd', 'a', 'y']]), (['b', 'k', '2'], [['m', 'o', 'n', 'd', 'a', 'y']]), (['b', 'k', '3'], [['t', 'u', 'e', 's', 'd', 'a', 'y']]), (['b', 'k', '4'], [['w', 'e', 'd', 'n', 'e', 's', 'd', 'a', 'y']]), (['b', 'k', '5'], [['t', 'h', 'u', 'r', 's', 'd', 'a', 'y']]), (['f', 'o', 'n'], [['j', 'u', 'n', 'e']]), (['f', 'u', 'l'], [['f', 'e', 'b', 'r', 'u', 'a', 'r', 'y']]), (['g', 'm', 't'], [['g', 'm', 't']]), (['k', 'a', 'k'], [['d', 'e', 'c', 'e', 'm', 'b', 'e', 'r']]), (['k', 'u', 'k'], [['a', 'u', 'g', 'u', 's', 't']]), (['l', 'a', 'p'], [['f', 'r', 'i', 'd', 'a', 'y']]), (['l', 'a', 'y'], [['s', 'a', 't', 'u', 'r', 'd', 'a', 'y']]), (['l', 'e', 'n'], [['j', 'u', 'l', 'y']]), (['m', 'b', 'a'], [['m', 'a', 'r', 'c', 'h']]), (['m', 'v', 'u'], [['s', 'e', 'p', 't', 'e', 'm', 'b', 'e', 'r']]), (['n', 'a', 'b'], [['n', 'o', 'v', 'e', 'm', 'b', 'e', 'r']]), (['n', 'g', 'b'], [['o', 'c', 't', 'o', 'b', 'e', 'r']]), (['n', 'g', 'u'], [['y', 'e', 'a', 'r'], ['a', 'p', 'r', 'i', 'l']]), (['n', 'y', 'e'], [['j', 'a', 'n', 'u', 'a', 'r', 'y']]), (['n', 'z', 'e'], [['m', 'o', 'n', 't', 'h']]), (['u', 't', 'c'], [['u', 't', 'c']]), (['a', 'm'], [['a', 'm']]), (['l', 'a'], [['d', 'a', 'y']]), (['l', 'k'], [['p', 'm']]), (['n', 'd'], [['a', 'm']]), (['p', 'm'], [['p', 'm']]), ([' '], [[' ']]), (['\''], [[]]), (['+'], [['+']]), ([','], [[]]), (['-'], [['-']]), (['.'], [['.']]), (['/'], [['/']]), ([':'], [[':']]), ([';'], [[]]), (['@'], [[]]), (['['], [[]]), ([']'], [[]]), (['z'], [['z']]), (['|'], [[]])]
  relativeType := [(['t', 'h', 'i', 's', ' ', 'm', 'i', 'n', 'u', 't', 'e'], ['0', ' ', 'm', 'i', 'n', 'u', 't', 'e', ' ', 'a', 'g', 'o']), (['l', 'a', 's', 't', ' ', 'm', 'o', 'n', 't', 'h'], ['1', ' ', 'm', 'o', 'n', 't', 'h', ' ', 'a', 'g', 'o']), (['n', 'e', 'x', 't', ' ', 'm', 'o', 'n', 't', 'h'], ['i', 'n', ' ', '1', ' ', 'm', 'o', 'n', 't', 'h']), (['t', 'h', 'i', 's', ' ', 'm', 'o', 'n', 't', 'h'], ['0', ' ', 'm', 'o', 'n', 't', 'h', ' ', 'a', 'g', 'o']), (['l', 'a', 's', 't', ' ', 'w', 'e', 'e', 'k'], ['1', ' ', 'w', 'e', 'e', 'k', ' ', 'a', 'g', 'o']), (['l', 'a', 's', 't', ' ', 'y', 'e', 'a', 'r'], ['1', ' ', 'y', 'e', 'a', 'r', ' ', 'a', 'g', 'o']), (['n', 'e', 'x', 't', ' ', 'w', 'e', 'e', 'k'], ['i', 'n', ' ', '1', ' ', 'w', 'e', 'e', 'k']), (['n', 'e', 'x', 't', ' ', 'y', 'e', 'a', 'r'], ['i', 'n', ' ', '1', ' ', 'y', 'e', 'a', 'r']), (['t', 'h', 'i', 's', ' ', 'h', 'o', 'u', 'r'], ['0', ' ', 'h', 'o', 'u', 'r', ' ', 'a', 'g', 'o']), (['t', 'h', 'i', 's', ' ', 'w', 'e', 'e', 'k'], ['0', ' ', 'w', 'e', 'e', 'k', ' ', 'a', 'g', 'o']), (['t', 'h', 'i', 's', ' ', 'y', 'e', 'a', 'r'], ['0', ' ', 'y', 'e', 'a', 'r', ' ', 'a', 'g', 'o']), (['k', 'e', 'k', 'e', 'r', 'e', 'k', 'e'], ['i', 'n', ' ', '1', ' ', 'd', 'a', 'y']), (['b', 'i', 'r', 'i'], ['1', ' ', 'd', 'a', 'y', ' ', 'a', 'g', 'o']), (['l', 'a', 's', 'o'], ['0', ' ', 'd', 'a', 'y', ' ', 'a', 'g', 'o']), (['n', 'o', 'w'], ['0', ' ', 's', 'e', 'c', 'o', 'n', 'd', ' ', 'a', 'g', 'o'])]

/-- internal/data/shi-latn.go: `shi_Latn_Locale`, dictionary. -/
def shi_LatnDict : LangData where
  name := ['s', 'h', 'i', '-', 'L', 'a', 't', 'n']
  translations := [(['c', 'u', 't', 'a', 'n', 'b', 'i', 'r'], [['s', 'e', 'p', 't', 'e', 'm', 'b', 'e', 'r']]), (['d', 'u', 'j', 'a', 'n', 'b', 'i', 'r'], [['d', 'e', 'c', 'e', 'm', 'b', 'e', 'r']]), (['n', 'u', 'w', 'a', 'n', 'b', 'i', 'r'], [['n', 'o', 'v', 'e', 'm', 'b', 'e', 'r']]), (['t', 'a', 'd', 'g', 'g', 'w', 'a', 't'], [['p', 'm']]), (['a', 's', 'g', 'g', 'w', 'a', 's'], [['y', 'e', 'a', 'r']]), (['a', 's', 'i', 'd', 'y', 'a', 's'], [['s', 'a', 't', 'u', 'r', 'd', 'a', 'y']]), (['a', 's', 'i', 'm', 'w', 'a', 's'], [['f', 'r', 'i', 'd', 'a', 'y']]), (['i', 'm', 'a', 'l', 'a', 's', 's'], [['w', 'e', 'e', 'k']]), (['t', 'a', 's', 'r', 'a', 'g', 't'], [['h', 'o', 'u', 'r']]), (['t', 'u', 's', 'd', 'i', 'd', 't'], [['m', 'i', 'n', 'u', 't', 'e']]), (['a', 's', 'a', 'm', 'a', 's'], [['s', 'u', 'n', 'd', 'a', 'y']]), (['a', 's', 'i', 'n', 'a', 's'], [['t', 'u', 'e', 's', 'd', 'a', 'y']]), (['i', 'n', 'n', 'a', 'y', 'r'], [['j', 'a', 'n', 'u', 'a', 'r', 'y']]), (['t', 'a', 's', 'i', 'n', 't'], [['s', 'e', 'c', 'o', 'n', 'd']]), (['t', 'i', 'f', 'a', 'w', 't'], [['a', 'm']]), (['y', 'u', 'l', 'y', 'u', 'z'], [['j', 'u', 'l', 'y']]), (['a', 'k', 'r', 'a', 's'], [['w', 'e', 'd', 'n', 'e', 's', 'd', 'a', 'y']]), (['a', 'k', 'w', 'a', 's'], [['t', 'h', 'u', 'r', 's', 'd', 'a', 'y']]), (['a', 'y', 'n', 'a', 's'], [['m', 'o', 'n', 'd', 'a', 'y']]), (['a', 'y', 'y', 'u', 'r'], [['m', 'o', 'n', 't', 'h']]), (['b', 'r', 'a', 'y', 'r'], [['f', 'e', 'b', 'r', 'u', 'a', 'r', 'y']]), (['i', 'b', 'r', 'i', 'r'], [['a', 'p', 'r', 'i', 'l']]), (['k', 't', 'u', 'b', 'r'], [['o', 'c', 't', 'o', 'b', 'e', 'r']]), (['m', 'a', 'y', 'y', 'u'], [['m', 'a', 'y']]), (['y', 'u', 'n', 'y', 'u'], [['j', 'u', 'n', 'e']]), (['a', 's', 'i', 'd'], [['s', 'a', 't', 'u', 'r', 'd', 'a', 'y']]), (['a', 's', 'i', 'm'], [['f', 'r', 'i', 'd', 'a', 'y']]), (['m', 'a', 'r', 's'], [['m', 'a', 'r', 'c', 'h']]), (['ɣ', 'u', 'c', 't'], [['a', 'u', 'g', 'u', 's', 't']]), (['a', 'k', 'r'], [['w', 'e', 'd', 'n', 'e', 's', 'd', 'a', 'y']]), (['a', 'k', 'w'], [['t', 'h', 'u', 'r', 's', 'd', 'a', 'y']]), (['a', 's', 'a'], [['s', 'u', 'n', 'd', 'a', 'y']]), (['a', 's', 'i'], [['t', 'u', 'e', 's', 'd', 'a', 'y']]), (['a', 's', 's'], [['d', 'a', 'y']]), (['a', 'y', 'n'], [['m', 'o', 'n', 'd', 'a', 'y']]), (['b', 'r', 'a'], [['f', 'e', 'b', 'r', 'u', 'a', 'r', 'y']]), (['c', 'u', 't'], [['s', 'e', 'p', 't', 'e', 'm', 'b', 'e', 'r']]), (['d', 'u', 'j'], [['d', 'e', 'c', 'e', 'm', 'b', 'e', 'r']]), (['g', 'm', 't'], [['g', 'm', 't']]), (['i', 'b', 'r'], [['a', 'p', 'r', 'i', 'l']]), (['i', 'n', 'n'], [['j', 'a', 'n', 'u', 'a', 'r', 'y']]), (['k', 't', 'u'], [['o', 'c', 't', 'o', 'b', 'e', 'r']]), (['m', 'a', 'r'], [['m', 'a', 'r', 'c', 'h']]), (['m', 'a', 'y'], [['m', 'a', 'y']]), (['n', 'u', 'w'], [['n', 'o', 'v', 'e', 'm', 'b', 'e', 'r']]), (['u', 't', 'c'], [['u', 't', 'c']]), (['y', 'u', 'l'], [['j', 'u', 'l', 'y']]), (['y', 'u', 'n'], [['j', 'u', 'n', 'e']]), (['ɣ', 'u', 'c'], [['a', 'u', 'g', 'u', 's', 't']]), (['a', 'm'], [['a', 'm']]), (['p', 'm'], [['p', 'm']]), ([' '], [[' ']]), (['\''], [[]]), (['+'], [['+']]), ([','], [[]]), (['-'], [['-']]), (['.'], [['.']]), (['/'], [['/']]), ([':'], [[':']]), ([';'], [[]]), (['@'], [[]]), (['['], [[]]), ([']'], [[]]), (['z'], [['z']]), (['|'], [[]])]
  relativeType := [(['t', 'h', 'i', 's', ' ', 'm', 'i', 'n', 'u', 't', 'e'], ['0', ' ', 'm', 'i', 'n', 'u', 't', 'e', ' ', 'a', 'g', 'o']), (['l', 'a', 's', 't', ' ', 'm', 'o', 'n', 't', 'h'], ['1', ' ', 'm', 'o', 'n', 't', 'h', ' ', 'a', 'g', 'o']), (['n', 'e', 'x', 't', ' ', 'm', 'o', 'n', 't', 'h'], ['i', 'n', ' ', '1', ' ', 'm', 'o', 'n', 't', 'h']), (['t', 'h', 'i', 's', ' ', 'm', 'o', 'n', 't', 'h'], ['0', ' ', 'm', 'o', 'n', 't', 'h', ' ', 'a', 'g', 'o']), (['l', 'a', 's', 't', ' ', 'w', 'e', 'e', 'k'], ['1', ' ', 'w', 'e', 'e', 'k', ' ', 'a', 'g', 'o']), (['l', 'a', 's', 't', ' ', 'y', 'e', 'a', 'r'], ['1', ' ', 'y', 'e', 'a', 'r', ' ', 'a', 'g', 'o']), (['n', 'e', 'x', 't', ' ', 'w', 'e', 'e', 'k'], ['i', 'n', ' ', '1', ' ', 'w', 'e', 'e', 'k']), (['n', 'e', 'x', 't', ' ', 'y', 'e', 'a', 'r'], ['i', 'n', ' ', '1', ' ', 'y', 'e', 'a', 'r']), (['t', 'h', 'i', 's', ' ', 'h', 'o', 'u', 'r'], ['0', ' ', 'h', 'o', 'u', 'r', ' ', 'a', 'g', 'o']), (['t', 'h', 'i', 's', ' ', 'w', 'e', 'e', 'k'], ['0', ' ', 'w', 'e', 'e', 'k', ' ', 'a', 'g', 'o']), (['t', 'h', 'i', 's', ' ', 'y', 'e', 'a', 'r'], ['0', ' ', 'y', 'e', 'a', 'r', ' ', 'a', 'g', 'o']), (['a', 's', 'k', 'k', 'a'], ['i', 'n', ' ', '1', ' ', 'd', 'a', 'y']), (['i', 'd', 'l', 'l', 'i'], ['1', ' ', 'd', 'a', 'y', ' ', 'a', 'g', 'o']), (['a', 's', 's', 'a'], ['0', ' ', 'd', 'a', 'y', ' ', 'a', 'g', 'o']), (['n', 'o', 'w'], ['0', ' ', 's', 'e', 'c', 'o', 'n', 'd', ' ', 'a', 'g', 'o'])]

/-- internal/data/shi-tfng.go: `shi_Tfng_Locale`, dictionary. -/
def shi_TfngDict : LangData where
  name := ['s', 'h', 'i', '-', 'T', 'f', 'n', 'g']
  translations := [(['ⴷ', 'ⵓ', 'ⵊ', 'ⴰ', 'ⵏ', 'ⴱ', 'ⵉ', 'ⵔ'], [['d', 'e', 'c', 'e', 'm', 'b', 'e', 'r']]), (['ⵏ', 'ⵓ', 'ⵡ', 'ⴰ', 'ⵏ', 'ⴱ', 'ⵉ', 'ⵔ'], [['n', 'o', 'v', 'e', 'm', 'b', 'e', 'r']]), (['ⵛ', 'ⵓ', 'ⵜ', 'ⴰ', 'ⵏ', 'ⴱ', 'ⵉ', 'ⵔ'], [['s', 'e', 'p', 't', 'e', 'm', 'b', 'e', 'r']]), (['ⵜ', 'ⴰ', 'ⴷ', 'ⴳ', 'ⴳ', 'ⵡ', 'ⴰ', 'ⵜ'], [['p', 'm']]), (['ⴰ', 'ⵙ', 'ⴳ', 'ⴳ', 'ⵡ', 'ⴰ', 'ⵙ'], [['y', 'e', 'a', 'r']]), (['ⴰ', 'ⵙ', 'ⵉ', 'ⴹ', 'ⵢ', 'ⴰ', 'ⵙ'], [['s', 'a', 't', 'u', 'r', 'd', 'a', 'y']]), (['ⵉ', 'ⵎ', 'ⴰ', 'ⵍ', 'ⴰ', 'ⵙ', 'ⵙ'], [['w', 'e', 'e', 'k']]), (['ⵜ', 'ⴰ', 'ⵙ', 'ⵔ', 'ⴰ', 'ⴳ', 'ⵜ'], [['h', 'o', 'u', 'r']]), (['ⵜ', 'ⵓ', 'ⵙ', 'ⴷ', 'ⵉ', 'ⴷ', 'ⵜ'], [['m', 'i', 'n', 'u', 't', 'e']]), (['ⴰ', 'ⵙ', 'ⴰ', 'ⵎ', 'ⴰ', 'ⵙ'], [['s', 'u', 'n', 'd', 'a', 'y']]), (['ⴰ', 'ⵙ', 'ⵉ', 'ⵏ', 'ⴰ', 'ⵙ'], [['t', 'u', 'e', 's', 'd', 'a', 'y']]), (['ⵉ', 'ⵏ', 'ⵏ', 'ⴰ', 'ⵢ', 'ⵔ'], [['j', 'a', 'n', 'u', 'a', 'r', 'y']]), (['ⵙ', 'ⵉ', 'ⵎ', 'ⵡ', 'ⴰ', 'ⵙ'], [['f', 'r', 'i', 'd', 'a', 'y']]), (['ⵜ', 'ⴰ', 'ⵙ', 'ⵉ', 'ⵏ', 'ⵜ'], [['s', 'e', 'c', 'o', 'n', 'd']]), (['ⵜ', 'ⵉ', 'ⴼ', 'ⴰ', 'ⵡ', 'ⵜ'], [['a', 'm']]), (['ⵢ', 'ⵓ', 'ⵍ', 'ⵢ', 'ⵓ', 'ⵣ'], [['j', 'u', 'l', 'y']]), (['ⴰ', 'ⴽ', 'ⵕ', 'ⴰ', 'ⵙ'], [['w', 'e', 'd', 'n', 'e', 's', 'd', 'a', 'y']]), (['ⴰ', 'ⴽ', 'ⵡ', 'ⴰ', 'ⵙ'], [['t', 'h', 'u', 'r', 's', 'd', 'a', 'y']]), (['ⴰ', 'ⵢ', 'ⵏ', 'ⴰ', 'ⵙ'], [['m', 'o', 'n', 'd', 'a', 'y']]), (['ⴰ', 'ⵢ', 'ⵢ', 'ⵓ', 'ⵔ'], [['m', 'o', 'n', 't', 'h']]), (['ⴱ', 'ⵕ', 'ⴰ', 'ⵢ', 'ⵕ'], [['f', 'e', 'b', 'r', 'u', 'a', 'r', 'y']]), (['ⴽ', 'ⵜ', 'ⵓ', 'ⴱ', 'ⵔ'], [['o', 'c', 't', 'o', 'b', 'e', 'r']]), (['ⵉ', 'ⴱ', 'ⵔ', 'ⵉ', 'ⵔ'], [['a', 'p', 'r', 'i', 'l']]), (['ⵎ', 'ⴰ', 'ⵢ', 'ⵢ', 'ⵓ'], [['m', 'a', 'y']]), (['ⵢ', 'ⵓ', 'ⵏ', 'ⵢ', 'ⵓ'], [['j', 'u', 'n', 'e']]), (['ⴰ', 'ⵙ', 'ⵉ', 'ⴹ'], [['s', 'a', 't', 'u', 'r', 'd', 'a', 'y']]), (['ⴰ', 'ⵙ', 'ⵉ', 'ⵎ'], [['f', 'r', 'i', 'd', 'a', 'y']]), (['ⵎ', 'ⴰ', 'ⵕ', 'ⵚ'], [['m', 'a', 'r', 'c', 'h']]), (['ⵖ', 'ⵓ', 'ⵛ', 'ⵜ'], [['a', 'u', 'g', 'u', 's', 't']]), (['g', 'm', 't'], [['g', 'm', 't']]), (['u', 't', 'c'], [['u', 't', 'c']]), (['ⴰ', 'ⴽ', 'ⵕ'], [['w', 'e', 'd', 'n', 'e', 's', 'd', 'a', 'y']]), (['ⴰ', 'ⴽ', 'ⵡ'], [['t', 'h', 'u', 'r', 's', 'd', 'a', 'y']]), (['ⴰ', 'ⵙ', 'ⴰ'], [['s', 'u', 'n', 'd', 'a', 'y']]), (['ⴰ', 'ⵙ', 'ⵉ'], [['t', 'u', 'e', 's', 'd', 'a', 'y']]), (['ⴰ', 'ⵙ', 'ⵙ'], [['d', 'a', 'y']]), (['ⴰ', 'ⵢ', 'ⵏ'], [['m', 'o', 'n', 'd', 'a', 'y']]), (['ⴱ', 'ⵕ', 'ⴰ'], [['f', 'e', 'b', 'r', 'u', 'a', 'r', 'y']]), (['ⴷ', 'ⵓ', 'ⵊ'], [['d', 'e', 'c', 'e', 'm', 'b', 'e', 'r']]), (['ⴽ', 'ⵜ', 'ⵓ'], [['o', 'c', 't', 'o', 'b', 'e', 'r']]), (['ⵉ', 'ⴱ', 'ⵔ'], [['a', 'p', 'r', 'i', 'l']]), (['ⵉ', 'ⵏ', 'ⵏ'], [['j', 'a', 'n', 'u', 'a', 'r', 'y']]), (['ⵎ', 'ⴰ', 'ⵕ'], [['m', 'a', 'r', 'c', 'h']]), (['ⵎ', 'ⴰ', 'ⵢ'], [['m', 'a', 'y']]), (['ⵏ', 'ⵓ', 'ⵡ'], [['n', 'o', 'v', 'e', 'm', 'b', 'e', 'r']]), (['ⵖ', 'ⵓ', 'ⵛ'], [['a', 'u', 'g', 'u', 's', 't']]), (['ⵛ', 'ⵓ', 'ⵜ'], [['s', 'e', 'p', 't', 'e', 'm', 'b', 'e', 'r']]), (['ⵢ', 'ⵓ', 'ⵍ'], [['j', 'u', 'l', 'y']]), (['ⵢ', 'ⵓ', 'ⵏ'], [['j', 'u', 'n', 'e']]), (['a', 'm'], [['a', 'm']]), (['p', 'm'], [['p', 'm']]), ([' '], [[' ']]), (['\''], [[]]), (['+'], [['+']]), ([','], [[]]), (['-'], [['-']]), (['.'], [['.']]), (['/'], [['/']]), ([':'], [[':']]), ([';'], [[]]), (['@'], [[]]), (['['], [[]]), ([']'], [[]]), (['z'], [['z']]), (['|'], [[]])]
  relativeType := [(['t', 'h', 'i', 's', ' ', 'm', 'i', 'n', 'u', 't', 'e'], ['0', ' ', 'm', 'i', 'n', 'u', 't', 'e', ' ', 'a', 'g', 'o']), (['l', 'a', 's', 't', ' ', 'm', 'o', 'n', 't', 'h'], ['1', ' ', 'm', 'o', 'n', 't', 'h', ' ', 'a', 'g', 'o']), (['n', 'e', 'x', 't', ' ', 'm', 'o', 'n', 't', 'h'], ['i', 'n', ' ', '1', ' ', 'm', 'o', 'n', 't', 'h']), (['t', 'h', 'i', 's', ' ', 'm', 'o', 'n', 't', 'h'], ['0', ' ', 'm', 'o', 'n', 't', 'h', ' ', 'a', 'g', 'o']), (['l', 'a', 's', 't', ' ', 'w', 'e', 'e', 'k'], ['1', ' ', 'w', 'e', 'e', 'k', ' ', 'a', 'g', 'o']), (['l', 'a', 's', 't', ' ', 'y', 'e', 'a', 'r'], ['1', ' ', 'y', 'e', 'a', 'r', ' ', 'a', 'g', 'o']), (['n', 'e', 'x', 't', ' ', 'w', 'e', 'e', 'k'], ['i', 'n', ' ', '1', ' ', 'w', 'e', 'e', 'k']), (['n', 'e', 'x', 't', ' ', 'y', 'e', 'a', 'r'], ['i', 'n', ' ', '1', ' ', 'y', 'e', 'a', 'r']), (['t', 'h', 'i', 's', ' ', 'h', 'o', 'u', 'r'], ['0', ' ', 'h', 'o', 'u', 'r', ' ', 'a', 'g', 'o']), (['t', 'h', 'i', 's', ' ', 'w', 'e', 'e', 'k'], ['0', ' ', 'w', 'e', 'e', 'k', ' ', 'a', 'g', 'o']), (['t', 'h', 'i', 's', ' ', 'y', 'e', 'a', 'r'], ['0', ' ', 'y', 'e', 'a', 'r', ' ', 'a', 'g', 'o']), (['ⴰ', 'ⵙ', 'ⴽ', 'ⴽ', 'ⴰ'], ['i', 'n', ' ', '1', ' ', 'd', 'a', 'y']), (['ⵉ', 'ⴹ', 'ⵍ', 'ⵍ', 'ⵉ'], ['1', ' ', 'd', 'a', 'y', ' ', 'a', 'g', 'o']), (['ⴰ', 'ⵙ', 'ⵙ', 'ⴰ'], ['0', ' ', 'd', 'a', 'y', ' ', 'a', 'g', 'o']), (['n', 'o', 'w'], ['0', ' ', 's', 'e', 'c', 'o', 'n', 'd', ' ', 'a', 'g', 'o'])]

/-- internal/data/shi.go: `shi_Locale`, dictionary. -/
def shiDict : LangData where
  name := ['s', 'h', 'i']
  translations := [(['ⴷ', 'ⵓ', 'ⵊ', 'ⴰ', 'ⵏ', 'ⴱ', 'ⵉ', 'ⵔ'], [['d', 'e', 'c', 'e', 'm', 'b', 'e', 'r']]), (['ⵏ', 'ⵓ', 'ⵡ', 'ⴰ', 'ⵏ', 'ⴱ', 'ⵉ', 'ⵔ'], [['n', 'o', 'v', 'e', 'm', 'b', 'e', 'r']]), (['ⵛ', 'ⵓ', 'ⵜ', 'ⴰ', 'ⵏ', 'ⴱ', 'ⵉ', 'ⵔ'], [['s', 'e', 'p', 't', 'e', 'm', 'b', 'e', 'r']]), (['ⵜ', 'ⴰ', 'ⴷ', 'ⴳ', 'ⴳ', 'ⵡ', 'ⴰ', 'ⵜ'], [['p', 'm']]), (['ⴰ', 'ⵙ', 'ⴳ', 'ⴳ', 'ⵡ', 'ⴰ', 'ⵙ'], [['y', 'e', 'a', 'r']]), (['ⴰ', 'ⵙ', 'ⵉ', 'ⴹ', 'ⵢ', 'ⴰ', 'ⵙ'], [['s', 'a', 't', 'u', 'r', 'd', 'a', 'y']]), (['ⵉ', 'ⵎ', 'ⴰ', 'ⵍ', 'ⴰ', 'ⵙ', 'ⵙ'], [['w', 'e', 'e', 'k']]), (['ⵜ', 'ⴰ', 'ⵙ', 'ⵔ', 'ⴰ', 'ⴳ', 'ⵜ'], [['h', 'o', 'u', 'r']]), (['ⵜ', 'ⵓ', 'ⵙ', 'ⴷ', 'ⵉ', 'ⴷ', 'ⵜ'], [['m', 'i', 'n', 'u', 't', 'e']]), (['ⴰ', 'ⵙ', 'ⴰ', 'ⵎ', 'ⴰ', 'ⵙ'], [['s', 'u', 'n', 'd', 'a', 'y']]), (['ⴰ', 'ⵙ', 'ⵉ', 'ⵏ', 'ⴰ', 'ⵙ'], [['t', 'u', 'e', 's', 'd', 'a', 'y']]), (['ⵉ', 'ⵏ', 'ⵏ', 'ⴰ', 'ⵢ', 'ⵔ'], [['j', 'a', 'n', 'u', 'a', 'r', 'y']]), (['ⵙ', 'ⵉ', 'ⵎ', 'ⵡ', 'ⴰ', 'ⵙ'], [['f', 'r', 'i', 'd', 'a', 'y']]), (['ⵜ', 'ⴰ', 'ⵙ', 'ⵉ', 'ⵏ', 'ⵜ'], [['s', 'e', 'c', 'o', 'n', 'd']]), (['ⵜ', 'ⵉ', 'ⴼ', 'ⴰ', 'ⵡ', 'ⵜ'], [['a', 'm']]), (['ⵢ', 'ⵓ', 'ⵍ', 'ⵢ', 'ⵓ', 'ⵣ'], [['j', 'u', 'l', 'y']]), (['ⴰ', 'ⴽ', 'ⵕ', 'ⴰ', 'ⵙ'], [['w', 'e', 'd', 'n', 'e', 's', 'd', 'a', 'y']]), (['ⴰ', 'ⴽ', 'ⵡ', 'ⴰ', 'ⵙ'], [['t', 'h', 'u', 'r', 's', 'd', 'a', 'y']]), (['ⴰ', 'ⵢ', 'ⵏ', 'ⴰ', 'ⵙ'], [['m', 'o', 'n', 'd', 'a', 'y']]), (['ⴰ', 'ⵢ', 'ⵢ', 'ⵓ', 'ⵔ'], [['m', 'o', 'n', 't', 'h']]), (['ⴱ', 'ⵕ', 'ⴰ', 'ⵢ', 'ⵕ'], [['f', 'e', 'b', 'r', 'u', 'a', 'r', 'y']]), (['ⴽ', 'ⵜ', 'ⵓ', 'ⴱ', 'ⵔ'], [['o', 'c', 't', 'o', 'b', 'e', 'r']]), (['ⵉ', 'ⴱ', 'ⵔ', 'ⵉ', 'ⵔ'], [['a', 'p', 'r', 'i', 'l']]), (['ⵎ', 'ⴰ', 'ⵢ', 'ⵢ', 'ⵓ'], [['m', 'a', 'y']]), (['ⵢ', 'ⵓ', 'ⵏ', 'ⵢ', 'ⵓ'], [['j', 'u', 'n', 'e']]), (['ⴰ', 'ⵙ', 'ⵉ', 'ⴹ'], [['s', 'a', 't', 'u', 'r', 'd', 'a', 'y']]), (['ⴰ', 'ⵙ', 'ⵉ', 'ⵎ'], [['f', 'r', 'i', 'd', 'a', 'y']]), (['ⵎ', 'ⴰ', 'ⵕ', 'ⵚ'], [['m', 'a', 'r', 'c', 'h']]), (['ⵖ', 'ⵓ', 'ⵛ', 'ⵜ'], [['a', 'u', 'g', 'u', 's', 't']]), (['g', 'm', 't'], [['g', 'm', 't']]), (['u', 't', 'c'], [['u', 't', 'c']]), (['ⴰ', 'ⴽ', 'ⵕ'], [['w', 'e', 'd', 'n', 'e', 's', 'd', 'a', 'y']]), (['ⴰ', 'ⴽ', 'ⵡ'], [['t', 'h', 'u', 'r', 's', 'd', 'a', 'y']]), (['ⴰ', 'ⵙ', 'ⴰ'], [['s', 'u', 'n', 'd', 'a', 'y']]), (['ⴰ', 'ⵙ', 'ⵉ'], [['t', 'u', 'e', 's', 'd', 'a', 'y']]), (['ⴰ', 'ⵙ', 'ⵙ'], [['d', 'a', 'y']]), (['ⴰ', 'ⵢ', 'ⵏ'], [['m', 'o', 'n', 'd', 'a', 'y']]), (['ⴱ', 'ⵕ', 'ⴰ'], [['f', 'e', 'b', 'r', 'u', 'a', 'r', 'y']]), (['ⴷ', 'ⵓ', 'ⵊ'], [['d', 'e', 'c', 'e', 'm', 'b', 'e', 'r']]), (['ⴽ', 'ⵜ', 'ⵓ'], [['o', 'c', 't', 'o', 'b', 'e', 'r']]), (['ⵉ', 'ⴱ', 'ⵔ'], [['a', 'p', 'r', 'i', 'l']]), (['ⵉ', 'ⵏ', 'ⵏ'], [['j', 'a', 'n', 'u', 'a', 'r', 'y']]), (['ⵎ', 'ⴰ', 'ⵕ'], [['m', 'a', 'r', 'c', 'h']]), (['ⵎ', 'ⴰ', 'ⵢ'], [['m', 'a', 'y']]), (['ⵏ', 'ⵓ', 'ⵡ'], [['n', 'o', 'v', 'e', 'm', 'b', 'e', 'r']]), (['ⵖ', 'ⵓ', 'ⵛ'], [['a', 'u', 'g', 'u', 's', 't']]), (['ⵛ', 'ⵓ', 'ⵜ'], [['s', 'e', 'p', 't', 'e', 'm', 'b', 'e', 'r']]), (['ⵢ', 'ⵓ', 'ⵍ'], [['j', 'u', 'l', 'y']]), (['ⵢ', 'ⵓ', 'ⵏ'], [['j', 'u', 'n', 'e']]), (['a', 'm'], [['a', 'm']]), (['p', 'm'], [['p', 'm']]), ([' '], [[' ']]), (['\''], [[]]), (['+'], [['+']]), ([','], [[]]), (['-'], [['-']]), (['.'], [['.']]), (['/'], [['/']]), ([':'], [[':']]), ([';'], [[]]), (['@'], [[]]), (['['], [[]]), ([']'], [[]]), (['z'], [['z']]), (['|'], [[]])]
  relativeType := [(['t', 'h', 'i', 's', ' ', 'm', 'i', 'n', 'u', 't', 'e'], ['0', ' ', 'm', 'i', 'n', 'u', 't', 'e', ' ', 'a', 'g', 'o']), (['l', 'a', 's', 't', ' ', 'm', 'o', 'n', 't', 'h'], ['1', ' ', 'm', 'o', 'n', 't', 'h', ' ', 'a', 'g', 'o']), (['n', 'e', 'x', 't', ' ', 'm', 'o', 'n', 't', 'h'], ['i', 'n', ' ', '1', ' ', 'm', 'o', 'n', 't', 'h']), (['t', 'h', 'i', 's', ' ', 'm', 'o', 'n', 't', 'h'], ['0', ' ', 'm', 'o', 'n', 't', 'h', ' ', 'a', 'g', 'o']), (['l', 'a', 's', 't', ' ', 'w', 'e', 'e', 'k'], ['1', ' ', 'w', 'e', 'e', 'k', ' ', 'a', 'g', 'o']), (['l', 'a', 's', 't', ' ', 'y', 'e', 'a', 'r'], ['1', ' ', 'y', 'e', 'a', 'r', ' ', 'a', 'g', 'o']), (['n', 'e', 'x', 't', ' ', 'w', 'e', 'e', 'k'], ['i', 'n', ' ', '1', ' ', 'w', 'e', 'e', 'k']), (['n', 'e', 'x', 't', ' ', 'y', 'e', 'a', 'r'], ['i', 'n', ' ', '1', ' ', 'y', 'e', 'a', 'r']), (['t', 'h', 'i', 's', ' ', 'h', 'o', 'u', 'r'], ['0', ' ', 'h', 'o', 'u', 'r', ' ', 'a', 'g', 'o']), (['t', 'h', 'i', 's', ' ', 'w', 'e', 'e', 'k'], ['0', ' ', 'w', 'e', 'e', 'k', ' ', 'a', 'g', 'o']), (['t', 'h', 'i', 's', ' ', 'y', 'e', 'a', 'r'], ['0', ' ', 'y', 'e', 'a', 'r', ' ', 'a', 'g', 'o']), (['ⴰ', 'ⵙ', 'ⴽ', 'ⴽ', 'ⴰ'], ['i', 'n', ' ', '1', ' ', 'd', 'a', 'y']), (['ⵉ', 'ⴹ', 'ⵍ', 'ⵍ', 'ⵉ'], ['1', ' ', 'd', 'a', 'y', ' ', 'a', 'g', 'o']), (['ⴰ', 'ⵙ', 'ⵙ', 'ⴰ'], ['0', ' ', 'd', 'a', 'y', ' ', 'a', 'g', 'o']), (['n', 'o', 'w'], ['0', ' ', 's', 'e', 'c', 'o', 'n', 'd', ' ', 'a', 'g', 'o'])]

/-- internal/data/si.go: `si_Locale`, dictionary. -/
def siDict : LangData where
  name := ['s', 'i']
  translations := [(['බ', (Char.ofNat 0x200d), 'ර', 'හ', 'ස', 'ප', 'ත', 'න', 'ද', 'ා'], [['t', 'h', 'u', 'r', 's', 'd', 'a', 'y']]), (['අ', 'ඟ', 'හ', 'ර', 'ව', 'ා', 'ද', 'ා'], [['t', 'u', 'e', 's', 'd', 'a', 'y']]), (['ස', 'ැ', 'ප', 'ත', 'ැ', 'ම', 'බ', 'ර'], [['s', 'e', 'p', 't', 'e', 'm', 'b', 'e', 'r']]), (['ස', 'ෙ', 'න', 'ස', 'ර', 'ා', 'ද', 'ා'], [['s', 'a', 't', 'u', 'r', 'd', 'a', 'y']]), (['ද', 'ෙ', 'ස', 'ැ', 'ම', 'බ', 'ර'], [['d', 'e', 'c', 'e', 'm', 'b', 'e', 'r']]), (['න', 'ො', 'ව', 'ැ', 'ම', 'බ', 'ර'], [['n', 'o', 'v', 'e', 'm', 'b', 'e', 'r']]), (['ප', 'ෙ', 'බ', 'ර', 'ව', 'ා', 'ර'], [['f', 'e', 'b', 'r', 'u', 'a', 'r', 'y']]), (['අ', 'ප', (Char.ofNat 0x200d), 'ර', 'ෙ', 'ල'], [['a', 'p', 'r', 'i', 'l']]), (['ඔ', 'ක', 'ත', 'ො', 'බ', 'ර'], [['o', 'c', 't', 'o', 'b', 'e', 'r']]), (['ස', 'ක', 'ර', 'ා', 'ද', 'ා'], [['f', 'r', 'i', 'd', 'a', 'y']]), (['අ', 'ග', 'ො', 'ස', 'ත'], [['a', 'u', 'g', 'u', 's', 't']]), (['ජ', 'න', 'ව', 'ා', 'ර'], [['j', 'a', 'n', 'u', 'a', 'r', 'y']]), (['ත', 'ත', 'ප', 'ර', 'ය'], [['s', 'e', 'c', 'o', 'n', 'd']]), (['බ', 'ද', 'ා', 'ද', 'ා'], [['w', 'e', 'd', 'n', 'e', 's', 'd', 'a', 'y']]), (['බ', (Char.ofNat 0x200d), 'ර', 'හ', 'ස'], [['t', 'h', 'u', 'r', 's', 'd', 'a', 'y']]), (['ම', 'න', 'ත', 'ත', 'ව'], [['m', 'i', 'n', 'u', 't', 'e']]), (['ඉ', 'ර', 'ද', 'ා'], [['s', 'u', 'n', 'd', 'a', 'y']]), (['ද', 'ෙ', 'ස', 'ැ'], [['d', 'e', 'c', 'e', 'm', 'b', 'e', 'r']]), (['න', 'ො', 'ව', 'ැ'], [['n', 'o', 'v', 'e', 'm', 'b', 'e', 'r']]), (['ම', 'ා', 'ර', 'ත'], [['m', 'a', 'r', 'c', 'h']]), (['ම', 'ා', 'ස', 'ය'], [['m', 'o', 'n', 't', 'h']]), (['ව', 'ර', 'ෂ', 'ය'], [['y', 'e', 'a', 'r']]), (['ස', 'ඳ', 'ද', 'ා'], [['m', 'o', 'n', 'd', 'a', 'y']]), (['g', 'm', 't'], [['g', 'm', 't']]), (['u', 't', 'c'], [['u', 't', 'c']]), (['අ', 'ග', 'ො'], [['a', 'u', 'g', 'u', 's', 't']]), (['අ', 'ඟ', 'හ'], [['t', 'u', 'e', 's', 'd', 'a', 'y']]), (['ද', 'න', 'ය'], [['d', 'a', 'y']]), (['ප', 'ැ', 'ය'], [['h', 'o', 'u', 'r']]), (['ප', 'ෙ', 'බ'], [['f', 'e', 'b', 'r', 'u', 'a', 'r', 'y']]), (['ප', 'ෙ', 'ව'], [['a', 'm']]), (['ම', 'ා', 'ර'], [['m', 'a', 'r', 'c', 'h']]), (['ම', 'ා', 'ස'], [['m', 'o', 'n', 't', 'h']]), (['ම', 'ැ', 'ය'], [['m', 'a', 'y']]), (['ස', 'ත', 'ය'], [['w', 'e', 'e', 'k']]), (['ස', 'ැ', 'ප'], [['s', 'e', 'p', 't', 'e', 'm', 'b', 'e', 'r']]), (['ස', 'ෙ', 'න'], [['s', 'a', 't', 'u', 'r', 'd', 'a', 'y']]), (['a', 'm'], [['a', 'm']]), (['p', 'm'], [['p', 'm']]), (['ඔ', 'ක'], [['o', 'c', 't', 'o', 'b', 'e', 'r']]), (['ජ', 'න'], [['j', 'u', 'n', 'e'], ['j', 'a', 'n', 'u', 'a', 'r', 'y']]), (['ජ', 'ල'], [['j', 'u', 'l', 'y']]), (['ත', 'ත'], [['s', 'e', 'c', 'o', 'n', 'd']]), (['ප', 'ව'], [['p', 'm']]), (['ප', 'ැ'], [['h', 'o', 'u', 'r']]), (['ම', 'න'], [['m', 'i', 'n', 'u', 't', 'e']]), (['ව', 'ර'], [['y', 'e', 'a', 'r']]), (['ස', 'ක'], [['f', 'r', 'i', 'd', 'a', 'y']]), (['ස', 'ත'], [['w', 'e', 'e', 'k']]), ([' '], [[' ']]), (['\''], [[]]), (['+'], [['+']]), ([','], [[]]), (['-'], [['-']]), (['.'], [['.']]), (['/'], [['/']]), ([':'], [[':']]), ([';'], [[]]), (['@'], [[]]), (['['], [[]]), ([']'], [[]]), (['z'], [['z']]), (['|'], [[]]), (['ත'], [['s', 'e', 'c', 'o', 'n', 'd']]), (['ම'], [['m', 'i', 'n', 'u', 't', 'e']])]
  relativeType := [(['ප', 'ස', 'ග', 'ය', ' ', 'ම', 'ා', 'ස', 'ය'], ['1', ' ', 'm', 'o', 'n', 't', 'h', ' ', 'a', 'g', 'o']), (['ම', 'ෙ', 'ම', ' ', 'ම', 'න', 'ත', 'ත', 'ව'], ['0', ' ', 'm', 'i', 'n', 'u', 't', 'e', ' ', 'a', 'g', 'o']), (['ඊ', 'ළ', 'ඟ', ' ', 'ම', 'ා', 'ස', 'ය'], ['i', 'n', ' ', '1', ' ', 'm', 'o', 'n', 't', 'h']), (['ප', 'ස', 'ග', 'ය', ' ', 'ම', 'ා', 'ස'], ['1', ' ', 'm', 'o', 'n', 't', 'h', ' ', 'a', 'g', 'o']), (['ප', 'ස', 'ග', 'ය', ' ', 'ව', 'ස', 'ර'], ['1', ' ', 'y', 'e', 'a', 'r', ' ', 'a', 'g', 'o']), (['ප', 'ස', 'ග', 'ය', ' ', 'ස', 'ත', 'ය'], ['1', ' ', 'w', 'e', 'e', 'k', ' ', 'a', 'g', 'o']), (['ම', 'ෙ', 'ම', ' ', 'ම', 'ා', 'ස', 'ය'], ['0', ' ', 'm', 'o', 'n', 't', 'h', ' ', 'a', 'g', 'o']), (['ඊ', 'ළ', 'ඟ', ' ', 'ම', 'ා', 'ස'], ['i', 'n', ' ', '1', ' ', 'm', 'o', 'n', 't', 'h']), (['ඊ', 'ළ', 'ඟ', ' ', 'ව', 'ස', 'ර'], ['i', 'n', ' ', '1', ' ', 'y', 'e', 'a', 'r']), (['ඊ', 'ළ', 'ඟ', ' ', 'ස', 'ත', 'ය'], ['i', 'n', ' ', '1', ' ', 'w', 'e', 'e', 'k']), (['ප', 'ස', 'ග', 'ය', ' ', 'ස', 'ත'], ['1', ' ', 'w', 'e', 'e', 'k', ' ', 'a', 'g', 'o']), (['ම', 'ෙ', 'ම', ' ', 'ප', 'ැ', 'ය'], ['0', ' ', 'h', 'o', 'u', 'r', ' ', 'a', 'g', 'o']), (['ම', 'ෙ', 'ම', ' ', 'ම', 'ා', 'ස'], ['0', ' ', 'm', 'o', 'n', 't', 'h', ' ', 'a', 'g', 'o']), (['ම', 'ෙ', 'ම', ' ', 'ව', 'ස', 'ර'], ['0', ' ', 'y', 'e', 'a', 'r', ' ', 'a', 'g', 'o']), (['ම', 'ෙ', 'ම', ' ', 'ස', 'ත', 'ය'], ['0', ' ', 'w', 'e', 'e', 'k', ' ', 'a', 'g', 'o']), (['ඊ', 'ළ', 'ඟ', ' ', 'ස', 'ත'], ['i', 'n', ' ', '1', ' ', 'w', 'e', 'e', 'k']), (['ම', 'ෙ', 'ම', ' ', 'ස', 'ත'], ['0', ' ', 'w', 'e', 'e', 'k', ' ', 'a', 'g', 'o']), (['ඊ', 'ය', 'ෙ'], ['1', ' ', 'd', 'a', 'y', ' ', 'a', 'g', 'o']), (['ද', 'ැ', 'න'], ['0', ' ', 's', 'e', 'c', 'o', 'n', 'd', ' ', 'a', 'g', 'o']), (['හ', 'ෙ', 'ට'], ['i', 'n', ' ', '1', ' ', 'd', 'a', 'y']), (['අ', 'ද'], ['0', ' ', 'd', 'a', 'y', ' ', 'a', 'g', 'o'])]

/-- internal/data/sk.go: `sk_Locale`, dictionary. -/
def skDict : LangData where
  name := ['s', 'k']
  splitterGroup := 1
  translations := [(['s', 'e', 'p', 't', 'e', 'm', 'b', 'e', 'r'], [['s', 'e', 'p', 't', 'e', 'm', 'b', 'e', 'r']]), (['s', 'e', 'p', 't', 'e', 'm', 'b', 'r', 'a'], [['s', 'e', 'p', 't', 'e', 'm', 'b', 'e', 'r']]), (['d', 'e', 'c', 'e', 'm', 'b', 'e', 'r'], [['d', 'e', 'c', 'e', 'm', 'b', 'e', 'r']]), (['d', 'e', 'c', 'e', 'm', 'b', 'r', 'a'], [['d', 'e', 'c', 'e', 'm', 'b', 'e', 'r']]), (['f', 'e', 'b', 'r', 'u', 'a', 'r', 'a'], [['f', 'e', 'b', 'r', 'u', 'a', 'r', 'y']]), (['n', 'o', 'v', 'e', 'm', 'b', 'e', 'r'], [['n', 'o', 'v', 'e', 'm', 'b', 'e', 'r']]), (['n', 'o', 'v', 'e', 'm', 'b', 'r', 'a'], [['n', 'o', 'v', 'e', 'm', 'b', 'e', 'r']]), (['p', 'o', 'n', 'd', 'e', 'l', 'o', 'k'], [['m', 'o', 'n', 'd', 'a', 'y']]), (['a', 'u', 'g', 'u', 's', 't', 'a'], [['a', 'u', 'g', 'u', 's', 't']]), (['f', 'e', 'b', 'r', 'u', 'a', 'r'], [['f', 'e', 'b', 'r', 'u', 'a', 'r', 'y']]), (['j', 'a', 'n', 'u', 'a', 'r', 'a'], [['j', 'a', 'n', 'u', 'a', 'r', 'y']]), (['o', 'k', 't', 'o', 'b', 'e', 'r'], [['o', 'c', 't', 'o', 'b', 'e', 'r']]), (['o', 'k', 't', 'o', 'b', 'r', 'a'], [['o', 'c', 't', 'o', 'b', 'e', 'r']]), (['s', 'e', 'k', 'u', 'n', 'd', 'a'], [['s', 'e', 'c', 'o', 'n', 'd']]), (['s', 't', 'v', 'r', 't', 'o', 'k'], [['t', 'h', 'u', 'r', 's', 'd', 'a', 'y']]), (['a', 'p', 'r', 'i', 'l', 'a'], [['a', 'p', 'r', 'i', 'l']]), (['a', 'u', 'g', 'u', 's', 't'], [['a', 'u', 'g', 'u', 's', 't']]), (['h', 'o', 'd', 'i', 'n', 'a'], [['h', 'o', 'u', 'r']]), (['j', 'a', 'n', 'u', 'a', 'r'], [['j', 'a', 'n', 'u', 'a', 'r', 'y']]), (['m', 'e', 's', 'i', 'a', 'c'], [['m', 'o', 'n', 't', 'h']]), (['m', 'i', 'n', 'u', 't', 'a'], [['m', 'i', 'n', 'u', 't', 'e']]), (['n', 'e', 'd', 'e', 'l', 'a'], [['s', 'u', 'n', 'd', 'a', 'y']]), (['n', 'e', 'd', 'e', 'l', 'u'], [['s', 'u', 'n', 'd', 'a', 'y']]), (['p', 'i', 'a', 't', 'o', 'k'], [['f', 'r', 'i', 'd', 'a', 'y']]), (['s', 'o', 'b', 'o', 't', 'a'], [['s', 'a', 't', 'u', 'r', 'd', 'a', 'y']]), (['s', 'o', 'b', 'o', 't', 'u'], [['s', 'a', 't', 'u', 'r', 'd', 'a', 'y']]), (['s', 't', 'r', 'e', 'd', 'a'], [['w', 'e', 'd', 'n', 'e', 's', 'd', 'a', 'y']]), (['s', 't', 'r', 'e', 'd', 'u'], [['w', 'e', 'd', 'n', 'e', 's', 'd', 'a', 'y']]), (['t', 'y', 'z', 'd', 'e', 'n'], [['w', 'e', 'e', 'k']]), (['u', 't', 'o', 'r', 'o', 'k'], [['t', 'u', 'e', 's', 'd', 'a', 'y']]), (['a', 'p', 'r', 'i', 'l'], [['a', 'p', 'r', 'i', 'l']]), (['m', 'a', 'r', 'c', 'a'], [['m', 'a', 'r', 'c', 'h']]), (['m', 'a', 'r', 'e', 'c'], [['m', 'a', 'r', 'c', 'h']]), (['j', 'u', 'l', 'a'], [['j', 'u', 'l', 'y']]), (['j', 'u', 'n', 'a'], [['j', 'u', 'n', 'e']]), (['m', 'a', 'j', 'a'], [['m', 'a', 'y']]), (['p', 'r', 'e', 'd'], [['a', 'g', 'o']]), (['a', 'p', 'r'], [['a', 'p', 'r', 'i', 'l']]), (['a', 'u', 'g'], [['a', 'u', 'g', 'u', 's', 't']]), (['d', 'e', 'c'], [['d', 'e', 'c', 'e', 'm', 'b', 'e', 'r']]), (['d', 'e', 'n'], [['d', 'a', 'y']]), (['f', 'e', 'b'], [['f', 'e', 'b', 'r', 'u', 'a', 'r', 'y']]), (['g', 'm', 't'], [['g', 'm', 't']]), (['j', 'a', 'n'], [['j', 'a', 'n', 'u', 'a', 'r', 'y']]), (['j', 'u', 'l'], [['j', 'u', 'l', 'y']]), (['j', 'u', 'n'], [['j', 'u', 'n', 'e']]), (['m', 'a', 'j'], [['m', 'a', 'y']]), (['m', 'a', 'r'], [['m', 'a', 'r', 'c', 'h']]), (['m', 'e', 's'], [['m', 'o', 'n', 't', 'h']]), (['m', 'i', 'n'], [['m', 'i', 'n', 'u', 't', 'e']]), (['n', 'o', 'v'], [['n', 'o', 'v', 'e', 'm', 'b', 'e', 'r']]), (['o', 'k', 't'], [['o', 'c', 't', 'o', 'b', 'e', 'r']]), (['r', 'o', 'k'], [['y', 'e', 'a', 'r']]), (['s', 'e', 'p'], [['s', 'e', 'p', 't', 'e', 'm', 'b', 'e', 'r']]), (['t', 'y', 'z'], [['w', 'e', 'e', 'k']]), (['u', 't', 'c'], [['u', 't', 'c']]), (['a', 'm'], [['a', 'm']]), (['n', 'e'], [['s', 'u', 'n', 'd', 'a', 'y']]), (['p', 'i'], [['f', 'r', 'i', 'd', 'a', 'y']]), (['p', 'm'], [['p', 'm']]), (['p', 'o'], [['m', 'o', 'n', 'd', 'a', 'y']]), (['s', 'o'], [['s', 'a', 't', 'u', 'r', 'd', 'a', 'y']]), (['s', 't'], [['t', 'h', 'u', 'r', 's', 'd', 'a', 'y'], ['w', 'e', 'd', 'n', 'e', 's', 'd', 'a', 'y']]), (['u', 't'], [['t', 'u', 'e', 's', 'd', 'a', 'y']]), (['v', 'o'], [[]]), (['z', 'a'], [['i', 'n']]), ([' '], [[' ']]), (['\''], [[]]), (['+'], [['+']]), ([','], [[]]), (['-'], [['-']]), (['.'], [['.']]), (['/'], [['/']]), ([':'], [[':']]), ([';'], [[]]), (['@'], [[]]), (['['], [[]]), ([']'], [[]]), (['d'], [['d', 'a', 'y']]), (['h'], [['h', 'o', 'u', 'r']]), (['o'], [['i', 'n']]), (['r'], [['y', 'e', 'a', 'r']]), (['s'], [['s', 'e', 'c', 'o', 'n', 'd']]), (['v'], [[]]), (['z'], [['z']]), (['|'], [[]])]
  relativeType := [(['v', ' ', 't', 'e', 'j', 't', 'o', ' ', 'h', 'o', 'd', 'i', 'n', 'e'], ['0', ' ', 'h', 'o', 'u', 'r', ' ', 'a', 'g', 'o']), (['v', ' ', 't', 'e', 'j', 't', 'o', ' ', 'm', 'i', 'n', 'u', 't', 'e'], ['0', ' ', 'm', 'i', 'n', 'u', 't', 'e', ' ', 'a', 'g', 'o']), (['b', 'u', 'd', 'u', 'c', 'i', ' ', 'm', 'e', 's', 'i', 'a', 'c'], ['i', 'n', ' ', '1', ' ', 'm', 'o', 'n', 't', 'h']), (['b', 'u', 'd', 'u', 'c', 'i', ' ', 't', 'y', 'z', 'd', 'e', 'n'], ['i', 'n', ' ', '1', ' ', 'w', 'e', 'e', 'k']), (['m', 'i', 'n', 'u', 'l', 'y', ' ', 'm', 'e', 's', 'i', 'a', 'c'], ['1', ' ', 'm', 'o', 'n', 't', 'h', ' ', 'a', 'g', 'o']), (['m', 'i', 'n', 'u', 'l', 'y', ' ', 't', 'y', 'z', 'd', 'e', 'n'], ['1', ' ', 'w', 'e', 'e', 'k', ' ', 'a', 'g', 'o']), (['t', 'e', 'n', 't', 'o', ' ', 'm', 'e', 's', 'i', 'a', 'c'], ['0', ' ', 'm', 'o', 'n', 't', 'h', ' ', 'a', 'g', 'o']), (['t', 'e', 'n', 't', 'o', ' ', 't', 'y', 'z', 'd', 'e', 'n'], ['0', ' ', 'w', 'e', 'e', 'k', ' ', 'a', 'g', 'o']), (['b', 'u', 'd', 'u', 'c', 'i', ' ', 'r', 'o', 'k'], ['i', 'n', ' ', '1', ' ', 'y', 'e', 'a', 'r']), (['m', 'i', 'n', 'u', 'l', 'y', ' ', 'r', 'o', 'k'], ['1', ' ', 'y', 'e', 'a', 'r', ' ', 'a', 'g', 'o']), (['p', 'r', 'e', 'd', 'v', 'c', 'e', 'r', 'o', 'm'], ['2', ' ', 'd', 'a', 'y', ' ', 'a', 'g', 'o']), (['t', 'e', 'n', 't', 'o', ' ', 'r', 'o', 'k'], ['0', ' ', 'y', 'e', 'a', 'r', ' ', 'a', 'g', 'o']), (['p', 'o', 'z', 'a', 'j', 't', 'r', 'a'], ['i', 'n', ' ', '2', ' ', 'd', 'a', 'y', 's']), (['z', 'a', 'j', 't', 'r', 'a'], ['i', 'n', ' ', '1', ' ', 'd', 'a', 'y']), (['t', 'e', 'r', 'a', 'z'], ['0', ' ', 's', 'e', 'c', 'o', 'n', 'd', ' ', 'a', 'g', 'o']), (['v', 'c', 'e', 'r', 'a'], ['1', ' ', 'd', 'a', 'y', ' ', 'a', 'g', 'o']), (['d', 'n', 'e', 's'], ['0', ' ', 'd', 'a', 'y', ' ', 'a', 'g', 'o'])]

/-- internal/data/sl.go: `sl_Locale`, dictionary. -/
def slDict : LangData where
  name := ['s', 'l']
  translations := [(['p', 'o', 'n', 'e', 'd', 'e', 'l', 'j', 'e', 'k'], [['m', 'o', 'n', 'd', 'a', 'y']]), (['s', 'e', 'p', 't', 'e', 'm', 'b', 'e', 'r'], [['s', 'e', 'p', 't', 'e', 'm', 'b', 'e', 'r']]), (['d', 'e', 'c', 'e', 'm', 'b', 'e', 'r'], [['d', 'e', 'c', 'e', 'm', 'b', 'e', 'r']]), (['d', 'o', 'p', 'o', 'l', 'd', 'n', 'e'], [['a', 'm']]), (['n', 'o', 'v', 'e', 'm', 'b', 'e', 'r'], [['n', 'o', 'v', 'e', 'm', 'b', 'e', 'r']]), (['p', 'o', 'p', 'o', 'l', 'd', 'n', 'e'], [['p', 'm']]), (['c', 'e', 't', 'r', 't', 'e', 'k'], [['t', 'h', 'u', 'r', 's', 'd', 'a', 'y']]), (['f', 'e', 'b', 'r', 'u', 'a', 'r'], [['f', 'e', 'b', 'r', 'u', 'a', 'r', 'y']]), (['n', 'e', 'd', 'e', 'l', 'j', 'a'], [['s', 'u', 'n', 'd', 'a', 'y']]), (['o', 'k', 't', 'o', 'b', 'e', 'r'], [['o', 'c', 't', 'o', 'b', 'e', 'r']]), (['s', 'e', 'k', 'u', 'n', 'd', 'a'], [['s', 'e', 'c', 'o', 'n', 'd']]), (['a', 'v', 'g', 'u', 's', 't'], [['a', 'u', 'g', 'u', 's', 't']]), (['j', 'a', 'n', 'u', 'a', 'r'], [['j', 'a', 'n', 'u', 'a', 'r', 'y']]), (['m', 'i', 'n', 'u', 't', 'a'], [['m', 'i', 'n', 'u', 't', 'e']]), (['s', 'o', 'b', 'o', 't', 'a'], [['s', 'a', 't', 'u', 'r', 'd', 'a', 'y']]), (['a', 'p', 'r', 'i', 'l'], [['a', 'p', 'r', 'i', 'l']]), (['j', 'u', 'l', 'i', 'j'], [['j', 'u', 'l', 'y']]), (['j', 'u', 'n', 'i', 'j'], [['j', 'u', 'n', 'e']]), (['m', 'a', 'r', 'e', 'c'], [['m', 'a', 'r', 'c', 'h']]), (['m', 'e', 's', 'e', 'c'], [['m', 'o', 'n', 't', 'h']]), (['p', 'e', 't', 'e', 'k'], [['f', 'r', 'i', 'd', 'a', 'y']]), (['s', 'r', 'e', 'd', 'a'], [['w', 'e', 'd', 'n', 'e', 's', 'd', 'a', 'y']]), (['t', 'e', 'd', 'e', 'n'], [['w', 'e', 'e', 'k']]), (['t', 'o', 'r', 'e', 'k'], [['t', 'u', 'e', 's', 'd', 'a', 'y']]), (['l', 'e', 't', 'o'], [['y', 'e', 'a', 'r']]), (['a', 'p', 'r'], [['a', 'p', 'r', 'i', 'l']]), (['a', 'v', 'g'], [['a', 'u', 'g', 'u', 's', 't']]), (['c', 'e', 't'], [['t', 'h', 'u', 'r', 's', 'd', 'a', 'y']]), (['d', 'a', 'n'], [['d', 'a', 'y']]), (['d', 'e', 'c'], [['d', 'e', 'c', 'e', 'm', 'b', 'e', 'r']]), (['d', 'o', 'p'], [['a', 'm']]), (['f', 'e', 'b'], [['f', 'e', 'b', 'r', 'u', 'a', 'r', 'y']]), (['g', 'm', 't'], [['g', 'm', 't']]), (['j', 'a', 'n'], [['j', 'a', 'n', 'u', 'a', 'r', 'y']]), (['j', 'u', 'l'], [['j', 'u', 'l', 'y']]), (['j', 'u', 'n'], [['j', 'u', 'n', 'e']]), (['m', 'a', 'j'], [['m', 'a', 'y']]), (['m', 'a', 'r'], [['m', 'a', 'r', 'c', 'h']]), (['m', 'e', 's'], [['m', 'o', 'n', 't', 'h']]), (['m', 'i', 'n'], [['m', 'i', 'n', 'u', 't', 'e']]), (['n', 'e', 'd'], [['s', 'u', 'n', 'd', 'a', 'y']]), (['n', 'o', 'v'], [['n', 'o', 'v', 'e', 'm', 'b', 'e', 'r']]), (['o', 'k', 't'], [['o', 'c', 't', 'o', 'b', 'e', 'r']]), (['p', 'e', 't'], [['f', 'r', 'i', 'd', 'a', 'y']]), (['p', 'o', 'n'], [['m', 'o', 'n', 'd', 'a', 'y']]), (['p', 'o', 'p'], [['p', 'm']]), (['s', 'e', 'k'], [['s', 'e', 'c', 'o', 'n', 'd']]), (['s', 'e', 'p'], [['s', 'e', 'p', 't', 'e', 'm', 'b', 'e', 'r']]), (['s', 'o', 'b'], [['s', 'a', 't', 'u', 'r', 'd', 'a', 'y']]), (['s', 'r', 'e'], [['w', 'e', 'd', 'n', 'e', 's', 'd', 'a', 'y']]), (['t', 'e', 'd'], [['w', 'e', 'e', 'k']]), (['t', 'o', 'r'], [['t', 'u', 'e', 's', 'd', 'a', 'y']]), (['u', 'r', 'a'], [['h', 'o', 'u', 'r']]), (['u', 't', 'c'], [['u', 't', 'c']]), (['a', 'm'], [['a', 'm']]), (['p', 'm'], [['p', 'm']]), ([' '], [[' ']]), (['\''], [[]]), (['+'], [['+']]), ([','], [[]]), (['-'], [['-']]), (['.'], [['.']]), (['/'], [['/']]), ([':'], [[':']]), ([';'], [[]]), (['@'], [[]]), (['['], [[]]), ([']'], [[]]), (['h'], [['h', 'o', 'u', 'r']]), (['s'], [['s', 'e', 'c', 'o', 'n', 'd']]), (['z'], [['z']]), (['|'], [[]])]
  relativeType := [(['n', 'a', 's', 'l', 'e', 'd', 'n', 'j', 'i', ' ', 'm', 'e', 's', 'e', 'c'], ['i', 'n', ' ', '1', ' ', 'm', 'o', 'n', 't', 'h']), (['n', 'a', 's', 'l', 'e', 'd', 'n', 'j', 'i', ' ', 't', 'e', 'd', 'e', 'n'], ['i', 'n', ' ', '1', ' ', 'w', 'e', 'e', 'k']), (['n', 'a', 's', 'l', 'e', 'd', 'n', 'j', 'e', ' ', 'l', 'e', 't', 'o'], ['i', 'n', ' ', '1', ' ', 'y', 'e', 'a', 'r']), (['p', 'r', 'e', 'j', 's', 'n', 'j', 'i', ' ', 'm', 'e', 's', 'e', 'c'], ['1', ' ', 'm', 'o', 'n', 't', 'h', ' ', 'a', 'g', 'o']), (['p', 'r', 'e', 'j', 's', 'n', 'j', 'i', ' ', 't', 'e', 'd', 'e', 'n'], ['1', ' ', 'w', 'e', 'e', 'k', ' ', 'a', 'g', 'o']), (['t', 'o', ' ', 'm', 'i', 'n', 'u', 't', 'o'], ['0', ' ', 'm', 'i', 'n', 'u', 't', 'e', ' ', 'a', 'g', 'o']), (['v', ' ', 't', 'e', 'j', ' ', 'u', 'r', 'i'], ['0', ' ', 'h', 'o', 'u', 'r', ' ', 'a', 'g', 'o']), (['t', 'a', ' ', 'm', 'e', 's', 'e', 'c'], ['0', ' ', 'm', 'o', 'n', 't', 'h', ' ', 'a', 'g', 'o']), (['t', 'a', ' ', 't', 'e', 'd', 'e', 'n'], ['0', ' ', 'w', 'e', 'e', 'k', ' ', 'a', 'g', 'o']), (['v', 'c', 'e', 'r', 'a', 'j'], ['1', ' ', 'd', 'a', 'y', ' ', 'a', 'g', 'o']), (['d', 'a', 'n', 'e', 's'], ['0', ' ', 'd', 'a', 'y', ' ', 'a', 'g', 'o']), (['j', 'u', 't', 'r', 'i'], ['i', 'n', ' ', '1', ' ', 'd', 'a', 'y']), (['l', 'e', 't', 'o', 's'], ['0', ' ', 'y', 'e', 'a', 'r', ' ', 'a', 'g', 'o']), (['l', 'a', 'n', 'i'], ['1', ' ', 'y', 'e', 'a', 'r', ' ', 'a', 'g', 'o']), (['z', 'd', 'a', 'j'], ['0', ' ', 's', 'e', 'c', 'o', 'n', 'd', ' ', 'a', 'g', 'o'])]

/-- internal/data/smn.go: `smn_Locale`, dictionary. -/
def smnDict : LangData where
  name := ['s', 'm', 'n']
  translations := [(['r', 'o', 'o', 'v', 'v', 'a', 'd', 'm', 'a', 'a', 'n', 'u'], [['o', 'c', 't', 'o', 'b', 'e', 'r']]), (['u', 'đ', 'đ', 'a', 'i', 'v', 'e', 'm', 'a', 'a', 'n', 'u'], [['j', 'a', 'n', 'u', 'a', 'r', 'y']]), (['v', 'a', 's', 't', 'u', 'p', 'p', 'e', 'e', 'i', 'v', 'i'], [['f', 'r', 'i', 'd', 'a', 'y']]), (['c', 'u', 'a', 'ŋ', 'u', 'i', 'm', 'a', 'a', 'n', 'u'], [['a', 'p', 'r', 'i', 'l']]), (['j', 'u', 'o', 'v', 'l', 'a', 'm', 'a', 'a', 'n', 'u'], [['d', 'e', 'c', 'e', 'm', 'b', 'e', 'r']]), (['n', 'j', 'u', 'h', 'c', 'a', 'm', 'a', 'a', 'n', 'u'], [['m', 'a', 'r', 'c', 'h']]), (['s', 'k', 'a', 'm', 'm', 'a', 'm', 'a', 'a', 'n', 'u'], [['n', 'o', 'v', 'e', 'm', 'b', 'e', 'r']]), (['s', 'y', 'e', 'i', 'n', 'i', 'm', 'a', 'a', 'n', 'u'], [['j', 'u', 'l', 'y']]), (['v', 'a', 's', 't', 'u', 'p', 'p', 'e', 'i', 'v', 'i'], [['f', 'r', 'i', 'd', 'a', 'y']]), (['c', 'o', 'h', 'c', 'a', 'm', 'a', 'a', 'n', 'u'], [['s', 'e', 'p', 't', 'e', 'm', 'b', 'e', 'r']]), (['k', 'u', 'o', 'v', 'a', 'm', 'a', 'a', 'n', 'u'], [['f', 'e', 'b', 'r', 'u', 'a', 'r', 'y']]), (['m', 'a', 'j', 'e', 'b', 'a', 'a', 'r', 'g', 'a'], [['t', 'u', 'e', 's', 'd', 'a', 'y']]), (['p', 'a', 's', 'e', 'p', 'e', 'e', 'i', 'v', 'i'], [['s', 'u', 'n', 'd', 'a', 'y']]), (['p', 'o', 'r', 'g', 'e', 'm', 'a', 'a', 'n', 'u'], [['a', 'u', 'g', 'u', 's', 't']]), (['v', 'u', 'o', 's', 's', 'a', 'a', 'r', 'g', 'a'], [['m', 'o', 'n', 'd', 'a', 'y']]), (['v', 'y', 'e', 's', 'i', 'm', 'a', 'a', 'n', 'u'], [['m', 'a', 'y']]), (['k', 'e', 's', 'i', 'm', 'a', 'a', 'n', 'u'], [['j', 'u', 'n', 'e']]), (['m', 'a', 'j', 'e', 'b', 'a', 'r', 'g', 'a'], [['t', 'u', 'e', 's', 'd', 'a', 'y']]), (['p', 'a', 's', 'e', 'p', 'e', 'i', 'v', 'i'], [['s', 'u', 'n', 'd', 'a', 'y']]), (['t', 'u', 'o', 'r', 'a', 's', 't', 'a', 'h'], [['t', 'h', 'u', 'r', 's', 'd', 'a', 'y']]), (['t', 'u', 'o', 'r', 'a', 's', 't', 'u', 'v'], [['t', 'h', 'u', 'r', 's', 'd', 'a', 'y']]), (['v', 'u', 'o', 's', 's', 'a', 'r', 'g', 'a'], [['m', 'o', 'n', 'd', 'a', 'y']]), (['k', 'o', 's', 'k', 'o', 'k', 'k', 'o'], [['w', 'e', 'd', 'n', 'e', 's', 'd', 'a', 'y']]), (['l', 'a', 'v', 'u', 'r', 'd', 'a', 'h'], [['s', 'a', 't', 'u', 'r', 'd', 'a', 'y']]), (['l', 'a', 'v', 'u', 'r', 'd', 'u', 'v'], [['s', 'a', 't', 'u', 'r', 'd', 'a', 'y']]), (['k', 'o', 's', 'k', 'o', 'h', 'o'], [['w', 'e', 'd', 'n', 'e', 's', 'd', 'a', 'y']]), (['r', 'o', 'o', 'v', 'v', 'a', 'd'], [['o', 'c', 't', 'o', 'b', 'e', 'r']]), (['c', 'u', 'a', 'ŋ', 'u', 'i'], [['a', 'p', 'r', 'i', 'l']]), (['j', 'u', 'o', 'v', 'l', 'a'], [['d', 'e', 'c', 'e', 'm', 'b', 'e', 'r']]), (['m', 'i', 'n', 'u', 't', 'e'], [['m', 'i', 'n', 'u', 't', 'e']]), (['n', 'j', 'u', 'h', 'c', 'a'], [['m', 'a', 'r', 'c', 'h']]), (['s', 'e', 'c', 'o', 'n', 'd'], [['s', 'e', 'c', 'o', 'n', 'd']]), (['s', 'k', 'a', 'm', 'm', 'a'], [['n', 'o', 'v', 'e', 'm', 'b', 'e', 'r']]), (['s', 'y', 'e', 'i', 'n', 'i'], [['j', 'u', 'l', 'y']]), (['c', 'o', 'h', 'c', 'a'], [['s', 'e', 'p', 't', 'e', 'm', 'b', 'e', 'r']]), (['k', 'u', 'o', 'v', 'a'], [['f', 'e', 'b', 'r', 'u', 'a', 'r', 'y']]), (['m', 'o', 'n', 't', 'h'], [['m', 'o', 'n', 't', 'h']]), (['p', 'o', 'r', 'g', 'e'], [['a', 'u', 'g', 'u', 's', 't']]), (['v', 'y', 'e', 's', 'i'], [['m', 'a', 'y']]), (['h', 'o', 'u', 'r'], [['h', 'o', 'u', 'r']]), (['k', 'e', 's', 'i'], [['j', 'u', 'n', 'e']]), (['u', 'đ', 'i', 'v'], [['j', 'a', 'n', 'u', 'a', 'r', 'y']]), (['w', 'e', 'e', 'k'], [['w', 'e', 'e', 'k']]), (['y', 'e', 'a', 'r'], [['y', 'e', 'a', 'r']]), (['d', 'a', 'y'], [['d', 'a', 'y']]), (['g', 'm', 't'], [['g', 'm', 't']]), (['k', 'o', 's'], [['w', 'e', 'd', 'n', 'e', 's', 'd', 'a', 'y']]), (['l', 'a', 'v'], [['s', 'a', 't', 'u', 'r', 'd', 'a', 'y']]), (['m', 'a', 'j'], [['t', 'u', 'e', 's', 'd', 'a', 'y']]), (['p', 'a', 's'], [['s', 'u', 'n', 'd', 'a', 'y']]), (['t', 'u', 'o'], [['t', 'h', 'u', 'r', 's', 'd', 'a', 'y']]), (['u', 't', 'c'], [['u', 't', 'c']]), (['v', 'a', 's'], [['f', 'r', 'i', 'd', 'a', 'y']]), (['v', 'u', 'o'], [['m', 'o', 'n', 'd', 'a', 'y']]), (['a', 'm'], [['a', 'm']]), (['e', 'p'], [['p', 'm']]), (['i', 'p'], [['a', 'm']]), (['p', 'm'], [['p', 'm']]), ([' '], [[' ']]), (['\''], [[]]), (['+'], [['+']]), ([','], [[]]), (['-'], [['-']]), (['.'], [['.']]), (['/'], [['/']]), ([':'], [[':']]), ([';'], [[]]), (['@'], [[]]), (['['], [[]]), ([']'], [[]]), (['z'], [['z']]), (['|'], [[]])]
  relativeType := [(['t', 'h', 'i', 's', ' ', 'm', 'i', 'n', 'u', 't', 'e'], ['0', ' ', 'm', 'i', 'n', 'u', 't', 'e', ' ', 'a', 'g', 'o']), (['l', 'a', 's', 't', ' ', 'm', 'o', 'n', 't', 'h'], ['1', ' ', 'm', 'o', 'n', 't', 'h', ' ', 'a', 'g', 'o']), (['n', 'e', 'x', 't', ' ', 'm', 'o', 'n', 't', 'h'], ['i', 'n', ' ', '1', ' ', 'm', 'o', 'n', 't', 'h']), (['t', 'h', 'i', 's', ' ', 'm', 'o', 'n', 't', 'h'], ['0', ' ', 'm', 'o', 'n', 't', 'h', ' ', 'a', 'g', 'o']), (['l', 'a', 's', 't', ' ', 'w', 'e', 'e', 'k'], ['1', ' ', 'w', 'e', 'e', 'k', ' ', 'a', 'g', 'o']), (['l', 'a', 's', 't', ' ', 'y', 'e', 'a', 'r'], ['1', ' ', 'y', 'e', 'a', 'r', ' ', 'a', 'g', 'o']), (['n', 'e', 'x', 't', ' ', 'w', 'e', 'e', 'k'], ['i', 'n', ' ', '1', ' ', 'w', 'e', 'e', 'k']), (['n', 'e', 'x', 't', ' ', 'y', 'e', 'a', 'r'], ['i', 'n', ' ', '1', ' ', 'y', 'e', 'a', 'r']), (['t', 'h', 'i', 's', ' ', 'h', 'o', 'u', 'r'], ['0', ' ', 'h', 'o', 'u', 'r', ' ', 'a', 'g', 'o']), (['t', 'h', 'i', 's', ' ', 'w', 'e', 'e', 'k'], ['0', ' ', 'w', 'e', 'e', 'k', ' ', 'a', 'g', 'o']), (['t', 'h', 'i', 's', ' ', 'y', 'e', 'a', 'r'], ['0', ' ', 'y', 'e', 'a', 'r', ' ', 'a', 'g', 'o']), (['y', 'e', 's', 't', 'e', 'r', 'd', 'a', 'y'], ['1', ' ', 'd', 'a', 'y', ' ', 'a', 'g', 'o']), (['t', 'o', 'm', 'o', 'r', 'r', 'o', 'w'], ['i', 'n', ' ', '1', ' ', 'd', 'a', 'y']), (['t', 'o', 'd', 'a', 'y'], ['0', ' ', 'd', 'a', 'y', ' ', 'a', 'g', 'o']), (['n', 'o', 'w'], ['0', ' ', 's', 'e', 'c', 'o', 'n', 'd', ' ', 'a', 'g', 'o'])]

/-- internal/data/sn.go: `sn_Locale`, dictionary. -/
def snDict : LangData where
  name := ['s', 'n']
  translations := [(['n', 'y', 'a', 'm', 'a', 'v', 'h', 'u', 'v', 'h', 'u'], [['a', 'u', 'g', 'u', 's', 't']]), (['c', 'h', 'i', 'k', 'u', 'n', 'g', 'u', 'r', 'u'], [['j', 'u', 'l', 'y']]), (['c', 'h', 'i', 's', 'h', 'a', 'n', 'u'], [['f', 'r', 'i', 'd', 'a', 'y']]), (['c', 'h', 'i', 'v', 'a', 'b', 'v', 'u'], [['m', 'a', 'y']]), (['g', 'u', 'm', 'i', 'g', 'u', 'r', 'u'], [['o', 'c', 't', 'o', 'b', 'e', 'r']]), (['k', 'u', 'b', 'v', 'u', 'm', 'b', 'i'], [['a', 'p', 'r', 'i', 'l']]), (['m', 'u', 'g', 'o', 'v', 'e', 'r', 'a'], [['s', 'a', 't', 'u', 'r', 'd', 'a', 'y']]), (['c', 'h', 'i', 'k', 'u', 'm', 'i'], [['j', 'u', 'n', 'e']]), (['c', 'h', 'i', 'p', 'i', 'r', 'i'], [['t', 'u', 'e', 's', 'd', 'a', 'y']]), (['c', 'h', 'i', 't', 'a', 't', 'u'], [['w', 'e', 'd', 'n', 'e', 's', 'd', 'a', 'y']]), (['g', 'u', 'n', 'y', 'a', 'n', 'a'], [['s', 'e', 'p', 't', 'e', 'm', 'b', 'e', 'r']]), (['k', 'u', 'k', 'a', 'd', 'z', 'i'], [['f', 'e', 'b', 'r', 'u', 'a', 'r', 'y']]), (['m', 'u', 'v', 'h', 'u', 'r', 'o'], [['m', 'o', 'n', 'd', 'a', 'y']]), (['s', 'e', 'k', 'o', 'n', 'd', 'i'], [['s', 'e', 'c', 'o', 'n', 'd']]), (['k', 'u', 'r', 'u', 'm', 'e'], [['m', 'a', 'r', 'c', 'h']]), (['m', 'b', 'u', 'd', 'z', 'i'], [['n', 'o', 'v', 'e', 'm', 'b', 'e', 'r']]), (['m', 'i', 'n', 'e', 't', 'i'], [['m', 'i', 'n', 'u', 't', 'e']]), (['m', 'w', 'e', 'd', 'z', 'i'], [['m', 'o', 'n', 't', 'h']]), (['s', 'v', 'o', 'n', 'd', 'o'], [['s', 'u', 'n', 'd', 'a', 'y']]), (['c', 'h', 'i', 'n', 'a'], [['t', 'h', 'u', 'r', 's', 'd', 'a', 'y']]), (['n', 'd', 'i', 'r', 'a'], [['j', 'a', 'n', 'u', 'a', 'r', 'y']]), (['v', 'h', 'i', 'k', 'i'], [['w', 'e', 'e', 'k']]), (['z', 'v', 'i', 't', 'a'], [['d', 'e', 'c', 'e', 'm', 'b', 'e', 'r']]), (['g', 'o', 'r', 'e'], [['y', 'e', 'a', 'r']]), (['z', 'u', 'v', 'a'], [['d', 'a', 'y']]), (['a', 'w', 'a'], [['h', 'o', 'u', 'r']]), (['c', 'h', 'g'], [['j', 'u', 'l', 'y']]), (['c', 'h', 'k'], [['j', 'u', 'n', 'e']]), (['c', 'h', 'n'], [['t', 'h', 'u', 'r', 's', 'd', 'a', 'y']]), (['c', 'h', 'p'], [['t', 'u', 'e', 's', 'd', 'a', 'y']]), (['c', 'h', 's'], [['f', 'r', 'i', 'd', 'a', 'y']]), (['c', 'h', 't'], [['w', 'e', 'd', 'n', 'e', 's', 'd', 'a', 'y']]), (['c', 'h', 'v'], [['m', 'a', 'y']]), (['g', 'm', 't'], [['g', 'm', 't']]), (['g', 'u', 'm'], [['o', 'c', 't', 'o', 'b', 'e', 'r']]), (['g', 'u', 'n'], [['s', 'e', 'p', 't', 'e', 'm', 'b', 'e', 'r']]), (['k', 'u', 'b'], [['a', 'p', 'r', 'i', 'l']]), (['k', 'u', 'k'], [['f', 'e', 'b', 'r', 'u', 'a', 'r', 'y']]), (['k', 'u', 'r'], [['m', 'a', 'r', 'c', 'h']]), (['m', 'b', 'u'], [['n', 'o', 'v', 'e', 'm', 'b', 'e', 'r']]), (['m', 'u', 'g'], [['s', 'a', 't', 'u', 'r', 'd', 'a', 'y']]), (['m', 'u', 'v'], [['m', 'o', 'n', 'd', 'a', 'y']]), (['n', 'd', 'i'], [['j', 'a', 'n', 'u', 'a', 'r', 'y']]), (['n', 'y', 'a'], [['a', 'u', 'g', 'u', 's', 't']]), (['s', 'v', 'o'], [['s', 'u', 'n', 'd', 'a', 'y']]), (['u', 't', 'c'], [['u', 't', 'c']]), (['z', 'v', 'i'], [['d', 'e', 'c', 'e', 'm', 'b', 'e', 'r']]), (['a', 'm'], [['a', 'm']]), (['p', 'm'], [['p', 'm']]), ([' '], [[' ']]), (['\''], [[]]), (['+'], [['+']]), ([','], [[]]), (['-'], [['-']]), (['.'], [['.']]), (['/'], [['/']]), ([':'], [[':']]), ([';'], [[]]), (['@'], [[]]), (['['], [[]]), ([']'], [[]]), (['z'], [['z']]), (['|'], [[]])]
  relativeType := [(['t', 'h', 'i', 's', ' ', 'm', 'i', 'n', 'u', 't', 'e'], ['0', ' ', 'm', 'i', 'n', 'u', 't', 'e', ' ', 'a', 'g', 'o']), (['l', 'a', 's', 't', ' ', 'm', 'o', 'n', 't', 'h'], ['1', ' ', 'm', 'o', 'n', 't', 'h', ' ', 'a', 'g', 'o']), (['n', 'e', 'x', 't', ' ', 'm', 'o', 'n', 't', 'h'], ['i', 'n', ' ', '1', ' ', 'm', 'o', 'n', 't', 'h']), (['t', 'h', 'i', 's', ' ', 'm', 'o', 'n', 't', 'h'], ['0', ' ', 'm', 'o', 'n', 't', 'h', ' ', 'a', 'g', 'o']), (['l', 'a', 's', 't', ' ', 'w', 'e', 'e', 'k'], ['1', ' ', 'w', 'e', 'e', 'k', ' ', 'a', 'g', 'o']), (['l', 'a', 's', 't', ' ', 'y', 'e', 'a', 'r'], ['1', ' ', 'y', 'e', 'a', 'r', ' ', 'a', 'g', 'o']), (['n', 'e', 'x', 't', ' ', 'w', 'e', 'e', 'k'], ['i', 'n', ' ', '1', ' ', 'w', 'e', 'e', 'k']), (['n', 'e', 'x', 't', ' ', 'y', 'e', 'a', 'r'], ['i', 'n', ' ', '1', ' ', 'y', 'e', 'a', 'r']), (['t', 'h', 'i', 's', ' ', 'h', 'o', 'u', 'r'], ['0', ' ', 'h', 'o', 'u', 'r', ' ', 'a', 'g', 'o']), (['t', 'h', 'i', 's', ' ', 'w', 'e', 'e', 'k'], ['0', ' ', 'w', 'e', 'e', 'k', ' ', 'a', 'g', 'o']), (['t', 'h', 'i', 's', ' ', 'y', 'e', 'a', 'r'], ['0', ' ', 'y', 'e', 'a', 'r', ' ', 'a', 'g', 'o']), (['m', 'a', 'n', 'g', 'w', 'a', 'n', 'a'], ['i', 'n', ' ', '1', ' ', 'd', 'a', 'y']), (['n', 'e', 'z', 'u', 'r', 'o'], ['1', ' ', 'd', 'a', 'y', ' ', 'a', 'g', 'o']), (['n', 'h', 'a', 's', 'i'], ['0', ' ', 'd', 'a', 'y', ' ', 'a', 'g', 'o']), (['n', 'o', 'w'], ['0', ' ', 's', 'e', 'c', 'o', 'n', 'd', ' ', 'a', 'g', 'o'])]

/-- internal/data/so.go: `so_Locale`, dictionary. -/
def soDict : LangData where
  name := ['s', 'o']
  translations := [(['b', 'i', 's', 'h', 'a', ' ', 'l', 'a', 'b', 'a', ' ', 'i', 'y', 'o', ' ', 't', 'o', 'b', 'n', 'a', 'a', 'd'], [['d', 'e', 'c', 'e', 'm', 'b', 'e', 'r']]), (['b', 'i', 's', 'h', 'a', ' ', 'k', 'o', 'w', ' ', 'i', 'y', 'o', ' ', 't', 'o', 'b', 'n', 'a', 'a', 'd'], [['n', 'o', 'v', 'e', 'm', 'b', 'e', 'r']]), (['b', 'i', 's', 'h', 'a', ' ', 's', 'a', 'd', 'd', 'e', 'x', 'a', 'a', 'd'], [['m', 'a', 'r', 'c', 'h']]), (['b', 'i', 's', 'h', 'a', ' ', 's', 'a', 'g', 'a', 'a', 'l', 'a', 'a', 'd'], [['s', 'e', 'p', 't', 'e', 'm', 'b', 'e', 'r']]), (['b', 'i', 's', 'h', 'a', ' ', 's', 'i', 'd', 'e', 'e', 'd', 'a', 'a', 'd'], [['a', 'u', 'g', 'u', 's', 't']]), (['b', 'i', 's', 'h', 'a', ' ', 't', 'o', 'd', 'o', 'b', 'a', 'a', 'd'], [['j', 'u', 'l', 'y']]), (['b', 'i', 's', 'h', 'a', ' ', 'k', 'o', 'o', 'b', 'a', 'a', 'd'], [['j', 'a', 'n', 'u', 'a', 'r', 'y']]), (['b', 'i', 's', 'h', 'a', ' ', 's', 'h', 'a', 'n', 'a', 'a', 'd'], [['m', 'a', 'y']]), (['b', 'i', 's', 'h', 'a', ' ', 't', 'o', 'b', 'n', 'a', 'a', 'd'], [['o', 'c', 't', 'o', 'b', 'e', 'r']]), (['b', 'i', 's', 'h', 'a', ' ', 'a', 'f', 'r', 'a', 'a', 'd'], [['a', 'p', 'r', 'i', 'l']]), (['b', 'i', 's', 'h', 'a', ' ', 'l', 'a', 'b', 'a', 'a', 'd'], [['f', 'e', 'b', 'r', 'u', 'a', 'r', 'y']]), (['b', 'i', 's', 'h', 'a', ' ', 'l', 'i', 'x', 'a', 'a', 'd'], [['j', 'u', 'n', 'e']]), (['k', 'h', 'a', 'm', 'i', 'i', 's'], [['t', 'h', 'u', 'r', 's', 'd', 'a', 'y']]), (['t', 'a', 'l', 'a', 'a', 'd', 'o'], [['t', 'u', 'e', 's', 'd', 'a', 'y']]), (['a', 'r', 'b', 'a', 'c', 'o'], [['w', 'e', 'd', 'n', 'e', 's', 'd', 'a', 'y']]), (['i', 's', 'n', 'i', 'i', 'n'], [['m', 'o', 'n', 'd', 'a', 'y']]), (['m', 'i', 'n', 'u', 't', 'e'], [['m', 'i', 'n', 'u', 't', 'e']]), (['s', 'e', 'c', 'o', 'n', 'd'], [['s', 'e', 'c', 'o', 'n', 'd']]), (['j', 'i', 'm', 'c', 'o'], [['f', 'r', 'i', 'd', 'a', 'y']]), (['m', 'o', 'n', 't', 'h'], [['m', 'o', 'n', 't', 'h']]), (['s', 'a', 'b', 't', 'i'], [['s', 'a', 't', 'u', 'r', 'd', 'a', 'y']]), (['a', 'x', 'a', 'd'], [['s', 'u', 'n', 'd', 'a', 'y']]), (['h', 'o', 'u', 'r'], [['h', 'o', 'u', 'r']]), (['w', 'e', 'e', 'k'], [['w', 'e', 'e', 'k']]), (['y', 'e', 'a', 'r'], [['y', 'e', 'a', 'r']]), (['a', 'f', 'r'], [['a', 'p', 'r', 'i', 'l']]), (['a', 'r', 'b'], [['w', 'e', 'd', 'n', 'e', 's', 'd', 'a', 'y']]), (['a', 'x', 'd'], [['s', 'u', 'n', 'd', 'a', 'y']]), (['d', 'a', 'y'], [['d', 'a', 'y']]), (['g', 'm', 't'], [['g', 'm', 't']]), (['i', 's', 'n'], [['m', 'o', 'n', 'd', 'a', 'y']]), (['j', 'i', 'm'], [['f', 'r', 'i', 'd', 'a', 'y']]), (['k', 'h', 'a'], [['t', 'h', 'u', 'r', 's', 'd', 'a', 'y']]), (['k', 'i', 't'], [['n', 'o', 'v', 'e', 'm', 'b', 'e', 'r']]), (['k', 'o', 'b'], [['j', 'a', 'n', 'u', 'a', 'r', 'y']]), (['l', 'a', 'b'], [['f', 'e', 'b', 'r', 'u', 'a', 'r', 'y']]), (['l', 'i', 't'], [['d', 'e', 'c', 'e', 'm', 'b', 'e', 'r']]), (['l', 'i', 'x'], [['j', 'u', 'n', 'e']]), (['s', 'a', 'b'], [['s', 'a', 't', 'u', 'r', 'd', 'a', 'y']]), (['s', 'a', 'd'], [['m', 'a', 'r', 'c', 'h']]), (['s', 'a', 'g'], [['s', 'e', 'p', 't', 'e', 'm', 'b', 'e', 'r']]), (['s', 'h', 'a'], [['m', 'a', 'y']]), (['s', 'i', 'd'], [['a', 'u', 'g', 'u', 's', 't']]), (['t', 'a', 'l'], [['t', 'u', 'e', 's', 'd', 'a', 'y']]), (['t', 'o', 'b'], [['o', 'c', 't', 'o', 'b', 'e', 'r']]), (['t', 'o', 'd'], [['j', 'u', 'l', 'y']]), (['u', 't', 'c'], [['u', 't', 'c']]), (['a', 'm'], [['a', 'm']]), (['g', 'n'], [['p', 'm']]), (['p', 'm'], [['p', 'm']]), (['s', 'n'], [['a', 'm']]), ([' '], [[' ']]), (['\''], [[]]), (['+'], [['+']]), ([','], [[]]), (['-'], [['-']]), (['.'], [['.']]), (['/'], [['/']]), ([':'], [[':']]), ([';'], [[]]), (['@'], [[]]), (['['], [[]]), ([']'], [[]]), (['z'], [['z']]), (['|'], [[]])]
  relativeType := [(['t', 'h', 'i', 's', ' ', 'm', 'i', 'n', 'u', 't', 'e'], ['0', ' ', 'm', 'i', 'n', 'u', 't', 'e', ' ', 'a', 'g', 'o']), (['l', 'a', 's', 't', ' ', 'm', 'o', 'n', 't', 'h'], ['1', ' ', 'm', 'o', 'n', 't', 'h', ' ', 'a', 'g', 'o']), (['n', 'e', 'x', 't', ' ', 'm', 'o', 'n', 't', 'h'], ['i', 'n', ' ', '1', ' ', 'm', 'o', 'n', 't', 'h']), (['t', 'h', 'i', 's', ' ', 'm', 'o', 'n', 't', 'h'], ['0', ' ', 'm', 'o', 'n', 't', 'h', ' ', 'a', 'g', 'o']), (['l', 'a', 's', 't', ' ', 'w', 'e', 'e', 'k'], ['1', ' ', 'w', 'e', 'e', 'k', ' ', 'a', 'g', 'o']), (['l', 'a', 's', 't', ' ', 'y', 'e', 'a', 'r'], ['1', ' ', 'y', 'e', 'a', 'r', ' ', 'a', 'g', 'o']), (['n', 'e', 'x', 't', ' ', 'w', 'e', 'e', 'k'], ['i', 'n', ' ', '1', ' ', 'w', 'e', 'e', 'k']), (['n', 'e', 'x', 't', ' ', 'y', 'e', 'a', 'r'], ['i', 'n', ' ', '1', ' ', 'y', 'e', 'a', 'r']), (['t', 'h', 'i', 's', ' ', 'h', 'o', 'u', 'r'], ['0', ' ', 'h', 'o', 'u', 'r', ' ', 'a', 'g', 'o']), (['t', 'h', 'i', 's', ' ', 'w', 'e', 'e', 'k'], ['0', ' ', 'w', 'e', 'e', 'k', ' ', 'a', 'g', 'o']), (['t', 'h', 'i', 's', ' ', 'y', 'e', 'a', 'r'], ['0', ' ', 'y', 'e', 'a', 'r', ' ', 'a', 'g', 'o']), (['m', 'a', 'a', 'n', 't', 'a'], ['0', ' ', 'd', 'a', 'y', ' ', 'a', 'g', 'o']), (['s', 'h', 'a', 'l', 'a', 'y'], ['1', ' ', 'd', 'a', 'y', ' ', 'a', 'g', 'o']), (['b', 'e', 'r', 'r', 'i'], ['i', 'n', ' ', '1', ' ', 'd', 'a', 'y']), (['n', 'o', 'w'], ['0', ' ', 's', 'e', 'c', 'o', 'n', 'd', ' ', 'a', 'g', 'o'])]

/-- internal/data/so.go: `so_DJ_Locale`, dictionary. -/
def so_DJDict : LangData where
  name := ['s', 'o', '-', 'D', 'J']

/-- internal/data/so.go: `so_ET_Locale`, dictionary. -/
def so_ETDict : LangData where
  name := ['s', 'o', '-', 'E', 'T']

/-- internal/data/so.go: `so_KE_Locale`, dictionary. -/
def so_KEDict : LangData where
  name := ['s', 'o', '-', 'K', 'E']

/-- internal/data/sq.go: `sq_Locale`, dictionary. -/
def sqDict : LangData where
  name := ['s', 'q']
  translations := [(['e', ' ', 'p', 'a', 'r', 'a', 'd', 'i', 't', 'e', 's'], [['a', 'm']]), (['e', ' ', 'p', 'a', 's', 'd', 'i', 't', 'e', 's'], [['p', 'm']]), (['e', ' ', 'm', 'e', 'r', 'k', 'u', 'r', 'e'], [['w', 'e', 'd', 'n', 'e', 's', 'd', 'a', 'y']]), (['e', ' ', 'p', 'r', 'e', 'm', 't', 'e'], [['f', 'r', 'i', 'd', 'a', 'y']]), (['e', ' ', 's', 'h', 't', 'u', 'n', 'e'], [['s', 'a', 't', 'u', 'r', 'd', 'a', 'y']]), (['p', 'a', 'r', 'a', 'd', 'i', 't', 'e'], [['a', 'm']]), (['d', 'h', 'j', 'e', 't', 'o', 'r'], [['d', 'e', 'c', 'e', 'm', 'b', 'e', 'r']]), (['e', ' ', 'e', 'n', 'j', 't', 'e'], [['t', 'h', 'u', 'r', 's', 'd', 'a', 'y']]), (['e', ' ', 'm', 'a', 'r', 't', 'e'], [['t', 'u', 'e', 's', 'd', 'a', 'y']]), (['p', 'a', 's', 'd', 'i', 't', 'e'], [['p', 'm']]), (['q', 'e', 'r', 's', 'h', 'o', 'r'], [['j', 'u', 'n', 'e']]), (['s', 'e', 'k', 'o', 'n', 'd', 'e'], [['s', 'e', 'c', 'o', 'n', 'd']]), (['s', 'h', 't', 'a', 't', 'o', 'r'], [['s', 'e', 'p', 't', 'e', 'm', 'b', 'e', 'r']]), (['e', ' ', 'd', 'i', 'e', 'l'], [['s', 'u', 'n', 'd', 'a', 'y']]), (['e', ' ', 'h', 'e', 'n', 'e'], [['m', 'o', 'n', 'd', 'a', 'y']]), (['k', 'o', 'r', 'r', 'i', 'k'], [['j', 'u', 'l', 'y']]), (['m', 'i', 'n', 'u', 't', 'e'], [['m', 'i', 'n', 'u', 't', 'e']]), (['n', 'e', 'n', 't', 'o', 'r'], [['n', 'o', 'v', 'e', 'm', 'b', 'e', 'r']]), (['s', 'h', 'k', 'u', 'r', 't'], [['f', 'e', 'b', 'r', 'u', 'a', 'r', 'y']]), (['g', 'u', 's', 'h', 't'], [['a', 'u', 'g', 'u', 's', 't']]), (['j', 'a', 'n', 'a', 'r'], [['j', 'a', 'n', 'u', 'a', 'r', 'y']]), (['p', 'r', 'i', 'l', 'l'], [['a', 'p', 'r', 'i', 'l']]), (['t', 'e', 't', 'o', 'r'], [['o', 'c', 't', 'o', 'b', 'e', 'r']]), (['d', 'i', 't', 'e'], [['d', 'a', 'y']]), (['j', 'a', 'v', 'e'], [['w', 'e', 'e', 'k']]), (['m', 'a', 'r', 's'], [['m', 'a', 'r', 'c', 'h']]), (['m', 'u', 'a', 'j'], [['m', 'o', 'n', 't', 'h']]), (['d', 'h', 'j'], [['d', 'e', 'c', 'e', 'm', 'b', 'e', 'r']]), (['d', 'i', 'e'], [['s', 'u', 'n', 'd', 'a', 'y']]), (['e', 'n', 'j'], [['t', 'h', 'u', 'r', 's', 'd', 'a', 'y']]), (['g', 'm', 't'], [['g', 'm', 't']]), (['g', 's', 'h'], [['a', 'u', 'g', 'u', 's', 't']]), (['h', 'e', 'n'], [['m', 'o', 'n', 'd', 'a', 'y']]), (['j', 'a', 'n'], [['j', 'a', 'n', 'u', 'a', 'r', 'y']]), (['k', 'o', 'r'], [['j', 'u', 'l', 'y']]), (['m', 'a', 'j'], [['m', 'a', 'y']]), (['m', 'a', 'r'], [['m', 'a', 'r', 'c', 'h'], ['t', 'u', 'e', 's', 'd', 'a', 'y']]), (['m', 'e', 'r'], [['w', 'e', 'd', 'n', 'e', 's', 'd', 'a', 'y']]), (['m', 'i', 'n'], [['m', 'i', 'n', 'u', 't', 'e']]), (['n', 'e', 'n'], [['n', 'o', 'v', 'e', 'm', 'b', 'e', 'r']]), (['o', 'r', 'e'], [['h', 'o', 'u', 'r']]), (['p', 'r', 'e'], [['f', 'r', 'i', 'd', 'a', 'y']]), (['p', 'r', 'i'], [['a', 'p', 'r', 'i', 'l']]), (['q', 'e', 'r'], [['j', 'u', 'n', 'e']]), (['s', 'e', 'k'], [['s', 'e', 'c', 'o', 'n', 'd']]), (['s', 'h', 'k'], [['f', 'e', 'b', 'r', 'u', 'a', 'r', 'y']]), (['s', 'h', 't'], [['s', 'a', 't', 'u', 'r', 'd', 'a', 'y'], ['s', 'e', 'p', 't', 'e', 'm', 'b', 'e', 'r']]), (['t', 'e', 't'], [['o', 'c', 't', 'o', 'b', 'e', 'r']]), (['u', 't', 'c'], [['u', 't', 'c']]), (['v', 'i', 't'], [['y', 'e', 'a', 'r']]), (['a', 'm'], [['a', 'm']]), (['p', 'm'], [['p', 'm']]), ([' '], [[' ']]), (['\''], [[]]), (['+'], [['+']]), ([','], [[]]), (['-'], [['-']]), (['.'], [['.']]), (['/'], [['/']]), ([':'], [[':']]), ([';'], [[]]), (['@'], [[]]), (['['], [[]]), ([']'], [[]]), (['z'], [['z']]), (['|'], [[]])]
  relativeType := [(['m', 'u', 'a', 'j', 'i', 'n', ' ', 'e', ' ', 'a', 'r', 'd', 'h', 's', 'h', 'e', 'm'], ['i', 'n', ' ', '1', ' ', 'm', 'o', 'n', 't', 'h']), (['j', 'a', 'v', 'e', 'n', ' ', 'e', ' ', 'a', 'r', 'd', 'h', 's', 'h', 'm', 'e'], ['i', 'n', ' ', '1', ' ', 'w', 'e', 'e', 'k']), (['v', 'i', 't', 'i', 'n', ' ', 'e', ' ', 'a', 'r', 'd', 'h', 's', 'h', 'e', 'm'], ['i', 'n', ' ', '1', ' ', 'y', 'e', 'a', 'r']), (['m', 'u', 'a', 'j', 'i', 'n', ' ', 'e', ' ', 'k', 'a', 'l', 'u', 'a', 'r'], ['1', ' ', 'm', 'o', 'n', 't', 'h', ' ', 'a', 'g', 'o']), (['j', 'a', 'v', 'e', 'n', ' ', 'e', ' ', 'k', 'a', 'l', 'u', 'a', 'r'], ['1', ' ', 'w', 'e', 'e', 'k', ' ', 'a', 'g', 'o']), (['v', 'i', 't', 'i', 'n', ' ', 'e', ' ', 'k', 'a', 'l', 'u', 'a', 'r'], ['1', ' ', 'y', 'e', 'a', 'r', ' ', 'a', 'g', 'o']), (['k', 'e', 't', 'e', ' ', 'm', 'i', 'n', 'u', 't', 'e'], ['0', ' ', 'm', 'i', 'n', 'u', 't', 'e', ' ', 'a', 'g', 'o']), (['k', 'e', 't', 'e', ' ', 'j', 'a', 'v', 'e'], ['0', ' ', 'w', 'e', 'e', 'k', ' ', 'a', 'g', 'o']), (['k', 'e', 't', 'e', ' ', 'm', 'u', 'a', 'j'], ['0', ' ', 'm', 'o', 'n', 't', 'h', ' ', 'a', 'g', 'o']), (['k', 'e', 't', 'e', ' ', 'o', 'r', 'e'], ['0', ' ', 'h', 'o', 'u', 'r', ' ', 'a', 'g', 'o']), (['k', 'e', 't', 'e', ' ', 'v', 'i', 't'], ['0', ' ', 'y', 'e', 'a', 'r', ' ', 'a', 'g', 'o']), (['n', 'e', 's', 'e', 'r'], ['i', 'n', ' ', '1', ' ', 'd', 'a', 'y']), (['t', 'a', 'n', 'i'], ['0', ' ', 's', 'e', 'c', 'o', 'n', 'd', ' ', 'a', 'g', 'o']), (['d', 'j', 'e'], ['1', ' ', 'd', 'a', 'y', ' ', 'a', 'g', 'o']), (['s', 'o', 't'], ['0', ' ', 'd', 'a', 'y', ' ', 'a', 'g', 'o'])]

/-- internal/data/sq.go: `sq_MK_Locale`, dictionary. -/
def sq_MKDict : LangData where
  name := ['s', 'q', '-', 'M', 'K']

/-- internal/data/sq.go: `sq_XK_Locale`, dictionary. -/
def sq_XKDict : LangData where
  name := ['s', 'q', '-', 'X', 'K']

/-- internal/data/sr-cyrl.go: `sr_Cyrl_Locale`, dictionary. -/
def sr_CyrlDict : LangData where
  name := ['s', 'r', '-', 'C', 'y', 'r', 'l']
  translations := [(['п', 'о', 'н', 'е', 'д', 'е', 'љ', 'а', 'к'], [['m', 'o', 'n', 'd', 'a', 'y']]), (['п', 'р', 'е', ' ', 'п', 'о', 'д', 'н', 'е'], [['a', 'm']]), (['с', 'е', 'п', 'т', 'е', 'м', 'б', 'а', 'р'], [['s', 'e', 'p', 't', 'e', 'm', 'b', 'e', 'r']]), (['д', 'е', 'ц', 'е', 'м', 'б', 'а', 'р'], [['d', 'e', 'c', 'e', 'm', 'b', 'e', 'r']]), (['н', 'о', 'в', 'е', 'м', 'б', 'а', 'р'], [['n', 'o', 'v', 'e', 'm', 'b', 'e', 'r']]), (['п', 'о', ' ', 'п', 'о', 'д', 'н', 'е'], [['p', 'm']]), (['ч', 'е', 'т', 'в', 'р', 'т', 'а', 'к'], [['t', 'h', 'u', 'r', 's', 'd', 'a', 'y']]), (['о', 'к', 'т', 'о', 'б', 'а', 'р'], [['o', 'c', 't', 'o', 'b', 'e', 'r']]), (['ф', 'е', 'б', 'р', 'у', 'а', 'р'], [['f', 'e', 'b', 'r', 'u', 'a', 'r', 'y']]), (['а', 'в', 'г', 'у', 'с', 'т'], [['a', 'u', 'g', 'u', 's', 't']]), (['г', 'о', 'д', 'и', 'н', 'а'], [['y', 'e', 'a', 'r']]), (['н', 'е', 'д', 'е', 'љ', 'а'], [['w', 'e', 'e', 'k'], ['s', 'u', 'n', 'd', 'a', 'y']]), (['с', 'е', 'к', 'у', 'н', 'д'], [['s', 'e', 'c', 'o', 'n', 'd']]), (['с', 'у', 'б', 'о', 'т', 'а'], [['s', 'a', 't', 'u', 'r', 'd', 'a', 'y']]), (['у', 'т', 'о', 'р', 'а', 'к'], [['t', 'u', 'e', 's', 'd', 'a', 'y']]), (['ј', 'а', 'н', 'у', 'а', 'р'], [['j', 'a', 'n', 'u', 'a', 'r', 'y']]), (['а', 'п', 'р', 'и', 'л'], [['a', 'p', 'r', 'i', 'l']]), (['м', 'е', 'с', 'е', 'ц'], [['m', 'o', 'n', 't', 'h']]), (['м', 'и', 'н', 'у', 'т'], [['m', 'i', 'n', 'u', 't', 'e']]), (['п', 'е', 'т', 'а', 'к'], [['f', 'r', 'i', 'd', 'a', 'y']]), (['с', 'р', 'е', 'д', 'а'], [['w', 'e', 'd', 'n', 'e', 's', 'd', 'a', 'y']]), (['м', 'а', 'р', 'т'], [['m', 'a', 'r', 'c', 'h']]), (['g', 'm', 't'], [['g', 'm', 't']]), (['u', 't', 'c'], [['u', 't', 'c']]), (['а', 'в', 'г'], [['a', 'u', 'g', 'u', 's', 't']]), (['а', 'п', 'р'], [['a', 'p', 'r', 'i', 'l']]), (['г', 'о', 'д'], [['y', 'e', 'a', 'r']]), (['д', 'а', 'н'], [['d', 'a', 'y']]), (['д', 'е', 'ц'], [['d', 'e', 'c', 'e', 'm', 'b', 'e', 'r']]), (['м', 'а', 'р'], [['m', 'a', 'r', 'c', 'h']]), (['м', 'а', 'ј'], [['m', 'a', 'y']]), (['м', 'е', 'с'], [['m', 'o', 'n', 't', 'h']]), (['м', 'и', 'н'], [['m', 'i', 'n', 'u', 't', 'e']]), (['н', 'е', 'д'], [['w', 'e', 'e', 'k'], ['s', 'u', 'n', 'd', 'a', 'y']]), (['н', 'о', 'в'], [['n', 'o', 'v', 'e', 'm', 'b', 'e', 'r']]), (['о', 'к', 'т'], [['o', 'c', 't', 'o', 'b', 'e', 'r']]), (['п', 'е', 'т'], [['f', 'r', 'i', 'd', 'a', 'y']]), (['п', 'о', 'н'], [['m', 'o', 'n', 'd', 'a', 'y']]), (['с', 'а', 'т'], [['h', 'o', 'u', 'r']]), (['с', 'е', 'к'], [['s', 'e', 'c', 'o', 'n', 'd']]), (['с', 'е', 'п'], [['s', 'e', 'p', 't', 'e', 'm', 'b', 'e', 'r']]), (['с', 'р', 'е'], [['w', 'e', 'd', 'n', 'e', 's', 'd', 'a', 'y']]), (['с', 'у', 'б'], [['s', 'a', 't', 'u', 'r', 'd', 'a', 'y']]), (['у', 'т', 'о'], [['t', 'u', 'e', 's', 'd', 'a', 'y']]), (['ф', 'е', 'б'], [['f', 'e', 'b', 'r', 'u', 'a', 'r', 'y']]), (['ч', 'е', 'т'], [['t', 'h', 'u', 'r', 's', 'd', 'a', 'y']]), (['ј', 'а', 'н'], [['j', 'a', 'n', 'u', 'a', 'r', 'y']]), (['ј', 'у', 'л'], [['j', 'u', 'l', 'y']]), (['ј', 'у', 'н'], [['j', 'u', 'n', 'e']]), (['a', 'm'], [['a', 'm']]), (['p', 'm'], [['p', 'm']]), ([' '], [[' ']]), (['\''], [[]]), (['+'], [['+']]), ([','], [[]]), (['-'], [['-']]), (['.'], [['.']]), (['/'], [['/']]), ([':'], [[':']]), ([';'], [[]]), (['@'], [[]]), (['['], [[]]), ([']'], [[]]), (['z'], [['z']]), (['|'], [[]]), (['г'], [['y', 'e', 'a', 'r']]), (['д'], [['d', 'a', 'y']]), (['м'], [['m', 'o', 'n', 't', 'h']]), (['н'], [['w', 'e', 'e', 'k']]), (['с'], [['s', 'e', 'c', 'o', 'n', 'd']]), (['ч'], [['h', 'o', 'u', 'r']])]
  relativeType := [(['с', 'л', 'е', 'д', 'е', 'ћ', 'е', 'г', ' ', 'м', 'е', 'с', 'е', 'ц', 'а'], ['i', 'n', ' ', '1', ' ', 'm', 'o', 'n', 't', 'h']), (['п', 'р', 'о', 'ш', 'л', 'о', 'г', ' ', 'м', 'е', 'с', 'е', 'ц', 'а'], ['1', ' ', 'm', 'o', 'n', 't', 'h', ' ', 'a', 'g', 'o']), (['с', 'л', 'е', 'д', 'е', 'ћ', 'е', ' ', 'г', 'о', 'д', 'и', 'н', 'е'], ['i', 'n', ' ', '1', ' ', 'y', 'e', 'a', 'r']), (['с', 'л', 'е', 'д', 'е', 'ћ', 'е', ' ', 'н', 'е', 'д', 'е', 'љ', 'е'], ['i', 'n', ' ', '1', ' ', 'w', 'e', 'e', 'k']), (['п', 'р', 'о', 'ш', 'л', 'е', ' ', 'г', 'о', 'д', 'и', 'н', 'е'], ['1', ' ', 'y', 'e', 'a', 'r', ' ', 'a', 'g', 'o']), (['п', 'р', 'о', 'ш', 'л', 'е', ' ', 'н', 'е', 'д', 'е', 'љ', 'е'], ['1', ' ', 'w', 'e', 'e', 'k', ' ', 'a', 'g', 'o']), (['о', 'в', 'о', 'г', ' ', 'м', 'е', 'с', 'е', 'ц', 'а'], ['0', ' ', 'm', 'o', 'n', 't', 'h', ' ', 'a', 'g', 'o']), (['о', 'в', 'о', 'г', ' ', 'м', 'и', 'н', 'у', 'т', 'а'], ['0', ' ', 'm', 'i', 'n', 'u', 't', 'e', ' ', 'a', 'g', 'o']), (['о', 'в', 'е', ' ', 'г', 'о', 'д', 'и', 'н', 'е'], ['0', ' ', 'y', 'e', 'a', 'r', ' ', 'a', 'g', 'o']), (['о', 'в', 'е', ' ', 'н', 'е', 'д', 'е', 'љ', 'е'], ['0', ' ', 'w', 'e', 'e', 'k', ' ', 'a', 'g', 'o']), (['о', 'в', 'о', 'г', ' ', 'с', 'а', 'т', 'а'], ['0', ' ', 'h', 'o', 'u', 'r', ' ', 'a', 'g', 'o']), (['д', 'а', 'н', 'а', 'с'], ['0', ' ', 'd', 'a', 'y', ' ', 'a', 'g', 'o']), (['с', 'у', 'т', 'р', 'а'], ['i', 'n', ' ', '1', ' ', 'd', 'a', 'y']), (['с', 'а', 'д', 'а'], ['0', ' ', 's', 'e', 'c', 'o', 'n', 'd', ' ', 'a', 'g', 'o']), (['ј', 'у', 'ч', 'е'], ['1', ' ', 'd', 'a', 'y', ' ', 'a', 'g', 'o'])]

/-- internal/data/sr-cyrl.go: `sr_Cyrl_BA_Locale`, dictionary. -/
def sr_Cyrl_BADict : LangData where
  name := ['s', 'r', '-', 'C', 'y', 'r', 'l', '-', 'B', 'A']
  translations := [(['п', 'р', 'и', 'ј', 'е', ' ', 'п', 'о', 'д', 'н', 'е'], [['a', 'm']]), (['н', 'е', 'д', 'ј', 'е', 'љ', 'а'], [['s', 'u', 'n', 'd', 'a', 'y']]), (['с', 'р', 'и', 'ј', 'е', 'д', 'а'], [['w', 'e', 'd', 'n', 'e', 's', 'd', 'a', 'y']]), (['с', 'е', 'п', 'т'], [['s', 'e', 'p', 't', 'e', 'm', 'b', 'e', 'r']]), (['с', 'р'], [['w', 'e', 'd', 'n', 'e', 's', 'd', 'a', 'y']]), (['у', 'т'], [['t', 'u', 'e', 's', 'd', 'a', 'y']])]

/-- internal/data/sr-cyrl.go: `sr_Cyrl_ME_Locale`, dictionary. -/
def sr_Cyrl_MEDict : LangData where
  name := ['s', 'r', '-', 'C', 'y', 'r', 'l', '-', 'M', 'E']
  translations := [(['п', 'р', 'и', 'ј', 'е', ' ', 'п', 'о', 'д', 'н', 'е'], [['a', 'm']]), (['н', 'е', 'д', 'ј', 'е', 'љ', 'а'], [['s', 'u', 'n', 'd', 'a', 'y']]), (['с', 'р', 'и', 'ј', 'е', 'д', 'а'], [['w', 'e', 'd', 'n', 'e', 's', 'd', 'a', 'y']]), (['с', 'е', 'п', 'т'], [['s', 'e', 'p', 't', 'e', 'm', 'b', 'e', 'r']]), (['с', 'р'], [['w', 'e', 'd', 'n', 'e', 's', 'd', 'a', 'y']]), (['у', 'т'], [['t', 'u', 'e', 's', 'd', 'a', 'y']])]

/-- internal/data/sr-cyrl.go: `sr_Cyrl_XK_Locale`, dictionary. -/
def sr_Cyrl_XKDict : LangData where
  name := ['s', 'r', '-', 'C', 'y', 'r', 'l', '-', 'X', 'K']
  translations := [(['с', 'е', 'п', 'т'], [['s', 'e', 'p', 't', 'e', 'm', 'b', 'e', 'r']]), (['с', 'р'], [['w', 'e', 'd', 'n', 'e', 's', 'd', 'a', 'y']]), (['у', 'т'], [['t', 'u', 'e', 's', 'd', 'a', 'y']])]

/-- internal/data/sr-latn.go: `sr_Latn_Locale`, dictionary. -/
def sr_LatnDict : LangData where
  name := ['s', 'r', '-', 'L', 'a', 't', 'n']
  translations := [(['p', 'o', 'n', 'e', 'd', 'e', 'l', 'j', 'a', 'k'], [['m', 'o', 'n', 'd', 'a', 'y']]), (['p', 'r', 'e', ' ', 'p', 'o', 'd', 'n', 'e'], [['a', 'm']]), (['s', 'e', 'p', 't', 'e', 'm', 'b', 'a', 'r'], [['s', 'e', 'p', 't', 'e', 'm', 'b', 'e', 'r']]), (['c', 'e', 't', 'v', 'r', 't', 'a', 'k'], [['t', 'h', 'u', 'r', 's', 'd', 'a', 'y']]), (['d', 'e', 'c', 'e', 'm', 'b', 'a', 'r'], [['d', 'e', 'c', 'e', 'm', 'b', 'e', 'r']]), (['n', 'o', 'v', 'e', 'm', 'b', 'a', 'r'], [['n', 'o', 'v', 'e', 'm', 'b', 'e', 'r']]), (['p', 'o', ' ', 'p', 'o', 'd', 'n', 'e'], [['p', 'm']]), (['f', 'e', 'b', 'r', 'u', 'a', 'r'], [['f', 'e', 'b', 'r', 'u', 'a', 'r', 'y']]), (['n', 'e', 'd', 'e', 'l', 'j', 'a'], [['w', 'e', 'e', 'k'], ['s', 'u', 'n', 'd', 'a', 'y']]), (['o', 'k', 't', 'o', 'b', 'a', 'r'], [['o', 'c', 't', 'o', 'b', 'e', 'r']]), (['a', 'v', 'g', 'u', 's', 't'], [['a', 'u', 'g', 'u', 's', 't']]), (['g', 'o', 'd', 'i', 'n', 'a'], [['y', 'e', 'a', 'r']]), (['j', 'a', 'n', 'u', 'a', 'r'], [['j', 'a', 'n', 'u', 'a', 'r', 'y']]), (['s', 'e', 'k', 'u', 'n', 'd'], [['s', 'e', 'c', 'o', 'n', 'd']]), (['s', 'u', 'b', 'o', 't', 'a'], [['s', 'a', 't', 'u', 'r', 'd', 'a', 'y']]), (['u', 't', 'o', 'r', 'a', 'k'], [['t', 'u', 'e', 's', 'd', 'a', 'y']]), (['a', 'p', 'r', 'i', 'l'], [['a', 'p', 'r', 'i', 'l']]), (['m', 'e', 's', 'e', 'c'], [['m', 'o', 'n', 't', 'h']]), (['m', 'i', 'n', 'u', 't'], [['m', 'i', 'n', 'u', 't', 'e']]), (['p', 'e', 't', 'a', 'k'], [['f', 'r', 'i', 'd', 'a', 'y']]), (['s', 'r', 'e', 'd', 'a'], [['w', 'e', 'd', 'n', 'e', 's', 'd', 'a', 'y']]), (['m', 'a', 'r', 't'], [['m', 'a', 'r', 'c', 'h']]), (['a', 'p', 'r'], [['a', 'p', 'r', 'i', 'l']]), (['a', 'v', 'g'], [['a', 'u', 'g', 'u', 's', 't']]), (['c', 'e', 't'], [['t', 'h', 'u', 'r', 's', 'd', 'a', 'y']]), (['d', 'a', 'n'], [['d', 'a', 'y']]), (['d', 'e', 'c'], [['d', 'e', 'c', 'e', 'm', 'b', 'e', 'r']]), (['f', 'e', 'b'], [['f', 'e', 'b', 'r', 'u', 'a', 'r', 'y']]), (['g', 'm', 't'], [['g', 'm', 't']]), (['g', 'o', 'd'], [['y', 'e', 'a', 'r']]), (['j', 'a', 'n'], [['j', 'a', 'n', 'u', 'a', 'r', 'y']]), (['j', 'u', 'l'], [['j', 'u', 'l', 'y']]), (['j', 'u', 'n'], [['j', 'u', 'n', 'e']]), (['m', 'a', 'j'], [['m', 'a', 'y']]), (['m', 'a', 'r'], [['m', 'a', 'r', 'c', 'h']]), (['m', 'e', 's'], [['m', 'o', 'n', 't', 'h']]), (['m', 'i', 'n'], [['m', 'i', 'n', 'u', 't', 'e']]), (['n', 'e', 'd'], [['w', 'e', 'e', 'k'], ['s', 'u', 'n', 'd', 'a', 'y']]), (['n', 'o', 'v'], [['n', 'o', 'v', 'e', 'm', 'b', 'e', 'r']]), (['o', 'k', 't'], [['o', 'c', 't', 'o', 'b', 'e', 'r']]), (['p', 'e', 't'], [['f', 'r', 'i', 'd', 'a', 'y']]), (['p', 'o', 'n'], [['m', 'o', 'n', 'd', 'a', 'y']]), (['s', 'a', 't'], [['h', 'o', 'u', 'r']]), (['s', 'e', 'k'], [['s', 'e', 'c', 'o', 'n', 'd']]), (['s', 'e', 'p'], [['s', 'e', 'p', 't', 'e', 'm', 'b', 'e', 'r']]), (['s', 'r', 'e'], [['w', 'e', 'd', 'n', 'e', 's', 'd', 'a', 'y']]), (['s', 'u', 'b'], [['s', 'a', 't', 'u', 'r', 'd', 'a', 'y']]), (['u', 't', 'c'], [['u', 't', 'c']]), (['u', 't', 'o'], [['t', 'u', 'e', 's', 'd', 'a', 'y']]), (['a', 'm'], [['a', 'm']]), (['p', 'm'], [['p', 'm']]), ([' '], [[' ']]), (['\''], [[]]), (['+'], [['+']]), ([','], [[]]), (['-'], [['-']]), (['.'], [['.']]), (['/'], [['/']]), ([':'], [[':']]), ([';'], [[]]), (['@'], [[]]), (['['], [[]]), ([']'], [[]]), (['c'], [['h', 'o', 'u', 'r']]), (['d'], [['d', 'a', 'y']]), (['g'], [['y', 'e', 'a', 'r']]), (['m'], [['m', 'o', 'n', 't', 'h']]), (['n'], [['w', 'e', 'e', 'k']]), (['s'], [['s', 'e', 'c', 'o', 'n', 'd']]), (['z'], [['z']]), (['|'], [[]])]
  relativeType := [(['s', 'l', 'e', 'd', 'e', 'c', 'e', ' ', 'n', 'e', 'd', 'e', 'l', 'j', 'e'], ['i', 'n', ' ', '1', ' ', 'w', 'e', 'e', 'k']), (['s', 'l', 'e', 'd', 'e', 'c', 'e', 'g', ' ', 'm', 'e', 's', 'e', 'c', 'a'], ['i', 'n', ' ', '1', ' ', 'm', 'o', 'n', 't', 'h']), (['p', 'r', 'o', 's', 'l', 'e', ' ', 'n', 'e', 'd', 'e', 'l', 'j', 'e'], ['1', ' ', 'w', 'e', 'e', 'k', ' ', 'a', 'g', 'o']), (['p', 'r', 'o', 's', 'l', 'o', 'g', ' ', 'm', 'e', 's', 'e', 'c', 'a'], ['1', ' ', 'm', 'o', 'n', 't', 'h', ' ', 'a', 'g', 'o']), (['s', 'l', 'e', 'd', 'e', 'c', 'e', ' ', 'g', 'o', 'd', 'i', 'n', 'e'], ['i', 'n', ' ', '1', ' ', 'y', 'e', 'a', 'r']), (['p', 'r', 'o', 's', 'l', 'e', ' ', 'g', 'o', 'd', 'i', 'n', 'e'], ['1', ' ', 'y', 'e', 'a', 'r', ' ', 'a', 'g', 'o']), (['o', 'v', 'e', ' ', 'n', 'e', 'd', 'e', 'l', 'j', 'e'], ['0', ' ', 'w', 'e', 'e', 'k', ' ', 'a', 'g', 'o']), (['o', 'v', 'o', 'g', ' ', 'm', 'e', 's', 'e', 'c', 'a'], ['0', ' ', 'm', 'o', 'n', 't', 'h', ' ', 'a', 'g', 'o']), (['o', 'v', 'o', 'g', ' ', 'm', 'i', 'n', 'u', 't', 'a'], ['0', ' ', 'm', 'i', 'n', 'u', 't', 'e', ' ', 'a', 'g', 'o']), (['o', 'v', 'e', ' ', 'g', 'o', 'd', 'i', 'n', 'e'], ['0', ' ', 'y', 'e', 'a', 'r', ' ', 'a', 'g', 'o']), (['o', 'v', 'o', 'g', ' ', 's', 'a', 't', 'a'], ['0', ' ', 'h', 'o', 'u', 'r', ' ', 'a', 'g', 'o']), (['d', 'a', 'n', 'a', 's'], ['0', ' ', 'd', 'a', 'y', ' ', 'a', 'g', 'o']), (['s', 'u', 't', 'r', 'a'], ['i', 'n', ' ', '1', ' ', 'd', 'a', 'y']), (['j', 'u', 'c', 'e'], ['1', ' ', 'd', 'a', 'y', ' ', 'a', 'g', 'o']), (['s', 'a', 'd', 'a'], ['0', ' ', 's', 'e', 'c', 'o', 'n', 'd', ' ', 'a', 'g', 'o'])]

/-- internal/data/sr-latn.go: `sr_Latn_BA_Locale`, dictionary. -/
def sr_Latn_BADict : LangData where
  name := ['s', 'r', '-', 'L', 'a', 't', 'n', '-', 'B', 'A']
  translations := [(['p', 'r', 'i', 'j', 'e', ' ', 'p', 'o', 'd', 'n', 'e'], [['a', 'm']]), (['n', 'e', 'd', 'j', 'e', 'l', 'j', 'a'], [['s', 'u', 'n', 'd', 'a', 'y']]), (['s', 'r', 'i', 'j', 'e', 'd', 'a'], [['w', 'e', 'd', 'n', 'e', 's', 'd', 'a', 'y']]), (['s', 'e', 'p', 't'], [['s', 'e', 'p', 't', 'e', 'm', 'b', 'e', 'r']]), (['s', 'r'], [['w', 'e', 'd', 'n', 'e', 's', 'd', 'a', 'y']]), (['u', 't'], [['t', 'u', 'e', 's', 'd', 'a', 'y']])]

/-- internal/data/sr-latn.go: `sr_Latn_ME_Locale`, dictionary. -/
def sr_Latn_MEDict : LangData where
  name := ['s', 'r', '-', 'L', 'a', 't', 'n', '-', 'M', 'E']
  translations := [(['p', 'r', 'i', 'j', 'e', ' ', 'p', 'o', 'd', 'n', 'e'], [['a', 'm']]), (['n', 'e', 'd', 'j', 'e', 'l', 'j', 'a'], [['s', 'u', 'n', 'd', 'a', 'y']]), (['s', 'r', 'i', 'j', 'e', 'd', 'a'], [['w', 'e', 'd', 'n', 'e', 's', 'd', 'a', 'y']]), (['s', 'e', 'p', 't'], [['s', 'e', 'p', 't', 'e', 'm', 'b', 'e', 'r']]), (['s', 'r'], [['w', 'e', 'd', 'n', 'e', 's', 'd', 'a', 'y']]), (['u', 't'], [['t', 'u', 'e', 's', 'd', 'a', 'y']])]

/-- internal/data/sr-latn.go: `sr_Latn_XK_Locale`, dictionary. -/
def sr_Latn_XKDict : LangData where
  name := ['s', 'r', '-', 'L', 'a', 't', 'n', '-', 'X', 'K']
  translations := [(['s', 'e', 'p', 't'], [['s', 'e', 'p', 't', 'e', 'm', 'b', 'e', 'r']]), (['s', 'r'], [['w', 'e', 'd', 'n', 'e', 's', 'd', 'a', 'y']]), (['u', 't'], [['t', 'u', 'e', 's', 'd', 'a', 'y']])]

/-- internal/data/sr.go: `sr_Locale`, dictionary. -/
def srDict : LangData where
  name := ['s', 'r']
  translations := [(['п', 'о', 'н', 'е', 'д', 'е', 'љ', 'а', 'к'], [['m', 'o', 'n', 'd', 'a', 'y']]), (['п', 'р', 'е', ' ', 'п', 'о', 'д', 'н', 'е'], [['a', 'm']]), (['с', 'е', 'п', 'т', 'е', 'м', 'б', 'а', 'р'], [['s', 'e', 'p', 't', 'e', 'm', 'b', 'e', 'r']]), (['д', 'е', 'ц', 'е', 'м', 'б', 'а', 'р'], [['d', 'e', 'c', 'e', 'm', 'b', 'e', 'r']]), (['н', 'о', 'в', 'е', 'м', 'б', 'а', 'р'], [['n', 'o', 'v', 'e', 'm', 'b', 'e', 'r']]), (['п', 'о', ' ', 'п', 'о', 'д', 'н', 'е'], [['p', 'm']]), (['ч', 'е', 'т', 'в', 'р', 'т', 'а', 'к'], [['t', 'h', 'u', 'r', 's', 'd', 'a', 'y']]), (['о', 'к', 'т', 'о', 'б', 'а', 'р'], [['o', 'c', 't', 'o', 'b', 'e', 'r']]), (['ф', 'е', 'б', 'р', 'у', 'а', 'р'], [['f', 'e', 'b', 'r', 'u', 'a', 'r', 'y']]), (['а', 'в', 'г', 'у', 'с', 'т'], [['a', 'u', 'g', 'u', 's', 't']]), (['г', 'о', 'д', 'и', 'н', 'а'], [['y', 'e', 'a', 'r']]), (['н', 'е', 'д', 'е', 'љ', 'а'], [['w', 'e', 'e', 'k'], ['s', 'u', 'n', 'd', 'a', 'y']]), (['с', 'е', 'к', 'у', 'н', 'д'], [['s', 'e', 'c', 'o', 'n', 'd']]), (['с', 'у', 'б', 'о', 'т', 'а'], [['s', 'a', 't', 'u', 'r', 'd', 'a', 'y']]), (['у', 'т', 'о', 'р', 'а', 'к'], [['t', 'u', 'e', 's', 'd', 'a', 'y']]), (['ј', 'а', 'н', 'у', 'а', 'р'], [['j', 'a', 'n', 'u', 'a', 'r', 'y']]), (['а', 'п', 'р', 'и', 'л'], [['a', 'p', 'r', 'i', 'l']]), (['м', 'е', 'с', 'е', 'ц'], [['m', 'o', 'n', 't', 'h']]), (['м', 'и', 'н', 'у', 'т'], [['m', 'i', 'n', 'u', 't', 'e']]), (['п', 'е', 'т', 'а', 'к'], [['f', 'r', 'i', 'd', 'a', 'y']]), (['с', 'р', 'е', 'д', 'а'], [['w', 'e', 'd', 'n', 'e', 's', 'd', 'a', 'y']]), (['м', 'а', 'р', 'т'], [['m', 'a', 'r', 'c', 'h']]), (['g', 'm', 't'], [['g', 'm', 't']]), (['u', 't', 'c'], [['u', 't', 'c']]), (['а', 'в', 'г'], [['a', 'u', 'g', 'u', 's', 't']]), (['а', 'п', 'р'], [['a', 'p', 'r', 'i', 'l']]), (['г', 'о', 'д'], [['y', 'e', 'a', 'r']]), (['д', 'а', 'н'], [['d', 'a', 'y']]), (['д', 'е', 'ц'], [['d', 'e', 'c', 'e', 'm', 'b', 'e', 'r']]), (['м', 'а', 'р'], [['m', 'a', 'r', 'c', 'h']]), (['м', 'а', 'ј'], [['m', 'a', 'y']]), (['м', 'е', 'с'], [['m', 'o', 'n', 't', 'h']]), (['м', 'и', 'н'], [['m', 'i', 'n', 'u', 't', 'e']]), (['н', 'е', 'д'], [['w', 'e', 'e', 'k'], ['s', 'u', 'n', 'd', 'a', 'y']]), (['н', 'о', 'в'], [['n', 'o', 'v', 'e', 'm', 'b', 'e', 'r']]), (['о', 'к', 'т'], [['o', 'c', 't', 'o', 'b', 'e', 'r']]), (['п', 'е', 'т'], [['f', 'r', 'i', 'd', 'a', 'y']]), (['п', 'о', 'н'], [['m', 'o', 'n', 'd', 'a', 'y']]), (['с', 'а', 'т'], [['h', 'o', 'u', 'r']]), (['с', 'е', 'к'], [['s', 'e', 'c', 'o', 'n', 'd']]), (['с', 'е', 'п'], [['s', 'e', 'p', 't', 'e', 'm', 'b', 'e', 'r']]), (['с', 'р', 'е'], [['w', 'e', 'd', 'n', 'e', 's', 'd', 'a', 'y']]), (['с', 'у', 'б'], [['s', 'a', 't', 'u', 'r', 'd', 'a', 'y']]), (['у', 'т', 'о'], [['t', 'u', 'e', 's', 'd', 'a', 'y']]), (['ф', 'е', 'б'], [['f', 'e', 'b', 'r', 'u', 'a', 'r', 'y']]), (['ч', 'е', 'т'], [['t', 'h', 'u', 'r', 's', 'd', 'a', 'y']]), (['ј', 'а', 'н'], [['j', 'a', 'n', 'u', 'a', 'r', 'y']]), (['ј', 'у', 'л'], [['j', 'u', 'l', 'y']]), (['ј', 'у', 'н'], [['j', 'u', 'n', 'e']]), (['a', 'm'], [['a', 'm']]), (['p', 'm'], [['p', 'm']]), ([' '], [[' ']]), (['\''], [[]]), (['+'], [['+']]), ([','], [[]]), (['-'], [['-']]), (['.'], [['.']]), (['/'], [['/']]), ([':'], [[':']]), ([';'], [[]]), (['@'], [[]]), (['['], [[]]), ([']'], [[]]), (['z'], [['z']]), (['|'], [[]]), (['г'], [['y', 'e', 'a', 'r']]), (['д'], [['d', 'a', 'y']]), (['м'], [['m', 'o', 'n', 't', 'h']]), (['н'], [['w', 'e', 'e', 'k']]), (['с'], [['s', 'e', 'c', 'o', 'n', 'd']]), (['ч'], [['h', 'o', 'u', 'r']])]
  relativeType := [(['с', 'л', 'е', 'д', 'е', 'ћ', 'е', 'г', ' ', 'м', 'е', 'с', 'е', 'ц', 'а'], ['i', 'n', ' ', '1', ' ', 'm', 'o', 'n', 't', 'h']), (['п', 'р', 'о', 'ш', 'л', 'о', 'г', ' ', 'м', 'е', 'с', 'е', 'ц', 'а'], ['1', ' ', 'm', 'o', 'n', 't', 'h', ' ', 'a', 'g', 'o']), (['с', 'л', 'е', 'д', 'е', 'ћ', 'е', ' ', 'г', 'о', 'д', 'и', 'н', 'е'], ['i', 'n', ' ', '1', ' ', 'y', 'e', 'a', 'r']), (['с', 'л', 'е', 'д', 'е', 'ћ', 'е', ' ', 'н', 'е', 'д', 'е', 'љ', 'е'], ['i', 'n', ' ', '1', ' ', 'w', 'e', 'e', 'k']), (['п', 'р', 'о', 'ш', 'л', 'е', ' ', 'г', 'о', 'д', 'и', 'н', 'е'], ['1', ' ', 'y', 'e', 'a', 'r', ' ', 'a', 'g', 'o']), (['п', 'р', 'о', 'ш', 'л', 'е', ' ', 'н', 'е', 'д', 'е', 'љ', 'е'], ['1', ' ', 'w', 'e', 'e', 'k', ' ', 'a', 'g', 'o']), (['о', 'в', 'о', 'г', ' ', 'м', 'е', 'с', 'е', 'ц', 'а'], ['0', ' ', 'm', 'o', 'n', 't', 'h', ' ', 'a', 'g', 'o']), (['о', 'в', 'о', 'г', ' ', 'м', 'и', 'н', 'у', 'т', 'а'], ['0', ' ', 'm', 'i', 'n', 'u', 't', 'e', ' ', 'a', 'g', 'o']), (['о', 'в', 'е', ' ', 'г', 'о', 'д', 'и', 'н', 'е'], ['0', ' ', 'y', 'e', 'a', 'r', ' ', 'a', 'g', 'o']), (['о', 'в', 'е', ' ', 'н', 'е', 'д', 'е', 'љ', 'е'], ['0', ' ', 'w', 'e', 'e', 'k', ' ', 'a', 'g', 'o']), (['о', 'в', 'о', 'г', ' ', 'с', 'а', 'т', 'а'], ['0', ' ', 'h', 'o', 'u', 'r', ' ', 'a', 'g', 'o']), (['д', 'а', 'н', 'а', 'с'], ['0', ' ', 'd', 'a', 'y', ' ', 'a', 'g', 'o']), (['с', 'у', 'т', 'р', 'а'], ['i', 'n', ' ', '1', ' ', 'd', 'a', 'y']), (['с', 'а', 'д', 'а'], ['0', ' ', 's', 'e', 'c', 'o', 'n', 'd', ' ', 'a', 'g', 'o']), (['ј', 'у', 'ч', 'е'], ['1', ' ', 'd', 'a', 'y', ' ', 'a', 'g', 'o'])]

/-- internal/data/sv.go: `sv_Locale`, dictionary. -/
def svDict : LangData where
  name := ['s', 'v']
  splitterGroup := 1
  translations := [(['e', 'f', 't', 'e', 'r', 'm', 'i', 'd', 'd', 'a', 'g'], [['p', 'm']]), (['f', 'o', 'r', 'm', 'i', 'd', 'd', 'a', 'g'], [['a', 'm']]), (['s', 'e', 'p', 't', 'e', 'm', 'b', 'e', 'r'], [['s', 'e', 'p', 't', 'e', 'm', 'b', 'e', 'r']]), (['d', 'e', 'c', 'e', 'm', 'b', 'e', 'r'], [['d', 'e', 'c', 'e', 'm', 'b', 'e', 'r']]), (['f', 'e', 'b', 'r', 'u', 'a', 'r', 'i'], [['f', 'e', 'b', 'r', 'u', 'a', 'r', 'y']]), (['n', 'o', 'v', 'e', 'm', 'b', 'e', 'r'], [['n', 'o', 'v', 'e', 'm', 'b', 'e', 'r']]), (['s', 'e', 'k', 'u', 'n', 'd', 'e', 'r'], [['s', 'e', 'c', 'o', 'n', 'd']]), (['a', 'u', 'g', 'u', 's', 't', 'i'], [['a', 'u', 'g', 'u', 's', 't']]), (['f', 'r', 'a', 'n', ' ', 'n', 'u'], [['i', 'n']]), (['j', 'a', 'n', 'u', 'a', 'r', 'i'], [['j', 'a', 'n', 'u', 'a', 'r', 'y']]), (['m', 'a', 'n', 'a', 'd', 'e', 'n'], [['m', 'o', 'n', 't', 'h']]), (['m', 'a', 'n', 'a', 'd', 'e', 'r'], [['m', 'o', 'n', 't', 'h']]), (['m', 'i', 'n', 'u', 't', 'e', 'r'], [['m', 'i', 'n', 'u', 't', 'e']]), (['o', 'k', 't', 'o', 'b', 'e', 'r'], [['o', 'c', 't', 'o', 'b', 'e', 'r']]), (['t', 'o', 'r', 's', 'd', 'a', 'g'], [['t', 'h', 'u', 'r', 's', 'd', 'a', 'y']]), (['f', 'r', 'e', 'd', 'a', 'g'], [['f', 'r', 'i', 'd', 'a', 'y']]), (['l', 'o', 'r', 'd', 'a', 'g'], [['s', 'a', 't', 'u', 'r', 'd', 'a', 'y']]), (['m', 'a', 'n', 'd', 'a', 'g'], [['m', 'o', 'n', 'd', 'a', 'y']]), (['o', 'n', 's', 'd', 'a', 'g'], [['w', 'e', 'd', 'n', 'e', 's', 'd', 'a', 'y']]), (['s', 'e', 'k', 'u', 'n', 'd'], [['s', 'e', 'c', 'o', 'n', 'd']]), (['s', 'o', 'n', 'd', 'a', 'g'], [['s', 'u', 'n', 'd', 'a', 'y']]), (['t', 'i', 'm', 'm', 'a', 'r'], [['h', 'o', 'u', 'r']]), (['t', 'i', 's', 'd', 'a', 'g'], [['t', 'u', 'e', 's', 'd', 'a', 'y']]), (['v', 'e', 'c', 'k', 'o', 'r'], [['w', 'e', 'e', 'k']]), (['a', 'p', 'r', 'i', 'l'], [['a', 'p', 'r', 'i', 'l']]), (['d', 'a', 'g', 'a', 'r'], [['d', 'a', 'y']]), (['m', 'a', 'n', 'a', 'd'], [['m', 'o', 'n', 't', 'h']]), (['m', 'i', 'n', 'u', 't'], [['m', 'i', 'n', 'u', 't', 'e']]), (['s', 'e', 'd', 'a', 'n'], [['a', 'g', 'o']]), (['t', 'i', 'm', 'm', 'e'], [['h', 'o', 'u', 'r']]), (['t', 'o', 'r', 's', 'd'], [['t', 'h', 'u', 'r', 's', 'd', 'a', 'y']]), (['v', 'e', 'c', 'k', 'a'], [['w', 'e', 'e', 'k']]), (['a', 'r', 'e', 't'], [['y', 'e', 'a', 'r']]), (['f', 'r', 'e', 'd'], [['f', 'r', 'i', 'd', 'a', 'y']]), (['j', 'u', 'l', 'i'], [['j', 'u', 'l', 'y']]), (['j', 'u', 'n', 'i'], [['j', 'u', 'n', 'e']]), (['l', 'o', 'r', 'd'], [['s', 'a', 't', 'u', 'r', 'd', 'a', 'y']]), (['m', 'a', 'n', 'd'], [['m', 'o', 'n', 'd', 'a', 'y']]), (['m', 'a', 'r', 's'], [['m', 'a', 'r', 'c', 'h']]), (['o', 'n', 's', 'd'], [['w', 'e', 'd', 'n', 'e', 's', 'd', 'a', 'y']]), (['s', 'e', 'p', 't'], [['s', 'e', 'p', 't', 'e', 'm', 'b', 'e', 'r']]), (['s', 'o', 'n', 'd'], [['s', 'u', 'n', 'd', 'a', 'y']]), (['t', 'i', 's', 'd'], [['t', 'u', 'e', 's', 'd', 'a', 'y']]), (['t', 'o', 'r', 's'], [['t', 'h', 'u', 'r', 's', 'd', 'a', 'y']]), (['a', 'p', 'r'], [['a', 'p', 'r', 'i', 'l']]), (['a', 'u', 'g'], [['a', 'u', 'g', 'u', 's', 't']]), (['d', 'a', 'g'], [['d', 'a', 'y']]), (['d', 'e', 'c'], [['d', 'e', 'c', 'e', 'm', 'b', 'e', 'r']]), (['d', 'e', 'n'], [[]]), (['f', 'e', 'b'], [['f', 'e', 'b', 'r', 'u', 'a', 'r', 'y']]), (['f', 'r', 'e'], [['f', 'r', 'i', 'd', 'a', 'y']]), (['g', 'm', 't'], [['g', 'm', 't']]), (['j', 'a', 'n'], [['j', 'a', 'n', 'u', 'a', 'r', 'y']]), (['j', 'u', 'l'], [['j', 'u', 'l', 'y']]), (['j', 'u', 'n'], [['j', 'u', 'n', 'e']]), (['l', 'o', 'r'], [['s', 'a', 't', 'u', 'r', 'd', 'a', 'y']]), (['m', 'a', 'j'], [['m', 'a', 'y']]), (['m', 'a', 'n'], [['m', 'o', 'n', 't', 'h'], ['m', 'o', 'n', 'd', 'a', 'y']]), (['m', 'i', 'n'], [['m', 'i', 'n', 'u', 't', 'e']]), (['n', 'o', 'v'], [['n', 'o', 'v', 'e', 'm', 'b', 'e', 'r']]), (['o', 'k', 't'], [['o', 'c', 't', 'o', 'b', 'e', 'r']]), (['o', 'n', 's'], [['w', 'e', 'd', 'n', 'e', 's', 'd', 'a', 'y']]), (['s', 'e', 'k'], [['s', 'e', 'c', 'o', 'n', 'd']]), (['s', 'e', 'p'], [['s', 'e', 'p', 't', 'e', 'm', 'b', 'e', 'r']]), (['s', 'o', 'n'], [['s', 'u', 'n', 'd', 'a', 'y']]), (['t', 'i', 'm'], [['h', 'o', 'u', 'r']]), (['t', 'i', 's'], [['t', 'u', 'e', 's', 'd', 'a', 'y']]), (['u', 't', 'c'], [['u', 't', 'c']]), (['a', 'm'], [['a', 'm']]), (['a', 'r'], [['y', 'e', 'a', 'r']]), (['e', 'm'], [['p', 'm']]), (['f', 'm'], [['a', 'm']]), (['o', 'm'], [['i', 'n']]), (['p', 'a'], [[]]), (['p', 'm'], [['p', 'm']]), ([' '], [[' ']]), (['\''], [[]]), (['+'], [['+']]), ([','], [[]]), (['-'], [['-']]), (['.'], [['.']]), (['/'], [['/']]), ([':'], [[':']]), ([';'], [[]]), (['@'], [[]]), (['['], [[]]), ([']'], [[]]), (['h'], [['h', 'o', 'u', 'r']]), (['m'], [['m', 'o', 'n', 't', 'h'], ['m', 'i', 'n', 'u', 't', 'e']]), (['s'], [['s', 'e', 'c', 'o', 'n', 'd']]), (['t'], [['h', 'o', 'u', 'r']]), (['v'], [['w', 'e', 'e', 'k']]), (['z'], [['z']]), (['|'], [[]])]
  relativeType := [(['f', 'o', 'r', 'r', 'a', ' ', 'm', 'a', 'n', 'a', 'd', 'e', 'n'], ['1', ' ', 'm', 'o', 'n', 't', 'h', ' ', 'a', 'g', 'o']), (['f', 'o', 'r', 'r', 'a', ' ', 'v', 'e', 'c', 'k', 'a', 'n'], ['1', ' ', 'w', 'e', 'e', 'k', ' ', 'a', 'g', 'o']), (['d', 'e', 'n', 'n', 'a', ' ', 'm', 'a', 'n', 'a', 'd'], ['0', ' ', 'm', 'o', 'n', 't', 'h', ' ', 'a', 'g', 'o']), (['d', 'e', 'n', 'n', 'a', ' ', 'm', 'i', 'n', 'u', 't'], ['0', ' ', 'm', 'i', 'n', 'u', 't', 'e', ' ', 'a', 'g', 'o']), (['d', 'e', 'n', 'n', 'a', ' ', 't', 'i', 'm', 'm', 'e'], ['0', ' ', 'h', 'o', 'u', 'r', ' ', 'a', 'g', 'o']), (['d', 'e', 'n', 'n', 'a', ' ', 'v', 'e', 'c', 'k', 'a'], ['0', ' ', 'w', 'e', 'e', 'k', ' ', 'a', 'g', 'o']), (['n', 'a', 's', 't', 'a', ' ', 'm', 'a', 'n', 'a', 'd'], ['i', 'n', ' ', '1', ' ', 'm', 'o', 'n', 't', 'h']), (['n', 'a', 's', 't', 'a', ' ', 'v', 'e', 'c', 'k', 'a'], ['i', 'n', ' ', '1', ' ', 'w', 'e', 'e', 'k']), (['f', 'o', 'r', 'r', 'a', ' ', 'a', 'r', 'e', 't'], ['1', ' ', 'y', 'e', 'a', 'r', ' ', 'a', 'g', 'o']), (['d', 'e', 'n', 'n', 'a', ' ', 'm', 'a', 'n'], ['0', ' ', 'm', 'o', 'n', 't', 'h', ' ', 'a', 'g', 'o']), (['f', 'o', 'r', 'r', 'a', ' ', 'm', 'a', 'n'], ['1', ' ', 'm', 'o', 'n', 't', 'h', ' ', 'a', 'g', 'o']), (['n', 'a', 's', 't', 'a', ' ', 'm', 'a', 'n'], ['i', 'n', ' ', '1', ' ', 'm', 'o', 'n', 't', 'h']), (['i', ' ', 'm', 'o', 'r', 'g', 'o', 'n'], ['i', 'n', ' ', '1', ' ', 'd', 'a', 'y']), (['n', 'a', 's', 't', 'a', ' ', 'a', 'r'], ['i', 'n', ' ', '1', ' ', 'y', 'e', 'a', 'r']), (['d', 'e', 'n', 'n', 'a', ' ', 'v'], ['0', ' ', 'w', 'e', 'e', 'k', ' ', 'a', 'g', 'o']), (['f', 'o', 'r', 'r', 'a', ' ', 'v'], ['1', ' ', 'w', 'e', 'e', 'k', ' ', 'a', 'g', 'o']), (['f', 'o', 'r', 'r', 'g', 'a', 'r'], ['2', ' ', 'd', 'a', 'y', ' ', 'a', 'g', 'o']), (['i', 'm', 'o', 'r', 'g', 'o', 'n'], ['i', 'n', ' ', '1', ' ', 'd', 'a', 'y']), (['n', 'a', 's', 't', 'a', ' ', 'v'], ['i', 'n', ' ', '1', ' ', 'w', 'e', 'e', 'k']), (['i', ' ', 'f', 'j', 'o', 'l'], ['1', ' ', 'y', 'e', 'a', 'r', ' ', 'a', 'g', 'o']), (['i', ' ', 'd', 'a', 'g'], ['0', ' ', 'd', 'a', 'y', ' ', 'a', 'g', 'o']), (['i', ' ', 'g', 'a', 'r'], ['1', ' ', 'd', 'a', 'y', ' ', 'a', 'g', 'o']), (['i', ' ', 'a', 'r'], ['0', ' ', 'y', 'e', 'a', 'r', ' ', 'a', 'g', 'o']), (['i', 'd', 'a', 'g'], ['0', ' ', 'd', 'a', 'y', ' ', 'a', 'g', 'o']), (['i', 'g', 'a', 'r'], ['1', ' ', 'd', 'a', 'y', ' ', 'a', 'g', 'o']), (['n', 'u'], ['0', ' ', 's', 'e', 'c', 'o', 'n', 'd', ' ', 'a', 'g', 'o'])]

/-- internal/data/sv.go: `sv_AX_Locale`, dictionary. -/
def sv_AXDict : LangData where
  name := ['s', 'v', '-', 'A', 'X']

/-- internal/data/sv.go: `sv_FI_Locale`, dictionary. -/
def sv_FIDict : LangData where
  name := ['s', 'v', '-', 'F', 'I']

/-- internal/data/sw.go: `sw_Locale`, dictionary. -/
def swDict : LangData where
  name := ['s', 'w']
  translations := [(['a', 'l', 'h', 'a', 'm', 'i', 's', 'i'], [['t', 'h', 'u', 'r', 's', 'd', 'a', 'y']]), (['f', 'e', 'b', 'r', 'u', 'a', 'r', 'i'], [['f', 'e', 'b', 'r', 'u', 'a', 'r', 'y']]), (['j', 'u', 'm', 'a', 'm', 'o', 's', 'i'], [['s', 'a', 't', 'u', 'r', 'd', 'a', 'y']]), (['j', 'u', 'm', 'a', 'p', 'i', 'l', 'i'], [['s', 'u', 'n', 'd', 'a', 'y']]), (['j', 'u', 'm', 'a', 't', 'a', 'n', 'o'], [['w', 'e', 'd', 'n', 'e', 's', 'd', 'a', 'y']]), (['j', 'u', 'm', 'a', 't', 'a', 't', 'u'], [['m', 'o', 'n', 'd', 'a', 'y']]), (['s', 'e', 'p', 't', 'e', 'm', 'b', 'a'], [['s', 'e', 'p', 't', 'e', 'm', 'b', 'e', 'r']]), (['a', 's', 'u', 'b', 'u', 'h', 'i'], [['a', 'm']]), (['d', 'e', 's', 'e', 'm', 'b', 'a'], [['d', 'e', 'c', 'e', 'm', 'b', 'e', 'r']]), (['j', 'a', 'n', 'u', 'a', 'r', 'i'], [['j', 'a', 'n', 'u', 'a', 'r', 'y']]), (['j', 'u', 'm', 'a', 'n', 'n', 'e'], [['t', 'u', 'e', 's', 'd', 'a', 'y']]), (['n', 'o', 'v', 'e', 'm', 'b', 'a'], [['n', 'o', 'v', 'e', 'm', 'b', 'e', 'r']]), (['s', 'e', 'k', 'u', 'n', 'd', 'e'], [['s', 'e', 'c', 'o', 'n', 'd']]), (['a', 'g', 'o', 's', 't', 'i'], [['a', 'u', 'g', 'u', 's', 't']]), (['a', 'p', 'r', 'i', 'l', 'i'], [['a', 'p', 'r', 'i', 'l']]), (['d', 'a', 'k', 'i', 'k', 'a'], [['m', 'i', 'n', 'u', 't', 'e']]), (['i', 'j', 'u', 'm', 'a', 'a'], [['f', 'r', 'i', 'd', 'a', 'y']]), (['m', 'c', 'h', 'a', 'n', 'a'], [['p', 'm']]), (['o', 'k', 't', 'o', 'b', 'a'], [['o', 'c', 't', 'o', 'b', 'e', 'r']]), (['j', 'u', 'l', 'a', 'i'], [['j', 'u', 'l', 'y']]), (['m', 'a', 'c', 'h', 'i'], [['m', 'a', 'r', 'c', 'h']]), (['m', 'w', 'a', 'k', 'a'], [['y', 'e', 'a', 'r']]), (['m', 'w', 'e', 'z', 'i'], [['m', 'o', 'n', 't', 'h']]), (['j', 'u', 'n', 'i'], [['j', 'u', 'n', 'e']]), (['s', 'i', 'k', 'u'], [['d', 'a', 'y']]), (['w', 'i', 'k', 'i'], [['w', 'e', 'e', 'k']]), (['a', 'g', 'o'], [['a', 'u', 'g', 'u', 's', 't']]), (['a', 'p', 'r'], [['a', 'p', 'r', 'i', 'l']]), (['d', 'a', 'k'], [['m', 'i', 'n', 'u', 't', 'e']]), (['d', 'e', 's'], [['d', 'e', 'c', 'e', 'm', 'b', 'e', 'r']]), (['f', 'e', 'b'], [['f', 'e', 'b', 'r', 'u', 'a', 'r', 'y']]), (['g', 'm', 't'], [['g', 'm', 't']]), (['j', 'a', 'n'], [['j', 'a', 'n', 'u', 'a', 'r', 'y']]), (['j', 'u', 'l'], [['j', 'u', 'l', 'y']]), (['j', 'u', 'n'], [['j', 'u', 'n', 'e']]), (['m', 'a', 'c'], [['m', 'a', 'r', 'c', 'h']]), (['m', 'e', 'i'], [['m', 'a', 'y']]), (['n', 'o', 'v'], [['n', 'o', 'v', 'e', 'm', 'b', 'e', 'r']]), (['o', 'k', 't'], [['o', 'c', 't', 'o', 'b', 'e', 'r']]), (['s', 'a', 'a'], [['h', 'o', 'u', 'r']]), (['s', 'e', 'k'], [['s', 'e', 'c', 'o', 'n', 'd']]), (['s', 'e', 'p'], [['s', 'e', 'p', 't', 'e', 'm', 'b', 'e', 'r']]), (['u', 't', 'c'], [['u', 't', 'c']]), (['a', 'm'], [['a', 'm']]), (['p', 'm'], [['p', 'm']]), ([' '], [[' ']]), (['\''], [[]]), (['+'], [['+']]), ([','], [[]]), (['-'], [['-']]), (['.'], [['.']]), (['/'], [['/']]), ([':'], [[':']]), ([';'], [[]]), (['@'], [[]]), (['['], [[]]), ([']'], [[]]), (['z'], [['z']]), (['|'], [[]])]
  relativeType := [(['m', 'w', 'a', 'k', 'a', ' ', 'u', 'l', 'i', 'o', 'p', 'i', 't', 'a'], ['1', ' ', 'y', 'e', 'a', 'r', ' ', 'a', 'g', 'o']), (['m', 'w', 'e', 'z', 'i', ' ', 'u', 'l', 'i', 'o', 'p', 'i', 't', 'a'], ['1', ' ', 'm', 'o', 'n', 't', 'h', ' ', 'a', 'g', 'o']), (['w', 'i', 'k', 'i', ' ', 'i', 'l', 'i', 'y', 'o', 'p', 'i', 't', 'a'], ['1', ' ', 'w', 'e', 'e', 'k', ' ', 'a', 'g', 'o']), (['d', 'a', 'k', 'i', 'k', 'a', ' ', 'h', 'i', 'i'], ['0', ' ', 'm', 'i', 'n', 'u', 't', 'e', ' ', 'a', 'g', 'o']), (['m', 'w', 'a', 'k', 'a', ' ', 'u', 'j', 'a', 'o'], ['i', 'n', ' ', '1', ' ', 'y', 'e', 'a', 'r']), (['m', 'w', 'e', 'z', 'i', ' ', 'u', 'j', 'a', 'o'], ['i', 'n', ' ', '1', ' ', 'm', 'o', 'n', 't', 'h']), (['w', 'i', 'k', 'i', ' ', 'i', 'j', 'a', 'y', 'o'], ['i', 'n', ' ', '1', ' ', 'w', 'e', 'e', 'k']), (['m', 'w', 'a', 'k', 'a', ' ', 'h', 'u', 'u'], ['0', ' ', 'y', 'e', 'a', 'r', ' ', 'a', 'g', 'o']), (['m', 'w', 'e', 'z', 'i', ' ', 'h', 'u', 'u'], ['0', ' ', 'm', 'o', 'n', 't', 'h', ' ', 'a', 'g', 'o']), (['s', 'a', 's', 'a', ' ', 'h', 'i', 'v', 'i'], ['0', ' ', 's', 'e', 'c', 'o', 'n', 'd', ' ', 'a', 'g', 'o']), (['w', 'i', 'k', 'i', ' ', 'h', 'i', 'i'], ['0', ' ', 'w', 'e', 'e', 'k', ' ', 'a', 'g', 'o']), (['s', 'a', 'a', ' ', 'h', 'i', 'i'], ['0', ' ', 'h', 'o', 'u', 'r', ' ', 'a', 'g', 'o']), (['k', 'e', 's', 'h', 'o'], ['i', 'n', ' ', '1', ' ', 'd', 'a', 'y']), (['j', 'a', 'n', 'a'], ['1', ' ', 'd', 'a', 'y', ' ', 'a', 'g', 'o']), (['l', 'e', 'o'], ['0', ' ', 'd', 'a', 'y', ' ', 'a', 'g', 'o'])]

/-- internal/data/sw.go: `sw_CD_Locale`, dictionary. -/
def sw_CDDict : LangData where
  name := ['s', 'w', '-', 'C', 'D']
  translations := [(['j', 'u', 'm', 'a'], [['w', 'e', 'e', 'k']])]

/-- internal/data/sw.go: `sw_KE_Locale`, dictionary. -/
def sw_KEDict : LangData where
  name := ['s', 'w', '-', 'K', 'E']

/-- internal/data/sw.go: `sw_UG_Locale`, dictionary. -/
def sw_UGDict : LangData where
  name := ['s', 'w', '-', 'U', 'G']

/-- internal/data/ta.go: `ta_Locale`, dictionary. -/
def taDict : LangData where
  name := ['t', 'a']
  translations := [(['ச', 'ெ', 'ப', 'ட', 'ம', 'ப', 'ர'], [['s', 'e', 'p', 't', 'e', 'm', 'b', 'e', 'r']]), (['ப', 'ி', 'ப', 'ர', 'வ', 'ர', 'ி'], [['f', 'e', 'b', 'r', 'u', 'a', 'r', 'y']]), (['அ', 'க', 'ட', 'ோ', 'ப', 'ர'], [['o', 'c', 't', 'o', 'b', 'e', 'r']]), (['ச', 'ெ', 'வ', 'வ', 'ா', 'ய'], [['t', 'u', 'e', 's', 'd', 'a', 'y']]), (['ஞ', 'ா', 'ய', 'ி', 'ற', 'ு'], [['s', 'u', 'n', 'd', 'a', 'y']]), (['ட', 'ி', 'ச', 'ம', 'ப', 'ர'], [['d', 'e', 'c', 'e', 'm', 'b', 'e', 'r']]), (['ந', 'ி', 'ம', 'ி', 'ட', 'ம'], [['m', 'i', 'n', 'u', 't', 'e']]), (['ப', 'ி', 'ற', 'ப', 'க', 'ல'], [['p', 'm']]), (['ம', 'ு', 'ற', 'ப', 'க', 'ல'], [['a', 'm']]), (['வ', 'ி', 'ந', 'ா', 'ட', 'ி'], [['s', 'e', 'c', 'o', 'n', 'd']]), (['வ', 'ி', 'ய', 'ா', 'ழ', 'ன'], [['t', 'h', 'u', 'r', 's', 'd', 'a', 'y']]), (['ஜ', 'ன', 'வ', 'ர', 'ி'], [['j', 'a', 'n', 'u', 'a', 'r', 'y']]), (['த', 'ி', 'ங', 'க', 'ள'], [['m', 'o', 'n', 'd', 'a', 'y']]), (['ந', 'வ', 'ம', 'ப', 'ர'], [['n', 'o', 'v', 'e', 'm', 'b', 'e', 'r']]), (['வ', 'ெ', 'ள', 'ள', 'ி'], [['f', 'r', 'i', 'd', 'a', 'y']]), (['ஆ', 'க', 'ஸ', 'ட'], [['a', 'u', 'g', 'u', 's', 't']]), (['ஆ', 'ண', 'ட', 'ு'], [['y', 'e', 'a', 'r']]), (['ஏ', 'ப', 'ர', 'ல'], [['a', 'p', 'r', 'i', 'l']]), (['ஜ', 'ூ', 'ல', 'ை'], [['j', 'u', 'l', 'y']]), (['ஞ', 'ா', 'ய', 'ி'], [['s', 'u', 'n', 'd', 'a', 'y']]), (['ந', 'ி', 'ம', 'ி'], [['m', 'i', 'n', 'u', 't', 'e']]), (['ப', 'ு', 'த', 'ன'], [['w', 'e', 'd', 'n', 'e', 's', 'd', 'a', 'y']]), (['ம', 'ா', 'த', 'ம'], [['m', 'o', 'n', 't', 'h']]), (['ம', 'ா', 'ர', 'ச'], [['m', 'a', 'r', 'c', 'h']]), (['வ', 'ா', 'ர', 'ம'], [['w', 'e', 'e', 'k']]), (['வ', 'ி', 'ந', 'ா'], [['s', 'e', 'c', 'o', 'n', 'd']]), (['வ', 'ி', 'ய', 'ா'], [['t', 'h', 'u', 'r', 's', 'd', 'a', 'y']]), (['g', 'm', 't'], [['g', 'm', 't']]), (['u', 't', 'c'], [['u', 't', 'c']]), (['ச', 'ன', 'ி'], [['s', 'a', 't', 'u', 'r', 'd', 'a', 'y']]), (['ச', 'ெ', 'ப'], [['s', 'e', 'p', 't', 'e', 'm', 'b', 'e', 'r']]), (['ச', 'ெ', 'வ'], [['t', 'u', 'e', 's', 'd', 'a', 'y']]), (['ஜ', 'ூ', 'ன'], [['j', 'u', 'n', 'e']]), (['ட', 'ி', 'ச'], [['d', 'e', 'c', 'e', 'm', 'b', 'e', 'r']]), (['த', 'ி', 'ங'], [['m', 'o', 'n', 'd', 'a', 'y']]), (['ந', 'ா', 'ள'], [['d', 'a', 'y']]), (['ப', 'ி', 'ப'], [['f', 'e', 'b', 'r', 'u', 'a', 'r', 'y']]), (['ப', 'ு', 'த'], [['w', 'e', 'd', 'n', 'e', 's', 'd', 'a', 'y']]), (['ம', 'ண', 'ி'], [['h', 'o', 'u', 'r']]), (['ம', 'ா', 'த'], [['m', 'o', 'n', 't', 'h']]), (['ம', 'ா', 'ர'], [['m', 'a', 'r', 'c', 'h']]), (['வ', 'ெ', 'ள'], [['f', 'r', 'i', 'd', 'a', 'y']]), (['a', 'm'], [['a', 'm']]), (['p', 'm'], [['p', 'm']]), (['அ', 'க'], [['o', 'c', 't', 'o', 'b', 'e', 'r']]), (['ஆ', 'க'], [['a', 'u', 'g', 'u', 's', 't']]), (['ஏ', 'ப'], [['a', 'p', 'r', 'i', 'l']]), (['ஜ', 'ன'], [['j', 'a', 'n', 'u', 'a', 'r', 'y']]), (['ந', 'வ'], [['n', 'o', 'v', 'e', 'm', 'b', 'e', 'r']]), (['ந', 'ா'], [['d', 'a', 'y']]), (['ம', 'ா'], [['m', 'o', 'n', 't', 'h']]), (['ம', 'ே'], [['m', 'a', 'y']]), (['வ', 'ா'], [['w', 'e', 'e', 'k']]), (['வ', 'ி'], [['s', 'e', 'c', 'o', 'n', 'd']]), ([' '], [[' ']]), (['\''], [[]]), (['+'], [['+']]), ([','], [[]]), (['-'], [['-']]), (['.'], [['.']]), (['/'], [['/']]), ([':'], [[':']]), ([';'], [[]]), (['@'], [[]]), (['['], [[]]), ([']'], [[]]), (['z'], [['z']]), (['|'], [[]]), (['ஆ'], [['y', 'e', 'a', 'r']]), (['ம'], [['h', 'o', 'u', 'r']])]
  relativeType := [(['இ', 'ந', 'த', ' ', 'ஒ', 'ர', 'ு', ' ', 'ம', 'ண', 'ி', 'ந', 'ே', 'ர', 'த', 'த', 'ி', 'ல'], ['0', ' ', 'h', 'o', 'u', 'r', ' ', 'a', 'g', 'o']), (['இ', 'ந', 'த', ' ', 'ஒ', 'ர', 'ு', ' ', 'ந', 'ி', 'ம', 'ி', 'ட', 'த', 'த', 'ி', 'ல'], ['0', ' ', 'm', 'i', 'n', 'u', 't', 'e', ' ', 'a', 'g', 'o']), (['அ', 'ட', 'ு', 'த', 'த', ' ', 'ஆ', 'ண', 'ட', 'ு'], ['i', 'n', ' ', '1', ' ', 'y', 'e', 'a', 'r']), (['அ', 'ட', 'ு', 'த', 'த', ' ', 'ம', 'ா', 'த', 'ம'], ['i', 'n', ' ', '1', ' ', 'm', 'o', 'n', 't', 'h']), (['அ', 'ட', 'ு', 'த', 'த', ' ', 'வ', 'ா', 'ர', 'ம'], ['i', 'n', ' ', '1', ' ', 'w', 'e', 'e', 'k']), (['க', 'ட', 'ந', 'த', ' ', 'ஆ', 'ண', 'ட', 'ு'], ['1', ' ', 'y', 'e', 'a', 'r', ' ', 'a', 'g', 'o']), (['க', 'ட', 'ந', 'த', ' ', 'ம', 'ா', 'த', 'ம'], ['1', ' ', 'm', 'o', 'n', 't', 'h', ' ', 'a', 'g', 'o']), (['க', 'ட', 'ந', 'த', ' ', 'வ', 'ா', 'ர', 'ம'], ['1', ' ', 'w', 'e', 'e', 'k', ' ', 'a', 'g', 'o']), (['இ', 'ந', 'த', ' ', 'ஆ', 'ண', 'ட', 'ு'], ['0', ' ', 'y', 'e', 'a', 'r', ' ', 'a', 'g', 'o']), (['இ', 'ந', 'த', ' ', 'ம', 'ா', 'த', 'ம'], ['0', ' ', 'm', 'o', 'n', 't', 'h', ' ', 'a', 'g', 'o']), (['இ', 'ந', 'த', ' ', 'வ', 'ா', 'ர', 'ம'], ['0', ' ', 'w', 'e', 'e', 'k', ' ', 'a', 'g', 'o']), (['இ', 'ப', 'ப', 'ோ', 'த', 'ு'], ['0', ' ', 's', 'e', 'c', 'o', 'n', 'd', ' ', 'a', 'g', 'o']), (['ந', 'ே', 'ற', 'ற', 'ு'], ['1', ' ', 'd', 'a', 'y', ' ', 'a', 'g', 'o']), (['இ', 'ன', 'ற', 'ு'], ['0', ' ', 'd', 'a', 'y', ' ', 'a', 'g', 'o']), (['ந', 'ா', 'ள', 'ை'], ['i', 'n', ' ', '1', ' ', 'd', 'a', 'y'])]

/-- internal/data/ta.go: `ta_LK_Locale`, dictionary. -/
def ta_LKDict : LangData where
  name := ['t', 'a', '-', 'L', 'K']

/-- internal/data/ta.go: `ta_MY_Locale`, dictionary. -/
def ta_MYDict : LangData where
  name := ['t', 'a', '-', 'M', 'Y']

/-- internal/data/ta.go: `ta_SG_Locale`, dictionary. -/
def ta_SGDict : LangData where
  name := ['t', 'a', '-', 'S', 'G']

/-- internal/data/te.go: `te_Locale`, dictionary. -/
def teDict : LangData where
  name := ['t', 'e']
  translations := [(['గ', 'ు', 'ర', 'ు', 'వ', 'ర', 'ం'], [['t', 'h', 'u', 'r', 's', 'd', 'a', 'y']]), (['మ', 'ం', 'గ', 'ళ', 'వ', 'ర', 'ం'], [['t', 'u', 'e', 's', 'd', 'a', 'y']]), (['శ', 'ు', 'క', 'ర', 'వ', 'ర', 'ం'], [['f', 'r', 'i', 'd', 'a', 'y']]), (['స', 'ం', 'వ', 'త', 'స', 'ర', 'ం'], [['y', 'e', 'a', 'r']]), (['బ', 'ు', 'ధ', 'వ', 'ర', 'ం'], [['w', 'e', 'd', 'n', 'e', 's', 'd', 'a', 'y']]), (['స', 'ప', 'ట', 'ం', 'బ', 'ర'], [['s', 'e', 'p', 't', 'e', 'm', 'b', 'e', 'r']]), (['అ', 'క', 'ట', 'బ', 'ర'], [['o', 'c', 't', 'o', 'b', 'e', 'r']]), (['ఆ', 'గ', 'స', 'ట', 'ు'], [['a', 'u', 'g', 'u', 's', 't']]), (['ఆ', 'ద', 'వ', 'ర', 'ం'], [['s', 'u', 'n', 'd', 'a', 'y']]), (['డ', 'స', 'ం', 'బ', 'ర'], [['d', 'e', 'c', 'e', 'm', 'b', 'e', 'r']]), (['న', 'మ', 'ష', 'మ', 'ు'], [['m', 'i', 'n', 'u', 't', 'e']]), (['న', 'వ', 'ం', 'బ', 'ర'], [['n', 'o', 'v', 'e', 'm', 'b', 'e', 'r']]), (['ఫ', 'బ', 'ర', 'వ', 'ర'], [['f', 'e', 'b', 'r', 'u', 'a', 'r', 'y']]), (['శ', 'న', 'వ', 'ర', 'ం'], [['s', 'a', 't', 'u', 'r', 'd', 'a', 'y']]), (['స', 'మ', 'వ', 'ర', 'ం'], [['m', 'o', 'n', 'd', 'a', 'y']]), (['ఏ', 'ప', 'ర', 'ల'], [['a', 'p', 'r', 'i', 'l']]), (['గ', 'ు', 'ర', 'ు'], [['t', 'h', 'u', 'r', 's', 'd', 'a', 'y']]), (['జ', 'న', 'వ', 'ర'], [['j', 'a', 'n', 'u', 'a', 'r', 'y']]), (['మ', 'ం', 'గ', 'ళ'], [['t', 'u', 'e', 's', 'd', 'a', 'y']]), (['వ', 'ర', 'మ', 'ు'], [['w', 'e', 'e', 'k']]), (['శ', 'ు', 'క', 'ర'], [['f', 'r', 'i', 'd', 'a', 'y']]), (['స', 'క', 'న', 'ు'], [['s', 'e', 'c', 'o', 'n', 'd']]), (['స', 'ప', 'ట', 'ం'], [['s', 'e', 'p', 't', 'e', 'm', 'b', 'e', 'r']]), (['g', 'm', 't'], [['g', 'm', 't']]), (['u', 't', 'c'], [['u', 't', 'c']]), (['అ', 'క', 'ట'], [['o', 'c', 't', 'o', 'b', 'e', 'r']]), (['ఏ', 'ప', 'ర'], [['a', 'p', 'r', 'i', 'l']]), (['గ', 'ం', 'ట'], [['h', 'o', 'u', 'r']]), (['జ', 'ు', 'ల'], [['j', 'u', 'l', 'y']]), (['జ', 'ూ', 'న'], [['j', 'u', 'n', 'e']]), (['డ', 'స', 'ం'], [['d', 'e', 'c', 'e', 'm', 'b', 'e', 'r']]), (['ద', 'న', 'ం'], [['d', 'a', 'y']]), (['న', 'వ', 'ం'], [['n', 'o', 'v', 'e', 'm', 'b', 'e', 'r']]), (['ఫ', 'బ', 'ర'], [['f', 'e', 'b', 'r', 'u', 'a', 'r', 'y']]), (['బ', 'ు', 'ధ'], [['w', 'e', 'd', 'n', 'e', 's', 'd', 'a', 'y']]), (['మ', 'ర', 'చ'], [['m', 'a', 'r', 'c', 'h']]), (['a', 'm'], [['a', 'm']]), (['p', 'm'], [['p', 'm']]), (['ఆ', 'గ'], [['a', 'u', 'g', 'u', 's', 't']]), (['ఆ', 'ద'], [['s', 'u', 'n', 'd', 'a', 'y']]), (['గ', 'ం'], [['h', 'o', 'u', 'r']]), (['జ', 'న'], [['j', 'a', 'n', 'u', 'a', 'r', 'y']]), (['న', 'మ'], [['m', 'i', 'n', 'u', 't', 'e']]), (['న', 'ల'], [['m', 'o', 'n', 't', 'h']]), (['శ', 'న'], [['s', 'a', 't', 'u', 'r', 'd', 'a', 'y']]), (['స', 'ం'], [['y', 'e', 'a', 'r']]), (['స', 'క'], [['s', 'e', 'c', 'o', 'n', 'd']]), (['స', 'మ'], [['m', 'o', 'n', 'd', 'a', 'y']]), ([' '], [[' ']]), (['\''], [[]]), (['+'], [['+']]), ([','], [[]]), (['-'], [['-']]), (['.'], [['.']]), (['/'], [['/']]), ([':'], [[':']]), ([';'], [[]]), (['@'], [[]]), (['['], [[]]), ([']'], [[]]), (['z'], [['z']]), (['|'], [[]]), (['ద'], [['d', 'a', 'y']]), (['న'], [['m', 'o', 'n', 't', 'h'], ['m', 'i', 'n', 'u', 't', 'e']]), (['మ'], [['m', 'a', 'y']]), (['వ'], [['w', 'e', 'e', 'k']])]
  relativeType := [(['త', 'ద', 'ు', 'ప', 'ర', ' ', 'స', 'ం', 'వ', 'త', 'స', 'ర', 'ం'], ['i', 'n', ' ', '1', ' ', 'y', 'e', 'a', 'r']), (['గ', 'త', ' ', 'స', 'ం', 'వ', 'త', 'స', 'ర', 'ం'], ['1', ' ', 'y', 'e', 'a', 'r', ' ', 'a', 'g', 'o']), (['ఈ', ' ', 'స', 'ం', 'వ', 'త', 'స', 'ర', 'ం'], ['0', ' ', 'y', 'e', 'a', 'r', ' ', 'a', 'g', 'o']), (['త', 'ద', 'ు', 'ప', 'ర', ' ', 'వ', 'ర', 'ం'], ['i', 'n', ' ', '1', ' ', 'w', 'e', 'e', 'k']), (['త', 'ద', 'ు', 'ప', 'ర', ' ', 'న', 'ల'], ['i', 'n', ' ', '1', ' ', 'm', 'o', 'n', 't', 'h']), (['ప', 'ర', 'స', 'త', 'ు', 'త', 'ం'], ['0', ' ', 's', 'e', 'c', 'o', 'n', 'd', ' ', 'a', 'g', 'o']), (['ఈ', ' ', 'న', 'మ', 'ష', 'ం'], ['0', ' ', 'm', 'i', 'n', 'u', 't', 'e', ' ', 'a', 'g', 'o']), (['గ', 'త', ' ', 'వ', 'ర', 'ం'], ['1', ' ', 'w', 'e', 'e', 'k', ' ', 'a', 'g', 'o']), (['ఈ', ' ', 'గ', 'ం', 'ట'], ['0', ' ', 'h', 'o', 'u', 'r', ' ', 'a', 'g', 'o']), (['ఈ', ' ', 'ర', 'జ', 'ు'], ['0', ' ', 'd', 'a', 'y', ' ', 'a', 'g', 'o']), (['ఈ', ' ', 'వ', 'ర', 'ం'], ['0', ' ', 'w', 'e', 'e', 'k', ' ', 'a', 'g', 'o']), (['గ', 'త', ' ', 'న', 'ల'], ['1', ' ', 'm', 'o', 'n', 't', 'h', ' ', 'a', 'g', 'o']), (['ఈ', ' ', 'న', 'ల'], ['0', ' ', 'm', 'o', 'n', 't', 'h', ' ', 'a', 'g', 'o']), (['న', 'న', 'న'], ['1', ' ', 'd', 'a', 'y', ' ', 'a', 'g', 'o']), (['ర', 'ప', 'ు'], ['i', 'n', ' ', '1', ' ', 'd', 'a', 'y'])]

/-- internal/data/teo.go: `teo_Locale`, dictionary. -/
def teoDict : LangData where
  name := ['t', 'e', 'o']
  translations := [(['o', 'm', 'o', 'd', 'o', 'k', '\'', 'k', 'i', 'n', 'g', '\'', 'o', 'l'], [['j', 'u', 'n', 'e']]), (['n', 'a', 'k', 'a', 'e', 'b', 'a', 'r', 'a', 's', 'a'], [['m', 'o', 'n', 'd', 'a', 'y']]), (['o', 's', 'o', 'k', 'o', 's', 'o', 'k', 'o', 'm', 'a'], [['s', 'e', 'p', 't', 'e', 'm', 'b', 'e', 'r']]), (['n', 'a', 'k', 'a', 's', 'a', 'b', 'i', 't', 'i'], [['s', 'a', 't', 'u', 'r', 'd', 'a', 'y']]), (['n', 'a', 'k', 'a', 'u', 'n', 'g', '\'', 'o', 'n'], [['t', 'h', 'u', 'r', 's', 'd', 'a', 'y']]), (['n', 'a', 'k', 'a', 'e', 'j', 'u', 'm', 'a'], [['s', 'u', 'n', 'd', 'a', 'y']]), (['t', 'a', 'p', 'a', 'r', 'a', 'c', 'h', 'u'], [['a', 'm']]), (['i', 's', 'e', 'k', 'o', 'n', 'd', 'e'], [['s', 'e', 'c', 'o', 'n', 'd']]), (['n', 'a', 'k', 'a', 'k', 'a', 'n', 'y'], [['f', 'r', 'i', 'd', 'a', 'y']]), (['o', 'd', 'u', 'n', 'g', '\'', 'e', 'l'], [['a', 'p', 'r', 'i', 'l']]), (['i', 'd', 'a', 'k', 'i', 'k', 'a'], [['m', 'i', 'n', 'u', 't', 'e']]), (['n', 'a', 'k', 'a', 'a', 'r', 'e'], [['t', 'u', 'e', 's', 'd', 'a', 'y']]), (['n', 'a', 'k', 'a', 'u', 'n', 'i'], [['w', 'e', 'd', 'n', 'e', 's', 'd', 'a', 'y']]), (['o', 'k', 'w', 'a', 'm', 'g', '\''], [['m', 'a', 'r', 'c', 'h']]), (['a', 'p', 'a', 'r', 'a', 'n'], [['d', 'a', 'y']]), (['e', 'b', 'o', 'n', 'g', 'i'], [['p', 'm']]), (['o', 'l', 'a', 'b', 'o', 'r'], [['n', 'o', 'v', 'e', 'm', 'b', 'e', 'r']]), (['o', 'm', 'a', 'r', 'u', 'k'], [['m', 'a', 'y']]), (['o', 'p', 'e', 'd', 'e', 'l'], [['a', 'u', 'g', 'u', 's', 't']]), (['o', 't', 'i', 'b', 'a', 'r'], [['o', 'c', 't', 'o', 'b', 'e', 'r']]), (['e', 'w', 'i', 'k', 'i'], [['w', 'e', 'e', 'k']]), (['o', 'j', 'o', 'l', 'a'], [['j', 'u', 'l', 'y']]), (['o', 'r', 'a', 'r', 'a'], [['j', 'a', 'n', 'u', 'a', 'r', 'y']]), (['e', 'k', 'a', 'n'], [['y', 'e', 'a', 'r']]), (['e', 'l', 'a', 'p'], [['m', 'o', 'n', 't', 'h']]), (['e', 's', 'a', 'a'], [['h', 'o', 'u', 'r']]), (['o', 'm', 'u', 'k'], [['f', 'e', 'b', 'r', 'u', 'a', 'r', 'y']]), (['o', 'p', 'o', 'o'], [['d', 'e', 'c', 'e', 'm', 'b', 'e', 'r']]), (['a', 'a', 'r'], [['t', 'u', 'e', 's', 'd', 'a', 'y']]), (['b', 'a', 'r'], [['m', 'o', 'n', 'd', 'a', 'y']]), (['d', 'u', 'n'], [['a', 'p', 'r', 'i', 'l']]), (['g', 'm', 't'], [['g', 'm', 't']]), (['j', 'o', 'l'], [['j', 'u', 'l', 'y']]), (['j', 'u', 'm'], [['s', 'u', 'n', 'd', 'a', 'y']]), (['k', 'a', 'n'], [['f', 'r', 'i', 'd', 'a', 'y']]), (['k', 'w', 'a'], [['m', 'a', 'r', 'c', 'h']]), (['l', 'a', 'b'], [['n', 'o', 'v', 'e', 'm', 'b', 'e', 'r']]), (['m', 'a', 'r'], [['m', 'a', 'y']]), (['m', 'o', 'd'], [['j', 'u', 'n', 'e']]), (['m', 'u', 'k'], [['f', 'e', 'b', 'r', 'u', 'a', 'r', 'y']]), (['p', 'e', 'd'], [['a', 'u', 'g', 'u', 's', 't']]), (['p', 'o', 'o'], [['d', 'e', 'c', 'e', 'm', 'b', 'e', 'r']]), (['r', 'a', 'r'], [['j', 'a', 'n', 'u', 'a', 'r', 'y']]), (['s', 'a', 'b'], [['s', 'a', 't', 'u', 'r', 'd', 'a', 'y']]), (['s', 'o', 'k'], [['s', 'e', 'p', 't', 'e', 'm', 'b', 'e', 'r']]), (['t', 'i', 'b'], [['o', 'c', 't', 'o', 'b', 'e', 'r']]), (['u', 'n', 'g'], [['t', 'h', 'u', 'r', 's', 'd', 'a', 'y']]), (['u', 'n', 'i'], [['w', 'e', 'd', 'n', 'e', 's', 'd', 'a', 'y']]), (['u', 't', 'c'], [['u', 't', 'c']]), (['a', 'm'], [['a', 'm']]), (['p', 'm'], [['p', 'm']]), ([' '], [[' ']]), (['\''], [[]]), (['+'], [['+']]), ([','], [[]]), (['-'], [['-']]), (['.'], [['.']]), (['/'], [['/']]), ([':'], [[':']]), ([';'], [[]]), (['@'], [[]]), (['['], [[]]), ([']'], [[]]), (['z'], [['z']]), (['|'], [[]])]
  relativeType := [(['t', 'h', 'i', 's', ' ', 'm', 'i', 'n', 'u', 't', 'e'], ['0', ' ', 'm', 'i', 'n', 'u', 't', 'e', ' ', 'a', 'g', 'o']), (['l', 'a', 's', 't', ' ', 'm', 'o', 'n', 't', 'h'], ['1', ' ', 'm', 'o', 'n', 't', 'h', ' ', 'a', 'g', 'o']), (['n', 'e', 'x', 't', ' ', 'm', 'o', 'n', 't', 'h'], ['i', 'n', ' ', '1', ' ', 'm', 'o', 'n', 't', 'h']), (['t', 'h', 'i', 's', ' ', 'm', 'o', 'n', 't', 'h'], ['0', ' ', 'm', 'o', 'n', 't', 'h', ' ', 'a', 'g', 'o']), (['l', 'a', 's', 't', ' ', 'w', 'e', 'e', 'k'], ['1', ' ', 'w', 'e', 'e', 'k', ' ', 'a', 'g', 'o']), (['l', 'a', 's', 't', ' ', 'y', 'e', 'a', 'r'], ['1', ' ', 'y', 'e', 'a', 'r', ' ', 'a', 'g', 'o']), (['n', 'e', 'x', 't', ' ', 'w', 'e', 'e', 'k'], ['i', 'n', ' ', '1', ' ', 'w', 'e', 'e', 'k']), (['n', 'e', 'x', 't', ' ', 'y', 'e', 'a', 'r'], ['i', 'n', ' ', '1', ' ', 'y', 'e', 'a', 'r']), (['t', 'h', 'i', 's', ' ', 'h', 'o', 'u', 'r'], ['0', ' ', 'h', 'o', 'u', 'r', ' ', 'a', 'g', 'o']), (['t', 'h', 'i', 's', ' ', 'w', 'e', 'e', 'k'], ['0', ' ', 'w', 'e', 'e', 'k', ' ', 'a', 'g', 'o']), (['t', 'h', 'i', 's', ' ', 'y', 'e', 'a', 'r'], ['0', ' ', 'y', 'e', 'a', 'r', ' ', 'a', 'g', 'o']), (['j', 'a', 'a', 'n'], ['1', ' ', 'd', 'a', 'y', ' ', 'a', 'g', 'o']), (['l', 'o', 'l', 'o'], ['0', ' ', 'd', 'a', 'y', ' ', 'a', 'g', 'o']), (['m', 'o', 'i'], ['i', 'n', ' ', '1', ' ', 'd', 'a', 'y']), (['n', 'o', 'w'], ['0', ' ', 's', 'e', 'c', 'o', 'n', 'd', ' ', 'a', 'g', 'o'])]

/-- internal/data/teo.go: `teo_KE_Locale`, dictionary. -/
def teo_KEDict : LangData where
  name := ['t', 'e', 'o', '-', 'K', 'E']

/-- internal/data/th.go: `th_Locale`, dictionary. -/
def thDict : LangData where
  name := ['t', 'h']
  splitterGroup := 5
  translations := [(['เ', 'ด', 'อ', 'น', 'พ', 'ฤ', 'ศ', 'จ', 'ก', 'า', 'ย', 'น'], [['n', 'o', 'v', 'e', 'm', 'b', 'e', 'r']]), (['เ', 'ด', 'อ', 'น', 'ก', 'ม', 'ภ', 'า', 'พ', 'น', 'ธ'], [['f', 'e', 'b', 'r', 'u', 'a', 'r', 'y']]), (['เ', 'ด', 'อ', 'น', 'ก', 'ร', 'ก', 'ฏ', 'า', 'ค', 'ม'], [['j', 'u', 'l', 'y']]), (['เ', 'ด', 'อ', 'น', 'พ', 'ฤ', 'ษ', 'ภ', 'า', 'ค', 'ม'], [['m', 'a', 'y']]), (['เ', 'ด', 'อ', 'น', 'ก', 'น', 'ย', 'า', 'ย', 'น'], [['s', 'e', 'p', 't', 'e', 'm', 'b', 'e', 'r']]), (['เ', 'ด', 'อ', 'น', 'ธ', 'น', 'ว', 'า', 'ค', 'ม'], [['d', 'e', 'c', 'e', 'm', 'b', 'e', 'r']]), (['เ', 'ด', 'อ', 'น', 'ม', 'ก', 'ร', 'า', 'ค', 'ม'], [['j', 'a', 'n', 'u', 'a', 'r', 'y']]), (['เ', 'ด', 'อ', 'น', 'ม', 'ถ', 'น', 'า', 'ย', 'น'], [['j', 'u', 'n', 'e']]), (['เ', 'ด', 'อ', 'น', 'ส', 'ง', 'ห', 'า', 'ค', 'ม'], [['a', 'u', 'g', 'u', 's', 't']]), (['เ', 'ด', 'อ', 'น', 'เ', 'ม', 'ษ', 'า', 'ย', 'น'], [['a', 'p', 'r', 'i', 'l']]), (['ว', 'น', 'พ', 'ฤ', 'ห', 'ส', 'บ', 'ด', 'ท'], [['t', 'h', 'u', 'r', 's', 'd', 'a', 'y']]), (['เ', 'ด', 'อ', 'น', 'ต', 'ล', 'า', 'ค', 'ม'], [['o', 'c', 't', 'o', 'b', 'e', 'r']]), (['เ', 'ด', 'อ', 'น', 'ม', 'น', 'า', 'ค', 'ม'], [['m', 'a', 'r', 'c', 'h']]), (['พ', 'ฤ', 'ศ', 'จ', 'ก', 'า', 'ย', 'น'], [['n', 'o', 'v', 'e', 'm', 'b', 'e', 'r']]), (['ว', 'น', 'พ', 'ฤ', 'ห', 'ส', 'บ', 'ด'], [['t', 'h', 'u', 'r', 's', 'd', 'a', 'y']]), (['ว', 'น', 'อ', 'ง', 'ค', 'า', 'ร', 'ท'], [['t', 'u', 'e', 's', 'd', 'a', 'y']]), (['ว', 'น', 'อ', 'า', 'ท', 'ต', 'ย', 'ท'], [['s', 'u', 'n', 'd', 'a', 'y']]), (['ก', 'ม', 'ภ', 'า', 'พ', 'น', 'ธ'], [['f', 'e', 'b', 'r', 'u', 'a', 'r', 'y']]), (['ก', 'ร', 'ก', 'ฎ', 'า', 'ค', 'ม'], [['j', 'u', 'l', 'y']]), (['ก', 'อ', 'น', 'เ', 'ท', 'ย', 'ง'], [['a', 'm']]), (['พ', 'ฤ', 'ษ', 'ภ', 'า', 'ค', 'ม'], [['m', 'a', 'y']]), (['ว', 'น', 'จ', 'น', 'ท', 'ร', 'ท'], [['m', 'o', 'n', 'd', 'a', 'y']]), (['ว', 'น', 'อ', 'ง', 'ค', 'า', 'ร'], [['t', 'u', 'e', 's', 'd', 'a', 'y']]), (['ว', 'น', 'อ', 'า', 'ท', 'ต', 'ย'], [['s', 'u', 'n', 'd', 'a', 'y']]), (['ว', 'น', 'เ', 'ส', 'า', 'ร', 'ท'], [['s', 'a', 't', 'u', 'r', 'd', 'a', 'y']]), (['ห', 'ล', 'ง', 'เ', 'ท', 'ย', 'ง'], [['p', 'm']]), (['ก', 'น', 'ย', 'า', 'ย', 'น'], [['s', 'e', 'p', 't', 'e', 'm', 'b', 'e', 'r']]), (['ธ', 'น', 'ว', 'า', 'ค', 'ม'], [['d', 'e', 'c', 'e', 'm', 'b', 'e', 'r']]), (['พ', 'ฤ', 'ห', 'ส', 'บ', 'ด'], [['t', 'h', 'u', 'r', 's', 'd', 'a', 'y']]), (['ม', 'ก', 'ร', 'า', 'ค', 'ม'], [['j', 'a', 'n', 'u', 'a', 'r', 'y']]), (['ม', 'ถ', 'น', 'า', 'ย', 'น'], [['j', 'u', 'n', 'e']]), (['ว', 'น', 'จ', 'น', 'ท', 'ร'], [['m', 'o', 'n', 'd', 'a', 'y']]), (['ว', 'น', 'ศ', 'ก', 'ร', 'ท'], [['f', 'r', 'i', 'd', 'a', 'y']]), (['ว', 'น', 'เ', 'ส', 'า', 'ร'], [['s', 'a', 't', 'u', 'r', 'd', 'a', 'y']]), (['ส', 'ง', 'ห', 'า', 'ค', 'ม'], [['a', 'u', 'g', 'u', 's', 't']]), (['เ', 'ม', 'ษ', 'า', 'ย', 'น'], [['a', 'p', 'r', 'i', 'l']]), (['ก', 'ร', 'ก', 'ฎ', 'า'], [['j', 'u', 'l', 'y']]), (['ช', 'ว', 'โ', 'ม', 'ง'], [['h', 'o', 'u', 'r']]), (['ต', 'ล', 'า', 'ค', 'ม'], [['o', 'c', 't', 'o', 'b', 'e', 'r']]), (['พ', 'ฤ', 'ษ', 'ภ', 'า'], [['m', 'a', 'y']]), (['ม', 'น', 'า', 'ค', 'ม'], [['m', 'a', 'r', 'c', 'h']]), (['ม', 'า', 'แ', 'ล', 'ว'], [['a', 'g', 'o']]), (['ว', 'น', 'พ', 'ธ', 'ท'], [['w', 'e', 'd', 'n', 'e', 's', 'd', 'a', 'y']]), (['ว', 'น', 'ศ', 'ก', 'ร'], [['f', 'r', 'i', 'd', 'a', 'y']]), (['ส', 'ป', 'ด', 'า', 'ห'], [['w', 'e', 'e', 'k']]), (['อ', 'ง', 'ค', 'า', 'ร'], [['t', 'u', 'e', 's', 'd', 'a', 'y']]), (['อ', 'า', 'ท', 'ต', 'ย'], [['s', 'u', 'n', 'd', 'a', 'y']]), (['แ', 'ต', 'ก', 'อ', 'น'], [['a', 'g', 'o']]), (['ก', 'น', 'ย', 'า'], [['s', 'e', 'p', 't', 'e', 'm', 'b', 'e', 'r']]), (['ก', 'ม', 'ภ', 'า'], [['f', 'e', 'b', 'r', 'u', 'a', 'r', 'y']]), (['จ', 'น', 'ท', 'ร'], [['m', 'o', 'n', 'd', 'a', 'y']]), (['ธ', 'น', 'ว', 'า'], [['d', 'e', 'c', 'e', 'm', 'b', 'e', 'r']]), (['พ', 'ฤ', 'ศ', 'จ'], [['n', 'o', 'v', 'e', 'm', 'b', 'e', 'r']]), (['พ', 'ฤ', 'ห', 'ส'], [['t', 'h', 'u', 'r', 's', 'd', 'a', 'y']]), (['ม', 'ก', 'ร', 'า'], [['j', 'a', 'n', 'u', 'a', 'r', 'y']]), (['ม', 'ถ', 'น', 'า'], [['j', 'u', 'n', 'e']]), (['ว', 'น', 'พ', 'ธ'], [['w', 'e', 'd', 'n', 'e', 's', 'd', 'a', 'y']]), (['ว', 'น', 'า', 'ท'], [['s', 'e', 'c', 'o', 'n', 'd']]), (['ส', 'ง', 'ห', 'า'], [['a', 'u', 'g', 'u', 's', 't']]), (['เ', 'ด', 'อ', 'น'], [['m', 'o', 'n', 't', 'h']]), (['เ', 'ม', 'ษ', 'า'], [['a', 'p', 'r', 'i', 'l']]), (['เ', 'ว', 'ล', 'า'], [[]]), (['เ', 'ส', 'า', 'ร'], [['s', 'a', 't', 'u', 'r', 'd', 'a', 'y']]), (['g', 'm', 't'], [['g', 'm', 't']]), (['u', 't', 'c'], [['u', 't', 'c']]), (['ก', 'อ', 'น'], [['a', 'g', 'o']]), (['ต', 'ล', 'า'], [['o', 'c', 't', 'o', 'b', 'e', 'r']]), (['น', 'า', 'ท'], [['m', 'i', 'n', 'u', 't', 'e']]), (['ม', 'น', 'า'], [['m', 'a', 'r', 'c', 'h']]), (['ศ', 'ก', 'ร'], [['f', 'r', 'i', 'd', 'a', 'y']]), (['เ', 'ม', 'ย'], [['a', 'p', 'r', 'i', 'l']]), (['เ', 'ม', 'อ'], [[]]), (['a', 'm'], [['a', 'm']]), (['p', 'm'], [['p', 'm']]), (['ก', 'ค'], [['j', 'u', 'l', 'y']]), (['ก', 'พ'], [['f', 'e', 'b', 'r', 'u', 'a', 'r', 'y']]), (['ก', 'ย'], [['s', 'e', 'p', 't', 'e', 'm', 'b', 'e', 'r']]), (['ช', 'ม'], [['h', 'o', 'u', 'r']]), (['ต', 'ค'], [['o', 'c', 't', 'o', 'b', 'e', 'r']]), (['ธ', 'ค'], [['d', 'e', 'c', 'e', 'm', 'b', 'e', 'r']]), (['น', '.'], [[]]), (['พ', 'ค'], [['m', 'a', 'y']]), (['พ', 'ธ'], [['w', 'e', 'd', 'n', 'e', 's', 'd', 'a', 'y']]), (['พ', 'ย'], [['n', 'o', 'v', 'e', 'm', 'b', 'e', 'r']]), (['พ', 'ฤ'], [['t', 'h', 'u', 'r', 's', 'd', 'a', 'y']]), (['ม', 'ค'], [['m', 'a', 'r', 'c', 'h'], ['j', 'a', 'n', 'u', 'a', 'r', 'y']]), (['ม', 'ย'], [['j', 'u', 'n', 'e']]), (['ว', 'น'], [['d', 'a', 'y']]), (['ส', 'ค'], [['a', 'u', 'g', 'u', 's', 't']]), (['อ', 'า'], [['s', 'u', 'n', 'd', 'a', 'y']]), (['ใ', 'น'], [['i', 'n']]), ([' '], [[' ']]), (['\''], [[]]), (['+'], [['+']]), ([','], [[]]), (['-'], [['-']]), (['.'], [['.']]), (['/'], [['/']]), ([':'], [[':']]), ([';'], [[]]), (['@'], [[]]), (['['], [[]]), ([']'], [[]]), (['z'], [['z']]), (['|'], [[]]), (['จ'], [['m', 'o', 'n', 'd', 'a', 'y']]), (['น'], [['m', 'i', 'n', 'u', 't', 'e']]), (['ป'], [['y', 'e', 'a', 'r']]), (['พ'], [['w', 'e', 'd', 'n', 'e', 's', 'd', 'a', 'y']]), (['ว'], [['s', 'e', 'c', 'o', 'n', 'd']]), (['ศ'], [['f', 'r', 'i', 'd', 'a', 'y']]), (['ส'], [['s', 'a', 't', 'u', 'r', 'd', 'a', 'y']]), (['อ'], [['t', 'u', 'e', 's', 'd', 'a', 'y']])]
  relativeType := [(['ส', 'ป', 'ด', 'า', 'ห', 'ท', 'แ', 'ล', 'ว'], ['1', ' ', 'w', 'e', 'e', 'k', ' ', 'a', 'g', 'o']), (['ส', 'ป', 'ด', 'า', 'ห', 'ห', 'น', 'า'], ['i', 'n', ' ', '1', ' ', 'w', 'e', 'e', 'k']), (['เ', 'ด', 'อ', 'น', 'ท', 'แ', 'ล', 'ว'], ['1', ' ', 'm', 'o', 'n', 't', 'h', ' ', 'a', 'g', 'o']), (['เ', 'ด', 'อ', 'น', 'ห', 'น', 'า'], ['i', 'n', ' ', '1', ' ', 'm', 'o', 'n', 't', 'h']), (['ช', 'ว', 'โ', 'ม', 'ง', 'น'], ['0', ' ', 'h', 'o', 'u', 'r', ' ', 'a', 'g', 'o']), (['ส', 'ป', 'ด', 'า', 'ห', 'น'], ['0', ' ', 'w', 'e', 'e', 'k', ' ', 'a', 'g', 'o']), (['เ', 'ม', 'อ', 'ว', 'า', 'น'], ['1', ' ', 'd', 'a', 'y', ' ', 'a', 'g', 'o']), (['ป', 'ท', 'แ', 'ล', 'ว'], ['1', ' ', 'y', 'e', 'a', 'r', ' ', 'a', 'g', 'o']), (['เ', 'ด', 'อ', 'น', 'น'], ['0', ' ', 'm', 'o', 'n', 't', 'h', ' ', 'a', 'g', 'o']), (['ข', 'ณ', 'ะ', 'น'], ['0', ' ', 's', 'e', 'c', 'o', 'n', 'd', ' ', 'a', 'g', 'o']), (['น', 'า', 'ท', 'น'], ['0', ' ', 'm', 'i', 'n', 'u', 't', 'e', ' ', 'a', 'g', 'o']), (['ป', 'ห', 'น', 'า'], ['i', 'n', ' ', '1', ' ', 'y', 'e', 'a', 'r']), (['พ', 'ร', 'ง', 'น'], ['i', 'n', ' ', '1', ' ', 'd', 'a', 'y']), (['ว', 'น', 'น'], ['0', ' ', 'd', 'a', 'y', ' ', 'a', 'g', 'o']), (['ป', 'น'], ['0', ' ', 'y', 'e', 'a', 'r', ' ', 'a', 'g', 'o'])]

/-- internal/data/ti.go: `ti_Locale`, dictionary. -/
def tiDict : LangData where
  name := ['t', 'i']
  translations := [(['ን', 'ጉ', 'ሆ', ' ', 'ሰ', 'ዓ', 'ተ'], [['a', 'm']]), (['ድ', 'ሕ', 'ር', ' ', 'ሰ', 'ዓ', 'ት'], [['p', 'm']]), (['m', 'i', 'n', 'u', 't', 'e'], [['m', 'i', 'n', 'u', 't', 'e']]), (['s', 'e', 'c', 'o', 'n', 'd'], [['s', 'e', 'c', 'o', 'n', 'd']]), (['m', 'o', 'n', 't', 'h'], [['m', 'o', 'n', 't', 'h']]), (['መ', 'ስ', 'ከ', 'ረ', 'ም'], [['s', 'e', 'p', 't', 'e', 'm', 'b', 'e', 'r']]), (['h', 'o', 'u', 'r'], [['h', 'o', 'u', 'r']]), (['w', 'e', 'e', 'k'], [['w', 'e', 'e', 'k']]), (['y', 'e', 'a', 'r'], [['y', 'e', 'a', 'r']]), (['ለ', 'ካ', 'ቲ', 'ት'], [['f', 'e', 'b', 'r', 'u', 'a', 'r', 'y']]), (['መ', 'ጋ', 'ቢ', 'ት'], [['m', 'a', 'r', 'c', 'h']]), (['ሚ', 'ያ', 'ዝ', 'ያ'], [['a', 'p', 'r', 'i', 'l']]), (['ሰ', 'ን', 'በ', 'ት'], [['s', 'u', 'n', 'd', 'a', 'y']]), (['ታ', 'ሕ', 'ሳ', 'ስ'], [['d', 'e', 'c', 'e', 'm', 'b', 'e', 'r']]), (['ግ', 'ን', 'ቦ', 'ት'], [['m', 'a', 'y']]), (['ጥ', 'ቅ', 'ም', 'ቲ'], [['o', 'c', 't', 'o', 'b', 'e', 'r']]), (['d', 'a', 'y'], [['d', 'a', 'y']]), (['g', 'm', 't'], [['g', 'm', 't']]), (['u', 't', 'c'], [['u', 't', 'c']]), (['ሓ', 'ሙ', 'ስ'], [['t', 'h', 'u', 'r', 's', 'd', 'a', 'y']]), (['ሓ', 'ም', 'ለ'], [['j', 'u', 'l', 'y']]), (['ሕ', 'ዳ', 'ር'], [['n', 'o', 'v', 'e', 'm', 'b', 'e', 'r']]), (['ሠ', 'ሉ', 'ስ'], [['t', 'u', 'e', 's', 'd', 'a', 'y']]), (['ረ', 'ቡ', 'ዕ'], [['w', 'e', 'd', 'n', 'e', 's', 'd', 'a', 'y']]), (['ሰ', 'ሉ', 'ስ'], [['t', 'u', 'e', 's', 'd', 'a', 'y']]), (['ሰ', 'ኑ', 'ይ'], [['m', 'o', 'n', 'd', 'a', 'y']]), (['ቀ', 'ዳ', 'ም'], [['s', 'a', 't', 'u', 'r', 'd', 'a', 'y']]), (['ኃ', 'ሙ', 'ስ'], [['t', 'h', 'u', 'r', 's', 'd', 'a', 'y']]), (['ነ', 'ሓ', 'ሰ'], [['a', 'u', 'g', 'u', 's', 't']]), (['ዓ', 'ር', 'ቢ'], [['f', 'r', 'i', 'd', 'a', 'y']]), (['a', 'm'], [['a', 'm']]), (['p', 'm'], [['p', 'm']]), (['ለ', 'ካ'], [['f', 'e', 'b', 'r', 'u', 'a', 'r', 'y']]), (['ሓ', 'ሙ'], [['t', 'h', 'u', 'r', 's', 'd', 'a', 'y']]), (['ሓ', 'ም'], [['j', 'u', 'l', 'y']]), (['ሕ', 'ዳ'], [['n', 'o', 'v', 'e', 'm', 'b', 'e', 'r']]), (['መ', 'ስ'], [['s', 'e', 'p', 't', 'e', 'm', 'b', 'e', 'r']]), (['መ', 'ጋ'], [['m', 'a', 'r', 'c', 'h']]), (['ሚ', 'ያ'], [['a', 'p', 'r', 'i', 'l']]), (['ረ', 'ቡ'], [['w', 'e', 'd', 'n', 'e', 's', 'd', 'a', 'y']]), (['ሰ', 'ሉ'], [['t', 'u', 'e', 's', 'd', 'a', 'y']]), (['ሰ', 'ነ'], [['j', 'u', 'n', 'e']]), (['ሰ', 'ኑ'], [['m', 'o', 'n', 'd', 'a', 'y']]), (['ሰ', 'ን'], [['s', 'u', 'n', 'd', 'a', 'y']]), (['ቀ', 'ዳ'], [['s', 'a', 't', 'u', 'r', 'd', 'a', 'y']]), (['ታ', 'ሕ'], [['d', 'e', 'c', 'e', 'm', 'b', 'e', 'r']]), (['ነ', 'ሓ'], [['a', 'u', 'g', 'u', 's', 't']]), (['ዓ', 'ር'], [['f', 'r', 'i', 'd', 'a', 'y']]), (['ግ', 'ን'], [['m', 'a', 'y']]), (['ጥ', 'ሪ'], [['j', 'a', 'n', 'u', 'a', 'r', 'y']]), (['ጥ', 'ቅ'], [['o', 'c', 't', 'o', 'b', 'e', 'r']]), ([' '], [[' ']]), (['\''], [[]]), (['+'], [['+']]), ([','], [[]]), (['-'], [['-']]), (['.'], [['.']]), (['/'], [['/']]), ([':'], [[':']]), ([';'], [[]]), (['@'], [[]]), (['['], [[]]), ([']'], [[]]), (['z'], [['z']]), (['|'], [[]])]
  relativeType := [(['t', 'h', 'i', 's', ' ', 'm', 'i', 'n', 'u', 't', 'e'], ['0', ' ', 'm', 'i', 'n', 'u', 't', 'e', ' ', 'a', 'g', 'o']), (['l', 'a', 's', 't', ' ', 'm', 'o', 'n', 't', 'h'], ['1', ' ', 'm', 'o', 'n', 't', 'h', ' ', 'a', 'g', 'o']), (['n', 'e', 'x', 't', ' ', 'm', 'o', 'n', 't', 'h'], ['i', 'n', ' ', '1', ' ', 'm', 'o', 'n', 't', 'h']), (['t', 'h', 'i', 's', ' ', 'm', 'o', 'n', 't', 'h'], ['0', ' ', 'm', 'o', 'n', 't', 'h', ' ', 'a', 'g', 'o']), (['l', 'a', 's', 't', ' ', 'w', 'e', 'e', 'k'], ['1', ' ', 'w', 'e', 'e', 'k', ' ', 'a', 'g', 'o']), (['l', 'a', 's', 't', ' ', 'y', 'e', 'a', 'r'], ['1', ' ', 'y', 'e', 'a', 'r', ' ', 'a', 'g', 'o']), (['n', 'e', 'x', 't', ' ', 'w', 'e', 'e', 'k'], ['i', 'n', ' ', '1', ' ', 'w', 'e', 'e', 'k']), (['n', 'e', 'x', 't', ' ', 'y', 'e', 'a', 'r'], ['i', 'n', ' ', '1', ' ', 'y', 'e', 'a', 'r']), (['t', 'h', 'i', 's', ' ', 'h', 'o', 'u', 'r'], ['0', ' ', 'h', 'o', 'u', 'r', ' ', 'a', 'g', 'o']), (['t', 'h', 'i', 's', ' ', 'w', 'e', 'e', 'k'], ['0', ' ', 'w', 'e', 'e', 'k', ' ', 'a', 'g', 'o']), (['t', 'h', 'i', 's', ' ', 'y', 'e', 'a', 'r'], ['0', ' ', 'y', 'e', 'a', 'r', ' ', 'a', 'g', 'o']), (['y', 'e', 's', 't', 'e', 'r', 'd', 'a', 'y'], ['1', ' ', 'd', 'a', 'y', ' ', 'a', 'g', 'o']), (['t', 'o', 'm', 'o', 'r', 'r', 'o', 'w'], ['i', 'n', ' ', '1', ' ', 'd', 'a', 'y']), (['t', 'o', 'd', 'a', 'y'], ['0', ' ', 'd', 'a', 'y', ' ', 'a', 'g', 'o']), (['n', 'o', 'w'], ['0', ' ', 's', 'e', 'c', 'o', 'n', 'd', ' ', 'a', 'g', 'o'])]

end Verif.Data
