import Verif.Model.Pattern
/-! GENERATED by tools/gen_dicts.py from /repo/internal/data; do not edit. -/
set_option autoImplicit false
set_option maxRecDepth 100000
namespace Verif.Data
open Verif.Model

/-- internal/data/fa.go: `fa_AF_Locale`, dictionary. -/
def fa_AFDict : LangData where
  name := ['f', 'a', '-', 'A', 'F']
  translations := [(['ج', 'ن', 'و'], [['j', 'a', 'n', 'u', 'a', 'r', 'y']]), (['ج', 'و', 'ل'], [['j', 'u', 'l', 'y']]), (['د', 'س', 'م'], [['d', 'e', 'c', 'e', 'm', 'b', 'e', 'r']])]

/-- internal/data/ff.go: `ff_Locale`, dictionary. -/
def ffDict : LangData where
  name := ['f', 'f']
  translations := [(['h', 'o', 'o', 'r', 'e', '-', 'b', 'i', 'i', 'r'], [['s', 'a', 't', 'u', 'r', 'd', 'a', 'y']]), (['n', 'a', 'a', 's', 'a', 'a', 'n', 'd', 'e'], [['t', 'h', 'u', 'r', 's', 'd', 'a', 'y']]), (['n', 'j', 'e', 's', 'l', 'a', 'a', 'r', 'e'], [['w', 'e', 'd', 'n', 'e', 's', 'd', 'a', 'y']]), (['h', 'i', 't', 'a', 'a', 'n', 'd', 'e'], [['y', 'e', 'a', 'r']]), (['m', 'a', 'j', 'a', 'a', 'n', 'g', 'o'], [['s', 'e', 'c', 'o', 'n', 'd']]), (['m', 'a', 'w', 'b', 'a', 'a', 'r', 'e'], [['t', 'u', 'e', 's', 'd', 'a', 'y']]), (['y', 'a', 'r', 'k', 'o', 'm', 'a', 'a'], [['o', 'c', 't', 'o', 'b', 'e', 'r']]), (['k', 'i', 'k', 'i', 'i', 'ɗ', 'e'], [['p', 'm']]), (['y', 'o', 'n', 't', 'e', 'r', 'e'], [['w', 'e', 'e', 'k']]), (['a', 'a', 'ɓ', 'n', 'd', 'e'], [['m', 'o', 'n', 'd', 'a', 'y']]), (['d', 'u', 'u', 'j', 'a', 'l'], [['m', 'a', 'y']]), (['m', 'a', 'w', 'n', 'd', 'e'], [['f', 'r', 'i', 'd', 'a', 'y']]), (['n', 'a', 'l', 'n', 'd', 'e'], [['d', 'a', 'y']]), (['s', 'e', 'e', 'ɗ', 't', 'o'], [['a', 'p', 'r', 'i', 'l']]), (['s', 'i', 'i', 'l', 't', 'o'], [['s', 'e', 'p', 't', 'e', 'm', 'b', 'e', 'r']]), (['s', 'u', 'b', 'a', 'k', 'a'], [['a', 'm']]), (['b', 'o', 'w', 't', 'e'], [['d', 'e', 'c', 'e', 'm', 'b', 'e', 'r']]), (['c', 'o', 'l', 't', 'e'], [['f', 'e', 'b', 'r', 'u', 'a', 'r', 'y']]), (['h', 'o', 'ƴ', 'o', 'm'], [['m', 'i', 'n', 'u', 't', 'e']]), (['j', 'o', 'l', 'a', 'l'], [['n', 'o', 'v', 'e', 'm', 'b', 'e', 'r']]), (['k', 'o', 'r', 's', 'e'], [['j', 'u', 'n', 'e']]), (['l', 'e', 'w', 'r', 'u'], [['m', 'o', 'n', 't', 'h']]), (['m', 'b', 'o', 'o', 'y'], [['m', 'a', 'r', 'c', 'h']]), (['m', 'o', 'r', 's', 'o'], [['j', 'u', 'l', 'y']]), (['s', 'i', 'i', 'l', 'o'], [['j', 'a', 'n', 'u', 'a', 'r', 'y']]), (['w', 'a', 'k', 't', 'u'], [['h', 'o', 'u', 'r']]), (['d', 'e', 'w', 'o'], [['s', 'u', 'n', 'd', 'a', 'y']]), (['j', 'u', 'k', 'o'], [['a', 'u', 'g', 'u', 's', 't']]), (['a', 'a', 'ɓ'], [['m', 'o', 'n', 'd', 'a', 'y']]), (['b', 'o', 'w'], [['d', 'e', 'c', 'e', 'm', 'b', 'e', 'r']]), (['c', 'o', 'l'], [['f', 'e', 'b', 'r', 'u', 'a', 'r', 'y']]), (['d', 'e', 'w'], [['s', 'u', 'n', 'd', 'a', 'y']]), (['d', 'u', 'u'], [['m', 'a', 'y']]), (['g', 'm', 't'], [['g', 'm', 't']]), (['h', 'b', 'i'], [['s', 'a', 't', 'u', 'r', 'd', 'a', 'y']]), (['j', 'o', 'l'], [['n', 'o', 'v', 'e', 'm', 'b', 'e', 'r']]), (['j', 'u', 'k'], [['a', 'u', 'g', 'u', 's', 't']]), (['k', 'o', 'r'], [['j', 'u', 'n', 'e']]), (['m', 'a', 'w'], [['t', 'u', 'e', 's', 'd', 'a', 'y']]), (['m', 'b', 'o'], [['m', 'a', 'r', 'c', 'h']]), (['m', 'o', 'r'], [['j', 'u', 'l', 'y']]), (['m', 'w', 'd'], [['f', 'r', 'i', 'd', 'a', 'y']]), (['n', 'a', 'a'], [['t', 'h', 'u', 'r', 's', 'd', 'a', 'y']]), (['n', 'j', 'e'], [['w', 'e', 'd', 'n', 'e', 's', 'd', 'a', 'y']]), (['s', 'e', 'e'], [['a', 'p', 'r', 'i', 'l']]), (['s', 'i', 'i'], [['j', 'a', 'n', 'u', 'a', 'r', 'y']]), (['s', 'l', 't'], [['s', 'e', 'p', 't', 'e', 'm', 'b', 'e', 'r']]), (['u', 't', 'c'], [['u', 't', 'c']]), (['y', 'a', 'r'], [['o', 'c', 't', 'o', 'b', 'e', 'r']]), (['a', 'm'], [['a', 'm']]), (['p', 'm'], [['p', 'm']]), ([' '], [[' ']]), (['\''], [[]]), (['+'], [['+']]), ([','], [[]]), (['-'], [['-']]), (['.'], [['.']]), (['/'], [['/']]), ([':'], [[':']]), ([';'], [[]]), (['@'], [[]]), (['['], [[]]), ([']'], [[]]), (['z'], [['z']]), (['|'], [[]])]
  relativeType := [(['t', 'h', 'i', 's', ' ', 'm', 'i', 'n', 'u', 't', 'e'], ['0', ' ', 'm', 'i', 'n', 'u', 't', 'e', ' ', 'a', 'g', 'o']), (['l', 'a', 's', 't', ' ', 'm', 'o', 'n', 't', 'h'], ['1', ' ', 'm', 'o', 'n', 't', 'h', ' ', 'a', 'g', 'o']), (['n', 'e', 'x', 't', ' ', 'm', 'o', 'n', 't', 'h'], ['i', 'n', ' ', '1', ' ', 'm', 'o', 'n', 't', 'h']), (['t', 'h', 'i', 's', ' ', 'm', 'o', 'n', 't', 'h'], ['0', ' ', 'm', 'o', 'n', 't', 'h', ' ', 'a', 'g', 'o']), (['l', 'a', 's', 't', ' ', 'w', 'e', 'e', 'k'], ['1', ' ', 'w', 'e', 'e', 'k', ' ', 'a', 'g', 'o']), (['l', 'a', 's', 't', ' ', 'y', 'e', 'a', 'r'], ['1', ' ', 'y', 'e', 'a', 'r', ' ', 'a', 'g', 'o']), (['n', 'e', 'x', 't', ' ', 'w', 'e', 'e', 'k'], ['i', 'n', ' ', '1', ' ', 'w', 'e', 'e', 'k']), (['n', 'e', 'x', 't', ' ', 'y', 'e', 'a', 'r'], ['i', 'n', ' ', '1', ' ', 'y', 'e', 'a', 'r']), (['t', 'h', 'i', 's', ' ', 'h', 'o', 'u', 'r'], ['0', ' ', 'h', 'o', 'u', 'r', ' ', 'a', 'g', 'o']), (['t', 'h', 'i', 's', ' ', 'w', 'e', 'e', 'k'], ['0', ' ', 'w', 'e', 'e', 'k', ' ', 'a', 'g', 'o']), (['t', 'h', 'i', 's', ' ', 'y', 'e', 'a', 'r'], ['0', ' ', 'y', 'e', 'a', 'r', ' ', 'a', 'g', 'o']), (['h', 'a', 'n', 'n', 'd', 'e'], ['0', ' ', 'd', 'a', 'y', ' ', 'a', 'g', 'o']), (['j', 'a', 'ŋ', 'n', 'g', 'o'], ['i', 'n', ' ', '1', ' ', 'd', 'a', 'y']), (['h', 'a', 'ŋ', 'k', 'i'], ['1', ' ', 'd', 'a', 'y', ' ', 'a', 'g', 'o']), (['n', 'o', 'w'], ['0', ' ', 's', 'e', 'c', 'o', 'n', 'd', ' ', 'a', 'g', 'o'])]

/-- internal/data/ff.go: `ff_CM_Locale`, dictionary. -/
def ff_CMDict : LangData where
  name := ['f', 'f', '-', 'C', 'M']

/-- internal/data/ff.go: `ff_GN_Locale`, dictionary. -/
def ff_GNDict : LangData where
  name := ['f', 'f', '-', 'G', 'N']

/-- internal/data/ff.go: `ff_MR_Locale`, dictionary. -/
def ff_MRDict : LangData where
  name := ['f', 'f', '-', 'M', 'R']

/-- internal/data/fi.go: `fi_Locale`, dictionary. -/
def fiDict : LangData where
  name := ['f', 'i']
  splitterGroup := 1
  translations := [(['k', 'e', 's', 'k', 'i', 'v', 'i', 'i', 'k', 'k', 'o', 'n', 'a'], [['w', 'e', 'd', 'n', 'e', 's', 'd', 'a', 'y']]), (['m', 'a', 'a', 'l', 'i', 's', 'k', 'u', 'u', 's', 's', 'a'], [['m', 'a', 'r', 'c', 'h']]), (['m', 'a', 'r', 'r', 'a', 's', 'k', 'u', 'u', 's', 's', 'a'], [['n', 'o', 'v', 'e', 'm', 'b', 'e', 'r']]), (['h', 'e', 'i', 'n', 'a', 'k', 'u', 'u', 's', 's', 'a'], [['j', 'u', 'l', 'y']]), (['h', 'e', 'l', 'm', 'i', 'k', 'u', 'u', 's', 's', 'a'], [['f', 'e', 'b', 'r', 'u', 'a', 'r', 'y']]), (['h', 'u', 'h', 't', 'i', 'k', 'u', 'u', 's', 's', 'a'], [['a', 'p', 'r', 'i', 'l']]), (['j', 'o', 'u', 'l', 'u', 'k', 'u', 'u', 's', 's', 'a'], [['d', 'e', 'c', 'e', 'm', 'b', 'e', 'r']]), (['k', 'e', 's', 'k', 'i', 'v', 'i', 'i', 'k', 'k', 'o'], [['w', 'e', 'd', 'n', 'e', 's', 'd', 'a', 'y']]), (['m', 'a', 'a', 'l', 'i', 's', 'k', 'u', 'u', 't', 'a'], [['m', 'a', 'r', 'c', 'h']]), (['m', 'a', 'a', 'n', 'a', 'n', 't', 'a', 'i', 'n', 'a'], [['m', 'o', 'n', 'd', 'a', 'y']]), (['m', 'a', 'r', 'r', 'a', 's', 'k', 'u', 'u', 't', 'a'], [['n', 'o', 'v', 'e', 'm', 'b', 'e', 'r']]), (['p', 'e', 'r', 'j', 'a', 'n', 't', 'a', 'i', 'n', 'a'], [['f', 'r', 'i', 'd', 'a', 'y']]), (['s', 'u', 'n', 'n', 'u', 'n', 't', 'a', 'i', 'n', 'a'], [['s', 'u', 'n', 'd', 'a', 'y']]), (['t', 'a', 'm', 'm', 'i', 'k', 'u', 'u', 's', 's', 'a'], [['j', 'a', 'n', 'u', 'a', 'r', 'y']]), (['t', 'o', 'u', 'k', 'o', 'k', 'u', 'u', 's', 's', 'a'], [['m', 'a', 'y']]), (['h', 'e', 'i', 'n', 'a', 'k', 'u', 'u', 't', 'a'], [['j', 'u', 'l', 'y']]), (['h', 'e', 'l', 'm', 'i', 'k', 'u', 'u', 't', 'a'], [['f', 'e', 'b', 'r', 'u', 'a', 'r', 'y']]), (['h', 'u', 'h', 't', 'i', 'k', 'u', 'u', 't', 'a'], [['a', 'p', 'r', 'i', 'l']]), (['j', 'o', 'u', 'l', 'u', 'k', 'u', 'u', 't', 'a'], [['d', 'e', 'c', 'e', 'm', 'b', 'e', 'r']]), (['k', 'e', 's', 'a', 'k', 'u', 'u', 's', 's', 'a'], [['j', 'u', 'n', 'e']]), (['l', 'a', 'u', 'a', 'n', 't', 'a', 'i', 'n', 'a'], [['s', 'a', 't', 'u', 'r', 'd', 'a', 'y']]), (['l', 'o', 'k', 'a', 'k', 'u', 'u', 's', 's', 'a'], [['o', 'c', 't', 'o', 'b', 'e', 'r']]), (['s', 'y', 'y', 's', 'k', 'u', 'u', 's', 's', 'a'], [['s', 'e', 'p', 't', 'e', 'm', 'b', 'e', 'r']]), (['t', 'a', 'm', 'm', 'i', 'k', 'u', 'u', 't', 'a'], [['j', 'a', 'n', 'u', 'a', 'r', 'y']]), (['t', 'o', 'u', 'k', 'o', 'k', 'u', 'u', 't', 'a'], [['m', 'a', 'y']]), (['e', 'l', 'o', 'k', 'u', 'u', 's', 's', 'a'], [['a', 'u', 'g', 'u', 's', 't']]), (['k', 'e', 's', 'a', 'k', 'u', 'u', 't', 'a'], [['j', 'u', 'n', 'e']]), (['k', 'u', 'u', 'k', 'a', 'u', 'd', 'e', 'n'], [['m', 'o', 'n', 't', 'h']]), (['k', 'u', 'u', 'k', 'a', 'u', 't', 't', 'a'], [['m', 'o', 'n', 't', 'h']]), (['l', 'o', 'k', 'a', 'k', 'u', 'u', 't', 'a'], [['o', 'c', 't', 'o', 'b', 'e', 'r']]), (['m', 'a', 'a', 'l', 'i', 's', 'k', 'u', 'u'], [['m', 'a', 'r', 'c', 'h']]), (['m', 'a', 'a', 'n', 'a', 'n', 't', 'a', 'i'], [['m', 'o', 'n', 'd', 'a', 'y']]), (['m', 'a', 'r', 'r', 'a', 's', 'k', 'u', 'u'], [['n', 'o', 'v', 'e', 'm', 'b', 'e', 'r']]), (['m', 'i', 'n', 'u', 'u', 't', 't', 'i', 'a'], [['m', 'i', 'n', 'u', 't', 'e']]), (['p', 'e', 'r', 'j', 'a', 'n', 't', 'a', 'i'], [['f', 'r', 'i', 'd', 'a', 'y']]), (['s', 'e', 'k', 'u', 'n', 't', 't', 'i', 'a'], [['s', 'e', 'c', 'o', 'n', 'd']]), (['s', 'u', 'n', 'n', 'u', 'n', 't', 'a', 'i'], [['s', 'u', 'n', 'd', 'a', 'y']]), (['s', 'y', 'y', 's', 'k', 'u', 'u', 't', 'a'], [['s', 'e', 'p', 't', 'e', 'm', 'b', 'e', 'r']]), (['t', 'i', 'i', 's', 't', 'a', 'i', 'n', 'a'], [['t', 'u', 'e', 's', 'd', 'a', 'y']]), (['t', 'o', 'r', 's', 't', 'a', 'i', 'n', 'a'], [['t', 'h', 'u', 'r', 's', 'd', 'a', 'y']]), (['e', 'l', 'o', 'k', 'u', 'u', 't', 'a'], [['a', 'u', 'g', 'u', 's', 't']]), (['h', 'e', 'i', 'n', 'a', 'k', 'u', 'u'], [['j', 'u', 'l', 'y']]), (['h', 'e', 'l', 'm', 'i', 'k', 'u', 'u'], [['f', 'e', 'b', 'r', 'u', 'a', 'r', 'y']]), (['h', 'u', 'h', 't', 'i', 'k', 'u', 'u'], [['a', 'p', 'r', 'i', 'l']]), (['j', 'o', 'u', 'l', 'u', 'k', 'u', 'u'], [['d', 'e', 'c', 'e', 'm', 'b', 'e', 'r']]), (['k', 'u', 'l', 'u', 't', 't', 'u', 'a'], [['i', 'n']]), (['k', 'u', 'u', 'k', 'a', 'u', 's', 'i'], [['m', 'o', 'n', 't', 'h']]), (['l', 'a', 'u', 'a', 'n', 't', 'a', 'i'], [['s', 'a', 't', 'u', 'r', 'd', 'a', 'y']]), (['m', 'i', 'n', 'u', 'u', 't', 'i', 'n'], [['m', 'i', 'n', 'u', 't', 'e']]), (['m', 'i', 'n', 'u', 'u', 't', 't', 'i'], [['m', 'i', 'n', 'u', 't', 'e']]), (['s', 'e', 'k', 'u', 'n', 'n', 'i', 'n'], [['s', 'e', 'c', 'o', 'n', 'd']]), (['s', 'e', 'k', 'u', 'n', 't', 'i', 'a'], [['s', 'e', 'c', 'o', 'n', 'd']]), (['s', 'e', 'k', 'u', 'n', 't', 'i', 'n'], [['s', 'e', 'c', 'o', 'n', 'd']]), (['s', 'e', 'k', 'u', 'n', 't', 't', 'i'], [['s', 'e', 'c', 'o', 'n', 'd']]), (['t', 'a', 'm', 'm', 'i', 'k', 'u', 'u'], [['j', 'a', 'n', 'u', 'a', 'r', 'y']]), (['t', 'o', 'u', 'k', 'o', 'k', 'u', 'u'], [['m', 'a', 'y']]), (['k', 'e', 's', 'a', 'k', 'u', 'u'], [['j', 'u', 'n', 'e']]), (['l', 'o', 'k', 'a', 'k', 'u', 'u'], [['o', 'c', 't', 'o', 'b', 'e', 'r']]), (['m', 'a', 'a', 'l', 'i', 's', 'k'], [['m', 'a', 'r', 'c', 'h']]), (['m', 'a', 'r', 'r', 'a', 's', 'k'], [['n', 'o', 'v', 'e', 'm', 'b', 'e', 'r']]), (['s', 'e', 'k', 'u', 'n', 't', 'i'], [['s', 'e', 'c', 'o', 'n', 'd']]), (['s', 'y', 'y', 's', 'k', 'u', 'u'], [['s', 'e', 'p', 't', 'e', 'm', 'b', 'e', 'r']]), (['t', 'i', 'i', 's', 't', 'a', 'i'], [['t', 'u', 'e', 's', 'd', 'a', 'y']]), (['t', 'o', 'r', 's', 't', 'a', 'i'], [['t', 'h', 'u', 'r', 's', 'd', 'a', 'y']]), (['v', 'i', 'i', 'k', 'k', 'o', 'a'], [['w', 'e', 'e', 'k']]), (['e', 'l', 'o', 'k', 'u', 'u'], [['a', 'u', 'g', 'u', 's', 't']]), (['h', 'e', 'i', 'n', 'a', 'k'], [['j', 'u', 'l', 'y']]), (['h', 'e', 'l', 'm', 'i', 'k'], [['f', 'e', 'b', 'r', 'u', 'a', 'r', 'y']]), (['h', 'u', 'h', 't', 'i', 'k'], [['a', 'p', 'r', 'i', 'l']]), (['j', 'o', 'u', 'l', 'u', 'k'], [['d', 'e', 'c', 'e', 'm', 'b', 'e', 'r']]), (['m', 'a', 'a', 'l', 'i', 's'], [['m', 'a', 'r', 'c', 'h']]), (['m', 'a', 'r', 'r', 'a', 's'], [['n', 'o', 'v', 'e', 'm', 'b', 'e', 'r']]), (['p', 'a', 'a', 's', 't', 'a'], [['i', 'n']]), (['p', 'a', 'i', 'v', 'a', 'a'], [['d', 'a', 'y']]), (['p', 'a', 'i', 'v', 'a', 'n'], [['d', 'a', 'y']]), (['s', 'i', 't', 't', 'e', 'n'], [['a', 'g', 'o']]), (['t', 'a', 'm', 'm', 'i', 'k'], [['j', 'a', 'n', 'u', 'a', 'r', 'y']]), (['t', 'o', 'u', 'k', 'o', 'k'], [['m', 'a', 'y']]), (['t', 'u', 'n', 'n', 'i', 'n'], [['h', 'o', 'u', 'r']]), (['t', 'u', 'n', 't', 'i', 'a'], [['h', 'o', 'u', 'r']]), (['v', 'i', 'i', 'k', 'k', 'o'], [['w', 'e', 'e', 'k']]), (['v', 'i', 'i', 'k', 'o', 'n'], [['w', 'e', 'e', 'k']]), (['v', 'u', 'o', 'd', 'e', 'n'], [['y', 'e', 'a', 'r']]), (['v', 'u', 'o', 'n', 'n', 'a'], [['y', 'e', 'a', 'r']]), (['v', 'u', 'o', 't', 't', 'a'], [['y', 'e', 'a', 'r']]), (['h', 'e', 'i', 'n', 'a'], [['j', 'u', 'l', 'y']]), (['h', 'e', 'l', 'm', 'i'], [['f', 'e', 'b', 'r', 'u', 'a', 'r', 'y']]), (['h', 'u', 'h', 't', 'i'], [['a', 'p', 'r', 'i', 'l']]), (['j', 'o', 'u', 'l', 'u'], [['d', 'e', 'c', 'e', 'm', 'b', 'e', 'r']]), (['k', 'e', 's', 'a', 'k'], [['j', 'u', 'n', 'e']]), (['l', 'o', 'k', 'a', 'k'], [['o', 'c', 't', 'o', 'b', 'e', 'r']]), (['p', 'a', 'i', 'v', 'a'], [['d', 'a', 'y']]), (['s', 'y', 'y', 's', 'k'], [['s', 'e', 'p', 't', 'e', 'm', 'b', 'e', 'r']]), (['t', 'a', 'm', 'm', 'i'], [['j', 'a', 'n', 'u', 'a', 'r', 'y']]), (['t', 'o', 'u', 'k', 'o'], [['m', 'a', 'y']]), (['t', 'u', 'n', 't', 'i'], [['h', 'o', 'u', 'r']]), (['v', 'u', 'o', 's', 'i'], [['y', 'e', 'a', 'r']]), (['e', 'l', 'o', 'k'], [['a', 'u', 'g', 'u', 's', 't']]), (['k', 'e', 's', 'a'], [['j', 'u', 'n', 'e']]), (['l', 'o', 'k', 'a'], [['o', 'c', 't', 'o', 'b', 'e', 'r']]), (['p', 'v', 'a', 'a'], [['d', 'a', 'y']]), (['s', 'y', 'y', 's'], [['s', 'e', 'p', 't', 'e', 'm', 'b', 'e', 'r']]), (['e', 'l', 'o'], [['a', 'u', 'g', 'u', 's', 't']]), (['g', 'm', 't'], [['g', 'm', 't']]), (['m', 'i', 'n'], [['m', 'i', 'n', 'u', 't', 'e']]), (['p', 'v', 'a'], [['d', 'a', 'y']]), (['u', 't', 'c'], [['u', 't', 'c']]), (['v', 'k', 'o'], [['w', 'e', 'e', 'k']]), ([':', 'n'], [[]]), (['a', 'm'], [['a', 'm']]), (['a', 'p'], [['a', 'm']]), (['i', 'p'], [['p', 'm']]), (['k', 'e'], [['w', 'e', 'd', 'n', 'e', 's', 'd', 'a', 'y']]), (['k', 'k'], [['m', 'o', 'n', 't', 'h']]), (['l', 'a'], [['s', 'a', 't', 'u', 'r', 'd', 'a', 'y']]), (['m', 'a'], [['m', 'o', 'n', 'd', 'a', 'y']]), (['p', 'e'], [['f', 'r', 'i', 'd', 'a', 'y']]), (['p', 'm'], [['p', 'm']]), (['p', 'v'], [['d', 'a', 'y']]), (['s', 'u'], [['s', 'u', 'n', 'd', 'a', 'y']]), (['t', 'i'], [['t', 'u', 'e', 's', 'd', 'a', 'y']]), (['t', 'o'], [['t', 'h', 'u', 'r', 's', 'd', 'a', 'y']]), (['v', 'k'], [['w', 'e', 'e', 'k']]), (['v', 'v'], [['y', 'e', 'a', 'r']]), ([' '], [[' ']]), (['\''], [[]]), (['+'], [['+']]), ([','], [[]]), (['-'], [['-']]), (['.'], [['.']]), (['/'], [['/']]), ([':'], [[':']]), ([';'], [[]]), (['@'], [[]]), (['['], [[]]), ([']'], [[]]), (['p'], [['d', 'a', 'y']]), (['s'], [['s', 'e', 'c', 'o', 'n', 'd']]), (['t'], [['h', 'o', 'u', 'r']]), (['v'], [['y', 'e', 'a', 'r']]), (['z'], [['z']]), (['|'], [[]])]
  relativeType := [(['t', 'a', 'm', 'a', 'n', ' ', 'm', 'i', 'n', 'u', 'u', 't', 'i', 'n', ' ', 'a', 'i', 'k', 'a', 'n', 'a'], ['0', ' ', 'm', 'i', 'n', 'u', 't', 'e', ' ', 'a', 'g', 'o']), (['t', 'a', 'm', 'a', 'n', ' ', 't', 'u', 'n', 'n', 'i', 'n', ' ', 'a', 'i', 'k', 'a', 'n', 'a'], ['0', ' ', 'h', 'o', 'u', 'r', ' ', 'a', 'g', 'o']), (['m', 'i', 'n', 'u', 'u', 't', 'i', 'n', ' ', 's', 'i', 's', 'a', 'l', 'l', 'a'], ['0', ' ', 'm', 'i', 'n', 'u', 't', 'e', ' ', 'a', 'g', 'o']), (['t', 'o', 'i', 's', 's', 'a', ' ', 'v', 'i', 'i', 'k', 'o', 'l', 'l', 'a'], ['2', ' ', 'w', 'e', 'e', 'k', ' ', 'a', 'g', 'o']), (['t', 'a', 'l', 'l', 'a', ' ', 'v', 'i', 'i', 'k', 'o', 'l', 'l', 'a'], ['0', ' ', 'w', 'e', 'e', 'k', ' ', 'a', 'g', 'o']), (['t', 'o', 'i', 's', 's', 'a', ' ', 'p', 'a', 'i', 'v', 'a', 'n', 'a'], ['2', ' ', 'd', 'a', 'y', ' ', 'a', 'g', 'o']), (['t', 'u', 'n', 'n', 'i', 'n', ' ', 's', 'i', 's', 'a', 'l', 'l', 'a'], ['0', ' ', 'h', 'o', 'u', 'r', ' ', 'a', 'g', 'o']), (['v', 'i', 'i', 'm', 'e', ' ', 'v', 'i', 'i', 'k', 'o', 'l', 'l', 'a'], ['1', ' ', 'w', 'e', 'e', 'k', ' ', 'a', 'g', 'o']), (['e', 'n', 's', 'i', ' ', 'v', 'i', 'i', 'k', 'o', 'l', 'l', 'a'], ['i', 'n', ' ', '1', ' ', 'w', 'e', 'e', 'k']), (['t', 'o', 'i', 's', 's', 'a', ' ', 'k', 'u', 'u', 's', 's', 'a'], ['2', ' ', 'm', 'o', 'n', 't', 'h', ' ', 'a', 'g', 'o']), (['t', 'o', 'i', 's', 's', 'a', ' ', 'v', 'u', 'o', 'n', 'n', 'a'], ['2', ' ', 'y', 'e', 'a', 'r', ' ', 'a', 'g', 'o']), (['t', 'a', 's', 's', 'a', ' ', 'k', 'u', 'u', 's', 's', 'a'], ['0', ' ', 'm', 'o', 'n', 't', 'h', ' ', 'a', 'g', 'o']), (['v', 'i', 'i', 'm', 'e', ' ', 'k', 'u', 'u', 's', 's', 'a'], ['1', ' ', 'm', 'o', 'n', 't', 'h', ' ', 'a', 'g', 'o']), (['v', 'i', 'i', 'm', 'e', ' ', 'v', 'u', 'o', 'n', 'n', 'a'], ['1', ' ', 'y', 'e', 'a', 'r', ' ', 'a', 'g', 'o']), (['e', 'n', 's', 'i', ' ', 'k', 'u', 'u', 's', 's', 'a'], ['i', 'n', ' ', '1', ' ', 'm', 'o', 'n', 't', 'h']), (['e', 'n', 's', 'i', ' ', 'v', 'u', 'o', 'n', 'n', 'a'], ['i', 'n', ' ', '1', ' ', 'y', 'e', 'a', 'r']), (['t', 'a', 'n', 'a', ' ', 'v', 'u', 'o', 'n', 'n', 'a'], ['0', ' ', 'y', 'e', 'a', 'r', ' ', 'a', 'g', 'o']), (['h', 'u', 'o', 'm', 'e', 'n', 'n', 'a'], ['i', 'n', ' ', '1', ' ', 'd', 'a', 'y']), (['t', 'a', 'l', 'l', 'a', ' ', 'v', 'k'], ['0', ' ', 'w', 'e', 'e', 'k', ' ', 'a', 'g', 'o']), (['t', 'a', 's', 's', 'a', ' ', 'k', 'k'], ['0', ' ', 'm', 'o', 'n', 't', 'h', ' ', 'a', 'g', 'o']), (['v', 'i', 'i', 'm', 'e', ' ', 'k', 'k'], ['1', ' ', 'm', 'o', 'n', 't', 'h', ' ', 'a', 'g', 'o']), (['v', 'i', 'i', 'm', 'e', ' ', 'v', 'k'], ['1', ' ', 'w', 'e', 'e', 'k', ' ', 'a', 'g', 'o']), (['e', 'n', 's', 'i', ' ', 'k', 'k'], ['i', 'n', ' ', '1', ' ', 'm', 'o', 'n', 't', 'h']), (['e', 'n', 's', 'i', ' ', 'v', 'k'], ['i', 'n', ' ', '1', ' ', 'w', 'e', 'e', 'k']), (['v', 'i', 'i', 'm', 'e', ' ', 'v'], ['1', ' ', 'y', 'e', 'a', 'r', ' ', 'a', 'g', 'o']), (['e', 'n', 's', 'i', ' ', 'v'], ['i', 'n', ' ', '1', ' ', 'y', 'e', 'a', 'r']), (['t', 'a', 'n', 'a', ' ', 'v'], ['0', ' ', 'y', 'e', 'a', 'r', ' ', 'a', 'g', 'o']), (['t', 'a', 'n', 'a', 'a', 'n'], ['0', ' ', 'd', 'a', 'y', ' ', 'a', 'g', 'o']), (['e', 'i', 'l', 'e', 'n'], ['1', ' ', 'd', 'a', 'y', ' ', 'a', 'g', 'o']), (['h', 'u', 'o', 'm'], ['i', 'n', ' ', '1', ' ', 'd', 'a', 'y']), (['n', 'y', 't'], ['0', ' ', 's', 'e', 'c', 'o', 'n', 'd', ' ', 'a', 'g', 'o'])]

/-- internal/data/fil.go: `fil_Locale`, dictionary. -/
def filDict : LangData where
  name := ['f', 'i', 'l']
  translations := [(['m', 'i', 'y', 'e', 'r', 'k', 'u', 'l', 'e', 's'], [['w', 'e', 'd', 'n', 'e', 's', 'd', 'a', 'y']]), (['d', 'i', 's', 'y', 'e', 'm', 'b', 'r', 'e'], [['d', 'e', 'c', 'e', 'm', 'b', 'e', 'r']]), (['n', 'o', 'b', 'y', 'e', 'm', 'b', 'r', 'e'], [['n', 'o', 'v', 'e', 'm', 'b', 'e', 'r']]), (['s', 'e', 't', 'y', 'e', 'm', 'b', 'r', 'e'], [['s', 'e', 'p', 't', 'e', 'm', 'b', 'e', 'r']]), (['b', 'i', 'y', 'e', 'r', 'n', 'e', 's'], [['f', 'r', 'i', 'd', 'a', 'y']]), (['h', 'u', 'w', 'e', 'b', 'e', 's'], [['t', 'h', 'u', 'r', 's', 'd', 'a', 'y']]), (['o', 'k', 't', 'u', 'b', 'r', 'e'], [['o', 'c', 't', 'o', 'b', 'e', 'r']]), (['p', 'e', 'b', 'r', 'e', 'r', 'o'], [['f', 'e', 'b', 'r', 'u', 'a', 'r', 'y']]), (['s', 'e', 'g', 'u', 'n', 'd', 'o'], [['s', 'e', 'c', 'o', 'n', 'd']]), (['a', 'g', 'o', 's', 't', 'o'], [['a', 'u', 'g', 'u', 's', 't']]), (['l', 'i', 'n', 'g', 'g', 'o'], [['w', 'e', 'e', 'k'], ['s', 'u', 'n', 'd', 'a', 'y']]), (['m', 'a', 'r', 't', 'e', 's'], [['t', 'u', 'e', 's', 'd', 'a', 'y']]), (['m', 'i', 'n', 'u', 't', 'o'], [['m', 'i', 'n', 'u', 't', 'e']]), (['s', 'a', 'b', 'a', 'd', 'o'], [['s', 'a', 't', 'u', 'r', 'd', 'a', 'y']]), (['a', 'b', 'r', 'i', 'l'], [['a', 'p', 'r', 'i', 'l']]), (['b', 'u', 'w', 'a', 'n'], [['m', 'o', 'n', 't', 'h']]), (['e', 'n', 'e', 'r', 'o'], [['j', 'a', 'n', 'u', 'a', 'r', 'y']]), (['h', 'u', 'l', 'y', 'o'], [['j', 'u', 'l', 'y']]), (['h', 'u', 'n', 'y', 'o'], [['j', 'u', 'n', 'e']]), (['l', 'u', 'n', 'e', 's'], [['m', 'o', 'n', 'd', 'a', 'y']]), (['m', 'a', 'r', 's', 'o'], [['m', 'a', 'r', 'c', 'h']]), (['a', 'r', 'a', 'w'], [['d', 'a', 'y']]), (['m', 'a', 'y', 'o'], [['m', 'a', 'y']]), (['o', 'r', 'a', 's'], [['h', 'o', 'u', 'r']]), (['t', 'a', 'o', 'n'], [['y', 'e', 'a', 'r']]), (['a', 'b', 'r'], [['a', 'p', 'r', 'i', 'l']]), (['a', 'g', 'o'], [['a', 'u', 'g', 'u', 's', 't']]), (['b', 'i', 'y'], [['f', 'r', 'i', 'd', 'a', 'y']]), (['d', 'i', 's'], [['d', 'e', 'c', 'e', 'm', 'b', 'e', 'r']]), (['e', 'n', 'e'], [['j', 'a', 'n', 'u', 'a', 'r', 'y']]), (['g', 'm', 't'], [['g', 'm', 't']]), (['h', 'u', 'l'], [['j', 'u', 'l', 'y']]), (['h', 'u', 'n'], [['j', 'u', 'n', 'e']]), (['h', 'u', 'w'], [['t', 'h', 'u', 'r', 's', 'd', 'a', 'y']]), (['l', 'i', 'n'], [['s', 'u', 'n', 'd', 'a', 'y']]), (['l', 'u', 'n'], [['m', 'o', 'n', 'd', 'a', 'y']]), (['m', 'a', 'r'], [['m', 'a', 'r', 'c', 'h'], ['t', 'u', 'e', 's', 'd', 'a', 'y']]), (['m', 'a', 'y'], [['m', 'a', 'y']]), (['m', 'i', 'n'], [['m', 'i', 'n', 'u', 't', 'e']]), (['m', 'i', 'y'], [['w', 'e', 'd', 'n', 'e', 's', 'd', 'a', 'y']]), (['n', 'o', 'b'], [['n', 'o', 'v', 'e', 'm', 'b', 'e', 'r']]), (['o', 'k', 't'], [['o', 'c', 't', 'o', 'b', 'e', 'r']]), (['p', 'e', 'b'], [['f', 'e', 'b', 'r', 'u', 'a', 'r', 'y']]), (['s', 'a', 'b'], [['s', 'a', 't', 'u', 'r', 'd', 'a', 'y']]), (['s', 'e', 'g'], [['s', 'e', 'c', 'o', 'n', 'd']]), (['s', 'e', 't'], [['s', 'e', 'p', 't', 'e', 'm', 'b', 'e', 'r']]), (['u', 't', 'c'], [['u', 't', 'c']]), (['a', 'm'], [['a', 'm']]), (['p', 'm'], [['p', 'm']]), ([' '], [[' ']]), (['\''], [[]]), (['+'], [['+']]), ([','], [[]]), (['-'], [['-']]), (['.'], [['.']]), (['/'], [['/']]), ([':'], [[':']]), ([';'], [[]]), (['@'], [[]]), (['['], [[]]), ([']'], [[]]), (['z'], [['z']]), (['|'], [[]])]
  relativeType := [(['n', 'a', 'k', 'a', 'l', 'i', 'p', 'a', 's', ' ', 'n', 'a', ' ', 'l', 'i', 'n', 'g', 'g', 'o'], ['1', ' ', 'w', 'e', 'e', 'k', ' ', 'a', 'g', 'o']), (['s', 'u', 's', 'u', 'n', 'o', 'd', ' ', 'n', 'a', ' ', 'l', 'i', 'n', 'g', 'g', 'o'], ['i', 'n', ' ', '1', ' ', 'w', 'e', 'e', 'k']), (['n', 'a', 'k', 'a', 'r', 'a', 'a', 'n', 'g', ' ', 'l', 'i', 'n', 'g', 'g', 'o'], ['1', ' ', 'w', 'e', 'e', 'k', ' ', 'a', 'g', 'o']), (['s', 'u', 's', 'u', 'n', 'o', 'd', ' ', 'n', 'a', ' ', 'b', 'u', 'w', 'a', 'n'], ['i', 'n', ' ', '1', ' ', 'm', 'o', 'n', 't', 'h']), (['n', 'a', 'k', 'a', 'r', 'a', 'a', 'n', 'g', ' ', 'b', 'u', 'w', 'a', 'n'], ['1', ' ', 'm', 'o', 'n', 't', 'h', ' ', 'a', 'g', 'o']), (['s', 'a', ' ', 'l', 'i', 'n', 'g', 'g', 'o', 'n', 'g', ' ', 'i', 't', 'o'], ['0', ' ', 'w', 'e', 'e', 'k', ' ', 'a', 'g', 'o']), (['s', 'a', ' ', 'm', 'i', 'n', 'u', 't', 'o', 'n', 'g', ' ', 'i', 't', 'o'], ['0', ' ', 'm', 'i', 'n', 'u', 't', 'e', ' ', 'a', 'g', 'o']), (['s', 'u', 's', 'u', 'n', 'o', 'd', ' ', 'n', 'a', ' ', 't', 'a', 'o', 'n'], ['i', 'n', ' ', '1', ' ', 'y', 'e', 'a', 'r']), (['n', 'a', 'k', 'a', 'r', 'a', 'a', 'n', 'g', ' ', 't', 'a', 'o', 'n'], ['1', ' ', 'y', 'e', 'a', 'r', ' ', 'a', 'g', 'o']), (['n', 'g', 'a', 'y', 'o', 'n', 'g', ' ', 'l', 'i', 'n', 'g', 'g', 'o'], ['0', ' ', 'w', 'e', 'e', 'k', ' ', 'a', 'g', 'o']), (['n', 'g', 'a', 'y', 'o', 'n', 'g', ' ', 'b', 'u', 'w', 'a', 'n'], ['0', ' ', 'm', 'o', 'n', 't', 'h', ' ', 'a', 'g', 'o']), (['n', 'g', 'a', 'y', 'o', 'n', 'g', ' ', 'a', 'r', 'a', 'w'], ['0', ' ', 'd', 'a', 'y', ' ', 'a', 'g', 'o']), (['n', 'g', 'a', 'y', 'o', 'n', 'g', ' ', 'o', 'r', 'a', 's'], ['0', ' ', 'h', 'o', 'u', 'r', ' ', 'a', 'g', 'o']), (['n', 'g', 'a', 'y', 'o', 'n', 'g', ' ', 't', 'a', 'o', 'n'], ['0', ' ', 'y', 'e', 'a', 'r', ' ', 'a', 'g', 'o']), (['k', 'a', 'h', 'a', 'p', 'o', 'n'], ['1', ' ', 'd', 'a', 'y', ' ', 'a', 'g', 'o']), (['n', 'g', 'a', 'y', 'o', 'n'], ['0', ' ', 's', 'e', 'c', 'o', 'n', 'd', ' ', 'a', 'g', 'o']), (['b', 'u', 'k', 'a', 's'], ['i', 'n', ' ', '1', ' ', 'd', 'a', 'y'])]

/-- internal/data/fo.go: `fo_Locale`, dictionary. -/
def foDict : LangData where
  name := ['f', 'o']
  translations := [(['f', 'r', 'i', 'g', 'g', 'j', 'a', 'd', 'a', 'g', 'u', 'r'], [['f', 'r', 'i', 'd', 'a', 'y']]), (['l', 'e', 'y', 'g', 'a', 'r', 'd', 'a', 'g', 'u', 'r'], [['s', 'a', 't', 'u', 'r', 'd', 'a', 'y']]), (['s', 'u', 'n', 'n', 'u', 'd', 'a', 'g', 'u', 'r'], [['s', 'u', 'n', 'd', 'a', 'y']]), (['m', 'a', 'n', 'a', 'd', 'a', 'g', 'u', 'r'], [['m', 'o', 'n', 'd', 'a', 'y']]), (['m', 'i', 'k', 'u', 'd', 'a', 'g', 'u', 'r'], [['w', 'e', 'd', 'n', 'e', 's', 'd', 'a', 'y']]), (['s', 'e', 'p', 't', 'e', 'm', 'b', 'e', 'r'], [['s', 'e', 'p', 't', 'e', 'm', 'b', 'e', 'r']]), (['d', 'e', 's', 'e', 'm', 'b', 'e', 'r'], [['d', 'e', 'c', 'e', 'm', 'b', 'e', 'r']]), (['h', 'o', 's', 'd', 'a', 'g', 'u', 'r'], [['t', 'h', 'u', 'r', 's', 'd', 'a', 'y']]), (['m', 'i', 'n', 'u', 't', 't', 'u', 'r'], [['m', 'i', 'n', 'u', 't', 'e']]), (['n', 'o', 'v', 'e', 'm', 'b', 'e', 'r'], [['n', 'o', 'v', 'e', 'm', 'b', 'e', 'r']]), (['t', 'y', 's', 'd', 'a', 'g', 'u', 'r'], [['t', 'u', 'e', 's', 'd', 'a', 'y']]), (['f', 'e', 'b', 'r', 'u', 'a', 'r'], [['f', 'e', 'b', 'r', 'u', 'a', 'r', 'y']]), (['m', 'a', 'n', 'a', 'ð', 'u', 'r'], [['m', 'o', 'n', 't', 'h']]), (['o', 'k', 't', 'o', 'b', 'e', 'r'], [['o', 'c', 't', 'o', 'b', 'e', 'r']]), (['a', 'u', 'g', 'u', 's', 't'], [['a', 'u', 'g', 'u', 's', 't']]), (['j', 'a', 'n', 'u', 'a', 'r'], [['j', 'a', 'n', 'u', 'a', 'r', 'y']]), (['s', 'e', 'k', 'u', 'n', 'd'], [['s', 'e', 'c', 'o', 'n', 'd']]), (['a', 'p', 'r', 'i', 'l'], [['a', 'p', 'r', 'i', 'l']]), (['d', 'a', 'g', 'u', 'r'], [['d', 'a', 'y']]), (['j', 'u', 'l', 'i'], [['j', 'u', 'l', 'y']]), (['j', 'u', 'n', 'i'], [['j', 'u', 'n', 'e']]), (['m', 'a', 'r', 's'], [['m', 'a', 'r', 'c', 'h']]), (['t', 'i', 'm', 'i'], [['h', 'o', 'u', 'r']]), (['v', 'i', 'k', 'a'], [['w', 'e', 'e', 'k']]), (['a', 'p', 'r'], [['a', 'p', 'r', 'i', 'l']]), (['a', 'u', 'g'], [['a', 'u', 'g', 'u', 's', 't']]), (['d', 'e', 's'], [['d', 'e', 'c', 'e', 'm', 'b', 'e', 'r']]), (['f', 'e', 'b'], [['f', 'e', 'b', 'r', 'u', 'a', 'r', 'y']]), (['f', 'r', 'i'], [['f', 'r', 'i', 'd', 'a', 'y']]), (['g', 'm', 't'], [['g', 'm', 't']]), (['h', 'o', 's'], [['t', 'h', 'u', 'r', 's', 'd', 'a', 'y']]), (['j', 'a', 'n'], [['j', 'a', 'n', 'u', 'a', 'r', 'y']]), (['j', 'u', 'l'], [['j', 'u', 'l', 'y']]), (['j', 'u', 'n'], [['j', 'u', 'n', 'e']]), (['l', 'e', 'y'], [['s', 'a', 't', 'u', 'r', 'd', 'a', 'y']]), (['m', 'a', 'i'], [['m', 'a', 'y']]), (['m', 'a', 'n'], [['m', 'o', 'n', 'd', 'a', 'y']]), (['m', 'a', 'r'], [['m', 'a', 'r', 'c', 'h']]), (['m', 'i', 'k'], [['w', 'e', 'd', 'n', 'e', 's', 'd', 'a', 'y']]), (['m', 'i', 'n'], [['m', 'i', 'n', 'u', 't', 'e']]), (['m', 'n', 'ð'], [['m', 'o', 'n', 't', 'h']]), (['n', 'o', 'v'], [['n', 'o', 'v', 'e', 'm', 'b', 'e', 'r']]), (['o', 'k', 't'], [['o', 'c', 't', 'o', 'b', 'e', 'r']]), (['s', 'e', 'k'], [['s', 'e', 'c', 'o', 'n', 'd']]), (['s', 'e', 'p'], [['s', 'e', 'p', 't', 'e', 'm', 'b', 'e', 'r']]), (['s', 'u', 'n'], [['s', 'u', 'n', 'd', 'a', 'y']]), (['t', 'y', 's'], [['t', 'u', 'e', 's', 'd', 'a', 'y']]), (['u', 't', 'c'], [['u', 't', 'c']]), (['a', 'm'], [['a', 'm']]), (['a', 'r'], [['y', 'e', 'a', 'r']]), (['d', 'a'], [['d', 'a', 'y']]), (['p', 'm'], [['p', 'm']]), (['v', 'i'], [['w', 'e', 'e', 'k']]), ([' '], [[' ']]), (['\''], [[]]), (['+'], [['+']]), ([','], [[]]), (['-'], [['-']]), (['.'], [['.']]), (['/'], [['/']]), ([':'], [[':']]), ([';'], [[]]), (['@'], [[]]), (['['], [[]]), ([']'], [[]]), (['d'], [['d', 'a', 'y']]), (['m'], [['m', 'i', 'n', 'u', 't', 'e']]), (['s'], [['s', 'e', 'c', 'o', 'n', 'd']]), (['t'], [['h', 'o', 'u', 'r']]), (['v'], [['w', 'e', 'e', 'k']]), (['z'], [['z']]), (['|'], [[]])]
  relativeType := [(['h', 'e', 'n', 'd', 'a', 'n', ' ', 'm', 'i', 'n', 'u', 't', 't', 'i', 'n'], ['0', ' ', 'm', 'i', 'n', 'u', 't', 'e', ' ', 'a', 'g', 'o']), (['s', 'e', 'i', 'n', 'a', 's', 't', 'a', ' ', 'm', 'a', 'n', 'a', 'ð'], ['1', ' ', 'm', 'o', 'n', 't', 'h', ' ', 'a', 'g', 'o']), (['h', 'e', 'n', 'd', 'a', ' ', 'm', 'a', 'n', 'a', 'ð', 'i', 'n'], ['0', ' ', 'm', 'o', 'n', 't', 'h', ' ', 'a', 'g', 'o']), (['s', 'e', 'i', 'n', 'a', 's', 't', 'u', ' ', 'v', 'i', 'k', 'u'], ['1', ' ', 'w', 'e', 'e', 'k', ' ', 'a', 'g', 'o']), (['h', 'e', 'n', 'd', 'a', 'n', ' ', 't', 'i', 'm', 'a', 'n'], ['0', ' ', 'h', 'o', 'u', 'r', ' ', 'a', 'g', 'o']), (['n', 'æ', 's', 't', 'a', ' ', 'm', 'a', 'n', 'a', 'ð'], ['i', 'n', ' ', '1', ' ', 'm', 'o', 'n', 't', 'h']), (['n', 'æ', 's', 't', 'u', ' ', 'v', 'i', 'k', 'u'], ['i', 'n', ' ', '1', ' ', 'w', 'e', 'e', 'k']), (['h', 'e', 's', 'u', ' ', 'v', 'i', 'k', 'u'], ['0', ' ', 'w', 'e', 'e', 'k', ' ', 'a', 'g', 'o']), (['i', ' ', 'm', 'o', 'r', 'g', 'i', 'n'], ['i', 'n', ' ', '1', ' ', 'd', 'a', 'y']), (['n', 'æ', 's', 't', 'a', ' ', 'a', 'r'], ['i', 'n', ' ', '1', ' ', 'y', 'e', 'a', 'r']), (['i', ' ', 'f', 'j', 'ø', 'r'], ['1', ' ', 'y', 'e', 'a', 'r', ' ', 'a', 'g', 'o']), (['i', ' ', 'g', 'j', 'a', 'r'], ['1', ' ', 'd', 'a', 'y', ' ', 'a', 'g', 'o']), (['i', ' ', 'd', 'a', 'g'], ['0', ' ', 'd', 'a', 'y', ' ', 'a', 'g', 'o']), (['i', ' ', 'a', 'r'], ['0', ' ', 'y', 'e', 'a', 'r', ' ', 'a', 'g', 'o']), (['n', 'u'], ['0', ' ', 's', 'e', 'c', 'o', 'n', 'd', ' ', 'a', 'g', 'o'])]

/-- internal/data/fo.go: `fo_DK_Locale`, dictionary. -/
def fo_DKDict : LangData where
  name := ['f', 'o', '-', 'D', 'K']

/-- internal/data/fr.go: `fr_Locale`, dictionary. -/
def frDict : LangData where
  name := ['f', 'r']
  splitterGroup := 1
  translations := [(['s', 'e', 'p', 't', 'e', 'm', 'b', 'r', 'e'], [['s', 'e', 'p', 't', 'e', 'm', 'b', 'e', 'r']]), (['d', 'e', 'c', 'e', 'm', 'b', 'r', 'e'], [['d', 'e', 'c', 'e', 'm', 'b', 'e', 'r']]), (['d', 'i', 'm', 'a', 'n', 'c', 'h', 'e'], [['s', 'u', 'n', 'd', 'a', 'y']]), (['m', 'e', 'r', 'c', 'r', 'e', 'd', 'i'], [['w', 'e', 'd', 'n', 'e', 's', 'd', 'a', 'y']]), (['n', 'o', 'v', 'e', 'm', 'b', 'r', 'e'], [['n', 'o', 'v', 'e', 'm', 'b', 'e', 'r']]), (['s', 'e', 'c', 'o', 'n', 'd', 'e', 's'], [['s', 'e', 'c', 'o', 'n', 'd']]), (['s', 'e', 'm', 'a', 'i', 'n', 'e', 's'], [['w', 'e', 'e', 'k']]), (['v', 'e', 'n', 'd', 'r', 'e', 'd', 'i'], [['f', 'r', 'i', 'd', 'a', 'y']]), (['e', 'n', 'v', 'i', 'r', 'o', 'n'], [[]]), (['f', 'e', 'v', 'r', 'i', 'e', 'r'], [['f', 'e', 'b', 'r', 'u', 'a', 'r', 'y']]), (['j', 'a', 'n', 'v', 'i', 'e', 'r'], [['j', 'a', 'n', 'u', 'a', 'r', 'y']]), (['j', 'u', 'i', 'l', 'l', 'e', 't'], [['j', 'u', 'l', 'y']]), (['m', 'i', 'n', 'u', 't', 'e', 's'], [['m', 'i', 'n', 'u', 't', 'e']]), (['o', 'c', 't', 'o', 'b', 'r', 'e'], [['o', 'c', 't', 'o', 'b', 'e', 'r']]), (['s', 'e', 'c', 'o', 'n', 'd', 'e'], [['s', 'e', 'c', 'o', 'n', 'd']]), (['s', 'e', 'm', 'a', 'i', 'n', 'e'], [['w', 'e', 'e', 'k']]), (['a', 'n', 'n', 'e', 'e', 's'], [['y', 'e', 'a', 'r']]), (['h', 'e', 'u', 'r', 'e', 's'], [['h', 'o', 'u', 'r']]), (['i', 'l', ' ', 'y', ' ', 'a'], [['a', 'g', 'o']]), (['m', 'i', 'n', 'u', 't', 'e'], [['m', 'i', 'n', 'u', 't', 'e']]), (['s', 'a', 'm', 'e', 'd', 'i'], [['s', 'a', 't', 'u', 'r', 'd', 'a', 'y']]), (['a', 'n', 'n', 'e', 'e'], [['y', 'e', 'a', 'r']]), (['a', 'p', 'r', 'e', 's'], [['i', 'n']]), (['a', 'v', 'r', 'i', 'l'], [['a', 'p', 'r', 'i', 'l']]), (['h', 'e', 'u', 'r', 'e'], [['h', 'o', 'u', 'r']]), (['i', 'l', ' ', 'y', 'a'], [['a', 'g', 'o']]), (['j', 'e', 'u', 'd', 'i'], [['t', 'h', 'u', 'r', 's', 'd', 'a', 'y']]), (['j', 'o', 'u', 'r', 's'], [['d', 'a', 'y']]), (['l', 'u', 'n', 'd', 'i'], [['m', 'o', 'n', 'd', 'a', 'y']]), (['m', 'a', 'r', 'd', 'i'], [['t', 'u', 'e', 's', 'd', 'a', 'y']]), (['a', 'o', 'u', 't'], [['a', 'u', 'g', 'u', 's', 't']]), (['d', 'a', 'n', 's'], [['i', 'n']]), (['f', 'e', 'v', 'r'], [['f', 'e', 'b', 'r', 'u', 'a', 'r', 'y']]), (['j', 'a', 'n', 'v'], [['j', 'a', 'n', 'u', 'a', 'r', 'y']]), (['j', 'o', 'u', 'r'], [['d', 'a', 'y']]), (['j', 'u', 'i', 'l'], [['j', 'u', 'l', 'y']]), (['j', 'u', 'i', 'n'], [['j', 'u', 'n', 'e']]), (['m', 'a', 'r', 's'], [['m', 'a', 'r', 'c', 'h']]), (['m', 'o', 'i', 's'], [['m', 'o', 'n', 't', 'h']]), (['s', 'e', 'p', 't'], [['s', 'e', 'p', 't', 'e', 'm', 'b', 'e', 'r']]), (['a', 'n', 's'], [['y', 'e', 'a', 'r']]), (['a', 'o', 'u'], [['a', 'u', 'g', 'u', 's', 't']]), (['a', 'v', 'r'], [['a', 'p', 'r', 'i', 'l']]), (['d', 'e', 'c'], [['d', 'e', 'c', 'e', 'm', 'b', 'e', 'r']]), (['d', 'i', 'm'], [['s', 'u', 'n', 'd', 'a', 'y']]), (['f', 'e', 'v'], [['f', 'e', 'b', 'r', 'u', 'a', 'r', 'y']]), (['g', 'm', 't'], [['g', 'm', 't']]), (['j', 'a', 'n'], [['j', 'a', 'n', 'u', 'a', 'r', 'y']]), (['j', 'e', 'u'], [['t', 'h', 'u', 'r', 's', 'd', 'a', 'y']]), (['j', 'u', 'l'], [['j', 'u', 'l', 'y']]), (['j', 'u', 'n'], [['j', 'u', 'n', 'e']]), (['l', 'u', 'n'], [['m', 'o', 'n', 'd', 'a', 'y']]), (['m', 'a', 'i'], [['m', 'a', 'y']]), (['m', 'a', 'r'], [['t', 'u', 'e', 's', 'd', 'a', 'y']]), (['m', 'e', 'r'], [['w', 'e', 'd', 'n', 'e', 's', 'd', 'a', 'y']]), (['m', 'i', 'n'], [['m', 'i', 'n', 'u', 't', 'e']]), (['n', 'o', 'v'], [['n', 'o', 'v', 'e', 'm', 'b', 'e', 'r']]), (['o', 'c', 't'], [['o', 'c', 't', 'o', 'b', 'e', 'r']]), (['s', 'a', 'm'], [['s', 'a', 't', 'u', 'r', 'd', 'a', 'y']]), (['s', 'e', 'm'], [['w', 'e', 'e', 'k']]), (['s', 'e', 'p'], [['s', 'e', 'p', 't', 'e', 'm', 'b', 'e', 'r']]), (['u', 't', 'c'], [['u', 't', 'c']]), (['v', 'e', 'n'], [['f', 'r', 'i', 'd', 'a', 'y']]), (['a', 'm'], [['a', 'm']]), (['a', 'n'], [['y', 'e', 'a', 'r']]), (['d', 'i'], [['s', 'u', 'n', 'd', 'a', 'y']]), (['e', 'n'], [['i', 'n']]), (['e', 'r'], [[]]), (['e', 't'], [[]]), (['j', 'e'], [['t', 'h', 'u', 'r', 's', 'd', 'a', 'y']]), (['l', 'e'], [[]]), (['l', 'u'], [['m', 'o', 'n', 'd', 'a', 'y']]), (['m', 'a'], [['t', 'u', 'e', 's', 'd', 'a', 'y']]), (['m', 'e'], [['w', 'e', 'd', 'n', 'e', 's', 'd', 'a', 'y']]), (['p', 'm'], [['p', 'm']]), (['s', 'a'], [['s', 'a', 't', 'u', 'r', 'd', 'a', 'y']]), (['v', 'e'], [['f', 'r', 'i', 'd', 'a', 'y']]), ([' '], [[' ']]), (['\''], [[]]), (['+'], [['+']]), ([','], [[]]), (['-'], [['-']]), (['.'], [['.']]), (['/'], [['/']]), ([':'], [[':']]), ([';'], [[]]), (['@'], [[]]), (['['], [[]]), ([']'], [[]]), (['a'], [[]]), (['h'], [['h', 'o', 'u', 'r']]), (['j'], [['d', 'a', 'y']]), (['m'], [['m', 'o', 'n', 't', 'h']]), (['s'], [['s', 'e', 'c', 'o', 'n', 'd']]), (['z'], [['z']]), (['|'], [[]])]
  relativeType := [(['l', 'a', ' ', 's', 'e', 'm', 'a', 'i', 'n', 'e', ' ', 'p', 'r', 'o', 'c', 'h', 'a', 'i', 'n', 'e'], ['i', 'n', ' ', '1', ' ', 'w', 'e', 'e', 'k']), (['l', 'a', ' ', 's', 'e', 'm', 'a', 'i', 'n', 'e', ' ', 'd', 'e', 'r', 'n', 'i', 'e', 'r', 'e'], ['1', ' ', 'w', 'e', 'e', 'k', ' ', 'a', 'g', 'o']), (['l', '\'', 'a', 'n', 'n', 'e', 'e', ' ', 'p', 'r', 'o', 'c', 'h', 'a', 'i', 'n', 'e'], ['i', 'n', ' ', '1', ' ', 'y', 'e', 'a', 'r']), (['l', '\'', 'a', 'n', 'n', 'e', 'e', ' ', 'd', 'e', 'r', 'n', 'i', 'e', 'r', 'e'], ['1', ' ', 'y', 'e', 'a', 'r', ' ', 'a', 'g', 'o']), (['l', 'e', ' ', 'm', 'o', 'i', 's', ' ', 'p', 'r', 'o', 'c', 'h', 'a', 'i', 'n'], ['i', 'n', ' ', '1', ' ', 'm', 'o', 'n', 't', 'h']), (['c', 'e', 't', 't', 'e', ' ', 'm', 'i', 'n', 'u', 't', 'e', '-', 'c', 'i'], ['0', ' ', 'm', 'i', 'n', 'u', 't', 'e', ' ', 'a', 'g', 'o']), (['l', 'e', ' ', 'm', 'o', 'i', 's', ' ', 'd', 'e', 'r', 'n', 'i', 'e', 'r'], ['1', ' ', 'm', 'o', 'n', 't', 'h', ' ', 'a', 'g', 'o']), (['c', 'e', 't', 't', 'e', ' ', 'h', 'e', 'u', 'r', 'e', '-', 'c', 'i'], ['0', ' ', 'h', 'o', 'u', 'r', ' ', 'a', 'g', 'o']), (['c', 'e', 't', 't', 'e', ' ', 's', 'e', 'm', 'a', 'i', 'n', 'e'], ['0', ' ', 'w', 'e', 'e', 'k', ' ', 'a', 'g', 'o']), (['a', 'p', 'r', 'e', 's', '-', 'd', 'e', 'm', 'a', 'i', 'n'], ['i', 'n', ' ', '2', ' ', 'd', 'a', 'y']), (['a', 'u', 'j', 'o', 'u', 'r', 'd', '\'', 'h', 'u', 'i'], ['0', ' ', 'd', 'a', 'y', ' ', 'a', 'g', 'o']), (['c', 'e', 't', 't', 'e', ' ', 'a', 'n', 'n', 'e', 'e'], ['0', ' ', 'y', 'e', 'a', 'r', ' ', 'a', 'g', 'o']), (['a', 'v', 'a', 'n', 't', '-', 'h', 'i', 'e', 'r'], ['2', ' ', 'd', 'a', 'y', ' ', 'a', 'g', 'o']), (['c', 'e', ' ', 'm', 'o', 'i', 's', '-', 'c', 'i'], ['0', ' ', 'm', 'o', 'n', 't', 'h', ' ', 'a', 'g', 'o']), (['m', 'a', 'i', 'n', 't', 'e', 'n', 'a', 'n', 't'], ['0', ' ', 's', 'e', 'c', 'o', 'n', 'd', ' ', 'a', 'g', 'o']), (['d', 'e', 'm', 'a', 'i', 'n'], ['i', 'n', ' ', '1', ' ', 'd', 'a', 'y']), (['h', 'i', 'e', 'r'], ['1', ' ', 'd', 'a', 'y', ' ', 'a', 'g', 'o'])]

/-- internal/data/fr.go: `fr_BE_Locale`, dictionary. -/
def fr_BEDict : LangData where
  name := ['f', 'r', '-', 'B', 'E']

/-- internal/data/fr.go: `fr_BF_Locale`, dictionary. -/
def fr_BFDict : LangData where
  name := ['f', 'r', '-', 'B', 'F']

/-- internal/data/fr.go: `fr_BI_Locale`, dictionary. -/
def fr_BIDict : LangData where
  name := ['f', 'r', '-', 'B', 'I']

/-- internal/data/fr.go: `fr_BJ_Locale`, dictionary. -/
def fr_BJDict : LangData where
  name := ['f', 'r', '-', 'B', 'J']

/-- internal/data/fr.go: `fr_BL_Locale`, dictionary. -/
def fr_BLDict : LangData where
  name := ['f', 'r', '-', 'B', 'L']

/-- internal/data/fr.go: `fr_CA_Locale`, dictionary. -/
def fr_CADict : LangData where
  name := ['f', 'r', '-', 'C', 'A']
  translations := [(['j', 'u', 'i', 'l', 'l'], [['j', 'u', 'l', 'y']])]

/-- internal/data/fr.go: `fr_CD_Locale`, dictionary. -/
def fr_CDDict : LangData where
  name := ['f', 'r', '-', 'C', 'D']

/-- internal/data/fr.go: `fr_CF_Locale`, dictionary. -/
def fr_CFDict : LangData where
  name := ['f', 'r', '-', 'C', 'F']

/-- internal/data/fr.go: `fr_CG_Locale`, dictionary. -/
def fr_CGDict : LangData where
  name := ['f', 'r', '-', 'C', 'G']

/-- internal/data/fr.go: `fr_CH_Locale`, dictionary. -/
def fr_CHDict : LangData where
  name := ['f', 'r', '-', 'C', 'H']

/-- internal/data/fr.go: `fr_CI_Locale`, dictionary. -/
def fr_CIDict : LangData where
  name := ['f', 'r', '-', 'C', 'I']

/-- internal/data/fr.go: `fr_CM_Locale`, dictionary. -/
def fr_CMDict : LangData where
  name := ['f', 'r', '-', 'C', 'M']
  translations := [(['m', 'a', 't', 'i', 'n'], [['a', 'm']]), (['s', 'o', 'i', 'r'], [['p', 'm']]), (['m', 'a', 't'], [['a', 'm']])]

/-- internal/data/fr.go: `fr_DJ_Locale`, dictionary. -/
def fr_DJDict : LangData where
  name := ['f', 'r', '-', 'D', 'J']

/-- internal/data/fr.go: `fr_DZ_Locale`, dictionary. -/
def fr_DZDict : LangData where
  name := ['f', 'r', '-', 'D', 'Z']

/-- internal/data/fr.go: `fr_GA_Locale`, dictionary. -/
def fr_GADict : LangData where
  name := ['f', 'r', '-', 'G', 'A']

/-- internal/data/fr.go: `fr_GF_Locale`, dictionary. -/
def fr_GFDict : LangData where
  name := ['f', 'r', '-', 'G', 'F']

/-- internal/data/fr.go: `fr_GN_Locale`, dictionary. -/
def fr_GNDict : LangData where
  name := ['f', 'r', '-', 'G', 'N']

/-- internal/data/fr.go: `fr_GP_Locale`, dictionary. -/
def fr_GPDict : LangData where
  name := ['f', 'r', '-', 'G', 'P']

/-- internal/data/fr.go: `fr_GQ_Locale`, dictionary. -/
def fr_GQDict : LangData where
  name := ['f', 'r', '-', 'G', 'Q']

/-- internal/data/fr.go: `fr_HT_Locale`, dictionary. -/
def fr_HTDict : LangData where
  name := ['f', 'r', '-', 'H', 'T']
  translations := [(['s', 'e', 'c'], [['s', 'e', 'c', 'o', 'n', 'd']]), (['h', 'r'], [['h', 'o', 'u', 'r']]), (['j', 'r'], [['d', 'a', 'y']])]

/-- internal/data/fr.go: `fr_KM_Locale`, dictionary. -/
def fr_KMDict : LangData where
  name := ['f', 'r', '-', 'K', 'M']

/-- internal/data/fr.go: `fr_LU_Locale`, dictionary. -/
def fr_LUDict : LangData where
  name := ['f', 'r', '-', 'L', 'U']

/-- internal/data/fr.go: `fr_MA_Locale`, dictionary. -/
def fr_MADict : LangData where
  name := ['f', 'r', '-', 'M', 'A']
  translations := [(['j', 'u', 'i'], [['j', 'u', 'n', 'e']]), (['m', 'a', 'r'], [['m', 'a', 'r', 'c', 'h']])]

/-- internal/data/fr.go: `fr_MC_Locale`, dictionary. -/
def fr_MCDict : LangData where
  name := ['f', 'r', '-', 'M', 'C']

/-- internal/data/fr.go: `fr_MF_Locale`, dictionary. -/
def fr_MFDict : LangData where
  name := ['f', 'r', '-', 'M', 'F']

/-- internal/data/fr.go: `fr_MG_Locale`, dictionary. -/
def fr_MGDict : LangData where
  name := ['f', 'r', '-', 'M', 'G']

/-- internal/data/fr.go: `fr_ML_Locale`, dictionary. -/
def fr_MLDict : LangData where
  name := ['f', 'r', '-', 'M', 'L']

/-- internal/data/fr.go: `fr_MQ_Locale`, dictionary. -/
def fr_MQDict : LangData where
  name := ['f', 'r', '-', 'M', 'Q']

/-- internal/data/fr.go: `fr_MR_Locale`, dictionary. -/
def fr_MRDict : LangData where
  name := ['f', 'r', '-', 'M', 'R']

/-- internal/data/fr.go: `fr_MU_Locale`, dictionary. -/
def fr_MUDict : LangData where
  name := ['f', 'r', '-', 'M', 'U']

/-- internal/data/fr.go: `fr_NC_Locale`, dictionary. -/
def fr_NCDict : LangData where
  name := ['f', 'r', '-', 'N', 'C']

/-- internal/data/fr.go: `fr_NE_Locale`, dictionary. -/
def fr_NEDict : LangData where
  name := ['f', 'r', '-', 'N', 'E']

/-- internal/data/fr.go: `fr_PF_Locale`, dictionary. -/
def fr_PFDict : LangData where
  name := ['f', 'r', '-', 'P', 'F']

/-- internal/data/fr.go: `fr_PM_Locale`, dictionary. -/
def fr_PMDict : LangData where
  name := ['f', 'r', '-', 'P', 'M']

/-- internal/data/fr.go: `fr_RE_Locale`, dictionary. -/
def fr_REDict : LangData where
  name := ['f', 'r', '-', 'R', 'E']

/-- internal/data/fr.go: `fr_RW_Locale`, dictionary. -/
def fr_RWDict : LangData where
  name := ['f', 'r', '-', 'R', 'W']

/-- internal/data/fr.go: `fr_SC_Locale`, dictionary. -/
def fr_SCDict : LangData where
  name := ['f', 'r', '-', 'S', 'C']

/-- internal/data/fr.go: `fr_SN_Locale`, dictionary. -/
def fr_SNDict : LangData where
  name := ['f', 'r', '-', 'S', 'N']

/-- internal/data/fr.go: `fr_SY_Locale`, dictionary. -/
def fr_SYDict : LangData where
  name := ['f', 'r', '-', 'S', 'Y']

/-- internal/data/fr.go: `fr_TD_Locale`, dictionary. -/
def fr_TDDict : LangData where
  name := ['f', 'r', '-', 'T', 'D']

/-- internal/data/fr.go: `fr_TG_Locale`, dictionary. -/
def fr_TGDict : LangData where
  name := ['f', 'r', '-', 'T', 'G']

/-- internal/data/fr.go: `fr_TN_Locale`, dictionary. -/
def fr_TNDict : LangData where
  name := ['f', 'r', '-', 'T', 'N']

/-- internal/data/fr.go: `fr_VU_Locale`, dictionary. -/
def fr_VUDict : LangData where
  name := ['f', 'r', '-', 'V', 'U']

/-- internal/data/fr.go: `fr_WF_Locale`, dictionary. -/
def fr_WFDict : LangData where
  name := ['f', 'r', '-', 'W', 'F']

/-- internal/data/fr.go: `fr_YT_Locale`, dictionary. -/
def fr_YTDict : LangData where
  name := ['f', 'r', '-', 'Y', 'T']

/-- internal/data/fur.go: `fur_Locale`, dictionary. -/
def furDict : LangData where
  name := ['f', 'u', 'r']
  translations := [(['d', 'i', 'c', 'e', 'm', 'b', 'a', 'r'], [['d', 'e', 'c', 'e', 'm', 'b', 'e', 'r']]), (['n', 'o', 'v', 'e', 'm', 'b', 'a', 'r'], [['n', 'o', 'v', 'e', 'm', 'b', 'e', 'r']]), (['s', 'e', 't', 'e', 'm', 'a', 'n', 'e'], [['w', 'e', 'e', 'k']]), (['s', 'e', 't', 'e', 'm', 'b', 'a', 'r'], [['s', 'e', 'p', 't', 'e', 'm', 'b', 'e', 'r']]), (['d', 'o', 'm', 'e', 'n', 'i', 'e'], [['s', 'u', 'n', 'd', 'a', 'y']]), (['m', 'a', 'r', 't', 'a', 'r', 's'], [['t', 'u', 'e', 's', 'd', 'a', 'y']]), (['m', 'i', 'e', 'r', 'c', 'u', 's'], [['w', 'e', 'd', 'n', 'e', 's', 'd', 'a', 'y']]), (['f', 'e', 'v', 'r', 'a', 'r'], [['f', 'e', 'b', 'r', 'u', 'a', 'r', 'y']]), (['o', 't', 'u', 'b', 'a', 'r'], [['o', 'c', 't', 'o', 'b', 'e', 'r']]), (['s', 'a', 'b', 'i', 'd', 'e'], [['s', 'a', 't', 'u', 'r', 'd', 'a', 'y']]), (['s', 'e', 'c', 'o', 'n', 't'], [['s', 'e', 'c', 'o', 'n', 'd']]), (['v', 'i', 'n', 'a', 'r', 's'], [['f', 'r', 'i', 'd', 'a', 'y']]), (['a', 'v', 'o', 's', 't'], [['a', 'u', 'g', 'u', 's', 't']]), (['a', 'v', 'r', 'i', 'l'], [['a', 'p', 'r', 'i', 'l']]), (['j', 'o', 'i', 'b', 'e'], [['t', 'h', 'u', 'r', 's', 'd', 'a', 'y']]), (['l', 'u', 'n', 'i', 's'], [['m', 'o', 'n', 'd', 'a', 'y']]), (['m', 'i', 'n', 'u', 't'], [['m', 'i', 'n', 'u', 't', 'e']]), (['z', 'e', 'n', 'a', 'r'], [['j', 'a', 'n', 'u', 'a', 'r', 'y']]), (['j', 'u', 'g', 'n'], [['j', 'u', 'n', 'e']]), (['m', 'a', 'r', 'c'], [['m', 'a', 'r', 'c', 'h']]), (['a', 'v', 'o'], [['a', 'u', 'g', 'u', 's', 't']]), (['a', 'v', 'r'], [['a', 'p', 'r', 'i', 'l']]), (['d', 'i', 'c'], [['d', 'e', 'c', 'e', 'm', 'b', 'e', 'r']]), (['d', 'o', 'm'], [['s', 'u', 'n', 'd', 'a', 'y']]), (['f', 'e', 'v'], [['f', 'e', 'b', 'r', 'u', 'a', 'r', 'y']]), (['g', 'm', 't'], [['g', 'm', 't']]), (['j', 'o', 'i'], [['t', 'h', 'u', 'r', 's', 'd', 'a', 'y']]), (['j', 'u', 'g'], [['j', 'u', 'n', 'e']]), (['l', 'u', 'i'], [['j', 'u', 'l', 'y']]), (['l', 'u', 'n'], [['m', 'o', 'n', 'd', 'a', 'y']]), (['m', 'a', 'i'], [['m', 'a', 'y']]), (['m', 'a', 'r'], [['m', 'a', 'r', 'c', 'h'], ['t', 'u', 'e', 's', 'd', 'a', 'y']]), (['m', 'e', 's'], [['m', 'o', 'n', 't', 'h']]), (['m', 'i', 'e'], [['w', 'e', 'd', 'n', 'e', 's', 'd', 'a', 'y']]), (['n', 'o', 'v'], [['n', 'o', 'v', 'e', 'm', 'b', 'e', 'r']]), (['o', 'r', 'e'], [['h', 'o', 'u', 'r']]), (['o', 't', 'u'], [['o', 'c', 't', 'o', 'b', 'e', 'r']]), (['s', 'a', 'b'], [['s', 'a', 't', 'u', 'r', 'd', 'a', 'y']]), (['s', 'e', 't'], [['s', 'e', 'p', 't', 'e', 'm', 'b', 'e', 'r']]), (['u', 't', 'c'], [['u', 't', 'c']]), (['v', 'i', 'n'], [['f', 'r', 'i', 'd', 'a', 'y']]), (['z', 'e', 'n'], [['j', 'a', 'n', 'u', 'a', 'r', 'y']]), (['a', 'm'], [['a', 'm']]), (['a', 'n'], [['y', 'e', 'a', 'r']]), (['d', 'i'], [['d', 'a', 'y']]), (['p', 'm'], [['p', 'm']]), ([' '], [[' ']]), (['\''], [[]]), (['+'], [['+']]), ([','], [[]]), (['-'], [['-']]), (['.'], [['.']]), (['/'], [['/']]), ([':'], [[':']]), ([';'], [[]]), (['@'], [[]]), (['['], [[]]), ([']'], [[]]), (['a'], [['a', 'm']]), (['p'], [['p', 'm']]), (['z'], [['z']]), (['|'], [[]])]
  relativeType := [(['t', 'h', 'i', 's', ' ', 'm', 'i', 'n', 'u', 't', 'e'], ['0', ' ', 'm', 'i', 'n', 'u', 't', 'e', ' ', 'a', 'g', 'o']), (['l', 'a', 's', 't', ' ', 'm', 'o', 'n', 't', 'h'], ['1', ' ', 'm', 'o', 'n', 't', 'h', ' ', 'a', 'g', 'o']), (['n', 'e', 'x', 't', ' ', 'm', 'o', 'n', 't', 'h'], ['i', 'n', ' ', '1', ' ', 'm', 'o', 'n', 't', 'h']), (['t', 'h', 'i', 's', ' ', 'm', 'o', 'n', 't', 'h'], ['0', ' ', 'm', 'o', 'n', 't', 'h', ' ', 'a', 'g', 'o']), (['l', 'a', 's', 't', ' ', 'w', 'e', 'e', 'k'], ['1', ' ', 'w', 'e', 'e', 'k', ' ', 'a', 'g', 'o']), (['l', 'a', 's', 't', ' ', 'y', 'e', 'a', 'r'], ['1', ' ', 'y', 'e', 'a', 'r', ' ', 'a', 'g', 'o']), (['n', 'e', 'x', 't', ' ', 'w', 'e', 'e', 'k'], ['i', 'n', ' ', '1', ' ', 'w', 'e', 'e', 'k']), (['n', 'e', 'x', 't', ' ', 'y', 'e', 'a', 'r'], ['i', 'n', ' ', '1', ' ', 'y', 'e', 'a', 'r']), (['t', 'h', 'i', 's', ' ', 'h', 'o', 'u', 'r'], ['0', ' ', 'h', 'o', 'u', 'r', ' ', 'a', 'g', 'o']), (['t', 'h', 'i', 's', ' ', 'w', 'e', 'e', 'k'], ['0', ' ', 'w', 'e', 'e', 'k', ' ', 'a', 'g', 'o']), (['t', 'h', 'i', 's', ' ', 'y', 'e', 'a', 'r'], ['0', ' ', 'y', 'e', 'a', 'r', ' ', 'a', 'g', 'o']), (['d', 'o', 'm', 'a', 'n'], ['i', 'n', ' ', '1', ' ', 'd', 'a', 'y']), (['n', 'o', 'w'], ['0', ' ', 's', 'e', 'c', 'o', 'n', 'd', ' ', 'a', 'g', 'o']), (['v', 'u', 'e'], ['0', ' ', 'd', 'a', 'y', ' ', 'a', 'g', 'o']), (['i', 'r'], ['1', ' ', 'd', 'a', 'y', ' ', 'a', 'g', 'o'])]

/-- internal/data/fy.go: `fy_Locale`, dictionary. -/
def fyDict : LangData where
  name := ['f', 'y']
  translations := [(['f', 'e', 'b', 'r', 'e', 'w', 'a', 'r', 'i', 's'], [['f', 'e', 'b', 'r', 'u', 'a', 'r', 'y']]), (['j', 'a', 'n', 'n', 'e', 'w', 'a', 'r', 'i', 's'], [['j', 'a', 'n', 'u', 'a', 'r', 'y']]), (['t', 'o', 'n', 'g', 'e', 'r', 's', 'd', 'e', 'i'], [['t', 'h', 'u', 'r', 's', 'd', 'a', 'y']]), (['s', 'e', 'p', 't', 'i', 'm', 'b', 'e', 'r'], [['s', 'e', 'p', 't', 'e', 'm', 'b', 'e', 'r']]), (['a', 'u', 'g', 'u', 's', 't', 'u', 's'], [['a', 'u', 'g', 'u', 's', 't']]), (['d', 'e', 's', 'i', 'm', 'b', 'e', 'r'], [['d', 'e', 'c', 'e', 'm', 'b', 'e', 'r']]), (['n', 'o', 'v', 'i', 'm', 'b', 'e', 'r'], [['n', 'o', 'v', 'e', 'm', 'b', 'e', 'r']]), (['w', 'o', 'a', 'n', 's', 'd', 'e', 'i'], [['w', 'e', 'd', 'n', 'e', 's', 'd', 'a', 'y']]), (['m', 'o', 'a', 'n', 'd', 'e', 'i'], [['m', 'o', 'n', 'd', 'a', 'y']]), (['o', 'k', 't', 'o', 'b', 'e', 'r'], [['o', 'c', 't', 'o', 'b', 'e', 'r']]), (['s', 'e', 'k', 'o', 'n', 'd', 'e'], [['s', 'e', 'c', 'o', 'n', 'd']]), (['t', 'i', 'i', 's', 'd', 'e', 'i'], [['t', 'u', 'e', 's', 'd', 'a', 'y']]), (['m', 'o', 'a', 'n', 'n', 'e'], [['m', 'o', 'n', 't', 'h']]), (['a', 'p', 'r', 'i', 'l'], [['a', 'p', 'r', 'i', 'l']]), (['f', 'r', 'e', 'e', 'd'], [['f', 'r', 'i', 'd', 'a', 'y']]), (['m', 'a', 'a', 'i', 'e'], [['m', 'a', 'y']]), (['m', 'a', 'a', 'r', 't'], [['m', 'a', 'r', 'c', 'h']]), (['m', 'i', 'n', 'u', 't'], [['m', 'i', 'n', 'u', 't', 'e']]), (['s', 'n', 'e', 'i', 'n'], [['s', 'u', 'n', 'd', 'a', 'y']]), (['s', 'n', 'e', 'o', 'n'], [['s', 'a', 't', 'u', 'r', 'd', 'a', 'y']]), (['j', 'i', 'e', 'r'], [['y', 'e', 'a', 'r']]), (['j', 'u', 'l', 'y'], [['j', 'u', 'l', 'y']]), (['j', 'u', 'n', 'y'], [['j', 'u', 'n', 'e']]), (['o', 'e', 'r', 'e'], [['h', 'o', 'u', 'r']]), (['w', 'i', 'k', 'e'], [['w', 'e', 'e', 'k']]), (['a', 'p', 'r'], [['a', 'p', 'r', 'i', 'l']]), (['a', 'u', 'g'], [['a', 'u', 'g', 'u', 's', 't']]), (['d', 'e', 'i'], [['d', 'a', 'y']]), (['d', 'e', 's'], [['d', 'e', 'c', 'e', 'm', 'b', 'e', 'r']]), (['f', 'e', 'b'], [['f', 'e', 'b', 'r', 'u', 'a', 'r', 'y']]), (['g', 'm', 't'], [['g', 'm', 't']]), (['j', 'a', 'n'], [['j', 'a', 'n', 'u', 'a', 'r', 'y']]), (['j', 'u', 'l'], [['j', 'u', 'l', 'y']]), (['j', 'u', 'n'], [['j', 'u', 'n', 'e']]), (['m', 'a', 'i'], [['m', 'a', 'y']]), (['m', 'r', 't'], [['m', 'a', 'r', 'c', 'h']]), (['n', 'o', 'v'], [['n', 'o', 'v', 'e', 'm', 'b', 'e', 'r']]), (['o', 'k', 't'], [['o', 'c', 't', 'o', 'b', 'e', 'r']]), (['s', 'e', 'p'], [['s', 'e', 'p', 't', 'e', 'm', 'b', 'e', 'r']]), (['u', 't', 'c'], [['u', 't', 'c']]), (['a', 'm'], [['a', 'm']]), (['f', 'r'], [['f', 'r', 'i', 'd', 'a', 'y']]), (['m', 'o'], [['m', 'o', 'n', 'd', 'a', 'y']]), (['p', 'm'], [['p', 'm']]), (['s', 'i'], [['s', 'u', 'n', 'd', 'a', 'y']]), (['s', 'o'], [['s', 'a', 't', 'u', 'r', 'd', 'a', 'y']]), (['t', 'i'], [['t', 'u', 'e', 's', 'd', 'a', 'y']]), (['t', 'o'], [['t', 'h', 'u', 'r', 's', 'd', 'a', 'y']]), (['w', 'o'], [['w', 'e', 'd', 'n', 'e', 's', 'd', 'a', 'y']]), ([' '], [[' ']]), (['\''], [[]]), (['+'], [['+']]), ([','], [[]]), (['-'], [['-']]), (['.'], [['.']]), (['/'], [['/']]), ([':'], [[':']]), ([';'], [[]]), (['@'], [[]]), (['['], [[]]), ([']'], [[]]), (['z'], [['z']]), (['|'], [[]])]
  relativeType := [(['f', 'o', 'l', 'g', 'j', 'e', 'n', 'd', 'e', ' ', 'm', 'o', 'a', 'n', 'n', 'e'], ['i', 'n', ' ', '1', ' ', 'm', 'o', 'n', 't', 'h']), (['f', 'o', 'a', 'r', 'i', 'g', 'e', ' ', 'm', 'o', 'a', 'n', 'n', 'e'], ['1', ' ', 'm', 'o', 'n', 't', 'h', ' ', 'a', 'g', 'o']), (['f', 'o', 'l', 'g', 'j', 'e', 'n', 'd', 'e', ' ', 'w', 'i', 'k', 'e'], ['i', 'n', ' ', '1', ' ', 'w', 'e', 'e', 'k']), (['f', 'o', 'l', 'g', 'j', 'e', 'n', 'd', ' ', 'j', 'i', 'e', 'r'], ['i', 'n', ' ', '1', ' ', 'y', 'e', 'a', 'r']), (['d', 'i', 'z', 'z', 'e', ' ', 'm', 'o', 'a', 'n', 'n', 'e'], ['0', ' ', 'm', 'o', 'n', 't', 'h', ' ', 'a', 'g', 'o']), (['f', 'o', 'a', 'r', 'i', 'c', 'h', ' ', 'j', 'i', 'e', 'r'], ['1', ' ', 'y', 'e', 'a', 'r', ' ', 'a', 'g', 'o']), (['f', 'o', 'a', 'r', 'i', 'g', 'e', ' ', 'w', 'i', 'k', 'e'], ['1', ' ', 'w', 'e', 'e', 'k', ' ', 'a', 'g', 'o']), (['t', 'h', 'i', 's', ' ', 'm', 'i', 'n', 'u', 't', 'e'], ['0', ' ', 'm', 'i', 'n', 'u', 't', 'e', ' ', 'a', 'g', 'o']), (['d', 'i', 'z', 'z', 'e', ' ', 'w', 'i', 'k', 'e'], ['0', ' ', 'w', 'e', 'e', 'k', ' ', 'a', 'g', 'o']), (['t', 'h', 'i', 's', ' ', 'h', 'o', 'u', 'r'], ['0', ' ', 'h', 'o', 'u', 'r', ' ', 'a', 'g', 'o']), (['d', 'i', 't', ' ', 'j', 'i', 'e', 'r'], ['0', ' ', 'y', 'e', 'a', 'r', ' ', 'a', 'g', 'o']), (['g', 'i', 's', 't', 'e', 'r', 'e', 'n'], ['1', ' ', 'd', 'a', 'y', ' ', 'a', 'g', 'o']), (['v', 'a', 'n', 'd', 'a', 'a', 'g'], ['0', ' ', 'd', 'a', 'y', ' ', 'a', 'g', 'o']), (['m', 'o', 'r', 'g', 'e', 'n'], ['i', 'n', ' ', '1', ' ', 'd', 'a', 'y']), (['n', 'u'], ['0', ' ', 's', 'e', 'c', 'o', 'n', 'd', ' ', 'a', 'g', 'o'])]

/-- internal/data/ga.go: `ga_Locale`, dictionary. -/
def gaDict : LangData where
  name := ['g', 'a']
  translations := [(['d', 'e', 'i', 'r', 'e', 'a', 'd', 'h', ' ', 'f', 'o', 'm', 'h', 'a', 'i', 'r'], [['o', 'c', 't', 'o', 'b', 'e', 'r']]), (['d', 'e', ' ', 'd', 'o', 'm', 'h', 'n', 'a', 'i', 'g', 'h'], [['s', 'u', 'n', 'd', 'a', 'y']]), (['m', 'e', 'a', 'n', ' ', 'f', 'o', 'm', 'h', 'a', 'i', 'r'], [['s', 'e', 'p', 't', 'e', 'm', 'b', 'e', 'r']]), (['d', 'e', ' ', 'c', 'e', 'a', 'd', 'a', 'o', 'i', 'n'], [['w', 'e', 'd', 'n', 'e', 's', 'd', 'a', 'y']]), (['d', 'e', ' ', 's', 'a', 't', 'h', 'a', 'i', 'r', 'n'], [['s', 'a', 't', 'u', 'r', 'd', 'a', 'y']]), (['b', 'e', 'a', 'l', 't', 'a', 'i', 'n', 'e'], [['m', 'a', 'y']]), (['d', 'e', ' ', 'h', 'a', 'o', 'i', 'n', 'e'], [['f', 'r', 'i', 'd', 'a', 'y']]), (['d', 'e', 'a', 'r', 'd', 'a', 'o', 'i', 'n'], [['t', 'h', 'u', 'r', 's', 'd', 'a', 'y']]), (['m', 'e', 'i', 't', 'h', 'e', 'a', 'm', 'h'], [['j', 'u', 'n', 'e']]), (['s', 'e', 'a', 'c', 'h', 't', 'a', 'i', 'n'], [['w', 'e', 'e', 'k']]), (['d', 'e', ' ', 'l', 'u', 'a', 'i', 'n'], [['m', 'o', 'n', 'd', 'a', 'y']]), (['d', 'e', ' ', 'm', 'a', 'i', 'r', 't'], [['t', 'u', 'e', 's', 'd', 'a', 'y']]), (['a', 'i', 'b', 'r', 'e', 'a', 'n'], [['a', 'p', 'r', 'i', 'l']]), (['f', 'e', 'a', 'b', 'h', 'r', 'a'], [['f', 'e', 'b', 'r', 'u', 'a', 'r', 'y']]), (['n', 'o', 'i', 'm', 'e', 'a', 'd'], [['m', 'i', 'n', 'u', 't', 'e']]), (['n', 'o', 'l', 'l', 'a', 'i', 'g'], [['d', 'e', 'c', 'e', 'm', 'b', 'e', 'r']]), (['s', 'a', 'm', 'h', 'a', 'i', 'n'], [['n', 'o', 'v', 'e', 'm', 'b', 'e', 'r']]), (['s', 'o', 'i', 'c', 'i', 'n', 'd'], [['s', 'e', 'c', 'o', 'n', 'd']]), (['b', 'l', 'i', 'a', 'i', 'n'], [['y', 'e', 'a', 'r']]), (['e', 'a', 'n', 'a', 'i', 'r'], [['j', 'a', 'n', 'u', 'a', 'r', 'y']]), (['l', 'u', 'n', 'a', 's', 'a'], [['a', 'u', 'g', 'u', 's', 't']]), (['a', 'o', 'i', 'n', 'e'], [['f', 'r', 'i', 'd', 'a', 'y']]), (['d', 'f', 'o', 'm', 'h'], [['o', 'c', 't', 'o', 'b', 'e', 'r']]), (['f', 'e', 'a', 'b', 'h'], [['f', 'e', 'b', 'r', 'u', 'a', 'r', 'y']]), (['m', 'a', 'i', 'r', 't'], [['t', 'u', 'e', 's', 'd', 'a', 'y']]), (['m', 'a', 'r', 't', 'a'], [['m', 'a', 'r', 'c', 'h']]), (['m', 'e', 'i', 't', 'h'], [['j', 'u', 'n', 'e']]), (['m', 'f', 'o', 'm', 'h'], [['s', 'e', 'p', 't', 'e', 'm', 'b', 'e', 'r']]), (['b', 'e', 'a', 'l'], [['m', 'a', 'y']]), (['c', 'e', 'a', 'd'], [['w', 'e', 'd', 'n', 'e', 's', 'd', 'a', 'y']]), (['d', 'e', 'a', 'r'], [['t', 'h', 'u', 'r', 's', 'd', 'a', 'y']]), (['d', 'o', 'm', 'h'], [['s', 'u', 'n', 'd', 'a', 'y']]), (['i', 'u', 'i', 'l'], [['j', 'u', 'l', 'y']]), (['l', 'u', 'a', 'n'], [['m', 'o', 'n', 'd', 'a', 'y']]), (['n', 'o', 'i', 'm'], [['m', 'i', 'n', 'u', 't', 'e']]), (['n', 'o', 'l', 'l'], [['d', 'e', 'c', 'e', 'm', 'b', 'e', 'r']]), (['s', 'a', 'm', 'h'], [['n', 'o', 'v', 'e', 'm', 'b', 'e', 'r']]), (['s', 'a', 't', 'h'], [['s', 'a', 't', 'u', 'r', 'd', 'a', 'y']]), (['s', 'c', 'h', 't'], [['w', 'e', 'e', 'k']]), (['s', 'o', 'i', 'c'], [['s', 'e', 'c', 'o', 'n', 'd']]), (['u', 'a', 'i', 'r'], [['h', 'o', 'u', 'r']]), (['a', 'i', 'b'], [['a', 'p', 'r', 'i', 'l']]), (['e', 'a', 'n'], [['j', 'a', 'n', 'u', 'a', 'r', 'y']]), (['g', 'm', 't'], [['g', 'm', 't']]), (['l', 'u', 'n'], [['a', 'u', 'g', 'u', 's', 't']]), (['u', 't', 'c'], [['u', 't', 'c']]), (['a', 'm'], [['a', 'm']]), (['b', 'l'], [['y', 'e', 'a', 'r']]), (['l', 'a'], [['d', 'a', 'y']]), (['m', 'i'], [['m', 'o', 'n', 't', 'h']]), (['p', 'm'], [['p', 'm']]), ([' '], [[' ']]), (['\''], [[]]), (['+'], [['+']]), ([','], [[]]), (['-'], [['-']]), (['.'], [['.']]), (['/'], [['/']]), ([':'], [[':']]), ([';'], [[]]), (['@'], [[]]), (['['], [[]]), ([']'], [[]]), (['n'], [['m', 'i', 'n', 'u', 't', 'e']]), (['s'], [['s', 'e', 'c', 'o', 'n', 'd']]), (['u'], [['h', 'o', 'u', 'r']]), (['z'], [['z']]), (['|'], [[]])]
  relativeType := [(['a', 'n', ' ', 't', 's', 'e', 'a', 'c', 'h', 't', 'a', 'i', 'n', ' ', 's', 'e', 'o', ' ', 'c', 'h', 'u', 'g', 'a', 'i', 'n', 'n'], ['i', 'n', ' ', '1', ' ', 'w', 'e', 'e', 'k']), (['a', 'n', ' ', 'b', 'h', 'l', 'i', 'a', 'i', 'n', ' ', 's', 'e', 'o', ' ', 'c', 'h', 'u', 'g', 'a', 'i', 'n', 'n'], ['i', 'n', ' ', '1', ' ', 'y', 'e', 'a', 'r']), (['a', 'n', ' ', 't', 's', 'e', 'a', 'c', 'h', 't', 'a', 'i', 'n', ' ', 's', 'e', 'o', ' ', 'c', 'a', 'i', 't', 'e'], ['1', ' ', 'w', 'e', 'e', 'k', ' ', 'a', 'g', 'o']), (['a', 'n', ' ', 't', 's', 'c', 'h', 't', ' ', 's', 'e', 'o', ' ', 'c', 'h', 'u', 'g', 'a', 'i', 'n', 'n'], ['i', 'n', ' ', '1', ' ', 'w', 'e', 'e', 'k']), (['a', 'n', ' ', 'b', 'h', 'l', ' ', 's', 'e', 'o', ' ', 'c', 'h', 'u', 'g', 'a', 'i', 'n', 'n'], ['i', 'n', ' ', '1', ' ', 'y', 'e', 'a', 'r']), (['a', 'n', ' ', 'm', 'h', 'i', ' ', 's', 'e', 'o', ' ', 'c', 'h', 'u', 'g', 'a', 'i', 'n', 'n'], ['i', 'n', ' ', '1', ' ', 'm', 'o', 'n', 't', 'h']), (['a', 'n', ' ', 't', 's', 'c', 'h', 't', ' ', 's', 'e', 'o', ' ', 'c', 'a', 'i', 't', 'e'], ['1', ' ', 'w', 'e', 'e', 'k', ' ', 'a', 'g', 'o']), (['a', 'n', ' ', 't', 's', 'e', 'a', 'c', 'h', 't', 'a', 'i', 'n', ' ', 's', 'e', 'o'], ['0', ' ', 'w', 'e', 'e', 'k', ' ', 'a', 'g', 'o']), (['a', 'n', ' ', 'm', 'h', 'i', ' ', 's', 'e', 'o', ' ', 'c', 'a', 'i', 't', 'e'], ['1', ' ', 'm', 'o', 'n', 't', 'h', ' ', 'a', 'g', 'o']), (['a', 'n', ' ', 'b', 'h', 'l', 'i', 'a', 'i', 'n', ' ', 's', 'e', 'o'], ['0', ' ', 'y', 'e', 'a', 'r', ' ', 'a', 'g', 'o']), (['a', 'n', ' ', 'n', 'o', 'i', 'm', 'e', 'a', 'd', ' ', 's', 'e', 'o'], ['0', ' ', 'm', 'i', 'n', 'u', 't', 'e', ' ', 'a', 'g', 'o']), (['a', 'n', ' ', 't', 's', 'c', 'h', 't', ' ', 's', 'e', 'o'], ['0', ' ', 'w', 'e', 'e', 'k', ' ', 'a', 'g', 'o']), (['a', 'n', ' ', 'u', 'a', 'i', 'r', ' ', 's', 'e', 'o'], ['0', ' ', 'h', 'o', 'u', 'r', ' ', 'a', 'g', 'o']), (['a', 'n', ' ', 'b', 'h', 'l', ' ', 's', 'e', 'o'], ['0', ' ', 'y', 'e', 'a', 'r', ' ', 'a', 'g', 'o']), (['a', 'n', ' ', 'm', 'h', 'i', ' ', 's', 'e', 'o'], ['0', ' ', 'm', 'o', 'n', 't', 'h', ' ', 'a', 'g', 'o']), (['a', 'n', 'u', 'r', 'a', 'i', 'd', 'h'], ['1', ' ', 'y', 'e', 'a', 'r', ' ', 'a', 'g', 'o']), (['a', 'm', 'a', 'r', 'a', 'c', 'h'], ['i', 'n', ' ', '1', ' ', 'd', 'a', 'y']), (['a', 'n', 'o', 'i', 's'], ['0', ' ', 's', 'e', 'c', 'o', 'n', 'd', ' ', 'a', 'g', 'o']), (['i', 'n', 'n', 'i', 'u'], ['0', ' ', 'd', 'a', 'y', ' ', 'a', 'g', 'o']), (['i', 'n', 'n', 'e'], ['1', ' ', 'd', 'a', 'y', ' ', 'a', 'g', 'o'])]

/-- internal/data/gd.go: `gd_Locale`, dictionary. -/
def gdDict : LangData where
  name := ['g', 'd']
  translations := [(['d', 'h', 'e', 'n', ' ', 'f', 'h', 'a', 'o', 'i', 'l', 'l', 'e', 'a', 'c', 'h'], [['j', 'a', 'n', 'u', 'a', 'r', 'y']]), (['d', 'h', 'e', 'n', ' ', 'd', 'u', 'b', 'h', 'l', 'a', 'c', 'h', 'd'], [['d', 'e', 'c', 'e', 'm', 'b', 'e', 'r']]), (['d', 'h', 'e', 'n', ' ', 't', '-', 's', 'a', 'm', 'h', 'a', 'i', 'n'], [['n', 'o', 'v', 'e', 'm', 'b', 'e', 'r']]), (['d', 'h', 'e', 'n', ' ', 't', '-', 's', 'u', 'l', 't', 'a', 'i', 'n'], [['s', 'e', 'p', 't', 'e', 'm', 'b', 'e', 'r']]), (['a', 'm', ' ', 'f', 'a', 'o', 'i', 'l', 'l', 'e', 'a', 'c', 'h'], [['j', 'a', 'n', 'u', 'a', 'r', 'y']]), (['d', 'h', 'e', 'n', ' ', 'c', 'h', 'e', 'i', 't', 'e', 'a', 'n'], [['m', 'a', 'y']]), (['d', 'h', 'e', 'n', ' ', 'g', 'h', 'e', 'a', 'r', 'r', 'a', 'n'], [['f', 'e', 'b', 'r', 'u', 'a', 'r', 'y']]), (['d', 'h', 'e', 'n', ' ', 'g', 'h', 'i', 'b', 'l', 'e', 'a', 'n'], [['a', 'p', 'r', 'i', 'l']]), (['d', 'h', 'e', 'n', ' ', 'l', 'u', 'n', 'a', 's', 't', 'a', 'l'], [['a', 'u', 'g', 'u', 's', 't']]), (['a', 'n', ' ', 'd', 'u', 'b', 'h', 'l', 'a', 'c', 'h', 'd'], [['d', 'e', 'c', 'e', 'm', 'b', 'e', 'r']]), (['a', 'n', ' ', 't', '-', 'o', 'g', 'm', 'h', 'i', 'o', 's'], [['j', 'u', 'n', 'e']]), (['a', 'n', ' ', 't', '-', 's', 'a', 'm', 'h', 'a', 'i', 'n'], [['n', 'o', 'v', 'e', 'm', 'b', 'e', 'r']]), (['a', 'n', ' ', 't', '-', 's', 'u', 'l', 't', 'a', 'i', 'n'], [['s', 'e', 'p', 't', 'e', 'm', 'b', 'e', 'r']]), (['d', 'h', 'e', 'n', ' ', 'd', 'a', 'm', 'h', 'a', 'i', 'r'], [['o', 'c', 't', 'o', 'b', 'e', 'r']]), (['d', 'h', 'e', 'n', ' ', 'o', 'g', 'm', 'h', 'i', 'o', 's'], [['j', 'u', 'n', 'e']]), (['u', 'a', 'i', 'r', ' ', 'a', ' ', 't', 'h', 'i', 'd', 'e'], [['h', 'o', 'u', 'r']]), (['a', 'n', ' ', 'l', 'u', 'n', 'a', 's', 't', 'a', 'l'], [['a', 'u', 'g', 'u', 's', 't']]), (['a', 'n', ' ', 't', '-', 'i', 'u', 'c', 'h', 'a', 'r'], [['j', 'u', 'l', 'y']]), (['d', 'h', 'e', 'n', ' ', 'i', 'u', 'c', 'h', 'a', 'r'], [['j', 'u', 'l', 'y']]), (['d', 'i', 'd', 'o', 'm', 'h', 'n', 'a', 'i', 'c', 'h'], [['s', 'u', 'n', 'd', 'a', 'y']]), (['d', 'i', 's', 'a', 't', 'h', 'a', 'i', 'r', 'n', 'e'], [['s', 'a', 't', 'u', 'r', 'd', 'a', 'y']]), (['a', 'n', ' ', 'c', 'e', 'i', 't', 'e', 'a', 'n'], [['m', 'a', 'y']]), (['a', 'n', ' ', 'd', 'a', 'm', 'h', 'a', 'i', 'r'], [['o', 'c', 't', 'o', 'b', 'e', 'r']]), (['a', 'n', ' ', 'g', 'e', 'a', 'r', 'r', 'a', 'n'], [['f', 'e', 'b', 'r', 'u', 'a', 'r', 'y']]), (['a', 'n', ' ', 'g', 'i', 'b', 'l', 'e', 'a', 'n'], [['a', 'p', 'r', 'i', 'l']]), (['d', 'h', 'e', 'n', ' ', 'm', 'h', 'a', 'r', 't'], [['m', 'a', 'r', 'c', 'h']]), (['d', 'i', 'a', 'r', 'd', 'a', 'o', 'i', 'n'], [['t', 'h', 'u', 'r', 's', 'd', 'a', 'y']]), (['d', 'i', 'c', 'i', 'a', 'd', 'a', 'i', 'n'], [['w', 'e', 'd', 'n', 'e', 's', 'd', 'a', 'y']]), (['s', 'e', 'a', 'c', 'h', 'd', 'a', 'i', 'n'], [['w', 'e', 'e', 'k']]), (['b', 'l', 'i', 'a', 'd', 'h', 'n', 'a'], [['y', 'e', 'a', 'r']]), (['d', 'i', 'h', 'a', 'o', 'i', 'n', 'e'], [['f', 'r', 'i', 'd', 'a', 'y']]), (['a', 'm', ' ', 'm', 'a', 'r', 't'], [['m', 'a', 'r', 'c', 'h']]), (['d', 'i', 'l', 'u', 'a', 'i', 'n'], [['m', 'o', 'n', 'd', 'a', 'y']]), (['d', 'i', 'm', 'a', 'i', 'r', 't'], [['t', 'u', 'e', 's', 'd', 'a', 'y']]), (['m', 'i', 'o', 'n', 'a', 'i', 'd'], [['m', 'i', 'n', 'u', 't', 'e']]), (['s', 'e', 'a', 'c', 'h', 'd'], [['w', 'e', 'e', 'k']]), (['g', 'e', 'a', 'r', 'r'], [['f', 'e', 'b', 'r', 'u', 'a', 'r', 'y']]), (['l', 'a', 't', 'h', 'a'], [['d', 'a', 'y']]), (['b', 'l', 'i', 'a'], [['y', 'e', 'a', 'r']]), (['c', 'e', 'i', 't'], [['m', 'a', 'y']]), (['d', 'a', 'm', 'h'], [['o', 'c', 't', 'o', 'b', 'e', 'r']]), (['d', 'i', 'o', 'g'], [['s', 'e', 'c', 'o', 'n', 'd']]), (['d', 'u', 'b', 'h'], [['d', 'e', 'c', 'e', 'm', 'b', 'e', 'r']]), (['f', 'a', 'o', 'i'], [['j', 'a', 'n', 'u', 'a', 'r', 'y']]), (['g', 'i', 'b', 'l'], [['a', 'p', 'r', 'i', 'l']]), (['i', 'u', 'c', 'h'], [['j', 'u', 'l', 'y']]), (['l', 'u', 'n', 'a'], [['a', 'u', 'g', 'u', 's', 't']]), (['m', 'a', 'r', 't'], [['m', 'a', 'r', 'c', 'h']]), (['m', 'i', 'o', 'n'], [['m', 'i', 'n', 'u', 't', 'e']]), (['m', 'i', 'o', 's'], [['m', 'o', 'n', 't', 'h']]), (['o', 'g', 'm', 'h'], [['j', 'u', 'n', 'e']]), (['s', 'a', 'm', 'h'], [['n', 'o', 'v', 'e', 'm', 'b', 'e', 'r']]), (['s', 'u', 'l', 't'], [['s', 'e', 'p', 't', 'e', 'm', 'b', 'e', 'r']]), (['u', 'a', 'i', 'r'], [['h', 'o', 'u', 'r']]), (['d', 'i', 'a'], [['t', 'h', 'u', 'r', 's', 'd', 'a', 'y']]), (['d', 'i', 'c'], [['w', 'e', 'd', 'n', 'e', 's', 'd', 'a', 'y']]), (['d', 'i', 'd'], [['s', 'u', 'n', 'd', 'a', 'y']]), (['d', 'i', 'h'], [['f', 'r', 'i', 'd', 'a', 'y']]), (['d', 'i', 'l'], [['m', 'o', 'n', 'd', 'a', 'y']]), (['d', 'i', 'm'], [['t', 'u', 'e', 's', 'd', 'a', 'y']]), (['d', 'i', 's'], [['s', 'a', 't', 'u', 'r', 'd', 'a', 'y']]), (['g', 'm', 't'], [['g', 'm', 't']]), (['u', 't', 'c'], [['u', 't', 'c']]), (['a', 'm'], [['a', 'm']]), (['b', 'l'], [['y', 'e', 'a', 'r']]), (['l', 'a'], [['d', 'a', 'y']]), (['m', 'i'], [['m', 'o', 'n', 't', 'h']]), (['p', 'm'], [['p', 'm']]), (['s', 'n'], [['w', 'e', 'e', 'k']]), ([' '], [[' ']]), (['\''], [[]]), (['+'], [['+']]), ([','], [[]]), (['-'], [['-']]), (['.'], [['.']]), (['/'], [['/']]), ([':'], [[':']]), ([';'], [[]]), (['@'], [[]]), (['['], [[]]), ([']'], [[]]), (['d'], [['s', 'e', 'c', 'o', 'n', 'd']]), (['f'], [['p', 'm']]), (['m'], [['a', 'm'], ['m', 'i', 'n', 'u', 't', 'e']]), (['u'], [['h', 'o', 'u', 'r']]), (['z'], [['z']]), (['|'], [[]])]
  relativeType := [(['a', 'n', ' ', 't', '-', 's', 'e', 'a', 'c', 'h', 'd', 'a', 'i', 'n', ' ', 's', 'e', 'o', ' ', 'c', 'h', 'a', 'i', 'd', 'h'], ['1', ' ', 'w', 'e', 'e', 'k', ' ', 'a', 'g', 'o']), (['a', 'm', ' ', 'm', 'i', 'o', 's', ' ', 's', 'e', 'o', ' ', 'c', 'h', 'a', 'i', 'd', 'h'], ['1', ' ', 'm', 'o', 'n', 't', 'h', ' ', 'a', 'g', 'o']), (['a', 'n', ' ', 't', '-', 's', 'e', 'a', 'c', 'h', 'd', 'a', 'i', 'n', ' ', 's', 'e', 'o'], ['0', ' ', 'w', 'e', 'e', 'k', ' ', 'a', 'g', 'o']), (['a', 'm', ' ', 'm', 'i', 'o', 's', ' ', 's', 'a', ' ', 'c', 'h', 'a', 'i', 'd', 'h'], ['1', ' ', 'm', 'o', 'n', 't', 'h', ' ', 'a', 'g', 'o']), (['a', 'n', ' ', 'a', 't', 'h', '-', 's', 'h', 'e', 'a', 'c', 'h', 'd', 'a', 'i', 'n'], ['i', 'n', ' ', '1', ' ', 'w', 'e', 'e', 'k']), (['a', 'n', ' ', 'a', 't', 'h', '-', 'b', 'h', 'l', 'i', 'a', 'd', 'h', 'n', 'a'], ['i', 'n', ' ', '1', ' ', 'y', 'e', 'a', 'r']), (['s', 'e', 'a', 'c', 'h', 'd', ' ', 's', 'a', ' ', 'c', 'h', 'a', 'i', 'd', 'h'], ['1', ' ', 'w', 'e', 'e', 'k', ' ', 'a', 'g', 'o']), (['a', 'n', ' ', 't', '-', 's', 'e', 'a', 'c', 'h', 'd', ' ', 's', 'e', 'o'], ['0', ' ', 'w', 'e', 'e', 'k', ' ', 'a', 'g', 'o']), (['a', 'n', ' ', 'a', 't', 'h', '-', 's', 'h', 'e', 'a', 'c', 'h', 'd'], ['i', 'n', ' ', '1', ' ', 'w', 'e', 'e', 'k']), (['a', 'n', ' ', 'a', 't', 'h', '-', 'm', 'h', 'i', 'o', 's'], ['i', 'n', ' ', '1', ' ', 'm', 'o', 'n', 't', 'h']), (['a', 'm', ' ', 'b', 'l', 'i', 'a', 'd', 'h', 'n', 'a'], ['0', ' ', 'y', 'e', 'a', 'r', ' ', 'a', 'g', 'o']), (['a', 'm', ' ', 'm', 'i', 'o', 's', ' ', 's', 'e', 'o'], ['0', ' ', 'm', 'o', 'n', 't', 'h', ' ', 'a', 'g', 'o']), (['a', 'n', ' ', 't', '-', 's', 'n', ' ', 's', 'e', 'o'], ['0', ' ', 'w', 'e', 'e', 'k', ' ', 'a', 'g', 'o']), (['t', 'h', 'i', 's', ' ', 'm', 'i', 'n', 'u', 't', 'e'], ['0', ' ', 'm', 'i', 'n', 'u', 't', 'e', ' ', 'a', 'g', 'o']), (['a', '-', 'm', 'a', 'i', 'r', 'e', 'a', 'c', 'h'], ['i', 'n', ' ', '1', ' ', 'd', 'a', 'y']), (['a', 'n', ' ', 'a', 't', 'h', '-', 'b', 'h', 'l'], ['i', 'n', ' ', '1', ' ', 'y', 'e', 'a', 'r']), (['a', 'm', ' ', 'm', 'i', ' ', 's', 'e', 'o'], ['0', ' ', 'm', 'o', 'n', 't', 'h', ' ', 'a', 'g', 'o']), (['a', 'n', '-', 'd', 'r', 'a', 's', 't', 'a'], ['0', ' ', 's', 'e', 'c', 'o', 'n', 'd', ' ', 'a', 'g', 'o']), (['a', 'n', '-', 'u', 'i', 'r', 'i', 'd', 'h'], ['1', ' ', 'y', 'e', 'a', 'r', ' ', 'a', 'g', 'o']), (['t', 'h', 'i', 's', ' ', 'h', 'o', 'u', 'r'], ['0', ' ', 'h', 'o', 'u', 'r', ' ', 'a', 'g', 'o']), (['a', 'n', '-', 'd', 'i', 'u', 'g', 'h'], ['0', ' ', 'd', 'a', 'y', ' ', 'a', 'g', 'o']), (['a', 't', 'h', '-', 'm', 'h', 'i'], ['i', 'n', ' ', '1', ' ', 'm', 'o', 'n', 't', 'h']), (['a', 't', 'h', '-', 's', 'h', 'n'], ['i', 'n', ' ', '1', ' ', 'w', 'e', 'e', 'k']), (['a', 'n', '-', 'u', 'i', 'r'], ['1', ' ', 'y', 'e', 'a', 'r', ' ', 'a', 'g', 'o']), (['a', 'm', ' ', 'b', 'l'], ['0', ' ', 'y', 'e', 'a', 'r', ' ', 'a', 'g', 'o']), (['a', 'n', '-', 'd', 'e'], ['1', ' ', 'd', 'a', 'y', ' ', 'a', 'g', 'o']), (['m', 'i', ' ', 'c', 'h'], ['1', ' ', 'm', 'o', 'n', 't', 'h', ' ', 'a', 'g', 'o']), (['s', 'n', ' ', 'c', 'h'], ['1', ' ', 'w', 'e', 'e', 'k', ' ', 'a', 'g', 'o'])]

/-- internal/data/gl.go: `gl_Locale`, dictionary. -/
def glDict : LangData where
  name := ['g', 'l']
  translations := [(['d', 'e', 'c', 'e', 'm', 'b', 'r', 'o'], [['d', 'e', 'c', 'e', 'm', 'b', 'e', 'r']]), (['f', 'e', 'b', 'r', 'e', 'i', 'r', 'o'], [['f', 'e', 'b', 'r', 'u', 'a', 'r', 'y']]), (['m', 'e', 'r', 'c', 'o', 'r', 'e', 's'], [['w', 'e', 'd', 'n', 'e', 's', 'd', 'a', 'y']]), (['n', 'o', 'v', 'e', 'm', 'b', 'r', 'o'], [['n', 'o', 'v', 'e', 'm', 'b', 'e', 'r']]), (['s', 'e', 't', 'e', 'm', 'b', 'r', 'o'], [['s', 'e', 'p', 't', 'e', 'm', 'b', 'e', 'r']]), (['d', 'o', 'm', 'i', 'n', 'g', 'o'], [['s', 'u', 'n', 'd', 'a', 'y']]), (['o', 'u', 't', 'u', 'b', 'r', 'o'], [['o', 'c', 't', 'o', 'b', 'e', 'r']]), (['s', 'e', 'g', 'u', 'n', 'd', 'o'], [['s', 'e', 'c', 'o', 'n', 'd']]), (['x', 'a', 'n', 'e', 'i', 'r', 'o'], [['j', 'a', 'n', 'u', 'a', 'r', 'y']]), (['a', 'g', 'o', 's', 't', 'o'], [['a', 'u', 'g', 'u', 's', 't']]), (['m', 'a', 'r', 't', 'e', 's'], [['t', 'u', 'e', 's', 'd', 'a', 'y']]), (['m', 'i', 'n', 'u', 't', 'o'], [['m', 'i', 'n', 'u', 't', 'e']]), (['s', 'a', 'b', 'a', 'd', 'o'], [['s', 'a', 't', 'u', 'r', 'd', 'a', 'y']]), (['s', 'e', 'm', 'a', 'n', 'a'], [['w', 'e', 'e', 'k']]), (['v', 'e', 'n', 'r', 'e', 's'], [['f', 'r', 'i', 'd', 'a', 'y']]), (['a', 'b', 'r', 'i', 'l'], [['a', 'p', 'r', 'i', 'l']]), (['m', 'a', 'r', 'z', 'o'], [['m', 'a', 'r', 'c', 'h']]), (['x', 'o', 'v', 'e', 's'], [['t', 'h', 'u', 'r', 's', 'd', 'a', 'y']]), (['x', 'u', 'l', 'l', 'o'], [['j', 'u', 'l', 'y']]), (['h', 'o', 'r', 'a'], [['h', 'o', 'u', 'r']]), (['l', 'u', 'n', 's'], [['m', 'o', 'n', 'd', 'a', 'y']]), (['m', 'a', 'i', 'o'], [['m', 'a', 'y']]), (['x', 'u', 'n', 'o'], [['j', 'u', 'n', 'e']]), (['a', 'b', 'r'], [['a', 'p', 'r', 'i', 'l']]), (['a', 'g', 'o'], [['a', 'u', 'g', 'u', 's', 't']]), (['a', 'n', 'o'], [['y', 'e', 'a', 'r']]), (['d', 'e', 'c'], [['d', 'e', 'c', 'e', 'm', 'b', 'e', 'r']]), (['d', 'i', 'a'], [['d', 'a', 'y']]), (['d', 'o', 'm'], [['s', 'u', 'n', 'd', 'a', 'y']]), (['f', 'e', 'b'], [['f', 'e', 'b', 'r', 'u', 'a', 'r', 'y']]), (['g', 'm', 't'], [['g', 'm', 't']]), (['m', 'a', 'r'], [['m', 'a', 'r', 'c', 'h'], ['t', 'u', 'e', 's', 'd', 'a', 'y']]), (['m', 'e', 'r'], [['w', 'e', 'd', 'n', 'e', 's', 'd', 'a', 'y']]), (['m', 'e', 's'], [['m', 'o', 'n', 't', 'h']]), (['m', 'i', 'n'], [['m', 'i', 'n', 'u', 't', 'e']]), (['n', 'o', 'v'], [['n', 'o', 'v', 'e', 'm', 'b', 'e', 'r']]), (['o', 'u', 't'], [['o', 'c', 't', 'o', 'b', 'e', 'r']]), (['s', 'a', 'b'], [['s', 'a', 't', 'u', 'r', 'd', 'a', 'y']]), (['s', 'e', 'm'], [['w', 'e', 'e', 'k']]), (['s', 'e', 't'], [['s', 'e', 'p', 't', 'e', 'm', 'b', 'e', 'r']]), (['u', 't', 'c'], [['u', 't', 'c']]), (['v', 'e', 'n'], [['f', 'r', 'i', 'd', 'a', 'y']]), (['x', 'a', 'n'], [['j', 'a', 'n', 'u', 'a', 'r', 'y']]), (['x', 'o', 'v'], [['t', 'h', 'u', 'r', 's', 'd', 'a', 'y']]), (['x', 'u', 'l'], [['j', 'u', 'l', 'y']]), (['a', 'm'], [['a', 'm']]), (['p', 'm'], [['p', 'm']]), ([' '], [[' ']]), (['\''], [[]]), (['+'], [['+']]), ([','], [[]]), (['-'], [['-']]), (['.'], [['.']]), (['/'], [['/']]), ([':'], [[':']]), ([';'], [[]]), (['@'], [[]]), (['['], [[]]), ([']'], [[]]), (['a'], [['y', 'e', 'a', 'r']]), (['d'], [['d', 'a', 'y']]), (['h'], [['h', 'o', 'u', 'r']]), (['m'], [['m', 'o', 'n', 't', 'h']]), (['s'], [['s', 'e', 'c', 'o', 'n', 'd']]), (['z'], [['z']]), (['|'], [[]])]
  relativeType := [(['a', ' ', 'p', 'r', 'o', 'x', 'i', 'm', 'a', ' ', 's', 'e', 'm', 'a', 'n', 'a'], ['i', 'n', ' ', '1', ' ', 'w', 'e', 'e', 'k']), (['a', ' ', 's', 'e', 'm', 'a', 'n', 'a', ' ', 'p', 'a', 's', 'a', 'd', 'a'], ['1', ' ', 'w', 'e', 'e', 'k', ' ', 'a', 'g', 'o']), (['o', ' ', 'p', 'r', 'o', 'x', 'i', 'm', 'o', ' ', 'a', 'n', 'o'], ['i', 'n', ' ', '1', ' ', 'y', 'e', 'a', 'r']), (['o', ' ', 'p', 'r', 'o', 'x', 'i', 'm', 'o', ' ', 'm', 'e', 's'], ['i', 'n', ' ', '1', ' ', 'm', 'o', 'n', 't', 'h']), (['n', 'e', 's', 't', 'e', ' ', 'm', 'i', 'n', 'u', 't', 'o'], ['0', ' ', 'm', 'i', 'n', 'u', 't', 'e', ' ', 'a', 'g', 'o']), (['o', ' ', 'a', 'n', 'o', ' ', 'p', 'a', 's', 'a', 'd', 'o'], ['1', ' ', 'y', 'e', 'a', 'r', ' ', 'a', 'g', 'o']), (['o', ' ', 'm', 'e', 's', ' ', 'p', 'a', 's', 'a', 'd', 'o'], ['1', ' ', 'm', 'o', 'n', 't', 'h', ' ', 'a', 'g', 'o']), (['s', 'e', 'g', 'u', 'i', 'n', 't', 'e', ' ', 'a', 'n', 'o'], ['i', 'n', ' ', '1', ' ', 'y', 'e', 'a', 'r']), (['s', 'e', 'm', ' ', 's', 'e', 'g', 'u', 'i', 'n', 't', 'e'], ['i', 'n', ' ', '1', ' ', 'w', 'e', 'e', 'k']), (['e', 's', 't', 'a', ' ', 's', 'e', 'm', 'a', 'n', 'a'], ['0', ' ', 'w', 'e', 'e', 'k', ' ', 'a', 'g', 'o']), (['a', 'n', 'o', ' ', 'p', 'a', 's', 'a', 'd', 'o'], ['1', ' ', 'y', 'e', 'a', 'r', ' ', 'a', 'g', 'o']), (['m', ' ', 's', 'e', 'g', 'u', 'i', 'n', 't', 'e'], ['i', 'n', ' ', '1', ' ', 'm', 'o', 'n', 't', 'h']), (['n', 'e', 's', 't', 'a', ' ', 'h', 'o', 'r', 'a'], ['0', ' ', 'h', 'o', 'u', 'r', ' ', 'a', 'g', 'o']), (['s', 'e', 'm', ' ', 'p', 'a', 's', 'a', 'd', 'a'], ['1', ' ', 'w', 'e', 'e', 'k', ' ', 'a', 'g', 'o']), (['e', 's', 't', 'a', ' ', 's', 'e', 'm'], ['0', ' ', 'w', 'e', 'e', 'k', ' ', 'a', 'g', 'o']), (['e', 's', 't', 'e', ' ', 'a', 'n', 'o'], ['0', ' ', 'y', 'e', 'a', 'r', ' ', 'a', 'g', 'o']), (['e', 's', 't', 'e', ' ', 'm', 'e', 's'], ['0', ' ', 'm', 'o', 'n', 't', 'h', ' ', 'a', 'g', 'o']), (['m', ' ', 'p', 'a', 's', 'a', 'd', 'o'], ['1', ' ', 'm', 'o', 'n', 't', 'h', ' ', 'a', 'g', 'o']), (['e', 's', 't', 'e', ' ', 'm'], ['0', ' ', 'm', 'o', 'n', 't', 'h', ' ', 'a', 'g', 'o']), (['a', 'g', 'o', 'r', 'a'], ['0', ' ', 's', 'e', 'c', 'o', 'n', 'd', ' ', 'a', 'g', 'o']), (['h', 'o', 'x', 'e'], ['0', ' ', 'd', 'a', 'y', ' ', 'a', 'g', 'o']), (['m', 'a', 'n', 'a'], ['i', 'n', ' ', '1', ' ', 'd', 'a', 'y']), (['o', 'n', 't', 'e'], ['1', ' ', 'd', 'a', 'y', ' ', 'a', 'g', 'o'])]

/-- internal/data/gsw.go: `gsw_Locale`, dictionary. -/
def gswDict : LangData where
  name := ['g', 's', 'w']
  translations := [(['a', 'm', ' ', 'v', 'o', 'r', 'm', 'i', 't', 't', 'a', 'g'], [['a', 'm']]), (['a', 'm', ' ', 'n', 'a', 'm', 'i', 't', 't', 'a', 'g'], [['p', 'm']]), (['d', 'u', 'n', 's', 'c', 'h', 't', 'i', 'g'], [['t', 'h', 'u', 'r', 's', 'd', 'a', 'y']]), (['s', 'a', 'm', 's', 'c', 'h', 't', 'i', 'g'], [['s', 'a', 't', 'u', 'r', 'd', 'a', 'y']]), (['s', 'e', 'p', 't', 'a', 'm', 'b', 'e', 'r'], [['s', 'e', 'p', 't', 'e', 'm', 'b', 'e', 'r']]), (['v', 'o', 'r', 'm', 'i', 't', 't', 'a', 'g'], [['a', 'm']]), (['z', 'i', 'i', 's', 'c', 'h', 't', 'i', 'g'], [['t', 'u', 'e', 's', 'd', 'a', 'y']]), (['a', 'u', 'g', 'u', 's', 'c', 'h', 't'], [['a', 'u', 'g', 'u', 's', 't']]), (['d', 'e', 'z', 'a', 'm', 'b', 'e', 'r'], [['d', 'e', 'c', 'e', 'm', 'b', 'e', 'r']]), (['m', 'i', 't', 't', 'w', 'u', 'c', 'h'], [['w', 'e', 'd', 'n', 'e', 's', 'd', 'a', 'y']]), (['n', 'a', 'm', 'i', 't', 't', 'a', 'g'], [['p', 'm']]), (['n', 'o', 'v', 'a', 'm', 'b', 'e', 'r'], [['n', 'o', 'v', 'e', 'm', 'b', 'e', 'r']]), (['o', 'k', 't', 'o', 'o', 'b', 'e', 'r'], [['o', 'c', 't', 'o', 'b', 'e', 'r']]), (['f', 'e', 'b', 'r', 'u', 'a', 'r'], [['f', 'e', 'b', 'r', 'u', 'a', 'r', 'y']]), (['f', 'r', 'i', 'i', 't', 'i', 'g'], [['f', 'r', 'i', 'd', 'a', 'y']]), (['m', 'a', 'a', 'n', 't', 'i', 'g'], [['m', 'o', 'n', 'd', 'a', 'y']]), (['m', 'i', 'n', 'u', 'u', 't', 'e'], [['m', 'i', 'n', 'u', 't', 'e']]), (['s', 'c', 'h', 't', 'u', 'n', 'd'], [['h', 'o', 'u', 'r']]), (['s', 'e', 'k', 'u', 'n', 'd', 'e'], [['s', 'e', 'c', 'o', 'n', 'd']]), (['s', 'u', 'n', 'n', 't', 'i', 'g'], [['s', 'u', 'n', 'd', 'a', 'y']]), (['j', 'a', 'n', 'u', 'a', 'r'], [['j', 'a', 'n', 'u', 'a', 'r', 'y']]), (['a', 'p', 'r', 'i', 'l'], [['a', 'p', 'r', 'i', 'l']]), (['m', 'o', 'n', 'e', 't'], [['m', 'o', 'n', 't', 'h']]), (['w', 'u', 'c', 'h', 'e'], [['w', 'e', 'e', 'k']]), (['j', 'a', 'a', 'r'], [['y', 'e', 'a', 'r']]), (['j', 'u', 'l', 'i'], [['j', 'u', 'l', 'y']]), (['j', 'u', 'n', 'i'], [['j', 'u', 'n', 'e']]), (['m', 'a', 'r', 'z'], [['m', 'a', 'r', 'c', 'h']]), (['v', 'o', 'r', 'm'], [['a', 'm']]), (['a', 'p', 'r'], [['a', 'p', 'r', 'i', 'l']]), (['a', 'u', 'g'], [['a', 'u', 'g', 'u', 's', 't']]), (['d', 'e', 'z'], [['d', 'e', 'c', 'e', 'm', 'b', 'e', 'r']]), (['f', 'e', 'b'], [['f', 'e', 'b', 'r', 'u', 'a', 'r', 'y']]), (['g', 'm', 't'], [['g', 'm', 't']]), (['j', 'a', 'n'], [['j', 'a', 'n', 'u', 'a', 'r', 'y']]), (['j', 'u', 'l'], [['j', 'u', 'l', 'y']]), (['j', 'u', 'n'], [['j', 'u', 'n', 'e']]), (['m', 'a', 'i'], [['m', 'a', 'y']]), (['m', 'a', 'r'], [['m', 'a', 'r', 'c', 'h']]), (['n', 'a', 'm'], [['p', 'm']]), (['n', 'o', 'v'], [['n', 'o', 'v', 'e', 'm', 'b', 'e', 'r']]), (['o', 'k', 't'], [['o', 'c', 't', 'o', 'b', 'e', 'r']]), (['s', 'e', 'p'], [['s', 'e', 'p', 't', 'e', 'm', 'b', 'e', 'r']]), (['t', 'a', 'g'], [['d', 'a', 'y']]), (['u', 't', 'c'], [['u', 't', 'c']]), (['a', 'm'], [['a', 'm']]), (['d', 'u'], [['t', 'h', 'u', 'r', 's', 'd', 'a', 'y']]), (['f', 'r'], [['f', 'r', 'i', 'd', 'a', 'y']]), (['m', 'a'], [['m', 'o', 'n', 'd', 'a', 'y']]), (['m', 'i'], [['w', 'e', 'd', 'n', 'e', 's', 'd', 'a', 'y']]), (['p', 'm'], [['p', 'm']]), (['s', 'a'], [['s', 'a', 't', 'u', 'r', 'd', 'a', 'y']]), (['s', 'u'], [['s', 'u', 'n', 'd', 'a', 'y']]), (['z', 'i'], [['t', 'u', 'e', 's', 'd', 'a', 'y']]), ([' '], [[' ']]), (['\''], [[]]), (['+'], [['+']]), ([','], [[]]), (['-'], [['-']]), (['.'], [['.']]), (['/'], [['/']]), ([':'], [[':']]), ([';'], [[]]), (['@'], [[]]), (['['], [[]]), ([']'], [[]]), (['z'], [['z']]), (['|'], [[]])]
  relativeType := [(['t', 'h', 'i', 's', ' ', 'm', 'i', 'n', 'u', 't', 'e'], ['0', ' ', 'm', 'i', 'n', 'u', 't', 'e', ' ', 'a', 'g', 'o']), (['l', 'a', 's', 't', ' ', 'm', 'o', 'n', 't', 'h'], ['1', ' ', 'm', 'o', 'n', 't', 'h', ' ', 'a', 'g', 'o']), (['n', 'e', 'x', 't', ' ', 'm', 'o', 'n', 't', 'h'], ['i', 'n', ' ', '1', ' ', 'm', 'o', 'n', 't', 'h']), (['t', 'h', 'i', 's', ' ', 'm', 'o', 'n', 't', 'h'], ['0', ' ', 'm', 'o', 'n', 't', 'h', ' ', 'a', 'g', 'o']), (['l', 'a', 's', 't', ' ', 'w', 'e', 'e', 'k'], ['1', ' ', 'w', 'e', 'e', 'k', ' ', 'a', 'g', 'o']), (['l', 'a', 's', 't', ' ', 'y', 'e', 'a', 'r'], ['1', ' ', 'y', 'e', 'a', 'r', ' ', 'a', 'g', 'o']), (['n', 'e', 'x', 't', ' ', 'w', 'e', 'e', 'k'], ['i', 'n', ' ', '1', ' ', 'w', 'e', 'e', 'k']), (['n', 'e', 'x', 't', ' ', 'y', 'e', 'a', 'r'], ['i', 'n', ' ', '1', ' ', 'y', 'e', 'a', 'r']), (['t', 'h', 'i', 's', ' ', 'h', 'o', 'u', 'r'], ['0', ' ', 'h', 'o', 'u', 'r', ' ', 'a', 'g', 'o']), (['t', 'h', 'i', 's', ' ', 'w', 'e', 'e', 'k'], ['0', ' ', 'w', 'e', 'e', 'k', ' ', 'a', 'g', 'o']), (['t', 'h', 'i', 's', ' ', 'y', 'e', 'a', 'r'], ['0', ' ', 'y', 'e', 'a', 'r', ' ', 'a', 'g', 'o']), (['g', 'e', 's', 'c', 'h', 't', 'e', 'r'], ['1', ' ', 'd', 'a', 'y', ' ', 'a', 'g', 'o']), (['m', 'o', 'o', 'r', 'n'], ['i', 'n', ' ', '1', ' ', 'd', 'a', 'y']), (['h', 'u', 't'], ['0', ' ', 'd', 'a', 'y', ' ', 'a', 'g', 'o']), (['n', 'o', 'w'], ['0', ' ', 's', 'e', 'c', 'o', 'n', 'd', ' ', 'a', 'g', 'o'])]

/-- internal/data/gsw.go: `gsw_FR_Locale`, dictionary. -/
def gsw_FRDict : LangData where
  name := ['g', 's', 'w', '-', 'F', 'R']

/-- internal/data/gsw.go: `gsw_LI_Locale`, dictionary. -/
def gsw_LIDict : LangData where
  name := ['g', 's', 'w', '-', 'L', 'I']

/-- internal/data/gu.go: `gu_Locale`, dictionary. -/
def guDict : LangData where
  name := ['g', 'u']
  translations := [(['અ', 'ઠ', 'વ', 'ા', 'ડ', 'િ', 'ય'], [['w', 'e', 'e', 'k']]), (['જ', 'ા', 'ન', 'ય', 'આ', 'ર', 'ી'], [['j', 'a', 'n', 'u', 'a', 'r', 'y']]), (['ઑ', 'ક', 'ટ', 'ો', 'બ', 'ર'], [['o', 'c', 't', 'o', 'b', 'e', 'r']]), (['ડ', 'િ', 'સ', 'મ', 'બ', 'ર'], [['d', 'e', 'c', 'e', 'm', 'b', 'e', 'r']]), (['ફ', 'બ', 'ર', 'આ', 'ર', 'ી'], [['f', 'e', 'b', 'r', 'u', 'a', 'r', 'y']]), (['મ', 'ગ', 'ળ', 'વ', 'ા', 'ર'], [['t', 'u', 'e', 's', 'd', 'a', 'y']]), (['ર', 'વ', 'િ', 'વ', 'ા', 'ર'], [['s', 'u', 'n', 'd', 'a', 'y']]), (['શ', 'ક', 'ર', 'વ', 'ા', 'ર'], [['f', 'r', 'i', 'd', 'a', 'y']]), (['શ', 'ન', 'િ', 'વ', 'ા', 'ર'], [['s', 'a', 't', 'u', 'r', 'd', 'a', 'y']]), (['સ', 'પ', 'ટ', 'મ', 'બ', 'ર'], [['s', 'e', 'p', 't', 'e', 'm', 'b', 'e', 'r']]), (['સ', 'ો', 'મ', 'વ', 'ા', 'ર'], [['m', 'o', 'n', 'd', 'a', 'y']]), (['એ', 'પ', 'ર', 'િ', 'લ'], [['a', 'p', 'r', 'i', 'l']]), (['ગ', 'ર', 'વ', 'ા', 'ર'], [['t', 'h', 'u', 'r', 's', 'd', 'a', 'y']]), (['ન', 'વ', 'મ', 'બ', 'ર'], [['n', 'o', 'v', 'e', 'm', 'b', 'e', 'r']]), (['બ', 'ધ', 'વ', 'ા', 'ર'], [['w', 'e', 'd', 'n', 'e', 's', 'd', 'a', 'y']]), (['મ', 'હ', 'િ', 'ન', 'ો'], [['m', 'o', 'n', 't', 'h']]), (['મ', 'િ', 'ન', 'િ', 'ટ'], [['m', 'i', 'n', 'u', 't', 'e']]), (['ઑ', 'ક', 'ટ', 'ો'], [['o', 'c', 't', 'o', 'b', 'e', 'r']]), (['ઑ', 'ગ', 'સ', 'ટ'], [['a', 'u', 'g', 'u', 's', 't']]), (['ક', 'લ', 'ા', 'ક'], [['h', 'o', 'u', 'r']]), (['જ', 'લ', 'ા', 'ઈ'], [['j', 'u', 'l', 'y']]), (['જ', 'ા', 'ન', 'ય'], [['j', 'a', 'n', 'u', 'a', 'r', 'y']]), (['દ', 'િ', 'વ', 'સ'], [['d', 'a', 'y']]), (['મ', 'ા', 'ર', 'ચ'], [['m', 'a', 'r', 'c', 'h']]), (['સ', 'ક', 'ન', 'ડ'], [['s', 'e', 'c', 'o', 'n', 'd']]), (['g', 'm', 't'], [['g', 'm', 't']]), (['u', 't', 'c'], [['u', 't', 'c']]), (['ડ', 'િ', 'સ'], [['d', 'e', 'c', 'e', 'm', 'b', 'e', 'r']]), (['ફ', 'બ', 'ર'], [['f', 'e', 'b', 'r', 'u', 'a', 'r', 'y']]), (['મ', 'ગ', 'ળ'], [['t', 'u', 'e', 's', 'd', 'a', 'y']]), (['ર', 'વ', 'િ'], [['s', 'u', 'n', 'd', 'a', 'y']]), (['વ', 'ર', 'ષ'], [['y', 'e', 'a', 'r']]), (['શ', 'ક', 'ર'], [['f', 'r', 'i', 'd', 'a', 'y']]), (['શ', 'ન', 'િ'], [['s', 'a', 't', 'u', 'r', 'd', 'a', 'y']]), (['સ', 'પ', 'ટ'], [['s', 'e', 'p', 't', 'e', 'm', 'b', 'e', 'r']]), (['સ', 'ો', 'મ'], [['m', 'o', 'n', 'd', 'a', 'y']]), (['a', 'm'], [['a', 'm']]), (['p', 'm'], [['p', 'm']]), (['અ', 'ઠ'], [['w', 'e', 'e', 'k']]), (['ગ', 'ર'], [['t', 'h', 'u', 'r', 's', 'd', 'a', 'y']]), (['જ', 'ન'], [['j', 'u', 'n', 'e']]), (['ન', 'વ'], [['n', 'o', 'v', 'e', 'm', 'b', 'e', 'r']]), (['બ', 'ધ'], [['w', 'e', 'd', 'n', 'e', 's', 'd', 'a', 'y']]), (['મ', 'િ'], [['m', 'i', 'n', 'u', 't', 'e']]), ([' '], [[' ']]), (['\''], [[]]), (['+'], [['+']]), ([','], [[]]), (['-'], [['-']]), (['.'], [['.']]), (['/'], [['/']]), ([':'], [[':']]), ([';'], [[]]), (['@'], [[]]), (['['], [[]]), ([']'], [[]]), (['z'], [['z']]), (['|'], [[]]), (['ક'], [['h', 'o', 'u', 'r']]), (['મ'], [['m', 'a', 'y'], ['m', 'o', 'n', 't', 'h']]), (['વ'], [['y', 'e', 'a', 'r']]), (['સ'], [['s', 'e', 'c', 'o', 'n', 'd']])]
  relativeType := [(['આ', 'વ', 'ત', 'ા', ' ', 'અ', 'ઠ', 'વ', 'ા', 'ડ', 'િ', 'ય'], ['i', 'n', ' ', '1', ' ', 'w', 'e', 'e', 'k']), (['ગ', 'ય', 'ા', ' ', 'અ', 'ઠ', 'વ', 'ા', 'ડ', 'િ', 'ય'], ['1', ' ', 'w', 'e', 'e', 'k', ' ', 'a', 'g', 'o']), (['આ', ' ', 'અ', 'ઠ', 'વ', 'ા', 'ડ', 'િ', 'ય'], ['0', ' ', 'w', 'e', 'e', 'k', ' ', 'a', 'g', 'o']), (['આ', 'વ', 'ત', 'ા', ' ', 'મ', 'હ', 'િ', 'ન'], ['i', 'n', ' ', '1', ' ', 'm', 'o', 'n', 't', 'h']), (['આ', 'વ', 'ત', 'ા', ' ', 'વ', 'ર', 'ષ'], ['i', 'n', ' ', '1', ' ', 'y', 'e', 'a', 'r']), (['ગ', 'ય', 'ા', ' ', 'મ', 'હ', 'િ', 'ન'], ['1', ' ', 'm', 'o', 'n', 't', 'h', ' ', 'a', 'g', 'o']), (['આ', ' ', 'મ', 'િ', 'ન', 'િ', 'ટ'], ['0', ' ', 'm', 'i', 'n', 'u', 't', 'e', ' ', 'a', 'g', 'o']), (['આ', 'વ', 'ત', 'ી', 'ક', 'ા', 'લ'], ['i', 'n', ' ', '1', ' ', 'd', 'a', 'y']), (['ગ', 'ય', 'ા', ' ', 'વ', 'ર', 'ષ'], ['1', ' ', 'y', 'e', 'a', 'r', ' ', 'a', 'g', 'o']), (['આ', ' ', 'ક', 'લ', 'ા', 'ક'], ['0', ' ', 'h', 'o', 'u', 'r', ' ', 'a', 'g', 'o']), (['આ', ' ', 'મ', 'હ', 'િ', 'ન'], ['0', ' ', 'm', 'o', 'n', 't', 'h', ' ', 'a', 'g', 'o']), (['આ', ' ', 'વ', 'ર', 'ષ'], ['0', ' ', 'y', 'e', 'a', 'r', ' ', 'a', 'g', 'o']), (['ગ', 'ઈ', 'ક', 'ા', 'લ'], ['1', ' ', 'd', 'a', 'y', ' ', 'a', 'g', 'o']), (['હ', 'મ', 'ણ', 'ા'], ['0', ' ', 's', 'e', 'c', 'o', 'n', 'd', ' ', 'a', 'g', 'o']), (['આ', 'જ'], ['0', ' ', 'd', 'a', 'y', ' ', 'a', 'g', 'o'])]

/-- internal/data/guz.go: `guz_Locale`, dictionary. -/
def guzDict : LangData where
  name := ['g', 'u', 'z']
  translations := [(['c', 'h', 'u', 'm', 'a', 'p', 'i', 'r', 'i'], [['s', 'u', 'n', 'd', 'a', 'y']]), (['c', 'h', 'u', 'm', 'a', 't', 'a', 'n', 'o'], [['w', 'e', 'd', 'n', 'e', 's', 'd', 'a', 'y']]), (['c', 'h', 'u', 'm', 'a', 't', 'a', 't', 'o'], [['m', 'o', 'n', 'd', 'a', 'y']]), (['o', 'm', 'o', 't', 'i', 'e', 'n', 'y', 'i'], [['m', 'o', 'n', 't', 'h']]), (['c', 'h', 'a', 'n', 'u', 'a', 'r', 'i'], [['j', 'a', 'n', 'u', 'a', 'r', 'y']]), (['c', 'h', 'u', 'm', 'a', 'i', 'n', 'e'], [['t', 'u', 'e', 's', 'd', 'a', 'y']]), (['e', 's', 'e', 'k', 'e', 'n', 'd', 'i'], [['s', 'e', 'c', 'o', 'n', 'd']]), (['f', 'e', 'b', 'u', 'r', 'a', 'r', 'i'], [['f', 'e', 'b', 'r', 'u', 'a', 'r', 'y']]), (['o', 'm', 'o', 'k', 'u', 'b', 'i', 'o'], [['w', 'e', 'e', 'k']]), (['s', 'e', 'p', 't', 'e', 'm', 'b', 'a'], [['s', 'e', 'p', 't', 'e', 'm', 'b', 'e', 'r']]), (['a', 'p', 'i', 'r', 'i', 'r', 'i'], [['a', 'p', 'r', 'i', 'l']]), (['a', 'r', 'a', 'm', 'i', 's', 'i'], [['t', 'h', 'u', 'r', 's', 'd', 'a', 'y']]), (['d', 'i', 's', 'e', 'm', 'b', 'a'], [['d', 'e', 'c', 'e', 'm', 'b', 'e', 'r']]), (['e', 'd', 'a', 'k', 'i', 'k', 'a'], [['m', 'i', 'n', 'u', 't', 'e']]), (['e', 's', 'a', 'b', 'a', 't', 'o'], [['s', 'a', 't', 'u', 'r', 'd', 'a', 'y']]), (['n', 'o', 'b', 'e', 'm', 'b', 'a'], [['n', 'o', 'v', 'e', 'm', 'b', 'e', 'r']]), (['o', 'k', 'i', 't', 'o', 'b', 'a'], [['o', 'c', 't', 'o', 'b', 'e', 'r']]), (['a', 'g', 'o', 's', 't', 'i'], [['a', 'u', 'g', 'u', 's', 't']]), (['c', 'h', 'u', 'l', 'a', 'i'], [['j', 'u', 'l', 'y']]), (['i', 'c', 'h', 'u', 'm', 'a'], [['f', 'r', 'i', 'd', 'a', 'y']]), (['m', 'a', 'm', 'b', 'i', 'a'], [['a', 'm']]), (['o', 'm', 'w', 'a', 'k', 'a'], [['y', 'e', 'a', 'r']]), (['r', 'i', 't', 'u', 'k', 'o'], [['d', 'a', 'y']]), (['m', 'a', 'c', 'h', 'i'], [['m', 'a', 'r', 'c', 'h']]), (['e', 'n', 's', 'a'], [['h', 'o', 'u', 'r']]), (['j', 'u', 'n', 'i'], [['j', 'u', 'n', 'e']]), (['a', 'g', 't'], [['a', 'u', 'g', 'u', 's', 't']]), (['a', 'p', 'r'], [['a', 'p', 'r', 'i', 'l']]), (['a', 'r', 's'], [['t', 'h', 'u', 'r', 's', 'd', 'a', 'y']]), (['c', 'a', 'n'], [['j', 'a', 'n', 'u', 'a', 'r', 'y']]), (['c', 'm', 'n'], [['t', 'u', 'e', 's', 'd', 'a', 'y']]), (['c', 'm', 't'], [['w', 'e', 'd', 'n', 'e', 's', 'd', 'a', 'y']]), (['c', 'p', 'r'], [['s', 'u', 'n', 'd', 'a', 'y']]), (['c', 't', 't'], [['m', 'o', 'n', 'd', 'a', 'y']]), (['c', 'u', 'l'], [['j', 'u', 'l', 'y']]), (['d', 'i', 's'], [['d', 'e', 'c', 'e', 'm', 'b', 'e', 'r']]), (['e', 's', 't'], [['s', 'a', 't', 'u', 'r', 'd', 'a', 'y']]), (['f', 'e', 'b'], [['f', 'e', 'b', 'r', 'u', 'a', 'r', 'y']]), (['g', 'm', 't'], [['g', 'm', 't']]), (['i', 'c', 'm'], [['f', 'r', 'i', 'd', 'a', 'y']]), (['j', 'u', 'n'], [['j', 'u', 'n', 'e']]), (['m', 'a', 'c'], [['m', 'a', 'r', 'c', 'h']]), (['m', 'e', 'i'], [['m', 'a', 'y']]), (['m', 'o', 'g'], [['p', 'm']]), (['n', 'o', 'b'], [['n', 'o', 'v', 'e', 'm', 'b', 'e', 'r']]), (['o', 'k', 't'], [['o', 'c', 't', 'o', 'b', 'e', 'r']]), (['s', 'e', 'p'], [['s', 'e', 'p', 't', 'e', 'm', 'b', 'e', 'r']]), (['u', 't', 'c'], [['u', 't', 'c']]), (['a', 'm'], [['a', 'm']]), (['m', 'a'], [['a', 'm']]), (['m', 'o'], [['p', 'm']]), (['p', 'm'], [['p', 'm']]), ([' '], [[' ']]), (['\''], [[]]), (['+'], [['+']]), ([','], [[]]), (['-'], [['-']]), (['.'], [['.']]), (['/'], [['/']]), ([':'], [[':']]), ([';'], [[]]), (['@'], [[]]), (['['], [[]]), ([']'], [[]]), (['z'], [['z']]), (['|'], [[]])]
  relativeType := [(['t', 'h', 'i', 's', ' ', 'm', 'i', 'n', 'u', 't', 'e'], ['0', ' ', 'm', 'i', 'n', 'u', 't', 'e', ' ', 'a', 'g', 'o']), (['l', 'a', 's', 't', ' ', 'm', 'o', 'n', 't', 'h'], ['1', ' ', 'm', 'o', 'n', 't', 'h', ' ', 'a', 'g', 'o']), (['n', 'e', 'x', 't', ' ', 'm', 'o', 'n', 't', 'h'], ['i', 'n', ' ', '1', ' ', 'm', 'o', 'n', 't', 'h']), (['t', 'h', 'i', 's', ' ', 'm', 'o', 'n', 't', 'h'], ['0', ' ', 'm', 'o', 'n', 't', 'h', ' ', 'a', 'g', 'o']), (['l', 'a', 's', 't', ' ', 'w', 'e', 'e', 'k'], ['1', ' ', 'w', 'e', 'e', 'k', ' ', 'a', 'g', 'o']), (['l', 'a', 's', 't', ' ', 'y', 'e', 'a', 'r'], ['1', ' ', 'y', 'e', 'a', 'r', ' ', 'a', 'g', 'o']), (['n', 'e', 'x', 't', ' ', 'w', 'e', 'e', 'k'], ['i', 'n', ' ', '1', ' ', 'w', 'e', 'e', 'k']), (['n', 'e', 'x', 't', ' ', 'y', 'e', 'a', 'r'], ['i', 'n', ' ', '1', ' ', 'y', 'e', 'a', 'r']), (['t', 'h', 'i', 's', ' ', 'h', 'o', 'u', 'r'], ['0', ' ', 'h', 'o', 'u', 'r', ' ', 'a', 'g', 'o']), (['t', 'h', 'i', 's', ' ', 'w', 'e', 'e', 'k'], ['0', ' ', 'w', 'e', 'e', 'k', ' ', 'a', 'g', 'o']), (['t', 'h', 'i', 's', ' ', 'y', 'e', 'a', 'r'], ['0', ' ', 'y', 'e', 'a', 'r', ' ', 'a', 'g', 'o']), (['m', 'a', 'm', 'b', 'i', 'a'], ['i', 'n', ' ', '1', ' ', 'd', 'a', 'y']), (['i', 'g', 'o', 'r', 'o'], ['1', ' ', 'd', 'a', 'y', ' ', 'a', 'g', 'o']), (['r', 'e', 'r', 'o'], ['0', ' ', 'd', 'a', 'y', ' ', 'a', 'g', 'o']), (['n', 'o', 'w'], ['0', ' ', 's', 'e', 'c', 'o', 'n', 'd', ' ', 'a', 'g', 'o'])]

/-- internal/data/gv.go: `gv_Locale`, dictionary. -/
def gvDict : LangData where
  name := ['g', 'v']
  translations := [(['t', 'o', 's', 'h', 'i', 'a', 'g', 'h', 't', '-', 'a', 'r', 'r', 'e', 'e'], [['f', 'e', 'b', 'r', 'u', 'a', 'r', 'y']]), (['m', 'e', 'e', ' ', 'n', 'y', ' ', 'n', 'o', 'l', 'l', 'i', 'c', 'k'], [['d', 'e', 'c', 'e', 'm', 'b', 'e', 'r']]), (['j', 'e', 'r', 'r', 'e', 'y', '-', 'f', 'o', 'u', 'y', 'i', 'r'], [['o', 'c', 't', 'o', 'b', 'e', 'r']]), (['j', 'e', 'r', 'r', 'e', 'y', '-', 'g', 'e', 'u', 'r', 'e', 'e'], [['j', 'a', 'n', 'u', 'a', 'r', 'y']]), (['j', 'e', 'r', 'r', 'e', 'y', '-', 's', 'o', 'u', 'r', 'e', 'e'], [['j', 'u', 'l', 'y']]), (['m', 'e', 'a', 'n', '-', 'f', 'o', 'u', 'y', 'i', 'r'], [['s', 'e', 'p', 't', 'e', 'm', 'b', 'e', 'r']]), (['m', 'e', 'a', 'n', '-', 's', 'o', 'u', 'r', 'e', 'e'], [['j', 'u', 'n', 'e']]), (['m', 'e', 'e', ' ', 'h', 'o', 'u', 'n', 'e', 'y'], [['n', 'o', 'v', 'e', 'm', 'b', 'e', 'r']]), (['l', 'u', 'a', 'n', 'i', 's', 't', 'y', 'n'], [['a', 'u', 'g', 'u', 's', 't']]), (['m', '-', 'n', 'o', 'l', 'l', 'i', 'c', 'k'], [['d', 'e', 'c', 'e', 'm', 'b', 'e', 'r']]), (['j', '-', 'f', 'o', 'u', 'y', 'i', 'r'], [['o', 'c', 't', 'o', 'b', 'e', 'r']]), (['j', '-', 's', 'o', 'u', 'r', 'e', 'e'], [['j', 'u', 'l', 'y']]), (['j', 'e', 'd', 'o', 'o', 'n', 'e', 'e'], [['s', 'u', 'n', 'd', 'a', 'y']]), (['j', 'e', 'h', 'e', 'i', 'n', 'e', 'y'], [['f', 'r', 'i', 'd', 'a', 'y']]), (['m', '-', 'f', 'o', 'u', 'y', 'i', 'r'], [['s', 'e', 'p', 't', 'e', 'm', 'b', 'e', 'r']]), (['m', '-', 'h', 'o', 'u', 'n', 'e', 'y'], [['n', 'o', 'v', 'e', 'm', 'b', 'e', 'r']]), (['m', '-', 's', 'o', 'u', 'r', 'e', 'e'], [['j', 'u', 'n', 'e']]), (['b', 'o', 'a', 'l', 'd', 'y', 'n'], [['m', 'a', 'y']]), (['j', 'e', 'l', 'h', 'e', 'i', 'n'], [['m', 'o', 'n', 'd', 'a', 'y']]), (['j', 'e', 'm', 'a', 'y', 'r', 't'], [['t', 'u', 'e', 's', 'd', 'a', 'y']]), (['j', 'e', 'r', 'c', 'e', 'a', 'n'], [['w', 'e', 'd', 'n', 'e', 's', 'd', 'a', 'y']]), (['j', 'e', 'r', 'd', 'e', 'i', 'n'], [['t', 'h', 'u', 'r', 's', 'd', 'a', 'y']]), (['t', '-', 'a', 'r', 'r', 'e', 'e'], [['f', 'e', 'b', 'r', 'u', 'a', 'r', 'y']]), (['a', 'v', 'e', 'r', 'i', 'l'], [['a', 'p', 'r', 'i', 'l']]), (['a', 'v', 'r', 'r', 'i', 'l'], [['a', 'p', 'r', 'i', 'l']]), (['j', '-', 'g', 'u', 'e', 'r'], [['j', 'a', 'n', 'u', 'a', 'r', 'y']]), (['j', 'e', 's', 'a', 'r', 'n'], [['s', 'a', 't', 'u', 'r', 'd', 'a', 'y']]), (['m', 'a', 'y', 'r', 'n', 't'], [['m', 'a', 'r', 'c', 'h']]), (['m', 'i', 'n', 'u', 't', 'e'], [['m', 'i', 'n', 'u', 't', 'e']]), (['s', 'e', 'c', 'o', 'n', 'd'], [['s', 'e', 'c', 'o', 'n', 'd']]), (['m', 'o', 'n', 't', 'h'], [['m', 'o', 'n', 't', 'h']]), (['h', 'o', 'u', 'r'], [['h', 'o', 'u', 'r']]), (['j', 'e', 'r', 'c'], [['w', 'e', 'd', 'n', 'e', 's', 'd', 'a', 'y']]), (['j', 'e', 'r', 'd'], [['t', 'h', 'u', 'r', 's', 'd', 'a', 'y']]), (['w', 'e', 'e', 'k'], [['w', 'e', 'e', 'k']]), (['y', 'e', 'a', 'r'], [['y', 'e', 'a', 'r']]), (['d', 'a', 'y'], [['d', 'a', 'y']]), (['g', 'm', 't'], [['g', 'm', 't']]), (['j', 'e', 'd'], [['s', 'u', 'n', 'd', 'a', 'y']]), (['j', 'e', 'h'], [['f', 'r', 'i', 'd', 'a', 'y']]), (['j', 'e', 'l'], [['m', 'o', 'n', 'd', 'a', 'y']]), (['j', 'e', 'm'], [['t', 'u', 'e', 's', 'd', 'a', 'y']]), (['j', 'e', 's'], [['s', 'a', 't', 'u', 'r', 'd', 'a', 'y']]), (['u', 't', 'c'], [['u', 't', 'c']]), (['a', 'm'], [['a', 'm']]), (['p', 'm'], [['p', 'm']]), ([' '], [[' ']]), (['\''], [[]]), (['+'], [['+']]), ([','], [[]]), (['-'], [['-']]), (['.'], [['.']]), (['/'], [['/']]), ([':'], [[':']]), ([';'], [[]]), (['@'], [[]]), (['['], [[]]), ([']'], [[]]), (['z'], [['z']]), (['|'], [[]])]
  relativeType := [(['t', 'h', 'i', 's', ' ', 'm', 'i', 'n', 'u', 't', 'e'], ['0', ' ', 'm', 'i', 'n', 'u', 't', 'e', ' ', 'a', 'g', 'o']), (['l', 'a', 's', 't', ' ', 'm', 'o', 'n', 't', 'h'], ['1', ' ', 'm', 'o', 'n', 't', 'h', ' ', 'a', 'g', 'o']), (['n', 'e', 'x', 't', ' ', 'm', 'o', 'n', 't', 'h'], ['i', 'n', ' ', '1', ' ', 'm', 'o', 'n', 't', 'h']), (['t', 'h', 'i', 's', ' ', 'm', 'o', 'n', 't', 'h'], ['0', ' ', 'm', 'o', 'n', 't', 'h', ' ', 'a', 'g', 'o']), (['l', 'a', 's', 't', ' ', 'w', 'e', 'e', 'k'], ['1', ' ', 'w', 'e', 'e', 'k', ' ', 'a', 'g', 'o']), (['l', 'a', 's', 't', ' ', 'y', 'e', 'a', 'r'], ['1', ' ', 'y', 'e', 'a', 'r', ' ', 'a', 'g', 'o']), (['n', 'e', 'x', 't', ' ', 'w', 'e', 'e', 'k'], ['i', 'n', ' ', '1', ' ', 'w', 'e', 'e', 'k']), (['n', 'e', 'x', 't', ' ', 'y', 'e', 'a', 'r'], ['i', 'n', ' ', '1', ' ', 'y', 'e', 'a', 'r']), (['t', 'h', 'i', 's', ' ', 'h', 'o', 'u', 'r'], ['0', ' ', 'h', 'o', 'u', 'r', ' ', 'a', 'g', 'o']), (['t', 'h', 'i', 's', ' ', 'w', 'e', 'e', 'k'], ['0', ' ', 'w', 'e', 'e', 'k', ' ', 'a', 'g', 'o']), (['t', 'h', 'i', 's', ' ', 'y', 'e', 'a', 'r'], ['0', ' ', 'y', 'e', 'a', 'r', ' ', 'a', 'g', 'o']), (['y', 'e', 's', 't', 'e', 'r', 'd', 'a', 'y'], ['1', ' ', 'd', 'a', 'y', ' ', 'a', 'g', 'o']), (['t', 'o', 'm', 'o', 'r', 'r', 'o', 'w'], ['i', 'n', ' ', '1', ' ', 'd', 'a', 'y']), (['t', 'o', 'd', 'a', 'y'], ['0', ' ', 'd', 'a', 'y', ' ', 'a', 'g', 'o']), (['n', 'o', 'w'], ['0', ' ', 's', 'e', 'c', 'o', 'n', 'd', ' ', 'a', 'g', 'o'])]

/-- internal/data/ha.go: `ha_Locale`, dictionary. -/
def haDict : LangData where
  name := ['h', 'a']
  translations := [(['f', 'a', 'b', 'u', 'r', 'a', 'i', 'r', 'u'], [['f', 'e', 'b', 'r', 'u', 'a', 'r', 'y']]), (['a', 'f', 'i', 'r', 'i', 'l', 'u'], [['a', 'p', 'r', 'i', 'l']]), (['a', 'l', 'h', 'a', 'm', 'i', 's'], [['t', 'h', 'u', 'r', 's', 'd', 'a', 'y']]), (['d', 'i', 's', 'a', 'm', 'b', 'a'], [['d', 'e', 'c', 'e', 'm', 'b', 'e', 'r']]), (['j', 'a', 'n', 'a', 'i', 'r', 'u'], [['j', 'a', 'n', 'u', 'a', 'r', 'y']]), (['j', 'u', 'm', 'm', 'a', '\'', 'a'], [['f', 'r', 'i', 'd', 'a', 'y']]), (['l', 'i', 't', 'i', 'n', 'i', 'n'], [['m', 'o', 'n', 'd', 'a', 'y']]), (['n', 'u', 'w', 'a', 'm', 'b', 'a'], [['n', 'o', 'v', 'e', 'm', 'b', 'e', 'r']]), (['s', 'a', 't', 'u', 'm', 'b', 'a'], [['s', 'e', 'p', 't', 'e', 'm', 'b', 'e', 'r']]), (['s', 'h', 'e', 'k', 'a', 'r', 'a'], [['y', 'e', 'a', 'r']]), (['a', 'g', 'u', 's', 't', 'a'], [['a', 'u', 'g', 'u', 's', 't']]), (['a', 's', 'a', 'b', 'a', 'r'], [['s', 'a', 't', 'u', 'r', 'd', 'a', 'y']]), (['d', 'a', 'ƙ', 'i', 'ƙ', 'a'], [['s', 'e', 'c', 'o', 'n', 'd']]), (['l', 'a', 'h', 'a', 'd', 'i'], [['s', 'u', 'n', 'd', 'a', 'y']]), (['l', 'a', 'r', 'a', 'b', 'a'], [['w', 'e', 'd', 'n', 'e', 's', 'd', 'a', 'y']]), (['o', 'k', 't', 'o', 'b', 'a'], [['o', 'c', 't', 'o', 'b', 'e', 'r']]), (['t', 'a', 'l', 'a', 't', 'a'], [['t', 'u', 'e', 's', 'd', 'a', 'y']]), (['k', 'w', 'a', 'n', 'a'], [['d', 'a', 'y']]), (['m', 'a', 'r', 'i', 's'], [['m', 'a', 'r', 'c', 'h']]), (['m', 'i', 'n', 't', 'i'], [['m', 'i', 'n', 'u', 't', 'e']]), (['m', 'a', 'k', 'o'], [['w', 'e', 'e', 'k']]), (['m', 'a', 'y', 'u'], [['m', 'a', 'y']]), (['w', 'a', 't', 'a'], [['m', 'o', 'n', 't', 'h']]), (['y', 'u', 'l', 'i'], [['j', 'u', 'l', 'y']]), (['y', 'u', 'n', 'i'], [['j', 'u', 'n', 'e']]), (['a', 'f', 'i'], [['a', 'p', 'r', 'i', 'l']]), (['a', 'g', 'u'], [['a', 'u', 'g', 'u', 's', 't']]), (['a', 'l', 'h'], [['t', 'h', 'u', 'r', 's', 'd', 'a', 'y']]), (['a', 's', 'a'], [['s', 'a', 't', 'u', 'r', 'd', 'a', 'y']]), (['a', 'w', 'a'], [['h', 'o', 'u', 'r']]), (['d', 'i', 's'], [['d', 'e', 'c', 'e', 'm', 'b', 'e', 'r']]), (['f', 'a', 'b'], [['f', 'e', 'b', 'r', 'u', 'a', 'r', 'y']]), (['g', 'm', 't'], [['g', 'm', 't']]), (['j', 'a', 'n'], [['j', 'a', 'n', 'u', 'a', 'r', 'y']]), (['j', 'u', 'm'], [['f', 'r', 'i', 'd', 'a', 'y']]), (['l', 'a', 'h'], [['s', 'u', 'n', 'd', 'a', 'y']]), (['l', 'a', 'r'], [['w', 'e', 'd', 'n', 'e', 's', 'd', 'a', 'y']]), (['l', 'i', 't'], [['m', 'o', 'n', 'd', 'a', 'y']]), (['m', 'a', 'r'], [['m', 'a', 'r', 'c', 'h']]), (['m', 'a', 'y'], [['m', 'a', 'y']]), (['n', 'u', 'w'], [['n', 'o', 'v', 'e', 'm', 'b', 'e', 'r']]), (['o', 'k', 't'], [['o', 'c', 't', 'o', 'b', 'e', 'r']]), (['s', 'a', 't'], [['s', 'e', 'p', 't', 'e', 'm', 'b', 'e', 'r']]), (['t', 'a', 'l'], [['t', 'u', 'e', 's', 'd', 'a', 'y']]), (['u', 't', 'c'], [['u', 't', 'c']]), (['y', 'u', 'l'], [['j', 'u', 'l', 'y']]), (['y', 'u', 'n'], [['j', 'u', 'n', 'e']]), (['a', 'm'], [['a', 'm']]), (['p', 'm'], [['p', 'm']]), ([' '], [[' ']]), (['\''], [[]]), (['+'], [['+']]), ([','], [[]]), (['-'], [['-']]), (['.'], [['.']]), (['/'], [['/']]), ([':'], [[':']]), ([';'], [[]]), (['@'], [[]]), (['['], [[]]), ([']'], [[]]), (['z'], [['z']]), (['|'], [[]])]
  relativeType := [(['t', 'h', 'i', 's', ' ', 'm', 'i', 'n', 'u', 't', 'e'], ['0', ' ', 'm', 'i', 'n', 'u', 't', 'e', ' ', 'a', 'g', 'o']), (['l', 'a', 's', 't', ' ', 'm', 'o', 'n', 't', 'h'], ['1', ' ', 'm', 'o', 'n', 't', 'h', ' ', 'a', 'g', 'o']), (['n', 'e', 'x', 't', ' ', 'm', 'o', 'n', 't', 'h'], ['i', 'n', ' ', '1', ' ', 'm', 'o', 'n', 't', 'h']), (['t', 'h', 'i', 's', ' ', 'm', 'o', 'n', 't', 'h'], ['0', ' ', 'm', 'o', 'n', 't', 'h', ' ', 'a', 'g', 'o']), (['l', 'a', 's', 't', ' ', 'w', 'e', 'e', 'k'], ['1', ' ', 'w', 'e', 'e', 'k', ' ', 'a', 'g', 'o']), (['l', 'a', 's', 't', ' ', 'y', 'e', 'a', 'r'], ['1', ' ', 'y', 'e', 'a', 'r', ' ', 'a', 'g', 'o']), (['n', 'e', 'x', 't', ' ', 'w', 'e', 'e', 'k'], ['i', 'n', ' ', '1', ' ', 'w', 'e', 'e', 'k']), (['n', 'e', 'x', 't', ' ', 'y', 'e', 'a', 'r'], ['i', 'n', ' ', '1', ' ', 'y', 'e', 'a', 'r']), (['t', 'h', 'i', 's', ' ', 'h', 'o', 'u', 'r'], ['0', ' ', 'h', 'o', 'u', 'r', ' ', 'a', 'g', 'o']), (['t', 'h', 'i', 's', ' ', 'w', 'e', 'e', 'k'], ['0', ' ', 'w', 'e', 'e', 'k', ' ', 'a', 'g', 'o']), (['t', 'h', 'i', 's', ' ', 'y', 'e', 'a', 'r'], ['0', ' ', 'y', 'e', 'a', 'r', ' ', 'a', 'g', 'o']), (['g', 'o', 'b', 'e'], ['i', 'n', ' ', '1', ' ', 'd', 'a', 'y']), (['j', 'i', 'y', 'a'], ['1', ' ', 'd', 'a', 'y', ' ', 'a', 'g', 'o']), (['n', 'o', 'w'], ['0', ' ', 's', 'e', 'c', 'o', 'n', 'd', ' ', 'a', 'g', 'o']), (['y', 'a', 'u'], ['0', ' ', 'd', 'a', 'y', ' ', 'a', 'g', 'o'])]

/-- internal/data/ha.go: `ha_GH_Locale`, dictionary. -/
def ha_GHDict : LangData where
  name := ['h', 'a', '-', 'G', 'H']

/-- internal/data/ha.go: `ha_NE_Locale`, dictionary. -/
def ha_NEDict : LangData where
  name := ['h', 'a', '-', 'N', 'E']

/-- internal/data/haw.go: `haw_Locale`, dictionary. -/
def hawDict : LangData where
  name := ['h', 'a', 'w']
  translations := [(['k', 'e', 'p', 'a', 'k', 'e', 'm', 'a', 'p', 'a'], [['s', 'e', 'p', 't', 'e', 'm', 'b', 'e', 'r']]), (['p', 'e', 'p', 'e', 'l', 'u', 'a', 'l', 'i'], [['f', 'e', 'b', 'r', 'u', 'a', 'r', 'y']]), (['\'', 'a', 'p', 'e', 'l', 'i', 'l', 'a'], [['a', 'p', 'r', 'i', 'l']]), (['\'', 'o', 'k', 'a', 'k', 'o', 'p', 'a'], [['o', 'c', 't', 'o', 'b', 'e', 'r']]), (['k', 'e', 'k', 'e', 'm', 'a', 'p', 'a'], [['d', 'e', 'c', 'e', 'm', 'b', 'e', 'r']]), (['n', 'o', 'w', 'e', 'm', 'a', 'p', 'a'], [['n', 'o', 'v', 'e', 'm', 'b', 'e', 'r']]), (['p', 'o', '\'', 'a', 'k', 'a', 'h', 'i'], [['m', 'o', 'n', 'd', 'a', 'y']]), (['p', 'o', '\'', 'a', 'k', 'o', 'l', 'u'], [['w', 'e', 'd', 'n', 'e', 's', 'd', 'a', 'y']]), (['p', 'o', '\'', 'a', 'l', 'i', 'm', 'a'], [['f', 'r', 'i', 'd', 'a', 'y']]), (['\'', 'a', 'u', 'k', 'a', 'k', 'e'], [['a', 'u', 'g', 'u', 's', 't']]), (['i', 'a', 'n', 'u', 'a', 'l', 'i'], [['j', 'a', 'n', 'u', 'a', 'r', 'y']]), (['p', 'o', '\'', 'a', 'l', 'u', 'a'], [['t', 'u', 'e', 's', 'd', 'a', 'y']]), (['p', 'o', '\'', 'a', 'o', 'n', 'o'], [['s', 'a', 't', 'u', 'r', 'd', 'a', 'y']]), (['l', 'a', 'p', 'u', 'l', 'e'], [['s', 'u', 'n', 'd', 'a', 'y']]), (['m', 'a', 'l', 'a', 'k', 'i'], [['m', 'a', 'r', 'c', 'h']]), (['m', 'i', 'n', 'u', 't', 'e'], [['m', 'i', 'n', 'u', 't', 'e']]), (['p', 'o', '\'', 'a', 'h', 'a'], [['t', 'h', 'u', 'r', 's', 'd', 'a', 'y']]), (['s', 'e', 'c', 'o', 'n', 'd'], [['s', 'e', 'c', 'o', 'n', 'd']]), (['i', 'u', 'l', 'a', 'i'], [['j', 'u', 'l', 'y']]), (['m', 'o', 'n', 't', 'h'], [['m', 'o', 'n', 't', 'h']]), (['h', 'o', 'u', 'r'], [['h', 'o', 'u', 'r']]), (['i', 'u', 'n', 'e'], [['j', 'u', 'n', 'e']]), (['w', 'e', 'e', 'k'], [['w', 'e', 'e', 'k']]), (['y', 'e', 'a', 'r'], [['y', 'e', 'a', 'r']]), (['\'', 'a', 'p'], [['a', 'p', 'r', 'i', 'l']]), (['\'', 'a', 'u'], [['a', 'u', 'g', 'u', 's', 't']]), (['\'', 'o', 'k'], [['o', 'c', 't', 'o', 'b', 'e', 'r']]), (['d', 'a', 'y'], [['d', 'a', 'y']]), (['g', 'm', 't'], [['g', 'm', 't']]), (['i', 'a', 'n'], [['j', 'a', 'n', 'u', 'a', 'r', 'y']]), (['i', 'u', 'l'], [['j', 'u', 'l', 'y']]), (['i', 'u', 'n'], [['j', 'u', 'n', 'e']]), (['k', 'e', 'k'], [['d', 'e', 'c', 'e', 'm', 'b', 'e', 'r']]), (['k', 'e', 'p'], [['s', 'e', 'p', 't', 'e', 'm', 'b', 'e', 'r']]), (['m', 'a', 'l'], [['m', 'a', 'r', 'c', 'h']]), (['m', 'e', 'i'], [['m', 'a', 'y']]), (['n', 'o', 'w'], [['n', 'o', 'v', 'e', 'm', 'b', 'e', 'r']]), (['p', 'e', 'p'], [['f', 'e', 'b', 'r', 'u', 'a', 'r', 'y']]), (['u', 't', 'c'], [['u', 't', 'c']]), (['a', 'm'], [['a', 'm']]), (['l', 'p'], [['s', 'u', 'n', 'd', 'a', 'y']]), (['p', '1'], [['m', 'o', 'n', 'd', 'a', 'y']]), (['p', '2'], [['t', 'u', 'e', 's', 'd', 'a', 'y']]), (['p', '3'], [['w', 'e', 'd', 'n', 'e', 's', 'd', 'a', 'y']]), (['p', '4'], [['t', 'h', 'u', 'r', 's', 'd', 'a', 'y']]), (['p', '5'], [['f', 'r', 'i', 'd', 'a', 'y']]), (['p', '6'], [['s', 'a', 't', 'u', 'r', 'd', 'a', 'y']]), (['p', 'm'], [['p', 'm']]), ([' '], [[' ']]), (['\''], [[]]), (['+'], [['+']]), ([','], [[]]), (['-'], [['-']]), (['.'], [['.']]), (['/'], [['/']]), ([':'], [[':']]), ([';'], [[]]), (['@'], [[]]), (['['], [[]]), ([']'], [[]]), (['z'], [['z']]), (['|'], [[]])]
  relativeType := [(['t', 'h', 'i', 's', ' ', 'm', 'i', 'n', 'u', 't', 'e'], ['0', ' ', 'm', 'i', 'n', 'u', 't', 'e', ' ', 'a', 'g', 'o']), (['l', 'a', 's', 't', ' ', 'm', 'o', 'n', 't', 'h'], ['1', ' ', 'm', 'o', 'n', 't', 'h', ' ', 'a', 'g', 'o']), (['n', 'e', 'x', 't', ' ', 'm', 'o', 'n', 't', 'h'], ['i', 'n', ' ', '1', ' ', 'm', 'o', 'n', 't', 'h']), (['t', 'h', 'i', 's', ' ', 'm', 'o', 'n', 't', 'h'], ['0', ' ', 'm', 'o', 'n', 't', 'h', ' ', 'a', 'g', 'o']), (['l', 'a', 's', 't', ' ', 'w', 'e', 'e', 'k'], ['1', ' ', 'w', 'e', 'e', 'k', ' ', 'a', 'g', 'o']), (['l', 'a', 's', 't', ' ', 'y', 'e', 'a', 'r'], ['1', ' ', 'y', 'e', 'a', 'r', ' ', 'a', 'g', 'o']), (['n', 'e', 'x', 't', ' ', 'w', 'e', 'e', 'k'], ['i', 'n', ' ', '1', ' ', 'w', 'e', 'e', 'k']), (['n', 'e', 'x', 't', ' ', 'y', 'e', 'a', 'r'], ['i', 'n', ' ', '1', ' ', 'y', 'e', 'a', 'r']), (['t', 'h', 'i', 's', ' ', 'h', 'o', 'u', 'r'], ['0', ' ', 'h', 'o', 'u', 'r', ' ', 'a', 'g', 'o']), (['t', 'h', 'i', 's', ' ', 'w', 'e', 'e', 'k'], ['0', ' ', 'w', 'e', 'e', 'k', ' ', 'a', 'g', 'o']), (['t', 'h', 'i', 's', ' ', 'y', 'e', 'a', 'r'], ['0', ' ', 'y', 'e', 'a', 'r', ' ', 'a', 'g', 'o']), (['y', 'e', 's', 't', 'e', 'r', 'd', 'a', 'y'], ['1', ' ', 'd', 'a', 'y', ' ', 'a', 'g', 'o']), (['t', 'o', 'm', 'o', 'r', 'r', 'o', 'w'], ['i', 'n', ' ', '1', ' ', 'd', 'a', 'y']), (['t', 'o', 'd', 'a', 'y'], ['0', ' ', 'd', 'a', 'y', ' ', 'a', 'g', 'o']), (['n', 'o', 'w'], ['0', ' ', 's', 'e', 'c', 'o', 'n', 'd', ' ', 'a', 'g', 'o'])]

/-- internal/data/he.go: `he_Locale`, dictionary. -/
def heDict : LangData where
  name := ['h', 'e']
  splitterGroup := 1
  translations := [(['י', 'ו', 'ם', ' ', 'ח', 'מ', 'י', 'ש', 'י'], [['t', 'h', 'u', 'r', 's', 'd', 'a', 'y']]), (['י', 'ו', 'ם', ' ', 'ר', 'א', 'ש', 'ו', 'ן'], [['s', 'u', 'n', 'd', 'a', 'y']]), (['י', 'ו', 'ם', ' ', 'ר', 'ב', 'י', 'ע', 'י'], [['w', 'e', 'd', 'n', 'e', 's', 'd', 'a', 'y']]), (['י', 'ו', 'ם', ' ', 'ש', 'ל', 'י', 'ש', 'י'], [['t', 'u', 'e', 's', 'd', 'a', 'y']]), (['ב', 'א', 'ו', 'ק', 'ט', 'ו', 'ב', 'ר'], [['o', 'c', 't', 'o', 'b', 'e', 'r']]), (['י', 'ו', 'ם', ' ', 'ש', 'י', 'ש', 'י'], [['f', 'r', 'i', 'd', 'a', 'y']]), (['ל', 'א', 'ו', 'ק', 'ט', 'ו', 'ב', 'ר'], [['o', 'c', 't', 'o', 'b', 'e', 'r']]), (['א', 'ו', 'ק', 'ט', 'ו', 'ב', 'ר'], [['o', 'c', 't', 'o', 'b', 'e', 'r']]), (['ב', 'א', 'ו', 'ג', 'ו', 'ס', 'ט'], [['a', 'u', 'g', 'u', 's', 't']]), (['ב', 'נ', 'ו', 'ב', 'מ', 'ב', 'ר'], [['n', 'o', 'v', 'e', 'm', 'b', 'e', 'r']]), (['ב', 'ס', 'ב', 'י', 'ב', 'ו', 'ת'], [[]]), (['ב', 'ס', 'פ', 'ט', 'מ', 'ב', 'ר'], [['s', 'e', 'p', 't', 'e', 'm', 'b', 'e', 'r']]), (['ב', 'פ', 'ב', 'ר', 'ו', 'א', 'ר'], [['f', 'e', 'b', 'r', 'u', 'a', 'r', 'y']]), (['י', 'ו', 'ם', ' ', 'ש', 'ב', 'ת'], [['s', 'a', 't', 'u', 'r', 'd', 'a', 'y']]), (['י', 'ו', 'ם', ' ', 'ש', 'נ', 'י'], [['m', 'o', 'n', 'd', 'a', 'y']]), (['ל', 'א', 'ו', 'ג', 'ו', 'ס', 'ט'], [['a', 'u', 'g', 'u', 's', 't']]), (['ל', 'נ', 'ו', 'ב', 'מ', 'ב', 'ר'], [['n', 'o', 'v', 'e', 'm', 'b', 'e', 'r']]), (['ל', 'ס', 'פ', 'ט', 'מ', 'ב', 'ר'], [['s', 'e', 'p', 't', 'e', 'm', 'b', 'e', 'r']]), (['ל', 'פ', 'ב', 'ר', 'ו', 'א', 'ר'], [['f', 'e', 'b', 'r', 'u', 'a', 'r', 'y']]), (['א', 'ו', 'ג', 'ו', 'ס', 'ט'], [['a', 'u', 'g', 'u', 's', 't']]), (['ב', 'א', 'פ', 'ר', 'י', 'ל'], [['a', 'p', 'r', 'i', 'l']]), (['ב', 'ד', 'צ', 'מ', 'ב', 'ר'], [['d', 'e', 'c', 'e', 'm', 'b', 'e', 'r']]), (['ב', 'י', 'נ', 'ו', 'א', 'ר'], [['j', 'a', 'n', 'u', 'a', 'r', 'y']]), (['ב', 'ק', 'י', 'ר', 'ו', 'ב'], [[]]), (['ח', 'ו', 'ד', 'ש', 'י', 'ם'], [['m', 'o', 'n', 't', 'h']]), (['י', 'ו', 'ם', ' ', 'א', '׳'], [['s', 'u', 'n', 'd', 'a', 'y']]), (['י', 'ו', 'ם', ' ', 'ב', '׳'], [['m', 'o', 'n', 'd', 'a', 'y']]), (['י', 'ו', 'ם', ' ', 'ג', '׳'], [['t', 'u', 'e', 's', 'd', 'a', 'y']]), (['י', 'ו', 'ם', ' ', 'ד', '׳'], [['w', 'e', 'd', 'n', 'e', 's', 'd', 'a', 'y']]), (['י', 'ו', 'ם', ' ', 'ה', '׳'], [['t', 'h', 'u', 'r', 's', 'd', 'a', 'y']]), (['י', 'ו', 'ם', ' ', 'ו', '׳'], [['f', 'r', 'i', 'd', 'a', 'y']]), (['ל', 'א', 'פ', 'ר', 'י', 'ל'], [['a', 'p', 'r', 'i', 'l']]), (['ל', 'ד', 'צ', 'מ', 'ב', 'ר'], [['d', 'e', 'c', 'e', 'm', 'b', 'e', 'r']]), (['ל', 'י', 'נ', 'ו', 'א', 'ר'], [['j', 'a', 'n', 'u', 'a', 'r', 'y']]), (['ל', 'פ', 'נ', 'ה', '״', 'צ'], [['a', 'm']]), (['נ', 'ו', 'ב', 'מ', 'ב', 'ר'], [['n', 'o', 'v', 'e', 'm', 'b', 'e', 'r']]), (['ס', 'פ', 'ט', 'מ', 'ב', 'ר'], [['s', 'e', 'p', 't', 'e', 'm', 'b', 'e', 'r']]), (['פ', 'ב', 'ר', 'ו', 'א', 'ר'], [['f', 'e', 'b', 'r', 'u', 'a', 'r', 'y']]), (['ש', 'ב', 'ו', 'ע', 'ו', 'ת'], [['w', 'e', 'e', 'k']]), (['א', 'ח', 'ה', '״', 'צ'], [['p', 'm']]), (['א', 'פ', 'ר', 'י', 'ל'], [['a', 'p', 'r', 'i', 'l']]), (['ב', 'ח', 'ו', 'ד', 'ש'], [['m', 'o', 'n', 't', 'h']]), (['ב', 'י', 'ו', 'ל', 'י'], [['j', 'u', 'l', 'y']]), (['ב', 'י', 'ו', 'נ', 'י'], [['j', 'u', 'n', 'e']]), (['ב', 'מ', 'א', 'ר', 'ס'], [['m', 'a', 'r', 'c', 'h']]), (['ד', 'צ', 'מ', 'ב', 'ר'], [['d', 'e', 'c', 'e', 'm', 'b', 'e', 'r']]), (['ח', 'מ', 'י', 'ש', 'י'], [['t', 'h', 'u', 'r', 's', 'd', 'a', 'y']]), (['י', 'ו', 'ם', ' ', 'א'], [['s', 'u', 'n', 'd', 'a', 'y']]), (['י', 'ו', 'ם', ' ', 'ב'], [['m', 'o', 'n', 'd', 'a', 'y']]), (['י', 'ו', 'ם', ' ', 'ג'], [['t', 'u', 'e', 's', 'd', 'a', 'y']]), (['י', 'ו', 'ם', ' ', 'ד'], [['w', 'e', 'd', 'n', 'e', 's', 'd', 'a', 'y']]), (['י', 'ו', 'ם', ' ', 'ה'], [['t', 'h', 'u', 'r', 's', 'd', 'a', 'y']]), (['י', 'ו', 'ם', ' ', 'ו'], [['f', 'r', 'i', 'd', 'a', 'y']]), (['י', 'נ', 'ו', 'א', 'ר'], [['j', 'a', 'n', 'u', 'a', 'r', 'y']]), (['ל', 'י', 'ו', 'ל', 'י'], [['j', 'u', 'l', 'y']]), (['ל', 'י', 'ו', 'נ', 'י'], [['j', 'u', 'n', 'e']]), (['ל', 'מ', 'א', 'ר', 'ס'], [['m', 'a', 'r', 'c', 'h']]), (['ר', 'א', 'ש', 'ו', 'ן'], [['s', 'u', 'n', 'd', 'a', 'y']]), (['ר', 'ב', 'י', 'ע', 'י'], [['w', 'e', 'd', 'n', 'e', 's', 'd', 'a', 'y']]), (['ש', 'ל', 'י', 'ש', 'י'], [['t', 'u', 'e', 's', 'd', 'a', 'y']]), (['ש', 'נ', 'י', 'ו', 'ת'], [['s', 'e', 'c', 'o', 'n', 'd']]), (['ש', 'נ', 'י', 'י', 'ה'], [['s', 'e', 'c', 'o', 'n', 'd']]), (['א', 'ו', 'ג', '׳'], [['a', 'u', 'g', 'u', 's', 't']]), (['א', 'ו', 'ק', '׳'], [['o', 'c', 't', 'o', 'b', 'e', 'r']]), (['א', 'פ', 'ר', '׳'], [['a', 'p', 'r', 'i', 'l']]), (['ב', 'י', 'ו', 'ם'], [['d', 'a', 'y']]), (['ב', 'מ', 'א', 'י'], [['m', 'a', 'y']]), (['ב', 'מ', 'ר', 'ס'], [['m', 'a', 'r', 'c', 'h']]), (['ב', 'מ', 'ר', 'ץ'], [['m', 'a', 'r', 'c', 'h']]), (['ב', 'ע', 'ו', 'ד'], [['i', 'n']]), (['ב', 'ע', 'ר', 'ך'], [[]]), (['ב', 'ש', 'נ', 'ה'], [['y', 'e', 'a', 'r']]), (['ב', 'ש', 'ע', 'ה'], [[]]), (['ד', 'צ', 'מ', '׳'], [['d', 'e', 'c', 'e', 'm', 'b', 'e', 'r']]), (['ד', 'ק', 'ו', 'ת'], [['m', 'i', 'n', 'u', 't', 'e']]), (['ח', 'ו', 'ד', 'ש'], [['m', 'o', 'n', 't', 'h']]), (['י', 'ו', 'ל', 'י'], [['j', 'u', 'l', 'y']]), (['י', 'ו', 'נ', 'י'], [['j', 'u', 'n', 'e']]), (['י', 'מ', 'י', 'ם'], [['d', 'a', 'y']]), (['י', 'נ', 'ו', '׳'], [['j', 'a', 'n', 'u', 'a', 'r', 'y']]), (['ל', 'מ', 'א', 'י'], [['m', 'a', 'y']]), (['ל', 'מ', 'ר', 'ס'], [['m', 'a', 'r', 'c', 'h']]), (['ל', 'מ', 'ר', 'ץ'], [['m', 'a', 'r', 'c', 'h']]), (['ל', 'פ', 'נ', 'י'], [['a', 'g', 'o']]), (['מ', 'א', 'ר', 'ס'], [['m', 'a', 'r', 'c', 'h']]), (['נ', 'ו', 'ב', '׳'], [['n', 'o', 'v', 'e', 'm', 'b', 'e', 'r']]), (['ס', 'פ', 'ט', '׳'], [['s', 'e', 'p', 't', 'e', 'm', 'b', 'e', 'r']]), (['פ', 'ב', 'ר', '׳'], [['f', 'e', 'b', 'r', 'u', 'a', 'r', 'y']]), (['ש', 'ב', 'ו', 'ע'], [['w', 'e', 'e', 'k']]), (['ש', 'י', 'ש', 'י'], [['f', 'r', 'i', 'd', 'a', 'y']]), (['ש', 'נ', 'י', 'ה'], [['s', 'e', 'c', 'o', 'n', 'd']]), (['ש', 'נ', 'י', 'ם'], [['y', 'e', 'a', 'r']]), (['ש', 'ע', 'ו', 'ת'], [['h', 'o', 'u', 'r']]), (['g', 'm', 't'], [['g', 'm', 't']]), (['u', 't', 'c'], [['u', 't', 'c']]), (['א', 'ו', 'ג'], [['a', 'u', 'g', 'u', 's', 't']]), (['א', 'ו', 'ק'], [['o', 'c', 't', 'o', 'b', 'e', 'r']]), (['א', 'פ', 'ר'], [['a', 'p', 'r', 'i', 'l']]), (['ד', 'צ', 'מ'], [['d', 'e', 'c', 'e', 'm', 'b', 'e', 'r']]), (['ד', 'ק', 'ה'], [['m', 'i', 'n', 'u', 't', 'e']]), (['ד', 'ק', '׳'], [['m', 'i', 'n', 'u', 't', 'e']]), (['ח', 'ו', '׳'], [['m', 'o', 'n', 't', 'h']]), (['י', 'ו', 'ל'], [['j', 'u', 'l', 'y']]), (['י', 'ו', 'ם'], [['d', 'a', 'y']]), (['י', 'ו', 'נ'], [['j', 'u', 'n', 'e']]), (['י', 'נ', 'ו'], [['j', 'a', 'n', 'u', 'a', 'r', 'y']]), (['מ', 'א', 'י'], [['m', 'a', 'y']]), (['מ', 'ר', 'ס'], [['m', 'a', 'r', 'c', 'h']]), (['מ', 'ר', 'ץ'], [['m', 'a', 'r', 'c', 'h']]), (['נ', 'ו', 'ב'], [['n', 'o', 'v', 'e', 'm', 'b', 'e', 'r']]), (['ס', 'פ', 'ט'], [['s', 'e', 'p', 't', 'e', 'm', 'b', 'e', 'r']]), (['ע', 'ו', 'ד'], [['i', 'n']]), (['פ', 'ב', 'ר'], [['f', 'e', 'b', 'r', 'u', 'a', 'r', 'y']]), (['ש', 'ב', 'ת'], [['s', 'a', 't', 'u', 'r', 'd', 'a', 'y']]), (['ש', 'ב', '׳'], [['w', 'e', 'e', 'k']]), (['ש', 'נ', 'ה'], [['y', 'e', 'a', 'r']]), (['ש', 'נ', 'י'], [['m', 'o', 'n', 'd', 'a', 'y']]), (['ש', 'נ', '׳'], [['y', 'e', 'a', 'r'], ['s', 'e', 'c', 'o', 'n', 'd']]), (['ש', 'ע', 'ה'], [['h', 'o', 'u', 'r']]), (['ש', 'ע', '׳'], [['h', 'o', 'u', 'r']]), (['a', 'm'], [['a', 'm']]), (['p', 'm'], [['p', 'm']]), (['ב', '-'], [[]]), (['ה', '-'], [[]]), ([' '], [[' ']]), (['\''], [[]]), (['+'], [['+']]), ([','], [[]]), (['-'], [['-']]), (['.'], [['.']]), (['/'], [['/']]), ([':'], [[':']]), ([';'], [[]]), (['@'], [[]]), (['['], [[]]), ([']'], [[]]), (['z'], [['z']]), (['|'], [[]])]
  relativeType := [(['ה', 'ח', 'ו', 'ד', 'ש', ' ', 'ש', 'ע', 'ב', 'ר'], ['1', ' ', 'm', 'o', 'n', 't', 'h', ' ', 'a', 'g', 'o']), (['ה', 'ש', 'ב', 'ו', 'ע', ' ', 'ש', 'ע', 'ב', 'ר'], ['1', ' ', 'w', 'e', 'e', 'k', ' ', 'a', 'g', 'o']), (['ה', 'ש', 'נ', 'ה', ' ', 'ש', 'ע', 'ב', 'ר', 'ה'], ['1', ' ', 'y', 'e', 'a', 'r', ' ', 'a', 'g', 'o']), (['ה', 'ח', 'ו', 'ד', 'ש', ' ', 'ה', 'ב', 'א'], ['i', 'n', ' ', '1', ' ', 'm', 'o', 'n', 't', 'h']), (['ה', 'ש', 'ב', 'ו', 'ע', ' ', 'ה', 'ב', 'א'], ['i', 'n', ' ', '1', ' ', 'w', 'e', 'e', 'k']), (['ה', 'ש', 'נ', 'ה', ' ', 'ה', 'ב', 'א', 'ה'], ['i', 'n', ' ', '1', ' ', 'y', 'e', 'a', 'r']), (['ב', 'ד', 'ק', 'ה', ' ', 'ז', 'ו'], ['0', ' ', 'm', 'i', 'n', 'u', 't', 'e', ' ', 'a', 'g', 'o']), (['ב', 'ש', 'ע', 'ה', ' ', 'ז', 'ו'], ['0', ' ', 'h', 'o', 'u', 'r', ' ', 'a', 'g', 'o']), (['א', 'ת', 'מ', 'ו', 'ל'], ['1', ' ', 'd', 'a', 'y', ' ', 'a', 'g', 'o']), (['ה', 'ח', 'ו', 'ד', 'ש'], ['0', ' ', 'm', 'o', 'n', 't', 'h', ' ', 'a', 'g', 'o']), (['ה', 'ש', 'ב', 'ו', 'ע'], ['0', ' ', 'w', 'e', 'e', 'k', ' ', 'a', 'g', 'o']), (['ע', 'כ', 'ש', 'י', 'ו'], ['0', ' ', 's', 'e', 'c', 'o', 'n', 'd', ' ', 'a', 'g', 'o']), (['ה', 'י', 'ו', 'ם'], ['0', ' ', 'd', 'a', 'y', ' ', 'a', 'g', 'o']), (['ה', 'ש', 'נ', 'ה'], ['0', ' ', 'y', 'e', 'a', 'r', ' ', 'a', 'g', 'o']), (['מ', 'ח', 'ר'], ['i', 'n', ' ', '1', ' ', 'd', 'a', 'y'])]

/-- internal/data/hi.go: `hi_Locale`, dictionary. -/
def hiDict : LangData where
  name := ['h', 'i']
  splitterGroup := 3
  translations := [(['अ', 'प', 'र', 'ा', 'ह', 'न'], [['p', 'm']]), (['द', 'ि', 'स', 'म', 'ब', 'र'], [['d', 'e', 'c', 'e', 'm', 'b', 'e', 'r']]), (['प', 'र', 'व', 'ा', 'ह', 'न'], [['a', 'm']]), (['म', 'ग', 'ल', 'व', 'ा', 'र'], [['t', 'u', 'e', 's', 'd', 'a', 'y']]), (['र', 'व', 'ि', 'व', 'ा', 'र'], [['s', 'u', 'n', 'd', 'a', 'y']]), (['श', 'क', 'र', 'व', 'ा', 'र'], [['f', 'r', 'i', 'd', 'a', 'y']]), (['श', 'न', 'ि', 'व', 'ा', 'र'], [['s', 'a', 't', 'u', 'r', 'd', 'a', 'y']]), (['स', 'ि', 'त', 'म', 'ब', 'र'], [['s', 'e', 'p', 't', 'e', 'm', 'b', 'e', 'r']]), (['स', 'ो', 'म', 'व', 'ा', 'र'], [['m', 'o', 'n', 'd', 'a', 'y']]), (['अ', 'क', 'ट', 'ब', 'र'], [['o', 'c', 't', 'o', 'b', 'e', 'r']]), (['अ', 'क', 'त', 'ब', 'र'], [['o', 'c', 't', 'o', 'b', 'e', 'r']]), (['ग', 'र', 'व', 'ा', 'र'], [['t', 'h', 'u', 'r', 's', 'd', 'a', 'y']]), (['ज', 'न', 'व', 'र', 'ी'], [['j', 'a', 'n', 'u', 'a', 'r', 'y']]), (['द', 'ि', 'स', 'ब', 'र'], [['d', 'e', 'c', 'e', 'm', 'b', 'e', 'r']]), (['न', 'व', 'म', 'ब', 'र'], [['n', 'o', 'v', 'e', 'm', 'b', 'e', 'r']]), (['फ', 'र', 'व', 'र', 'ी'], [['f', 'e', 'b', 'r', 'u', 'a', 'r', 'y']]), (['ब', 'ध', 'व', 'ा', 'र'], [['w', 'e', 'd', 'n', 'e', 's', 'd', 'a', 'y']]), (['म', 'ह', 'ी', 'न', 'ा'], [['m', 'o', 'n', 't', 'h']]), (['स', 'प', 'त', 'ा', 'ह'], [['w', 'e', 'e', 'k']]), (['स', 'ि', 'त', 'ब', 'र'], [['s', 'e', 'p', 't', 'e', 'm', 'b', 'e', 'r']]), (['अ', 'क', 'त', '॰'], [['o', 'c', 't', 'o', 'b', 'e', 'r']]), (['अ', 'ग', 'स', 'त'], [['a', 'u', 'g', 'u', 's', 't']]), (['अ', 'प', 'र', 'ल'], [['a', 'p', 'r', 'i', 'l']]), (['ज', 'ल', 'ा', 'ई'], [['j', 'u', 'l', 'y']]), (['द', 'ि', 'व', 'स'], [['d', 'a', 'y']]), (['द', 'ि', 'स', '॰'], [['d', 'e', 'c', 'e', 'm', 'b', 'e', 'r']]), (['न', 'व', 'ब', 'र'], [['n', 'o', 'v', 'e', 'm', 'b', 'e', 'r']]), (['म', 'ह', 'ी', 'न'], [['m', 'o', 'n', 't', 'h']]), (['म', 'ा', 'र', 'च'], [['m', 'a', 'r', 'c', 'h']]), (['म', 'ि', 'न', 'ट'], [['m', 'i', 'n', 'u', 't', 'e']]), (['व', 'र', 'ष', 'ो'], [['y', 'e', 'a', 'r']]), (['स', 'ि', 'त', '॰'], [['s', 'e', 'p', 't', 'e', 'm', 'b', 'e', 'r']]), (['g', 'm', 't'], [['g', 'm', 't']]), (['u', 't', 'c'], [['u', 't', 'c']]), (['अ', 'ग', '॰'], [['a', 'u', 'g', 'u', 's', 't']]), (['घ', 'ट', 'ा'], [['h', 'o', 'u', 'r']]), (['ज', 'न', '॰'], [['j', 'a', 'n', 'u', 'a', 'r', 'y']]), (['ज', 'ल', '॰'], [['j', 'u', 'l', 'y']]), (['द', 'श', 'क'], [['d', 'e', 'c', 'a', 'd', 'e']]), (['द', 'ि', 'न'], [['d', 'a', 'y']]), (['न', 'व', '॰'], [['n', 'o', 'v', 'e', 'm', 'b', 'e', 'r']]), (['प', 'र', 'व'], [['a', 'g', 'o']]), (['प', 'ह', 'ल'], [['a', 'g', 'o']]), (['फ', 'र', '॰'], [['f', 'e', 'b', 'r', 'u', 'a', 'r', 'y']]), (['ब', 'ा', 'द'], [['i', 'n']]), (['म', 'ग', 'ल'], [['t', 'u', 'e', 's', 'd', 'a', 'y']]), (['म', 'ा', 'स'], [['m', 'o', 'n', 't', 'h']]), (['म', 'ा', 'ह'], [['m', 'o', 'n', 't', 'h']]), (['र', 'व', 'ि'], [['s', 'u', 'n', 'd', 'a', 'y']]), (['व', 'र', 'ष'], [['y', 'e', 'a', 'r']]), (['श', 'क', 'र'], [['f', 'r', 'i', 'd', 'a', 'y']]), (['श', 'न', 'ि'], [['s', 'a', 't', 'u', 'r', 'd', 'a', 'y']]), (['स', 'क', 'ड'], [['s', 'e', 'c', 'o', 'n', 'd']]), (['स', 'ा', 'ल'], [['y', 'e', 'a', 'r']]), (['स', 'ो', 'म'], [['m', 'o', 'n', 'd', 'a', 'y']]), (['a', 'm'], [['a', 'm']]), (['p', 'm'], [['p', 'm']]), (['क', 'ो'], [[]]), (['ग', 'र'], [['t', 'h', 'u', 'r', 's', 'd', 'a', 'y']]), (['घ', 'ट'], [['h', 'o', 'u', 'r']]), (['ज', 'न'], [['j', 'u', 'n', 'e']]), (['ब', 'ज'], [[]]), (['ब', 'ध'], [['w', 'e', 'd', 'n', 'e', 's', 'd', 'a', 'y']]), (['म', 'ई'], [['m', 'a', 'y']]), (['म', 'ि'], [['m', 'i', 'n', 'u', 't', 'e']]), (['स', 'न'], [[]]), ([' '], [[' ']]), (['\''], [[]]), (['+'], [['+']]), ([','], [[]]), (['-'], [['-']]), (['.'], [['.']]), (['/'], [['/']]), ([':'], [[':']]), ([';'], [[]]), (['@'], [[]]), (['['], [[]]), ([']'], [[]]), (['z'], [['z']]), (['|'], [[]]), (['क'], [[]]), (['घ'], [['h', 'o', 'u', 'r']]), (['म'], [['i', 'n']]), (['स'], [[]])]
  relativeType := [(['प', 'ि', 'छ', 'ल', 'ा', ' ', 'स', 'प', 'त', 'ा', 'ह'], ['1', ' ', 'w', 'e', 'e', 'k', ' ', 'a', 'g', 'o']), (['अ', 'ग', 'ल', 'ा', ' ', 'स', 'प', 'त', 'ा', 'ह'], ['i', 'n', ' ', '1', ' ', 'w', 'e', 'e', 'k']), (['प', 'ि', 'छ', 'ल', 'ा', ' ', 'द', 'श', 'क'], ['1', ' ', 'd', 'e', 'c', 'a', 'd', 'e', ' ', 'a', 'g', 'o']), (['प', 'ि', 'छ', 'ल', 'ा', ' ', 'म', 'ा', 'ह'], ['1', ' ', 'm', 'o', 'n', 't', 'h', ' ', 'a', 'g', 'o']), (['प', 'ि', 'छ', 'ल', 'ा', ' ', 'व', 'र', 'ष'], ['1', ' ', 'y', 'e', 'a', 'r', ' ', 'a', 'g', 'o']), (['अ', 'ग', 'ल', 'ा', ' ', 'द', 'श', 'क'], ['i', 'n', ' ', '1', ' ', 'd', 'e', 'c', 'a', 'd', 'e']), (['अ', 'ग', 'ल', 'ा', ' ', 'म', 'ा', 'ह'], ['i', 'n', ' ', '1', ' ', 'm', 'o', 'n', 't', 'h']), (['अ', 'ग', 'ल', 'ा', ' ', 'व', 'र', 'ष'], ['i', 'n', ' ', '1', ' ', 'y', 'e', 'a', 'r']), (['इ', 'स', ' ', 'स', 'प', 'त', 'ा', 'ह'], ['0', ' ', 'w', 'e', 'e', 'k', ' ', 'a', 'g', 'o']), (['य', 'ह', ' ', 'म', 'ि', 'न', 'ट'], ['0', ' ', 'm', 'i', 'n', 'u', 't', 'e', ' ', 'a', 'g', 'o']), (['इ', 'स', ' ', 'म', 'ा', 'ह'], ['0', ' ', 'm', 'o', 'n', 't', 'h', ' ', 'a', 'g', 'o']), (['इ', 'स', ' ', 'व', 'र', 'ष'], ['0', ' ', 'y', 'e', 'a', 'r', ' ', 'a', 'g', 'o']), (['य', 'ह', ' ', 'घ', 'ट', 'ा'], ['0', ' ', 'h', 'o', 'u', 'r', ' ', 'a', 'g', 'o']), (['प', 'र', 'स', 'ो'], ['2', ' ', 'd', 'a', 'y', ' ', 'a', 'g', 'o']), (['अ', 'ब'], ['0', ' ', 's', 'e', 'c', 'o', 'n', 'd', ' ', 'a', 'g', 'o']), (['आ', 'ज'], ['0', ' ', 'd', 'a', 'y', ' ', 'a', 'g', 'o']), (['क', 'ल'], ['1', ' ', 'd', 'a', 'y', ' ', 'a', 'g', 'o'])]

/-- internal/data/hr.go: `hr_Locale`, dictionary. -/
def hrDict : LangData where
  name := ['h', 'r']
  translations := [(['p', 'o', 'n', 'e', 'd', 'j', 'e', 'l', 'j', 'a', 'k'], [['m', 'o', 'n', 'd', 'a', 'y']]), (['l', 'i', 's', 't', 'o', 'p', 'a', 'd', 'o', 'm'], [['o', 'c', 't', 'o', 'b', 'e', 'r']]), (['k', 'o', 'l', 'o', 'v', 'o', 'z', 'o', 'm'], [['a', 'u', 'g', 'u', 's', 't']]), (['l', 'i', 's', 't', 'o', 'p', 'a', 'd', 'a'], [['o', 'c', 't', 'o', 'b', 'e', 'r']]), (['l', 'i', 's', 't', 'o', 'p', 'a', 'd', 'u'], [['o', 'c', 't', 'o', 'b', 'e', 'r']]), (['p', 'r', 'o', 's', 'i', 'n', 'c', 'e', 'm'], [['d', 'e', 'c', 'e', 'm', 'b', 'e', 'r']]), (['s', 'i', 'j', 'e', 'c', 'n', 'j', 'e', 'm'], [['j', 'a', 'n', 'u', 'a', 'r', 'y']]), (['s', 't', 'u', 'd', 'e', 'n', 'o', 'g', 'a'], [['n', 'o', 'v', 'e', 'm', 'b', 'e', 'r']]), (['s', 't', 'u', 'd', 'e', 'n', 'o', 'm', 'e'], [['n', 'o', 'v', 'e', 'm', 'b', 'e', 'r']]), (['s', 't', 'u', 'd', 'e', 'n', 'o', 'm', 'u'], [['n', 'o', 'v', 'e', 'm', 'b', 'e', 'r']]), (['c', 'e', 't', 'v', 'r', 't', 'a', 'k'], [['t', 'h', 'u', 'r', 's', 'd', 'a', 'y']]), (['k', 'o', 'l', 'o', 'v', 'o', 'z', 'a'], [['a', 'u', 'g', 'u', 's', 't']]), (['k', 'o', 'l', 'o', 'v', 'o', 'z', 'u'], [['a', 'u', 'g', 'u', 's', 't']]), (['l', 'i', 's', 't', 'o', 'p', 'a', 'd'], [['o', 'c', 't', 'o', 'b', 'e', 'r']]), (['n', 'e', 'd', 'j', 'e', 'l', 'j', 'a'], [['s', 'u', 'n', 'd', 'a', 'y']]), (['p', 'r', 'o', 's', 'i', 'n', 'a', 'c'], [['d', 'e', 'c', 'e', 'm', 'b', 'e', 'r']]), (['p', 'r', 'o', 's', 'i', 'n', 'c', 'a'], [['d', 'e', 'c', 'e', 'm', 'b', 'e', 'r']]), (['p', 'r', 'o', 's', 'i', 'n', 'c', 'u'], [['d', 'e', 'c', 'e', 'm', 'b', 'e', 'r']]), (['s', 'i', 'j', 'e', 'c', 'a', 'n', 'j'], [['j', 'a', 'n', 'u', 'a', 'r', 'y']]), (['s', 'i', 'j', 'e', 'c', 'n', 'j', 'a'], [['j', 'a', 'n', 'u', 'a', 'r', 'y']]), (['s', 'i', 'j', 'e', 'c', 'n', 'j', 'u'], [['j', 'a', 'n', 'u', 'a', 'r', 'y']]), (['s', 't', 'u', 'd', 'e', 'n', 'i', 'm'], [['n', 'o', 'v', 'e', 'm', 'b', 'e', 'r']]), (['s', 't', 'u', 'd', 'e', 'n', 'o', 'g'], [['n', 'o', 'v', 'e', 'm', 'b', 'e', 'r']]), (['s', 't', 'u', 'd', 'e', 'n', 'o', 'm'], [['n', 'o', 'v', 'e', 'm', 'b', 'e', 'r']]), (['s', 'v', 'i', 'b', 'n', 'j', 'e', 'm'], [['m', 'a', 'y']]), (['t', 'r', 'a', 'v', 'n', 'j', 'e', 'm'], [['a', 'p', 'r', 'i', 'l']]), (['v', 'e', 'l', 'j', 'a', 'c', 'o', 'm'], [['f', 'e', 'b', 'r', 'u', 'a', 'r', 'y']]), (['k', 'o', 'l', 'o', 'v', 'o', 'z'], [['a', 'u', 'g', 'u', 's', 't']]), (['l', 'i', 'p', 'n', 'j', 'e', 'm'], [['j', 'u', 'n', 'e']]), (['o', 'z', 'u', 'j', 'k', 'o', 'm'], [['m', 'a', 'r', 'c', 'h']]), (['s', 'e', 'k', 'u', 'n', 'd', 'a'], [['s', 'e', 'c', 'o', 'n', 'd']]), (['s', 'r', 'i', 'j', 'e', 'd', 'a'], [['w', 'e', 'd', 'n', 'e', 's', 'd', 'a', 'y']]), (['s', 'r', 'p', 'n', 'j', 'e', 'm'], [['j', 'u', 'l', 'y']]), (['s', 't', 'u', 'd', 'e', 'n', 'i'], [['n', 'o', 'v', 'e', 'm', 'b', 'e', 'r']]), (['s', 'v', 'i', 'b', 'a', 'n', 'j'], [['m', 'a', 'y']]), (['s', 'v', 'i', 'b', 'n', 'j', 'a'], [['m', 'a', 'y']]), (['s', 'v', 'i', 'b', 'n', 'j', 'u'], [['m', 'a', 'y']]), (['t', 'r', 'a', 'v', 'a', 'n', 'j'], [['a', 'p', 'r', 'i', 'l']]), (['t', 'r', 'a', 'v', 'n', 'j', 'a'], [['a', 'p', 'r', 'i', 'l']]), (['t', 'r', 'a', 'v', 'n', 'j', 'u'], [['a', 'p', 'r', 'i', 'l']]), (['v', 'e', 'l', 'j', 'a', 'c', 'a'], [['f', 'e', 'b', 'r', 'u', 'a', 'r', 'y']]), (['v', 'e', 'l', 'j', 'a', 'c', 'e'], [['f', 'e', 'b', 'r', 'u', 'a', 'r', 'y']]), (['v', 'e', 'l', 'j', 'a', 'c', 'i'], [['f', 'e', 'b', 'r', 'u', 'a', 'r', 'y']]), (['g', 'o', 'd', 'i', 'n', 'a'], [['y', 'e', 'a', 'r']]), (['l', 'i', 'p', 'a', 'n', 'j'], [['j', 'u', 'n', 'e']]), (['l', 'i', 'p', 'n', 'j', 'a'], [['j', 'u', 'n', 'e']]), (['l', 'i', 'p', 'n', 'j', 'u'], [['j', 'u', 'n', 'e']]), (['m', 'i', 'n', 'u', 't', 'a'], [['m', 'i', 'n', 'u', 't', 'e']]), (['m', 'j', 'e', 's', 'e', 'c'], [['m', 'o', 'n', 't', 'h']]), (['o', 'z', 'u', 'j', 'a', 'k'], [['m', 'a', 'r', 'c', 'h']]), (['o', 'z', 'u', 'j', 'k', 'a'], [['m', 'a', 'r', 'c', 'h']]), (['o', 'z', 'u', 'j', 'k', 'u'], [['m', 'a', 'r', 'c', 'h']]), (['r', 'u', 'j', 'n', 'o', 'm'], [['s', 'e', 'p', 't', 'e', 'm', 'b', 'e', 'r']]), (['s', 'r', 'p', 'a', 'n', 'j'], [['j', 'u', 'l', 'y']]), (['s', 'r', 'p', 'n', 'j', 'a'], [['j', 'u', 'l', 'y']]), (['s', 'r', 'p', 'n', 'j', 'u'], [['j', 'u', 'l', 'y']]), (['s', 'u', 'b', 'o', 't', 'a'], [['s', 'a', 't', 'u', 'r', 'd', 'a', 'y']]), (['t', 'j', 'e', 'd', 'a', 'n'], [['w', 'e', 'e', 'k']]), (['u', 't', 'o', 'r', 'a', 'k'], [['t', 'u', 'e', 's', 'd', 'a', 'y']]), (['p', 'e', 't', 'a', 'k'], [['f', 'r', 'i', 'd', 'a', 'y']]), (['r', 'u', 'j', 'a', 'n'], [['s', 'e', 'p', 't', 'e', 'm', 'b', 'e', 'r']]), (['r', 'u', 'j', 'n', 'a'], [['s', 'e', 'p', 't', 'e', 'm', 'b', 'e', 'r']]), (['r', 'u', 'j', 'n', 'u'], [['s', 'e', 'p', 't', 'e', 'm', 'b', 'e', 'r']]), (['v', 'e', 'l', 'j'], [['f', 'e', 'b', 'r', 'u', 'a', 'r', 'y']]), (['c', 'e', 't'], [['t', 'h', 'u', 'r', 's', 'd', 'a', 'y']]), (['d', 'a', 'n'], [['d', 'a', 'y']]), (['g', 'm', 't'], [['g', 'm', 't']]), (['k', 'o', 'l'], [['a', 'u', 'g', 'u', 's', 't']]), (['l', 'i', 'p'], [['j', 'u', 'n', 'e']]), (['l', 'i', 's'], [['o', 'c', 't', 'o', 'b', 'e', 'r']]), (['m', 'i', 'n'], [['m', 'i', 'n', 'u', 't', 'e']]), (['n', 'e', 'd'], [['s', 'u', 'n', 'd', 'a', 'y']]), (['o', 'z', 'u'], [['m', 'a', 'r', 'c', 'h']]), (['p', 'e', 't'], [['f', 'r', 'i', 'd', 'a', 'y']]), (['p', 'o', 'n'], [['m', 'o', 'n', 'd', 'a', 'y']]), (['p', 'r', 'o'], [['d', 'e', 'c', 'e', 'm', 'b', 'e', 'r']]), (['r', 'u', 'j'], [['s', 'e', 'p', 't', 'e', 'm', 'b', 'e', 'r']]), (['s', 'a', 't'], [['h', 'o', 'u', 'r']]), (['s', 'i', 'j'], [['j', 'a', 'n', 'u', 'a', 'r', 'y']]), (['s', 'r', 'i'], [['w', 'e', 'd', 'n', 'e', 's', 'd', 'a', 'y']]), (['s', 'r', 'p'], [['j', 'u', 'l', 'y']]), (['s', 't', 'u'], [['n', 'o', 'v', 'e', 'm', 'b', 'e', 'r']]), (['s', 'u', 'b'], [['s', 'a', 't', 'u', 'r', 'd', 'a', 'y']]), (['s', 'v', 'i'], [['m', 'a', 'y']]), (['t', 'r', 'a'], [['a', 'p', 'r', 'i', 'l']]), (['u', 't', 'c'], [['u', 't', 'c']]), (['u', 't', 'o'], [['t', 'u', 'e', 's', 'd', 'a', 'y']]), (['a', 'm'], [['a', 'm']]), (['m', 'j'], [['m', 'o', 'n', 't', 'h']]), (['p', 'm'], [['p', 'm']]), (['t', 'j'], [['w', 'e', 'e', 'k']]), ([' '], [[' ']]), (['\''], [[]]), (['+'], [['+']]), ([','], [[]]), (['-'], [['-']]), (['.'], [['.']]), (['/'], [['/']]), ([':'], [[':']]), ([';'], [[]]), (['@'], [[]]), (['['], [[]]), ([']'], [[]]), (['d'], [['d', 'a', 'y']]), (['g'], [['y', 'e', 'a', 'r']]), (['h'], [['h', 'o', 'u', 'r']]), (['m'], [['m', 'o', 'n', 't', 'h']]), (['s'], [['s', 'e', 'c', 'o', 'n', 'd']]), (['u'], [['i', 'n']]), (['z'], [['z']]), (['|'], [[]])]
  relativeType := [(['s', 'l', 'j', 'e', 'd', 'e', 'c', 'e', 'g', ' ', 'm', 'j', 'e', 's', 'e', 'c', 'a'], ['i', 'n', ' ', '1', ' ', 'm', 'o', 'n', 't', 'h']), (['s', 'l', 'j', 'e', 'd', 'e', 'c', 'e', 'm', ' ', 'm', 'j', 'e', 's', 'e', 'c', 'u'], ['i', 'n', ' ', '1', ' ', 'm', 'o', 'n', 't', 'h']), (['s', 'l', 'j', 'e', 'd', 'e', 'c', 'e', 'g', ' ', 't', 'j', 'e', 'd', 'n', 'a'], ['i', 'n', ' ', '1', ' ', 'w', 'e', 'e', 'k']), (['s', 'l', 'j', 'e', 'd', 'e', 'c', 'e', 'm', ' ', 't', 'j', 'e', 'd', 'n', 'u'], ['i', 'n', ' ', '1', ' ', 'w', 'e', 'e', 'k']), (['s', 'l', 'j', 'e', 'd', 'e', 'c', 'o', 'j', ' ', 'g', 'o', 'd', 'i', 'n', 'i'], ['i', 'n', ' ', '1', ' ', 'y', 'e', 'a', 'r']), (['p', 'r', 'o', 's', 'l', 'o', 'g', ' ', 'm', 'j', 'e', 's', 'e', 'c', 'a'], ['1', ' ', 'm', 'o', 'n', 't', 'h', ' ', 'a', 'g', 'o']), (['p', 'r', 'o', 's', 'l', 'o', 'm', ' ', 'm', 'j', 'e', 's', 'e', 'c', 'u'], ['1', ' ', 'm', 'o', 'n', 't', 'h', ' ', 'a', 'g', 'o']), (['s', 'l', 'j', 'e', 'd', 'e', 'c', 'a', ' ', 'g', 'o', 'd', 'i', 'n', 'a'], ['i', 'n', ' ', '1', ' ', 'y', 'e', 'a', 'r']), (['s', 'l', 'j', 'e', 'd', 'e', 'c', 'e', ' ', 'g', 'o', 'd', 'i', 'n', 'e'], ['i', 'n', ' ', '1', ' ', 'y', 'e', 'a', 'r']), (['s', 'l', 'j', 'e', 'd', 'e', 'c', 'i', ' ', 'm', 'j', 'e', 's', 'e', 'c'], ['i', 'n', ' ', '1', ' ', 'm', 'o', 'n', 't', 'h']), (['s', 'l', 'j', 'e', 'd', 'e', 'c', 'i', ' ', 't', 'j', 'e', 'd', 'a', 'n'], ['i', 'n', ' ', '1', ' ', 'w', 'e', 'e', 'k']), (['i', 'd', 'u', 'c', 'e', 'g', ' ', 'm', 'j', 'e', 's', 'e', 'c', 'a'], ['i', 'n', ' ', '1', ' ', 'm', 'o', 'n', 't', 'h']), (['i', 'd', 'u', 'c', 'e', 'm', ' ', 'm', 'j', 'e', 's', 'e', 'c', 'u'], ['i', 'n', ' ', '1', ' ', 'm', 'o', 'n', 't', 'h']), (['p', 'r', 'o', 's', 'l', 'o', 'g', ' ', 't', 'j', 'e', 'd', 'n', 'a'], ['1', ' ', 'w', 'e', 'e', 'k', ' ', 'a', 'g', 'o']), (['p', 'r', 'o', 's', 'l', 'o', 'j', ' ', 'g', 'o', 'd', 'i', 'n', 'i'], ['1', ' ', 'y', 'e', 'a', 'r', ' ', 'a', 'g', 'o']), (['p', 'r', 'o', 's', 'l', 'o', 'm', ' ', 't', 'j', 'e', 'd', 'n', 'u'], ['1', ' ', 'w', 'e', 'e', 'k', ' ', 'a', 'g', 'o']), (['i', 'd', 'u', 'c', 'e', 'g', ' ', 't', 'j', 'e', 'd', 'n', 'a'], ['i', 'n', ' ', '1', ' ', 'w', 'e', 'e', 'k']), (['i', 'd', 'u', 'c', 'e', 'm', ' ', 't', 'j', 'e', 'd', 'n', 'u'], ['i', 'n', ' ', '1', ' ', 'w', 'e', 'e', 'k']), (['i', 'd', 'u', 'c', 'o', 'j', ' ', 'g', 'o', 'd', 'i', 'n', 'i'], ['i', 'n', ' ', '1', ' ', 'y', 'e', 'a', 'r']), (['p', 'r', 'o', 's', 'l', 'a', ' ', 'g', 'o', 'd', 'i', 'n', 'a'], ['1', ' ', 'y', 'e', 'a', 'r', ' ', 'a', 'g', 'o']), (['p', 'r', 'o', 's', 'l', 'e', ' ', 'g', 'o', 'd', 'i', 'n', 'e'], ['1', ' ', 'y', 'e', 'a', 'r', ' ', 'a', 'g', 'o']), (['p', 'r', 'o', 's', 'l', 'i', ' ', 'm', 'j', 'e', 's', 'e', 'c'], ['1', ' ', 'm', 'o', 'n', 't', 'h', ' ', 'a', 'g', 'o']), (['p', 'r', 'o', 's', 'l', 'i', ' ', 't', 'j', 'e', 'd', 'a', 'n'], ['1', ' ', 'w', 'e', 'e', 'k', ' ', 'a', 'g', 'o']), (['i', 'd', 'u', 'c', 'a', ' ', 'g', 'o', 'd', 'i', 'n', 'a'], ['i', 'n', ' ', '1', ' ', 'y', 'e', 'a', 'r']), (['i', 'd', 'u', 'c', 'e', ' ', 'g', 'o', 'd', 'i', 'n', 'e'], ['i', 'n', ' ', '1', ' ', 'y', 'e', 'a', 'r']), (['i', 'd', 'u', 'c', 'i', ' ', 'm', 'j', 'e', 's', 'e', 'c'], ['i', 'n', ' ', '1', ' ', 'm', 'o', 'n', 't', 'h']), (['i', 'd', 'u', 'c', 'i', ' ', 't', 'j', 'e', 'd', 'a', 'n'], ['i', 'n', ' ', '1', ' ', 'w', 'e', 'e', 'k']), (['s', 'l', 'j', 'e', 'd', 'e', 'c', 'a', ' ', 'g', 'o', 'd'], ['i', 'n', ' ', '1', ' ', 'y', 'e', 'a', 'r']), (['s', 'l', 'j', 'e', 'd', 'e', 'c', 'e', ' ', 'g', 'o', 'd'], ['i', 'n', ' ', '1', ' ', 'y', 'e', 'a', 'r']), (['o', 'v', 'a', 'j', ' ', 'm', 'j', 'e', 's', 'e', 'c'], ['0', ' ', 'm', 'o', 'n', 't', 'h', ' ', 'a', 'g', 'o']), (['o', 'v', 'a', 'j', ' ', 't', 'j', 'e', 'd', 'a', 'n'], ['0', ' ', 'w', 'e', 'e', 'k', ' ', 'a', 'g', 'o']), (['s', 'l', 'j', 'e', 'd', 'e', 'c', 'i', ' ', 'm', 'j'], ['i', 'n', ' ', '1', ' ', 'm', 'o', 'n', 't', 'h']), (['s', 'l', 'j', 'e', 'd', 'e', 'c', 'i', ' ', 't', 'j'], ['i', 'n', ' ', '1', ' ', 'w', 'e', 'e', 'k']), (['i', 'd', 'u', 'c', 'o', 'j', ' ', 'g', 'o', 'd'], ['i', 'n', ' ', '1', ' ', 'y', 'e', 'a', 'r']), (['o', 'v', 'a', ' ', 'm', 'i', 'n', 'u', 't', 'a'], ['0', ' ', 'm', 'i', 'n', 'u', 't', 'e', ' ', 'a', 'g', 'o']), (['o', 'v', 'e', ' ', 'g', 'o', 'd', 'i', 'n', 'e'], ['0', ' ', 'y', 'e', 'a', 'r', ' ', 'a', 'g', 'o']), (['p', 'r', 'e', 'k', 'o', 's', 'u', 't', 'r', 'a'], ['i', 'n', ' ', '2', ' ', 'd', 'a', 'y']), (['p', 'r', 'o', 's', 'l', 'e', ' ', 'g', 'o', 'd'], ['1', ' ', 'y', 'e', 'a', 'r', ' ', 'a', 'g', 'o']), (['s', 'l', 'j', 'e', 'd', 'e', 'c', 'a', ' ', 'g'], ['i', 'n', ' ', '1', ' ', 'y', 'e', 'a', 'r']), (['s', 'l', 'j', 'e', 'd', 'e', 'c', 'e', ' ', 'g'], ['i', 'n', ' ', '1', ' ', 'y', 'e', 'a', 'r']), (['i', 'd', 'u', 'c', 'a', ' ', 'g', 'o', 'd'], ['i', 'n', ' ', '1', ' ', 'y', 'e', 'a', 'r']), (['i', 'd', 'u', 'c', 'e', ' ', 'g', 'o', 'd'], ['i', 'n', ' ', '1', ' ', 'y', 'e', 'a', 'r']), (['i', 'd', 'u', 'c', 'e', 'g', ' ', 'm', 'j'], ['i', 'n', ' ', '1', ' ', 'm', 'o', 'n', 't', 'h']), (['i', 'd', 'u', 'c', 'e', 'g', ' ', 't', 'j'], ['i', 'n', ' ', '1', ' ', 'w', 'e', 'e', 'k']), (['i', 'd', 'u', 'c', 'e', 'm', ' ', 'm', 'j'], ['i', 'n', ' ', '1', ' ', 'm', 'o', 'n', 't', 'h']), (['i', 'd', 'u', 'c', 'e', 'm', ' ', 't', 'j'], ['i', 'n', ' ', '1', ' ', 'w', 'e', 'e', 'k']), (['p', 'r', 'e', 'k', 'j', 'u', 'c', 'e', 'r'], ['2', ' ', 'd', 'a', 'y', ' ', 'a', 'g', 'o']), (['p', 'r', 'o', 's', 'l', 'i', ' ', 'm', 'j'], ['1', ' ', 'm', 'o', 'n', 't', 'h', ' ', 'a', 'g', 'o']), (['p', 'r', 'o', 's', 'l', 'i', ' ', 't', 'j'], ['1', ' ', 'w', 'e', 'e', 'k', ' ', 'a', 'g', 'o']), (['d', 'o', 'g', 'o', 'd', 'i', 'n', 'e'], ['i', 'n', ' ', '1', ' ', 'y', 'e', 'a', 'r']), (['i', 'd', 'u', 'c', 'i', ' ', 'm', 'j'], ['i', 'n', ' ', '1', ' ', 'm', 'o', 'n', 't', 'h']), (['i', 'd', 'u', 'c', 'i', ' ', 't', 'j'], ['i', 'n', ' ', '1', ' ', 'w', 'e', 'e', 'k']), (['i', 'd', 'u', 'c', 'o', 'j', ' ', 'g'], ['i', 'n', ' ', '1', ' ', 'y', 'e', 'a', 'r']), (['n', 'a', 'g', 'o', 'd', 'i', 'n', 'u'], ['i', 'n', ' ', '1', ' ', 'y', 'e', 'a', 'r']), (['o', 'v', 'a', 'j', ' ', 's', 'a', 't'], ['0', ' ', 'h', 'o', 'u', 'r', ' ', 'a', 'g', 'o']), (['p', 'r', 'e', 'k', 'l', 'a', 'n', 'i'], ['2', ' ', 'y', 'e', 'a', 'r', ' ', 'a', 'g', 'o']), (['p', 'r', 'o', 's', 'l', 'e', ' ', 'g'], ['1', ' ', 'y', 'e', 'a', 'r', ' ', 'a', 'g', 'o']), (['i', 'd', 'u', 'c', 'a', ' ', 'g'], ['i', 'n', ' ', '1', ' ', 'y', 'e', 'a', 'r']), (['i', 'd', 'u', 'c', 'e', ' ', 'g'], ['i', 'n', ' ', '1', ' ', 'y', 'e', 'a', 'r']), (['o', 'v', 'a', 'j', ' ', 'm', 'j'], ['0', ' ', 'm', 'o', 'n', 't', 'h', ' ', 'a', 'g', 'o']), (['o', 'v', 'a', 'j', ' ', 't', 'j'], ['0', ' ', 'w', 'e', 'e', 'k', ' ', 'a', 'g', 'o']), (['o', 'v', 'e', ' ', 'g', 'o', 'd'], ['0', ' ', 'y', 'e', 'a', 'r', ' ', 'a', 'g', 'o']), (['d', 'a', 'n', 'a', 's'], ['0', ' ', 'd', 'a', 'y', ' ', 'a', 'g', 'o']), (['j', 'u', 'c', 'e', 'r'], ['1', ' ', 'd', 'a', 'y', ' ', 'a', 'g', 'o']), (['o', 'v', 'e', ' ', 'g'], ['0', ' ', 'y', 'e', 'a', 'r', ' ', 'a', 'g', 'o']), (['s', 'u', 't', 'r', 'a'], ['i', 'n', ' ', '1', ' ', 'd', 'a', 'y']), (['l', 'a', 'n', 'i'], ['1', ' ', 'y', 'e', 'a', 'r', ' ', 'a', 'g', 'o']), (['s', 'a', 'd'], ['0', ' ', 's', 'e', 'c', 'o', 'n', 'd', ' ', 'a', 'g', 'o'])]

/-- internal/data/hr.go: `hr_BA_Locale`, dictionary. -/
def hr_BADict : LangData where
  name := ['h', 'r', '-', 'B', 'A']

/-- internal/data/hsb.go: `hsb_Locale`, dictionary. -/
def hsbDict : LangData where
  name := ['h', 's', 'b']
  translations := [(['d', 'o', 'p', 'o', 'ł', 'd', 'n', 'j', 'a'], [['a', 'm']]), (['p', 'o', 'p', 'o', 'ł', 'd', 'n', 'j', 'u'], [['p', 'm']]), (['s', 'e', 'p', 't', 'e', 'm', 'b', 'e', 'r'], [['s', 'e', 'p', 't', 'e', 'm', 'b', 'e', 'r']]), (['s', 'e', 'p', 't', 'e', 'm', 'b', 'r', 'a'], [['s', 'e', 'p', 't', 'e', 'm', 'b', 'e', 'r']]), (['d', 'e', 'c', 'e', 'm', 'b', 'e', 'r'], [['d', 'e', 'c', 'e', 'm', 'b', 'e', 'r']]), (['d', 'e', 'c', 'e', 'm', 'b', 'r', 'a'], [['d', 'e', 'c', 'e', 'm', 'b', 'e', 'r']]), (['f', 'e', 'b', 'r', 'u', 'a', 'r', 'a'], [['f', 'e', 'b', 'r', 'u', 'a', 'r', 'y']]), (['n', 'j', 'e', 'd', 'z', 'e', 'l', 'a'], [['s', 'u', 'n', 'd', 'a', 'y']]), (['n', 'o', 'w', 'e', 'm', 'b', 'e', 'r'], [['n', 'o', 'v', 'e', 'm', 'b', 'e', 'r']]), (['n', 'o', 'w', 'e', 'm', 'b', 'r', 'a'], [['n', 'o', 'v', 'e', 'm', 'b', 'e', 'r']]), (['p', 'o', 'n', 'd', 'z', 'e', 'l', 'a'], [['m', 'o', 'n', 'd', 'a', 'y']]), (['a', 'w', 'g', 'u', 's', 't', 'a'], [['a', 'u', 'g', 'u', 's', 't']]), (['f', 'e', 'b', 'r', 'u', 'a', 'r'], [['f', 'e', 'b', 'r', 'u', 'a', 'r', 'y']]), (['h', 'o', 'd', 'z', 'i', 'n', 'a'], [['h', 'o', 'u', 'r']]), (['j', 'a', 'n', 'u', 'a', 'r', 'a'], [['j', 'a', 'n', 'u', 'a', 'r', 'y']]), (['o', 'k', 't', 'o', 'b', 'e', 'r'], [['o', 'c', 't', 'o', 'b', 'e', 'r']]), (['o', 'k', 't', 'o', 'b', 'r', 'a'], [['o', 'c', 't', 'o', 'b', 'e', 'r']]), (['s', 'e', 'k', 'u', 'n', 'd', 'a'], [['s', 'e', 'c', 'o', 'n', 'd']]), (['s', 't', 'w', 'o', 'r', 't', 'k'], [['t', 'h', 'u', 'r', 's', 'd', 'a', 'y']]), (['a', 'p', 'r', 'y', 'l', 'a'], [['a', 'p', 'r', 'i', 'l']]), (['a', 'w', 'g', 'u', 's', 't'], [['a', 'u', 'g', 'u', 's', 't']]), (['j', 'a', 'n', 'u', 'a', 'r'], [['j', 'a', 'n', 'u', 'a', 'r', 'y']]), (['j', 'u', 'l', 'i', 'j', 'a'], [['j', 'u', 'l', 'y']]), (['j', 'u', 'n', 'i', 'j', 'a'], [['j', 'u', 'n', 'e']]), (['m', 'i', 'n', 'u', 't', 'a'], [['m', 'i', 'n', 'u', 't', 'e']]), (['s', 'o', 'b', 'o', 't', 'a'], [['s', 'a', 't', 'u', 'r', 'd', 'a', 'y']]), (['s', 'r', 'j', 'e', 'd', 'a'], [['w', 'e', 'd', 'n', 'e', 's', 'd', 'a', 'y']]), (['t', 'y', 'd', 'z', 'e', 'n'], [['w', 'e', 'e', 'k']]), (['w', 'u', 't', 'o', 'r', 'a'], [['t', 'u', 'e', 's', 'd', 'a', 'y']]), (['a', 'p', 'r', 'y', 'l'], [['a', 'p', 'r', 'i', 'l']]), (['j', 'u', 'l', 'i', 'j'], [['j', 'u', 'l', 'y']]), (['j', 'u', 'n', 'i', 'j'], [['j', 'u', 'n', 'e']]), (['m', 'e', 'r', 'c', 'a'], [['m', 'a', 'r', 'c', 'h']]), (['m', 'e', 's', 'a', 'c'], [['m', 'o', 'n', 't', 'h']]), (['p', 'j', 'a', 't', 'k'], [['f', 'r', 'i', 'd', 'a', 'y']]), (['d', 'z', 'e', 'n'], [['d', 'a', 'y']]), (['h', 'o', 'd', 'z'], [['h', 'o', 'u', 'r']]), (['l', 'e', 't', 'o'], [['y', 'e', 'a', 'r']]), (['m', 'e', 'j', 'a'], [['m', 'a', 'y']]), (['m', 'e', 'j', 'e'], [['m', 'a', 'y']]), (['m', 'e', 'r', 'c'], [['m', 'a', 'r', 'c', 'h']]), (['t', 'y', 'd', 'z'], [['w', 'e', 'e', 'k']]), (['a', 'p', 'r'], [['a', 'p', 'r', 'i', 'l']]), (['a', 'w', 'g'], [['a', 'u', 'g', 'u', 's', 't']]), (['d', 'e', 'c'], [['d', 'e', 'c', 'e', 'm', 'b', 'e', 'r']]), (['f', 'e', 'b'], [['f', 'e', 'b', 'r', 'u', 'a', 'r', 'y']]), (['g', 'm', 't'], [['g', 'm', 't']]), (['j', 'a', 'n'], [['j', 'a', 'n', 'u', 'a', 'r', 'y']]), (['j', 'u', 'l'], [['j', 'u', 'l', 'y']]), (['j', 'u', 'n'], [['j', 'u', 'n', 'e']]), (['m', 'e', 'j'], [['m', 'a', 'y']]), (['m', 'e', 'r'], [['m', 'a', 'r', 'c', 'h']]), (['m', 'e', 's'], [['m', 'o', 'n', 't', 'h']]), (['m', 'i', 'n'], [['m', 'i', 'n', 'u', 't', 'e']]), (['n', 'j', 'e'], [['s', 'u', 'n', 'd', 'a', 'y']]), (['n', 'o', 'w'], [['n', 'o', 'v', 'e', 'm', 'b', 'e', 'r']]), (['o', 'k', 't'], [['o', 'c', 't', 'o', 'b', 'e', 'r']]), (['p', 'j', 'a'], [['f', 'r', 'i', 'd', 'a', 'y']]), (['p', 'o', 'n'], [['m', 'o', 'n', 'd', 'a', 'y']]), (['s', 'e', 'k'], [['s', 'e', 'c', 'o', 'n', 'd']]), (['s', 'e', 'p'], [['s', 'e', 'p', 't', 'e', 'm', 'b', 'e', 'r']]), (['s', 'o', 'b'], [['s', 'a', 't', 'u', 'r', 'd', 'a', 'y']]), (['s', 'r', 'j'], [['w', 'e', 'd', 'n', 'e', 's', 'd', 'a', 'y']]), (['s', 't', 'w'], [['t', 'h', 'u', 'r', 's', 'd', 'a', 'y']]), (['u', 't', 'c'], [['u', 't', 'c']]), (['w', 'u', 't'], [['t', 'u', 'e', 's', 'd', 'a', 'y']]), (['a', 'm'], [['a', 'm']]), (['p', 'm'], [['p', 'm']]), ([' '], [[' ']]), (['\''], [[]]), (['+'], [['+']]), ([','], [[]]), (['-'], [['-']]), (['.'], [['.']]), (['/'], [['/']]), ([':'], [[':']]), ([';'], [[]]), (['@'], [[]]), (['['], [[]]), ([']'], [[]]), (['d'], [['d', 'a', 'y']]), (['h'], [['h', 'o', 'u', 'r']]), (['l'], [['y', 'e', 'a', 'r']]), (['m'], [['m', 'i', 'n', 'u', 't', 'e']]), (['s'], [['s', 'e', 'c', 'o', 'n', 'd']]), (['z'], [['z']]), (['|'], [[]])]
  relativeType := [(['p', 'r', 'i', 'c', 'h', 'o', 'd', 'n', 'y', ' ', 't', 'y', 'd', 'z', 'e', 'n'], ['i', 'n', ' ', '1', ' ', 'w', 'e', 'e', 'k']), (['p', 'r', 'i', 'c', 'h', 'o', 'd', 'n', 'y', ' ', 'm', 'e', 's', 'a', 'c'], ['i', 'n', ' ', '1', ' ', 'm', 'o', 'n', 't', 'h']), (['t', 'u', 't', 'o', 'n', ' ', 't', 'y', 'd', 'z', 'e', 'n'], ['0', ' ', 'w', 'e', 'e', 'k', ' ', 'a', 'g', 'o']), (['z', 'a', 's', 'ł', 'y', ' ', 't', 'y', 'd', 'z', 'e', 'n'], ['1', ' ', 'w', 'e', 'e', 'k', ' ', 'a', 'g', 'o']), (['t', 'h', 'i', 's', ' ', 'm', 'i', 'n', 'u', 't', 'e'], ['0', ' ', 'm', 'i', 'n', 'u', 't', 'e', ' ', 'a', 'g', 'o']), (['t', 'u', 't', 'o', 'n', ' ', 'm', 'e', 's', 'a', 'c'], ['0', ' ', 'm', 'o', 'n', 't', 'h', ' ', 'a', 'g', 'o']), (['z', 'a', 's', 'ł', 'y', ' ', 'm', 'e', 's', 'a', 'c'], ['1', ' ', 'm', 'o', 'n', 't', 'h', ' ', 'a', 'g', 'o']), (['t', 'h', 'i', 's', ' ', 'h', 'o', 'u', 'r'], ['0', ' ', 'h', 'o', 'u', 'r', ' ', 'a', 'g', 'o']), (['d', 'z', 'e', 'n', 's', 'a'], ['0', ' ', 'd', 'a', 'y', ' ', 'a', 'g', 'o']), (['j', 'u', 't', 'r', 'e'], ['i', 'n', ' ', '1', ' ', 'd', 'a', 'y']), (['k', 'l', 'e', 't', 'u'], ['i', 'n', ' ', '1', ' ', 'y', 'e', 'a', 'r']), (['l', 'e', 't', 's', 'a'], ['0', ' ', 'y', 'e', 'a', 'r', ' ', 'a', 'g', 'o']), (['w', 'c', 'e', 'r', 'a'], ['1', ' ', 'd', 'a', 'y', ' ', 'a', 'g', 'o']), (['l', 'o', 'n', 'i'], ['1', ' ', 'y', 'e', 'a', 'r', ' ', 'a', 'g', 'o']), (['n', 'o', 'w'], ['0', ' ', 's', 'e', 'c', 'o', 'n', 'd', ' ', 'a', 'g', 'o'])]

/-- internal/data/hu.go: `hu_Locale`, dictionary. -/
def huDict : LangData where
  name := ['h', 'u']
  splitterGroup := 1
  translations := [(['m', 'a', 's', 'o', 'd', 'p', 'e', 'r', 'c', 'c', 'e', 'l'], [['s', 'e', 'c', 'o', 'n', 'd']]), (['m', 'a', 's', 'o', 'd', 'p', 'e', 'r', 'c', 't', 'o', 'l'], [['s', 'e', 'c', 'o', 'n', 'd']]), (['m', 'a', 's', 'o', 'd', 'p', 'e', 'r', 'c', 'e', 'k'], [['s', 'e', 'c', 'o', 'n', 'd']]), (['m', 'a', 's', 'o', 'd', 'p', 'e', 'r', 'c', 'i', 'g'], [['s', 'e', 'c', 'o', 'n', 'd']]), (['m', 'a', 's', 'o', 'd', 'p', 'e', 'r', 'c', 'e'], [['s', 'e', 'c', 'o', 'n', 'd']]), (['s', 'z', 'e', 'p', 't', 'e', 'm', 'b', 'e', 'r'], [['s', 'e', 'p', 't', 'e', 'm', 'b', 'e', 'r']]), (['a', 'u', 'g', 'u', 's', 'z', 't', 'u', 's'], [['a', 'u', 'g', 'u', 's', 't']]), (['c', 's', 'u', 't', 'o', 'r', 't', 'o', 'k'], [['t', 'h', 'u', 'r', 's', 'd', 'a', 'y']]), (['m', 'a', 's', 'o', 'd', 'p', 'e', 'r', 'c'], [['s', 'e', 'c', 'o', 'n', 'd']]), (['d', 'e', 'c', 'e', 'm', 'b', 'e', 'r'], [['d', 'e', 'c', 'e', 'm', 'b', 'e', 'r']]), (['h', 'o', 'n', 'a', 'p', 'p', 'a', 'l'], [['m', 'o', 'n', 't', 'h']]), (['n', 'o', 'v', 'e', 'm', 'b', 'e', 'r'], [['n', 'o', 'v', 'e', 'm', 'b', 'e', 'r']]), (['v', 'a', 's', 'a', 'r', 'n', 'a', 'p'], [['s', 'u', 'n', 'd', 'a', 'y']]), (['a', 'p', 'r', 'i', 'l', 'i', 's'], [['a', 'p', 'r', 'i', 'l']]), (['e', 'z', 'e', 'l', 'o', 't', 't'], [['a', 'g', 'o']]), (['f', 'e', 'b', 'r', 'u', 'a', 'r'], [['f', 'e', 'b', 'r', 'u', 'a', 'r', 'y']]), (['h', 'o', 'n', 'a', 'p', 'j', 'a'], [['m', 'o', 'n', 't', 'h']]), (['h', 'o', 'n', 'a', 'p', 'o', 'k'], [['m', 'o', 'n', 't', 'h']]), (['m', 'a', 'r', 'c', 'i', 'u', 's'], [['m', 'a', 'r', 'c', 'h']]), (['o', 'k', 't', 'o', 'b', 'e', 'r'], [['o', 'c', 't', 'o', 'b', 'e', 'r']]), (['p', 'e', 'r', 'c', 'c', 'e', 'l'], [['m', 'i', 'n', 'u', 't', 'e']]), (['p', 'e', 'r', 'c', 't', 'o', 'l'], [['m', 'i', 'n', 'u', 't', 'e']]), (['s', 'z', 'o', 'm', 'b', 'a', 't'], [['s', 'a', 't', 'u', 'r', 'd', 'a', 'y']]), (['h', 'e', 't', 't', 'e', 'l'], [['w', 'e', 'e', 'k']]), (['j', 'a', 'n', 'u', 'a', 'r'], [['j', 'a', 'n', 'u', 'a', 'r', 'y']]), (['j', 'u', 'l', 'i', 'u', 's'], [['j', 'u', 'l', 'y']]), (['j', 'u', 'n', 'i', 'u', 's'], [['j', 'u', 'n', 'e']]), (['n', 'a', 'p', 'p', 'a', 'l'], [['d', 'a', 'y']]), (['o', 'r', 'a', 't', 'o', 'l'], [['h', 'o', 'u', 'r']]), (['o', 'r', 'a', 'v', 'a', 'l'], [['h', 'o', 'u', 'r']]), (['p', 'e', 'n', 't', 'e', 'k'], [['f', 'r', 'i', 'd', 'a', 'y']]), (['p', 'e', 'r', 'c', 'e', 'k'], [['m', 'i', 'n', 'u', 't', 'e']]), (['p', 'e', 'r', 'c', 'i', 'g'], [['m', 'i', 'n', 'u', 't', 'e']]), (['s', 'z', 'e', 'r', 'd', 'a'], [['w', 'e', 'd', 'n', 'e', 's', 'd', 'a', 'y']]), (['-', 'a', 'k', 'o', 'r'], [[]]), (['-', 'a', 't', 'o', 'l'], [[]]), (['-', 'e', 'k', 'o', 'r'], [[]]), (['-', 'e', 't', 'o', 'l'], [[]]), (['e', 'v', 'v', 'e', 'l'], [['y', 'e', 'a', 'r']]), (['h', 'e', 't', 'e', 'k'], [['w', 'e', 'e', 'k']]), (['h', 'e', 't', 'f', 'o'], [['m', 'o', 'n', 'd', 'a', 'y']]), (['h', 'o', 'n', 'a', 'p'], [['m', 'o', 'n', 't', 'h']]), (['m', 'a', 'j', 'u', 's'], [['m', 'a', 'y']]), (['m', 'u', 'l', 'v', 'a'], [['i', 'n']]), (['n', 'a', 'p', 'j', 'a'], [['d', 'a', 'y']]), (['n', 'a', 'p', 'o', 'k'], [['d', 'a', 'y']]), (['o', 'r', 'a', 'i', 'g'], [['h', 'o', 'u', 'r']]), (['o', 'r', 'a', 'j', 'a'], [['h', 'o', 'u', 'r']]), (['p', 'e', 'r', 'c', 'e'], [['m', 'i', 'n', 'u', 't', 'e']]), (['s', 'z', 'e', 'p', 't'], [['s', 'e', 'p', 't', 'e', 'm', 'b', 'e', 'r']]), (['-', 'a', 'i', 'g'], [[]]), (['-', 'e', 'i', 'g'], [[]]), (['-', 'j', 'e', 'i'], [[]]), (['-', 'k', 'o', 'r'], [[]]), (['-', 't', 'o', 'l'], [[]]), (['e', 'v', 'e', 'k'], [['y', 'e', 'a', 'r']]), (['f', 'e', 'b', 'r'], [['f', 'e', 'b', 'r', 'u', 'a', 'r', 'y']]), (['h', 'e', 't', 'e'], [['w', 'e', 'e', 'k']]), (['k', 'e', 'd', 'd'], [['t', 'u', 'e', 's', 'd', 'a', 'y']]), (['m', 'a', 'r', 'c'], [['m', 'a', 'r', 'c', 'h']]), (['o', 'r', 'a', 'k'], [['h', 'o', 'u', 'r']]), (['p', 'e', 'r', 'c'], [['m', 'i', 'n', 'u', 't', 'e']]), (['v', 'i', 'i', 'i'], [['a', 'u', 'g', 'u', 's', 't']]), (['-', 'a', 'i'], [[]]), (['-', 'a', 'n'], [[]]), (['-', 'e', 'i'], [[]]), (['-', 'e', 'n'], [[]]), (['-', 'e', 's'], [[]]), (['-', 'i', 'g'], [[]]), (['-', 'j', 'e'], [[]]), (['-', 'j', 'i'], [[]]), (['-', 'o', 's'], [[]]), (['a', 'p', 'r'], [['a', 'p', 'r', 'i', 'l']]), (['a', 'u', 'g'], [['a', 'u', 'g', 'u', 's', 't']]), (['d', 'e', 'c'], [['d', 'e', 'c', 'e', 'm', 'b', 'e', 'r']]), (['e', 'v', 'e'], [['y', 'e', 'a', 'r']]), (['f', 'e', 'b'], [['f', 'e', 'b', 'r', 'u', 'a', 'r', 'y']]), (['g', 'm', 't'], [['g', 'm', 't']]), (['h', 'e', 't'], [['w', 'e', 'e', 'k']]), (['i', 'i', 'i'], [['m', 'a', 'r', 'c', 'h']]), (['j', 'a', 'n'], [['j', 'a', 'n', 'u', 'a', 'r', 'y']]), (['j', 'u', 'l'], [['j', 'u', 'l', 'y']]), (['j', 'u', 'n'], [['j', 'u', 'n', 'e']]), (['m', 'a', 'j'], [['m', 'a', 'y']]), (['m', 'a', 'r'], [['m', 'a', 'r', 'c', 'h']]), (['n', 'a', 'p'], [['d', 'a', 'y']]), (['n', 'o', 'v'], [['n', 'o', 'v', 'e', 'm', 'b', 'e', 'r']]), (['o', 'k', 't'], [['o', 'c', 't', 'o', 'b', 'e', 'r']]), (['o', 'r', 'a'], [['h', 'o', 'u', 'r']]), (['s', 'z', 'e'], [['w', 'e', 'd', 'n', 'e', 's', 'd', 'a', 'y']]), (['s', 'z', 'o'], [['s', 'a', 't', 'u', 'r', 'd', 'a', 'y']]), (['u', 't', 'c'], [['u', 't', 'c']]), (['v', 'a', 's'], [['s', 'u', 'n', 'd', 'a', 'y']]), (['v', 'i', 'i'], [['j', 'u', 'l', 'y']]), (['x', 'i', 'i'], [['d', 'e', 'c', 'e', 'm', 'b', 'e', 'r']]), (['-', 'a'], [[]]), (['-', 'e'], [[]]), (['-', 'i'], [[]]), (['a', 'm'], [['a', 'm']]), (['c', 's'], [['t', 'h', 'u', 'r', 's', 'd', 'a', 'y']]), (['d', 'e'], [['a', 'm']]), (['d', 'u'], [['p', 'm']]), (['e', 'v'], [['y', 'e', 'a', 'r']]), (['h', 'o'], [['m', 'o', 'n', 't', 'h']]), (['i', 'i'], [['f', 'e', 'b', 'r', 'u', 'a', 'r', 'y']]), (['i', 'v'], [['a', 'p', 'r', 'i', 'l']]), (['i', 'x'], [['s', 'e', 'p', 't', 'e', 'm', 'b', 'e', 'r']]), (['m', 'p'], [['s', 'e', 'c', 'o', 'n', 'd']]), (['p', 'm'], [['p', 'm']]), (['v', 'i'], [['j', 'u', 'n', 'e']]), (['x', 'i'], [['n', 'o', 'v', 'e', 'm', 'b', 'e', 'r']]), ([' '], [[' ']]), (['\''], [[]]), (['+'], [['+']]), ([','], [[]]), (['-'], [['-']]), (['.'], [['.']]), (['/'], [['/']]), ([':'], [[':']]), ([';'], [[]]), (['@'], [[]]), (['['], [[]]), ([']'], [[]]), (['h'], [['m', 'o', 'n', 'd', 'a', 'y']]), (['i'], [['j', 'a', 'n', 'u', 'a', 'r', 'y']]), (['k'], [['t', 'u', 'e', 's', 'd', 'a', 'y']]), (['o'], [['h', 'o', 'u', 'r']]), (['p'], [['f', 'r', 'i', 'd', 'a', 'y'], ['m', 'i', 'n', 'u', 't', 'e']]), (['v'], [['m', 'a', 'y'], ['s', 'u', 'n', 'd', 'a', 'y']]), (['x'], [['o', 'c', 't', 'o', 'b', 'e', 'r']]), (['z'], [['z']]), (['|'], [[]])]
  relativeType := [(['e', 'b', 'b', 'e', 'n', ' ', 'a', ' ', 'p', 'e', 'r', 'c', 'b', 'e', 'n'], ['0', ' ', 'm', 'i', 'n', 'u', 't', 'e', ' ', 'a', 'g', 'o']), (['e', 'b', 'b', 'e', 'n', ' ', 'a', 'z', ' ', 'o', 'r', 'a', 'b', 'a', 'n'], ['0', ' ', 'h', 'o', 'u', 'r', ' ', 'a', 'g', 'o']), (['k', 'o', 'v', 'e', 't', 'k', 'e', 'z', 'o', ' ', 'h', 'o', 'n', 'a', 'p'], ['i', 'n', ' ', '1', ' ', 'm', 'o', 'n', 't', 'h']), (['k', 'o', 'v', 'e', 't', 'k', 'e', 'z', 'o', ' ', 'h', 'e', 't'], ['i', 'n', ' ', '1', ' ', 'w', 'e', 'e', 'k']), (['k', 'o', 'v', 'e', 't', 'k', 'e', 'z', 'o', ' ', 'e', 'v'], ['i', 'n', ' ', '1', ' ', 'y', 'e', 'a', 'r']), (['e', 'l', 'o', 'z', 'o', ' ', 'h', 'o', 'n', 'a', 'p'], ['1', ' ', 'm', 'o', 'n', 't', 'h', ' ', 'a', 'g', 'o']), (['t', 'e', 'g', 'n', 'a', 'p', 'e', 'l', 'o', 't', 't'], ['2', ' ', 'd', 'a', 'y', ' ', 'a', 'g', 'o']), (['e', 'z', ' ', 'a', ' ', 'h', 'o', 'n', 'a', 'p'], ['0', ' ', 'm', 'o', 'n', 't', 'h', ' ', 'a', 'g', 'o']), (['e', 'l', 'o', 'z', 'o', ' ', 'h', 'e', 't'], ['1', ' ', 'w', 'e', 'e', 'k', ' ', 'a', 'g', 'o']), (['e', 'l', 'o', 'z', 'o', ' ', 'e', 'v'], ['1', ' ', 'y', 'e', 'a', 'r', ' ', 'a', 'g', 'o']), (['e', 'z', ' ', 'a', ' ', 'h', 'e', 't'], ['0', ' ', 'w', 'e', 'e', 'k', ' ', 'a', 'g', 'o']), (['e', 'z', ' ', 'a', 'z', ' ', 'e', 'v'], ['0', ' ', 'y', 'e', 'a', 'r', ' ', 'a', 'g', 'o']), (['h', 'o', 'l', 'n', 'a', 'p'], ['i', 'n', ' ', '1', ' ', 'd', 'a', 'y']), (['t', 'e', 'g', 'n', 'a', 'p'], ['1', ' ', 'd', 'a', 'y', ' ', 'a', 'g', 'o']), (['m', 'o', 's', 't'], ['0', ' ', 's', 'e', 'c', 'o', 'n', 'd', ' ', 'a', 'g', 'o']), (['m', 'a'], ['0', ' ', 'd', 'a', 'y', ' ', 'a', 'g', 'o'])]

/-- internal/data/hy.go: `hy_Locale`, dictionary. -/
def hyDict : LangData where
  name := ['h', 'y']
  translations := [(['դ', 'ե', 'կ', 'տ', 'ե', 'մ', 'բ', 'ե', 'ր', 'ի'], [['d', 'e', 'c', 'e', 'm', 'b', 'e', 'r']]), (['ե', 'ր', 'կ', 'ո', 'ւ', 'շ', 'ա', 'բ', 'թ', 'ի'], [['m', 'o', 'n', 'd', 'a', 'y']]), (['հ', 'ո', 'կ', 'տ', 'ե', 'մ', 'բ', 'ե', 'ր', 'ի'], [['o', 'c', 't', 'o', 'b', 'e', 'r']]), (['չ', 'ո', 'ր', 'ե', 'ք', 'շ', 'ա', 'բ', 'թ', 'ի'], [['w', 'e', 'd', 'n', 'e', 's', 'd', 'a', 'y']]), (['ս', 'ե', 'պ', 'տ', 'ե', 'մ', 'բ', 'ե', 'ր', 'ի'], [['s', 'e', 'p', 't', 'e', 'm', 'b', 'e', 'r']]), (['դ', 'ե', 'կ', 'տ', 'ե', 'մ', 'բ', 'ե', 'ր'], [['d', 'e', 'c', 'e', 'm', 'b', 'e', 'r']]), (['ե', 'ր', 'ե', 'ք', 'շ', 'ա', 'բ', 'թ', 'ի'], [['t', 'u', 'e', 's', 'd', 'a', 'y']]), (['հ', 'ի', 'ն', 'գ', 'շ', 'ա', 'բ', 'թ', 'ի'], [['t', 'h', 'u', 'r', 's', 'd', 'a', 'y']]), (['հ', 'ո', 'կ', 'տ', 'ե', 'մ', 'բ', 'ե', 'ր'], [['o', 'c', 't', 'o', 'b', 'e', 'r']]), (['ն', 'ո', 'յ', 'ե', 'մ', 'բ', 'ե', 'ր', 'ի'], [['n', 'o', 'v', 'e', 'm', 'b', 'e', 'r']]), (['ս', 'ե', 'պ', 'տ', 'ե', 'մ', 'բ', 'ե', 'ր'], [['s', 'e', 'p', 't', 'e', 'm', 'b', 'e', 'r']]), (['հ', 'ո', 'ւ', 'ն', 'վ', 'ա', 'ր', 'ի'], [['j', 'a', 'n', 'u', 'a', 'r', 'y']]), (['ն', 'ո', 'յ', 'ե', 'մ', 'բ', 'ե', 'ր'], [['n', 'o', 'v', 'e', 'm', 'b', 'e', 'r']]), (['վ', 'ա', 'յ', 'ր', 'կ', 'յ', 'ա', 'ն'], [['s', 'e', 'c', 'o', 'n', 'd']]), (['փ', 'ե', 'տ', 'ր', 'վ', 'ա', 'ր', 'ի'], [['f', 'e', 'b', 'r', 'u', 'a', 'r', 'y']]), (['օ', 'գ', 'ո', 'ս', 'տ', 'ո', 'ս', 'ի'], [['a', 'u', 'g', 'u', 's', 't']]), (['հ', 'ո', 'ւ', 'լ', 'ի', 'ս', 'ի'], [['j', 'u', 'l', 'y']]), (['հ', 'ո', 'ւ', 'ն', 'ի', 'ս', 'ի'], [['j', 'u', 'n', 'e']]), (['հ', 'ո', 'ւ', 'ն', 'վ', 'ա', 'ր'], [['j', 'a', 'n', 'u', 'a', 'r', 'y']]), (['փ', 'ե', 'տ', 'ր', 'վ', 'ա', 'ր'], [['f', 'e', 'b', 'r', 'u', 'a', 'r', 'y']]), (['օ', 'գ', 'ո', 'ս', 'տ', 'ո', 'ս'], [['a', 'u', 'g', 'u', 's', 't']]), (['ա', 'պ', 'ր', 'ի', 'լ', 'ի'], [['a', 'p', 'r', 'i', 'l']]), (['կ', 'ի', 'ր', 'ա', 'կ', 'ի'], [['s', 'u', 'n', 'd', 'a', 'y']]), (['հ', 'ո', 'ւ', 'լ', 'ի', 'ս'], [['j', 'u', 'l', 'y']]), (['հ', 'ո', 'ւ', 'ն', 'ի', 'ս'], [['j', 'u', 'n', 'e']]), (['մ', 'ա', 'յ', 'ի', 'ս', 'ի'], [['m', 'a', 'y']]), (['ո', 'ւ', 'ր', 'բ', 'ա', 'թ'], [['f', 'r', 'i', 'd', 'a', 'y']]), (['ա', 'պ', 'ր', 'ի', 'լ'], [['a', 'p', 'r', 'i', 'l']]), (['մ', 'ա', 'յ', 'ի', 'ս'], [['m', 'a', 'y']]), (['մ', 'ա', 'ր', 'տ', 'ի'], [['m', 'a', 'r', 'c', 'h']]), (['շ', 'ա', 'բ', 'ա', 'թ'], [['w', 'e', 'e', 'k'], ['s', 'a', 't', 'u', 'r', 'd', 'a', 'y']]), (['ա', 'մ', 'ի', 'ս'], [['m', 'o', 'n', 't', 'h']]), (['մ', 'ա', 'ր', 'տ'], [['m', 'a', 'r', 'c', 'h']]), (['տ', 'ա', 'ր', 'ի'], [['y', 'e', 'a', 'r']]), (['ր', 'ո', 'պ', 'ե'], [['m', 'i', 'n', 'u', 't', 'e']]), (['g', 'm', 't'], [['g', 'm', 't']]), (['u', 't', 'c'], [['u', 't', 'c']]), (['ա', 'մ', 'ս'], [['m', 'o', 'n', 't', 'h']]), (['ա', 'պ', 'ր'], [['a', 'p', 'r', 'i', 'l']]), (['դ', 'ե', 'կ'], [['d', 'e', 'c', 'e', 'm', 'b', 'e', 'r']]), (['ե', 'ր', 'կ'], [['m', 'o', 'n', 'd', 'a', 'y']]), (['ե', 'ր', 'ք'], [['t', 'u', 'e', 's', 'd', 'a', 'y']]), (['ժ', 'ա', 'մ'], [['h', 'o', 'u', 'r']]), (['կ', 'ի', 'ր'], [['s', 'u', 'n', 'd', 'a', 'y']]), (['հ', 'լ', 'ս'], [['j', 'u', 'l', 'y']]), (['հ', 'ն', 'գ'], [['t', 'h', 'u', 'r', 's', 'd', 'a', 'y']]), (['հ', 'ն', 'ս'], [['j', 'u', 'n', 'e']]), (['հ', 'ն', 'վ'], [['j', 'a', 'n', 'u', 'a', 'r', 'y']]), (['հ', 'ո', 'կ'], [['o', 'c', 't', 'o', 'b', 'e', 'r']]), (['մ', 'յ', 'ս'], [['m', 'a', 'y']]), (['մ', 'ր', 'տ'], [['m', 'a', 'r', 'c', 'h']]), (['ն', 'ո', 'յ'], [['n', 'o', 'v', 'e', 'm', 'b', 'e', 'r']]), (['շ', 'ա', 'բ'], [['w', 'e', 'e', 'k']]), (['շ', 'բ', 'թ'], [['s', 'a', 't', 'u', 'r', 'd', 'a', 'y']]), (['ո', 'ւ', 'ր'], [['f', 'r', 'i', 'd', 'a', 'y']]), (['չ', 'ր', 'ք'], [['w', 'e', 'd', 'n', 'e', 's', 'd', 'a', 'y']]), (['ս', 'ե', 'պ'], [['s', 'e', 'p', 't', 'e', 'm', 'b', 'e', 'r']]), (['փ', 'տ', 'վ'], [['f', 'e', 'b', 'r', 'u', 'a', 'r', 'y']]), (['օ', 'գ', 'ս'], [['a', 'u', 'g', 'u', 's', 't']]), (['a', 'm'], [['a', 'm']]), (['p', 'm'], [['p', 'm']]), (['կ', 'ա'], [['a', 'm']]), (['կ', 'հ'], [['p', 'm']]), (['օ', 'ր'], [['d', 'a', 'y']]), ([' '], [[' ']]), (['\''], [[]]), (['+'], [['+']]), ([','], [[]]), (['-'], [['-']]), (['.'], [['.']]), (['/'], [['/']]), ([':'], [[':']]), ([';'], [[]]), (['@'], [[]]), (['['], [[]]), ([']'], [[]]), (['z'], [['z']]), (['|'], [[]]), (['ժ'], [['h', 'o', 'u', 'r']]), (['վ'], [['s', 'e', 'c', 'o', 'n', 'd']]), (['տ'], [['y', 'e', 'a', 'r']]), (['ր'], [['m', 'i', 'n', 'u', 't', 'e']])]
  relativeType := [(['հ', 'ա', 'ջ', 'ո', 'ր', 'դ', ' ', 'շ', 'ա', 'բ', 'ա', 'թ'], ['i', 'n', ' ', '1', ' ', 'w', 'e', 'e', 'k']), (['ն', 'ա', 'խ', 'ո', 'ր', 'դ', ' ', 'շ', 'ա', 'բ', 'ա', 'թ'], ['1', ' ', 'w', 'e', 'e', 'k', ' ', 'a', 'g', 'o']), (['ա', 'ն', 'ց', 'յ', 'ա', 'լ', ' ', 'ա', 'մ', 'ի', 'ս'], ['1', ' ', 'm', 'o', 'n', 't', 'h', ' ', 'a', 'g', 'o']), (['հ', 'ա', 'ջ', 'ո', 'ր', 'դ', ' ', 'ա', 'մ', 'ի', 'ս'], ['i', 'n', ' ', '1', ' ', 'm', 'o', 'n', 't', 'h']), (['հ', 'ա', 'ջ', 'ո', 'ր', 'դ', ' ', 'տ', 'ա', 'ր', 'ի'], ['i', 'n', ' ', '1', ' ', 'y', 'e', 'a', 'r']), (['ն', 'ա', 'խ', 'ո', 'ր', 'դ', ' ', 'ա', 'մ', 'ի', 'ս'], ['1', ' ', 'm', 'o', 'n', 't', 'h', ' ', 'a', 'g', 'o']), (['ն', 'ա', 'խ', 'ո', 'ր', 'դ', ' ', 'տ', 'ա', 'ր', 'ի'], ['1', ' ', 'y', 'e', 'a', 'r', ' ', 'a', 'g', 'o']), (['ա', 'յ', 'ս', ' ', 'ր', 'ո', 'պ', 'ե', 'ի', 'ն'], ['0', ' ', 'm', 'i', 'n', 'u', 't', 'e', ' ', 'a', 'g', 'o']), (['ա', 'յ', 'ս', ' ', 'ժ', 'ա', 'մ', 'ի', 'ն'], ['0', ' ', 'h', 'o', 'u', 'r', ' ', 'a', 'g', 'o']), (['ա', 'յ', 'ս', ' ', 'շ', 'ա', 'բ', 'ա', 'թ'], ['0', ' ', 'w', 'e', 'e', 'k', ' ', 'a', 'g', 'o']), (['ա', 'յ', 'ս', ' ', 'ա', 'մ', 'ի', 'ս'], ['0', ' ', 'm', 'o', 'n', 't', 'h', ' ', 'a', 'g', 'o']), (['ա', 'յ', 'ս', ' ', 'տ', 'ա', 'ր', 'ի'], ['0', ' ', 'y', 'e', 'a', 'r', ' ', 'a', 'g', 'o']), (['ա', 'յ', 'ս', 'օ', 'ր'], ['0', ' ', 'd', 'a', 'y', ' ', 'a', 'g', 'o']), (['ա', 'յ', 'ժ', 'մ'], ['0', ' ', 's', 'e', 'c', 'o', 'n', 'd', ' ', 'a', 'g', 'o']), (['ե', 'ր', 'ե', 'կ'], ['1', ' ', 'd', 'a', 'y', ' ', 'a', 'g', 'o']), (['վ', 'ա', 'ղ', 'ը'], ['i', 'n', ' ', '1', ' ', 'd', 'a', 'y'])]

end Verif.Data
