import Verif.Model.Pattern
/-! GENERATED by tools/gen_dicts.py from /repo/internal/data; do not edit. -/
set_option autoImplicit false
set_option maxRecDepth 100000
namespace Verif.Data
open Verif.Model

/-- internal/data/nb.go: `nb_SJ_Locale`, dictionary. -/
def nb_SJDict : LangData where
  name := ['n', 'b', '-', 'S', 'J']

/-- internal/data/nd.go: `nd_Locale`, dictionary. -/
def ndDict : LangData where
  name := ['n', 'd']
  translations := [(['i', 'n', 'y', 'a', 'n', 'g', 'a', 'c', 'a', 'l', 'e'], [['m', 'o', 'n', 't', 'h']]), (['n', 'c', 'w', 'a', 'b', 'a', 'k', 'a', 'z', 'i'], [['a', 'u', 'g', 'u', 's', 't']]), (['n', 'k', 'w', 'e', 'n', 'k', 'w', 'e', 'z', 'i'], [['m', 'a', 'y']]), (['z', 'i', 'b', 'a', 'n', 'd', 'l', 'e', 'l', 'a'], [['j', 'a', 'n', 'u', 'a', 'r', 'y']]), (['m', 'b', 'i', 'm', 'b', 'i', 't', 'h', 'o'], [['m', 'a', 'r', 'c', 'h']]), (['m', 'p', 'a', 'l', 'a', 'k', 'a', 'z', 'i'], [['d', 'e', 'c', 'e', 'm', 'b', 'e', 'r']]), (['n', 'h', 'l', 'a', 'n', 'g', 'u', 'l', 'a'], [['j', 'u', 'n', 'e']]), (['n', 'h', 'l', 'o', 'l', 'a', 'n', 'j', 'a'], [['f', 'e', 'b', 'r', 'u', 'a', 'r', 'y']]), (['n', 't', 'u', 'l', 'i', 'k', 'a', 'z', 'i'], [['j', 'u', 'l', 'y']]), (['i', 's', 'e', 'k', 'e', 'n', 'd', 'i'], [['s', 'e', 'c', 'o', 'n', 'd']]), (['m', 'g', 'q', 'i', 'b', 'e', 'l', 'o'], [['s', 'a', 't', 'u', 'r', 'd', 'a', 'y']]), (['m', 'p', 'a', 'n', 'd', 'u', 'l', 'a'], [['s', 'e', 'p', 't', 'e', 'm', 'b', 'e', 'r']]), (['s', 'i', 't', 'h', 'a', 't', 'h', 'u'], [['w', 'e', 'd', 'n', 'e', 's', 'd', 'a', 'y']]), (['s', 'i', 'h', 'l', 'a', 'n', 'u'], [['f', 'r', 'i', 'd', 'a', 'y']]), (['u', 'm', 'n', 'y', 'a', 'k', 'a'], [['y', 'e', 'a', 'r']]), (['u', 'm', 'u', 'z', 'u', 'z', 'u'], [['m', 'i', 'n', 'u', 't', 'e']]), (['i', 'l', 'a', 'n', 'g', 'a'], [['d', 'a', 'y']]), (['m', 'a', 'b', 'a', 's', 'a'], [['a', 'p', 'r', 'i', 'l']]), (['m', 'f', 'u', 'm', 'f', 'u'], [['o', 'c', 't', 'o', 'b', 'e', 'r']]), (['s', 'i', 'b', 'i', 'l', 'i'], [['t', 'u', 'e', 's', 'd', 'a', 'y']]), (['i', 'h', 'o', 'l', 'a'], [['h', 'o', 'u', 'r']]), (['i', 'v', 'i', 'k', 'i'], [['w', 'e', 'e', 'k']]), (['l', 'w', 'e', 'z', 'i'], [['n', 'o', 'v', 'e', 'm', 'b', 'e', 'r']]), (['m', 'v', 'u', 'l', 'o'], [['m', 'o', 'n', 'd', 'a', 'y']]), (['s', 'o', 'n', 't', 'o'], [['s', 'u', 'n', 'd', 'a', 'y']]), (['m', 'p', 'a', 'l'], [['d', 'e', 'c', 'e', 'm', 'b', 'e', 'r']]), (['m', 'p', 'a', 'n'], [['s', 'e', 'p', 't', 'e', 'm', 'b', 'e', 'r']]), (['n', 'h', 'l', 'a'], [['j', 'u', 'n', 'e']]), (['n', 'h', 'l', 'o'], [['f', 'e', 'b', 'r', 'u', 'a', 'r', 'y']]), (['s', 'i', 'n', 'e'], [['t', 'h', 'u', 'r', 's', 'd', 'a', 'y']]), (['g', 'm', 't'], [['g', 'm', 't']]), (['l', 'w', 'e'], [['n', 'o', 'v', 'e', 'm', 'b', 'e', 'r']]), (['m', 'a', 'b'], [['a', 'p', 'r', 'i', 'l']]), (['m', 'b', 'i'], [['m', 'a', 'r', 'c', 'h']]), (['m', 'f', 'u'], [['o', 'c', 't', 'o', 'b', 'e', 'r']]), (['m', 'g', 'q'], [['s', 'a', 't', 'u', 'r', 'd', 'a', 'y']]), (['m', 'v', 'u'], [['m', 'o', 'n', 'd', 'a', 'y']]), (['n', 'c', 'w'], [['a', 'u', 'g', 'u', 's', 't']]), (['n', 'k', 'w'], [['m', 'a', 'y']]), (['n', 't', 'u'], [['j', 'u', 'l', 'y']]), (['s', 'i', 'b'], [['t', 'u', 'e', 's', 'd', 'a', 'y']]), (['s', 'i', 'h'], [['f', 'r', 'i', 'd', 'a', 'y']]), (['s', 'i', 'n'], [['t', 'h', 'u', 'r', 's', 'd', 'a', 'y']]), (['s', 'i', 't'], [['w', 'e', 'd', 'n', 'e', 's', 'd', 'a', 'y']]), (['s', 'o', 'n'], [['s', 'u', 'n', 'd', 'a', 'y']]), (['u', 't', 'c'], [['u', 't', 'c']]), (['z', 'i', 'b'], [['j', 'a', 'n', 'u', 'a', 'r', 'y']]), (['a', 'm'], [['a', 'm']]), (['p', 'm'], [['p', 'm']]), ([' '], [[' ']]), (['\''], [[]]), (['+'], [['+']]), ([','], [[]]), (['-'], [['-']]), (['.'], [['.']]), (['/'], [['/']]), ([':'], [[':']]), ([';'], [[]]), (['@'], [[]]), (['['], [[]]), ([']'], [[]]), (['z'], [['z']]), (['|'], [[]])]
  relativeType := [(['t', 'h', 'i', 's', ' ', 'm', 'i', 'n', 'u', 't', 'e'], ['0', ' ', 'm', 'i', 'n', 'u', 't', 'e', ' ', 'a', 'g', 'o']), (['l', 'a', 's', 't', ' ', 'm', 'o', 'n', 't', 'h'], ['1', ' ', 'm', 'o', 'n', 't', 'h', ' ', 'a', 'g', 'o']), (['n', 'e', 'x', 't', ' ', 'm', 'o', 'n', 't', 'h'], ['i', 'n', ' ', '1', ' ', 'm', 'o', 'n', 't', 'h']), (['t', 'h', 'i', 's', ' ', 'm', 'o', 'n', 't', 'h'], ['0', ' ', 'm', 'o', 'n', 't', 'h', ' ', 'a', 'g', 'o']), (['l', 'a', 's', 't', ' ', 'w', 'e', 'e', 'k'], ['1', ' ', 'w', 'e', 'e', 'k', ' ', 'a', 'g', 'o']), (['l', 'a', 's', 't', ' ', 'y', 'e', 'a', 'r'], ['1', ' ', 'y', 'e', 'a', 'r', ' ', 'a', 'g', 'o']), (['n', 'e', 'x', 't', ' ', 'w', 'e', 'e', 'k'], ['i', 'n', ' ', '1', ' ', 'w', 'e', 'e', 'k']), (['n', 'e', 'x', 't', ' ', 'y', 'e', 'a', 'r'], ['i', 'n', ' ', '1', ' ', 'y', 'e', 'a', 'r']), (['t', 'h', 'i', 's', ' ', 'h', 'o', 'u', 'r'], ['0', ' ', 'h', 'o', 'u', 'r', ' ', 'a', 'g', 'o']), (['t', 'h', 'i', 's', ' ', 'w', 'e', 'e', 'k'], ['0', ' ', 'w', 'e', 'e', 'k', ' ', 'a', 'g', 'o']), (['t', 'h', 'i', 's', ' ', 'y', 'e', 'a', 'r'], ['0', ' ', 'y', 'e', 'a', 'r', ' ', 'a', 'g', 'o']), (['l', 'a', 'm', 'u', 'h', 'l', 'a'], ['0', ' ', 'd', 'a', 'y', ' ', 'a', 'g', 'o']), (['k', 'u', 's', 'a', 's', 'a'], ['i', 'n', ' ', '1', ' ', 'd', 'a', 'y']), (['i', 'z', 'o', 'l', 'o'], ['1', ' ', 'd', 'a', 'y', ' ', 'a', 'g', 'o']), (['n', 'o', 'w'], ['0', ' ', 's', 'e', 'c', 'o', 'n', 'd', ' ', 'a', 'g', 'o'])]

/-- internal/data/ne.go: `ne_Locale`, dictionary. -/
def neDict : LangData where
  name := ['n', 'e']
  translations := [(['ब', 'ि', 'ह', 'ि', 'ब', 'ा', 'र'], [['t', 'h', 'u', 'r', 's', 'd', 'a', 'y']]), (['म', 'ङ', 'ग', 'ल', 'ब', 'ा', 'र'], [['t', 'u', 'e', 's', 'd', 'a', 'y']]), (['अ', 'क', 'ट', 'ो', 'ब', 'र'], [['o', 'c', 't', 'o', 'b', 'e', 'r']]), (['अ', 'प', 'र', 'ा', 'ह', 'न'], [['p', 'm']]), (['आ', 'इ', 'त', 'ब', 'ा', 'र'], [['s', 'u', 'n', 'd', 'a', 'y']]), (['ड', 'ि', 'स', 'म', 'ब', 'र'], [['d', 'e', 'c', 'e', 'm', 'b', 'e', 'r']]), (['न', 'ो', 'भ', 'म', 'ब', 'र'], [['n', 'o', 'v', 'e', 'm', 'b', 'e', 'r']]), (['प', 'र', 'व', 'ा', 'ह', 'न'], [['a', 'm']]), (['फ', 'ब', 'र', 'अ', 'र', 'ी'], [['f', 'e', 'b', 'r', 'u', 'a', 'r', 'y']]), (['श', 'क', 'र', 'ब', 'ा', 'र'], [['f', 'r', 'i', 'd', 'a', 'y']]), (['श', 'न', 'ि', 'ब', 'ा', 'र'], [['s', 'a', 't', 'u', 'r', 'd', 'a', 'y']]), (['स', 'प', 'ट', 'म', 'ब', 'र'], [['s', 'e', 'p', 't', 'e', 'm', 'b', 'e', 'r']]), (['स', 'ो', 'म', 'ब', 'ा', 'र'], [['m', 'o', 'n', 'd', 'a', 'y']]), (['अ', 'प', 'र', 'ि', 'ल'], [['a', 'p', 'r', 'i', 'l']]), (['ज', 'न', 'व', 'र', 'ी'], [['j', 'a', 'n', 'u', 'a', 'r', 'y']]), (['ब', 'ध', 'ब', 'ा', 'र'], [['w', 'e', 'd', 'n', 'e', 's', 'd', 'a', 'y']]), (['म', 'ह', 'ि', 'न', 'ा'], [['m', 'o', 'n', 't', 'h']]), (['अ', 'ग', 'स', 'ट'], [['a', 'u', 'g', 'u', 's', 't']]), (['घ', 'ण', 'ट', 'ा'], [['h', 'o', 'u', 'r']]), (['ज', 'ल', 'ा', 'ई'], [['j', 'u', 'l', 'y']]), (['ब', 'ि', 'ह', 'ि'], [['t', 'h', 'u', 'r', 's', 'd', 'a', 'y']]), (['म', 'ङ', 'ग', 'ल'], [['t', 'u', 'e', 's', 'd', 'a', 'y']]), (['म', 'ा', 'र', 'च'], [['m', 'a', 'r', 'c', 'h']]), (['म', 'ि', 'न', 'ट'], [['m', 'i', 'n', 'u', 't', 'e']]), (['स', 'क', 'न', 'ड'], [['s', 'e', 'c', 'o', 'n', 'd']]), (['ह', 'प', 'त', 'ा'], [['w', 'e', 'e', 'k']]), (['g', 'm', 't'], [['g', 'm', 't']]), (['u', 't', 'c'], [['u', 't', 'c']]), (['आ', 'इ', 'त'], [['s', 'u', 'n', 'd', 'a', 'y']]), (['ब', 'र', 'ष'], [['y', 'e', 'a', 'r']]), (['ब', 'ा', 'र'], [['d', 'a', 'y']]), (['व', 'र', 'ष'], [['y', 'e', 'a', 'r']]), (['श', 'क', 'र'], [['f', 'r', 'i', 'd', 'a', 'y']]), (['श', 'न', 'ि'], [['s', 'a', 't', 'u', 'r', 'd', 'a', 'y']]), (['स', 'ो', 'म'], [['m', 'o', 'n', 'd', 'a', 'y']]), (['a', 'm'], [['a', 'm']]), (['p', 'm'], [['p', 'm']]), (['ज', 'न'], [['j', 'u', 'n', 'e']]), (['ब', 'ध'], [['w', 'e', 'd', 'n', 'e', 's', 'd', 'a', 'y']]), (['म', 'ई'], [['m', 'a', 'y']]), ([' '], [[' ']]), (['\''], [[]]), (['+'], [['+']]), ([','], [[]]), (['-'], [['-']]), (['.'], [['.']]), (['/'], [['/']]), ([':'], [[':']]), ([';'], [[]]), (['@'], [[]]), (['['], [[]]), ([']'], [[]]), (['z'], [['z']]), (['|'], [[]]), (['म'], [['m', 'a', 'y']])]
  relativeType := [(['अ', 'र', 'क', 'ो', ' ', 'म', 'ह', 'ि', 'न', 'ा'], ['i', 'n', ' ', '1', ' ', 'm', 'o', 'n', 't', 'h']), (['य', 'ह', 'ी', ' ', 'म', 'ि', 'न', 'ट', 'म', 'ा'], ['0', ' ', 'm', 'i', 'n', 'u', 't', 'e', ' ', 'a', 'g', 'o']), (['अ', 'र', 'क', 'ो', ' ', 'व', 'र', 'ष'], ['i', 'n', ' ', '1', ' ', 'y', 'e', 'a', 'r']), (['आ', 'उ', 'न', ' ', 'ह', 'प', 'त', 'ा'], ['i', 'n', ' ', '1', ' ', 'w', 'e', 'e', 'k']), (['ग', 'त', ' ', 'म', 'ह', 'ि', 'न', 'ा'], ['1', ' ', 'm', 'o', 'n', 't', 'h', ' ', 'a', 'g', 'o']), (['य', 'ो', ' ', 'घ', 'ड', 'ी', 'म', 'ा'], ['0', ' ', 'h', 'o', 'u', 'r', ' ', 'a', 'g', 'o']), (['य', 'ो', ' ', 'म', 'ह', 'ि', 'न', 'ा'], ['0', ' ', 'm', 'o', 'n', 't', 'h', ' ', 'a', 'g', 'o']), (['ग', 'त', ' ', 'ह', 'प', 'त', 'ा'], ['1', ' ', 'w', 'e', 'e', 'k', ' ', 'a', 'g', 'o']), (['य', 'ो', ' ', 'ह', 'प', 'त', 'ा'], ['0', ' ', 'w', 'e', 'e', 'k', ' ', 'a', 'g', 'o']), (['ग', 'त', ' ', 'व', 'र', 'ष'], ['1', ' ', 'y', 'e', 'a', 'r', ' ', 'a', 'g', 'o']), (['य', 'ो', ' ', 'व', 'र', 'ष'], ['0', ' ', 'y', 'e', 'a', 'r', ' ', 'a', 'g', 'o']), (['भ', 'ो', 'ल', 'ि'], ['i', 'n', ' ', '1', ' ', 'd', 'a', 'y']), (['ह', 'ि', 'ज', 'ो'], ['1', ' ', 'd', 'a', 'y', ' ', 'a', 'g', 'o']), (['अ', 'ब'], ['0', ' ', 's', 'e', 'c', 'o', 'n', 'd', ' ', 'a', 'g', 'o']), (['आ', 'ज'], ['0', ' ', 'd', 'a', 'y', ' ', 'a', 'g', 'o'])]

/-- internal/data/ne.go: `ne_IN_Locale`, dictionary. -/
def ne_INDict : LangData where
  name := ['n', 'e', '-', 'I', 'N']

/-- internal/data/nl.go: `nl_Locale`, dictionary. -/
def nlDict : LangData where
  name := ['n', 'l']
  splitterGroup := 1
  translations := [(['d', 'o', 'n', 'd', 'e', 'r', 'd', 'a', 'g'], [['t', 'h', 'u', 'r', 's', 'd', 'a', 'y']]), (['s', 'e', 'p', 't', 'e', 'm', 'b', 'e', 'r'], [['s', 'e', 'p', 't', 'e', 'm', 'b', 'e', 'r']]), (['a', 'u', 'g', 'u', 's', 't', 'u', 's'], [['a', 'u', 'g', 'u', 's', 't']]), (['d', 'e', 'c', 'e', 'm', 'b', 'e', 'r'], [['d', 'e', 'c', 'e', 'm', 'b', 'e', 'r']]), (['f', 'e', 'b', 'r', 'u', 'a', 'r', 'i'], [['f', 'e', 'b', 'r', 'u', 'a', 'r', 'y']]), (['n', 'o', 'v', 'e', 'm', 'b', 'e', 'r'], [['n', 'o', 'v', 'e', 'm', 'b', 'e', 'r']]), (['s', 'e', 'c', 'o', 'n', 'd', 'e', 'n'], [['s', 'e', 'c', 'o', 'n', 'd']]), (['w', 'o', 'e', 'n', 's', 'd', 'a', 'g'], [['w', 'e', 'd', 'n', 'e', 's', 'd', 'a', 'y']]), (['z', 'a', 't', 'e', 'r', 'd', 'a', 'g'], [['s', 'a', 't', 'u', 'r', 'd', 'a', 'y']]), (['d', 'i', 'n', 's', 'd', 'a', 'g'], [['t', 'u', 'e', 's', 'd', 'a', 'y']]), (['g', 'e', 'l', 'e', 'd', 'e', 'n'], [['a', 'g', 'o']]), (['j', 'a', 'n', 'u', 'a', 'r', 'i'], [['j', 'a', 'n', 'u', 'a', 'r', 'y']]), (['m', 'a', 'a', 'n', 'd', 'a', 'g'], [['m', 'o', 'n', 'd', 'a', 'y']]), (['m', 'a', 'a', 'n', 'd', 'e', 'n'], [['m', 'o', 'n', 't', 'h']]), (['m', 'i', 'n', 'u', 't', 'e', 'n'], [['m', 'i', 'n', 'u', 't', 'e']]), (['o', 'k', 't', 'o', 'b', 'e', 'r'], [['o', 'c', 't', 'o', 'b', 'e', 'r']]), (['s', 'e', 'c', 'o', 'n', 'd', 'e'], [['s', 'e', 'c', 'o', 'n', 'd']]), (['v', 'r', 'i', 'j', 'd', 'a', 'g'], [['f', 'r', 'i', 'd', 'a', 'y']]), (['m', 'i', 'n', 'u', 'u', 't'], [['m', 'i', 'n', 'u', 't', 'e']]), (['z', 'o', 'n', 'd', 'a', 'g'], [['s', 'u', 'n', 'd', 'a', 'y']]), (['a', 'p', 'r', 'i', 'l'], [['a', 'p', 'r', 'i', 'l']]), (['d', 'a', 'g', 'e', 'n'], [['d', 'a', 'y']]), (['m', 'a', 'a', 'n', 'd'], [['m', 'o', 'n', 't', 'h']]), (['m', 'a', 'a', 'r', 't'], [['m', 'a', 'r', 'c', 'h']]), (['w', 'e', 'k', 'e', 'n'], [['w', 'e', 'e', 'k']]), (['j', 'a', 'a', 'r'], [['y', 'e', 'a', 'r']]), (['j', 'u', 'l', 'i'], [['j', 'u', 'l', 'y']]), (['j', 'u', 'n', 'i'], [['j', 'u', 'n', 'e']]), (['w', 'e', 'e', 'k'], [['w', 'e', 'e', 'k']]), (['a', 'p', 'r'], [['a', 'p', 'r', 'i', 'l']]), (['a', 'u', 'g'], [['a', 'u', 'g', 'u', 's', 't']]), (['d', 'a', 'g'], [['d', 'a', 'y']]), (['d', 'e', 'c'], [['d', 'e', 'c', 'e', 'm', 'b', 'e', 'r']]), (['f', 'e', 'b'], [['f', 'e', 'b', 'r', 'u', 'a', 'r', 'y']]), (['g', 'm', 't'], [['g', 'm', 't']]), (['j', 'a', 'n'], [['j', 'a', 'n', 'u', 'a', 'r', 'y']]), (['j', 'u', 'l'], [['j', 'u', 'l', 'y']]), (['j', 'u', 'n'], [['j', 'u', 'n', 'e']]), (['m', 'e', 'i'], [['m', 'a', 'y']]), (['m', 'i', 'n'], [['m', 'i', 'n', 'u', 't', 'e']]), (['m', 'n', 'd'], [['m', 'o', 'n', 't', 'h']]), (['m', 'r', 't'], [['m', 'a', 'r', 'c', 'h']]), (['n', 'o', 'v'], [['n', 'o', 'v', 'e', 'm', 'b', 'e', 'r']]), (['o', 'k', 't'], [['o', 'c', 't', 'o', 'b', 'e', 'r']]), (['s', 'e', 'c'], [['s', 'e', 'c', 'o', 'n', 'd']]), (['s', 'e', 'p'], [['s', 'e', 'p', 't', 'e', 'm', 'b', 'e', 'r']]), (['u', 't', 'c'], [['u', 't', 'c']]), (['u', 'u', 'r'], [['h', 'o', 'u', 'r']]), (['a', 'm'], [['a', 'm']]), (['d', 'i'], [['t', 'u', 'e', 's', 'd', 'a', 'y']]), (['d', 'o'], [['t', 'h', 'u', 'r', 's', 'd', 'a', 'y']]), (['i', 'n'], [['i', 'n']]), (['j', 'r'], [['y', 'e', 'a', 'r']]), (['m', 'a'], [['m', 'o', 'n', 'd', 'a', 'y']]), (['o', 'm'], [[]]), (['p', 'm'], [['p', 'm']]), (['v', 'r'], [['f', 'r', 'i', 'd', 'a', 'y']]), (['w', 'k'], [['w', 'e', 'e', 'k']]), (['w', 'o'], [['w', 'e', 'd', 'n', 'e', 's', 'd', 'a', 'y']]), (['z', 'a'], [['s', 'a', 't', 'u', 'r', 'd', 'a', 'y']]), (['z', 'o'], [['s', 'u', 'n', 'd', 'a', 'y']]), ([' '], [[' ']]), (['\''], [[]]), (['+'], [['+']]), ([','], [[]]), (['-'], [['-']]), (['.'], [['.']]), (['/'], [['/']]), ([':'], [[':']]), ([';'], [[]]), (['@'], [[]]), (['['], [[]]), ([']'], [[]]), (['s'], [['s', 'e', 'c', 'o', 'n', 'd']]), (['z'], [['z']]), (['|'], [[]])]
  relativeType := [(['b', 'i', 'n', 'n', 'e', 'n', ' ', 'e', 'e', 'n', ' ', 'm', 'i', 'n', 'u', 'u', 't'], ['0', ' ', 'm', 'i', 'n', 'u', 't', 'e', ' ', 'a', 'g', 'o']), (['b', 'i', 'n', 'n', 'e', 'n', ' ', 'e', 'e', 'n', ' ', 'u', 'u', 'r'], ['0', ' ', 'h', 'o', 'u', 'r', ' ', 'a', 'g', 'o']), (['v', 'o', 'l', 'g', 'e', 'n', 'd', 'e', ' ', 'm', 'a', 'a', 'n', 'd'], ['i', 'n', ' ', '1', ' ', 'm', 'o', 'n', 't', 'h']), (['v', 'o', 'l', 'g', 'e', 'n', 'd', 'e', ' ', 'w', 'e', 'e', 'k'], ['i', 'n', ' ', '1', ' ', 'w', 'e', 'e', 'k']), (['v', 'o', 'l', 'g', 'e', 'n', 'd', ' ', 'j', 'a', 'a', 'r'], ['i', 'n', ' ', '1', ' ', 'y', 'e', 'a', 'r']), (['v', 'o', 'r', 'i', 'g', 'e', ' ', 'm', 'a', 'a', 'n', 'd'], ['1', ' ', 'm', 'o', 'n', 't', 'h', ' ', 'a', 'g', 'o']), (['e', 'e', 'r', 'g', 'i', 's', 't', 'e', 'r', 'e', 'n'], ['2', ' ', 'd', 'a', 'y', ' ', 'a', 'g', 'o']), (['v', 'o', 'r', 'i', 'g', 'e', ' ', 'j', 'a', 'a', 'r'], ['1', ' ', 'y', 'e', 'a', 'r', ' ', 'a', 'g', 'o']), (['v', 'o', 'r', 'i', 'g', 'e', ' ', 'w', 'e', 'e', 'k'], ['1', ' ', 'w', 'e', 'e', 'k', ' ', 'a', 'g', 'o']), (['d', 'e', 'z', 'e', ' ', 'm', 'a', 'a', 'n', 'd'], ['0', ' ', 'm', 'o', 'n', 't', 'h', ' ', 'a', 'g', 'o']), (['o', 'v', 'e', 'r', 'm', 'o', 'r', 'g', 'e', 'n'], ['i', 'n', ' ', '2', ' ', 'd', 'a', 'y']), (['v', 'o', 'r', 'i', 'g', ' ', 'j', 'a', 'a', 'r'], ['1', ' ', 'y', 'e', 'a', 'r', ' ', 'a', 'g', 'o']), (['d', 'e', 'z', 'e', ' ', 'w', 'e', 'e', 'k'], ['0', ' ', 'w', 'e', 'e', 'k', ' ', 'a', 'g', 'o']), (['d', 'i', 't', ' ', 'j', 'a', 'a', 'r'], ['0', ' ', 'y', 'e', 'a', 'r', ' ', 'a', 'g', 'o']), (['g', 'i', 's', 't', 'e', 'r', 'e', 'n'], ['1', ' ', 'd', 'a', 'y', ' ', 'a', 'g', 'o']), (['v', 'a', 'n', 'd', 'a', 'a', 'g'], ['0', ' ', 'd', 'a', 'y', ' ', 'a', 'g', 'o']), (['m', 'o', 'r', 'g', 'e', 'n'], ['i', 'n', ' ', '1', ' ', 'd', 'a', 'y']), (['n', 'u'], ['0', ' ', 's', 'e', 'c', 'o', 'n', 'd', ' ', 'a', 'g', 'o'])]

/-- internal/data/nl.go: `nl_AW_Locale`, dictionary. -/
def nl_AWDict : LangData where
  name := ['n', 'l', '-', 'A', 'W']

/-- internal/data/nl.go: `nl_BE_Locale`, dictionary. -/
def nl_BEDict : LangData where
  name := ['n', 'l', '-', 'B', 'E']

/-- internal/data/nl.go: `nl_BQ_Locale`, dictionary. -/
def nl_BQDict : LangData where
  name := ['n', 'l', '-', 'B', 'Q']

/-- internal/data/nl.go: `nl_CW_Locale`, dictionary. -/
def nl_CWDict : LangData where
  name := ['n', 'l', '-', 'C', 'W']

/-- internal/data/nl.go: `nl_SR_Locale`, dictionary. -/
def nl_SRDict : LangData where
  name := ['n', 'l', '-', 'S', 'R']

/-- internal/data/nl.go: `nl_SX_Locale`, dictionary. -/
def nl_SXDict : LangData where
  name := ['n', 'l', '-', 'S', 'X']

/-- internal/data/nmg.go: `nmg_Locale`, dictionary. -/
def nmgDict : LangData where
  name := ['n', 'm', 'g']
  translations := [(['s', 'ɔ', 'n', 'd', 'ɔ', ' ', 'm', 'a', 'f', 'u', ' ', 'm', 'a', 'l', 'a', 'l'], [['w', 'e', 'd', 'n', 'e', 's', 'd', 'a', 'y']]), (['m', 'a', 'b', 'a', 'g', 'a', ' ', 'm', 'a', ' ', 's', 'u', 'k', 'u', 'l'], [['f', 'r', 'i', 'd', 'a', 'y']]), (['n', 'g', 'w', 'ɛ', 'n', ' ', 'w', 'u', 'm', ' ', 'n', 'a', 'v', 'u', 'r'], [['n', 'o', 'v', 'e', 'm', 'b', 'e', 'r']]), (['s', 'ɔ', 'n', 'd', 'ɔ', ' ', 'm', 'a', 'f', 'u', ' ', 'm', 'a', 'b', 'a'], [['t', 'u', 'e', 's', 'd', 'a', 'y']]), (['s', 'ɔ', 'n', 'd', 'ɔ', ' ', 'm', 'a', 'f', 'u', ' ', 'm', 'a', 'n', 'a'], [['t', 'h', 'u', 'r', 's', 'd', 'a', 'y']]), (['n', 'g', 'w', 'ɛ', 'n', ' ', 'h', 'ɛ', 'm', 'b', 'u', 'ɛ', 'r', 'i'], [['j', 'u', 'l', 'y']]), (['n', 'g', 'w', 'ɛ', 'n', ' ', 'm', 'a', 't', 'a', 'h', 'r', 'a'], [['j', 'a', 'n', 'u', 'a', 'r', 'y']]), (['n', 'g', 'w', 'ɛ', 'n', ' ', 'r', 'ɛ', 'b', 'v', 'u', 'a'], [['s', 'e', 'p', 't', 'e', 'm', 'b', 'e', 'r']]), (['n', 'g', 'w', 'ɛ', 'n', ' ', 'l', 'ɔ', 'm', 'b', 'i'], [['a', 'u', 'g', 'u', 's', 't']]), (['n', 'g', 'w', 'ɛ', 'n', ' ', 'n', 'l', 'a', 'l'], [['m', 'a', 'r', 'c', 'h']]), (['n', 'g', 'w', 'ɛ', 'n', ' ', 'n', 'm', 'b', 'a'], [['f', 'e', 'b', 'r', 'u', 'a', 'r', 'y']]), (['n', 'g', 'w', 'ɛ', 'n', ' ', 'n', 't', 'a', 'n'], [['m', 'a', 'y']]), (['n', 'g', 'w', 'ɛ', 'n', ' ', 'n', 't', 'u', 'o'], [['j', 'u', 'n', 'e']]), (['n', 'g', 'w', 'ɛ', 'n', ' ', 'n', 'n', 'a'], [['a', 'p', 'r', 'i', 'l']]), (['n', 'g', 'w', 'ɛ', 'n', ' ', 'w', 'u', 'm'], [['o', 'c', 't', 'o', 'b', 'e', 'r']]), (['k', 'r', 'i', 's', 'i', 'm', 'i', 'n'], [['d', 'e', 'c', 'e', 'm', 'b', 'e', 'r']]), (['s', 'a', 's', 'a', 'd', 'i'], [['s', 'a', 't', 'u', 'r', 'd', 'a', 'y']]), (['m', 'p', 'a', 'l', 'a'], [['m', 'i', 'n', 'u', 't', 'e']]), (['m', 'ɔ', 'n', 'd', 'ɔ'], [['m', 'o', 'n', 'd', 'a', 'y']]), (['n', 'g', 'w', 'ɛ', 'n'], [['m', 'o', 'n', 't', 'h']]), (['n', 'y', 'i', 'ɛ', 'l'], [['s', 'e', 'c', 'o', 'n', 'd']]), (['s', 'ɔ', 'n', 'd', 'ɔ'], [['w', 'e', 'e', 'k'], ['s', 'u', 'n', 'd', 'a', 'y']]), (['k', 'r', 'i', 's'], [['d', 'e', 'c', 'e', 'm', 'b', 'e', 'r']]), (['k', 'u', 'g', 'u'], [['p', 'm']]), (['m', 'a', 'n', 'a'], [['a', 'm']]), (['m', 'b', 'v', 'u'], [['y', 'e', 'a', 'r']]), (['n', 'g', '1', '0'], [['o', 'c', 't', 'o', 'b', 'e', 'r']]), (['n', 'g', '1', '1'], [['n', 'o', 'v', 'e', 'm', 'b', 'e', 'r']]), (['w', 'u', 'l', 'a'], [['h', 'o', 'u', 'r']]), (['d', 'u', 'o'], [['d', 'a', 'y']]), (['g', 'm', 't'], [['g', 'm', 't']]), (['m', 'b', 's'], [['f', 'r', 'i', 'd', 'a', 'y']]), (['m', 'ɔ', 'n'], [['m', 'o', 'n', 'd', 'a', 'y']]), (['n', 'g', '1'], [['j', 'a', 'n', 'u', 'a', 'r', 'y']]), (['n', 'g', '2'], [['f', 'e', 'b', 'r', 'u', 'a', 'r', 'y']]), (['n', 'g', '3'], [['m', 'a', 'r', 'c', 'h']]), (['n', 'g', '4'], [['a', 'p', 'r', 'i', 'l']]), (['n', 'g', '5'], [['m', 'a', 'y']]), (['n', 'g', '6'], [['j', 'u', 'n', 'e']]), (['n', 'g', '7'], [['j', 'u', 'l', 'y']]), (['n', 'g', '8'], [['a', 'u', 'g', 'u', 's', 't']]), (['n', 'g', '9'], [['s', 'e', 'p', 't', 'e', 'm', 'b', 'e', 'r']]), (['s', 'a', 's'], [['s', 'a', 't', 'u', 'r', 'd', 'a', 'y']]), (['s', 'm', 'b'], [['t', 'u', 'e', 's', 'd', 'a', 'y']]), (['s', 'm', 'l'], [['w', 'e', 'd', 'n', 'e', 's', 'd', 'a', 'y']]), (['s', 'm', 'n'], [['t', 'h', 'u', 'r', 's', 'd', 'a', 'y']]), (['s', 'ɔ', 'n'], [['s', 'u', 'n', 'd', 'a', 'y']]), (['u', 't', 'c'], [['u', 't', 'c']]), (['a', 'm'], [['a', 'm']]), (['p', 'm'], [['p', 'm']]), ([' '], [[' ']]), (['\''], [[]]), (['+'], [['+']]), ([','], [[]]), (['-'], [['-']]), (['.'], [['.']]), (['/'], [['/']]), ([':'], [[':']]), ([';'], [[]]), (['@'], [[]]), (['['], [[]]), ([']'], [[]]), (['z'], [['z']]), (['|'], [[]])]
  relativeType := [(['t', 'h', 'i', 's', ' ', 'm', 'i', 'n', 'u', 't', 'e'], ['0', ' ', 'm', 'i', 'n', 'u', 't', 'e', ' ', 'a', 'g', 'o']), (['l', 'a', 's', 't', ' ', 'm', 'o', 'n', 't', 'h'], ['1', ' ', 'm', 'o', 'n', 't', 'h', ' ', 'a', 'g', 'o']), (['n', 'e', 'x', 't', ' ', 'm', 'o', 'n', 't', 'h'], ['i', 'n', ' ', '1', ' ', 'm', 'o', 'n', 't', 'h']), (['t', 'h', 'i', 's', ' ', 'm', 'o', 'n', 't', 'h'], ['0', ' ', 'm', 'o', 'n', 't', 'h', ' ', 'a', 'g', 'o']), (['l', 'a', 's', 't', ' ', 'w', 'e', 'e', 'k'], ['1', ' ', 'w', 'e', 'e', 'k', ' ', 'a', 'g', 'o']), (['l', 'a', 's', 't', ' ', 'y', 'e', 'a', 'r'], ['1', ' ', 'y', 'e', 'a', 'r', ' ', 'a', 'g', 'o']), (['n', 'e', 'x', 't', ' ', 'w', 'e', 'e', 'k'], ['i', 'n', ' ', '1', ' ', 'w', 'e', 'e', 'k']), (['n', 'e', 'x', 't', ' ', 'y', 'e', 'a', 'r'], ['i', 'n', ' ', '1', ' ', 'y', 'e', 'a', 'r']), (['t', 'h', 'i', 's', ' ', 'h', 'o', 'u', 'r'], ['0', ' ', 'h', 'o', 'u', 'r', ' ', 'a', 'g', 'o']), (['t', 'h', 'i', 's', ' ', 'w', 'e', 'e', 'k'], ['0', ' ', 'w', 'e', 'e', 'k', ' ', 'a', 'g', 'o']), (['t', 'h', 'i', 's', ' ', 'y', 'e', 'a', 'r'], ['0', ' ', 'y', 'e', 'a', 'r', ' ', 'a', 'g', 'o']), (['n', 'a', 'k', 'u', 'g', 'u'], ['1', ' ', 'd', 'a', 'y', ' ', 'a', 'g', 'o']), (['n', 'a', 'm', 'a', 'n', 'a'], ['i', 'n', ' ', '1', ' ', 'd', 'a', 'y']), (['d', 'ɔ', 'l'], ['0', ' ', 'd', 'a', 'y', ' ', 'a', 'g', 'o']), (['n', 'o', 'w'], ['0', ' ', 's', 'e', 'c', 'o', 'n', 'd', ' ', 'a', 'g', 'o'])]

/-- internal/data/nn.go: `nn_Locale`, dictionary. -/
def nnDict : LangData where
  name := ['n', 'n']
  translations := [(['e', 't', 't', 'e', 'r', 'm', 'i', 'd', 'd', 'a', 'g'], [['p', 'm']]), (['f', 'o', 'r', 'm', 'i', 'd', 'd', 'a', 'g'], [['a', 'm']]), (['s', 'e', 'p', 't', 'e', 'm', 'b', 'e', 'r'], [['s', 'e', 'p', 't', 'e', 'm', 'b', 'e', 'r']]), (['d', 'e', 's', 'e', 'm', 'b', 'e', 'r'], [['d', 'e', 'c', 'e', 'm', 'b', 'e', 'r']]), (['n', 'o', 'v', 'e', 'm', 'b', 'e', 'r'], [['n', 'o', 'v', 'e', 'm', 'b', 'e', 'r']]), (['f', 'e', 'b', 'r', 'u', 'a', 'r'], [['f', 'e', 'b', 'r', 'u', 'a', 'r', 'y']]), (['l', 'a', 'u', 'r', 'd', 'a', 'g'], [['s', 'a', 't', 'u', 'r', 'd', 'a', 'y']]), (['o', 'k', 't', 'o', 'b', 'e', 'r'], [['o', 'c', 't', 'o', 'b', 'e', 'r']]), (['t', 'o', 'r', 's', 'd', 'a', 'g'], [['t', 'h', 'u', 'r', 's', 'd', 'a', 'y']]), (['a', 'u', 'g', 'u', 's', 't'], [['a', 'u', 'g', 'u', 's', 't']]), (['f', 'r', 'e', 'd', 'a', 'g'], [['f', 'r', 'i', 'd', 'a', 'y']]), (['j', 'a', 'n', 'u', 'a', 'r'], [['j', 'a', 'n', 'u', 'a', 'r', 'y']]), (['m', 'a', 'n', 'd', 'a', 'g'], [['m', 'o', 'n', 'd', 'a', 'y']]), (['m', 'i', 'n', 'u', 't', 't'], [['m', 'i', 'n', 'u', 't', 'e']]), (['o', 'n', 's', 'd', 'a', 'g'], [['w', 'e', 'd', 'n', 'e', 's', 'd', 'a', 'y']]), (['s', 'e', 'k', 'u', 'n', 'd'], [['s', 'e', 'c', 'o', 'n', 'd']]), (['s', 'ø', 'n', 'd', 'a', 'g'], [['s', 'u', 'n', 'd', 'a', 'y']]), (['t', 'y', 's', 'd', 'a', 'g'], [['t', 'u', 'e', 's', 'd', 'a', 'y']]), (['a', 'p', 'r', 'i', 'l'], [['a', 'p', 'r', 'i', 'l']]), (['m', 'a', 'n', 'a', 'd'], [['m', 'o', 'n', 't', 'h']]), (['j', 'u', 'l', 'i'], [['j', 'u', 'l', 'y']]), (['j', 'u', 'n', 'i'], [['j', 'u', 'n', 'e']]), (['m', 'a', 'r', 's'], [['m', 'a', 'r', 'c', 'h']]), (['t', 'i', 'm', 'e'], [['h', 'o', 'u', 'r']]), (['v', 'e', 'k', 'e'], [['w', 'e', 'e', 'k']]), (['a', 'p', 'r'], [['a', 'p', 'r', 'i', 'l']]), (['a', 'u', 'g'], [['a', 'u', 'g', 'u', 's', 't']]), (['d', 'a', 'g'], [['d', 'a', 'y']]), (['d', 'e', 's'], [['d', 'e', 'c', 'e', 'm', 'b', 'e', 'r']]), (['f', 'e', 'b'], [['f', 'e', 'b', 'r', 'u', 'a', 'r', 'y']]), (['f', 'r', 'e'], [['f', 'r', 'i', 'd', 'a', 'y']]), (['g', 'm', 't'], [['g', 'm', 't']]), (['j', 'a', 'n'], [['j', 'a', 'n', 'u', 'a', 'r', 'y']]), (['j', 'u', 'l'], [['j', 'u', 'l', 'y']]), (['j', 'u', 'n'], [['j', 'u', 'n', 'e']]), (['l', 'a', 'u'], [['s', 'a', 't', 'u', 'r', 'd', 'a', 'y']]), (['m', 'a', 'i'], [['m', 'a', 'y']]), (['m', 'a', 'n'], [['m', 'o', 'n', 'd', 'a', 'y']]), (['m', 'a', 'r'], [['m', 'a', 'r', 'c', 'h']]), (['n', 'o', 'v'], [['n', 'o', 'v', 'e', 'm', 'b', 'e', 'r']]), (['o', 'k', 't'], [['o', 'c', 't', 'o', 'b', 'e', 'r']]), (['o', 'n', 's'], [['w', 'e', 'd', 'n', 'e', 's', 'd', 'a', 'y']]), (['s', 'e', 'p'], [['s', 'e', 'p', 't', 'e', 'm', 'b', 'e', 'r']]), (['s', 'ø', 'n'], [['s', 'u', 'n', 'd', 'a', 'y']]), (['t', 'o', 'r'], [['t', 'h', 'u', 'r', 's', 'd', 'a', 'y']]), (['t', 'y', 's'], [['t', 'u', 'e', 's', 'd', 'a', 'y']]), (['u', 't', 'c'], [['u', 't', 'c']]), (['a', 'm'], [['a', 'm']]), (['a', 'r'], [['y', 'e', 'a', 'r']]), (['e', 'm'], [['p', 'm']]), (['f', 'm'], [['a', 'm']]), (['f', 'r'], [['f', 'r', 'i', 'd', 'a', 'y']]), (['l', 'a'], [['s', 'a', 't', 'u', 'r', 'd', 'a', 'y']]), (['m', 'a'], [['m', 'o', 'n', 'd', 'a', 'y']]), (['o', 'n'], [['w', 'e', 'd', 'n', 'e', 's', 'd', 'a', 'y']]), (['p', 'm'], [['p', 'm']]), (['s', 'ø'], [['s', 'u', 'n', 'd', 'a', 'y']]), (['t', 'o'], [['t', 'h', 'u', 'r', 's', 'd', 'a', 'y']]), (['t', 'y'], [['t', 'u', 'e', 's', 'd', 'a', 'y']]), ([' '], [[' ']]), (['\''], [[]]), (['+'], [['+']]), ([','], [[]]), (['-'], [['-']]), (['.'], [['.']]), (['/'], [['/']]), ([':'], [[':']]), ([';'], [[]]), (['@'], [[]]), (['['], [[]]), ([']'], [[]]), (['z'], [['z']]), (['|'], [[]])]
  relativeType := [(['t', 'h', 'i', 's', ' ', 'm', 'i', 'n', 'u', 't', 'e'], ['0', ' ', 'm', 'i', 'n', 'u', 't', 'e', ' ', 'a', 'g', 'o']), (['l', 'a', 's', 't', ' ', 'm', 'o', 'n', 't', 'h'], ['1', ' ', 'm', 'o', 'n', 't', 'h', ' ', 'a', 'g', 'o']), (['n', 'e', 'x', 't', ' ', 'm', 'o', 'n', 't', 'h'], ['i', 'n', ' ', '1', ' ', 'm', 'o', 'n', 't', 'h']), (['t', 'h', 'i', 's', ' ', 'm', 'o', 'n', 't', 'h'], ['0', ' ', 'm', 'o', 'n', 't', 'h', ' ', 'a', 'g', 'o']), (['l', 'a', 's', 't', ' ', 'w', 'e', 'e', 'k'], ['1', ' ', 'w', 'e', 'e', 'k', ' ', 'a', 'g', 'o']), (['l', 'a', 's', 't', ' ', 'y', 'e', 'a', 'r'], ['1', ' ', 'y', 'e', 'a', 'r', ' ', 'a', 'g', 'o']), (['n', 'e', 'x', 't', ' ', 'w', 'e', 'e', 'k'], ['i', 'n', ' ', '1', ' ', 'w', 'e', 'e', 'k']), (['n', 'e', 'x', 't', ' ', 'y', 'e', 'a', 'r'], ['i', 'n', ' ', '1', ' ', 'y', 'e', 'a', 'r']), (['t', 'h', 'i', 's', ' ', 'h', 'o', 'u', 'r'], ['0', ' ', 'h', 'o', 'u', 'r', ' ', 'a', 'g', 'o']), (['t', 'h', 'i', 's', ' ', 'w', 'e', 'e', 'k'], ['0', ' ', 'w', 'e', 'e', 'k', ' ', 'a', 'g', 'o']), (['t', 'h', 'i', 's', ' ', 'y', 'e', 'a', 'r'], ['0', ' ', 'y', 'e', 'a', 'r', ' ', 'a', 'g', 'o']), (['i', ' ', 'm', 'o', 'r', 'g', 'o', 'n'], ['i', 'n', ' ', '1', ' ', 'd', 'a', 'y']), (['i', ' ', 'd', 'a', 'g'], ['0', ' ', 'd', 'a', 'y', ' ', 'a', 'g', 'o']), (['i', ' ', 'g', 'a', 'r'], ['1', ' ', 'd', 'a', 'y', ' ', 'a', 'g', 'o']), (['n', 'o', 'w'], ['0', ' ', 's', 'e', 'c', 'o', 'n', 'd', ' ', 'a', 'g', 'o'])]

/-- internal/data/nnh.go: `nnh_Locale`, dictionary. -/
def nnhDict : LangData where
  name := ['n', 'n', 'h']
  translations := [(['m', 'b', 'ɔ', 'ɔ', 'n', 't', 'e', ' ', 't', 's', 'e', 't', 's', 'ɛ', 'ɛ', ' ', 'l', 'y', 'ɛ', '\''], [['t', 'h', 'u', 'r', 's', 'd', 'a', 'y']]), (['s', 'a', 'ŋ', ' ', 't', 'y', 'ɛ', 'b', ' ', 't', 'y', 'ɛ', 'b', ' ', 'm', 'b', 'ʉ', 'ŋ'], [['j', 'u', 'l', 'y']]), (['m', 'b', 'ɔ', 'ɔ', 'n', 't', 'e', ' ', 'm', 'v', 'f', 'o', ' ', 'l', 'y', 'ɛ', '\''], [['t', 'u', 'e', 's', 'd', 'a', 'y']]), (['s', 'a', 'ŋ', ' ', 't', 'a', 'ŋ', 'a', ' ', 't', 's', 'e', 't', 's', 'a', '\''], [['o', 'c', 't', 'o', 'b', 'e', 'r']]), (['s', 'a', 'ŋ', ' ', 't', 's', 'e', 't', 's', 'ɛ', 'ɛ', ' ', 'l', 'u', 'm'], [['j', 'a', 'n', 'u', 'a', 'r', 'y']]), (['m', 'v', 'f', 'o', ' ', 'm', 'a', 'g', 'a', ' ', 'l', 'y', 'ɛ', '\''], [['f', 'r', 'i', 'd', 'a', 'y']]), (['s', 'a', 'ŋ', ' ', 'l', 'e', 'p', 'y', 'e', ' ', 's', 'h', 'u', 'm'], [['m', 'a', 'r', 'c', 'h']]), (['s', 'a', 'ŋ', ' ', 'n', 'g', 'w', 'ɔ', '\'', ' ', 'm', 'b', 'y', 'ɛ'], [['s', 'e', 'p', 't', 'e', 'm', 'b', 'e', 'r']]), (['s', 'a', 'ŋ', ' ', 'k', 'a', 'g', ' ', 'n', 'g', 'w', 'o', 'ŋ'], [['f', 'e', 'b', 'r', 'u', 'a', 'r', 'y']]), (['l', 'y', 'ɛ', '\'', 'ɛ', ' ', 's', 'w', 'i', 'ŋ', 't', 'e'], [['s', 'u', 'n', 'd', 'a', 'y']]), (['s', 'a', 'ŋ', ' ', 't', 's', 'ɛ', 'ɛ', ' ', 'c', 'y', 'o'], [['m', 'a', 'y']]), (['t', 's', 'e', 't', 's', 'ɛ', 'ɛ', ' ', 'l', 'y', 'ɛ', '\''], [['w', 'e', 'd', 'n', 'e', 's', 'd', 'a', 'y']]), (['s', 'a', 'ŋ', ' ', 'm', 'e', 'j', 'w', 'o', 'ŋ', 'o'], [['n', 'o', 'v', 'e', 'm', 'b', 'e', 'r']]), (['s', 'a', 'ŋ', ' ', 'n', 'j', 'y', 'o', 'l', 'a', '\''], [['j', 'u', 'n', 'e']]), (['m', 'a', 'g', 'a', ' ', 'l', 'y', 'ɛ', '\''], [['s', 'a', 't', 'u', 'r', 'd', 'a', 'y']]), (['m', 'b', 'a', '\'', 'a', 'm', 'b', 'a', '\''], [['a', 'm']]), (['m', 'v', 'f', 'o', ' ', 'l', 'y', 'ɛ', '\''], [['m', 'o', 'n', 'd', 'a', 'y']]), (['n', 'c', 'w', 'o', 'n', 'z', 'e', 'm'], [['p', 'm']]), (['s', 'a', 'ŋ', ' ', 'm', 'b', 'ʉ', 'ŋ'], [['a', 'u', 'g', 'u', 's', 't']]), (['f', 'ʉ', '\'', ' ', 'n', 'e', 'm'], [['h', 'o', 'u', 'r']]), (['s', 'a', 'ŋ', ' ', 'c', 'y', 'o'], [['a', 'p', 'r', 'i', 'l']]), (['s', 'a', 'ŋ', ' ', 'l', 'u', 'm'], [['d', 'e', 'c', 'e', 'm', 'b', 'e', 'r']]), (['m', 'i', 'n', 'u', 't', 'e'], [['m', 'i', 'n', 'u', 't', 'e']]), (['s', 'e', 'c', 'o', 'n', 'd'], [['s', 'e', 'c', 'o', 'n', 'd']]), (['m', 'o', 'n', 't', 'h'], [['m', 'o', 'n', 't', 'h']]), (['l', 'y', 'ɛ', '\''], [['d', 'a', 'y']]), (['n', 'g', 'u', '\''], [['y', 'e', 'a', 'r']]), (['w', 'e', 'e', 'k'], [['w', 'e', 'e', 'k']]), (['g', 'm', 't'], [['g', 'm', 't']]), (['u', 't', 'c'], [['u', 't', 'c']]), (['a', 'm'], [['a', 'm']]), (['p', 'm'], [['p', 'm']]), ([' '], [[' ']]), (['\''], [[]]), (['+'], [['+']]), ([','], [[]]), (['-'], [['-']]), (['.'], [['.']]), (['/'], [['/']]), ([':'], [[':']]), ([';'], [[]]), (['@'], [[]]), (['['], [[]]), ([']'], [[]]), (['z'], [['z']]), (['|'], [[]])]
  relativeType := [(['j', 'u', 'ɔ', ' ', 'g', 'w', 'i', 'e', ' ', 'a', ' ', 'n', 'e', ' ', 'n', 't', 'o', 'o'], ['i', 'n', ' ', '1', ' ', 'd', 'a', 'y']), (['j', 'u', 'ɔ', ' ', 'g', 'w', 'i', 'e', ' ', 'a', ' ', 'k', 'a', ' ', 't', 'ɔ', 'g'], ['1', ' ', 'd', 'a', 'y', ' ', 'a', 'g', 'o']), (['t', 'h', 'i', 's', ' ', 'm', 'i', 'n', 'u', 't', 'e'], ['0', ' ', 'm', 'i', 'n', 'u', 't', 'e', ' ', 'a', 'g', 'o']), (['l', 'a', 's', 't', ' ', 'm', 'o', 'n', 't', 'h'], ['1', ' ', 'm', 'o', 'n', 't', 'h', ' ', 'a', 'g', 'o']), (['n', 'e', 'x', 't', ' ', 'm', 'o', 'n', 't', 'h'], ['i', 'n', ' ', '1', ' ', 'm', 'o', 'n', 't', 'h']), (['t', 'h', 'i', 's', ' ', 'm', 'o', 'n', 't', 'h'], ['0', ' ', 'm', 'o', 'n', 't', 'h', ' ', 'a', 'g', 'o']), (['l', 'a', 's', 't', ' ', 'w', 'e', 'e', 'k'], ['1', ' ', 'w', 'e', 'e', 'k', ' ', 'a', 'g', 'o']), (['l', 'a', 's', 't', ' ', 'y', 'e', 'a', 'r'], ['1', ' ', 'y', 'e', 'a', 'r', ' ', 'a', 'g', 'o']), (['n', 'e', 'x', 't', ' ', 'w', 'e', 'e', 'k'], ['i', 'n', ' ', '1', ' ', 'w', 'e', 'e', 'k']), (['n', 'e', 'x', 't', ' ', 'y', 'e', 'a', 'r'], ['i', 'n', ' ', '1', ' ', 'y', 'e', 'a', 'r']), (['t', 'h', 'i', 's', ' ', 'h', 'o', 'u', 'r'], ['0', ' ', 'h', 'o', 'u', 'r', ' ', 'a', 'g', 'o']), (['t', 'h', 'i', 's', ' ', 'w', 'e', 'e', 'k'], ['0', ' ', 'w', 'e', 'e', 'k', ' ', 'a', 'g', 'o']), (['t', 'h', 'i', 's', ' ', 'y', 'e', 'a', 'r'], ['0', ' ', 'y', 'e', 'a', 'r', ' ', 'a', 'g', 'o']), (['l', 'y', 'ɛ', '\'', 'ɔ', 'ɔ', 'n'], ['0', ' ', 'd', 'a', 'y', ' ', 'a', 'g', 'o']), (['n', 'o', 'w'], ['0', ' ', 's', 'e', 'c', 'o', 'n', 'd', ' ', 'a', 'g', 'o'])]

/-- internal/data/nus.go: `nus_Locale`, dictionary. -/
def nusDict : LangData where
  name := ['n', 'u', 's']
  translations := [(['t', 'i', 'o', 'p', ' ', 't', 'h', 'a', 'r', ' ', 'p', 'ɛ', 't'], [['j', 'a', 'n', 'u', 'a', 'r', 'y']]), (['d', 'h', 'i', 'e', 'e', 'c', ' ', 'l', 'a', 't', 'n', 'i'], [['f', 'r', 'i', 'd', 'a', 'y']]), (['t', 'i', 'o', 'p', ' ', 'i', 'n', ' ', 'd', 'i', 'i', 't'], [['d', 'e', 'c', 'e', 'm', 'b', 'e', 'r']]), (['b', 'a', 'k', 'ɛ', 'l', ' ', 'l', 'a', 't', 'n', 'i'], [['s', 'a', 't', 'u', 'r', 'd', 'a', 'y']]), (['ŋ', 'u', 'a', 'a', 'n', ' ', 'l', 'a', 't', 'n', 'i'], [['t', 'h', 'u', 'r', 's', 'd', 'a', 'y']]), (['d', 'i', 'ɔ', 'k', ' ', 'l', 'a', 't', 'n', 'i'], [['w', 'e', 'd', 'n', 'e', 's', 'd', 'a', 'y']]), (['p', 'a', 'y', ' ', 'y', 'i', 'e', 't', 'n', 'i'], [['j', 'u', 'l', 'y']]), (['c', 'a', 'ŋ', ' ', 'k', 'u', 'ɔ', 't', 'h'], [['s', 'u', 'n', 'd', 'a', 'y']]), (['r', 'ɛ', 'w', ' ', 'l', 'a', 't', 'n', 'i'], [['t', 'u', 'e', 's', 'd', 'a', 'y']]), (['j', 'i', 'e', 'c', ' ', 'l', 'a', 't'], [['m', 'o', 'n', 'd', 'a', 'y']]), (['k', 'o', 'r', 'n', 'y', 'o', 'o', 't'], [['j', 'u', 'n', 'e']]), (['t', 'h', 'ɛ', 'k', 'ɛ', 'n', 'i'], [['s', 'e', 'c', 'o', 'n', 'd']]), (['d', 'h', 'i', 'e', 'e', 'c'], [['f', 'r', 'i', 'd', 'a', 'y']]), (['b', 'a', 'k', 'ɛ', 'l'], [['s', 'a', 't', 'u', 'r', 'd', 'a', 'y']]), (['d', 'u', 'ɔ', 'ɔ', 'ŋ'], [['m', 'a', 'r', 'c', 'h']]), (['l', 'a', 'a', 't', 'h'], [['o', 'c', 't', 'o', 'b', 'e', 'r']]), (['m', 'i', 'n', 'i', 't'], [['m', 'i', 'n', 'u', 't', 'e']]), (['t', 'h', 'a', 'a', 'k'], [['h', 'o', 'u', 'r']]), (['t', 'h', 'o', 'o', 'r'], [['a', 'u', 'g', 'u', 's', 't']]), (['ŋ', 'u', 'a', 'a', 'n'], [['t', 'h', 'u', 'r', 's', 'd', 'a', 'y']]), (['d', 'i', 'ɔ', 'k'], [['w', 'e', 'd', 'n', 'e', 's', 'd', 'a', 'y']]), (['d', 'u', 'a', 't'], [['m', 'a', 'y']]), (['d', 'u', 'ɔ', 'ɔ'], [['m', 'a', 'r', 'c', 'h']]), (['g', 'u', 'a', 'k'], [['a', 'p', 'r', 'i', 'l']]), (['j', 'i', 'e', 'c'], [['m', 'o', 'n', 'd', 'a', 'y']]), (['j', 'i', 'ɔ', 'k'], [['w', 'e', 'e', 'k']]), (['r', 'u', 'ɔ', 'n'], [['y', 'e', 'a', 'r']]), (['t', 'h', 'o', 'o'], [['a', 'u', 'g', 'u', 's', 't']]), (['t', 'i', 'o', 'p'], [['j', 'a', 'n', 'u', 'a', 'r', 'y']]), (['t', 'ɛ', 'ɛ', 'r'], [['s', 'e', 'p', 't', 'e', 'm', 'b', 'e', 'r']]), (['c', 'a', 'ŋ'], [['d', 'a', 'y'], ['s', 'u', 'n', 'd', 'a', 'y']]), (['d', 'u', 'a'], [['m', 'a', 'y']]), (['g', 'm', 't'], [['g', 'm', 't']]), (['k', 'o', 'r'], [['j', 'u', 'n', 'e']]), (['k', 'u', 'r'], [['n', 'o', 'v', 'e', 'm', 'b', 'e', 'r']]), (['l', 'a', 'a'], [['o', 'c', 't', 'o', 'b', 'e', 'r']]), (['p', 'a', 'y'], [['j', 'u', 'l', 'y'], ['m', 'o', 'n', 't', 'h']]), (['p', 'ɛ', 't'], [['f', 'e', 'b', 'r', 'u', 'a', 'r', 'y']]), (['r', 'ɛ', 'w'], [['t', 'u', 'e', 's', 'd', 'a', 'y']]), (['t', 'i', 'd'], [['d', 'e', 'c', 'e', 'm', 'b', 'e', 'r']]), (['t', 'ɛ', 'ɛ'], [['s', 'e', 'p', 't', 'e', 'm', 'b', 'e', 'r']]), (['u', 't', 'c'], [['u', 't', 'c']]), (['a', 'm'], [['a', 'm']]), (['p', 'm'], [['p', 'm']]), (['r', 'w'], [['a', 'm']]), (['t', 'ŋ'], [['p', 'm']]), ([' '], [[' ']]), (['\''], [[]]), (['+'], [['+']]), ([','], [[]]), (['-'], [['-']]), (['.'], [['.']]), (['/'], [['/']]), ([':'], [[':']]), ([';'], [[]]), (['@'], [[]]), (['['], [[]]), ([']'], [[]]), (['z'], [['z']]), (['|'], [[]])]
  relativeType := [(['t', 'h', 'i', 's', ' ', 'm', 'i', 'n', 'u', 't', 'e'], ['0', ' ', 'm', 'i', 'n', 'u', 't', 'e', ' ', 'a', 'g', 'o']), (['l', 'a', 's', 't', ' ', 'm', 'o', 'n', 't', 'h'], ['1', ' ', 'm', 'o', 'n', 't', 'h', ' ', 'a', 'g', 'o']), (['n', 'e', 'x', 't', ' ', 'm', 'o', 'n', 't', 'h'], ['i', 'n', ' ', '1', ' ', 'm', 'o', 'n', 't', 'h']), (['t', 'h', 'i', 's', ' ', 'm', 'o', 'n', 't', 'h'], ['0', ' ', 'm', 'o', 'n', 't', 'h', ' ', 'a', 'g', 'o']), (['l', 'a', 's', 't', ' ', 'w', 'e', 'e', 'k'], ['1', ' ', 'w', 'e', 'e', 'k', ' ', 'a', 'g', 'o']), (['l', 'a', 's', 't', ' ', 'y', 'e', 'a', 'r'], ['1', ' ', 'y', 'e', 'a', 'r', ' ', 'a', 'g', 'o']), (['n', 'e', 'x', 't', ' ', 'w', 'e', 'e', 'k'], ['i', 'n', ' ', '1', ' ', 'w', 'e', 'e', 'k']), (['n', 'e', 'x', 't', ' ', 'y', 'e', 'a', 'r'], ['i', 'n', ' ', '1', ' ', 'y', 'e', 'a', 'r']), (['t', 'h', 'i', 's', ' ', 'h', 'o', 'u', 'r'], ['0', ' ', 'h', 'o', 'u', 'r', ' ', 'a', 'g', 'o']), (['t', 'h', 'i', 's', ' ', 'w', 'e', 'e', 'k'], ['0', ' ', 'w', 'e', 'e', 'k', ' ', 'a', 'g', 'o']), (['t', 'h', 'i', 's', ' ', 'y', 'e', 'a', 'r'], ['0', ' ', 'y', 'e', 'a', 'r', ' ', 'a', 'g', 'o']), (['r', 'u', 'u', 'n'], ['i', 'n', ' ', '1', ' ', 'd', 'a', 'y']), (['w', 'a', 'l', 'ɛ'], ['0', ' ', 'd', 'a', 'y', ' ', 'a', 'g', 'o']), (['n', 'o', 'w'], ['0', ' ', 's', 'e', 'c', 'o', 'n', 'd', ' ', 'a', 'g', 'o']), (['p', 'a', 'n'], ['1', ' ', 'd', 'a', 'y', ' ', 'a', 'g', 'o'])]

/-- internal/data/nyn.go: `nyn_Locale`, dictionary. -/
def nynDict : LangData where
  name := ['n', 'y', 'n']
  translations := [(['o', 'k', 'w', 'a', 'i', 'k', 'u', 'm', 'i', ' ', 'n', 'a', ' ', 'i', 'b', 'i', 'r', 'i'], [['d', 'e', 'c', 'e', 'm', 'b', 'e', 'r']]), (['o', 'k', 'w', 'a', 'i', 'k', 'u', 'm', 'i', ' ', 'n', 'a', ' ', 'k', 'u', 'm', 'w', 'e'], [['n', 'o', 'v', 'e', 'm', 'b', 'e', 'r']]), (['o', 'b', 'u', 'c', 'w', 'e', 'k', 'a', '/', 'e', 's', 'e', 'k', 'e', 'n', 'd', 'i'], [['s', 'e', 'c', 'o', 'n', 'd']]), (['o', 'k', 'w', 'a', 'm', 'u', 's', 'h', 'a', 'n', 'j', 'u'], [['j', 'u', 'l', 'y']]), (['o', 'k', 'w', 'a', 'k', 'a', 's', 'h', 'a', 't', 'u'], [['m', 'a', 'r', 'c', 'h']]), (['o', 'k', 'w', 'a', 'k', 'a', 't', 'a', 'a', 'n', 'a'], [['m', 'a', 'y']]), (['o', 'k', 'w', 'a', 'm', 'u', 'k', 'a', 'a', 'g', 'a'], [['j', 'u', 'n', 'e']]), (['o', 'k', 'w', 'a', 'm', 'u', 'n', 'a', 'a', 'n', 'a'], [['a', 'u', 'g', 'u', 's', 't']]), (['o', 'k', 'w', 'o', 'k', 'u', 'b', 'a', 'n', 'z', 'a'], [['j', 'a', 'n', 'u', 'a', 'r', 'y']]), (['o', 'r', 'w', 'a', 'k', 'a', 's', 'h', 'a', 't', 'u'], [['w', 'e', 'd', 'n', 'e', 's', 'd', 'a', 'y']]), (['o', 'r', 'w', 'a', 'k', 'a', 't', 'a', 'a', 'n', 'o'], [['f', 'r', 'i', 'd', 'a', 'y']]), (['o', 'r', 'w', 'a', 'm', 'u', 'k', 'a', 'a', 'g', 'a'], [['s', 'a', 't', 'u', 'r', 'd', 'a', 'y']]), (['o', 'r', 'w', 'o', 'k', 'u', 'b', 'a', 'n', 'z', 'a'], [['m', 'o', 'n', 'd', 'a', 'y']]), (['o', 'k', 'w', 'a', 'k', 'a', 'b', 'i', 'r', 'i'], [['f', 'e', 'b', 'r', 'u', 'a', 'r', 'y']]), (['o', 'k', 'w', 'a', 'm', 'w', 'e', 'n', 'd', 'a'], [['s', 'e', 'p', 't', 'e', 'm', 'b', 'e', 'r']]), (['o', 'r', 'w', 'a', 'k', 'a', 'b', 'i', 'r', 'i'], [['t', 'u', 'e', 's', 'd', 'a', 'y']]), (['o', 'k', 'w', 'a', 'i', 'k', 'u', 'm', 'i'], [['o', 'c', 't', 'o', 'b', 'e', 'r']]), (['e', 'd', 'a', 'k', 'i', 'i', 'k', 'a'], [['m', 'i', 'n', 'u', 't', 'e']]), (['o', 'k', 'w', 'a', 'k', 'a', 'n', 'a'], [['a', 'p', 'r', 'i', 'l']]), (['o', 'r', 'w', 'a', 'k', 'a', 'n', 'a'], [['t', 'h', 'u', 'r', 's', 'd', 'a', 'y']]), (['e', 'i', 'z', 'o', 'o', 'b', 'a'], [['d', 'a', 'y']]), (['e', 's', 'a', 'n', 'd', 'e'], [['w', 'e', 'e', 'k']]), (['o', 'm', 'w', 'a', 'k', 'a'], [['y', 'e', 'a', 'r']]), (['o', 'm', 'w', 'e', 'z', 'i'], [['m', 'o', 'n', 't', 'h']]), (['s', 'h', 'a', 'a', 'h', 'a'], [['h', 'o', 'u', 'r']]), (['s', 'a', 'n', 'd', 'e'], [['s', 'u', 'n', 'd', 'a', 'y']]), (['g', 'm', 't'], [['g', 'm', 't']]), (['k', 'b', 'r'], [['f', 'e', 'b', 'r', 'u', 'a', 'r', 'y']]), (['k', 'b', 'z'], [['j', 'a', 'n', 'u', 'a', 'r', 'y']]), (['k', 'k', 'm'], [['o', 'c', 't', 'o', 'b', 'e', 'r']]), (['k', 'k', 'n'], [['a', 'p', 'r', 'i', 'l']]), (['k', 'm', 'k'], [['j', 'u', 'n', 'e']]), (['k', 'm', 'n'], [['a', 'u', 'g', 'u', 's', 't']]), (['k', 'm', 's'], [['j', 'u', 'l', 'y']]), (['k', 'm', 'w'], [['s', 'e', 'p', 't', 'e', 'm', 'b', 'e', 'r']]), (['k', 'n', 'b'], [['d', 'e', 'c', 'e', 'm', 'b', 'e', 'r']]), (['k', 'n', 'k'], [['n', 'o', 'v', 'e', 'm', 'b', 'e', 'r']]), (['k', 's', 't'], [['m', 'a', 'r', 'c', 'h']]), (['k', 't', 'n'], [['m', 'a', 'y']]), (['o', 'k', 'b'], [['t', 'u', 'e', 's', 'd', 'a', 'y']]), (['o', 'k', 'n'], [['t', 'h', 'u', 'r', 's', 'd', 'a', 'y']]), (['o', 'k', 's'], [['w', 'e', 'd', 'n', 'e', 's', 'd', 'a', 'y']]), (['o', 'k', 't'], [['f', 'r', 'i', 'd', 'a', 'y']]), (['o', 'm', 'k'], [['s', 'a', 't', 'u', 'r', 'd', 'a', 'y']]), (['o', 'r', 'k'], [['m', 'o', 'n', 'd', 'a', 'y']]), (['s', 'a', 'n'], [['s', 'u', 'n', 'd', 'a', 'y']]), (['u', 't', 'c'], [['u', 't', 'c']]), (['a', 'm'], [['a', 'm']]), (['p', 'm'], [['p', 'm']]), ([' '], [[' ']]), (['\''], [[]]), (['+'], [['+']]), ([','], [[]]), (['-'], [['-']]), (['.'], [['.']]), (['/'], [['/']]), ([':'], [[':']]), ([';'], [[]]), (['@'], [[]]), (['['], [[]]), ([']'], [[]]), (['z'], [['z']]), (['|'], [[]])]
  relativeType := [(['n', 'y', 'e', 'n', 'k', 'y', 'a', 'k', 'a', 'r', 'e'], ['i', 'n', ' ', '1', ' ', 'd', 'a', 'y']), (['n', 'y', 'o', 'm', 'w', 'a', 'b', 'a', 'z', 'y', 'o'], ['1', ' ', 'd', 'a', 'y', ' ', 'a', 'g', 'o']), (['t', 'h', 'i', 's', ' ', 'm', 'i', 'n', 'u', 't', 'e'], ['0', ' ', 'm', 'i', 'n', 'u', 't', 'e', ' ', 'a', 'g', 'o']), (['l', 'a', 's', 't', ' ', 'm', 'o', 'n', 't', 'h'], ['1', ' ', 'm', 'o', 'n', 't', 'h', ' ', 'a', 'g', 'o']), (['n', 'e', 'x', 't', ' ', 'm', 'o', 'n', 't', 'h'], ['i', 'n', ' ', '1', ' ', 'm', 'o', 'n', 't', 'h']), (['t', 'h', 'i', 's', ' ', 'm', 'o', 'n', 't', 'h'], ['0', ' ', 'm', 'o', 'n', 't', 'h', ' ', 'a', 'g', 'o']), (['l', 'a', 's', 't', ' ', 'w', 'e', 'e', 'k'], ['1', ' ', 'w', 'e', 'e', 'k', ' ', 'a', 'g', 'o']), (['l', 'a', 's', 't', ' ', 'y', 'e', 'a', 'r'], ['1', ' ', 'y', 'e', 'a', 'r', ' ', 'a', 'g', 'o']), (['n', 'e', 'x', 't', ' ', 'w', 'e', 'e', 'k'], ['i', 'n', ' ', '1', ' ', 'w', 'e', 'e', 'k']), (['n', 'e', 'x', 't', ' ', 'y', 'e', 'a', 'r'], ['i', 'n', ' ', '1', ' ', 'y', 'e', 'a', 'r']), (['t', 'h', 'i', 's', ' ', 'h', 'o', 'u', 'r'], ['0', ' ', 'h', 'o', 'u', 'r', ' ', 'a', 'g', 'o']), (['t', 'h', 'i', 's', ' ', 'w', 'e', 'e', 'k'], ['0', ' ', 'w', 'e', 'e', 'k', ' ', 'a', 'g', 'o']), (['t', 'h', 'i', 's', ' ', 'y', 'e', 'a', 'r'], ['0', ' ', 'y', 'e', 'a', 'r', ' ', 'a', 'g', 'o']), (['e', 'r', 'i', 'z', 'o', 'o', 'b', 'a'], ['0', ' ', 'd', 'a', 'y', ' ', 'a', 'g', 'o']), (['n', 'o', 'w'], ['0', ' ', 's', 'e', 'c', 'o', 'n', 'd', ' ', 'a', 'g', 'o'])]

/-- internal/data/om.go: `om_Locale`, dictionary. -/
def omDict : LangData where
  name := ['o', 'm']
  translations := [(['o', 'n', 'k', 'o', 'l', 'o', 'l', 'e', 'e', 's', 's', 'a'], [['o', 'c', 't', 'o', 'b', 'e', 'r']]), (['b', 'i', 't', 'o', 'o', 't', 'e', 'e', 's', 's', 'a'], [['m', 'a', 'r', 'c', 'h']]), (['g', 'u', 'r', 'a', 'a', 'n', 'd', 'h', 'a', 'l', 'a'], [['f', 'e', 'b', 'r', 'u', 'a', 'r', 'y']]), (['a', 'd', 'o', 'o', 'l', 'e', 'e', 's', 's', 'a'], [['j', 'u', 'l', 'y']]), (['w', 'a', 'x', 'a', 'b', 'a', 'j', 'j', 'i', 'i'], [['j', 'u', 'n', 'e']]), (['f', 'u', 'u', 'l', 'b', 'a', 'n', 'a'], [['s', 'e', 'p', 't', 'e', 'm', 'b', 'e', 'r']]), (['a', 'm', 'a', 'j', 'j', 'i', 'i'], [['j', 'a', 'n', 'u', 'a', 'r', 'y']]), (['d', 'i', 'l', 'b', 'a', 't', 'a'], [['s', 'u', 'n', 'd', 'a', 'y']]), (['h', 'a', 'g', 'a', 'y', 'y', 'a'], [['a', 'u', 'g', 'u', 's', 't']]), (['j', 'i', 'm', 'a', 'a', 't', 'a'], [['f', 'r', 'i', 'd', 'a', 'y']]), (['k', 'a', 'm', 'i', 'i', 's', 'a'], [['t', 'h', 'u', 'r', 's', 'd', 'a', 'y']]), (['q', 'i', 'b', 'x', 'a', 't', 'a'], [['t', 'u', 'e', 's', 'd', 'a', 'y']]), (['s', 'a', 'd', 'a', 'a', 's', 'a'], [['n', 'o', 'v', 'e', 'm', 'b', 'e', 'r']]), (['s', 'a', 'n', 'b', 'a', 't', 'a'], [['s', 'a', 't', 'u', 'r', 'd', 'a', 'y']]), (['w', 'i', 'i', 'x', 'a', 't', 'a'], [['m', 'o', 'n', 'd', 'a', 'y']]), (['c', 'a', 'a', 'm', 's', 'a'], [['m', 'a', 'y']]), (['m', 'i', 'n', 'u', 't', 'e'], [['m', 'i', 'n', 'u', 't', 'e']]), (['m', 'u', 'd', 'd', 'e', 'e'], [['d', 'e', 'c', 'e', 'm', 'b', 'e', 'r']]), (['r', 'o', 'o', 'b', 'i', 'i'], [['w', 'e', 'd', 'n', 'e', 's', 'd', 'a', 'y']]), (['s', 'e', 'c', 'o', 'n', 'd'], [['s', 'e', 'c', 'o', 'n', 'd']]), (['m', 'o', 'n', 't', 'h'], [['m', 'o', 'n', 't', 'h']]), (['e', 'l', 'b', 'a'], [['a', 'p', 'r', 'i', 'l']]), (['h', 'o', 'u', 'r'], [['h', 'o', 'u', 'r']]), (['w', 'e', 'e', 'k'], [['w', 'e', 'e', 'k']]), (['y', 'e', 'a', 'r'], [['y', 'e', 'a', 'r']]), (['a', 'd', 'o'], [['j', 'u', 'l', 'y']]), (['a', 'm', 'a'], [['j', 'a', 'n', 'u', 'a', 'r', 'y']]), (['b', 'i', 't'], [['m', 'a', 'r', 'c', 'h']]), (['c', 'a', 'm'], [['m', 'a', 'y']]), (['d', 'a', 'y'], [['d', 'a', 'y']]), (['d', 'i', 'l'], [['s', 'u', 'n', 'd', 'a', 'y']]), (['e', 'l', 'b'], [['a', 'p', 'r', 'i', 'l']]), (['f', 'u', 'l'], [['s', 'e', 'p', 't', 'e', 'm', 'b', 'e', 'r']]), (['g', 'm', 't'], [['g', 'm', 't']]), (['g', 'u', 'r'], [['f', 'e', 'b', 'r', 'u', 'a', 'r', 'y']]), (['h', 'a', 'g'], [['a', 'u', 'g', 'u', 's', 't']]), (['j', 'i', 'm'], [['f', 'r', 'i', 'd', 'a', 'y']]), (['k', 'a', 'm'], [['t', 'h', 'u', 'r', 's', 'd', 'a', 'y']]), (['m', 'u', 'd'], [['d', 'e', 'c', 'e', 'm', 'b', 'e', 'r']]), (['o', 'n', 'k'], [['o', 'c', 't', 'o', 'b', 'e', 'r']]), (['q', 'i', 'b'], [['t', 'u', 'e', 's', 'd', 'a', 'y']]), (['r', 'o', 'b'], [['w', 'e', 'd', 'n', 'e', 's', 'd', 'a', 'y']]), (['s', 'a', 'd'], [['n', 'o', 'v', 'e', 'm', 'b', 'e', 'r']]), (['s', 'a', 'n'], [['s', 'a', 't', 'u', 'r', 'd', 'a', 'y']]), (['u', 't', 'c'], [['u', 't', 'c']]), (['w', 'a', 'x'], [['j', 'u', 'n', 'e']]), (['w', 'i', 'x'], [['m', 'o', 'n', 'd', 'a', 'y']]), (['a', 'm'], [['a', 'm']]), (['p', 'm'], [['p', 'm']]), (['w', 'b'], [['p', 'm']]), (['w', 'd'], [['a', 'm']]), ([' '], [[' ']]), (['\''], [[]]), (['+'], [['+']]), ([','], [[]]), (['-'], [['-']]), (['.'], [['.']]), (['/'], [['/']]), ([':'], [[':']]), ([';'], [[]]), (['@'], [[]]), (['['], [[]]), ([']'], [[]]), (['z'], [['z']]), (['|'], [[]])]
  relativeType := [(['t', 'h', 'i', 's', ' ', 'm', 'i', 'n', 'u', 't', 'e'], ['0', ' ', 'm', 'i', 'n', 'u', 't', 'e', ' ', 'a', 'g', 'o']), (['l', 'a', 's', 't', ' ', 'm', 'o', 'n', 't', 'h'], ['1', ' ', 'm', 'o', 'n', 't', 'h', ' ', 'a', 'g', 'o']), (['n', 'e', 'x', 't', ' ', 'm', 'o', 'n', 't', 'h'], ['i', 'n', ' ', '1', ' ', 'm', 'o', 'n', 't', 'h']), (['t', 'h', 'i', 's', ' ', 'm', 'o', 'n', 't', 'h'], ['0', ' ', 'm', 'o', 'n', 't', 'h', ' ', 'a', 'g', 'o']), (['l', 'a', 's', 't', ' ', 'w', 'e', 'e', 'k'], ['1', ' ', 'w', 'e', 'e', 'k', ' ', 'a', 'g', 'o']), (['l', 'a', 's', 't', ' ', 'y', 'e', 'a', 'r'], ['1', ' ', 'y', 'e', 'a', 'r', ' ', 'a', 'g', 'o']), (['n', 'e', 'x', 't', ' ', 'w', 'e', 'e', 'k'], ['i', 'n', ' ', '1', ' ', 'w', 'e', 'e', 'k']), (['n', 'e', 'x', 't', ' ', 'y', 'e', 'a', 'r'], ['i', 'n', ' ', '1', ' ', 'y', 'e', 'a', 'r']), (['t', 'h', 'i', 's', ' ', 'h', 'o', 'u', 'r'], ['0', ' ', 'h', 'o', 'u', 'r', ' ', 'a', 'g', 'o']), (['t', 'h', 'i', 's', ' ', 'w', 'e', 'e', 'k'], ['0', ' ', 'w', 'e', 'e', 'k', ' ', 'a', 'g', 'o']), (['t', 'h', 'i', 's', ' ', 'y', 'e', 'a', 'r'], ['0', ' ', 'y', 'e', 'a', 'r', ' ', 'a', 'g', 'o']), (['y', 'e', 's', 't', 'e', 'r', 'd', 'a', 'y'], ['1', ' ', 'd', 'a', 'y', ' ', 'a', 'g', 'o']), (['t', 'o', 'm', 'o', 'r', 'r', 'o', 'w'], ['i', 'n', ' ', '1', ' ', 'd', 'a', 'y']), (['t', 'o', 'd', 'a', 'y'], ['0', ' ', 'd', 'a', 'y', ' ', 'a', 'g', 'o']), (['n', 'o', 'w'], ['0', ' ', 's', 'e', 'c', 'o', 'n', 'd', ' ', 'a', 'g', 'o'])]

/-- internal/data/om.go: `om_KE_Locale`, dictionary. -/
def om_KEDict : LangData where
  name := ['o', 'm', '-', 'K', 'E']

/-- internal/data/or.go: `or_Locale`, dictionary. -/
def orDict : LangData where
  name := ['o', 'r']
  translations := [(['ସ', 'େ', 'ପ', 'ଟ', 'େ', 'ମ', 'ବ', 'ର'], [['s', 'e', 'p', 't', 'e', 'm', 'b', 'e', 'r']]), (['ମ', 'ଙ', 'ଗ', 'ଳ', 'ବ', 'ା', 'ର'], [['t', 'u', 'e', 's', 'd', 'a', 'y']]), (['m', 'i', 'n', 'u', 't', 'e'], [['m', 'i', 'n', 'u', 't', 'e']]), (['s', 'e', 'c', 'o', 'n', 'd'], [['s', 'e', 'c', 'o', 'n', 'd']]), (['ଅ', 'କ', 'ଟ', 'ୋ', 'ବ', 'ର'], [['o', 'c', 't', 'o', 'b', 'e', 'r']]), (['ଜ', 'ା', 'ନ', 'ଆ', 'ର', 'ୀ'], [['j', 'a', 'n', 'u', 'a', 'r', 'y']]), (['ଡ', 'ସ', 'େ', 'ମ', 'ବ', 'ର'], [['d', 'e', 'c', 'e', 'm', 'b', 'e', 'r']]), (['ନ', 'ଭ', 'େ', 'ମ', 'ବ', 'ର'], [['n', 'o', 'v', 'e', 'm', 'b', 'e', 'r']]), (['ଫ', 'େ', 'ବ', 'ଆ', 'ର', 'ୀ'], [['f', 'e', 'b', 'r', 'u', 'a', 'r', 'y']]), (['ଶ', 'କ', 'ର', 'ବ', 'ା', 'ର'], [['f', 'r', 'i', 'd', 'a', 'y']]), (['ସ', 'ୋ', 'ମ', 'ବ', 'ା', 'ର'], [['m', 'o', 'n', 'd', 'a', 'y']]), (['m', 'o', 'n', 't', 'h'], [['m', 'o', 'n', 't', 'h']]), (['ଅ', 'ପ', 'ର', 'େ', 'ଲ'], [['a', 'p', 'r', 'i', 'l']]), (['ଗ', 'ର', 'ବ', 'ା', 'ର'], [['t', 'h', 'u', 'r', 's', 'd', 'a', 'y']]), (['ବ', 'ଧ', 'ବ', 'ା', 'ର'], [['w', 'e', 'd', 'n', 'e', 's', 'd', 'a', 'y']]), (['ମ', 'ା', 'ର', 'ଚ', 'ଚ'], [['m', 'a', 'r', 'c', 'h']]), (['ର', 'ବ', 'ବ', 'ା', 'ର'], [['s', 'u', 'n', 'd', 'a', 'y']]), (['ଶ', 'ନ', 'ବ', 'ା', 'ର'], [['s', 'a', 't', 'u', 'r', 'd', 'a', 'y']]), (['h', 'o', 'u', 'r'], [['h', 'o', 'u', 'r']]), (['w', 'e', 'e', 'k'], [['w', 'e', 'e', 'k']]), (['y', 'e', 'a', 'r'], [['y', 'e', 'a', 'r']]), (['ଅ', 'ଗ', 'ଷ', 'ଟ'], [['a', 'u', 'g', 'u', 's', 't']]), (['ଜ', 'ଲ', 'ା', 'ଇ'], [['j', 'u', 'l', 'y']]), (['ମ', 'ଙ', 'ଗ', 'ଳ'], [['t', 'u', 'e', 's', 'd', 'a', 'y']]), (['d', 'a', 'y'], [['d', 'a', 'y']]), (['g', 'm', 't'], [['g', 'm', 't']]), (['u', 't', 'c'], [['u', 't', 'c']]), (['ଶ', 'କ', 'ର'], [['f', 'r', 'i', 'd', 'a', 'y']]), (['ସ', 'ୋ', 'ମ'], [['m', 'o', 'n', 'd', 'a', 'y']]), (['a', 'm'], [['a', 'm']]), (['p', 'm'], [['p', 'm']]), (['ଗ', 'ର'], [['t', 'h', 'u', 'r', 's', 'd', 'a', 'y']]), (['ଜ', 'ନ'], [['j', 'u', 'n', 'e']]), (['ବ', 'ଧ'], [['w', 'e', 'd', 'n', 'e', 's', 'd', 'a', 'y']]), (['ମ', 'ଇ'], [['m', 'a', 'y']]), (['ର', 'ବ'], [['s', 'u', 'n', 'd', 'a', 'y']]), (['ଶ', 'ନ'], [['s', 'a', 't', 'u', 'r', 'd', 'a', 'y']]), ([' '], [[' ']]), (['\''], [[]]), (['+'], [['+']]), ([','], [[]]), (['-'], [['-']]), (['.'], [['.']]), (['/'], [['/']]), ([':'], [[':']]), ([';'], [[]]), (['@'], [[]]), (['['], [[]]), ([']'], [[]]), (['z'], [['z']]), (['|'], [[]])]
  relativeType := [(['t', 'h', 'i', 's', ' ', 'm', 'i', 'n', 'u', 't', 'e'], ['0', ' ', 'm', 'i', 'n', 'u', 't', 'e', ' ', 'a', 'g', 'o']), (['l', 'a', 's', 't', ' ', 'm', 'o', 'n', 't', 'h'], ['1', ' ', 'm', 'o', 'n', 't', 'h', ' ', 'a', 'g', 'o']), (['n', 'e', 'x', 't', ' ', 'm', 'o', 'n', 't', 'h'], ['i', 'n', ' ', '1', ' ', 'm', 'o', 'n', 't', 'h']), (['t', 'h', 'i', 's', ' ', 'm', 'o', 'n', 't', 'h'], ['0', ' ', 'm', 'o', 'n', 't', 'h', ' ', 'a', 'g', 'o']), (['l', 'a', 's', 't', ' ', 'w', 'e', 'e', 'k'], ['1', ' ', 'w', 'e', 'e', 'k', ' ', 'a', 'g', 'o']), (['l', 'a', 's', 't', ' ', 'y', 'e', 'a', 'r'], ['1', ' ', 'y', 'e', 'a', 'r', ' ', 'a', 'g', 'o']), (['n', 'e', 'x', 't', ' ', 'w', 'e', 'e', 'k'], ['i', 'n', ' ', '1', ' ', 'w', 'e', 'e', 'k']), (['n', 'e', 'x', 't', ' ', 'y', 'e', 'a', 'r'], ['i', 'n', ' ', '1', ' ', 'y', 'e', 'a', 'r']), (['t', 'h', 'i', 's', ' ', 'h', 'o', 'u', 'r'], ['0', ' ', 'h', 'o', 'u', 'r', ' ', 'a', 'g', 'o']), (['t', 'h', 'i', 's', ' ', 'w', 'e', 'e', 'k'], ['0', ' ', 'w', 'e', 'e', 'k', ' ', 'a', 'g', 'o']), (['t', 'h', 'i', 's', ' ', 'y', 'e', 'a', 'r'], ['0', ' ', 'y', 'e', 'a', 'r', ' ', 'a', 'g', 'o']), (['y', 'e', 's', 't', 'e', 'r', 'd', 'a', 'y'], ['1', ' ', 'd', 'a', 'y', ' ', 'a', 'g', 'o']), (['t', 'o', 'm', 'o', 'r', 'r', 'o', 'w'], ['i', 'n', ' ', '1', ' ', 'd', 'a', 'y']), (['t', 'o', 'd', 'a', 'y'], ['0', ' ', 'd', 'a', 'y', ' ', 'a', 'g', 'o']), (['n', 'o', 'w'], ['0', ' ', 's', 'e', 'c', 'o', 'n', 'd', ' ', 'a', 'g', 'o'])]

/-- internal/data/os.go: `os_Locale`, dictionary. -/
def osDict : LangData where
  name := ['o', 's']
  translations := [(['ӕ', 'м', 'б', 'и', 'с', 'б', 'о', 'н', 'ы', ' ', 'р', 'а', 'з', 'м', 'ӕ'], [['a', 'm']]), (['ӕ', 'м', 'б', 'и', 'с', 'б', 'о', 'н', 'ы', ' ', 'ф', 'ӕ', 'с', 'т', 'ӕ'], [['p', 'm']]), (['к', 'ъ', 'у', 'ы', 'р', 'и', 'с', 'ӕ', 'р'], [['m', 'o', 'n', 'd', 'a', 'y']]), (['м', 'а', 'и', 'р', 'ӕ', 'м', 'б', 'о', 'н'], [['f', 'r', 'i', 'd', 'a', 'y']]), (['х', 'у', 'ы', 'ц', 'а', 'у', 'б', 'о', 'н'], [['s', 'u', 'n', 'd', 'a', 'y']]), (['м', 'а', 'р', 'т', 'ъ', 'и', 'и', 'ы'], [['m', 'a', 'r', 'c', 'h']]), (['с', 'е', 'н', 'т', 'я', 'б', 'р', 'ы'], [['s', 'e', 'p', 't', 'e', 'm', 'b', 'e', 'r']]), (['с', 'е', 'н', 'т', 'я', 'б', 'р', 'ь'], [['s', 'e', 'p', 't', 'e', 'm', 'b', 'e', 'r']]), (['ц', 'ы', 'п', 'п', 'ӕ', 'р', 'ӕ', 'м'], [['t', 'h', 'u', 'r', 's', 'd', 'a', 'y']]), (['ӕ', 'р', 'т', 'ы', 'ц', 'ц', 'ӕ', 'г'], [['w', 'e', 'd', 'n', 'e', 's', 'd', 'a', 'y']]), (['а', 'в', 'г', 'у', 'с', 'т', 'ы'], [['a', 'u', 'g', 'u', 's', 't']]), (['д', 'е', 'к', 'а', 'б', 'р', 'ы'], [['d', 'e', 'c', 'e', 'm', 'b', 'e', 'r']]), (['д', 'е', 'к', 'а', 'б', 'р', 'ь'], [['d', 'e', 'c', 'e', 'm', 'b', 'e', 'r']]), (['о', 'к', 'т', 'я', 'б', 'р', 'ы'], [['o', 'c', 't', 'o', 'b', 'e', 'r']]), (['о', 'к', 'т', 'я', 'б', 'р', 'ь'], [['o', 'c', 't', 'o', 'b', 'e', 'r']]), (['ф', 'е', 'в', 'р', 'а', 'л', 'ы'], [['f', 'e', 'b', 'r', 'u', 'a', 'r', 'y']]), (['ф', 'е', 'в', 'р', 'а', 'л', 'ь'], [['f', 'e', 'b', 'r', 'u', 'a', 'r', 'y']]), (['а', 'в', 'г', 'у', 'с', 'т'], [['a', 'u', 'g', 'u', 's', 't']]), (['а', 'п', 'р', 'е', 'л', 'ы'], [['a', 'p', 'r', 'i', 'l']]), (['а', 'п', 'р', 'е', 'л', 'ь'], [['a', 'p', 'r', 'i', 'l']]), (['д', 'ы', 'ц', 'ц', 'ӕ', 'г'], [['t', 'u', 'e', 's', 'd', 'a', 'y']]), (['к', 'ъ', 'у', 'ы', 'р', 'и'], [['w', 'e', 'e', 'k']]), (['м', 'а', 'р', 'т', 'ъ', 'и'], [['m', 'a', 'r', 'c', 'h']]), (['н', 'о', 'я', 'б', 'р', 'ы'], [['n', 'o', 'v', 'e', 'm', 'b', 'e', 'r']]), (['н', 'о', 'я', 'б', 'р', 'ь'], [['n', 'o', 'v', 'e', 'm', 'b', 'e', 'r']]), (['с', 'е', 'к', 'у', 'н', 'д'], [['s', 'e', 'c', 'o', 'n', 'd']]), (['я', 'н', 'в', 'а', 'р', 'ы'], [['j', 'a', 'n', 'u', 'a', 'r', 'y']]), (['я', 'н', 'в', 'а', 'р', 'ь'], [['j', 'a', 'n', 'u', 'a', 'r', 'y']]), (['м', 'и', 'н', 'у', 'т'], [['m', 'i', 'n', 'u', 't', 'e']]), (['с', 'а', 'б', 'а', 'т'], [['s', 'a', 't', 'u', 'r', 'd', 'a', 'y']]), (['с', 'а', 'х', 'а', 'т'], [['h', 'o', 'u', 'r']]), (['и', 'ю', 'л', 'ы'], [['j', 'u', 'l', 'y']]), (['и', 'ю', 'л', 'ь'], [['j', 'u', 'l', 'y']]), (['и', 'ю', 'н', 'ы'], [['j', 'u', 'n', 'e']]), (['и', 'ю', 'н', 'ь'], [['j', 'u', 'n', 'e']]), (['м', 'а', 'и', 'ы'], [['m', 'a', 'y']]), (['м', 'а', 'р', 'т'], [['m', 'a', 'r', 'c', 'h']]), (['н', 'о', 'я', 'б'], [['n', 'o', 'v', 'e', 'm', 'b', 'e', 'r']]), (['с', 'е', 'н', 'т'], [['s', 'e', 'p', 't', 'e', 'm', 'b', 'e', 'r']]), (['ф', 'е', 'в', 'р'], [['f', 'e', 'b', 'r', 'u', 'a', 'r', 'y']]), (['g', 'm', 't'], [['g', 'm', 't']]), (['u', 't', 'c'], [['u', 't', 'c']]), (['а', 'в', 'г'], [['a', 'u', 'g', 'u', 's', 't']]), (['а', 'п', 'р'], [['a', 'p', 'r', 'i', 'l']]), (['б', 'о', 'н'], [['d', 'a', 'y']]), (['д', 'е', 'к'], [['d', 'e', 'c', 'e', 'm', 'b', 'e', 'r']]), (['д', 'ц', 'г'], [['t', 'u', 'e', 's', 'd', 'a', 'y']]), (['к', 'р', 'с'], [['m', 'o', 'n', 'd', 'a', 'y']]), (['м', 'а', 'и'], [['m', 'a', 'y']]), (['м', 'а', 'р'], [['m', 'a', 'r', 'c', 'h']]), (['м', 'р', 'б'], [['f', 'r', 'i', 'd', 'a', 'y']]), (['м', 'ӕ', 'и'], [['m', 'o', 'n', 't', 'h']]), (['н', 'о', 'я'], [['n', 'o', 'v', 'e', 'm', 'b', 'e', 'r']]), (['о', 'к', 'т'], [['o', 'c', 't', 'o', 'b', 'e', 'r']]), (['с', 'б', 'т'], [['s', 'a', 't', 'u', 'r', 'd', 'a', 'y']]), (['с', 'е', 'н'], [['s', 'e', 'p', 't', 'e', 'm', 'b', 'e', 'r']]), (['ф', 'е', 'в'], [['f', 'e', 'b', 'r', 'u', 'a', 'r', 'y']]), (['х', 'ц', 'б'], [['s', 'u', 'n', 'd', 'a', 'y']]), (['ц', 'п', 'р'], [['t', 'h', 'u', 'r', 's', 'd', 'a', 'y']]), (['я', 'н', 'в'], [['j', 'a', 'n', 'u', 'a', 'r', 'y']]), (['ӕ', 'р', 'т'], [['w', 'e', 'd', 'n', 'e', 's', 'd', 'a', 'y']]), (['a', 'm'], [['a', 'm']]), (['p', 'm'], [['p', 'm']]), (['а', 'з'], [['y', 'e', 'a', 'r']]), ([' '], [[' ']]), (['\''], [[]]), (['+'], [['+']]), ([','], [[]]), (['-'], [['-']]), (['.'], [['.']]), (['/'], [['/']]), ([':'], [[':']]), ([';'], [[]]), (['@'], [[]]), (['['], [[]]), ([']'], [[]]), (['z'], [['z']]), (['|'], [[]])]
  relativeType := [(['t', 'h', 'i', 's', ' ', 'm', 'i', 'n', 'u', 't', 'e'], ['0', ' ', 'm', 'i', 'n', 'u', 't', 'e', ' ', 'a', 'g', 'o']), (['l', 'a', 's', 't', ' ', 'm', 'o', 'n', 't', 'h'], ['1', ' ', 'm', 'o', 'n', 't', 'h', ' ', 'a', 'g', 'o']), (['n', 'e', 'x', 't', ' ', 'm', 'o', 'n', 't', 'h'], ['i', 'n', ' ', '1', ' ', 'm', 'o', 'n', 't', 'h']), (['t', 'h', 'i', 's', ' ', 'm', 'o', 'n', 't', 'h'], ['0', ' ', 'm', 'o', 'n', 't', 'h', ' ', 'a', 'g', 'o']), (['l', 'a', 's', 't', ' ', 'w', 'e', 'e', 'k'], ['1', ' ', 'w', 'e', 'e', 'k', ' ', 'a', 'g', 'o']), (['l', 'a', 's', 't', ' ', 'y', 'e', 'a', 'r'], ['1', ' ', 'y', 'e', 'a', 'r', ' ', 'a', 'g', 'o']), (['n', 'e', 'x', 't', ' ', 'w', 'e', 'e', 'k'], ['i', 'n', ' ', '1', ' ', 'w', 'e', 'e', 'k']), (['n', 'e', 'x', 't', ' ', 'y', 'e', 'a', 'r'], ['i', 'n', ' ', '1', ' ', 'y', 'e', 'a', 'r']), (['t', 'h', 'i', 's', ' ', 'h', 'o', 'u', 'r'], ['0', ' ', 'h', 'o', 'u', 'r', ' ', 'a', 'g', 'o']), (['t', 'h', 'i', 's', ' ', 'w', 'e', 'e', 'k'], ['0', ' ', 'w', 'e', 'e', 'k', ' ', 'a', 'g', 'o']), (['t', 'h', 'i', 's', ' ', 'y', 'e', 'a', 'r'], ['0', ' ', 'y', 'e', 'a', 'r', ' ', 'a', 'g', 'o']), (['а', 'б', 'о', 'н'], ['0', ' ', 'd', 'a', 'y', ' ', 'a', 'g', 'o']), (['з', 'н', 'о', 'н'], ['1', ' ', 'd', 'a', 'y', ' ', 'a', 'g', 'o']), (['n', 'o', 'w'], ['0', ' ', 's', 'e', 'c', 'o', 'n', 'd', ' ', 'a', 'g', 'o']), (['с', 'о', 'м'], ['i', 'n', ' ', '1', ' ', 'd', 'a', 'y'])]

/-- internal/data/os.go: `os_RU_Locale`, dictionary. -/
def os_RUDict : LangData where
  name := ['o', 's', '-', 'R', 'U']

/-- internal/data/pa-arab.go: `pa_Arab_Locale`, dictionary. -/
def pa_ArabDict : LangData where
  name := ['p', 'a', '-', 'A', 'r', 'a', 'b']
  translations := [(['s', 'e', 'c', 'o', 'n', 'd'], [['s', 'e', 'c', 'o', 'n', 'd']]), (['ا', 'ک', 'ت', 'و', 'ب', 'ر'], [['o', 'c', 't', 'o', 'b', 'e', 'r']]), (['ج', 'م', 'ع', 'ر', 'ا', 'ت'], [['t', 'h', 'u', 'r', 's', 'd', 'a', 'y']]), (['ج', 'و', 'ل', 'ا', 'ي', 'ی'], [['j', 'u', 'l', 'y']]), (['ا', 'ت', 'و', 'ا', 'ر'], [['s', 'u', 'n', 'd', 'a', 'y']]), (['ا', 'پ', 'ر', 'ی', 'ل'], [['a', 'p', 'r', 'i', 'l']]), (['ج', 'ن', 'و', 'ر', 'ی'], [['j', 'a', 'n', 'u', 'a', 'r', 'y']]), (['د', 'س', 'م', 'ب', 'ر'], [['d', 'e', 'c', 'e', 'm', 'b', 'e', 'r']]), (['س', 'ت', 'م', 'ب', 'ر'], [['s', 'e', 'p', 't', 'e', 'm', 'b', 'e', 'r']]), (['ف', 'ر', 'و', 'ر', 'ی'], [['f', 'e', 'b', 'r', 'u', 'a', 'r', 'y']]), (['م', 'ہ', 'ي', 'ن', 'ا'], [['m', 'o', 'n', 't', 'h']]), (['ن', 'و', 'م', 'ب', 'ر'], [['n', 'o', 'v', 'e', 'm', 'b', 'e', 'r']]), (['گ', 'ھ', 'ن', 'ٹ', 'ا'], [['h', 'o', 'u', 'r']]), (['ا', 'گ', 'س', 'ت'], [['a', 'u', 'g', 'u', 's', 't']]), (['ج', 'م', 'ع', 'ہ'], [['f', 'r', 'i', 'd', 'a', 'y']]), (['م', 'ا', 'ر', 'چ'], [['m', 'a', 'r', 'c', 'h']]), (['م', 'ن', 'گ', 'ل'], [['t', 'u', 'e', 's', 'd', 'a', 'y']]), (['و', 'ر', 'ھ', 'ا'], [['y', 'e', 'a', 'r']]), (['ہ', 'ف', 'ت', 'ہ'], [['w', 'e', 'e', 'k'], ['s', 'a', 't', 'u', 'r', 'd', 'a', 'y']]), (['g', 'm', 't'], [['g', 'm', 't']]), (['u', 't', 'c'], [['u', 't', 'c']]), (['ب', 'د', 'ھ'], [['w', 'e', 'd', 'n', 'e', 's', 'd', 'a', 'y']]), (['ج', 'و', 'ن'], [['j', 'u', 'n', 'e']]), (['د', 'ي', 'ن'], [['d', 'a', 'y']]), (['م', 'ن', 'ٹ'], [['m', 'i', 'n', 'u', 't', 'e']]), (['پ', 'ی', 'ر'], [['m', 'o', 'n', 'd', 'a', 'y']]), (['a', 'm'], [['a', 'm']]), (['p', 'm'], [['p', 'm']]), (['م', 'ي'], [['m', 'a', 'y']]), ([' '], [[' ']]), (['\''], [[]]), (['+'], [['+']]), ([','], [[]]), (['-'], [['-']]), (['.'], [['.']]), (['/'], [['/']]), ([':'], [[':']]), ([';'], [[]]), (['@'], [[]]), (['['], [[]]), ([']'], [[]]), (['z'], [['z']]), (['|'], [[]])]
  relativeType := [(['t', 'h', 'i', 's', ' ', 'm', 'i', 'n', 'u', 't', 'e'], ['0', ' ', 'm', 'i', 'n', 'u', 't', 'e', ' ', 'a', 'g', 'o']), (['l', 'a', 's', 't', ' ', 'm', 'o', 'n', 't', 'h'], ['1', ' ', 'm', 'o', 'n', 't', 'h', ' ', 'a', 'g', 'o']), (['n', 'e', 'x', 't', ' ', 'm', 'o', 'n', 't', 'h'], ['i', 'n', ' ', '1', ' ', 'm', 'o', 'n', 't', 'h']), (['t', 'h', 'i', 's', ' ', 'm', 'o', 'n', 't', 'h'], ['0', ' ', 'm', 'o', 'n', 't', 'h', ' ', 'a', 'g', 'o']), (['l', 'a', 's', 't', ' ', 'w', 'e', 'e', 'k'], ['1', ' ', 'w', 'e', 'e', 'k', ' ', 'a', 'g', 'o']), (['l', 'a', 's', 't', ' ', 'y', 'e', 'a', 'r'], ['1', ' ', 'y', 'e', 'a', 'r', ' ', 'a', 'g', 'o']), (['n', 'e', 'x', 't', ' ', 'w', 'e', 'e', 'k'], ['i', 'n', ' ', '1', ' ', 'w', 'e', 'e', 'k']), (['n', 'e', 'x', 't', ' ', 'y', 'e', 'a', 'r'], ['i', 'n', ' ', '1', ' ', 'y', 'e', 'a', 'r']), (['t', 'h', 'i', 's', ' ', 'h', 'o', 'u', 'r'], ['0', ' ', 'h', 'o', 'u', 'r', ' ', 'a', 'g', 'o']), (['t', 'h', 'i', 's', ' ', 'w', 'e', 'e', 'k'], ['0', ' ', 'w', 'e', 'e', 'k', ' ', 'a', 'g', 'o']), (['t', 'h', 'i', 's', ' ', 'y', 'e', 'a', 'r'], ['0', ' ', 'y', 'e', 'a', 'r', ' ', 'a', 'g', 'o']), (['y', 'e', 's', 't', 'e', 'r', 'd', 'a', 'y'], ['1', ' ', 'd', 'a', 'y', ' ', 'a', 'g', 'o']), (['t', 'o', 'm', 'o', 'r', 'r', 'o', 'w'], ['i', 'n', ' ', '1', ' ', 'd', 'a', 'y']), (['t', 'o', 'd', 'a', 'y'], ['0', ' ', 'd', 'a', 'y', ' ', 'a', 'g', 'o']), (['n', 'o', 'w'], ['0', ' ', 's', 'e', 'c', 'o', 'n', 'd', ' ', 'a', 'g', 'o'])]

/-- internal/data/pa-guru.go: `pa_Guru_Locale`, dictionary. -/
def pa_GuruDict : LangData where
  name := ['p', 'a', '-', 'G', 'u', 'r', 'u']
  translations := [(['ਸ', 'ਨ', 'ਿ', 'ਚ', 'ਰ', 'ਵ', 'ਾ', 'ਰ'], [['s', 'a', 't', 'u', 'r', 'd', 'a', 'y']]), (['ਮ', 'ਗ', 'ਲ', 'ਵ', 'ਾ', 'ਰ'], [['t', 'u', 'e', 's', 'd', 'a', 'y']]), (['ਵ', 'ੀ', 'ਰ', 'ਵ', 'ਾ', 'ਰ'], [['t', 'h', 'u', 'r', 's', 'd', 'a', 'y']]), (['ਸ', 'ਕ', 'ਰ', 'ਵ', 'ਾ', 'ਰ'], [['f', 'r', 'i', 'd', 'a', 'y']]), (['ਅ', 'ਕ', 'ਤ', 'ਬ', 'ਰ'], [['o', 'c', 't', 'o', 'b', 'e', 'r']]), (['ਐ', 'ਤ', 'ਵ', 'ਾ', 'ਰ'], [['s', 'u', 'n', 'd', 'a', 'y']]), (['ਜ', 'ਨ', 'ਵ', 'ਰ', 'ੀ'], [['j', 'a', 'n', 'u', 'a', 'r', 'y']]), (['ਫ', 'ਰ', 'ਵ', 'ਰ', 'ੀ'], [['f', 'e', 'b', 'r', 'u', 'a', 'r', 'y']]), (['ਬ', 'ਧ', 'ਵ', 'ਾ', 'ਰ'], [['w', 'e', 'd', 'n', 'e', 's', 'd', 'a', 'y']]), (['ਮ', 'ਹ', 'ੀ', 'ਨ', 'ਾ'], [['m', 'o', 'n', 't', 'h']]), (['ਸ', 'ਨ', 'ਿ', 'ਚ', 'ਰ'], [['s', 'a', 't', 'u', 'r', 'd', 'a', 'y']]), (['ਸ', 'ਮ', 'ਵ', 'ਾ', 'ਰ'], [['m', 'o', 'n', 'd', 'a', 'y']]), (['ਅ', 'ਗ', 'ਸ', 'ਤ'], [['a', 'u', 'g', 'u', 's', 't']]), (['ਅ', 'ਪ', 'ਰ', 'ਲ'], [['a', 'p', 'r', 'i', 'l']]), (['ਜ', 'ਲ', 'ਾ', 'ਈ'], [['j', 'u', 'l', 'y']]), (['ਦ', 'ਸ', 'ਬ', 'ਰ'], [['d', 'e', 'c', 'e', 'm', 'b', 'e', 'r']]), (['ਨ', 'ਵ', 'ਬ', 'ਰ'], [['n', 'o', 'v', 'e', 'm', 'b', 'e', 'r']]), (['ਮ', 'ਾ', 'ਰ', 'ਚ'], [['m', 'a', 'r', 'c', 'h']]), (['ਸ', 'ਕ', 'ਿ', 'ਟ'], [['s', 'e', 'c', 'o', 'n', 'd']]), (['ਸ', 'ਤ', 'ਬ', 'ਰ'], [['s', 'e', 'p', 't', 'e', 'm', 'b', 'e', 'r']]), (['ਹ', 'ਫ', 'ਤ', 'ਾ'], [['w', 'e', 'e', 'k']]), (['g', 'm', 't'], [['g', 'm', 't']]), (['u', 't', 'c'], [['u', 't', 'c']]), (['ਅ', 'ਕ', 'ਤ'], [['o', 'c', 't', 'o', 'b', 'e', 'r']]), (['ਅ', 'ਪ', 'ਰ'], [['a', 'p', 'r', 'i', 'l']]), (['ਘ', 'ਟ', 'ਾ'], [['h', 'o', 'u', 'r']]), (['ਜ', 'ਲ', 'ਾ'], [['j', 'u', 'l', 'y']]), (['ਦ', 'ਿ', 'ਨ'], [['d', 'a', 'y']]), (['ਬ', 'ਾ', 'ਦ'], [['p', 'm']]), (['ਮ', 'ਗ', 'ਲ'], [['t', 'u', 'e', 's', 'd', 'a', 'y']]), (['ਮ', 'ਿ', 'ਟ'], [['m', 'i', 'n', 'u', 't', 'e']]), (['ਵ', 'ੀ', 'ਰ'], [['t', 'h', 'u', 'r', 's', 'd', 'a', 'y']]), (['ਸ', 'ਕ', 'ਰ'], [['f', 'r', 'i', 'd', 'a', 'y']]), (['ਸ', 'ਾ', 'ਲ'], [['y', 'e', 'a', 'r']]), (['a', 'm'], [['a', 'm']]), (['p', 'm'], [['p', 'm']]), (['ਅ', 'ਗ'], [['a', 'u', 'g', 'u', 's', 't']]), (['ਐ', 'ਤ'], [['s', 'u', 'n', 'd', 'a', 'y']]), (['ਜ', 'ਨ'], [['j', 'u', 'n', 'e'], ['j', 'a', 'n', 'u', 'a', 'r', 'y']]), (['ਦ', 'ਸ'], [['d', 'e', 'c', 'e', 'm', 'b', 'e', 'r']]), (['ਨ', 'ਵ'], [['n', 'o', 'v', 'e', 'm', 'b', 'e', 'r']]), (['ਪ', 'ਦ'], [['a', 'm']]), (['ਫ', 'ਰ'], [['f', 'e', 'b', 'r', 'u', 'a', 'r', 'y']]), (['ਬ', 'ਧ'], [['w', 'e', 'd', 'n', 'e', 's', 'd', 'a', 'y']]), (['ਮ', 'ਈ'], [['m', 'a', 'y']]), (['ਸ', 'ਤ'], [['s', 'e', 'p', 't', 'e', 'm', 'b', 'e', 'r']]), (['ਸ', 'ਮ'], [['m', 'o', 'n', 'd', 'a', 'y']]), ([' '], [[' ']]), (['\''], [[]]), (['+'], [['+']]), ([','], [[]]), (['-'], [['-']]), (['.'], [['.']]), (['/'], [['/']]), ([':'], [[':']]), ([';'], [[]]), (['@'], [[]]), (['['], [[]]), ([']'], [[]]), (['z'], [['z']]), (['|'], [[]]), (['ਘ'], [['h', 'o', 'u', 'r']])]
  relativeType := [(['ਪ', 'ਿ', 'ਛ', 'ਲ', 'ਾ', ' ', 'ਮ', 'ਹ', 'ੀ', 'ਨ', 'ਾ'], ['1', ' ', 'm', 'o', 'n', 't', 'h', ' ', 'a', 'g', 'o']), (['ਅ', 'ਗ', 'ਲ', 'ਾ', ' ', 'ਮ', 'ਹ', 'ੀ', 'ਨ', 'ਾ'], ['i', 'n', ' ', '1', ' ', 'm', 'o', 'n', 't', 'h']), (['ਪ', 'ਿ', 'ਛ', 'ਲ', 'ਾ', ' ', 'ਹ', 'ਫ', 'ਤ', 'ਾ'], ['1', ' ', 'w', 'e', 'e', 'k', ' ', 'a', 'g', 'o']), (['ਅ', 'ਗ', 'ਲ', 'ਾ', ' ', 'ਹ', 'ਫ', 'ਤ', 'ਾ'], ['i', 'n', ' ', '1', ' ', 'w', 'e', 'e', 'k']), (['ਪ', 'ਿ', 'ਛ', 'ਲ', 'ਾ', ' ', 'ਸ', 'ਾ', 'ਲ'], ['1', ' ', 'y', 'e', 'a', 'r', ' ', 'a', 'g', 'o']), (['ਬ', 'ੀ', 'ਤ', 'ਿ', 'ਆ', ' ', 'ਕ', 'ਲ', 'ਹ'], ['1', ' ', 'd', 'a', 'y', ' ', 'a', 'g', 'o']), (['ਅ', 'ਗ', 'ਲ', 'ਾ', ' ', 'ਸ', 'ਾ', 'ਲ'], ['i', 'n', ' ', '1', ' ', 'y', 'e', 'a', 'r']), (['ਇ', 'ਹ', ' ', 'ਮ', 'ਹ', 'ੀ', 'ਨ', 'ਾ'], ['0', ' ', 'm', 'o', 'n', 't', 'h', ' ', 'a', 'g', 'o']), (['ਇ', 'ਹ', ' ', 'ਹ', 'ਫ', 'ਤ', 'ਾ'], ['0', ' ', 'w', 'e', 'e', 'k', ' ', 'a', 'g', 'o']), (['ਇ', 'ਸ', ' ', 'ਮ', 'ਿ', 'ਟ'], ['0', ' ', 'm', 'i', 'n', 'u', 't', 'e', ' ', 'a', 'g', 'o']), (['ਇ', 'ਹ', ' ', 'ਸ', 'ਾ', 'ਲ'], ['0', ' ', 'y', 'e', 'a', 'r', ' ', 'a', 'g', 'o']), (['ਇ', 'ਸ', ' ', 'ਘ', 'ਟ'], ['0', ' ', 'h', 'o', 'u', 'r', ' ', 'a', 'g', 'o']), (['ਭ', 'ਲ', 'ਕ'], ['i', 'n', ' ', '1', ' ', 'd', 'a', 'y']), (['ਅ', 'ਜ'], ['0', ' ', 'd', 'a', 'y', ' ', 'a', 'g', 'o']), (['ਹ', 'ਣ'], ['0', ' ', 's', 'e', 'c', 'o', 'n', 'd', ' ', 'a', 'g', 'o'])]

/-- internal/data/pa.go: `pa_Locale`, dictionary. -/
def paDict : LangData where
  name := ['p', 'a']
  translations := [(['ਸ', 'ਨ', 'ਿ', 'ਚ', 'ਰ', 'ਵ', 'ਾ', 'ਰ'], [['s', 'a', 't', 'u', 'r', 'd', 'a', 'y']]), (['ਮ', 'ਗ', 'ਲ', 'ਵ', 'ਾ', 'ਰ'], [['t', 'u', 'e', 's', 'd', 'a', 'y']]), (['ਵ', 'ੀ', 'ਰ', 'ਵ', 'ਾ', 'ਰ'], [['t', 'h', 'u', 'r', 's', 'd', 'a', 'y']]), (['ਸ', 'ਕ', 'ਰ', 'ਵ', 'ਾ', 'ਰ'], [['f', 'r', 'i', 'd', 'a', 'y']]), (['ਅ', 'ਕ', 'ਤ', 'ਬ', 'ਰ'], [['o', 'c', 't', 'o', 'b', 'e', 'r']]), (['ਐ', 'ਤ', 'ਵ', 'ਾ', 'ਰ'], [['s', 'u', 'n', 'd', 'a', 'y']]), (['ਜ', 'ਨ', 'ਵ', 'ਰ', 'ੀ'], [['j', 'a', 'n', 'u', 'a', 'r', 'y']]), (['ਫ', 'ਰ', 'ਵ', 'ਰ', 'ੀ'], [['f', 'e', 'b', 'r', 'u', 'a', 'r', 'y']]), (['ਬ', 'ਧ', 'ਵ', 'ਾ', 'ਰ'], [['w', 'e', 'd', 'n', 'e', 's', 'd', 'a', 'y']]), (['ਮ', 'ਹ', 'ੀ', 'ਨ', 'ਾ'], [['m', 'o', 'n', 't', 'h']]), (['ਸ', 'ਨ', 'ਿ', 'ਚ', 'ਰ'], [['s', 'a', 't', 'u', 'r', 'd', 'a', 'y']]), (['ਸ', 'ਮ', 'ਵ', 'ਾ', 'ਰ'], [['m', 'o', 'n', 'd', 'a', 'y']]), (['ਅ', 'ਗ', 'ਸ', 'ਤ'], [['a', 'u', 'g', 'u', 's', 't']]), (['ਅ', 'ਪ', 'ਰ', 'ਲ'], [['a', 'p', 'r', 'i', 'l']]), (['ਜ', 'ਲ', 'ਾ', 'ਈ'], [['j', 'u', 'l', 'y']]), (['ਦ', 'ਸ', 'ਬ', 'ਰ'], [['d', 'e', 'c', 'e', 'm', 'b', 'e', 'r']]), (['ਨ', 'ਵ', 'ਬ', 'ਰ'], [['n', 'o', 'v', 'e', 'm', 'b', 'e', 'r']]), (['ਮ', 'ਾ', 'ਰ', 'ਚ'], [['m', 'a', 'r', 'c', 'h']]), (['ਸ', 'ਕ', 'ਿ', 'ਟ'], [['s', 'e', 'c', 'o', 'n', 'd']]), (['ਸ', 'ਤ', 'ਬ', 'ਰ'], [['s', 'e', 'p', 't', 'e', 'm', 'b', 'e', 'r']]), (['ਹ', 'ਫ', 'ਤ', 'ਾ'], [['w', 'e', 'e', 'k']]), (['g', 'm', 't'], [['g', 'm', 't']]), (['u', 't', 'c'], [['u', 't', 'c']]), (['ਅ', 'ਕ', 'ਤ'], [['o', 'c', 't', 'o', 'b', 'e', 'r']]), (['ਅ', 'ਪ', 'ਰ'], [['a', 'p', 'r', 'i', 'l']]), (['ਘ', 'ਟ', 'ਾ'], [['h', 'o', 'u', 'r']]), (['ਜ', 'ਲ', 'ਾ'], [['j', 'u', 'l', 'y']]), (['ਦ', 'ਿ', 'ਨ'], [['d', 'a', 'y']]), (['ਬ', 'ਾ', 'ਦ'], [['p', 'm']]), (['ਮ', 'ਗ', 'ਲ'], [['t', 'u', 'e', 's', 'd', 'a', 'y']]), (['ਮ', 'ਿ', 'ਟ'], [['m', 'i', 'n', 'u', 't', 'e']]), (['ਵ', 'ੀ', 'ਰ'], [['t', 'h', 'u', 'r', 's', 'd', 'a', 'y']]), (['ਸ', 'ਕ', 'ਰ'], [['f', 'r', 'i', 'd', 'a', 'y']]), (['ਸ', 'ਾ', 'ਲ'], [['y', 'e', 'a', 'r']]), (['a', 'm'], [['a', 'm']]), (['p', 'm'], [['p', 'm']]), (['ਅ', 'ਗ'], [['a', 'u', 'g', 'u', 's', 't']]), (['ਐ', 'ਤ'], [['s', 'u', 'n', 'd', 'a', 'y']]), (['ਜ', 'ਨ'], [['j', 'u', 'n', 'e'], ['j', 'a', 'n', 'u', 'a', 'r', 'y']]), (['ਦ', 'ਸ'], [['d', 'e', 'c', 'e', 'm', 'b', 'e', 'r']]), (['ਨ', 'ਵ'], [['n', 'o', 'v', 'e', 'm', 'b', 'e', 'r']]), (['ਪ', 'ਦ'], [['a', 'm']]), (['ਫ', 'ਰ'], [['f', 'e', 'b', 'r', 'u', 'a', 'r', 'y']]), (['ਬ', 'ਧ'], [['w', 'e', 'd', 'n', 'e', 's', 'd', 'a', 'y']]), (['ਮ', 'ਈ'], [['m', 'a', 'y']]), (['ਸ', 'ਤ'], [['s', 'e', 'p', 't', 'e', 'm', 'b', 'e', 'r']]), (['ਸ', 'ਮ'], [['m', 'o', 'n', 'd', 'a', 'y']]), ([' '], [[' ']]), (['\''], [[]]), (['+'], [['+']]), ([','], [[]]), (['-'], [['-']]), (['.'], [['.']]), (['/'], [['/']]), ([':'], [[':']]), ([';'], [[]]), (['@'], [[]]), (['['], [[]]), ([']'], [[]]), (['z'], [['z']]), (['|'], [[]]), (['ਘ'], [['h', 'o', 'u', 'r']])]
  relativeType := [(['ਪ', 'ਿ', 'ਛ', 'ਲ', 'ਾ', ' ', 'ਮ', 'ਹ', 'ੀ', 'ਨ', 'ਾ'], ['1', ' ', 'm', 'o', 'n', 't', 'h', ' ', 'a', 'g', 'o']), (['ਅ', 'ਗ', 'ਲ', 'ਾ', ' ', 'ਮ', 'ਹ', 'ੀ', 'ਨ', 'ਾ'], ['i', 'n', ' ', '1', ' ', 'm', 'o', 'n', 't', 'h']), (['ਪ', 'ਿ', 'ਛ', 'ਲ', 'ਾ', ' ', 'ਹ', 'ਫ', 'ਤ', 'ਾ'], ['1', ' ', 'w', 'e', 'e', 'k', ' ', 'a', 'g', 'o']), (['ਅ', 'ਗ', 'ਲ', 'ਾ', ' ', 'ਹ', 'ਫ', 'ਤ', 'ਾ'], ['i', 'n', ' ', '1', ' ', 'w', 'e', 'e', 'k']), (['ਪ', 'ਿ', 'ਛ', 'ਲ', 'ਾ', ' ', 'ਸ', 'ਾ', 'ਲ'], ['1', ' ', 'y', 'e', 'a', 'r', ' ', 'a', 'g', 'o']), (['ਬ', 'ੀ', 'ਤ', 'ਿ', 'ਆ', ' ', 'ਕ', 'ਲ', 'ਹ'], ['1', ' ', 'd', 'a', 'y', ' ', 'a', 'g', 'o']), (['ਅ', 'ਗ', 'ਲ', 'ਾ', ' ', 'ਸ', 'ਾ', 'ਲ'], ['i', 'n', ' ', '1', ' ', 'y', 'e', 'a', 'r']), (['ਇ', 'ਹ', ' ', 'ਮ', 'ਹ', 'ੀ', 'ਨ', 'ਾ'], ['0', ' ', 'm', 'o', 'n', 't', 'h', ' ', 'a', 'g', 'o']), (['ਇ', 'ਹ', ' ', 'ਹ', 'ਫ', 'ਤ', 'ਾ'], ['0', ' ', 'w', 'e', 'e', 'k', ' ', 'a', 'g', 'o']), (['ਇ', 'ਸ', ' ', 'ਮ', 'ਿ', 'ਟ'], ['0', ' ', 'm', 'i', 'n', 'u', 't', 'e', ' ', 'a', 'g', 'o']), (['ਇ', 'ਹ', ' ', 'ਸ', 'ਾ', 'ਲ'], ['0', ' ', 'y', 'e', 'a', 'r', ' ', 'a', 'g', 'o']), (['ਇ', 'ਸ', ' ', 'ਘ', 'ਟ'], ['0', ' ', 'h', 'o', 'u', 'r', ' ', 'a', 'g', 'o']), (['ਭ', 'ਲ', 'ਕ'], ['i', 'n', ' ', '1', ' ', 'd', 'a', 'y']), (['ਅ', 'ਜ'], ['0', ' ', 'd', 'a', 'y', ' ', 'a', 'g', 'o']), (['ਹ', 'ਣ'], ['0', ' ', 's', 'e', 'c', 'o', 'n', 'd', ' ', 'a', 'g', 'o'])]

/-- internal/data/pl.go: `pl_Locale`, dictionary. -/
def plDict : LangData where
  name := ['p', 'l']
  splitterGroup := 1
  translations := [(['p', 'a', 'z', 'd', 'z', 'i', 'e', 'r', 'n', 'i', 'k', 'a'], [['o', 'c', 't', 'o', 'b', 'e', 'r']]), (['p', 'a', 'z', 'd', 'z', 'i', 'e', 'r', 'n', 'i', 'k', 'u'], [['o', 'c', 't', 'o', 'b', 'e', 'r']]), (['p', 'o', 'n', 'i', 'e', 'd', 'z', 'i', 'a', 'l', 'e', 'k'], [['m', 'o', 'n', 'd', 'a', 'y']]), (['p', 'o', 'n', 'i', 'e', 'd', 'z', 'i', 'a', 'ł', 'e', 'k'], [['m', 'o', 'n', 'd', 'a', 'y']]), (['l', 'i', 's', 't', 'o', 'p', 'a', 'd', 'z', 'i', 'e'], [['n', 'o', 'v', 'e', 'm', 'b', 'e', 'r']]), (['p', 'a', 'z', 'd', 'z', 'i', 'e', 'r', 'n', 'i', 'k'], [['o', 'c', 't', 'o', 'b', 'e', 'r']]), (['l', 'i', 's', 't', 'o', 'p', 'a', 'd', 'a'], [['n', 'o', 'v', 'e', 'm', 'b', 'e', 'r']]), (['n', 'i', 'e', 'd', 'z', 'i', 'e', 'l', 'a'], [['s', 'u', 'n', 'd', 'a', 'y']]), (['n', 'i', 'e', 'd', 'z', 'i', 'e', 'l', 'e'], [['s', 'u', 'n', 'd', 'a', 'y']]), (['c', 'z', 'e', 'r', 'w', 'i', 'e', 'c'], [['j', 'u', 'n', 'e']]), (['c', 'z', 'w', 'a', 'r', 't', 'e', 'k'], [['t', 'h', 'u', 'r', 's', 'd', 'a', 'y']]), (['g', 'r', 'u', 'd', 'z', 'i', 'e', 'n'], [['d', 'e', 'c', 'e', 'm', 'b', 'e', 'r']]), (['k', 'w', 'i', 'e', 'c', 'i', 'e', 'n'], [['a', 'p', 'r', 'i', 'l']]), (['k', 'w', 'i', 'e', 't', 'n', 'i', 'a'], [['a', 'p', 'r', 'i', 'l']]), (['k', 'w', 'i', 'e', 't', 'n', 'i', 'u'], [['a', 'p', 'r', 'i', 'l']]), (['l', 'i', 's', 't', 'o', 'p', 'a', 'd'], [['n', 'o', 'v', 'e', 'm', 'b', 'e', 'r']]), (['m', 'i', 'e', 's', 'i', 'a', 'c', 'a'], [['m', 'o', 'n', 't', 'h']]), (['m', 'i', 'e', 's', 'i', 'a', 'c', 'e'], [['m', 'o', 'n', 't', 'h']]), (['m', 'i', 'e', 's', 'i', 'e', 'c', 'y'], [['m', 'o', 'n', 't', 'h']]), (['s', 'i', 'e', 'r', 'p', 'i', 'e', 'n'], [['a', 'u', 'g', 'u', 's', 't']]), (['s', 'i', 'e', 'r', 'p', 'n', 'i', 'a'], [['a', 'u', 'g', 'u', 's', 't']]), (['s', 'i', 'e', 'r', 'p', 'n', 'i', 'u'], [['a', 'u', 'g', 'u', 's', 't']]), (['s', 't', 'y', 'c', 'z', 'n', 'i', 'a'], [['j', 'a', 'n', 'u', 'a', 'r', 'y']]), (['s', 't', 'y', 'c', 'z', 'n', 'i', 'u'], [['j', 'a', 'n', 'u', 'a', 'r', 'y']]), (['t', 'y', 'g', 'o', 'd', 'n', 'i', 'e'], [['w', 'e', 'e', 'k']]), (['w', 'r', 'z', 'e', 's', 'i', 'e', 'n'], [['s', 'e', 'p', 't', 'e', 'm', 'b', 'e', 'r']]), (['w', 'r', 'z', 'e', 's', 'n', 'i', 'a'], [['s', 'e', 'p', 't', 'e', 'm', 'b', 'e', 'r']]), (['w', 'r', 'z', 'e', 's', 'n', 'i', 'u'], [['s', 'e', 'p', 't', 'e', 'm', 'b', 'e', 'r']]), (['c', 'z', 'e', 'r', 'w', 'c', 'a'], [['j', 'u', 'n', 'e']]), (['c', 'z', 'e', 'r', 'w', 'c', 'u'], [['j', 'u', 'n', 'e']]), (['g', 'o', 'd', 'z', 'i', 'n', 'a'], [['h', 'o', 'u', 'r']]), (['g', 'o', 'd', 'z', 'i', 'n', 'e'], [['h', 'o', 'u', 'r']]), (['g', 'o', 'd', 'z', 'i', 'n', 'y'], [['h', 'o', 'u', 'r']]), (['g', 'r', 'u', 'd', 'n', 'i', 'a'], [['d', 'e', 'c', 'e', 'm', 'b', 'e', 'r']]), (['g', 'r', 'u', 'd', 'n', 'i', 'u'], [['d', 'e', 'c', 'e', 'm', 'b', 'e', 'r']]), (['m', 'i', 'e', 's', 'i', 'a', 'c'], [['m', 'o', 'n', 't', 'h']]), (['s', 'e', 'k', 'u', 'n', 'd', 'a'], [['s', 'e', 'c', 'o', 'n', 'd']]), (['s', 'e', 'k', 'u', 'n', 'd', 'e'], [['s', 'e', 'c', 'o', 'n', 'd']]), (['s', 'e', 'k', 'u', 'n', 'd', 'y'], [['s', 'e', 'c', 'o', 'n', 'd']]), (['s', 't', 'y', 'c', 'z', 'e', 'n'], [['j', 'a', 'n', 'u', 'a', 'r', 'y']]), (['t', 'y', 'd', 'z', 'i', 'e', 'n'], [['w', 'e', 'e', 'k']]), (['t', 'y', 'g', 'o', 'd', 'n', 'i'], [['w', 'e', 'e', 'k']]), (['g', 'o', 'd', 'z', 'i', 'n'], [['h', 'o', 'u', 'r']]), (['l', 'i', 'p', 'i', 'e', 'c'], [['j', 'u', 'l', 'y']]), (['l', 'u', 't', 'e', 'g', 'o'], [['f', 'e', 'b', 'r', 'u', 'a', 'r', 'y']]), (['m', 'a', 'r', 'z', 'e', 'c'], [['m', 'a', 'r', 'c', 'h']]), (['m', 'i', 'n', 'u', 't', 'a'], [['m', 'i', 'n', 'u', 't', 'e']]), (['m', 'i', 'n', 'u', 't', 'e'], [['m', 'i', 'n', 'u', 't', 'e']]), (['m', 'i', 'n', 'u', 't', 'y'], [['m', 'i', 'n', 'u', 't', 'e']]), (['p', 'i', 'a', 't', 'e', 'k'], [['f', 'r', 'i', 'd', 'a', 'y']]), (['s', 'e', 'k', 'u', 'n', 'd'], [['s', 'e', 'c', 'o', 'n', 'd']]), (['s', 'o', 'b', 'o', 't', 'a'], [['s', 'a', 't', 'u', 'r', 'd', 'a', 'y']]), (['s', 'o', 'b', 'o', 't', 'e'], [['s', 'a', 't', 'u', 'r', 'd', 'a', 'y']]), (['w', 't', 'o', 'r', 'e', 'k'], [['t', 'u', 'e', 's', 'd', 'a', 'y']]), (['d', 'z', 'i', 'e', 'n'], [['d', 'a', 'y']]), (['l', 'i', 'p', 'c', 'a'], [['j', 'u', 'l', 'y']]), (['l', 'i', 'p', 'c', 'u'], [['j', 'u', 'l', 'y']]), (['l', 'u', 't', 'y', 'm'], [['f', 'e', 'b', 'r', 'u', 'a', 'r', 'y']]), (['m', 'a', 'r', 'c', 'a'], [['m', 'a', 'r', 'c', 'h']]), (['m', 'a', 'r', 'c', 'u'], [['m', 'a', 'r', 'c', 'h']]), (['m', 'i', 'n', 'u', 't'], [['m', 'i', 'n', 'u', 't', 'e']]), (['n', 'i', 'e', 'd', 'z'], [['s', 'u', 'n', 'd', 'a', 'y']]), (['s', 'r', 'o', 'd', 'a'], [['w', 'e', 'd', 'n', 'e', 's', 'd', 'a', 'y']]), (['s', 'r', 'o', 'd', 'e'], [['w', 'e', 'd', 'n', 'e', 's', 'd', 'a', 'y']]), (['d', 'n', 'i', 'a'], [['d', 'a', 'y']]), (['d', 'n', 'i', 'u'], [['d', 'a', 'y']]), (['g', 'o', 'd', 'z'], [['h', 'o', 'u', 'r']]), (['k', 'w', 'i', 'e'], [['a', 'p', 'r', 'i', 'l']]), (['l', 'a', 't', 'a'], [['y', 'e', 'a', 'r']]), (['l', 'u', 't', 'y'], [['f', 'e', 'b', 'r', 'u', 'a', 'r', 'y']]), (['m', 'a', 'j', 'a'], [['m', 'a', 'y']]), (['m', 'a', 'j', 'u'], [['m', 'a', 'y']]), (['m', 'i', 'e', 's'], [['m', 'o', 'n', 't', 'h']]), (['r', 'o', 'k', 'u'], [[]]), (['t', 'e', 'm', 'u'], [['a', 'g', 'o']]), (['t', 'y', 'd', 'z'], [['w', 'e', 'e', 'k']]), (['c', 'z', 'e'], [['j', 'u', 'n', 'e']]), (['c', 'z', 'w'], [['t', 'h', 'u', 'r', 's', 'd', 'a', 'y']]), (['d', 'n', 'i'], [['d', 'a', 'y']]), (['g', 'm', 't'], [['g', 'm', 't']]), (['g', 'r', 'u'], [['d', 'e', 'c', 'e', 'm', 'b', 'e', 'r']]), (['k', 'w', 'i'], [['a', 'p', 'r', 'i', 'l']]), (['l', 'a', 't'], [['y', 'e', 'a', 'r']]), (['l', 'i', 'p'], [['j', 'u', 'l', 'y']]), (['l', 'i', 's'], [['n', 'o', 'v', 'e', 'm', 'b', 'e', 'r']]), (['l', 'u', 't'], [['f', 'e', 'b', 'r', 'u', 'a', 'r', 'y']]), (['m', 'a', 'j'], [['m', 'a', 'y']]), (['m', 'a', 'r'], [['m', 'a', 'r', 'c', 'h']]), (['m', 'i', 'n'], [['m', 'i', 'n', 'u', 't', 'e']]), (['n', 'i', 'e'], [['s', 'u', 'n', 'd', 'a', 'y']]), (['p', 'a', 'z'], [['o', 'c', 't', 'o', 'b', 'e', 'r']]), (['p', 'i', 'a'], [['f', 'r', 'i', 'd', 'a', 'y']]), (['p', 'o', 'n'], [['m', 'o', 'n', 'd', 'a', 'y']]), (['r', 'o', 'k'], [['y', 'e', 'a', 'r']]), (['s', 'e', 'k'], [['s', 'e', 'c', 'o', 'n', 'd']]), (['s', 'i', 'e'], [['a', 'u', 'g', 'u', 's', 't']]), (['s', 'o', 'b'], [['s', 'a', 't', 'u', 'r', 'd', 'a', 'y']]), (['s', 'r', 'o'], [['w', 'e', 'd', 'n', 'e', 's', 'd', 'a', 'y']]), (['s', 't', 'y'], [['j', 'a', 'n', 'u', 'a', 'r', 'y']]), (['u', 't', 'c'], [['u', 't', 'c']]), (['w', 'r', 'z'], [['s', 'e', 'p', 't', 'e', 'm', 'b', 'e', 'r']]), (['w', 't', 'o'], [['t', 'u', 'e', 's', 'd', 'a', 'y']]), (['a', 'm'], [['a', 'm']]), (['c', 'z'], [['t', 'h', 'u', 'r', 's', 'd', 'a', 'y']]), (['m', 'c'], [['m', 'o', 'n', 't', 'h']]), (['n', 'd'], [['s', 'u', 'n', 'd', 'a', 'y']]), (['p', 'i'], [['f', 'r', 'i', 'd', 'a', 'y']]), (['p', 'm'], [['p', 'm']]), (['p', 'n'], [['m', 'o', 'n', 'd', 'a', 'y']]), (['p', 't'], [['f', 'r', 'i', 'd', 'a', 'y']]), (['r', '.'], [[]]), (['s', 'b'], [['s', 'a', 't', 'u', 'r', 'd', 'a', 'y']]), (['s', 'o'], [['s', 'a', 't', 'u', 'r', 'd', 'a', 'y']]), (['s', 'r'], [['w', 'e', 'd', 'n', 'e', 's', 'd', 'a', 'y']]), (['w', 't'], [['t', 'u', 'e', 's', 'd', 'a', 'y']]), (['z', 'a'], [['i', 'n']]), ([' '], [[' ']]), (['\''], [[]]), (['+'], [['+']]), ([','], [[]]), (['-'], [['-']]), (['.'], [['.']]), (['/'], [['/']]), ([':'], [[':']]), ([';'], [[]]), (['@'], [[]]), (['['], [[]]), ([']'], [[]]), (['g'], [['h', 'o', 'u', 'r']]), (['i'], [[]]), (['o'], [[]]), (['r'], [['y', 'e', 'a', 'r']]), (['s'], [['s', 'e', 'c', 'o', 'n', 'd']]), (['w'], [[]]), (['z'], [['z']]), (['|'], [[]])]
  relativeType := [(['w', ' ', 'p', 'r', 'z', 'y', 's', 'z', 'ł', 'y', 'm', ' ', 'm', 'i', 'e', 's', 'i', 'a', 'c', 'u'], ['i', 'n', ' ', '1', ' ', 'm', 'o', 'n', 't', 'h']), (['w', ' ', 'p', 'r', 'z', 'y', 's', 'z', 'ł', 'y', 'm', ' ', 't', 'y', 'g', 'o', 'd', 'n', 'i', 'u'], ['i', 'n', ' ', '1', ' ', 'w', 'e', 'e', 'k']), (['w', ' ', 'z', 'e', 's', 'z', 'ł', 'y', 'm', ' ', 'm', 'i', 'e', 's', 'i', 'a', 'c', 'u'], ['1', ' ', 'm', 'o', 'n', 't', 'h', ' ', 'a', 'g', 'o']), (['w', ' ', 'z', 'e', 's', 'z', 'ł', 'y', 'm', ' ', 't', 'y', 'g', 'o', 'd', 'n', 'i', 'u'], ['1', ' ', 'w', 'e', 'e', 'k', ' ', 'a', 'g', 'o']), (['w', ' ', 'p', 'r', 'z', 'y', 's', 'z', 'ł', 'y', 'm', ' ', 'r', 'o', 'k', 'u'], ['i', 'n', ' ', '1', ' ', 'y', 'e', 'a', 'r']), (['w', ' ', 't', 'y', 'm', ' ', 'm', 'i', 'e', 's', 'i', 'a', 'c', 'u'], ['0', ' ', 'm', 'o', 'n', 't', 'h', ' ', 'a', 'g', 'o']), (['w', ' ', 't', 'y', 'm', ' ', 't', 'y', 'g', 'o', 'd', 'n', 'i', 'u'], ['0', ' ', 'w', 'e', 'e', 'k', ' ', 'a', 'g', 'o']), (['w', ' ', 'z', 'e', 's', 'z', 'ł', 'y', 'm', ' ', 'r', 'o', 'k', 'u'], ['1', ' ', 'y', 'e', 'a', 'r', ' ', 'a', 'g', 'o']), (['t', 'a', ' ', 'g', 'o', 'd', 'z', 'i', 'n', 'a'], ['0', ' ', 'h', 'o', 'u', 'r', ' ', 'a', 'g', 'o']), (['w', ' ', 't', 'y', 'm', ' ', 'r', 'o', 'k', 'u'], ['0', ' ', 'y', 'e', 'a', 'r', ' ', 'a', 'g', 'o']), (['t', 'a', ' ', 'm', 'i', 'n', 'u', 't', 'a'], ['0', ' ', 'm', 'i', 'n', 'u', 't', 'e', ' ', 'a', 'g', 'o']), (['d', 'z', 'i', 's', 'i', 'a', 'j'], ['0', ' ', 'd', 'a', 'y', ' ', 'a', 'g', 'o']), (['w', 'c', 'z', 'o', 'r', 'a', 'j'], ['1', ' ', 'd', 'a', 'y', ' ', 'a', 'g', 'o']), (['j', 'u', 't', 'r', 'o'], ['i', 'n', ' ', '1', ' ', 'd', 'a', 'y']), (['t', 'e', 'r', 'a', 'z'], ['0', ' ', 's', 'e', 'c', 'o', 'n', 'd', ' ', 'a', 'g', 'o'])]

/-- internal/data/ps.go: `ps_Locale`, dictionary. -/
def psDict : LangData where
  name := ['p', 's']
  translations := [(['چ', 'ه', 'ا', 'ر', 'ش', 'ن', 'ب', 'ه'], [['w', 'e', 'd', 'n', 'e', 's', 'd', 'a', 'y']]), (['س', 'ه', (Char.ofNat 0x200c), 'ش', 'ن', 'ب', 'ه'], [['t', 'u', 'e', 's', 'd', 'a', 'y']]), (['پ', 'ن', 'ج', 'ش', 'ن', 'ب', 'ه'], [['t', 'h', 'u', 'r', 's', 'd', 'a', 'y']]), (['m', 'i', 'n', 'u', 't', 'e'], [['m', 'i', 'n', 'u', 't', 'e']]), (['s', 'e', 'c', 'o', 'n', 'd'], [['s', 'e', 'c', 'o', 'n', 'd']]), (['ا', 'ک', 'ت', 'و', 'ب', 'ر'], [['o', 'c', 't', 'o', 'b', 'e', 'r']]), (['د', 'و', 'ش', 'ن', 'ب', 'ه'], [['m', 'o', 'n', 'd', 'a', 'y']]), (['س', 'پ', 'ت', 'م', 'ب', 'ر'], [['s', 'e', 'p', 't', 'e', 'm', 'b', 'e', 'r']]), (['ف', 'ب', 'ر', 'و', 'ر', 'ي'], [['f', 'e', 'b', 'r', 'u', 'a', 'r', 'y']]), (['ی', 'ک', 'ش', 'ن', 'ب', 'ه'], [['s', 'u', 'n', 'd', 'a', 'y']]), (['m', 'o', 'n', 't', 'h'], [['m', 'o', 'n', 't', 'h']]), (['ا', 'پ', 'ر', 'ی', 'ل'], [['a', 'p', 'r', 'i', 'l']]), (['ج', 'ن', 'و', 'ر', 'ي'], [['j', 'a', 'n', 'u', 'a', 'r', 'y']]), (['ج', 'و', 'ل', 'ا', 'ی'], [['j', 'u', 'l', 'y']]), (['د', 'س', 'م', 'ب', 'ر'], [['d', 'e', 'c', 'e', 'm', 'b', 'e', 'r']]), (['ن', 'و', 'م', 'ب', 'ر'], [['n', 'o', 'v', 'e', 'm', 'b', 'e', 'r']]), (['h', 'o', 'u', 'r'], [['h', 'o', 'u', 'r']]), (['w', 'e', 'e', 'k'], [['w', 'e', 'e', 'k']]), (['y', 'e', 'a', 'r'], [['y', 'e', 'a', 'r']]), (['ا', 'ګ', 'س', 'ت'], [['a', 'u', 'g', 'u', 's', 't']]), (['ج', 'م', 'ع', 'ه'], [['f', 'r', 'i', 'd', 'a', 'y']]), (['ش', 'ن', 'ب', 'ه'], [['s', 'a', 't', 'u', 'r', 'd', 'a', 'y']]), (['م', 'ا', 'ر', 'چ'], [['m', 'a', 'r', 'c', 'h']]), (['d', 'a', 'y'], [['d', 'a', 'y']]), (['g', 'm', 't'], [['g', 'm', 't']]), (['u', 't', 'c'], [['u', 't', 'c']]), (['ج', 'و', 'ن'], [['j', 'u', 'n', 'e']]), (['a', 'm'], [['a', 'm']]), (['p', 'm'], [['p', 'm']]), (['غ', 'م'], [['a', 'm']]), (['غ', 'و'], [['p', 'm']]), (['م', 'ۍ'], [['m', 'a', 'y']]), ([' '], [[' ']]), (['\''], [[]]), (['+'], [['+']]), ([','], [[]]), (['-'], [['-']]), (['.'], [['.']]), (['/'], [['/']]), ([':'], [[':']]), ([';'], [[]]), (['@'], [[]]), (['['], [[]]), ([']'], [[]]), (['z'], [['z']]), (['|'], [[]])]
  relativeType := [(['t', 'h', 'i', 's', ' ', 'm', 'i', 'n', 'u', 't', 'e'], ['0', ' ', 'm', 'i', 'n', 'u', 't', 'e', ' ', 'a', 'g', 'o']), (['l', 'a', 's', 't', ' ', 'm', 'o', 'n', 't', 'h'], ['1', ' ', 'm', 'o', 'n', 't', 'h', ' ', 'a', 'g', 'o']), (['n', 'e', 'x', 't', ' ', 'm', 'o', 'n', 't', 'h'], ['i', 'n', ' ', '1', ' ', 'm', 'o', 'n', 't', 'h']), (['t', 'h', 'i', 's', ' ', 'm', 'o', 'n', 't', 'h'], ['0', ' ', 'm', 'o', 'n', 't', 'h', ' ', 'a', 'g', 'o']), (['l', 'a', 's', 't', ' ', 'w', 'e', 'e', 'k'], ['1', ' ', 'w', 'e', 'e', 'k', ' ', 'a', 'g', 'o']), (['l', 'a', 's', 't', ' ', 'y', 'e', 'a', 'r'], ['1', ' ', 'y', 'e', 'a', 'r', ' ', 'a', 'g', 'o']), (['n', 'e', 'x', 't', ' ', 'w', 'e', 'e', 'k'], ['i', 'n', ' ', '1', ' ', 'w', 'e', 'e', 'k']), (['n', 'e', 'x', 't', ' ', 'y', 'e', 'a', 'r'], ['i', 'n', ' ', '1', ' ', 'y', 'e', 'a', 'r']), (['t', 'h', 'i', 's', ' ', 'h', 'o', 'u', 'r'], ['0', ' ', 'h', 'o', 'u', 'r', ' ', 'a', 'g', 'o']), (['t', 'h', 'i', 's', ' ', 'w', 'e', 'e', 'k'], ['0', ' ', 'w', 'e', 'e', 'k', ' ', 'a', 'g', 'o']), (['t', 'h', 'i', 's', ' ', 'y', 'e', 'a', 'r'], ['0', ' ', 'y', 'e', 'a', 'r', ' ', 'a', 'g', 'o']), (['y', 'e', 's', 't', 'e', 'r', 'd', 'a', 'y'], ['1', ' ', 'd', 'a', 'y', ' ', 'a', 'g', 'o']), (['t', 'o', 'm', 'o', 'r', 'r', 'o', 'w'], ['i', 'n', ' ', '1', ' ', 'd', 'a', 'y']), (['t', 'o', 'd', 'a', 'y'], ['0', ' ', 'd', 'a', 'y', ' ', 'a', 'g', 'o']), (['n', 'o', 'w'], ['0', ' ', 's', 'e', 'c', 'o', 'n', 'd', ' ', 'a', 'g', 'o'])]

/-- internal/data/pt.go: `pt_Locale`, dictionary. -/
def ptDict : LangData where
  name := ['p', 't']
  splitterGroup := 1
  translations := [(['s', 'e', 'g', 'u', 'n', 'd', 'a', '-', 'f', 'e', 'i', 'r', 'a'], [['m', 'o', 'n', 'd', 'a', 'y']]), (['q', 'u', 'a', 'r', 't', 'a', '-', 'f', 'e', 'i', 'r', 'a'], [['w', 'e', 'd', 'n', 'e', 's', 'd', 'a', 'y']]), (['q', 'u', 'i', 'n', 't', 'a', '-', 'f', 'e', 'i', 'r', 'a'], [['t', 'h', 'u', 'r', 's', 'd', 'a', 'y']]), (['s', 'e', 'x', 't', 'a', '-', 'f', 'e', 'i', 'r', 'a'], [['f', 'r', 'i', 'd', 'a', 'y']]), (['t', 'e', 'r', 'c', 'a', '-', 'f', 'e', 'i', 'r', 'a'], [['t', 'u', 'e', 's', 'd', 'a', 'y']]), (['f', 'e', 'v', 'e', 'r', 'e', 'i', 'r', 'o'], [['f', 'e', 'b', 'r', 'u', 'a', 'r', 'y']]), (['s', 'e', 'p', 't', 'e', 'm', 'b', 'r', 'o'], [['s', 'e', 'p', 't', 'e', 'm', 'b', 'e', 'r']]), (['d', 'e', 'z', 'e', 'm', 'b', 'r', 'o'], [['d', 'e', 'c', 'e', 'm', 'b', 'e', 'r']]), (['n', 'o', 'v', 'e', 'm', 'b', 'r', 'o'], [['n', 'o', 'v', 'e', 'm', 'b', 'e', 'r']]), (['s', 'e', 'g', 'u', 'n', 'd', 'o', 's'], [['s', 'e', 'c', 'o', 'n', 'd']]), (['s', 'e', 't', 'e', 'm', 'b', 'r', 'o'], [['s', 'e', 'p', 't', 'e', 'm', 'b', 'e', 'r']]), (['d', 'o', 'm', 'i', 'n', 'g', 'o'], [['s', 'u', 'n', 'd', 'a', 'y']]), (['j', 'a', 'n', 'e', 'i', 'r', 'o'], [['j', 'a', 'n', 'u', 'a', 'r', 'y']]), (['m', 'i', 'n', 'u', 't', 'o', 's'], [['m', 'i', 'n', 'u', 't', 'e']]), (['o', 'u', 't', 'u', 'b', 'r', 'o'], [['o', 'c', 't', 'o', 'b', 'e', 'r']]), (['s', 'e', 'g', 'u', 'n', 'd', 'a'], [['m', 'o', 'n', 'd', 'a', 'y']]), (['s', 'e', 'g', 'u', 'n', 'd', 'o'], [['s', 'e', 'c', 'o', 'n', 'd']]), (['s', 'e', 'm', 'a', 'n', 'a', 's'], [['w', 'e', 'e', 'k']]), (['a', 'g', 'o', 's', 't', 'o'], [['a', 'u', 'g', 'u', 's', 't']]), (['m', 'i', 'n', 'u', 't', 'o'], [['m', 'i', 'n', 'u', 't', 'e']]), (['q', 'u', 'a', 'r', 't', 'a'], [['w', 'e', 'd', 'n', 'e', 's', 'd', 'a', 'y']]), (['q', 'u', 'i', 'n', 't', 'a'], [['t', 'h', 'u', 'r', 's', 'd', 'a', 'y']]), (['s', 'a', 'b', 'a', 'd', 'o'], [['s', 'a', 't', 'u', 'r', 'd', 'a', 'y']]), (['s', 'e', 'm', 'a', 'n', 'a'], [['w', 'e', 'e', 'k']]), (['a', 'b', 'r', 'i', 'l'], [['a', 'p', 'r', 'i', 'l']]), (['a', 't', 'r', 'a', 's'], [['a', 'g', 'o']]), (['c', 'e', 'r', 'c', 'a'], [[]]), (['h', 'o', 'r', 'a', 's'], [['h', 'o', 'u', 'r']]), (['j', 'u', 'l', 'h', 'o'], [['j', 'u', 'l', 'y']]), (['j', 'u', 'n', 'h', 'o'], [['j', 'u', 'n', 'e']]), (['m', 'a', 'r', 'c', 'o'], [['m', 'a', 'r', 'c', 'h']]), (['m', 'e', 's', 'e', 's'], [['m', 'o', 'n', 't', 'h']]), (['s', 'e', 'x', 't', 'a'], [['f', 'r', 'i', 'd', 'a', 'y']]), (['t', 'e', 'r', 'c', 'a'], [['t', 'u', 'e', 's', 'd', 'a', 'y']]), (['a', 'n', 'o', 's'], [['y', 'e', 'a', 'r']]), (['d', 'i', 'a', 's'], [['d', 'a', 'y']]), (['h', 'o', 'r', 'a'], [['h', 'o', 'u', 'r']]), (['m', 'a', 'i', 'o'], [['m', 'a', 'y']]), (['a', 'b', 'r'], [['a', 'p', 'r', 'i', 'l']]), (['a', 'g', 'o'], [['a', 'u', 'g', 'u', 's', 't']]), (['a', 'n', 'o'], [['y', 'e', 'a', 'r']]), (['d', 'e', 'z'], [['d', 'e', 'c', 'e', 'm', 'b', 'e', 'r']]), (['d', 'i', 'a'], [['d', 'a', 'y']]), (['d', 'o', 'm'], [['s', 'u', 'n', 'd', 'a', 'y']]), (['f', 'e', 'v'], [['f', 'e', 'b', 'r', 'u', 'a', 'r', 'y']]), (['g', 'm', 't'], [['g', 'm', 't']]), (['j', 'a', 'n'], [['j', 'a', 'n', 'u', 'a', 'r', 'y']]), (['j', 'u', 'l'], [['j', 'u', 'l', 'y']]), (['j', 'u', 'n'], [['j', 'u', 'n', 'e']]), (['m', 'a', 'i'], [['m', 'a', 'y']]), (['m', 'a', 'r'], [['m', 'a', 'r', 'c', 'h']]), (['m', 'e', 's'], [['m', 'o', 'n', 't', 'h']]), (['m', 'i', 'n'], [['m', 'i', 'n', 'u', 't', 'e']]), (['n', 'o', 'v'], [['n', 'o', 'v', 'e', 'm', 'b', 'e', 'r']]), (['o', 'u', 't'], [['o', 'c', 't', 'o', 'b', 'e', 'r']]), (['q', 'u', 'a'], [['w', 'e', 'd', 'n', 'e', 's', 'd', 'a', 'y']]), (['q', 'u', 'i'], [['t', 'h', 'u', 'r', 's', 'd', 'a', 'y']]), (['s', 'a', 'b'], [['s', 'a', 't', 'u', 'r', 'd', 'a', 'y']]), (['s', 'e', 'g'], [['m', 'o', 'n', 'd', 'a', 'y'], ['s', 'e', 'c', 'o', 'n', 'd']]), (['s', 'e', 'm'], [['w', 'e', 'e', 'k']]), (['s', 'e', 't'], [['s', 'e', 'p', 't', 'e', 'm', 'b', 'e', 'r']]), (['s', 'e', 'x'], [['f', 'r', 'i', 'd', 'a', 'y']]), (['t', 'e', 'r'], [['t', 'u', 'e', 's', 'd', 'a', 'y']]), (['u', 't', 'c'], [['u', 't', 'c']]), (['a', 'm'], [['a', 'm']]), (['a', 's'], [[]]), (['d', 'e'], [[]]), (['e', 'm'], [['i', 'n']]), (['h', 'a'], [['a', 'g', 'o']]), (['p', 'm'], [['p', 'm']]), ([' '], [[' ']]), (['\''], [[]]), (['+'], [['+']]), ([','], [[]]), (['-'], [['-']]), (['.'], [['.']]), (['/'], [['/']]), ([':'], [[':']]), ([';'], [[]]), (['@'], [[]]), (['['], [[]]), ([']'], [[]]), (['e'], [[]]), (['h'], [['h', 'o', 'u', 'r']]), (['m'], [['m', 'i', 'n', 'u', 't', 'e']]), (['s'], [['s', 'e', 'c', 'o', 'n', 'd']]), (['z'], [['z']]), (['|'], [[]])]
  relativeType := [(['p', 'r', 'o', 'x', 'i', 'm', 'a', ' ', 's', 'e', 'm', 'a', 'n', 'a'], ['i', 'n', ' ', '1', ' ', 'w', 'e', 'e', 'k']), (['s', 'e', 'm', 'a', 'n', 'a', ' ', 'p', 'a', 's', 's', 'a', 'd', 'a'], ['1', ' ', 'w', 'e', 'e', 'k', ' ', 'a', 'g', 'o']), (['a', 'n', 'o', ' ', 'p', 'a', 's', 's', 'a', 'd', 'o'], ['1', ' ', 'y', 'e', 'a', 'r', ' ', 'a', 'g', 'o']), (['e', 's', 't', 'a', ' ', 's', 'e', 'm', 'a', 'n', 'a'], ['0', ' ', 'w', 'e', 'e', 'k', ' ', 'a', 'g', 'o']), (['e', 's', 't', 'e', ' ', 'm', 'i', 'n', 'u', 't', 'o'], ['0', ' ', 'm', 'i', 'n', 'u', 't', 'e', ' ', 'a', 'g', 'o']), (['m', 'e', 's', ' ', 'p', 'a', 's', 's', 'a', 'd', 'o'], ['1', ' ', 'm', 'o', 'n', 't', 'h', ' ', 'a', 'g', 'o']), (['p', 'r', 'o', 'x', 'i', 'm', 'o', ' ', 'a', 'n', 'o'], ['i', 'n', ' ', '1', ' ', 'y', 'e', 'a', 'r']), (['p', 'r', 'o', 'x', 'i', 'm', 'o', ' ', 'm', 'e', 's'], ['i', 'n', ' ', '1', ' ', 'm', 'o', 'n', 't', 'h']), (['a', 'n', 't', 'e', 'o', 'n', 't', 'e', 'm'], ['2', ' ', 'd', 'a', 'y', ' ', 'a', 'g', 'o']), (['e', 's', 't', 'a', ' ', 'h', 'o', 'r', 'a'], ['0', ' ', 'h', 'o', 'u', 'r', ' ', 'a', 'g', 'o']), (['e', 's', 't', 'e', ' ', 'a', 'n', 'o'], ['0', ' ', 'y', 'e', 'a', 'r', ' ', 'a', 'g', 'o']), (['e', 's', 't', 'e', ' ', 'm', 'e', 's'], ['0', ' ', 'm', 'o', 'n', 't', 'h', ' ', 'a', 'g', 'o']), (['a', 'm', 'a', 'n', 'h', 'a'], ['i', 'n', ' ', '1', ' ', 'd', 'a', 'y']), (['a', 'g', 'o', 'r', 'a'], ['0', ' ', 's', 'e', 'c', 'o', 'n', 'd', ' ', 'a', 'g', 'o']), (['o', 'n', 't', 'e', 'm'], ['1', ' ', 'd', 'a', 'y', ' ', 'a', 'g', 'o']), (['h', 'o', 'j', 'e'], ['0', ' ', 'd', 'a', 'y', ' ', 'a', 'g', 'o'])]

/-- internal/data/pt.go: `pt_AO_Locale`, dictionary. -/
def pt_AODict : LangData where
  name := ['p', 't', '-', 'A', 'O']
  translations := [(['d', 'a', ' ', 'm', 'a', 'n', 'h', 'a'], [['a', 'm']]), (['d', 'a', ' ', 't', 'a', 'r', 'd', 'e'], [['p', 'm']]), (['m', 'a', 'n', 'h', 'a'], [['a', 'm']]), (['t', 'a', 'r', 'd', 'e'], [['p', 'm']])]

/-- internal/data/pt.go: `pt_CH_Locale`, dictionary. -/
def pt_CHDict : LangData where
  name := ['p', 't', '-', 'C', 'H']
  translations := [(['d', 'a', ' ', 'm', 'a', 'n', 'h', 'a'], [['a', 'm']]), (['d', 'a', ' ', 't', 'a', 'r', 'd', 'e'], [['p', 'm']]), (['m', 'a', 'n', 'h', 'a'], [['a', 'm']]), (['t', 'a', 'r', 'd', 'e'], [['p', 'm']])]

/-- internal/data/pt.go: `pt_CV_Locale`, dictionary. -/
def pt_CVDict : LangData where
  name := ['p', 't', '-', 'C', 'V']
  translations := [(['d', 'a', ' ', 'm', 'a', 'n', 'h', 'a'], [['a', 'm']]), (['d', 'a', ' ', 't', 'a', 'r', 'd', 'e'], [['p', 'm']]), (['m', 'a', 'n', 'h', 'a'], [['a', 'm']]), (['t', 'a', 'r', 'd', 'e'], [['p', 'm']])]

/-- internal/data/pt.go: `pt_GQ_Locale`, dictionary. -/
def pt_GQDict : LangData where
  name := ['p', 't', '-', 'G', 'Q']
  translations := [(['d', 'a', ' ', 'm', 'a', 'n', 'h', 'a'], [['a', 'm']]), (['d', 'a', ' ', 't', 'a', 'r', 'd', 'e'], [['p', 'm']]), (['m', 'a', 'n', 'h', 'a'], [['a', 'm']]), (['t', 'a', 'r', 'd', 'e'], [['p', 'm']])]

/-- internal/data/pt.go: `pt_GW_Locale`, dictionary. -/
def pt_GWDict : LangData where
  name := ['p', 't', '-', 'G', 'W']
  translations := [(['d', 'a', ' ', 'm', 'a', 'n', 'h', 'a'], [['a', 'm']]), (['d', 'a', ' ', 't', 'a', 'r', 'd', 'e'], [['p', 'm']]), (['m', 'a', 'n', 'h', 'a'], [['a', 'm']]), (['t', 'a', 'r', 'd', 'e'], [['p', 'm']])]

/-- internal/data/pt.go: `pt_LU_Locale`, dictionary. -/
def pt_LUDict : LangData where
  name := ['p', 't', '-', 'L', 'U']
  translations := [(['d', 'a', ' ', 'm', 'a', 'n', 'h', 'a'], [['a', 'm']]), (['d', 'a', ' ', 't', 'a', 'r', 'd', 'e'], [['p', 'm']]), (['m', 'a', 'n', 'h', 'a'], [['a', 'm']]), (['t', 'a', 'r', 'd', 'e'], [['p', 'm']])]

/-- internal/data/pt.go: `pt_MO_Locale`, dictionary. -/
def pt_MODict : LangData where
  name := ['p', 't', '-', 'M', 'O']
  translations := [(['d', 'a', ' ', 'm', 'a', 'n', 'h', 'a'], [['a', 'm']]), (['d', 'a', ' ', 't', 'a', 'r', 'd', 'e'], [['p', 'm']]), (['m', 'a', 'n', 'h', 'a'], [['a', 'm']]), (['t', 'a', 'r', 'd', 'e'], [['p', 'm']])]

/-- internal/data/pt.go: `pt_MZ_Locale`, dictionary. -/
def pt_MZDict : LangData where
  name := ['p', 't', '-', 'M', 'Z']
  translations := [(['d', 'a', ' ', 'm', 'a', 'n', 'h', 'a'], [['a', 'm']]), (['d', 'a', ' ', 't', 'a', 'r', 'd', 'e'], [['p', 'm']]), (['m', 'a', 'n', 'h', 'a'], [['a', 'm']]), (['t', 'a', 'r', 'd', 'e'], [['p', 'm']])]

/-- internal/data/pt.go: `pt_PT_Locale`, dictionary. -/
def pt_PTDict : LangData where
  name := ['p', 't', '-', 'P', 'T']
  translations := [(['d', 'a', ' ', 'm', 'a', 'n', 'h', 'a'], [['a', 'm']]), (['d', 'a', ' ', 't', 'a', 'r', 'd', 'e'], [['p', 'm']]), (['m', 'a', 'n', 'h', 'a'], [['a', 'm']]), (['t', 'a', 'r', 'd', 'e'], [['p', 'm']])]

/-- internal/data/pt.go: `pt_ST_Locale`, dictionary. -/
def pt_STDict : LangData where
  name := ['p', 't', '-', 'S', 'T']
  translations := [(['d', 'a', ' ', 'm', 'a', 'n', 'h', 'a'], [['a', 'm']]), (['d', 'a', ' ', 't', 'a', 'r', 'd', 'e'], [['p', 'm']]), (['m', 'a', 'n', 'h', 'a'], [['a', 'm']]), (['t', 'a', 'r', 'd', 'e'], [['p', 'm']])]

/-- internal/data/pt.go: `pt_TL_Locale`, dictionary. -/
def pt_TLDict : LangData where
  name := ['p', 't', '-', 'T', 'L']
  translations := [(['d', 'a', ' ', 'm', 'a', 'n', 'h', 'a'], [['a', 'm']]), (['d', 'a', ' ', 't', 'a', 'r', 'd', 'e'], [['p', 'm']]), (['m', 'a', 'n', 'h', 'a'], [['a', 'm']]), (['t', 'a', 'r', 'd', 'e'], [['p', 'm']])]

/-- internal/data/qu.go: `qu_Locale`, dictionary. -/
def quDict : LangData where
  name := ['q', 'u']
  translations := [(['p', 'a', 'u', 'q', 'a', 'r', ' ', 'w', 'a', 'r', 'a', 'y'], [['m', 'a', 'r', 'c', 'h']]), (['q', 'h', 'a', 'p', 'a', 'q', ' ', 's', 'i', 't', 'w', 'a'], [['a', 'u', 'g', 'u', 's', 't']]), (['h', 'a', 't', 'u', 'n', ' ', 'p', 'u', 'q', 'u', 'y'], [['f', 'e', 'b', 'r', 'u', 'a', 'r', 'y']]), (['k', 'a', 'p', 'a', 'q', ' ', 'r', 'a', 'y', 'm', 'i'], [['d', 'e', 'c', 'e', 'm', 'b', 'e', 'r']]), (['q', 'u', 'l', 'l', 'a', ' ', 'p', 'u', 'q', 'u', 'y'], [['j', 'a', 'n', 'u', 'a', 'r', 'y']]), (['a', 'n', 't', 'a', ' ', 's', 'i', 't', 'w', 'a'], [['j', 'u', 'l', 'y']]), (['i', 'n', 't', 'i', ' ', 'r', 'a', 'y', 'm', 'i'], [['j', 'u', 'n', 'e']]), (['a', 'y', 'a', 'm', 'a', 'r', 'q', '\'', 'a'], [['n', 'o', 'v', 'e', 'm', 'b', 'e', 'r']]), (['m', 'i', 'e', 'r', 'c', 'o', 'l', 'e', 's'], [['w', 'e', 'd', 'n', 'e', 's', 'd', 'a', 'y']]), (['u', 'm', 'a', ' ', 'r', 'a', 'y', 'm', 'i'], [['s', 'e', 'p', 't', 'e', 'm', 'b', 'e', 'r']]), (['k', 'a', 'n', 't', 'a', 'r', 'a', 'y'], [['o', 'c', 't', 'o', 'b', 'e', 'r']]), (['a', 'y', 'm', 'u', 'r', 'a', 'y'], [['m', 'a', 'y']]), (['d', 'o', 'm', 'i', 'n', 'g', 'o'], [['s', 'u', 'n', 'd', 'a', 'y']]), (['v', 'i', 'e', 'r', 'n', 'e', 's'], [['f', 'r', 'i', 'd', 'a', 'y']]), (['a', 'y', 'r', 'i', 'w', 'a'], [['a', 'p', 'r', 'i', 'l']]), (['j', 'u', 'e', 'v', 'e', 's'], [['t', 'h', 'u', 'r', 's', 'd', 'a', 'y']]), (['m', 'a', 'r', 't', 'e', 's'], [['t', 'u', 'e', 's', 'd', 'a', 'y']]), (['m', 'i', 'n', 'u', 't', 'e'], [['m', 'i', 'n', 'u', 't', 'e']]), (['s', 'a', 'b', 'a', 'd', 'o'], [['s', 'a', 't', 'u', 'r', 'd', 'a', 'y']]), (['s', 'e', 'c', 'o', 'n', 'd'], [['s', 'e', 'c', 'o', 'n', 'd']]), (['l', 'u', 'n', 'e', 's'], [['m', 'o', 'n', 'd', 'a', 'y']]), (['m', 'o', 'n', 't', 'h'], [['m', 'o', 'n', 't', 'h']]), (['h', 'o', 'u', 'r'], [['h', 'o', 'u', 'r']]), (['w', 'e', 'e', 'k'], [['w', 'e', 'e', 'k']]), (['y', 'e', 'a', 'r'], [['y', 'e', 'a', 'r']]), (['a', 'n', 't'], [['j', 'u', 'l', 'y']]), (['a', 'y', 'a'], [['n', 'o', 'v', 'e', 'm', 'b', 'e', 'r']]), (['a', 'y', 'm'], [['m', 'a', 'y']]), (['a', 'y', 'r'], [['a', 'p', 'r', 'i', 'l']]), (['d', 'a', 'y'], [['d', 'a', 'y']]), (['d', 'o', 'm'], [['s', 'u', 'n', 'd', 'a', 'y']]), (['g', 'm', 't'], [['g', 'm', 't']]), (['h', 'a', 't'], [['f', 'e', 'b', 'r', 'u', 'a', 'r', 'y']]), (['i', 'n', 't'], [['j', 'u', 'n', 'e']]), (['j', 'u', 'e'], [['t', 'h', 'u', 'r', 's', 'd', 'a', 'y']]), (['k', 'a', 'n'], [['o', 'c', 't', 'o', 'b', 'e', 'r']]), (['k', 'a', 'p'], [['d', 'e', 'c', 'e', 'm', 'b', 'e', 'r']]), (['l', 'u', 'n'], [['m', 'o', 'n', 'd', 'a', 'y']]), (['m', 'a', 'r'], [['t', 'u', 'e', 's', 'd', 'a', 'y']]), (['m', 'i', 'e'], [['w', 'e', 'd', 'n', 'e', 's', 'd', 'a', 'y']]), (['p', 'a', 'u'], [['m', 'a', 'r', 'c', 'h']]), (['q', 'h', 'a'], [['a', 'u', 'g', 'u', 's', 't']]), (['q', 'u', 'l'], [['j', 'a', 'n', 'u', 'a', 'r', 'y']]), (['s', 'a', 'b'], [['s', 'a', 't', 'u', 'r', 'd', 'a', 'y']]), (['u', 'm', 'a'], [['s', 'e', 'p', 't', 'e', 'm', 'b', 'e', 'r']]), (['u', 't', 'c'], [['u', 't', 'c']]), (['v', 'i', 'e'], [['f', 'r', 'i', 'd', 'a', 'y']]), (['a', 'm'], [['a', 'm']]), (['p', 'm'], [['p', 'm']]), ([' '], [[' ']]), (['\''], [[]]), (['+'], [['+']]), ([','], [[]]), (['-'], [['-']]), (['.'], [['.']]), (['/'], [['/']]), ([':'], [[':']]), ([';'], [[]]), (['@'], [[]]), (['['], [[]]), ([']'], [[]]), (['z'], [['z']]), (['|'], [[]])]
  relativeType := [(['t', 'h', 'i', 's', ' ', 'm', 'i', 'n', 'u', 't', 'e'], ['0', ' ', 'm', 'i', 'n', 'u', 't', 'e', ' ', 'a', 'g', 'o']), (['l', 'a', 's', 't', ' ', 'm', 'o', 'n', 't', 'h'], ['1', ' ', 'm', 'o', 'n', 't', 'h', ' ', 'a', 'g', 'o']), (['n', 'e', 'x', 't', ' ', 'm', 'o', 'n', 't', 'h'], ['i', 'n', ' ', '1', ' ', 'm', 'o', 'n', 't', 'h']), (['t', 'h', 'i', 's', ' ', 'm', 'o', 'n', 't', 'h'], ['0', ' ', 'm', 'o', 'n', 't', 'h', ' ', 'a', 'g', 'o']), (['l', 'a', 's', 't', ' ', 'w', 'e', 'e', 'k'], ['1', ' ', 'w', 'e', 'e', 'k', ' ', 'a', 'g', 'o']), (['l', 'a', 's', 't', ' ', 'y', 'e', 'a', 'r'], ['1', ' ', 'y', 'e', 'a', 'r', ' ', 'a', 'g', 'o']), (['n', 'e', 'x', 't', ' ', 'w', 'e', 'e', 'k'], ['i', 'n', ' ', '1', ' ', 'w', 'e', 'e', 'k']), (['n', 'e', 'x', 't', ' ', 'y', 'e', 'a', 'r'], ['i', 'n', ' ', '1', ' ', 'y', 'e', 'a', 'r']), (['t', 'h', 'i', 's', ' ', 'h', 'o', 'u', 'r'], ['0', ' ', 'h', 'o', 'u', 'r', ' ', 'a', 'g', 'o']), (['t', 'h', 'i', 's', ' ', 'w', 'e', 'e', 'k'], ['0', ' ', 'w', 'e', 'e', 'k', ' ', 'a', 'g', 'o']), (['t', 'h', 'i', 's', ' ', 'y', 'e', 'a', 'r'], ['0', ' ', 'y', 'e', 'a', 'r', ' ', 'a', 'g', 'o']), (['y', 'e', 's', 't', 'e', 'r', 'd', 'a', 'y'], ['1', ' ', 'd', 'a', 'y', ' ', 'a', 'g', 'o']), (['t', 'o', 'm', 'o', 'r', 'r', 'o', 'w'], ['i', 'n', ' ', '1', ' ', 'd', 'a', 'y']), (['t', 'o', 'd', 'a', 'y'], ['0', ' ', 'd', 'a', 'y', ' ', 'a', 'g', 'o']), (['n', 'o', 'w'], ['0', ' ', 's', 'e', 'c', 'o', 'n', 'd', ' ', 'a', 'g', 'o'])]

/-- internal/data/qu.go: `qu_BO_Locale`, dictionary. -/
def qu_BODict : LangData where
  name := ['q', 'u', '-', 'B', 'O']

/-- internal/data/qu.go: `qu_EC_Locale`, dictionary. -/
def qu_ECDict : LangData where
  name := ['q', 'u', '-', 'E', 'C']

/-- internal/data/rm.go: `rm_Locale`, dictionary. -/
def rmDict : LangData where
  name := ['r', 'm']
  translations := [(['g', 'l', 'i', 'n', 'd', 'e', 's', 'd', 'i'], [['m', 'o', 'n', 'd', 'a', 'y']]), (['s', 'e', 't', 't', 'e', 'm', 'b', 'e', 'r'], [['s', 'e', 'p', 't', 'e', 'm', 'b', 'e', 'r']]), (['z', 'e', 'r', 'c', 'l', 'a', 'd', 'u', 'r'], [['j', 'u', 'n', 'e']]), (['d', 'e', 'c', 'e', 'm', 'b', 'e', 'r'], [['d', 'e', 'c', 'e', 'm', 'b', 'e', 'r']]), (['d', 'u', 'm', 'e', 'n', 'g', 'i', 'a'], [['s', 'u', 'n', 'd', 'a', 'y']]), (['n', 'o', 'v', 'e', 'm', 'b', 'e', 'r'], [['n', 'o', 'v', 'e', 'm', 'b', 'e', 'r']]), (['v', 'e', 'n', 'd', 'e', 'r', 'd', 'i'], [['f', 'r', 'i', 'd', 'a', 'y']]), (['f', 'a', 'n', 'a', 'd', 'u', 'r'], [['j', 'u', 'l', 'y']]), (['g', 'i', 'e', 'v', 'g', 'i', 'a'], [['t', 'h', 'u', 'r', 's', 'd', 'a', 'y']]), (['m', 'e', 's', 'e', 'm', 'n', 'a'], [['w', 'e', 'd', 'n', 'e', 's', 'd', 'a', 'y']]), (['o', 'c', 't', 'o', 'b', 'e', 'r'], [['o', 'c', 't', 'o', 'b', 'e', 'r']]), (['s', 'c', 'h', 'a', 'n', 'e', 'r'], [['j', 'a', 'n', 'u', 'a', 'r', 'y']]), (['s', 'e', 'c', 'u', 'n', 'd', 'a'], [['s', 'e', 'c', 'o', 'n', 'd']]), (['a', 'v', 'r', 'i', 'g', 'l'], [['a', 'p', 'r', 'i', 'l']]), (['f', 'a', 'v', 'r', 'e', 'r'], [['f', 'e', 'b', 'r', 'u', 'a', 'r', 'y']]), (['m', 'i', 'n', 'u', 't', 'a'], [['m', 'i', 'n', 'u', 't', 'e']]), (['a', 'v', 'u', 's', 't'], [['a', 'u', 'g', 'u', 's', 't']]), (['m', 'a', 'r', 'd', 'i'], [['t', 'u', 'e', 's', 'd', 'a', 'y']]), (['s', 'c', 'h', 'a', 'n'], [['j', 'a', 'n', 'u', 'a', 'r', 'y']]), (['s', 'o', 'n', 'd', 'a'], [['s', 'a', 't', 'u', 'r', 'd', 'a', 'y']]), (['z', 'e', 'r', 'c', 'l'], [['j', 'u', 'n', 'e']]), (['e', 'm', 'n', 'a'], [['w', 'e', 'e', 'k']]), (['f', 'a', 'v', 'r'], [['f', 'e', 'b', 'r', 'u', 'a', 'r', 'y']]), (['m', 'a', 'i', 's'], [['m', 'o', 'n', 't', 'h']]), (['m', 'a', 'r', 's'], [['m', 'a', 'r', 'c', 'h']]), (['m', 'a', 't', 'g'], [['m', 'a', 'y']]), (['s', 'e', 't', 't'], [['s', 'e', 'p', 't', 'e', 'm', 'b', 'e', 'r']]), (['a', 'v', 'r'], [['a', 'p', 'r', 'i', 'l']]), (['d', 'e', 'c'], [['d', 'e', 'c', 'e', 'm', 'b', 'e', 'r']]), (['f', 'a', 'n'], [['j', 'u', 'l', 'y']]), (['g', 'i', 'e'], [['t', 'h', 'u', 'r', 's', 'd', 'a', 'y']]), (['g', 'l', 'i'], [['m', 'o', 'n', 'd', 'a', 'y']]), (['g', 'm', 't'], [['g', 'm', 't']]), (['n', 'o', 'v'], [['n', 'o', 'v', 'e', 'm', 'b', 'e', 'r']]), (['o', 'c', 't'], [['o', 'c', 't', 'o', 'b', 'e', 'r']]), (['o', 'n', 'n'], [['y', 'e', 'a', 'r']]), (['t', 'a', 'g'], [['d', 'a', 'y']]), (['u', 'r', 'a'], [['h', 'o', 'u', 'r']]), (['u', 't', 'c'], [['u', 't', 'c']]), (['a', 'm'], [['a', 'm']]), (['d', 'u'], [['s', 'u', 'n', 'd', 'a', 'y']]), (['m', 'a'], [['t', 'u', 'e', 's', 'd', 'a', 'y']]), (['m', 'e'], [['w', 'e', 'd', 'n', 'e', 's', 'd', 'a', 'y']]), (['p', 'm'], [['p', 'm']]), (['s', 'o'], [['s', 'a', 't', 'u', 'r', 'd', 'a', 'y']]), (['v', 'e'], [['f', 'r', 'i', 'd', 'a', 'y']]), ([' '], [[' ']]), (['\''], [[]]), (['+'], [['+']]), ([','], [[]]), (['-'], [['-']]), (['.'], [['.']]), (['/'], [['/']]), ([':'], [[':']]), ([';'], [[]]), (['@'], [[]]), (['['], [[]]), ([']'], [[]]), (['z'], [['z']]), (['|'], [[]])]
  relativeType := [(['t', 'h', 'i', 's', ' ', 'm', 'i', 'n', 'u', 't', 'e'], ['0', ' ', 'm', 'i', 'n', 'u', 't', 'e', ' ', 'a', 'g', 'o']), (['l', 'a', 's', 't', ' ', 'm', 'o', 'n', 't', 'h'], ['1', ' ', 'm', 'o', 'n', 't', 'h', ' ', 'a', 'g', 'o']), (['n', 'e', 'x', 't', ' ', 'm', 'o', 'n', 't', 'h'], ['i', 'n', ' ', '1', ' ', 'm', 'o', 'n', 't', 'h']), (['t', 'h', 'i', 's', ' ', 'm', 'o', 'n', 't', 'h'], ['0', ' ', 'm', 'o', 'n', 't', 'h', ' ', 'a', 'g', 'o']), (['l', 'a', 's', 't', ' ', 'w', 'e', 'e', 'k'], ['1', ' ', 'w', 'e', 'e', 'k', ' ', 'a', 'g', 'o']), (['l', 'a', 's', 't', ' ', 'y', 'e', 'a', 'r'], ['1', ' ', 'y', 'e', 'a', 'r', ' ', 'a', 'g', 'o']), (['n', 'e', 'x', 't', ' ', 'w', 'e', 'e', 'k'], ['i', 'n', ' ', '1', ' ', 'w', 'e', 'e', 'k']), (['n', 'e', 'x', 't', ' ', 'y', 'e', 'a', 'r'], ['i', 'n', ' ', '1', ' ', 'y', 'e', 'a', 'r']), (['t', 'h', 'i', 's', ' ', 'h', 'o', 'u', 'r'], ['0', ' ', 'h', 'o', 'u', 'r', ' ', 'a', 'g', 'o']), (['t', 'h', 'i', 's', ' ', 'w', 'e', 'e', 'k'], ['0', ' ', 'w', 'e', 'e', 'k', ' ', 'a', 'g', 'o']), (['t', 'h', 'i', 's', ' ', 'y', 'e', 'a', 'r'], ['0', ' ', 'y', 'e', 'a', 'r', ' ', 'a', 'g', 'o']), (['d', 'a', 'm', 'a', 'u', 'n'], ['i', 'n', ' ', '1', ' ', 'd', 'a', 'y']), (['i', 'e', 'r'], ['1', ' ', 'd', 'a', 'y', ' ', 'a', 'g', 'o']), (['n', 'o', 'w'], ['0', ' ', 's', 'e', 'c', 'o', 'n', 'd', ' ', 'a', 'g', 'o']), (['o', 'z'], ['0', ' ', 'd', 'a', 'y', ' ', 'a', 'g', 'o'])]

/-- internal/data/rn.go: `rn_Locale`, dictionary. -/
def rnDict : LangData where
  name := ['r', 'n']
  translations := [(['k', 'u', ' ', 'w', 'a', ' ', 'g', 'a', 't', 'a', 'n', 'd', 'a', 't', 'u'], [['s', 'a', 't', 'u', 'r', 'd', 'a', 'y']]), (['i', 'n', 'd', 'w', 'i', ',', ' ', 'i', 'y', 'i', 'n', 'g', 'a'], [['w', 'e', 'e', 'k']]), (['k', 'u', ' ', 'w', 'a', ' ', 'g', 'a', 't', 'a', 'n', 'u'], [['f', 'r', 'i', 'd', 'a', 'y']]), (['k', 'u', ' ', 'w', 'a', ' ', 'g', 'a', 't', 'a', 't', 'u'], [['w', 'e', 'd', 'n', 'e', 's', 'd', 'a', 'y']]), (['k', 'u', ' ', 'w', 'a', ' ', 'k', 'a', 'b', 'i', 'r', 'i'], [['t', 'u', 'e', 's', 'd', 'a', 'y']]), (['k', 'u', ' ', 'w', 'a', ' ', 'm', 'b', 'e', 'r', 'e'], [['m', 'o', 'n', 'd', 'a', 'y']]), (['k', 'u', ' ', 'w', '\'', 'i', 'n', 'd', 'w', 'i'], [['s', 'u', 'n', 'd', 'a', 'y']]), (['k', 'u', ' ', 'w', 'a', ' ', 'k', 'a', 'n', 'e'], [['t', 'h', 'u', 'r', 's', 'd', 'a', 'y']]), (['n', 'y', 'a', 'n', 'd', 'a', 'g', 'a', 'r', 'o'], [['a', 'u', 'g', 'u', 's', 't']]), (['n', 'd', 'a', 'm', 'u', 'k', 'i', 'z', 'a'], [['a', 'p', 'r', 'i', 'l']]), (['n', 't', 'w', 'a', 'r', 'a', 'n', 't', 'e'], [['m', 'a', 'r', 'c', 'h']]), (['g', 'i', 't', 'u', 'g', 'u', 't', 'u'], [['o', 'c', 't', 'o', 'b', 'e', 'r']]), (['i', 's', 'e', 'g', 'o', 'n', 'd', 'a'], [['s', 'e', 'c', 'o', 'n', 'd']]), (['k', 'i', 'g', 'a', 'r', 'a', 'm', 'a'], [['d', 'e', 'c', 'e', 'm', 'b', 'e', 'r']]), (['m', 'u', 'k', 'a', 'k', 'a', 'r', 'o'], [['j', 'u', 'l', 'y']]), (['m', 'u', 'n', 'y', 'o', 'n', 'y', 'o'], [['n', 'o', 'v', 'e', 'm', 'b', 'e', 'r']]), (['n', 'y', 'a', 'k', 'a', 'n', 'g', 'a'], [['s', 'e', 'p', 't', 'e', 'm', 'b', 'e', 'r']]), (['r', 'u', 'h', 'u', 'h', 'u', 'm', 'a'], [['f', 'e', 'b', 'r', 'u', 'a', 'r', 'y']]), (['r', 'u', 'h', 'e', 's', 'h', 'i'], [['j', 'u', 'n', 'e']]), (['u', 'm', 'u', 'n', 'o', 't', 'a'], [['m', 'i', 'n', 'u', 't', 'e']]), (['r', 'u', 's', 'a', 'm', 'a'], [['m', 'a', 'y']]), (['u', 'k', 'w', 'e', 'z', 'i'], [['m', 'o', 'n', 't', 'h']]), (['u', 'm', 'w', 'a', 'k', 'a'], [['y', 'e', 'a', 'r']]), (['i', 's', 'a', 'h', 'a'], [['h', 'o', 'u', 'r']]), (['n', 'z', 'e', 'r', 'o'], [['j', 'a', 'n', 'u', 'a', 'r', 'y']]), (['u', 'm', 'u', 's', 'i'], [['d', 'a', 'y']]), (['g', 'a', 's'], [['f', 'e', 'b', 'r', 'u', 'a', 'r', 'y']]), (['g', 'i', 'c'], [['m', 'a', 'y']]), (['g', 'm', 't'], [['g', 'm', 't']]), (['g', 'n', 'd'], [['s', 'a', 't', 'u', 'r', 'd', 'a', 'y']]), (['g', 'n', 'u'], [['f', 'r', 'i', 'd', 'a', 'y']]), (['g', 't', 'u'], [['w', 'e', 'd', 'n', 'e', 's', 'd', 'a', 'y']]), (['k', 'a', 'b'], [['t', 'u', 'e', 's', 'd', 'a', 'y']]), (['k', 'a', 'm'], [['j', 'u', 'n', 'e']]), (['k', 'a', 'n'], [['a', 'u', 'g', 'u', 's', 't'], ['t', 'h', 'u', 'r', 's', 'd', 'a', 'y']]), (['m', 'a', 't'], [['a', 'p', 'r', 'i', 'l']]), (['m', 'b', 'e'], [['m', 'o', 'n', 'd', 'a', 'y']]), (['m', 'u', 't'], [['j', 'a', 'n', 'u', 'a', 'r', 'y']]), (['n', 'y', 'a'], [['j', 'u', 'l', 'y']]), (['n', 'z', 'e'], [['s', 'e', 'p', 't', 'e', 'm', 'b', 'e', 'r']]), (['u', 'g', 'u'], [['n', 'o', 'v', 'e', 'm', 'b', 'e', 'r']]), (['u', 'k', 'u'], [['d', 'e', 'c', 'e', 'm', 'b', 'e', 'r']]), (['u', 'k', 'w'], [['o', 'c', 't', 'o', 'b', 'e', 'r']]), (['u', 't', 'c'], [['u', 't', 'c']]), (['w', 'e', 'r'], [['m', 'a', 'r', 'c', 'h']]), (['z', 'm', 'u'], [['a', 'm']]), (['z', 'm', 'w'], [['p', 'm']]), (['a', 'm'], [['a', 'm']]), (['c', 'u'], [['s', 'u', 'n', 'd', 'a', 'y']]), (['p', 'm'], [['p', 'm']]), ([' '], [[' ']]), (['\''], [[]]), (['+'], [['+']]), ([','], [[]]), (['-'], [['-']]), (['.'], [['.']]), (['/'], [['/']]), ([':'], [[':']]), ([';'], [[]]), (['@'], [[]]), (['['], [[]]), ([']'], [[]]), (['z'], [['z']]), (['|'], [[]])]
  relativeType := [(['e', 'j', 'o', ' ', '(', 'h', 'a', 'h', 'e', 'z', 'e', ')'], ['1', ' ', 'd', 'a', 'y', ' ', 'a', 'g', 'o']), (['e', 'j', 'o', ' ', '(', 'h', 'a', 'z', 'o', 'z', 'a', ')'], ['i', 'n', ' ', '1', ' ', 'd', 'a', 'y']), (['t', 'h', 'i', 's', ' ', 'm', 'i', 'n', 'u', 't', 'e'], ['0', ' ', 'm', 'i', 'n', 'u', 't', 'e', ' ', 'a', 'g', 'o']), (['l', 'a', 's', 't', ' ', 'm', 'o', 'n', 't', 'h'], ['1', ' ', 'm', 'o', 'n', 't', 'h', ' ', 'a', 'g', 'o']), (['n', 'e', 'x', 't', ' ', 'm', 'o', 'n', 't', 'h'], ['i', 'n', ' ', '1', ' ', 'm', 'o', 'n', 't', 'h']), (['t', 'h', 'i', 's', ' ', 'm', 'o', 'n', 't', 'h'], ['0', ' ', 'm', 'o', 'n', 't', 'h', ' ', 'a', 'g', 'o']), (['l', 'a', 's', 't', ' ', 'w', 'e', 'e', 'k'], ['1', ' ', 'w', 'e', 'e', 'k', ' ', 'a', 'g', 'o']), (['l', 'a', 's', 't', ' ', 'y', 'e', 'a', 'r'], ['1', ' ', 'y', 'e', 'a', 'r', ' ', 'a', 'g', 'o']), (['n', 'e', 'x', 't', ' ', 'w', 'e', 'e', 'k'], ['i', 'n', ' ', '1', ' ', 'w', 'e', 'e', 'k']), (['n', 'e', 'x', 't', ' ', 'y', 'e', 'a', 'r'], ['i', 'n', ' ', '1', ' ', 'y', 'e', 'a', 'r']), (['t', 'h', 'i', 's', ' ', 'h', 'o', 'u', 'r'], ['0', ' ', 'h', 'o', 'u', 'r', ' ', 'a', 'g', 'o']), (['t', 'h', 'i', 's', ' ', 'w', 'e', 'e', 'k'], ['0', ' ', 'w', 'e', 'e', 'k', ' ', 'a', 'g', 'o']), (['t', 'h', 'i', 's', ' ', 'y', 'e', 'a', 'r'], ['0', ' ', 'y', 'e', 'a', 'r', ' ', 'a', 'g', 'o']), (['u', 'y', 'u', ' ', 'm', 'u', 's', 'i'], ['0', ' ', 'd', 'a', 'y', ' ', 'a', 'g', 'o']), (['n', 'o', 'w'], ['0', ' ', 's', 'e', 'c', 'o', 'n', 'd', ' ', 'a', 'g', 'o'])]

/-- internal/data/ro.go: `ro_Locale`, dictionary. -/
def roDict : LangData where
  name := ['r', 'o']
  splitterGroup := 1
  translations := [(['s', 'e', 'p', 't', 'e', 'm', 'b', 'r', 'i', 'e'], [['s', 'e', 'p', 't', 'e', 'm', 'b', 'e', 'r']]), (['d', 'e', 'c', 'e', 'm', 'b', 'r', 'i', 'e'], [['d', 'e', 'c', 'e', 'm', 'b', 'e', 'r']]), (['f', 'e', 'b', 'r', 'u', 'a', 'r', 'i', 'e'], [['f', 'e', 'b', 'r', 'u', 'a', 'r', 'y']]), (['n', 'o', 'i', 'e', 'm', 'b', 'r', 'i', 'e'], [['n', 'o', 'v', 'e', 'm', 'b', 'e', 'r']]), (['o', 'c', 't', 'o', 'm', 'b', 'r', 'i', 'e'], [['o', 'c', 't', 'o', 'b', 'e', 'r']]), (['s', 'a', 'p', 't', 'a', 'm', 'a', 'n', 'a'], [['w', 'e', 'e', 'k']]), (['s', 'a', 'p', 't', 'a', 'm', 'a', 'n', 'i'], [['w', 'e', 'e', 'k']]), (['d', 'u', 'm', 'i', 'n', 'i', 'c', 'a'], [['s', 'u', 'n', 'd', 'a', 'y']]), (['i', 'a', 'n', 'u', 'a', 'r', 'i', 'e'], [['j', 'a', 'n', 'u', 'a', 'r', 'y']]), (['m', 'i', 'e', 'r', 'c', 'u', 'r', 'i'], [['w', 'e', 'd', 'n', 'e', 's', 'd', 'a', 'y']]), (['a', 'p', 'r', 'i', 'l', 'i', 'e'], [['a', 'p', 'r', 'i', 'l']]), (['i', 'n', ' ', 'u', 'r', 'm', 'a'], [['a', 'g', 'o']]), (['s', 'a', 'm', 'b', 'a', 't', 'a'], [['s', 'a', 't', 'u', 'r', 'd', 'a', 'y']]), (['s', 'e', 'c', 'u', 'n', 'd', 'a'], [['s', 'e', 'c', 'o', 'n', 'd']]), (['s', 'e', 'c', 'u', 'n', 'd', 'e'], [['s', 'e', 'c', 'o', 'n', 'd']]), (['a', 'u', 'g', 'u', 's', 't'], [['a', 'u', 'g', 'u', 's', 't']]), (['m', 'a', 'r', 't', 'i', 'e'], [['m', 'a', 'r', 'c', 'h']]), (['m', 'i', 'n', 'u', 't', 'e'], [['m', 'i', 'n', 'u', 't', 'e']]), (['v', 'i', 'n', 'e', 'r', 'i'], [['f', 'r', 'i', 'd', 'a', 'y']]), (['i', 'u', 'l', 'i', 'e'], [['j', 'u', 'l', 'y']]), (['i', 'u', 'n', 'i', 'e'], [['j', 'u', 'n', 'e']]), (['m', 'a', 'r', 't', 'i'], [['t', 'u', 'e', 's', 'd', 'a', 'y']]), (['m', 'i', 'n', 'u', 't'], [['m', 'i', 'n', 'u', 't', 'e']]), (['n', 'o', 'i', 'e', 'm'], [['n', 'o', 'v', 'e', 'm', 'b', 'e', 'r']]), (['f', 'e', 'b', 'r'], [['f', 'e', 'b', 'r', 'u', 'a', 'r', 'y']]), (['l', 'u', 'n', 'a'], [['m', 'o', 'n', 't', 'h']]), (['l', 'u', 'n', 'i'], [['m', 'o', 'n', 't', 'h'], ['m', 'o', 'n', 'd', 'a', 'y']]), (['m', 'a', 'r', 't'], [['m', 'a', 'r', 'c', 'h']]), (['s', 'a', 'p', 't'], [['w', 'e', 'e', 'k']]), (['s', 'e', 'p', 't'], [['s', 'e', 'p', 't', 'e', 'm', 'b', 'e', 'r']]), (['z', 'i', 'l', 'e'], [['d', 'a', 'y']]), (['a', 'n', 'i'], [['y', 'e', 'a', 'r']]), (['a', 'p', 'r'], [['a', 'p', 'r', 'i', 'l']]), (['a', 'u', 'g'], [['a', 'u', 'g', 'u', 's', 't']]), (['d', 'e', 'c'], [['d', 'e', 'c', 'e', 'm', 'b', 'e', 'r']]), (['d', 'u', 'm'], [['s', 'u', 'n', 'd', 'a', 'y']]), (['f', 'e', 'b'], [['f', 'e', 'b', 'r', 'u', 'a', 'r', 'y']]), (['g', 'm', 't'], [['g', 'm', 't']]), (['i', 'a', 'n'], [['j', 'a', 'n', 'u', 'a', 'r', 'y']]), (['i', 'u', 'l'], [['j', 'u', 'l', 'y']]), (['i', 'u', 'n'], [['j', 'u', 'n', 'e']]), (['j', 'o', 'i'], [['t', 'h', 'u', 'r', 's', 'd', 'a', 'y']]), (['l', 'u', 'n'], [['m', 'o', 'n', 'd', 'a', 'y']]), (['m', 'a', 'i'], [['m', 'a', 'y']]), (['m', 'a', 'r'], [['m', 'a', 'r', 'c', 'h'], ['t', 'u', 'e', 's', 'd', 'a', 'y']]), (['m', 'i', 'e'], [['w', 'e', 'd', 'n', 'e', 's', 'd', 'a', 'y']]), (['m', 'i', 'n'], [['m', 'i', 'n', 'u', 't', 'e']]), (['n', 'o', 'v'], [['n', 'o', 'v', 'e', 'm', 'b', 'e', 'r']]), (['o', 'c', 't'], [['o', 'c', 't', 'o', 'b', 'e', 'r']]), (['o', 'r', 'a'], [['h', 'o', 'u', 'r']]), (['o', 'r', 'e'], [['h', 'o', 'u', 'r']]), (['s', 'a', 'm'], [['s', 'a', 't', 'u', 'r', 'd', 'a', 'y']]), (['s', 'e', 'c'], [['s', 'e', 'c', 'o', 'n', 'd']]), (['s', 'e', 'p'], [['s', 'e', 'p', 't', 'e', 'm', 'b', 'e', 'r']]), (['u', 't', 'c'], [['u', 't', 'c']]), (['v', 'i', 'n'], [['f', 'r', 'i', 'd', 'a', 'y']]), (['a', 'm'], [['a', 'm']]), (['a', 'n'], [['y', 'e', 'a', 'r']]), (['d', 'e'], [[]]), (['i', 'n'], [['i', 'n']]), (['l', 'a'], [[]]), (['m', 'i'], [['w', 'e', 'd', 'n', 'e', 's', 'd', 'a', 'y']]), (['p', 'm'], [['p', 'm']]), (['z', 'i'], [['d', 'a', 'y']]), ([' '], [[' ']]), (['\''], [[]]), (['+'], [['+']]), ([','], [[]]), (['-'], [['-']]), (['.'], [['.']]), (['/'], [['/']]), ([':'], [[':']]), ([';'], [[]]), (['@'], [[]]), (['['], [[]]), ([']'], [[]]), (['h'], [['h', 'o', 'u', 'r']]), (['m'], [['m', 'i', 'n', 'u', 't', 'e']]), (['s'], [['s', 'e', 'c', 'o', 'n', 'd']]), (['z'], [['z']]), (['|'], [[]])]
  relativeType := [(['s', 'a', 'p', 't', 'a', 'm', 'a', 'n', 'a', ' ', 'v', 'i', 'i', 't', 'o', 'a', 'r', 'e'], ['i', 'n', ' ', '1', ' ', 'w', 'e', 'e', 'k']), (['s', 'a', 'p', 't', 'a', 'm', 'a', 'n', 'a', ' ', 'a', 'c', 'e', 'a', 's', 't', 'a'], ['0', ' ', 'w', 'e', 'e', 'k', ' ', 'a', 'g', 'o']), (['s', 'a', 'p', 't', 'a', 'm', 'a', 'n', 'a', ' ', 't', 'r', 'e', 'c', 'u', 't', 'a'], ['1', ' ', 'w', 'e', 'e', 'k', ' ', 'a', 'g', 'o']), (['m', 'i', 'n', 'u', 't', 'u', 'l', ' ', 'a', 'c', 'e', 's', 't', 'a'], ['0', ' ', 'm', 'i', 'n', 'u', 't', 'e', ' ', 'a', 'g', 'o']), (['l', 'u', 'n', 'a', ' ', 'v', 'i', 'i', 't', 'o', 'a', 'r', 'e'], ['i', 'n', ' ', '1', ' ', 'm', 'o', 'n', 't', 'h']), (['l', 'u', 'n', 'a', ' ', 'a', 'c', 'e', 'a', 's', 't', 'a'], ['0', ' ', 'm', 'o', 'n', 't', 'h', ' ', 'a', 'g', 'o']), (['l', 'u', 'n', 'a', ' ', 't', 'r', 'e', 'c', 'u', 't', 'a'], ['1', ' ', 'm', 'o', 'n', 't', 'h', ' ', 'a', 'g', 'o']), (['a', 'n', 'u', 'l', ' ', 'a', 'c', 'e', 's', 't', 'a'], ['0', ' ', 'y', 'e', 'a', 'r', ' ', 'a', 'g', 'o']), (['a', 'n', 'u', 'l', ' ', 't', 'r', 'e', 'c', 'u', 't'], ['1', ' ', 'y', 'e', 'a', 'r', ' ', 'a', 'g', 'o']), (['a', 'n', 'u', 'l', ' ', 'v', 'i', 'i', 't', 'o', 'r'], ['i', 'n', ' ', '1', ' ', 'y', 'e', 'a', 'r']), (['o', 'r', 'a', ' ', 'a', 'c', 'e', 'a', 's', 't', 'a'], ['0', ' ', 'h', 'o', 'u', 'r', ' ', 'a', 'g', 'o']), (['m', 'a', 'i', 'n', 'e'], ['i', 'n', ' ', '1', ' ', 'd', 'a', 'y']), (['a', 'c', 'u', 'm'], ['0', ' ', 's', 'e', 'c', 'o', 'n', 'd', ' ', 'a', 'g', 'o']), (['i', 'e', 'r', 'i'], ['1', ' ', 'd', 'a', 'y', ' ', 'a', 'g', 'o']), (['a', 'z', 'i'], ['0', ' ', 'd', 'a', 'y', ' ', 'a', 'g', 'o'])]

/-- internal/data/ro.go: `ro_MD_Locale`, dictionary. -/
def ro_MDDict : LangData where
  name := ['r', 'o', '-', 'M', 'D']

/-- internal/data/rof.go: `rof_Locale`, dictionary. -/
def rofDict : LangData where
  name := ['r', 'o', 'f']
  translations := [(['m', 'w', 'e', 'r', 'i', ' ', 'w', 'a', ' ', 'i', 'k', 'u', 'm', 'i', ' ', 'n', 'a', ' ', 'm', 'b', 'i', 'l', 'i'], [['d', 'e', 'c', 'e', 'm', 'b', 'e', 'r']]), (['m', 'w', 'e', 'r', 'i', ' ', 'w', 'a', ' ', 'i', 'k', 'u', 'm', 'i', ' ', 'n', 'a', ' ', 'm', 'o', 'j', 'a'], [['n', 'o', 'v', 'e', 'm', 'b', 'e', 'r']]), (['m', 'w', 'e', 'r', 'i', ' ', 'w', 'a', ' ', 'k', 'a', 't', 'a', 't', 'u'], [['m', 'a', 'r', 'c', 'h']]), (['m', 'w', 'e', 'r', 'i', ' ', 'w', 'a', ' ', 'k', 'w', 'a', 'n', 'z', 'a'], [['j', 'a', 'n', 'u', 'a', 'r', 'y']]), (['m', 'w', 'e', 'r', 'i', ' ', 'w', 'a', ' ', 'i', 'k', 'u', 'm', 'i'], [['o', 'c', 't', 'o', 'b', 'e', 'r']]), (['m', 'w', 'e', 'r', 'i', ' ', 'w', 'a', ' ', 'k', 'a', 'a', 'n', 'a'], [['a', 'p', 'r', 'i', 'l']]), (['m', 'w', 'e', 'r', 'i', ' ', 'w', 'a', ' ', 'k', 'a', 'i', 'l', 'i'], [['f', 'e', 'b', 'r', 'u', 'a', 'r', 'y']]), (['m', 'w', 'e', 'r', 'i', ' ', 'w', 'a', ' ', 'n', 'a', 'n', 'e'], [['a', 'u', 'g', 'u', 's', 't']]), (['m', 'w', 'e', 'r', 'i', ' ', 'w', 'a', ' ', 's', 'a', 'b', 'a'], [['j', 'u', 'l', 'y']]), (['m', 'w', 'e', 'r', 'i', ' ', 'w', 'a', ' ', 's', 'i', 't', 'a'], [['j', 'u', 'n', 'e']]), (['m', 'w', 'e', 'r', 'i', ' ', 'w', 'a', ' ', 't', 'a', 'n', 'u'], [['m', 'a', 'y']]), (['m', 'w', 'e', 'r', 'i', ' ', 'w', 'a', ' ', 't', 'i', 's', 'a'], [['s', 'e', 'p', 't', 'e', 'm', 'b', 'e', 'r']]), (['i', 'j', 'u', 'm', 'a', 'm', 'o', 's', 'i'], [['s', 'a', 't', 'u', 'r', 'd', 'a', 'y']]), (['i', 'j', 'u', 'm', 'a', 'p', 'i', 'l', 'i'], [['s', 'u', 'n', 'd', 'a', 'y']]), (['i', 'j', 'u', 'm', 'a', 't', 'a', 'n', 'o'], [['w', 'e', 'd', 'n', 'e', 's', 'd', 'a', 'y']]), (['i', 'j', 'u', 'm', 'a', 't', 'a', 't', 'u'], [['m', 'o', 'n', 'd', 'a', 'y']]), (['a', 'l', 'h', 'a', 'm', 'i', 's', 'i'], [['t', 'h', 'u', 'r', 's', 'd', 'a', 'y']]), (['i', 'j', 'u', 'm', 'a', 'n', 'n', 'e'], [['t', 'u', 'e', 's', 'd', 'a', 'y']]), (['k', 'a', 'n', 'g', '\'', 'a', 'm', 'a'], [['a', 'm']]), (['k', 'i', 'n', 'g', 'o', 't', 'o'], [['p', 'm']]), (['s', 'e', 'k', 'u', 'n', 'd', 'e'], [['s', 'e', 'c', 'o', 'n', 'd']]), (['d', 'a', 'k', 'i', 'k', 'a'], [['m', 'i', 'n', 'u', 't', 'e']]), (['i', 'j', 'u', 'm', 'a', 'a'], [['f', 'r', 'i', 'd', 'a', 'y']]), (['i', 'w', 'i', 'k', 'i'], [['w', 'e', 'e', 'k']]), (['m', 'f', 'i', 'r', 'i'], [['d', 'a', 'y']]), (['m', 'u', 'a', 'k', 'a'], [['y', 'e', 'a', 'r']]), (['m', 'w', 'e', 'r', 'i'], [['m', 'o', 'n', 't', 'h']]), (['i', 'j', 't', 'n'], [['w', 'e', 'd', 'n', 'e', 's', 'd', 'a', 'y']]), (['i', 's', 'a', 'a'], [['h', 'o', 'u', 'r']]), (['a', 'l', 'h'], [['t', 'h', 'u', 'r', 's', 'd', 'a', 'y']]), (['g', 'm', 't'], [['g', 'm', 't']]), (['i', 'j', 'm'], [['s', 'a', 't', 'u', 'r', 'd', 'a', 'y']]), (['i', 'j', 'n'], [['t', 'u', 'e', 's', 'd', 'a', 'y']]), (['i', 'j', 'p'], [['s', 'u', 'n', 'd', 'a', 'y']]), (['i', 'j', 't'], [['m', 'o', 'n', 'd', 'a', 'y']]), (['i', 'j', 'u'], [['f', 'r', 'i', 'd', 'a', 'y']]), (['m', '1', '0'], [['o', 'c', 't', 'o', 'b', 'e', 'r']]), (['m', '1', '1'], [['n', 'o', 'v', 'e', 'm', 'b', 'e', 'r']]), (['m', '1', '2'], [['d', 'e', 'c', 'e', 'm', 'b', 'e', 'r']]), (['u', 't', 'c'], [['u', 't', 'c']]), (['a', 'm'], [['a', 'm']]), (['m', '1'], [['j', 'a', 'n', 'u', 'a', 'r', 'y']]), (['m', '2'], [['f', 'e', 'b', 'r', 'u', 'a', 'r', 'y']]), (['m', '3'], [['m', 'a', 'r', 'c', 'h']]), (['m', '4'], [['a', 'p', 'r', 'i', 'l']]), (['m', '5'], [['m', 'a', 'y']]), (['m', '6'], [['j', 'u', 'n', 'e']]), (['m', '7'], [['j', 'u', 'l', 'y']]), (['m', '8'], [['a', 'u', 'g', 'u', 's', 't']]), (['m', '9'], [['s', 'e', 'p', 't', 'e', 'm', 'b', 'e', 'r']]), (['p', 'm'], [['p', 'm']]), ([' '], [[' ']]), (['\''], [[]]), (['+'], [['+']]), ([','], [[]]), (['-'], [['-']]), (['.'], [['.']]), (['/'], [['/']]), ([':'], [[':']]), ([';'], [[]]), (['@'], [[]]), (['['], [[]]), ([']'], [[]]), (['z'], [['z']]), (['|'], [[]])]
  relativeType := [(['t', 'h', 'i', 's', ' ', 'm', 'i', 'n', 'u', 't', 'e'], ['0', ' ', 'm', 'i', 'n', 'u', 't', 'e', ' ', 'a', 'g', 'o']), (['l', 'a', 's', 't', ' ', 'm', 'o', 'n', 't', 'h'], ['1', ' ', 'm', 'o', 'n', 't', 'h', ' ', 'a', 'g', 'o']), (['n', 'e', 'x', 't', ' ', 'm', 'o', 'n', 't', 'h'], ['i', 'n', ' ', '1', ' ', 'm', 'o', 'n', 't', 'h']), (['t', 'h', 'i', 's', ' ', 'm', 'o', 'n', 't', 'h'], ['0', ' ', 'm', 'o', 'n', 't', 'h', ' ', 'a', 'g', 'o']), (['l', 'a', 's', 't', ' ', 'w', 'e', 'e', 'k'], ['1', ' ', 'w', 'e', 'e', 'k', ' ', 'a', 'g', 'o']), (['l', 'a', 's', 't', ' ', 'y', 'e', 'a', 'r'], ['1', ' ', 'y', 'e', 'a', 'r', ' ', 'a', 'g', 'o']), (['n', 'e', 'x', 't', ' ', 'w', 'e', 'e', 'k'], ['i', 'n', ' ', '1', ' ', 'w', 'e', 'e', 'k']), (['n', 'e', 'x', 't', ' ', 'y', 'e', 'a', 'r'], ['i', 'n', ' ', '1', ' ', 'y', 'e', 'a', 'r']), (['t', 'h', 'i', 's', ' ', 'h', 'o', 'u', 'r'], ['0', ' ', 'h', 'o', 'u', 'r', ' ', 'a', 'g', 'o']), (['t', 'h', 'i', 's', ' ', 'w', 'e', 'e', 'k'], ['0', ' ', 'w', 'e', 'e', 'k', ' ', 'a', 'g', 'o']), (['t', 'h', 'i', 's', ' ', 'y', 'e', 'a', 'r'], ['0', ' ', 'y', 'e', 'a', 'r', ' ', 'a', 'g', 'o']), (['n', 'g', '\'', 'a', 'm', 'a'], ['i', 'n', ' ', '1', ' ', 'd', 'a', 'y']), (['h', 'i', 'y', 'o'], ['1', ' ', 'd', 'a', 'y', ' ', 'a', 'g', 'o']), (['l', 'i', 'n', 'u'], ['0', ' ', 'd', 'a', 'y', ' ', 'a', 'g', 'o']), (['n', 'o', 'w'], ['0', ' ', 's', 'e', 'c', 'o', 'n', 'd', ' ', 'a', 'g', 'o'])]

/-- internal/data/ru.go: `ru_Locale`, dictionary. -/
def ruDict : LangData where
  name := ['r', 'u']
  splitterGroup := 1
  translations := [(['в', 'о', 'с', 'к', 'р', 'е', 'с', 'е', 'н', 'и', 'е'], [['s', 'u', 'n', 'd', 'a', 'y']]), (['в', 'о', 'с', 'к', 'р', 'е', 'с', 'е', 'н', 'ь', 'е'], [['s', 'u', 'n', 'd', 'a', 'y']]), (['п', 'о', 'н', 'е', 'д', 'е', 'л', 'ь', 'н', 'и', 'к'], [['m', 'o', 'n', 'd', 'a', 'y']]), (['в', ' ', 'т', 'е', 'ч', 'е', 'н', 'и', 'е'], [['i', 'n']]), (['п', 'р', 'и', 'м', 'е', 'р', 'н', 'о'], [[]]), (['с', 'е', 'н', 'т', 'я', 'б', 'р', 'ь'], [['s', 'e', 'p', 't', 'e', 'm', 'b', 'e', 'r']]), (['с', 'е', 'н', 'т', 'я', 'б', 'р', 'я'], [['s', 'e', 'p', 't', 'e', 'm', 'b', 'e', 'r']]), (['а', 'в', 'г', 'у', 'с', 'т', 'а'], [['a', 'u', 'g', 'u', 's', 't']]), (['в', 'т', 'о', 'р', 'н', 'и', 'к'], [['t', 'u', 'e', 's', 'd', 'a', 'y']]), (['д', 'е', 'к', 'а', 'б', 'р', 'ь'], [['d', 'e', 'c', 'e', 'm', 'b', 'e', 'r']]), (['д', 'е', 'к', 'а', 'б', 'р', 'я'], [['d', 'e', 'c', 'e', 'm', 'b', 'e', 'r']]), (['м', 'е', 'с', 'я', 'ц', 'е', 'в'], [['m', 'o', 'n', 't', 'h']]), (['о', 'к', 'т', 'я', 'б', 'р', 'ь'], [['o', 'c', 't', 'o', 'b', 'e', 'r']]), (['о', 'к', 'т', 'я', 'б', 'р', 'я'], [['o', 'c', 't', 'o', 'b', 'e', 'r']]), (['п', 'я', 'т', 'н', 'и', 'ц', 'а'], [['f', 'r', 'i', 'd', 'a', 'y']]), (['п', 'я', 'т', 'н', 'и', 'ц', 'у'], [['f', 'r', 'i', 'd', 'a', 'y']]), (['с', 'е', 'к', 'у', 'н', 'д', 'а'], [['s', 'e', 'c', 'o', 'n', 'd']]), (['с', 'е', 'к', 'у', 'н', 'д', 'у'], [['s', 'e', 'c', 'o', 'n', 'd']]), (['с', 'е', 'к', 'у', 'н', 'д', 'ы'], [['s', 'e', 'c', 'o', 'n', 'd']]), (['с', 'у', 'б', 'б', 'о', 'т', 'а'], [['s', 'a', 't', 'u', 'r', 'd', 'a', 'y']]), (['с', 'у', 'б', 'б', 'о', 'т', 'у'], [['s', 'a', 't', 'u', 'r', 'd', 'a', 'y']]), (['ф', 'е', 'в', 'р', 'а', 'л', 'ь'], [['f', 'e', 'b', 'r', 'u', 'a', 'r', 'y']]), (['ф', 'е', 'в', 'р', 'а', 'л', 'я'], [['f', 'e', 'b', 'r', 'u', 'a', 'r', 'y']]), (['ч', 'е', 'т', 'в', 'е', 'р', 'г'], [['t', 'h', 'u', 'r', 's', 'd', 'a', 'y']]), (['а', 'в', 'г', 'у', 'с', 'т'], [['a', 'u', 'g', 'u', 's', 't']]), (['а', 'п', 'р', 'е', 'л', 'ь'], [['a', 'p', 'r', 'i', 'l']]), (['а', 'п', 'р', 'е', 'л', 'я'], [['a', 'p', 'r', 'i', 'l']]), (['м', 'е', 'с', 'я', 'ц', 'а'], [['m', 'o', 'n', 't', 'h']]), (['м', 'и', 'н', 'у', 'т', 'а'], [['m', 'i', 'n', 'u', 't', 'e']]), (['м', 'и', 'н', 'у', 'т', 'у'], [['m', 'i', 'n', 'u', 't', 'e']]), (['м', 'и', 'н', 'у', 'т', 'ы'], [['m', 'i', 'n', 'u', 't', 'e']]), (['н', 'е', 'д', 'е', 'л', 'и'], [['w', 'e', 'e', 'k']]), (['н', 'е', 'д', 'е', 'л', 'ь'], [['w', 'e', 'e', 'k']]), (['н', 'е', 'д', 'е', 'л', 'ю'], [['w', 'e', 'e', 'k']]), (['н', 'е', 'д', 'е', 'л', 'я'], [['w', 'e', 'e', 'k']]), (['н', 'о', 'я', 'б', 'р', 'ь'], [['n', 'o', 'v', 'e', 'm', 'b', 'e', 'r']]), (['н', 'о', 'я', 'б', 'р', 'я'], [['n', 'o', 'v', 'e', 'm', 'b', 'e', 'r']]), (['с', 'е', 'к', 'у', 'н', 'д'], [['s', 'e', 'c', 'o', 'n', 'd']]), (['с', 'п', 'у', 'с', 'т', 'я'], [['i', 'n']]), (['я', 'н', 'в', 'а', 'р', 'ь'], [['j', 'a', 'n', 'u', 'a', 'r', 'y']]), (['я', 'н', 'в', 'а', 'р', 'я'], [['j', 'a', 'n', 'u', 'a', 'r', 'y']]), (['м', 'а', 'р', 'т', 'а'], [['m', 'a', 'r', 'c', 'h']]), (['м', 'е', 'с', 'я', 'ц'], [['m', 'o', 'n', 't', 'h']]), (['м', 'и', 'н', 'у', 'т'], [['m', 'i', 'n', 'u', 't', 'e']]), (['н', 'а', 'з', 'а', 'д'], [['a', 'g', 'o']]), (['о', 'к', 'о', 'л', 'о'], [[]]), (['с', 'р', 'е', 'д', 'а'], [['w', 'e', 'd', 'n', 'e', 's', 'd', 'a', 'y']]), (['с', 'р', 'е', 'д', 'у'], [['w', 'e', 'd', 'n', 'e', 's', 'd', 'a', 'y']]), (['с', 'у', 'т', 'к', 'и'], [['d', 'a', 'y']]), (['с', 'у', 'т', 'о', 'к'], [['d', 'a', 'y']]), (['ч', 'а', 'с', 'о', 'в'], [['h', 'o', 'u', 'r']]), (['ч', 'е', 'р', 'е', 'з'], [['i', 'n']]), (['г', 'о', 'д', 'а'], [['y', 'e', 'a', 'r']]), (['г', 'о', 'д', 'у'], [['y', 'e', 'a', 'r']]), (['д', 'е', 'н', 'ь'], [['d', 'a', 'y']]), (['д', 'н', 'е', 'и'], [['d', 'a', 'y']]), (['и', 'ю', 'л', 'ь'], [['j', 'u', 'l', 'y']]), (['и', 'ю', 'л', 'я'], [['j', 'u', 'l', 'y']]), (['и', 'ю', 'н', 'ь'], [['j', 'u', 'n', 'e']]), (['и', 'ю', 'н', 'я'], [['j', 'u', 'n', 'e']]), (['м', 'а', 'р', 'т'], [['m', 'a', 'r', 'c', 'h']]), (['н', 'о', 'я', 'б'], [['n', 'o', 'v', 'e', 'm', 'b', 'e', 'r']]), (['с', 'е', 'н', 'т'], [['s', 'e', 'p', 't', 'e', 'm', 'b', 'e', 'r']]), (['ф', 'е', 'в', 'р'], [['f', 'e', 'b', 'r', 'u', 'a', 'r', 'y']]), (['ч', 'а', 'с', 'а'], [['h', 'o', 'u', 'r']]), (['g', 'm', 't'], [['g', 'm', 't']]), (['u', 't', 'c'], [['u', 't', 'c']]), (['а', 'в', 'г'], [['a', 'u', 'g', 'u', 's', 't']]), (['а', 'п', 'р'], [['a', 'p', 'r', 'i', 'l']]), (['в', 'с', 'к'], [['s', 'u', 'n', 'd', 'a', 'y']]), (['в', 'т', 'р'], [['t', 'u', 'e', 's', 'd', 'a', 'y']]), (['г', 'о', 'д'], [['y', 'e', 'a', 'r']]), (['д', 'е', 'к'], [['d', 'e', 'c', 'e', 'm', 'b', 'e', 'r']]), (['д', 'н', 'я'], [['d', 'a', 'y']]), (['и', 'ю', 'л'], [['j', 'u', 'l', 'y']]), (['и', 'ю', 'н'], [['j', 'u', 'n', 'e']]), (['л', 'е', 'т'], [['y', 'e', 'a', 'r']]), (['м', 'а', 'и'], [['m', 'a', 'y']]), (['м', 'а', 'р'], [['m', 'a', 'r', 'c', 'h']]), (['м', 'а', 'я'], [['m', 'a', 'y']]), (['м', 'е', 'с'], [['m', 'o', 'n', 't', 'h']]), (['м', 'и', 'н'], [['m', 'i', 'n', 'u', 't', 'e']]), (['н', 'е', 'д'], [['w', 'e', 'e', 'k']]), (['н', 'о', 'я'], [['n', 'o', 'v', 'e', 'm', 'b', 'e', 'r']]), (['о', 'к', 'т'], [['o', 'c', 't', 'o', 'b', 'e', 'r']]), (['п', 'н', 'д'], [['m', 'o', 'n', 'd', 'a', 'y']]), (['п', 'т', 'н'], [['f', 'r', 'i', 'd', 'a', 'y']]), (['с', 'б', 'т'], [['s', 'a', 't', 'u', 'r', 'd', 'a', 'y']]), (['с', 'е', 'к'], [['s', 'e', 'c', 'o', 'n', 'd']]), (['с', 'е', 'н'], [['s', 'e', 'p', 't', 'e', 'm', 'b', 'e', 'r']]), (['с', 'р', 'д'], [['w', 'e', 'd', 'n', 'e', 's', 'd', 'a', 'y']]), (['ф', 'е', 'в'], [['f', 'e', 'b', 'r', 'u', 'a', 'r', 'y']]), (['ч', 'а', 'с'], [['h', 'o', 'u', 'r']]), (['ч', 'т', 'в'], [['t', 'h', 'u', 'r', 's', 'd', 'a', 'y']]), (['я', 'н', 'в'], [['j', 'a', 'n', 'u', 'a', 'r', 'y']]), (['a', 'm'], [['a', 'm']]), (['p', 'm'], [['p', 'm']]), (['в', 'о'], [[]]), (['в', 'с'], [['s', 'u', 'n', 'd', 'a', 'y']]), (['в', 'т'], [['t', 'u', 'e', 's', 'd', 'a', 'y']]), (['д', 'н'], [['d', 'a', 'y']]), (['д', 'п'], [['a', 'm']]), (['п', 'н'], [['m', 'o', 'n', 'd', 'a', 'y']]), (['п', 'п'], [['p', 'm']]), (['п', 'т'], [['f', 'r', 'i', 'd', 'a', 'y']]), (['с', 'б'], [['s', 'a', 't', 'u', 'r', 'd', 'a', 'y']]), (['с', 'р'], [['w', 'e', 'd', 'n', 'e', 's', 'd', 'a', 'y']]), (['ч', 'т'], [['t', 'h', 'u', 'r', 's', 'd', 'a', 'y']]), ([' '], [[' ']]), (['\''], [[]]), (['+'], [['+']]), ([','], [[]]), (['-'], [['-']]), (['.'], [['.']]), (['/'], [['/']]), ([':'], [[':']]), ([';'], [[]]), (['@'], [[]]), (['['], [[]]), ([']'], [[]]), (['z'], [['z']]), (['|'], [[]]), (['в'], [[]]), (['г'], [['y', 'e', 'a', 'r']]), (['и'], [[]]), (['с'], [['s', 'e', 'c', 'o', 'n', 'd']]), (['ч'], [['h', 'o', 'u', 'r']])]
  relativeType := [(['н', 'а', ' ', 'с', 'л', 'е', 'д', 'у', 'ю', 'щ', 'е', 'и', ' ', 'н', 'е', 'д', 'е', 'л', 'е'], ['i', 'n', ' ', '1', ' ', 'w', 'e', 'e', 'k']), (['в', ' ', 'с', 'л', 'е', 'д', 'у', 'ю', 'щ', 'е', 'м', ' ', 'м', 'е', 'с', 'я', 'ц', 'е'], ['i', 'n', ' ', '1', ' ', 'm', 'o', 'n', 't', 'h']), (['н', 'а', ' ', 'п', 'р', 'о', 'ш', 'л', 'о', 'и', ' ', 'н', 'е', 'д', 'е', 'л', 'е'], ['1', ' ', 'w', 'e', 'e', 'k', ' ', 'a', 'g', 'o']), (['в', ' ', 'п', 'р', 'о', 'ш', 'л', 'о', 'м', ' ', 'м', 'е', 'с', 'я', 'ц', 'е'], ['1', ' ', 'm', 'o', 'n', 't', 'h', ' ', 'a', 'g', 'o']), (['в', ' ', 'с', 'л', 'е', 'д', 'у', 'ю', 'щ', 'е', 'м', ' ', 'г', 'о', 'д', 'у'], ['i', 'n', ' ', '1', ' ', 'y', 'e', 'a', 'r']), (['п', 'о', 'с', 'л', 'е', 'п', 'о', 'с', 'л', 'е', 'з', 'а', 'в', 'т', 'р', 'а'], ['i', 'n', ' ', '3', ' ', 'd', 'a', 'y']), (['в', ' ', 'п', 'р', 'о', 'ш', 'л', 'о', 'м', ' ', 'г', 'о', 'д', 'у'], ['1', ' ', 'y', 'e', 'a', 'r', ' ', 'a', 'g', 'o']), (['н', 'а', ' ', 'э', 'т', 'о', 'и', ' ', 'н', 'е', 'д', 'е', 'л', 'е'], ['0', ' ', 'w', 'e', 'e', 'k', ' ', 'a', 'g', 'o']), (['в', ' ', 'э', 'т', 'о', 'м', ' ', 'м', 'е', 'с', 'я', 'ц', 'е'], ['0', ' ', 'm', 'o', 'n', 't', 'h', ' ', 'a', 'g', 'o']), (['в', ' ', 'э', 'т', 'у', ' ', 'м', 'и', 'н', 'у', 'т', 'у'], ['0', ' ', 'm', 'i', 'n', 'u', 't', 'e', ' ', 'a', 'g', 'o']), (['в', ' ', 'э', 'т', 'о', 'м', ' ', 'г', 'о', 'д', 'у'], ['0', ' ', 'y', 'e', 'a', 'r', ' ', 'a', 'g', 'o']), (['в', ' ', 'э', 'т', 'о', 'м', ' ', 'ч', 'а', 'с', 'е'], ['0', ' ', 'h', 'o', 'u', 'r', ' ', 'a', 'g', 'o']), (['п', 'о', 'с', 'л', 'е', 'з', 'а', 'в', 'т', 'р', 'а'], ['i', 'n', ' ', '2', ' ', 'd', 'a', 'y']), (['п', 'о', 'з', 'а', 'в', 'ч', 'е', 'р', 'а'], ['2', ' ', 'd', 'a', 'y', ' ', 'a', 'g', 'o']), (['с', 'е', 'г', 'о', 'д', 'н', 'я'], ['0', ' ', 'd', 'a', 'y', ' ', 'a', 'g', 'o']), (['з', 'а', 'в', 'т', 'р', 'а'], ['i', 'n', ' ', '1', ' ', 'd', 'a', 'y']), (['с', 'е', 'и', 'ч', 'а', 'с'], ['0', ' ', 's', 'e', 'c', 'o', 'n', 'd', ' ', 'a', 'g', 'o']), (['в', 'ч', 'е', 'р', 'а'], ['1', ' ', 'd', 'a', 'y', ' ', 'a', 'g', 'o'])]

/-- internal/data/ru.go: `ru_BY_Locale`, dictionary. -/
def ru_BYDict : LangData where
  name := ['r', 'u', '-', 'B', 'Y']

/-- internal/data/ru.go: `ru_KG_Locale`, dictionary. -/
def ru_KGDict : LangData where
  name := ['r', 'u', '-', 'K', 'G']

/-- internal/data/ru.go: `ru_KZ_Locale`, dictionary. -/
def ru_KZDict : LangData where
  name := ['r', 'u', '-', 'K', 'Z']

/-- internal/data/ru.go: `ru_MD_Locale`, dictionary. -/
def ru_MDDict : LangData where
  name := ['r', 'u', '-', 'M', 'D']

/-- internal/data/ru.go: `ru_UA_Locale`, dictionary. -/
def ru_UADict : LangData where
  name := ['r', 'u', '-', 'U', 'A']

/-- internal/data/rw.go: `rw_Locale`, dictionary. -/
def rwDict : LangData where
  name := ['r', 'w']
  translations := [(['k', 'u', 'w', 'a', ' ', 'g', 'a', 't', 'a', 'n', 'd', 'a', 't', 'u'], [['s', 'a', 't', 'u', 'r', 'd', 'a', 'y']]), (['g', 'a', 's', 'h', 'y', 'a', 'n', 't', 'a', 'r', 'e'], [['f', 'e', 'b', 'r', 'u', 'a', 'r', 'y']]), (['k', 'u', ' ', 'c', 'y', 'u', 'm', 'w', 'e', 'r', 'u'], [['s', 'u', 'n', 'd', 'a', 'y']]), (['k', 'u', 'w', 'a', ' ', 'g', 'a', 't', 'a', 'n', 'u'], [['f', 'r', 'i', 'd', 'a', 'y']]), (['k', 'u', 'w', 'a', ' ', 'g', 'a', 't', 'a', 't', 'u'], [['w', 'e', 'd', 'n', 'e', 's', 'd', 'a', 'y']]), (['k', 'u', 'w', 'a', ' ', 'k', 'a', 'b', 'i', 'r', 'i'], [['t', 'u', 'e', 's', 'd', 'a', 'y']]), (['k', 'u', 'w', 'a', ' ', 'm', 'b', 'e', 'r', 'e'], [['m', 'o', 'n', 'd', 'a', 'y']]), (['u', 'g', 'u', 's', 'h', 'y', 'i', 'n', 'g', 'o'], [['n', 'o', 'v', 'e', 'm', 'b', 'e', 'r']]), (['g', 'i', 'c', 'u', 'r', 'a', 'n', 's', 'i'], [['m', 'a', 'y']]), (['k', 'u', 'w', 'a', ' ', 'k', 'a', 'n', 'e'], [['t', 'h', 'u', 'r', 's', 'd', 'a', 'y']]), (['m', 'u', 't', 'a', 'r', 'a', 'm', 'a'], [['j', 'a', 'n', 'u', 'a', 'r', 'y']]), (['n', 'y', 'a', 'k', 'a', 'n', 'g', 'a'], [['j', 'u', 'l', 'y']]), (['u', 'k', 'w', 'a', 'k', 'i', 'r', 'a'], [['o', 'c', 't', 'o', 'b', 'e', 'r']]), (['u', 'k', 'u', 'b', 'o', 'z', 'a'], [['d', 'e', 'c', 'e', 'm', 'b', 'e', 'r']]), (['w', 'e', 'r', 'u', 'r', 'w', 'e'], [['m', 'a', 'r', 'c', 'h']]), (['k', 'a', 'm', 'e', 'n', 'a'], [['j', 'u', 'n', 'e']]), (['k', 'a', 'n', 'a', 'm', 'a'], [['a', 'u', 'g', 'u', 's', 't']]), (['m', 'i', 'n', 'u', 't', 'e'], [['m', 'i', 'n', 'u', 't', 'e']]), (['s', 'e', 'c', 'o', 'n', 'd'], [['s', 'e', 'c', 'o', 'n', 'd']]), (['m', 'o', 'n', 't', 'h'], [['m', 'o', 'n', 't', 'h']]), (['n', 'z', 'e', 'l', 'i'], [['s', 'e', 'p', 't', 'e', 'm', 'b', 'e', 'r']]), (['h', 'o', 'u', 'r'], [['h', 'o', 'u', 'r']]), (['m', 'a', 't', 'a'], [['a', 'p', 'r', 'i', 'l']]), (['w', 'e', 'e', 'k'], [['w', 'e', 'e', 'k']]), (['y', 'e', 'a', 'r'], [['y', 'e', 'a', 'r']]), (['c', 'y', 'u'], [['s', 'u', 'n', 'd', 'a', 'y']]), (['d', 'a', 'y'], [['d', 'a', 'y']]), (['g', 'a', 's'], [['f', 'e', 'b', 'r', 'u', 'a', 'r', 'y']]), (['g', 'i', 'c'], [['m', 'a', 'y']]), (['g', 'm', 't'], [['g', 'm', 't']]), (['g', 'n', 'd'], [['s', 'a', 't', 'u', 'r', 'd', 'a', 'y']]), (['g', 'n', 'u'], [['f', 'r', 'i', 'd', 'a', 'y']]), (['g', 't', 'u'], [['w', 'e', 'd', 'n', 'e', 's', 'd', 'a', 'y']]), (['k', 'a', 'b'], [['t', 'u', 'e', 's', 'd', 'a', 'y']]), (['k', 'a', 'm'], [['j', 'u', 'n', 'e']]), (['k', 'a', 'n'], [['a', 'u', 'g', 'u', 's', 't'], ['t', 'h', 'u', 'r', 's', 'd', 'a', 'y']]), (['m', 'a', 't'], [['a', 'p', 'r', 'i', 'l']]), (['m', 'b', 'e'], [['m', 'o', 'n', 'd', 'a', 'y']]), (['m', 'u', 't'], [['j', 'a', 'n', 'u', 'a', 'r', 'y']]), (['n', 'y', 'a'], [['j', 'u', 'l', 'y']]), (['n', 'z', 'e'], [['s', 'e', 'p', 't', 'e', 'm', 'b', 'e', 'r']]), (['u', 'g', 'u'], [['n', 'o', 'v', 'e', 'm', 'b', 'e', 'r']]), (['u', 'k', 'u'], [['d', 'e', 'c', 'e', 'm', 'b', 'e', 'r']]), (['u', 'k', 'w'], [['o', 'c', 't', 'o', 'b', 'e', 'r']]), (['u', 't', 'c'], [['u', 't', 'c']]), (['w', 'e', 'r'], [['m', 'a', 'r', 'c', 'h']]), (['a', 'm'], [['a', 'm']]), (['p', 'm'], [['p', 'm']]), ([' '], [[' ']]), (['\''], [[]]), (['+'], [['+']]), ([','], [[]]), (['-'], [['-']]), (['.'], [['.']]), (['/'], [['/']]), ([':'], [[':']]), ([';'], [[]]), (['@'], [[]]), (['['], [[]]), ([']'], [[]]), (['z'], [['z']]), (['|'], [[]])]
  relativeType := [(['t', 'h', 'i', 's', ' ', 'm', 'i', 'n', 'u', 't', 'e'], ['0', ' ', 'm', 'i', 'n', 'u', 't', 'e', ' ', 'a', 'g', 'o']), (['l', 'a', 's', 't', ' ', 'm', 'o', 'n', 't', 'h'], ['1', ' ', 'm', 'o', 'n', 't', 'h', ' ', 'a', 'g', 'o']), (['n', 'e', 'x', 't', ' ', 'm', 'o', 'n', 't', 'h'], ['i', 'n', ' ', '1', ' ', 'm', 'o', 'n', 't', 'h']), (['t', 'h', 'i', 's', ' ', 'm', 'o', 'n', 't', 'h'], ['0', ' ', 'm', 'o', 'n', 't', 'h', ' ', 'a', 'g', 'o']), (['l', 'a', 's', 't', ' ', 'w', 'e', 'e', 'k'], ['1', ' ', 'w', 'e', 'e', 'k', ' ', 'a', 'g', 'o']), (['l', 'a', 's', 't', ' ', 'y', 'e', 'a', 'r'], ['1', ' ', 'y', 'e', 'a', 'r', ' ', 'a', 'g', 'o']), (['n', 'e', 'x', 't', ' ', 'w', 'e', 'e', 'k'], ['i', 'n', ' ', '1', ' ', 'w', 'e', 'e', 'k']), (['n', 'e', 'x', 't', ' ', 'y', 'e', 'a', 'r'], ['i', 'n', ' ', '1', ' ', 'y', 'e', 'a', 'r']), (['t', 'h', 'i', 's', ' ', 'h', 'o', 'u', 'r'], ['0', ' ', 'h', 'o', 'u', 'r', ' ', 'a', 'g', 'o']), (['t', 'h', 'i', 's', ' ', 'w', 'e', 'e', 'k'], ['0', ' ', 'w', 'e', 'e', 'k', ' ', 'a', 'g', 'o']), (['t', 'h', 'i', 's', ' ', 'y', 'e', 'a', 'r'], ['0', ' ', 'y', 'e', 'a', 'r', ' ', 'a', 'g', 'o']), (['y', 'e', 's', 't', 'e', 'r', 'd', 'a', 'y'], ['1', ' ', 'd', 'a', 'y', ' ', 'a', 'g', 'o']), (['t', 'o', 'm', 'o', 'r', 'r', 'o', 'w'], ['i', 'n', ' ', '1', ' ', 'd', 'a', 'y']), (['t', 'o', 'd', 'a', 'y'], ['0', ' ', 'd', 'a', 'y', ' ', 'a', 'g', 'o']), (['n', 'o', 'w'], ['0', ' ', 's', 'e', 'c', 'o', 'n', 'd', ' ', 'a', 'g', 'o'])]

/-- internal/data/rwk.go: `rwk_Locale`, dictionary. -/
def rwkDict : LangData where
  name := ['r', 'w', 'k']
  translations := [(['j', 'u', 'm', 'a', 'p', 'i', 'l', 'y', 'i'], [['s', 'u', 'n', 'd', 'a', 'y']]), (['j', 'u', 'm', 'a', 't', 'a', 't', 'u', 'u'], [['m', 'o', 'n', 'd', 'a', 'y']]), (['k', 'y', 'i', 'u', 'k', 'o', 'n', 'y', 'i'], [['p', 'm']]), (['a', 'l', 'h', 'a', 'm', 'i', 's', 'i'], [['t', 'h', 'u', 'r', 's', 'd', 'a', 'y']]), (['f', 'e', 'b', 'r', 'u', 'a', 'r', 'i'], [['f', 'e', 'b', 'r', 'u', 'a', 'r', 'y']]), (['j', 'u', 'm', 'a', 'm', 'o', 's', 'i'], [['s', 'a', 't', 'u', 'r', 'd', 'a', 'y']]), (['j', 'u', 'm', 'a', 't', 'a', 'n', 'u'], [['w', 'e', 'd', 'n', 'e', 's', 'd', 'a', 'y']]), (['s', 'e', 'p', 't', 'e', 'm', 'b', 'a'], [['s', 'e', 'p', 't', 'e', 'm', 'b', 'e', 'r']]), (['a', 'p', 'r', 'i', 'l', 'y', 'i'], [['a', 'p', 'r', 'i', 'l']]), (['d', 'a', 'k', 'y', 'i', 'k', 'a'], [['m', 'i', 'n', 'u', 't', 'e']]), (['d', 'e', 's', 'e', 'm', 'b', 'a'], [['d', 'e', 'c', 'e', 'm', 'b', 'e', 'r']]), (['j', 'a', 'n', 'u', 'a', 'r', 'i'], [['j', 'a', 'n', 'u', 'a', 'r', 'y']]), (['j', 'u', 'm', 'a', 'n', 'n', 'e'], [['t', 'u', 'e', 's', 'd', 'a', 'y']]), (['n', 'o', 'v', 'e', 'm', 'b', 'a'], [['n', 'o', 'v', 'e', 'm', 'b', 'e', 'r']]), (['s', 'e', 'k', 'u', 'n', 'd', 'e'], [['s', 'e', 'c', 'o', 'n', 'd']]), (['a', 'g', 'u', 's', 't', 'i'], [['a', 'u', 'g', 'u', 's', 't']]), (['i', 'j', 'u', 'm', 'a', 'a'], [['f', 'r', 'i', 'd', 'a', 'y']]), (['j', 'u', 'l', 'y', 'a', 'i'], [['j', 'u', 'l', 'y']]), (['o', 'k', 't', 'o', 'b', 'a'], [['o', 'c', 't', 'o', 'b', 'e', 'r']]), (['w', 'i', 'i', 'k', 'y', 'i'], [['w', 'e', 'e', 'k']]), (['j', 'u', 'n', 'y', 'i'], [['j', 'u', 'n', 'e']]), (['m', 'a', 'c', 'h', 'i'], [['m', 'a', 'r', 'c', 'h']]), (['m', 'f', 'i', 'r', 'i'], [['d', 'a', 'y']]), (['u', 't', 'u', 'k', 'o'], [['a', 'm']]), (['m', 'a', 'k', 'a'], [['y', 'e', 'a', 'r']]), (['m', 'o', 'r', 'i'], [['m', 'o', 'n', 't', 'h']]), (['a', 'g', 'o'], [['a', 'u', 'g', 'u', 's', 't']]), (['a', 'l', 'h'], [['t', 'h', 'u', 'r', 's', 'd', 'a', 'y']]), (['a', 'p', 'r'], [['a', 'p', 'r', 'i', 'l']]), (['d', 'e', 's'], [['d', 'e', 'c', 'e', 'm', 'b', 'e', 'r']]), (['f', 'e', 'b'], [['f', 'e', 'b', 'r', 'u', 'a', 'r', 'y']]), (['g', 'm', 't'], [['g', 'm', 't']]), (['i', 'j', 'u'], [['f', 'r', 'i', 'd', 'a', 'y']]), (['j', 'a', 'n'], [['j', 'a', 'n', 'u', 'a', 'r', 'y']]), (['j', 'm', 'o'], [['s', 'a', 't', 'u', 'r', 'd', 'a', 'y']]), (['j', 'n', 'n'], [['t', 'u', 'e', 's', 'd', 'a', 'y']]), (['j', 'p', 'i'], [['s', 'u', 'n', 'd', 'a', 'y']]), (['j', 't', 'n'], [['w', 'e', 'd', 'n', 'e', 's', 'd', 'a', 'y']]), (['j', 't', 't'], [['m', 'o', 'n', 'd', 'a', 'y']]), (['j', 'u', 'l'], [['j', 'u', 'l', 'y']]), (['j', 'u', 'n'], [['j', 'u', 'n', 'e']]), (['m', 'a', 'c'], [['m', 'a', 'r', 'c', 'h']]), (['m', 'e', 'i'], [['m', 'a', 'y']]), (['n', 'o', 'v'], [['n', 'o', 'v', 'e', 'm', 'b', 'e', 'r']]), (['o', 'k', 't'], [['o', 'c', 't', 'o', 'b', 'e', 'r']]), (['s', 'a', 'a'], [['h', 'o', 'u', 'r']]), (['s', 'e', 'p'], [['s', 'e', 'p', 't', 'e', 'm', 'b', 'e', 'r']]), (['u', 't', 'c'], [['u', 't', 'c']]), (['a', 'm'], [['a', 'm']]), (['p', 'm'], [['p', 'm']]), ([' '], [[' ']]), (['\''], [[]]), (['+'], [['+']]), ([','], [[]]), (['-'], [['-']]), (['.'], [['.']]), (['/'], [['/']]), ([':'], [[':']]), ([';'], [[]]), (['@'], [[]]), (['['], [[]]), ([']'], [[]]), (['z'], [['z']]), (['|'], [[]])]
  relativeType := [(['t', 'h', 'i', 's', ' ', 'm', 'i', 'n', 'u', 't', 'e'], ['0', ' ', 'm', 'i', 'n', 'u', 't', 'e', ' ', 'a', 'g', 'o']), (['l', 'a', 's', 't', ' ', 'm', 'o', 'n', 't', 'h'], ['1', ' ', 'm', 'o', 'n', 't', 'h', ' ', 'a', 'g', 'o']), (['n', 'e', 'x', 't', ' ', 'm', 'o', 'n', 't', 'h'], ['i', 'n', ' ', '1', ' ', 'm', 'o', 'n', 't', 'h']), (['t', 'h', 'i', 's', ' ', 'm', 'o', 'n', 't', 'h'], ['0', ' ', 'm', 'o', 'n', 't', 'h', ' ', 'a', 'g', 'o']), (['l', 'a', 's', 't', ' ', 'w', 'e', 'e', 'k'], ['1', ' ', 'w', 'e', 'e', 'k', ' ', 'a', 'g', 'o']), (['l', 'a', 's', 't', ' ', 'y', 'e', 'a', 'r'], ['1', ' ', 'y', 'e', 'a', 'r', ' ', 'a', 'g', 'o']), (['n', 'e', 'x', 't', ' ', 'w', 'e', 'e', 'k'], ['i', 'n', ' ', '1', ' ', 'w', 'e', 'e', 'k']), (['n', 'e', 'x', 't', ' ', 'y', 'e', 'a', 'r'], ['i', 'n', ' ', '1', ' ', 'y', 'e', 'a', 'r']), (['t', 'h', 'i', 's', ' ', 'h', 'o', 'u', 'r'], ['0', ' ', 'h', 'o', 'u', 'r', ' ', 'a', 'g', 'o']), (['t', 'h', 'i', 's', ' ', 'w', 'e', 'e', 'k'], ['0', ' ', 'w', 'e', 'e', 'k', ' ', 'a', 'g', 'o']), (['t', 'h', 'i', 's', ' ', 'y', 'e', 'a', 'r'], ['0', ' ', 'y', 'e', 'a', 'r', ' ', 'a', 'g', 'o']), (['n', 'g', 'a', 'm', 'a'], ['i', 'n', ' ', '1', ' ', 'd', 'a', 'y']), (['u', 'k', 'o', 'u'], ['1', ' ', 'd', 'a', 'y', ' ', 'a', 'g', 'o']), (['i', 'n', 'u'], ['0', ' ', 'd', 'a', 'y', ' ', 'a', 'g', 'o']), (['n', 'o', 'w'], ['0', ' ', 's', 'e', 'c', 'o', 'n', 'd', ' ', 'a', 'g', 'o'])]

/-- internal/data/sah.go: `sah_Locale`, dictionary. -/
def sahDict : LangData where
  name := ['s', 'a', 'h']
  translations := [(['а', 'т', 'ы', 'р', 'д', 'ь', 'ы', 'х', ' ', 'ы', 'и', 'ы', 'н'], [['a', 'u', 'g', 'u', 's', 't']]), (['а', 'т', 'ы', 'р', 'д', 'ь', 'ы', 'х', ' ', 'ы', 'и', 'а'], [['a', 'u', 'g', 'u', 's', 't']]), (['б', 'а', 'л', 'а', 'ҕ', 'а', 'н', ' ', 'ы', 'и', 'ы', 'н'], [['s', 'e', 'p', 't', 'e', 'm', 'b', 'e', 'r']]), (['б', 'а', 'с', 'к', 'ы', 'һ', 'ы', 'а', 'н', 'н', 'ь', 'а'], [['s', 'u', 'n', 'd', 'a', 'y']]), (['б', 'э', 'н', 'и', 'д', 'и', 'э', 'н', 'н', 'ь', 'и', 'к'], [['m', 'o', 'n', 'd', 'a', 'y']]), (['о', 'п', 'т', 'у', 'о', 'р', 'у', 'н', 'н', 'ь', 'у', 'к'], [['t', 'u', 'e', 's', 'd', 'a', 'y']]), (['б', 'а', 'л', 'а', 'ҕ', 'а', 'н', ' ', 'ы', 'и', 'а'], [['s', 'e', 'p', 't', 'e', 'm', 'b', 'e', 'r']]), (['к', 'у', 'л', 'у', 'н', ' ', 'т', 'у', 'т', 'а', 'р'], [['m', 'a', 'r', 'c', 'h']]), (['м', 'у', 'у', 'с', ' ', 'у', 'с', 'т', 'а', 'р'], [['a', 'p', 'r', 'i', 'l']]), (['т', 'о', 'х', 'с', 'у', 'н', 'н', 'ь', 'у'], [['j', 'a', 'n', 'u', 'a', 'r', 'y']]), (['а', 'л', 'т', 'ы', 'н', 'н', 'ь', 'ы'], [['o', 'c', 't', 'o', 'b', 'e', 'r']]), (['а', 'х', 'с', 'ы', 'н', 'н', 'ь', 'ы'], [['d', 'e', 'c', 'e', 'm', 'b', 'e', 'r']]), (['б', 'э', 'с', ' ', 'ы', 'и', 'ы', 'н'], [['j', 'u', 'n', 'e']]), (['б', 'э', 'э', 'т', 'и', 'ҥ', 'с', 'э'], [['f', 'r', 'i', 'd', 'a', 'y']]), (['с', 'э', 'т', 'и', 'н', 'н', 'ь', 'и'], [['n', 'o', 'v', 'e', 'm', 'b', 'e', 'r']]), (['с', 'ө', 'к', 'ү', 'ү', 'н', 'д', 'э'], [['s', 'e', 'c', 'o', 'n', 'd']]), (['ы', 'а', 'м', ' ', 'ы', 'и', 'ы', 'н'], [['m', 'a', 'y']]), (['б', 'э', 'с', ' ', 'ы', 'и', 'а'], [['j', 'u', 'n', 'e']]), (['м', 'ү', 'н', 'ү', 'ү', 'т', 'э'], [['m', 'i', 'n', 'u', 't', 'e']]), (['н', 'э', 'д', 'и', 'э', 'л', 'э'], [['w', 'e', 'e', 'k']]), (['о', 'л', 'у', 'н', 'н', 'ь', 'у'], [['f', 'e', 'b', 'r', 'u', 'a', 'r', 'y']]), (['о', 'т', ' ', 'ы', 'и', 'ы', 'н'], [['j', 'u', 'l', 'y']]), (['с', 'у', 'б', 'у', 'о', 'т', 'а'], [['s', 'a', 't', 'u', 'r', 'd', 'a', 'y']]), (['ч', 'э', 'п', 'п', 'и', 'э', 'р'], [['t', 'h', 'u', 'r', 's', 'd', 'a', 'y']]), (['ы', 'а', 'м', ' ', 'ы', 'и', 'а'], [['m', 'a', 'y']]), (['о', 'т', ' ', 'ы', 'и', 'а'], [['j', 'u', 'l', 'y']]), (['с', 'э', 'р', 'э', 'д', 'э'], [['w', 'e', 'd', 'n', 'e', 's', 'd', 'a', 'y']]), (['о', 'л', 'у', 'н'], [['f', 'e', 'b', 'r', 'u', 'a', 'r', 'y']]), (['т', 'о', 'х', 'с'], [['j', 'a', 'n', 'u', 'a', 'r', 'y']]), (['ч', 'а', 'а', 'с'], [['h', 'o', 'u', 'r']]), (['g', 'm', 't'], [['g', 'm', 't']]), (['u', 't', 'c'], [['u', 't', 'c']]), (['а', 'л', 'т'], [['o', 'c', 't', 'o', 'b', 'e', 'r']]), (['а', 'т', 'р'], [['a', 'u', 'g', 'u', 's', 't']]), (['а', 'х', 'с'], [['d', 'e', 'c', 'e', 'm', 'b', 'e', 'r']]), (['б', 'л', 'ҕ'], [['s', 'e', 'p', 't', 'e', 'm', 'b', 'e', 'r']]), (['б', 'э', 'с'], [['j', 'u', 'n', 'e']]), (['к', 'л', 'н'], [['m', 'a', 'r', 'c', 'h']]), (['к', 'ү', 'н'], [['d', 'a', 'y']]), (['м', 'с', 'у'], [['a', 'p', 'r', 'i', 'l']]), (['о', 'т', 'и'], [['j', 'u', 'l', 'y']]), (['с', 'ы', 'л'], [['y', 'e', 'a', 'r']]), (['с', 'э', 'т'], [['n', 'o', 'v', 'e', 'm', 'b', 'e', 'r']]), (['ы', 'а', 'м'], [['m', 'a', 'y']]), (['a', 'm'], [['a', 'm']]), (['p', 'm'], [['p', 'm']]), (['б', 'н'], [['m', 'o', 'n', 'd', 'a', 'y']]), (['б', 'с'], [['s', 'u', 'n', 'd', 'a', 'y']]), (['б', 'э'], [['f', 'r', 'i', 'd', 'a', 'y']]), (['о', 'п'], [['t', 'u', 'e', 's', 'd', 'a', 'y']]), (['с', 'б'], [['s', 'a', 't', 'u', 'r', 'd', 'a', 'y']]), (['с', 'э'], [['w', 'e', 'd', 'n', 'e', 's', 'd', 'a', 'y']]), (['ч', 'п'], [['t', 'h', 'u', 'r', 's', 'd', 'a', 'y']]), (['ы', 'и'], [['m', 'o', 'n', 't', 'h']]), (['э', 'и'], [['a', 'm']]), (['э', 'к'], [['p', 'm']]), ([' '], [[' ']]), (['\''], [[]]), (['+'], [['+']]), ([','], [[]]), (['-'], [['-']]), (['.'], [['.']]), (['/'], [['/']]), ([':'], [[':']]), ([';'], [[]]), (['@'], [[]]), (['['], [[]]), ([']'], [[]]), (['z'], [['z']]), (['|'], [[]])]
  relativeType := [(['а', 'а', 'с', 'п', 'ы', 'т', ' ', 'н', 'э', 'д', 'и', 'э', 'л', 'э'], ['1', ' ', 'w', 'e', 'e', 'k', ' ', 'a', 'g', 'o']), (['к', 'э', 'л', 'э', 'р', ' ', 'н', 'э', 'д', 'и', 'э', 'л', 'э'], ['i', 'n', ' ', '1', ' ', 'w', 'e', 'e', 'k']), (['t', 'h', 'i', 's', ' ', 'm', 'i', 'n', 'u', 't', 'e'], ['0', ' ', 'm', 'i', 'n', 'u', 't', 'e', ' ', 'a', 'g', 'o']), (['а', 'н', 'ы', 'г', 'ы', 'с', 'к', 'ы', ' ', 'ы', 'и'], ['i', 'n', ' ', '1', ' ', 'm', 'o', 'n', 't', 'h']), (['б', 'у', ' ', 'н', 'э', 'д', 'и', 'э', 'л', 'э'], ['0', ' ', 'w', 'e', 'e', 'k', ' ', 'a', 'g', 'o']), (['t', 'h', 'i', 's', ' ', 'h', 'o', 'u', 'r'], ['0', ' ', 'h', 'o', 'u', 'r', ' ', 'a', 'g', 'o']), (['а', 'а', 'с', 'п', 'ы', 'т', ' ', 'ы', 'и'], ['1', ' ', 'm', 'o', 'n', 't', 'h', ' ', 'a', 'g', 'o']), (['б', 'ы', 'л', 'ы', 'р', 'ы', 'ы', 'н'], ['1', ' ', 'y', 'e', 'a', 'r', ' ', 'a', 'g', 'o']), (['б', 'и', 'л', 'и', 'г', 'и', 'н'], ['0', ' ', 's', 'e', 'c', 'o', 'n', 'd', ' ', 'a', 'g', 'o']), (['б', 'э', 'ҕ', 'э', 'һ', 'э', 'э'], ['1', ' ', 'd', 'a', 'y', ' ', 'a', 'g', 'o']), (['с', 'а', 'р', 'с', 'ы', 'н'], ['i', 'n', ' ', '1', ' ', 'd', 'a', 'y']), (['б', 'у', ' ', 'ы', 'и'], ['0', ' ', 'm', 'o', 'n', 't', 'h', ' ', 'a', 'g', 'o']), (['б', 'ы', 'и', 'ы', 'л'], ['0', ' ', 'y', 'e', 'a', 'r', ' ', 'a', 'g', 'o']), (['б', 'ү', 'г', 'ү', 'н'], ['0', ' ', 'd', 'a', 'y', ' ', 'a', 'g', 'o']), (['э', 'һ', 'и', 'и', 'л'], ['i', 'n', ' ', '1', ' ', 'y', 'e', 'a', 'r'])]

end Verif.Data
