import Verif.Model.Pattern
/-! GENERATED by tools/gen_dicts.py from /repo/internal/data; do not edit. -/
set_option autoImplicit false
set_option maxRecDepth 100000
namespace Verif.Data
open Verif.Model

/-- internal/data/ca.go: `ca_AD_Locale`, dictionary. -/
def ca_ADDict : LangData where
  name := ['c', 'a', '-', 'A', 'D']

/-- internal/data/ca.go: `ca_FR_Locale`, dictionary. -/
def ca_FRDict : LangData where
  name := ['c', 'a', '-', 'F', 'R']

/-- internal/data/ca.go: `ca_IT_Locale`, dictionary. -/
def ca_ITDict : LangData where
  name := ['c', 'a', '-', 'I', 'T']

/-- internal/data/ce.go: `ce_Locale`, dictionary. -/
def ceDict : LangData where
  name := ['c', 'e']
  translations := [(['п', 'ӏ', 'е', 'р', 'а', 'с', 'к', 'а', 'н', ' ', 'д', 'е'], [['f', 'r', 'i', 'd', 'a', 'y']]), (['к', 'ӏ', 'и', 'р', 'а', 'н', 'а', 'н', ' ', 'д', 'е'], [['s', 'u', 'n', 'd', 'a', 'y']]), (['к', 'х', 'а', 'а', 'р', 'и', 'н', ' ', 'д', 'е'], [['w', 'e', 'd', 'n', 'e', 's', 'd', 'a', 'y']]), (['о', 'р', 'ш', 'о', 'т', 'а', 'н', ' ', 'д', 'е'], [['m', 'o', 'n', 'd', 'a', 'y']]), (['ш', 'и', 'н', 'а', 'р', 'и', 'н', ' ', 'д', 'е'], [['t', 'u', 'e', 's', 'd', 'a', 'y']]), (['е', 'а', 'р', 'и', 'н', ' ', 'д', 'е'], [['t', 'h', 'u', 'r', 's', 'd', 'a', 'y']]), (['с', 'е', 'н', 'т', 'я', 'б', 'р', 'ь'], [['s', 'e', 'p', 't', 'e', 'm', 'b', 'e', 'r']]), (['д', 'е', 'к', 'а', 'б', 'р', 'ь'], [['d', 'e', 'c', 'e', 'm', 'b', 'e', 'r']]), (['о', 'к', 'т', 'я', 'б', 'р', 'ь'], [['o', 'c', 't', 'o', 'b', 'e', 'r']]), (['ф', 'е', 'в', 'р', 'а', 'л', 'ь'], [['f', 'e', 'b', 'r', 'u', 'a', 'r', 'y']]), (['а', 'в', 'г', 'у', 'с', 'т'], [['a', 'u', 'g', 'u', 's', 't']]), (['а', 'п', 'р', 'е', 'л', 'ь'], [['a', 'p', 'r', 'i', 'l']]), (['н', 'о', 'я', 'б', 'р', 'ь'], [['n', 'o', 'v', 'e', 'm', 'b', 'e', 'r']]), (['с', 'е', 'к', 'у', 'н', 'д'], [['s', 'e', 'c', 'o', 'n', 'd']]), (['ш', 'о', 'т', ' ', 'д', 'е'], [['s', 'a', 't', 'u', 'r', 'd', 'a', 'y']]), (['я', 'н', 'в', 'а', 'р', 'ь'], [['j', 'a', 'n', 'u', 'a', 'r', 'y']]), (['к', 'ӏ', 'и', 'р', 'а'], [['w', 'e', 'e', 'k']]), (['м', 'и', 'н', 'о', 'т'], [['m', 'i', 'n', 'u', 't', 'e']]), (['с', 'а', 'х', 'ь', 'т'], [['h', 'o', 'u', 'r']]), (['б', 'у', 'т', 'т'], [['m', 'o', 'n', 't', 'h']]), (['и', 'ю', 'л', 'ь'], [['j', 'u', 'l', 'y']]), (['и', 'ю', 'н', 'ь'], [['j', 'u', 'n', 'e']]), (['к', 'ӏ', 'и', 'р'], [['w', 'e', 'e', 'k']]), (['м', 'а', 'р', 'т'], [['m', 'a', 'r', 'c', 'h']]), (['с', 'а', 'х', 'ь'], [['h', 'o', 'u', 'r']]), (['g', 'm', 't'], [['g', 'm', 't']]), (['u', 't', 'c'], [['u', 't', 'c']]), (['а', 'в', 'г'], [['a', 'u', 'g', 'u', 's', 't']]), (['а', 'п', 'р'], [['a', 'p', 'r', 'i', 'l']]), (['б', 'у', 'т'], [['m', 'o', 'n', 't', 'h']]), (['д', 'е', 'к'], [['d', 'e', 'c', 'e', 'm', 'b', 'e', 'r']]), (['и', 'ю', 'л'], [['j', 'u', 'l', 'y']]), (['и', 'ю', 'н'], [['j', 'u', 'n', 'e']]), (['м', 'а', 'и'], [['m', 'a', 'y']]), (['м', 'а', 'р'], [['m', 'a', 'r', 'c', 'h']]), (['м', 'и', 'н'], [['m', 'i', 'n', 'u', 't', 'e']]), (['н', 'о', 'я'], [['n', 'o', 'v', 'e', 'm', 'b', 'e', 'r']]), (['о', 'к', 'т'], [['o', 'c', 't', 'o', 'b', 'e', 'r']]), (['с', 'е', 'к'], [['s', 'e', 'c', 'o', 'n', 'd']]), (['с', 'е', 'н'], [['s', 'e', 'p', 't', 'e', 'm', 'b', 'e', 'r']]), (['ф', 'е', 'в'], [['f', 'e', 'b', 'r', 'u', 'a', 'r', 'y']]), (['я', 'н', 'в'], [['j', 'a', 'n', 'u', 'a', 'r', 'y']]), (['a', 'm'], [['a', 'm']]), (['p', 'm'], [['p', 'm']]), (['д', 'е'], [['d', 'a', 'y']]), (['ш', 'о'], [['y', 'e', 'a', 'r']]), ([' '], [[' ']]), (['\''], [[]]), (['+'], [['+']]), ([','], [[]]), (['-'], [['-']]), (['.'], [['.']]), (['/'], [['/']]), ([':'], [[':']]), ([';'], [[]]), (['@'], [[]]), (['['], [[]]), ([']'], [[]]), (['z'], [['z']]), (['|'], [[]]), (['ш'], [['y', 'e', 'a', 'r']])]
  relativeType := [(['р', 'о', 'г', 'ӏ', 'е', 'р', 'ч', 'у', ' ', 'к', 'ӏ', 'и', 'р', 'н', 'а', 'х', 'ь'], ['i', 'n', ' ', '1', ' ', 'w', 'e', 'e', 'k']), (['д', 'а', 'х', 'а', 'н', 'ч', 'у', ' ', 'к', 'ӏ', 'и', 'р', 'н', 'а', 'х', 'ь'], ['1', ' ', 'w', 'e', 'e', 'k', ' ', 'a', 'g', 'o']), (['к', 'а', 'р', 'а', 'р', 'ч', 'у', ' ', 'к', 'ӏ', 'и', 'р', 'н', 'а', 'х', 'ь'], ['0', ' ', 'w', 'e', 'e', 'k', ' ', 'a', 'g', 'o']), (['р', 'о', 'г', 'ӏ', 'е', 'р', 'ч', 'у', ' ', 'б', 'а', 'т', 'т', 'а', 'х', 'ь'], ['i', 'n', ' ', '1', ' ', 'm', 'o', 'n', 't', 'h']), (['б', 'а', 'х', 'а', 'н', 'ч', 'у', ' ', 'б', 'а', 'т', 'т', 'а', 'х', 'ь'], ['1', ' ', 'm', 'o', 'n', 't', 'h', ' ', 'a', 'g', 'o']), (['к', 'а', 'р', 'а', 'р', 'ч', 'у', ' ', 'б', 'а', 'т', 'т', 'а', 'х', 'ь'], ['0', ' ', 'm', 'o', 'n', 't', 'h', ' ', 'a', 'g', 'o']), (['р', 'о', 'г', 'ӏ', 'е', 'р', 'ч', 'у', ' ', 'ш', 'а', 'р', 'а', 'х', 'ь'], ['i', 'n', ' ', '1', ' ', 'y', 'e', 'a', 'r']), (['д', 'а', 'х', 'а', 'н', 'ч', 'у', ' ', 'ш', 'а', 'р', 'а', 'х', 'ь'], ['1', ' ', 'y', 'e', 'a', 'r', ' ', 'a', 'g', 'o']), (['к', 'а', 'р', 'а', 'р', 'ч', 'у', ' ', 'ш', 'а', 'р', 'а', 'х', 'ь'], ['0', ' ', 'y', 'e', 'a', 'r', ' ', 'a', 'g', 'o']), (['t', 'h', 'i', 's', ' ', 'm', 'i', 'n', 'u', 't', 'e'], ['0', ' ', 'm', 'i', 'n', 'u', 't', 'e', ' ', 'a', 'g', 'o']), (['t', 'h', 'i', 's', ' ', 'h', 'o', 'u', 'r'], ['0', ' ', 'h', 'o', 'u', 'r', ' ', 'a', 'g', 'o']), (['с', 'е', 'л', 'х', 'а', 'н', 'а'], ['1', ' ', 'd', 'a', 'y', ' ', 'a', 'g', 'o']), (['т', 'а', 'х', 'а', 'н', 'а'], ['0', ' ', 'd', 'a', 'y', ' ', 'a', 'g', 'o']), (['к', 'х', 'а', 'н', 'а'], ['i', 'n', ' ', '1', ' ', 'd', 'a', 'y']), (['n', 'o', 'w'], ['0', ' ', 's', 'e', 'c', 'o', 'n', 'd', ' ', 'a', 'g', 'o'])]

/-- internal/data/cgg.go: `cgg_Locale`, dictionary. -/
def cggDict : LangData where
  name := ['c', 'g', 'g']
  translations := [(['o', 'k', 'w', 'a', 'i', 'k', 'u', 'm', 'i', ' ', 'n', 'a', ' ', 'i', 'b', 'i', 'r', 'i'], [['d', 'e', 'c', 'e', 'm', 'b', 'e', 'r']]), (['o', 'k', 'w', 'a', 'i', 'k', 'u', 'm', 'i', ' ', 'n', 'a', ' ', 'k', 'u', 'm', 'w', 'e'], [['n', 'o', 'v', 'e', 'm', 'b', 'e', 'r']]), (['o', 'b', 'u', 'c', 'w', 'e', 'k', 'a', '/', 'e', 's', 'e', 'k', 'e', 'n', 'd', 'i'], [['s', 'e', 'c', 'o', 'n', 'd']]), (['o', 'k', 'w', 'a', 'm', 'u', 's', 'h', 'a', 'n', 'j', 'u'], [['j', 'u', 'l', 'y']]), (['o', 'k', 'w', 'a', 'k', 'a', 's', 'h', 'a', 't', 'u'], [['m', 'a', 'r', 'c', 'h']]), (['o', 'k', 'w', 'a', 'k', 'a', 't', 'a', 'a', 'n', 'a'], [['m', 'a', 'y']]), (['o', 'k', 'w', 'a', 'm', 'u', 'k', 'a', 'a', 'g', 'a'], [['j', 'u', 'n', 'e']]), (['o', 'k', 'w', 'a', 'm', 'u', 'n', 'a', 'a', 'n', 'a'], [['a', 'u', 'g', 'u', 's', 't']]), (['o', 'k', 'w', 'o', 'k', 'u', 'b', 'a', 'n', 'z', 'a'], [['j', 'a', 'n', 'u', 'a', 'r', 'y']]), (['o', 'r', 'w', 'a', 'k', 'a', 's', 'h', 'a', 't', 'u'], [['w', 'e', 'd', 'n', 'e', 's', 'd', 'a', 'y']]), (['o', 'r', 'w', 'a', 'k', 'a', 't', 'a', 'a', 'n', 'o'], [['f', 'r', 'i', 'd', 'a', 'y']]), (['o', 'r', 'w', 'a', 'm', 'u', 'k', 'a', 'a', 'g', 'a'], [['s', 'a', 't', 'u', 'r', 'd', 'a', 'y']]), (['o', 'r', 'w', 'o', 'k', 'u', 'b', 'a', 'n', 'z', 'a'], [['m', 'o', 'n', 'd', 'a', 'y']]), (['o', 'k', 'w', 'a', 'k', 'a', 'b', 'i', 'r', 'i'], [['f', 'e', 'b', 'r', 'u', 'a', 'r', 'y']]), (['o', 'k', 'w', 'a', 'm', 'w', 'e', 'n', 'd', 'a'], [['s', 'e', 'p', 't', 'e', 'm', 'b', 'e', 'r']]), (['o', 'r', 'w', 'a', 'k', 'a', 'b', 'i', 'r', 'i'], [['t', 'u', 'e', 's', 'd', 'a', 'y']]), (['o', 'k', 'w', 'a', 'i', 'k', 'u', 'm', 'i'], [['o', 'c', 't', 'o', 'b', 'e', 'r']]), (['e', 'd', 'a', 'k', 'i', 'i', 'k', 'a'], [['m', 'i', 'n', 'u', 't', 'e']]), (['o', 'k', 'w', 'a', 'k', 'a', 'n', 'a'], [['a', 'p', 'r', 'i', 'l']]), (['o', 'r', 'w', 'a', 'k', 'a', 'n', 'a'], [['t', 'h', 'u', 'r', 's', 'd', 'a', 'y']]), (['e', 'i', 'z', 'o', 'o', 'b', 'a'], [['d', 'a', 'y']]), (['e', 's', 'a', 'n', 'd', 'e'], [['w', 'e', 'e', 'k']]), (['o', 'm', 'w', 'a', 'k', 'a'], [['y', 'e', 'a', 'r']]), (['o', 'm', 'w', 'e', 'z', 'i'], [['m', 'o', 'n', 't', 'h']]), (['s', 'h', 'a', 'a', 'h', 'a'], [['h', 'o', 'u', 'r']]), (['s', 'a', 'n', 'd', 'e'], [['s', 'u', 'n', 'd', 'a', 'y']]), (['g', 'm', 't'], [['g', 'm', 't']]), (['k', 'b', 'r'], [['f', 'e', 'b', 'r', 'u', 'a', 'r', 'y']]), (['k', 'b', 'z'], [['j', 'a', 'n', 'u', 'a', 'r', 'y']]), (['k', 'k', 'm'], [['o', 'c', 't', 'o', 'b', 'e', 'r']]), (['k', 'k', 'n'], [['a', 'p', 'r', 'i', 'l']]), (['k', 'm', 'k'], [['j', 'u', 'n', 'e']]), (['k', 'm', 'n'], [['a', 'u', 'g', 'u', 's', 't']]), (['k', 'm', 's'], [['j', 'u', 'l', 'y']]), (['k', 'm', 'w'], [['s', 'e', 'p', 't', 'e', 'm', 'b', 'e', 'r']]), (['k', 'n', 'b'], [['d', 'e', 'c', 'e', 'm', 'b', 'e', 'r']]), (['k', 'n', 'k'], [['n', 'o', 'v', 'e', 'm', 'b', 'e', 'r']]), (['k', 's', 't'], [['m', 'a', 'r', 'c', 'h']]), (['k', 't', 'n'], [['m', 'a', 'y']]), (['o', 'k', 'b'], [['t', 'u', 'e', 's', 'd', 'a', 'y']]), (['o', 'k', 'n'], [['t', 'h', 'u', 'r', 's', 'd', 'a', 'y']]), (['o', 'k', 's'], [['w', 'e', 'd', 'n', 'e', 's', 'd', 'a', 'y']]), (['o', 'k', 't'], [['f', 'r', 'i', 'd', 'a', 'y']]), (['o', 'm', 'k'], [['s', 'a', 't', 'u', 'r', 'd', 'a', 'y']]), (['o', 'r', 'k'], [['m', 'o', 'n', 'd', 'a', 'y']]), (['s', 'a', 'n'], [['s', 'u', 'n', 'd', 'a', 'y']]), (['u', 't', 'c'], [['u', 't', 'c']]), (['a', 'm'], [['a', 'm']]), (['p', 'm'], [['p', 'm']]), ([' '], [[' ']]), (['\''], [[]]), (['+'], [['+']]), ([','], [[]]), (['-'], [['-']]), (['.'], [['.']]), (['/'], [['/']]), ([':'], [[':']]), ([';'], [[]]), (['@'], [[]]), (['['], [[]]), ([']'], [[]]), (['z'], [['z']]), (['|'], [[]])]
  relativeType := [(['n', 'y', 'e', 'n', 'k', 'y', 'a', 'k', 'a', 'r', 'e'], ['i', 'n', ' ', '1', ' ', 'd', 'a', 'y']), (['n', 'y', 'o', 'm', 'w', 'a', 'b', 'a', 'z', 'y', 'o'], ['1', ' ', 'd', 'a', 'y', ' ', 'a', 'g', 'o']), (['t', 'h', 'i', 's', ' ', 'm', 'i', 'n', 'u', 't', 'e'], ['0', ' ', 'm', 'i', 'n', 'u', 't', 'e', ' ', 'a', 'g', 'o']), (['l', 'a', 's', 't', ' ', 'm', 'o', 'n', 't', 'h'], ['1', ' ', 'm', 'o', 'n', 't', 'h', ' ', 'a', 'g', 'o']), (['n', 'e', 'x', 't', ' ', 'm', 'o', 'n', 't', 'h'], ['i', 'n', ' ', '1', ' ', 'm', 'o', 'n', 't', 'h']), (['t', 'h', 'i', 's', ' ', 'm', 'o', 'n', 't', 'h'], ['0', ' ', 'm', 'o', 'n', 't', 'h', ' ', 'a', 'g', 'o']), (['l', 'a', 's', 't', ' ', 'w', 'e', 'e', 'k'], ['1', ' ', 'w', 'e', 'e', 'k', ' ', 'a', 'g', 'o']), (['l', 'a', 's', 't', ' ', 'y', 'e', 'a', 'r'], ['1', ' ', 'y', 'e', 'a', 'r', ' ', 'a', 'g', 'o']), (['n', 'e', 'x', 't', ' ', 'w', 'e', 'e', 'k'], ['i', 'n', ' ', '1', ' ', 'w', 'e', 'e', 'k']), (['n', 'e', 'x', 't', ' ', 'y', 'e', 'a', 'r'], ['i', 'n', ' ', '1', ' ', 'y', 'e', 'a', 'r']), (['t', 'h', 'i', 's', ' ', 'h', 'o', 'u', 'r'], ['0', ' ', 'h', 'o', 'u', 'r', ' ', 'a', 'g', 'o']), (['t', 'h', 'i', 's', ' ', 'w', 'e', 'e', 'k'], ['0', ' ', 'w', 'e', 'e', 'k', ' ', 'a', 'g', 'o']), (['t', 'h', 'i', 's', ' ', 'y', 'e', 'a', 'r'], ['0', ' ', 'y', 'e', 'a', 'r', ' ', 'a', 'g', 'o']), (['e', 'r', 'i', 'z', 'o', 'o', 'b', 'a'], ['0', ' ', 'd', 'a', 'y', ' ', 'a', 'g', 'o']), (['n', 'o', 'w'], ['0', ' ', 's', 'e', 'c', 'o', 'n', 'd', ' ', 'a', 'g', 'o'])]

/-- internal/data/chr.go: `chr_Locale`, dictionary. -/
def chrDict : LangData where
  name := ['c', 'h', 'r']
  translations := [(['ꭴ', 'ꮥ', 'ꮨ', 'ᏼ', 'ꮜ', 'ꮧ', 'ꮢ', 'ꭲ'], [['y', 'e', 'a', 'r']]), (['ꭲ', 'ꮿ', 'ꮤ', 'ꮼ', 'ꮝ', 'ꮤ', 'ꮕ'], [['m', 'i', 'n', 'u', 't', 'e']]), (['ꭴ', 'ꮎ', 'ꮩ', 'ꮣ', 'ꮖ', 'ꮝ', 'ꭼ'], [['s', 'u', 'n', 'd', 'a', 'y']]), (['ꭴ', 'ꮎ', 'ꮩ', 'ꮣ', 'ꮘ', 'ꮥ', 'ꮎ'], [['s', 'a', 't', 'u', 'r', 'd', 'a', 'y']]), (['ꭴ', 'ꮎ', 'ꮩ', 'ꮣ', 'ꮙ', 'ꮕ', 'ꭿ'], [['m', 'o', 'n', 'd', 'a', 'y']]), (['ꮢ', 'ꮎ', 'ꮩ', 'ꮣ', 'ꮖ', 'ꮝ', 'ꮧ'], [['w', 'e', 'e', 'k']]), (['ꮢ', 'ꭿ', 'ᏹ', 'ꭲ', 'ꮧ', 'ꮲ'], [['p', 'm']]), (['ꮷ', 'ꮎ', 'ꭹ', 'ꮆ', 'ꮝ', 'ꮧ'], [['f', 'r', 'i', 'd', 'a', 'y']]), (['ꭰ', 'ꮒ', 'ꮝ', 'ꭼ', 'ꮨ'], [['m', 'a', 'y']]), (['ꭴ', 'ꮓ', 'ꮈ', 'ꮤ', 'ꮕ'], [['j', 'a', 'n', 'u', 'a', 'r', 'y']]), (['ꮕ', 'ꭹ', 'ꮑ', 'ꭲ', 'ꭶ'], [['t', 'h', 'u', 'r', 's', 'd', 'a', 'y']]), (['ꮤ', 'ꮅ', 'ꮑ', 'ꭲ', 'ꭶ'], [['t', 'u', 'e', 's', 'd', 'a', 'y']]), (['ꮶ', 'ꭲ', 'ꮑ', 'ꭲ', 'ꭶ'], [['w', 'e', 'd', 'n', 'e', 's', 'd', 'a', 'y']]), (['ꭵ', 'ꮝ', 'ꭹ', 'ᏹ'], [['d', 'e', 'c', 'e', 'm', 'b', 'e', 'r']]), (['ꭻ', 'ᏸ', 'ꮙ', 'ꮒ'], [['j', 'u', 'l', 'y']]), (['ꮕ', 'ꮣ', 'ꮥ', 'ꮖ'], [['n', 'o', 'v', 'e', 'm', 'b', 'e', 'r']]), (['ꮡ', 'ꮯ', 'ꮆ', 'ꮣ'], [['h', 'o', 'u', 'r']]), (['ꮥ', 'ꭽ', 'ꮇ', 'ᏹ'], [['j', 'u', 'n', 'e']]), (['ꮪ', 'ꮅ', 'ꮝ', 'ꮧ'], [['s', 'e', 'p', 't', 'e', 'm', 'b', 'e', 'r']]), (['ꮪ', 'ꮒ', 'ꮕ', 'ꮧ'], [['o', 'c', 't', 'o', 'b', 'e', 'r']]), (['g', 'm', 't'], [['g', 'm', 't']]), (['u', 't', 'c'], [['u', 't', 'c']]), (['ꭰ', 'ꮕ', 'ᏹ'], [['m', 'a', 'r', 'c', 'h']]), (['ꭰ', 'ꮞ', 'ꮲ'], [['s', 'e', 'c', 'o', 'n', 'd']]), (['ꭲ', 'ꮿ', 'ꮤ'], [['m', 'i', 'n', 'u', 't', 'e']]), (['ꭶ', 'ꮆ', 'ꮒ'], [['a', 'u', 'g', 'u', 's', 't']]), (['ꭷ', 'ꭶ', 'ꮅ'], [['f', 'e', 'b', 'r', 'u', 'a', 'r', 'y']]), (['ꭷ', 'ꮈ', 'ꭲ'], [['m', 'o', 'n', 't', 'h']]), (['ꭷ', 'ꮼ', 'ꮒ'], [['a', 'p', 'r', 'i', 'l']]), (['ꮕ', 'ꭹ', 'ꮑ'], [['t', 'h', 'u', 'r', 's', 'd', 'a', 'y']]), (['ꮖ', 'ꮝ', 'ꭼ'], [['s', 'u', 'n', 'd', 'a', 'y']]), (['ꮘ', 'ꮥ', 'ꮎ'], [['s', 'a', 't', 'u', 'r', 'd', 'a', 'y']]), (['ꮙ', 'ꮕ', 'ꭿ'], [['m', 'o', 'n', 'd', 'a', 'y']]), (['ꮜ', 'ꮎ', 'ꮄ'], [['a', 'm']]), (['ꮤ', 'ꮅ', 'ꮑ'], [['t', 'u', 'e', 's', 'd', 'a', 'y']]), (['ꮶ', 'ꭲ', 'ꮑ'], [['w', 'e', 'd', 'n', 'e', 's', 'd', 'a', 'y']]), (['ꮷ', 'ꮎ', 'ꭹ'], [['f', 'r', 'i', 'd', 'a', 'y']]), (['a', 'm'], [['a', 'm']]), (['p', 'm'], [['p', 'm']]), (['ꭰ', 'ꮒ'], [['m', 'a', 'y']]), (['ꭰ', 'ꮕ'], [['m', 'a', 'r', 'c', 'h']]), (['ꭲ', 'ꭶ'], [['d', 'a', 'y']]), (['ꭴ', 'ꮓ'], [['j', 'a', 'n', 'u', 'a', 'r', 'y']]), (['ꭴ', 'ꮥ'], [['y', 'e', 'a', 'r']]), (['ꭵ', 'ꮝ'], [['d', 'e', 'c', 'e', 'm', 'b', 'e', 'r']]), (['ꭶ', 'ꮆ'], [['a', 'u', 'g', 'u', 's', 't']]), (['ꭷ', 'ꭶ'], [['f', 'e', 'b', 'r', 'u', 'a', 'r', 'y']]), (['ꭷ', 'ꮈ'], [['m', 'o', 'n', 't', 'h']]), (['ꭷ', 'ꮼ'], [['a', 'p', 'r', 'i', 'l']]), (['ꭻ', 'ᏸ'], [['j', 'u', 'l', 'y']]), (['ꮕ', 'ꮣ'], [['n', 'o', 'v', 'e', 'm', 'b', 'e', 'r']]), (['ꮡ', 'ꮯ'], [['h', 'o', 'u', 'r']]), (['ꮢ', 'ꮎ'], [['w', 'e', 'e', 'k']]), (['ꮥ', 'ꭽ'], [['j', 'u', 'n', 'e']]), (['ꮪ', 'ꮅ'], [['s', 'e', 'p', 't', 'e', 'm', 'b', 'e', 'r']]), (['ꮪ', 'ꮒ'], [['o', 'c', 't', 'o', 'b', 'e', 'r']]), ([' '], [[' ']]), (['\''], [[]]), (['+'], [['+']]), ([','], [[]]), (['-'], [['-']]), (['.'], [['.']]), (['/'], [['/']]), ([':'], [[':']]), ([';'], [[]]), (['@'], [[]]), (['['], [[]]), ([']'], [[]]), (['z'], [['z']]), (['|'], [[]])]
  relativeType := [(['ꭿ', 'ꭰ', ' ', 'ꭲ', 'ꮿ', 'ꮤ', 'ꮼ', 'ꮝ', 'ꮤ', 'ꮕ'], ['0', ' ', 'm', 'i', 'n', 'u', 't', 'e', ' ', 'a', 'g', 'o']), (['ꭿ', 'ꭰ', ' ', 'ꮷ', 'ꮥ', 'ꮨ', 'ᏼ', 'ꮢ', 'ꮨ'], ['0', ' ', 'y', 'e', 'a', 'r', ' ', 'a', 'g', 'o']), (['ꭷ', 'ꮈ', 'ꭲ', ' ', 'ꮵ', 'ꭸ', 'ꮢ'], ['1', ' ', 'm', 'o', 'n', 't', 'h', ' ', 'a', 'g', 'o']), (['ꭿ', 'ꭰ', ' ', 'ꭰ', 'ꮅ', 'ꮅ', 'ꮜ'], ['0', ' ', 'w', 'e', 'e', 'k', ' ', 'a', 'g', 'o']), (['ꭿ', 'ꭰ', ' ', 'ꮡ', 'ꮯ', 'ꮆ', 'ꮣ'], ['0', ' ', 'h', 'o', 'u', 'r', ' ', 'a', 'g', 'o']), (['ꮤ', 'ꮅ', 'ꮑ', ' ', 'ꭷ', 'ꮈ', 'ꭲ'], ['i', 'n', ' ', '1', ' ', 'm', 'o', 'n', 't', 'h']), (['ꮵ', 'ꮫ', 'ꮅ', 'ᏹ', 'ꮅ', 'ꮢ', 'ꭲ'], ['1', ' ', 'w', 'e', 'e', 'k', ' ', 'a', 'g', 'o']), (['ꭱ', 'ꮨ', ' ', 'ꮵ', 'ꭸ', 'ꮢ'], ['1', ' ', 'y', 'e', 'a', 'r', ' ', 'a', 'g', 'o']), (['ꭿ', 'ꭰ', ' ', 'ꭷ', 'ꮈ', 'ꭲ'], ['0', ' ', 'm', 'o', 'n', 't', 'h', ' ', 'a', 'g', 'o']), (['ꭺ', 'ꭿ', ' ', 'ꭲ', 'ꭶ'], ['0', ' ', 'd', 'a', 'y', ' ', 'a', 'g', 'o']), (['ꮠ', 'ꮖ', 'ꮄ', 'ꮕ', 'ꮂ'], ['i', 'n', ' ', '1', ' ', 'w', 'e', 'e', 'k']), (['ꭱ', 'ꮨ', 'ᏼ', 'ꭲ'], ['i', 'n', ' ', '1', ' ', 'y', 'e', 'a', 'r']), (['ꮜ', 'ꮎ', 'ꮄ', 'ꭲ'], ['i', 'n', ' ', '1', ' ', 'd', 'a', 'y']), (['ꮓ', 'ꮚ'], ['0', ' ', 's', 'e', 'c', 'o', 'n', 'd', ' ', 'a', 'g', 'o']), (['ꮢ', 'ꭿ'], ['1', ' ', 'd', 'a', 'y', ' ', 'a', 'g', 'o'])]

/-- internal/data/ckb.go: `ckb_Locale`, dictionary. -/
def ckbDict : LangData where
  name := ['c', 'k', 'b']
  translations := [(['ک', 'ا', 'ن', 'و', 'و', 'ن', 'ی', ' ', 'د', 'و', 'و', 'ە', 'م'], [['j', 'a', 'n', 'u', 'a', 'r', 'y']]), (['ت', 'ش', 'ر', 'ی', 'ن', 'ی', ' ', 'د', 'و', 'و', 'ە', 'م'], [['n', 'o', 'v', 'e', 'm', 'b', 'e', 'r']]), (['ت', 'ش', 'ر', 'ی', 'ن', 'ی', ' ', 'ی', 'ە', 'ک', 'ە', 'م'], [['o', 'c', 't', 'o', 'b', 'e', 'r']]), (['ک', 'ا', 'ن', 'و', 'ن', 'ی', ' ', 'ی', 'ە', 'ک', 'ە', 'م'], [['d', 'e', 'c', 'e', 'm', 'b', 'e', 'r']]), (['پ', 'ێ', 'ن', 'ج', 'ش', 'ە', 'م', 'م', 'ە'], [['t', 'h', 'u', 'r', 's', 'd', 'a', 'y']]), (['چ', 'و', 'ا', 'ر', 'ش', 'ە', 'م', 'م', 'ە'], [['w', 'e', 'd', 'n', 'e', 's', 'd', 'a', 'y']]), (['ح', 'و', 'ز', 'ە', 'ی', 'ر', 'ا', 'ن'], [['j', 'u', 'n', 'e']]), (['د', 'و', 'و', 'ش', 'ە', 'م', 'م', 'ە'], [['m', 'o', 'n', 'd', 'a', 'y']]), (['ی', 'ە', 'ک', 'ش', 'ە', 'م', 'م', 'ە'], [['s', 'u', 'n', 'd', 'a', 'y']]), (['س', 'ێ', 'ش', 'ە', 'م', 'م', 'ە'], [['t', 'u', 'e', 's', 'd', 'a', 'y']]), (['ي', 'ە', 'ی', 'ل', 'و', 'و', 'ل'], [['s', 'e', 'p', 't', 'e', 'm', 'b', 'e', 'r']]), (['m', 'i', 'n', 'u', 't', 'e'], [['m', 'i', 'n', 'u', 't', 'e']]), (['s', 'e', 'c', 'o', 'n', 'd'], [['s', 'e', 'c', 'o', 'n', 'd']]), (['ت', 'ە', 'م', 'و', 'و', 'ز'], [['j', 'u', 'l', 'y']]), (['m', 'o', 'n', 't', 'h'], [['m', 'o', 'n', 't', 'h']]), (['ش', 'و', 'ب', 'ا', 'ت'], [['f', 'e', 'b', 'r', 'u', 'a', 'r', 'y']]), (['ش', 'ە', 'م', 'م', 'ە'], [['s', 'a', 't', 'u', 'r', 'd', 'a', 'y']]), (['ن', 'ی', 'س', 'ا', 'ن'], [['a', 'p', 'r', 'i', 'l']]), (['ي', 'ا', 'ز', 'ا', 'ر'], [['m', 'a', 'r', 'c', 'h']]), (['ي', 'ا', 'ی', 'ا', 'ر'], [['m', 'a', 'y']]), (['ھ', 'ە', 'ی', 'ن', 'ی'], [['f', 'r', 'i', 'd', 'a', 'y']]), (['h', 'o', 'u', 'r'], [['h', 'o', 'u', 'r']]), (['w', 'e', 'e', 'k'], [['w', 'e', 'e', 'k']]), (['y', 'e', 'a', 'r'], [['y', 'e', 'a', 'r']]), (['d', 'a', 'y'], [['d', 'a', 'y']]), (['g', 'm', 't'], [['g', 'm', 't']]), (['u', 't', 'c'], [['u', 't', 'c']]), (['ي', 'ا', 'ب'], [['a', 'u', 'g', 'u', 's', 't']]), (['a', 'm'], [['a', 'm']]), (['p', 'm'], [['p', 'm']]), (['ب', 'ن'], [['a', 'm']]), (['د', 'ن'], [['p', 'm']]), ([' '], [[' ']]), (['\''], [[]]), (['+'], [['+']]), ([','], [[]]), (['-'], [['-']]), (['.'], [['.']]), (['/'], [['/']]), ([':'], [[':']]), ([';'], [[]]), (['@'], [[]]), (['['], [[]]), ([']'], [[]]), (['z'], [['z']]), (['|'], [[]])]
  relativeType := [(['t', 'h', 'i', 's', ' ', 'm', 'i', 'n', 'u', 't', 'e'], ['0', ' ', 'm', 'i', 'n', 'u', 't', 'e', ' ', 'a', 'g', 'o']), (['l', 'a', 's', 't', ' ', 'm', 'o', 'n', 't', 'h'], ['1', ' ', 'm', 'o', 'n', 't', 'h', ' ', 'a', 'g', 'o']), (['n', 'e', 'x', 't', ' ', 'm', 'o', 'n', 't', 'h'], ['i', 'n', ' ', '1', ' ', 'm', 'o', 'n', 't', 'h']), (['t', 'h', 'i', 's', ' ', 'm', 'o', 'n', 't', 'h'], ['0', ' ', 'm', 'o', 'n', 't', 'h', ' ', 'a', 'g', 'o']), (['l', 'a', 's', 't', ' ', 'w', 'e', 'e', 'k'], ['1', ' ', 'w', 'e', 'e', 'k', ' ', 'a', 'g', 'o']), (['l', 'a', 's', 't', ' ', 'y', 'e', 'a', 'r'], ['1', ' ', 'y', 'e', 'a', 'r', ' ', 'a', 'g', 'o']), (['n', 'e', 'x', 't', ' ', 'w', 'e', 'e', 'k'], ['i', 'n', ' ', '1', ' ', 'w', 'e', 'e', 'k']), (['n', 'e', 'x', 't', ' ', 'y', 'e', 'a', 'r'], ['i', 'n', ' ', '1', ' ', 'y', 'e', 'a', 'r']), (['t', 'h', 'i', 's', ' ', 'h', 'o', 'u', 'r'], ['0', ' ', 'h', 'o', 'u', 'r', ' ', 'a', 'g', 'o']), (['t', 'h', 'i', 's', ' ', 'w', 'e', 'e', 'k'], ['0', ' ', 'w', 'e', 'e', 'k', ' ', 'a', 'g', 'o']), (['t', 'h', 'i', 's', ' ', 'y', 'e', 'a', 'r'], ['0', ' ', 'y', 'e', 'a', 'r', ' ', 'a', 'g', 'o']), (['y', 'e', 's', 't', 'e', 'r', 'd', 'a', 'y'], ['1', ' ', 'd', 'a', 'y', ' ', 'a', 'g', 'o']), (['t', 'o', 'm', 'o', 'r', 'r', 'o', 'w'], ['i', 'n', ' ', '1', ' ', 'd', 'a', 'y']), (['t', 'o', 'd', 'a', 'y'], ['0', ' ', 'd', 'a', 'y', ' ', 'a', 'g', 'o']), (['n', 'o', 'w'], ['0', ' ', 's', 'e', 'c', 'o', 'n', 'd', ' ', 'a', 'g', 'o'])]

/-- internal/data/ckb.go: `ckb_IR_Locale`, dictionary. -/
def ckb_IRDict : LangData where
  name := ['c', 'k', 'b', '-', 'I', 'R']

/-- internal/data/cs.go: `cs_Locale`, dictionary. -/
def csDict : LangData where
  name := ['c', 's']
  splitterGroup := 1
  translations := [(['l', 'i', 's', 't', 'o', 'p', 'a', 'd', 'u'], [['n', 'o', 'v', 'e', 'm', 'b', 'e', 'r']]), (['p', 'r', 'i', 'b', 'l', 'i', 'z', 'n', 'e'], [[]]), (['c', 'e', 'r', 'v', 'e', 'n', 'c', 'e'], [['j', 'u', 'l', 'y']]), (['c', 'e', 'r', 'v', 'e', 'n', 'e', 'c'], [['j', 'u', 'l', 'y']]), (['h', 'o', 'd', 'i', 'n', 'a', 'm', 'i'], [['h', 'o', 'u', 'r']]), (['l', 'i', 's', 't', 'o', 'p', 'a', 'd'], [['n', 'o', 'v', 'e', 'm', 'b', 'e', 'r']]), (['m', 'i', 'n', 'u', 't', 'a', 'm', 'i'], [['m', 'i', 'n', 'u', 't', 'e']]), (['p', 'r', 'o', 's', 'i', 'n', 'c', 'e'], [['d', 'e', 'c', 'e', 'm', 'b', 'e', 'r']]), (['p', 'r', 'o', 's', 'i', 'n', 'e', 'c'], [['d', 'e', 'c', 'e', 'm', 'b', 'e', 'r']]), (['c', 't', 'v', 'r', 't', 'e', 'k'], [['t', 'h', 'u', 'r', 's', 'd', 'a', 'y']]), (['h', 'o', 'd', 'i', 'n', 'o', 'u'], [['h', 'o', 'u', 'r']]), (['m', 'e', 's', 'i', 'c', 'e', 'm'], [['m', 'o', 'n', 't', 'h']]), (['p', 'o', 'n', 'd', 'e', 'l', 'i'], [['m', 'o', 'n', 'd', 'a', 'y']]), (['s', 'e', 'k', 'u', 'n', 'd', 'a'], [['s', 'e', 'c', 'o', 'n', 'd']]), (['s', 'e', 'k', 'u', 'n', 'd', 'y'], [['s', 'e', 'c', 'o', 'n', 'd']]), (['v', 't', 'e', 'r', 'i', 'n', 'a'], [['s', 'e', 'c', 'o', 'n', 'd']]), (['v', 't', 'e', 'r', 'i', 'n', 'y'], [['s', 'e', 'c', 'o', 'n', 'd']]), (['b', 'r', 'e', 'z', 'e', 'n'], [['m', 'a', 'r', 'c', 'h']]), (['b', 'r', 'e', 'z', 'n', 'a'], [['m', 'a', 'r', 'c', 'h']]), (['c', 'e', 'r', 'v', 'e', 'n'], [['j', 'u', 'n', 'e']]), (['c', 'e', 'r', 'v', 'n', 'a'], [['j', 'u', 'n', 'e']]), (['h', 'o', 'd', 'i', 'n', 'a'], [['h', 'o', 'u', 'r']]), (['h', 'o', 'd', 'i', 'n', 'u'], [['h', 'o', 'u', 'r']]), (['h', 'o', 'd', 'i', 'n', 'y'], [['h', 'o', 'u', 'r']]), (['k', 'v', 'e', 't', 'e', 'n'], [['m', 'a', 'y']]), (['k', 'v', 'e', 't', 'n', 'a'], [['m', 'a', 'y']]), (['m', 'e', 's', 'i', 'c', 'e'], [['m', 'o', 'n', 't', 'h']]), (['m', 'e', 's', 'i', 'c', 'u'], [['m', 'o', 'n', 't', 'h']]), (['m', 'i', 'n', 'u', 't', 'a'], [['m', 'i', 'n', 'u', 't', 'e']]), (['m', 'i', 'n', 'u', 't', 'y'], [['m', 'i', 'n', 'u', 't', 'e']]), (['n', 'e', 'd', 'e', 'l', 'e'], [['s', 'u', 'n', 'd', 'a', 'y']]), (['n', 'e', 'd', 'e', 'l', 'i'], [['s', 'u', 'n', 'd', 'a', 'y']]), (['s', 'e', 'k', 'u', 'n', 'd'], [['s', 'e', 'c', 'o', 'n', 'd']]), (['s', 'o', 'b', 'o', 't', 'a'], [['s', 'a', 't', 'u', 'r', 'd', 'a', 'y']]), (['s', 'o', 'b', 'o', 't', 'u'], [['s', 'a', 't', 'u', 'r', 'd', 'a', 'y']]), (['s', 't', 'r', 'e', 'd', 'a'], [['w', 'e', 'd', 'n', 'e', 's', 'd', 'a', 'y']]), (['s', 't', 'r', 'e', 'd', 'u'], [['w', 'e', 'd', 'n', 'e', 's', 'd', 'a', 'y']]), (['t', 'y', 'd', 'n', 'e', 'm'], [['w', 'e', 'e', 'k']]), (['v', 't', 'e', 'r', 'i', 'n'], [['s', 'e', 'c', 'o', 'n', 'd']]), (['d', 'u', 'b', 'e', 'n'], [['a', 'p', 'r', 'i', 'l']]), (['d', 'u', 'b', 'n', 'a'], [['a', 'p', 'r', 'i', 'l']]), (['h', 'o', 'd', 'i', 'n'], [['h', 'o', 'u', 'r']]), (['l', 'e', 'd', 'e', 'n'], [['j', 'a', 'n', 'u', 'a', 'r', 'y']]), (['l', 'e', 'd', 'n', 'a'], [['j', 'a', 'n', 'u', 'a', 'r', 'y']]), (['m', 'e', 's', 'i', 'c'], [['m', 'o', 'n', 't', 'h']]), (['m', 'i', 'n', 'u', 't'], [['m', 'i', 'n', 'u', 't', 'e']]), (['p', 'a', 't', 'e', 'k'], [['f', 'r', 'i', 'd', 'a', 'y']]), (['r', 'i', 'j', 'e', 'n'], [['o', 'c', 't', 'o', 'b', 'e', 'r']]), (['r', 'i', 'j', 'n', 'a'], [['o', 'c', 't', 'o', 'b', 'e', 'r']]), (['s', 'r', 'p', 'e', 'n'], [['a', 'u', 'g', 'u', 's', 't']]), (['s', 'r', 'p', 'n', 'a'], [['a', 'u', 'g', 'u', 's', 't']]), (['t', 'y', 'd', 'e', 'n'], [['w', 'e', 'e', 'k']]), (['t', 'y', 'd', 'n', 'u'], [['w', 'e', 'e', 'k']]), (['t', 'y', 'd', 'n', 'y'], [['w', 'e', 'e', 'k']]), (['u', 'n', 'o', 'r', 'a'], [['f', 'e', 'b', 'r', 'u', 'a', 'r', 'y']]), (['u', 't', 'e', 'r', 'y'], [['t', 'u', 'e', 's', 'd', 'a', 'y']]), (['p', 'r', 'e', 'd'], [['a', 'g', 'o']]), (['r', 'o', 'k', 'u'], [['y', 'e', 'a', 'r']]), (['r', 'o', 'k', 'y'], [['y', 'e', 'a', 'r']]), (['u', 'n', 'o', 'r'], [['f', 'e', 'b', 'r', 'u', 'a', 'r', 'y']]), (['z', 'a', 'r', 'i'], [['s', 'e', 'p', 't', 'e', 'm', 'b', 'e', 'r']]), (['b', 'r', 'e'], [['m', 'a', 'r', 'c', 'h']]), (['c', 'e', 'r'], [['j', 'u', 'n', 'e']]), (['c', 'r', 'c'], [['j', 'u', 'l', 'y']]), (['c', 'r', 'v'], [['j', 'u', 'l', 'y']]), (['c', 't', 'v'], [['t', 'h', 'u', 'r', 's', 'd', 'a', 'y']]), (['c', 'v', 'c'], [['j', 'u', 'l', 'y']]), (['c', 'v', 'n'], [['j', 'u', 'n', 'e']]), (['d', 'e', 'n'], [['d', 'a', 'y']]), (['d', 'n', 'u'], [['d', 'a', 'y']]), (['d', 'n', 'y'], [['d', 'a', 'y']]), (['d', 'o', 'p'], [['a', 'm']]), (['d', 'u', 'b'], [['a', 'p', 'r', 'i', 'l']]), (['g', 'm', 't'], [['g', 'm', 't']]), (['k', 'v', 'e'], [['m', 'a', 'y']]), (['l', 'e', 'd'], [['j', 'a', 'n', 'u', 'a', 'r', 'y']]), (['l', 'i', 's'], [['n', 'o', 'v', 'e', 'm', 'b', 'e', 'r']]), (['m', 'e', 's'], [['m', 'o', 'n', 't', 'h']]), (['m', 'i', 'n'], [['m', 'i', 'n', 'u', 't', 'e']]), (['n', 'e', 'd'], [['s', 'u', 'n', 'd', 'a', 'y']]), (['o', 'd', 'p'], [['p', 'm']]), (['p', 'a', 't'], [['f', 'r', 'i', 'd', 'a', 'y']]), (['p', 'o', 'n'], [['m', 'o', 'n', 'd', 'a', 'y']]), (['p', 'r', 'o'], [['d', 'e', 'c', 'e', 'm', 'b', 'e', 'r']]), (['r', 'i', 'j'], [['o', 'c', 't', 'o', 'b', 'e', 'r']]), (['r', 'o', 'k'], [['y', 'e', 'a', 'r']]), (['s', 'o', 'b'], [['s', 'a', 't', 'u', 'r', 'd', 'a', 'y']]), (['s', 'r', 'p'], [['a', 'u', 'g', 'u', 's', 't']]), (['s', 't', 'r'], [['w', 'e', 'd', 'n', 'e', 's', 'd', 'a', 'y']]), (['t', 'y', 'd'], [['w', 'e', 'e', 'k']]), (['u', 'n', 'o'], [['f', 'e', 'b', 'r', 'u', 'a', 'r', 'y']]), (['u', 'n', 'r'], [['f', 'e', 'b', 'r', 'u', 'a', 'r', 'y']]), (['u', 't', 'c'], [['u', 't', 'c']]), (['u', 't', 'e'], [['t', 'u', 'e', 's', 'd', 'a', 'y']]), (['z', 'a', 'r'], [['s', 'e', 'p', 't', 'e', 'm', 'b', 'e', 'r']]), (['a', 'm'], [['a', 'm']]), (['c', 't'], [['t', 'h', 'u', 'r', 's', 'd', 'a', 'y']]), (['n', 'e'], [['s', 'u', 'n', 'd', 'a', 'y']]), (['p', 'a'], [['f', 'r', 'i', 'd', 'a', 'y']]), (['p', 'm'], [['p', 'm']]), (['p', 'o'], [['m', 'o', 'n', 'd', 'a', 'y']]), (['s', 'o'], [['s', 'a', 't', 'u', 'r', 'd', 'a', 'y']]), (['s', 't'], [['w', 'e', 'd', 'n', 'e', 's', 'd', 'a', 'y']]), (['u', 't'], [['t', 'u', 'e', 's', 'd', 'a', 'y']]), (['v', 'e'], [['i', 'n']]), ([' '], [[' ']]), (['\''], [[]]), (['+'], [['+']]), ([','], [[]]), (['-'], [['-']]), (['.'], [['.']]), (['/'], [['/']]), ([':'], [[':']]), ([';'], [[]]), (['@'], [[]]), (['['], [[]]), ([']'], [[]]), (['h'], [['h', 'o', 'u', 'r']]), (['r'], [['y', 'e', 'a', 'r']]), (['s'], [['s', 'e', 'c', 'o', 'n', 'd']]), (['v'], [['i', 'n']]), (['z'], [['z']]), (['|'], [[]])]
  relativeType := [(['m', 'i', 'n', 'u', 'l', 'y', ' ', 'm', 'e', 's', 'i', 'c'], ['1', ' ', 'm', 'o', 'n', 't', 'h', ' ', 'a', 'g', 'o']), (['m', 'i', 'n', 'u', 'l', 'y', ' ', 't', 'y', 'd', 'e', 'n'], ['1', ' ', 'w', 'e', 'e', 'k', ' ', 'a', 'g', 'o']), (['p', 'r', 'i', 's', 't', 'i', ' ', 'm', 'e', 's', 'i', 'c'], ['i', 'n', ' ', '1', ' ', 'm', 'o', 'n', 't', 'h']), (['p', 'r', 'i', 's', 't', 'i', ' ', 't', 'y', 'd', 'e', 'n'], ['i', 'n', ' ', '1', ' ', 'w', 'e', 'e', 'k']), (['p', 'r', 'e', 'd', 'e', 'v', 'c', 'i', 'r', 'e', 'm'], ['2', ' ', 'd', 'a', 'y', ' ', 'a', 'g', 'o']), (['t', 'e', 'n', 't', 'o', ' ', 'm', 'e', 's', 'i', 'c'], ['0', ' ', 'm', 'o', 'n', 't', 'h', ' ', 'a', 'g', 'o']), (['t', 'e', 'n', 't', 'o', ' ', 't', 'y', 'd', 'e', 'n'], ['0', ' ', 'w', 'e', 'e', 'k', ' ', 'a', 'g', 'o']), (['t', 'u', 't', 'o', ' ', 'h', 'o', 'd', 'i', 'n', 'u'], ['0', ' ', 'h', 'o', 'u', 'r', ' ', 'a', 'g', 'o']), (['t', 'u', 't', 'o', ' ', 'm', 'i', 'n', 'u', 't', 'u'], ['0', ' ', 'm', 'i', 'n', 'u', 't', 'e', ' ', 'a', 'g', 'o']), (['m', 'i', 'n', 'u', 'l', 'y', ' ', 'r', 'o', 'k'], ['1', ' ', 'y', 'e', 'a', 'r', ' ', 'a', 'g', 'o']), (['m', 'i', 'n', 'u', 'l', 'y', ' ', 't', 'y', 'd'], ['1', ' ', 'w', 'e', 'e', 'k', ' ', 'a', 'g', 'o']), (['p', 'r', 'i', 's', 't', 'i', ' ', 'r', 'o', 'k'], ['i', 'n', ' ', '1', ' ', 'y', 'e', 'a', 'r']), (['p', 'r', 'i', 's', 't', 'i', ' ', 't', 'y', 'd'], ['i', 'n', ' ', '1', ' ', 'w', 'e', 'e', 'k']), (['t', 'e', 'n', 't', 'o', ' ', 'r', 'o', 'k'], ['0', ' ', 'y', 'e', 'a', 'r', ' ', 'a', 'g', 'o']), (['t', 'e', 'n', 't', 'o', ' ', 't', 'y', 'd'], ['0', ' ', 'w', 'e', 'e', 'k', ' ', 'a', 'g', 'o']), (['v', 'c', 'e', 'r', 'a'], ['1', ' ', 'd', 'a', 'y', ' ', 'a', 'g', 'o']), (['z', 'i', 't', 'r', 'a'], ['i', 'n', ' ', '1', ' ', 'd', 'a', 'y']), (['d', 'n', 'e', 's'], ['0', ' ', 'd', 'a', 'y', ' ', 'a', 'g', 'o']), (['n', 'y', 'n', 'i'], ['0', ' ', 's', 'e', 'c', 'o', 'n', 'd', ' ', 'a', 'g', 'o'])]

/-- internal/data/cy.go: `cy_Locale`, dictionary. -/
def cyDict : LangData where
  name := ['c', 'y']
  translations := [(['d', 'y', 'd', 'd', ' ', 'm', 'e', 'r', 'c', 'h', 'e', 'r'], [['w', 'e', 'd', 'n', 'e', 's', 'd', 'a', 'y']]), (['d', 'y', 'd', 'd', ' ', 'g', 'w', 'e', 'n', 'e', 'r'], [['f', 'r', 'i', 'd', 'a', 'y']]), (['d', 'y', 'd', 'd', ' ', 'm', 'a', 'w', 'r', 't', 'h'], [['t', 'u', 'e', 's', 'd', 'a', 'y']]), (['d', 'y', 'd', 'd', ' ', 's', 'a', 'd', 'w', 'r', 'n'], [['s', 'a', 't', 'u', 'r', 'd', 'a', 'y']]), (['g', 'o', 'r', 'f', 'f', 'e', 'n', 'n', 'a', 'f'], [['j', 'u', 'l', 'y']]), (['d', 'y', 'd', 'd', ' ', 'l', 'l', 'u', 'n'], [['m', 'o', 'n', 'd', 'a', 'y']]), (['b', 'l', 'w', 'y', 'd', 'd', 'y', 'n'], [['y', 'e', 'a', 'r']]), (['c', 'h', 'w', 'e', 'f', 'r', 'o', 'r'], [['f', 'e', 'b', 'r', 'u', 'a', 'r', 'y']]), (['d', 'y', 'd', 'd', ' ', 'i', 'a', 'u'], [['t', 'h', 'u', 'r', 's', 'd', 'a', 'y']]), (['d', 'y', 'd', 'd', ' ', 's', 'u', 'l'], [['s', 'u', 'n', 'd', 'a', 'y']]), (['t', 'a', 'c', 'h', 'w', 'e', 'd', 'd'], [['n', 'o', 'v', 'e', 'm', 'b', 'e', 'r']]), (['m', 'e', 'h', 'e', 'f', 'i', 'n'], [['j', 'u', 'n', 'e']]), (['r', 'h', 'a', 'g', 'f', 'y', 'r'], [['d', 'e', 'c', 'e', 'm', 'b', 'e', 'r']]), (['w', 'y', 't', 'h', 'n', 'o', 's'], [['w', 'e', 'e', 'k']]), (['e', 'b', 'r', 'i', 'l', 'l'], [['a', 'p', 'r', 'i', 'l']]), (['e', 'i', 'l', 'i', 'a', 'd'], [['s', 'e', 'c', 'o', 'n', 'd']]), (['h', 'y', 'd', 'r', 'e', 'f'], [['o', 'c', 't', 'o', 'b', 'e', 'r']]), (['i', 'o', 'n', 'a', 'w', 'r'], [['j', 'a', 'n', 'u', 'a', 'r', 'y']]), (['m', 'a', 'w', 'r', 't', 'h'], [['m', 'a', 'r', 'c', 'h']]), (['c', 'h', 'w', 'e', 'f'], [['f', 'e', 'b', 'r', 'u', 'a', 'r', 'y']]), (['g', 'o', 'r', 'f', 'f'], [['j', 'u', 'l', 'y']]), (['m', 'u', 'n', 'u', 'd'], [['m', 'i', 'n', 'u', 't', 'e']]), (['a', 'w', 's', 't'], [['a', 'u', 'g', 'u', 's', 't']]), (['d', 'y', 'd', 'd'], [['d', 'a', 'y']]), (['g', 'w', 'e', 'n'], [['f', 'r', 'i', 'd', 'a', 'y']]), (['l', 'l', 'u', 'n'], [['m', 'o', 'n', 'd', 'a', 'y']]), (['m', 'e', 'd', 'i'], [['s', 'e', 'p', 't', 'e', 'm', 'b', 'e', 'r']]), (['r', 'h', 'a', 'g'], [['d', 'e', 'c', 'e', 'm', 'b', 'e', 'r']]), (['t', 'a', 'c', 'h'], [['n', 'o', 'v', 'e', 'm', 'b', 'e', 'r']]), (['a', 'w', 'r'], [['h', 'o', 'u', 'r']]), (['c', 'h', 'w'], [['f', 'e', 'b', 'r', 'u', 'a', 'r', 'y']]), (['e', 'b', 'r'], [['a', 'p', 'r', 'i', 'l']]), (['g', 'm', 't'], [['g', 'm', 't']]), (['g', 'o', 'r'], [['j', 'u', 'l', 'y']]), (['g', 'w', 'e'], [['f', 'r', 'i', 'd', 'a', 'y']]), (['h', 'y', 'd'], [['o', 'c', 't', 'o', 'b', 'e', 'r']]), (['i', 'a', 'u'], [['t', 'h', 'u', 'r', 's', 'd', 'a', 'y']]), (['i', 'o', 'n'], [['j', 'a', 'n', 'u', 'a', 'r', 'y']]), (['m', 'a', 'i'], [['m', 'a', 'y']]), (['m', 'a', 'w'], [['m', 'a', 'r', 'c', 'h'], ['t', 'u', 'e', 's', 'd', 'a', 'y']]), (['m', 'e', 'h'], [['j', 'u', 'n', 'e']]), (['m', 'e', 'r'], [['w', 'e', 'd', 'n', 'e', 's', 'd', 'a', 'y']]), (['m', 'i', 's'], [['m', 'o', 'n', 't', 'h']]), (['m', 'u', 'n'], [['m', 'i', 'n', 'u', 't', 'e']]), (['s', 'a', 'd'], [['s', 'a', 't', 'u', 'r', 'd', 'a', 'y']]), (['s', 'u', 'l'], [['s', 'u', 'n', 'd', 'a', 'y']]), (['u', 't', 'c'], [['u', 't', 'c']]), (['a', 'm'], [['a', 'm']]), (['b', 'l'], [['y', 'e', 'a', 'r']]), (['p', 'm'], [['p', 'm']]), (['y', 'b'], [['a', 'm']]), (['y', 'h'], [['p', 'm']]), ([' '], [[' ']]), (['\''], [[]]), (['+'], [['+']]), ([','], [[]]), (['-'], [['-']]), (['.'], [['.']]), (['/'], [['/']]), ([':'], [[':']]), ([';'], [[]]), (['@'], [[]]), (['['], [[]]), ([']'], [[]]), (['z'], [['z']]), (['|'], [[]])]
  relativeType := [(['w', 'y', 't', 'h', 'n', 'o', 's', ' ', 'd', 'd', 'i', 'w', 'e', 't', 'h', 'a', 'f'], ['1', ' ', 'w', 'e', 'e', 'k', ' ', 'a', 'g', 'o']), (['b', 'l', 'w', 'y', 'd', 'd', 'y', 'n', ' ', 'n', 'e', 's', 'a', 'f'], ['i', 'n', ' ', '1', ' ', 'y', 'e', 'a', 'r']), (['y', 'r', ' ', 'w', 'y', 't', 'h', 'n', 'o', 's', ' ', 'h', 'o', 'n'], ['0', ' ', 'w', 'e', 'e', 'k', ' ', 'a', 'g', 'o']), (['w', 'y', 't', 'h', 'n', 'o', 's', ' ', 'n', 'e', 's', 'a', 'f'], ['i', 'n', ' ', '1', ' ', 'w', 'e', 'e', 'k']), (['m', 'i', 's', ' ', 'd', 'i', 'w', 'e', 't', 'h', 'a', 'f'], ['1', ' ', 'm', 'o', 'n', 't', 'h', ' ', 'a', 'g', 'o']), (['y', ' ', 'f', 'u', 'n', 'u', 'd', ' ', 'h', 'o', 'n'], ['0', ' ', 'm', 'i', 'n', 'u', 't', 'e', ' ', 'a', 'g', 'o']), (['y', 'r', ' ', 'a', 'w', 'r', ' ', 'h', 'o', 'n'], ['0', ' ', 'h', 'o', 'u', 'r', ' ', 'a', 'g', 'o']), (['m', 'i', 's', ' ', 'n', 'e', 's', 'a', 'f'], ['i', 'n', ' ', '1', ' ', 'm', 'o', 'n', 't', 'h']), (['y', ' ', 'm', 'i', 's', ' ', 'h', 'w', 'n'], ['0', ' ', 'm', 'o', 'n', 't', 'h', ' ', 'a', 'g', 'o']), (['l', 'l', 'y', 'n', 'e', 'd', 'd'], ['1', ' ', 'y', 'e', 'a', 'r', ' ', 'a', 'g', 'o']), (['h', 'e', 'd', 'd', 'i', 'w'], ['0', ' ', 'd', 'a', 'y', ' ', 'a', 'g', 'o']), (['e', 'l', 'e', 'n', 'i'], ['0', ' ', 'y', 'e', 'a', 'r', ' ', 'a', 'g', 'o']), (['y', 'f', 'o', 'r', 'y'], ['i', 'n', ' ', '1', ' ', 'd', 'a', 'y']), (['d', 'd', 'o', 'e'], ['1', ' ', 'd', 'a', 'y', ' ', 'a', 'g', 'o']), (['n', 'a', 'w', 'r'], ['0', ' ', 's', 'e', 'c', 'o', 'n', 'd', ' ', 'a', 'g', 'o'])]

/-- internal/data/da.go: `da_Locale`, dictionary. -/
def daDict : LangData where
  name := ['d', 'a']
  splitterGroup := 1
  translations := [(['s', 'e', 'p', 't', 'e', 'm', 'b', 'e', 'r'], [['s', 'e', 'p', 't', 'e', 'm', 'b', 'e', 'r']]), (['d', 'e', 'c', 'e', 'm', 'b', 'e', 'r'], [['d', 'e', 'c', 'e', 'm', 'b', 'e', 'r']]), (['m', 'i', 'n', 'u', 't', 't', 'e', 'r'], [['m', 'i', 'n', 'u', 't', 'e']]), (['n', 'o', 'v', 'e', 'm', 'b', 'e', 'r'], [['n', 'o', 'v', 'e', 'm', 'b', 'e', 'r']]), (['s', 'e', 'k', 'u', 'n', 'd', 'e', 'r'], [['s', 'e', 'c', 'o', 'n', 'd']]), (['f', 'e', 'b', 'r', 'u', 'a', 'r'], [['f', 'e', 'b', 'r', 'u', 'a', 'r', 'y']]), (['m', 'a', 'n', 'e', 'd', 'e', 'r'], [['m', 'o', 'n', 't', 'h']]), (['o', 'k', 't', 'o', 'b', 'e', 'r'], [['o', 'c', 't', 'o', 'b', 'e', 'r']]), (['t', 'i', 'r', 's', 'd', 'a', 'g'], [['t', 'u', 'e', 's', 'd', 'a', 'y']]), (['t', 'o', 'r', 's', 'd', 'a', 'g'], [['t', 'h', 'u', 'r', 's', 'd', 'a', 'y']]), (['a', 'u', 'g', 'u', 's', 't'], [['a', 'u', 'g', 'u', 's', 't']]), (['f', 'r', 'e', 'd', 'a', 'g'], [['f', 'r', 'i', 'd', 'a', 'y']]), (['j', 'a', 'n', 'u', 'a', 'r'], [['j', 'a', 'n', 'u', 'a', 'r', 'y']]), (['l', 'ø', 'r', 'd', 'a', 'g'], [['s', 'a', 't', 'u', 'r', 'd', 'a', 'y']]), (['m', 'a', 'n', 'd', 'a', 'g'], [['m', 'o', 'n', 'd', 'a', 'y']]), (['o', 'n', 's', 'd', 'a', 'g'], [['w', 'e', 'd', 'n', 'e', 's', 'd', 'a', 'y']]), (['s', 'e', 'k', 'u', 'n', 'd'], [['s', 'e', 'c', 'o', 'n', 'd']]), (['s', 'ø', 'n', 'd', 'a', 'g'], [['s', 'u', 'n', 'd', 'a', 'y']]), (['a', 'p', 'r', 'i', 'l'], [['a', 'p', 'r', 'i', 'l']]), (['c', 'i', 'r', 'k', 'a'], [[]]), (['m', 'a', 'n', 'e', 'd'], [['m', 'o', 'n', 't', 'h']]), (['m', 'a', 'r', 't', 's'], [['m', 'a', 'r', 'c', 'h']]), (['m', 'i', 'n', 'u', 't'], [['m', 'i', 'n', 'u', 't', 'e']]), (['s', 'i', 'd', 'e', 'n'], [['a', 'g', 'o']]), (['t', 'i', 'm', 'e', 'r'], [['h', 'o', 'u', 'r']]), (['d', 'a', 'g', 'e'], [['d', 'a', 'y']]), (['j', 'u', 'l', 'i'], [['j', 'u', 'l', 'y']]), (['j', 'u', 'n', 'i'], [['j', 'u', 'n', 'e']]), (['t', 'i', 'm', 'e'], [['h', 'o', 'u', 'r']]), (['u', 'g', 'e', 'r'], [['w', 'e', 'e', 'k']]), (['a', 'p', 'r'], [['a', 'p', 'r', 'i', 'l']]), (['a', 'u', 'g'], [['a', 'u', 'g', 'u', 's', 't']]), (['d', 'a', 'g'], [['d', 'a', 'y']]), (['d', 'e', 'c'], [['d', 'e', 'c', 'e', 'm', 'b', 'e', 'r']]), (['f', 'e', 'b'], [['f', 'e', 'b', 'r', 'u', 'a', 'r', 'y']]), (['f', 'r', 'e'], [['f', 'r', 'i', 'd', 'a', 'y']]), (['g', 'm', 't'], [['g', 'm', 't']]), (['j', 'a', 'n'], [['j', 'a', 'n', 'u', 'a', 'r', 'y']]), (['j', 'u', 'l'], [['j', 'u', 'l', 'y']]), (['j', 'u', 'n'], [['j', 'u', 'n', 'e']]), (['k', 'l', '.'], [[]]), (['l', 'ø', 'r'], [['s', 'a', 't', 'u', 'r', 'd', 'a', 'y']]), (['m', 'a', 'j'], [['m', 'a', 'y']]), (['m', 'a', 'n'], [['m', 'o', 'n', 'd', 'a', 'y']]), (['m', 'a', 'r'], [['m', 'a', 'r', 'c', 'h']]), (['m', 'i', 'n'], [['m', 'i', 'n', 'u', 't', 'e']]), (['n', 'o', 'v'], [['n', 'o', 'v', 'e', 'm', 'b', 'e', 'r']]), (['o', 'k', 't'], [['o', 'c', 't', 'o', 'b', 'e', 'r']]), (['o', 'n', 's'], [['w', 'e', 'd', 'n', 'e', 's', 'd', 'a', 'y']]), (['s', 'e', 'k'], [['s', 'e', 'c', 'o', 'n', 'd']]), (['s', 'e', 'p'], [['s', 'e', 'p', 't', 'e', 'm', 'b', 'e', 'r']]), (['s', 'ø', 'n'], [['s', 'u', 'n', 'd', 'a', 'y']]), (['t', 'i', 'r'], [['t', 'u', 'e', 's', 'd', 'a', 'y']]), (['t', 'o', 'r'], [['t', 'h', 'u', 'r', 's', 'd', 'a', 'y']]), (['u', 'g', 'e'], [['w', 'e', 'e', 'k']]), (['u', 't', 'c'], [['u', 't', 'c']]), (['a', 'm'], [['a', 'm']]), (['a', 'r'], [['y', 'e', 'a', 'r']]), (['d', '.'], [[]]), (['k', 'l'], [[]]), (['m', 'd'], [['m', 'o', 'n', 't', 'h']]), (['p', 'm'], [['p', 'm']]), ([' '], [[' ']]), (['\''], [[]]), (['+'], [['+']]), ([','], [[]]), (['-'], [['-']]), (['.'], [['.']]), (['/'], [['/']]), ([':'], [[':']]), ([';'], [[]]), (['@'], [[]]), (['['], [[]]), ([']'], [[]]), (['i'], [['i', 'n']]), (['s'], [['s', 'e', 'c', 'o', 'n', 'd']]), (['t'], [['h', 'o', 'u', 'r']]), (['z'], [['z']]), (['|'], [[]])]
  relativeType := [(['i', ' ', 'd', 'e', 't', ' ', 'k', 'o', 'm', 'm', 'e', 'n', 'd', 'e', ' ', 'm', 'i', 'n', 'u', 't'], ['0', ' ', 'm', 'i', 'n', 'u', 't', 'e', ' ', 'a', 'g', 'o']), (['i', ' ', 'd', 'e', 'n', ' ', 'k', 'o', 'm', 'm', 'e', 'n', 'd', 'e', ' ', 't', 'i', 'm', 'e'], ['0', ' ', 'h', 'o', 'u', 'r', ' ', 'a', 'g', 'o']), (['s', 'i', 'd', 's', 't', 'e', ' ', 'm', 'a', 'n', 'e', 'd'], ['1', ' ', 'm', 'o', 'n', 't', 'h', ' ', 'a', 'g', 'o']), (['d', 'e', 'n', 'n', 'e', ' ', 'm', 'a', 'n', 'e', 'd'], ['0', ' ', 'm', 'o', 'n', 't', 'h', ' ', 'a', 'g', 'o']), (['n', 'æ', 's', 't', 'e', ' ', 'm', 'a', 'n', 'e', 'd'], ['i', 'n', ' ', '1', ' ', 'm', 'o', 'n', 't', 'h']), (['s', 'i', 'd', 's', 't', 'e', ' ', 'u', 'g', 'e'], ['1', ' ', 'w', 'e', 'e', 'k', ' ', 'a', 'g', 'o']), (['d', 'e', 'n', 'n', 'e', ' ', 'u', 'g', 'e'], ['0', ' ', 'w', 'e', 'e', 'k', ' ', 'a', 'g', 'o']), (['n', 'æ', 's', 't', 'e', ' ', 'u', 'g', 'e'], ['i', 'n', ' ', '1', ' ', 'w', 'e', 'e', 'k']), (['s', 'i', 'd', 's', 't', 'e', ' ', 'a', 'r'], ['1', ' ', 'y', 'e', 'a', 'r', ' ', 'a', 'g', 'o']), (['s', 'i', 'd', 's', 't', 'e', ' ', 'm', 'd'], ['1', ' ', 'm', 'o', 'n', 't', 'h', ' ', 'a', 'g', 'o']), (['d', 'e', 'n', 'n', 'e', ' ', 'm', 'd'], ['0', ' ', 'm', 'o', 'n', 't', 'h', ' ', 'a', 'g', 'o']), (['i', ' ', 'm', 'o', 'r', 'g', 'e', 'n'], ['i', 'n', ' ', '1', ' ', 'd', 'a', 'y']), (['n', 'æ', 's', 't', 'e', ' ', 'a', 'r'], ['i', 'n', ' ', '1', ' ', 'y', 'e', 'a', 'r']), (['n', 'æ', 's', 't', 'e', ' ', 'm', 'd'], ['i', 'n', ' ', '1', ' ', 'm', 'o', 'n', 't', 'h']), (['i', ' ', 'd', 'a', 'g'], ['0', ' ', 'd', 'a', 'y', ' ', 'a', 'g', 'o']), (['i', ' ', 'g', 'a', 'r'], ['1', ' ', 'd', 'a', 'y', ' ', 'a', 'g', 'o']), (['i', ' ', 'a', 'r'], ['0', ' ', 'y', 'e', 'a', 'r', ' ', 'a', 'g', 'o']), (['n', 'u'], ['0', ' ', 's', 'e', 'c', 'o', 'n', 'd', ' ', 'a', 'g', 'o'])]

/-- internal/data/da.go: `da_GL_Locale`, dictionary. -/
def da_GLDict : LangData where
  name := ['d', 'a', '-', 'G', 'L']

/-- internal/data/dav.go: `dav_Locale`, dictionary. -/
def davDict : LangData where
  name := ['d', 'a', 'v']
  translations := [(['m', 'o', 'r', 'i', ' ', 'g', 'h', 'w', 'a', ' ', 'i', 'k', 'u', 'm', 'i', ' ', 'n', 'a', ' ', 'i', 'm', 'w', 'e', 'r', 'i'], [['n', 'o', 'v', 'e', 'm', 'b', 'e', 'r']]), (['m', 'o', 'r', 'i', ' ', 'g', 'h', 'w', 'a', ' ', 'i', 'k', 'u', 'm', 'i', ' ', 'n', 'a', ' ', 'i', 'w', 'i'], [['d', 'e', 'c', 'e', 'm', 'b', 'e', 'r']]), (['m', 'o', 'r', 'i', ' ', 'g', 'h', 'w', 'a', ' ', 'k', 'a', 'r', 'a', 'n', 'd', 'a', 'd', 'u'], [['j', 'u', 'n', 'e']]), (['m', 'o', 'r', 'i', ' ', 'g', 'h', 'w', 'a', ' ', 'm', 'f', 'u', 'n', 'g', 'a', 'd', 'e'], [['j', 'u', 'l', 'y']]), (['m', 'o', 'r', 'i', ' ', 'g', 'h', 'w', 'a', ' ', 'w', 'u', 'n', 'y', 'a', 'n', 'y', 'a'], [['a', 'u', 'g', 'u', 's', 't']]), (['k', 'u', 'r', 'a', 'm', 'u', 'k', 'a', ' ', 'j', 'i', 'm', 'w', 'e', 'r', 'i'], [['m', 'o', 'n', 'd', 'a', 'y']]), (['m', 'o', 'r', 'i', ' ', 'g', 'h', 'w', 'a', ' ', 'i', 'k', 'e', 'n', 'd', 'a'], [['s', 'e', 'p', 't', 'e', 'm', 'b', 'e', 'r']]), (['m', 'o', 'r', 'i', ' ', 'g', 'h', 'w', 'a', ' ', 'i', 'm', 'b', 'i', 'r', 'i'], [['j', 'a', 'n', 'u', 'a', 'r', 'y']]), (['m', 'o', 'r', 'i', ' ', 'g', 'h', 'w', 'a', ' ', 'k', 'a', 'd', 'a', 'd', 'u'], [['m', 'a', 'r', 'c', 'h']]), (['m', 'o', 'r', 'i', ' ', 'g', 'h', 'w', 'a', ' ', 'k', 'a', 's', 'a', 'n', 'u'], [['m', 'a', 'y']]), (['k', 'u', 'r', 'a', 'm', 'u', 'k', 'a', ' ', 'k', 'a', 'd', 'a', 'd', 'u'], [['w', 'e', 'd', 'n', 'e', 's', 'd', 'a', 'y']]), (['k', 'u', 'r', 'a', 'm', 'u', 'k', 'a', ' ', 'k', 'a', 's', 'a', 'n', 'u'], [['f', 'r', 'i', 'd', 'a', 'y']]), (['m', 'o', 'r', 'i', ' ', 'g', 'h', 'w', 'a', ' ', 'i', 'k', 'u', 'm', 'i'], [['o', 'c', 't', 'o', 'b', 'e', 'r']]), (['i', 't', 'u', 'k', 'u', ' ', 'j', 'a', ' ', 'j', 'u', 'm', 'w', 'a'], [['s', 'u', 'n', 'd', 'a', 'y']]), (['m', 'o', 'r', 'i', ' ', 'g', 'h', 'w', 'a', ' ', 'k', 'a', 'n', 'a'], [['a', 'p', 'r', 'i', 'l']]), (['m', 'o', 'r', 'i', ' ', 'g', 'h', 'w', 'a', ' ', 'k', 'a', 'w', 'i'], [['f', 'e', 'b', 'r', 'u', 'a', 'r', 'y']]), (['k', 'u', 'r', 'a', 'm', 'u', 'k', 'a', ' ', 'k', 'a', 'n', 'a'], [['t', 'h', 'u', 'r', 's', 'd', 'a', 'y']]), (['k', 'u', 'r', 'a', 'm', 'u', 'k', 'a', ' ', 'k', 'a', 'w', 'i'], [['t', 'u', 'e', 's', 'd', 'a', 'y']]), (['k', 'i', 'f', 'u', 'l', 'a', ' ', 'n', 'g', 'u', 'w', 'o'], [['s', 'a', 't', 'u', 'r', 'd', 'a', 'y']]), (['l', 'u', 'm', 'a', ' ', 'l', 'w', 'a', ' ', 'k'], [['a', 'm']]), (['l', 'u', 'm', 'a', ' ', 'l', 'w', 'a', ' ', 'p'], [['p', 'm']]), (['s', 'e', 'k', 'u', 'n', 'd', 'e'], [['s', 'e', 'c', 'o', 'n', 'd']]), (['d', 'a', 'k', 'i', 'k', 'a'], [['m', 'i', 'n', 'u', 't', 'e']]), (['i', 't', 'u', 'k', 'u'], [['d', 'a', 'y']]), (['m', 'w', 'a', 'k', 'a'], [['y', 'e', 'a', 'r']]), (['j', 'u', 'm', 'a'], [['w', 'e', 'e', 'k']]), (['m', 'o', 'r', 'i'], [['m', 'o', 'n', 't', 'h']]), (['g', 'm', 't'], [['g', 'm', 't']]), (['i', 'k', 'e'], [['s', 'e', 'p', 't', 'e', 'm', 'b', 'e', 'r']]), (['i', 'k', 'u'], [['o', 'c', 't', 'o', 'b', 'e', 'r']]), (['i', 'm', 'b'], [['j', 'a', 'n', 'u', 'a', 'r', 'y']]), (['i', 'm', 'w'], [['n', 'o', 'v', 'e', 'm', 'b', 'e', 'r']]), (['i', 'w', 'i'], [['d', 'e', 'c', 'e', 'm', 'b', 'e', 'r']]), (['j', 'i', 'm'], [['m', 'o', 'n', 'd', 'a', 'y']]), (['j', 'u', 'm'], [['s', 'u', 'n', 'd', 'a', 'y']]), (['k', 'a', 'd'], [['m', 'a', 'r', 'c', 'h'], ['w', 'e', 'd', 'n', 'e', 's', 'd', 'a', 'y']]), (['k', 'a', 'n'], [['a', 'p', 'r', 'i', 'l'], ['t', 'h', 'u', 'r', 's', 'd', 'a', 'y']]), (['k', 'a', 'r'], [['j', 'u', 'n', 'e']]), (['k', 'a', 's'], [['m', 'a', 'y'], ['f', 'r', 'i', 'd', 'a', 'y']]), (['k', 'a', 'w'], [['t', 'u', 'e', 's', 'd', 'a', 'y'], ['f', 'e', 'b', 'r', 'u', 'a', 'r', 'y']]), (['m', 'f', 'u'], [['j', 'u', 'l', 'y']]), (['n', 'g', 'u'], [['s', 'a', 't', 'u', 'r', 'd', 'a', 'y']]), (['s', 'a', 'a'], [['h', 'o', 'u', 'r']]), (['u', 't', 'c'], [['u', 't', 'c']]), (['w', 'u', 'n'], [['a', 'u', 'g', 'u', 's', 't']]), (['a', 'm'], [['a', 'm']]), (['p', 'm'], [['p', 'm']]), ([' '], [[' ']]), (['\''], [[]]), (['+'], [['+']]), ([','], [[]]), (['-'], [['-']]), (['.'], [['.']]), (['/'], [['/']]), ([':'], [[':']]), ([';'], [[]]), (['@'], [[]]), (['['], [[]]), ([']'], [[]]), (['z'], [['z']]), (['|'], [[]])]
  relativeType := [(['t', 'h', 'i', 's', ' ', 'm', 'i', 'n', 'u', 't', 'e'], ['0', ' ', 'm', 'i', 'n', 'u', 't', 'e', ' ', 'a', 'g', 'o']), (['l', 'a', 's', 't', ' ', 'm', 'o', 'n', 't', 'h'], ['1', ' ', 'm', 'o', 'n', 't', 'h', ' ', 'a', 'g', 'o']), (['n', 'e', 'x', 't', ' ', 'm', 'o', 'n', 't', 'h'], ['i', 'n', ' ', '1', ' ', 'm', 'o', 'n', 't', 'h']), (['t', 'h', 'i', 's', ' ', 'm', 'o', 'n', 't', 'h'], ['0', ' ', 'm', 'o', 'n', 't', 'h', ' ', 'a', 'g', 'o']), (['l', 'a', 's', 't', ' ', 'w', 'e', 'e', 'k'], ['1', ' ', 'w', 'e', 'e', 'k', ' ', 'a', 'g', 'o']), (['l', 'a', 's', 't', ' ', 'y', 'e', 'a', 'r'], ['1', ' ', 'y', 'e', 'a', 'r', ' ', 'a', 'g', 'o']), (['n', 'e', 'x', 't', ' ', 'w', 'e', 'e', 'k'], ['i', 'n', ' ', '1', ' ', 'w', 'e', 'e', 'k']), (['n', 'e', 'x', 't', ' ', 'y', 'e', 'a', 'r'], ['i', 'n', ' ', '1', ' ', 'y', 'e', 'a', 'r']), (['t', 'h', 'i', 's', ' ', 'h', 'o', 'u', 'r'], ['0', ' ', 'h', 'o', 'u', 'r', ' ', 'a', 'g', 'o']), (['t', 'h', 'i', 's', ' ', 'w', 'e', 'e', 'k'], ['0', ' ', 'w', 'e', 'e', 'k', ' ', 'a', 'g', 'o']), (['t', 'h', 'i', 's', ' ', 'y', 'e', 'a', 'r'], ['0', ' ', 'y', 'e', 'a', 'r', ' ', 'a', 'g', 'o']), (['i', 'd', 'i', 'm', 'e'], ['0', ' ', 'd', 'a', 'y', ' ', 'a', 'g', 'o']), (['k', 'e', 's', 'h', 'o'], ['i', 'n', ' ', '1', ' ', 'd', 'a', 'y']), (['i', 'g', 'u', 'o'], ['1', ' ', 'd', 'a', 'y', ' ', 'a', 'g', 'o']), (['n', 'o', 'w'], ['0', ' ', 's', 'e', 'c', 'o', 'n', 'd', ' ', 'a', 'g', 'o'])]

/-- internal/data/de.go: `de_Locale`, dictionary. -/
def deDict : LangData where
  name := ['d', 'e']
  splitterGroup := 1
  translations := [(['d', 'o', 'n', 'n', 'e', 'r', 's', 't', 'a', 'g'], [['t', 'h', 'u', 'r', 's', 'd', 'a', 'y']]), (['s', 'e', 'p', 't', 'e', 'm', 'b', 'e', 'r'], [['s', 'e', 'p', 't', 'e', 'm', 'b', 'e', 'r']]), (['d', 'e', 'z', 'e', 'm', 'b', 'e', 'r'], [['d', 'e', 'c', 'e', 'm', 'b', 'e', 'r']]), (['d', 'i', 'e', 'n', 's', 't', 'a', 'g'], [['t', 'u', 'e', 's', 'd', 'a', 'y']]), (['m', 'i', 't', 't', 'w', 'o', 'c', 'h'], [['w', 'e', 'd', 'n', 'e', 's', 'd', 'a', 'y']]), (['n', 'o', 'v', 'e', 'm', 'b', 'e', 'r'], [['n', 'o', 'v', 'e', 'm', 'b', 'e', 'r']]), (['s', 'e', 'k', 'u', 'n', 'd', 'e', 'n'], [['s', 'e', 'c', 'o', 'n', 'd']]), (['f', 'e', 'b', 'r', 'u', 'a', 'r'], [['f', 'e', 'b', 'r', 'u', 'a', 'r', 'y']]), (['f', 'r', 'e', 'i', 't', 'a', 'g'], [['f', 'r', 'i', 'd', 'a', 'y']]), (['m', 'i', 'n', 'u', 't', 'e', 'n'], [['m', 'i', 'n', 'u', 't', 'e']]), (['m', 'o', 'n', 'a', 't', 'e', 'n'], [['m', 'o', 'n', 't', 'h']]), (['o', 'k', 't', 'o', 'b', 'e', 'r'], [['o', 'c', 't', 'o', 'b', 'e', 'r']]), (['s', 'a', 'm', 's', 't', 'a', 'g'], [['s', 'a', 't', 'u', 'r', 'd', 'a', 'y']]), (['s', 'e', 'k', 'u', 'n', 'd', 'e'], [['s', 'e', 'c', 'o', 'n', 'd']]), (['s', 'o', 'n', 'n', 't', 'a', 'g'], [['s', 'u', 'n', 'd', 'a', 'y']]), (['s', 't', 'u', 'n', 'd', 'e', 'n'], [['h', 'o', 'u', 'r']]), (['a', 'u', 'g', 'u', 's', 't'], [['a', 'u', 'g', 'u', 's', 't']]), (['j', 'a', 'h', 'r', 'e', 'n'], [['y', 'e', 'a', 'r']]), (['j', 'a', 'n', 'n', 'e', 'r'], [['j', 'a', 'n', 'u', 'a', 'r', 'y']]), (['j', 'a', 'n', 'u', 'a', 'r'], [['j', 'a', 'n', 'u', 'a', 'r', 'y']]), (['m', 'i', 'n', 'u', 't', 'e'], [['m', 'i', 'n', 'u', 't', 'e']]), (['m', 'o', 'n', 'a', 't', 'e'], [['m', 'o', 'n', 't', 'h']]), (['m', 'o', 'n', 't', 'a', 'g'], [['m', 'o', 'n', 'd', 'a', 'y']]), (['s', 't', 'u', 'n', 'd', 'e'], [['h', 'o', 'u', 'r']]), (['w', 'o', 'c', 'h', 'e', 'n'], [['w', 'e', 'e', 'k']]), (['a', 'p', 'r', 'i', 'l'], [['a', 'p', 'r', 'i', 'l']]), (['f', 'e', 'b', 'e', 'r'], [['f', 'e', 'b', 'r', 'u', 'a', 'r', 'y']]), (['j', 'a', 'h', 'r', 'e'], [['y', 'e', 'a', 'r']]), (['m', 'o', 'n', 'a', 't'], [['m', 'o', 'n', 't', 'h']]), (['n', 'a', 'c', 'h', 'm'], [['p', 'm']]), (['t', 'a', 'g', 'e', 'n'], [['d', 'a', 'y']]), (['w', 'o', 'c', 'h', 'e'], [['w', 'e', 'e', 'k']]), (['e', 't', 'w', 'a'], [[]]), (['j', 'a', 'h', 'r'], [['y', 'e', 'a', 'r']]), (['j', 'u', 'l', 'i'], [['j', 'u', 'l', 'y']]), (['j', 'u', 'n', 'i'], [['j', 'u', 'n', 'e']]), (['m', 'a', 'r', 'z'], [['m', 'a', 'r', 'c', 'h']]), (['s', 'e', 'p', 't'], [['s', 'e', 'p', 't', 'e', 'm', 'b', 'e', 'r']]), (['t', 'a', 'g', 'e'], [['d', 'a', 'y']]), (['v', 'o', 'r', 'm'], [['a', 'm']]), (['a', 'p', 'r'], [['a', 'p', 'r', 'i', 'l']]), (['a', 'u', 'g'], [['a', 'u', 'g', 'u', 's', 't']]), (['d', 'e', 'z'], [['d', 'e', 'c', 'e', 'm', 'b', 'e', 'r']]), (['d', 'i', 'e'], [['t', 'u', 'e', 's', 'd', 'a', 'y']]), (['d', 'o', 'n'], [['t', 'h', 'u', 'r', 's', 'd', 'a', 'y']]), (['f', 'e', 'b'], [['f', 'e', 'b', 'r', 'u', 'a', 'r', 'y']]), (['f', 'r', 'e'], [['f', 'r', 'i', 'd', 'a', 'y']]), (['g', 'm', 't'], [['g', 'm', 't']]), (['j', 'a', 'n'], [['j', 'a', 'n', 'u', 'a', 'r', 'y']]), (['j', 'u', 'l'], [['j', 'u', 'l', 'y']]), (['j', 'u', 'n'], [['j', 'u', 'n', 'e']]), (['m', 'a', 'i'], [['m', 'a', 'y']]), (['m', 'a', 'r'], [['m', 'a', 'r', 'c', 'h']]), (['m', 'i', 'n'], [['m', 'i', 'n', 'u', 't', 'e']]), (['m', 'i', 't'], [['w', 'e', 'd', 'n', 'e', 's', 'd', 'a', 'y']]), (['m', 'o', 'n'], [['m', 'o', 'n', 'd', 'a', 'y']]), (['m', 'r', 'z'], [['m', 'a', 'r', 'c', 'h']]), (['n', 'o', 'v'], [['n', 'o', 'v', 'e', 'm', 'b', 'e', 'r']]), (['o', 'k', 't'], [['o', 'c', 't', 'o', 'b', 'e', 'r']]), (['s', 'a', 'm'], [['s', 'a', 't', 'u', 'r', 'd', 'a', 'y']]), (['s', 'e', 'k'], [['s', 'e', 'c', 'o', 'n', 'd']]), (['s', 'e', 'p'], [['s', 'e', 'p', 't', 'e', 'm', 'b', 'e', 'r']]), (['s', 'o', 'n'], [['s', 'u', 'n', 'd', 'a', 'y']]), (['s', 't', 'd'], [['h', 'o', 'u', 'r']]), (['t', 'a', 'g'], [['d', 'a', 'y']]), (['u', 'h', 'r'], [[]]), (['u', 'n', 'd'], [[]]), (['u', 't', 'c'], [['u', 't', 'c']]), (['v', 'o', 'r'], [['a', 'g', 'o']]), (['a', 'm'], [['a', 'm']]), (['d', 'i'], [['t', 'u', 'e', 's', 'd', 'a', 'y']]), (['d', 'o'], [['t', 'h', 'u', 'r', 's', 'd', 'a', 'y']]), (['f', 'r'], [['f', 'r', 'i', 'd', 'a', 'y']]), (['i', 'm'], [['i', 'n']]), (['i', 'n'], [['i', 'n']]), (['m', 'i'], [['w', 'e', 'd', 'n', 'e', 's', 'd', 'a', 'y']]), (['m', 'o'], [['m', 'o', 'n', 'd', 'a', 'y']]), (['p', 'm'], [['p', 'm']]), (['s', 'a'], [['s', 'a', 't', 'u', 'r', 'd', 'a', 'y']]), (['s', 'o'], [['s', 'u', 'n', 'd', 'a', 'y']]), (['u', 'm'], [[]]), ([' '], [[' ']]), (['\''], [[]]), (['+'], [['+']]), ([','], [[]]), (['-'], [['-']]), (['.'], [['.']]), (['/'], [['/']]), ([':'], [[':']]), ([';'], [[]]), (['@'], [[]]), (['['], [[]]), ([']'], [[]]), (['j'], [['y', 'e', 'a', 'r']]), (['m'], [['m', 'o', 'n', 't', 'h']]), (['w'], [['w', 'e', 'e', 'k']]), (['z'], [['z']]), (['|'], [[]])]
  relativeType := [(['i', 'n', ' ', 'd', 'i', 'e', 's', 'e', 'r', ' ', 'm', 'i', 'n', 'u', 't', 'e'], ['0', ' ', 'm', 'i', 'n', 'u', 't', 'e', ' ', 'a', 'g', 'o']), (['i', 'n', ' ', 'd', 'i', 'e', 's', 'e', 'r', ' ', 's', 't', 'u', 'n', 'd', 'e'], ['0', ' ', 'h', 'o', 'u', 'r', ' ', 'a', 'g', 'o']), (['n', 'a', 'c', 'h', 's', 't', 'e', 'n', ' ', 'm', 'o', 'n', 'a', 't'], ['i', 'n', ' ', '1', ' ', 'm', 'o', 'n', 't', 'h']), (['l', 'e', 't', 'z', 't', 'e', 'n', ' ', 'm', 'o', 'n', 'a', 't'], ['1', ' ', 'm', 'o', 'n', 't', 'h', ' ', 'a', 'g', 'o']), (['n', 'a', 'c', 'h', 's', 't', 'e', ' ', 'w', 'o', 'c', 'h', 'e'], ['i', 'n', ' ', '1', ' ', 'w', 'e', 'e', 'k']), (['n', 'a', 'c', 'h', 's', 't', 'e', 's', ' ', 'j', 'a', 'h', 'r'], ['i', 'n', ' ', '1', ' ', 'y', 'e', 'a', 'r']), (['d', 'i', 'e', 's', 'e', 'n', ' ', 'm', 'o', 'n', 'a', 't'], ['0', ' ', 'm', 'o', 'n', 't', 'h', ' ', 'a', 'g', 'o']), (['l', 'e', 't', 'z', 't', 'e', ' ', 'w', 'o', 'c', 'h', 'e'], ['1', ' ', 'w', 'e', 'e', 'k', ' ', 'a', 'g', 'o']), (['l', 'e', 't', 'z', 't', 'e', 's', ' ', 'j', 'a', 'h', 'r'], ['1', ' ', 'y', 'e', 'a', 'r', ' ', 'a', 'g', 'o']), (['d', 'i', 'e', 's', 'e', ' ', 'w', 'o', 'c', 'h', 'e'], ['0', ' ', 'w', 'e', 'e', 'k', ' ', 'a', 'g', 'o']), (['d', 'i', 'e', 's', 'e', 's', ' ', 'j', 'a', 'h', 'r'], ['0', ' ', 'y', 'e', 'a', 'r', ' ', 'a', 'g', 'o']), (['u', 'b', 'e', 'r', 'm', 'o', 'r', 'g', 'e', 'n'], ['i', 'n', ' ', '2', ' ', 'd', 'a', 'y']), (['v', 'o', 'r', 'g', 'e', 's', 't', 'e', 'r', 'n'], ['2', ' ', 'd', 'a', 'y', ' ', 'a', 'g', 'o']), (['g', 'e', 's', 't', 'e', 'r', 'n'], ['1', ' ', 'd', 'a', 'y', ' ', 'a', 'g', 'o']), (['m', 'o', 'r', 'g', 'e', 'n'], ['i', 'n', ' ', '1', ' ', 'd', 'a', 'y']), (['h', 'e', 'u', 't', 'e'], ['0', ' ', 'd', 'a', 'y', ' ', 'a', 'g', 'o']), (['j', 'e', 't', 'z', 't'], ['0', ' ', 's', 'e', 'c', 'o', 'n', 'd', ' ', 'a', 'g', 'o'])]

/-- internal/data/de.go: `de_AT_Locale`, dictionary. -/
def de_ATDict : LangData where
  name := ['d', 'e', '-', 'A', 'T']

/-- internal/data/de.go: `de_BE_Locale`, dictionary. -/
def de_BEDict : LangData where
  name := ['d', 'e', '-', 'B', 'E']

/-- internal/data/de.go: `de_CH_Locale`, dictionary. -/
def de_CHDict : LangData where
  name := ['d', 'e', '-', 'C', 'H']

/-- internal/data/de.go: `de_IT_Locale`, dictionary. -/
def de_ITDict : LangData where
  name := ['d', 'e', '-', 'I', 'T']

/-- internal/data/de.go: `de_LI_Locale`, dictionary. -/
def de_LIDict : LangData where
  name := ['d', 'e', '-', 'L', 'I']

/-- internal/data/de.go: `de_LU_Locale`, dictionary. -/
def de_LUDict : LangData where
  name := ['d', 'e', '-', 'L', 'U']

/-- internal/data/dje.go: `dje_Locale`, dictionary. -/
def djeDict : LangData where
  name := ['d', 'j', 'e']
  translations := [(['z', 'a', 'a', 'r', 'i', 'k', 'a', 'y', ' ', 'b'], [['p', 'm']]), (['d', 'e', 'e', 's', 'a', 'n', 'b', 'u', 'r'], [['d', 'e', 'c', 'e', 'm', 'b', 'e', 'r']]), (['f', 'e', 'e', 'w', 'i', 'r', 'i', 'y', 'e'], [['f', 'e', 'b', 'r', 'u', 'a', 'r', 'y']]), (['n', 'o', 'o', 'w', 'a', 'n', 'b', 'u', 'r'], [['n', 'o', 'v', 'e', 'm', 'b', 'e', 'r']]), (['s', 'e', 'k', 't', 'a', 'n', 'b', 'u', 'r'], [['s', 'e', 'p', 't', 'e', 'm', 'b', 'e', 'r']]), (['a', 'l', 'h', 'a', 'm', 'i', 's', 'i'], [['t', 'h', 'u', 'r', 's', 'd', 'a', 'y']]), (['a', 't', 'a', 'l', 'a', 'a', 't', 'a'], [['t', 'u', 'e', 's', 'd', 'a', 'y']]), (['o', 'k', 't', 'o', 'o', 'b', 'u', 'r'], [['o', 'c', 't', 'o', 'b', 'e', 'r']]), (['s', 'u', 'b', 'b', 'a', 'a', 'h', 'i'], [['a', 'm']]), (['z', 'a', 'n', 'w', 'i', 'y', 'e'], [['j', 'a', 'n', 'u', 'a', 'r', 'y']]), (['a', 'l', 'a', 'r', 'b', 'a'], [['w', 'e', 'd', 'n', 'e', 's', 'd', 'a', 'y']]), (['a', 'l', 'h', 'a', 'd', 'i'], [['s', 'u', 'n', 'd', 'a', 'y']]), (['a', 'l', 'z', 'u', 'm', 'a'], [['f', 'r', 'i', 'd', 'a', 'y']]), (['a', 's', 'i', 'b', 't', 'i'], [['s', 'a', 't', 'u', 'r', 'd', 'a', 'y']]), (['a', 't', 'i', 'n', 'n', 'i'], [['m', 'o', 'n', 'd', 'a', 'y']]), (['a', 'w', 'i', 'r', 'i', 'l'], [['a', 'p', 'r', 'i', 'l']]), (['m', 'i', 'n', 'i', 't', 'i'], [['m', 'i', 'n', 'u', 't', 'e']]), (['g', 'u', 'u', 'r', 'u'], [['h', 'o', 'u', 'r']]), (['h', 'a', 'n', 'd', 'u'], [['m', 'o', 'n', 't', 'h']]), (['j', 'i', 'i', 'r', 'i'], [['y', 'e', 'a', 'r']]), (['m', 'a', 'r', 's', 'i'], [['m', 'a', 'r', 'c', 'h']]), (['z', 'a', 'a', 'r', 'i'], [['d', 'a', 'y']]), (['z', 'u', 'w', 'e', 'ŋ'], [['j', 'u', 'n', 'e']]), (['z', 'u', 'y', 'y', 'e'], [['j', 'u', 'l', 'y']]), (['h', 'e', 'b', 'u'], [['w', 'e', 'e', 'k']]), (['m', 'i', 't', 'i'], [['s', 'e', 'c', 'o', 'n', 'd']]), (['a', 'l', 'a'], [['w', 'e', 'd', 'n', 'e', 's', 'd', 'a', 'y']]), (['a', 'l', 'h'], [['s', 'u', 'n', 'd', 'a', 'y']]), (['a', 'l', 'm'], [['t', 'h', 'u', 'r', 's', 'd', 'a', 'y']]), (['a', 'l', 'z'], [['f', 'r', 'i', 'd', 'a', 'y']]), (['a', 's', 'i'], [['s', 'a', 't', 'u', 'r', 'd', 'a', 'y']]), (['a', 't', 'a'], [['t', 'u', 'e', 's', 'd', 'a', 'y']]), (['a', 't', 'i'], [['m', 'o', 'n', 'd', 'a', 'y']]), (['a', 'w', 'i'], [['a', 'p', 'r', 'i', 'l']]), (['d', 'e', 'e'], [['d', 'e', 'c', 'e', 'm', 'b', 'e', 'r']]), (['f', 'e', 'e'], [['f', 'e', 'b', 'r', 'u', 'a', 'r', 'y']]), (['g', 'm', 't'], [['g', 'm', 't']]), (['m', 'a', 'r'], [['m', 'a', 'r', 'c', 'h']]), (['n', 'o', 'o'], [['n', 'o', 'v', 'e', 'm', 'b', 'e', 'r']]), (['o', 'k', 't'], [['o', 'c', 't', 'o', 'b', 'e', 'r']]), (['s', 'e', 'k'], [['s', 'e', 'p', 't', 'e', 'm', 'b', 'e', 'r']]), (['u', 't', 'c'], [['u', 't', 'c']]), (['z', 'a', 'n'], [['j', 'a', 'n', 'u', 'a', 'r', 'y']]), (['z', 'u', 'w'], [['j', 'u', 'n', 'e']]), (['z', 'u', 'y'], [['j', 'u', 'l', 'y']]), (['a', 'm'], [['a', 'm']]), (['m', 'e'], [['m', 'a', 'y']]), (['p', 'm'], [['p', 'm']]), (['u', 't'], [['a', 'u', 'g', 'u', 's', 't']]), ([' '], [[' ']]), (['\''], [[]]), (['+'], [['+']]), ([','], [[]]), (['-'], [['-']]), (['.'], [['.']]), (['/'], [['/']]), ([':'], [[':']]), ([';'], [[]]), (['@'], [[]]), (['['], [[]]), ([']'], [[]]), (['z'], [['z']]), (['|'], [[]])]
  relativeType := [(['t', 'h', 'i', 's', ' ', 'm', 'i', 'n', 'u', 't', 'e'], ['0', ' ', 'm', 'i', 'n', 'u', 't', 'e', ' ', 'a', 'g', 'o']), (['l', 'a', 's', 't', ' ', 'm', 'o', 'n', 't', 'h'], ['1', ' ', 'm', 'o', 'n', 't', 'h', ' ', 'a', 'g', 'o']), (['n', 'e', 'x', 't', ' ', 'm', 'o', 'n', 't', 'h'], ['i', 'n', ' ', '1', ' ', 'm', 'o', 'n', 't', 'h']), (['t', 'h', 'i', 's', ' ', 'm', 'o', 'n', 't', 'h'], ['0', ' ', 'm', 'o', 'n', 't', 'h', ' ', 'a', 'g', 'o']), (['l', 'a', 's', 't', ' ', 'w', 'e', 'e', 'k'], ['1', ' ', 'w', 'e', 'e', 'k', ' ', 'a', 'g', 'o']), (['l', 'a', 's', 't', ' ', 'y', 'e', 'a', 'r'], ['1', ' ', 'y', 'e', 'a', 'r', ' ', 'a', 'g', 'o']), (['n', 'e', 'x', 't', ' ', 'w', 'e', 'e', 'k'], ['i', 'n', ' ', '1', ' ', 'w', 'e', 'e', 'k']), (['n', 'e', 'x', 't', ' ', 'y', 'e', 'a', 'r'], ['i', 'n', ' ', '1', ' ', 'y', 'e', 'a', 'r']), (['t', 'h', 'i', 's', ' ', 'h', 'o', 'u', 'r'], ['0', ' ', 'h', 'o', 'u', 'r', ' ', 'a', 'g', 'o']), (['t', 'h', 'i', 's', ' ', 'w', 'e', 'e', 'k'], ['0', ' ', 'w', 'e', 'e', 'k', ' ', 'a', 'g', 'o']), (['t', 'h', 'i', 's', ' ', 'y', 'e', 'a', 'r'], ['0', ' ', 'y', 'e', 'a', 'r', ' ', 'a', 'g', 'o']), (['s', 'u', 'b', 'a'], ['i', 'n', ' ', '1', ' ', 'd', 'a', 'y']), (['h', 'o', 'o'], ['0', ' ', 'd', 'a', 'y', ' ', 'a', 'g', 'o']), (['n', 'o', 'w'], ['0', ' ', 's', 'e', 'c', 'o', 'n', 'd', ' ', 'a', 'g', 'o']), (['b', 'i'], ['1', ' ', 'd', 'a', 'y', ' ', 'a', 'g', 'o'])]

/-- internal/data/dsb.go: `dsb_Locale`, dictionary. -/
def dsbDict : LangData where
  name := ['d', 's', 'b']
  translations := [(['w', 'o', 't', 'p', 'o', 'ł', 'd', 'n', 'j', 'a'], [['p', 'm']]), (['d', 'o', 'p', 'o', 'ł', 'd', 'n', 'j', 'a'], [['a', 'm']]), (['p', 'o', 'n', 'j', 'e', 'z', 'e', 'l', 'e'], [['m', 'o', 'n', 'd', 'a', 'y']]), (['s', 'e', 'p', 't', 'e', 'm', 'b', 'e', 'r'], [['s', 'e', 'p', 't', 'e', 'm', 'b', 'e', 'r']]), (['s', 'e', 'p', 't', 'e', 'm', 'b', 'r', 'a'], [['s', 'e', 'p', 't', 'e', 'm', 'b', 'e', 'r']]), (['d', 'e', 'c', 'e', 'm', 'b', 'e', 'r'], [['d', 'e', 'c', 'e', 'm', 'b', 'e', 'r']]), (['d', 'e', 'c', 'e', 'm', 'b', 'r', 'a'], [['d', 'e', 'c', 'e', 'm', 'b', 'e', 'r']]), (['f', 'e', 'b', 'r', 'u', 'a', 'r', 'a'], [['f', 'e', 'b', 'r', 'u', 'a', 'r', 'y']]), (['n', 'o', 'w', 'e', 'm', 'b', 'e', 'r'], [['n', 'o', 'v', 'e', 'm', 'b', 'e', 'r']]), (['n', 'o', 'w', 'e', 'm', 'b', 'r', 'a'], [['n', 'o', 'v', 'e', 'm', 'b', 'e', 'r']]), (['a', 'w', 'g', 'u', 's', 't', 'a'], [['a', 'u', 'g', 'u', 's', 't']]), (['f', 'e', 'b', 'r', 'u', 'a', 'r'], [['f', 'e', 'b', 'r', 'u', 'a', 'r', 'y']]), (['j', 'a', 'n', 'u', 'a', 'r', 'a'], [['j', 'a', 'n', 'u', 'a', 'r', 'y']]), (['n', 'j', 'e', 'z', 'e', 'l', 'a'], [['s', 'u', 'n', 'd', 'a', 'y']]), (['o', 'k', 't', 'o', 'b', 'e', 'r'], [['o', 'c', 't', 'o', 'b', 'e', 'r']]), (['o', 'k', 't', 'o', 'b', 'r', 'a'], [['o', 'c', 't', 'o', 'b', 'e', 'r']]), (['s', 'e', 'k', 'u', 'n', 'd', 'a'], [['s', 'e', 'c', 'o', 'n', 'd']]), (['s', 't', 'w', 'o', 'r', 't', 'k'], [['t', 'h', 'u', 'r', 's', 'd', 'a', 'y']]), (['w', 'a', 'ł', 't', 'o', 'r', 'a'], [['t', 'u', 'e', 's', 'd', 'a', 'y']]), (['a', 'p', 'r', 'y', 'l', 'a'], [['a', 'p', 'r', 'i', 'l']]), (['a', 'w', 'g', 'u', 's', 't'], [['a', 'u', 'g', 'u', 's', 't']]), (['g', 'o', 'z', 'i', 'n', 'a'], [['h', 'o', 'u', 'r']]), (['j', 'a', 'n', 'u', 'a', 'r'], [['j', 'a', 'n', 'u', 'a', 'r', 'y']]), (['j', 'u', 'l', 'i', 'j', 'a'], [['j', 'u', 'l', 'y']]), (['j', 'u', 'n', 'i', 'j', 'a'], [['j', 'u', 'n', 'e']]), (['m', 'i', 'n', 'u', 't', 'a'], [['m', 'i', 'n', 'u', 't', 'e']]), (['m', 'j', 'a', 's', 'e', 'c'], [['m', 'o', 'n', 't', 'h']]), (['s', 'o', 'b', 'o', 't', 'a'], [['s', 'a', 't', 'u', 'r', 'd', 'a', 'y']]), (['s', 'r', 'j', 'o', 'd', 'a'], [['w', 'e', 'd', 'n', 'e', 's', 'd', 'a', 'y']]), (['a', 'p', 'r', 'y', 'l'], [['a', 'p', 'r', 'i', 'l']]), (['j', 'u', 'l', 'i', 'j'], [['j', 'u', 'l', 'y']]), (['j', 'u', 'n', 'i', 'j'], [['j', 'u', 'n', 'e']]), (['m', 'e', 'r', 'c', 'a'], [['m', 'a', 'r', 'c', 'h']]), (['t', 'y', 'z', 'e', 'n'], [['w', 'e', 'e', 'k']]), (['l', 'e', 't', 'o'], [['y', 'e', 'a', 'r']]), (['m', 'a', 'j', 'a'], [['m', 'a', 'y']]), (['m', 'e', 'r', 'c'], [['m', 'a', 'r', 'c', 'h']]), (['m', 'j', 'a', 's'], [['m', 'o', 'n', 't', 'h']]), (['p', 'e', 't', 'k'], [['f', 'r', 'i', 'd', 'a', 'y']]), (['a', 'p', 'r'], [['a', 'p', 'r', 'i', 'l']]), (['a', 'w', 'g'], [['a', 'u', 'g', 'u', 's', 't']]), (['d', 'e', 'c'], [['d', 'e', 'c', 'e', 'm', 'b', 'e', 'r']]), (['f', 'e', 'b'], [['f', 'e', 'b', 'r', 'u', 'a', 'r', 'y']]), (['g', 'm', 't'], [['g', 'm', 't']]), (['g', 'o', 'z'], [['h', 'o', 'u', 'r']]), (['j', 'a', 'n'], [['j', 'a', 'n', 'u', 'a', 'r', 'y']]), (['j', 'u', 'l'], [['j', 'u', 'l', 'y']]), (['j', 'u', 'n'], [['j', 'u', 'n', 'e']]), (['m', 'a', 'j'], [['m', 'a', 'y']]), (['m', 'e', 'r'], [['m', 'a', 'r', 'c', 'h']]), (['m', 'i', 'n'], [['m', 'i', 'n', 'u', 't', 'e']]), (['n', 'j', 'e'], [['s', 'u', 'n', 'd', 'a', 'y']]), (['n', 'o', 'w'], [['n', 'o', 'v', 'e', 'm', 'b', 'e', 'r']]), (['o', 'k', 't'], [['o', 'c', 't', 'o', 'b', 'e', 'r']]), (['p', 'e', 't'], [['f', 'r', 'i', 'd', 'a', 'y']]), (['p', 'o', 'n'], [['m', 'o', 'n', 'd', 'a', 'y']]), (['s', 'e', 'k'], [['s', 'e', 'c', 'o', 'n', 'd']]), (['s', 'e', 'p'], [['s', 'e', 'p', 't', 'e', 'm', 'b', 'e', 'r']]), (['s', 'o', 'b'], [['s', 'a', 't', 'u', 'r', 'd', 'a', 'y']]), (['s', 'r', 'j'], [['w', 'e', 'd', 'n', 'e', 's', 'd', 'a', 'y']]), (['s', 't', 'w'], [['t', 'h', 'u', 'r', 's', 'd', 'a', 'y']]), (['t', 'y', 'z'], [['w', 'e', 'e', 'k']]), (['u', 't', 'c'], [['u', 't', 'c']]), (['w', 'a', 'ł'], [['t', 'u', 'e', 's', 'd', 'a', 'y']]), (['z', 'e', 'n'], [['d', 'a', 'y']]), (['a', 'm'], [['a', 'm']]), (['p', 'm'], [['p', 'm']]), ([' '], [[' ']]), (['\''], [[]]), (['+'], [['+']]), ([','], [[]]), (['-'], [['-']]), (['.'], [['.']]), (['/'], [['/']]), ([':'], [[':']]), ([';'], [[]]), (['@'], [[]]), (['['], [[]]), ([']'], [[]]), (['g'], [['h', 'o', 'u', 'r']]), (['l'], [['y', 'e', 'a', 'r']]), (['m'], [['m', 'i', 'n', 'u', 't', 'e']]), (['s'], [['s', 'e', 'c', 'o', 'n', 'd']]), (['z'], [['z']]), (['|'], [[]])]
  relativeType := [(['p', 's', 'i', 'd', 'u', 'c', 'y', ' ', 'm', 'j', 'a', 's', 'e', 'c'], ['i', 'n', ' ', '1', ' ', 'm', 'o', 'n', 't', 'h']), (['p', 's', 'i', 'd', 'u', 'c', 'y', ' ', 't', 'y', 'z', 'e', 'n'], ['i', 'n', ' ', '1', ' ', 'w', 'e', 'e', 'k']), (['s', 'l', 'e', 'd', 'n', 'y', ' ', 'm', 'j', 'a', 's', 'e', 'c'], ['1', ' ', 'm', 'o', 'n', 't', 'h', ' ', 'a', 'g', 'o']), (['s', 'l', 'e', 'd', 'n', 'y', ' ', 't', 'y', 'z', 'e', 'n'], ['1', ' ', 'w', 'e', 'e', 'k', ' ', 'a', 'g', 'o']), (['t', 'h', 'i', 's', ' ', 'm', 'i', 'n', 'u', 't', 'e'], ['0', ' ', 'm', 'i', 'n', 'u', 't', 'e', ' ', 'a', 'g', 'o']), (['t', 'e', 'n', ' ', 'm', 'j', 'a', 's', 'e', 'c'], ['0', ' ', 'm', 'o', 'n', 't', 'h', ' ', 'a', 'g', 'o']), (['t', 'e', 'n', ' ', 't', 'y', 'z', 'e', 'n'], ['0', ' ', 'w', 'e', 'e', 'k', ' ', 'a', 'g', 'o']), (['t', 'h', 'i', 's', ' ', 'h', 'o', 'u', 'r'], ['0', ' ', 'h', 'o', 'u', 'r', ' ', 'a', 'g', 'o']), (['l', 'e', 't', 'o', 's', 'a'], ['0', ' ', 'y', 'e', 'a', 'r', ' ', 'a', 'g', 'o']), (['w', 'i', 't', 's', 'e'], ['i', 'n', ' ', '1', ' ', 'd', 'a', 'y']), (['z', 'i', 'n', 's', 'a'], ['0', ' ', 'd', 'a', 'y', ' ', 'a', 'g', 'o']), (['z', 'n', 'o', 'w', 'a'], ['i', 'n', ' ', '1', ' ', 'y', 'e', 'a', 'r']), (['c', 'o', 'r', 'a'], ['1', ' ', 'd', 'a', 'y', ' ', 'a', 'g', 'o']), (['ł', 'o', 'n', 'i'], ['1', ' ', 'y', 'e', 'a', 'r', ' ', 'a', 'g', 'o']), (['n', 'o', 'w'], ['0', ' ', 's', 'e', 'c', 'o', 'n', 'd', ' ', 'a', 'g', 'o'])]

/-- internal/data/dua.go: `dua_Locale`, dictionary. -/
def duaDict : LangData where
  name := ['d', 'u', 'a']
  translations := [(['m', 'a', 'd', 'i', 'ɓ', 'ɛ', 'd', 'i', 'ɓ', 'ɛ'], [['j', 'u', 'l', 'y']]), (['e', 's', 'ɔ', 'p', 'ɛ', 's', 'ɔ', 'p', 'ɛ'], [['j', 'u', 'n', 'e']]), (['d', 'i', 'ŋ', 'g', 'i', 'n', 'd', 'i'], [['a', 'u', 'g', 'u', 's', 't']]), (['e', 'm', 'i', 'a', 's', 'e', 'l', 'e'], [['m', 'a', 'y']]), (['e', 's', 'a', 'ɓ', 'a', 's', 'u'], [['s', 'a', 't', 'u', 'r', 'd', 'a', 'y']]), (['n', 'y', 'ɛ', 't', 'ɛ', 'k', 'i'], [['s', 'e', 'p', 't', 'e', 'm', 'b', 'e', 'r']]), (['d', 'i', 'm', 'ɔ', 'd', 'i'], [['j', 'a', 'n', 'u', 'a', 'r', 'y']]), (['d', 'i', 's', 'a', 'm', 'a'], [['w', 'e', 'e', 'k']]), (['d', 'i', 'ɓ', 'a', 'ɓ', 'a'], [['a', 'p', 'r', 'i', 'l']]), (['e', 'b', 'y', 'a', 'm', 'u'], [['p', 'm']]), (['e', 'l', 'a', 'ŋ', 'g', 'ɛ'], [['d', 'e', 'c', 'e', 'm', 'b', 'e', 'r']]), (['m', 'a', 'y', 'e', 's', 'ɛ'], [['o', 'c', 't', 'o', 'b', 'e', 'r']]), (['m', 'u', 'k', 'ɔ', 's', 'u'], [['w', 'e', 'd', 'n', 'e', 's', 'd', 'a', 'y']]), (['t', 'i', 'n', 'i', 'n', 'i'], [['n', 'o', 'v', 'e', 'm', 'b', 'e', 'r']]), (['ŋ', 'g', 'a', 'n', 'd', 'ɛ'], [['h', 'o', 'u', 'r']]), (['ŋ', 'g', 'ɔ', 'n', 'd', 'ɛ'], [['f', 'e', 'b', 'r', 'u', 'a', 'r', 'y']]), (['ɗ', 'o', 'n', 'ɛ', 's', 'u'], [['f', 'r', 'i', 'd', 'a', 'y']]), (['b', 'u', 'n', 'y', 'a'], [['d', 'a', 'y']]), (['i', 'd', 'i', 'ɓ', 'a'], [['a', 'm']]), (['k', 'w', 'a', 's', 'u'], [['t', 'u', 'e', 's', 'd', 'a', 'y']]), (['n', 'd', 'ɔ', 'k', 'ɔ'], [['m', 'i', 'n', 'u', 't', 'e']]), (['p', 'i', 'n', 'd', 'i'], [['s', 'e', 'c', 'o', 'n', 'd']]), (['ŋ', 'g', 'i', 's', 'u'], [['t', 'h', 'u', 'r', 's', 'd', 'a', 'y']]), (['m', 'ɔ', 'd', 'i'], [['m', 'o', 'n', 't', 'h']]), (['m', 'ɔ', 's', 'u'], [['m', 'o', 'n', 'd', 'a', 'y']]), (['n', 'y', 'ɛ', 't'], [['s', 'e', 'p', 't', 'e', 'm', 'b', 'e', 'r']]), (['s', 'ɔ', 'ŋ', 'ɛ'], [['m', 'a', 'r', 'c', 'h']]), (['ŋ', 'g', 'ɔ', 'n'], [['f', 'e', 'b', 'r', 'u', 'a', 'r', 'y']]), (['d', 'i', 'ŋ'], [['a', 'u', 'g', 'u', 's', 't']]), (['d', 'i', 'ɓ'], [['a', 'p', 'r', 'i', 'l']]), (['e', 'l', 'a'], [['d', 'e', 'c', 'e', 'm', 'b', 'e', 'r']]), (['e', 'm', 'i'], [['m', 'a', 'y']]), (['e', 's', 'a'], [['s', 'a', 't', 'u', 'r', 'd', 'a', 'y']]), (['e', 's', 'ɔ'], [['j', 'u', 'n', 'e']]), (['e', 't', 'i'], [['s', 'u', 'n', 'd', 'a', 'y']]), (['g', 'm', 't'], [['g', 'm', 't']]), (['k', 'w', 'a'], [['t', 'u', 'e', 's', 'd', 'a', 'y']]), (['m', 'a', 'd'], [['j', 'u', 'l', 'y']]), (['m', 'a', 'y'], [['o', 'c', 't', 'o', 'b', 'e', 'r']]), (['m', 'b', 'u'], [['y', 'e', 'a', 'r']]), (['m', 'u', 'k'], [['w', 'e', 'd', 'n', 'e', 's', 'd', 'a', 'y']]), (['m', 'ɔ', 's'], [['m', 'o', 'n', 'd', 'a', 'y']]), (['s', 'ɔ', 'ŋ'], [['m', 'a', 'r', 'c', 'h']]), (['t', 'i', 'n'], [['n', 'o', 'v', 'e', 'm', 'b', 'e', 'r']]), (['u', 't', 'c'], [['u', 't', 'c']]), (['ŋ', 'g', 'i'], [['t', 'h', 'u', 'r', 's', 'd', 'a', 'y']]), (['ɗ', 'o', 'n'], [['f', 'r', 'i', 'd', 'a', 'y']]), (['a', 'm'], [['a', 'm']]), (['d', 'i'], [['j', 'a', 'n', 'u', 'a', 'r', 'y']]), (['e', 't'], [['s', 'u', 'n', 'd', 'a', 'y']]), (['p', 'm'], [['p', 'm']]), ([' '], [[' ']]), (['\''], [[]]), (['+'], [['+']]), ([','], [[]]), (['-'], [['-']]), (['.'], [['.']]), (['/'], [['/']]), ([':'], [[':']]), ([';'], [[]]), (['@'], [[]]), (['['], [[]]), ([']'], [[]]), (['z'], [['z']]), (['|'], [[]])]
  relativeType := [(['k', 'i', 'ɛ', 'l', 'ɛ', ' ', 'n', 'i', 't', 'o', 'm', 'b', 'i'], ['1', ' ', 'd', 'a', 'y', ' ', 'a', 'g', 'o']), (['t', 'h', 'i', 's', ' ', 'm', 'i', 'n', 'u', 't', 'e'], ['0', ' ', 'm', 'i', 'n', 'u', 't', 'e', ' ', 'a', 'g', 'o']), (['l', 'a', 's', 't', ' ', 'm', 'o', 'n', 't', 'h'], ['1', ' ', 'm', 'o', 'n', 't', 'h', ' ', 'a', 'g', 'o']), (['n', 'e', 'x', 't', ' ', 'm', 'o', 'n', 't', 'h'], ['i', 'n', ' ', '1', ' ', 'm', 'o', 'n', 't', 'h']), (['t', 'h', 'i', 's', ' ', 'm', 'o', 'n', 't', 'h'], ['0', ' ', 'm', 'o', 'n', 't', 'h', ' ', 'a', 'g', 'o']), (['l', 'a', 's', 't', ' ', 'w', 'e', 'e', 'k'], ['1', ' ', 'w', 'e', 'e', 'k', ' ', 'a', 'g', 'o']), (['l', 'a', 's', 't', ' ', 'y', 'e', 'a', 'r'], ['1', ' ', 'y', 'e', 'a', 'r', ' ', 'a', 'g', 'o']), (['n', 'e', 'x', 't', ' ', 'w', 'e', 'e', 'k'], ['i', 'n', ' ', '1', ' ', 'w', 'e', 'e', 'k']), (['n', 'e', 'x', 't', ' ', 'y', 'e', 'a', 'r'], ['i', 'n', ' ', '1', ' ', 'y', 'e', 'a', 'r']), (['t', 'h', 'i', 's', ' ', 'h', 'o', 'u', 'r'], ['0', ' ', 'h', 'o', 'u', 'r', ' ', 'a', 'g', 'o']), (['t', 'h', 'i', 's', ' ', 'w', 'e', 'e', 'k'], ['0', ' ', 'w', 'e', 'e', 'k', ' ', 'a', 'g', 'o']), (['t', 'h', 'i', 's', ' ', 'y', 'e', 'a', 'r'], ['0', ' ', 'y', 'e', 'a', 'r', ' ', 'a', 'g', 'o']), (['k', 'i', 'ɛ', 'l', 'ɛ'], ['i', 'n', ' ', '1', ' ', 'd', 'a', 'y']), (['w', 'ɛ', 'ŋ', 'g', 'ɛ'], ['0', ' ', 'd', 'a', 'y', ' ', 'a', 'g', 'o']), (['n', 'o', 'w'], ['0', ' ', 's', 'e', 'c', 'o', 'n', 'd', ' ', 'a', 'g', 'o'])]

/-- internal/data/dyo.go: `dyo_Locale`, dictionary. -/
def dyoDict : LangData where
  name := ['d', 'y', 'o']
  translations := [(['s', 'e', 't', 't', 'e', 'm', 'b', 'a', 'r'], [['s', 'e', 'p', 't', 'e', 'm', 'b', 'e', 'r']]), (['a', 'r', 'a', 'm', 'i', 's', 'a', 'y'], [['t', 'h', 'u', 'r', 's', 'd', 'a', 'y']]), (['d', 'i', 's', 'a', 'm', 'b', 'a', 'r'], [['d', 'e', 'c', 'e', 'm', 'b', 'e', 'r']]), (['n', 'o', 'v', 'e', 'm', 'b', 'a', 'r'], [['n', 'o', 'v', 'e', 'm', 'b', 'e', 'r']]), (['a', 'l', 'a', 'r', 'b', 'a', 'y'], [['w', 'e', 'd', 'n', 'e', 's', 'd', 'a', 'y']]), (['f', 'e', 'b', 'i', 'r', 'i', 'e'], [['f', 'e', 'b', 'r', 'u', 'a', 'r', 'y']]), (['o', 'k', 't', 'o', 'b', 'a', 'r'], [['o', 'c', 't', 'o', 'b', 'e', 'r']]), (['a', 'b', 'u', 'r', 'i', 'l'], [['a', 'p', 'r', 'i', 'l']]), (['a', 'r', 'j', 'u', 'm', 'a'], [['f', 'r', 'i', 'd', 'a', 'y']]), (['f', 'u', 'l', 'e', 'e', 'ŋ'], [['m', 'o', 'n', 't', 'h']]), (['l', 'o', 'o', 'k', 'u', 'ŋ'], [['w', 'e', 'e', 'k']]), (['m', 'i', 'n', 'u', 't', 'e'], [['m', 'i', 'n', 'u', 't', 'e']]), (['s', 'a', 'n', 'v', 'i', 'e'], [['j', 'a', 'n', 'u', 'a', 'r', 'y']]), (['s', 'e', 'c', 'o', 'n', 'd'], [['s', 'e', 'c', 'o', 'n', 'd']]), (['s', 'i', 'b', 'i', 't', 'i'], [['s', 'a', 't', 'u', 'r', 'd', 'a', 'y']]), (['s', 'u', 'u', 'y', 'e', 'e'], [['j', 'u', 'l', 'y']]), (['t', 'a', 'l', 'a', 't', 'a'], [['t', 'u', 'e', 's', 'd', 'a', 'y']]), (['d', 'i', 'm', 'a', 's'], [['s', 'u', 'n', 'd', 'a', 'y']]), (['f', 'u', 'n', 'a', 'k'], [['d', 'a', 'y']]), (['t', 'e', 'n', 'e', 'ŋ'], [['m', 'o', 'n', 'd', 'a', 'y']]), (['e', 'm', 'i', 't'], [['y', 'e', 'a', 'r']]), (['h', 'o', 'u', 'r'], [['h', 'o', 'u', 'r']]), (['m', 'a', 'r', 's'], [['m', 'a', 'r', 'c', 'h']]), (['s', 'u', 'e', 'ŋ'], [['j', 'u', 'n', 'e']]), (['a', 'l', 'a'], [['w', 'e', 'd', 'n', 'e', 's', 'd', 'a', 'y']]), (['a', 'r', 'a'], [['t', 'h', 'u', 'r', 's', 'd', 'a', 'y']]), (['a', 'r', 'j'], [['f', 'r', 'i', 'd', 'a', 'y']]), (['d', 'i', 'm'], [['s', 'u', 'n', 'd', 'a', 'y']]), (['g', 'm', 't'], [['g', 'm', 't']]), (['m', 'e', 'e'], [['m', 'a', 'y']]), (['s', 'i', 'b'], [['s', 'a', 't', 'u', 'r', 'd', 'a', 'y']]), (['t', 'a', 'l'], [['t', 'u', 'e', 's', 'd', 'a', 'y']]), (['t', 'e', 'n'], [['m', 'o', 'n', 'd', 'a', 'y']]), (['u', 't', 'c'], [['u', 't', 'c']]), (['a', 'b'], [['a', 'p', 'r', 'i', 'l']]), (['a', 'm'], [['a', 'm']]), (['d', 'e'], [['d', 'e', 'c', 'e', 'm', 'b', 'e', 'r']]), (['f', 'e'], [['f', 'e', 'b', 'r', 'u', 'a', 'r', 'y']]), (['m', 'a'], [['m', 'a', 'r', 'c', 'h']]), (['m', 'e'], [['m', 'a', 'y']]), (['n', 'o'], [['n', 'o', 'v', 'e', 'm', 'b', 'e', 'r']]), (['o', 'k'], [['o', 'c', 't', 'o', 'b', 'e', 'r']]), (['p', 'm'], [['p', 'm']]), (['s', 'a'], [['j', 'a', 'n', 'u', 'a', 'r', 'y']]), (['s', 'e'], [['s', 'e', 'p', 't', 'e', 'm', 'b', 'e', 'r']]), (['s', 'u'], [['j', 'u', 'l', 'y'], ['j', 'u', 'n', 'e']]), (['u', 't'], [['a', 'u', 'g', 'u', 's', 't']]), ([' '], [[' ']]), (['\''], [[]]), (['+'], [['+']]), ([','], [[]]), (['-'], [['-']]), (['.'], [['.']]), (['/'], [['/']]), ([':'], [[':']]), ([';'], [[]]), (['@'], [[]]), (['['], [[]]), ([']'], [[]]), (['z'], [['z']]), (['|'], [[]])]
  relativeType := [(['t', 'h', 'i', 's', ' ', 'm', 'i', 'n', 'u', 't', 'e'], ['0', ' ', 'm', 'i', 'n', 'u', 't', 'e', ' ', 'a', 'g', 'o']), (['l', 'a', 's', 't', ' ', 'm', 'o', 'n', 't', 'h'], ['1', ' ', 'm', 'o', 'n', 't', 'h', ' ', 'a', 'g', 'o']), (['n', 'e', 'x', 't', ' ', 'm', 'o', 'n', 't', 'h'], ['i', 'n', ' ', '1', ' ', 'm', 'o', 'n', 't', 'h']), (['t', 'h', 'i', 's', ' ', 'm', 'o', 'n', 't', 'h'], ['0', ' ', 'm', 'o', 'n', 't', 'h', ' ', 'a', 'g', 'o']), (['l', 'a', 's', 't', ' ', 'w', 'e', 'e', 'k'], ['1', ' ', 'w', 'e', 'e', 'k', ' ', 'a', 'g', 'o']), (['l', 'a', 's', 't', ' ', 'y', 'e', 'a', 'r'], ['1', ' ', 'y', 'e', 'a', 'r', ' ', 'a', 'g', 'o']), (['n', 'e', 'x', 't', ' ', 'w', 'e', 'e', 'k'], ['i', 'n', ' ', '1', ' ', 'w', 'e', 'e', 'k']), (['n', 'e', 'x', 't', ' ', 'y', 'e', 'a', 'r'], ['i', 'n', ' ', '1', ' ', 'y', 'e', 'a', 'r']), (['t', 'h', 'i', 's', ' ', 'h', 'o', 'u', 'r'], ['0', ' ', 'h', 'o', 'u', 'r', ' ', 'a', 'g', 'o']), (['t', 'h', 'i', 's', ' ', 'w', 'e', 'e', 'k'], ['0', ' ', 'w', 'e', 'e', 'k', ' ', 'a', 'g', 'o']), (['t', 'h', 'i', 's', ' ', 'y', 'e', 'a', 'r'], ['0', ' ', 'y', 'e', 'a', 'r', ' ', 'a', 'g', 'o']), (['f', 'u', 'c', 'e', 'n'], ['1', ' ', 'd', 'a', 'y', ' ', 'a', 'g', 'o']), (['k', 'a', 'j', 'o', 'm'], ['i', 'n', ' ', '1', ' ', 'd', 'a', 'y']), (['j', 'a', 'a', 't'], ['0', ' ', 'd', 'a', 'y', ' ', 'a', 'g', 'o']), (['n', 'o', 'w'], ['0', ' ', 's', 'e', 'c', 'o', 'n', 'd', ' ', 'a', 'g', 'o'])]

/-- internal/data/dz.go: `dz_Locale`, dictionary. -/
def dzDict : LangData where
  name := ['d', 'z']
  translations := [(['ས', '་', 'ཟ', '་', 'བ', 'ཅ', '་', 'ག', 'ཅ', 'ག', '་', 'པ', '་'], [['n', 'o', 'v', 'e', 'm', 'b', 'e', 'r']]), (['ས', '་', 'ཟ', '་', 'བ', 'ཅ', '་', 'ག', 'ཉ', 'ས', '་', 'པ', '་'], [['d', 'e', 'c', 'e', 'm', 'b', 'e', 'r']]), (['ག', 'ཟ', 'འ', '་', 'མ', 'ག', '་', 'ད', 'མ', 'ར', '་'], [['m', 'o', 'n', 'd', 'a', 'y']]), (['ཟ', '་', 'བ', 'ཅ', '་', 'ག', 'ཅ', 'ག', '་', 'པ', '་'], [['n', 'o', 'v', 'e', 'm', 'b', 'e', 'r']]), (['ཟ', '་', 'བ', 'ཅ', '་', 'ག', 'ཉ', 'ས', '་', 'པ', '་'], [['d', 'e', 'c', 'e', 'm', 'b', 'e', 'r']]), (['ག', 'ཟ', 'འ', '་', 'པ', '་', 'ས', 'ང', 'ས', '་'], [['t', 'h', 'u', 'r', 's', 'd', 'a', 'y']]), (['ས', '་', 'ཟ', '་', 'ག', 'ཉ', 'ས', '་', 'པ', '་'], [['f', 'e', 'b', 'r', 'u', 'a', 'r', 'y']]), (['ས', '་', 'ཟ', '་', 'ག', 'ས', 'མ', '་', 'པ', '་'], [['m', 'a', 'r', 'c', 'h']]), (['ས', '་', 'ཟ', '་', 'བ', 'ད', 'ན', '་', 'པ', '་'], [['j', 'u', 'l', 'y']]), (['ས', '་', 'ཟ', '་', 'བ', 'ར', 'ད', '་', 'པ', '་'], [['a', 'u', 'g', 'u', 's', 't']]), (['ག', 'ཟ', 'འ', '་', 'ཕ', 'ར', '་', 'བ', '་'], [['w', 'e', 'd', 'n', 'e', 's', 'd', 'a', 'y']]), (['ག', 'ཟ', 'འ', '་', 'ལ', 'ག', '་', 'པ', '་'], [['t', 'u', 'e', 's', 'd', 'a', 'y']]), (['ག', 'ཟ', 'འ', '་', 'ས', 'ན', '་', 'པ', '་'], [['f', 'r', 'i', 'd', 'a', 'y']]), (['ས', '་', 'ཟ', '་', 'ད', 'ག', '་', 'པ', '་'], [['s', 'e', 'p', 't', 'e', 'm', 'b', 'e', 'r']]), (['ས', '་', 'ཟ', '་', 'བ', 'ཅ', '་', 'པ', '་'], [['o', 'c', 't', 'o', 'b', 'e', 'r']]), (['ག', 'ཟ', 'འ', '་', 'ཉ', '་', 'མ', '་'], [['s', 'a', 't', 'u', 'r', 'd', 'a', 'y']]), (['ག', 'ཟ', 'འ', '་', 'ཟ', '་', 'བ', '་'], [['s', 'u', 'n', 'd', 'a', 'y']]), (['ཟ', '་', 'ག', 'ཉ', 'ས', '་', 'པ', '་'], [['f', 'e', 'b', 'r', 'u', 'a', 'r', 'y']]), (['ཟ', '་', 'ག', 'ས', 'མ', '་', 'པ', '་'], [['m', 'a', 'r', 'c', 'h']]), (['ཟ', '་', 'བ', 'ད', 'ན', '་', 'པ', '་'], [['j', 'u', 'l', 'y']]), (['ཟ', '་', 'བ', 'ར', 'ད', '་', 'པ', '་'], [['a', 'u', 'g', 'u', 's', 't']]), (['ས', '་', 'ཟ', '་', 'ད', 'ག', '་', 'པ'], [['j', 'u', 'n', 'e']]), (['ས', '་', 'ཟ', '་', 'ད', 'ང', 'པ', '་'], [['j', 'a', 'n', 'u', 'a', 'r', 'y']]), (['ས', '་', 'ཟ', '་', 'བ', 'ཞ', '་', 'པ'], [['a', 'p', 'r', 'i', 'l']]), (['ས', '་', 'ཟ', '་', 'ལ', '་', 'པ', '་'], [['m', 'a', 'y']]), (['ཟ', '་', 'ད', 'ག', '་', 'པ', '་'], [['s', 'e', 'p', 't', 'e', 'm', 'b', 'e', 'r']]), (['ཟ', '་', 'བ', 'ཅ', '་', 'པ', '་'], [['o', 'c', 't', 'o', 'b', 'e', 'r']]), (['ཟ', '་', 'བ', 'ཞ', '་', 'པ', '་'], [['a', 'p', 'r', 'i', 'l']]), (['བ', 'ད', 'ན', '་', 'ཕ', 'ག'], [['w', 'e', 'e', 'k']]), (['ཟ', '་', 'ད', 'ག', '་', 'པ'], [['j', 'u', 'n', 'e']]), (['ཟ', '་', 'ད', 'ང', 'པ', '་'], [['j', 'a', 'n', 'u', 'a', 'r', 'y']]), (['ཟ', '་', 'ལ', '་', 'པ', '་'], [['m', 'a', 'y']]), (['ས', 'ར', '་', 'ཆ', '་'], [['s', 'e', 'c', 'o', 'n', 'd']]), (['ཆ', '་', 'ཚ', 'ད'], [['h', 'o', 'u', 'r']]), (['ཕ', '་', 'ཆ', '་'], [['p', 'm']]), (['ཟ', '་', '༡', '༠'], [['o', 'c', 't', 'o', 'b', 'e', 'r']]), (['ཟ', '་', '༡', '༡'], [['n', 'o', 'v', 'e', 'm', 'b', 'e', 'r']]), (['ཟ', '་', '༡', '༢'], [['d', 'e', 'c', 'e', 'm', 'b', 'e', 'r']]), (['ཟ', '་', 'ཝ', '་'], [['m', 'o', 'n', 't', 'h']]), (['ས', '་', 'ཆ', '་'], [['a', 'm']]), (['ས', 'ང', 'ས', '་'], [['t', 'h', 'u', 'r', 's', 'd', 'a', 'y']]), (['ས', 'ར', '་', 'མ'], [['m', 'i', 'n', 'u', 't', 'e']]), (['g', 'm', 't'], [['g', 'm', 't']]), (['u', 't', 'c'], [['u', 't', 'c']]), (['ཕ', 'ར', '་'], [['w', 'e', 'd', 'n', 'e', 's', 'd', 'a', 'y']]), (['མ', 'ར', '་'], [['m', 'o', 'n', 'd', 'a', 'y']]), (['ཚ', 'ས', '་'], [['d', 'a', 'y']]), (['ཟ', '་', '༡'], [['j', 'a', 'n', 'u', 'a', 'r', 'y']]), (['ཟ', '་', '༢'], [['f', 'e', 'b', 'r', 'u', 'a', 'r', 'y']]), (['ཟ', '་', '༣'], [['m', 'a', 'r', 'c', 'h']]), (['ཟ', '་', '༤'], [['a', 'p', 'r', 'i', 'l']]), (['ཟ', '་', '༥'], [['m', 'a', 'y']]), (['ཟ', '་', '༦'], [['j', 'u', 'n', 'e']]), (['ཟ', '་', '༧'], [['j', 'u', 'l', 'y']]), (['ཟ', '་', '༨'], [['a', 'u', 'g', 'u', 's', 't']]), (['ཟ', '་', '༩'], [['s', 'e', 'p', 't', 'e', 'm', 'b', 'e', 'r']]), (['ལ', 'ག', '་'], [['t', 'u', 'e', 's', 'd', 'a', 'y']]), (['ས', 'ན', '་'], [['f', 'r', 'i', 'd', 'a', 'y']]), (['a', 'm'], [['a', 'm']]), (['p', 'm'], [['p', 'm']]), (['ཉ', '་'], [['s', 'a', 't', 'u', 'r', 'd', 'a', 'y']]), (['ཟ', '་'], [['s', 'u', 'n', 'd', 'a', 'y']]), ([' '], [[' ']]), (['\''], [[]]), (['+'], [['+']]), ([','], [[]]), (['-'], [['-']]), (['.'], [['.']]), (['/'], [['/']]), ([':'], [[':']]), ([';'], [[]]), (['@'], [[]]), (['['], [[]]), ([']'], [[]]), (['z'], [['z']]), (['|'], [[]]), (['ལ'], [['y', 'e', 'a', 'r']])]
  relativeType := [(['t', 'h', 'i', 's', ' ', 'm', 'i', 'n', 'u', 't', 'e'], ['0', ' ', 'm', 'i', 'n', 'u', 't', 'e', ' ', 'a', 'g', 'o']), (['l', 'a', 's', 't', ' ', 'm', 'o', 'n', 't', 'h'], ['1', ' ', 'm', 'o', 'n', 't', 'h', ' ', 'a', 'g', 'o']), (['n', 'e', 'x', 't', ' ', 'm', 'o', 'n', 't', 'h'], ['i', 'n', ' ', '1', ' ', 'm', 'o', 'n', 't', 'h']), (['t', 'h', 'i', 's', ' ', 'm', 'o', 'n', 't', 'h'], ['0', ' ', 'm', 'o', 'n', 't', 'h', ' ', 'a', 'g', 'o']), (['l', 'a', 's', 't', ' ', 'w', 'e', 'e', 'k'], ['1', ' ', 'w', 'e', 'e', 'k', ' ', 'a', 'g', 'o']), (['l', 'a', 's', 't', ' ', 'y', 'e', 'a', 'r'], ['1', ' ', 'y', 'e', 'a', 'r', ' ', 'a', 'g', 'o']), (['n', 'e', 'x', 't', ' ', 'w', 'e', 'e', 'k'], ['i', 'n', ' ', '1', ' ', 'w', 'e', 'e', 'k']), (['n', 'e', 'x', 't', ' ', 'y', 'e', 'a', 'r'], ['i', 'n', ' ', '1', ' ', 'y', 'e', 'a', 'r']), (['t', 'h', 'i', 's', ' ', 'h', 'o', 'u', 'r'], ['0', ' ', 'h', 'o', 'u', 'r', ' ', 'a', 'g', 'o']), (['t', 'h', 'i', 's', ' ', 'w', 'e', 'e', 'k'], ['0', ' ', 'w', 'e', 'e', 'k', ' ', 'a', 'g', 'o']), (['t', 'h', 'i', 's', ' ', 'y', 'e', 'a', 'r'], ['0', ' ', 'y', 'e', 'a', 'r', ' ', 'a', 'g', 'o']), (['ན', 'ང', 'ས', '་', 'པ', '་'], ['i', 'n', ' ', '1', ' ', 'd', 'a', 'y']), (['ད', '་', 'ར', 'ས', '་'], ['0', ' ', 'd', 'a', 'y', ' ', 'a', 'g', 'o']), (['ཁ', '་', 'ཙ', '་'], ['1', ' ', 'd', 'a', 'y', ' ', 'a', 'g', 'o']), (['n', 'o', 'w'], ['0', ' ', 's', 'e', 'c', 'o', 'n', 'd', ' ', 'a', 'g', 'o'])]

/-- internal/data/ebu.go: `ebu_Locale`, dictionary. -/
def ebuDict : LangData where
  name := ['e', 'b', 'u']
  translations := [(['m', 'w', 'e', 'r', 'i', ' ', 'w', 'a', ' ', 'i', 'k', 'u', 'm', 'i', ' ', 'n', 'a', ' ', 'k', 'a', 'i', 'r', 'i'], [['d', 'e', 'c', 'e', 'm', 'b', 'e', 'r']]), (['m', 'w', 'e', 'r', 'i', ' ', 'w', 'a', ' ', 'i', 'k', 'u', 'm', 'i', ' ', 'n', 'a', ' ', 'u', 'm', 'w', 'e'], [['n', 'o', 'v', 'e', 'm', 'b', 'e', 'r']]), (['m', 'w', 'e', 'r', 'i', ' ', 'w', 'a', ' ', 'g', 'a', 't', 'a', 'n', 't', 'a', 't', 'u'], [['j', 'u', 'n', 'e']]), (['m', 'w', 'e', 'r', 'i', ' ', 'w', 'a', ' ', 'm', 'u', 'g', 'w', 'a', 'n', 'j', 'a'], [['j', 'u', 'l', 'y']]), (['m', 'w', 'e', 'r', 'i', ' ', 'w', 'a', ' ', 'k', 'a', 't', 'h', 'a', 't', 'u'], [['m', 'a', 'r', 'c', 'h']]), (['m', 'w', 'e', 'r', 'i', ' ', 'w', 'a', ' ', 'g', 'a', 't', 'a', 'n', 'o'], [['m', 'a', 'y']]), (['m', 'w', 'e', 'r', 'i', ' ', 'w', 'a', ' ', 'k', 'a', 'n', 'a', 'n', 'a'], [['a', 'u', 'g', 'u', 's', 't']]), (['m', 'w', 'e', 'r', 'i', ' ', 'w', 'a', ' ', 'i', 'k', 'u', 'm', 'i'], [['o', 'c', 't', 'o', 'b', 'e', 'r']]), (['m', 'w', 'e', 'r', 'i', ' ', 'w', 'a', ' ', 'k', 'a', 'i', 'r', 'i'], [['f', 'e', 'b', 'r', 'u', 'a', 'r', 'y']]), (['m', 'w', 'e', 'r', 'i', ' ', 'w', 'a', ' ', 'k', 'e', 'n', 'd', 'a'], [['s', 'e', 'p', 't', 'e', 'm', 'b', 'e', 'r']]), (['m', 'w', 'e', 'r', 'i', ' ', 'w', 'a', ' ', 'm', 'b', 'e', 'r', 'e'], [['j', 'a', 'n', 'u', 'a', 'r', 'y']]), (['m', 'w', 'e', 'r', 'i', ' ', 'w', 'a', ' ', 'k', 'a', 'n', 'a'], [['a', 'p', 'r', 'i', 'l']]), (['n', 'j', 'u', 'm', 'a', 'm', 'o', 't', 'h', 'i', 'i'], [['s', 'a', 't', 'u', 'r', 'd', 'a', 'y']]), (['n', 'j', 'u', 'm', 'a', 't', 'a', 'n', 'o'], [['w', 'e', 'd', 'n', 'e', 's', 'd', 'a', 'y']]), (['n', 'j', 'u', 'm', 'a', 't', 'a', 't', 'u'], [['m', 'o', 'n', 'd', 'a', 'y']]), (['a', 'r', 'a', 'm', 'i', 't', 'h', 'i'], [['t', 'h', 'u', 'r', 's', 'd', 'a', 'y']]), (['m', 'u', 't', 'h', 'e', 'n', 'y', 'a'], [['d', 'a', 'y']]), (['n', 'j', 'u', 'm', 'a', 'i', 'n', 'e'], [['t', 'u', 'e', 's', 'd', 'a', 'y']]), (['n', 'd', 'a', 'g', 'i', 'k', 'a'], [['m', 'i', 'n', 'u', 't', 'e']]), (['s', 'e', 'k', 'o', 'n', 'd', 'i'], [['s', 'e', 'c', 'o', 'n', 'd']]), (['k', 'i', 'u', 'm', 'i', 'a'], [['w', 'e', 'e', 'k'], ['s', 'u', 'n', 'd', 'a', 'y']]), (['n', 'j', 'u', 'm', 'a', 'a'], [['f', 'r', 'i', 'd', 'a', 'y']]), (['i', 't', 'h', 'a', 'a'], [['h', 'o', 'u', 'r']]), (['m', 'w', 'a', 'k', 'a'], [['y', 'e', 'a', 'r']]), (['m', 'w', 'e', 'r', 'i'], [['m', 'o', 'n', 't', 'h']]), (['a', 'r', 'm'], [['t', 'h', 'u', 'r', 's', 'd', 'a', 'y']]), (['g', 'a', 'n'], [['j', 'u', 'n', 'e']]), (['g', 'a', 't'], [['m', 'a', 'y']]), (['g', 'm', 't'], [['g', 'm', 't']]), (['i', 'g', 'i'], [['d', 'e', 'c', 'e', 'm', 'b', 'e', 'r']]), (['i', 'k', 'u'], [['o', 'c', 't', 'o', 'b', 'e', 'r']]), (['i', 'm', 'w'], [['n', 'o', 'v', 'e', 'm', 'b', 'e', 'r']]), (['i', 'n', 'e'], [['t', 'u', 'e', 's', 'd', 'a', 'y']]), (['k', 'a', 'i'], [['f', 'e', 'b', 'r', 'u', 'a', 'r', 'y']]), (['k', 'a', 'n'], [['a', 'p', 'r', 'i', 'l']]), (['k', 'a', 't'], [['m', 'a', 'r', 'c', 'h']]), (['k', 'e', 'n'], [['s', 'e', 'p', 't', 'e', 'm', 'b', 'e', 'r']]), (['k', 'm', 'a'], [['s', 'u', 'n', 'd', 'a', 'y']]), (['k', 'n', 'n'], [['a', 'u', 'g', 'u', 's', 't']]), (['m', 'a', 'a'], [['f', 'r', 'i', 'd', 'a', 'y']]), (['m', 'b', 'e'], [['j', 'a', 'n', 'u', 'a', 'r', 'y']]), (['m', 'u', 'g'], [['j', 'u', 'l', 'y']]), (['n', 'm', 'm'], [['s', 'a', 't', 'u', 'r', 'd', 'a', 'y']]), (['t', 'a', 'n'], [['w', 'e', 'd', 'n', 'e', 's', 'd', 'a', 'y']]), (['t', 'a', 't'], [['m', 'o', 'n', 'd', 'a', 'y']]), (['u', 't', 'c'], [['u', 't', 'c']]), (['a', 'm'], [['a', 'm']]), (['k', 'i'], [['a', 'm']]), (['p', 'm'], [['p', 'm']]), (['u', 't'], [['p', 'm']]), ([' '], [[' ']]), (['\''], [[]]), (['+'], [['+']]), ([','], [[]]), (['-'], [['-']]), (['.'], [['.']]), (['/'], [['/']]), ([':'], [[':']]), ([';'], [[]]), (['@'], [[]]), (['['], [[]]), ([']'], [[]]), (['z'], [['z']]), (['|'], [[]])]
  relativeType := [(['t', 'h', 'i', 's', ' ', 'm', 'i', 'n', 'u', 't', 'e'], ['0', ' ', 'm', 'i', 'n', 'u', 't', 'e', ' ', 'a', 'g', 'o']), (['l', 'a', 's', 't', ' ', 'm', 'o', 'n', 't', 'h'], ['1', ' ', 'm', 'o', 'n', 't', 'h', ' ', 'a', 'g', 'o']), (['n', 'e', 'x', 't', ' ', 'm', 'o', 'n', 't', 'h'], ['i', 'n', ' ', '1', ' ', 'm', 'o', 'n', 't', 'h']), (['t', 'h', 'i', 's', ' ', 'm', 'o', 'n', 't', 'h'], ['0', ' ', 'm', 'o', 'n', 't', 'h', ' ', 'a', 'g', 'o']), (['l', 'a', 's', 't', ' ', 'w', 'e', 'e', 'k'], ['1', ' ', 'w', 'e', 'e', 'k', ' ', 'a', 'g', 'o']), (['l', 'a', 's', 't', ' ', 'y', 'e', 'a', 'r'], ['1', ' ', 'y', 'e', 'a', 'r', ' ', 'a', 'g', 'o']), (['n', 'e', 'x', 't', ' ', 'w', 'e', 'e', 'k'], ['i', 'n', ' ', '1', ' ', 'w', 'e', 'e', 'k']), (['n', 'e', 'x', 't', ' ', 'y', 'e', 'a', 'r'], ['i', 'n', ' ', '1', ' ', 'y', 'e', 'a', 'r']), (['t', 'h', 'i', 's', ' ', 'h', 'o', 'u', 'r'], ['0', ' ', 'h', 'o', 'u', 'r', ' ', 'a', 'g', 'o']), (['t', 'h', 'i', 's', ' ', 'w', 'e', 'e', 'k'], ['0', ' ', 'w', 'e', 'e', 'k', ' ', 'a', 'g', 'o']), (['t', 'h', 'i', 's', ' ', 'y', 'e', 'a', 'r'], ['0', ' ', 'y', 'e', 'a', 'r', ' ', 'a', 'g', 'o']), (['u', 'm', 'u', 'n', 't', 'h', 'i'], ['0', ' ', 'd', 'a', 'y', ' ', 'a', 'g', 'o']), (['i', 'g', 'o', 'r', 'o'], ['1', ' ', 'd', 'a', 'y', ' ', 'a', 'g', 'o']), (['r', 'u', 'c', 'i', 'u'], ['i', 'n', ' ', '1', ' ', 'd', 'a', 'y']), (['n', 'o', 'w'], ['0', ' ', 's', 'e', 'c', 'o', 'n', 'd', ' ', 'a', 'g', 'o'])]

/-- internal/data/ee.go: `ee_Locale`, dictionary. -/
def eeDict : LangData where
  name := ['e', 'e']
  translations := [(['a', 'd', 'e', 'ɛ', 'm', 'e', 'k', 'p', 'ɔ', 'x', 'e'], [['n', 'o', 'v', 'e', 'm', 'b', 'e', 'r']]), (['k', 'ɔ', 's', 'i', 'ɖ', 'a', ' ', 'ɖ', 'e', 'k', 'a'], [['w', 'e', 'e', 'k']]), (['d', 'e', 'a', 's', 'i', 'a', 'm', 'i', 'm', 'e'], [['a', 'u', 'g', 'u', 's', 't']]), (['a', 'ɖ', 'a', 'b', 'a', 'ƒ', 'o', 'ƒ', 'o'], [['m', 'i', 'n', 'u', 't', 'e']]), (['a', 'n', 'y', 'ɔ', 'n', 'y', 'ɔ'], [['s', 'e', 'p', 't', 'e', 'm', 'b', 'e', 'r']]), (['m', 'e', 'm', 'l', 'e', 'ɖ', 'a'], [['s', 'a', 't', 'u', 'r', 'd', 'a', 'y']]), (['s', 'i', 'a', 'm', 'l', 'ɔ', 'm'], [['j', 'u', 'l', 'y']]), (['a', 'f', 'ɔ', 'f', 'i', 'e'], [['a', 'p', 'r', 'i', 'l']]), (['d', 'z', 'o', 'd', 'z', 'e'], [['f', 'e', 'b', 'r', 'u', 'a', 'r', 'y']]), (['g', 'a', 'ƒ', 'o', 'ƒ', 'o'], [['h', 'o', 'u', 'r']]), (['k', 'ɔ', 's', 'i', 'ɖ', 'a'], [['s', 'u', 'n', 'd', 'a', 'y']]), (['s', 'e', 'k', 'e', 'n', 'd'], [['s', 'e', 'c', 'o', 'n', 'd']]), (['t', 'e', 'd', 'o', 'x', 'e'], [['m', 'a', 'r', 'c', 'h']]), (['y', 'a', 'w', 'o', 'ɖ', 'a'], [['t', 'h', 'u', 'r', 's', 'd', 'a', 'y']]), (['b', 'l', 'a', 'ɖ', 'a'], [['t', 'u', 'e', 's', 'd', 'a', 'y']]), (['d', 'z', 'o', 'm', 'e'], [['d', 'e', 'c', 'e', 'm', 'b', 'e', 'r']]), (['d', 'z', 'o', 'v', 'e'], [['j', 'a', 'n', 'u', 'a', 'r', 'y']]), (['d', 'z', 'o', 'ɖ', 'a'], [['m', 'o', 'n', 'd', 'a', 'y']]), (['ŋ', 'k', 'e', 'k', 'e'], [['d', 'a', 'y']]), (['ɣ', 'e', 't', 'r', 'ɔ'], [['p', 'm']]), (['ɣ', 'l', 'e', 't', 'i'], [['m', 'o', 'n', 't', 'h']]), (['d', 'a', 'm', 'a'], [['m', 'a', 'y']]), (['f', 'i', 'ɖ', 'a'], [['f', 'r', 'i', 'd', 'a', 'y']]), (['k', 'e', 'l', 'e'], [['o', 'c', 't', 'o', 'b', 'e', 'r']]), (['k', 'u', 'ɖ', 'a'], [['w', 'e', 'd', 'n', 'e', 's', 'd', 'a', 'y']]), (['m', 'a', 's', 'a'], [['j', 'u', 'n', 'e']]), (['a', 'd', 'e'], [['n', 'o', 'v', 'e', 'm', 'b', 'e', 'r']]), (['a', 'f', 'ɔ'], [['a', 'p', 'r', 'i', 'l']]), (['a', 'n', 'y'], [['s', 'e', 'p', 't', 'e', 'm', 'b', 'e', 'r']]), (['b', 'l', 'a'], [['t', 'u', 'e', 's', 'd', 'a', 'y']]), (['d', 'a', 'm'], [['m', 'a', 'y']]), (['d', 'e', 'a'], [['a', 'u', 'g', 'u', 's', 't']]), (['d', 'z', 'd'], [['f', 'e', 'b', 'r', 'u', 'a', 'r', 'y']]), (['d', 'z', 'm'], [['d', 'e', 'c', 'e', 'm', 'b', 'e', 'r']]), (['d', 'z', 'o'], [['m', 'o', 'n', 'd', 'a', 'y']]), (['d', 'z', 'v'], [['j', 'a', 'n', 'u', 'a', 'r', 'y']]), (['f', 'i', 'ɖ'], [['f', 'r', 'i', 'd', 'a', 'y']]), (['g', 'm', 't'], [['g', 'm', 't']]), (['k', 'e', 'l'], [['o', 'c', 't', 'o', 'b', 'e', 'r']]), (['k', 'u', 'ɖ'], [['w', 'e', 'd', 'n', 'e', 's', 'd', 'a', 'y']]), (['k', 'ɔ', 's'], [['s', 'u', 'n', 'd', 'a', 'y']]), (['m', 'a', 's'], [['j', 'u', 'n', 'e']]), (['m', 'e', 'm'], [['s', 'a', 't', 'u', 'r', 'd', 'a', 'y']]), (['s', 'i', 'a'], [['j', 'u', 'l', 'y']]), (['t', 'e', 'd'], [['m', 'a', 'r', 'c', 'h']]), (['u', 't', 'c'], [['u', 't', 'c']]), (['y', 'a', 'w'], [['t', 'h', 'u', 'r', 's', 'd', 'a', 'y']]), (['ŋ', 'd', 'i'], [['a', 'm']]), (['a', 'm'], [['a', 'm']]), (['p', 'm'], [['p', 'm']]), (['ƒ', 'e'], [['y', 'e', 'a', 'r']]), ([' '], [[' ']]), (['\''], [[]]), (['+'], [['+']]), ([','], [[]]), (['-'], [['-']]), (['.'], [['.']]), (['/'], [['/']]), ([':'], [[':']]), ([';'], [[]]), (['@'], [[]]), (['['], [[]]), ([']'], [[]]), (['z'], [['z']]), (['|'], [[]])]
  relativeType := [(['k', 'ɔ', 's', 'i', 'ɖ', 'a', ' ', 's', 'i', ' ', 'g', 'b', 'ɔ', ' ', 'n', 'a'], ['i', 'n', ' ', '1', ' ', 'w', 'e', 'e', 'k']), (['k', 'ɔ', 's', 'i', 'ɖ', 'a', ' ', 's', 'i', ' ', 'v', 'a', ' ', 'y', 'i'], ['1', ' ', 'w', 'e', 'e', 'k', ' ', 'a', 'g', 'o']), (['ɣ', 'l', 'e', 't', 'i', ' ', 's', 'i', ' ', 'g', 'b', 'ɔ', ' ', 'n', 'a'], ['i', 'n', ' ', '1', ' ', 'm', 'o', 'n', 't', 'h']), (['ɣ', 'l', 'e', 't', 'i', ' ', 's', 'i', ' ', 'v', 'a', ' ', 'y', 'i'], ['1', ' ', 'm', 'o', 'n', 't', 'h', ' ', 'a', 'g', 'o']), (['e', 't', 's', 'ɔ', ' ', 's', 'i', ' ', 'g', 'b', 'ɔ', 'n', 'a'], ['i', 'n', ' ', '1', ' ', 'd', 'a', 'y']), (['e', 't', 's', 'ɔ', ' ', 's', 'i', ' ', 'v', 'a', ' ', 'y', 'i'], ['1', ' ', 'd', 'a', 'y', ' ', 'a', 'g', 'o']), (['ƒ', 'e', ' ', 's', 'i', ' ', 'g', 'b', 'ɔ', ' ', 'n', 'a'], ['i', 'n', ' ', '1', ' ', 'y', 'e', 'a', 'r']), (['t', 'h', 'i', 's', ' ', 'm', 'i', 'n', 'u', 't', 'e'], ['0', ' ', 'm', 'i', 'n', 'u', 't', 'e', ' ', 'a', 'g', 'o']), (['ƒ', 'e', ' ', 's', 'i', ' ', 'v', 'a', ' ', 'y', 'i'], ['1', ' ', 'y', 'e', 'a', 'r', ' ', 'a', 'g', 'o']), (['k', 'ɔ', 's', 'i', 'ɖ', 'a', ' ', 's', 'i', 'a'], ['0', ' ', 'w', 'e', 'e', 'k', ' ', 'a', 'g', 'o']), (['t', 'h', 'i', 's', ' ', 'h', 'o', 'u', 'r'], ['0', ' ', 'h', 'o', 'u', 'r', ' ', 'a', 'g', 'o']), (['ɣ', 'l', 'e', 't', 'i', ' ', 's', 'i', 'a'], ['0', ' ', 'm', 'o', 'n', 't', 'h', ' ', 'a', 'g', 'o']), (['ƒ', 'e', ' ', 's', 'i', 'a'], ['0', ' ', 'y', 'e', 'a', 'r', ' ', 'a', 'g', 'o']), (['e', 'g', 'b', 'e'], ['0', ' ', 'd', 'a', 'y', ' ', 'a', 'g', 'o']), (['f', 'i', 'f', 'i'], ['0', ' ', 's', 'e', 'c', 'o', 'n', 'd', ' ', 'a', 'g', 'o'])]

/-- internal/data/ee.go: `ee_TG_Locale`, dictionary. -/
def ee_TGDict : LangData where
  name := ['e', 'e', '-', 'T', 'G']

/-- internal/data/el.go: `el_Locale`, dictionary. -/
def elDict : LangData where
  name := ['e', 'l']
  translations := [(['δ', 'ε', 'υ', 'τ', 'ε', 'ρ', 'ο', 'λ', 'ε', 'π', 'τ', 'ο'], [['s', 'e', 'c', 'o', 'n', 'd']]), (['σ', 'ε', 'π', 'τ', 'ε', 'μ', 'β', 'ρ', 'ι', 'ο', 'ς'], [['s', 'e', 'p', 't', 'e', 'm', 'b', 'e', 'r']]), (['σ', 'ε', 'π', 'τ', 'ε', 'μ', 'β', 'ρ', 'ι', 'ο', 'υ'], [['s', 'e', 'p', 't', 'e', 'm', 'b', 'e', 'r']]), (['φ', 'ε', 'β', 'ρ', 'ο', 'υ', 'α', 'ρ', 'ι', 'ο', 'ς'], [['f', 'e', 'b', 'r', 'u', 'a', 'r', 'y']]), (['φ', 'ε', 'β', 'ρ', 'ο', 'υ', 'α', 'ρ', 'ι', 'ο', 'υ'], [['f', 'e', 'b', 'r', 'u', 'a', 'r', 'y']]), (['δ', 'ε', 'κ', 'ε', 'μ', 'β', 'ρ', 'ι', 'ο', 'ς'], [['d', 'e', 'c', 'e', 'm', 'b', 'e', 'r']]), (['δ', 'ε', 'κ', 'ε', 'μ', 'β', 'ρ', 'ι', 'ο', 'υ'], [['d', 'e', 'c', 'e', 'm', 'b', 'e', 'r']]), (['ι', 'α', 'ν', 'ο', 'υ', 'α', 'ρ', 'ι', 'ο', 'ς'], [['j', 'a', 'n', 'u', 'a', 'r', 'y']]), (['ι', 'α', 'ν', 'ο', 'υ', 'α', 'ρ', 'ι', 'ο', 'υ'], [['j', 'a', 'n', 'u', 'a', 'r', 'y']]), (['α', 'υ', 'γ', 'ο', 'υ', 'σ', 'τ', 'ο', 'ς'], [['a', 'u', 'g', 'u', 's', 't']]), (['α', 'υ', 'γ', 'ο', 'υ', 'σ', 'τ', 'ο', 'υ'], [['a', 'u', 'g', 'u', 's', 't']]), (['ν', 'ο', 'ε', 'μ', 'β', 'ρ', 'ι', 'ο', 'ς'], [['n', 'o', 'v', 'e', 'm', 'b', 'e', 'r']]), (['ν', 'ο', 'ε', 'μ', 'β', 'ρ', 'ι', 'ο', 'υ'], [['n', 'o', 'v', 'e', 'm', 'b', 'e', 'r']]), (['ο', 'κ', 'τ', 'ω', 'β', 'ρ', 'ι', 'ο', 'ς'], [['o', 'c', 't', 'o', 'b', 'e', 'r']]), (['ο', 'κ', 'τ', 'ω', 'β', 'ρ', 'ι', 'ο', 'υ'], [['o', 'c', 't', 'o', 'b', 'e', 'r']]), (['π', 'α', 'ρ', 'α', 'σ', 'κ', 'ε', 'υ', 'η'], [['f', 'r', 'i', 'd', 'a', 'y']]), (['α', 'π', 'ρ', 'ι', 'λ', 'ι', 'ο', 'ς'], [['a', 'p', 'r', 'i', 'l']]), (['α', 'π', 'ρ', 'ι', 'λ', 'ι', 'ο', 'υ'], [['a', 'p', 'r', 'i', 'l']]), (['ε', 'β', 'δ', 'ο', 'μ', 'α', 'δ', 'α'], [['w', 'e', 'e', 'k']]), (['δ', 'ε', 'υ', 'τ', 'ε', 'ρ', 'α'], [['m', 'o', 'n', 'd', 'a', 'y']]), (['ι', 'ο', 'υ', 'λ', 'ι', 'ο', 'ς'], [['j', 'u', 'l', 'y']]), (['ι', 'ο', 'υ', 'λ', 'ι', 'ο', 'υ'], [['j', 'u', 'l', 'y']]), (['ι', 'ο', 'υ', 'ν', 'ι', 'ο', 'ς'], [['j', 'u', 'n', 'e']]), (['ι', 'ο', 'υ', 'ν', 'ι', 'ο', 'υ'], [['j', 'u', 'n', 'e']]), (['κ', 'υ', 'ρ', 'ι', 'α', 'κ', 'η'], [['s', 'u', 'n', 'd', 'a', 'y']]), (['μ', 'α', 'ρ', 'τ', 'ι', 'ο', 'ς'], [['m', 'a', 'r', 'c', 'h']]), (['μ', 'α', 'ρ', 'τ', 'ι', 'ο', 'υ'], [['m', 'a', 'r', 'c', 'h']]), (['σ', 'α', 'β', 'β', 'α', 'τ', 'ο'], [['s', 'a', 't', 'u', 'r', 'd', 'a', 'y']]), (['τ', 'ε', 'τ', 'α', 'ρ', 'τ', 'η'], [['w', 'e', 'd', 'n', 'e', 's', 'd', 'a', 'y']]), (['π', 'ε', 'μ', 'π', 'τ', 'η'], [['t', 'h', 'u', 'r', 's', 'd', 'a', 'y']]), (['η', 'μ', 'ε', 'ρ', 'α'], [['d', 'a', 'y']]), (['λ', 'ε', 'π', 'τ', 'ο'], [['m', 'i', 'n', 'u', 't', 'e']]), (['μ', 'α', 'ι', 'ο', 'ς'], [['m', 'a', 'y']]), (['μ', 'α', 'ι', 'ο', 'υ'], [['m', 'a', 'y']]), (['μ', 'η', 'ν', 'α', 'ς'], [['m', 'o', 'n', 't', 'h']]), (['τ', 'ρ', 'ι', 'τ', 'η'], [['t', 'u', 'e', 's', 'd', 'a', 'y']]), (['δ', 'ε', 'υ', 'τ'], [['s', 'e', 'c', 'o', 'n', 'd']]), (['ε', 'τ', 'ο', 'ς'], [['y', 'e', 'a', 'r']]), (['ι', 'ο', 'υ', 'λ'], [['j', 'u', 'l', 'y']]), (['ι', 'ο', 'υ', 'ν'], [['j', 'u', 'n', 'e']]), (['g', 'm', 't'], [['g', 'm', 't']]), (['u', 't', 'c'], [['u', 't', 'c']]), (['α', 'π', 'ρ'], [['a', 'p', 'r', 'i', 'l']]), (['α', 'υ', 'γ'], [['a', 'u', 'g', 'u', 's', 't']]), (['δ', 'ε', 'κ'], [['d', 'e', 'c', 'e', 'm', 'b', 'e', 'r']]), (['δ', 'ε', 'υ'], [['m', 'o', 'n', 'd', 'a', 'y']]), (['ε', 'β', 'δ'], [['w', 'e', 'e', 'k']]), (['ι', 'α', 'ν'], [['j', 'a', 'n', 'u', 'a', 'r', 'y']]), (['κ', 'υ', 'ρ'], [['s', 'u', 'n', 'd', 'a', 'y']]), (['λ', 'ε', 'π'], [['m', 'i', 'n', 'u', 't', 'e']]), (['μ', 'α', 'ι'], [['m', 'a', 'y']]), (['μ', 'α', 'ρ'], [['m', 'a', 'r', 'c', 'h']]), (['μ', 'η', 'ν'], [['m', 'o', 'n', 't', 'h']]), (['ν', 'ο', 'ε'], [['n', 'o', 'v', 'e', 'm', 'b', 'e', 'r']]), (['ο', 'κ', 'τ'], [['o', 'c', 't', 'o', 'b', 'e', 'r']]), (['π', 'α', 'ρ'], [['f', 'r', 'i', 'd', 'a', 'y']]), (['π', 'ε', 'μ'], [['t', 'h', 'u', 'r', 's', 'd', 'a', 'y']]), (['σ', 'α', 'β'], [['s', 'a', 't', 'u', 'r', 'd', 'a', 'y']]), (['σ', 'ε', 'π'], [['s', 'e', 'p', 't', 'e', 'm', 'b', 'e', 'r']]), (['τ', 'ε', 'τ'], [['w', 'e', 'd', 'n', 'e', 's', 'd', 'a', 'y']]), (['τ', 'ρ', 'ι'], [['t', 'u', 'e', 's', 'd', 'a', 'y']]), (['φ', 'ε', 'β'], [['f', 'e', 'b', 'r', 'u', 'a', 'r', 'y']]), (['ω', 'ρ', 'α'], [['h', 'o', 'u', 'r']]), (['a', 'm'], [['a', 'm']]), (['p', 'm'], [['p', 'm']]), (['ε', 'τ'], [['y', 'e', 'a', 'r']]), (['μ', 'μ'], [['p', 'm']]), (['π', 'μ'], [['a', 'm']]), (['ω', 'ρ'], [['h', 'o', 'u', 'r']]), ([' '], [[' ']]), (['\''], [[]]), (['+'], [['+']]), ([','], [[]]), (['-'], [['-']]), (['.'], [['.']]), (['/'], [['/']]), ([':'], [[':']]), ([';'], [[]]), (['@'], [[]]), (['['], [[]]), ([']'], [[]]), (['z'], [['z']]), (['|'], [[]]), (['δ'], [['s', 'e', 'c', 'o', 'n', 'd']]), (['λ'], [['m', 'i', 'n', 'u', 't', 'e']]), (['ω'], [['h', 'o', 'u', 'r']])]
  relativeType := [(['π', 'ρ', 'ο', 'η', 'γ', 'ο', 'υ', 'μ', 'ε', 'ν', 'η', ' ', 'ε', 'β', 'δ', 'ο', 'μ', 'α', 'δ', 'α'], ['1', ' ', 'w', 'e', 'e', 'k', ' ', 'a', 'g', 'o']), (['α', 'υ', 'τ', 'η', 'ν', ' ', 'τ', 'η', 'ν', ' ', 'ε', 'β', 'δ', 'ο', 'μ', 'α', 'δ', 'α'], ['0', ' ', 'w', 'e', 'e', 'k', ' ', 'a', 'g', 'o']), (['π', 'ρ', 'ο', 'η', 'γ', 'ο', 'υ', 'μ', 'ε', 'ν', 'ο', 'ς', ' ', 'μ', 'η', 'ν', 'α', 'ς'], ['1', ' ', 'm', 'o', 'n', 't', 'h', ' ', 'a', 'g', 'o']), (['ε', 'π', 'ο', 'μ', 'ε', 'ν', 'η', ' ', 'ε', 'β', 'δ', 'ο', 'μ', 'α', 'δ', 'α'], ['i', 'n', ' ', '1', ' ', 'w', 'e', 'e', 'k']), (['ε', 'π', 'ο', 'μ', 'ε', 'ν', 'ο', 'ς', ' ', 'μ', 'η', 'ν', 'α', 'ς'], ['i', 'n', ' ', '1', ' ', 'm', 'o', 'n', 't', 'h']), (['α', 'υ', 'τ', 'η', 'ν', ' ', 'τ', 'η', 'ν', ' ', 'ω', 'ρ', 'α'], ['0', ' ', 'h', 'o', 'u', 'r', ' ', 'a', 'g', 'o']), (['α', 'υ', 'τ', 'ο', ' ', 'τ', 'ο', ' ', 'λ', 'ε', 'π', 'τ', 'ο'], ['0', ' ', 'm', 'i', 'n', 'u', 't', 'e', ' ', 'a', 'g', 'o']), (['ε', 'π', 'ο', 'μ', 'ε', 'ν', 'ο', ' ', 'ε', 'τ', 'ο', 'ς'], ['i', 'n', ' ', '1', ' ', 'y', 'e', 'a', 'r']), (['τ', 'ρ', 'ε', 'χ', 'ω', 'ν', ' ', 'μ', 'η', 'ν', 'α', 'ς'], ['0', ' ', 'm', 'o', 'n', 't', 'h', ' ', 'a', 'g', 'o']), (['σ', 'η', 'μ', 'ε', 'ρ', 'α'], ['0', ' ', 'd', 'a', 'y', ' ', 'a', 'g', 'o']), (['α', 'υ', 'ρ', 'ι', 'ο'], ['i', 'n', ' ', '1', ' ', 'd', 'a', 'y']), (['π', 'ε', 'ρ', 'σ', 'ι'], ['1', ' ', 'y', 'e', 'a', 'r', ' ', 'a', 'g', 'o']), (['φ', 'ε', 'τ', 'ο', 'ς'], ['0', ' ', 'y', 'e', 'a', 'r', ' ', 'a', 'g', 'o']), (['τ', 'ω', 'ρ', 'α'], ['0', ' ', 's', 'e', 'c', 'o', 'n', 'd', ' ', 'a', 'g', 'o']), (['χ', 'θ', 'ε', 'ς'], ['1', ' ', 'd', 'a', 'y', ' ', 'a', 'g', 'o'])]

/-- internal/data/el.go: `el_CY_Locale`, dictionary. -/
def el_CYDict : LangData where
  name := ['e', 'l', '-', 'C', 'Y']

/-- internal/data/en.go: `en_Locale`, dictionary. -/
def enDict : LangData where
  name := ['e', 'n']
  splitterGroup := 1
  translations := [(['s', 'e', 'p', 't', 'e', 'm', 'b', 'e', 'r'], [['s', 'e', 'p', 't', 'e', 'm', 'b', 'e', 'r']]), (['w', 'e', 'd', 'n', 'e', 's', 'd', 'a', 'y'], [['w', 'e', 'd', 'n', 'e', 's', 'd', 'a', 'y']]), (['d', 'e', 'c', 'e', 'm', 'b', 'e', 'r'], [['d', 'e', 'c', 'e', 'm', 'b', 'e', 'r']]), (['f', 'e', 'b', 'r', 'u', 'a', 'r', 'y'], [['f', 'e', 'b', 'r', 'u', 'a', 'r', 'y']]), (['f', 'r', 'o', 'm', ' ', 'n', 'o', 'w'], [['i', 'n']]), (['n', 'o', 'v', 'e', 'm', 'b', 'e', 'r'], [['n', 'o', 'v', 'e', 'm', 'b', 'e', 'r']]), (['s', 'a', 't', 'u', 'r', 'd', 'a', 'y'], [['s', 'a', 't', 'u', 'r', 'd', 'a', 'y']]), (['t', 'h', 'u', 'r', 's', 'd', 'a', 'y'], [['t', 'h', 'u', 'r', 's', 'd', 'a', 'y']]), (['d', 'e', 'c', 'a', 'd', 'e', 's'], [['d', 'e', 'c', 'a', 'd', 'e']]), (['j', 'a', 'n', 'u', 'a', 'r', 'y'], [['j', 'a', 'n', 'u', 'a', 'r', 'y']]), (['m', 'i', 'n', 'u', 't', 'e', 's'], [['m', 'i', 'n', 'u', 't', 'e']]), (['o', 'c', 't', 'o', 'b', 'e', 'r'], [['o', 'c', 't', 'o', 'b', 'e', 'r']]), (['s', 'e', 'c', 'o', 'n', 'd', 's'], [['s', 'e', 'c', 'o', 'n', 'd']]), (['t', 'u', 'e', 's', 'd', 'a', 'y'], [['t', 'u', 'e', 's', 'd', 'a', 'y']]), (['a', 'u', 'g', 'u', 's', 't'], [['a', 'u', 'g', 'u', 's', 't']]), (['b', 'e', 'f', 'o', 'r', 'e'], [['a', 'g', 'o']]), (['d', 'e', 'c', 'a', 'd', 'e'], [['d', 'e', 'c', 'a', 'd', 'e']]), (['f', 'r', 'i', 'd', 'a', 'y'], [['f', 'r', 'i', 'd', 'a', 'y']]), (['m', 'i', 'n', 'u', 't', 'e'], [['m', 'i', 'n', 'u', 't', 'e']]), (['m', 'o', 'n', 'd', 'a', 'y'], [['m', 'o', 'n', 'd', 'a', 'y']]), (['m', 'o', 'n', 't', 'h', 's'], [['m', 'o', 'n', 't', 'h']]), (['s', 'e', 'c', 'o', 'n', 'd'], [['s', 'e', 'c', 'o', 'n', 'd']]), (['s', 'u', 'n', 'd', 'a', 'y'], [['s', 'u', 'n', 'd', 'a', 'y']]), (['a', 'b', 'o', 'u', 't'], [[]]), (['a', 'f', 't', 'e', 'r'], [['i', 'n']]), (['a', 'p', 'r', 'i', 'l'], [['a', 'p', 'r', 'i', 'l']]), (['h', 'o', 'u', 'r', 's'], [['h', 'o', 'u', 'r']]), (['m', 'a', 'r', 'c', 'h'], [['m', 'a', 'r', 'c', 'h']]), (['m', 'o', 'n', 't', 'h'], [['m', 'o', 'n', 't', 'h']]), (['w', 'e', 'e', 'k', 's'], [['w', 'e', 'e', 'k']]), (['y', 'e', 'a', 'r', 's'], [['y', 'e', 'a', 'r']]), (['d', 'a', 'y', 's'], [['d', 'a', 'y']]), (['h', 'o', 'u', 'r'], [['h', 'o', 'u', 'r']]), (['j', 'u', 'l', 'y'], [['j', 'u', 'l', 'y']]), (['j', 'u', 'n', 'e'], [['j', 'u', 'n', 'e']]), (['j', 'u', 's', 't'], [[]]), (['m', 'i', 'n', 's'], [['m', 'i', 'n', 'u', 't', 'e']]), (['s', 'e', 'c', 's'], [['s', 'e', 'c', 'o', 'n', 'd']]), (['s', 'e', 'p', 't'], [['s', 'e', 'p', 't', 'e', 'm', 'b', 'e', 'r']]), (['t', 'u', 'e', 's'], [['t', 'u', 'e', 's', 'd', 'a', 'y']]), (['w', 'e', 'e', 'k'], [['w', 'e', 'e', 'k']]), (['y', 'e', 'a', 'r'], [['y', 'e', 'a', 'r']]), (['a', 'g', 'o'], [['a', 'g', 'o']]), (['a', 'n', 'd'], [[]]), (['a', 'p', 'r'], [['a', 'p', 'r', 'i', 'l']]), (['a', 'u', 'g'], [['a', 'u', 'g', 'u', 's', 't']]), (['d', 'a', 'y'], [['d', 'a', 'y']]), (['d', 'e', 'c'], [['d', 'e', 'c', 'e', 'm', 'b', 'e', 'r']]), (['f', 'e', 'b'], [['f', 'e', 'b', 'r', 'u', 'a', 'r', 'y']]), (['f', 'r', 'i'], [['f', 'r', 'i', 'd', 'a', 'y']]), (['g', 'm', 't'], [['g', 'm', 't']]), (['h', 'r', 's'], [['h', 'o', 'u', 'r']]), (['j', 'a', 'n'], [['j', 'a', 'n', 'u', 'a', 'r', 'y']]), (['j', 'u', 'l'], [['j', 'u', 'l', 'y']]), (['j', 'u', 'n'], [['j', 'u', 'n', 'e']]), (['m', 'a', 'r'], [['m', 'a', 'r', 'c', 'h']]), (['m', 'a', 'y'], [['m', 'a', 'y']]), (['m', 'i', 'n'], [['m', 'i', 'n', 'u', 't', 'e']]), (['m', 'o', 'n'], [['m', 'o', 'n', 'd', 'a', 'y']]), (['n', 'o', 'v'], [['n', 'o', 'v', 'e', 'm', 'b', 'e', 'r']]), (['o', 'c', 't'], [['o', 'c', 't', 'o', 'b', 'e', 'r']]), (['s', 'a', 't'], [['s', 'a', 't', 'u', 'r', 'd', 'a', 'y']]), (['s', 'e', 'c'], [['s', 'e', 'c', 'o', 'n', 'd']]), (['s', 'e', 'p'], [['s', 'e', 'p', 't', 'e', 'm', 'b', 'e', 'r']]), (['s', 'u', 'n'], [['s', 'u', 'n', 'd', 'a', 'y']]), (['t', 'h', 'e'], [[]]), (['t', 'h', 'u'], [['t', 'h', 'u', 'r', 's', 'd', 'a', 'y']]), (['t', 'u', 'e'], [['t', 'u', 'e', 's', 'd', 'a', 'y']]), (['u', 't', 'c'], [['u', 't', 'c']]), (['w', 'e', 'd'], [['w', 'e', 'd', 'n', 'e', 's', 'd', 'a', 'y']]), (['a', 'd'], [[]]), (['a', 'm'], [['a', 'm']]), (['a', 't'], [[]]), (['b', 'y'], [[]]), (['h', 'r'], [['h', 'o', 'u', 'r']]), (['i', 'n'], [['i', 'n']]), (['m', 'o'], [['m', 'o', 'n', 't', 'h']]), (['n', 'd'], [[]]), (['o', 'f'], [[]]), (['o', 'n'], [[]]), (['p', 'm'], [['p', 'm']]), (['r', 'd'], [[]]), (['s', 't'], [[]]), (['t', 'h'], [[]]), (['w', 'k'], [['w', 'e', 'e', 'k']]), (['y', 'r'], [['y', 'e', 'a', 'r']]), ([' '], [[' ']]), (['\''], [[]]), (['+'], [['+']]), ([','], [[]]), (['-'], [['-']]), (['.'], [['.']]), (['/'], [['/']]), ([':'], [[':']]), ([';'], [[]]), (['@'], [[]]), (['['], [[]]), ([']'], [[]]), (['d'], [['d', 'a', 'y']]), (['h'], [['h', 'o', 'u', 'r']]), (['m'], [['m', 'i', 'n', 'u', 't', 'e']]), (['s'], [['s', 'e', 'c', 'o', 'n', 'd']]), (['y'], [['y', 'e', 'a', 'r']]), (['z'], [['z']]), (['|'], [[]])]
  relativeType := [(['d', 'a', 'y', ' ', 'b', 'e', 'f', 'o', 'r', 'e', ' ', 'y', 'e', 's', 't', 'e', 'r', 'd', 'a', 'y'], ['2', ' ', 'd', 'a', 'y', ' ', 'a', 'g', 'o']), (['d', 'a', 'y', ' ', 'a', 'f', 't', 'e', 'r', ' ', 't', 'o', 'm', 'o', 'r', 'r', 'o', 'w'], ['i', 'n', ' ', '2', ' ', 'd', 'a', 'y']), (['l', 'a', 's', 't', ' ', 'd', 'e', 'c', 'a', 'd', 'e'], ['1', ' ', 'd', 'e', 'c', 'a', 'd', 'e', ' ', 'a', 'g', 'o']), (['n', 'e', 'x', 't', ' ', 'd', 'e', 'c', 'a', 'd', 'e'], ['i', 'n', ' ', '1', ' ', 'd', 'e', 'c', 'a', 'd', 'e']), (['t', 'h', 'i', 's', ' ', 'd', 'e', 'c', 'a', 'd', 'e'], ['1', ' ', 'd', 'e', 'c', 'a', 'd', 'e', ' ', 'a', 'g', 'o']), (['t', 'h', 'i', 's', ' ', 'm', 'i', 'n', 'u', 't', 'e'], ['0', ' ', 'm', 'i', 'n', 'u', 't', 'e', ' ', 'a', 'g', 'o']), (['l', 'a', 's', 't', ' ', 'm', 'o', 'n', 't', 'h'], ['1', ' ', 'm', 'o', 'n', 't', 'h', ' ', 'a', 'g', 'o']), (['n', 'e', 'x', 't', ' ', 'm', 'o', 'n', 't', 'h'], ['i', 'n', ' ', '1', ' ', 'm', 'o', 'n', 't', 'h']), (['t', 'h', 'i', 's', ' ', 'm', 'o', 'n', 't', 'h'], ['0', ' ', 'm', 'o', 'n', 't', 'h', ' ', 'a', 'g', 'o']), (['l', 'a', 's', 't', ' ', 'w', 'e', 'e', 'k'], ['1', ' ', 'w', 'e', 'e', 'k', ' ', 'a', 'g', 'o']), (['l', 'a', 's', 't', ' ', 'y', 'e', 'a', 'r'], ['1', ' ', 'y', 'e', 'a', 'r', ' ', 'a', 'g', 'o']), (['n', 'e', 'x', 't', ' ', 'w', 'e', 'e', 'k'], ['i', 'n', ' ', '1', ' ', 'w', 'e', 'e', 'k']), (['n', 'e', 'x', 't', ' ', 'y', 'e', 'a', 'r'], ['i', 'n', ' ', '1', ' ', 'y', 'e', 'a', 'r']), (['t', 'h', 'i', 's', ' ', 'h', 'o', 'u', 'r'], ['0', ' ', 'h', 'o', 'u', 'r', ' ', 'a', 'g', 'o']), (['t', 'h', 'i', 's', ' ', 'w', 'e', 'e', 'k'], ['0', ' ', 'w', 'e', 'e', 'k', ' ', 'a', 'g', 'o']), (['t', 'h', 'i', 's', ' ', 'y', 'e', 'a', 'r'], ['0', ' ', 'y', 'e', 'a', 'r', ' ', 'a', 'g', 'o']), (['t', 'i', 'l', 'l', ' ', 'd', 'a', 't', 'e'], ['0', ' ', 'd', 'a', 'y', ' ', 'a', 'g', 'o']), (['y', 'e', 's', 't', 'e', 'r', 'd', 'a', 'y'], ['1', ' ', 'd', 'a', 'y', ' ', 'a', 'g', 'o']), (['t', 'o', 'm', 'o', 'r', 'r', 'o', 'w'], ['i', 'n', ' ', '1', ' ', 'd', 'a', 'y']), (['l', 'a', 's', 't', ' ', 'm', 'o'], ['1', ' ', 'm', 'o', 'n', 't', 'h', ' ', 'a', 'g', 'o']), (['l', 'a', 's', 't', ' ', 'w', 'k'], ['1', ' ', 'w', 'e', 'e', 'k', ' ', 'a', 'g', 'o']), (['l', 'a', 's', 't', ' ', 'y', 'r'], ['1', ' ', 'y', 'e', 'a', 'r', ' ', 'a', 'g', 'o']), (['n', 'e', 'x', 't', ' ', 'm', 'o'], ['i', 'n', ' ', '1', ' ', 'm', 'o', 'n', 't', 'h']), (['n', 'e', 'x', 't', ' ', 'w', 'k'], ['i', 'n', ' ', '1', ' ', 'w', 'e', 'e', 'k']), (['n', 'e', 'x', 't', ' ', 'y', 'r'], ['i', 'n', ' ', '1', ' ', 'y', 'e', 'a', 'r']), (['t', 'h', 'i', 's', ' ', 'm', 'o'], ['0', ' ', 'm', 'o', 'n', 't', 'h', ' ', 'a', 'g', 'o']), (['t', 'h', 'i', 's', ' ', 'w', 'k'], ['0', ' ', 'w', 'e', 'e', 'k', ' ', 'a', 'g', 'o']), (['t', 'h', 'i', 's', ' ', 'y', 'r'], ['0', ' ', 'y', 'e', 'a', 'r', ' ', 'a', 'g', 'o']), (['t', 'o', 'd', 'a', 'y'], ['0', ' ', 'd', 'a', 'y', ' ', 'a', 'g', 'o']), (['n', 'o', 'w'], ['0', ' ', 's', 'e', 'c', 'o', 'n', 'd', ' ', 'a', 'g', 'o'])]

/-- internal/data/en.go: `en_001_Locale`, dictionary. -/
def en_001Dict : LangData where
  name := ['e', 'n', '-', '0', '0', '1']

/-- internal/data/en.go: `en_150_Locale`, dictionary. -/
def en_150Dict : LangData where
  name := ['e', 'n', '-', '1', '5', '0']

/-- internal/data/en.go: `en_AG_Locale`, dictionary. -/
def en_AGDict : LangData where
  name := ['e', 'n', '-', 'A', 'G']

/-- internal/data/en.go: `en_AI_Locale`, dictionary. -/
def en_AIDict : LangData where
  name := ['e', 'n', '-', 'A', 'I']

/-- internal/data/en.go: `en_AS_Locale`, dictionary. -/
def en_ASDict : LangData where
  name := ['e', 'n', '-', 'A', 'S']

/-- internal/data/en.go: `en_AT_Locale`, dictionary. -/
def en_ATDict : LangData where
  name := ['e', 'n', '-', 'A', 'T']

/-- internal/data/en.go: `en_AU_Locale`, dictionary. -/
def en_AUDict : LangData where
  name := ['e', 'n', '-', 'A', 'U']

/-- internal/data/en.go: `en_BB_Locale`, dictionary. -/
def en_BBDict : LangData where
  name := ['e', 'n', '-', 'B', 'B']

/-- internal/data/en.go: `en_BE_Locale`, dictionary. -/
def en_BEDict : LangData where
  name := ['e', 'n', '-', 'B', 'E']

/-- internal/data/en.go: `en_BI_Locale`, dictionary. -/
def en_BIDict : LangData where
  name := ['e', 'n', '-', 'B', 'I']

/-- internal/data/en.go: `en_BM_Locale`, dictionary. -/
def en_BMDict : LangData where
  name := ['e', 'n', '-', 'B', 'M']

/-- internal/data/en.go: `en_BS_Locale`, dictionary. -/
def en_BSDict : LangData where
  name := ['e', 'n', '-', 'B', 'S']

/-- internal/data/en.go: `en_BW_Locale`, dictionary. -/
def en_BWDict : LangData where
  name := ['e', 'n', '-', 'B', 'W']

/-- internal/data/en.go: `en_BZ_Locale`, dictionary. -/
def en_BZDict : LangData where
  name := ['e', 'n', '-', 'B', 'Z']

/-- internal/data/en.go: `en_CA_Locale`, dictionary. -/
def en_CADict : LangData where
  name := ['e', 'n', '-', 'C', 'A']

/-- internal/data/en.go: `en_CC_Locale`, dictionary. -/
def en_CCDict : LangData where
  name := ['e', 'n', '-', 'C', 'C']

/-- internal/data/en.go: `en_CH_Locale`, dictionary. -/
def en_CHDict : LangData where
  name := ['e', 'n', '-', 'C', 'H']

/-- internal/data/en.go: `en_CK_Locale`, dictionary. -/
def en_CKDict : LangData where
  name := ['e', 'n', '-', 'C', 'K']

/-- internal/data/en.go: `en_CM_Locale`, dictionary. -/
def en_CMDict : LangData where
  name := ['e', 'n', '-', 'C', 'M']

/-- internal/data/en.go: `en_CX_Locale`, dictionary. -/
def en_CXDict : LangData where
  name := ['e', 'n', '-', 'C', 'X']

/-- internal/data/en.go: `en_CY_Locale`, dictionary. -/
def en_CYDict : LangData where
  name := ['e', 'n', '-', 'C', 'Y']

/-- internal/data/en.go: `en_DE_Locale`, dictionary. -/
def en_DEDict : LangData where
  name := ['e', 'n', '-', 'D', 'E']

/-- internal/data/en.go: `en_DG_Locale`, dictionary. -/
def en_DGDict : LangData where
  name := ['e', 'n', '-', 'D', 'G']

/-- internal/data/en.go: `en_DK_Locale`, dictionary. -/
def en_DKDict : LangData where
  name := ['e', 'n', '-', 'D', 'K']

/-- internal/data/en.go: `en_DM_Locale`, dictionary. -/
def en_DMDict : LangData where
  name := ['e', 'n', '-', 'D', 'M']

/-- internal/data/en.go: `en_ER_Locale`, dictionary. -/
def en_ERDict : LangData where
  name := ['e', 'n', '-', 'E', 'R']

/-- internal/data/en.go: `en_FI_Locale`, dictionary. -/
def en_FIDict : LangData where
  name := ['e', 'n', '-', 'F', 'I']

/-- internal/data/en.go: `en_FJ_Locale`, dictionary. -/
def en_FJDict : LangData where
  name := ['e', 'n', '-', 'F', 'J']

/-- internal/data/en.go: `en_FK_Locale`, dictionary. -/
def en_FKDict : LangData where
  name := ['e', 'n', '-', 'F', 'K']

/-- internal/data/en.go: `en_FM_Locale`, dictionary. -/
def en_FMDict : LangData where
  name := ['e', 'n', '-', 'F', 'M']

/-- internal/data/en.go: `en_GB_Locale`, dictionary. -/
def en_GBDict : LangData where
  name := ['e', 'n', '-', 'G', 'B']

/-- internal/data/en.go: `en_GD_Locale`, dictionary. -/
def en_GDDict : LangData where
  name := ['e', 'n', '-', 'G', 'D']

/-- internal/data/en.go: `en_GG_Locale`, dictionary. -/
def en_GGDict : LangData where
  name := ['e', 'n', '-', 'G', 'G']

/-- internal/data/en.go: `en_GH_Locale`, dictionary. -/
def en_GHDict : LangData where
  name := ['e', 'n', '-', 'G', 'H']

/-- internal/data/en.go: `en_GI_Locale`, dictionary. -/
def en_GIDict : LangData where
  name := ['e', 'n', '-', 'G', 'I']

/-- internal/data/en.go: `en_GM_Locale`, dictionary. -/
def en_GMDict : LangData where
  name := ['e', 'n', '-', 'G', 'M']

/-- internal/data/en.go: `en_GU_Locale`, dictionary. -/
def en_GUDict : LangData where
  name := ['e', 'n', '-', 'G', 'U']

/-- internal/data/en.go: `en_GY_Locale`, dictionary. -/
def en_GYDict : LangData where
  name := ['e', 'n', '-', 'G', 'Y']

/-- internal/data/en.go: `en_HK_Locale`, dictionary. -/
def en_HKDict : LangData where
  name := ['e', 'n', '-', 'H', 'K']

/-- internal/data/en.go: `en_IE_Locale`, dictionary. -/
def en_IEDict : LangData where
  name := ['e', 'n', '-', 'I', 'E']

/-- internal/data/en.go: `en_IL_Locale`, dictionary. -/
def en_ILDict : LangData where
  name := ['e', 'n', '-', 'I', 'L']

/-- internal/data/en.go: `en_IM_Locale`, dictionary. -/
def en_IMDict : LangData where
  name := ['e', 'n', '-', 'I', 'M']

/-- internal/data/en.go: `en_IN_Locale`, dictionary. -/
def en_INDict : LangData where
  name := ['e', 'n', '-', 'I', 'N']

/-- internal/data/en.go: `en_IO_Locale`, dictionary. -/
def en_IODict : LangData where
  name := ['e', 'n', '-', 'I', 'O']

/-- internal/data/en.go: `en_JE_Locale`, dictionary. -/
def en_JEDict : LangData where
  name := ['e', 'n', '-', 'J', 'E']

/-- internal/data/en.go: `en_JM_Locale`, dictionary. -/
def en_JMDict : LangData where
  name := ['e', 'n', '-', 'J', 'M']

/-- internal/data/en.go: `en_KE_Locale`, dictionary. -/
def en_KEDict : LangData where
  name := ['e', 'n', '-', 'K', 'E']

/-- internal/data/en.go: `en_KI_Locale`, dictionary. -/
def en_KIDict : LangData where
  name := ['e', 'n', '-', 'K', 'I']

/-- internal/data/en.go: `en_KN_Locale`, dictionary. -/
def en_KNDict : LangData where
  name := ['e', 'n', '-', 'K', 'N']

/-- internal/data/en.go: `en_KY_Locale`, dictionary. -/
def en_KYDict : LangData where
  name := ['e', 'n', '-', 'K', 'Y']

/-- internal/data/en.go: `en_LC_Locale`, dictionary. -/
def en_LCDict : LangData where
  name := ['e', 'n', '-', 'L', 'C']

/-- internal/data/en.go: `en_LR_Locale`, dictionary. -/
def en_LRDict : LangData where
  name := ['e', 'n', '-', 'L', 'R']

/-- internal/data/en.go: `en_LS_Locale`, dictionary. -/
def en_LSDict : LangData where
  name := ['e', 'n', '-', 'L', 'S']

/-- internal/data/en.go: `en_MG_Locale`, dictionary. -/
def en_MGDict : LangData where
  name := ['e', 'n', '-', 'M', 'G']

/-- internal/data/en.go: `en_MH_Locale`, dictionary. -/
def en_MHDict : LangData where
  name := ['e', 'n', '-', 'M', 'H']

/-- internal/data/en.go: `en_MO_Locale`, dictionary. -/
def en_MODict : LangData where
  name := ['e', 'n', '-', 'M', 'O']

/-- internal/data/en.go: `en_MP_Locale`, dictionary. -/
def en_MPDict : LangData where
  name := ['e', 'n', '-', 'M', 'P']

/-- internal/data/en.go: `en_MS_Locale`, dictionary. -/
def en_MSDict : LangData where
  name := ['e', 'n', '-', 'M', 'S']

/-- internal/data/en.go: `en_MT_Locale`, dictionary. -/
def en_MTDict : LangData where
  name := ['e', 'n', '-', 'M', 'T']

/-- internal/data/en.go: `en_MU_Locale`, dictionary. -/
def en_MUDict : LangData where
  name := ['e', 'n', '-', 'M', 'U']

/-- internal/data/en.go: `en_MW_Locale`, dictionary. -/
def en_MWDict : LangData where
  name := ['e', 'n', '-', 'M', 'W']

/-- internal/data/en.go: `en_MY_Locale`, dictionary. -/
def en_MYDict : LangData where
  name := ['e', 'n', '-', 'M', 'Y']

/-- internal/data/en.go: `en_NA_Locale`, dictionary. -/
def en_NADict : LangData where
  name := ['e', 'n', '-', 'N', 'A']

/-- internal/data/en.go: `en_NF_Locale`, dictionary. -/
def en_NFDict : LangData where
  name := ['e', 'n', '-', 'N', 'F']

/-- internal/data/en.go: `en_NG_Locale`, dictionary. -/
def en_NGDict : LangData where
  name := ['e', 'n', '-', 'N', 'G']

/-- internal/data/en.go: `en_NL_Locale`, dictionary. -/
def en_NLDict : LangData where
  name := ['e', 'n', '-', 'N', 'L']

/-- internal/data/en.go: `en_NR_Locale`, dictionary. -/
def en_NRDict : LangData where
  name := ['e', 'n', '-', 'N', 'R']

/-- internal/data/en.go: `en_NU_Locale`, dictionary. -/
def en_NUDict : LangData where
  name := ['e', 'n', '-', 'N', 'U']

/-- internal/data/en.go: `en_NZ_Locale`, dictionary. -/
def en_NZDict : LangData where
  name := ['e', 'n', '-', 'N', 'Z']

/-- internal/data/en.go: `en_PG_Locale`, dictionary. -/
def en_PGDict : LangData where
  name := ['e', 'n', '-', 'P', 'G']

/-- internal/data/en.go: `en_PH_Locale`, dictionary. -/
def en_PHDict : LangData where
  name := ['e', 'n', '-', 'P', 'H']

/-- internal/data/en.go: `en_PK_Locale`, dictionary. -/
def en_PKDict : LangData where
  name := ['e', 'n', '-', 'P', 'K']

/-- internal/data/en.go: `en_PN_Locale`, dictionary. -/
def en_PNDict : LangData where
  name := ['e', 'n', '-', 'P', 'N']

/-- internal/data/en.go: `en_PR_Locale`, dictionary. -/
def en_PRDict : LangData where
  name := ['e', 'n', '-', 'P', 'R']

/-- internal/data/en.go: `en_PW_Locale`, dictionary. -/
def en_PWDict : LangData where
  name := ['e', 'n', '-', 'P', 'W']

/-- internal/data/en.go: `en_RW_Locale`, dictionary. -/
def en_RWDict : LangData where
  name := ['e', 'n', '-', 'R', 'W']

/-- internal/data/en.go: `en_SB_Locale`, dictionary. -/
def en_SBDict : LangData where
  name := ['e', 'n', '-', 'S', 'B']

/-- internal/data/en.go: `en_SC_Locale`, dictionary. -/
def en_SCDict : LangData where
  name := ['e', 'n', '-', 'S', 'C']

/-- internal/data/en.go: `en_SD_Locale`, dictionary. -/
def en_SDDict : LangData where
  name := ['e', 'n', '-', 'S', 'D']

/-- internal/data/en.go: `en_SE_Locale`, dictionary. -/
def en_SEDict : LangData where
  name := ['e', 'n', '-', 'S', 'E']

/-- internal/data/en.go: `en_SG_Locale`, dictionary. -/
def en_SGDict : LangData where
  name := ['e', 'n', '-', 'S', 'G']
  translations := [(['m', 't', 'h'], [['m', 'o', 'n', 't', 'h']])]
  relativeType := [(['l', 'a', 's', 't', ' ', 'm', 't', 'h'], ['1', ' ', 'm', 'o', 'n', 't', 'h', ' ', 'a', 'g', 'o']), (['n', 'e', 'x', 't', ' ', 'm', 't', 'h'], ['i', 'n', ' ', '1', ' ', 'm', 'o', 'n', 't', 'h']), (['t', 'h', 'i', 's', ' ', 'm', 't', 'h'], ['0', ' ', 'm', 'o', 'n', 't', 'h', ' ', 'a', 'g', 'o'])]

/-- internal/data/en.go: `en_SH_Locale`, dictionary. -/
def en_SHDict : LangData where
  name := ['e', 'n', '-', 'S', 'H']

/-- internal/data/en.go: `en_SI_Locale`, dictionary. -/
def en_SIDict : LangData where
  name := ['e', 'n', '-', 'S', 'I']

/-- internal/data/en.go: `en_SL_Locale`, dictionary. -/
def en_SLDict : LangData where
  name := ['e', 'n', '-', 'S', 'L']

/-- internal/data/en.go: `en_SS_Locale`, dictionary. -/
def en_SSDict : LangData where
  name := ['e', 'n', '-', 'S', 'S']

/-- internal/data/en.go: `en_SX_Locale`, dictionary. -/
def en_SXDict : LangData where
  name := ['e', 'n', '-', 'S', 'X']

/-- internal/data/en.go: `en_SZ_Locale`, dictionary. -/
def en_SZDict : LangData where
  name := ['e', 'n', '-', 'S', 'Z']

/-- internal/data/en.go: `en_TC_Locale`, dictionary. -/
def en_TCDict : LangData where
  name := ['e', 'n', '-', 'T', 'C']

/-- internal/data/en.go: `en_TK_Locale`, dictionary. -/
def en_TKDict : LangData where
  name := ['e', 'n', '-', 'T', 'K']

/-- internal/data/en.go: `en_TO_Locale`, dictionary. -/
def en_TODict : LangData where
  name := ['e', 'n', '-', 'T', 'O']

/-- internal/data/en.go: `en_TT_Locale`, dictionary. -/
def en_TTDict : LangData where
  name := ['e', 'n', '-', 'T', 'T']

/-- internal/data/en.go: `en_TV_Locale`, dictionary. -/
def en_TVDict : LangData where
  name := ['e', 'n', '-', 'T', 'V']

/-- internal/data/en.go: `en_TZ_Locale`, dictionary. -/
def en_TZDict : LangData where
  name := ['e', 'n', '-', 'T', 'Z']

/-- internal/data/en.go: `en_UG_Locale`, dictionary. -/
def en_UGDict : LangData where
  name := ['e', 'n', '-', 'U', 'G']

/-- internal/data/en.go: `en_UM_Locale`, dictionary. -/
def en_UMDict : LangData where
  name := ['e', 'n', '-', 'U', 'M']

/-- internal/data/en.go: `en_VC_Locale`, dictionary. -/
def en_VCDict : LangData where
  name := ['e', 'n', '-', 'V', 'C']

/-- internal/data/en.go: `en_VG_Locale`, dictionary. -/
def en_VGDict : LangData where
  name := ['e', 'n', '-', 'V', 'G']

/-- internal/data/en.go: `en_VI_Locale`, dictionary. -/
def en_VIDict : LangData where
  name := ['e', 'n', '-', 'V', 'I']

/-- internal/data/en.go: `en_VU_Locale`, dictionary. -/
def en_VUDict : LangData where
  name := ['e', 'n', '-', 'V', 'U']

/-- internal/data/en.go: `en_WS_Locale`, dictionary. -/
def en_WSDict : LangData where
  name := ['e', 'n', '-', 'W', 'S']

/-- internal/data/en.go: `en_ZA_Locale`, dictionary. -/
def en_ZADict : LangData where
  name := ['e', 'n', '-', 'Z', 'A']

/-- internal/data/en.go: `en_ZM_Locale`, dictionary. -/
def en_ZMDict : LangData where
  name := ['e', 'n', '-', 'Z', 'M']

/-- internal/data/en.go: `en_ZW_Locale`, dictionary. -/
def en_ZWDict : LangData where
  name := ['e', 'n', '-', 'Z', 'W']

/-- internal/data/eo.go: `eo_Locale`, dictionary. -/
def eoDict : LangData where
  name := ['e', 'o']
  translations := [(['s', 'e', 'p', 't', 'e', 'm', 'b', 'r', 'o'], [['s', 'e', 'p', 't', 'e', 'm', 'b', 'e', 'r']]), (['d', 'e', 'c', 'e', 'm', 'b', 'r', 'o'], [['d', 'e', 'c', 'e', 'm', 'b', 'e', 'r']]), (['f', 'e', 'b', 'r', 'u', 'a', 'r', 'o'], [['f', 'e', 'b', 'r', 'u', 'a', 'r', 'y']]), (['m', 'e', 'r', 'k', 'r', 'e', 'd', 'o'], [['w', 'e', 'd', 'n', 'e', 's', 'd', 'a', 'y']]), (['n', 'o', 'v', 'e', 'm', 'b', 'r', 'o'], [['n', 'o', 'v', 'e', 'm', 'b', 'e', 'r']]), (['v', 'e', 'n', 'd', 'r', 'e', 'd', 'o'], [['f', 'r', 'i', 'd', 'a', 'y']]), (['a', 'u', 'g', 'u', 's', 't', 'o'], [['a', 'u', 'g', 'u', 's', 't']]), (['d', 'i', 'm', 'a', 'n', 'c', 'o'], [['s', 'u', 'n', 'd', 'a', 'y']]), (['j', 'a', 'n', 'u', 'a', 'r', 'o'], [['j', 'a', 'n', 'u', 'a', 'r', 'y']]), (['o', 'k', 't', 'o', 'b', 'r', 'o'], [['o', 'c', 't', 'o', 'b', 'e', 'r']]), (['a', 'p', 'r', 'i', 'l', 'o'], [['a', 'p', 'r', 'i', 'l']]), (['m', 'i', 'n', 'u', 't', 'e'], [['m', 'i', 'n', 'u', 't', 'e']]), (['s', 'a', 'b', 'a', 't', 'o'], [['s', 'a', 't', 'u', 'r', 'd', 'a', 'y']]), (['s', 'e', 'c', 'o', 'n', 'd'], [['s', 'e', 'c', 'o', 'n', 'd']]), (['j', 'a', 'u', 'd', 'o'], [['t', 'h', 'u', 'r', 's', 'd', 'a', 'y']]), (['j', 'u', 'l', 'i', 'o'], [['j', 'u', 'l', 'y']]), (['j', 'u', 'n', 'i', 'o'], [['j', 'u', 'n', 'e']]), (['l', 'u', 'n', 'd', 'o'], [['m', 'o', 'n', 'd', 'a', 'y']]), (['m', 'a', 'r', 'd', 'o'], [['t', 'u', 'e', 's', 'd', 'a', 'y']]), (['m', 'a', 'r', 't', 'o'], [['m', 'a', 'r', 'c', 'h']]), (['m', 'o', 'n', 't', 'h'], [['m', 'o', 'n', 't', 'h']]), (['h', 'o', 'u', 'r'], [['h', 'o', 'u', 'r']]), (['m', 'a', 'j', 'o'], [['m', 'a', 'y']]), (['w', 'e', 'e', 'k'], [['w', 'e', 'e', 'k']]), (['y', 'e', 'a', 'r'], [['y', 'e', 'a', 'r']]), (['a', 'p', 'r'], [['a', 'p', 'r', 'i', 'l']]), (['a', 't', 'm'], [['a', 'm']]), (['a', 'u', 'g'], [['a', 'u', 'g', 'u', 's', 't']]), (['d', 'a', 'y'], [['d', 'a', 'y']]), (['d', 'e', 'c'], [['d', 'e', 'c', 'e', 'm', 'b', 'e', 'r']]), (['f', 'e', 'b'], [['f', 'e', 'b', 'r', 'u', 'a', 'r', 'y']]), (['g', 'm', 't'], [['g', 'm', 't']]), (['j', 'a', 'n'], [['j', 'a', 'n', 'u', 'a', 'r', 'y']]), (['j', 'u', 'l'], [['j', 'u', 'l', 'y']]), (['j', 'u', 'n'], [['j', 'u', 'n', 'e']]), (['m', 'a', 'j'], [['m', 'a', 'y']]), (['m', 'a', 'r'], [['m', 'a', 'r', 'c', 'h']]), (['n', 'o', 'v'], [['n', 'o', 'v', 'e', 'm', 'b', 'e', 'r']]), (['o', 'k', 't'], [['o', 'c', 't', 'o', 'b', 'e', 'r']]), (['p', 't', 'm'], [['p', 'm']]), (['s', 'e', 'p'], [['s', 'e', 'p', 't', 'e', 'm', 'b', 'e', 'r']]), (['u', 't', 'c'], [['u', 't', 'c']]), (['a', 'm'], [['a', 'm']]), (['d', 'i'], [['s', 'u', 'n', 'd', 'a', 'y']]), (['j', 'a'], [['t', 'h', 'u', 'r', 's', 'd', 'a', 'y']]), (['l', 'u'], [['m', 'o', 'n', 'd', 'a', 'y']]), (['m', 'a'], [['t', 'u', 'e', 's', 'd', 'a', 'y']]), (['m', 'e'], [['w', 'e', 'd', 'n', 'e', 's', 'd', 'a', 'y']]), (['p', 'm'], [['p', 'm']]), (['s', 'a'], [['s', 'a', 't', 'u', 'r', 'd', 'a', 'y']]), (['v', 'e'], [['f', 'r', 'i', 'd', 'a', 'y']]), ([' '], [[' ']]), (['\''], [[]]), (['+'], [['+']]), ([','], [[]]), (['-'], [['-']]), (['.'], [['.']]), (['/'], [['/']]), ([':'], [[':']]), ([';'], [[]]), (['@'], [[]]), (['['], [[]]), ([']'], [[]]), (['z'], [['z']]), (['|'], [[]])]
  relativeType := [(['t', 'h', 'i', 's', ' ', 'm', 'i', 'n', 'u', 't', 'e'], ['0', ' ', 'm', 'i', 'n', 'u', 't', 'e', ' ', 'a', 'g', 'o']), (['l', 'a', 's', 't', ' ', 'm', 'o', 'n', 't', 'h'], ['1', ' ', 'm', 'o', 'n', 't', 'h', ' ', 'a', 'g', 'o']), (['n', 'e', 'x', 't', ' ', 'm', 'o', 'n', 't', 'h'], ['i', 'n', ' ', '1', ' ', 'm', 'o', 'n', 't', 'h']), (['t', 'h', 'i', 's', ' ', 'm', 'o', 'n', 't', 'h'], ['0', ' ', 'm', 'o', 'n', 't', 'h', ' ', 'a', 'g', 'o']), (['l', 'a', 's', 't', ' ', 'w', 'e', 'e', 'k'], ['1', ' ', 'w', 'e', 'e', 'k', ' ', 'a', 'g', 'o']), (['l', 'a', 's', 't', ' ', 'y', 'e', 'a', 'r'], ['1', ' ', 'y', 'e', 'a', 'r', ' ', 'a', 'g', 'o']), (['n', 'e', 'x', 't', ' ', 'w', 'e', 'e', 'k'], ['i', 'n', ' ', '1', ' ', 'w', 'e', 'e', 'k']), (['n', 'e', 'x', 't', ' ', 'y', 'e', 'a', 'r'], ['i', 'n', ' ', '1', ' ', 'y', 'e', 'a', 'r']), (['t', 'h', 'i', 's', ' ', 'h', 'o', 'u', 'r'], ['0', ' ', 'h', 'o', 'u', 'r', ' ', 'a', 'g', 'o']), (['t', 'h', 'i', 's', ' ', 'w', 'e', 'e', 'k'], ['0', ' ', 'w', 'e', 'e', 'k', ' ', 'a', 'g', 'o']), (['t', 'h', 'i', 's', ' ', 'y', 'e', 'a', 'r'], ['0', ' ', 'y', 'e', 'a', 'r', ' ', 'a', 'g', 'o']), (['y', 'e', 's', 't', 'e', 'r', 'd', 'a', 'y'], ['1', ' ', 'd', 'a', 'y', ' ', 'a', 'g', 'o']), (['t', 'o', 'm', 'o', 'r', 'r', 'o', 'w'], ['i', 'n', ' ', '1', ' ', 'd', 'a', 'y']), (['t', 'o', 'd', 'a', 'y'], ['0', ' ', 'd', 'a', 'y', ' ', 'a', 'g', 'o']), (['n', 'o', 'w'], ['0', ' ', 's', 'e', 'c', 'o', 'n', 'd', ' ', 'a', 'g', 'o'])]

/-- internal/data/es.go: `es_Locale`, dictionary. -/
def esDict : LangData where
  name := ['e', 's']
  splitterGroup := 2
  translations := [(['s', 'e', 'p', 't', 'i', 'e', 'm', 'b', 'r', 'e'], [['s', 'e', 'p', 't', 'e', 'm', 'b', 'e', 'r']]), (['d', 'i', 'c', 'i', 'e', 'm', 'b', 'r', 'e'], [['d', 'e', 'c', 'e', 'm', 'b', 'e', 'r']]), (['m', 'i', 'e', 'r', 'c', 'o', 'l', 'e', 's'], [['w', 'e', 'd', 'n', 'e', 's', 'd', 'a', 'y']]), (['n', 'o', 'v', 'i', 'e', 'm', 'b', 'r', 'e'], [['n', 'o', 'v', 'e', 'm', 'b', 'e', 'r']]), (['s', 'e', 't', 'i', 'e', 'm', 'b', 'r', 'e'], [['s', 'e', 'p', 't', 'e', 'm', 'b', 'e', 'r']]), (['s', 'e', 'g', 'u', 'n', 'd', 'o', 's'], [['s', 'e', 'c', 'o', 'n', 'd']]), (['d', 'o', 'm', 'i', 'n', 'g', 'o'], [['s', 'u', 'n', 'd', 'a', 'y']]), (['f', 'e', 'b', 'r', 'e', 'r', 'o'], [['f', 'e', 'b', 'r', 'u', 'a', 'r', 'y']]), (['m', 'i', 'n', 'u', 't', 'o', 's'], [['m', 'i', 'n', 'u', 't', 'e']]), (['o', 'c', 't', 'u', 'b', 'r', 'e'], [['o', 'c', 't', 'o', 'b', 'e', 'r']]), (['s', 'e', 'g', 'u', 'n', 'd', 'o'], [['s', 'e', 'c', 'o', 'n', 'd']]), (['s', 'e', 'm', 'a', 'n', 'a', 's'], [['w', 'e', 'e', 'k']]), (['v', 'i', 'e', 'r', 'n', 'e', 's'], [['f', 'r', 'i', 'd', 'a', 'y']]), (['a', 'g', 'o', 's', 't', 'o'], [['a', 'u', 'g', 'u', 's', 't']]), (['j', 'u', 'e', 'v', 'e', 's'], [['t', 'h', 'u', 'r', 's', 'd', 'a', 'y']]), (['m', 'a', 'r', 't', 'e', 's'], [['t', 'u', 'e', 's', 'd', 'a', 'y']]), (['m', 'i', 'n', 'u', 't', 'o'], [['m', 'i', 'n', 'u', 't', 'e']]), (['s', 'a', 'b', 'a', 'd', 'o'], [['s', 'a', 't', 'u', 'r', 'd', 'a', 'y']]), (['s', 'e', 'm', 'a', 'n', 'a'], [['w', 'e', 'e', 'k']]), (['a', ' ', 'l', 'a', 's'], [[]]), (['a', 'b', 'r', 'i', 'l'], [['a', 'p', 'r', 'i', 'l']]), (['c', 'e', 'r', 'c', 'a'], [[]]), (['e', 'n', 'e', 'r', 'o'], [['j', 'a', 'n', 'u', 'a', 'r', 'y']]), (['h', 'o', 'r', 'a', 's'], [['h', 'o', 'u', 'r']]), (['j', 'u', 'l', 'i', 'o'], [['j', 'u', 'l', 'y']]), (['j', 'u', 'n', 'i', 'o'], [['j', 'u', 'n', 'e']]), (['l', 'u', 'n', 'e', 's'], [['m', 'o', 'n', 'd', 'a', 'y']]), (['m', 'a', 'r', 'z', 'o'], [['m', 'a', 'r', 'c', 'h']]), (['m', 'e', 's', 'e', 's'], [['m', 'o', 'n', 't', 'h']]), (['a', 'n', 'o', 's'], [['y', 'e', 'a', 'r']]), (['d', 'i', 'a', 's'], [['d', 'a', 'y']]), (['h', 'a', 'c', 'e'], [['a', 'g', 'o']]), (['h', 'o', 'r', 'a'], [['h', 'o', 'u', 'r']]), (['m', 'a', 'y', 'o'], [['m', 'a', 'y']]), (['s', 'e', 'p', 't'], [['s', 'e', 'p', 't', 'e', 'm', 'b', 'e', 'r']]), (['a', 'b', 'r'], [['a', 'p', 'r', 'i', 'l']]), (['a', 'g', 'o'], [['a', 'u', 'g', 'u', 's', 't']]), (['a', 'n', 'o'], [['y', 'e', 'a', 'r']]), (['d', 'e', 'l'], [[]]), (['d', 'i', 'a'], [['d', 'a', 'y']]), (['d', 'i', 'c'], [['d', 'e', 'c', 'e', 'm', 'b', 'e', 'r']]), (['d', 'o', 'm'], [['s', 'u', 'n', 'd', 'a', 'y']]), (['e', 'n', 'e'], [['j', 'a', 'n', 'u', 'a', 'r', 'y']]), (['f', 'e', 'b'], [['f', 'e', 'b', 'r', 'u', 'a', 'r', 'y']]), (['g', 'm', 't'], [['g', 'm', 't']]), (['j', 'u', 'e'], [['t', 'h', 'u', 'r', 's', 'd', 'a', 'y']]), (['j', 'u', 'l'], [['j', 'u', 'l', 'y']]), (['j', 'u', 'n'], [['j', 'u', 'n', 'e']]), (['l', 'u', 'n'], [['m', 'o', 'n', 'd', 'a', 'y']]), (['m', 'a', 'r'], [['m', 'a', 'r', 'c', 'h'], ['t', 'u', 'e', 's', 'd', 'a', 'y']]), (['m', 'a', 'y'], [['m', 'a', 'y']]), (['m', 'e', 's'], [['m', 'o', 'n', 't', 'h']]), (['m', 'i', 'e'], [['w', 'e', 'd', 'n', 'e', 's', 'd', 'a', 'y']]), (['m', 'i', 'n'], [['m', 'i', 'n', 'u', 't', 'e']]), (['n', 'o', 'v'], [['n', 'o', 'v', 'e', 'm', 'b', 'e', 'r']]), (['o', 'c', 't'], [['o', 'c', 't', 'o', 'b', 'e', 'r']]), (['s', 'a', 'b'], [['s', 'a', 't', 'u', 'r', 'd', 'a', 'y']]), (['s', 'e', 'm'], [['w', 'e', 'e', 'k']]), (['s', 'e', 'p'], [['s', 'e', 'p', 't', 'e', 'm', 'b', 'e', 'r']]), (['s', 'e', 't'], [['s', 'e', 'p', 't', 'e', 'm', 'b', 'e', 'r']]), (['u', 't', 'c'], [['u', 't', 'c']]), (['v', 'i', 'e'], [['f', 'r', 'i', 'd', 'a', 'y']]), (['a', 'm'], [['a', 'm']]), (['d', 'e'], [[]]), (['d', 'o'], [['s', 'u', 'n', 'd', 'a', 'y']]), (['e', 'n'], [['i', 'n']]), (['j', 'u'], [['t', 'h', 'u', 'r', 's', 'd', 'a', 'y']]), (['l', 'u'], [['m', 'o', 'n', 'd', 'a', 'y']]), (['m', 'i'], [['w', 'e', 'd', 'n', 'e', 's', 'd', 'a', 'y']]), (['p', 'm'], [['p', 'm']]), (['s', 'a'], [['s', 'a', 't', 'u', 'r', 'd', 'a', 'y']]), (['v', 'i'], [['f', 'r', 'i', 'd', 'a', 'y']]), ([' '], [[' ']]), (['\''], [[]]), (['+'], [['+']]), ([','], [[]]), (['-'], [['-']]), (['.'], [['.']]), (['/'], [['/']]), ([':'], [[':']]), ([';'], [[]]), (['@'], [[]]), (['['], [[]]), ([']'], [[]]), (['a'], [['y', 'e', 'a', 'r']]), (['d'], [['d', 'a', 'y']]), (['h'], [['h', 'o', 'u', 'r']]), (['m'], [['m', 'o', 'n', 't', 'h']]), (['s'], [['s', 'e', 'c', 'o', 'n', 'd']]), (['y'], [[]]), (['z'], [['z']]), (['|'], [[]])]
  relativeType := [(['l', 'a', ' ', 'p', 'r', 'o', 'x', 'i', 'm', 'a', ' ', 's', 'e', 'm', 'a', 'n', 'a'], ['i', 'n', ' ', '1', ' ', 'w', 'e', 'e', 'k']), (['l', 'a', ' ', 's', 'e', 'm', 'a', 'n', 'a', ' ', 'p', 'a', 's', 'a', 'd', 'a'], ['1', ' ', 'w', 'e', 'e', 'k', ' ', 'a', 'g', 'o']), (['e', 'l', ' ', 'p', 'r', 'o', 'x', 'i', 'm', 'o', ' ', 'a', 'n', 'o'], ['i', 'n', ' ', '1', ' ', 'y', 'e', 'a', 'r']), (['e', 'l', ' ', 'p', 'r', 'o', 'x', 'i', 'm', 'o', ' ', 'm', 'e', 's'], ['i', 'n', ' ', '1', ' ', 'm', 'o', 'n', 't', 'h']), (['e', 'l', ' ', 'a', 'n', 'o', ' ', 'p', 'a', 's', 'a', 'd', 'o'], ['1', ' ', 'y', 'e', 'a', 'r', ' ', 'a', 'g', 'o']), (['e', 'l', ' ', 'm', 'e', 's', ' ', 'p', 'a', 's', 'a', 'd', 'o'], ['1', ' ', 'm', 'o', 'n', 't', 'h', ' ', 'a', 'g', 'o']), (['e', 's', 't', 'a', ' ', 's', 'e', 'm', 'a', 'n', 'a'], ['0', ' ', 'w', 'e', 'e', 'k', ' ', 'a', 'g', 'o']), (['e', 's', 't', 'e', ' ', 'm', 'i', 'n', 'u', 't', 'o'], ['0', ' ', 'm', 'i', 'n', 'u', 't', 'e', ' ', 'a', 'g', 'o']), (['e', 's', 't', 'a', ' ', 'h', 'o', 'r', 'a'], ['0', ' ', 'h', 'o', 'u', 'r', ' ', 'a', 'g', 'o']), (['a', 'n', 't', 'e', 'a', 'y', 'e', 'r'], ['2', ' ', 'd', 'a', 'y', ' ', 'a', 'g', 'o']), (['e', 's', 't', 'e', ' ', 'a', 'n', 'o'], ['0', ' ', 'y', 'e', 'a', 'r', ' ', 'a', 'g', 'o']), (['e', 's', 't', 'e', ' ', 'm', 'e', 's'], ['0', ' ', 'm', 'o', 'n', 't', 'h', ' ', 'a', 'g', 'o']), (['m', 'a', 'n', 'a', 'n', 'a'], ['i', 'n', ' ', '1', ' ', 'd', 'a', 'y']), (['a', 'h', 'o', 'r', 'a'], ['0', ' ', 's', 'e', 'c', 'o', 'n', 'd', ' ', 'a', 'g', 'o']), (['a', 'y', 'e', 'r'], ['1', ' ', 'd', 'a', 'y', ' ', 'a', 'g', 'o']), (['h', 'o', 'y'], ['0', ' ', 'd', 'a', 'y', ' ', 'a', 'g', 'o'])]

/-- internal/data/es.go: `es_419_Locale`, dictionary. -/
def es_419Dict : LangData where
  name := ['e', 's', '-', '4', '1', '9']

/-- internal/data/es.go: `es_AR_Locale`, dictionary. -/
def es_ARDict : LangData where
  name := ['e', 's', '-', 'A', 'R']
  translations := [(['s', 'e', 'g'], [['s', 'e', 'c', 'o', 'n', 'd']])]

/-- internal/data/es.go: `es_BO_Locale`, dictionary. -/
def es_BODict : LangData where
  name := ['e', 's', '-', 'B', 'O']

/-- internal/data/es.go: `es_BR_Locale`, dictionary. -/
def es_BRDict : LangData where
  name := ['e', 's', '-', 'B', 'R']

/-- internal/data/es.go: `es_BZ_Locale`, dictionary. -/
def es_BZDict : LangData where
  name := ['e', 's', '-', 'B', 'Z']

/-- internal/data/es.go: `es_CL_Locale`, dictionary. -/
def es_CLDict : LangData where
  name := ['e', 's', '-', 'C', 'L']

/-- internal/data/es.go: `es_CO_Locale`, dictionary. -/
def es_CODict : LangData where
  name := ['e', 's', '-', 'C', 'O']

/-- internal/data/es.go: `es_CR_Locale`, dictionary. -/
def es_CRDict : LangData where
  name := ['e', 's', '-', 'C', 'R']

/-- internal/data/es.go: `es_CU_Locale`, dictionary. -/
def es_CUDict : LangData where
  name := ['e', 's', '-', 'C', 'U']

/-- internal/data/es.go: `es_DO_Locale`, dictionary. -/
def es_DODict : LangData where
  name := ['e', 's', '-', 'D', 'O']

/-- internal/data/es.go: `es_EA_Locale`, dictionary. -/
def es_EADict : LangData where
  name := ['e', 's', '-', 'E', 'A']

/-- internal/data/es.go: `es_EC_Locale`, dictionary. -/
def es_ECDict : LangData where
  name := ['e', 's', '-', 'E', 'C']

/-- internal/data/es.go: `es_GQ_Locale`, dictionary. -/
def es_GQDict : LangData where
  name := ['e', 's', '-', 'G', 'Q']

/-- internal/data/es.go: `es_GT_Locale`, dictionary. -/
def es_GTDict : LangData where
  name := ['e', 's', '-', 'G', 'T']

/-- internal/data/es.go: `es_HN_Locale`, dictionary. -/
def es_HNDict : LangData where
  name := ['e', 's', '-', 'H', 'N']

/-- internal/data/es.go: `es_IC_Locale`, dictionary. -/
def es_ICDict : LangData where
  name := ['e', 's', '-', 'I', 'C']

/-- internal/data/es.go: `es_MX_Locale`, dictionary. -/
def es_MXDict : LangData where
  name := ['e', 's', '-', 'M', 'X']
  relativeType := [(['l', 'a', ' ', 's', 'e', 'm', 'a', 'n', 'a', ' ', 'p', 'r', 'o', 'x', 'i', 'm', 'a'], ['i', 'n', ' ', '1', ' ', 'w', 'e', 'e', 'k']), (['e', 'l', ' ', 'a', 'n', 'o', ' ', 'p', 'r', 'o', 'x', 'i', 'm', 'o'], ['i', 'n', ' ', '1', ' ', 'y', 'e', 'a', 'r']), (['e', 'l', ' ', 'm', 'e', 's', ' ', 'p', 'r', 'o', 'x', 'i', 'm', 'o'], ['i', 'n', ' ', '1', ' ', 'm', 'o', 'n', 't', 'h'])]

/-- internal/data/es.go: `es_NI_Locale`, dictionary. -/
def es_NIDict : LangData where
  name := ['e', 's', '-', 'N', 'I']

/-- internal/data/es.go: `es_PA_Locale`, dictionary. -/
def es_PADict : LangData where
  name := ['e', 's', '-', 'P', 'A']

/-- internal/data/es.go: `es_PE_Locale`, dictionary. -/
def es_PEDict : LangData where
  name := ['e', 's', '-', 'P', 'E']

/-- internal/data/es.go: `es_PH_Locale`, dictionary. -/
def es_PHDict : LangData where
  name := ['e', 's', '-', 'P', 'H']

/-- internal/data/es.go: `es_PR_Locale`, dictionary. -/
def es_PRDict : LangData where
  name := ['e', 's', '-', 'P', 'R']

/-- internal/data/es.go: `es_PY_Locale`, dictionary. -/
def es_PYDict : LangData where
  name := ['e', 's', '-', 'P', 'Y']
  translations := [(['s', 'e', 'g'], [['s', 'e', 'c', 'o', 'n', 'd']])]

/-- internal/data/es.go: `es_SV_Locale`, dictionary. -/
def es_SVDict : LangData where
  name := ['e', 's', '-', 'S', 'V']

/-- internal/data/es.go: `es_US_Locale`, dictionary. -/
def es_USDict : LangData where
  name := ['e', 's', '-', 'U', 'S']

/-- internal/data/es.go: `es_UY_Locale`, dictionary. -/
def es_UYDict : LangData where
  name := ['e', 's', '-', 'U', 'Y']

/-- internal/data/es.go: `es_VE_Locale`, dictionary. -/
def es_VEDict : LangData where
  name := ['e', 's', '-', 'V', 'E']

/-- internal/data/et.go: `et_Locale`, dictionary. -/
def etDict : LangData where
  name := ['e', 't']
  translations := [(['d', 'e', 't', 's', 'e', 'm', 'b', 'e', 'r'], [['d', 'e', 'c', 'e', 'm', 'b', 'e', 'r']]), (['e', 's', 'm', 'a', 's', 'p', 'a', 'e', 'v'], [['m', 'o', 'n', 'd', 'a', 'y']]), (['k', 'o', 'l', 'm', 'a', 'p', 'a', 'e', 'v'], [['w', 'e', 'd', 'n', 'e', 's', 'd', 'a', 'y']]), (['n', 'e', 'l', 'j', 'a', 'p', 'a', 'e', 'v'], [['t', 'h', 'u', 'r', 's', 'd', 'a', 'y']]), (['s', 'e', 'p', 't', 'e', 'm', 'b', 'e', 'r'], [['s', 'e', 'p', 't', 'e', 'm', 'b', 'e', 'r']]), (['t', 'e', 'i', 's', 'i', 'p', 'a', 'e', 'v'], [['t', 'u', 'e', 's', 'd', 'a', 'y']]), (['n', 'o', 'v', 'e', 'm', 'b', 'e', 'r'], [['n', 'o', 'v', 'e', 'm', 'b', 'e', 'r']]), (['o', 'k', 't', 'o', 'o', 'b', 'e', 'r'], [['o', 'c', 't', 'o', 'b', 'e', 'r']]), (['p', 'u', 'h', 'a', 'p', 'a', 'e', 'v'], [['s', 'u', 'n', 'd', 'a', 'y']]), (['v', 'e', 'e', 'b', 'r', 'u', 'a', 'r'], [['f', 'e', 'b', 'r', 'u', 'a', 'r', 'y']]), (['j', 'a', 'a', 'n', 'u', 'a', 'r'], [['j', 'a', 'n', 'u', 'a', 'r', 'y']]), (['l', 'a', 'u', 'p', 'a', 'e', 'v'], [['s', 'a', 't', 'u', 'r', 'd', 'a', 'y']]), (['a', 'p', 'r', 'i', 'l', 'l'], [['a', 'p', 'r', 'i', 'l']]), (['a', 'u', 'g', 'u', 's', 't'], [['a', 'u', 'g', 'u', 's', 't']]), (['s', 'e', 'k', 'u', 'n', 'd'], [['s', 'e', 'c', 'o', 'n', 'd']]), (['a', 'a', 's', 't', 'a'], [['y', 'e', 'a', 'r']]), (['j', 'u', 'u', 'l', 'i'], [['j', 'u', 'l', 'y']]), (['j', 'u', 'u', 'n', 'i'], [['j', 'u', 'n', 'e']]), (['m', 'a', 'r', 't', 's'], [['m', 'a', 'r', 'c', 'h']]), (['m', 'i', 'n', 'u', 't'], [['m', 'i', 'n', 'u', 't', 'e']]), (['n', 'a', 'd', 'a', 'l'], [['w', 'e', 'e', 'k']]), (['r', 'e', 'e', 'd', 'e'], [['f', 'r', 'i', 'd', 'a', 'y']]), (['v', 'e', 'e', 'b', 'r'], [['f', 'e', 'b', 'r', 'u', 'a', 'r', 'y']]), (['d', 'e', 't', 's'], [['d', 'e', 'c', 'e', 'm', 'b', 'e', 'r']]), (['j', 'a', 'a', 'n'], [['j', 'a', 'n', 'u', 'a', 'r', 'y']]), (['p', 'a', 'e', 'v'], [['d', 'a', 'y']]), (['s', 'e', 'p', 't'], [['s', 'e', 'p', 't', 'e', 'm', 'b', 'e', 'r']]), (['t', 'u', 'n', 'd'], [['h', 'o', 'u', 'r']]), (['a', 'p', 'r'], [['a', 'p', 'r', 'i', 'l']]), (['a', 'u', 'g'], [['a', 'u', 'g', 'u', 's', 't']]), (['g', 'm', 't'], [['g', 'm', 't']]), (['k', 'u', 'u'], [['m', 'o', 'n', 't', 'h']]), (['m', 'a', 'i'], [['m', 'a', 'y']]), (['m', 'i', 'n'], [['m', 'i', 'n', 'u', 't', 'e']]), (['n', 'a', 'd'], [['w', 'e', 'e', 'k']]), (['n', 'o', 'v'], [['n', 'o', 'v', 'e', 'm', 'b', 'e', 'r']]), (['o', 'k', 't'], [['o', 'c', 't', 'o', 'b', 'e', 'r']]), (['s', 'e', 'k'], [['s', 'e', 'c', 'o', 'n', 'd']]), (['u', 't', 'c'], [['u', 't', 'c']]), (['a', 'm'], [['a', 'm']]), (['p', 'm'], [['p', 'm']]), ([' '], [[' ']]), (['\''], [[]]), (['+'], [['+']]), ([','], [[]]), (['-'], [['-']]), (['.'], [['.']]), (['/'], [['/']]), ([':'], [[':']]), ([';'], [[]]), (['@'], [[]]), (['['], [[]]), ([']'], [[]]), (['a'], [['y', 'e', 'a', 'r']]), (['e'], [['m', 'o', 'n', 'd', 'a', 'y']]), (['k'], [['m', 'o', 'n', 't', 'h'], ['w', 'e', 'd', 'n', 'e', 's', 'd', 'a', 'y']]), (['l'], [['s', 'a', 't', 'u', 'r', 'd', 'a', 'y']]), (['n'], [['t', 'h', 'u', 'r', 's', 'd', 'a', 'y']]), (['p'], [['d', 'a', 'y'], ['s', 'u', 'n', 'd', 'a', 'y']]), (['r'], [['f', 'r', 'i', 'd', 'a', 'y']]), (['s'], [['s', 'e', 'c', 'o', 'n', 'd']]), (['t'], [['h', 'o', 'u', 'r'], ['t', 'u', 'e', 's', 'd', 'a', 'y']]), (['z'], [['z']]), (['|'], [[]])]
  relativeType := [(['p', 'r', 'a', 'e', 'g', 'u', 's', 'e', 'l', ' ', 'm', 'i', 'n', 'u', 't', 'i', 'l'], ['0', ' ', 'm', 'i', 'n', 'u', 't', 'e', ' ', 'a', 'g', 'o']), (['p', 'r', 'a', 'e', 'g', 'u', 's', 'e', 'l', ' ', 't', 'u', 'n', 'n', 'i', 'l'], ['0', ' ', 'h', 'o', 'u', 'r', ' ', 'a', 'g', 'o']), (['j', 'a', 'r', 'g', 'm', 'i', 'n', 'e', ' ', 'a', 'a', 's', 't', 'a'], ['i', 'n', ' ', '1', ' ', 'y', 'e', 'a', 'r']), (['j', 'a', 'r', 'g', 'm', 'i', 'n', 'e', ' ', 'n', 'a', 'd', 'a', 'l'], ['i', 'n', ' ', '1', ' ', 'w', 'e', 'e', 'k']), (['k', 'a', 'e', 's', 'o', 'l', 'e', 'v', ' ', 'a', 'a', 's', 't', 'a'], ['0', ' ', 'y', 'e', 'a', 'r', ' ', 'a', 'g', 'o']), (['k', 'a', 'e', 's', 'o', 'l', 'e', 'v', ' ', 'n', 'a', 'd', 'a', 'l'], ['0', ' ', 'w', 'e', 'e', 'k', ' ', 'a', 'g', 'o']), (['e', 'e', 'l', 'm', 'i', 'n', 'e', ' ', 'a', 'a', 's', 't', 'a'], ['1', ' ', 'y', 'e', 'a', 'r', ' ', 'a', 'g', 'o']), (['e', 'e', 'l', 'm', 'i', 'n', 'e', ' ', 'n', 'a', 'd', 'a', 'l'], ['1', ' ', 'w', 'e', 'e', 'k', ' ', 'a', 'g', 'o']), (['j', 'a', 'r', 'g', 'm', 'i', 'n', 'e', ' ', 'k', 'u', 'u'], ['i', 'n', ' ', '1', ' ', 'm', 'o', 'n', 't', 'h']), (['k', 'a', 'e', 's', 'o', 'l', 'e', 'v', ' ', 'k', 'u', 'u'], ['0', ' ', 'm', 'o', 'n', 't', 'h', ' ', 'a', 'g', 'o']), (['e', 'e', 'l', 'm', 'i', 'n', 'e', ' ', 'k', 'u', 'u'], ['1', ' ', 'm', 'o', 'n', 't', 'h', ' ', 'a', 'g', 'o']), (['h', 'o', 'm', 'm', 'e'], ['i', 'n', ' ', '1', ' ', 'd', 'a', 'y']), (['e', 'i', 'l', 'e'], ['1', ' ', 'd', 'a', 'y', ' ', 'a', 'g', 'o']), (['n', 'u', 'u', 'd'], ['0', ' ', 's', 'e', 'c', 'o', 'n', 'd', ' ', 'a', 'g', 'o']), (['t', 'a', 'n', 'a'], ['0', ' ', 'd', 'a', 'y', ' ', 'a', 'g', 'o'])]

/-- internal/data/eu.go: `eu_Locale`, dictionary. -/
def euDict : LangData where
  name := ['e', 'u']
  translations := [(['a', 's', 't', 'e', 'a', 'z', 'k', 'e', 'n', 'a'], [['w', 'e', 'd', 'n', 'e', 's', 'd', 'a', 'y']]), (['a', 's', 't', 'e', 'l', 'e', 'h', 'e', 'n', 'a'], [['m', 'o', 'n', 'd', 'a', 'y']]), (['a', 's', 't', 'e', 'a', 'r', 't', 'e', 'a'], [['t', 'u', 'e', 's', 'd', 'a', 'y']]), (['h', 'i', 'l', 'a', 'b', 'e', 't', 'e', 'a'], [['m', 'o', 'n', 't', 'h']]), (['l', 'a', 'r', 'u', 'n', 'b', 'a', 't', 'a'], [['s', 'a', 't', 'u', 'r', 'd', 'a', 'y']]), (['u', 'r', 't', 'a', 'r', 'r', 'i', 'l', 'a'], [['j', 'a', 'n', 'u', 'a', 'r', 'y']]), (['o', 's', 't', 'e', 'g', 'u', 'n', 'a'], [['t', 'h', 'u', 'r', 's', 'd', 'a', 'y']]), (['o', 's', 't', 'i', 'r', 'a', 'l', 'a'], [['f', 'r', 'i', 'd', 'a', 'y']]), (['s', 'e', 'g', 'u', 'n', 'd', 'o', 'a'], [['s', 'e', 'c', 'o', 'n', 'd']]), (['a', 'b', 'e', 'n', 'd', 'u', 'a'], [['d', 'e', 'c', 'e', 'm', 'b', 'e', 'r']]), (['a', 'b', 'u', 'z', 't', 'u', 'a'], [['a', 'u', 'g', 'u', 's', 't']]), (['a', 'p', 'i', 'r', 'i', 'l', 'a'], [['a', 'p', 'r', 'i', 'l']]), (['i', 'g', 'a', 'n', 'd', 'e', 'a'], [['s', 'u', 'n', 'd', 'a', 'y']]), (['m', 'a', 'i', 'a', 't', 'z', 'a'], [['m', 'a', 'y']]), (['m', 'a', 'r', 't', 'x', 'o', 'a'], [['m', 'a', 'r', 'c', 'h']]), (['m', 'i', 'n', 'u', 't', 'u', 'a'], [['m', 'i', 'n', 'u', 't', 'e']]), (['o', 't', 's', 'a', 'i', 'l', 'a'], [['f', 'e', 'b', 'r', 'u', 'a', 'r', 'y']]), (['u', 'z', 't', 'a', 'i', 'l', 'a'], [['j', 'u', 'l', 'y']]), (['a', 'z', 'a', 'r', 'o', 'a'], [['n', 'o', 'v', 'e', 'm', 'b', 'e', 'r']]), (['e', 'k', 'a', 'i', 'n', 'a'], [['j', 'u', 'n', 'e']]), (['i', 'r', 'a', 'i', 'l', 'a'], [['s', 'e', 'p', 't', 'e', 'm', 'b', 'e', 'r']]), (['a', 's', 't', 'e', 'a'], [['w', 'e', 'e', 'k']]), (['e', 'g', 'u', 'n', 'a'], [['d', 'a', 'y']]), (['o', 'r', 'd', 'u', 'a'], [['h', 'o', 'u', 'r']]), (['u', 'r', 'r', 'i', 'a'], [['o', 'c', 't', 'o', 'b', 'e', 'r']]), (['u', 'r', 't', 'e', 'a'], [['y', 'e', 'a', 'r']]), (['a', 'b', 'e'], [['d', 'e', 'c', 'e', 'm', 'b', 'e', 'r']]), (['a', 'b', 'u'], [['a', 'u', 'g', 'u', 's', 't']]), (['a', 'p', 'i'], [['a', 'p', 'r', 'i', 'l']]), (['a', 's', 't'], [['w', 'e', 'e', 'k']]), (['a', 'z', 'a'], [['n', 'o', 'v', 'e', 'm', 'b', 'e', 'r']]), (['e', 'k', 'a'], [['j', 'u', 'n', 'e']]), (['g', 'm', 't'], [['g', 'm', 't']]), (['h', 'i', 'l'], [['m', 'o', 'n', 't', 'h']]), (['i', 'r', 'a'], [['s', 'e', 'p', 't', 'e', 'm', 'b', 'e', 'r']]), (['m', 'a', 'i'], [['m', 'a', 'y']]), (['m', 'a', 'r'], [['m', 'a', 'r', 'c', 'h']]), (['m', 'i', 'n'], [['m', 'i', 'n', 'u', 't', 'e']]), (['o', 't', 's'], [['f', 'e', 'b', 'r', 'u', 'a', 'r', 'y']]), (['u', 'r', 'r'], [['o', 'c', 't', 'o', 'b', 'e', 'r']]), (['u', 'r', 't'], [['j', 'a', 'n', 'u', 'a', 'r', 'y']]), (['u', 't', 'c'], [['u', 't', 'c']]), (['u', 'z', 't'], [['j', 'u', 'l', 'y']]), (['a', 'l'], [['m', 'o', 'n', 'd', 'a', 'y']]), (['a', 'm'], [['a', 'm']]), (['a', 'r'], [['t', 'u', 'e', 's', 'd', 'a', 'y']]), (['a', 'z'], [['w', 'e', 'd', 'n', 'e', 's', 'd', 'a', 'y']]), (['e', 'g'], [['d', 'a', 'y']]), (['i', 'g'], [['s', 'u', 'n', 'd', 'a', 'y']]), (['l', 'r'], [['s', 'a', 't', 'u', 'r', 'd', 'a', 'y']]), (['o', 'g'], [['t', 'h', 'u', 'r', 's', 'd', 'a', 'y']]), (['o', 'r'], [['f', 'r', 'i', 'd', 'a', 'y']]), (['p', 'm'], [['p', 'm']]), ([' '], [[' ']]), (['\''], [[]]), (['+'], [['+']]), ([','], [[]]), (['-'], [['-']]), (['.'], [['.']]), (['/'], [['/']]), ([':'], [[':']]), ([';'], [[]]), (['@'], [[]]), (['['], [[]]), ([']'], [[]]), (['h'], [['h', 'o', 'u', 'r']]), (['s'], [['s', 'e', 'c', 'o', 'n', 'd']]), (['z'], [['z']]), (['|'], [[]])]
  relativeType := [(['h', 'u', 'r', 'r', 'e', 'n', 'g', 'o', ' ', 'h', 'i', 'l', 'a', 'b', 'e', 't', 'e', 'a'], ['i', 'n', ' ', '1', ' ', 'm', 'o', 'n', 't', 'h']), (['a', 'u', 'r', 'r', 'e', 'k', 'o', ' ', 'h', 'i', 'l', 'a', 'b', 'e', 't', 'e', 'a'], ['1', ' ', 'm', 'o', 'n', 't', 'h', ' ', 'a', 'g', 'o']), (['h', 'u', 'r', 'r', 'e', 'n', 'g', 'o', ' ', 'a', 's', 't', 'e', 'a'], ['i', 'n', ' ', '1', ' ', 'w', 'e', 'e', 'k']), (['h', 'u', 'r', 'r', 'e', 'n', 'g', 'o', ' ', 'u', 'r', 't', 'e', 'a'], ['i', 'n', ' ', '1', ' ', 'y', 'e', 'a', 'r']), (['m', 'i', 'n', 'u', 't', 'u', ' ', 'h', 'o', 'n', 'e', 't', 'a', 'n'], ['0', ' ', 'm', 'i', 'n', 'u', 't', 'e', ' ', 'a', 'g', 'o']), (['a', 'u', 'r', 'r', 'e', 'k', 'o', ' ', 'a', 's', 't', 'e', 'a'], ['1', ' ', 'w', 'e', 'e', 'k', ' ', 'a', 'g', 'o']), (['a', 'u', 'r', 'r', 'e', 'k', 'o', ' ', 'u', 'r', 't', 'e', 'a'], ['1', ' ', 'y', 'e', 'a', 'r', ' ', 'a', 'g', 'o']), (['h', 'i', 'l', 'a', 'b', 'e', 't', 'e', ' ', 'h', 'a', 'u'], ['0', ' ', 'm', 'o', 'n', 't', 'h', ' ', 'a', 'g', 'o']), (['o', 'r', 'd', 'u', ' ', 'h', 'o', 'n', 'e', 't', 'a', 'n'], ['0', ' ', 'h', 'o', 'u', 'r', ' ', 'a', 'g', 'o']), (['a', 's', 't', 'e', ' ', 'h', 'a', 'u'], ['0', ' ', 'w', 'e', 'e', 'k', ' ', 'a', 'g', 'o']), (['a', 'u', 'r', 't', 'e', 'n'], ['0', ' ', 'y', 'e', 'a', 'r', ' ', 'a', 'g', 'o']), (['b', 'i', 'h', 'a', 'r'], ['i', 'n', ' ', '1', ' ', 'd', 'a', 'y']), (['o', 'r', 'a', 'i', 'n'], ['0', ' ', 's', 'e', 'c', 'o', 'n', 'd', ' ', 'a', 'g', 'o']), (['a', 't', 'z', 'o'], ['1', ' ', 'd', 'a', 'y', ' ', 'a', 'g', 'o']), (['g', 'a', 'u', 'r'], ['0', ' ', 'd', 'a', 'y', ' ', 'a', 'g', 'o'])]

/-- internal/data/ewo.go: `ewo_Locale`, dictionary. -/
def ewoDict : LangData where
  name := ['e', 'w', 'o']
  translations := [(['n', 'g', 'ɔ', 'n', ' ', 'a', 'w', 'o', 'm', ' ', 'a', 'i', ' ', 'd', 'z', 'i', 'a'], [['n', 'o', 'v', 'e', 'm', 'b', 'e', 'r']]), (['s', 'ɔ', 'n', 'd', 'ɔ', ' ', 'm', 'ə', 'l', 'u', ' ', 'm', 'ə', 'n', 'y', 'i'], [['t', 'h', 'u', 'r', 's', 'd', 'a', 'y']]), (['n', 'g', 'ɔ', 'n', ' ', 'a', 'w', 'o', 'm', ' ', 'a', 'i', ' ', 'b', 'ɛ'], [['d', 'e', 'c', 'e', 'm', 'b', 'e', 'r']]), (['s', 'ɔ', 'n', 'd', 'ɔ', ' ', 'm', 'ə', 'l', 'u', ' ', 'm', 'ə', 'b', 'ɛ'], [['t', 'u', 'e', 's', 'd', 'a', 'y']]), (['s', 'ɔ', 'n', 'd', 'ɔ', ' ', 'm', 'ə', 'l', 'u', ' ', 'm', 'ə', 'l', 'ɛ'], [['w', 'e', 'd', 'n', 'e', 's', 'd', 'a', 'y']]), (['n', 'g', 'ɔ', 'n', ' ', 'z', 'a', 'm', 'g', 'b', 'a', 'l', 'a'], [['j', 'u', 'l', 'y']]), (['n', 'g', 'ɔ', 'n', ' ', 's', 'a', 'm', 'ə', 'n', 'a'], [['j', 'u', 'n', 'e']]), (['n', 'g', 'ɔ', 'n', ' ', 'e', 'b', 'u', 'l', 'u'], [['s', 'e', 'p', 't', 'e', 'm', 'b', 'e', 'r']]), (['n', 'g', 'ɔ', 'n', ' ', 'n', 'y', 'i', 'n', 'a'], [['a', 'p', 'r', 'i', 'l']]), (['n', 'g', 'ɔ', 'n', ' ', 'a', 'w', 'o', 'm'], [['o', 'c', 't', 'o', 'b', 'e', 'r']]), (['n', 'g', 'ɔ', 'n', ' ', 'l', 'a', 'l', 'a'], [['m', 'a', 'r', 'c', 'h']]), (['n', 'g', 'ɔ', 'n', ' ', 'm', 'w', 'o', 'm'], [['a', 'u', 'g', 'u', 's', 't']]), (['n', 'g', 'ɔ', 'n', ' ', 't', 'a', 'n', 'a'], [['m', 'a', 'y']]), (['n', 'g', 'ə', 'g', 'o', 'g', 'ə', 'l', 'e'], [['p', 'm']]), (['n', 'g', 'ɔ', 'n', ' ', 'o', 's', 'u'], [['j', 'a', 'n', 'u', 'a', 'r', 'y']]), (['a', 'k', 'a', 'b', 'ə', 'g', 'a'], [['s', 'e', 'c', 'o', 'n', 'd']]), (['k', 'i', 'k', 'i', 'r', 'i', 'g'], [['a', 'm']]), (['n', 'g', 'ɔ', 'n', ' ', 'b', 'ɛ'], [['f', 'e', 'b', 'r', 'u', 'a', 'r', 'y']]), (['e', 'n', 'u', 't', 'ɛ', 'n'], [['m', 'i', 'n', 'u', 't', 'e']]), (['f', 'u', 'l', 'a', 'd', 'e'], [['f', 'r', 'i', 'd', 'a', 'y']]), (['s', 'e', 'r', 'a', 'd', 'e'], [['s', 'a', 't', 'u', 'r', 'd', 'a', 'y']]), (['a', 'w', 'o', 'l', 'a'], [['h', 'o', 'u', 'r']]), (['m', 'ɔ', 'n', 'd', 'i'], [['m', 'o', 'n', 'd', 'a', 'y']]), (['s', 'ɔ', 'n', 'd', 'ɔ'], [['w', 'e', 'e', 'k'], ['s', 'u', 'n', 'd', 'a', 'y']]), (['a', 'm', 'o', 's'], [['d', 'a', 'y']]), (['n', 'g', 'a', 'b'], [['d', 'e', 'c', 'e', 'm', 'b', 'e', 'r']]), (['n', 'g', 'a', 'd'], [['n', 'o', 'v', 'e', 'm', 'b', 'e', 'r']]), (['n', 'g', 'ɔ', 'n'], [['m', 'o', 'n', 't', 'h']]), (['f', 'u', 'l'], [['f', 'r', 'i', 'd', 'a', 'y']]), (['g', 'm', 't'], [['g', 'm', 't']]), (['m', 'b', 'u'], [['y', 'e', 'a', 'r']]), (['m', 'ɔ', 'n'], [['m', 'o', 'n', 'd', 'a', 'y']]), (['n', 'g', 'a'], [['o', 'c', 't', 'o', 'b', 'e', 'r']]), (['n', 'g', 'b'], [['f', 'e', 'b', 'r', 'u', 'a', 'r', 'y']]), (['n', 'g', 'e'], [['s', 'e', 'p', 't', 'e', 'm', 'b', 'e', 'r']]), (['n', 'g', 'l'], [['m', 'a', 'r', 'c', 'h']]), (['n', 'g', 'm'], [['a', 'u', 'g', 'u', 's', 't']]), (['n', 'g', 'n'], [['a', 'p', 'r', 'i', 'l']]), (['n', 'g', 'o'], [['j', 'a', 'n', 'u', 'a', 'r', 'y']]), (['n', 'g', 's'], [['j', 'u', 'n', 'e']]), (['n', 'g', 't'], [['m', 'a', 'y']]), (['n', 'g', 'z'], [['j', 'u', 'l', 'y']]), (['s', 'e', 'r'], [['s', 'a', 't', 'u', 'r', 'd', 'a', 'y']]), (['s', 'm', 'b'], [['t', 'u', 'e', 's', 'd', 'a', 'y']]), (['s', 'm', 'l'], [['w', 'e', 'd', 'n', 'e', 's', 'd', 'a', 'y']]), (['s', 'm', 'n'], [['t', 'h', 'u', 'r', 's', 'd', 'a', 'y']]), (['s', 'ɔ', 'n'], [['s', 'u', 'n', 'd', 'a', 'y']]), (['u', 't', 'c'], [['u', 't', 'c']]), (['a', 'm'], [['a', 'm']]), (['p', 'm'], [['p', 'm']]), ([' '], [[' ']]), (['\''], [[]]), (['+'], [['+']]), ([','], [[]]), (['-'], [['-']]), (['.'], [['.']]), (['/'], [['/']]), ([':'], [[':']]), ([';'], [[]]), (['@'], [[]]), (['['], [[]]), ([']'], [[]]), (['z'], [['z']]), (['|'], [[]])]
  relativeType := [(['t', 'h', 'i', 's', ' ', 'm', 'i', 'n', 'u', 't', 'e'], ['0', ' ', 'm', 'i', 'n', 'u', 't', 'e', ' ', 'a', 'g', 'o']), (['l', 'a', 's', 't', ' ', 'm', 'o', 'n', 't', 'h'], ['1', ' ', 'm', 'o', 'n', 't', 'h', ' ', 'a', 'g', 'o']), (['n', 'e', 'x', 't', ' ', 'm', 'o', 'n', 't', 'h'], ['i', 'n', ' ', '1', ' ', 'm', 'o', 'n', 't', 'h']), (['t', 'h', 'i', 's', ' ', 'm', 'o', 'n', 't', 'h'], ['0', ' ', 'm', 'o', 'n', 't', 'h', ' ', 'a', 'g', 'o']), (['l', 'a', 's', 't', ' ', 'w', 'e', 'e', 'k'], ['1', ' ', 'w', 'e', 'e', 'k', ' ', 'a', 'g', 'o']), (['l', 'a', 's', 't', ' ', 'y', 'e', 'a', 'r'], ['1', ' ', 'y', 'e', 'a', 'r', ' ', 'a', 'g', 'o']), (['n', 'e', 'x', 't', ' ', 'w', 'e', 'e', 'k'], ['i', 'n', ' ', '1', ' ', 'w', 'e', 'e', 'k']), (['n', 'e', 'x', 't', ' ', 'y', 'e', 'a', 'r'], ['i', 'n', ' ', '1', ' ', 'y', 'e', 'a', 'r']), (['t', 'h', 'i', 's', ' ', 'h', 'o', 'u', 'r'], ['0', ' ', 'h', 'o', 'u', 'r', ' ', 'a', 'g', 'o']), (['t', 'h', 'i', 's', ' ', 'w', 'e', 'e', 'k'], ['0', ' ', 'w', 'e', 'e', 'k', ' ', 'a', 'g', 'o']), (['t', 'h', 'i', 's', ' ', 'y', 'e', 'a', 'r'], ['0', ' ', 'y', 'e', 'a', 'r', ' ', 'a', 'g', 'o']), (['a', 'n', 'g', 'o', 'g', 'e'], ['1', ' ', 'd', 'a', 'y', ' ', 'a', 'g', 'o']), (['o', 'k', 'i', 'r', 'i'], ['i', 'n', ' ', '1', ' ', 'd', 'a', 'y']), (['a', 'n', 'a'], ['0', ' ', 'd', 'a', 'y', ' ', 'a', 'g', 'o']), (['n', 'o', 'w'], ['0', ' ', 's', 'e', 'c', 'o', 'n', 'd', ' ', 'a', 'g', 'o'])]

/-- internal/data/fa.go: `fa_Locale`, dictionary. -/
def faDict : LangData where
  name := ['f', 'a']
  splitterGroup := 6
  translations := [(['ق', 'ب', 'ل', (Char.ofNat 0x200c), 'ا', 'ز', 'ظ', 'ه', 'ر'], [['a', 'm']]), (['چ', 'ه', 'ا', 'ر', ' ', 'ش', 'ن', 'ب', 'ه'], [['w', 'e', 'd', 'n', 'e', 's', 'd', 'a', 'y']]), (['ب', 'ع', 'د', 'ا', 'ز', 'ظ', 'ه', 'ر'], [['p', 'm']]), (['ر', 'و', 'ز', ' ', 'ش', 'ن', 'ب', 'ه'], [['s', 'a', 't', 'u', 'r', 'd', 'a', 'y']]), (['پ', 'ن', 'ج', ' ', 'ش', 'ن', 'ب', 'ه'], [['t', 'h', 'u', 'r', 's', 'd', 'a', 'y']]), (['چ', 'ه', 'ا', 'ر', 'ش', 'ن', 'ب', 'ه'], [['w', 'e', 'd', 'n', 'e', 's', 'd', 'a', 'y']]), (['د', 'و', ' ', 'ش', 'ن', 'ب', 'ه'], [['s', 'a', 't', 'u', 'r', 'd', 'a', 'y']]), (['س', 'ه', (Char.ofNat 0x200c), 'ش', 'ن', 'ب', 'ه'], [['t', 'u', 'e', 's', 'd', 'a', 'y']]), (['س', 'پ', 'ت', 'ا', 'م', 'ب', 'ر'], [['s', 'e', 'p', 't', 'e', 'm', 'b', 'e', 'r']]), (['پ', 'ن', 'ج', 'ش', 'ن', 'ب', 'ه'], [['t', 'h', 'u', 'r', 's', 'd', 'a', 'y']]), (['ا', 'ک', 'ت', 'و', 'ب', 'ر'], [['o', 'c', 't', 'o', 'b', 'e', 'r']]), (['د', 'س', 'ا', 'م', 'ب', 'ر'], [['d', 'e', 'c', 'e', 'm', 'b', 'e', 'r']]), (['د', 'و', 'ش', 'ن', 'ب', 'ه'], [['m', 'o', 'n', 'd', 'a', 'y']]), (['س', 'ه', 'ش', 'ن', 'ب', 'ه'], [['t', 'u', 'e', 's', 'd', 'a', 'y']]), (['س', 'پ', 'ت', 'م', 'ب', 'ر'], [['s', 'e', 'p', 't', 'e', 'm', 'b', 'e', 'r']]), (['ف', 'ب', 'ر', 'و', 'ر', 'ی'], [['f', 'e', 'b', 'r', 'u', 'a', 'r', 'y']]), (['ن', 'و', 'ا', 'م', 'ب', 'ر'], [['n', 'o', 'v', 'e', 'm', 'b', 'e', 'r']]), (['ژ', 'ا', 'ن', 'و', 'ی', 'ه'], [['j', 'a', 'n', 'u', 'a', 'r', 'y']]), (['ی', 'ک', 'ش', 'ن', 'ب', 'ه'], [['s', 'u', 'n', 'd', 'a', 'y']]), (['ا', 'و', 'ر', 'ی', 'ل'], [['a', 'p', 'r', 'i', 'l']]), (['ا', 'پ', 'ر', 'ی', 'ل'], [['a', 'p', 'r', 'i', 'l']]), (['ا', 'ک', 'ت', 'ب', 'ر'], [['o', 'c', 't', 'o', 'b', 'e', 'r']]), (['ث', 'ا', 'ن', 'ی', 'ه'], [['s', 'e', 'c', 'o', 'n', 'd']]), (['ج', 'ن', 'و', 'ر', 'ی'], [['j', 'a', 'n', 'u', 'a', 'r', 'y']]), (['ج', 'و', 'ل', 'ا', 'ی'], [['j', 'u', 'l', 'y']]), (['د', 'س', 'م', 'ب', 'ر'], [['d', 'e', 'c', 'e', 'm', 'b', 'e', 'r']]), (['د', 'ق', 'ی', 'ق', 'ه'], [['m', 'i', 'n', 'u', 't', 'e']]), (['ف', 'و', 'ر', 'ی', 'ه'], [['f', 'e', 'b', 'r', 'u', 'a', 'r', 'y']]), (['ن', 'و', 'م', 'ب', 'ر'], [['n', 'o', 'v', 'e', 'm', 'b', 'e', 'r']]), (['ژ', 'و', 'ي', 'ی', 'ه'], [['j', 'u', 'l', 'y']]), (['ا', 'گ', 'س', 'ت'], [['a', 'u', 'g', 'u', 's', 't']]), (['ج', 'م', 'ع', 'ه'], [['f', 'r', 'i', 'd', 'a', 'y']]), (['س', 'ا', 'ع', 'ت'], [['h', 'o', 'u', 'r']]), (['ش', 'ن', 'ب', 'ه'], [['s', 'a', 't', 'u', 'r', 'd', 'a', 'y']]), (['م', 'ا', 'ر', 'س'], [['m', 'a', 'r', 'c', 'h']]), (['م', 'ا', 'ر', 'چ'], [['m', 'a', 'r', 'c', 'h']]), (['ه', 'ف', 'ت', 'ه'], [['w', 'e', 'e', 'k']]), (['ژ', 'و', 'ي', 'ن'], [['j', 'u', 'n', 'e']]), (['g', 'm', 't'], [['g', 'm', 't']]), (['u', 't', 'c'], [['u', 't', 'c']]), (['ا', 'و', 'ت'], [['a', 'u', 'g', 'u', 's', 't']]), (['ج', 'و', 'ن'], [['j', 'u', 'n', 'e']]), (['د', 'و', 'م'], [['s', 'e', 'c', 'o', 'n', 'd']]), (['ر', 'و', 'ز'], [['d', 'a', 'y']]), (['س', 'ا', 'ل'], [['y', 'e', 'a', 'r']]), (['م', 'ا', 'ه'], [['m', 'o', 'n', 't', 'h']]), (['پ', 'ی', 'ش'], [['a', 'g', 'o']]), (['a', 'm'], [['a', 'm']]), (['p', 'm'], [['p', 'm']]), (['ب', 'ظ'], [['p', 'm']]), (['د', 'ر'], [['i', 'n']]), (['ق', 'ظ'], [['a', 'm']]), (['م', 'ه'], [['m', 'a', 'y']]), (['م', 'ی'], [['m', 'a', 'y']]), ([' '], [[' ']]), (['\''], [[]]), (['+'], [['+']]), ([','], [[]]), (['-'], [['-']]), (['.'], [['.']]), (['/'], [['/']]), ([':'], [[':']]), ([';'], [[]]), (['@'], [[]]), (['['], [[]]), ([']'], [[]]), (['z'], [['z']]), (['|'], [[]]), (['د'], [['s', 'a', 't', 'u', 'r', 'd', 'a', 'y']])]
  relativeType := [(['ه', 'ف', 'ت', 'ه', ' ', 'ا', 'ی', 'ن', 'د', 'ه'], ['i', 'n', ' ', '1', ' ', 'w', 'e', 'e', 'k']), (['ه', 'ف', 'ت', 'ه', ' ', 'گ', 'ذ', 'ش', 'ت', 'ه'], ['1', ' ', 'w', 'e', 'e', 'k', ' ', 'a', 'g', 'o']), (['ه', 'م', 'ی', 'ن', ' ', 'د', 'ق', 'ی', 'ق', 'ه'], ['0', ' ', 'm', 'i', 'n', 'u', 't', 'e', ' ', 'a', 'g', 'o']), (['س', 'ا', 'ل', ' ', 'ا', 'ی', 'ن', 'د', 'ه'], ['i', 'n', ' ', '1', ' ', 'y', 'e', 'a', 'r']), (['س', 'ا', 'ل', ' ', 'گ', 'ذ', 'ش', 'ت', 'ه'], ['1', ' ', 'y', 'e', 'a', 'r', ' ', 'a', 'g', 'o']), (['م', 'ا', 'ه', ' ', 'ا', 'ی', 'ن', 'د', 'ه'], ['i', 'n', ' ', '1', ' ', 'm', 'o', 'n', 't', 'h']), (['م', 'ا', 'ه', ' ', 'گ', 'ذ', 'ش', 'ت', 'ه'], ['1', ' ', 'm', 'o', 'n', 't', 'h', ' ', 'a', 'g', 'o']), (['ه', 'م', 'ی', 'ن', ' ', 'س', 'ا', 'ع', 'ت'], ['0', ' ', 'h', 'o', 'u', 'r', ' ', 'a', 'g', 'o']), (['ا', 'ی', 'ن', ' ', 'ه', 'ف', 'ت', 'ه'], ['0', ' ', 'w', 'e', 'e', 'k', ' ', 'a', 'g', 'o']), (['ا', 'ی', 'ن', ' ', 'م', 'ا', 'ه'], ['0', ' ', 'm', 'o', 'n', 't', 'h', ' ', 'a', 'g', 'o']), (['م', 'ا', 'ه', ' ', 'پ', 'ی', 'ش'], ['1', ' ', 'm', 'o', 'n', 't', 'h', ' ', 'a', 'g', 'o']), (['ا', 'م', 'ر', 'و', 'ز'], ['0', ' ', 'd', 'a', 'y', ' ', 'a', 'g', 'o']), (['ا', 'م', 'س', 'ا', 'ل'], ['0', ' ', 'y', 'e', 'a', 'r', ' ', 'a', 'g', 'o']), (['ا', 'ک', 'ن', 'و', 'ن'], ['0', ' ', 's', 'e', 'c', 'o', 'n', 'd', ' ', 'a', 'g', 'o']), (['د', 'ی', 'ر', 'و', 'ز'], ['1', ' ', 'd', 'a', 'y', ' ', 'a', 'g', 'o']), (['ف', 'ر', 'د', 'ا'], ['i', 'n', ' ', '1', ' ', 'd', 'a', 'y'])]

end Verif.Data
