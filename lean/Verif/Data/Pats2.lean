import Verif.Data.Dicts
/-! GENERATED by tools/gen_pats.py from /repo/internal/data; do not edit. -/
set_option autoImplicit false
set_option maxRecDepth 100000
namespace Verif.Data
open Verif.Model

/-- internal/data/bm.go: `bm_Locale`. -/
def bmLang : LangData := { bmDict with
  knownWords :=
   [['t', 'h', 'i', 's', ' ', 'm', 'i', 'n', 'u', 't', 'e'], ['l', 'a', 's', 't', ' ', 'm', 'o', 'n', 't', 'h'], ['n', 'e', 'x', 't', ' ', 'm', 'o', 'n', 't', 'h'], ['t', 'h', 'i', 's', ' ', 'm', 'o', 'n', 't', 'h'], ['d', 'e', 's', 'a', 'n', 'b', 'u', 'r', 'u'], ['l', 'a', 's', 't', ' ', 'w', 'e', 'e', 'k'], ['l', 'a', 's', 't', ' ', 'y', 'e', 'a', 'r'], ['n', 'e', 'x', 't', ' ', 'w', 'e', 'e', 'k'], ['n', 'e', 'x', 't', ' ', 'y', 'e', 'a', 'r'], ['n', 'o', 'w', 'a', 'n', 'b', 'u', 'r', 'u'], ['s', 'ɛ', 't', 'a', 'n', 'b', 'u', 'r', 'u'], ['t', 'h', 'i', 's', ' ', 'h', 'o', 'u', 'r'], ['t', 'h', 'i', 's', ' ', 'w', 'e', 'e', 'k'], ['t', 'h', 'i', 's', ' ', 'y', 'e', 'a', 'r'], ['ɔ', 'k', 'u', 't', 'ɔ', 'b', 'u', 'r', 'u'], ['f', 'e', 'b', 'u', 'r', 'u', 'y', 'e'], ['a', 'l', 'a', 'm', 'i', 's', 'a'], ['a', 'w', 'i', 'r', 'i', 'l', 'i'], ['d', 'ɔ', 'g', 'ɔ', 'k', 'u', 'n'], ['s', 'e', 'k', 'o', 'n', 'd', 'i'], ['z', 'a', 'n', 'w', 'u', 'y', 'e'], ['m', 'a', 'r', 'i', 's', 'i'], ['m', 'i', 'n', 'i', 't', 'i'], ['s', 'i', 'b', 'i', 'r', 'i'], ['t', 'a', 'r', 'a', 't', 'a'], ['z', 'u', 'l', 'u', 'y', 'e'], ['a', 'r', 'a', 'b', 'a'], ['n', 't', 'ɛ', 'n', 'ɛ'], ['z', 'u', 'w', 'ɛ', 'n'], ['j', 'u', 'm', 'a'], ['k', 'a', 'l', 'o'], ['k', 'a', 'r', 'i'], ['k', 'u', 'n', 'u'], ['l', 'ɛ', 'r', 'ɛ'], ['s', 'i', 'n', 'i'], ['a', 'l', 'a'], ['a', 'r', 'a'], ['a', 'w', 'i'], ['d', 'e', 's'], ['d', 'o', 'n'], ['f', 'e', 'b'], ['g', 'm', 't'], ['j', 'u', 'm'], ['k', 'a', 'r'], ['m', 'a', 'r'], ['n', 'o', 'w'], ['n', 't', 'ɛ'], ['s', 'a', 'n'], ['s', 'i', 'b'], ['s', 'ɛ', 't'], ['t', 'a', 'r'], ['u', 't', 'c'], ['u', 't', 'i'], ['z', 'a', 'n'], ['z', 'u', 'l'], ['z', 'u', 'w'], ['ɔ', 'k', 'u'], ['a', 'm'], ['b', 'i'], ['m', 'ɛ'], ['p', 'm'], [' '], ['\''], ['+'], [','], ['-'], ['.'], ['/'], [':'], [';'], ['@'], ['['], [']'], ['z'], ['|']] }

/-- internal/data/bn.go: `bn_Locale`. -/
def bnLang : LangData := { bnDict with
  simplifications :=
   [(.seqs [.grp 1 (.alts [.bos, .noWord]), .lit ['ম', 'ধ', 'য', 'া', 'হ', 'ন'], .grp 2 (.alts [.eos, .noWord])], [.ref 1, .lit ['1', '2', ':', '0', '0'], .ref 2]),
    (.seqs [.grp 1 (.alts [.bos, .noWord]), .lit ['ম', 'ধ', 'য', 'র', 'া', 'ত'], .grp 2 (.alts [.eos, .noWord])], [.ref 1, .lit ['0', '0', ':', '0', '0'], .ref 2])],
  relativeRegexes :=
   [(.seqs [.grp 1 (.number), .lit [' ', 'স', 'ে', 'ক', 'ে', 'ন', 'ড', ' ', 'প', 'র', 'ব', 'ে']], [.ref 1, .lit [' ', 's', 'e', 'c', 'o', 'n', 'd', ' ', 'a', 'g', 'o']]),
    (.seqs [.grp 1 (.number), .lit [' ', 'দ', 'ি', 'ন', 'ে', 'র', ' ', 'ম', 'ধ', 'য', 'ে']], [.lit ['i', 'n', ' '], .ref 1, .lit [' ', 'd', 'a', 'y']]),
    (.seqs [.grp 1 (.number), .lit [' ', 'ম', 'ি', 'ন', 'ি', 'ট', ' ', 'প', 'র', 'ব', 'ে']], [.ref 1, .lit [' ', 'm', 'i', 'n', 'u', 't', 'e', ' ', 'a', 'g', 'o']]),
    (.seqs [.grp 1 (.number), .lit [' ', 'স', 'ে', 'ক', 'ে', 'ন', 'ড', ' ', 'আ', 'গ', 'ে']], [.ref 1, .lit [' ', 's', 'e', 'c', 'o', 'n', 'd', ' ', 'a', 'g', 'o']]),
    (.seqs [.grp 1 (.number), .lit [' ', 'ম', 'ি', 'ন', 'ি', 'ট', ' ', 'আ', 'গ', 'ে']], [.ref 1, .lit [' ', 'm', 'i', 'n', 'u', 't', 'e', ' ', 'a', 'g', 'o']]),
    (.seqs [.grp 1 (.number), .lit [' ', 'স', 'প', 'ত', 'া', 'হ', ' ', 'আ', 'গ', 'ে']], [.ref 1, .lit [' ', 'w', 'e', 'e', 'k', ' ', 'a', 'g', 'o']]),
    (.seqs [.grp 1 (.number), .lit [' ', 'ঘ', 'ন', 'ট', 'া', ' ', 'আ', 'গ', 'ে']], [.ref 1, .lit [' ', 'h', 'o', 'u', 'r', ' ', 'a', 'g', 'o']]),
    (.seqs [.grp 1 (.number), .lit [' ', 'ব', 'ছ', 'র', ' ', 'প', 'র', 'ব', 'ে']], [.ref 1, .lit [' ', 'y', 'e', 'a', 'r', ' ', 'a', 'g', 'o']]),
    (.seqs [.grp 1 (.number), .lit [' ', 'দ', 'ি', 'ন', ' ', 'আ', 'গ', 'ে']], [.ref 1, .lit [' ', 'd', 'a', 'y', ' ', 'a', 'g', 'o']]),
    (.seqs [.grp 1 (.number), .lit [' ', 'ম', 'া', 'স', ' ', 'আ', 'গ', 'ে']], [.ref 1, .lit [' ', 'm', 'o', 'n', 't', 'h', ' ', 'a', 'g', 'o']]),
    (.seqs [.grp 1 (.number), .lit [' ', 'স', 'ে', 'ক', 'ে', 'ন', 'ড', 'ে']], [.lit ['i', 'n', ' '], .ref 1, .lit [' ', 's', 'e', 'c', 'o', 'n', 'd']]),
    (.seqs [.grp 1 (.number), .lit [' ', 'ম', 'ি', 'ন', 'ি', 'ট', 'ে']], [.lit ['i', 'n', ' '], .ref 1, .lit [' ', 'm', 'i', 'n', 'u', 't', 'e']]),
    (.seqs [.grp 1 (.number), .lit [' ', 'স', 'প', 'ত', 'া', 'হ', 'ে']], [.lit ['i', 'n', ' '], .ref 1, .lit [' ', 'w', 'e', 'e', 'k']]),
    (.seqs [.grp 1 (.number), .lit [' ', 'ঘ', 'ন', 'ট', 'া', 'য']], [.lit ['i', 'n', ' '], .ref 1, .lit [' ', 'h', 'o', 'u', 'r']]),
    (.seqs [.grp 1 (.number), .lit [' ', 'ব', 'ছ', 'র', 'ে']], [.lit ['i', 'n', ' '], .ref 1, .lit [' ', 'y', 'e', 'a', 'r']]),
    (.seqs [.grp 1 (.number), .lit [' ', 'ম', 'া', 'স', 'ে']], [.lit ['i', 'n', ' '], .ref 1, .lit [' ', 'm', 'o', 'n', 't', 'h']])],
  rxCombined := some (.seqs [.grp 1 (.alts [.bos, .cls true [.letter, .mark, .digit], .lit ['_']]), .grp 2 (.alts [.seqs [.number, .lit [' ', 'স', 'ে', 'ক', 'ে', 'ন', 'ড', ' ', 'প', 'র', 'ব', 'ে']], .seqs [.number, .lit [' ', 'দ', 'ি', 'ন', 'ে', 'র', ' ', 'ম', 'ধ', 'য', 'ে']], .seqs [.number, .lit [' ', 'ম', 'ি', 'ন', 'ি', 'ট', ' ', 'প', 'র', 'ব', 'ে']], .seqs [.number, .lit [' ', 'স', 'ে', 'ক', 'ে', 'ন', 'ড', ' ', 'আ', 'গ', 'ে']], .seqs [.number, .lit [' ', 'ম', 'ি', 'ন', 'ি', 'ট', ' ', 'আ', 'গ', 'ে']], .seqs [.number, .lit [' ', 'স', 'প', 'ত', 'া', 'হ', ' ', 'আ', 'গ', 'ে']], .seqs [.number, .lit [' ', 'ঘ', 'ন', 'ট', 'া', ' ', 'আ', 'গ', 'ে']], .seqs [.number, .lit [' ', 'ব', 'ছ', 'র', ' ', 'প', 'র', 'ব', 'ে']], .seqs [.number, .lit [' ', 'দ', 'ি', 'ন', ' ', 'আ', 'গ', 'ে']], .seqs [.number, .lit [' ', 'ম', 'া', 'স', ' ', 'আ', 'গ', 'ে']], .seqs [.number, .lit [' ', 'স', 'ে', 'ক', 'ে', 'ন', 'ড', 'ে']], .seqs [.number, .lit [' ', 'ম', 'ি', 'ন', 'ি', 'ট', 'ে']], .seqs [.number, .lit [' ', 'স', 'প', 'ত', 'া', 'হ', 'ে']], .seqs [.number, .lit [' ', 'ঘ', 'ন', 'ট', 'া', 'য']], .seqs [.number, .lit [' ', 'ব', 'ছ', 'র', 'ে']], .seqs [.number, .lit [' ', 'ম', 'া', 'স', 'ে']]]), .grp 3 (.alts [.eos, .cls true [.letter, .mark, .digit], .lit ['_']])], 3),
  rxExact := some (.seqs [.bos, .grp 1 (.alts [.seqs [.number, .lit [' ', 'স', 'ে', 'ক', 'ে', 'ন', 'ড', ' ', 'প', 'র', 'ব', 'ে']], .seqs [.number, .lit [' ', 'দ', 'ি', 'ন', 'ে', 'র', ' ', 'ম', 'ধ', 'য', 'ে']], .seqs [.number, .lit [' ', 'ম', 'ি', 'ন', 'ি', 'ট', ' ', 'প', 'র', 'ব', 'ে']], .seqs [.number, .lit [' ', 'স', 'ে', 'ক', 'ে', 'ন', 'ড', ' ', 'আ', 'গ', 'ে']], .seqs [.number, .lit [' ', 'ম', 'ি', 'ন', 'ি', 'ট', ' ', 'আ', 'গ', 'ে']], .seqs [.number, .lit [' ', 'স', 'প', 'ত', 'া', 'হ', ' ', 'আ', 'গ', 'ে']], .seqs [.number, .lit [' ', 'ঘ', 'ন', 'ট', 'া', ' ', 'আ', 'গ', 'ে']], .seqs [.number, .lit [' ', 'ব', 'ছ', 'র', ' ', 'প', 'র', 'ব', 'ে']], .seqs [.number, .lit [' ', 'দ', 'ি', 'ন', ' ', 'আ', 'গ', 'ে']], .seqs [.number, .lit [' ', 'ম', 'া', 'স', ' ', 'আ', 'গ', 'ে']], .seqs [.number, .lit [' ', 'স', 'ে', 'ক', 'ে', 'ন', 'ড', 'ে']], .seqs [.number, .lit [' ', 'ম', 'ি', 'ন', 'ি', 'ট', 'ে']], .seqs [.number, .lit [' ', 'স', 'প', 'ত', 'া', 'হ', 'ে']], .seqs [.number, .lit [' ', 'ঘ', 'ন', 'ট', 'া', 'য']], .seqs [.number, .lit [' ', 'ব', 'ছ', 'র', 'ে']], .seqs [.number, .lit [' ', 'ম', 'া', 'স', 'ে']]]), .eos]),
  knownWords :=
   [['আ', 'গ', 'া', 'ম', 'ী', ' ', 'স', 'প', 'ত', 'া', 'হ'], ['প', 'র', 'ে', 'র', ' ', 'স', 'প', 'ত', 'া', 'হ'], ['আ', 'গ', 'া', 'ম', 'ী', ' ', 'ব', 'ছ', 'র'], ['আ', 'গ', 'া', 'ম', 'ী', ' ', 'ম', 'া', 'স'], ['ব', 'হ', 'ষ', 'প', 'ত', 'ি', 'ব', 'া', 'র'], ['ব', 'হ', 'স', 'প', 'ত', 'ি', 'ব', 'া', 'র'], ['আ', 'গ', 'া', 'ম', 'ী', 'ক', 'া', 'ল'], ['এ', 'ই', ' ', 'ঘ', 'ণ', 'ট', 'া', 'য'], ['এ', 'ই', ' ', 'ম', 'ি', 'ন', 'ি', 'ট'], ['এ', 'ই', ' ', 'স', 'প', 'ত', 'া', 'হ'], ['গ', 'ত', ' ', 'স', 'প', 'ত', 'া', 'হ'], ['প', 'র', 'ে', 'র', ' ', 'ব', 'ছ', 'র'], ['প', 'র', 'ে', 'র', ' ', 'ম', 'া', 'স'], ['ফ', 'ে', 'ব', 'র', 'য', 'া', 'র', 'ি'], ['ফ', 'ে', 'ব', 'র', 'য', 'া', 'র', 'ী'], ['স', 'ে', 'প', 'ট', 'ে', 'ম', 'ব', 'র'], ['জ', 'া', 'ন', 'য', 'া', 'র', 'ি'], ['জ', 'া', 'ন', 'য', 'া', 'র', 'ী'], ['ড', 'ি', 'স', 'ে', 'ম', 'ব', 'র'], ['ম', 'ঙ', 'গ', 'ল', 'ব', 'া', 'র'], ['অ', 'ক', 'ট', 'ো', 'ব', 'র'], ['এ', 'ই', ' ', 'ব', 'ছ', 'র'], ['এ', 'ই', ' ', 'ম', 'া', 'স'], ['গ', 'ত', ' ', 'প', 'র', 'শ'], ['গ', 'ত', ' ', 'ব', 'ছ', 'র'], ['গ', 'ত', ' ', 'ম', 'া', 'স'], ['ন', 'ভ', 'ে', 'ম', 'ব', 'র'], ['ব', 'হ', 'স', 'প', 'ত', 'ি'], ['র', 'ব', 'ি', 'ব', 'া', 'র'], ['শ', 'ক', 'র', 'ব', 'া', 'র'], ['শ', 'ন', 'ি', 'ব', 'া', 'র'], ['স', 'ে', 'ক', 'ে', 'ন', 'ড'], ['স', 'ো', 'ম', 'ব', 'া', 'র'], ['এ', 'প', 'র', 'ি', 'ল'], ['গ', 'ত', 'ক', 'া', 'ল'], ['ব', 'ধ', 'ব', 'া', 'র'], ['ম', 'ি', 'ন', 'ি', 'ট'], ['স', 'প', 'ত', 'া', 'হ'], ['আ', 'গ', 'স', 'ট'], ['ঘ', 'ন', 'ট', 'া'], ['জ', 'ল', 'া', 'ই'], ['প', 'র', 'া', 'য'], ['ব', 'ৎ', 'স', 'র'], ['ম', 'ঙ', 'গ', 'ল'], ['ম', 'ধ', 'য', 'ে'], ['ম', 'া', 'র', 'চ'], ['g', 'm', 't'], ['u', 't', 'c'], ['আ', 'গ', 'ে'], ['এ', 'খ', 'ন'], ['এ', 'ব', 'ং'], ['জ', 'া', 'ন'], ['দ', 'ি', 'ন'], ['ফ', 'ে', 'ব'], ['ব', 'ছ', 'র'], ['ম', 'া', 'স'], ['র', 'ব', 'ি'], ['শ', 'ক', 'র'], ['শ', 'ন', 'ি'], ['স', 'া', 'ল'], ['স', 'ো', 'ম'], ['a', 'm'], ['p', 'm'], ['আ', 'জ'], ['জ', 'ন'], ['ট', 'া'], ['ব', 'ধ'], ['ম', 'ে'], ['ল', 'া'], ['শ', 'ে'], [' '], ['\''], ['+'], [','], ['-'], ['.'], ['/'], [':'], [';'], ['@'], ['['], [']'], ['z'], ['|'], ['ই']] }

/-- internal/data/bn.go: `bn_IN_Locale`. -/
def bn_INLang : LangData := bn_INDict

/-- internal/data/bo.go: `bo_Locale`. -/
def boLang : LangData := { boDict with
  knownWords :=
   [['ཟ', '་', 'བ', '་', 'བ', 'ཅ', '་', 'ག', 'ཅ', 'ག', '་', 'པ', '་'], ['ཟ', '་', 'བ', '་', 'བ', 'ཅ', '་', 'ག', 'ཉ', 'ས', '་', 'པ', '་'], ['ཟ', '་', 'བ', '་', 'བ', 'ཅ', '་', 'ག', 'ཅ', 'ག', '་', 'པ'], ['ཟ', '་', 'བ', '་', 'བ', 'ཅ', '་', 'ག', 'ཉ', 'ས', '་', 'པ'], ['t', 'h', 'i', 's', ' ', 'm', 'i', 'n', 'u', 't', 'e'], ['ག', 'ཟ', 'འ', '་', 'མ', 'ག', '་', 'ད', 'མ', 'ར', '་'], ['l', 'a', 's', 't', ' ', 'm', 'o', 'n', 't', 'h'], ['n', 'e', 'x', 't', ' ', 'm', 'o', 'n', 't', 'h'], ['t', 'h', 'i', 's', ' ', 'm', 'o', 'n', 't', 'h'], ['ག', 'ཟ', 'འ', '་', 'པ', '་', 'ས', 'ང', 'ས', '་'], ['ཟ', '་', 'བ', '་', 'ག', 'ཉ', 'ས', '་', 'པ', '་'], ['ཟ', '་', 'བ', '་', 'ག', 'ས', 'མ', '་', 'པ', '་'], ['ཟ', '་', 'བ', '་', 'བ', 'ད', 'ན', '་', 'པ', '་'], ['ཟ', '་', 'བ', '་', 'བ', 'ར', 'ད', '་', 'པ', '་'], ['l', 'a', 's', 't', ' ', 'w', 'e', 'e', 'k'], ['l', 'a', 's', 't', ' ', 'y', 'e', 'a', 'r'], ['n', 'e', 'x', 't', ' ', 'w', 'e', 'e', 'k'], ['n', 'e', 'x', 't', ' ', 'y', 'e', 'a', 'r'], ['t', 'h', 'i', 's', ' ', 'h', 'o', 'u', 'r'], ['t', 'h', 'i', 's', ' ', 'w', 'e', 'e', 'k'], ['t', 'h', 'i', 's', ' ', 'y', 'e', 'a', 'r'], ['ག', 'ཟ', 'འ', '་', 'ཕ', 'ར', '་', 'བ', '་'], ['ག', 'ཟ', 'འ', '་', 'ལ', 'ག', '་', 'པ', '་'], ['ག', 'ཟ', 'འ', '་', 'ས', 'ན', '་', 'པ', '་'], ['ཟ', '་', 'བ', '་', 'ག', 'ཉ', 'ས', '་', 'པ'], ['ཟ', '་', 'བ', '་', 'ག', 'ས', 'མ', '་', 'པ'], ['ཟ', '་', 'བ', '་', 'ད', 'ག', '་', 'པ', '་'], ['ཟ', '་', 'བ', '་', 'ད', 'ང', '་', 'པ', '་'], ['ཟ', '་', 'བ', '་', 'བ', 'ཅ', '་', 'པ', '་'], ['ཟ', '་', 'བ', '་', 'བ', 'ད', 'ན', '་', 'པ'], ['ཟ', '་', 'བ', '་', 'བ', 'ཞ', '་', 'པ', '་'], ['ཟ', '་', 'བ', '་', 'བ', 'ར', 'ད', '་', 'པ'], ['ག', 'ཟ', 'འ', '་', 'ཉ', '་', 'མ', '་'], ['ག', 'ཟ', 'འ', '་', 'ཟ', '་', 'བ', '་'], ['ཟ', '་', 'བ', '་', 'ད', 'ག', '་', 'པ'], ['ཟ', '་', 'བ', '་', 'ད', 'ང', '་', 'པ'], ['ཟ', '་', 'བ', '་', 'བ', 'ཅ', '་', 'པ'], ['ཟ', '་', 'བ', '་', 'བ', 'ཞ', '་', 'པ'], ['ཟ', '་', 'བ', '་', 'ལ', '་', 'པ', '་'], ['མ', 'ག', '་', 'ད', 'མ', 'ར', '་'], ['ཟ', '་', 'བ', '་', 'ལ', '་', 'པ'], ['པ', '་', 'ས', 'ང', 'ས', '་'], ['ས', 'ང', '་', 'ཉ', 'ན', '་'], ['ཁ', 'ས', '་', 'ས', '་'], ['ཆ', '་', 'ཚ', 'ད', '་'], ['ད', '་', 'ར', 'ང', '་'], ['ཕ', 'ར', '་', 'བ', '་'], ['ལ', 'ག', '་', 'པ', '་'], ['ས', 'ན', '་', 'པ', '་'], ['ས', 'ར', '་', 'ཆ', '།'], ['ས', 'ར', '་', 'མ', '།'], ['w', 'e', 'e', 'k'], ['ཉ', '་', 'མ', '་'], ['ཕ', '་', 'ད', '་'], ['ཟ', '་', '༡', '༠'], ['ཟ', '་', '༡', '༡'], ['ཟ', '་', '༡', '༢'], ['ཟ', '་', 'བ', '་'], ['ས', '་', 'ད', '་'], ['g', 'm', 't'], ['n', 'o', 'w'], ['u', 't', 'c'], ['ཉ', 'ན', '།'], ['ཟ', '་', '༡'], ['ཟ', '་', '༢'], ['ཟ', '་', '༣'], ['ཟ', '་', '༤'], ['ཟ', '་', '༥'], ['ཟ', '་', '༦'], ['ཟ', '་', '༧'], ['ཟ', '་', '༨'], ['ཟ', '་', '༩'], ['a', 'm'], ['p', 'm'], ['ལ', '།'], [' '], ['\''], ['+'], [','], ['-'], ['.'], ['/'], [':'], [';'], ['@'], ['['], [']'], ['z'], ['|']] }

/-- internal/data/bo.go: `bo_IN_Locale`. -/
def bo_INLang : LangData := bo_INDict

/-- internal/data/br.go: `br_Locale`. -/
def brLang : LangData := { brDict with
  relativeRegexes :=
   [(.seqs [.lit ['a', '-', 'b', 'e', 'n', 'n', ' '], .grp 1 (.number), .lit [' ', 'e', 'i', 'l', 'e', 'n', 'n']], [.lit ['i', 'n', ' '], .ref 1, .lit [' ', 's', 'e', 'c', 'o', 'n', 'd']]),
    (.seqs [.lit ['a', '-', 'b', 'e', 'n', 'n', ' '], .grp 1 (.number), .lit [' ', 's', 'i', 'z', 'h', 'u', 'n']], [.lit ['i', 'n', ' '], .ref 1, .lit [' ', 'w', 'e', 'e', 'k']]),
    (.seqs [.lit ['a', '-', 'b', 'e', 'n', 'n', ' '], .grp 1 (.number), .lit [' ', 'b', 'l', 'o', 'a', 'z']], [.lit ['i', 'n', ' '], .ref 1, .lit [' ', 'y', 'e', 'a', 'r']]),
    (.seqs [.lit ['a', '-', 'b', 'e', 'n', 'n', ' '], .grp 1 (.number), .lit [' ', 'm', 'u', 'n', 'u', 't']], [.lit ['i', 'n', ' '], .ref 1, .lit [' ', 'm', 'i', 'n', 'u', 't', 'e']]),
    (.seqs [.lit ['a', '-', 'b', 'e', 'n', 'n', ' '], .grp 1 (.number), .lit [' ', 'v', 'l', 'o', 'a', 'z']], [.lit ['i', 'n', ' '], .ref 1, .lit [' ', 'y', 'e', 'a', 'r']]),
    (.seqs [.lit ['a', '-', 'b', 'e', 'n', 'n', ' '], .grp 1 (.number), .lit [' ', 'd', 'e', 'i', 'z']], [.lit ['i', 'n', ' '], .ref 1, .lit [' ', 'd', 'a', 'y']]),
    (.seqs [.lit ['a', '-', 'b', 'e', 'n', 'n', ' '], .grp 1 (.number), .lit [' ', 'e', 'u', 'r']], [.lit ['i', 'n', ' '], .ref 1, .lit [' ', 'h', 'o', 'u', 'r']]),
    (.seqs [.lit ['a', '-', 'b', 'e', 'n', 'n', ' '], .grp 1 (.number), .lit [' ', 'm', 'i', 'n']], [.lit ['i', 'n', ' '], .ref 1, .lit [' ', 'm', 'i', 'n', 'u', 't', 'e']]),
    (.seqs [.lit ['a', '-', 'b', 'e', 'n', 'n', ' '], .grp 1 (.number), .lit [' ', 'm', 'i', 'z']], [.lit ['i', 'n', ' '], .ref 1, .lit [' ', 'm', 'o', 'n', 't', 'h']]),
    (.seqs [.grp 1 (.number), .lit [' ', 'e', 'i', 'l', 'e', 'n', 'n', ' ', 'z', 'o']], [.ref 1, .lit [' ', 's', 'e', 'c', 'o', 'n', 'd', ' ', 'a', 'g', 'o']]),
    (.seqs [.grp 1 (.number), .lit [' ', 's', 'i', 'z', 'h', 'u', 'n', ' ', 'z', 'o']], [.ref 1, .lit [' ', 'w', 'e', 'e', 'k', ' ', 'a', 'g', 'o']]),
    (.seqs [.lit ['a', '-', 'b', 'e', 'n', 'n', ' '], .grp 1 (.number), .lit [' ', 'b', 'l']], [.lit ['i', 'n', ' '], .ref 1, .lit [' ', 'y', 'e', 'a', 'r']]),
    (.seqs [.grp 1 (.number), .lit [' ', 'b', 'l', 'o', 'a', 'z', ' ', 'z', 'o']], [.ref 1, .lit [' ', 'y', 'e', 'a', 'r', ' ', 'a', 'g', 'o']]),
    (.seqs [.grp 1 (.number), .lit [' ', 'm', 'u', 'n', 'u', 't', ' ', 'z', 'o']], [.ref 1, .lit [' ', 'm', 'i', 'n', 'u', 't', 'e', ' ', 'a', 'g', 'o']]),
    (.seqs [.grp 1 (.number), .lit [' ', 'v', 'l', 'o', 'a', 'z', ' ', 'z', 'o']], [.ref 1, .lit [' ', 'y', 'e', 'a', 'r', ' ', 'a', 'g', 'o']]),
    (.seqs [.lit ['a', '-', 'b', 'e', 'n', 'n', ' '], .grp 1 (.number), .lit [' ', 'd']], [.lit ['i', 'n', ' '], .ref 1, .lit [' ', 'd', 'a', 'y']]),
    (.seqs [.lit ['a', '-', 'b', 'e', 'n', 'n', ' '], .grp 1 (.number), .lit [' ', 'e']], [.lit ['i', 'n', ' '], .ref 1, .lit [' ', 'h', 'o', 'u', 'r']]),
    (.seqs [.lit ['a', '-', 'b', 'e', 'n', 'n', ' '], .grp 1 (.number), .lit [' ', 's']], [.lit ['i', 'n', ' '], .ref 1, .lit [' ', 's', 'e', 'c', 'o', 'n', 'd']]),
    (.seqs [.grp 1 (.number), .lit [' ', 'd', 'e', 'i', 'z', ' ', 'z', 'o']], [.ref 1, .lit [' ', 'd', 'a', 'y', ' ', 'a', 'g', 'o']]),
    (.seqs [.grp 1 (.number), .lit [' ', 'e', 'u', 'r', ' ', 'z', 'o']], [.ref 1, .lit [' ', 'h', 'o', 'u', 'r', ' ', 'a', 'g', 'o']]),
    (.seqs [.grp 1 (.number), .lit [' ', 'm', 'i', 'n', ' ', 'z', 'o']], [.ref 1, .lit [' ', 'm', 'i', 'n', 'u', 't', 'e', ' ', 'a', 'g', 'o']]),
    (.seqs [.grp 1 (.number), .lit [' ', 'm', 'i', 'z', ' ', 'z', 'o']], [.ref 1, .lit [' ', 'm', 'o', 'n', 't', 'h', ' ', 'a', 'g', 'o']]),
    (.seqs [.grp 1 (.number), .lit [' ', 'b', 'l', ' ', 'z', 'o']], [.ref 1, .lit [' ', 'y', 'e', 'a', 'r', ' ', 'a', 'g', 'o']]),
    (.seqs [.grp 1 (.number), .lit [' ', 'd', ' ', 'z', 'o']], [.ref 1, .lit [' ', 'd', 'a', 'y', ' ', 'a', 'g', 'o']]),
    (.seqs [.grp 1 (.number), .lit [' ', 'e', ' ', 'z', 'o']], [.ref 1, .lit [' ', 'h', 'o', 'u', 'r', ' ', 'a', 'g', 'o']]),
    (.seqs [.grp 1 (.number), .lit [' ', 's', ' ', 'z', 'o']], [.ref 1, .lit [' ', 's', 'e', 'c', 'o', 'n', 'd', ' ', 'a', 'g', 'o']])],
  rxCombined := some (.seqs [.grp 1 (.alts [.bos, .cls true [.letter, .mark, .digit], .lit ['_']]), .grp 2 (.alts [.seqs [.lit ['a', '-', 'b', 'e', 'n', 'n', ' '], .number, .lit [' ', 'e', 'i', 'l', 'e', 'n', 'n']], .seqs [.lit ['a', '-', 'b', 'e', 'n', 'n', ' '], .number, .lit [' ', 's', 'i', 'z', 'h', 'u', 'n']], .seqs [.lit ['a', '-', 'b', 'e', 'n', 'n', ' '], .number, .lit [' ', 'b', 'l', 'o', 'a', 'z']], .seqs [.lit ['a', '-', 'b', 'e', 'n', 'n', ' '], .number, .lit [' ', 'm', 'u', 'n', 'u', 't']], .seqs [.lit ['a', '-', 'b', 'e', 'n', 'n', ' '], .number, .lit [' ', 'v', 'l', 'o', 'a', 'z']], .seqs [.lit ['a', '-', 'b', 'e', 'n', 'n', ' '], .number, .lit [' ', 'd', 'e', 'i', 'z']], .seqs [.lit ['a', '-', 'b', 'e', 'n', 'n', ' '], .number, .lit [' ', 'e', 'u', 'r']], .seqs [.lit ['a', '-', 'b', 'e', 'n', 'n', ' '], .number, .lit [' ', 'm', 'i', 'n']], .seqs [.lit ['a', '-', 'b', 'e', 'n', 'n', ' '], .number, .lit [' ', 'm', 'i', 'z']], .seqs [.number, .lit [' ', 'e', 'i', 'l', 'e', 'n', 'n', ' ', 'z', 'o']], .seqs [.number, .lit [' ', 's', 'i', 'z', 'h', 'u', 'n', ' ', 'z', 'o']], .seqs [.lit ['a', '-', 'b', 'e', 'n', 'n', ' '], .number, .lit [' ', 'b', 'l']], .seqs [.number, .lit [' ', 'b', 'l', 'o', 'a', 'z', ' ', 'z', 'o']], .seqs [.number, .lit [' ', 'm', 'u', 'n', 'u', 't', ' ', 'z', 'o']], .seqs [.number, .lit [' ', 'v', 'l', 'o', 'a', 'z', ' ', 'z', 'o']], .seqs [.lit ['a', '-', 'b', 'e', 'n', 'n', ' '], .number, .lit [' ', 'd']], .seqs [.lit ['a', '-', 'b', 'e', 'n', 'n', ' '], .number, .lit [' ', 'e']], .seqs [.lit ['a', '-', 'b', 'e', 'n', 'n', ' '], .number, .lit [' ', 's']], .seqs [.number, .lit [' ', 'd', 'e', 'i', 'z', ' ', 'z', 'o']], .seqs [.number, .lit [' ', 'e', 'u', 'r', ' ', 'z', 'o']], .seqs [.number, .lit [' ', 'm', 'i', 'n', ' ', 'z', 'o']], .seqs [.number, .lit [' ', 'm', 'i', 'z', ' ', 'z', 'o']], .seqs [.number, .lit [' ', 'b', 'l', ' ', 'z', 'o']], .seqs [.number, .lit [' ', 'd', ' ', 'z', 'o']], .seqs [.number, .lit [' ', 'e', ' ', 'z', 'o']], .seqs [.number, .lit [' ', 's', ' ', 'z', 'o']]]), .grp 3 (.alts [.eos, .cls true [.letter, .mark, .digit], .lit ['_']])], 3),
  rxExact := some (.seqs [.bos, .grp 1 (.alts [.seqs [.lit ['a', '-', 'b', 'e', 'n', 'n', ' '], .number, .lit [' ', 'e', 'i', 'l', 'e', 'n', 'n']], .seqs [.lit ['a', '-', 'b', 'e', 'n', 'n', ' '], .number, .lit [' ', 's', 'i', 'z', 'h', 'u', 'n']], .seqs [.lit ['a', '-', 'b', 'e', 'n', 'n', ' '], .number, .lit [' ', 'b', 'l', 'o', 'a', 'z']], .seqs [.lit ['a', '-', 'b', 'e', 'n', 'n', ' '], .number, .lit [' ', 'm', 'u', 'n', 'u', 't']], .seqs [.lit ['a', '-', 'b', 'e', 'n', 'n', ' '], .number, .lit [' ', 'v', 'l', 'o', 'a', 'z']], .seqs [.lit ['a', '-', 'b', 'e', 'n', 'n', ' '], .number, .lit [' ', 'd', 'e', 'i', 'z']], .seqs [.lit ['a', '-', 'b', 'e', 'n', 'n', ' '], .number, .lit [' ', 'e', 'u', 'r']], .seqs [.lit ['a', '-', 'b', 'e', 'n', 'n', ' '], .number, .lit [' ', 'm', 'i', 'n']], .seqs [.lit ['a', '-', 'b', 'e', 'n', 'n', ' '], .number, .lit [' ', 'm', 'i', 'z']], .seqs [.number, .lit [' ', 'e', 'i', 'l', 'e', 'n', 'n', ' ', 'z', 'o']], .seqs [.number, .lit [' ', 's', 'i', 'z', 'h', 'u', 'n', ' ', 'z', 'o']], .seqs [.lit ['a', '-', 'b', 'e', 'n', 'n', ' '], .number, .lit [' ', 'b', 'l']], .seqs [.number, .lit [' ', 'b', 'l', 'o', 'a', 'z', ' ', 'z', 'o']], .seqs [.number, .lit [' ', 'm', 'u', 'n', 'u', 't', ' ', 'z', 'o']], .seqs [.number, .lit [' ', 'v', 'l', 'o', 'a', 'z', ' ', 'z', 'o']], .seqs [.lit ['a', '-', 'b', 'e', 'n', 'n', ' '], .number, .lit [' ', 'd']], .seqs [.lit ['a', '-', 'b', 'e', 'n', 'n', ' '], .number, .lit [' ', 'e']], .seqs [.lit ['a', '-', 'b', 'e', 'n', 'n', ' '], .number, .lit [' ', 's']], .seqs [.number, .lit [' ', 'd', 'e', 'i', 'z', ' ', 'z', 'o']], .seqs [.number, .lit [' ', 'e', 'u', 'r', ' ', 'z', 'o']], .seqs [.number, .lit [' ', 'm', 'i', 'n', ' ', 'z', 'o']], .seqs [.number, .lit [' ', 'm', 'i', 'z', ' ', 'z', 'o']], .seqs [.number, .lit [' ', 'b', 'l', ' ', 'z', 'o']], .seqs [.number, .lit [' ', 'd', ' ', 'z', 'o']], .seqs [.number, .lit [' ', 'e', ' ', 'z', 'o']], .seqs [.number, .lit [' ', 's', ' ', 'z', 'o']]]), .eos]),
  knownWords :=
   [['a', 'r', ' ', 's', 'i', 'z', 'h', 'u', 'n', ' ', 'd', 'i', 'a', 'r', 'a', 'o', 'k'], ['a', 'r', ' ', 's', 'i', 'z', 'h', 'u', 'n', ' ', 'a', ' ', 'z', 'e', 'u'], ['a', 'r', ' ', 'b', 'l', 'o', 'a', 'z', ' ', 'a', ' ', 'z', 'e', 'u'], ['a', 'r', ' ', 'm', 'i', 'z', ' ', 'd', 'i', 'a', 'r', 'a', 'o', 'k'], ['a', 'r', ' ', 's', 'i', 'z', 'h', 'u', 'n', '-', 'm', 'a', 'n'], ['a', 'r', ' ', 'm', 'i', 'z', ' ', 'a', ' ', 'z', 'e', 'u'], ['a', 'r', ' ', 'b', 'l', ' ', 'a', ' ', 'z', 'e', 'u'], ['t', 'h', 'i', 's', ' ', 'm', 'i', 'n', 'u', 't', 'e'], ['a', 'r', ' ', 'm', 'i', 'z', '-', 'm', 'a', 'n'], ['w', 'a', 'r', 'c', '\'', 'h', 'o', 'a', 'z', 'h'], ['c', '\'', 'h', 'w', 'e', 'v', 'r', 'e', 'r'], ['t', 'h', 'i', 's', ' ', 'h', 'o', 'u', 'r'], ['g', 'w', 'e', 'n', 'g', 'o', 'l', 'o'], ['m', 'e', 'r', 'c', '\'', 'h', 'e', 'r'], ['m', 'e', 'z', 'h', 'e', 'v', 'e', 'n'], ['h', 'e', 'v', 'l', 'e', 'n', 'e'], ['w', 'a', 'r', 'l', 'e', 'n', 'e'], ['b', 'r', 'e', 'm', 'a', 'n'], ['e', 'i', 'l', 'e', 'n', 'n'], ['g', 'e', 'n', 'v', 'e', 'r'], ['g', 'o', 'u', 'e', 'r', 'e'], ['g', 'w', 'e', 'n', 'e', 'r'], ['m', 'e', 'u', 'r', 'z', 'h'], ['s', 'a', 'd', 'o', 'r', 'n'], ['s', 'i', 'z', 'h', 'u', 'n'], ['b', 'l', 'o', 'a', 'z'], ['c', '\'', 'h', 'w', 'e'], ['d', 'e', 'c', '\'', 'h'], ['e', 'b', 'r', 'e', 'l'], ['h', 'i', 'z', 'i', 'v'], ['k', 'e', 'r', 'z', 'u'], ['m', 'u', 'n', 'u', 't'], ['b', 'r', 'e', 'm'], ['d', 'e', 'i', 'z'], ['e', 'o', 's', 't'], ['g', 'o', 'u', 'e'], ['g', 'w', 'e', 'n'], ['h', 'e', 'r', 'e'], ['m', 'e', 'u', 'r'], ['m', 'e', 'z', 'h'], ['y', 'a', 'o', 'u'], ['e', 'b', 'r'], ['e', 'u', 'r'], ['g', 'e', 'n'], ['g', 'm', 't'], ['g', 'w', 'e'], ['k', 'e', 'r'], ['k', 'z', 'u'], ['l', 'u', 'n'], ['m', 'a', 'e'], ['m', 'e', 'r'], ['m', 'e', 'u'], ['m', 'i', 'n'], ['m', 'i', 'z'], ['s', 'a', 'd'], ['s', 'u', 'l'], ['u', 't', 'c'], ['a', 'm'], ['b', 'l'], ['d', 'u'], ['g', 'm'], ['p', 'm'], [' '], ['\''], ['+'], [','], ['-'], ['.'], ['/'], [':'], [';'], ['@'], ['['], [']'], ['d'], ['e'], ['s'], ['z'], ['|']] }

/-- internal/data/brx.go: `brx_Locale`. -/
def brxLang : LangData := { brxDict with
  knownWords :=
   [['t', 'h', 'i', 's', ' ', 'm', 'i', 'n', 'u', 't', 'e'], ['l', 'a', 's', 't', ' ', 'm', 'o', 'n', 't', 'h'], ['n', 'e', 'x', 't', ' ', 'm', 'o', 'n', 't', 'h'], ['t', 'h', 'i', 's', ' ', 'm', 'o', 'n', 't', 'h'], ['l', 'a', 's', 't', ' ', 'w', 'e', 'e', 'k'], ['l', 'a', 's', 't', ' ', 'y', 'e', 'a', 'r'], ['n', 'e', 'x', 't', ' ', 'w', 'e', 'e', 'k'], ['n', 'e', 'x', 't', ' ', 'y', 'e', 'a', 'r'], ['t', 'h', 'i', 's', ' ', 'h', 'o', 'u', 'r'], ['t', 'h', 'i', 's', ' ', 'w', 'e', 'e', 'k'], ['t', 'h', 'i', 's', ' ', 'y', 'e', 'a', 'r'], ['स', 'ब', 'थ', 'ा', '/', 'ह', 'ब', 'थ', 'ा'], ['ब', 'ि', 'स', 'थ', 'ि', 'ब', 'ा', 'र'], ['ज', 'ा', 'न', 'व', 'ा', 'र', 'ी'], ['फ', 'ब', 'र', 'व', 'ा', 'र', 'ी'], ['द', 'ि', 'स', 'ज', 'ब', 'र'], ['म', 'ग', 'ल', 'ब', 'ा', 'र'], ['र', 'ब', 'ि', 'ब', 'ा', 'र'], ['स', 'ख', 'र', 'ब', 'ा', 'र'], ['स', 'न', 'ि', 'ब', 'ा', 'र'], ['स', 'ब', 'थ', 'ज', 'ब', 'र'], ['अ', 'ख', 'थ', 'ब', 'र'], ['ए', 'फ', 'र', 'ि', 'ल'], ['ग', 'ा', 'ब', 'ो', 'न'], ['न', 'ब', 'ज', 'ब', 'र'], ['ब', 'द', 'ब', 'ा', 'र'], ['ब', 'ि', 'स', 'थ', 'ि'], ['ब', 'ो', 'स', 'ो', 'र'], ['म', 'ि', 'न', 'ि', 'थ'], ['स', 'म', 'ब', 'ा', 'र'], ['आ', 'ग', 'स', 'थ'], ['ज', 'ल', 'ा', 'इ'], ['ब', 'ल', 'ा', 'स'], ['म', 'ा', 'र', 'स'], ['र', 'ि', 'ग', 'ा'], ['स', 'ख', 'न', 'द'], ['g', 'm', 't'], ['n', 'o', 'w'], ['u', 't', 'c'], ['द', 'ा', 'न'], ['द', 'ि', 'न'], ['म', 'ग', 'ल'], ['म', 'य', 'ा'], ['र', 'ब', 'ि'], ['स', 'ख', 'र'], ['स', 'न', 'ि'], ['स', 'ा', 'न'], ['a', 'm'], ['p', 'm'], ['ज', 'न'], ['ब', 'द'], ['स', 'म'], [' '], ['\''], ['+'], [','], ['-'], ['.'], ['/'], [':'], [';'], ['@'], ['['], [']'], ['z'], ['|'], ['फ'], ['म']] }

/-- internal/data/bs-cyrl.go: `bs_Cyrl_Locale`. -/
def bs_CyrlLang : LangData := { bs_CyrlDict with
  relativeRegexes :=
   [(.seqs [.cls false [.rng 'П' 'П', .rng 'п' 'п'], .cls false [.rng 'Р' 'Р', .rng 'р' 'р'], .cls false [.rng 'Е' 'Е', .rng 'е' 'е'], .lit [' '], .grp 1 (.number), .lit [' '], .cls false [.rng 'С' 'С', .rng 'с' 'с', .rng 'ᲃ' 'ᲃ'], .cls false [.rng 'Е' 'Е', .rng 'е' 'е'], .cls false [.rng 'К' 'К', .rng 'к' 'к'], .cls false [.rng 'У' 'У', .rng 'у' 'у'], .cls false [.rng 'Н' 'Н', .rng 'н' 'н'], .cls false [.rng 'Д' 'Д', .rng 'д' 'д', .rng 'ᲁ' 'ᲁ'], .cls false [.rng 'И' 'И', .rng 'и' 'и']], [.ref 1, .lit [' ', 's', 'e', 'c', 'o', 'n', 'd', ' ', 'a', 'g', 'o']]),
    (.seqs [.cls false [.rng 'З' 'З', .rng 'з' 'з'], .cls false [.rng 'А' 'А', .rng 'а' 'а'], .lit [' '], .grp 1 (.number), .lit [' '], .cls false [.rng 'С' 'С', .rng 'с' 'с', .rng 'ᲃ' 'ᲃ'], .cls false [.rng 'Е' 'Е', .rng 'е' 'е'], .cls false [.rng 'К' 'К', .rng 'к' 'к'], .cls false [.rng 'У' 'У', .rng 'у' 'у'], .cls false [.rng 'Н' 'Н', .rng 'н' 'н'], .cls false [.rng 'Д' 'Д', .rng 'д' 'д', .rng 'ᲁ' 'ᲁ'], .cls false [.rng 'И' 'И', .rng 'и' 'и']], [.lit ['i', 'n', ' '], .ref 1, .lit [' ', 's', 'e', 'c', 'o', 'n', 'd']]),
    (.seqs [.cls false [.rng 'П' 'П', .rng 'п' 'п'], .cls false [.rng 'Р' 'Р', .rng 'р' 'р'], .cls false [.rng 'Е' 'Е', .rng 'е' 'е'], .lit [' '], .grp 1 (.number), .lit [' '], .cls false [.rng 'Г' 'Г', .rng 'г' 'г'], .cls false [.rng 'О' 'О', .rng 'о' 'о', .rng 'ᲂ' 'ᲂ'], .cls false [.rng 'Д' 'Д', .rng 'д' 'д', .rng 'ᲁ' 'ᲁ'], .cls false [.rng 'И' 'И', .rng 'и' 'и'], .cls false [.rng 'Н' 'Н', .rng 'н' 'н'], .cls false [.rng 'А' 'А', .rng 'а' 'а']], [.ref 1, .lit [' ', 'y', 'e', 'a', 'r', ' ', 'a', 'g', 'o']]),
    (.seqs [.cls false [.rng 'П' 'П', .rng 'п' 'п'], .cls false [.rng 'Р' 'Р', .rng 'р' 'р'], .cls false [.rng 'Е' 'Е', .rng 'е' 'е'], .lit [' '], .grp 1 (.number), .lit [' '], .cls false [.rng 'Г' 'Г', .rng 'г' 'г'], .cls false [.rng 'О' 'О', .rng 'о' 'о', .rng 'ᲂ' 'ᲂ'], .cls false [.rng 'Д' 'Д', .rng 'д' 'д', .rng 'ᲁ' 'ᲁ'], .cls false [.rng 'И' 'И', .rng 'и' 'и'], .cls false [.rng 'Н' 'Н', .rng 'н' 'н'], .cls false [.rng 'У' 'У', .rng 'у' 'у']], [.ref 1, .lit [' ', 'y', 'e', 'a', 'r', ' ', 'a', 'g', 'o']]),
    (.seqs [.cls false [.rng 'П' 'П', .rng 'п' 'п'], .cls false [.rng 'Р' 'Р', .rng 'р' 'р'], .cls false [.rng 'Е' 'Е', .rng 'е' 'е'], .lit [' '], .grp 1 (.number), .lit [' '], .cls false [.rng 'М' 'М', .rng 'м' 'м'], .cls false [.rng 'Е' 'Е', .rng 'е' 'е'], .cls false [.rng 'С' 'С', .rng 'с' 'с', .rng 'ᲃ' 'ᲃ'], .cls false [.rng 'Е' 'Е', .rng 'е' 'е'], .cls false [.rng 'Ц' 'Ц', .rng 'ц' 'ц'], .cls false [.rng 'И' 'И', .rng 'и' 'и']], [.ref 1, .lit [' ', 'm', 'o', 'n', 't', 'h', ' ', 'a', 'g', 'o']]),
    (.seqs [.cls false [.rng 'П' 'П', .rng 'п' 'п'], .cls false [.rng 'Р' 'Р', .rng 'р' 'р'], .cls false [.rng 'Е' 'Е', .rng 'е' 'е'], .lit [' '], .grp 1 (.number), .lit [' '], .cls false [.rng 'М' 'М', .rng 'м' 'м'], .cls false [.rng 'И' 'И', .rng 'и' 'и'], .cls false [.rng 'Н' 'Н', .rng 'н' 'н'], .cls false [.rng 'У' 'У', .rng 'у' 'у'], .cls false [.rng 'Т' 'Т', .rng 'т' 'т', .rng 'ᲄ' 'ᲄ', .rng 'ᲅ' 'ᲅ'], .cls false [.rng 'А' 'А', .rng 'а' 'а']], [.ref 1, .lit [' ', 'm', 'i', 'n', 'u', 't', 'e', ' ', 'a', 'g', 'o']]),
    (.seqs [.cls false [.rng 'П' 'П', .rng 'п' 'п'], .cls false [.rng 'Р' 'Р', .rng 'р' 'р'], .cls false [.rng 'Е' 'Е', .rng 'е' 'е'], .lit [' '], .grp 1 (.number), .lit [' '], .cls false [.rng 'Н' 'Н', .rng 'н' 'н'], .cls false [.rng 'Е' 'Е', .rng 'е' 'е'], .cls false [.rng 'Д' 'Д', .rng 'д' 'д', .rng 'ᲁ' 'ᲁ'], .cls false [.rng 'Е' 'Е', .rng 'е' 'е'], .cls false [.rng 'Љ' 'Љ', .rng 'љ' 'љ'], .cls false [.rng 'А' 'А', .rng 'а' 'а']], [.ref 1, .lit [' ', 'w', 'e', 'e', 'k', ' ', 'a', 'g', 'o']]),
    (.seqs [.cls false [.rng 'П' 'П', .rng 'п' 'п'], .cls false [.rng 'Р' 'Р', .rng 'р' 'р'], .cls false [.rng 'Е' 'Е', .rng 'е' 'е'], .lit [' '], .grp 1 (.number), .lit [' '], .cls false [.rng 'Н' 'Н', .rng 'н' 'н'], .cls false [.rng 'Е' 'Е', .rng 'е' 'е'], .cls false [.rng 'Д' 'Д', .rng 'д' 'д', .rng 'ᲁ' 'ᲁ'], .cls false [.rng 'Е' 'Е', .rng 'е' 'е'], .cls false [.rng 'Љ' 'Љ', .rng 'љ' 'љ'], .cls false [.rng 'У' 'У', .rng 'у' 'у']], [.ref 1, .lit [' ', 'w', 'e', 'e', 'k', ' ', 'a', 'g', 'o']]),
    (.seqs [.cls false [.rng 'П' 'П', .rng 'п' 'п'], .cls false [.rng 'Р' 'Р', .rng 'р' 'р'], .cls false [.rng 'Е' 'Е', .rng 'е' 'е'], .lit [' '], .grp 1 (.number), .lit [' '], .cls false [.rng 'С' 'С', .rng 'с' 'с', .rng 'ᲃ' 'ᲃ'], .cls false [.rng 'Е' 'Е', .rng 'е' 'е'], .cls false [.rng 'К' 'К', .rng 'к' 'к'], .cls false [.rng 'У' 'У', .rng 'у' 'у'], .cls false [.rng 'Н' 'Н', .rng 'н' 'н'], .cls false [.rng 'Д' 'Д', .rng 'д' 'д', .rng 'ᲁ' 'ᲁ']], [.ref 1, .lit [' ', 's', 'e', 'c', 'o', 'n', 'd', ' ', 'a', 'g', 'o']]),
    (.seqs [.cls false [.rng 'З' 'З', .rng 'з' 'з'], .cls false [.rng 'А' 'А', .rng 'а' 'а'], .lit [' '], .grp 1 (.number), .lit [' '], .cls false [.rng 'Г' 'Г', .rng 'г' 'г'], .cls false [.rng 'О' 'О', .rng 'о' 'о', .rng 'ᲂ' 'ᲂ'], .cls false [.rng 'Д' 'Д', .rng 'д' 'д', .rng 'ᲁ' 'ᲁ'], .cls false [.rng 'И' 'И', .rng 'и' 'и'], .cls false [.rng 'Н' 'Н', .rng 'н' 'н'], .cls false [.rng 'А' 'А', .rng 'а' 'а']], [.lit ['i', 'n', ' '], .ref 1, .lit [' ', 'y', 'e', 'a', 'r']]),
    (.seqs [.cls false [.rng 'З' 'З', .rng 'з' 'з'], .cls false [.rng 'А' 'А', .rng 'а' 'а'], .lit [' '], .grp 1 (.number), .lit [' '], .cls false [.rng 'Г' 'Г', .rng 'г' 'г'], .cls false [.rng 'О' 'О', .rng 'о' 'о', .rng 'ᲂ' 'ᲂ'], .cls false [.rng 'Д' 'Д', .rng 'д' 'д', .rng 'ᲁ' 'ᲁ'], .cls false [.rng 'И' 'И', .rng 'и' 'и'], .cls false [.rng 'Н' 'Н', .rng 'н' 'н'], .cls false [.rng 'У' 'У', .rng 'у' 'у']], [.lit ['i', 'n', ' '], .ref 1, .lit [' ', 'y', 'e', 'a', 'r']]),
    (.seqs [.cls false [.rng 'З' 'З', .rng 'з' 'з'], .cls false [.rng 'А' 'А', .rng 'а' 'а'], .lit [' '], .grp 1 (.number), .lit [' '], .cls false [.rng 'М' 'М', .rng 'м' 'м'], .cls false [.rng 'Е' 'Е', .rng 'е' 'е'], .cls false [.rng 'С' 'С', .rng 'с' 'с', .rng 'ᲃ' 'ᲃ'], .cls false [.rng 'Е' 'Е', .rng 'е' 'е'], .cls false [.rng 'Ц' 'Ц', .rng 'ц' 'ц'], .cls false [.rng 'И' 'И', .rng 'и' 'и']], [.lit ['i', 'n', ' '], .ref 1, .lit [' ', 'm', 'o', 'n', 't', 'h']]),
    (.seqs [.cls false [.rng 'З' 'З', .rng 'з' 'з'], .cls false [.rng 'А' 'А', .rng 'а' 'а'], .lit [' '], .grp 1 (.number), .lit [' '], .cls false [.rng 'М' 'М', .rng 'м' 'м'], .cls false [.rng 'И' 'И', .rng 'и' 'и'], .cls false [.rng 'Н' 'Н', .rng 'н' 'н'], .cls false [.rng 'У' 'У', .rng 'у' 'у'], .cls false [.rng 'Т' 'Т', .rng 'т' 'т', .rng 'ᲄ' 'ᲄ', .rng 'ᲅ' 'ᲅ'], .cls false [.rng 'А' 'А', .rng 'а' 'а']], [.lit ['i', 'n', ' '], .ref 1, .lit [' ', 'm', 'i', 'n', 'u', 't', 'e']]),
    (.seqs [.cls false [.rng 'З' 'З', .rng 'з' 'з'], .cls false [.rng 'А' 'А', .rng 'а' 'а'], .lit [' '], .grp 1 (.number), .lit [' '], .cls false [.rng 'Н' 'Н', .rng 'н' 'н'], .cls false [.rng 'Е' 'Е', .rng 'е' 'е'], .cls false [.rng 'Д' 'Д', .rng 'д' 'д', .rng 'ᲁ' 'ᲁ'], .cls false [.rng 'Е' 'Е', .rng 'е' 'е'], .cls false [.rng 'Љ' 'Љ', .rng 'љ' 'љ'], .cls false [.rng 'А' 'А', .rng 'а' 'а']], [.lit ['i', 'n', ' '], .ref 1, .lit [' ', 'w', 'e', 'e', 'k']]),
    (.seqs [.cls false [.rng 'З' 'З', .rng 'з' 'з'], .cls false [.rng 'А' 'А', .rng 'а' 'а'], .lit [' '], .grp 1 (.number), .lit [' '], .cls false [.rng 'Н' 'Н', .rng 'н' 'н'], .cls false [.rng 'Е' 'Е', .rng 'е' 'е'], .cls false [.rng 'Д' 'Д', .rng 'д' 'д', .rng 'ᲁ' 'ᲁ'], .cls false [.rng 'Е' 'Е', .rng 'е' 'е'], .cls false [.rng 'Љ' 'Љ', .rng 'љ' 'љ'], .cls false [.rng 'У' 'У', .rng 'у' 'у']], [.lit ['i', 'n', ' '], .ref 1, .lit [' ', 'w', 'e', 'e', 'k']]),
    (.seqs [.cls false [.rng 'З' 'З', .rng 'з' 'з'], .cls false [.rng 'А' 'А', .rng 'а' 'а'], .lit [' '], .grp 1 (.number), .lit [' '], .cls false [.rng 'С' 'С', .rng 'с' 'с', .rng 'ᲃ' 'ᲃ'], .cls false [.rng 'Е' 'Е', .rng 'е' 'е'], .cls false [.rng 'К' 'К', .rng 'к' 'к'], .cls false [.rng 'У' 'У', .rng 'у' 'у'], .cls false [.rng 'Н' 'Н', .rng 'н' 'н'], .cls false [.rng 'Д' 'Д', .rng 'д' 'д', .rng 'ᲁ' 'ᲁ']], [.lit ['i', 'n', ' '], .ref 1, .lit [' ', 's', 'e', 'c', 'o', 'n', 'd']]),
    (.seqs [.cls false [.rng 'П' 'П', .rng 'п' 'п'], .cls false [.rng 'Р' 'Р', .rng 'р' 'р'], .cls false [.rng 'Е' 'Е', .rng 'е' 'е'], .lit [' '], .grp 1 (.number), .lit [' '], .cls false [.rng 'М' 'М', .rng 'м' 'м'], .cls false [.rng 'Е' 'Е', .rng 'е' 'е'], .cls false [.rng 'С' 'С', .rng 'с' 'с', .rng 'ᲃ' 'ᲃ'], .cls false [.rng 'Е' 'Е', .rng 'е' 'е'], .cls false [.rng 'Ц' 'Ц', .rng 'ц' 'ц']], [.ref 1, .lit [' ', 'm', 'o', 'n', 't', 'h', ' ', 'a', 'g', 'o']]),
    (.seqs [.cls false [.rng 'П' 'П', .rng 'п' 'п'], .cls false [.rng 'Р' 'Р', .rng 'р' 'р'], .cls false [.rng 'Е' 'Е', .rng 'е' 'е'], .lit [' '], .grp 1 (.number), .lit [' '], .cls false [.rng 'М' 'М', .rng 'м' 'м'], .cls false [.rng 'И' 'И', .rng 'и' 'и'], .cls false [.rng 'Н' 'Н', .rng 'н' 'н'], .cls false [.rng 'У' 'У', .rng 'у' 'у'], .cls false [.rng 'Т' 'Т', .rng 'т' 'т', .rng 'ᲄ' 'ᲄ', .rng 'ᲅ' 'ᲅ']], [.ref 1, .lit [' ', 'm', 'i', 'n', 'u', 't', 'e', ' ', 'a', 'g', 'o']]),
    (.seqs [.cls false [.rng 'З' 'З', .rng 'з' 'з'], .cls false [.rng 'А' 'А', .rng 'а' 'а'], .lit [' '], .grp 1 (.number), .lit [' '], .cls false [.rng 'М' 'М', .rng 'м' 'м'], .cls false [.rng 'Е' 'Е', .rng 'е' 'е'], .cls false [.rng 'С' 'С', .rng 'с' 'с', .rng 'ᲃ' 'ᲃ'], .cls false [.rng 'Е' 'Е', .rng 'е' 'е'], .cls false [.rng 'Ц' 'Ц', .rng 'ц' 'ц']], [.lit ['i', 'n', ' '], .ref 1, .lit [' ', 'm', 'o', 'n', 't', 'h']]),
    (.seqs [.cls false [.rng 'З' 'З', .rng 'з' 'з'], .cls false [.rng 'А' 'А', .rng 'а' 'а'], .lit [' '], .grp 1 (.number), .lit [' '], .cls false [.rng 'М' 'М', .rng 'м' 'м'], .cls false [.rng 'И' 'И', .rng 'и' 'и'], .cls false [.rng 'Н' 'Н', .rng 'н' 'н'], .cls false [.rng 'У' 'У', .rng 'у' 'у'], .cls false [.rng 'Т' 'Т', .rng 'т' 'т', .rng 'ᲄ' 'ᲄ', .rng 'ᲅ' 'ᲅ']], [.lit ['i', 'n', ' '], .ref 1, .lit [' ', 'm', 'i', 'n', 'u', 't', 'e']]),
    (.seqs [.cls false [.rng 'П' 'П', .rng 'п' 'п'], .cls false [.rng 'Р' 'Р', .rng 'р' 'р'], .cls false [.rng 'Е' 'Е', .rng 'е' 'е'], .lit [' '], .grp 1 (.number), .lit [' '], .cls false [.rng 'Д' 'Д', .rng 'д' 'д', .rng 'ᲁ' 'ᲁ'], .cls false [.rng 'А' 'А', .rng 'а' 'а'], .cls false [.rng 'Н' 'Н', .rng 'н' 'н'], .cls false [.rng 'А' 'А', .rng 'а' 'а']], [.ref 1, .lit [' ', 'd', 'a', 'y', ' ', 'a', 'g', 'o']]),
    (.seqs [.cls false [.rng 'П' 'П', .rng 'п' 'п'], .cls false [.rng 'Р' 'Р', .rng 'р' 'р'], .cls false [.rng 'Е' 'Е', .rng 'е' 'е'], .lit [' '], .grp 1 (.number), .lit [' '], .cls false [.rng 'С' 'С', .rng 'с' 'с', .rng 'ᲃ' 'ᲃ'], .cls false [.rng 'А' 'А', .rng 'а' 'а'], .cls false [.rng 'Т' 'Т', .rng 'т' 'т', .rng 'ᲄ' 'ᲄ', .rng 'ᲅ' 'ᲅ'], .cls false [.rng 'И' 'И', .rng 'и' 'и']], [.ref 1, .lit [' ', 'h', 'o', 'u', 'r', ' ', 'a', 'g', 'o']]),
    (.seqs [.cls false [.rng 'З' 'З', .rng 'з' 'з'], .cls false [.rng 'А' 'А', .rng 'а' 'а'], .lit [' '], .grp 1 (.number), .lit [' '], .cls false [.rng 'Д' 'Д', .rng 'д' 'д', .rng 'ᲁ' 'ᲁ'], .cls false [.rng 'А' 'А', .rng 'а' 'а'], .cls false [.rng 'Н' 'Н', .rng 'н' 'н'], .cls false [.rng 'А' 'А', .rng 'а' 'а']], [.lit ['i', 'n', ' '], .ref 1, .lit [' ', 'd', 'a', 'y']]),
    (.seqs [.cls false [.rng 'З' 'З', .rng 'з' 'з'], .cls false [.rng 'А' 'А', .rng 'а' 'а'], .lit [' '], .grp 1 (.number), .lit [' '], .cls false [.rng 'С' 'С', .rng 'с' 'с', .rng 'ᲃ' 'ᲃ'], .cls false [.rng 'А' 'А', .rng 'а' 'а'], .cls false [.rng 'Т' 'Т', .rng 'т' 'т', .rng 'ᲄ' 'ᲄ', .rng 'ᲅ' 'ᲅ'], .cls false [.rng 'И' 'И', .rng 'и' 'и']], [.lit ['i', 'n', ' '], .ref 1, .lit [' ', 'h', 'o', 'u', 'r']]),
    (.seqs [.cls false [.rng 'П' 'П', .rng 'п' 'п'], .cls false [.rng 'Р' 'Р', .rng 'р' 'р'], .cls false [.rng 'Е' 'Е', .rng 'е' 'е'], .lit [' '], .grp 1 (.number), .lit [' '], .cls false [.rng 'Д' 'Д', .rng 'д' 'д', .rng 'ᲁ' 'ᲁ'], .cls false [.rng 'А' 'А', .rng 'а' 'а'], .cls false [.rng 'Н' 'Н', .rng 'н' 'н']], [.ref 1, .lit [' ', 'd', 'a', 'y', ' ', 'a', 'g', 'o']]),
    (.seqs [.cls false [.rng 'П' 'П', .rng 'п' 'п'], .cls false [.rng 'Р' 'Р', .rng 'р' 'р'], .cls false [.rng 'Е' 'Е', .rng 'е' 'е'], .lit [' '], .grp 1 (.number), .lit [' '], .cls false [.rng 'С' 'С', .rng 'с' 'с', .rng 'ᲃ' 'ᲃ'], .cls false [.rng 'А' 'А', .rng 'а' 'а'], .cls false [.rng 'Т' 'Т', .rng 'т' 'т', .rng 'ᲄ' 'ᲄ', .rng 'ᲅ' 'ᲅ']], [.ref 1, .lit [' ', 'h', 'o', 'u', 'r', ' ', 'a', 'g', 'o']]),
    (.seqs [.cls false [.rng 'З' 'З', .rng 'з' 'з'], .cls false [.rng 'А' 'А', .rng 'а' 'а'], .lit [' '], .grp 1 (.number), .lit [' '], .cls false [.rng 'Д' 'Д', .rng 'д' 'д', .rng 'ᲁ' 'ᲁ'], .cls false [.rng 'А' 'А', .rng 'а' 'а'], .cls false [.rng 'Н' 'Н', .rng 'н' 'н']], [.lit ['i', 'n', ' '], .ref 1, .lit [' ', 'd', 'a', 'y']]),
    (.seqs [.cls false [.rng 'З' 'З', .rng 'з' 'з'], .cls false [.rng 'А' 'А', .rng 'а' 'а'], .lit [' '], .grp 1 (.number), .lit [' '], .cls false [.rng 'С' 'С', .rng 'с' 'с', .rng 'ᲃ' 'ᲃ'], .cls false [.rng 'А' 'А', .rng 'а' 'а'], .cls false [.rng 'Т' 'Т', .rng 'т' 'т', .rng 'ᲄ' 'ᲄ', .rng 'ᲅ' 'ᲅ']], [.lit ['i', 'n', ' '], .ref 1, .lit [' ', 'h', 'o', 'u', 'r']])],
  rxCombined := some (.seqs [.grp 1 (.alts [.bos, .cls true [.letter, .mark, .digit], .lit ['_']]), .grp 2 (.alts [.seqs [.cls false [.rng 'П' 'П', .rng 'п' 'п'], .cls false [.rng 'Р' 'Р', .rng 'р' 'р'], .cls false [.rng 'Е' 'Е', .rng 'е' 'е'], .lit [' '], .number, .lit [' '], .cls false [.rng 'С' 'С', .rng 'с' 'с', .rng 'ᲃ' 'ᲃ'], .cls false [.rng 'Е' 'Е', .rng 'е' 'е'], .cls false [.rng 'К' 'К', .rng 'к' 'к'], .cls false [.rng 'У' 'У', .rng 'у' 'у'], .cls false [.rng 'Н' 'Н', .rng 'н' 'н'], .cls false [.rng 'Д' 'Д', .rng 'д' 'д', .rng 'ᲁ' 'ᲁ'], .cls false [.rng 'И' 'И', .rng 'и' 'и']], .seqs [.cls false [.rng 'З' 'З', .rng 'з' 'з'], .cls false [.rng 'А' 'А', .rng 'а' 'а'], .lit [' '], .number, .lit [' '], .cls false [.rng 'С' 'С', .rng 'с' 'с', .rng 'ᲃ' 'ᲃ'], .cls false [.rng 'Е' 'Е', .rng 'е' 'е'], .cls false [.rng 'К' 'К', .rng 'к' 'к'], .cls false [.rng 'У' 'У', .rng 'у' 'у'], .cls false [.rng 'Н' 'Н', .rng 'н' 'н'], .cls false [.rng 'Д' 'Д', .rng 'д' 'д', .rng 'ᲁ' 'ᲁ'], .cls false [.rng 'И' 'И', .rng 'и' 'и']], .seqs [.cls false [.rng 'П' 'П', .rng 'п' 'п'], .cls false [.rng 'Р' 'Р', .rng 'р' 'р'], .cls false [.rng 'Е' 'Е', .rng 'е' 'е'], .lit [' '], .number, .lit [' '], .cls false [.rng 'Г' 'Г', .rng 'г' 'г'], .cls false [.rng 'О' 'О', .rng 'о' 'о', .rng 'ᲂ' 'ᲂ'], .cls false [.rng 'Д' 'Д', .rng 'д' 'д', .rng 'ᲁ' 'ᲁ'], .cls false [.rng 'И' 'И', .rng 'и' 'и'], .cls false [.rng 'Н' 'Н', .rng 'н' 'н'], .cls false [.rng 'А' 'А', .rng 'а' 'а']], .seqs [.cls false [.rng 'П' 'П', .rng 'п' 'п'], .cls false [.rng 'Р' 'Р', .rng 'р' 'р'], .cls false [.rng 'Е' 'Е', .rng 'е' 'е'], .lit [' '], .number, .lit [' '], .cls false [.rng 'Г' 'Г', .rng 'г' 'г'], .cls false [.rng 'О' 'О', .rng 'о' 'о', .rng 'ᲂ' 'ᲂ'], .cls false [.rng 'Д' 'Д', .rng 'д' 'д', .rng 'ᲁ' 'ᲁ'], .cls false [.rng 'И' 'И', .rng 'и' 'и'], .cls false [.rng 'Н' 'Н', .rng 'н' 'н'], .cls false [.rng 'У' 'У', .rng 'у' 'у']], .seqs [.cls false [.rng 'П' 'П', .rng 'п' 'п'], .cls false [.rng 'Р' 'Р', .rng 'р' 'р'], .cls false [.rng 'Е' 'Е', .rng 'е' 'е'], .lit [' '], .number, .lit [' '], .cls false [.rng 'М' 'М', .rng 'м' 'м'], .cls false [.rng 'Е' 'Е', .rng 'е' 'е'], .cls false [.rng 'С' 'С', .rng 'с' 'с', .rng 'ᲃ' 'ᲃ'], .cls false [.rng 'Е' 'Е', .rng 'е' 'е'], .cls false [.rng 'Ц' 'Ц', .rng 'ц' 'ц'], .cls false [.rng 'И' 'И', .rng 'и' 'и']], .seqs [.cls false [.rng 'П' 'П', .rng 'п' 'п'], .cls false [.rng 'Р' 'Р', .rng 'р' 'р'], .cls false [.rng 'Е' 'Е', .rng 'е' 'е'], .lit [' '], .number, .lit [' '], .cls false [.rng 'М' 'М', .rng 'м' 'м'], .cls false [.rng 'И' 'И', .rng 'и' 'и'], .cls false [.rng 'Н' 'Н', .rng 'н' 'н'], .cls false [.rng 'У' 'У', .rng 'у' 'у'], .cls false [.rng 'Т' 'Т', .rng 'т' 'т', .rng 'ᲄ' 'ᲄ', .rng 'ᲅ' 'ᲅ'], .cls false [.rng 'А' 'А', .rng 'а' 'а']], .seqs [.cls false [.rng 'П' 'П', .rng 'п' 'п'], .cls false [.rng 'Р' 'Р', .rng 'р' 'р'], .cls false [.rng 'Е' 'Е', .rng 'е' 'е'], .lit [' '], .number, .lit [' '], .cls false [.rng 'Н' 'Н', .rng 'н' 'н'], .cls false [.rng 'Е' 'Е', .rng 'е' 'е'], .cls false [.rng 'Д' 'Д', .rng 'д' 'д', .rng 'ᲁ' 'ᲁ'], .cls false [.rng 'Е' 'Е', .rng 'е' 'е'], .cls false [.rng 'Љ' 'Љ', .rng 'љ' 'љ'], .cls false [.rng 'А' 'А', .rng 'а' 'а']], .seqs [.cls false [.rng 'П' 'П', .rng 'п' 'п'], .cls false [.rng 'Р' 'Р', .rng 'р' 'р'], .cls false [.rng 'Е' 'Е', .rng 'е' 'е'], .lit [' '], .number, .lit [' '], .cls false [.rng 'Н' 'Н', .rng 'н' 'н'], .cls false [.rng 'Е' 'Е', .rng 'е' 'е'], .cls false [.rng 'Д' 'Д', .rng 'д' 'д', .rng 'ᲁ' 'ᲁ'], .cls false [.rng 'Е' 'Е', .rng 'е' 'е'], .cls false [.rng 'Љ' 'Љ', .rng 'љ' 'љ'], .cls false [.rng 'У' 'У', .rng 'у' 'у']], .seqs [.cls false [.rng 'П' 'П', .rng 'п' 'п'], .cls false [.rng 'Р' 'Р', .rng 'р' 'р'], .cls false [.rng 'Е' 'Е', .rng 'е' 'е'], .lit [' '], .number, .lit [' '], .cls false [.rng 'С' 'С', .rng 'с' 'с', .rng 'ᲃ' 'ᲃ'], .cls false [.rng 'Е' 'Е', .rng 'е' 'е'], .cls false [.rng 'К' 'К', .rng 'к' 'к'], .cls false [.rng 'У' 'У', .rng 'у' 'у'], .cls false [.rng 'Н' 'Н', .rng 'н' 'н'], .cls false [.rng 'Д' 'Д', .rng 'д' 'д', .rng 'ᲁ' 'ᲁ']], .seqs [.cls false [.rng 'З' 'З', .rng 'з' 'з'], .cls false [.rng 'А' 'А', .rng 'а' 'а'], .lit [' '], .number, .lit [' '], .cls false [.rng 'Г' 'Г', .rng 'г' 'г'], .cls false [.rng 'О' 'О', .rng 'о' 'о', .rng 'ᲂ' 'ᲂ'], .cls false [.rng 'Д' 'Д', .rng 'д' 'д', .rng 'ᲁ' 'ᲁ'], .cls false [.rng 'И' 'И', .rng 'и' 'и'], .cls false [.rng 'Н' 'Н', .rng 'н' 'н'], .cls false [.rng 'А' 'А', .rng 'а' 'а']], .seqs [.cls false [.rng 'З' 'З', .rng 'з' 'з'], .cls false [.rng 'А' 'А', .rng 'а' 'а'], .lit [' '], .number, .lit [' '], .cls false [.rng 'Г' 'Г', .rng 'г' 'г'], .cls false [.rng 'О' 'О', .rng 'о' 'о', .rng 'ᲂ' 'ᲂ'], .cls false [.rng 'Д' 'Д', .rng 'д' 'д', .rng 'ᲁ' 'ᲁ'], .cls false [.rng 'И' 'И', .rng 'и' 'и'], .cls false [.rng 'Н' 'Н', .rng 'н' 'н'], .cls false [.rng 'У' 'У', .rng 'у' 'у']], .seqs [.cls false [.rng 'З' 'З', .rng 'з' 'з'], .cls false [.rng 'А' 'А', .rng 'а' 'а'], .lit [' '], .number, .lit [' '], .cls false [.rng 'М' 'М', .rng 'м' 'м'], .cls false [.rng 'Е' 'Е', .rng 'е' 'е'], .cls false [.rng 'С' 'С', .rng 'с' 'с', .rng 'ᲃ' 'ᲃ'], .cls false [.rng 'Е' 'Е', .rng 'е' 'е'], .cls false [.rng 'Ц' 'Ц', .rng 'ц' 'ц'], .cls false [.rng 'И' 'И', .rng 'и' 'и']], .seqs [.cls false [.rng 'З' 'З', .rng 'з' 'з'], .cls false [.rng 'А' 'А', .rng 'а' 'а'], .lit [' '], .number, .lit [' '], .cls false [.rng 'М' 'М', .rng 'м' 'м'], .cls false [.rng 'И' 'И', .rng 'и' 'и'], .cls false [.rng 'Н' 'Н', .rng 'н' 'н'], .cls false [.rng 'У' 'У', .rng 'у' 'у'], .cls false [.rng 'Т' 'Т', .rng 'т' 'т', .rng 'ᲄ' 'ᲄ', .rng 'ᲅ' 'ᲅ'], .cls false [.rng 'А' 'А', .rng 'а' 'а']], .seqs [.cls false [.rng 'З' 'З', .rng 'з' 'з'], .cls false [.rng 'А' 'А', .rng 'а' 'а'], .lit [' '], .number, .lit [' '], .cls false [.rng 'Н' 'Н', .rng 'н' 'н'], .cls false [.rng 'Е' 'Е', .rng 'е' 'е'], .cls false [.rng 'Д' 'Д', .rng 'д' 'д', .rng 'ᲁ' 'ᲁ'], .cls false [.rng 'Е' 'Е', .rng 'е' 'е'], .cls false [.rng 'Љ' 'Љ', .rng 'љ' 'љ'], .cls false [.rng 'А' 'А', .rng 'а' 'а']], .seqs [.cls false [.rng 'З' 'З', .rng 'з' 'з'], .cls false [.rng 'А' 'А', .rng 'а' 'а'], .lit [' '], .number, .lit [' '], .cls false [.rng 'Н' 'Н', .rng 'н' 'н'], .cls false [.rng 'Е' 'Е', .rng 'е' 'е'], .cls false [.rng 'Д' 'Д', .rng 'д' 'д', .rng 'ᲁ' 'ᲁ'], .cls false [.rng 'Е' 'Е', .rng 'е' 'е'], .cls false [.rng 'Љ' 'Љ', .rng 'љ' 'љ'], .cls false [.rng 'У' 'У', .rng 'у' 'у']], .seqs [.cls false [.rng 'З' 'З', .rng 'з' 'з'], .cls false [.rng 'А' 'А', .rng 'а' 'а'], .lit [' '], .number, .lit [' '], .cls false [.rng 'С' 'С', .rng 'с' 'с', .rng 'ᲃ' 'ᲃ'], .cls false [.rng 'Е' 'Е', .rng 'е' 'е'], .cls false [.rng 'К' 'К', .rng 'к' 'к'], .cls false [.rng 'У' 'У', .rng 'у' 'у'], .cls false [.rng 'Н' 'Н', .rng 'н' 'н'], .cls false [.rng 'Д' 'Д', .rng 'д' 'д', .rng 'ᲁ' 'ᲁ']], .seqs [.cls false [.rng 'П' 'П', .rng 'п' 'п'], .cls false [.rng 'Р' 'Р', .rng 'р' 'р'], .cls false [.rng 'Е' 'Е', .rng 'е' 'е'], .lit [' '], .number, .lit [' '], .cls false [.rng 'М' 'М', .rng 'м' 'м'], .cls false [.rng 'Е' 'Е', .rng 'е' 'е'], .cls false [.rng 'С' 'С', .rng 'с' 'с', .rng 'ᲃ' 'ᲃ'], .cls false [.rng 'Е' 'Е', .rng 'е' 'е'], .cls false [.rng 'Ц' 'Ц', .rng 'ц' 'ц']], .seqs [.cls false [.rng 'П' 'П', .rng 'п' 'п'], .cls false [.rng 'Р' 'Р', .rng 'р' 'р'], .cls false [.rng 'Е' 'Е', .rng 'е' 'е'], .lit [' '], .number, .lit [' '], .cls false [.rng 'М' 'М', .rng 'м' 'м'], .cls false [.rng 'И' 'И', .rng 'и' 'и'], .cls false [.rng 'Н' 'Н', .rng 'н' 'н'], .cls false [.rng 'У' 'У', .rng 'у' 'у'], .cls false [.rng 'Т' 'Т', .rng 'т' 'т', .rng 'ᲄ' 'ᲄ', .rng 'ᲅ' 'ᲅ']], .seqs [.cls false [.rng 'З' 'З', .rng 'з' 'з'], .cls false [.rng 'А' 'А', .rng 'а' 'а'], .lit [' '], .number, .lit [' '], .cls false [.rng 'М' 'М', .rng 'м' 'м'], .cls false [.rng 'Е' 'Е', .rng 'е' 'е'], .cls false [.rng 'С' 'С', .rng 'с' 'с', .rng 'ᲃ' 'ᲃ'], .cls false [.rng 'Е' 'Е', .rng 'е' 'е'], .cls false [.rng 'Ц' 'Ц', .rng 'ц' 'ц']], .seqs [.cls false [.rng 'З' 'З', .rng 'з' 'з'], .cls false [.rng 'А' 'А', .rng 'а' 'а'], .lit [' '], .number, .lit [' '], .cls false [.rng 'М' 'М', .rng 'м' 'м'], .cls false [.rng 'И' 'И', .rng 'и' 'и'], .cls false [.rng 'Н' 'Н', .rng 'н' 'н'], .cls false [.rng 'У' 'У', .rng 'у' 'у'], .cls false [.rng 'Т' 'Т', .rng 'т' 'т', .rng 'ᲄ' 'ᲄ', .rng 'ᲅ' 'ᲅ']], .seqs [.cls false [.rng 'П' 'П', .rng 'п' 'п'], .cls false [.rng 'Р' 'Р', .rng 'р' 'р'], .cls false [.rng 'Е' 'Е', .rng 'е' 'е'], .lit [' '], .number, .lit [' '], .cls false [.rng 'Д' 'Д', .rng 'д' 'д', .rng 'ᲁ' 'ᲁ'], .cls false [.rng 'А' 'А', .rng 'а' 'а'], .cls false [.rng 'Н' 'Н', .rng 'н' 'н'], .cls false [.rng 'А' 'А', .rng 'а' 'а']], .seqs [.cls false [.rng 'П' 'П', .rng 'п' 'п'], .cls false [.rng 'Р' 'Р', .rng 'р' 'р'], .cls false [.rng 'Е' 'Е', .rng 'е' 'е'], .lit [' '], .number, .lit [' '], .cls false [.rng 'С' 'С', .rng 'с' 'с', .rng 'ᲃ' 'ᲃ'], .cls false [.rng 'А' 'А', .rng 'а' 'а'], .cls false [.rng 'Т' 'Т', .rng 'т' 'т', .rng 'ᲄ' 'ᲄ', .rng 'ᲅ' 'ᲅ'], .cls false [.rng 'И' 'И', .rng 'и' 'и']], .seqs [.cls false [.rng 'З' 'З', .rng 'з' 'з'], .cls false [.rng 'А' 'А', .rng 'а' 'а'], .lit [' '], .number, .lit [' '], .cls false [.rng 'Д' 'Д', .rng 'д' 'д', .rng 'ᲁ' 'ᲁ'], .cls false [.rng 'А' 'А', .rng 'а' 'а'], .cls false [.rng 'Н' 'Н', .rng 'н' 'н'], .cls false [.rng 'А' 'А', .rng 'а' 'а']], .seqs [.cls false [.rng 'З' 'З', .rng 'з' 'з'], .cls false [.rng 'А' 'А', .rng 'а' 'а'], .lit [' '], .number, .lit [' '], .cls false [.rng 'С' 'С', .rng 'с' 'с', .rng 'ᲃ' 'ᲃ'], .cls false [.rng 'А' 'А', .rng 'а' 'а'], .cls false [.rng 'Т' 'Т', .rng 'т' 'т', .rng 'ᲄ' 'ᲄ', .rng 'ᲅ' 'ᲅ'], .cls false [.rng 'И' 'И', .rng 'и' 'и']], .seqs [.cls false [.rng 'П' 'П', .rng 'п' 'п'], .cls false [.rng 'Р' 'Р', .rng 'р' 'р'], .cls false [.rng 'Е' 'Е', .rng 'е' 'е'], .lit [' '], .number, .lit [' '], .cls false [.rng 'Д' 'Д', .rng 'д' 'д', .rng 'ᲁ' 'ᲁ'], .cls false [.rng 'А' 'А', .rng 'а' 'а'], .cls false [.rng 'Н' 'Н', .rng 'н' 'н']], .seqs [.cls false [.rng 'П' 'П', .rng 'п' 'п'], .cls false [.rng 'Р' 'Р', .rng 'р' 'р'], .cls false [.rng 'Е' 'Е', .rng 'е' 'е'], .lit [' '], .number, .lit [' '], .cls false [.rng 'С' 'С', .rng 'с' 'с', .rng 'ᲃ' 'ᲃ'], .cls false [.rng 'А' 'А', .rng 'а' 'а'], .cls false [.rng 'Т' 'Т', .rng 'т' 'т', .rng 'ᲄ' 'ᲄ', .rng 'ᲅ' 'ᲅ']], .seqs [.cls false [.rng 'З' 'З', .rng 'з' 'з'], .cls false [.rng 'А' 'А', .rng 'а' 'а'], .lit [' '], .number, .lit [' '], .cls false [.rng 'Д' 'Д', .rng 'д' 'д', .rng 'ᲁ' 'ᲁ'], .cls false [.rng 'А' 'А', .rng 'а' 'а'], .cls false [.rng 'Н' 'Н', .rng 'н' 'н']], .seqs [.cls false [.rng 'З' 'З', .rng 'з' 'з'], .cls false [.rng 'А' 'А', .rng 'а' 'а'], .lit [' '], .number, .lit [' '], .cls false [.rng 'С' 'С', .rng 'с' 'с', .rng 'ᲃ' 'ᲃ'], .cls false [.rng 'А' 'А', .rng 'а' 'а'], .cls false [.rng 'Т' 'Т', .rng 'т' 'т', .rng 'ᲄ' 'ᲄ', .rng 'ᲅ' 'ᲅ']]]), .grp 3 (.alts [.eos, .cls true [.letter, .mark, .digit], .lit ['_']])], 3),
  rxExact := some (.seqs [.bos, .grp 1 (.alts [.seqs [.cls false [.rng 'П' 'П', .rng 'п' 'п'], .cls false [.rng 'Р' 'Р', .rng 'р' 'р'], .cls false [.rng 'Е' 'Е', .rng 'е' 'е'], .lit [' '], .number, .lit [' '], .cls false [.rng 'С' 'С', .rng 'с' 'с', .rng 'ᲃ' 'ᲃ'], .cls false [.rng 'Е' 'Е', .rng 'е' 'е'], .cls false [.rng 'К' 'К', .rng 'к' 'к'], .cls false [.rng 'У' 'У', .rng 'у' 'у'], .cls false [.rng 'Н' 'Н', .rng 'н' 'н'], .cls false [.rng 'Д' 'Д', .rng 'д' 'д', .rng 'ᲁ' 'ᲁ'], .cls false [.rng 'И' 'И', .rng 'и' 'и']], .seqs [.cls false [.rng 'З' 'З', .rng 'з' 'з'], .cls false [.rng 'А' 'А', .rng 'а' 'а'], .lit [' '], .number, .lit [' '], .cls false [.rng 'С' 'С', .rng 'с' 'с', .rng 'ᲃ' 'ᲃ'], .cls false [.rng 'Е' 'Е', .rng 'е' 'е'], .cls false [.rng 'К' 'К', .rng 'к' 'к'], .cls false [.rng 'У' 'У', .rng 'у' 'у'], .cls false [.rng 'Н' 'Н', .rng 'н' 'н'], .cls false [.rng 'Д' 'Д', .rng 'д' 'д', .rng 'ᲁ' 'ᲁ'], .cls false [.rng 'И' 'И', .rng 'и' 'и']], .seqs [.cls false [.rng 'П' 'П', .rng 'п' 'п'], .cls false [.rng 'Р' 'Р', .rng 'р' 'р'], .cls false [.rng 'Е' 'Е', .rng 'е' 'е'], .lit [' '], .number, .lit [' '], .cls false [.rng 'Г' 'Г', .rng 'г' 'г'], .cls false [.rng 'О' 'О', .rng 'о' 'о', .rng 'ᲂ' 'ᲂ'], .cls false [.rng 'Д' 'Д', .rng 'д' 'д', .rng 'ᲁ' 'ᲁ'], .cls false [.rng 'И' 'И', .rng 'и' 'и'], .cls false [.rng 'Н' 'Н', .rng 'н' 'н'], .cls false [.rng 'А' 'А', .rng 'а' 'а']], .seqs [.cls false [.rng 'П' 'П', .rng 'п' 'п'], .cls false [.rng 'Р' 'Р', .rng 'р' 'р'], .cls false [.rng 'Е' 'Е', .rng 'е' 'е'], .lit [' '], .number, .lit [' '], .cls false [.rng 'Г' 'Г', .rng 'г' 'г'], .cls false [.rng 'О' 'О', .rng 'о' 'о', .rng 'ᲂ' 'ᲂ'], .cls false [.rng 'Д' 'Д', .rng 'д' 'д', .rng 'ᲁ' 'ᲁ'], .cls false [.rng 'И' 'И', .rng 'и' 'и'], .cls false [.rng 'Н' 'Н', .rng 'н' 'н'], .cls false [.rng 'У' 'У', .rng 'у' 'у']], .seqs [.cls false [.rng 'П' 'П', .rng 'п' 'п'], .cls false [.rng 'Р' 'Р', .rng 'р' 'р'], .cls false [.rng 'Е' 'Е', .rng 'е' 'е'], .lit [' '], .number, .lit [' '], .cls false [.rng 'М' 'М', .rng 'м' 'м'], .cls false [.rng 'Е' 'Е', .rng 'е' 'е'], .cls false [.rng 'С' 'С', .rng 'с' 'с', .rng 'ᲃ' 'ᲃ'], .cls false [.rng 'Е' 'Е', .rng 'е' 'е'], .cls false [.rng 'Ц' 'Ц', .rng 'ц' 'ц'], .cls false [.rng 'И' 'И', .rng 'и' 'и']], .seqs [.cls false [.rng 'П' 'П', .rng 'п' 'п'], .cls false [.rng 'Р' 'Р', .rng 'р' 'р'], .cls false [.rng 'Е' 'Е', .rng 'е' 'е'], .lit [' '], .number, .lit [' '], .cls false [.rng 'М' 'М', .rng 'м' 'м'], .cls false [.rng 'И' 'И', .rng 'и' 'и'], .cls false [.rng 'Н' 'Н', .rng 'н' 'н'], .cls false [.rng 'У' 'У', .rng 'у' 'у'], .cls false [.rng 'Т' 'Т', .rng 'т' 'т', .rng 'ᲄ' 'ᲄ', .rng 'ᲅ' 'ᲅ'], .cls false [.rng 'А' 'А', .rng 'а' 'а']], .seqs [.cls false [.rng 'П' 'П', .rng 'п' 'п'], .cls false [.rng 'Р' 'Р', .rng 'р' 'р'], .cls false [.rng 'Е' 'Е', .rng 'е' 'е'], .lit [' '], .number, .lit [' '], .cls false [.rng 'Н' 'Н', .rng 'н' 'н'], .cls false [.rng 'Е' 'Е', .rng 'е' 'е'], .cls false [.rng 'Д' 'Д', .rng 'д' 'д', .rng 'ᲁ' 'ᲁ'], .cls false [.rng 'Е' 'Е', .rng 'е' 'е'], .cls false [.rng 'Љ' 'Љ', .rng 'љ' 'љ'], .cls false [.rng 'А' 'А', .rng 'а' 'а']], .seqs [.cls false [.rng 'П' 'П', .rng 'п' 'п'], .cls false [.rng 'Р' 'Р', .rng 'р' 'р'], .cls false [.rng 'Е' 'Е', .rng 'е' 'е'], .lit [' '], .number, .lit [' '], .cls false [.rng 'Н' 'Н', .rng 'н' 'н'], .cls false [.rng 'Е' 'Е', .rng 'е' 'е'], .cls false [.rng 'Д' 'Д', .rng 'д' 'д', .rng 'ᲁ' 'ᲁ'], .cls false [.rng 'Е' 'Е', .rng 'е' 'е'], .cls false [.rng 'Љ' 'Љ', .rng 'љ' 'љ'], .cls false [.rng 'У' 'У', .rng 'у' 'у']], .seqs [.cls false [.rng 'П' 'П', .rng 'п' 'п'], .cls false [.rng 'Р' 'Р', .rng 'р' 'р'], .cls false [.rng 'Е' 'Е', .rng 'е' 'е'], .lit [' '], .number, .lit [' '], .cls false [.rng 'С' 'С', .rng 'с' 'с', .rng 'ᲃ' 'ᲃ'], .cls false [.rng 'Е' 'Е', .rng 'е' 'е'], .cls false [.rng 'К' 'К', .rng 'к' 'к'], .cls false [.rng 'У' 'У', .rng 'у' 'у'], .cls false [.rng 'Н' 'Н', .rng 'н' 'н'], .cls false [.rng 'Д' 'Д', .rng 'д' 'д', .rng 'ᲁ' 'ᲁ']], .seqs [.cls false [.rng 'З' 'З', .rng 'з' 'з'], .cls false [.rng 'А' 'А', .rng 'а' 'а'], .lit [' '], .number, .lit [' '], .cls false [.rng 'Г' 'Г', .rng 'г' 'г'], .cls false [.rng 'О' 'О', .rng 'о' 'о', .rng 'ᲂ' 'ᲂ'], .cls false [.rng 'Д' 'Д', .rng 'д' 'д', .rng 'ᲁ' 'ᲁ'], .cls false [.rng 'И' 'И', .rng 'и' 'и'], .cls false [.rng 'Н' 'Н', .rng 'н' 'н'], .cls false [.rng 'А' 'А', .rng 'а' 'а']], .seqs [.cls false [.rng 'З' 'З', .rng 'з' 'з'], .cls false [.rng 'А' 'А', .rng 'а' 'а'], .lit [' '], .number, .lit [' '], .cls false [.rng 'Г' 'Г', .rng 'г' 'г'], .cls false [.rng 'О' 'О', .rng 'о' 'о', .rng 'ᲂ' 'ᲂ'], .cls false [.rng 'Д' 'Д', .rng 'д' 'д', .rng 'ᲁ' 'ᲁ'], .cls false [.rng 'И' 'И', .rng 'и' 'и'], .cls false [.rng 'Н' 'Н', .rng 'н' 'н'], .cls false [.rng 'У' 'У', .rng 'у' 'у']], .seqs [.cls false [.rng 'З' 'З', .rng 'з' 'з'], .cls false [.rng 'А' 'А', .rng 'а' 'а'], .lit [' '], .number, .lit [' '], .cls false [.rng 'М' 'М', .rng 'м' 'м'], .cls false [.rng 'Е' 'Е', .rng 'е' 'е'], .cls false [.rng 'С' 'С', .rng 'с' 'с', .rng 'ᲃ' 'ᲃ'], .cls false [.rng 'Е' 'Е', .rng 'е' 'е'], .cls false [.rng 'Ц' 'Ц', .rng 'ц' 'ц'], .cls false [.rng 'И' 'И', .rng 'и' 'и']], .seqs [.cls false [.rng 'З' 'З', .rng 'з' 'з'], .cls false [.rng 'А' 'А', .rng 'а' 'а'], .lit [' '], .number, .lit [' '], .cls false [.rng 'М' 'М', .rng 'м' 'м'], .cls false [.rng 'И' 'И', .rng 'и' 'и'], .cls false [.rng 'Н' 'Н', .rng 'н' 'н'], .cls false [.rng 'У' 'У', .rng 'у' 'у'], .cls false [.rng 'Т' 'Т', .rng 'т' 'т', .rng 'ᲄ' 'ᲄ', .rng 'ᲅ' 'ᲅ'], .cls false [.rng 'А' 'А', .rng 'а' 'а']], .seqs [.cls false [.rng 'З' 'З', .rng 'з' 'з'], .cls false [.rng 'А' 'А', .rng 'а' 'а'], .lit [' '], .number, .lit [' '], .cls false [.rng 'Н' 'Н', .rng 'н' 'н'], .cls false [.rng 'Е' 'Е', .rng 'е' 'е'], .cls false [.rng 'Д' 'Д', .rng 'д' 'д', .rng 'ᲁ' 'ᲁ'], .cls false [.rng 'Е' 'Е', .rng 'е' 'е'], .cls false [.rng 'Љ' 'Љ', .rng 'љ' 'љ'], .cls false [.rng 'А' 'А', .rng 'а' 'а']], .seqs [.cls false [.rng 'З' 'З', .rng 'з' 'з'], .cls false [.rng 'А' 'А', .rng 'а' 'а'], .lit [' '], .number, .lit [' '], .cls false [.rng 'Н' 'Н', .rng 'н' 'н'], .cls false [.rng 'Е' 'Е', .rng 'е' 'е'], .cls false [.rng 'Д' 'Д', .rng 'д' 'д', .rng 'ᲁ' 'ᲁ'], .cls false [.rng 'Е' 'Е', .rng 'е' 'е'], .cls false [.rng 'Љ' 'Љ', .rng 'љ' 'љ'], .cls false [.rng 'У' 'У', .rng 'у' 'у']], .seqs [.cls false [.rng 'З' 'З', .rng 'з' 'з'], .cls false [.rng 'А' 'А', .rng 'а' 'а'], .lit [' '], .number, .lit [' '], .cls false [.rng 'С' 'С', .rng 'с' 'с', .rng 'ᲃ' 'ᲃ'], .cls false [.rng 'Е' 'Е', .rng 'е' 'е'], .cls false [.rng 'К' 'К', .rng 'к' 'к'], .cls false [.rng 'У' 'У', .rng 'у' 'у'], .cls false [.rng 'Н' 'Н', .rng 'н' 'н'], .cls false [.rng 'Д' 'Д', .rng 'д' 'д', .rng 'ᲁ' 'ᲁ']], .seqs [.cls false [.rng 'П' 'П', .rng 'п' 'п'], .cls false [.rng 'Р' 'Р', .rng 'р' 'р'], .cls false [.rng 'Е' 'Е', .rng 'е' 'е'], .lit [' '], .number, .lit [' '], .cls false [.rng 'М' 'М', .rng 'м' 'м'], .cls false [.rng 'Е' 'Е', .rng 'е' 'е'], .cls false [.rng 'С' 'С', .rng 'с' 'с', .rng 'ᲃ' 'ᲃ'], .cls false [.rng 'Е' 'Е', .rng 'е' 'е'], .cls false [.rng 'Ц' 'Ц', .rng 'ц' 'ц']], .seqs [.cls false [.rng 'П' 'П', .rng 'п' 'п'], .cls false [.rng 'Р' 'Р', .rng 'р' 'р'], .cls false [.rng 'Е' 'Е', .rng 'е' 'е'], .lit [' '], .number, .lit [' '], .cls false [.rng 'М' 'М', .rng 'м' 'м'], .cls false [.rng 'И' 'И', .rng 'и' 'и'], .cls false [.rng 'Н' 'Н', .rng 'н' 'н'], .cls false [.rng 'У' 'У', .rng 'у' 'у'], .cls false [.rng 'Т' 'Т', .rng 'т' 'т', .rng 'ᲄ' 'ᲄ', .rng 'ᲅ' 'ᲅ']], .seqs [.cls false [.rng 'З' 'З', .rng 'з' 'з'], .cls false [.rng 'А' 'А', .rng 'а' 'а'], .lit [' '], .number, .lit [' '], .cls false [.rng 'М' 'М', .rng 'м' 'м'], .cls false [.rng 'Е' 'Е', .rng 'е' 'е'], .cls false [.rng 'С' 'С', .rng 'с' 'с', .rng 'ᲃ' 'ᲃ'], .cls false [.rng 'Е' 'Е', .rng 'е' 'е'], .cls false [.rng 'Ц' 'Ц', .rng 'ц' 'ц']], .seqs [.cls false [.rng 'З' 'З', .rng 'з' 'з'], .cls false [.rng 'А' 'А', .rng 'а' 'а'], .lit [' '], .number, .lit [' '], .cls false [.rng 'М' 'М', .rng 'м' 'м'], .cls false [.rng 'И' 'И', .rng 'и' 'и'], .cls false [.rng 'Н' 'Н', .rng 'н' 'н'], .cls false [.rng 'У' 'У', .rng 'у' 'у'], .cls false [.rng 'Т' 'Т', .rng 'т' 'т', .rng 'ᲄ' 'ᲄ', .rng 'ᲅ' 'ᲅ']], .seqs [.cls false [.rng 'П' 'П', .rng 'п' 'п'], .cls false [.rng 'Р' 'Р', .rng 'р' 'р'], .cls false [.rng 'Е' 'Е', .rng 'е' 'е'], .lit [' '], .number, .lit [' '], .cls false [.rng 'Д' 'Д', .rng 'д' 'д', .rng 'ᲁ' 'ᲁ'], .cls false [.rng 'А' 'А', .rng 'а' 'а'], .cls false [.rng 'Н' 'Н', .rng 'н' 'н'], .cls false [.rng 'А' 'А', .rng 'а' 'а']], .seqs [.cls false [.rng 'П' 'П', .rng 'п' 'п'], .cls false [.rng 'Р' 'Р', .rng 'р' 'р'], .cls false [.rng 'Е' 'Е', .rng 'е' 'е'], .lit [' '], .number, .lit [' '], .cls false [.rng 'С' 'С', .rng 'с' 'с', .rng 'ᲃ' 'ᲃ'], .cls false [.rng 'А' 'А', .rng 'а' 'а'], .cls false [.rng 'Т' 'Т', .rng 'т' 'т', .rng 'ᲄ' 'ᲄ', .rng 'ᲅ' 'ᲅ'], .cls false [.rng 'И' 'И', .rng 'и' 'и']], .seqs [.cls false [.rng 'З' 'З', .rng 'з' 'з'], .cls false [.rng 'А' 'А', .rng 'а' 'а'], .lit [' '], .number, .lit [' '], .cls false [.rng 'Д' 'Д', .rng 'д' 'д', .rng 'ᲁ' 'ᲁ'], .cls false [.rng 'А' 'А', .rng 'а' 'а'], .cls false [.rng 'Н' 'Н', .rng 'н' 'н'], .cls false [.rng 'А' 'А', .rng 'а' 'а']], .seqs [.cls false [.rng 'З' 'З', .rng 'з' 'з'], .cls false [.rng 'А' 'А', .rng 'а' 'а'], .lit [' '], .number, .lit [' '], .cls false [.rng 'С' 'С', .rng 'с' 'с', .rng 'ᲃ' 'ᲃ'], .cls false [.rng 'А' 'А', .rng 'а' 'а'], .cls false [.rng 'Т' 'Т', .rng 'т' 'т', .rng 'ᲄ' 'ᲄ', .rng 'ᲅ' 'ᲅ'], .cls false [.rng 'И' 'И', .rng 'и' 'и']], .seqs [.cls false [.rng 'П' 'П', .rng 'п' 'п'], .cls false [.rng 'Р' 'Р', .rng 'р' 'р'], .cls false [.rng 'Е' 'Е', .rng 'е' 'е'], .lit [' '], .number, .lit [' '], .cls false [.rng 'Д' 'Д', .rng 'д' 'д', .rng 'ᲁ' 'ᲁ'], .cls false [.rng 'А' 'А', .rng 'а' 'а'], .cls false [.rng 'Н' 'Н', .rng 'н' 'н']], .seqs [.cls false [.rng 'П' 'П', .rng 'п' 'п'], .cls false [.rng 'Р' 'Р', .rng 'р' 'р'], .cls false [.rng 'Е' 'Е', .rng 'е' 'е'], .lit [' '], .number, .lit [' '], .cls false [.rng 'С' 'С', .rng 'с' 'с', .rng 'ᲃ' 'ᲃ'], .cls false [.rng 'А' 'А', .rng 'а' 'а'], .cls false [.rng 'Т' 'Т', .rng 'т' 'т', .rng 'ᲄ' 'ᲄ', .rng 'ᲅ' 'ᲅ']], .seqs [.cls false [.rng 'З' 'З', .rng 'з' 'з'], .cls false [.rng 'А' 'А', .rng 'а' 'а'], .lit [' '], .number, .lit [' '], .cls false [.rng 'Д' 'Д', .rng 'д' 'д', .rng 'ᲁ' 'ᲁ'], .cls false [.rng 'А' 'А', .rng 'а' 'а'], .cls false [.rng 'Н' 'Н', .rng 'н' 'н']], .seqs [.cls false [.rng 'З' 'З', .rng 'з' 'з'], .cls false [.rng 'А' 'А', .rng 'а' 'а'], .lit [' '], .number, .lit [' '], .cls false [.rng 'С' 'С', .rng 'с' 'с', .rng 'ᲃ' 'ᲃ'], .cls false [.rng 'А' 'А', .rng 'а' 'а'], .cls false [.rng 'Т' 'Т', .rng 'т' 'т', .rng 'ᲄ' 'ᲄ', .rng 'ᲅ' 'ᲅ']]]), .eos]),
  knownWords :=
   [['с', 'л', 'е', 'д', 'е', 'ћ', 'е', 'г', ' ', 'м', 'е', 'с', 'е', 'ц', 'а'], ['п', 'р', 'о', 'ш', 'л', 'о', 'г', ' ', 'м', 'е', 'с', 'е', 'ц', 'а'], ['с', 'л', 'е', 'д', 'е', 'ћ', 'е', ' ', 'г', 'о', 'д', 'и', 'н', 'е'], ['с', 'л', 'е', 'д', 'е', 'ћ', 'е', ' ', 'н', 'е', 'д', 'е', 'љ', 'е'], ['п', 'р', 'о', 'ш', 'л', 'е', ' ', 'г', 'о', 'д', 'и', 'н', 'е'], ['п', 'р', 'о', 'ш', 'л', 'е', ' ', 'н', 'е', 'д', 'е', 'љ', 'е'], ['t', 'h', 'i', 's', ' ', 'm', 'i', 'n', 'u', 't', 'e'], ['о', 'в', 'о', 'г', ' ', 'м', 'е', 'с', 'е', 'ц', 'а'], ['о', 'в', 'е', ' ', 'г', 'о', 'д', 'и', 'н', 'е'], ['о', 'в', 'е', ' ', 'н', 'е', 'д', 'е', 'љ', 'е'], ['t', 'h', 'i', 's', ' ', 'h', 'o', 'u', 'r'], ['п', 'о', 'н', 'е', 'д', 'е', 'љ', 'а', 'к'], ['п', 'р', 'е', ' ', 'п', 'о', 'д', 'н', 'е'], ['с', 'е', 'п', 'т', 'е', 'м', 'б', 'а', 'р'], ['д', 'е', 'ц', 'е', 'м', 'б', 'а', 'р'], ['н', 'о', 'в', 'е', 'м', 'б', 'а', 'р'], ['ч', 'е', 'т', 'в', 'р', 'т', 'а', 'к'], ['о', 'к', 'т', 'о', 'б', 'а', 'р'], ['п', 'о', 'п', 'о', 'д', 'н', 'е'], ['с', 'р', 'и', 'ј', 'е', 'д', 'а'], ['ф', 'е', 'б', 'р', 'у', 'а', 'р'], ['а', 'в', 'г', 'у', 'с', 'т'], ['г', 'о', 'д', 'и', 'н', 'а'], ['н', 'е', 'д', 'е', 'љ', 'а'], ['с', 'е', 'к', 'у', 'н', 'д'], ['с', 'у', 'б', 'о', 'т', 'а'], ['у', 'т', 'о', 'р', 'а', 'к'], ['ј', 'а', 'н', 'у', 'а', 'р'], ['а', 'п', 'р', 'и', 'л'], ['д', 'а', 'н', 'а', 'с'], ['м', 'е', 'с', 'е', 'ц'], ['м', 'и', 'н', 'у', 'т'], ['п', 'е', 'т', 'а', 'к'], ['с', 'у', 'т', 'р', 'а'], ['м', 'а', 'р', 'т'], ['ј', 'у', 'л', 'и'], ['ј', 'у', 'н', 'и'], ['ј', 'у', 'ч', 'е'], ['g', 'm', 't'], ['n', 'o', 'w'], ['u', 't', 'c'], ['а', 'в', 'г'], ['а', 'п', 'р'], ['д', 'а', 'н'], ['д', 'е', 'ц'], ['м', 'а', 'р'], ['м', 'а', 'ј'], ['н', 'е', 'д'], ['н', 'о', 'в'], ['о', 'к', 'т'], ['п', 'е', 'т'], ['п', 'о', 'н'], ['с', 'е', 'п'], ['с', 'р', 'и'], ['с', 'у', 'б'], ['у', 'т', 'о'], ['ф', 'е', 'б'], ['ч', 'а', 'с'], ['ч', 'е', 'т'], ['ј', 'а', 'н'], ['ј', 'у', 'л'], ['ј', 'у', 'н'], ['a', 'm'], ['p', 'm'], [' '], ['\''], ['+'], [','], ['-'], ['.'], ['/'], [':'], [';'], ['@'], ['['], [']'], ['z'], ['|']] }

/-- internal/data/bs-latn.go: `bs_Latn_Locale`. -/
def bs_LatnLang : LangData := { bs_LatnDict with
  relativeRegexes :=
   [(.seqs [.lit ['p', 'r', 'i', 'j', 'e', ' '], .grp 1 (.number), .lit [' ', 'm', 'j', 'e', 's', 'e', 'c', 'i']], [.ref 1, .lit [' ', 'm', 'o', 'n', 't', 'h', ' ', 'a', 'g', 'o']]),
    (.seqs [.lit ['p', 'r', 'i', 'j', 'e', ' '], .grp 1 (.number), .lit [' ', 's', 'e', 'd', 'm', 'i', 'c', 'a']], [.ref 1, .lit [' ', 'w', 'e', 'e', 'k', ' ', 'a', 'g', 'o']]),
    (.seqs [.lit ['p', 'r', 'i', 'j', 'e', ' '], .grp 1 (.number), .lit [' ', 's', 'e', 'd', 'm', 'i', 'c', 'u']], [.ref 1, .lit [' ', 'w', 'e', 'e', 'k', ' ', 'a', 'g', 'o']]),
    (.seqs [.lit ['p', 'r', 'i', 'j', 'e', ' '], .grp 1 (.number), .lit [' ', 's', 'e', 'k', 'u', 'n', 'd', 'i']], [.ref 1, .lit [' ', 's', 'e', 'c', 'o', 'n', 'd', ' ', 'a', 'g', 'o']]),
    (.seqs [.lit ['p', 'r', 'i', 'j', 'e', ' '], .grp 1 (.number), .lit [' ', 's', 'e', 'k', 'u', 'n', 'd', 'u']], [.ref 1, .lit [' ', 's', 'e', 'c', 'o', 'n', 'd', ' ', 'a', 'g', 'o']]),
    (.seqs [.lit ['p', 'r', 'i', 'j', 'e', ' '], .grp 1 (.number), .lit [' ', 'g', 'o', 'd', 'i', 'n', 'a']], [.ref 1, .lit [' ', 'y', 'e', 'a', 'r', ' ', 'a', 'g', 'o']]),
    (.seqs [.lit ['p', 'r', 'i', 'j', 'e', ' '], .grp 1 (.number), .lit [' ', 'g', 'o', 'd', 'i', 'n', 'u']], [.ref 1, .lit [' ', 'y', 'e', 'a', 'r', ' ', 'a', 'g', 'o']]),
    (.seqs [.lit ['p', 'r', 'i', 'j', 'e', ' '], .grp 1 (.number), .lit [' ', 'm', 'i', 'n', 'u', 't', 'a']], [.ref 1, .lit [' ', 'm', 'i', 'n', 'u', 't', 'e', ' ', 'a', 'g', 'o']]),
    (.seqs [.lit ['p', 'r', 'i', 'j', 'e', ' '], .grp 1 (.number), .lit [' ', 'm', 'i', 'n', 'u', 't', 'u']], [.ref 1, .lit [' ', 'm', 'i', 'n', 'u', 't', 'e', ' ', 'a', 'g', 'o']]),
    (.seqs [.lit ['p', 'r', 'i', 'j', 'e', ' '], .grp 1 (.number), .lit [' ', 'm', 'j', 'e', 's', 'e', 'c']], [.ref 1, .lit [' ', 'm', 'o', 'n', 't', 'h', ' ', 'a', 'g', 'o']]),
    (.seqs [.lit ['p', 'r', 'i', 'j', 'e', ' '], .grp 1 (.number), .lit [' ', 'd', 'a', 'n', 'a']], [.ref 1, .lit [' ', 'd', 'a', 'y', ' ', 'a', 'g', 'o']]),
    (.seqs [.lit ['p', 'r', 'i', 'j', 'e', ' '], .grp 1 (.number), .lit [' ', 's', 'a', 't', 'i']], [.ref 1, .lit [' ', 'h', 'o', 'u', 'r', ' ', 'a', 'g', 'o']]),
    (.seqs [.lit ['z', 'a', ' '], .grp 1 (.number), .lit [' ', 'm', 'j', 'e', 's', 'e', 'c', 'i']], [.lit ['i', 'n', ' '], .ref 1, .lit [' ', 'm', 'o', 'n', 't', 'h']]),
    (.seqs [.lit ['z', 'a', ' '], .grp 1 (.number), .lit [' ', 's', 'e', 'd', 'm', 'i', 'c', 'a']], [.lit ['i', 'n', ' '], .ref 1, .lit [' ', 'w', 'e', 'e', 'k']]),
    (.seqs [.lit ['z', 'a', ' '], .grp 1 (.number), .lit [' ', 's', 'e', 'd', 'm', 'i', 'c', 'u']], [.lit ['i', 'n', ' '], .ref 1, .lit [' ', 'w', 'e', 'e', 'k']]),
    (.seqs [.lit ['z', 'a', ' '], .grp 1 (.number), .lit [' ', 's', 'e', 'k', 'u', 'n', 'd', 'i']], [.lit ['i', 'n', ' '], .ref 1, .lit [' ', 's', 'e', 'c', 'o', 'n', 'd']]),
    (.seqs [.lit ['z', 'a', ' '], .grp 1 (.number), .lit [' ', 's', 'e', 'k', 'u', 'n', 'd', 'u']], [.lit ['i', 'n', ' '], .ref 1, .lit [' ', 's', 'e', 'c', 'o', 'n', 'd']]),
    (.seqs [.lit ['p', 'r', 'i', 'j', 'e', ' '], .grp 1 (.number), .lit [' ', 'd', 'a', 'n']], [.ref 1, .lit [' ', 'd', 'a', 'y', ' ', 'a', 'g', 'o']]),
    (.seqs [.lit ['p', 'r', 'i', 'j', 'e', ' '], .grp 1 (.number), .lit [' ', 'g', 'o', 'd']], [.ref 1, .lit [' ', 'y', 'e', 'a', 'r', ' ', 'a', 'g', 'o']]),
    (.seqs [.lit ['p', 'r', 'i', 'j', 'e', ' '], .grp 1 (.number), .lit [' ', 'm', 'i', 'n']], [.ref 1, .lit [' ', 'm', 'i', 'n', 'u', 't', 'e', ' ', 'a', 'g', 'o']]),
    (.seqs [.lit ['p', 'r', 'i', 'j', 'e', ' '], .grp 1 (.number), .lit [' ', 's', 'a', 't']], [.ref 1, .lit [' ', 'h', 'o', 'u', 'r', ' ', 'a', 'g', 'o']]),
    (.seqs [.lit ['p', 'r', 'i', 'j', 'e', ' '], .grp 1 (.number), .lit [' ', 's', 'e', 'd']], [.ref 1, .lit [' ', 'w', 'e', 'e', 'k', ' ', 'a', 'g', 'o']]),
    (.seqs [.lit ['p', 'r', 'i', 'j', 'e', ' '], .grp 1 (.number), .lit [' ', 's', 'e', 'k']], [.ref 1, .lit [' ', 's', 'e', 'c', 'o', 'n', 'd', ' ', 'a', 'g', 'o']]),
    (.seqs [.lit ['z', 'a', ' '], .grp 1 (.number), .lit [' ', 'g', 'o', 'd', 'i', 'n', 'a']], [.lit ['i', 'n', ' '], .ref 1, .lit [' ', 'y', 'e', 'a', 'r']]),
    (.seqs [.lit ['z', 'a', ' '], .grp 1 (.number), .lit [' ', 'g', 'o', 'd', 'i', 'n', 'u']], [.lit ['i', 'n', ' '], .ref 1, .lit [' ', 'y', 'e', 'a', 'r']]),
    (.seqs [.lit ['z', 'a', ' '], .grp 1 (.number), .lit [' ', 'm', 'i', 'n', 'u', 't', 'a']], [.lit ['i', 'n', ' '], .ref 1, .lit [' ', 'm', 'i', 'n', 'u', 't', 'e']]),
    (.seqs [.lit ['z', 'a', ' '], .grp 1 (.number), .lit [' ', 'm', 'i', 'n', 'u', 't', 'u']], [.lit ['i', 'n', ' '], .ref 1, .lit [' ', 'm', 'i', 'n', 'u', 't', 'e']]),
    (.seqs [.lit ['z', 'a', ' '], .grp 1 (.number), .lit [' ', 'm', 'j', 'e', 's', 'e', 'c']], [.lit ['i', 'n', ' '], .ref 1, .lit [' ', 'm', 'o', 'n', 't', 'h']]),
    (.seqs [.lit ['p', 'r', 'i', 'j', 'e', ' '], .grp 1 (.number), .lit [' ', 'm', 'j']], [.ref 1, .lit [' ', 'm', 'o', 'n', 't', 'h', ' ', 'a', 'g', 'o']]),
    (.seqs [.lit ['p', 'r', 'i', 'j', 'e', ' '], .grp 1 (.number), .lit [' ', 'd']], [.ref 1, .lit [' ', 'd', 'a', 'y', ' ', 'a', 'g', 'o']]),
    (.seqs [.lit ['p', 'r', 'i', 'j', 'e', ' '], .grp 1 (.number), .lit [' ', 'g']], [.ref 1, .lit [' ', 'y', 'e', 'a', 'r', ' ', 'a', 'g', 'o']]),
    (.seqs [.lit ['z', 'a', ' '], .grp 1 (.number), .lit [' ', 'd', 'a', 'n', 'a']], [.lit ['i', 'n', ' '], .ref 1, .lit [' ', 'd', 'a', 'y']]),
    (.seqs [.lit ['z', 'a', ' '], .grp 1 (.number), .lit [' ', 's', 'a', 't', 'i']], [.lit ['i', 'n', ' '], .ref 1, .lit [' ', 'h', 'o', 'u', 'r']]),
    (.seqs [.lit ['z', 'a', ' '], .grp 1 (.number), .lit [' ', 'd', 'a', 'n']], [.lit ['i', 'n', ' '], .ref 1, .lit [' ', 'd', 'a', 'y']]),
    (.seqs [.lit ['z', 'a', ' '], .grp 1 (.number), .lit [' ', 'g', 'o', 'd']], [.lit ['i', 'n', ' '], .ref 1, .lit [' ', 'y', 'e', 'a', 'r']]),
    (.seqs [.lit ['z', 'a', ' '], .grp 1 (.number), .lit [' ', 'm', 'i', 'n']], [.lit ['i', 'n', ' '], .ref 1, .lit [' ', 'm', 'i', 'n', 'u', 't', 'e']]),
    (.seqs [.lit ['z', 'a', ' '], .grp 1 (.number), .lit [' ', 's', 'a', 't']], [.lit ['i', 'n', ' '], .ref 1, .lit [' ', 'h', 'o', 'u', 'r']]),
    (.seqs [.lit ['z', 'a', ' '], .grp 1 (.number), .lit [' ', 's', 'e', 'd']], [.lit ['i', 'n', ' '], .ref 1, .lit [' ', 'w', 'e', 'e', 'k']]),
    (.seqs [.lit ['z', 'a', ' '], .grp 1 (.number), .lit [' ', 's', 'e', 'k']], [.lit ['i', 'n', ' '], .ref 1, .lit [' ', 's', 'e', 'c', 'o', 'n', 'd']]),
    (.seqs [.lit ['z', 'a', ' '], .grp 1 (.number), .lit [' ', 'm', 'j']], [.lit ['i', 'n', ' '], .ref 1, .lit [' ', 'm', 'o', 'n', 't', 'h']]),
    (.seqs [.lit ['z', 'a', ' '], .grp 1 (.number), .lit [' ', 'd']], [.lit ['i', 'n', ' '], .ref 1, .lit [' ', 'd', 'a', 'y']]),
    (.seqs [.lit ['z', 'a', ' '], .grp 1 (.number), .lit [' ', 'g']], [.lit ['i', 'n', ' '], .ref 1, .lit [' ', 'y', 'e', 'a', 'r']])],
  rxCombined := some (.seqs [.grp 1 (.alts [.bos, .cls true [.letter, .mark, .digit], .lit ['_']]), .grp 2 (.alts [.seqs [.lit ['p', 'r', 'i', 'j', 'e', ' '], .number, .lit [' ', 'm', 'j', 'e', 's', 'e', 'c', 'i']], .seqs [.lit ['p', 'r', 'i', 'j', 'e', ' '], .number, .lit [' ', 's', 'e', 'd', 'm', 'i', 'c', 'a']], .seqs [.lit ['p', 'r', 'i', 'j', 'e', ' '], .number, .lit [' ', 's', 'e', 'd', 'm', 'i', 'c', 'u']], .seqs [.lit ['p', 'r', 'i', 'j', 'e', ' '], .number, .lit [' ', 's', 'e', 'k', 'u', 'n', 'd', 'i']], .seqs [.lit ['p', 'r', 'i', 'j', 'e', ' '], .number, .lit [' ', 's', 'e', 'k', 'u', 'n', 'd', 'u']], .seqs [.lit ['p', 'r', 'i', 'j', 'e', ' '], .number, .lit [' ', 'g', 'o', 'd', 'i', 'n', 'a']], .seqs [.lit ['p', 'r', 'i', 'j', 'e', ' '], .number, .lit [' ', 'g', 'o', 'd', 'i', 'n', 'u']], .seqs [.lit ['p', 'r', 'i', 'j', 'e', ' '], .number, .lit [' ', 'm', 'i', 'n', 'u', 't', 'a']], .seqs [.lit ['p', 'r', 'i', 'j', 'e', ' '], .number, .lit [' ', 'm', 'i', 'n', 'u', 't', 'u']], .seqs [.lit ['p', 'r', 'i', 'j', 'e', ' '], .number, .lit [' ', 'm', 'j', 'e', 's', 'e', 'c']], .seqs [.lit ['p', 'r', 'i', 'j', 'e', ' '], .number, .lit [' ', 'd', 'a', 'n', 'a']], .seqs [.lit ['p', 'r', 'i', 'j', 'e', ' '], .number, .lit [' ', 's', 'a', 't', 'i']], .seqs [.lit ['z', 'a', ' '], .number, .lit [' ', 'm', 'j', 'e', 's', 'e', 'c', 'i']], .seqs [.lit ['z', 'a', ' '], .number, .lit [' ', 's', 'e', 'd', 'm', 'i', 'c', 'a']], .seqs [.lit ['z', 'a', ' '], .number, .lit [' ', 's', 'e', 'd', 'm', 'i', 'c', 'u']], .seqs [.lit ['z', 'a', ' '], .number, .lit [' ', 's', 'e', 'k', 'u', 'n', 'd', 'i']], .seqs [.lit ['z', 'a', ' '], .number, .lit [' ', 's', 'e', 'k', 'u', 'n', 'd', 'u']], .seqs [.lit ['p', 'r', 'i', 'j', 'e', ' '], .number, .lit [' ', 'd', 'a', 'n']], .seqs [.lit ['p', 'r', 'i', 'j', 'e', ' '], .number, .lit [' ', 'g', 'o', 'd']], .seqs [.lit ['p', 'r', 'i', 'j', 'e', ' '], .number, .lit [' ', 'm', 'i', 'n']], .seqs [.lit ['p', 'r', 'i', 'j', 'e', ' '], .number, .lit [' ', 's', 'a', 't']], .seqs [.lit ['p', 'r', 'i', 'j', 'e', ' '], .number, .lit [' ', 's', 'e', 'd']], .seqs [.lit ['p', 'r', 'i', 'j', 'e', ' '], .number, .lit [' ', 's', 'e', 'k']], .seqs [.lit ['z', 'a', ' '], .number, .lit [' ', 'g', 'o', 'd', 'i', 'n', 'a']], .seqs [.lit ['z', 'a', ' '], .number, .lit [' ', 'g', 'o', 'd', 'i', 'n', 'u']], .seqs [.lit ['z', 'a', ' '], .number, .lit [' ', 'm', 'i', 'n', 'u', 't', 'a']], .seqs [.lit ['z', 'a', ' '], .number, .lit [' ', 'm', 'i', 'n', 'u', 't', 'u']], .seqs [.lit ['z', 'a', ' '], .number, .lit [' ', 'm', 'j', 'e', 's', 'e', 'c']], .seqs [.lit ['p', 'r', 'i', 'j', 'e', ' '], .number, .lit [' ', 'm', 'j']], .seqs [.lit ['p', 'r', 'i', 'j', 'e', ' '], .number, .lit [' ', 'd']], .seqs [.lit ['p', 'r', 'i', 'j', 'e', ' '], .number, .lit [' ', 'g']], .seqs [.lit ['z', 'a', ' '], .number, .lit [' ', 'd', 'a', 'n', 'a']], .seqs [.lit ['z', 'a', ' '], .number, .lit [' ', 's', 'a', 't', 'i']], .seqs [.lit ['z', 'a', ' '], .number, .lit [' ', 'd', 'a', 'n']], .seqs [.lit ['z', 'a', ' '], .number, .lit [' ', 'g', 'o', 'd']], .seqs [.lit ['z', 'a', ' '], .number, .lit [' ', 'm', 'i', 'n']], .seqs [.lit ['z', 'a', ' '], .number, .lit [' ', 's', 'a', 't']], .seqs [.lit ['z', 'a', ' '], .number, .lit [' ', 's', 'e', 'd']], .seqs [.lit ['z', 'a', ' '], .number, .lit [' ', 's', 'e', 'k']], .seqs [.lit ['z', 'a', ' '], .number, .lit [' ', 'm', 'j']], .seqs [.lit ['z', 'a', ' '], .number, .lit [' ', 'd']], .seqs [.lit ['z', 'a', ' '], .number, .lit [' ', 'g']]]), .grp 3 (.alts [.eos, .cls true [.letter, .mark, .digit], .lit ['_']])], 3),
  rxExact := some (.seqs [.bos, .grp 1 (.alts [.seqs [.lit ['p', 'r', 'i', 'j', 'e', ' '], .number, .lit [' ', 'm', 'j', 'e', 's', 'e', 'c', 'i']], .seqs [.lit ['p', 'r', 'i', 'j', 'e', ' '], .number, .lit [' ', 's', 'e', 'd', 'm', 'i', 'c', 'a']], .seqs [.lit ['p', 'r', 'i', 'j', 'e', ' '], .number, .lit [' ', 's', 'e', 'd', 'm', 'i', 'c', 'u']], .seqs [.lit ['p', 'r', 'i', 'j', 'e', ' '], .number, .lit [' ', 's', 'e', 'k', 'u', 'n', 'd', 'i']], .seqs [.lit ['p', 'r', 'i', 'j', 'e', ' '], .number, .lit [' ', 's', 'e', 'k', 'u', 'n', 'd', 'u']], .seqs [.lit ['p', 'r', 'i', 'j', 'e', ' '], .number, .lit [' ', 'g', 'o', 'd', 'i', 'n', 'a']], .seqs [.lit ['p', 'r', 'i', 'j', 'e', ' '], .number, .lit [' ', 'g', 'o', 'd', 'i', 'n', 'u']], .seqs [.lit ['p', 'r', 'i', 'j', 'e', ' '], .number, .lit [' ', 'm', 'i', 'n', 'u', 't', 'a']], .seqs [.lit ['p', 'r', 'i', 'j', 'e', ' '], .number, .lit [' ', 'm', 'i', 'n', 'u', 't', 'u']], .seqs [.lit ['p', 'r', 'i', 'j', 'e', ' '], .number, .lit [' ', 'm', 'j', 'e', 's', 'e', 'c']], .seqs [.lit ['p', 'r', 'i', 'j', 'e', ' '], .number, .lit [' ', 'd', 'a', 'n', 'a']], .seqs [.lit ['p', 'r', 'i', 'j', 'e', ' '], .number, .lit [' ', 's', 'a', 't', 'i']], .seqs [.lit ['z', 'a', ' '], .number, .lit [' ', 'm', 'j', 'e', 's', 'e', 'c', 'i']], .seqs [.lit ['z', 'a', ' '], .number, .lit [' ', 's', 'e', 'd', 'm', 'i', 'c', 'a']], .seqs [.lit ['z', 'a', ' '], .number, .lit [' ', 's', 'e', 'd', 'm', 'i', 'c', 'u']], .seqs [.lit ['z', 'a', ' '], .number, .lit [' ', 's', 'e', 'k', 'u', 'n', 'd', 'i']], .seqs [.lit ['z', 'a', ' '], .number, .lit [' ', 's', 'e', 'k', 'u', 'n', 'd', 'u']], .seqs [.lit ['p', 'r', 'i', 'j', 'e', ' '], .number, .lit [' ', 'd', 'a', 'n']], .seqs [.lit ['p', 'r', 'i', 'j', 'e', ' '], .number, .lit [' ', 'g', 'o', 'd']], .seqs [.lit ['p', 'r', 'i', 'j', 'e', ' '], .number, .lit [' ', 'm', 'i', 'n']], .seqs [.lit ['p', 'r', 'i', 'j', 'e', ' '], .number, .lit [' ', 's', 'a', 't']], .seqs [.lit ['p', 'r', 'i', 'j', 'e', ' '], .number, .lit [' ', 's', 'e', 'd']], .seqs [.lit ['p', 'r', 'i', 'j', 'e', ' '], .number, .lit [' ', 's', 'e', 'k']], .seqs [.lit ['z', 'a', ' '], .number, .lit [' ', 'g', 'o', 'd', 'i', 'n', 'a']], .seqs [.lit ['z', 'a', ' '], .number, .lit [' ', 'g', 'o', 'd', 'i', 'n', 'u']], .seqs [.lit ['z', 'a', ' '], .number, .lit [' ', 'm', 'i', 'n', 'u', 't', 'a']], .seqs [.lit ['z', 'a', ' '], .number, .lit [' ', 'm', 'i', 'n', 'u', 't', 'u']], .seqs [.lit ['z', 'a', ' '], .number, .lit [' ', 'm', 'j', 'e', 's', 'e', 'c']], .seqs [.lit ['p', 'r', 'i', 'j', 'e', ' '], .number, .lit [' ', 'm', 'j']], .seqs [.lit ['p', 'r', 'i', 'j', 'e', ' '], .number, .lit [' ', 'd']], .seqs [.lit ['p', 'r', 'i', 'j', 'e', ' '], .number, .lit [' ', 'g']], .seqs [.lit ['z', 'a', ' '], .number, .lit [' ', 'd', 'a', 'n', 'a']], .seqs [.lit ['z', 'a', ' '], .number, .lit [' ', 's', 'a', 't', 'i']], .seqs [.lit ['z', 'a', ' '], .number, .lit [' ', 'd', 'a', 'n']], .seqs [.lit ['z', 'a', ' '], .number, .lit [' ', 'g', 'o', 'd']], .seqs [.lit ['z', 'a', ' '], .number, .lit [' ', 'm', 'i', 'n']], .seqs [.lit ['z', 'a', ' '], .number, .lit [' ', 's', 'a', 't']], .seqs [.lit ['z', 'a', ' '], .number, .lit [' ', 's', 'e', 'd']], .seqs [.lit ['z', 'a', ' '], .number, .lit [' ', 's', 'e', 'k']], .seqs [.lit ['z', 'a', ' '], .number, .lit [' ', 'm', 'j']], .seqs [.lit ['z', 'a', ' '], .number, .lit [' ', 'd']], .seqs [.lit ['z', 'a', ' '], .number, .lit [' ', 'g']]]), .eos]),
  knownWords :=
   [['s', 'l', 'j', 'e', 'd', 'e', 'c', 'e', ' ', 's', 'e', 'd', 'm', 'i', 'c', 'e'], ['s', 'l', 'j', 'e', 'd', 'e', 'c', 'e', ' ', 'g', 'o', 'd', 'i', 'n', 'e'], ['s', 'l', 'j', 'e', 'd', 'e', 'c', 'i', ' ', 'm', 'j', 'e', 's', 'e', 'c'], ['p', 'r', 'o', 's', 'l', 'e', ' ', 's', 'e', 'd', 'm', 'i', 'c', 'e'], ['p', 'r', 'o', 's', 'l', 'e', ' ', 'g', 'o', 'd', 'i', 'n', 'e'], ['p', 'r', 'o', 's', 'l', 'i', ' ', 'm', 'j', 'e', 's', 'e', 'c'], ['o', 'v', 'a', 'j', ' ', 'm', 'j', 'e', 's', 'e', 'c'], ['o', 'v', 'e', ' ', 's', 'e', 'd', 'm', 'i', 'c', 'e'], ['p', 'o', 'n', 'e', 'd', 'j', 'e', 'l', 'j', 'a', 'k'], ['o', 'v', 'a', ' ', 'm', 'i', 'n', 'u', 't', 'a'], ['o', 'v', 'e', ' ', 'g', 'o', 'd', 'i', 'n', 'e'], ['p', 'r', 'i', 'j', 'e', 'p', 'o', 'd', 'n', 'e'], ['s', 'e', 'p', 't', 'e', 'm', 'b', 'a', 'r'], ['c', 'e', 't', 'v', 'r', 't', 'a', 'k'], ['d', 'e', 'c', 'e', 'm', 'b', 'a', 'r'], ['n', 'e', 'd', 'j', 'e', 'l', 'j', 'a'], ['n', 'o', 'v', 'e', 'm', 'b', 'a', 'r'], ['o', 'v', 'a', 'j', ' ', 's', 'a', 't'], ['f', 'e', 'b', 'r', 'u', 'a', 'r'], ['o', 'k', 't', 'o', 'b', 'a', 'r'], ['p', 'o', 'p', 'o', 'd', 'n', 'e'], ['s', 'e', 'd', 'm', 'i', 'c', 'a'], ['s', 'e', 'k', 'u', 'n', 'd', 'a'], ['s', 'r', 'i', 'j', 'e', 'd', 'a'], ['a', 'v', 'g', 'u', 's', 't'], ['g', 'o', 'd', 'i', 'n', 'a'], ['j', 'a', 'n', 'u', 'a', 'r'], ['m', 'i', 'n', 'u', 't', 'a'], ['m', 'j', 'e', 's', 'e', 'c'], ['s', 'u', 'b', 'o', 't', 'a'], ['u', 't', 'o', 'r', 'a', 'k'], ['a', 'p', 'r', 'i', 'l'], ['d', 'a', 'n', 'a', 's'], ['j', 'u', 'c', 'e', 'r'], ['p', 'e', 't', 'a', 'k'], ['s', 'u', 't', 'r', 'a'], ['j', 'u', 'l', 'i'], ['j', 'u', 'n', 'i'], ['m', 'a', 'r', 't'], ['s', 'a', 'd', 'a'], ['a', 'p', 'r'], ['a', 'v', 'g'], ['c', 'e', 't'], ['d', 'a', 'n'], ['d', 'e', 'c'], ['f', 'e', 'b'], ['g', 'm', 't'], ['g', 'o', 'd'], ['j', 'a', 'n'], ['j', 'u', 'l'], ['j', 'u', 'n'], ['m', 'a', 'j'], ['m', 'a', 'r'], ['m', 'i', 'n'], ['n', 'e', 'd'], ['n', 'o', 'v'], ['o', 'k', 't'], ['p', 'e', 't'], ['p', 'o', 'n'], ['s', 'a', 't'], ['s', 'e', 'd'], ['s', 'e', 'k'], ['s', 'e', 'p'], ['s', 'r', 'i'], ['s', 'u', 'b'], ['u', 't', 'c'], ['u', 't', 'o'], ['a', 'm'], ['m', 'j'], ['p', 'm'], [' '], ['\''], ['+'], [','], ['-'], ['.'], ['/'], [':'], [';'], ['@'], ['['], [']'], ['g'], ['h'], ['s'], ['z'], ['|']] }

/-- internal/data/bs.go: `bs_Locale`. -/
def bsLang : LangData := { bsDict with
  relativeRegexes :=
   [(.seqs [.lit ['p', 'r', 'i', 'j', 'e', ' '], .grp 1 (.number), .lit [' ', 'm', 'j', 'e', 's', 'e', 'c', 'i']], [.ref 1, .lit [' ', 'm', 'o', 'n', 't', 'h', ' ', 'a', 'g', 'o']]),
    (.seqs [.lit ['p', 'r', 'i', 'j', 'e', ' '], .grp 1 (.number), .lit [' ', 's', 'e', 'd', 'm', 'i', 'c', 'a']], [.ref 1, .lit [' ', 'w', 'e', 'e', 'k', ' ', 'a', 'g', 'o']]),
    (.seqs [.lit ['p', 'r', 'i', 'j', 'e', ' '], .grp 1 (.number), .lit [' ', 's', 'e', 'd', 'm', 'i', 'c', 'u']], [.ref 1, .lit [' ', 'w', 'e', 'e', 'k', ' ', 'a', 'g', 'o']]),
    (.seqs [.lit ['p', 'r', 'i', 'j', 'e', ' '], .grp 1 (.number), .lit [' ', 's', 'e', 'k', 'u', 'n', 'd', 'i']], [.ref 1, .lit [' ', 's', 'e', 'c', 'o', 'n', 'd', ' ', 'a', 'g', 'o']]),
    (.seqs [.lit ['p', 'r', 'i', 'j', 'e', ' '], .grp 1 (.number), .lit [' ', 's', 'e', 'k', 'u', 'n', 'd', 'u']], [.ref 1, .lit [' ', 's', 'e', 'c', 'o', 'n', 'd', ' ', 'a', 'g', 'o']]),
    (.seqs [.lit ['p', 'r', 'i', 'j', 'e', ' '], .grp 1 (.number), .lit [' ', 'g', 'o', 'd', 'i', 'n', 'a']], [.ref 1, .lit [' ', 'y', 'e', 'a', 'r', ' ', 'a', 'g', 'o']]),
    (.seqs [.lit ['p', 'r', 'i', 'j', 'e', ' '], .grp 1 (.number), .lit [' ', 'g', 'o', 'd', 'i', 'n', 'u']], [.ref 1, .lit [' ', 'y', 'e', 'a', 'r', ' ', 'a', 'g', 'o']]),
    (.seqs [.lit ['p', 'r', 'i', 'j', 'e', ' '], .grp 1 (.number), .lit [' ', 'm', 'i', 'n', 'u', 't', 'a']], [.ref 1, .lit [' ', 'm', 'i', 'n', 'u', 't', 'e', ' ', 'a', 'g', 'o']]),
    (.seqs [.lit ['p', 'r', 'i', 'j', 'e', ' '], .grp 1 (.number), .lit [' ', 'm', 'i', 'n', 'u', 't', 'u']], [.ref 1, .lit [' ', 'm', 'i', 'n', 'u', 't', 'e', ' ', 'a', 'g', 'o']]),
    (.seqs [.lit ['p', 'r', 'i', 'j', 'e', ' '], .grp 1 (.number), .lit [' ', 'm', 'j', 'e', 's', 'e', 'c']], [.ref 1, .lit [' ', 'm', 'o', 'n', 't', 'h', ' ', 'a', 'g', 'o']]),
    (.seqs [.lit ['p', 'r', 'i', 'j', 'e', ' '], .grp 1 (.number), .lit [' ', 'd', 'a', 'n', 'a']], [.ref 1, .lit [' ', 'd', 'a', 'y', ' ', 'a', 'g', 'o']]),
    (.seqs [.lit ['p', 'r', 'i', 'j', 'e', ' '], .grp 1 (.number), .lit [' ', 's', 'a', 't', 'i']], [.ref 1, .lit [' ', 'h', 'o', 'u', 'r', ' ', 'a', 'g', 'o']]),
    (.seqs [.lit ['z', 'a', ' '], .grp 1 (.number), .lit [' ', 'm', 'j', 'e', 's', 'e', 'c', 'i']], [.lit ['i', 'n', ' '], .ref 1, .lit [' ', 'm', 'o', 'n', 't', 'h']]),
    (.seqs [.lit ['z', 'a', ' '], .grp 1 (.number), .lit [' ', 's', 'e', 'd', 'm', 'i', 'c', 'a']], [.lit ['i', 'n', ' '], .ref 1, .lit [' ', 'w', 'e', 'e', 'k']]),
    (.seqs [.lit ['z', 'a', ' '], .grp 1 (.number), .lit [' ', 's', 'e', 'd', 'm', 'i', 'c', 'u']], [.lit ['i', 'n', ' '], .ref 1, .lit [' ', 'w', 'e', 'e', 'k']]),
    (.seqs [.lit ['z', 'a', ' '], .grp 1 (.number), .lit [' ', 's', 'e', 'k', 'u', 'n', 'd', 'i']], [.lit ['i', 'n', ' '], .ref 1, .lit [' ', 's', 'e', 'c', 'o', 'n', 'd']]),
    (.seqs [.lit ['z', 'a', ' '], .grp 1 (.number), .lit [' ', 's', 'e', 'k', 'u', 'n', 'd', 'u']], [.lit ['i', 'n', ' '], .ref 1, .lit [' ', 's', 'e', 'c', 'o', 'n', 'd']]),
    (.seqs [.lit ['p', 'r', 'i', 'j', 'e', ' '], .grp 1 (.number), .lit [' ', 'd', 'a', 'n']], [.ref 1, .lit [' ', 'd', 'a', 'y', ' ', 'a', 'g', 'o']]),
    (.seqs [.lit ['p', 'r', 'i', 'j', 'e', ' '], .grp 1 (.number), .lit [' ', 'g', 'o', 'd']], [.ref 1, .lit [' ', 'y', 'e', 'a', 'r', ' ', 'a', 'g', 'o']]),
    (.seqs [.lit ['p', 'r', 'i', 'j', 'e', ' '], .grp 1 (.number), .lit [' ', 'm', 'i', 'n']], [.ref 1, .lit [' ', 'm', 'i', 'n', 'u', 't', 'e', ' ', 'a', 'g', 'o']]),
    (.seqs [.lit ['p', 'r', 'i', 'j', 'e', ' '], .grp 1 (.number), .lit [' ', 's', 'a', 't']], [.ref 1, .lit [' ', 'h', 'o', 'u', 'r', ' ', 'a', 'g', 'o']]),
    (.seqs [.lit ['p', 'r', 'i', 'j', 'e', ' '], .grp 1 (.number), .lit [' ', 's', 'e', 'd']], [.ref 1, .lit [' ', 'w', 'e', 'e', 'k', ' ', 'a', 'g', 'o']]),
    (.seqs [.lit ['p', 'r', 'i', 'j', 'e', ' '], .grp 1 (.number), .lit [' ', 's', 'e', 'k']], [.ref 1, .lit [' ', 's', 'e', 'c', 'o', 'n', 'd', ' ', 'a', 'g', 'o']]),
    (.seqs [.lit ['z', 'a', ' '], .grp 1 (.number), .lit [' ', 'g', 'o', 'd', 'i', 'n', 'a']], [.lit ['i', 'n', ' '], .ref 1, .lit [' ', 'y', 'e', 'a', 'r']]),
    (.seqs [.lit ['z', 'a', ' '], .grp 1 (.number), .lit [' ', 'g', 'o', 'd', 'i', 'n', 'u']], [.lit ['i', 'n', ' '], .ref 1, .lit [' ', 'y', 'e', 'a', 'r']]),
    (.seqs [.lit ['z', 'a', ' '], .grp 1 (.number), .lit [' ', 'm', 'i', 'n', 'u', 't', 'a']], [.lit ['i', 'n', ' '], .ref 1, .lit [' ', 'm', 'i', 'n', 'u', 't', 'e']]),
    (.seqs [.lit ['z', 'a', ' '], .grp 1 (.number), .lit [' ', 'm', 'i', 'n', 'u', 't', 'u']], [.lit ['i', 'n', ' '], .ref 1, .lit [' ', 'm', 'i', 'n', 'u', 't', 'e']]),
    (.seqs [.lit ['z', 'a', ' '], .grp 1 (.number), .lit [' ', 'm', 'j', 'e', 's', 'e', 'c']], [.lit ['i', 'n', ' '], .ref 1, .lit [' ', 'm', 'o', 'n', 't', 'h']]),
    (.seqs [.lit ['p', 'r', 'i', 'j', 'e', ' '], .grp 1 (.number), .lit [' ', 'm', 'j']], [.ref 1, .lit [' ', 'm', 'o', 'n', 't', 'h', ' ', 'a', 'g', 'o']]),
    (.seqs [.lit ['p', 'r', 'i', 'j', 'e', ' '], .grp 1 (.number), .lit [' ', 'd']], [.ref 1, .lit [' ', 'd', 'a', 'y', ' ', 'a', 'g', 'o']]),
    (.seqs [.lit ['p', 'r', 'i', 'j', 'e', ' '], .grp 1 (.number), .lit [' ', 'g']], [.ref 1, .lit [' ', 'y', 'e', 'a', 'r', ' ', 'a', 'g', 'o']]),
    (.seqs [.lit ['z', 'a', ' '], .grp 1 (.number), .lit [' ', 'd', 'a', 'n', 'a']], [.lit ['i', 'n', ' '], .ref 1, .lit [' ', 'd', 'a', 'y']]),
    (.seqs [.lit ['z', 'a', ' '], .grp 1 (.number), .lit [' ', 's', 'a', 't', 'i']], [.lit ['i', 'n', ' '], .ref 1, .lit [' ', 'h', 'o', 'u', 'r']]),
    (.seqs [.lit ['z', 'a', ' '], .grp 1 (.number), .lit [' ', 'd', 'a', 'n']], [.lit ['i', 'n', ' '], .ref 1, .lit [' ', 'd', 'a', 'y']]),
    (.seqs [.lit ['z', 'a', ' '], .grp 1 (.number), .lit [' ', 'g', 'o', 'd']], [.lit ['i', 'n', ' '], .ref 1, .lit [' ', 'y', 'e', 'a', 'r']]),
    (.seqs [.lit ['z', 'a', ' '], .grp 1 (.number), .lit [' ', 'm', 'i', 'n']], [.lit ['i', 'n', ' '], .ref 1, .lit [' ', 'm', 'i', 'n', 'u', 't', 'e']]),
    (.seqs [.lit ['z', 'a', ' '], .grp 1 (.number), .lit [' ', 's', 'a', 't']], [.lit ['i', 'n', ' '], .ref 1, .lit [' ', 'h', 'o', 'u', 'r']]),
    (.seqs [.lit ['z', 'a', ' '], .grp 1 (.number), .lit [' ', 's', 'e', 'd']], [.lit ['i', 'n', ' '], .ref 1, .lit [' ', 'w', 'e', 'e', 'k']]),
    (.seqs [.lit ['z', 'a', ' '], .grp 1 (.number), .lit [' ', 's', 'e', 'k']], [.lit ['i', 'n', ' '], .ref 1, .lit [' ', 's', 'e', 'c', 'o', 'n', 'd']]),
    (.seqs [.lit ['z', 'a', ' '], .grp 1 (.number), .lit [' ', 'm', 'j']], [.lit ['i', 'n', ' '], .ref 1, .lit [' ', 'm', 'o', 'n', 't', 'h']]),
    (.seqs [.lit ['z', 'a', ' '], .grp 1 (.number), .lit [' ', 'd']], [.lit ['i', 'n', ' '], .ref 1, .lit [' ', 'd', 'a', 'y']]),
    (.seqs [.lit ['z', 'a', ' '], .grp 1 (.number), .lit [' ', 'g']], [.lit ['i', 'n', ' '], .ref 1, .lit [' ', 'y', 'e', 'a', 'r']])],
  rxCombined := some (.seqs [.grp 1 (.alts [.bos, .cls true [.letter, .mark, .digit], .lit ['_']]), .grp 2 (.alts [.seqs [.lit ['p', 'r', 'i', 'j', 'e', ' '], .number, .lit [' ', 'm', 'j', 'e', 's', 'e', 'c', 'i']], .seqs [.lit ['p', 'r', 'i', 'j', 'e', ' '], .number, .lit [' ', 's', 'e', 'd', 'm', 'i', 'c', 'a']], .seqs [.lit ['p', 'r', 'i', 'j', 'e', ' '], .number, .lit [' ', 's', 'e', 'd', 'm', 'i', 'c', 'u']], .seqs [.lit ['p', 'r', 'i', 'j', 'e', ' '], .number, .lit [' ', 's', 'e', 'k', 'u', 'n', 'd', 'i']], .seqs [.lit ['p', 'r', 'i', 'j', 'e', ' '], .number, .lit [' ', 's', 'e', 'k', 'u', 'n', 'd', 'u']], .seqs [.lit ['p', 'r', 'i', 'j', 'e', ' '], .number, .lit [' ', 'g', 'o', 'd', 'i', 'n', 'a']], .seqs [.lit ['p', 'r', 'i', 'j', 'e', ' '], .number, .lit [' ', 'g', 'o', 'd', 'i', 'n', 'u']], .seqs [.lit ['p', 'r', 'i', 'j', 'e', ' '], .number, .lit [' ', 'm', 'i', 'n', 'u', 't', 'a']], .seqs [.lit ['p', 'r', 'i', 'j', 'e', ' '], .number, .lit [' ', 'm', 'i', 'n', 'u', 't', 'u']], .seqs [.lit ['p', 'r', 'i', 'j', 'e', ' '], .number, .lit [' ', 'm', 'j', 'e', 's', 'e', 'c']], .seqs [.lit ['p', 'r', 'i', 'j', 'e', ' '], .number, .lit [' ', 'd', 'a', 'n', 'a']], .seqs [.lit ['p', 'r', 'i', 'j', 'e', ' '], .number, .lit [' ', 's', 'a', 't', 'i']], .seqs [.lit ['z', 'a', ' '], .number, .lit [' ', 'm', 'j', 'e', 's', 'e', 'c', 'i']], .seqs [.lit ['z', 'a', ' '], .number, .lit [' ', 's', 'e', 'd', 'm', 'i', 'c', 'a']], .seqs [.lit ['z', 'a', ' '], .number, .lit [' ', 's', 'e', 'd', 'm', 'i', 'c', 'u']], .seqs [.lit ['z', 'a', ' '], .number, .lit [' ', 's', 'e', 'k', 'u', 'n', 'd', 'i']], .seqs [.lit ['z', 'a', ' '], .number, .lit [' ', 's', 'e', 'k', 'u', 'n', 'd', 'u']], .seqs [.lit ['p', 'r', 'i', 'j', 'e', ' '], .number, .lit [' ', 'd', 'a', 'n']], .seqs [.lit ['p', 'r', 'i', 'j', 'e', ' '], .number, .lit [' ', 'g', 'o', 'd']], .seqs [.lit ['p', 'r', 'i', 'j', 'e', ' '], .number, .lit [' ', 'm', 'i', 'n']], .seqs [.lit ['p', 'r', 'i', 'j', 'e', ' '], .number, .lit [' ', 's', 'a', 't']], .seqs [.lit ['p', 'r', 'i', 'j', 'e', ' '], .number, .lit [' ', 's', 'e', 'd']], .seqs [.lit ['p', 'r', 'i', 'j', 'e', ' '], .number, .lit [' ', 's', 'e', 'k']], .seqs [.lit ['z', 'a', ' '], .number, .lit [' ', 'g', 'o', 'd', 'i', 'n', 'a']], .seqs [.lit ['z', 'a', ' '], .number, .lit [' ', 'g', 'o', 'd', 'i', 'n', 'u']], .seqs [.lit ['z', 'a', ' '], .number, .lit [' ', 'm', 'i', 'n', 'u', 't', 'a']], .seqs [.lit ['z', 'a', ' '], .number, .lit [' ', 'm', 'i', 'n', 'u', 't', 'u']], .seqs [.lit ['z', 'a', ' '], .number, .lit [' ', 'm', 'j', 'e', 's', 'e', 'c']], .seqs [.lit ['p', 'r', 'i', 'j', 'e', ' '], .number, .lit [' ', 'm', 'j']], .seqs [.lit ['p', 'r', 'i', 'j', 'e', ' '], .number, .lit [' ', 'd']], .seqs [.lit ['p', 'r', 'i', 'j', 'e', ' '], .number, .lit [' ', 'g']], .seqs [.lit ['z', 'a', ' '], .number, .lit [' ', 'd', 'a', 'n', 'a']], .seqs [.lit ['z', 'a', ' '], .number, .lit [' ', 's', 'a', 't', 'i']], .seqs [.lit ['z', 'a', ' '], .number, .lit [' ', 'd', 'a', 'n']], .seqs [.lit ['z', 'a', ' '], .number, .lit [' ', 'g', 'o', 'd']], .seqs [.lit ['z', 'a', ' '], .number, .lit [' ', 'm', 'i', 'n']], .seqs [.lit ['z', 'a', ' '], .number, .lit [' ', 's', 'a', 't']], .seqs [.lit ['z', 'a', ' '], .number, .lit [' ', 's', 'e', 'd']], .seqs [.lit ['z', 'a', ' '], .number, .lit [' ', 's', 'e', 'k']], .seqs [.lit ['z', 'a', ' '], .number, .lit [' ', 'm', 'j']], .seqs [.lit ['z', 'a', ' '], .number, .lit [' ', 'd']], .seqs [.lit ['z', 'a', ' '], .number, .lit [' ', 'g']]]), .grp 3 (.alts [.eos, .cls true [.letter, .mark, .digit], .lit ['_']])], 3),
  rxExact := some (.seqs [.bos, .grp 1 (.alts [.seqs [.lit ['p', 'r', 'i', 'j', 'e', ' '], .number, .lit [' ', 'm', 'j', 'e', 's', 'e', 'c', 'i']], .seqs [.lit ['p', 'r', 'i', 'j', 'e', ' '], .number, .lit [' ', 's', 'e', 'd', 'm', 'i', 'c', 'a']], .seqs [.lit ['p', 'r', 'i', 'j', 'e', ' '], .number, .lit [' ', 's', 'e', 'd', 'm', 'i', 'c', 'u']], .seqs [.lit ['p', 'r', 'i', 'j', 'e', ' '], .number, .lit [' ', 's', 'e', 'k', 'u', 'n', 'd', 'i']], .seqs [.lit ['p', 'r', 'i', 'j', 'e', ' '], .number, .lit [' ', 's', 'e', 'k', 'u', 'n', 'd', 'u']], .seqs [.lit ['p', 'r', 'i', 'j', 'e', ' '], .number, .lit [' ', 'g', 'o', 'd', 'i', 'n', 'a']], .seqs [.lit ['p', 'r', 'i', 'j', 'e', ' '], .number, .lit [' ', 'g', 'o', 'd', 'i', 'n', 'u']], .seqs [.lit ['p', 'r', 'i', 'j', 'e', ' '], .number, .lit [' ', 'm', 'i', 'n', 'u', 't', 'a']], .seqs [.lit ['p', 'r', 'i', 'j', 'e', ' '], .number, .lit [' ', 'm', 'i', 'n', 'u', 't', 'u']], .seqs [.lit ['p', 'r', 'i', 'j', 'e', ' '], .number, .lit [' ', 'm', 'j', 'e', 's', 'e', 'c']], .seqs [.lit ['p', 'r', 'i', 'j', 'e', ' '], .number, .lit [' ', 'd', 'a', 'n', 'a']], .seqs [.lit ['p', 'r', 'i', 'j', 'e', ' '], .number, .lit [' ', 's', 'a', 't', 'i']], .seqs [.lit ['z', 'a', ' '], .number, .lit [' ', 'm', 'j', 'e', 's', 'e', 'c', 'i']], .seqs [.lit ['z', 'a', ' '], .number, .lit [' ', 's', 'e', 'd', 'm', 'i', 'c', 'a']], .seqs [.lit ['z', 'a', ' '], .number, .lit [' ', 's', 'e', 'd', 'm', 'i', 'c', 'u']], .seqs [.lit ['z', 'a', ' '], .number, .lit [' ', 's', 'e', 'k', 'u', 'n', 'd', 'i']], .seqs [.lit ['z', 'a', ' '], .number, .lit [' ', 's', 'e', 'k', 'u', 'n', 'd', 'u']], .seqs [.lit ['p', 'r', 'i', 'j', 'e', ' '], .number, .lit [' ', 'd', 'a', 'n']], .seqs [.lit ['p', 'r', 'i', 'j', 'e', ' '], .number, .lit [' ', 'g', 'o', 'd']], .seqs [.lit ['p', 'r', 'i', 'j', 'e', ' '], .number, .lit [' ', 'm', 'i', 'n']], .seqs [.lit ['p', 'r', 'i', 'j', 'e', ' '], .number, .lit [' ', 's', 'a', 't']], .seqs [.lit ['p', 'r', 'i', 'j', 'e', ' '], .number, .lit [' ', 's', 'e', 'd']], .seqs [.lit ['p', 'r', 'i', 'j', 'e', ' '], .number, .lit [' ', 's', 'e', 'k']], .seqs [.lit ['z', 'a', ' '], .number, .lit [' ', 'g', 'o', 'd', 'i', 'n', 'a']], .seqs [.lit ['z', 'a', ' '], .number, .lit [' ', 'g', 'o', 'd', 'i', 'n', 'u']], .seqs [.lit ['z', 'a', ' '], .number, .lit [' ', 'm', 'i', 'n', 'u', 't', 'a']], .seqs [.lit ['z', 'a', ' '], .number, .lit [' ', 'm', 'i', 'n', 'u', 't', 'u']], .seqs [.lit ['z', 'a', ' '], .number, .lit [' ', 'm', 'j', 'e', 's', 'e', 'c']], .seqs [.lit ['p', 'r', 'i', 'j', 'e', ' '], .number, .lit [' ', 'm', 'j']], .seqs [.lit ['p', 'r', 'i', 'j', 'e', ' '], .number, .lit [' ', 'd']], .seqs [.lit ['p', 'r', 'i', 'j', 'e', ' '], .number, .lit [' ', 'g']], .seqs [.lit ['z', 'a', ' '], .number, .lit [' ', 'd', 'a', 'n', 'a']], .seqs [.lit ['z', 'a', ' '], .number, .lit [' ', 's', 'a', 't', 'i']], .seqs [.lit ['z', 'a', ' '], .number, .lit [' ', 'd', 'a', 'n']], .seqs [.lit ['z', 'a', ' '], .number, .lit [' ', 'g', 'o', 'd']], .seqs [.lit ['z', 'a', ' '], .number, .lit [' ', 'm', 'i', 'n']], .seqs [.lit ['z', 'a', ' '], .number, .lit [' ', 's', 'a', 't']], .seqs [.lit ['z', 'a', ' '], .number, .lit [' ', 's', 'e', 'd']], .seqs [.lit ['z', 'a', ' '], .number, .lit [' ', 's', 'e', 'k']], .seqs [.lit ['z', 'a', ' '], .number, .lit [' ', 'm', 'j']], .seqs [.lit ['z', 'a', ' '], .number, .lit [' ', 'd']], .seqs [.lit ['z', 'a', ' '], .number, .lit [' ', 'g']]]), .eos]),
  knownWords :=
   [['s', 'l', 'j', 'e', 'd', 'e', 'c', 'e', ' ', 's', 'e', 'd', 'm', 'i', 'c', 'e'], ['s', 'l', 'j', 'e', 'd', 'e', 'c', 'e', ' ', 'g', 'o', 'd', 'i', 'n', 'e'], ['s', 'l', 'j', 'e', 'd', 'e', 'c', 'i', ' ', 'm', 'j', 'e', 's', 'e', 'c'], ['p', 'r', 'o', 's', 'l', 'e', ' ', 's', 'e', 'd', 'm', 'i', 'c', 'e'], ['p', 'r', 'o', 's', 'l', 'e', ' ', 'g', 'o', 'd', 'i', 'n', 'e'], ['p', 'r', 'o', 's', 'l', 'i', ' ', 'm', 'j', 'e', 's', 'e', 'c'], ['o', 'v', 'a', 'j', ' ', 'm', 'j', 'e', 's', 'e', 'c'], ['o', 'v', 'e', ' ', 's', 'e', 'd', 'm', 'i', 'c', 'e'], ['p', 'o', 'n', 'e', 'd', 'j', 'e', 'l', 'j', 'a', 'k'], ['o', 'v', 'a', ' ', 'm', 'i', 'n', 'u', 't', 'a'], ['o', 'v', 'e', ' ', 'g', 'o', 'd', 'i', 'n', 'e'], ['p', 'r', 'i', 'j', 'e', 'p', 'o', 'd', 'n', 'e'], ['s', 'e', 'p', 't', 'e', 'm', 'b', 'a', 'r'], ['c', 'e', 't', 'v', 'r', 't', 'a', 'k'], ['d', 'e', 'c', 'e', 'm', 'b', 'a', 'r'], ['n', 'e', 'd', 'j', 'e', 'l', 'j', 'a'], ['n', 'o', 'v', 'e', 'm', 'b', 'a', 'r'], ['o', 'v', 'a', 'j', ' ', 's', 'a', 't'], ['f', 'e', 'b', 'r', 'u', 'a', 'r'], ['o', 'k', 't', 'o', 'b', 'a', 'r'], ['p', 'o', 'p', 'o', 'd', 'n', 'e'], ['s', 'e', 'd', 'm', 'i', 'c', 'a'], ['s', 'e', 'k', 'u', 'n', 'd', 'a'], ['s', 'r', 'i', 'j', 'e', 'd', 'a'], ['a', 'v', 'g', 'u', 's', 't'], ['g', 'o', 'd', 'i', 'n', 'a'], ['j', 'a', 'n', 'u', 'a', 'r'], ['m', 'i', 'n', 'u', 't', 'a'], ['m', 'j', 'e', 's', 'e', 'c'], ['s', 'u', 'b', 'o', 't', 'a'], ['u', 't', 'o', 'r', 'a', 'k'], ['a', 'p', 'r', 'i', 'l'], ['d', 'a', 'n', 'a', 's'], ['j', 'u', 'c', 'e', 'r'], ['p', 'e', 't', 'a', 'k'], ['s', 'u', 't', 'r', 'a'], ['j', 'u', 'l', 'i'], ['j', 'u', 'n', 'i'], ['m', 'a', 'r', 't'], ['s', 'a', 'd', 'a'], ['a', 'p', 'r'], ['a', 'v', 'g'], ['c', 'e', 't'], ['d', 'a', 'n'], ['d', 'e', 'c'], ['f', 'e', 'b'], ['g', 'm', 't'], ['g', 'o', 'd'], ['j', 'a', 'n'], ['j', 'u', 'l'], ['j', 'u', 'n'], ['m', 'a', 'j'], ['m', 'a', 'r'], ['m', 'i', 'n'], ['n', 'e', 'd'], ['n', 'o', 'v'], ['o', 'k', 't'], ['p', 'e', 't'], ['p', 'o', 'n'], ['s', 'a', 't'], ['s', 'e', 'd'], ['s', 'e', 'k'], ['s', 'e', 'p'], ['s', 'r', 'i'], ['s', 'u', 'b'], ['u', 't', 'c'], ['u', 't', 'o'], ['a', 'm'], ['m', 'j'], ['p', 'm'], [' '], ['\''], ['+'], [','], ['-'], ['.'], ['/'], [':'], [';'], ['@'], ['['], [']'], ['g'], ['h'], ['s'], ['z'], ['|']] }

/-- internal/data/ca.go: `ca_Locale`. -/
def caLang : LangData := { caDict with
  simplifications :=
   [(.seqs [.grp 1 (.alts [.bos, .noWord]), .lit ['u', 'n', 'a'], .grp 2 (.alts [.eos, .noWord])], [.ref 1, .lit ['1'], .ref 2]),
    (.seqs [.grp 1 (.alts [.bos, .noWord]), .lit ['u', 'n'], .grp 2 (.alts [.eos, .noWord])], [.ref 1, .lit ['1'], .ref 2])],
  relativeRegexes :=
   [(.seqs [.lit ['d', '\'', 'a', 'q', 'u', 'i', ' ', 'a', ' '], .grp 1 (.number), .lit [' ', 's', 'e', 't', 'm', 'a', 'n', 'e', 's']], [.lit ['i', 'n', ' '], .ref 1, .lit [' ', 'w', 'e', 'e', 'k']]),
    (.seqs [.lit ['d', '\'', 'a', 'q', 'u', 'i', ' ', 'a', ' '], .grp 1 (.number), .lit [' ', 's', 'e', 't', 'm', 'a', 'n', 'a']], [.lit ['i', 'n', ' '], .ref 1, .lit [' ', 'w', 'e', 'e', 'k']]),
    (.seqs [.lit ['d', '\'', 'a', 'q', 'u', 'i', ' ', 'a', ' '], .grp 1 (.number), .lit [' ', 'm', 'i', 'n', 'u', 't', 's']], [.lit ['i', 'n', ' '], .ref 1, .lit [' ', 'm', 'i', 'n', 'u', 't', 'e']]),
    (.seqs [.lit ['d', '\'', 'a', 'q', 'u', 'i', ' ', 'a', ' '], .grp 1 (.number), .lit [' ', 's', 'e', 'g', 'o', 'n', 's']], [.lit ['i', 'n', ' '], .ref 1, .lit [' ', 's', 'e', 'c', 'o', 'n', 'd']]),
    (.seqs [.lit ['d', '\'', 'a', 'q', 'u', 'i', ' ', 'a', ' '], .grp 1 (.number), .lit [' ', 'h', 'o', 'r', 'e', 's']], [.lit ['i', 'n', ' '], .ref 1, .lit [' ', 'h', 'o', 'u', 'r']]),
    (.seqs [.lit ['d', '\'', 'a', 'q', 'u', 'i', ' ', 'a', ' '], .grp 1 (.number), .lit [' ', 'm', 'e', 's', 'o', 's']], [.lit ['i', 'n', ' '], .ref 1, .lit [' ', 'm', 'o', 'n', 't', 'h']]),
    (.seqs [.lit ['d', '\'', 'a', 'q', 'u', 'i', ' ', 'a', ' '], .grp 1 (.number), .lit [' ', 'm', 'i', 'n', 'u', 't']], [.lit ['i', 'n', ' '], .ref 1, .lit [' ', 'm', 'i', 'n', 'u', 't', 'e']]),
    (.seqs [.lit ['d', '\'', 'a', 'q', 'u', 'i', ' ', 'a', ' '], .grp 1 (.number), .lit [' ', 's', 'e', 'g', 'o', 'n']], [.lit ['i', 'n', ' '], .ref 1, .lit [' ', 's', 'e', 'c', 'o', 'n', 'd']]),
    (.seqs [.lit ['d', '\'', 'a', 'q', 'u', 'i', ' ', 'a', ' '], .grp 1 (.number), .lit [' ', 'a', 'n', 'y', 's']], [.lit ['i', 'n', ' '], .ref 1, .lit [' ', 'y', 'e', 'a', 'r']]),
    (.seqs [.lit ['d', '\'', 'a', 'q', 'u', 'i', ' ', 'a', ' '], .grp 1 (.number), .lit [' ', 'd', 'i', 'e', 's']], [.lit ['i', 'n', ' '], .ref 1, .lit [' ', 'd', 'a', 'y']]),
    (.seqs [.lit ['d', '\'', 'a', 'q', 'u', 'i', ' ', 'a', ' '], .grp 1 (.number), .lit [' ', 'h', 'o', 'r', 'a']], [.lit ['i', 'n', ' '], .ref 1, .lit [' ', 'h', 'o', 'u', 'r']]),
    (.seqs [.lit ['d', '\'', 'a', 'q', 'u', 'i', ' ', 'a', ' '], .grp 1 (.number), .lit [' ', 's', 'e', 't', 'm']], [.lit ['i', 'n', ' '], .ref 1, .lit [' ', 'w', 'e', 'e', 'k']]),
    (.seqs [.lit ['d', '\'', 'a', 'q', 'u', 'i', ' ', 'a', ' '], .grp 1 (.number), .lit [' ', 'a', 'n', 'y']], [.lit ['i', 'n', ' '], .ref 1, .lit [' ', 'y', 'e', 'a', 'r']]),
    (.seqs [.lit ['d', '\'', 'a', 'q', 'u', 'i', ' ', 'a', ' '], .grp 1 (.number), .lit [' ', 'd', 'i', 'a']], [.lit ['i', 'n', ' '], .ref 1, .lit [' ', 'd', 'a', 'y']]),
    (.seqs [.lit ['d', '\'', 'a', 'q', 'u', 'i', ' ', 'a', ' '], .grp 1 (.number), .lit [' ', 'm', 'e', 's']], [.lit ['i', 'n', ' '], .ref 1, .lit [' ', 'm', 'o', 'n', 't', 'h']]),
    (.seqs [.lit ['d', '\'', 'a', 'q', 'u', 'i', ' ', 'a', ' '], .grp 1 (.number), .lit [' ', 'm', 'i', 'n']], [.lit ['i', 'n', ' '], .ref 1, .lit [' ', 'm', 'i', 'n', 'u', 't', 'e']]),
    (.seqs [.lit ['f', 'a', ' '], .grp 1 (.number), .lit [' ', 's', 'e', 't', 'm', 'a', 'n', 'e', 's']], [.ref 1, .lit [' ', 'w', 'e', 'e', 'k', ' ', 'a', 'g', 'o']]),
    (.seqs [.lit ['d', '\'', 'a', 'q', 'u', 'i', ' ', 'a', ' '], .grp 1 (.number), .lit [' ', 'h']], [.lit ['i', 'n', ' '], .ref 1, .lit [' ', 'h', 'o', 'u', 'r']]),
    (.seqs [.lit ['d', '\'', 'a', 'q', 'u', 'i', ' ', 'a', ' '], .grp 1 (.number), .lit [' ', 's']], [.lit ['i', 'n', ' '], .ref 1, .lit [' ', 's', 'e', 'c', 'o', 'n', 'd']]),
    (.seqs [.lit ['d', '‘', 'a', 'q', 'u', 'i', ' ', 'a', ' '], .grp 1 (.number), .lit [' ', 'h']], [.lit ['i', 'n', ' '], .ref 1, .lit [' ', 'h', 'o', 'u', 'r']]),
    (.seqs [.lit ['f', 'a', ' '], .grp 1 (.number), .lit [' ', 's', 'e', 't', 'm', 'a', 'n', 'a']], [.ref 1, .lit [' ', 'w', 'e', 'e', 'k', ' ', 'a', 'g', 'o']]),
    (.seqs [.lit ['f', 'a', ' '], .grp 1 (.number), .lit [' ', 'm', 'i', 'n', 'u', 't', 's']], [.ref 1, .lit [' ', 'm', 'i', 'n', 'u', 't', 'e', ' ', 'a', 'g', 'o']]),
    (.seqs [.lit ['f', 'a', ' '], .grp 1 (.number), .lit [' ', 's', 'e', 'g', 'o', 'n', 's']], [.ref 1, .lit [' ', 's', 'e', 'c', 'o', 'n', 'd', ' ', 'a', 'g', 'o']]),
    (.seqs [.lit ['f', 'a', ' '], .grp 1 (.number), .lit [' ', 'h', 'o', 'r', 'e', 's']], [.ref 1, .lit [' ', 'h', 'o', 'u', 'r', ' ', 'a', 'g', 'o']]),
    (.seqs [.lit ['f', 'a', ' '], .grp 1 (.number), .lit [' ', 'm', 'e', 's', 'o', 's']], [.ref 1, .lit [' ', 'm', 'o', 'n', 't', 'h', ' ', 'a', 'g', 'o']]),
    (.seqs [.lit ['f', 'a', ' '], .grp 1 (.number), .lit [' ', 'm', 'i', 'n', 'u', 't']], [.ref 1, .lit [' ', 'm', 'i', 'n', 'u', 't', 'e', ' ', 'a', 'g', 'o']]),
    (.seqs [.lit ['f', 'a', ' '], .grp 1 (.number), .lit [' ', 's', 'e', 'g', 'o', 'n']], [.ref 1, .lit [' ', 's', 'e', 'c', 'o', 'n', 'd', ' ', 'a', 'g', 'o']]),
    (.seqs [.lit ['f', 'a', ' '], .grp 1 (.number), .lit [' ', 'a', 'n', 'y', 's']], [.ref 1, .lit [' ', 'y', 'e', 'a', 'r', ' ', 'a', 'g', 'o']]),
    (.seqs [.lit ['f', 'a', ' '], .grp 1 (.number), .lit [' ', 'd', 'i', 'e', 's']], [.ref 1, .lit [' ', 'd', 'a', 'y', ' ', 'a', 'g', 'o']]),
    (.seqs [.lit ['f', 'a', ' '], .grp 1 (.number), .lit [' ', 'h', 'o', 'r', 'a']], [.ref 1, .lit [' ', 'h', 'o', 'u', 'r', ' ', 'a', 'g', 'o']]),
    (.seqs [.lit ['f', 'a', ' '], .grp 1 (.number), .lit [' ', 's', 'e', 't', 'm']], [.ref 1, .lit [' ', 'w', 'e', 'e', 'k', ' ', 'a', 'g', 'o']]),
    (.seqs [.lit ['f', 'a', ' '], .grp 1 (.number), .lit [' ', 'a', 'n', 'y']], [.ref 1, .lit [' ', 'y', 'e', 'a', 'r', ' ', 'a', 'g', 'o']]),
    (.seqs [.lit ['f', 'a', ' '], .grp 1 (.number), .lit [' ', 'd', 'i', 'a']], [.ref 1, .lit [' ', 'd', 'a', 'y', ' ', 'a', 'g', 'o']]),
    (.seqs [.lit ['f', 'a', ' '], .grp 1 (.number), .lit [' ', 'm', 'e', 's']], [.ref 1, .lit [' ', 'm', 'o', 'n', 't', 'h', ' ', 'a', 'g', 'o']]),
    (.seqs [.lit ['f', 'a', ' '], .grp 1 (.number), .lit [' ', 'm', 'i', 'n']], [.ref 1, .lit [' ', 'm', 'i', 'n', 'u', 't', 'e', ' ', 'a', 'g', 'o']]),
    (.seqs [.lit ['f', 'a', ' '], .grp 1 (.number), .lit [' ', 'h']], [.ref 1, .lit [' ', 'h', 'o', 'u', 'r', ' ', 'a', 'g', 'o']]),
    (.seqs [.lit ['f', 'a', ' '], .grp 1 (.number), .lit [' ', 's']], [.ref 1, .lit [' ', 's', 'e', 'c', 'o', 'n', 'd', ' ', 'a', 'g', 'o']])],
  rxCombined := some (.seqs [.grp 1 (.alts [.bos, .cls true [.letter, .mark, .digit], .lit ['_']]), .grp 2 (.alts [.seqs [.lit ['d', '\'', 'a', 'q', 'u', 'i', ' ', 'a', ' '], .number, .lit [' ', 's', 'e', 't', 'm', 'a', 'n', 'e', 's']], .seqs [.lit ['d', '\'', 'a', 'q', 'u', 'i', ' ', 'a', ' '], .number, .lit [' ', 's', 'e', 't', 'm', 'a', 'n', 'a']], .seqs [.lit ['d', '\'', 'a', 'q', 'u', 'i', ' ', 'a', ' '], .number, .lit [' ', 'm', 'i', 'n', 'u', 't', 's']], .seqs [.lit ['d', '\'', 'a', 'q', 'u', 'i', ' ', 'a', ' '], .number, .lit [' ', 's', 'e', 'g', 'o', 'n', 's']], .seqs [.lit ['d', '\'', 'a', 'q', 'u', 'i', ' ', 'a', ' '], .number, .lit [' ', 'h', 'o', 'r', 'e', 's']], .seqs [.lit ['d', '\'', 'a', 'q', 'u', 'i', ' ', 'a', ' '], .number, .lit [' ', 'm', 'e', 's', 'o', 's']], .seqs [.lit ['d', '\'', 'a', 'q', 'u', 'i', ' ', 'a', ' '], .number, .lit [' ', 'm', 'i', 'n', 'u', 't']], .seqs [.lit ['d', '\'', 'a', 'q', 'u', 'i', ' ', 'a', ' '], .number, .lit [' ', 's', 'e', 'g', 'o', 'n']], .seqs [.lit ['d', '\'', 'a', 'q', 'u', 'i', ' ', 'a', ' '], .number, .lit [' ', 'a', 'n', 'y', 's']], .seqs [.lit ['d', '\'', 'a', 'q', 'u', 'i', ' ', 'a', ' '], .number, .lit [' ', 'd', 'i', 'e', 's']], .seqs [.lit ['d', '\'', 'a', 'q', 'u', 'i', ' ', 'a', ' '], .number, .lit [' ', 'h', 'o', 'r', 'a']], .seqs [.lit ['d', '\'', 'a', 'q', 'u', 'i', ' ', 'a', ' '], .number, .lit [' ', 's', 'e', 't', 'm']], .seqs [.lit ['d', '\'', 'a', 'q', 'u', 'i', ' ', 'a', ' '], .number, .lit [' ', 'a', 'n', 'y']], .seqs [.lit ['d', '\'', 'a', 'q', 'u', 'i', ' ', 'a', ' '], .number, .lit [' ', 'd', 'i', 'a']], .seqs [.lit ['d', '\'', 'a', 'q', 'u', 'i', ' ', 'a', ' '], .number, .lit [' ', 'm', 'e', 's']], .seqs [.lit ['d', '\'', 'a', 'q', 'u', 'i', ' ', 'a', ' '], .number, .lit [' ', 'm', 'i', 'n']], .seqs [.lit ['f', 'a', ' '], .number, .lit [' ', 's', 'e', 't', 'm', 'a', 'n', 'e', 's']], .seqs [.lit ['d', '\'', 'a', 'q', 'u', 'i', ' ', 'a', ' '], .number, .lit [' ', 'h']], .seqs [.lit ['d', '\'', 'a', 'q', 'u', 'i', ' ', 'a', ' '], .number, .lit [' ', 's']], .seqs [.lit ['d', '‘', 'a', 'q', 'u', 'i', ' ', 'a', ' '], .number, .lit [' ', 'h']], .seqs [.lit ['f', 'a', ' '], .number, .lit [' ', 's', 'e', 't', 'm', 'a', 'n', 'a']], .seqs [.lit ['f', 'a', ' '], .number, .lit [' ', 'm', 'i', 'n', 'u', 't', 's']], .seqs [.lit ['f', 'a', ' '], .number, .lit [' ', 's', 'e', 'g', 'o', 'n', 's']], .seqs [.lit ['f', 'a', ' '], .number, .lit [' ', 'h', 'o', 'r', 'e', 's']], .seqs [.lit ['f', 'a', ' '], .number, .lit [' ', 'm', 'e', 's', 'o', 's']], .seqs [.lit ['f', 'a', ' '], .number, .lit [' ', 'm', 'i', 'n', 'u', 't']], .seqs [.lit ['f', 'a', ' '], .number, .lit [' ', 's', 'e', 'g', 'o', 'n']], .seqs [.lit ['f', 'a', ' '], .number, .lit [' ', 'a', 'n', 'y', 's']], .seqs [.lit ['f', 'a', ' '], .number, .lit [' ', 'd', 'i', 'e', 's']], .seqs [.lit ['f', 'a', ' '], .number, .lit [' ', 'h', 'o', 'r', 'a']], .seqs [.lit ['f', 'a', ' '], .number, .lit [' ', 's', 'e', 't', 'm']], .seqs [.lit ['f', 'a', ' '], .number, .lit [' ', 'a', 'n', 'y']], .seqs [.lit ['f', 'a', ' '], .number, .lit [' ', 'd', 'i', 'a']], .seqs [.lit ['f', 'a', ' '], .number, .lit [' ', 'm', 'e', 's']], .seqs [.lit ['f', 'a', ' '], .number, .lit [' ', 'm', 'i', 'n']], .seqs [.lit ['f', 'a', ' '], .number, .lit [' ', 'h']], .seqs [.lit ['f', 'a', ' '], .number, .lit [' ', 's']]]), .grp 3 (.alts [.eos, .cls true [.letter, .mark, .digit], .lit ['_']])], 3),
  rxExact := some (.seqs [.bos, .grp 1 (.alts [.seqs [.lit ['d', '\'', 'a', 'q', 'u', 'i', ' ', 'a', ' '], .number, .lit [' ', 's', 'e', 't', 'm', 'a', 'n', 'e', 's']], .seqs [.lit ['d', '\'', 'a', 'q', 'u', 'i', ' ', 'a', ' '], .number, .lit [' ', 's', 'e', 't', 'm', 'a', 'n', 'a']], .seqs [.lit ['d', '\'', 'a', 'q', 'u', 'i', ' ', 'a', ' '], .number, .lit [' ', 'm', 'i', 'n', 'u', 't', 's']], .seqs [.lit ['d', '\'', 'a', 'q', 'u', 'i', ' ', 'a', ' '], .number, .lit [' ', 's', 'e', 'g', 'o', 'n', 's']], .seqs [.lit ['d', '\'', 'a', 'q', 'u', 'i', ' ', 'a', ' '], .number, .lit [' ', 'h', 'o', 'r', 'e', 's']], .seqs [.lit ['d', '\'', 'a', 'q', 'u', 'i', ' ', 'a', ' '], .number, .lit [' ', 'm', 'e', 's', 'o', 's']], .seqs [.lit ['d', '\'', 'a', 'q', 'u', 'i', ' ', 'a', ' '], .number, .lit [' ', 'm', 'i', 'n', 'u', 't']], .seqs [.lit ['d', '\'', 'a', 'q', 'u', 'i', ' ', 'a', ' '], .number, .lit [' ', 's', 'e', 'g', 'o', 'n']], .seqs [.lit ['d', '\'', 'a', 'q', 'u', 'i', ' ', 'a', ' '], .number, .lit [' ', 'a', 'n', 'y', 's']], .seqs [.lit ['d', '\'', 'a', 'q', 'u', 'i', ' ', 'a', ' '], .number, .lit [' ', 'd', 'i', 'e', 's']], .seqs [.lit ['d', '\'', 'a', 'q', 'u', 'i', ' ', 'a', ' '], .number, .lit [' ', 'h', 'o', 'r', 'a']], .seqs [.lit ['d', '\'', 'a', 'q', 'u', 'i', ' ', 'a', ' '], .number, .lit [' ', 's', 'e', 't', 'm']], .seqs [.lit ['d', '\'', 'a', 'q', 'u', 'i', ' ', 'a', ' '], .number, .lit [' ', 'a', 'n', 'y']], .seqs [.lit ['d', '\'', 'a', 'q', 'u', 'i', ' ', 'a', ' '], .number, .lit [' ', 'd', 'i', 'a']], .seqs [.lit ['d', '\'', 'a', 'q', 'u', 'i', ' ', 'a', ' '], .number, .lit [' ', 'm', 'e', 's']], .seqs [.lit ['d', '\'', 'a', 'q', 'u', 'i', ' ', 'a', ' '], .number, .lit [' ', 'm', 'i', 'n']], .seqs [.lit ['f', 'a', ' '], .number, .lit [' ', 's', 'e', 't', 'm', 'a', 'n', 'e', 's']], .seqs [.lit ['d', '\'', 'a', 'q', 'u', 'i', ' ', 'a', ' '], .number, .lit [' ', 'h']], .seqs [.lit ['d', '\'', 'a', 'q', 'u', 'i', ' ', 'a', ' '], .number, .lit [' ', 's']], .seqs [.lit ['d', '‘', 'a', 'q', 'u', 'i', ' ', 'a', ' '], .number, .lit [' ', 'h']], .seqs [.lit ['f', 'a', ' '], .number, .lit [' ', 's', 'e', 't', 'm', 'a', 'n', 'a']], .seqs [.lit ['f', 'a', ' '], .number, .lit [' ', 'm', 'i', 'n', 'u', 't', 's']], .seqs [.lit ['f', 'a', ' '], .number, .lit [' ', 's', 'e', 'g', 'o', 'n', 's']], .seqs [.lit ['f', 'a', ' '], .number, .lit [' ', 'h', 'o', 'r', 'e', 's']], .seqs [.lit ['f', 'a', ' '], .number, .lit [' ', 'm', 'e', 's', 'o', 's']], .seqs [.lit ['f', 'a', ' '], .number, .lit [' ', 'm', 'i', 'n', 'u', 't']], .seqs [.lit ['f', 'a', ' '], .number, .lit [' ', 's', 'e', 'g', 'o', 'n']], .seqs [.lit ['f', 'a', ' '], .number, .lit [' ', 'a', 'n', 'y', 's']], .seqs [.lit ['f', 'a', ' '], .number, .lit [' ', 'd', 'i', 'e', 's']], .seqs [.lit ['f', 'a', ' '], .number, .lit [' ', 'h', 'o', 'r', 'a']], .seqs [.lit ['f', 'a', ' '], .number, .lit [' ', 's', 'e', 't', 'm']], .seqs [.lit ['f', 'a', ' '], .number, .lit [' ', 'a', 'n', 'y']], .seqs [.lit ['f', 'a', ' '], .number, .lit [' ', 'd', 'i', 'a']], .seqs [.lit ['f', 'a', ' '], .number, .lit [' ', 'm', 'e', 's']], .seqs [.lit ['f', 'a', ' '], .number, .lit [' ', 'm', 'i', 'n']], .seqs [.lit ['f', 'a', ' '], .number, .lit [' ', 'h']], .seqs [.lit ['f', 'a', ' '], .number, .lit [' ', 's']]]), .eos]),
  knownWords :=
   [['l', 'a', ' ', 'p', 'r', 'o', 'p', 'e', 'r', 'a', ' ', 's', 'e', 't', 'm', 'a', 'n', 'a'], ['l', 'a', ' ', 'p', 'r', 'o', 'x', 'i', 'm', 'a', ' ', 's', 'e', 't', 'm', 'a', 'n', 'a'], ['l', 'a', ' ', 's', 'e', 't', 'm', 'a', 'n', 'a', ' ', 'p', 'a', 's', 's', 'a', 'd', 'a'], ['l', 'a', ' ', 's', 'e', 't', 'm', 'a', 'n', 'a', ' ', 'q', 'u', 'e', ' ', 'v', 'e'], ['l', 'a', ' ', 's', 'e', 't', 'm', 'a', 'n', 'a', ' ', 'v', 'i', 'n', 'e', 'n', 't'], ['a', 'q', 'u', 'e', 's', 't', 'a', ' ', 's', 'e', 't', 'm', 'a', 'n', 'a'], ['l', 'a', ' ', 's', 'e', 't', 'm', ' ', 'p', 'a', 's', 's', 'a', 'd', 'a'], ['l', 'a', ' ', 's', 'e', 't', 'm', ' ', 'q', 'u', 'e', ' ', 'v', 'e'], ['e', 'l', ' ', 'm', 'e', 's', ' ', 'p', 'a', 's', 's', 'a', 't'], ['e', 'l', ' ', 'm', 'e', 's', ' ', 'q', 'u', 'e', ' ', 'v', 'e'], ['e', 'n', 'd', 'e', 'm', 'a', ' ', 'p', 'a', 's', 's', 'a', 't'], ['a', 'b', 'a', 'n', 's', '-', 'd', '’', 'a', 'h', 'i', 'r'], ['a', 'q', 'u', 'e', 's', 't', ' ', 'm', 'i', 'n', 'u', 't'], ['a', 'q', 'u', 'e', 's', 't', 'a', ' ', 'h', 'o', 'r', 'a'], ['a', 'q', 'u', 'e', 's', 't', 'a', ' ', 's', 'e', 't', 'm'], ['l', '\'', 'a', 'n', 'y', ' ', 'p', 'a', 's', 's', 'a', 't'], ['l', '\'', 'a', 'n', 'y', ' ', 'q', 'u', 'e', ' ', 'v', 'e'], ['s', 'e', 't', 'm', ' ', 'p', 'a', 's', 's', 'a', 'd', 'a'], ['d', 'e', ' ', 'd', 'e', 's', 'e', 'm', 'b', 'r', 'e'], ['d', 'e', ' ', 'n', 'o', 'v', 'e', 'm', 'b', 'r', 'e'], ['d', 'e', ' ', 's', 'e', 't', 'e', 'm', 'b', 'r', 'e'], ['d', 'e', 'm', 'a', ' ', 'p', 'a', 's', 's', 'a', 't'], ['d', 'e', 's', 'p', 'u', 's', '-', 'a', 'h', 'i', 'r'], ['d', 'e', 's', 'p', 'u', 's', '-', 'd', 'e', 'm', 'a'], ['p', 'a', 's', 's', 'a', 't', ' ', 'd', 'e', 'm', 'a'], ['s', 'e', 't', 'm', ' ', 'v', 'i', 'n', 'e', 'n', 't'], ['a', 'q', 'u', 'e', 's', 't', ' ', 'm', 'e', 's'], ['d', 'e', 'l', 'l', 'a', '-', 'a', 'h', 'i', 'r'], ['m', 'e', 's', ' ', 'p', 'a', 's', 's', 'a', 't'], ['m', 'e', 's', ' ', 'v', 'i', 'n', 'e', 'n', 't'], ['d', '\'', 'o', 'c', 't', 'u', 'b', 'r', 'e'], ['d', 'e', ' ', 'f', 'e', 'b', 'r', 'e', 'r'], ['d', 'e', ' ', 'j', 'u', 'l', 'i', 'o', 'l'], ['d', 'i', 'v', 'e', 'n', 'd', 'r', 'e', 's'], ['d', 'e', ' ', 'g', 'e', 'n', 'e', 'r'], ['d', 'e', 's', 'e', 'm', 'b', 'r', 'e'], ['d', 'i', 'm', 'e', 'c', 'r', 'e', 's'], ['d', 'i', 's', 's', 'a', 'b', 't', 'e'], ['d', 'i', 'u', 'm', 'e', 'n', 'g', 'e'], ['n', 'o', 'v', 'e', 'm', 'b', 'r', 'e'], ['s', 'e', 't', 'e', 'm', 'b', 'r', 'e'], ['d', '\'', 'a', 'b', 'r', 'i', 'l'], ['d', '\'', 'a', 'g', 'o', 's', 't'], ['d', 'e', ' ', 'f', 'e', 'b', 'r'], ['d', 'e', ' ', 'j', 'u', 'n', 'y'], ['d', 'e', ' ', 'm', 'a', 'i', 'g'], ['d', 'e', ' ', 'm', 'a', 'r', 'c'], ['d', 'i', 'l', 'l', 'u', 'n', 's'], ['d', 'i', 'm', 'a', 'r', 't', 's'], ['e', 'n', 'g', 'u', 'a', 'n', 'y'], ['o', 'c', 't', 'u', 'b', 'r', 'e'], ['s', 'e', 'n', 'd', 'e', 'm', 'a'], ['s', 'e', 't', 'm', 'a', 'n', 'a'], ['d', 'e', ' ', 'd', 'e', 's'], ['d', 'e', ' ', 'g', 'e', 'n'], ['d', 'e', ' ', 'j', 'u', 'l'], ['d', 'e', ' ', 'n', 'o', 'v'], ['d', 'e', ' ', 's', 'e', 't'], ['d', 'i', 'j', 'o', 'u', 's'], ['e', 'n', 'd', 'e', 'm', 'a'], ['f', 'e', 'b', 'r', 'e', 'r'], ['j', 'u', 'l', 'i', 'o', 'l'], ['a', 'b', 'r', 'i', 'l'], ['a', 'g', 'o', 's', 't'], ['d', '\'', 'a', 'b', 'r'], ['d', '\'', 'o', 'c', 't'], ['g', 'e', 'n', 'e', 'r'], ['m', 'i', 'n', 'u', 't'], ['s', 'e', 'g', 'o', 'n'], ['a', 'h', 'i', 'r'], ['a', 'v', 'u', 'i'], ['d', '\'', 'a', 'g'], ['d', 'e', 'm', 'a'], ['f', 'e', 'b', 'r'], ['h', 'o', 'r', 'a'], ['j', 'u', 'n', 'y'], ['m', 'a', 'i', 'g'], ['m', 'a', 'r', 'c'], ['s', 'e', 't', 'm'], ['a', 'b', 'r'], ['a', 'n', 'y'], ['a', 'r', 'a'], ['d', 'e', 'l'], ['d', 'e', 's'], ['d', 'i', 'a'], ['g', 'e', 'n'], ['g', 'm', 't'], ['h', 'u', 'i'], ['j', 'u', 'l'], ['m', 'e', 's'], ['m', 'i', 'n'], ['n', 'o', 'v'], ['o', 'c', 't'], ['s', 'e', 't'], ['u', 't', 'c'], ['a', 'g'], ['a', 'm'], ['d', 'c'], ['d', 'e'], ['d', 'g'], ['d', 'j'], ['d', 'l'], ['d', 's'], ['d', 't'], ['d', 'v'], ['e', 'n'], ['l', '\''], ['p', 'm'], [' '], ['\''], ['+'], [','], ['-'], ['.'], ['/'], [':'], [';'], ['@'], ['['], [']'], ['h'], ['i'], ['s'], ['z'], ['|']] }

/-- internal/data/ca.go: `ca_AD_Locale`. -/
def ca_ADLang : LangData := ca_ADDict

/-- internal/data/ca.go: `ca_FR_Locale`. -/
def ca_FRLang : LangData := ca_FRDict

/-- internal/data/ca.go: `ca_IT_Locale`. -/
def ca_ITLang : LangData := ca_ITDict

/-- internal/data/ce.go: `ce_Locale`. -/
def ceLang : LangData := { ceDict with
  relativeRegexes :=
   [(.seqs [.grp 1 (.number), .lit [' '], .cls false [.rng 'С' 'С', .rng 'с' 'с', .rng 'ᲃ' 'ᲃ'], .cls false [.rng 'Е' 'Е', .rng 'е' 'е'], .cls false [.rng 'К' 'К', .rng 'к' 'к'], .cls false [.rng 'У' 'У', .rng 'у' 'у'], .cls false [.rng 'Н' 'Н', .rng 'н' 'н'], .cls false [.rng 'Д' 'Д', .rng 'д' 'д', .rng 'ᲁ' 'ᲁ'], .lit [' '], .cls false [.rng 'Х' 'Х', .rng 'х' 'х'], .cls false [.rng 'Ь' 'Ь', .rng 'ь' 'ь'], .cls false [.rng 'А' 'А', .rng 'а' 'а'], .cls false [.rng 'Л' 'Л', .rng 'л' 'л'], .cls false [.rng 'Х' 'Х', .rng 'х' 'х'], .cls false [.rng 'А' 'А', .rng 'а' 'а']], [.ref 1, .lit [' ', 's', 'e', 'c', 'o', 'n', 'd', ' ', 'a', 'g', 'o']]),
    (.seqs [.grp 1 (.number), .lit [' '], .cls false [.rng 'К' 'К', .rng 'к' 'к'], .cls false [.rng 'Ӏ' 'Ӏ', .rng 'ӏ' 'ӏ'], .cls false [.rng 'И' 'И', .rng 'и' 'и'], .cls false [.rng 'Р' 'Р', .rng 'р' 'р'], .cls false [.rng 'А' 'А', .rng 'а' 'а'], .lit [' '], .cls false [.rng 'Д' 'Д', .rng 'д' 'д', .rng 'ᲁ' 'ᲁ'], .cls false [.rng 'А' 'А', .rng 'а' 'а'], .cls false [.rng 'Ь' 'Ь', .rng 'ь' 'ь'], .cls false [.rng 'Л' 'Л', .rng 'л' 'л'], .cls false [.rng 'Ч' 'Ч', .rng 'ч' 'ч'], .cls false [.rng 'А' 'А', .rng 'а' 'а']], [.lit ['i', 'n', ' '], .ref 1, .lit [' ', 'w', 'e', 'e', 'k']]),
    (.seqs [.grp 1 (.number), .lit [' '], .cls false [.rng 'К' 'К', .rng 'к' 'к'], .cls false [.rng 'Ӏ' 'Ӏ', .rng 'ӏ' 'ӏ'], .cls false [.rng 'И' 'И', .rng 'и' 'и'], .cls false [.rng 'Р' 'Р', .rng 'р' 'р'], .cls false [.rng 'А' 'А', .rng 'а' 'а'], .lit [' '], .cls false [.rng 'Х' 'Х', .rng 'х' 'х'], .cls false [.rng 'Ь' 'Ь', .rng 'ь' 'ь'], .cls false [.rng 'А' 'А', .rng 'а' 'а'], .cls false [.rng 'Л' 'Л', .rng 'л' 'л'], .cls false [.rng 'Х' 'Х', .rng 'х' 'х'], .cls false [.rng 'А' 'А', .rng 'а' 'а']], [.ref 1, .lit [' ', 'w', 'e', 'e', 'k', ' ', 'a', 'g', 'o']]),
    (.seqs [.grp 1 (.number), .lit [' '], .cls false [.rng 'М' 'М', .rng 'м' 'м'], .cls false [.rng 'И' 'И', .rng 'и' 'и'], .cls false [.rng 'Н' 'Н', .rng 'н' 'н'], .cls false [.rng 'О' 'О', .rng 'о' 'о', .rng 'ᲂ' 'ᲂ'], .cls false [.rng 'Т' 'Т', .rng 'т' 'т', .rng 'ᲄ' 'ᲄ', .rng 'ᲅ' 'ᲅ'], .lit [' '], .cls false [.rng 'Х' 'Х', .rng 'х' 'х'], .cls false [.rng 'Ь' 'Ь', .rng 'ь' 'ь'], .cls false [.rng 'А' 'А', .rng 'а' 'а'], .cls false [.rng 'Л' 'Л', .rng 'л' 'л'], .cls false [.rng 'Х' 'Х', .rng 'х' 'х'], .cls false [.rng 'А' 'А', .rng 'а' 'а']], [.ref 1, .lit [' ', 'm', 'i', 'n', 'u', 't', 'e', ' ', 'a', 'g', 'o']]),
    (.seqs [.grp 1 (.number), .lit [' '], .cls false [.rng 'С' 'С', .rng 'с' 'с', .rng 'ᲃ' 'ᲃ'], .cls false [.rng 'А' 'А', .rng 'а' 'а'], .cls false [.rng 'Х' 'Х', .rng 'х' 'х'], .cls false [.rng 'Ь' 'Ь', .rng 'ь' 'ь'], .cls false [.rng 'Т' 'Т', .rng 'т' 'т', .rng 'ᲄ' 'ᲄ', .rng 'ᲅ' 'ᲅ'], .lit [' '], .cls false [.rng 'Д' 'Д', .rng 'д' 'д', .rng 'ᲁ' 'ᲁ'], .cls false [.rng 'А' 'А', .rng 'а' 'а'], .cls false [.rng 'Ь' 'Ь', .rng 'ь' 'ь'], .cls false [.rng 'Л' 'Л', .rng 'л' 'л'], .cls false [.rng 'Ч' 'Ч', .rng 'ч' 'ч'], .cls false [.rng 'А' 'А', .rng 'а' 'а']], [.lit ['i', 'n', ' '], .ref 1, .lit [' ', 'h', 'o', 'u', 'r']]),
    (.seqs [.grp 1 (.number), .lit [' '], .cls false [.rng 'С' 'С', .rng 'с' 'с', .rng 'ᲃ' 'ᲃ'], .cls false [.rng 'А' 'А', .rng 'а' 'а'], .cls false [.rng 'Х' 'Х', .rng 'х' 'х'], .cls false [.rng 'Ь' 'Ь', .rng 'ь' 'ь'], .cls false [.rng 'Т' 'Т', .rng 'т' 'т', .rng 'ᲄ' 'ᲄ', .rng 'ᲅ' 'ᲅ'], .lit [' '], .cls false [.rng 'Х' 'Х', .rng 'х' 'х'], .cls false [.rng 'Ь' 'Ь', .rng 'ь' 'ь'], .cls false [.rng 'А' 'А', .rng 'а' 'а'], .cls false [.rng 'Л' 'Л', .rng 'л' 'л'], .cls false [.rng 'Х' 'Х', .rng 'х' 'х'], .cls false [.rng 'А' 'А', .rng 'а' 'а']], [.ref 1, .lit [' ', 'h', 'o', 'u', 'r', ' ', 'a', 'g', 'o']]),
    (.seqs [.grp 1 (.number), .lit [' '], .cls false [.rng 'С' 'С', .rng 'с' 'с', .rng 'ᲃ' 'ᲃ'], .cls false [.rng 'Е' 'Е', .rng 'е' 'е'], .cls false [.rng 'К' 'К', .rng 'к' 'к'], .cls false [.rng 'У' 'У', .rng 'у' 'у'], .cls false [.rng 'Н' 'Н', .rng 'н' 'н'], .cls false [.rng 'Д' 'Д', .rng 'д' 'д', .rng 'ᲁ' 'ᲁ'], .lit [' '], .cls false [.rng 'Я' 'Я', .rng 'я' 'я'], .cls false [.rng 'Ь' 'Ь', .rng 'ь' 'ь'], .cls false [.rng 'Л' 'Л', .rng 'л' 'л'], .cls false [.rng 'Ч' 'Ч', .rng 'ч' 'ч'], .cls false [.rng 'А' 'А', .rng 'а' 'а']], [.lit ['i', 'n', ' '], .ref 1, .lit [' ', 's', 'e', 'c', 'o', 'n', 'd']]),
    (.seqs [.grp 1 (.number), .lit [' '], .cls false [.rng 'Б' 'Б', .rng 'б' 'б'], .cls false [.rng 'У' 'У', .rng 'у' 'у'], .cls false [.rng 'Т' 'Т', .rng 'т' 'т', .rng 'ᲄ' 'ᲄ', .rng 'ᲅ' 'ᲅ'], .cls false [.rng 'Т' 'Т', .rng 'т' 'т', .rng 'ᲄ' 'ᲄ', .rng 'ᲅ' 'ᲅ'], .lit [' '], .cls false [.rng 'Б' 'Б', .rng 'б' 'б'], .cls false [.rng 'А' 'А', .rng 'а' 'а'], .cls false [.rng 'Ь' 'Ь', .rng 'ь' 'ь'], .cls false [.rng 'Л' 'Л', .rng 'л' 'л'], .cls false [.rng 'Ч' 'Ч', .rng 'ч' 'ч'], .cls false [.rng 'А' 'А', .rng 'а' 'а']], [.lit ['i', 'n', ' '], .ref 1, .lit [' ', 'm', 'o', 'n', 't', 'h']]),
    (.seqs [.grp 1 (.number), .lit [' '], .cls false [.rng 'Б' 'Б', .rng 'б' 'б'], .cls false [.rng 'У' 'У', .rng 'у' 'у'], .cls false [.rng 'Т' 'Т', .rng 'т' 'т', .rng 'ᲄ' 'ᲄ', .rng 'ᲅ' 'ᲅ'], .cls false [.rng 'Т' 'Т', .rng 'т' 'т', .rng 'ᲄ' 'ᲄ', .rng 'ᲅ' 'ᲅ'], .lit [' '], .cls false [.rng 'Х' 'Х', .rng 'х' 'х'], .cls false [.rng 'Ь' 'Ь', .rng 'ь' 'ь'], .cls false [.rng 'А' 'А', .rng 'а' 'а'], .cls false [.rng 'Л' 'Л', .rng 'л' 'л'], .cls false [.rng 'Х' 'Х', .rng 'х' 'х'], .cls false [.rng 'А' 'А', .rng 'а' 'а']], [.ref 1, .lit [' ', 'm', 'o', 'n', 't', 'h', ' ', 'a', 'g', 'o']]),
    (.seqs [.grp 1 (.number), .lit [' '], .cls false [.rng 'К' 'К', .rng 'к' 'к'], .cls false [.rng 'Ӏ' 'Ӏ', .rng 'ӏ' 'ӏ'], .cls false [.rng 'И' 'И', .rng 'и' 'и'], .cls false [.rng 'Р' 'Р', .rng 'р' 'р'], .lit [' '], .cls false [.rng 'Д' 'Д', .rng 'д' 'д', .rng 'ᲁ' 'ᲁ'], .cls false [.rng 'А' 'А', .rng 'а' 'а'], .cls false [.rng 'Ь' 'Ь', .rng 'ь' 'ь'], .cls false [.rng 'Л' 'Л', .rng 'л' 'л'], .cls false [.rng 'Ч' 'Ч', .rng 'ч' 'ч'], .cls false [.rng 'А' 'А', .rng 'а' 'а']], [.lit ['i', 'n', ' '], .ref 1, .lit [' ', 'w', 'e', 'e', 'k']]),
    (.seqs [.grp 1 (.number), .lit [' '], .cls false [.rng 'К' 'К', .rng 'к' 'к'], .cls false [.rng 'Ӏ' 'Ӏ', .rng 'ӏ' 'ӏ'], .cls false [.rng 'И' 'И', .rng 'и' 'и'], .cls false [.rng 'Р' 'Р', .rng 'р' 'р'], .lit [' '], .cls false [.rng 'Х' 'Х', .rng 'х' 'х'], .cls false [.rng 'Ь' 'Ь', .rng 'ь' 'ь'], .cls false [.rng 'А' 'А', .rng 'а' 'а'], .cls false [.rng 'Л' 'Л', .rng 'л' 'л'], .cls false [.rng 'Х' 'Х', .rng 'х' 'х'], .cls false [.rng 'А' 'А', .rng 'а' 'а']], [.ref 1, .lit [' ', 'w', 'e', 'e', 'k', ' ', 'a', 'g', 'o']]),
    (.seqs [.grp 1 (.number), .lit [' '], .cls false [.rng 'М' 'М', .rng 'м' 'м'], .cls false [.rng 'И' 'И', .rng 'и' 'и'], .cls false [.rng 'Н' 'Н', .rng 'н' 'н'], .cls false [.rng 'О' 'О', .rng 'о' 'о', .rng 'ᲂ' 'ᲂ'], .cls false [.rng 'Т' 'Т', .rng 'т' 'т', .rng 'ᲄ' 'ᲄ', .rng 'ᲅ' 'ᲅ'], .lit [' '], .cls false [.rng 'Я' 'Я', .rng 'я' 'я'], .cls false [.rng 'Ь' 'Ь', .rng 'ь' 'ь'], .cls false [.rng 'Л' 'Л', .rng 'л' 'л'], .cls false [.rng 'Ч' 'Ч', .rng 'ч' 'ч'], .cls false [.rng 'А' 'А', .rng 'а' 'а']], [.lit ['i', 'n', ' '], .ref 1, .lit [' ', 'm', 'i', 'n', 'u', 't', 'e']]),
    (.seqs [.grp 1 (.number), .lit [' '], .cls false [.rng 'С' 'С', .rng 'с' 'с', .rng 'ᲃ' 'ᲃ'], .cls false [.rng 'А' 'А', .rng 'а' 'а'], .cls false [.rng 'Х' 'Х', .rng 'х' 'х'], .cls false [.rng 'Ь' 'Ь', .rng 'ь' 'ь'], .lit [' '], .cls false [.rng 'Д' 'Д', .rng 'д' 'д', .rng 'ᲁ' 'ᲁ'], .cls false [.rng 'А' 'А', .rng 'а' 'а'], .cls false [.rng 'Ь' 'Ь', .rng 'ь' 'ь'], .cls false [.rng 'Л' 'Л', .rng 'л' 'л'], .cls false [.rng 'Ч' 'Ч', .rng 'ч' 'ч'], .cls false [.rng 'А' 'А', .rng 'а' 'а']], [.lit ['i', 'n', ' '], .ref 1, .lit [' ', 'h', 'o', 'u', 'r']]),
    (.seqs [.grp 1 (.number), .lit [' '], .cls false [.rng 'С' 'С', .rng 'с' 'с', .rng 'ᲃ' 'ᲃ'], .cls false [.rng 'А' 'А', .rng 'а' 'а'], .cls false [.rng 'Х' 'Х', .rng 'х' 'х'], .cls false [.rng 'Ь' 'Ь', .rng 'ь' 'ь'], .lit [' '], .cls false [.rng 'Х' 'Х', .rng 'х' 'х'], .cls false [.rng 'Ь' 'Ь', .rng 'ь' 'ь'], .cls false [.rng 'А' 'А', .rng 'а' 'а'], .cls false [.rng 'Л' 'Л', .rng 'л' 'л'], .cls false [.rng 'Х' 'Х', .rng 'х' 'х'], .cls false [.rng 'А' 'А', .rng 'а' 'а']], [.ref 1, .lit [' ', 'h', 'o', 'u', 'r', ' ', 'a', 'g', 'o']]),
    (.seqs [.grp 1 (.number), .lit [' '], .cls false [.rng 'М' 'М', .rng 'м' 'м'], .cls false [.rng 'И' 'И', .rng 'и' 'и'], .cls false [.rng 'Н' 'Н', .rng 'н' 'н'], .lit [' '], .cls false [.rng 'Х' 'Х', .rng 'х' 'х'], .cls false [.rng 'Ь' 'Ь', .rng 'ь' 'ь'], .cls false [.rng 'А' 'А', .rng 'а' 'а'], .cls false [.rng 'Л' 'Л', .rng 'л' 'л'], .cls false [.rng 'Х' 'Х', .rng 'х' 'х'], .cls false [.rng 'А' 'А', .rng 'а' 'а']], [.ref 1, .lit [' ', 'm', 'i', 'n', 'u', 't', 'e', ' ', 'a', 'g', 'o']]),
    (.seqs [.grp 1 (.number), .lit [' '], .cls false [.rng 'С' 'С', .rng 'с' 'с', .rng 'ᲃ' 'ᲃ'], .cls false [.rng 'Е' 'Е', .rng 'е' 'е'], .cls false [.rng 'К' 'К', .rng 'к' 'к'], .lit [' '], .cls false [.rng 'Х' 'Х', .rng 'х' 'х'], .cls false [.rng 'Ь' 'Ь', .rng 'ь' 'ь'], .cls false [.rng 'А' 'А', .rng 'а' 'а'], .cls false [.rng 'Л' 'Л', .rng 'л' 'л'], .cls false [.rng 'Х' 'Х', .rng 'х' 'х'], .cls false [.rng 'А' 'А', .rng 'а' 'а']], [.ref 1, .lit [' ', 's', 'e', 'c', 'o', 'n', 'd', ' ', 'a', 'g', 'o']]),
    (.seqs [.grp 1 (.number), .lit [' '], .cls false [.rng 'Д' 'Д', .rng 'д' 'д', .rng 'ᲁ' 'ᲁ'], .cls false [.rng 'Е' 'Е', .rng 'е' 'е'], .lit [' '], .cls false [.rng 'Д' 'Д', .rng 'д' 'д', .rng 'ᲁ' 'ᲁ'], .cls false [.rng 'А' 'А', .rng 'а' 'а'], .cls false [.rng 'Ь' 'Ь', .rng 'ь' 'ь'], .cls false [.rng 'Л' 'Л', .rng 'л' 'л'], .cls false [.rng 'Ч' 'Ч', .rng 'ч' 'ч'], .cls false [.rng 'А' 'А', .rng 'а' 'а']], [.lit ['i', 'n', ' '], .ref 1, .lit [' ', 'd', 'a', 'y']]),
    (.seqs [.grp 1 (.number), .lit [' '], .cls false [.rng 'Д' 'Д', .rng 'д' 'д', .rng 'ᲁ' 'ᲁ'], .cls false [.rng 'Е' 'Е', .rng 'е' 'е'], .lit [' '], .cls false [.rng 'Х' 'Х', .rng 'х' 'х'], .cls false [.rng 'Ь' 'Ь', .rng 'ь' 'ь'], .cls false [.rng 'А' 'А', .rng 'а' 'а'], .cls false [.rng 'Л' 'Л', .rng 'л' 'л'], .cls false [.rng 'Х' 'Х', .rng 'х' 'х'], .cls false [.rng 'А' 'А', .rng 'а' 'а']], [.ref 1, .lit [' ', 'd', 'a', 'y', ' ', 'a', 'g', 'o']]),
    (.seqs [.grp 1 (.number), .lit [' '], .cls false [.rng 'М' 'М', .rng 'м' 'м'], .cls false [.rng 'И' 'И', .rng 'и' 'и'], .cls false [.rng 'Н' 'Н', .rng 'н' 'н'], .lit [' '], .cls false [.rng 'Я' 'Я', .rng 'я' 'я'], .cls false [.rng 'Ь' 'Ь', .rng 'ь' 'ь'], .cls false [.rng 'Л' 'Л', .rng 'л' 'л'], .cls false [.rng 'Ч' 'Ч', .rng 'ч' 'ч'], .cls false [.rng 'А' 'А', .rng 'а' 'а']], [.lit ['i', 'n', ' '], .ref 1, .lit [' ', 'm', 'i', 'n', 'u', 't', 'e']]),
    (.seqs [.grp 1 (.number), .lit [' '], .cls false [.rng 'С' 'С', .rng 'с' 'с', .rng 'ᲃ' 'ᲃ'], .cls false [.rng 'Е' 'Е', .rng 'е' 'е'], .cls false [.rng 'К' 'К', .rng 'к' 'к'], .lit [' '], .cls false [.rng 'Я' 'Я', .rng 'я' 'я'], .cls false [.rng 'Ь' 'Ь', .rng 'ь' 'ь'], .cls false [.rng 'Л' 'Л', .rng 'л' 'л'], .cls false [.rng 'Ч' 'Ч', .rng 'ч' 'ч'], .cls false [.rng 'А' 'А', .rng 'а' 'а']], [.lit ['i', 'n', ' '], .ref 1, .lit [' ', 's', 'e', 'c', 'o', 'n', 'd']]),
    (.seqs [.grp 1 (.number), .lit [' '], .cls false [.rng 'Ш' 'Ш', .rng 'ш' 'ш'], .cls false [.rng 'О' 'О', .rng 'о' 'о', .rng 'ᲂ' 'ᲂ'], .lit [' '], .cls false [.rng 'Д' 'Д', .rng 'д' 'д', .rng 'ᲁ' 'ᲁ'], .cls false [.rng 'А' 'А', .rng 'а' 'а'], .cls false [.rng 'Ь' 'Ь', .rng 'ь' 'ь'], .cls false [.rng 'Л' 'Л', .rng 'л' 'л'], .cls false [.rng 'Ч' 'Ч', .rng 'ч' 'ч'], .cls false [.rng 'А' 'А', .rng 'а' 'а']], [.lit ['i', 'n', ' '], .ref 1, .lit [' ', 'y', 'e', 'a', 'r']]),
    (.seqs [.grp 1 (.number), .lit [' '], .cls false [.rng 'Ш' 'Ш', .rng 'ш' 'ш'], .cls false [.rng 'О' 'О', .rng 'о' 'о', .rng 'ᲂ' 'ᲂ'], .lit [' '], .cls false [.rng 'Х' 'Х', .rng 'х' 'х'], .cls false [.rng 'Ь' 'Ь', .rng 'ь' 'ь'], .cls false [.rng 'А' 'А', .rng 'а' 'а'], .cls false [.rng 'Л' 'Л', .rng 'л' 'л'], .cls false [.rng 'Х' 'Х', .rng 'х' 'х'], .cls false [.rng 'А' 'А', .rng 'а' 'а']], [.ref 1, .lit [' ', 'y', 'e', 'a', 'r', ' ', 'a', 'g', 'o']]),
    (.seqs [.grp 1 (.number), .lit [' '], .cls false [.rng 'Б' 'Б', .rng 'б' 'б'], .lit [' '], .cls false [.rng 'Б' 'Б', .rng 'б' 'б'], .cls false [.rng 'А' 'А', .rng 'а' 'а'], .cls false [.rng 'Ь' 'Ь', .rng 'ь' 'ь'], .cls false [.rng 'Л' 'Л', .rng 'л' 'л'], .cls false [.rng 'Ч' 'Ч', .rng 'ч' 'ч'], .cls false [.rng 'А' 'А', .rng 'а' 'а']], [.lit ['i', 'n', ' '], .ref 1, .lit [' ', 'm', 'o', 'n', 't', 'h']]),
    (.seqs [.grp 1 (.number), .lit [' '], .cls false [.rng 'Б' 'Б', .rng 'б' 'б'], .lit [' '], .cls false [.rng 'Х' 'Х', .rng 'х' 'х'], .cls false [.rng 'Ь' 'Ь', .rng 'ь' 'ь'], .cls false [.rng 'А' 'А', .rng 'а' 'а'], .cls false [.rng 'Л' 'Л', .rng 'л' 'л'], .cls false [.rng 'Х' 'Х', .rng 'х' 'х'], .cls false [.rng 'А' 'А', .rng 'а' 'а']], [.ref 1, .lit [' ', 'm', 'o', 'n', 't', 'h', ' ', 'a', 'g', 'o']]),
    (.seqs [.grp 1 (.number), .lit [' '], .cls false [.rng 'Д' 'Д', .rng 'д' 'д', .rng 'ᲁ' 'ᲁ'], .lit [' '], .cls false [.rng 'Д' 'Д', .rng 'д' 'д', .rng 'ᲁ' 'ᲁ'], .cls false [.rng 'А' 'А', .rng 'а' 'а'], .cls false [.rng 'Ь' 'Ь', .rng 'ь' 'ь'], .cls false [.rng 'Л' 'Л', .rng 'л' 'л'], .cls false [.rng 'Ч' 'Ч', .rng 'ч' 'ч'], .cls false [.rng 'А' 'А', .rng 'а' 'а']], [.lit ['i', 'n', ' '], .ref 1, .lit [' ', 'd', 'a', 'y']]),
    (.seqs [.grp 1 (.number), .lit [' '], .cls false [.rng 'Д' 'Д', .rng 'д' 'д', .rng 'ᲁ' 'ᲁ'], .lit [' '], .cls false [.rng 'Х' 'Х', .rng 'х' 'х'], .cls false [.rng 'Ь' 'Ь', .rng 'ь' 'ь'], .cls false [.rng 'А' 'А', .rng 'а' 'а'], .cls false [.rng 'Л' 'Л', .rng 'л' 'л'], .cls false [.rng 'Х' 'Х', .rng 'х' 'х'], .cls false [.rng 'А' 'А', .rng 'а' 'а']], [.ref 1, .lit [' ', 'd', 'a', 'y', ' ', 'a', 'g', 'o']]),
    (.seqs [.grp 1 (.number), .lit [' '], .cls false [.rng 'Ш' 'Ш', .rng 'ш' 'ш'], .lit [' '], .cls false [.rng 'Д' 'Д', .rng 'д' 'д', .rng 'ᲁ' 'ᲁ'], .cls false [.rng 'А' 'А', .rng 'а' 'а'], .cls false [.rng 'Ь' 'Ь', .rng 'ь' 'ь'], .cls false [.rng 'Л' 'Л', .rng 'л' 'л'], .cls false [.rng 'Ч' 'Ч', .rng 'ч' 'ч'], .cls false [.rng 'А' 'А', .rng 'а' 'а']], [.lit ['i', 'n', ' '], .ref 1, .lit [' ', 'y', 'e', 'a', 'r']]),
    (.seqs [.grp 1 (.number), .lit [' '], .cls false [.rng 'Ш' 'Ш', .rng 'ш' 'ш'], .lit [' '], .cls false [.rng 'Х' 'Х', .rng 'х' 'х'], .cls false [.rng 'Ь' 'Ь', .rng 'ь' 'ь'], .cls false [.rng 'А' 'А', .rng 'а' 'а'], .cls false [.rng 'Л' 'Л', .rng 'л' 'л'], .cls false [.rng 'Х' 'Х', .rng 'х' 'х'], .cls false [.rng 'А' 'А', .rng 'а' 'а']], [.ref 1, .lit [' ', 'y', 'e', 'a', 'r', ' ', 'a', 'g', 'o']])],
  rxCombined := some (.seqs [.grp 1 (.alts [.bos, .cls true [.letter, .mark, .digit], .lit ['_']]), .grp 2 (.alts [.seqs [.number, .lit [' '], .cls false [.rng 'С' 'С', .rng 'с' 'с', .rng 'ᲃ' 'ᲃ'], .cls false [.rng 'Е' 'Е', .rng 'е' 'е'], .cls false [.rng 'К' 'К', .rng 'к' 'к'], .cls false [.rng 'У' 'У', .rng 'у' 'у'], .cls false [.rng 'Н' 'Н', .rng 'н' 'н'], .cls false [.rng 'Д' 'Д', .rng 'д' 'д', .rng 'ᲁ' 'ᲁ'], .lit [' '], .cls false [.rng 'Х' 'Х', .rng 'х' 'х'], .cls false [.rng 'Ь' 'Ь', .rng 'ь' 'ь'], .cls false [.rng 'А' 'А', .rng 'а' 'а'], .cls false [.rng 'Л' 'Л', .rng 'л' 'л'], .cls false [.rng 'Х' 'Х', .rng 'х' 'х'], .cls false [.rng 'А' 'А', .rng 'а' 'а']], .seqs [.number, .lit [' '], .cls false [.rng 'К' 'К', .rng 'к' 'к'], .cls false [.rng 'Ӏ' 'Ӏ', .rng 'ӏ' 'ӏ'], .cls false [.rng 'И' 'И', .rng 'и' 'и'], .cls false [.rng 'Р' 'Р', .rng 'р' 'р'], .cls false [.rng 'А' 'А', .rng 'а' 'а'], .lit [' '], .cls false [.rng 'Д' 'Д', .rng 'д' 'д', .rng 'ᲁ' 'ᲁ'], .cls false [.rng 'А' 'А', .rng 'а' 'а'], .cls false [.rng 'Ь' 'Ь', .rng 'ь' 'ь'], .cls false [.rng 'Л' 'Л', .rng 'л' 'л'], .cls false [.rng 'Ч' 'Ч', .rng 'ч' 'ч'], .cls false [.rng 'А' 'А', .rng 'а' 'а']], .seqs [.number, .lit [' '], .cls false [.rng 'К' 'К', .rng 'к' 'к'], .cls false [.rng 'Ӏ' 'Ӏ', .rng 'ӏ' 'ӏ'], .cls false [.rng 'И' 'И', .rng 'и' 'и'], .cls false [.rng 'Р' 'Р', .rng 'р' 'р'], .cls false [.rng 'А' 'А', .rng 'а' 'а'], .lit [' '], .cls false [.rng 'Х' 'Х', .rng 'х' 'х'], .cls false [.rng 'Ь' 'Ь', .rng 'ь' 'ь'], .cls false [.rng 'А' 'А', .rng 'а' 'а'], .cls false [.rng 'Л' 'Л', .rng 'л' 'л'], .cls false [.rng 'Х' 'Х', .rng 'х' 'х'], .cls false [.rng 'А' 'А', .rng 'а' 'а']], .seqs [.number, .lit [' '], .cls false [.rng 'М' 'М', .rng 'м' 'м'], .cls false [.rng 'И' 'И', .rng 'и' 'и'], .cls false [.rng 'Н' 'Н', .rng 'н' 'н'], .cls false [.rng 'О' 'О', .rng 'о' 'о', .rng 'ᲂ' 'ᲂ'], .cls false [.rng 'Т' 'Т', .rng 'т' 'т', .rng 'ᲄ' 'ᲄ', .rng 'ᲅ' 'ᲅ'], .lit [' '], .cls false [.rng 'Х' 'Х', .rng 'х' 'х'], .cls false [.rng 'Ь' 'Ь', .rng 'ь' 'ь'], .cls false [.rng 'А' 'А', .rng 'а' 'а'], .cls false [.rng 'Л' 'Л', .rng 'л' 'л'], .cls false [.rng 'Х' 'Х', .rng 'х' 'х'], .cls false [.rng 'А' 'А', .rng 'а' 'а']], .seqs [.number, .lit [' '], .cls false [.rng 'С' 'С', .rng 'с' 'с', .rng 'ᲃ' 'ᲃ'], .cls false [.rng 'А' 'А', .rng 'а' 'а'], .cls false [.rng 'Х' 'Х', .rng 'х' 'х'], .cls false [.rng 'Ь' 'Ь', .rng 'ь' 'ь'], .cls false [.rng 'Т' 'Т', .rng 'т' 'т', .rng 'ᲄ' 'ᲄ', .rng 'ᲅ' 'ᲅ'], .lit [' '], .cls false [.rng 'Д' 'Д', .rng 'д' 'д', .rng 'ᲁ' 'ᲁ'], .cls false [.rng 'А' 'А', .rng 'а' 'а'], .cls false [.rng 'Ь' 'Ь', .rng 'ь' 'ь'], .cls false [.rng 'Л' 'Л', .rng 'л' 'л'], .cls false [.rng 'Ч' 'Ч', .rng 'ч' 'ч'], .cls false [.rng 'А' 'А', .rng 'а' 'а']], .seqs [.number, .lit [' '], .cls false [.rng 'С' 'С', .rng 'с' 'с', .rng 'ᲃ' 'ᲃ'], .cls false [.rng 'А' 'А', .rng 'а' 'а'], .cls false [.rng 'Х' 'Х', .rng 'х' 'х'], .cls false [.rng 'Ь' 'Ь', .rng 'ь' 'ь'], .cls false [.rng 'Т' 'Т', .rng 'т' 'т', .rng 'ᲄ' 'ᲄ', .rng 'ᲅ' 'ᲅ'], .lit [' '], .cls false [.rng 'Х' 'Х', .rng 'х' 'х'], .cls false [.rng 'Ь' 'Ь', .rng 'ь' 'ь'], .cls false [.rng 'А' 'А', .rng 'а' 'а'], .cls false [.rng 'Л' 'Л', .rng 'л' 'л'], .cls false [.rng 'Х' 'Х', .rng 'х' 'х'], .cls false [.rng 'А' 'А', .rng 'а' 'а']], .seqs [.number, .lit [' '], .cls false [.rng 'С' 'С', .rng 'с' 'с', .rng 'ᲃ' 'ᲃ'], .cls false [.rng 'Е' 'Е', .rng 'е' 'е'], .cls false [.rng 'К' 'К', .rng 'к' 'к'], .cls false [.rng 'У' 'У', .rng 'у' 'у'], .cls false [.rng 'Н' 'Н', .rng 'н' 'н'], .cls false [.rng 'Д' 'Д', .rng 'д' 'д', .rng 'ᲁ' 'ᲁ'], .lit [' '], .cls false [.rng 'Я' 'Я', .rng 'я' 'я'], .cls false [.rng 'Ь' 'Ь', .rng 'ь' 'ь'], .cls false [.rng 'Л' 'Л', .rng 'л' 'л'], .cls false [.rng 'Ч' 'Ч', .rng 'ч' 'ч'], .cls false [.rng 'А' 'А', .rng 'а' 'а']], .seqs [.number, .lit [' '], .cls false [.rng 'Б' 'Б', .rng 'б' 'б'], .cls false [.rng 'У' 'У', .rng 'у' 'у'], .cls false [.rng 'Т' 'Т', .rng 'т' 'т', .rng 'ᲄ' 'ᲄ', .rng 'ᲅ' 'ᲅ'], .cls false [.rng 'Т' 'Т', .rng 'т' 'т', .rng 'ᲄ' 'ᲄ', .rng 'ᲅ' 'ᲅ'], .lit [' '], .cls false [.rng 'Б' 'Б', .rng 'б' 'б'], .cls false [.rng 'А' 'А', .rng 'а' 'а'], .cls false [.rng 'Ь' 'Ь', .rng 'ь' 'ь'], .cls false [.rng 'Л' 'Л', .rng 'л' 'л'], .cls false [.rng 'Ч' 'Ч', .rng 'ч' 'ч'], .cls false [.rng 'А' 'А', .rng 'а' 'а']], .seqs [.number, .lit [' '], .cls false [.rng 'Б' 'Б', .rng 'б' 'б'], .cls false [.rng 'У' 'У', .rng 'у' 'у'], .cls false [.rng 'Т' 'Т', .rng 'т' 'т', .rng 'ᲄ' 'ᲄ', .rng 'ᲅ' 'ᲅ'], .cls false [.rng 'Т' 'Т', .rng 'т' 'т', .rng 'ᲄ' 'ᲄ', .rng 'ᲅ' 'ᲅ'], .lit [' '], .cls false [.rng 'Х' 'Х', .rng 'х' 'х'], .cls false [.rng 'Ь' 'Ь', .rng 'ь' 'ь'], .cls false [.rng 'А' 'А', .rng 'а' 'а'], .cls false [.rng 'Л' 'Л', .rng 'л' 'л'], .cls false [.rng 'Х' 'Х', .rng 'х' 'х'], .cls false [.rng 'А' 'А', .rng 'а' 'а']], .seqs [.number, .lit [' '], .cls false [.rng 'К' 'К', .rng 'к' 'к'], .cls false [.rng 'Ӏ' 'Ӏ', .rng 'ӏ' 'ӏ'], .cls false [.rng 'И' 'И', .rng 'и' 'и'], .cls false [.rng 'Р' 'Р', .rng 'р' 'р'], .lit [' '], .cls false [.rng 'Д' 'Д', .rng 'д' 'д', .rng 'ᲁ' 'ᲁ'], .cls false [.rng 'А' 'А', .rng 'а' 'а'], .cls false [.rng 'Ь' 'Ь', .rng 'ь' 'ь'], .cls false [.rng 'Л' 'Л', .rng 'л' 'л'], .cls false [.rng 'Ч' 'Ч', .rng 'ч' 'ч'], .cls false [.rng 'А' 'А', .rng 'а' 'а']], .seqs [.number, .lit [' '], .cls false [.rng 'К' 'К', .rng 'к' 'к'], .cls false [.rng 'Ӏ' 'Ӏ', .rng 'ӏ' 'ӏ'], .cls false [.rng 'И' 'И', .rng 'и' 'и'], .cls false [.rng 'Р' 'Р', .rng 'р' 'р'], .lit [' '], .cls false [.rng 'Х' 'Х', .rng 'х' 'х'], .cls false [.rng 'Ь' 'Ь', .rng 'ь' 'ь'], .cls false [.rng 'А' 'А', .rng 'а' 'а'], .cls false [.rng 'Л' 'Л', .rng 'л' 'л'], .cls false [.rng 'Х' 'Х', .rng 'х' 'х'], .cls false [.rng 'А' 'А', .rng 'а' 'а']], .seqs [.number, .lit [' '], .cls false [.rng 'М' 'М', .rng 'м' 'м'], .cls false [.rng 'И' 'И', .rng 'и' 'и'], .cls false [.rng 'Н' 'Н', .rng 'н' 'н'], .cls false [.rng 'О' 'О', .rng 'о' 'о', .rng 'ᲂ' 'ᲂ'], .cls false [.rng 'Т' 'Т', .rng 'т' 'т', .rng 'ᲄ' 'ᲄ', .rng 'ᲅ' 'ᲅ'], .lit [' '], .cls false [.rng 'Я' 'Я', .rng 'я' 'я'], .cls false [.rng 'Ь' 'Ь', .rng 'ь' 'ь'], .cls false [.rng 'Л' 'Л', .rng 'л' 'л'], .cls false [.rng 'Ч' 'Ч', .rng 'ч' 'ч'], .cls false [.rng 'А' 'А', .rng 'а' 'а']], .seqs [.number, .lit [' '], .cls false [.rng 'С' 'С', .rng 'с' 'с', .rng 'ᲃ' 'ᲃ'], .cls false [.rng 'А' 'А', .rng 'а' 'а'], .cls false [.rng 'Х' 'Х', .rng 'х' 'х'], .cls false [.rng 'Ь' 'Ь', .rng 'ь' 'ь'], .lit [' '], .cls false [.rng 'Д' 'Д', .rng 'д' 'д', .rng 'ᲁ' 'ᲁ'], .cls false [.rng 'А' 'А', .rng 'а' 'а'], .cls false [.rng 'Ь' 'Ь', .rng 'ь' 'ь'], .cls false [.rng 'Л' 'Л', .rng 'л' 'л'], .cls false [.rng 'Ч' 'Ч', .rng 'ч' 'ч'], .cls false [.rng 'А' 'А', .rng 'а' 'а']], .seqs [.number, .lit [' '], .cls false [.rng 'С' 'С', .rng 'с' 'с', .rng 'ᲃ' 'ᲃ'], .cls false [.rng 'А' 'А', .rng 'а' 'а'], .cls false [.rng 'Х' 'Х', .rng 'х' 'х'], .cls false [.rng 'Ь' 'Ь', .rng 'ь' 'ь'], .lit [' '], .cls false [.rng 'Х' 'Х', .rng 'х' 'х'], .cls false [.rng 'Ь' 'Ь', .rng 'ь' 'ь'], .cls false [.rng 'А' 'А', .rng 'а' 'а'], .cls false [.rng 'Л' 'Л', .rng 'л' 'л'], .cls false [.rng 'Х' 'Х', .rng 'х' 'х'], .cls false [.rng 'А' 'А', .rng 'а' 'а']], .seqs [.number, .lit [' '], .cls false [.rng 'М' 'М', .rng 'м' 'м'], .cls false [.rng 'И' 'И', .rng 'и' 'и'], .cls false [.rng 'Н' 'Н', .rng 'н' 'н'], .lit [' '], .cls false [.rng 'Х' 'Х', .rng 'х' 'х'], .cls false [.rng 'Ь' 'Ь', .rng 'ь' 'ь'], .cls false [.rng 'А' 'А', .rng 'а' 'а'], .cls false [.rng 'Л' 'Л', .rng 'л' 'л'], .cls false [.rng 'Х' 'Х', .rng 'х' 'х'], .cls false [.rng 'А' 'А', .rng 'а' 'а']], .seqs [.number, .lit [' '], .cls false [.rng 'С' 'С', .rng 'с' 'с', .rng 'ᲃ' 'ᲃ'], .cls false [.rng 'Е' 'Е', .rng 'е' 'е'], .cls false [.rng 'К' 'К', .rng 'к' 'к'], .lit [' '], .cls false [.rng 'Х' 'Х', .rng 'х' 'х'], .cls false [.rng 'Ь' 'Ь', .rng 'ь' 'ь'], .cls false [.rng 'А' 'А', .rng 'а' 'а'], .cls false [.rng 'Л' 'Л', .rng 'л' 'л'], .cls false [.rng 'Х' 'Х', .rng 'х' 'х'], .cls false [.rng 'А' 'А', .rng 'а' 'а']], .seqs [.number, .lit [' '], .cls false [.rng 'Д' 'Д', .rng 'д' 'д', .rng 'ᲁ' 'ᲁ'], .cls false [.rng 'Е' 'Е', .rng 'е' 'е'], .lit [' '], .cls false [.rng 'Д' 'Д', .rng 'д' 'д', .rng 'ᲁ' 'ᲁ'], .cls false [.rng 'А' 'А', .rng 'а' 'а'], .cls false [.rng 'Ь' 'Ь', .rng 'ь' 'ь'], .cls false [.rng 'Л' 'Л', .rng 'л' 'л'], .cls false [.rng 'Ч' 'Ч', .rng 'ч' 'ч'], .cls false [.rng 'А' 'А', .rng 'а' 'а']], .seqs [.number, .lit [' '], .cls false [.rng 'Д' 'Д', .rng 'д' 'д', .rng 'ᲁ' 'ᲁ'], .cls false [.rng 'Е' 'Е', .rng 'е' 'е'], .lit [' '], .cls false [.rng 'Х' 'Х', .rng 'х' 'х'], .cls false [.rng 'Ь' 'Ь', .rng 'ь' 'ь'], .cls false [.rng 'А' 'А', .rng 'а' 'а'], .cls false [.rng 'Л' 'Л', .rng 'л' 'л'], .cls false [.rng 'Х' 'Х', .rng 'х' 'х'], .cls false [.rng 'А' 'А', .rng 'а' 'а']], .seqs [.number, .lit [' '], .cls false [.rng 'М' 'М', .rng 'м' 'м'], .cls false [.rng 'И' 'И', .rng 'и' 'и'], .cls false [.rng 'Н' 'Н', .rng 'н' 'н'], .lit [' '], .cls false [.rng 'Я' 'Я', .rng 'я' 'я'], .cls false [.rng 'Ь' 'Ь', .rng 'ь' 'ь'], .cls false [.rng 'Л' 'Л', .rng 'л' 'л'], .cls false [.rng 'Ч' 'Ч', .rng 'ч' 'ч'], .cls false [.rng 'А' 'А', .rng 'а' 'а']], .seqs [.number, .lit [' '], .cls false [.rng 'С' 'С', .rng 'с' 'с', .rng 'ᲃ' 'ᲃ'], .cls false [.rng 'Е' 'Е', .rng 'е' 'е'], .cls false [.rng 'К' 'К', .rng 'к' 'к'], .lit [' '], .cls false [.rng 'Я' 'Я', .rng 'я' 'я'], .cls false [.rng 'Ь' 'Ь', .rng 'ь' 'ь'], .cls false [.rng 'Л' 'Л', .rng 'л' 'л'], .cls false [.rng 'Ч' 'Ч', .rng 'ч' 'ч'], .cls false [.rng 'А' 'А', .rng 'а' 'а']], .seqs [.number, .lit [' '], .cls false [.rng 'Ш' 'Ш', .rng 'ш' 'ш'], .cls false [.rng 'О' 'О', .rng 'о' 'о', .rng 'ᲂ' 'ᲂ'], .lit [' '], .cls false [.rng 'Д' 'Д', .rng 'д' 'д', .rng 'ᲁ' 'ᲁ'], .cls false [.rng 'А' 'А', .rng 'а' 'а'], .cls false [.rng 'Ь' 'Ь', .rng 'ь' 'ь'], .cls false [.rng 'Л' 'Л', .rng 'л' 'л'], .cls false [.rng 'Ч' 'Ч', .rng 'ч' 'ч'], .cls false [.rng 'А' 'А', .rng 'а' 'а']], .seqs [.number, .lit [' '], .cls false [.rng 'Ш' 'Ш', .rng 'ш' 'ш'], .cls false [.rng 'О' 'О', .rng 'о' 'о', .rng 'ᲂ' 'ᲂ'], .lit [' '], .cls false [.rng 'Х' 'Х', .rng 'х' 'х'], .cls false [.rng 'Ь' 'Ь', .rng 'ь' 'ь'], .cls false [.rng 'А' 'А', .rng 'а' 'а'], .cls false [.rng 'Л' 'Л', .rng 'л' 'л'], .cls false [.rng 'Х' 'Х', .rng 'х' 'х'], .cls false [.rng 'А' 'А', .rng 'а' 'а']], .seqs [.number, .lit [' '], .cls false [.rng 'Б' 'Б', .rng 'б' 'б'], .lit [' '], .cls false [.rng 'Б' 'Б', .rng 'б' 'б'], .cls false [.rng 'А' 'А', .rng 'а' 'а'], .cls false [.rng 'Ь' 'Ь', .rng 'ь' 'ь'], .cls false [.rng 'Л' 'Л', .rng 'л' 'л'], .cls false [.rng 'Ч' 'Ч', .rng 'ч' 'ч'], .cls false [.rng 'А' 'А', .rng 'а' 'а']], .seqs [.number, .lit [' '], .cls false [.rng 'Б' 'Б', .rng 'б' 'б'], .lit [' '], .cls false [.rng 'Х' 'Х', .rng 'х' 'х'], .cls false [.rng 'Ь' 'Ь', .rng 'ь' 'ь'], .cls false [.rng 'А' 'А', .rng 'а' 'а'], .cls false [.rng 'Л' 'Л', .rng 'л' 'л'], .cls false [.rng 'Х' 'Х', .rng 'х' 'х'], .cls false [.rng 'А' 'А', .rng 'а' 'а']], .seqs [.number, .lit [' '], .cls false [.rng 'Д' 'Д', .rng 'д' 'д', .rng 'ᲁ' 'ᲁ'], .lit [' '], .cls false [.rng 'Д' 'Д', .rng 'д' 'д', .rng 'ᲁ' 'ᲁ'], .cls false [.rng 'А' 'А', .rng 'а' 'а'], .cls false [.rng 'Ь' 'Ь', .rng 'ь' 'ь'], .cls false [.rng 'Л' 'Л', .rng 'л' 'л'], .cls false [.rng 'Ч' 'Ч', .rng 'ч' 'ч'], .cls false [.rng 'А' 'А', .rng 'а' 'а']], .seqs [.number, .lit [' '], .cls false [.rng 'Д' 'Д', .rng 'д' 'д', .rng 'ᲁ' 'ᲁ'], .lit [' '], .cls false [.rng 'Х' 'Х', .rng 'х' 'х'], .cls false [.rng 'Ь' 'Ь', .rng 'ь' 'ь'], .cls false [.rng 'А' 'А', .rng 'а' 'а'], .cls false [.rng 'Л' 'Л', .rng 'л' 'л'], .cls false [.rng 'Х' 'Х', .rng 'х' 'х'], .cls false [.rng 'А' 'А', .rng 'а' 'а']], .seqs [.number, .lit [' '], .cls false [.rng 'Ш' 'Ш', .rng 'ш' 'ш'], .lit [' '], .cls false [.rng 'Д' 'Д', .rng 'д' 'д', .rng 'ᲁ' 'ᲁ'], .cls false [.rng 'А' 'А', .rng 'а' 'а'], .cls false [.rng 'Ь' 'Ь', .rng 'ь' 'ь'], .cls false [.rng 'Л' 'Л', .rng 'л' 'л'], .cls false [.rng 'Ч' 'Ч', .rng 'ч' 'ч'], .cls false [.rng 'А' 'А', .rng 'а' 'а']], .seqs [.number, .lit [' '], .cls false [.rng 'Ш' 'Ш', .rng 'ш' 'ш'], .lit [' '], .cls false [.rng 'Х' 'Х', .rng 'х' 'х'], .cls false [.rng 'Ь' 'Ь', .rng 'ь' 'ь'], .cls false [.rng 'А' 'А', .rng 'а' 'а'], .cls false [.rng 'Л' 'Л', .rng 'л' 'л'], .cls false [.rng 'Х' 'Х', .rng 'х' 'х'], .cls false [.rng 'А' 'А', .rng 'а' 'а']]]), .grp 3 (.alts [.eos, .cls true [.letter, .mark, .digit], .lit ['_']])], 3),
  rxExact := some (.seqs [.bos, .grp 1 (.alts [.seqs [.number, .lit [' '], .cls false [.rng 'С' 'С', .rng 'с' 'с', .rng 'ᲃ' 'ᲃ'], .cls false [.rng 'Е' 'Е', .rng 'е' 'е'], .cls false [.rng 'К' 'К', .rng 'к' 'к'], .cls false [.rng 'У' 'У', .rng 'у' 'у'], .cls false [.rng 'Н' 'Н', .rng 'н' 'н'], .cls false [.rng 'Д' 'Д', .rng 'д' 'д', .rng 'ᲁ' 'ᲁ'], .lit [' '], .cls false [.rng 'Х' 'Х', .rng 'х' 'х'], .cls false [.rng 'Ь' 'Ь', .rng 'ь' 'ь'], .cls false [.rng 'А' 'А', .rng 'а' 'а'], .cls false [.rng 'Л' 'Л', .rng 'л' 'л'], .cls false [.rng 'Х' 'Х', .rng 'х' 'х'], .cls false [.rng 'А' 'А', .rng 'а' 'а']], .seqs [.number, .lit [' '], .cls false [.rng 'К' 'К', .rng 'к' 'к'], .cls false [.rng 'Ӏ' 'Ӏ', .rng 'ӏ' 'ӏ'], .cls false [.rng 'И' 'И', .rng 'и' 'и'], .cls false [.rng 'Р' 'Р', .rng 'р' 'р'], .cls false [.rng 'А' 'А', .rng 'а' 'а'], .lit [' '], .cls false [.rng 'Д' 'Д', .rng 'д' 'д', .rng 'ᲁ' 'ᲁ'], .cls false [.rng 'А' 'А', .rng 'а' 'а'], .cls false [.rng 'Ь' 'Ь', .rng 'ь' 'ь'], .cls false [.rng 'Л' 'Л', .rng 'л' 'л'], .cls false [.rng 'Ч' 'Ч', .rng 'ч' 'ч'], .cls false [.rng 'А' 'А', .rng 'а' 'а']], .seqs [.number, .lit [' '], .cls false [.rng 'К' 'К', .rng 'к' 'к'], .cls false [.rng 'Ӏ' 'Ӏ', .rng 'ӏ' 'ӏ'], .cls false [.rng 'И' 'И', .rng 'и' 'и'], .cls false [.rng 'Р' 'Р', .rng 'р' 'р'], .cls false [.rng 'А' 'А', .rng 'а' 'а'], .lit [' '], .cls false [.rng 'Х' 'Х', .rng 'х' 'х'], .cls false [.rng 'Ь' 'Ь', .rng 'ь' 'ь'], .cls false [.rng 'А' 'А', .rng 'а' 'а'], .cls false [.rng 'Л' 'Л', .rng 'л' 'л'], .cls false [.rng 'Х' 'Х', .rng 'х' 'х'], .cls false [.rng 'А' 'А', .rng 'а' 'а']], .seqs [.number, .lit [' '], .cls false [.rng 'М' 'М', .rng 'м' 'м'], .cls false [.rng 'И' 'И', .rng 'и' 'и'], .cls false [.rng 'Н' 'Н', .rng 'н' 'н'], .cls false [.rng 'О' 'О', .rng 'о' 'о', .rng 'ᲂ' 'ᲂ'], .cls false [.rng 'Т' 'Т', .rng 'т' 'т', .rng 'ᲄ' 'ᲄ', .rng 'ᲅ' 'ᲅ'], .lit [' '], .cls false [.rng 'Х' 'Х', .rng 'х' 'х'], .cls false [.rng 'Ь' 'Ь', .rng 'ь' 'ь'], .cls false [.rng 'А' 'А', .rng 'а' 'а'], .cls false [.rng 'Л' 'Л', .rng 'л' 'л'], .cls false [.rng 'Х' 'Х', .rng 'х' 'х'], .cls false [.rng 'А' 'А', .rng 'а' 'а']], .seqs [.number, .lit [' '], .cls false [.rng 'С' 'С', .rng 'с' 'с', .rng 'ᲃ' 'ᲃ'], .cls false [.rng 'А' 'А', .rng 'а' 'а'], .cls false [.rng 'Х' 'Х', .rng 'х' 'х'], .cls false [.rng 'Ь' 'Ь', .rng 'ь' 'ь'], .cls false [.rng 'Т' 'Т', .rng 'т' 'т', .rng 'ᲄ' 'ᲄ', .rng 'ᲅ' 'ᲅ'], .lit [' '], .cls false [.rng 'Д' 'Д', .rng 'д' 'д', .rng 'ᲁ' 'ᲁ'], .cls false [.rng 'А' 'А', .rng 'а' 'а'], .cls false [.rng 'Ь' 'Ь', .rng 'ь' 'ь'], .cls false [.rng 'Л' 'Л', .rng 'л' 'л'], .cls false [.rng 'Ч' 'Ч', .rng 'ч' 'ч'], .cls false [.rng 'А' 'А', .rng 'а' 'а']], .seqs [.number, .lit [' '], .cls false [.rng 'С' 'С', .rng 'с' 'с', .rng 'ᲃ' 'ᲃ'], .cls false [.rng 'А' 'А', .rng 'а' 'а'], .cls false [.rng 'Х' 'Х', .rng 'х' 'х'], .cls false [.rng 'Ь' 'Ь', .rng 'ь' 'ь'], .cls false [.rng 'Т' 'Т', .rng 'т' 'т', .rng 'ᲄ' 'ᲄ', .rng 'ᲅ' 'ᲅ'], .lit [' '], .cls false [.rng 'Х' 'Х', .rng 'х' 'х'], .cls false [.rng 'Ь' 'Ь', .rng 'ь' 'ь'], .cls false [.rng 'А' 'А', .rng 'а' 'а'], .cls false [.rng 'Л' 'Л', .rng 'л' 'л'], .cls false [.rng 'Х' 'Х', .rng 'х' 'х'], .cls false [.rng 'А' 'А', .rng 'а' 'а']], .seqs [.number, .lit [' '], .cls false [.rng 'С' 'С', .rng 'с' 'с', .rng 'ᲃ' 'ᲃ'], .cls false [.rng 'Е' 'Е', .rng 'е' 'е'], .cls false [.rng 'К' 'К', .rng 'к' 'к'], .cls false [.rng 'У' 'У', .rng 'у' 'у'], .cls false [.rng 'Н' 'Н', .rng 'н' 'н'], .cls false [.rng 'Д' 'Д', .rng 'д' 'д', .rng 'ᲁ' 'ᲁ'], .lit [' '], .cls false [.rng 'Я' 'Я', .rng 'я' 'я'], .cls false [.rng 'Ь' 'Ь', .rng 'ь' 'ь'], .cls false [.rng 'Л' 'Л', .rng 'л' 'л'], .cls false [.rng 'Ч' 'Ч', .rng 'ч' 'ч'], .cls false [.rng 'А' 'А', .rng 'а' 'а']], .seqs [.number, .lit [' '], .cls false [.rng 'Б' 'Б', .rng 'б' 'б'], .cls false [.rng 'У' 'У', .rng 'у' 'у'], .cls false [.rng 'Т' 'Т', .rng 'т' 'т', .rng 'ᲄ' 'ᲄ', .rng 'ᲅ' 'ᲅ'], .cls false [.rng 'Т' 'Т', .rng 'т' 'т', .rng 'ᲄ' 'ᲄ', .rng 'ᲅ' 'ᲅ'], .lit [' '], .cls false [.rng 'Б' 'Б', .rng 'б' 'б'], .cls false [.rng 'А' 'А', .rng 'а' 'а'], .cls false [.rng 'Ь' 'Ь', .rng 'ь' 'ь'], .cls false [.rng 'Л' 'Л', .rng 'л' 'л'], .cls false [.rng 'Ч' 'Ч', .rng 'ч' 'ч'], .cls false [.rng 'А' 'А', .rng 'а' 'а']], .seqs [.number, .lit [' '], .cls false [.rng 'Б' 'Б', .rng 'б' 'б'], .cls false [.rng 'У' 'У', .rng 'у' 'у'], .cls false [.rng 'Т' 'Т', .rng 'т' 'т', .rng 'ᲄ' 'ᲄ', .rng 'ᲅ' 'ᲅ'], .cls false [.rng 'Т' 'Т', .rng 'т' 'т', .rng 'ᲄ' 'ᲄ', .rng 'ᲅ' 'ᲅ'], .lit [' '], .cls false [.rng 'Х' 'Х', .rng 'х' 'х'], .cls false [.rng 'Ь' 'Ь', .rng 'ь' 'ь'], .cls false [.rng 'А' 'А', .rng 'а' 'а'], .cls false [.rng 'Л' 'Л', .rng 'л' 'л'], .cls false [.rng 'Х' 'Х', .rng 'х' 'х'], .cls false [.rng 'А' 'А', .rng 'а' 'а']], .seqs [.number, .lit [' '], .cls false [.rng 'К' 'К', .rng 'к' 'к'], .cls false [.rng 'Ӏ' 'Ӏ', .rng 'ӏ' 'ӏ'], .cls false [.rng 'И' 'И', .rng 'и' 'и'], .cls false [.rng 'Р' 'Р', .rng 'р' 'р'], .lit [' '], .cls false [.rng 'Д' 'Д', .rng 'д' 'д', .rng 'ᲁ' 'ᲁ'], .cls false [.rng 'А' 'А', .rng 'а' 'а'], .cls false [.rng 'Ь' 'Ь', .rng 'ь' 'ь'], .cls false [.rng 'Л' 'Л', .rng 'л' 'л'], .cls false [.rng 'Ч' 'Ч', .rng 'ч' 'ч'], .cls false [.rng 'А' 'А', .rng 'а' 'а']], .seqs [.number, .lit [' '], .cls false [.rng 'К' 'К', .rng 'к' 'к'], .cls false [.rng 'Ӏ' 'Ӏ', .rng 'ӏ' 'ӏ'], .cls false [.rng 'И' 'И', .rng 'и' 'и'], .cls false [.rng 'Р' 'Р', .rng 'р' 'р'], .lit [' '], .cls false [.rng 'Х' 'Х', .rng 'х' 'х'], .cls false [.rng 'Ь' 'Ь', .rng 'ь' 'ь'], .cls false [.rng 'А' 'А', .rng 'а' 'а'], .cls false [.rng 'Л' 'Л', .rng 'л' 'л'], .cls false [.rng 'Х' 'Х', .rng 'х' 'х'], .cls false [.rng 'А' 'А', .rng 'а' 'а']], .seqs [.number, .lit [' '], .cls false [.rng 'М' 'М', .rng 'м' 'м'], .cls false [.rng 'И' 'И', .rng 'и' 'и'], .cls false [.rng 'Н' 'Н', .rng 'н' 'н'], .cls false [.rng 'О' 'О', .rng 'о' 'о', .rng 'ᲂ' 'ᲂ'], .cls false [.rng 'Т' 'Т', .rng 'т' 'т', .rng 'ᲄ' 'ᲄ', .rng 'ᲅ' 'ᲅ'], .lit [' '], .cls false [.rng 'Я' 'Я', .rng 'я' 'я'], .cls false [.rng 'Ь' 'Ь', .rng 'ь' 'ь'], .cls false [.rng 'Л' 'Л', .rng 'л' 'л'], .cls false [.rng 'Ч' 'Ч', .rng 'ч' 'ч'], .cls false [.rng 'А' 'А', .rng 'а' 'а']], .seqs [.number, .lit [' '], .cls false [.rng 'С' 'С', .rng 'с' 'с', .rng 'ᲃ' 'ᲃ'], .cls false [.rng 'А' 'А', .rng 'а' 'а'], .cls false [.rng 'Х' 'Х', .rng 'х' 'х'], .cls false [.rng 'Ь' 'Ь', .rng 'ь' 'ь'], .lit [' '], .cls false [.rng 'Д' 'Д', .rng 'д' 'д', .rng 'ᲁ' 'ᲁ'], .cls false [.rng 'А' 'А', .rng 'а' 'а'], .cls false [.rng 'Ь' 'Ь', .rng 'ь' 'ь'], .cls false [.rng 'Л' 'Л', .rng 'л' 'л'], .cls false [.rng 'Ч' 'Ч', .rng 'ч' 'ч'], .cls false [.rng 'А' 'А', .rng 'а' 'а']], .seqs [.number, .lit [' '], .cls false [.rng 'С' 'С', .rng 'с' 'с', .rng 'ᲃ' 'ᲃ'], .cls false [.rng 'А' 'А', .rng 'а' 'а'], .cls false [.rng 'Х' 'Х', .rng 'х' 'х'], .cls false [.rng 'Ь' 'Ь', .rng 'ь' 'ь'], .lit [' '], .cls false [.rng 'Х' 'Х', .rng 'х' 'х'], .cls false [.rng 'Ь' 'Ь', .rng 'ь' 'ь'], .cls false [.rng 'А' 'А', .rng 'а' 'а'], .cls false [.rng 'Л' 'Л', .rng 'л' 'л'], .cls false [.rng 'Х' 'Х', .rng 'х' 'х'], .cls false [.rng 'А' 'А', .rng 'а' 'а']], .seqs [.number, .lit [' '], .cls false [.rng 'М' 'М', .rng 'м' 'м'], .cls false [.rng 'И' 'И', .rng 'и' 'и'], .cls false [.rng 'Н' 'Н', .rng 'н' 'н'], .lit [' '], .cls false [.rng 'Х' 'Х', .rng 'х' 'х'], .cls false [.rng 'Ь' 'Ь', .rng 'ь' 'ь'], .cls false [.rng 'А' 'А', .rng 'а' 'а'], .cls false [.rng 'Л' 'Л', .rng 'л' 'л'], .cls false [.rng 'Х' 'Х', .rng 'х' 'х'], .cls false [.rng 'А' 'А', .rng 'а' 'а']], .seqs [.number, .lit [' '], .cls false [.rng 'С' 'С', .rng 'с' 'с', .rng 'ᲃ' 'ᲃ'], .cls false [.rng 'Е' 'Е', .rng 'е' 'е'], .cls false [.rng 'К' 'К', .rng 'к' 'к'], .lit [' '], .cls false [.rng 'Х' 'Х', .rng 'х' 'х'], .cls false [.rng 'Ь' 'Ь', .rng 'ь' 'ь'], .cls false [.rng 'А' 'А', .rng 'а' 'а'], .cls false [.rng 'Л' 'Л', .rng 'л' 'л'], .cls false [.rng 'Х' 'Х', .rng 'х' 'х'], .cls false [.rng 'А' 'А', .rng 'а' 'а']], .seqs [.number, .lit [' '], .cls false [.rng 'Д' 'Д', .rng 'д' 'д', .rng 'ᲁ' 'ᲁ'], .cls false [.rng 'Е' 'Е', .rng 'е' 'е'], .lit [' '], .cls false [.rng 'Д' 'Д', .rng 'д' 'д', .rng 'ᲁ' 'ᲁ'], .cls false [.rng 'А' 'А', .rng 'а' 'а'], .cls false [.rng 'Ь' 'Ь', .rng 'ь' 'ь'], .cls false [.rng 'Л' 'Л', .rng 'л' 'л'], .cls false [.rng 'Ч' 'Ч', .rng 'ч' 'ч'], .cls false [.rng 'А' 'А', .rng 'а' 'а']], .seqs [.number, .lit [' '], .cls false [.rng 'Д' 'Д', .rng 'д' 'д', .rng 'ᲁ' 'ᲁ'], .cls false [.rng 'Е' 'Е', .rng 'е' 'е'], .lit [' '], .cls false [.rng 'Х' 'Х', .rng 'х' 'х'], .cls false [.rng 'Ь' 'Ь', .rng 'ь' 'ь'], .cls false [.rng 'А' 'А', .rng 'а' 'а'], .cls false [.rng 'Л' 'Л', .rng 'л' 'л'], .cls false [.rng 'Х' 'Х', .rng 'х' 'х'], .cls false [.rng 'А' 'А', .rng 'а' 'а']], .seqs [.number, .lit [' '], .cls false [.rng 'М' 'М', .rng 'м' 'м'], .cls false [.rng 'И' 'И', .rng 'и' 'и'], .cls false [.rng 'Н' 'Н', .rng 'н' 'н'], .lit [' '], .cls false [.rng 'Я' 'Я', .rng 'я' 'я'], .cls false [.rng 'Ь' 'Ь', .rng 'ь' 'ь'], .cls false [.rng 'Л' 'Л', .rng 'л' 'л'], .cls false [.rng 'Ч' 'Ч', .rng 'ч' 'ч'], .cls false [.rng 'А' 'А', .rng 'а' 'а']], .seqs [.number, .lit [' '], .cls false [.rng 'С' 'С', .rng 'с' 'с', .rng 'ᲃ' 'ᲃ'], .cls false [.rng 'Е' 'Е', .rng 'е' 'е'], .cls false [.rng 'К' 'К', .rng 'к' 'к'], .lit [' '], .cls false [.rng 'Я' 'Я', .rng 'я' 'я'], .cls false [.rng 'Ь' 'Ь', .rng 'ь' 'ь'], .cls false [.rng 'Л' 'Л', .rng 'л' 'л'], .cls false [.rng 'Ч' 'Ч', .rng 'ч' 'ч'], .cls false [.rng 'А' 'А', .rng 'а' 'а']], .seqs [.number, .lit [' '], .cls false [.rng 'Ш' 'Ш', .rng 'ш' 'ш'], .cls false [.rng 'О' 'О', .rng 'о' 'о', .rng 'ᲂ' 'ᲂ'], .lit [' '], .cls false [.rng 'Д' 'Д', .rng 'д' 'д', .rng 'ᲁ' 'ᲁ'], .cls false [.rng 'А' 'А', .rng 'а' 'а'], .cls false [.rng 'Ь' 'Ь', .rng 'ь' 'ь'], .cls false [.rng 'Л' 'Л', .rng 'л' 'л'], .cls false [.rng 'Ч' 'Ч', .rng 'ч' 'ч'], .cls false [.rng 'А' 'А', .rng 'а' 'а']], .seqs [.number, .lit [' '], .cls false [.rng 'Ш' 'Ш', .rng 'ш' 'ш'], .cls false [.rng 'О' 'О', .rng 'о' 'о', .rng 'ᲂ' 'ᲂ'], .lit [' '], .cls false [.rng 'Х' 'Х', .rng 'х' 'х'], .cls false [.rng 'Ь' 'Ь', .rng 'ь' 'ь'], .cls false [.rng 'А' 'А', .rng 'а' 'а'], .cls false [.rng 'Л' 'Л', .rng 'л' 'л'], .cls false [.rng 'Х' 'Х', .rng 'х' 'х'], .cls false [.rng 'А' 'А', .rng 'а' 'а']], .seqs [.number, .lit [' '], .cls false [.rng 'Б' 'Б', .rng 'б' 'б'], .lit [' '], .cls false [.rng 'Б' 'Б', .rng 'б' 'б'], .cls false [.rng 'А' 'А', .rng 'а' 'а'], .cls false [.rng 'Ь' 'Ь', .rng 'ь' 'ь'], .cls false [.rng 'Л' 'Л', .rng 'л' 'л'], .cls false [.rng 'Ч' 'Ч', .rng 'ч' 'ч'], .cls false [.rng 'А' 'А', .rng 'а' 'а']], .seqs [.number, .lit [' '], .cls false [.rng 'Б' 'Б', .rng 'б' 'б'], .lit [' '], .cls false [.rng 'Х' 'Х', .rng 'х' 'х'], .cls false [.rng 'Ь' 'Ь', .rng 'ь' 'ь'], .cls false [.rng 'А' 'А', .rng 'а' 'а'], .cls false [.rng 'Л' 'Л', .rng 'л' 'л'], .cls false [.rng 'Х' 'Х', .rng 'х' 'х'], .cls false [.rng 'А' 'А', .rng 'а' 'а']], .seqs [.number, .lit [' '], .cls false [.rng 'Д' 'Д', .rng 'д' 'д', .rng 'ᲁ' 'ᲁ'], .lit [' '], .cls false [.rng 'Д' 'Д', .rng 'д' 'д', .rng 'ᲁ' 'ᲁ'], .cls false [.rng 'А' 'А', .rng 'а' 'а'], .cls false [.rng 'Ь' 'Ь', .rng 'ь' 'ь'], .cls false [.rng 'Л' 'Л', .rng 'л' 'л'], .cls false [.rng 'Ч' 'Ч', .rng 'ч' 'ч'], .cls false [.rng 'А' 'А', .rng 'а' 'а']], .seqs [.number, .lit [' '], .cls false [.rng 'Д' 'Д', .rng 'д' 'д', .rng 'ᲁ' 'ᲁ'], .lit [' '], .cls false [.rng 'Х' 'Х', .rng 'х' 'х'], .cls false [.rng 'Ь' 'Ь', .rng 'ь' 'ь'], .cls false [.rng 'А' 'А', .rng 'а' 'а'], .cls false [.rng 'Л' 'Л', .rng 'л' 'л'], .cls false [.rng 'Х' 'Х', .rng 'х' 'х'], .cls false [.rng 'А' 'А', .rng 'а' 'а']], .seqs [.number, .lit [' '], .cls false [.rng 'Ш' 'Ш', .rng 'ш' 'ш'], .lit [' '], .cls false [.rng 'Д' 'Д', .rng 'д' 'д', .rng 'ᲁ' 'ᲁ'], .cls false [.rng 'А' 'А', .rng 'а' 'а'], .cls false [.rng 'Ь' 'Ь', .rng 'ь' 'ь'], .cls false [.rng 'Л' 'Л', .rng 'л' 'л'], .cls false [.rng 'Ч' 'Ч', .rng 'ч' 'ч'], .cls false [.rng 'А' 'А', .rng 'а' 'а']], .seqs [.number, .lit [' '], .cls false [.rng 'Ш' 'Ш', .rng 'ш' 'ш'], .lit [' '], .cls false [.rng 'Х' 'Х', .rng 'х' 'х'], .cls false [.rng 'Ь' 'Ь', .rng 'ь' 'ь'], .cls false [.rng 'А' 'А', .rng 'а' 'а'], .cls false [.rng 'Л' 'Л', .rng 'л' 'л'], .cls false [.rng 'Х' 'Х', .rng 'х' 'х'], .cls false [.rng 'А' 'А', .rng 'а' 'а']]]), .eos]),
  knownWords :=
   [['р', 'о', 'г', 'ӏ', 'е', 'р', 'ч', 'у', ' ', 'к', 'ӏ', 'и', 'р', 'н', 'а', 'х', 'ь'], ['д', 'а', 'х', 'а', 'н', 'ч', 'у', ' ', 'к', 'ӏ', 'и', 'р', 'н', 'а', 'х', 'ь'], ['к', 'а', 'р', 'а', 'р', 'ч', 'у', ' ', 'к', 'ӏ', 'и', 'р', 'н', 'а', 'х', 'ь'], ['р', 'о', 'г', 'ӏ', 'е', 'р', 'ч', 'у', ' ', 'б', 'а', 'т', 'т', 'а', 'х', 'ь'], ['б', 'а', 'х', 'а', 'н', 'ч', 'у', ' ', 'б', 'а', 'т', 'т', 'а', 'х', 'ь'], ['к', 'а', 'р', 'а', 'р', 'ч', 'у', ' ', 'б', 'а', 'т', 'т', 'а', 'х', 'ь'], ['р', 'о', 'г', 'ӏ', 'е', 'р', 'ч', 'у', ' ', 'ш', 'а', 'р', 'а', 'х', 'ь'], ['д', 'а', 'х', 'а', 'н', 'ч', 'у', ' ', 'ш', 'а', 'р', 'а', 'х', 'ь'], ['к', 'а', 'р', 'а', 'р', 'ч', 'у', ' ', 'ш', 'а', 'р', 'а', 'х', 'ь'], ['п', 'ӏ', 'е', 'р', 'а', 'с', 'к', 'а', 'н', ' ', 'д', 'е'], ['t', 'h', 'i', 's', ' ', 'm', 'i', 'n', 'u', 't', 'e'], ['к', 'ӏ', 'и', 'р', 'а', 'н', 'а', 'н', ' ', 'д', 'е'], ['к', 'х', 'а', 'а', 'р', 'и', 'н', ' ', 'д', 'е'], ['о', 'р', 'ш', 'о', 'т', 'а', 'н', ' ', 'д', 'е'], ['ш', 'и', 'н', 'а', 'р', 'и', 'н', ' ', 'д', 'е'], ['t', 'h', 'i', 's', ' ', 'h', 'o', 'u', 'r'], ['е', 'а', 'р', 'и', 'н', ' ', 'д', 'е'], ['с', 'е', 'н', 'т', 'я', 'б', 'р', 'ь'], ['д', 'е', 'к', 'а', 'б', 'р', 'ь'], ['о', 'к', 'т', 'я', 'б', 'р', 'ь'], ['с', 'е', 'л', 'х', 'а', 'н', 'а'], ['ф', 'е', 'в', 'р', 'а', 'л', 'ь'], ['а', 'в', 'г', 'у', 'с', 'т'], ['а', 'п', 'р', 'е', 'л', 'ь'], ['н', 'о', 'я', 'б', 'р', 'ь'], ['с', 'е', 'к', 'у', 'н', 'д'], ['т', 'а', 'х', 'а', 'н', 'а'], ['ш', 'о', 'т', ' ', 'д', 'е'], ['я', 'н', 'в', 'а', 'р', 'ь'], ['к', 'х', 'а', 'н', 'а'], ['к', 'ӏ', 'и', 'р', 'а'], ['м', 'и', 'н', 'о', 'т'], ['с', 'а', 'х', 'ь', 'т'], ['б', 'у', 'т', 'т'], ['и', 'ю', 'л', 'ь'], ['и', 'ю', 'н', 'ь'], ['к', 'ӏ', 'и', 'р'], ['м', 'а', 'р', 'т'], ['с', 'а', 'х', 'ь'], ['g', 'm', 't'], ['n', 'o', 'w'], ['u', 't', 'c'], ['а', 'в', 'г'], ['а', 'п', 'р'], ['б', 'у', 'т'], ['д', 'е', 'к'], ['и', 'ю', 'л'], ['и', 'ю', 'н'], ['м', 'а', 'и'], ['м', 'а', 'р'], ['м', 'и', 'н'], ['н', 'о', 'я'], ['о', 'к', 'т'], ['с', 'е', 'к'], ['с', 'е', 'н'], ['ф', 'е', 'в'], ['я', 'н', 'в'], ['a', 'm'], ['p', 'm'], ['д', 'е'], ['ш', 'о'], [' '], ['\''], ['+'], [','], ['-'], ['.'], ['/'], [':'], [';'], ['@'], ['['], [']'], ['z'], ['|'], ['ш']] }

/-- internal/data/cgg.go: `cgg_Locale`. -/
def cggLang : LangData := { cggDict with
  knownWords :=
   [['o', 'k', 'w', 'a', 'i', 'k', 'u', 'm', 'i', ' ', 'n', 'a', ' ', 'i', 'b', 'i', 'r', 'i'], ['o', 'k', 'w', 'a', 'i', 'k', 'u', 'm', 'i', ' ', 'n', 'a', ' ', 'k', 'u', 'm', 'w', 'e'], ['o', 'b', 'u', 'c', 'w', 'e', 'k', 'a', '/', 'e', 's', 'e', 'k', 'e', 'n', 'd', 'i'], ['o', 'k', 'w', 'a', 'm', 'u', 's', 'h', 'a', 'n', 'j', 'u'], ['n', 'y', 'e', 'n', 'k', 'y', 'a', 'k', 'a', 'r', 'e'], ['n', 'y', 'o', 'm', 'w', 'a', 'b', 'a', 'z', 'y', 'o'], ['o', 'k', 'w', 'a', 'k', 'a', 's', 'h', 'a', 't', 'u'], ['o', 'k', 'w', 'a', 'k', 'a', 't', 'a', 'a', 'n', 'a'], ['o', 'k', 'w', 'a', 'm', 'u', 'k', 'a', 'a', 'g', 'a'], ['o', 'k', 'w', 'a', 'm', 'u', 'n', 'a', 'a', 'n', 'a'], ['o', 'k', 'w', 'o', 'k', 'u', 'b', 'a', 'n', 'z', 'a'], ['o', 'r', 'w', 'a', 'k', 'a', 's', 'h', 'a', 't', 'u'], ['o', 'r', 'w', 'a', 'k', 'a', 't', 'a', 'a', 'n', 'o'], ['o', 'r', 'w', 'a', 'm', 'u', 'k', 'a', 'a', 'g', 'a'], ['o', 'r', 'w', 'o', 'k', 'u', 'b', 'a', 'n', 'z', 'a'], ['t', 'h', 'i', 's', ' ', 'm', 'i', 'n', 'u', 't', 'e'], ['l', 'a', 's', 't', ' ', 'm', 'o', 'n', 't', 'h'], ['n', 'e', 'x', 't', ' ', 'm', 'o', 'n', 't', 'h'], ['o', 'k', 'w', 'a', 'k', 'a', 'b', 'i', 'r', 'i'], ['o', 'k', 'w', 'a', 'm', 'w', 'e', 'n', 'd', 'a'], ['o', 'r', 'w', 'a', 'k', 'a', 'b', 'i', 'r', 'i'], ['t', 'h', 'i', 's', ' ', 'm', 'o', 'n', 't', 'h'], ['l', 'a', 's', 't', ' ', 'w', 'e', 'e', 'k'], ['l', 'a', 's', 't', ' ', 'y', 'e', 'a', 'r'], ['n', 'e', 'x', 't', ' ', 'w', 'e', 'e', 'k'], ['n', 'e', 'x', 't', ' ', 'y', 'e', 'a', 'r'], ['o', 'k', 'w', 'a', 'i', 'k', 'u', 'm', 'i'], ['t', 'h', 'i', 's', ' ', 'h', 'o', 'u', 'r'], ['t', 'h', 'i', 's', ' ', 'w', 'e', 'e', 'k'], ['t', 'h', 'i', 's', ' ', 'y', 'e', 'a', 'r'], ['e', 'd', 'a', 'k', 'i', 'i', 'k', 'a'], ['e', 'r', 'i', 'z', 'o', 'o', 'b', 'a'], ['o', 'k', 'w', 'a', 'k', 'a', 'n', 'a'], ['o', 'r', 'w', 'a', 'k', 'a', 'n', 'a'], ['e', 'i', 'z', 'o', 'o', 'b', 'a'], ['e', 's', 'a', 'n', 'd', 'e'], ['o', 'm', 'w', 'a', 'k', 'a'], ['o', 'm', 'w', 'e', 'z', 'i'], ['s', 'h', 'a', 'a', 'h', 'a'], ['s', 'a', 'n', 'd', 'e'], ['g', 'm', 't'], ['k', 'b', 'r'], ['k', 'b', 'z'], ['k', 'k', 'm'], ['k', 'k', 'n'], ['k', 'm', 'k'], ['k', 'm', 'n'], ['k', 'm', 's'], ['k', 'm', 'w'], ['k', 'n', 'b'], ['k', 'n', 'k'], ['k', 's', 't'], ['k', 't', 'n'], ['n', 'o', 'w'], ['o', 'k', 'b'], ['o', 'k', 'n'], ['o', 'k', 's'], ['o', 'k', 't'], ['o', 'm', 'k'], ['o', 'r', 'k'], ['s', 'a', 'n'], ['u', 't', 'c'], ['a', 'm'], ['p', 'm'], [' '], ['\''], ['+'], [','], ['-'], ['.'], ['/'], [':'], [';'], ['@'], ['['], [']'], ['z'], ['|']] }

/-- internal/data/chr.go: `chr_Locale`. -/
def chrLang : LangData := { chrDict with
  relativeRegexes :=
   [(.seqs [.cls false [.rng 'Ꮎ' 'Ꮎ', .rng 'ꮎ' 'ꮎ'], .cls false [.rng 'Ꮏ' 'Ꮏ', .rng 'ꮏ' 'ꮏ'], .lit [' '], .grp 1 (.number), .lit [' '], .cls false [.rng 'Ꭲ' 'Ꭲ', .rng 'ꭲ' 'ꭲ'], .cls false [.rng 'Ᏻ' 'Ᏻ', .rng 'ᏻ' 'ᏻ'], .cls false [.rng 'Ꮎ' 'Ꮎ', .rng 'ꮎ' 'ꮎ'], .cls false [.rng 'Ꮩ' 'Ꮩ', .rng 'ꮩ' 'ꮩ'], .cls false [.rng 'Ꮣ' 'Ꮣ', .rng 'ꮣ' 'ꮣ'], .cls false [.rng 'Ꮖ' 'Ꮖ', .rng 'ꮖ' 'ꮖ'], .cls false [.rng 'Ꮝ' 'Ꮝ', .rng 'ꮝ' 'ꮝ'], .cls false [.rng 'Ꮧ' 'Ꮧ', .rng 'ꮧ' 'ꮧ'], .lit [' '], .cls false [.rng 'Ꮵ' 'Ꮵ', .rng 'ꮵ' 'ꮵ'], .cls false [.rng 'Ꭸ' 'Ꭸ', .rng 'ꭸ' 'ꭸ'], .cls false [.rng 'Ꮢ' 'Ꮢ', .rng 'ꮢ' 'ꮢ']], [.ref 1, .lit [' ', 'w', 'e', 'e', 'k', ' ', 'a', 'g', 'o']]),
    (.seqs [.cls false [.rng 'Ꮎ' 'Ꮎ', .rng 'ꮎ' 'ꮎ'], .cls false [.rng 'Ꮏ' 'Ꮏ', .rng 'ꮏ' 'ꮏ'], .lit [' '], .grp 1 (.number), .lit [' '], .cls false [.rng 'Ꭲ' 'Ꭲ', .rng 'ꭲ' 'ꭲ'], .cls false [.rng 'Ꮿ' 'Ꮿ', .rng 'ꮿ' 'ꮿ'], .cls false [.rng 'Ꮤ' 'Ꮤ', .rng 'ꮤ' 'ꮤ'], .cls false [.rng 'Ꮼ' 'Ꮼ', .rng 'ꮼ' 'ꮼ'], .cls false [.rng 'Ꮝ' 'Ꮝ', .rng 'ꮝ' 'ꮝ'], .cls false [.rng 'Ꮤ' 'Ꮤ', .rng 'ꮤ' 'ꮤ'], .cls false [.rng 'Ꮕ' 'Ꮕ', .rng 'ꮕ' 'ꮕ'], .lit [' '], .cls false [.rng 'Ꮵ' 'Ꮵ', .rng 'ꮵ' 'ꮵ'], .cls false [.rng 'Ꭸ' 'Ꭸ', .rng 'ꭸ' 'ꭸ'], .cls false [.rng 'Ꮢ' 'Ꮢ', .rng 'ꮢ' 'ꮢ']], [.ref 1, .lit [' ', 'm', 'i', 'n', 'u', 't', 'e', ' ', 'a', 'g', 'o']]),
    (.seqs [.cls false [.rng 'Ꮎ' 'Ꮎ', .rng 'ꮎ' 'ꮎ'], .cls false [.rng 'Ꮏ' 'Ꮏ', .rng 'ꮏ' 'ꮏ'], .lit [' '], .grp 1 (.number), .lit [' '], .cls false [.rng 'Ꮢ' 'Ꮢ', .rng 'ꮢ' 'ꮢ'], .cls false [.rng 'Ꮎ' 'Ꮎ', .rng 'ꮎ' 'ꮎ'], .cls false [.rng 'Ꮩ' 'Ꮩ', .rng 'ꮩ' 'ꮩ'], .cls false [.rng 'Ꮣ' 'Ꮣ', .rng 'ꮣ' 'ꮣ'], .cls false [.rng 'Ꮖ' 'Ꮖ', .rng 'ꮖ' 'ꮖ'], .cls false [.rng 'Ꮝ' 'Ꮝ', .rng 'ꮝ' 'ꮝ'], .cls false [.rng 'Ꮧ' 'Ꮧ', .rng 'ꮧ' 'ꮧ'], .lit [' '], .cls false [.rng 'Ꮵ' 'Ꮵ', .rng 'ꮵ' 'ꮵ'], .cls false [.rng 'Ꭸ' 'Ꭸ', .rng 'ꭸ' 'ꭸ'], .cls false [.rng 'Ꮢ' 'Ꮢ', .rng 'ꮢ' 'ꮢ']], [.ref 1, .lit [' ', 'w', 'e', 'e', 'k', ' ', 'a', 'g', 'o']]),
    (.seqs [.grp 1 (.number), .lit [' '], .cls false [.rng 'Ꭲ' 'Ꭲ', .rng 'ꭲ' 'ꭲ'], .cls false [.rng 'Ꮷ' 'Ꮷ', .rng 'ꮷ' 'ꮷ'], .cls false [.rng 'Ꮥ' 'Ꮥ', .rng 'ꮥ' 'ꮥ'], .cls false [.rng 'Ꮨ' 'Ꮨ', .rng 'ꮨ' 'ꮨ'], .cls false [.rng 'Ᏼ' 'Ᏼ', .rng 'ᏼ' 'ᏼ'], .cls false [.rng 'Ꮜ' 'Ꮜ', .rng 'ꮜ' 'ꮜ'], .cls false [.rng 'Ꮧ' 'Ꮧ', .rng 'ꮧ' 'ꮧ'], .cls false [.rng 'Ꮢ' 'Ꮢ', .rng 'ꮢ' 'ꮢ'], .cls false [.rng 'Ꭲ' 'Ꭲ', .rng 'ꭲ' 'ꭲ'], .lit [' '], .cls false [.rng 'Ꮵ' 'Ꮵ', .rng 'ꮵ' 'ꮵ'], .cls false [.rng 'Ꭸ' 'Ꭸ', .rng 'ꭸ' 'ꭸ'], .cls false [.rng 'Ꮢ' 'Ꮢ', .rng 'ꮢ' 'ꮢ']], [.ref 1, .lit [' ', 'y', 'e', 'a', 'r', ' ', 'a', 'g', 'o']]),
    (.seqs [.grp 1 (.number), .lit [' '], .cls false [.rng 'Ꭿ' 'Ꭿ', .rng 'ꭿ' 'ꭿ'], .cls false [.rng 'Ꮈ' 'Ꮈ', .rng 'ꮈ' 'ꮈ'], .cls false [.rng 'Ꮝ' 'Ꮝ', .rng 'ꮝ' 'ꮝ'], .cls false [.rng 'Ꭹ' 'Ꭹ', .rng 'ꭹ' 'ꭹ'], .lit [' '], .cls false [.rng 'Ꮷ' 'Ꮷ', .rng 'ꮷ' 'ꮷ'], .cls false [.rng 'Ꮢ' 'Ꮢ', .rng 'ꮢ' 'ꮢ'], .cls false [.rng 'Ꭿ' 'Ꭿ', .rng 'ꭿ' 'ꭿ'], .cls false [.rng 'Ꮫ' 'Ꮫ', .rng 'ꮫ' 'ꮫ'], .lit [' '], .cls false [.rng 'Ꮵ' 'Ꮵ', .rng 'ꮵ' 'ꮵ'], .cls false [.rng 'Ꭸ' 'Ꭸ', .rng 'ꭸ' 'ꭸ'], .cls false [.rng 'Ꮢ' 'Ꮢ', .rng 'ꮢ' 'ꮢ']], [.ref 1, .lit [' ', 'd', 'a', 'y', ' ', 'a', 'g', 'o']]),
    (.seqs [.cls false [.rng 'Ꮎ' 'Ꮎ', .rng 'ꮎ' 'ꮎ'], .cls false [.rng 'Ꮏ' 'Ꮏ', .rng 'ꮏ' 'ꮏ'], .lit [' '], .grp 1 (.number), .lit [' '], .cls false [.rng 'Ꮣ' 'Ꮣ', .rng 'ꮣ' 'ꮣ'], .cls false [.rng 'Ꮣ' 'Ꮣ', .rng 'ꮣ' 'ꮣ'], .cls false [.rng 'Ꮎ' 'Ꮎ', .rng 'ꮎ' 'ꮎ'], .cls false [.rng 'Ꮹ' 'Ꮹ', .rng 'ꮹ' 'ꮹ'], .cls false [.rng 'Ꮝ' 'Ꮝ', .rng 'ꮝ' 'ꮝ'], .cls false [.rng 'Ꭼ' 'Ꭼ', .rng 'ꭼ' 'ꭼ'], .lit [' '], .cls false [.rng 'Ꮵ' 'Ꮵ', .rng 'ꮵ' 'ꮵ'], .cls false [.rng 'Ꭸ' 'Ꭸ', .rng 'ꭸ' 'ꭸ'], .cls false [.rng 'Ꮢ' 'Ꮢ', .rng 'ꮢ' 'ꮢ']], [.lit ['i', 'n', ' '], .ref 1, .lit [' ', 's', 'e', 'c', 'o', 'n', 'd']]),
    (.seqs [.grp 1 (.number), .lit [' '], .cls false [.rng 'Ꭴ' 'Ꭴ', .rng 'ꭴ' 'ꭴ'], .cls false [.rng 'Ꮥ' 'Ꮥ', .rng 'ꮥ' 'ꮥ'], .cls false [.rng 'Ꮨ' 'Ꮨ', .rng 'ꮨ' 'ꮨ'], .cls false [.rng 'Ᏼ' 'Ᏼ', .rng 'ᏼ' 'ᏼ'], .cls false [.rng 'Ꮜ' 'Ꮜ', .rng 'ꮜ' 'ꮜ'], .cls false [.rng 'Ꮧ' 'Ꮧ', .rng 'ꮧ' 'ꮧ'], .cls false [.rng 'Ꮢ' 'Ꮢ', .rng 'ꮢ' 'ꮢ'], .cls false [.rng 'Ꭲ' 'Ꭲ', .rng 'ꭲ' 'ꭲ'], .lit [' '], .cls false [.rng 'Ꮵ' 'Ꮵ', .rng 'ꮵ' 'ꮵ'], .cls false [.rng 'Ꭸ' 'Ꭸ', .rng 'ꭸ' 'ꭸ'], .cls false [.rng 'Ꮢ' 'Ꮢ', .rng 'ꮢ' 'ꮢ']], [.ref 1, .lit [' ', 'y', 'e', 'a', 'r', ' ', 'a', 'g', 'o']]),
    (.seqs [.cls false [.rng 'Ꮎ' 'Ꮎ', .rng 'ꮎ' 'ꮎ'], .cls false [.rng 'Ꮏ' 'Ꮏ', .rng 'ꮏ' 'ꮏ'], .lit [' '], .grp 1 (.number), .lit [' '], .cls false [.rng 'Ꭲ' 'Ꭲ', .rng 'ꭲ' 'ꭲ'], .cls false [.rng 'Ꮷ' 'Ꮷ', .rng 'ꮷ' 'ꮷ'], .cls false [.rng 'Ꮥ' 'Ꮥ', .rng 'ꮥ' 'ꮥ'], .cls false [.rng 'Ꮨ' 'Ꮨ', .rng 'ꮨ' 'ꮨ'], .cls false [.rng 'Ᏼ' 'Ᏼ', .rng 'ᏼ' 'ᏼ'], .cls false [.rng 'Ꮜ' 'Ꮜ', .rng 'ꮜ' 'ꮜ'], .cls false [.rng 'Ꮧ' 'Ꮧ', .rng 'ꮧ' 'ꮧ'], .cls false [.rng 'Ꮢ' 'Ꮢ', .rng 'ꮢ' 'ꮢ'], .cls false [.rng 'Ꭲ' 'Ꭲ', .rng 'ꭲ' 'ꭲ']], [.lit ['i', 'n', ' '], .ref 1, .lit [' ', 'y', 'e', 'a', 'r']]),
    (.seqs [.cls false [.rng 'Ꮎ' 'Ꮎ', .rng 'ꮎ' 'ꮎ'], .cls false [.rng 'Ꮏ' 'Ꮏ', .rng 'ꮏ' 'ꮏ'], .lit [' '], .grp 1 (.number), .lit [' '], .cls false [.rng 'Ꭿ' 'Ꭿ', .rng 'ꭿ' 'ꭿ'], .cls false [.rng 'Ꮈ' 'Ꮈ', .rng 'ꮈ' 'ꮈ'], .cls false [.rng 'Ꮝ' 'Ꮝ', .rng 'ꮝ' 'ꮝ'], .cls false [.rng 'Ꭹ' 'Ꭹ', .rng 'ꭹ' 'ꭹ'], .lit [' '], .cls false [.rng 'Ꮷ' 'Ꮷ', .rng 'ꮷ' 'ꮷ'], .cls false [.rng 'Ꮢ' 'Ꮢ', .rng 'ꮢ' 'ꮢ'], .cls false [.rng 'Ꭿ' 'Ꭿ', .rng 'ꭿ' 'ꭿ'], .cls false [.rng 'Ꮫ' 'Ꮫ', .rng 'ꮫ' 'ꮫ']], [.lit ['i', 'n', ' '], .ref 1, .lit [' ', 'd', 'a', 'y']]),
    (.seqs [.cls false [.rng 'Ꮎ' 'Ꮎ', .rng 'ꮎ' 'ꮎ'], .cls false [.rng 'Ꮏ' 'Ꮏ', .rng 'ꮏ' 'ꮏ'], .lit [' '], .grp 1 (.number), .lit [' '], .cls false [.rng 'Ꭲ' 'Ꭲ', .rng 'ꭲ' 'ꭲ'], .cls false [.rng 'Ᏻ' 'Ᏻ', .rng 'ᏻ' 'ᏻ'], .cls false [.rng 'Ꮎ' 'Ꮎ', .rng 'ꮎ' 'ꮎ'], .cls false [.rng 'Ꮩ' 'Ꮩ', .rng 'ꮩ' 'ꮩ'], .cls false [.rng 'Ꮣ' 'Ꮣ', .rng 'ꮣ' 'ꮣ'], .cls false [.rng 'Ꮖ' 'Ꮖ', .rng 'ꮖ' 'ꮖ'], .cls false [.rng 'Ꮝ' 'Ꮝ', .rng 'ꮝ' 'ꮝ'], .cls false [.rng 'Ꮧ' 'Ꮧ', .rng 'ꮧ' 'ꮧ']], [.lit ['i', 'n', ' '], .ref 1, .lit [' ', 'w', 'e', 'e', 'k']]),
    (.seqs [.cls false [.rng 'Ꮎ' 'Ꮎ', .rng 'ꮎ' 'ꮎ'], .cls false [.rng 'Ꮏ' 'Ꮏ', .rng 'ꮏ' 'ꮏ'], .lit [' '], .grp 1 (.number), .lit [' '], .cls false [.rng 'Ꭴ' 'Ꭴ', .rng 'ꭴ' 'ꭴ'], .cls false [.rng 'Ꮥ' 'Ꮥ', .rng 'ꮥ' 'ꮥ'], .cls false [.rng 'Ꮨ' 'Ꮨ', .rng 'ꮨ' 'ꮨ'], .cls false [.rng 'Ᏼ' 'Ᏼ', .rng 'ᏼ' 'ᏼ'], .cls false [.rng 'Ꮜ' 'Ꮜ', .rng 'ꮜ' 'ꮜ'], .cls false [.rng 'Ꮧ' 'Ꮧ', .rng 'ꮧ' 'ꮧ'], .cls false [.rng 'Ꮢ' 'Ꮢ', .rng 'ꮢ' 'ꮢ'], .cls false [.rng 'Ꭲ' 'Ꭲ', .rng 'ꭲ' 'ꭲ']], [.lit ['i', 'n', ' '], .ref 1, .lit [' ', 'y', 'e', 'a', 'r']]),
    (.seqs [.cls false [.rng 'Ꮎ' 'Ꮎ', .rng 'ꮎ' 'ꮎ'], .cls false [.rng 'Ꮏ' 'Ꮏ', .rng 'ꮏ' 'ꮏ'], .lit [' '], .grp 1 (.number), .lit [' '], .cls false [.rng 'Ꮧ' 'Ꮧ', .rng 'ꮧ' 'ꮧ'], .cls false [.rng 'Ꭷ' 'Ꭷ', .rng 'ꭷ' 'ꭷ'], .cls false [.rng 'Ꮈ' 'Ꮈ', .rng 'ꮈ' 'ꮈ'], .cls false [.rng 'Ꭲ' 'Ꭲ', .rng 'ꭲ' 'ꭲ'], .lit [' '], .cls false [.rng 'Ꮵ' 'Ꮵ', .rng 'ꮵ' 'ꮵ'], .cls false [.rng 'Ꭸ' 'Ꭸ', .rng 'ꭸ' 'ꭸ'], .cls false [.rng 'Ꮢ' 'Ꮢ', .rng 'ꮢ' 'ꮢ']], [.ref 1, .lit [' ', 'm', 'o', 'n', 't', 'h', ' ', 'a', 'g', 'o']]),
    (.seqs [.grp 1 (.number), .lit [' '], .cls false [.rng 'Ꮣ' 'Ꮣ', .rng 'ꮣ' 'ꮣ'], .cls false [.rng 'Ꮣ' 'Ꮣ', .rng 'ꮣ' 'ꮣ'], .cls false [.rng 'Ꮎ' 'Ꮎ', .rng 'ꮎ' 'ꮎ'], .cls false [.rng 'Ꮹ' 'Ꮹ', .rng 'ꮹ' 'ꮹ'], .cls false [.rng 'Ꮝ' 'Ꮝ', .rng 'ꮝ' 'ꮝ'], .cls false [.rng 'Ꭼ' 'Ꭼ', .rng 'ꭼ' 'ꭼ'], .lit [' '], .cls false [.rng 'Ꮵ' 'Ꮵ', .rng 'ꮵ' 'ꮵ'], .cls false [.rng 'Ꭸ' 'Ꭸ', .rng 'ꭸ' 'ꭸ'], .cls false [.rng 'Ꮢ' 'Ꮢ', .rng 'ꮢ' 'ꮢ']], [.ref 1, .lit [' ', 's', 'e', 'c', 'o', 'n', 'd', ' ', 'a', 'g', 'o']]),
    (.seqs [.cls false [.rng 'Ꮎ' 'Ꮎ', .rng 'ꮎ' 'ꮎ'], .cls false [.rng 'Ꮏ' 'Ꮏ', .rng 'ꮏ' 'ꮏ'], .lit [' '], .grp 1 (.number), .lit [' '], .cls false [.rng 'Ꭲ' 'Ꭲ', .rng 'ꭲ' 'ꭲ'], .cls false [.rng 'Ꮿ' 'Ꮿ', .rng 'ꮿ' 'ꮿ'], .cls false [.rng 'Ꮤ' 'Ꮤ', .rng 'ꮤ' 'ꮤ'], .lit [' '], .cls false [.rng 'Ꮵ' 'Ꮵ', .rng 'ꮵ' 'ꮵ'], .cls false [.rng 'Ꭸ' 'Ꭸ', .rng 'ꭸ' 'ꭸ'], .cls false [.rng 'Ꮢ' 'Ꮢ', .rng 'ꮢ' 'ꮢ']], [.ref 1, .lit [' ', 'm', 'i', 'n', 'u', 't', 'e', ' ', 'a', 'g', 'o']]),
    (.seqs [.cls false [.rng 'Ꮎ' 'Ꮎ', .rng 'ꮎ' 'ꮎ'], .cls false [.rng 'Ꮏ' 'Ꮏ', .rng 'ꮏ' 'ꮏ'], .lit [' '], .grp 1 (.number), .lit [' '], .cls false [.rng 'Ꭲ' 'Ꭲ', .rng 'ꭲ' 'ꭲ'], .cls false [.rng 'Ꮿ' 'Ꮿ', .rng 'ꮿ' 'ꮿ'], .cls false [.rng 'Ꮤ' 'Ꮤ', .rng 'ꮤ' 'ꮤ'], .cls false [.rng 'Ꮼ' 'Ꮼ', .rng 'ꮼ' 'ꮼ'], .cls false [.rng 'Ꮝ' 'Ꮝ', .rng 'ꮝ' 'ꮝ'], .cls false [.rng 'Ꮤ' 'Ꮤ', .rng 'ꮤ' 'ꮤ'], .cls false [.rng 'Ꮕ' 'Ꮕ', .rng 'ꮕ' 'ꮕ']], [.lit ['i', 'n', ' '], .ref 1, .lit [' ', 'm', 'i', 'n', 'u', 't', 'e']]),
    (.seqs [.cls false [.rng 'Ꮎ' 'Ꮎ', .rng 'ꮎ' 'ꮎ'], .cls false [.rng 'Ꮏ' 'Ꮏ', .rng 'ꮏ' 'ꮏ'], .lit [' '], .grp 1 (.number), .lit [' '], .cls false [.rng 'Ꭷ' 'Ꭷ', .rng 'ꭷ' 'ꭷ'], .cls false [.rng 'Ꮈ' 'Ꮈ', .rng 'ꮈ' 'ꮈ'], .cls false [.rng 'Ꭲ' 'Ꭲ', .rng 'ꭲ' 'ꭲ'], .lit [' '], .cls false [.rng 'Ꮵ' 'Ꮵ', .rng 'ꮵ' 'ꮵ'], .cls false [.rng 'Ꭸ' 'Ꭸ', .rng 'ꭸ' 'ꭸ'], .cls false [.rng 'Ꮢ' 'Ꮢ', .rng 'ꮢ' 'ꮢ']], [.ref 1, .lit [' ', 'm', 'o', 'n', 't', 'h', ' ', 'a', 'g', 'o']]),
    (.seqs [.cls false [.rng 'Ꮎ' 'Ꮎ', .rng 'ꮎ' 'ꮎ'], .cls false [.rng 'Ꮏ' 'Ꮏ', .rng 'ꮏ' 'ꮏ'], .lit [' '], .grp 1 (.number), .lit [' '], .cls false [.rng 'Ꮢ' 'Ꮢ', .rng 'ꮢ' 'ꮢ'], .cls false [.rng 'Ꮎ' 'Ꮎ', .rng 'ꮎ' 'ꮎ'], .cls false [.rng 'Ꮩ' 'Ꮩ', .rng 'ꮩ' 'ꮩ'], .cls false [.rng 'Ꮣ' 'Ꮣ', .rng 'ꮣ' 'ꮣ'], .cls false [.rng 'Ꮖ' 'Ꮖ', .rng 'ꮖ' 'ꮖ'], .cls false [.rng 'Ꮝ' 'Ꮝ', .rng 'ꮝ' 'ꮝ'], .cls false [.rng 'Ꮧ' 'Ꮧ', .rng 'ꮧ' 'ꮧ']], [.lit ['i', 'n', ' '], .ref 1, .lit [' ', 'w', 'e', 'e', 'k']]),
    (.seqs [.grp 1 (.number), .lit [' '], .cls false [.rng 'Ꭲ' 'Ꭲ', .rng 'ꭲ' 'ꭲ'], .cls false [.rng 'Ᏻ' 'Ᏻ', .rng 'ᏻ' 'ᏻ'], .cls false [.rng 'Ꮯ' 'Ꮯ', .rng 'ꮯ' 'ꮯ'], .cls false [.rng 'Ꮆ' 'Ꮆ', .rng 'ꮆ' 'ꮆ'], .cls false [.rng 'Ꮣ' 'Ꮣ', .rng 'ꮣ' 'ꮣ'], .lit [' '], .cls false [.rng 'Ꮵ' 'Ꮵ', .rng 'ꮵ' 'ꮵ'], .cls false [.rng 'Ꭸ' 'Ꭸ', .rng 'ꭸ' 'ꭸ'], .cls false [.rng 'Ꮢ' 'Ꮢ', .rng 'ꮢ' 'ꮢ']], [.ref 1, .lit [' ', 'h', 'o', 'u', 'r', ' ', 'a', 'g', 'o']]),
    (.seqs [.cls false [.rng 'Ꮎ' 'Ꮎ', .rng 'ꮎ' 'ꮎ'], .cls false [.rng 'Ꮏ' 'Ꮏ', .rng 'ꮏ' 'ꮏ'], .lit [' '], .grp 1 (.number), .lit [' '], .cls false [.rng 'Ꭴ' 'Ꭴ', .rng 'ꭴ' 'ꭴ'], .cls false [.rng 'Ꮥ' 'Ꮥ', .rng 'ꮥ' 'ꮥ'], .lit [' '], .cls false [.rng 'Ꮵ' 'Ꮵ', .rng 'ꮵ' 'ꮵ'], .cls false [.rng 'Ꭸ' 'Ꭸ', .rng 'ꭸ' 'ꭸ'], .cls false [.rng 'Ꮢ' 'Ꮢ', .rng 'ꮢ' 'ꮢ']], [.ref 1, .lit [' ', 'y', 'e', 'a', 'r', ' ', 'a', 'g', 'o']]),
    (.seqs [.cls false [.rng 'Ꮎ' 'Ꮎ', .rng 'ꮎ' 'ꮎ'], .cls false [.rng 'Ꮏ' 'Ꮏ', .rng 'ꮏ' 'ꮏ'], .lit [' '], .grp 1 (.number), .lit [' '], .cls false [.rng 'Ꭷ' 'Ꭷ', .rng 'ꭷ' 'ꭷ'], .cls false [.rng 'Ꮈ' 'Ꮈ', .rng 'ꮈ' 'ꮈ'], .lit [' '], .cls false [.rng 'Ꮵ' 'Ꮵ', .rng 'ꮵ' 'ꮵ'], .cls false [.rng 'Ꭸ' 'Ꭸ', .rng 'ꭸ' 'ꭸ'], .cls false [.rng 'Ꮢ' 'Ꮢ', .rng 'ꮢ' 'ꮢ']], [.ref 1, .lit [' ', 'm', 'o', 'n', 't', 'h', ' ', 'a', 'g', 'o']]),
    (.seqs [.cls false [.rng 'Ꮎ' 'Ꮎ', .rng 'ꮎ' 'ꮎ'], .cls false [.rng 'Ꮏ' 'Ꮏ', .rng 'ꮏ' 'ꮏ'], .lit [' '], .grp 1 (.number), .lit [' '], .cls false [.rng 'Ꮡ' 'Ꮡ', .rng 'ꮡ' 'ꮡ'], .cls false [.rng 'Ꮯ' 'Ꮯ', .rng 'ꮯ' 'ꮯ'], .lit [' '], .cls false [.rng 'Ꮵ' 'Ꮵ', .rng 'ꮵ' 'ꮵ'], .cls false [.rng 'Ꭸ' 'Ꭸ', .rng 'ꭸ' 'ꭸ'], .cls false [.rng 'Ꮢ' 'Ꮢ', .rng 'ꮢ' 'ꮢ']], [.ref 1, .lit [' ', 'h', 'o', 'u', 'r', ' ', 'a', 'g', 'o']]),
    (.seqs [.cls false [.rng 'Ꮎ' 'Ꮎ', .rng 'ꮎ' 'ꮎ'], .cls false [.rng 'Ꮏ' 'Ꮏ', .rng 'ꮏ' 'ꮏ'], .lit [' '], .grp 1 (.number), .lit [' '], .cls false [.rng 'Ꮢ' 'Ꮢ', .rng 'ꮢ' 'ꮢ'], .cls false [.rng 'Ꮎ' 'Ꮎ', .rng 'ꮎ' 'ꮎ'], .lit [' '], .cls false [.rng 'Ꮵ' 'Ꮵ', .rng 'ꮵ' 'ꮵ'], .cls false [.rng 'Ꭸ' 'Ꭸ', .rng 'ꭸ' 'ꭸ'], .cls false [.rng 'Ꮢ' 'Ꮢ', .rng 'ꮢ' 'ꮢ']], [.ref 1, .lit [' ', 'w', 'e', 'e', 'k', ' ', 'a', 'g', 'o']]),
    (.seqs [.grp 1 (.number), .lit [' '], .cls false [.rng 'Ꮡ' 'Ꮡ', .rng 'ꮡ' 'ꮡ'], .cls false [.rng 'Ꮯ' 'Ꮯ', .rng 'ꮯ' 'ꮯ'], .cls false [.rng 'Ꮆ' 'Ꮆ', .rng 'ꮆ' 'ꮆ'], .cls false [.rng 'Ꮣ' 'Ꮣ', .rng 'ꮣ' 'ꮣ'], .lit [' '], .cls false [.rng 'Ꮵ' 'Ꮵ', .rng 'ꮵ' 'ꮵ'], .cls false [.rng 'Ꭸ' 'Ꭸ', .rng 'ꭸ' 'ꭸ'], .cls false [.rng 'Ꮢ' 'Ꮢ', .rng 'ꮢ' 'ꮢ']], [.ref 1, .lit [' ', 'h', 'o', 'u', 'r', ' ', 'a', 'g', 'o']]),
    (.seqs [.cls false [.rng 'Ꮎ' 'Ꮎ', .rng 'ꮎ' 'ꮎ'], .cls false [.rng 'Ꮏ' 'Ꮏ', .rng 'ꮏ' 'ꮏ'], .lit [' '], .grp 1 (.number), .lit [' '], .cls false [.rng 'Ꭲ' 'Ꭲ', .rng 'ꭲ' 'ꭲ'], .cls false [.rng 'Ᏻ' 'Ᏻ', .rng 'ᏻ' 'ᏻ'], .cls false [.rng 'Ꮯ' 'Ꮯ', .rng 'ꮯ' 'ꮯ'], .cls false [.rng 'Ꮆ' 'Ꮆ', .rng 'ꮆ' 'ꮆ'], .cls false [.rng 'Ꮣ' 'Ꮣ', .rng 'ꮣ' 'ꮣ']], [.lit ['i', 'n', ' '], .ref 1, .lit [' ', 'h', 'o', 'u', 'r']]),
    (.seqs [.grp 1 (.number), .lit [' '], .cls false [.rng 'Ꭰ' 'Ꭰ', .rng 'ꭰ' 'ꭰ'], .cls false [.rng 'Ꮞ' 'Ꮞ', .rng 'ꮞ' 'ꮞ'], .cls false [.rng 'Ꮲ' 'Ꮲ', .rng 'ꮲ' 'ꮲ'], .lit [' '], .cls false [.rng 'Ꮵ' 'Ꮵ', .rng 'ꮵ' 'ꮵ'], .cls false [.rng 'Ꭸ' 'Ꭸ', .rng 'ꭸ' 'ꭸ'], .cls false [.rng 'Ꮢ' 'Ꮢ', .rng 'ꮢ' 'ꮢ']], [.ref 1, .lit [' ', 's', 'e', 'c', 'o', 'n', 'd', ' ', 'a', 'g', 'o']]),
    (.seqs [.cls false [.rng 'Ꮎ' 'Ꮎ', .rng 'ꮎ' 'ꮎ'], .cls false [.rng 'Ꮏ' 'Ꮏ', .rng 'ꮏ' 'ꮏ'], .lit [' '], .grp 1 (.number), .lit [' '], .cls false [.rng 'Ꮡ' 'Ꮡ', .rng 'ꮡ' 'ꮡ'], .cls false [.rng 'Ꮯ' 'Ꮯ', .rng 'ꮯ' 'ꮯ'], .cls false [.rng 'Ꮆ' 'Ꮆ', .rng 'ꮆ' 'ꮆ'], .cls false [.rng 'Ꮣ' 'Ꮣ', .rng 'ꮣ' 'ꮣ']], [.lit ['i', 'n', ' '], .ref 1, .lit [' ', 'h', 'o', 'u', 'r']]),
    (.seqs [.cls false [.rng 'Ꮎ' 'Ꮎ', .rng 'ꮎ' 'ꮎ'], .cls false [.rng 'Ꮏ' 'Ꮏ', .rng 'ꮏ' 'ꮏ'], .lit [' '], .grp 1 (.number), .lit [' '], .cls false [.rng 'Ꮧ' 'Ꮧ', .rng 'ꮧ' 'ꮧ'], .cls false [.rng 'Ꭷ' 'Ꭷ', .rng 'ꭷ' 'ꭷ'], .cls false [.rng 'Ꮈ' 'Ꮈ', .rng 'ꮈ' 'ꮈ'], .cls false [.rng 'Ꭲ' 'Ꭲ', .rng 'ꭲ' 'ꭲ']], [.lit ['i', 'n', ' '], .ref 1, .lit [' ', 'm', 'o', 'n', 't', 'h']]),
    (.seqs [.grp 1 (.number), .lit [' '], .cls false [.rng 'Ꭲ' 'Ꭲ', .rng 'ꭲ' 'ꭲ'], .cls false [.rng 'Ꭶ' 'Ꭶ', .rng 'ꭶ' 'ꭶ'], .lit [' '], .cls false [.rng 'Ꮵ' 'Ꮵ', .rng 'ꮵ' 'ꮵ'], .cls false [.rng 'Ꭸ' 'Ꭸ', .rng 'ꭸ' 'ꭸ'], .cls false [.rng 'Ꮢ' 'Ꮢ', .rng 'ꮢ' 'ꮢ']], [.ref 1, .lit [' ', 'd', 'a', 'y', ' ', 'a', 'g', 'o']]),
    (.seqs [.cls false [.rng 'Ꮎ' 'Ꮎ', .rng 'ꮎ' 'ꮎ'], .cls false [.rng 'Ꮏ' 'Ꮏ', .rng 'ꮏ' 'ꮏ'], .lit [' '], .grp 1 (.number), .lit [' '], .cls false [.rng 'Ꭰ' 'Ꭰ', .rng 'ꭰ' 'ꭰ'], .cls false [.rng 'Ꮞ' 'Ꮞ', .rng 'ꮞ' 'ꮞ'], .cls false [.rng 'Ꮲ' 'Ꮲ', .rng 'ꮲ' 'ꮲ']], [.lit ['i', 'n', ' '], .ref 1, .lit [' ', 's', 'e', 'c', 'o', 'n', 'd']]),
    (.seqs [.cls false [.rng 'Ꮎ' 'Ꮎ', .rng 'ꮎ' 'ꮎ'], .cls false [.rng 'Ꮏ' 'Ꮏ', .rng 'ꮏ' 'ꮏ'], .lit [' '], .grp 1 (.number), .lit [' '], .cls false [.rng 'Ꭲ' 'Ꭲ', .rng 'ꭲ' 'ꭲ'], .cls false [.rng 'Ꮿ' 'Ꮿ', .rng 'ꮿ' 'ꮿ'], .cls false [.rng 'Ꮤ' 'Ꮤ', .rng 'ꮤ' 'ꮤ']], [.lit ['i', 'n', ' '], .ref 1, .lit [' ', 'm', 'i', 'n', 'u', 't', 'e']]),
    (.seqs [.cls false [.rng 'Ꮎ' 'Ꮎ', .rng 'ꮎ' 'ꮎ'], .cls false [.rng 'Ꮏ' 'Ꮏ', .rng 'ꮏ' 'ꮏ'], .lit [' '], .grp 1 (.number), .lit [' '], .cls false [.rng 'Ꭷ' 'Ꭷ', .rng 'ꭷ' 'ꭷ'], .cls false [.rng 'Ꮈ' 'Ꮈ', .rng 'ꮈ' 'ꮈ'], .cls false [.rng 'Ꭲ' 'Ꭲ', .rng 'ꭲ' 'ꭲ']], [.lit ['i', 'n', ' '], .ref 1, .lit [' ', 'm', 'o', 'n', 't', 'h']]),
    (.seqs [.cls false [.rng 'Ꮎ' 'Ꮎ', .rng 'ꮎ' 'ꮎ'], .cls false [.rng 'Ꮏ' 'Ꮏ', .rng 'ꮏ' 'ꮏ'], .lit [' '], .grp 1 (.number), .lit [' '], .cls false [.rng 'Ꭲ' 'Ꭲ', .rng 'ꭲ' 'ꭲ'], .cls false [.rng 'Ꭶ' 'Ꭶ', .rng 'ꭶ' 'ꭶ']], [.lit ['i', 'n', ' '], .ref 1, .lit [' ', 'd', 'a', 'y']]),
    (.seqs [.cls false [.rng 'Ꮎ' 'Ꮎ', .rng 'ꮎ' 'ꮎ'], .cls false [.rng 'Ꮏ' 'Ꮏ', .rng 'ꮏ' 'ꮏ'], .lit [' '], .grp 1 (.number), .lit [' '], .cls false [.rng 'Ꭴ' 'Ꭴ', .rng 'ꭴ' 'ꭴ'], .cls false [.rng 'Ꮥ' 'Ꮥ', .rng 'ꮥ' 'ꮥ']], [.lit ['i', 'n', ' '], .ref 1, .lit [' ', 'y', 'e', 'a', 'r']]),
    (.seqs [.cls false [.rng 'Ꮎ' 'Ꮎ', .rng 'ꮎ' 'ꮎ'], .cls false [.rng 'Ꮏ' 'Ꮏ', .rng 'ꮏ' 'ꮏ'], .lit [' '], .grp 1 (.number), .lit [' '], .cls false [.rng 'Ꭷ' 'Ꭷ', .rng 'ꭷ' 'ꭷ'], .cls false [.rng 'Ꮈ' 'Ꮈ', .rng 'ꮈ' 'ꮈ']], [.lit ['i', 'n', ' '], .ref 1, .lit [' ', 'm', 'o', 'n', 't', 'h']]),
    (.seqs [.cls false [.rng 'Ꮎ' 'Ꮎ', .rng 'ꮎ' 'ꮎ'], .cls false [.rng 'Ꮏ' 'Ꮏ', .rng 'ꮏ' 'ꮏ'], .lit [' '], .grp 1 (.number), .lit [' '], .cls false [.rng 'Ꮡ' 'Ꮡ', .rng 'ꮡ' 'ꮡ'], .cls false [.rng 'Ꮯ' 'Ꮯ', .rng 'ꮯ' 'ꮯ']], [.lit ['i', 'n', ' '], .ref 1, .lit [' ', 'h', 'o', 'u', 'r']]),
    (.seqs [.cls false [.rng 'Ꮎ' 'Ꮎ', .rng 'ꮎ' 'ꮎ'], .cls false [.rng 'Ꮏ' 'Ꮏ', .rng 'ꮏ' 'ꮏ'], .lit [' '], .grp 1 (.number), .lit [' '], .cls false [.rng 'Ꮢ' 'Ꮢ', .rng 'ꮢ' 'ꮢ'], .cls false [.rng 'Ꮎ' 'Ꮎ', .rng 'ꮎ' 'ꮎ']], [.lit ['i', 'n', ' '], .ref 1, .lit [' ', 'w', 'e', 'e', 'k']])],
  rxCombined := some (.seqs [.grp 1 (.alts [.bos, .cls true [.letter, .mark, .digit], .lit ['_']]), .grp 2 (.alts [.seqs [.cls false [.rng 'Ꮎ' 'Ꮎ', .rng 'ꮎ' 'ꮎ'], .cls false [.rng 'Ꮏ' 'Ꮏ', .rng 'ꮏ' 'ꮏ'], .lit [' '], .number, .lit [' '], .cls false [.rng 'Ꭲ' 'Ꭲ', .rng 'ꭲ' 'ꭲ'], .cls false [.rng 'Ᏻ' 'Ᏻ', .rng 'ᏻ' 'ᏻ'], .cls false [.rng 'Ꮎ' 'Ꮎ', .rng 'ꮎ' 'ꮎ'], .cls false [.rng 'Ꮩ' 'Ꮩ', .rng 'ꮩ' 'ꮩ'], .cls false [.rng 'Ꮣ' 'Ꮣ', .rng 'ꮣ' 'ꮣ'], .cls false [.rng 'Ꮖ' 'Ꮖ', .rng 'ꮖ' 'ꮖ'], .cls false [.rng 'Ꮝ' 'Ꮝ', .rng 'ꮝ' 'ꮝ'], .cls false [.rng 'Ꮧ' 'Ꮧ', .rng 'ꮧ' 'ꮧ'], .lit [' '], .cls false [.rng 'Ꮵ' 'Ꮵ', .rng 'ꮵ' 'ꮵ'], .cls false [.rng 'Ꭸ' 'Ꭸ', .rng 'ꭸ' 'ꭸ'], .cls false [.rng 'Ꮢ' 'Ꮢ', .rng 'ꮢ' 'ꮢ']], .seqs [.cls false [.rng 'Ꮎ' 'Ꮎ', .rng 'ꮎ' 'ꮎ'], .cls false [.rng 'Ꮏ' 'Ꮏ', .rng 'ꮏ' 'ꮏ'], .lit [' '], .number, .lit [' '], .cls false [.rng 'Ꭲ' 'Ꭲ', .rng 'ꭲ' 'ꭲ'], .cls false [.rng 'Ꮿ' 'Ꮿ', .rng 'ꮿ' 'ꮿ'], .cls false [.rng 'Ꮤ' 'Ꮤ', .rng 'ꮤ' 'ꮤ'], .cls false [.rng 'Ꮼ' 'Ꮼ', .rng 'ꮼ' 'ꮼ'], .cls false [.rng 'Ꮝ' 'Ꮝ', .rng 'ꮝ' 'ꮝ'], .cls false [.rng 'Ꮤ' 'Ꮤ', .rng 'ꮤ' 'ꮤ'], .cls false [.rng 'Ꮕ' 'Ꮕ', .rng 'ꮕ' 'ꮕ'], .lit [' '], .cls false [.rng 'Ꮵ' 'Ꮵ', .rng 'ꮵ' 'ꮵ'], .cls false [.rng 'Ꭸ' 'Ꭸ', .rng 'ꭸ' 'ꭸ'], .cls false [.rng 'Ꮢ' 'Ꮢ', .rng 'ꮢ' 'ꮢ']], .seqs [.cls false [.rng 'Ꮎ' 'Ꮎ', .rng 'ꮎ' 'ꮎ'], .cls false [.rng 'Ꮏ' 'Ꮏ', .rng 'ꮏ' 'ꮏ'], .lit [' '], .number, .lit [' '], .cls false [.rng 'Ꮢ' 'Ꮢ', .rng 'ꮢ' 'ꮢ'], .cls false [.rng 'Ꮎ' 'Ꮎ', .rng 'ꮎ' 'ꮎ'], .cls false [.rng 'Ꮩ' 'Ꮩ', .rng 'ꮩ' 'ꮩ'], .cls false [.rng 'Ꮣ' 'Ꮣ', .rng 'ꮣ' 'ꮣ'], .cls false [.rng 'Ꮖ' 'Ꮖ', .rng 'ꮖ' 'ꮖ'], .cls false [.rng 'Ꮝ' 'Ꮝ', .rng 'ꮝ' 'ꮝ'], .cls false [.rng 'Ꮧ' 'Ꮧ', .rng 'ꮧ' 'ꮧ'], .lit [' '], .cls false [.rng 'Ꮵ' 'Ꮵ', .rng 'ꮵ' 'ꮵ'], .cls false [.rng 'Ꭸ' 'Ꭸ', .rng 'ꭸ' 'ꭸ'], .cls false [.rng 'Ꮢ' 'Ꮢ', .rng 'ꮢ' 'ꮢ']], .seqs [.number, .lit [' '], .cls false [.rng 'Ꭲ' 'Ꭲ', .rng 'ꭲ' 'ꭲ'], .cls false [.rng 'Ꮷ' 'Ꮷ', .rng 'ꮷ' 'ꮷ'], .cls false [.rng 'Ꮥ' 'Ꮥ', .rng 'ꮥ' 'ꮥ'], .cls false [.rng 'Ꮨ' 'Ꮨ', .rng 'ꮨ' 'ꮨ'], .cls false [.rng 'Ᏼ' 'Ᏼ', .rng 'ᏼ' 'ᏼ'], .cls false [.rng 'Ꮜ' 'Ꮜ', .rng 'ꮜ' 'ꮜ'], .cls false [.rng 'Ꮧ' 'Ꮧ', .rng 'ꮧ' 'ꮧ'], .cls false [.rng 'Ꮢ' 'Ꮢ', .rng 'ꮢ' 'ꮢ'], .cls false [.rng 'Ꭲ' 'Ꭲ', .rng 'ꭲ' 'ꭲ'], .lit [' '], .cls false [.rng 'Ꮵ' 'Ꮵ', .rng 'ꮵ' 'ꮵ'], .cls false [.rng 'Ꭸ' 'Ꭸ', .rng 'ꭸ' 'ꭸ'], .cls false [.rng 'Ꮢ' 'Ꮢ', .rng 'ꮢ' 'ꮢ']], .seqs [.number, .lit [' '], .cls false [.rng 'Ꭿ' 'Ꭿ', .rng 'ꭿ' 'ꭿ'], .cls false [.rng 'Ꮈ' 'Ꮈ', .rng 'ꮈ' 'ꮈ'], .cls false [.rng 'Ꮝ' 'Ꮝ', .rng 'ꮝ' 'ꮝ'], .cls false [.rng 'Ꭹ' 'Ꭹ', .rng 'ꭹ' 'ꭹ'], .lit [' '], .cls false [.rng 'Ꮷ' 'Ꮷ', .rng 'ꮷ' 'ꮷ'], .cls false [.rng 'Ꮢ' 'Ꮢ', .rng 'ꮢ' 'ꮢ'], .cls false [.rng 'Ꭿ' 'Ꭿ', .rng 'ꭿ' 'ꭿ'], .cls false [.rng 'Ꮫ' 'Ꮫ', .rng 'ꮫ' 'ꮫ'], .lit [' '], .cls false [.rng 'Ꮵ' 'Ꮵ', .rng 'ꮵ' 'ꮵ'], .cls false [.rng 'Ꭸ' 'Ꭸ', .rng 'ꭸ' 'ꭸ'], .cls false [.rng 'Ꮢ' 'Ꮢ', .rng 'ꮢ' 'ꮢ']], .seqs [.cls false [.rng 'Ꮎ' 'Ꮎ', .rng 'ꮎ' 'ꮎ'], .cls false [.rng 'Ꮏ' 'Ꮏ', .rng 'ꮏ' 'ꮏ'], .lit [' '], .number, .lit [' '], .cls false [.rng 'Ꮣ' 'Ꮣ', .rng 'ꮣ' 'ꮣ'], .cls false [.rng 'Ꮣ' 'Ꮣ', .rng 'ꮣ' 'ꮣ'], .cls false [.rng 'Ꮎ' 'Ꮎ', .rng 'ꮎ' 'ꮎ'], .cls false [.rng 'Ꮹ' 'Ꮹ', .rng 'ꮹ' 'ꮹ'], .cls false [.rng 'Ꮝ' 'Ꮝ', .rng 'ꮝ' 'ꮝ'], .cls false [.rng 'Ꭼ' 'Ꭼ', .rng 'ꭼ' 'ꭼ'], .lit [' '], .cls false [.rng 'Ꮵ' 'Ꮵ', .rng 'ꮵ' 'ꮵ'], .cls false [.rng 'Ꭸ' 'Ꭸ', .rng 'ꭸ' 'ꭸ'], .cls false [.rng 'Ꮢ' 'Ꮢ', .rng 'ꮢ' 'ꮢ']], .seqs [.number, .lit [' '], .cls false [.rng 'Ꭴ' 'Ꭴ', .rng 'ꭴ' 'ꭴ'], .cls false [.rng 'Ꮥ' 'Ꮥ', .rng 'ꮥ' 'ꮥ'], .cls false [.rng 'Ꮨ' 'Ꮨ', .rng 'ꮨ' 'ꮨ'], .cls false [.rng 'Ᏼ' 'Ᏼ', .rng 'ᏼ' 'ᏼ'], .cls false [.rng 'Ꮜ' 'Ꮜ', .rng 'ꮜ' 'ꮜ'], .cls false [.rng 'Ꮧ' 'Ꮧ', .rng 'ꮧ' 'ꮧ'], .cls false [.rng 'Ꮢ' 'Ꮢ', .rng 'ꮢ' 'ꮢ'], .cls false [.rng 'Ꭲ' 'Ꭲ', .rng 'ꭲ' 'ꭲ'], .lit [' '], .cls false [.rng 'Ꮵ' 'Ꮵ', .rng 'ꮵ' 'ꮵ'], .cls false [.rng 'Ꭸ' 'Ꭸ', .rng 'ꭸ' 'ꭸ'], .cls false [.rng 'Ꮢ' 'Ꮢ', .rng 'ꮢ' 'ꮢ']], .seqs [.cls false [.rng 'Ꮎ' 'Ꮎ', .rng 'ꮎ' 'ꮎ'], .cls false [.rng 'Ꮏ' 'Ꮏ', .rng 'ꮏ' 'ꮏ'], .lit [' '], .number, .lit [' '], .cls false [.rng 'Ꭲ' 'Ꭲ', .rng 'ꭲ' 'ꭲ'], .cls false [.rng 'Ꮷ' 'Ꮷ', .rng 'ꮷ' 'ꮷ'], .cls false [.rng 'Ꮥ' 'Ꮥ', .rng 'ꮥ' 'ꮥ'], .cls false [.rng 'Ꮨ' 'Ꮨ', .rng 'ꮨ' 'ꮨ'], .cls false [.rng 'Ᏼ' 'Ᏼ', .rng 'ᏼ' 'ᏼ'], .cls false [.rng 'Ꮜ' 'Ꮜ', .rng 'ꮜ' 'ꮜ'], .cls false [.rng 'Ꮧ' 'Ꮧ', .rng 'ꮧ' 'ꮧ'], .cls false [.rng 'Ꮢ' 'Ꮢ', .rng 'ꮢ' 'ꮢ'], .cls false [.rng 'Ꭲ' 'Ꭲ', .rng 'ꭲ' 'ꭲ']], .seqs [.cls false [.rng 'Ꮎ' 'Ꮎ', .rng 'ꮎ' 'ꮎ'], .cls false [.rng 'Ꮏ' 'Ꮏ', .rng 'ꮏ' 'ꮏ'], .lit [' '], .number, .lit [' '], .cls false [.rng 'Ꭿ' 'Ꭿ', .rng 'ꭿ' 'ꭿ'], .cls false [.rng 'Ꮈ' 'Ꮈ', .rng 'ꮈ' 'ꮈ'], .cls false [.rng 'Ꮝ' 'Ꮝ', .rng 'ꮝ' 'ꮝ'], .cls false [.rng 'Ꭹ' 'Ꭹ', .rng 'ꭹ' 'ꭹ'], .lit [' '], .cls false [.rng 'Ꮷ' 'Ꮷ', .rng 'ꮷ' 'ꮷ'], .cls false [.rng 'Ꮢ' 'Ꮢ', .rng 'ꮢ' 'ꮢ'], .cls false [.rng 'Ꭿ' 'Ꭿ', .rng 'ꭿ' 'ꭿ'], .cls false [.rng 'Ꮫ' 'Ꮫ', .rng 'ꮫ' 'ꮫ']], .seqs [.cls false [.rng 'Ꮎ' 'Ꮎ', .rng 'ꮎ' 'ꮎ'], .cls false [.rng 'Ꮏ' 'Ꮏ', .rng 'ꮏ' 'ꮏ'], .lit [' '], .number, .lit [' '], .cls false [.rng 'Ꭲ' 'Ꭲ', .rng 'ꭲ' 'ꭲ'], .cls false [.rng 'Ᏻ' 'Ᏻ', .rng 'ᏻ' 'ᏻ'], .cls false [.rng 'Ꮎ' 'Ꮎ', .rng 'ꮎ' 'ꮎ'], .cls false [.rng 'Ꮩ' 'Ꮩ', .rng 'ꮩ' 'ꮩ'], .cls false [.rng 'Ꮣ' 'Ꮣ', .rng 'ꮣ' 'ꮣ'], .cls false [.rng 'Ꮖ' 'Ꮖ', .rng 'ꮖ' 'ꮖ'], .cls false [.rng 'Ꮝ' 'Ꮝ', .rng 'ꮝ' 'ꮝ'], .cls false [.rng 'Ꮧ' 'Ꮧ', .rng 'ꮧ' 'ꮧ']], .seqs [.cls false [.rng 'Ꮎ' 'Ꮎ', .rng 'ꮎ' 'ꮎ'], .cls false [.rng 'Ꮏ' 'Ꮏ', .rng 'ꮏ' 'ꮏ'], .lit [' '], .number, .lit [' '], .cls false [.rng 'Ꭴ' 'Ꭴ', .rng 'ꭴ' 'ꭴ'], .cls false [.rng 'Ꮥ' 'Ꮥ', .rng 'ꮥ' 'ꮥ'], .cls false [.rng 'Ꮨ' 'Ꮨ', .rng 'ꮨ' 'ꮨ'], .cls false [.rng 'Ᏼ' 'Ᏼ', .rng 'ᏼ' 'ᏼ'], .cls false [.rng 'Ꮜ' 'Ꮜ', .rng 'ꮜ' 'ꮜ'], .cls false [.rng 'Ꮧ' 'Ꮧ', .rng 'ꮧ' 'ꮧ'], .cls false [.rng 'Ꮢ' 'Ꮢ', .rng 'ꮢ' 'ꮢ'], .cls false [.rng 'Ꭲ' 'Ꭲ', .rng 'ꭲ' 'ꭲ']], .seqs [.cls false [.rng 'Ꮎ' 'Ꮎ', .rng 'ꮎ' 'ꮎ'], .cls false [.rng 'Ꮏ' 'Ꮏ', .rng 'ꮏ' 'ꮏ'], .lit [' '], .number, .lit [' '], .cls false [.rng 'Ꮧ' 'Ꮧ', .rng 'ꮧ' 'ꮧ'], .cls false [.rng 'Ꭷ' 'Ꭷ', .rng 'ꭷ' 'ꭷ'], .cls false [.rng 'Ꮈ' 'Ꮈ', .rng 'ꮈ' 'ꮈ'], .cls false [.rng 'Ꭲ' 'Ꭲ', .rng 'ꭲ' 'ꭲ'], .lit [' '], .cls false [.rng 'Ꮵ' 'Ꮵ', .rng 'ꮵ' 'ꮵ'], .cls false [.rng 'Ꭸ' 'Ꭸ', .rng 'ꭸ' 'ꭸ'], .cls false [.rng 'Ꮢ' 'Ꮢ', .rng 'ꮢ' 'ꮢ']], .seqs [.number, .lit [' '], .cls false [.rng 'Ꮣ' 'Ꮣ', .rng 'ꮣ' 'ꮣ'], .cls false [.rng 'Ꮣ' 'Ꮣ', .rng 'ꮣ' 'ꮣ'], .cls false [.rng 'Ꮎ' 'Ꮎ', .rng 'ꮎ' 'ꮎ'], .cls false [.rng 'Ꮹ' 'Ꮹ', .rng 'ꮹ' 'ꮹ'], .cls false [.rng 'Ꮝ' 'Ꮝ', .rng 'ꮝ' 'ꮝ'], .cls false [.rng 'Ꭼ' 'Ꭼ', .rng 'ꭼ' 'ꭼ'], .lit [' '], .cls false [.rng 'Ꮵ' 'Ꮵ', .rng 'ꮵ' 'ꮵ'], .cls false [.rng 'Ꭸ' 'Ꭸ', .rng 'ꭸ' 'ꭸ'], .cls false [.rng 'Ꮢ' 'Ꮢ', .rng 'ꮢ' 'ꮢ']], .seqs [.cls false [.rng 'Ꮎ' 'Ꮎ', .rng 'ꮎ' 'ꮎ'], .cls false [.rng 'Ꮏ' 'Ꮏ', .rng 'ꮏ' 'ꮏ'], .lit [' '], .number, .lit [' '], .cls false [.rng 'Ꭲ' 'Ꭲ', .rng 'ꭲ' 'ꭲ'], .cls false [.rng 'Ꮿ' 'Ꮿ', .rng 'ꮿ' 'ꮿ'], .cls false [.rng 'Ꮤ' 'Ꮤ', .rng 'ꮤ' 'ꮤ'], .lit [' '], .cls false [.rng 'Ꮵ' 'Ꮵ', .rng 'ꮵ' 'ꮵ'], .cls false [.rng 'Ꭸ' 'Ꭸ', .rng 'ꭸ' 'ꭸ'], .cls false [.rng 'Ꮢ' 'Ꮢ', .rng 'ꮢ' 'ꮢ']], .seqs [.cls false [.rng 'Ꮎ' 'Ꮎ', .rng 'ꮎ' 'ꮎ'], .cls false [.rng 'Ꮏ' 'Ꮏ', .rng 'ꮏ' 'ꮏ'], .lit [' '], .number, .lit [' '], .cls false [.rng 'Ꭲ' 'Ꭲ', .rng 'ꭲ' 'ꭲ'], .cls false [.rng 'Ꮿ' 'Ꮿ', .rng 'ꮿ' 'ꮿ'], .cls false [.rng 'Ꮤ' 'Ꮤ', .rng 'ꮤ' 'ꮤ'], .cls false [.rng 'Ꮼ' 'Ꮼ', .rng 'ꮼ' 'ꮼ'], .cls false [.rng 'Ꮝ' 'Ꮝ', .rng 'ꮝ' 'ꮝ'], .cls false [.rng 'Ꮤ' 'Ꮤ', .rng 'ꮤ' 'ꮤ'], .cls false [.rng 'Ꮕ' 'Ꮕ', .rng 'ꮕ' 'ꮕ']], .seqs [.cls false [.rng 'Ꮎ' 'Ꮎ', .rng 'ꮎ' 'ꮎ'], .cls false [.rng 'Ꮏ' 'Ꮏ', .rng 'ꮏ' 'ꮏ'], .lit [' '], .number, .lit [' '], .cls false [.rng 'Ꭷ' 'Ꭷ', .rng 'ꭷ' 'ꭷ'], .cls false [.rng 'Ꮈ' 'Ꮈ', .rng 'ꮈ' 'ꮈ'], .cls false [.rng 'Ꭲ' 'Ꭲ', .rng 'ꭲ' 'ꭲ'], .lit [' '], .cls false [.rng 'Ꮵ' 'Ꮵ', .rng 'ꮵ' 'ꮵ'], .cls false [.rng 'Ꭸ' 'Ꭸ', .rng 'ꭸ' 'ꭸ'], .cls false [.rng 'Ꮢ' 'Ꮢ', .rng 'ꮢ' 'ꮢ']], .seqs [.cls false [.rng 'Ꮎ' 'Ꮎ', .rng 'ꮎ' 'ꮎ'], .cls false [.rng 'Ꮏ' 'Ꮏ', .rng 'ꮏ' 'ꮏ'], .lit [' '], .number, .lit [' '], .cls false [.rng 'Ꮢ' 'Ꮢ', .rng 'ꮢ' 'ꮢ'], .cls false [.rng 'Ꮎ' 'Ꮎ', .rng 'ꮎ' 'ꮎ'], .cls false [.rng 'Ꮩ' 'Ꮩ', .rng 'ꮩ' 'ꮩ'], .cls false [.rng 'Ꮣ' 'Ꮣ', .rng 'ꮣ' 'ꮣ'], .cls false [.rng 'Ꮖ' 'Ꮖ', .rng 'ꮖ' 'ꮖ'], .cls false [.rng 'Ꮝ' 'Ꮝ', .rng 'ꮝ' 'ꮝ'], .cls false [.rng 'Ꮧ' 'Ꮧ', .rng 'ꮧ' 'ꮧ']], .seqs [.number, .lit [' '], .cls false [.rng 'Ꭲ' 'Ꭲ', .rng 'ꭲ' 'ꭲ'], .cls false [.rng 'Ᏻ' 'Ᏻ', .rng 'ᏻ' 'ᏻ'], .cls false [.rng 'Ꮯ' 'Ꮯ', .rng 'ꮯ' 'ꮯ'], .cls false [.rng 'Ꮆ' 'Ꮆ', .rng 'ꮆ' 'ꮆ'], .cls false [.rng 'Ꮣ' 'Ꮣ', .rng 'ꮣ' 'ꮣ'], .lit [' '], .cls false [.rng 'Ꮵ' 'Ꮵ', .rng 'ꮵ' 'ꮵ'], .cls false [.rng 'Ꭸ' 'Ꭸ', .rng 'ꭸ' 'ꭸ'], .cls false [.rng 'Ꮢ' 'Ꮢ', .rng 'ꮢ' 'ꮢ']], .seqs [.cls false [.rng 'Ꮎ' 'Ꮎ', .rng 'ꮎ' 'ꮎ'], .cls false [.rng 'Ꮏ' 'Ꮏ', .rng 'ꮏ' 'ꮏ'], .lit [' '], .number, .lit [' '], .cls false [.rng 'Ꭴ' 'Ꭴ', .rng 'ꭴ' 'ꭴ'], .cls false [.rng 'Ꮥ' 'Ꮥ', .rng 'ꮥ' 'ꮥ'], .lit [' '], .cls false [.rng 'Ꮵ' 'Ꮵ', .rng 'ꮵ' 'ꮵ'], .cls false [.rng 'Ꭸ' 'Ꭸ', .rng 'ꭸ' 'ꭸ'], .cls false [.rng 'Ꮢ' 'Ꮢ', .rng 'ꮢ' 'ꮢ']], .seqs [.cls false [.rng 'Ꮎ' 'Ꮎ', .rng 'ꮎ' 'ꮎ'], .cls false [.rng 'Ꮏ' 'Ꮏ', .rng 'ꮏ' 'ꮏ'], .lit [' '], .number, .lit [' '], .cls false [.rng 'Ꭷ' 'Ꭷ', .rng 'ꭷ' 'ꭷ'], .cls false [.rng 'Ꮈ' 'Ꮈ', .rng 'ꮈ' 'ꮈ'], .lit [' '], .cls false [.rng 'Ꮵ' 'Ꮵ', .rng 'ꮵ' 'ꮵ'], .cls false [.rng 'Ꭸ' 'Ꭸ', .rng 'ꭸ' 'ꭸ'], .cls false [.rng 'Ꮢ' 'Ꮢ', .rng 'ꮢ' 'ꮢ']], .seqs [.cls false [.rng 'Ꮎ' 'Ꮎ', .rng 'ꮎ' 'ꮎ'], .cls false [.rng 'Ꮏ' 'Ꮏ', .rng 'ꮏ' 'ꮏ'], .lit [' '], .number, .lit [' '], .cls false [.rng 'Ꮡ' 'Ꮡ', .rng 'ꮡ' 'ꮡ'], .cls false [.rng 'Ꮯ' 'Ꮯ', .rng 'ꮯ' 'ꮯ'], .lit [' '], .cls false [.rng 'Ꮵ' 'Ꮵ', .rng 'ꮵ' 'ꮵ'], .cls false [.rng 'Ꭸ' 'Ꭸ', .rng 'ꭸ' 'ꭸ'], .cls false [.rng 'Ꮢ' 'Ꮢ', .rng 'ꮢ' 'ꮢ']], .seqs [.cls false [.rng 'Ꮎ' 'Ꮎ', .rng 'ꮎ' 'ꮎ'], .cls false [.rng 'Ꮏ' 'Ꮏ', .rng 'ꮏ' 'ꮏ'], .lit [' '], .number, .lit [' '], .cls false [.rng 'Ꮢ' 'Ꮢ', .rng 'ꮢ' 'ꮢ'], .cls false [.rng 'Ꮎ' 'Ꮎ', .rng 'ꮎ' 'ꮎ'], .lit [' '], .cls false [.rng 'Ꮵ' 'Ꮵ', .rng 'ꮵ' 'ꮵ'], .cls false [.rng 'Ꭸ' 'Ꭸ', .rng 'ꭸ' 'ꭸ'], .cls false [.rng 'Ꮢ' 'Ꮢ', .rng 'ꮢ' 'ꮢ']], .seqs [.number, .lit [' '], .cls false [.rng 'Ꮡ' 'Ꮡ', .rng 'ꮡ' 'ꮡ'], .cls false [.rng 'Ꮯ' 'Ꮯ', .rng 'ꮯ' 'ꮯ'], .cls false [.rng 'Ꮆ' 'Ꮆ', .rng 'ꮆ' 'ꮆ'], .cls false [.rng 'Ꮣ' 'Ꮣ', .rng 'ꮣ' 'ꮣ'], .lit [' '], .cls false [.rng 'Ꮵ' 'Ꮵ', .rng 'ꮵ' 'ꮵ'], .cls false [.rng 'Ꭸ' 'Ꭸ', .rng 'ꭸ' 'ꭸ'], .cls false [.rng 'Ꮢ' 'Ꮢ', .rng 'ꮢ' 'ꮢ']], .seqs [.cls false [.rng 'Ꮎ' 'Ꮎ', .rng 'ꮎ' 'ꮎ'], .cls false [.rng 'Ꮏ' 'Ꮏ', .rng 'ꮏ' 'ꮏ'], .lit [' '], .number, .lit [' '], .cls false [.rng 'Ꭲ' 'Ꭲ', .rng 'ꭲ' 'ꭲ'], .cls false [.rng 'Ᏻ' 'Ᏻ', .rng 'ᏻ' 'ᏻ'], .cls false [.rng 'Ꮯ' 'Ꮯ', .rng 'ꮯ' 'ꮯ'], .cls false [.rng 'Ꮆ' 'Ꮆ', .rng 'ꮆ' 'ꮆ'], .cls false [.rng 'Ꮣ' 'Ꮣ', .rng 'ꮣ' 'ꮣ']], .seqs [.number, .lit [' '], .cls false [.rng 'Ꭰ' 'Ꭰ', .rng 'ꭰ' 'ꭰ'], .cls false [.rng 'Ꮞ' 'Ꮞ', .rng 'ꮞ' 'ꮞ'], .cls false [.rng 'Ꮲ' 'Ꮲ', .rng 'ꮲ' 'ꮲ'], .lit [' '], .cls false [.rng 'Ꮵ' 'Ꮵ', .rng 'ꮵ' 'ꮵ'], .cls false [.rng 'Ꭸ' 'Ꭸ', .rng 'ꭸ' 'ꭸ'], .cls false [.rng 'Ꮢ' 'Ꮢ', .rng 'ꮢ' 'ꮢ']], .seqs [.cls false [.rng 'Ꮎ' 'Ꮎ', .rng 'ꮎ' 'ꮎ'], .cls false [.rng 'Ꮏ' 'Ꮏ', .rng 'ꮏ' 'ꮏ'], .lit [' '], .number, .lit [' '], .cls false [.rng 'Ꮡ' 'Ꮡ', .rng 'ꮡ' 'ꮡ'], .cls false [.rng 'Ꮯ' 'Ꮯ', .rng 'ꮯ' 'ꮯ'], .cls false [.rng 'Ꮆ' 'Ꮆ', .rng 'ꮆ' 'ꮆ'], .cls false [.rng 'Ꮣ' 'Ꮣ', .rng 'ꮣ' 'ꮣ']], .seqs [.cls false [.rng 'Ꮎ' 'Ꮎ', .rng 'ꮎ' 'ꮎ'], .cls false [.rng 'Ꮏ' 'Ꮏ', .rng 'ꮏ' 'ꮏ'], .lit [' '], .number, .lit [' '], .cls false [.rng 'Ꮧ' 'Ꮧ', .rng 'ꮧ' 'ꮧ'], .cls false [.rng 'Ꭷ' 'Ꭷ', .rng 'ꭷ' 'ꭷ'], .cls false [.rng 'Ꮈ' 'Ꮈ', .rng 'ꮈ' 'ꮈ'], .cls false [.rng 'Ꭲ' 'Ꭲ', .rng 'ꭲ' 'ꭲ']], .seqs [.number, .lit [' '], .cls false [.rng 'Ꭲ' 'Ꭲ', .rng 'ꭲ' 'ꭲ'], .cls false [.rng 'Ꭶ' 'Ꭶ', .rng 'ꭶ' 'ꭶ'], .lit [' '], .cls false [.rng 'Ꮵ' 'Ꮵ', .rng 'ꮵ' 'ꮵ'], .cls false [.rng 'Ꭸ' 'Ꭸ', .rng 'ꭸ' 'ꭸ'], .cls false [.rng 'Ꮢ' 'Ꮢ', .rng 'ꮢ' 'ꮢ']], .seqs [.cls false [.rng 'Ꮎ' 'Ꮎ', .rng 'ꮎ' 'ꮎ'], .cls false [.rng 'Ꮏ' 'Ꮏ', .rng 'ꮏ' 'ꮏ'], .lit [' '], .number, .lit [' '], .cls false [.rng 'Ꭰ' 'Ꭰ', .rng 'ꭰ' 'ꭰ'], .cls false [.rng 'Ꮞ' 'Ꮞ', .rng 'ꮞ' 'ꮞ'], .cls false [.rng 'Ꮲ' 'Ꮲ', .rng 'ꮲ' 'ꮲ']], .seqs [.cls false [.rng 'Ꮎ' 'Ꮎ', .rng 'ꮎ' 'ꮎ'], .cls false [.rng 'Ꮏ' 'Ꮏ', .rng 'ꮏ' 'ꮏ'], .lit [' '], .number, .lit [' '], .cls false [.rng 'Ꭲ' 'Ꭲ', .rng 'ꭲ' 'ꭲ'], .cls false [.rng 'Ꮿ' 'Ꮿ', .rng 'ꮿ' 'ꮿ'], .cls false [.rng 'Ꮤ' 'Ꮤ', .rng 'ꮤ' 'ꮤ']], .seqs [.cls false [.rng 'Ꮎ' 'Ꮎ', .rng 'ꮎ' 'ꮎ'], .cls false [.rng 'Ꮏ' 'Ꮏ', .rng 'ꮏ' 'ꮏ'], .lit [' '], .number, .lit [' '], .cls false [.rng 'Ꭷ' 'Ꭷ', .rng 'ꭷ' 'ꭷ'], .cls false [.rng 'Ꮈ' 'Ꮈ', .rng 'ꮈ' 'ꮈ'], .cls false [.rng 'Ꭲ' 'Ꭲ', .rng 'ꭲ' 'ꭲ']], .seqs [.cls false [.rng 'Ꮎ' 'Ꮎ', .rng 'ꮎ' 'ꮎ'], .cls false [.rng 'Ꮏ' 'Ꮏ', .rng 'ꮏ' 'ꮏ'], .lit [' '], .number, .lit [' '], .cls false [.rng 'Ꭲ' 'Ꭲ', .rng 'ꭲ' 'ꭲ'], .cls false [.rng 'Ꭶ' 'Ꭶ', .rng 'ꭶ' 'ꭶ']], .seqs [.cls false [.rng 'Ꮎ' 'Ꮎ', .rng 'ꮎ' 'ꮎ'], .cls false [.rng 'Ꮏ' 'Ꮏ', .rng 'ꮏ' 'ꮏ'], .lit [' '], .number, .lit [' '], .cls false [.rng 'Ꭴ' 'Ꭴ', .rng 'ꭴ' 'ꭴ'], .cls false [.rng 'Ꮥ' 'Ꮥ', .rng 'ꮥ' 'ꮥ']], .seqs [.cls false [.rng 'Ꮎ' 'Ꮎ', .rng 'ꮎ' 'ꮎ'], .cls false [.rng 'Ꮏ' 'Ꮏ', .rng 'ꮏ' 'ꮏ'], .lit [' '], .number, .lit [' '], .cls false [.rng 'Ꭷ' 'Ꭷ', .rng 'ꭷ' 'ꭷ'], .cls false [.rng 'Ꮈ' 'Ꮈ', .rng 'ꮈ' 'ꮈ']], .seqs [.cls false [.rng 'Ꮎ' 'Ꮎ', .rng 'ꮎ' 'ꮎ'], .cls false [.rng 'Ꮏ' 'Ꮏ', .rng 'ꮏ' 'ꮏ'], .lit [' '], .number, .lit [' '], .cls false [.rng 'Ꮡ' 'Ꮡ', .rng 'ꮡ' 'ꮡ'], .cls false [.rng 'Ꮯ' 'Ꮯ', .rng 'ꮯ' 'ꮯ']], .seqs [.cls false [.rng 'Ꮎ' 'Ꮎ', .rng 'ꮎ' 'ꮎ'], .cls false [.rng 'Ꮏ' 'Ꮏ', .rng 'ꮏ' 'ꮏ'], .lit [' '], .number, .lit [' '], .cls false [.rng 'Ꮢ' 'Ꮢ', .rng 'ꮢ' 'ꮢ'], .cls false [.rng 'Ꮎ' 'Ꮎ', .rng 'ꮎ' 'ꮎ']]]), .grp 3 (.alts [.eos, .cls true [.letter, .mark, .digit], .lit ['_']])], 3),
  rxExact := some (.seqs [.bos, .grp 1 (.alts [.seqs [.cls false [.rng 'Ꮎ' 'Ꮎ', .rng 'ꮎ' 'ꮎ'], .cls false [.rng 'Ꮏ' 'Ꮏ', .rng 'ꮏ' 'ꮏ'], .lit [' '], .number, .lit [' '], .cls false [.rng 'Ꭲ' 'Ꭲ', .rng 'ꭲ' 'ꭲ'], .cls false [.rng 'Ᏻ' 'Ᏻ', .rng 'ᏻ' 'ᏻ'], .cls false [.rng 'Ꮎ' 'Ꮎ', .rng 'ꮎ' 'ꮎ'], .cls false [.rng 'Ꮩ' 'Ꮩ', .rng 'ꮩ' 'ꮩ'], .cls false [.rng 'Ꮣ' 'Ꮣ', .rng 'ꮣ' 'ꮣ'], .cls false [.rng 'Ꮖ' 'Ꮖ', .rng 'ꮖ' 'ꮖ'], .cls false [.rng 'Ꮝ' 'Ꮝ', .rng 'ꮝ' 'ꮝ'], .cls false [.rng 'Ꮧ' 'Ꮧ', .rng 'ꮧ' 'ꮧ'], .lit [' '], .cls false [.rng 'Ꮵ' 'Ꮵ', .rng 'ꮵ' 'ꮵ'], .cls false [.rng 'Ꭸ' 'Ꭸ', .rng 'ꭸ' 'ꭸ'], .cls false [.rng 'Ꮢ' 'Ꮢ', .rng 'ꮢ' 'ꮢ']], .seqs [.cls false [.rng 'Ꮎ' 'Ꮎ', .rng 'ꮎ' 'ꮎ'], .cls false [.rng 'Ꮏ' 'Ꮏ', .rng 'ꮏ' 'ꮏ'], .lit [' '], .number, .lit [' '], .cls false [.rng 'Ꭲ' 'Ꭲ', .rng 'ꭲ' 'ꭲ'], .cls false [.rng 'Ꮿ' 'Ꮿ', .rng 'ꮿ' 'ꮿ'], .cls false [.rng 'Ꮤ' 'Ꮤ', .rng 'ꮤ' 'ꮤ'], .cls false [.rng 'Ꮼ' 'Ꮼ', .rng 'ꮼ' 'ꮼ'], .cls false [.rng 'Ꮝ' 'Ꮝ', .rng 'ꮝ' 'ꮝ'], .cls false [.rng 'Ꮤ' 'Ꮤ', .rng 'ꮤ' 'ꮤ'], .cls false [.rng 'Ꮕ' 'Ꮕ', .rng 'ꮕ' 'ꮕ'], .lit [' '], .cls false [.rng 'Ꮵ' 'Ꮵ', .rng 'ꮵ' 'ꮵ'], .cls false [.rng 'Ꭸ' 'Ꭸ', .rng 'ꭸ' 'ꭸ'], .cls false [.rng 'Ꮢ' 'Ꮢ', .rng 'ꮢ' 'ꮢ']], .seqs [.cls false [.rng 'Ꮎ' 'Ꮎ', .rng 'ꮎ' 'ꮎ'], .cls false [.rng 'Ꮏ' 'Ꮏ', .rng 'ꮏ' 'ꮏ'], .lit [' '], .number, .lit [' '], .cls false [.rng 'Ꮢ' 'Ꮢ', .rng 'ꮢ' 'ꮢ'], .cls false [.rng 'Ꮎ' 'Ꮎ', .rng 'ꮎ' 'ꮎ'], .cls false [.rng 'Ꮩ' 'Ꮩ', .rng 'ꮩ' 'ꮩ'], .cls false [.rng 'Ꮣ' 'Ꮣ', .rng 'ꮣ' 'ꮣ'], .cls false [.rng 'Ꮖ' 'Ꮖ', .rng 'ꮖ' 'ꮖ'], .cls false [.rng 'Ꮝ' 'Ꮝ', .rng 'ꮝ' 'ꮝ'], .cls false [.rng 'Ꮧ' 'Ꮧ', .rng 'ꮧ' 'ꮧ'], .lit [' '], .cls false [.rng 'Ꮵ' 'Ꮵ', .rng 'ꮵ' 'ꮵ'], .cls false [.rng 'Ꭸ' 'Ꭸ', .rng 'ꭸ' 'ꭸ'], .cls false [.rng 'Ꮢ' 'Ꮢ', .rng 'ꮢ' 'ꮢ']], .seqs [.number, .lit [' '], .cls false [.rng 'Ꭲ' 'Ꭲ', .rng 'ꭲ' 'ꭲ'], .cls false [.rng 'Ꮷ' 'Ꮷ', .rng 'ꮷ' 'ꮷ'], .cls false [.rng 'Ꮥ' 'Ꮥ', .rng 'ꮥ' 'ꮥ'], .cls false [.rng 'Ꮨ' 'Ꮨ', .rng 'ꮨ' 'ꮨ'], .cls false [.rng 'Ᏼ' 'Ᏼ', .rng 'ᏼ' 'ᏼ'], .cls false [.rng 'Ꮜ' 'Ꮜ', .rng 'ꮜ' 'ꮜ'], .cls false [.rng 'Ꮧ' 'Ꮧ', .rng 'ꮧ' 'ꮧ'], .cls false [.rng 'Ꮢ' 'Ꮢ', .rng 'ꮢ' 'ꮢ'], .cls false [.rng 'Ꭲ' 'Ꭲ', .rng 'ꭲ' 'ꭲ'], .lit [' '], .cls false [.rng 'Ꮵ' 'Ꮵ', .rng 'ꮵ' 'ꮵ'], .cls false [.rng 'Ꭸ' 'Ꭸ', .rng 'ꭸ' 'ꭸ'], .cls false [.rng 'Ꮢ' 'Ꮢ', .rng 'ꮢ' 'ꮢ']], .seqs [.number, .lit [' '], .cls false [.rng 'Ꭿ' 'Ꭿ', .rng 'ꭿ' 'ꭿ'], .cls false [.rng 'Ꮈ' 'Ꮈ', .rng 'ꮈ' 'ꮈ'], .cls false [.rng 'Ꮝ' 'Ꮝ', .rng 'ꮝ' 'ꮝ'], .cls false [.rng 'Ꭹ' 'Ꭹ', .rng 'ꭹ' 'ꭹ'], .lit [' '], .cls false [.rng 'Ꮷ' 'Ꮷ', .rng 'ꮷ' 'ꮷ'], .cls false [.rng 'Ꮢ' 'Ꮢ', .rng 'ꮢ' 'ꮢ'], .cls false [.rng 'Ꭿ' 'Ꭿ', .rng 'ꭿ' 'ꭿ'], .cls false [.rng 'Ꮫ' 'Ꮫ', .rng 'ꮫ' 'ꮫ'], .lit [' '], .cls false [.rng 'Ꮵ' 'Ꮵ', .rng 'ꮵ' 'ꮵ'], .cls false [.rng 'Ꭸ' 'Ꭸ', .rng 'ꭸ' 'ꭸ'], .cls false [.rng 'Ꮢ' 'Ꮢ', .rng 'ꮢ' 'ꮢ']], .seqs [.cls false [.rng 'Ꮎ' 'Ꮎ', .rng 'ꮎ' 'ꮎ'], .cls false [.rng 'Ꮏ' 'Ꮏ', .rng 'ꮏ' 'ꮏ'], .lit [' '], .number, .lit [' '], .cls false [.rng 'Ꮣ' 'Ꮣ', .rng 'ꮣ' 'ꮣ'], .cls false [.rng 'Ꮣ' 'Ꮣ', .rng 'ꮣ' 'ꮣ'], .cls false [.rng 'Ꮎ' 'Ꮎ', .rng 'ꮎ' 'ꮎ'], .cls false [.rng 'Ꮹ' 'Ꮹ', .rng 'ꮹ' 'ꮹ'], .cls false [.rng 'Ꮝ' 'Ꮝ', .rng 'ꮝ' 'ꮝ'], .cls false [.rng 'Ꭼ' 'Ꭼ', .rng 'ꭼ' 'ꭼ'], .lit [' '], .cls false [.rng 'Ꮵ' 'Ꮵ', .rng 'ꮵ' 'ꮵ'], .cls false [.rng 'Ꭸ' 'Ꭸ', .rng 'ꭸ' 'ꭸ'], .cls false [.rng 'Ꮢ' 'Ꮢ', .rng 'ꮢ' 'ꮢ']], .seqs [.number, .lit [' '], .cls false [.rng 'Ꭴ' 'Ꭴ', .rng 'ꭴ' 'ꭴ'], .cls false [.rng 'Ꮥ' 'Ꮥ', .rng 'ꮥ' 'ꮥ'], .cls false [.rng 'Ꮨ' 'Ꮨ', .rng 'ꮨ' 'ꮨ'], .cls false [.rng 'Ᏼ' 'Ᏼ', .rng 'ᏼ' 'ᏼ'], .cls false [.rng 'Ꮜ' 'Ꮜ', .rng 'ꮜ' 'ꮜ'], .cls false [.rng 'Ꮧ' 'Ꮧ', .rng 'ꮧ' 'ꮧ'], .cls false [.rng 'Ꮢ' 'Ꮢ', .rng 'ꮢ' 'ꮢ'], .cls false [.rng 'Ꭲ' 'Ꭲ', .rng 'ꭲ' 'ꭲ'], .lit [' '], .cls false [.rng 'Ꮵ' 'Ꮵ', .rng 'ꮵ' 'ꮵ'], .cls false [.rng 'Ꭸ' 'Ꭸ', .rng 'ꭸ' 'ꭸ'], .cls false [.rng 'Ꮢ' 'Ꮢ', .rng 'ꮢ' 'ꮢ']], .seqs [.cls false [.rng 'Ꮎ' 'Ꮎ', .rng 'ꮎ' 'ꮎ'], .cls false [.rng 'Ꮏ' 'Ꮏ', .rng 'ꮏ' 'ꮏ'], .lit [' '], .number, .lit [' '], .cls false [.rng 'Ꭲ' 'Ꭲ', .rng 'ꭲ' 'ꭲ'], .cls false [.rng 'Ꮷ' 'Ꮷ', .rng 'ꮷ' 'ꮷ'], .cls false [.rng 'Ꮥ' 'Ꮥ', .rng 'ꮥ' 'ꮥ'], .cls false [.rng 'Ꮨ' 'Ꮨ', .rng 'ꮨ' 'ꮨ'], .cls false [.rng 'Ᏼ' 'Ᏼ', .rng 'ᏼ' 'ᏼ'], .cls false [.rng 'Ꮜ' 'Ꮜ', .rng 'ꮜ' 'ꮜ'], .cls false [.rng 'Ꮧ' 'Ꮧ', .rng 'ꮧ' 'ꮧ'], .cls false [.rng 'Ꮢ' 'Ꮢ', .rng 'ꮢ' 'ꮢ'], .cls false [.rng 'Ꭲ' 'Ꭲ', .rng 'ꭲ' 'ꭲ']], .seqs [.cls false [.rng 'Ꮎ' 'Ꮎ', .rng 'ꮎ' 'ꮎ'], .cls false [.rng 'Ꮏ' 'Ꮏ', .rng 'ꮏ' 'ꮏ'], .lit [' '], .number, .lit [' '], .cls false [.rng 'Ꭿ' 'Ꭿ', .rng 'ꭿ' 'ꭿ'], .cls false [.rng 'Ꮈ' 'Ꮈ', .rng 'ꮈ' 'ꮈ'], .cls false [.rng 'Ꮝ' 'Ꮝ', .rng 'ꮝ' 'ꮝ'], .cls false [.rng 'Ꭹ' 'Ꭹ', .rng 'ꭹ' 'ꭹ'], .lit [' '], .cls false [.rng 'Ꮷ' 'Ꮷ', .rng 'ꮷ' 'ꮷ'], .cls false [.rng 'Ꮢ' 'Ꮢ', .rng 'ꮢ' 'ꮢ'], .cls false [.rng 'Ꭿ' 'Ꭿ', .rng 'ꭿ' 'ꭿ'], .cls false [.rng 'Ꮫ' 'Ꮫ', .rng 'ꮫ' 'ꮫ']], .seqs [.cls false [.rng 'Ꮎ' 'Ꮎ', .rng 'ꮎ' 'ꮎ'], .cls false [.rng 'Ꮏ' 'Ꮏ', .rng 'ꮏ' 'ꮏ'], .lit [' '], .number, .lit [' '], .cls false [.rng 'Ꭲ' 'Ꭲ', .rng 'ꭲ' 'ꭲ'], .cls false [.rng 'Ᏻ' 'Ᏻ', .rng 'ᏻ' 'ᏻ'], .cls false [.rng 'Ꮎ' 'Ꮎ', .rng 'ꮎ' 'ꮎ'], .cls false [.rng 'Ꮩ' 'Ꮩ', .rng 'ꮩ' 'ꮩ'], .cls false [.rng 'Ꮣ' 'Ꮣ', .rng 'ꮣ' 'ꮣ'], .cls false [.rng 'Ꮖ' 'Ꮖ', .rng 'ꮖ' 'ꮖ'], .cls false [.rng 'Ꮝ' 'Ꮝ', .rng 'ꮝ' 'ꮝ'], .cls false [.rng 'Ꮧ' 'Ꮧ', .rng 'ꮧ' 'ꮧ']], .seqs [.cls false [.rng 'Ꮎ' 'Ꮎ', .rng 'ꮎ' 'ꮎ'], .cls false [.rng 'Ꮏ' 'Ꮏ', .rng 'ꮏ' 'ꮏ'], .lit [' '], .number, .lit [' '], .cls false [.rng 'Ꭴ' 'Ꭴ', .rng 'ꭴ' 'ꭴ'], .cls false [.rng 'Ꮥ' 'Ꮥ', .rng 'ꮥ' 'ꮥ'], .cls false [.rng 'Ꮨ' 'Ꮨ', .rng 'ꮨ' 'ꮨ'], .cls false [.rng 'Ᏼ' 'Ᏼ', .rng 'ᏼ' 'ᏼ'], .cls false [.rng 'Ꮜ' 'Ꮜ', .rng 'ꮜ' 'ꮜ'], .cls false [.rng 'Ꮧ' 'Ꮧ', .rng 'ꮧ' 'ꮧ'], .cls false [.rng 'Ꮢ' 'Ꮢ', .rng 'ꮢ' 'ꮢ'], .cls false [.rng 'Ꭲ' 'Ꭲ', .rng 'ꭲ' 'ꭲ']], .seqs [.cls false [.rng 'Ꮎ' 'Ꮎ', .rng 'ꮎ' 'ꮎ'], .cls false [.rng 'Ꮏ' 'Ꮏ', .rng 'ꮏ' 'ꮏ'], .lit [' '], .number, .lit [' '], .cls false [.rng 'Ꮧ' 'Ꮧ', .rng 'ꮧ' 'ꮧ'], .cls false [.rng 'Ꭷ' 'Ꭷ', .rng 'ꭷ' 'ꭷ'], .cls false [.rng 'Ꮈ' 'Ꮈ', .rng 'ꮈ' 'ꮈ'], .cls false [.rng 'Ꭲ' 'Ꭲ', .rng 'ꭲ' 'ꭲ'], .lit [' '], .cls false [.rng 'Ꮵ' 'Ꮵ', .rng 'ꮵ' 'ꮵ'], .cls false [.rng 'Ꭸ' 'Ꭸ', .rng 'ꭸ' 'ꭸ'], .cls false [.rng 'Ꮢ' 'Ꮢ', .rng 'ꮢ' 'ꮢ']], .seqs [.number, .lit [' '], .cls false [.rng 'Ꮣ' 'Ꮣ', .rng 'ꮣ' 'ꮣ'], .cls false [.rng 'Ꮣ' 'Ꮣ', .rng 'ꮣ' 'ꮣ'], .cls false [.rng 'Ꮎ' 'Ꮎ', .rng 'ꮎ' 'ꮎ'], .cls false [.rng 'Ꮹ' 'Ꮹ', .rng 'ꮹ' 'ꮹ'], .cls false [.rng 'Ꮝ' 'Ꮝ', .rng 'ꮝ' 'ꮝ'], .cls false [.rng 'Ꭼ' 'Ꭼ', .rng 'ꭼ' 'ꭼ'], .lit [' '], .cls false [.rng 'Ꮵ' 'Ꮵ', .rng 'ꮵ' 'ꮵ'], .cls false [.rng 'Ꭸ' 'Ꭸ', .rng 'ꭸ' 'ꭸ'], .cls false [.rng 'Ꮢ' 'Ꮢ', .rng 'ꮢ' 'ꮢ']], .seqs [.cls false [.rng 'Ꮎ' 'Ꮎ', .rng 'ꮎ' 'ꮎ'], .cls false [.rng 'Ꮏ' 'Ꮏ', .rng 'ꮏ' 'ꮏ'], .lit [' '], .number, .lit [' '], .cls false [.rng 'Ꭲ' 'Ꭲ', .rng 'ꭲ' 'ꭲ'], .cls false [.rng 'Ꮿ' 'Ꮿ', .rng 'ꮿ' 'ꮿ'], .cls false [.rng 'Ꮤ' 'Ꮤ', .rng 'ꮤ' 'ꮤ'], .lit [' '], .cls false [.rng 'Ꮵ' 'Ꮵ', .rng 'ꮵ' 'ꮵ'], .cls false [.rng 'Ꭸ' 'Ꭸ', .rng 'ꭸ' 'ꭸ'], .cls false [.rng 'Ꮢ' 'Ꮢ', .rng 'ꮢ' 'ꮢ']], .seqs [.cls false [.rng 'Ꮎ' 'Ꮎ', .rng 'ꮎ' 'ꮎ'], .cls false [.rng 'Ꮏ' 'Ꮏ', .rng 'ꮏ' 'ꮏ'], .lit [' '], .number, .lit [' '], .cls false [.rng 'Ꭲ' 'Ꭲ', .rng 'ꭲ' 'ꭲ'], .cls false [.rng 'Ꮿ' 'Ꮿ', .rng 'ꮿ' 'ꮿ'], .cls false [.rng 'Ꮤ' 'Ꮤ', .rng 'ꮤ' 'ꮤ'], .cls false [.rng 'Ꮼ' 'Ꮼ', .rng 'ꮼ' 'ꮼ'], .cls false [.rng 'Ꮝ' 'Ꮝ', .rng 'ꮝ' 'ꮝ'], .cls false [.rng 'Ꮤ' 'Ꮤ', .rng 'ꮤ' 'ꮤ'], .cls false [.rng 'Ꮕ' 'Ꮕ', .rng 'ꮕ' 'ꮕ']], .seqs [.cls false [.rng 'Ꮎ' 'Ꮎ', .rng 'ꮎ' 'ꮎ'], .cls false [.rng 'Ꮏ' 'Ꮏ', .rng 'ꮏ' 'ꮏ'], .lit [' '], .number, .lit [' '], .cls false [.rng 'Ꭷ' 'Ꭷ', .rng 'ꭷ' 'ꭷ'], .cls false [.rng 'Ꮈ' 'Ꮈ', .rng 'ꮈ' 'ꮈ'], .cls false [.rng 'Ꭲ' 'Ꭲ', .rng 'ꭲ' 'ꭲ'], .lit [' '], .cls false [.rng 'Ꮵ' 'Ꮵ', .rng 'ꮵ' 'ꮵ'], .cls false [.rng 'Ꭸ' 'Ꭸ', .rng 'ꭸ' 'ꭸ'], .cls false [.rng 'Ꮢ' 'Ꮢ', .rng 'ꮢ' 'ꮢ']], .seqs [.cls false [.rng 'Ꮎ' 'Ꮎ', .rng 'ꮎ' 'ꮎ'], .cls false [.rng 'Ꮏ' 'Ꮏ', .rng 'ꮏ' 'ꮏ'], .lit [' '], .number, .lit [' '], .cls false [.rng 'Ꮢ' 'Ꮢ', .rng 'ꮢ' 'ꮢ'], .cls false [.rng 'Ꮎ' 'Ꮎ', .rng 'ꮎ' 'ꮎ'], .cls false [.rng 'Ꮩ' 'Ꮩ', .rng 'ꮩ' 'ꮩ'], .cls false [.rng 'Ꮣ' 'Ꮣ', .rng 'ꮣ' 'ꮣ'], .cls false [.rng 'Ꮖ' 'Ꮖ', .rng 'ꮖ' 'ꮖ'], .cls false [.rng 'Ꮝ' 'Ꮝ', .rng 'ꮝ' 'ꮝ'], .cls false [.rng 'Ꮧ' 'Ꮧ', .rng 'ꮧ' 'ꮧ']], .seqs [.number, .lit [' '], .cls false [.rng 'Ꭲ' 'Ꭲ', .rng 'ꭲ' 'ꭲ'], .cls false [.rng 'Ᏻ' 'Ᏻ', .rng 'ᏻ' 'ᏻ'], .cls false [.rng 'Ꮯ' 'Ꮯ', .rng 'ꮯ' 'ꮯ'], .cls false [.rng 'Ꮆ' 'Ꮆ', .rng 'ꮆ' 'ꮆ'], .cls false [.rng 'Ꮣ' 'Ꮣ', .rng 'ꮣ' 'ꮣ'], .lit [' '], .cls false [.rng 'Ꮵ' 'Ꮵ', .rng 'ꮵ' 'ꮵ'], .cls false [.rng 'Ꭸ' 'Ꭸ', .rng 'ꭸ' 'ꭸ'], .cls false [.rng 'Ꮢ' 'Ꮢ', .rng 'ꮢ' 'ꮢ']], .seqs [.cls false [.rng 'Ꮎ' 'Ꮎ', .rng 'ꮎ' 'ꮎ'], .cls false [.rng 'Ꮏ' 'Ꮏ', .rng 'ꮏ' 'ꮏ'], .lit [' '], .number, .lit [' '], .cls false [.rng 'Ꭴ' 'Ꭴ', .rng 'ꭴ' 'ꭴ'], .cls false [.rng 'Ꮥ' 'Ꮥ', .rng 'ꮥ' 'ꮥ'], .lit [' '], .cls false [.rng 'Ꮵ' 'Ꮵ', .rng 'ꮵ' 'ꮵ'], .cls false [.rng 'Ꭸ' 'Ꭸ', .rng 'ꭸ' 'ꭸ'], .cls false [.rng 'Ꮢ' 'Ꮢ', .rng 'ꮢ' 'ꮢ']], .seqs [.cls false [.rng 'Ꮎ' 'Ꮎ', .rng 'ꮎ' 'ꮎ'], .cls false [.rng 'Ꮏ' 'Ꮏ', .rng 'ꮏ' 'ꮏ'], .lit [' '], .number, .lit [' '], .cls false [.rng 'Ꭷ' 'Ꭷ', .rng 'ꭷ' 'ꭷ'], .cls false [.rng 'Ꮈ' 'Ꮈ', .rng 'ꮈ' 'ꮈ'], .lit [' '], .cls false [.rng 'Ꮵ' 'Ꮵ', .rng 'ꮵ' 'ꮵ'], .cls false [.rng 'Ꭸ' 'Ꭸ', .rng 'ꭸ' 'ꭸ'], .cls false [.rng 'Ꮢ' 'Ꮢ', .rng 'ꮢ' 'ꮢ']], .seqs [.cls false [.rng 'Ꮎ' 'Ꮎ', .rng 'ꮎ' 'ꮎ'], .cls false [.rng 'Ꮏ' 'Ꮏ', .rng 'ꮏ' 'ꮏ'], .lit [' '], .number, .lit [' '], .cls false [.rng 'Ꮡ' 'Ꮡ', .rng 'ꮡ' 'ꮡ'], .cls false [.rng 'Ꮯ' 'Ꮯ', .rng 'ꮯ' 'ꮯ'], .lit [' '], .cls false [.rng 'Ꮵ' 'Ꮵ', .rng 'ꮵ' 'ꮵ'], .cls false [.rng 'Ꭸ' 'Ꭸ', .rng 'ꭸ' 'ꭸ'], .cls false [.rng 'Ꮢ' 'Ꮢ', .rng 'ꮢ' 'ꮢ']], .seqs [.cls false [.rng 'Ꮎ' 'Ꮎ', .rng 'ꮎ' 'ꮎ'], .cls false [.rng 'Ꮏ' 'Ꮏ', .rng 'ꮏ' 'ꮏ'], .lit [' '], .number, .lit [' '], .cls false [.rng 'Ꮢ' 'Ꮢ', .rng 'ꮢ' 'ꮢ'], .cls false [.rng 'Ꮎ' 'Ꮎ', .rng 'ꮎ' 'ꮎ'], .lit [' '], .cls false [.rng 'Ꮵ' 'Ꮵ', .rng 'ꮵ' 'ꮵ'], .cls false [.rng 'Ꭸ' 'Ꭸ', .rng 'ꭸ' 'ꭸ'], .cls false [.rng 'Ꮢ' 'Ꮢ', .rng 'ꮢ' 'ꮢ']], .seqs [.number, .lit [' '], .cls false [.rng 'Ꮡ' 'Ꮡ', .rng 'ꮡ' 'ꮡ'], .cls false [.rng 'Ꮯ' 'Ꮯ', .rng 'ꮯ' 'ꮯ'], .cls false [.rng 'Ꮆ' 'Ꮆ', .rng 'ꮆ' 'ꮆ'], .cls false [.rng 'Ꮣ' 'Ꮣ', .rng 'ꮣ' 'ꮣ'], .lit [' '], .cls false [.rng 'Ꮵ' 'Ꮵ', .rng 'ꮵ' 'ꮵ'], .cls false [.rng 'Ꭸ' 'Ꭸ', .rng 'ꭸ' 'ꭸ'], .cls false [.rng 'Ꮢ' 'Ꮢ', .rng 'ꮢ' 'ꮢ']], .seqs [.cls false [.rng 'Ꮎ' 'Ꮎ', .rng 'ꮎ' 'ꮎ'], .cls false [.rng 'Ꮏ' 'Ꮏ', .rng 'ꮏ' 'ꮏ'], .lit [' '], .number, .lit [' '], .cls false [.rng 'Ꭲ' 'Ꭲ', .rng 'ꭲ' 'ꭲ'], .cls false [.rng 'Ᏻ' 'Ᏻ', .rng 'ᏻ' 'ᏻ'], .cls false [.rng 'Ꮯ' 'Ꮯ', .rng 'ꮯ' 'ꮯ'], .cls false [.rng 'Ꮆ' 'Ꮆ', .rng 'ꮆ' 'ꮆ'], .cls false [.rng 'Ꮣ' 'Ꮣ', .rng 'ꮣ' 'ꮣ']], .seqs [.number, .lit [' '], .cls false [.rng 'Ꭰ' 'Ꭰ', .rng 'ꭰ' 'ꭰ'], .cls false [.rng 'Ꮞ' 'Ꮞ', .rng 'ꮞ' 'ꮞ'], .cls false [.rng 'Ꮲ' 'Ꮲ', .rng 'ꮲ' 'ꮲ'], .lit [' '], .cls false [.rng 'Ꮵ' 'Ꮵ', .rng 'ꮵ' 'ꮵ'], .cls false [.rng 'Ꭸ' 'Ꭸ', .rng 'ꭸ' 'ꭸ'], .cls false [.rng 'Ꮢ' 'Ꮢ', .rng 'ꮢ' 'ꮢ']], .seqs [.cls false [.rng 'Ꮎ' 'Ꮎ', .rng 'ꮎ' 'ꮎ'], .cls false [.rng 'Ꮏ' 'Ꮏ', .rng 'ꮏ' 'ꮏ'], .lit [' '], .number, .lit [' '], .cls false [.rng 'Ꮡ' 'Ꮡ', .rng 'ꮡ' 'ꮡ'], .cls false [.rng 'Ꮯ' 'Ꮯ', .rng 'ꮯ' 'ꮯ'], .cls false [.rng 'Ꮆ' 'Ꮆ', .rng 'ꮆ' 'ꮆ'], .cls false [.rng 'Ꮣ' 'Ꮣ', .rng 'ꮣ' 'ꮣ']], .seqs [.cls false [.rng 'Ꮎ' 'Ꮎ', .rng 'ꮎ' 'ꮎ'], .cls false [.rng 'Ꮏ' 'Ꮏ', .rng 'ꮏ' 'ꮏ'], .lit [' '], .number, .lit [' '], .cls false [.rng 'Ꮧ' 'Ꮧ', .rng 'ꮧ' 'ꮧ'], .cls false [.rng 'Ꭷ' 'Ꭷ', .rng 'ꭷ' 'ꭷ'], .cls false [.rng 'Ꮈ' 'Ꮈ', .rng 'ꮈ' 'ꮈ'], .cls false [.rng 'Ꭲ' 'Ꭲ', .rng 'ꭲ' 'ꭲ']], .seqs [.number, .lit [' '], .cls false [.rng 'Ꭲ' 'Ꭲ', .rng 'ꭲ' 'ꭲ'], .cls false [.rng 'Ꭶ' 'Ꭶ', .rng 'ꭶ' 'ꭶ'], .lit [' '], .cls false [.rng 'Ꮵ' 'Ꮵ', .rng 'ꮵ' 'ꮵ'], .cls false [.rng 'Ꭸ' 'Ꭸ', .rng 'ꭸ' 'ꭸ'], .cls false [.rng 'Ꮢ' 'Ꮢ', .rng 'ꮢ' 'ꮢ']], .seqs [.cls false [.rng 'Ꮎ' 'Ꮎ', .rng 'ꮎ' 'ꮎ'], .cls false [.rng 'Ꮏ' 'Ꮏ', .rng 'ꮏ' 'ꮏ'], .lit [' '], .number, .lit [' '], .cls false [.rng 'Ꭰ' 'Ꭰ', .rng 'ꭰ' 'ꭰ'], .cls false [.rng 'Ꮞ' 'Ꮞ', .rng 'ꮞ' 'ꮞ'], .cls false [.rng 'Ꮲ' 'Ꮲ', .rng 'ꮲ' 'ꮲ']], .seqs [.cls false [.rng 'Ꮎ' 'Ꮎ', .rng 'ꮎ' 'ꮎ'], .cls false [.rng 'Ꮏ' 'Ꮏ', .rng 'ꮏ' 'ꮏ'], .lit [' '], .number, .lit [' '], .cls false [.rng 'Ꭲ' 'Ꭲ', .rng 'ꭲ' 'ꭲ'], .cls false [.rng 'Ꮿ' 'Ꮿ', .rng 'ꮿ' 'ꮿ'], .cls false [.rng 'Ꮤ' 'Ꮤ', .rng 'ꮤ' 'ꮤ']], .seqs [.cls false [.rng 'Ꮎ' 'Ꮎ', .rng 'ꮎ' 'ꮎ'], .cls false [.rng 'Ꮏ' 'Ꮏ', .rng 'ꮏ' 'ꮏ'], .lit [' '], .number, .lit [' '], .cls false [.rng 'Ꭷ' 'Ꭷ', .rng 'ꭷ' 'ꭷ'], .cls false [.rng 'Ꮈ' 'Ꮈ', .rng 'ꮈ' 'ꮈ'], .cls false [.rng 'Ꭲ' 'Ꭲ', .rng 'ꭲ' 'ꭲ']], .seqs [.cls false [.rng 'Ꮎ' 'Ꮎ', .rng 'ꮎ' 'ꮎ'], .cls false [.rng 'Ꮏ' 'Ꮏ', .rng 'ꮏ' 'ꮏ'], .lit [' '], .number, .lit [' '], .cls false [.rng 'Ꭲ' 'Ꭲ', .rng 'ꭲ' 'ꭲ'], .cls false [.rng 'Ꭶ' 'Ꭶ', .rng 'ꭶ' 'ꭶ']], .seqs [.cls false [.rng 'Ꮎ' 'Ꮎ', .rng 'ꮎ' 'ꮎ'], .cls false [.rng 'Ꮏ' 'Ꮏ', .rng 'ꮏ' 'ꮏ'], .lit [' '], .number, .lit [' '], .cls false [.rng 'Ꭴ' 'Ꭴ', .rng 'ꭴ' 'ꭴ'], .cls false [.rng 'Ꮥ' 'Ꮥ', .rng 'ꮥ' 'ꮥ']], .seqs [.cls false [.rng 'Ꮎ' 'Ꮎ', .rng 'ꮎ' 'ꮎ'], .cls false [.rng 'Ꮏ' 'Ꮏ', .rng 'ꮏ' 'ꮏ'], .lit [' '], .number, .lit [' '], .cls false [.rng 'Ꭷ' 'Ꭷ', .rng 'ꭷ' 'ꭷ'], .cls false [.rng 'Ꮈ' 'Ꮈ', .rng 'ꮈ' 'ꮈ']], .seqs [.cls false [.rng 'Ꮎ' 'Ꮎ', .rng 'ꮎ' 'ꮎ'], .cls false [.rng 'Ꮏ' 'Ꮏ', .rng 'ꮏ' 'ꮏ'], .lit [' '], .number, .lit [' '], .cls false [.rng 'Ꮡ' 'Ꮡ', .rng 'ꮡ' 'ꮡ'], .cls false [.rng 'Ꮯ' 'Ꮯ', .rng 'ꮯ' 'ꮯ']], .seqs [.cls false [.rng 'Ꮎ' 'Ꮎ', .rng 'ꮎ' 'ꮎ'], .cls false [.rng 'Ꮏ' 'Ꮏ', .rng 'ꮏ' 'ꮏ'], .lit [' '], .number, .lit [' '], .cls false [.rng 'Ꮢ' 'Ꮢ', .rng 'ꮢ' 'ꮢ'], .cls false [.rng 'Ꮎ' 'Ꮎ', .rng 'ꮎ' 'ꮎ']]]), .eos]),
  knownWords :=
   [['ꭿ', 'ꭰ', ' ', 'ꭲ', 'ꮿ', 'ꮤ', 'ꮼ', 'ꮝ', 'ꮤ', 'ꮕ'], ['ꭿ', 'ꭰ', ' ', 'ꮷ', 'ꮥ', 'ꮨ', 'ᏼ', 'ꮢ', 'ꮨ'], ['ꭴ', 'ꮥ', 'ꮨ', 'ᏼ', 'ꮜ', 'ꮧ', 'ꮢ', 'ꭲ'], ['ꭲ', 'ꮿ', 'ꮤ', 'ꮼ', 'ꮝ', 'ꮤ', 'ꮕ'], ['ꭴ', 'ꮎ', 'ꮩ', 'ꮣ', 'ꮖ', 'ꮝ', 'ꭼ'], ['ꭴ', 'ꮎ', 'ꮩ', 'ꮣ', 'ꮘ', 'ꮥ', 'ꮎ'], ['ꭴ', 'ꮎ', 'ꮩ', 'ꮣ', 'ꮙ', 'ꮕ', 'ꭿ'], ['ꭷ', 'ꮈ', 'ꭲ', ' ', 'ꮵ', 'ꭸ', 'ꮢ'], ['ꭿ', 'ꭰ', ' ', 'ꭰ', 'ꮅ', 'ꮅ', 'ꮜ'], ['ꭿ', 'ꭰ', ' ', 'ꮡ', 'ꮯ', 'ꮆ', 'ꮣ'], ['ꮢ', 'ꮎ', 'ꮩ', 'ꮣ', 'ꮖ', 'ꮝ', 'ꮧ'], ['ꮤ', 'ꮅ', 'ꮑ', ' ', 'ꭷ', 'ꮈ', 'ꭲ'], ['ꮵ', 'ꮫ', 'ꮅ', 'ᏹ', 'ꮅ', 'ꮢ', 'ꭲ'], ['ꭱ', 'ꮨ', ' ', 'ꮵ', 'ꭸ', 'ꮢ'], ['ꭿ', 'ꭰ', ' ', 'ꭷ', 'ꮈ', 'ꭲ'], ['ꮢ', 'ꭿ', 'ᏹ', 'ꭲ', 'ꮧ', 'ꮲ'], ['ꮷ', 'ꮎ', 'ꭹ', 'ꮆ', 'ꮝ', 'ꮧ'], ['ꭰ', 'ꮒ', 'ꮝ', 'ꭼ', 'ꮨ'], ['ꭴ', 'ꮓ', 'ꮈ', 'ꮤ', 'ꮕ'], ['ꭺ', 'ꭿ', ' ', 'ꭲ', 'ꭶ'], ['ꮕ', 'ꭹ', 'ꮑ', 'ꭲ', 'ꭶ'], ['ꮠ', 'ꮖ', 'ꮄ', 'ꮕ', 'ꮂ'], ['ꮤ', 'ꮅ', 'ꮑ', 'ꭲ', 'ꭶ'], ['ꮶ', 'ꭲ', 'ꮑ', 'ꭲ', 'ꭶ'], ['ꭱ', 'ꮨ', 'ᏼ', 'ꭲ'], ['ꭵ', 'ꮝ', 'ꭹ', 'ᏹ'], ['ꭻ', 'ᏸ', 'ꮙ', 'ꮒ'], ['ꮕ', 'ꮣ', 'ꮥ', 'ꮖ'], ['ꮜ', 'ꮎ', 'ꮄ', 'ꭲ'], ['ꮡ', 'ꮯ', 'ꮆ', 'ꮣ'], ['ꮥ', 'ꭽ', 'ꮇ', 'ᏹ'], ['ꮪ', 'ꮅ', 'ꮝ', 'ꮧ'], ['ꮪ', 'ꮒ', 'ꮕ', 'ꮧ'], ['g', 'm', 't'], ['u', 't', 'c'], ['ꭰ', 'ꮕ', 'ᏹ'], ['ꭰ', 'ꮞ', 'ꮲ'], ['ꭲ', 'ꮿ', 'ꮤ'], ['ꭶ', 'ꮆ', 'ꮒ'], ['ꭷ', 'ꭶ', 'ꮅ'], ['ꭷ', 'ꮈ', 'ꭲ'], ['ꭷ', 'ꮼ', 'ꮒ'], ['ꮕ', 'ꭹ', 'ꮑ'], ['ꮖ', 'ꮝ', 'ꭼ'], ['ꮘ', 'ꮥ', 'ꮎ'], ['ꮙ', 'ꮕ', 'ꭿ'], ['ꮜ', 'ꮎ', 'ꮄ'], ['ꮤ', 'ꮅ', 'ꮑ'], ['ꮶ', 'ꭲ', 'ꮑ'], ['ꮷ', 'ꮎ', 'ꭹ'], ['a', 'm'], ['p', 'm'], ['ꭰ', 'ꮒ'], ['ꭰ', 'ꮕ'], ['ꭲ', 'ꭶ'], ['ꭴ', 'ꮓ'], ['ꭴ', 'ꮥ'], ['ꭵ', 'ꮝ'], ['ꭶ', 'ꮆ'], ['ꭷ', 'ꭶ'], ['ꭷ', 'ꮈ'], ['ꭷ', 'ꮼ'], ['ꭻ', 'ᏸ'], ['ꮓ', 'ꮚ'], ['ꮕ', 'ꮣ'], ['ꮡ', 'ꮯ'], ['ꮢ', 'ꭿ'], ['ꮢ', 'ꮎ'], ['ꮥ', 'ꭽ'], ['ꮪ', 'ꮅ'], ['ꮪ', 'ꮒ'], [' '], ['\''], ['+'], [','], ['-'], ['.'], ['/'], [':'], [';'], ['@'], ['['], [']'], ['z'], ['|']] }

end Verif.Data
